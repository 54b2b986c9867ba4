import Verif.Lemmas.Uninit
import Verif.Lemmas.Sigma
import Verif.Model.SixD
import Verif.Examples.Leaky
import Verif.Props.VSPitfalls

/-!
# C96: results do not depend on uninitialised memory

`UKF` and `UKFVS` allocate their sigma point matrices uninitialised in every prediction and correction.
-/

set_option linter.unusedSectionVars false

namespace StateEstimation
namespace Props

open Filter Examples

variable {T K X Y : Type} [DecidableEq K] [TimeOps T] [SaneTime T]

private theorem run_junk {E : Type} {P Q : Plant T DVec DMat K E} {G : E → Prop}
    (h : PlantSim P Q False (fun _ _ => True) (fun e e' => e = e' ∧ G e) (fun _ => True) (fun _ => True) (fun _ _ _ => True))
    (hM : P.emptyM = Q.emptyM)
    (sort : List (FilterInput T DVec DMat K) → List (FilterInput T DVec DMat K)) (hsort : ∀ l, (sort l).Perm l)
    (params : Params T) (e : E) (he : G e) (x : DVec) (c : DMat) (t : T) (ops : List (Op T DVec DMat K E))
    (hops : ∀ op ∈ ops, op.NamesSensor ∧ op.ChangesOnly (Keeps G)) :
    SameResult ((construct P params e x c t).run P sort ops) ((construct Q params e x c t).run Q sort ops) := by
  have h0 : h.sim.RF (construct P params e x c t) (construct Q params e x c t) := by
    refine SimRel.RF.init (R := h.sim)
      (f := { params := params, state := (construct P params e x c t).state, history := [], prevControl := P.emptyV,
              prevControlCov := P.emptyM, controlQueue := [], measQueue := [], env := e })
      (g := { params := params, state := (construct Q params e x c t).state, history := [], prevControl := Q.emptyV,
              prevControlCov := Q.emptyM, controlQueue := [], measQueue := [], env := e }) rfl ⟨h.emptyV, hM, ⟨rfl, he⟩, fun hv => ?_⟩ ⟨rfl, rfl, trivial⟩ t
    exact absurd hv (by show ¬ P.vsize P.emptyV > 0; rw [h.empty]; exact Nat.lt_irrefl 0)
  have hop : ∀ op ∈ ops, OpSame P False (fun _ _ => True) (fun e e' => e = e' ∧ G e) (fun _ => True) (fun _ _ _ => True) op op := by
    intro op hop
    obtain ⟨h1, h2⟩ := hops op hop
    cases op with
    | init x c t => exact ⟨rfl, rfl, rfl, trivial⟩
    | predictTime t => exact rfl
    | predictControl u t => exact ⟨rfl, rfl, fun _ => trivial⟩
    | correct z c t m => exact ⟨rfl, rfl, rfl, rfl, _, (Option.some_get h1).symm, trivial⟩
    | enqueueControl u t => exact ⟨rfl, rfl, fun _ => trivial⟩
    | enqueueMeasurement z c t m => exact ⟨rfl, rfl, rfl, rfl, _, (Option.some_get h1).symm, trivial⟩
    | processQueues => trivial
    | clearControlQueue => trivial
    | clearMeasurementQueue => trivial
    | revertToState t => exact rfl
    | setParams p => exact rfl
    | userModel g =>
      rintro e _ ⟨rfl, he⟩
      exact OptRel.self _ fun a ha => ⟨rfl, h2 e a he ha⟩
  have := SimRel.RF.run (R := h.sim) (sort := sort) (sort' := sort) (h.hsort sort hsort) (ops := ops) (ops' := ops)
    (List.forall₂_same.mpr fun op hm => h.rop (hop op hm)) h0
  revert this
  generalize (construct P params e x c t).run P sort ops = a
  generalize (construct Q params e x c t).run Q sort ops = b
  intro hab
  cases a <;> cases b
  · trivial
  · exact hab
  · exact hab
  · exact sameEstimates_of_RF h hab

theorem setSigma_num {n d : Nat} {a k b : ℝ} {sp : SigmaParams} (h : setSigma n d a k b = some sp) : sp.num = 2 * d + 1 := by
  unfold setSigma at h
  dsimp only at h
  split at h
  · cases h
  · simp only [Option.bind_eq_bind, Option.bind_eq_some_iff] at h
    obtain ⟨_, _, _, _, _, _, h⟩ := h
    injection h with h
    rw [← h]

section
variable (sort : List (FilterInput T DVec DMat K) → List (FilterInput T DVec DMat K)) (hsort : ∀ l, (sort l).Perm l)
  (sc : SysClass T NonlinSysData X) (mc : K → MeasClass T NonlinMeasData Y) (hk : sc.KeepsModel)
  (llt : DMat → Option DMat) (params : Params T) (e : Env K NonlinSysData X NonlinMeasData Y) (sp : SigmaParams)
  (x : DVec) (c : DMat) (t : T)
  (ops : List (Op T DVec DMat K (Env K NonlinSysData X NonlinMeasData Y × SigmaParams)))
include hsort hk

/-- **C96 (UKF).**  From a filter as its constructors make it, after any calls in any mode, the estimates are the same
whatever uninitialised memory holds, and whether a call aborts is the same too.  Between the calls the user may change the
models and sigma point parameters in every way that keeps the number of sigma points right (`FitsStates`). -/
theorem C96_ukf (hsp : ukfInitSigma e = some sp) (hops : ∀ op ∈ ops, op.NamesSensor ∧ op.ChangesOnly (Keeps FitsStates))
    (junk junk' : Nat → Nat → ℝ) :
    SameResult ((construct (ukfPlant llt junk sc mc) params (e, sp) x c t).run (ukfPlant llt junk sc mc) sort ops)
      ((construct (ukfPlant llt junk' sc mc) params (e, sp) x c t).run (ukfPlant llt junk' sc mc) sort ops) := by
  have he : FitsStates (e, sp) := setSigma_num (n := e.sys.der.g.size) hsp
  have h := ukf_junk (mc := mc) hk llt junk junk'
  exact run_junk h rfl sort hsort params (e, sp) he x c t ops hops

/-- **C96 (UKFVS).**  The same, while the number of sigma points fits the active states (`FitsActive`): a change of the active
states must be followed by `setSigmaPointParameters` before the next call (see `C96_ukfvs_needs_parameters`). -/
theorem C96_ukfvs (hsp : ukfvsInitSigma e = some sp) (hops : ∀ op ∈ ops, op.NamesSensor ∧ op.ChangesOnly (Keeps FitsActive))
    (junk junk' : Nat → Nat → ℝ) :
    SameResult ((construct (ukfvsPlant llt junk sc mc) params (e, sp) x c t).run (ukfvsPlant llt junk sc mc) sort ops)
      ((construct (ukfvsPlant llt junk' sc mc) params (e, sp) x c t).run (ukfvsPlant llt junk' sc mc) sort ops) := by
  have he : FitsActive (e, sp) := setSigma_num (n := e.sys.activeStateSize) hsp
  have h := ukfvs_junk (mc := mc) hk llt junk junk'
  exact run_junk h rfl sort hsort params (e, sp) he x c t ops hops

end

section user
variable {DM XM : Type}

/-- `setSigmaPointParameters` of the UKF may be called at any time, -/
theorem C96_setSigma (a k b : ℝ) :
    Keeps (FitsStates (K := K) (DM := DM) (XM := XM)) (ukfSetSigma (X := X) a k b) := by
  intro e e' _ h
  obtain ⟨sp, hsp, rfl⟩ := Option.map_eq_some_iff.mp h
  exact setSigma_num hsp

/-- `setActiveStates`, too, -/
theorem C96_setActive (l : List Nat) :
    Keeps (FitsStates (K := K) (DS := NonlinSysData) (XS := X) (DM := DM) (XM := XM))
      (fun e => some ({ e.1 with sys := e.1.sys.setActiveStates l }, e.2)) := by
  intro e e' h h'
  injection h' with h'
  subst h'
  exact h

/-- and for UKFVS, `setActiveStates` followed by `setSigmaPointParameters`. -/
theorem C96_setActive_then_setSigma (l : List Nat) (a k b : ℝ) :
    Keeps (FitsActive (K := K) (DM := DM) (XM := XM))
      (fun e => ukfvsSetSigma (X := X) a k b ({ e.1 with sys := e.1.sys.setActiveStates l }, e.2)) := by
  intro e e' _ h
  obtain ⟨sp, hsp, rfl⟩ := Option.map_eq_some_iff.mp h
  exact setSigma_num hsp

end user

/-- Classes of /repo: `SixDRates` leaves its configuration alone, -/
theorem C96_sixD : SixDRates.cls.KeepsModel where
  update s x u dt s' h := by
    unfold SixDRates.cls at h
    dsimp only at h
    split at h
    · unfold SixDRates.myUpdate at h
      obtain ⟨_, _, h⟩ := Option.bind_eq_some_iff.mp h
      have key : ∀ (a b : Option DMat) (f : DMat → DMat → SixDRates.Obj), (∀ a b, (f a b).fm = s.fm) →
          (a.bind fun G => b.bind fun P => some (f G P)) = some s' → s'.fm = s.fm := by
        intro a b f hf h
        obtain ⟨_, _, h⟩ := Option.bind_eq_some_iff.mp h
        obtain ⟨_, _, h⟩ := Option.bind_eq_some_iff.mp h
        injection h with h
        rw [← h]; exact hf _ _
      by_cases h1 : s.ext.computeJacobian = true <;> by_cases h2 : s.ext.updateCovariance = true <;>
        simp only [h1, h2, if_true, if_false, Bool.false_eq_true] at h <;>
        exact key _ _ (fun G P => { s with der := ⟨_, G⟩, P := P }) (fun _ _ => rfl) h
    · injection h with h
      rw [h]
  stationary s x u s' h := by
    injection h with h
    rw [h]

/-- and so do classes written by users, e.g. the leaky integrator of the examples. -/
theorem C96_leaky (b : ℝ) : (leakyClass b).KeepsModel where
  update s x u dt s' h := by
    change (if _ then _ else _) = _ at h
    split at h
    · injection h with h
      rw [← h]
    · injection h with h
      rw [h]
  stationary s x u s' h := by
    injection h with h
    rw [h]

/-- The hypotheses are met: a UKF for the leaky integrator, late measurements and changed sigma point parameters included. -/
example (llt : DMat → Option DMat) (params : Params ℝ)
    (sort : List (FilterInput ℝ DVec DMat Unit) → List (FilterInput ℝ DVec DMat Unit)) (hsort : IsTimeSort sort) :
    ∃ sp, ukfInitSigma (K := Unit) ⟨Sys.constructNonlinear 1 1 1 (), fun _ => Meas.constructNonlinear 1 1 ()⟩ = some sp ∧
      ∀ junk junk' : Nat → Nat → ℝ,
        let P := ukfPlant llt junk (leakyClass 0) fun _ => rulerClass 0
        let Q := ukfPlant llt junk' (leakyClass 0) fun _ => rulerClass 0
        let e := (⟨Sys.constructNonlinear 1 1 1 (), fun _ => Meas.constructNonlinear 1 1 ()⟩, sp)
        let ops : List (Op ℝ DVec DMat Unit _) := [.predictControl (vec1 1) 1, .userModel (ukfSetSigma 1 2 2),
          .correct (vec1 3) (mat1 1) 2 (some ()), .correct (vec1 4) (mat1 1) 1 (some ())]
        SameResult ((construct P params e (vec1 0) (mat1 1) 0).run P sort ops)
          ((construct Q params e (vec1 0) (mat1 1) 0).run Q sort ops) := by
  obtain ⟨sp, hsp⟩ : ∃ sp, ukfInitSigma (K := Unit) ⟨Sys.constructNonlinear 1 1 1 (), fun _ => Meas.constructNonlinear 1 1 ()⟩
      = some sp := by
    have : ((1 : ℕ) : ℝ) + (0.001 ^ 2 * (((1 : ℕ) : ℝ) + 0) - ((1 : ℕ) : ℝ)) ≠ 0 := by norm_num
    show ∃ sp, setSigma 1 1 0.001 0 2 = some sp
    unfold setSigma
    simp only [this, if_false]
    exact ⟨_, rfl⟩
  refine ⟨sp, hsp, fun junk junk' => ?_⟩
  refine C96_ukf sort (fun l => (hsort l).1) _ _ (C96_leaky 0) llt params _ sp _ _ _ _ hsp ?_ junk junk'
  intro op hop
  simp only [List.mem_cons, List.not_mem_nil, or_false] at hop
  rcases hop with rfl | rfl | rfl | rfl
  · exact ⟨trivial, trivial⟩
  · exact ⟨trivial, C96_setSigma 1 2 2⟩
  · exact ⟨rfl, trivial⟩
  · exact ⟨rfl, trivial⟩

/-- **UKFVS: why the parameters must be set again.**  Two states, then `setActiveStates({0})` without
`setSigmaPointParameters`: two contents of uninitialised memory give two different predictions.  (From
`C67_refuted_fewer_states`.) -/
theorem C96_ukfvs_needs_parameters (llt : DMat → Option DMat)
    (hllt : ∀ (n : Nat) (M : Matrix (Fin n) (Fin n) ℝ), ∃ L : Matrix (Fin n) (Fin n) ℝ, llt (.of M) = some (.of L)) :
    ∃ (sp : SigmaParams) (junk junk' : Nat → Nat → ℝ), ukfvsInitSigma resetEnv = some sp ∧
      ¬ SameResult ((resetFilter llt junk sp).predictControl (ukfvsPlant llt junk resetClass fun _ => blindClass) (vec1 0) 1)
        ((resetFilter llt junk' sp).predictControl (ukfvsPlant llt junk' resetClass fun _ => blindClass) (vec1 0) 1) := by
  obtain ⟨sp, g, h1, h2, h3⟩ := C67_refuted_fewer_states llt hllt 0
  obtain ⟨sp', g', h1', h2', h3'⟩ := C67_refuted_fewer_states llt hllt 1
  rw [h1] at h1'
  injection h1' with h1'
  subst h1'
  refine ⟨sp, fun _ _ => 0, fun _ _ => 1, h1, ?_⟩
  rw [h2, h2']
  rintro ⟨h, -⟩
  rw [h3, h3', DVec.of_inj] at h
  have := congrFun h 0
  norm_num at this

end Props
end StateEstimation
