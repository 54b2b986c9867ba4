import Verif.Props.LateData
import Verif.Lemmas.Ledger

/-!
# C111: the estimate is a function of the data given and not taken back

Rewind mode.  However the data reach the filter (directly, in any order; through the queues, in batches of any size; with
reverts in between after which things are given again, or differently), the estimate is the one obtained by handing over, in
time order, what the user's books (`Ledger`, Spec/Ledger.lean) say was given and not taken back.
-/

set_option linter.unusedSectionVars false

namespace StateEstimation
namespace Props

open Filter

section general
variable {T V M K E : Type} [LinearOrder T] [ExactTime T]

/-- Only the books matter, for data of a kind: after `initialize(x, c, t0)`, any calls (other than changing parameters or
models or initialising again) whose books are clean all along lead to the state, covariance and time that direct calls in
time order lead to (which do not abort); and any two such sequences with the same books at the end agree. -/
structure OnlyBooksMatter (P : Plant T V M K E) (f0 : Filter T V M K E) (kind : Given T V M K → Prop) : Prop where
  inOrder : ∀ sort, IsTimeSort sort → ∀ (x : V) (c : M) (t0 : T) (ops : List (Op T V M K E)), (∀ op ∈ ops, op.IsBooked) →
    (∀ n, ((Ledger.mk t0 [] []).after (ops.take n)).Clean kind f0.params.historyWindow) →
    ∀ g, (f0.init x c t0).run P sort ops = some g →
    ∀ ordered : List (Given T V M K), ordered.Perm ((Ledger.mk t0 [] []).after ops).applied → ordered.Pairwise (fun a b => a.time < b.time) →
    ∃ g', (f0.init x c t0).run P sort (ordered.map Given.call) = some g' ∧
      g.getState = g'.getState ∧ g.getCovariance = g'.getCovariance ∧ g.getStateTime = g'.getStateTime
  same : ∀ sort sort', IsTimeSort sort → IsTimeSort sort' → ∀ (x : V) (c : M) (t0 : T) (ops ops' : List (Op T V M K E)),
    (∀ op ∈ ops ++ ops', op.IsBooked) →
    (∀ n, ((Ledger.mk t0 [] []).after (ops.take n)).Clean kind f0.params.historyWindow) →
    (∀ n, ((Ledger.mk t0 [] []).after (ops'.take n)).Clean kind f0.params.historyWindow) →
    ((Ledger.mk t0 [] []).after ops).applied.Perm ((Ledger.mk t0 [] []).after ops').applied →
    ∀ g g', (f0.init x c t0).run P sort ops = some g → (f0.init x c t0).run P sort' ops' = some g' →
      g.getState = g'.getState ∧ g.getCovariance = g'.getCovariance ∧ g.getStateTime = g'.getStateTime

theorem after_start (L : Ledger T V M K) (ops : List (Op T V M K E)) : (L.after ops).start = L.start := by
  induction ops generalizing L with
  | nil => rfl
  | cons op ops ih =>
    show ((L.note op).after ops).start = L.start
    rw [ih]
    cases op <;> simp only [Ledger.note] <;> split <;> rfl

theorem onlyBooksMatter {P : Plant T V M K E} {G : V → M → E → Prop} {A : FilterInput T V M K → Prop}
    {F : V → M → T → FilterInput T V M K → Option (V × M)} (hF : PureStep P G A F) (R : M)
    (hrc : ∀ pc pcc e, G pc pcc e → P.rc e = R) (f0 : Filter T V M K E)
    (hr : f0.params.rewindHistory = true) (hG : G f0.prevControl f0.prevControlCov f0.env) (kind : Given T V M K → Prop)
    (hkind : ∀ a, kind a → A (a.input P.emptyV R)) : OnlyBooksMatter P f0 kind := by
  have key : ∀ sort, IsTimeSort sort → ∀ (x : V) (c : M) (t0 : T) (ops : List (Op T V M K E)), (∀ op ∈ ops, op.IsBooked) →
      (∀ n, ((Ledger.mk t0 [] []).after (ops.take n)).Clean kind f0.params.historyWindow) →
      ∀ g, (f0.init x c t0).run P sort ops = some g →
      Booked G A F (f0.init x c t0).state P.emptyV R f0.params.historyWindow ((Ledger.mk t0 [] []).after ops) g := by
    intro sort hsort x c t0 ops hops hL g hg
    refine Booked.run hF sort hsort R hrc hkind ops hops ?_ (fun n => (hL n).1) hg
    exact ⟨⟨[], List.Perm.nil, init_holds f0 hr x c t0 hG⟩, rfl, rfl, rfl, rfl⟩
  have sortedInputs : ∀ (x : V) (c : M) (t0 : T) (L : Ledger T V M K) (g : Filter T V M K E) (is),
      L.Clean kind f0.params.historyWindow → is.Perm (L.applied.map (Given.input P.emptyV R)) →
      Holds G A F (f0.init x c t0).state is g → is.Pairwise fun a b => a.timestamp < b.timestamp := by
    intro x c t0 L g is hL hp hh
    have hd : (L.applied.map (Given.input P.emptyV R)).Pairwise fun a b => a.timestamp ≠ b.timestamp := by
      rw [List.pairwise_map]
      refine (List.pairwise_append.mp hL.2).1.imp ?_
      intro a b hab
      rw [Given.input_time, Given.input_time]; exact hab
    have hd' := hp.symm.pairwise hd (fun {a b} hab => Ne.symm hab)
    refine (hh.inputs_sorted.and hd').imp ?_
    rintro a b ⟨h1, h2⟩
    exact lt_of_le_of_ne h1 h2
  constructor
  · intro sort hsort x c t0 ops hops hL g hg ordered hperm hsorted
    have hb := key sort hsort x c t0 ops hops hL g hg
    obtain ⟨is, hp, hh⟩ := hb.holds
    have hLfull : ((Ledger.mk t0 [] []).after ops).Clean kind f0.params.historyWindow := by
      have := hL ops.length
      rwa [List.take_length] at this
    have hord : (ordered.map (Given.input P.emptyV R)).Pairwise fun a b => a.timestamp < b.timestamp := by
      rw [List.pairwise_map]
      refine hsorted.imp ?_
      intro a b hab
      rw [Given.input_time, Given.input_time]; exact hab
    have his : is = ordered.map (Given.input P.emptyV R) :=
      sorted_perm_eq _ _ (hp.trans (hperm.map _).symm) hh.inputs_sorted hord
    have hmem : ∀ a ∈ ordered, kind a ∧ t0 < a.time ∧ TimeOps.sub a.time f0.params.historyWindow ≤ t0 := by
      intro a ha
      have := hLfull.1 a (List.mem_append_left _ (hperm.mem_iff.mp ha))
      rw [after_start] at this
      exact this
    have hsucc : ((f0.init x c t0).run P sort (ordered.map Given.call)).isSome = true := by
      refine inorder_calls hF sort R hrc ordered hr hG (fun j hj => hkind j (hmem j hj).1) hsorted
        (fun j hj => (hmem j hj).2.1) ?_
      rw [← his]; exact hh.pureRun_some
    obtain ⟨g', hg'⟩ := Option.isSome_iff_exists.mp hsucc
    refine ⟨g', hg', ?_⟩
    -- the ordered calls have the same books
    have hbooks : ∀ (l : List (Given T V M K)) (L : Ledger T V M K), L.start = t0 →
        (∀ a ∈ L.applied, ∀ b ∈ l, a.time < b.time) → (∀ b ∈ l, t0 < b.time) → l.Pairwise (fun a b => a.time < b.time) →
        L.after (l.map (Given.call : Given T V M K → Op T V M K E)) = { L with applied := L.applied ++ l } := by
      intro l
      induction l with
      | nil => intro L _ _ _ _; simp [Ledger.after]
      | cons a l ih =>
        intro L h1 h2 h3 h4
        have h4' := List.pairwise_cons.mp h4
        have hn : L.note (a.call : Op T V M K E) = { L with applied := L.applied ++ [a] } := by
          cases a with
          | control u t => rfl
          | reading z R t m => rfl
          | advance t => exact if_pos ⟨by rw [h1]; exact h3 (.advance t) (by simp), fun b hb => h2 b hb (.advance t) (by simp)⟩
        show (L.note (a.call : Op T V M K E)).after (l.map Given.call) = _
        rw [hn, ih { L with applied := L.applied ++ [a] } h1 ?_ (fun b hb => h3 b (by simp [hb])) h4'.2]
        · simp
        · intro b hb d hd
          rcases List.mem_append.mp hb with hb | hb
          · exact h2 b hb d (by simp [hd])
          · rw [List.mem_singleton] at hb; subst hb; exact h4'.1 d hd
    have hb' := key sort hsort x c t0 (ordered.map Given.call) (by
        intro op hop
        obtain ⟨a, _, rfl⟩ := List.mem_map.mp hop
        cases a <;> trivial) (by
        intro n
        rw [← List.map_take, hbooks _ _ rfl (by simp) (fun b hb => (hmem b (List.mem_of_mem_take hb)).2.1)
          (hsorted.sublist (List.take_sublist _ _))]
        refine ⟨fun a ha => hmem a (List.mem_of_mem_take (by simpa using ha)), ?_⟩
        simp only [List.nil_append, List.append_nil]
        exact (hsorted.sublist (List.take_sublist _ _)).imp fun hab => ne_of_lt hab) g' hg'
    rw [hbooks ordered _ rfl (by simp) (fun b hb => (hmem b hb).2.1) hsorted] at hb'
    obtain ⟨is', hp', hh'⟩ := hb'.holds
    have his' : is' = ordered.map (Given.input P.emptyV R) :=
      sorted_perm_eq _ _ (by simpa using hp') hh'.inputs_sorted hord
    rw [his] at hh
    rw [his'] at hh'
    exact hh.same_estimate hh'
  · intro sort sort' hsort hsort' x c t0 ops ops' hops hL hL' hperm g g' hg hg'
    obtain ⟨is, hp, hh⟩ := (key sort hsort x c t0 ops (fun o ho => hops o (by simp [ho])) hL g hg).holds
    obtain ⟨is', hp', hh'⟩ := (key sort' hsort' x c t0 ops' (fun o ho => hops o (by simp [ho])) hL' g' hg').holds
    have hLf := hL' ops'.length
    rw [List.take_length] at hLf
    have h1 : is = is' := sorted_perm_eq _ _ (hp.trans ((hperm.map _).trans hp'.symm)) hh.inputs_sorted
      (sortedInputs x c t0 _ g' is' hLf hp' hh')
    rw [h1] at hh
    exact hh.same_estimate hh'

/-- explicit controls -/
def IsControl (P : Plant T V M K E) (a : Given T V M K) : Prop := ∃ u t, a = .control u t ∧ P.vsize u > 0

/-- readings, predictions, and the one control `pc` (or an empty one) -/
def IsUnderControl (P : Plant T V M K E) (pc : V) (a : Given T V M K) : Prop :=
  (∃ z R t m, a = .reading z R t m) ∨ (∃ t, a = .advance t) ∨ ∃ u t, a = .control u t ∧ (P.vsize u = 0 ∨ u = pc)

/-- The two forms of the claim for one filter: for explicit controls, and (when the control in use, if any, came with the
control covariance the model still has) for readings and predictions under the control in use. -/
structure BooksDecide (P : Plant T V M K E) (f0 : Filter T V M K E) : Prop where
  controls : OnlyBooksMatter P f0 (IsControl P)
  underControl : (P.vsize f0.prevControl > 0 → f0.prevControlCov = P.rc f0.env) →
    OnlyBooksMatter P f0 (IsUnderControl P f0.prevControl)

/-- **C111 (any filter class with memoryless models).** -/
theorem C111_books_decide (P : Plant T V M K E) (eqv : E → E → Prop) (hM : Memoryless P eqv) (hE : P.vsize P.emptyV = 0)
    (f0 : Filter T V M K E) (hr : f0.params.rewindHistory = true) : BooksDecide P f0 where
  controls := by
    refine onlyBooksMatter (hM.pure_controls f0.env) (P.rc f0.env) (fun _ _ e he => (hM.rc _ _ he).symm) f0 hr
      (hM.refl _) _ ?_
    rintro a ⟨u, t, rfl, hu⟩
    exact ⟨rfl, hu, rfl⟩
  underControl hpcc := by
    by_cases hpc : P.vsize f0.prevControl > 0
    · refine onlyBooksMatter (hM.pure_fixed f0.env f0.prevControl f0.prevControlCov hpcc) (P.rc f0.env)
        (fun _ _ e he => (hM.rc _ _ he.2.2).symm) f0 hr ⟨rfl, rfl, hM.refl _⟩ _ ?_
      rintro a (⟨z, R, t, m, rfl⟩ | ⟨t, rfl⟩ | ⟨u, t, rfl, hu⟩)
      · intro h; simp [Given.input] at h
      · intro _; exact Or.inl hE
      · intro _
        rcases hu with hu | hu
        · exact Or.inl hu
        · exact Or.inr ⟨hu, (hpcc hpc).symm⟩
    · refine onlyBooksMatter (hM.pure_fixed f0.env f0.prevControl f0.prevControlCov hpcc) (P.rc f0.env)
        (fun _ _ e he => (hM.rc _ _ he.2.2).symm) f0 hr ⟨rfl, rfl, hM.refl _⟩ _ ?_
      rintro a (⟨z, R, t, m, rfl⟩ | ⟨t, rfl⟩ | ⟨u, t, rfl, hu⟩)
      · intro h; simp [Given.input] at h
      · intro _; exact Or.inl hE
      · intro _
        rcases hu with hu | hu
        · exact Or.inl hu
        · left
          show P.vsize u = 0
          rw [hu]; omega

end general

section filters

variable {T K X Y Gm Gs : Type} [LinearOrder T] [ExactTime T] [DecidableEq K]

/-- **C111 (Kalman filter).** -/
theorem C111_kf {sc : SysClass T LinSysData X} {mc : K → MeasClass T LinMeasData Y} (cfgS : Sys LinSysData X → Gs)
    (hsc : sc.Stateless cfgS) (cfg : K → Meas LinMeasData Y → Gm) (hmc : ∀ k, (mc k).Stateless (cfg k))
    (f0 : Filter T DVec DMat K (Env K LinSysData X LinMeasData Y)) (hr : f0.params.rewindHistory = true) :
    BooksDecide (kfPlant sc mc) f0 := C111_books_decide _ _ (kf_memoryless cfgS hsc cfg hmc) rfl f0 hr

/-- **C111 (Kalman filter with variable states).** -/
theorem C111_kf_vs {sc : SysClass T LinSysData X} {mc : K → MeasClass T LinMeasData Y} (cfgS : Sys LinSysData X → Gs)
    (hsc : sc.Stateless cfgS) (cfg : K → Meas LinMeasData Y → Gm) (hmc : ∀ k, (mc k).Stateless (cfg k))
    (f0 : Filter T DVec DMat K (Env K LinSysData X LinMeasData Y)) (hr : f0.params.rewindHistory = true) :
    BooksDecide (kfvsPlant sc mc) f0 := C111_books_decide _ _ (kfvs_memoryless cfgS hsc cfg hmc) rfl f0 hr

/-- **C111 (EKF).** -/
theorem C111_ekf {sc : SysClass T NonlinSysData X} {mc : K → MeasClass T NonlinMeasData Y} (cfgS : Sys NonlinSysData X → Gs)
    (hsc : sc.Stateless cfgS) (cfg : K → Meas NonlinMeasData Y → Gm) (hmc : ∀ k, (mc k).Stateless (cfg k))
    (f0 : Filter T DVec DMat K (Env K NonlinSysData X NonlinMeasData Y)) (hr : f0.params.rewindHistory = true) :
    BooksDecide (ekfPlant sc mc) f0 := C111_books_decide _ _ (ekf_memoryless cfgS hsc cfg hmc) rfl f0 hr

/-- **C111 (EKF with variable states).** -/
theorem C111_ekf_vs {sc : SysClass T NonlinSysData X} {mc : K → MeasClass T NonlinMeasData Y} (cfgS : Sys NonlinSysData X → Gs)
    (hsc : sc.Stateless cfgS) (cfg : K → Meas NonlinMeasData Y → Gm) (hmc : ∀ k, (mc k).Stateless (cfg k))
    (f0 : Filter T DVec DMat K (Env K NonlinSysData X NonlinMeasData Y)) (hr : f0.params.rewindHistory = true) :
    BooksDecide (ekfvsPlant sc mc) f0 := C111_books_decide _ _ (ekfvs_memoryless cfgS hsc cfg hmc) rfl f0 hr

/-- **C111 (UKF)**, for every factorisation routine and whatever is in uninitialised memory. -/
theorem C111_ukf (llt : DMat → Option DMat) (junk : Nat → Nat → ℝ) {sc : SysClass T NonlinSysData X}
    {mc : K → MeasClass T NonlinMeasData Y} (cfgS : Sys NonlinSysData X → Gs) (hsc : sc.Stateless cfgS)
    (cfg : K → Meas NonlinMeasData Y → Gm) (hmc : ∀ k, (mc k).Stateless (cfg k))
    (f0 : Filter T DVec DMat K (Env K NonlinSysData X NonlinMeasData Y × SigmaParams)) (hr : f0.params.rewindHistory = true) :
    BooksDecide (ukfPlant llt junk sc mc) f0 := C111_books_decide _ _ (ukf_memoryless llt junk cfgS hsc cfg hmc) rfl f0 hr

/-- **C111 (UKF with variable states).** -/
theorem C111_ukf_vs (llt : DMat → Option DMat) (junk : Nat → Nat → ℝ) {sc : SysClass T NonlinSysData X}
    {mc : K → MeasClass T NonlinMeasData Y} (cfgS : Sys NonlinSysData X → Gs) (hsc : sc.Stateless cfgS)
    (cfg : K → Meas NonlinMeasData Y → Gm) (hmc : ∀ k, (mc k).Stateless (cfg k))
    (f0 : Filter T DVec DMat K (Env K NonlinSysData X NonlinMeasData Y × SigmaParams)) (hr : f0.params.rewindHistory = true) :
    BooksDecide (ukfvsPlant llt junk sc mc) f0 := C111_books_decide _ _ (ukfvs_memoryless llt junk cfgS hsc cfg hmc) rfl f0 hr

/-- the six-D rates model with its two sensors is among them -/
example (f0 : Filter ℝ DVec DMat Bool (Env Bool NonlinSysData SixDRates.Flags NonlinMeasData TfData))
    (hr : f0.params.rewindHistory = true) : BooksDecide (ekfPlant SixDRates.cls sixDSensors) f0 :=
  C111_ekf SixDRates.config SixDRates.stateless sixDCfg sixDSensors_stateless f0 hr

end filters

/-! ### A concrete case -/

/-- A reading of time 3; one of time 1 through the queue; a prediction to time 4; a revert to time 2; the reading of time 3
again, with another value, and one of time 2 through the queue with another prediction. -/
def muddle : List (Op ℤ (List ℤ) ℤ Unit ℤ) :=
  [.correct [8] 1 3 (some ()), .enqueueMeasurement [40] 1 1 (some ()), .predictTime 2, .predictTime 4, .processQueues,
    .revertToState 2, .correct [6] 1 3 (some ()), .enqueueMeasurement [100] 1 2 (some ()), .predictTime 4, .processQueues]

/-- what remains of it -/
def tidy : List (Given ℤ (List ℤ) ℤ Unit) :=
  [.reading [40] 1 1 (some ()), .reading [100] 1 2 (some ()), .reading [6] 1 3 (some ()), .advance 4]

theorem muddle_books : ((Ledger.mk 0 [] []).after muddle).applied
    = [.reading [40] 1 1 (some ()), .reading [6] 1 3 (some ()), .advance 4, .reading [100] 1 2 (some ())] := by
  simp [muddle, Ledger.after, Ledger.note, Given.time]

/-- Non-vacuity: C111 applies to the muddle above and gives the (non-trivial) estimate of the tidy calls. -/
example : ∃ g', toyRun (toyRewind.init [0] 0 0) (tidy.map Given.call) = some g' ∧ g'.getState = [33] := by
  have h1 : estimate (toyRun (toyRewind.init [0] 0 0) muddle) = some ([33], 4, 4) := by decide
  simp only [estimate, Option.map_eq_some_iff] at h1
  obtain ⟨g, hg, hv⟩ := h1
  simp only [Prod.mk.injEq] at hv
  obtain ⟨g', h2, h3, _⟩ := ((C111_books_decide toy _ toy_memoryless rfl toyRewind rfl).underControl (by decide)).inOrder insSort
    insSort_isTimeSort [0] 0 0 muddle (by intro op hop; simp only [muddle, List.mem_cons, List.not_mem_nil, or_false] at hop
                                          rcases hop with rfl | rfl | rfl | rfl | rfl | rfl | rfl | rfl | rfl | rfl <;> trivial)
    (by
      have hk : ∀ z R t m, IsUnderControl toy toyRewind.prevControl (.reading z R t m) := fun z R t m => Or.inl ⟨z, R, t, m, rfl⟩
      have ha : ∀ t, IsUnderControl toy toyRewind.prevControl (.advance t) := fun t => Or.inr (Or.inl ⟨t, rfl⟩)
      have hW : toyRewind.params.historyWindow = 100 := rfl
      have hsub : ∀ a b : ℤ, TimeOps.sub a b = a - b := fun _ _ => rfl
      intro n
      rcases n with _ | _ | _ | _ | _ | _ | _ | _ | _ | _ | n <;>
      simp [muddle, Ledger.after, Ledger.note, Given.time, Ledger.Clean, hk, ha, hW, hsub])
    g hg tidy (by
      rw [muddle_books]
      refine List.Perm.cons _ ?_
      exact (List.Perm.swap _ _ _).trans (List.Perm.cons _ (List.Perm.swap _ _ _)))
    (by simp [tidy, Given.time])
  exact ⟨g', h2, by rw [← h3, hv.1]⟩

end Props
end StateEstimation
