import Verif.Lemmas.PlantInv
import Verif.Props.Kalman
import Verif.Model.VS
import Verif.Examples.Quad

/-!
# C78: a sensor's model is changed only by measurements of that sensor
-/

set_option linter.unusedSectionVars false

namespace StateEstimation
namespace Props

open Matrix Examples

variable {T K X Y DS XS DM XM O E : Type} [TimeOps T] [DecidableEq K]

/-! ## Specification -/

/-- Specification: the call `op` does not concern sensor `j`.  Measurements name a sensor other than `j`; the user's own
changes to the models leave that of `j` alone (`same a b`: the model of `j` is the same in `a` and `b`). -/
def NotAbout (j : K) (same : E → E → Prop) : Op T DVec DMat K E → Prop
  | .correct _ _ _ m | .enqueueMeasurement _ _ _ m => ∃ k, m = some k ∧ k ≠ j
  | .userModel g => ∀ e e', g e = some e' → same e e'
  | _ => True

/-! ## Proof -/

/-- What a filter class has to satisfy. -/
structure OnlyOwn (predict : Env K DS XS DM XM → DVec → DMat → DVec → T → Option (DVec × DMat × Env K DS XS DM XM))
    (correct : Env K DS XS DM XM → DVec → DMat → DVec → K → T → Option (DVec × DMat × Env K DS XS DM XM)) : Prop where
  predict : ∀ e x c u dt r, predict e x c u dt = some r → r.2.2.meas = e.meas
  correct : ∀ e x c z k dt r j, correct e x c z k dt = some r → j ≠ k → r.2.2.meas j = e.meas j

theorem setMeas_other (e : Env K DS XS DM XM) {k j : K} (m : Meas DM XM) (h : j ≠ k) : (e.setMeas k m).meas j = e.meas j := by
  unfold Env.setMeas; dsimp only; rw [if_neg h]

theorem optP_false {α : Type} {p : α → Prop} {o : Option α} (h : ∀ a, o = some a → p a) : OptP False p o := by
  cases o with
  | none => exact id
  | some a => exact h a rfl

theorem mkPlantWith_frame (sc : SysClass T DS XS) (mc : K → MeasClass T DM XM)
    {predict : O → Env K DS XS DM XM → DVec → DMat → DVec → T → Option (DVec × DMat × Env K DS XS DM XM)}
    {correct : O → Env K DS XS DM XM → DVec → DMat → DVec → K → T → Option (DVec × DMat × Env K DS XS DM XM)}
    (h : ∀ o, OnlyOwn (predict o) (correct o)) (j : K) (M : Meas DM XM) :
    PlantInv (mkPlantWith sc mc predict correct) False (fun _ _ => True) (fun e => e.1.meas j = M) (fun _ => True)
      (fun _ => True) (fun _ _ k => k ≠ j) where
  empty := rfl
  rc _ _ := trivial
  zero _ _ := trivial
  setRc e c he _ := optP_false fun a ha => by
    obtain ⟨a1, h1, rfl⟩ := Option.map_eq_some_iff.mp ha
    obtain ⟨a2, h2, rfl⟩ := Option.map_eq_some_iff.mp h1
    exact he
  predict e x c u dt he _ _ := optP_false fun a ha => by
    obtain ⟨a1, h1, rfl⟩ := Option.map_eq_some_iff.mp ha
    exact ⟨trivial, (congrFun ((h e.2).predict _ _ _ _ _ _ h1) j).trans he⟩
  sysStationary e x c d he _ _ := optP_false fun a ha => by
    obtain ⟨a1, h1, rfl⟩ := Option.map_eq_some_iff.mp ha
    obtain ⟨a2, h2, rfl⟩ := Option.map_eq_some_iff.mp h1
    exact ⟨he, optP_false fun _ _ => trivial⟩
  setMeasCov e k z c he hk := optP_false fun a ha => by
    obtain ⟨a1, h1, rfl⟩ := Option.map_eq_some_iff.mp ha
    obtain ⟨a2, h2, rfl⟩ := Option.map_eq_some_iff.mp h1
    have h3 : (e.1.setMeas k a2).meas j = M := (setMeas_other _ _ (Ne.symm hk)).trans he
    refine ⟨h3, fun x p dt _ => optP_false fun r hr => ?_, fun x p _ => optP_false fun b hb => ?_⟩
    · obtain ⟨r1, k1, rfl⟩ := Option.map_eq_some_iff.mp hr
      exact ⟨trivial, ((h e.2).correct _ _ _ _ _ _ _ j k1 (Ne.symm hk)).trans h3⟩
    · obtain ⟨b1, k1, rfl⟩ := Option.map_eq_some_iff.mp hb
      obtain ⟨b2, k2, rfl⟩ := Option.map_eq_some_iff.mp k1
      exact ⟨(setMeas_other _ _ (Ne.symm hk)).trans h3, optP_false fun _ _ => trivial⟩

theorem mkPlant_frame (sc : SysClass T DS XS) (mc : K → MeasClass T DM XM)
    {predict : Env K DS XS DM XM → DVec → DMat → DVec → T → Option (DVec × DMat × Env K DS XS DM XM)}
    {correct : Env K DS XS DM XM → DVec → DMat → DVec → K → T → Option (DVec × DMat × Env K DS XS DM XM)}
    (h : OnlyOwn predict correct) (j : K) (M : Meas DM XM) :
    PlantInv (mkPlant sc mc predict correct) False (fun _ _ => True) (fun e => e.meas j = M) (fun _ => True)
      (fun _ => True) (fun _ _ k => k ≠ j) where
  empty := rfl
  rc _ _ := trivial
  zero _ _ := trivial
  setRc e c he _ := optP_false fun a ha => by
    obtain ⟨a2, h2, rfl⟩ := Option.map_eq_some_iff.mp ha
    exact he
  predict e x c u dt he _ _ := optP_false fun a ha => ⟨trivial, (congrFun (h.predict _ _ _ _ _ _ ha) j).trans he⟩
  sysStationary e x c d he _ _ := optP_false fun a ha => by
    obtain ⟨a2, h2, rfl⟩ := Option.map_eq_some_iff.mp ha
    exact ⟨he, optP_false fun _ _ => trivial⟩
  setMeasCov e k z c he hk := optP_false fun a ha => by
    obtain ⟨a2, h2, rfl⟩ := Option.map_eq_some_iff.mp ha
    have h3 : (e.setMeas k a2).meas j = M := (setMeas_other _ _ (Ne.symm hk)).trans he
    refine ⟨h3, fun x p dt _ => optP_false fun r hr => ?_, fun x p _ => optP_false fun b hb => ?_⟩
    · exact ⟨trivial, (h.correct _ _ _ _ _ _ _ j hr (Ne.symm hk)).trans h3⟩
    · obtain ⟨b2, k2, rfl⟩ := Option.map_eq_some_iff.mp hb
      exact ⟨(setMeas_other _ _ (Ne.symm hk)).trans h3, optP_false fun _ _ => trivial⟩

section Classes

/-- Reads the last component of a successful chain. -/
theorem last_of {α β γ Z : Type} {o : Option (α × β × Z)} {r : α × β × Z} {z : γ → Z} {p : Z → Prop}
    (h : OptP False (fun r : α × β × Z => ∃ m, r.2.2 = z m) o) (hr : o = some r) (hp : ∀ m, p (z m)) : p r.2.2 := by
  rw [hr] at h
  obtain ⟨m, hm⟩ := h
  rw [hm]; exact hp m

theorem optP_bind_any {α β : Type} {q : β → Prop} {o : Option α} {f : α → Option β}
    (h : ∀ a, OptP False q (f a)) : OptP False q (o >>= f) := by
  cases o with
  | none => exact id
  | some a => exact h a

/-- Every step of the filters is a chain of partial operations that ends in `some (_, _, back m)`. -/
macro "chain" : tactic => `(tactic| (
  repeat' (first
    | exact ⟨_, rfl⟩
    | refine optP_bind_any fun _ => ?_)))

theorem kf_onlyOwn (sc : SysClass T LinSysData X) (mc : K → MeasClass T LinMeasData Y) :
    OnlyOwn (fun e x cov u dt => kfPredict sc e.sys x cov u dt fun s => { e with sys := s })
      (fun (e : Env K LinSysData X LinMeasData Y) x cov z k dt => kfCorrect sc (mc k) e.sys (e.meas k) x cov z dt (e.setMeas k)) where
  predict e x c u dt r h := by
    refine last_of (z := fun s => { e with sys := s }) (p := fun e' => e'.meas = e.meas) ?_ h fun _ => rfl
    unfold kfPredict
    chain
  correct e x c z k dt r j h hj := by
    refine last_of (z := e.setMeas k) (p := fun e' => e'.meas j = e.meas j) ?_ h fun m => setMeas_other e m hj
    unfold kfCorrect
    chain

theorem ekf_onlyOwn (sc : SysClass T NonlinSysData X) (mc : K → MeasClass T NonlinMeasData Y) :
    OnlyOwn (fun e x cov u dt => ekfPredict sc e.sys x cov u dt fun s => { e with sys := s })
      (fun (e : Env K NonlinSysData X NonlinMeasData Y) x cov z k dt => ekfCorrect sc (mc k) e.sys (e.meas k) x cov z dt (e.setMeas k)) where
  predict e x c u dt r h := by
    refine last_of (z := fun s => { e with sys := s }) (p := fun e' => e'.meas = e.meas) ?_ h fun _ => rfl
    unfold ekfPredict
    chain
  correct e x c z k dt r j h hj := by
    refine last_of (z := e.setMeas k) (p := fun e' => e'.meas j = e.meas j) ?_ h fun m => setMeas_other e m hj
    unfold ekfCorrect
    chain

theorem kfvs_onlyOwn (sc : SysClass T LinSysData X) (mc : K → MeasClass T LinMeasData Y) :
    OnlyOwn (fun e x cov u dt => kfvsPredict sc e.sys x cov u dt fun s => { e with sys := s })
      (fun (e : Env K LinSysData X LinMeasData Y) x cov z k dt => kfvsCorrect sc (mc k) e.sys (e.meas k) x cov z dt (e.setMeas k)) where
  predict e x c u dt r h := by
    refine last_of (z := fun s => { e with sys := s }) (p := fun e' => e'.meas = e.meas) ?_ h fun _ => rfl
    unfold kfvsPredict
    chain
  correct e x c z k dt r j h hj := by
    refine last_of (z := e.setMeas k) (p := fun e' => e'.meas j = e.meas j) ?_ h fun m => setMeas_other e m hj
    unfold kfvsCorrect
    chain

theorem ekfvs_onlyOwn (sc : SysClass T NonlinSysData X) (mc : K → MeasClass T NonlinMeasData Y) :
    OnlyOwn (fun e x cov u dt => ekfvsPredict sc e.sys x cov u dt fun s => { e with sys := s })
      (fun (e : Env K NonlinSysData X NonlinMeasData Y) x cov z k dt => ekfvsCorrect sc (mc k) e.sys (e.meas k) x cov z dt (e.setMeas k)) where
  predict e x c u dt r h := by
    refine last_of (z := fun s => { e with sys := s }) (p := fun e' => e'.meas = e.meas) ?_ h fun _ => rfl
    unfold ekfvsPredict
    chain
  correct e x c z k dt r j h hj := by
    refine last_of (z := e.setMeas k) (p := fun e' => e'.meas j = e.meas j) ?_ h fun m => setMeas_other e m hj
    unfold ekfvsCorrect
    chain

theorem ukf_onlyOwn (llt : DMat → Option DMat) (junk : Nat → Nat → ℝ) (sc : SysClass T NonlinSysData X) (mc : K → MeasClass T NonlinMeasData Y) (sp : SigmaParams) :
    OnlyOwn (fun e x cov u dt => ukfPredict llt junk sc sp e.sys x cov u dt fun s => { e with sys := s })
      (fun (e : Env K NonlinSysData X NonlinMeasData Y) x cov z k dt => ukfCorrect llt junk sc (mc k) sp e.sys (e.meas k) x cov z dt (e.setMeas k)) where
  predict e x c u dt r h := by
    refine last_of (z := fun s => { e with sys := s }) (p := fun e' => e'.meas = e.meas) ?_ h fun _ => rfl
    unfold ukfPredict
    chain
  correct e x c z k dt r j h hj := by
    refine last_of (z := e.setMeas k) (p := fun e' => e'.meas j = e.meas j) ?_ h fun m => setMeas_other e m hj
    unfold ukfCorrect
    chain

theorem ukfvs_onlyOwn (llt : DMat → Option DMat) (junk : Nat → Nat → ℝ) (sc : SysClass T NonlinSysData X) (mc : K → MeasClass T NonlinMeasData Y) (sp : SigmaParams) :
    OnlyOwn (fun e x cov u dt => ukfvsPredict llt junk sc sp e.sys x cov u dt fun s => { e with sys := s })
      (fun (e : Env K NonlinSysData X NonlinMeasData Y) x cov z k dt => ukfvsCorrect llt junk sc (mc k) sp e.sys (e.meas k) x cov z dt (e.setMeas k)) where
  predict e x c u dt r h := by
    refine last_of (z := fun s => { e with sys := s }) (p := fun e' => e'.meas = e.meas) ?_ h fun _ => rfl
    unfold ukfvsPredict
    chain
  correct e x c z k dt r j h hj := by
    refine last_of (z := e.setMeas k) (p := fun e' => e'.meas j = e.meas j) ?_ h fun m => setMeas_other e m hj
    unfold ukfvsCorrect
    chain

end Classes

section Main
variable [SaneTime T]

theorem frame_run {P : Plant T DVec DMat K E} {at_ : E → Meas DM XM} {j : K}
    (hP : ∀ M, PlantInv P False (fun _ _ => True) (fun e => at_ e = M) (fun _ => True) (fun _ => True) (fun _ _ k => k ≠ j))
    (sort : List (FilterInput T DVec DMat K) → List (FilterInput T DVec DMat K)) (hsort : ∀ l, (sort l).Perm l)
    (f : Filter T DVec DMat K E) (x : DVec) (c : DMat) (t : T) (ops : List (Op T DVec DMat K E))
    (hops : ∀ op ∈ ops, NotAbout j (fun e e' => at_ e' = at_ e) op) (g : Filter T DVec DMat K E)
    (hg : (f.init x c t).run P sort ops = some g) : at_ g.env = at_ f.env := by
  have h := (hP (at_ f.env)).run sort hsort f rfl (fun _ => ⟨trivial, trivial⟩) x c t trivial ops ?_
  · rw [hg] at h; exact h.2
  · intro op hop
    have := hops op hop
    cases op with
    | init x c t => trivial
    | predictTime t => trivial
    | predictControl u t => exact fun _ => trivial
    | correct z c t m => exact this
    | enqueueControl u t => exact fun _ => trivial
    | enqueueMeasurement z c t m => exact this
    | processQueues => trivial
    | clearControlQueue => trivial
    | clearMeasurementQueue => trivial
    | revertToState t => trivial
    | setParams p => trivial
    | userModel g => exact fun e he => optP_false fun e' he' => (this e e' he').trans he

/-- **C78 (kalman_filter).**  From any initialization on, whatever sequence of calls is made — rewinding, queues and rejected
inputs included — the model of a sensor of which no measurement is passed is exactly what it was. -/
theorem C78_other_sensors_kf (sc : SysClass T LinSysData X) (mc : K → MeasClass T LinMeasData Y)
    (sort : List (FilterInput T DVec DMat K) → List (FilterInput T DVec DMat K)) (hsort : ∀ l, (sort l).Perm l)
    (f : Filter T DVec DMat K (Env K LinSysData X LinMeasData Y)) (x : DVec) (c : DMat) (t : T) (j : K)
    (ops : List (Op T DVec DMat K (Env K LinSysData X LinMeasData Y)))
    (hops : ∀ op ∈ ops, NotAbout j (fun e e' => e'.meas j = e.meas j) op)
    (g : Filter T DVec DMat K (Env K LinSysData X LinMeasData Y)) (hg : (f.init x c t).run (kfPlant sc mc) sort ops = some g) :
    g.env.meas j = f.env.meas j :=
  frame_run (at_ := fun e => e.meas j) (fun M => mkPlant_frame sc mc (kf_onlyOwn sc mc) j M) sort hsort f x c t ops hops g hg

/-- **C78 (ekf).** -/
theorem C78_other_sensors_ekf (sc : SysClass T NonlinSysData X) (mc : K → MeasClass T NonlinMeasData Y)
    (sort : List (FilterInput T DVec DMat K) → List (FilterInput T DVec DMat K)) (hsort : ∀ l, (sort l).Perm l)
    (f : Filter T DVec DMat K (Env K NonlinSysData X NonlinMeasData Y)) (x : DVec) (c : DMat) (t : T) (j : K)
    (ops : List (Op T DVec DMat K (Env K NonlinSysData X NonlinMeasData Y)))
    (hops : ∀ op ∈ ops, NotAbout j (fun e e' => e'.meas j = e.meas j) op)
    (g : Filter T DVec DMat K (Env K NonlinSysData X NonlinMeasData Y)) (hg : (f.init x c t).run (ekfPlant sc mc) sort ops = some g) :
    g.env.meas j = f.env.meas j :=
  frame_run (at_ := fun e => e.meas j) (fun M => mkPlant_frame sc mc (ekf_onlyOwn sc mc) j M) sort hsort f x c t ops hops g hg

/-- **C78 (kalman_filter_vs).** -/
theorem C78_other_sensors_kfvs (sc : SysClass T LinSysData X) (mc : K → MeasClass T LinMeasData Y)
    (sort : List (FilterInput T DVec DMat K) → List (FilterInput T DVec DMat K)) (hsort : ∀ l, (sort l).Perm l)
    (f : Filter T DVec DMat K (Env K LinSysData X LinMeasData Y)) (x : DVec) (c : DMat) (t : T) (j : K)
    (ops : List (Op T DVec DMat K (Env K LinSysData X LinMeasData Y)))
    (hops : ∀ op ∈ ops, NotAbout j (fun e e' => e'.meas j = e.meas j) op)
    (g : Filter T DVec DMat K (Env K LinSysData X LinMeasData Y)) (hg : (f.init x c t).run (kfvsPlant sc mc) sort ops = some g) :
    g.env.meas j = f.env.meas j :=
  frame_run (at_ := fun e => e.meas j) (fun M => mkPlant_frame sc mc (kfvs_onlyOwn sc mc) j M) sort hsort f x c t ops hops g hg

/-- **C78 (ekf_vs).** -/
theorem C78_other_sensors_ekfvs (sc : SysClass T NonlinSysData X) (mc : K → MeasClass T NonlinMeasData Y)
    (sort : List (FilterInput T DVec DMat K) → List (FilterInput T DVec DMat K)) (hsort : ∀ l, (sort l).Perm l)
    (f : Filter T DVec DMat K (Env K NonlinSysData X NonlinMeasData Y)) (x : DVec) (c : DMat) (t : T) (j : K)
    (ops : List (Op T DVec DMat K (Env K NonlinSysData X NonlinMeasData Y)))
    (hops : ∀ op ∈ ops, NotAbout j (fun e e' => e'.meas j = e.meas j) op)
    (g : Filter T DVec DMat K (Env K NonlinSysData X NonlinMeasData Y)) (hg : (f.init x c t).run (ekfvsPlant sc mc) sort ops = some g) :
    g.env.meas j = f.env.meas j :=
  frame_run (at_ := fun e => e.meas j) (fun M => mkPlant_frame sc mc (ekfvs_onlyOwn sc mc) j M) sort hsort f x c t ops hops g hg

/-- **C78 (ukf).** -/
theorem C78_other_sensors_ukf (llt : DMat → Option DMat) (junk : Nat → Nat → ℝ) (sc : SysClass T NonlinSysData X) (mc : K → MeasClass T NonlinMeasData Y)
    (sort : List (FilterInput T DVec DMat K) → List (FilterInput T DVec DMat K)) (hsort : ∀ l, (sort l).Perm l)
    (f : Filter T DVec DMat K (Env K NonlinSysData X NonlinMeasData Y × SigmaParams)) (x : DVec) (c : DMat) (t : T) (j : K)
    (ops : List (Op T DVec DMat K (Env K NonlinSysData X NonlinMeasData Y × SigmaParams)))
    (hops : ∀ op ∈ ops, NotAbout j (fun e e' => e'.1.meas j = e.1.meas j) op)
    (g : Filter T DVec DMat K (Env K NonlinSysData X NonlinMeasData Y × SigmaParams)) (hg : (f.init x c t).run (ukfPlant llt junk sc mc) sort ops = some g) :
    g.env.1.meas j = f.env.1.meas j :=
  frame_run (at_ := fun e => e.1.meas j) (fun M => mkPlantWith_frame sc mc (fun sp => ukf_onlyOwn llt junk sc mc sp) j M) sort hsort f x c t ops hops g hg

/-- **C78 (ukf_vs).** -/
theorem C78_other_sensors_ukfvs (llt : DMat → Option DMat) (junk : Nat → Nat → ℝ) (sc : SysClass T NonlinSysData X) (mc : K → MeasClass T NonlinMeasData Y)
    (sort : List (FilterInput T DVec DMat K) → List (FilterInput T DVec DMat K)) (hsort : ∀ l, (sort l).Perm l)
    (f : Filter T DVec DMat K (Env K NonlinSysData X NonlinMeasData Y × SigmaParams)) (x : DVec) (c : DMat) (t : T) (j : K)
    (ops : List (Op T DVec DMat K (Env K NonlinSysData X NonlinMeasData Y × SigmaParams)))
    (hops : ∀ op ∈ ops, NotAbout j (fun e e' => e'.1.meas j = e.1.meas j) op)
    (g : Filter T DVec DMat K (Env K NonlinSysData X NonlinMeasData Y × SigmaParams)) (hg : (f.init x c t).run (ukfvsPlant llt junk sc mc) sort ops = some g) :
    g.env.1.meas j = f.env.1.meas j :=
  frame_run (at_ := fun e => e.1.meas j) (fun M => mkPlantWith_frame sc mc (fun sp => ukfvs_onlyOwn llt junk sc mc sp) j M) sort hsort f x c t ops hops g hg

/-! ### Example: of two sensors, only one is used -/

example : ∃ g, (fullFilter.init (.const 2 3) (.identity 2) 0).run (kfPlant cvClass fun _ => fullClass) id
      [.correct (.const 2 7) (.zero 2 2) 0 (some true)] = some g ∧
    g.getState = .const 2 7 ∧ g.env.meas false = fullFilter.env.meas false := by
  obtain ⟨g, h1, h2, h3⟩ := C31_perfect_measurement cv_contract (fun _ => full_contract) (plain_ops _) (fun _ => plain_mops _)
    (fullFilter.init (.const 2 3) (.identity 2) 0) true fullEnv_ok.sys (fullEnv_ok.meas true) (x := fun _ => 3) (P := 1) rfl rfl
    PosDef.one (fun _ => 7) (fun s x dt s' hs h => full_C s x dt s' hs h) rfl
  have hrun : (fullFilter.init (.const 2 3) (.identity 2) 0).run (kfPlant cvClass fun _ => fullClass) id
      [.correct (.const 2 7) (.zero 2 2) 0 (some true)] = some g := by
    have hstep : (fullFilter.init (.const 2 3) (.identity 2) 0).step (kfPlant cvClass fun _ => fullClass) id
      (.correct (.const 2 7) (.zero 2 2) 0 (some true)) = some g := h1
    rw [Filter.run, hstep]; rfl
  refine ⟨g, hrun, h2, ?_⟩
  · refine C78_other_sensors_kf cvClass (fun _ => fullClass) id (fun _ => List.Perm.refl _) fullFilter _ _ 0 false _ ?_ g hrun
    intro op hop
    rw [List.mem_singleton.mp hop]
    exact ⟨true, rfl, by decide⟩

end Main

end Props
end StateEstimation
