import Verif.Examples.Linear
import Verif.Lemmas.Nearby

/-!
# C119: small changes in the data and the models make small changes in the estimate
-/

set_option linter.unusedSectionVars false

namespace StateEstimation
namespace Props

open Matrix Kalman

variable {n m : Nat} {T K X Y : Type} [DecidableEq K] [LinearOrder T] [ExactTime T] {kd : K → Nat}

/-- **C119.** A Kalman filter has been used (any number of in-order calls).  For every tolerance `ε` there is a `δ` such that any
other use, of any model classes, with the same events but initial belief, model matrices, noise covariances, controls and
measurements each within `δ`, ends with an estimate and a covariance within `ε` of the first. -/
theorem C119_continuous {sc : SysClass T LinSysData X} {mc : K → MeasClass T LinMeasData Y}
    (hsc : SysContract LinSysData.Sized sc) (hmc : ∀ j, MeasContract LinMeasData.Sized (mc j))
    (ops : sc.PlainOps) (mops : ∀ j, (mc j).PlainOps) {x0 : Fin n → ℝ} {P0 : Matrix (Fin n) (Fin n) ℝ}
    (h0 : P0.PosSemidef) {f ctl} {evs : List (Event n m)} (hf : Recorded sc mc n m kd x0 P0 f ctl evs)
    (hok : ∀ ev ∈ evs, ev.Ok) :
    ∃ (x : Fin n → ℝ) (P : Matrix (Fin n) (Fin n) ℝ), f.getState = .of x ∧ f.getCovariance = .of P ∧
      ∀ ε : ℝ, 0 < ε → ∃ δ : ℝ, 0 < δ ∧
        ∀ (sc' : SysClass T LinSysData X) (mc' : K → MeasClass T LinMeasData Y) (x0' : Fin n → ℝ)
          (P0' : Matrix (Fin n) (Fin n) ℝ) (evs' : List (Event n m)) (g : Filter T DVec DMat K (Env K LinSysData X LinMeasData Y))
          (ctl' : Fin m → ℝ), SysContract LinSysData.Sized sc' → (∀ j, MeasContract LinMeasData.Sized (mc' j)) →
          sc'.PlainOps → (∀ j, (mc' j).PlainOps) → P0'.PosSemidef → (∀ ev ∈ evs', ev.Ok) →
          Recorded sc' mc' n m kd x0' P0' g ctl' evs' →
          NearVec δ x0 x0' → NearMat δ P0 P0' → List.Forall₂ (Event.Near δ) evs evs' →
          ∃ (x' : Fin n → ℝ) (P' : Matrix (Fin n) (Fin n) ℝ), g.getState = .of x' ∧ g.getCovariance = .of P' ∧
            NearVec ε x x' ∧ NearMat ε P P' := by
  have If := hf.inv hsc hmc ops mops h0 hok
  refine ⟨_, _, If.x, If.cov, fun ε hε => ?_⟩
  obtain ⟨δ, hδ, h⟩ := Nearby.rec_near h0 hok ε hε
  refine ⟨δ, hδ, fun sc' mc' x0' P0' evs' g ctl' hsc' hmc' ops' mops' h0' hok' hg hx hP he => ?_⟩
  have Ig := hg.inv hsc' hmc' ops' mops' h0' hok'
  obtain ⟨h1, h2⟩ := h x0' P0' evs' hx hP he
  exact ⟨_, _, Ig.x, Ig.cov, h1, h2⟩

private theorem pos_same (s : Meas LinMeasData Unit) (x : DVec) (dt : ℝ) (s' : Meas LinMeasData Unit)
    (hs : s.Sized LinMeasData.Sized 2 1) (h : Examples.posClass.myUpdate s x dt = some s') : s'.der.C = .of !![1, 0] := by
  have e : Examples.posClass.myUpdate s x dt =
      if s.stateSize = 2 ∧ s.measDims = 1 then some { s with der := ⟨.of !![1, 0]⟩ } else some s := rfl
  rw [e, if_pos ⟨hs.states, hs.meas⟩] at h
  cases h
  rfl

/-- The hypotheses are met, for every `δ`: two filters given two measurements of the position, those of the second and its first
belief being off by `δ`. -/
example (δ : ℝ) (hδ : 0 < δ) :
    ∃ (f g : Filter ℝ DVec DMat Unit (Env Unit LinSysData Unit LinMeasData Unit)) (l l' : List (Event 2 1)),
    Recorded Examples.cvClass (fun _ => Examples.posClass) 2 1 (fun _ => 1) ![1, 2] 1 f 0 l ∧
    Recorded Examples.cvClass (fun _ => Examples.posClass) 2 1 (fun _ => 1) ![1 + δ, 2] 1 g 0 l' ∧
    NearVec δ ![1, 2] ![1 + δ, 2] ∧ List.Forall₂ (Event.Near δ) l l' ∧ l ≠ l' ∧ (∀ ev ∈ l, ev.Ok) ∧ (∀ ev ∈ l', ev.Ok) ∧
    l.length = 2 := by
  have run : ∀ (x0 : Fin 2 → ℝ) (z z' : Fin 1 → ℝ), ∃ f : Filter ℝ DVec DMat Unit (Env Unit LinSysData Unit LinMeasData Unit),
      Recorded Examples.cvClass (fun _ => Examples.posClass) 2 1 (fun _ => 1) x0 1 f 0
        [.measure !![1, 0] (1 : Matrix (Fin 1) (Fin 1) ℝ) z', .measure !![1, 0] 1 z] := by
    intro x0 z z'
    have sc := Examples.cv_contract
    have mcn : ∀ _ : Unit, MeasContract LinMeasData.Sized Examples.posClass := fun _ => Examples.pos_contract
    have o : Examples.cvClass.PlainOps := Examples.plain_ops _
    have mo : ∀ _ : Unit, Examples.posClass.PlainOps := fun _ => Examples.plain_mops _
    have p0 : (1 : Matrix (Fin 2) (Fin 2) ℝ).PosSemidef := PosSemidef.one
    have r0 : Recorded (T := ℝ) Examples.cvClass (fun _ : Unit => Examples.posClass) 2 1 (fun _ => 1) x0 1
        (Filter.construct (kfPlant Examples.cvClass (fun _ => Examples.posClass))
          {rewindHistory := false, historyWindow := 1, allowPast := false} Examples.cvEnv (.of x0) (.of 1) 0) 0 [] :=
      .start _ _ _ ⟨rfl, rfl, ⟨⟨rfl, rfl⟩, rfl, rfl⟩, ⟨rfl, rfl⟩, ⟨rfl, rfl⟩, ⟨rfl, rfl⟩, ⟨rfl, rfl⟩⟩
        (fun _ => ⟨rfl, rfl, ⟨rfl, rfl⟩, ⟨rfl, rfl⟩⟩) ⟨rfl, fun _ => rfl⟩
    obtain ⟨f1, r1, -⟩ := r0.can_correct_const sc mcn o mo p0 (by intro ev h; cases h) () z 1 PosDef.one !![1, 0] pos_same
    obtain ⟨f2, r2, -⟩ := r1.can_correct_const sc mcn o mo p0
      (by intro ev h; rw [List.mem_singleton.mp h]; exact PosDef.one) () z' 1 PosDef.one !![1, 0] pos_same
    exact ⟨f2, r2⟩
  obtain ⟨f, hf⟩ := run ![1, 2] ![5] ![6]
  obtain ⟨g, hg⟩ := run ![1 + δ, 2] ![5 - δ] ![6]
  have same : ∀ {a b : Nat} (M : Matrix (Fin a) (Fin b) ℝ), NearMat δ M M := fun M i j => by simp [hδ.le]
  have hok : ∀ z z' : Fin 1 → ℝ, ∀ ev ∈ [Event.measure (n := 2) (m := 1) !![1, 0] (1 : Matrix (Fin 1) (Fin 1) ℝ) z',
      .measure !![1, 0] 1 z], ev.Ok := by
    intro z z' ev hev
    rcases List.mem_cons.mp hev with rfl | hev
    · exact PosDef.one
    · rw [List.mem_singleton.mp hev]; exact PosDef.one
  refine ⟨f, g, _, _, hf, hg, ?_, .cons (.measure (same _) (same _) ?_) (.cons (.measure (same _) (same _) ?_) .nil), ?_, hok _ _,
    hok _ _, rfl⟩
  · intro i; fin_cases i <;> simp [abs_of_pos hδ, hδ.le]
  · intro i; simp [hδ.le]
  · intro i; fin_cases i; simp [abs_of_pos hδ]
  · intro h
    simp only [List.cons.injEq, Event.measure.injEq, true_and, and_true] at h
    obtain ⟨-, h⟩ := h
    have := congrFun (eq_of_heq h.2) 0
    simp at this
    linarith

end Props
end StateEstimation
