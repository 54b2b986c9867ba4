import Verif.Examples.Linear
import Verif.Lemmas.History

/-!
# C88: the Kalman filter's estimates superpose
-/

set_option linter.unusedSectionVars false

namespace StateEstimation
namespace Props

open Matrix Kalman

variable {n m : Nat}

private theorem rec_mix {x0 x0' : Fin n → ℝ} {P0 : Matrix (Fin n) (Fin n) ℝ} {a b : ℝ} {l l' l'' : List (Event n m)}
    (h : Mixed a b l l' l'') : (kalmanRec x0 P0 l).2 = (kalmanRec x0' P0 l').2 ∧
      (kalmanRec (a • x0 + b • x0') P0 l'').2 = (kalmanRec x0 P0 l).2 ∧
      (kalmanRec (a • x0 + b • x0') P0 l'').1 = a • (kalmanRec x0 P0 l).1 + b • (kalmanRec x0' P0 l').1 := by
  induction h with
  | nil => exact ⟨rfl, rfl, rfl⟩
  | cons he _ ih =>
    obtain ⟨i1, i2, i3⟩ := ih
    cases he with
    | move A B W V Rp Rc u u' =>
      simp only [kalmanRec]
      refine ⟨by rw [i1], by rw [i2], ?_⟩
      rw [i3]
      simp only [Matrix.mulVec_add, Matrix.mulVec_smul, smul_add]
      abel
    | measure C R z z' =>
      simp only [kalmanRec]
      refine ⟨by rw [i1], by rw [i2], ?_⟩
      rw [i3, i2, i1]
      unfold postState
      simp only [Matrix.mulVec_add, Matrix.mulVec_smul, Matrix.mulVec_sub, smul_add, smul_sub]
      abel

variable {T K X Y : Type} [DecidableEq K] [LinearOrder T] [ExactTime T] {kd : K → Nat}

/-- **C88.** Three uses of a Kalman filter (any numbers of in-order calls) with the same model matrices and covariances, the
first two with any data, the third with `a` times the data of the first plus `b` times the data of the second (initial state,
controls, measurements): the third estimate is `a` times the first plus `b` times the second, and all three covariances
agree.  In particular a common offset or gain error of all sensors shows up in the estimate unchanged. -/
theorem C88_superposition {sc : SysClass T LinSysData X} {mc : K → MeasClass T LinMeasData Y}
    (hsc : SysContract LinSysData.Sized sc) (hmc : ∀ j, MeasContract LinMeasData.Sized (mc j))
    (ops : sc.PlainOps) (mops : ∀ j, (mc j).PlainOps) {x0 x0' : Fin n → ℝ} {P0 : Matrix (Fin n) (Fin n) ℝ}
    (h0 : P0.PosSemidef) {a b : ℝ} {f g h ctl ctl' ctl''} {evs evs' evs'' : List (Event n m)}
    (hf : Recorded sc mc n m kd x0 P0 f ctl evs) (hg : Recorded sc mc n m kd x0' P0 g ctl' evs')
    (hh : Recorded sc mc n m kd (a • x0 + b • x0') P0 h ctl'' evs'') (hmix : Mixed a b evs evs' evs'')
    (hok : ∀ ev ∈ evs, ev.Ok) :
    ∃ (x x' : Fin n → ℝ) (P : Matrix (Fin n) (Fin n) ℝ), f.getState = .of x ∧ g.getState = .of x' ∧
      h.getState = .of (a • x + b • x') ∧ f.getCovariance = .of P ∧ g.getCovariance = .of P ∧ h.getCovariance = .of P := by
  have hok2 : (∀ ev ∈ evs', ev.Ok) ∧ (∀ ev ∈ evs'', ev.Ok) := by
    clear hf hg hh
    induction hmix with
    | nil => exact ⟨hok, hok⟩
    | @cons e e' e'' _ _ _ he _ ih =>
      obtain ⟨i1, i2⟩ := ih (fun ev hev => hok ev (List.mem_cons_of_mem _ hev))
      have h1 := hok e List.mem_cons_self
      have h2 : e'.Ok ∧ e''.Ok := by
        cases he with
        | move => exact ⟨h1, h1⟩
        | measure => exact ⟨h1, h1⟩
      refine ⟨fun ev hev => ?_, fun ev hev => ?_⟩
      · rcases List.mem_cons.mp hev with rfl | hev
        · exact h2.1
        · exact i1 ev hev
      · rcases List.mem_cons.mp hev with rfl | hev
        · exact h2.2
        · exact i2 ev hev
  have If := hf.inv hsc hmc ops mops h0 hok
  have Ig := hg.inv hsc hmc ops mops h0 hok2.1
  have Ih := hh.inv hsc hmc ops mops h0 hok2.2
  obtain ⟨e1, e2, e3⟩ := rec_mix (x0 := x0) (x0' := x0') (P0 := P0) hmix
  refine ⟨_, _, _, If.x, Ig.x, ?_, If.cov, ?_, ?_⟩
  · rw [← e3]; exact Ih.x
  · rw [e1]; exact Ig.cov
  · rw [← e2]; exact Ih.cov

private theorem pos_const (s : Meas LinMeasData Unit) (x : DVec) (dt : ℝ) (s' : Meas LinMeasData Unit)
    (hs : s.Sized LinMeasData.Sized 2 1) (h : Examples.posClass.myUpdate s x dt = some s') : s'.der.C = .of !![1, 0] := by
  have e : Examples.posClass.myUpdate s x dt =
      if s.stateSize = 2 ∧ s.measDims = 1 then some { s with der := ⟨.of !![1, 0]⟩ } else some s := rfl
  rw [e, if_pos ⟨hs.states, hs.meas⟩] at h
  cases h
  rfl

/-- The hypotheses are met: three filters constructed at `(1, 2)`, `(0, 1)` and `2 (1, 2) + 3 (0, 1)`, each given two
measurements of the position, those of the third mixed from the others. -/
example : ∃ (f g h : Filter ℝ DVec DMat Unit (Env Unit LinSysData Unit LinMeasData Unit)) (l l' l'' : List (Event 2 1)),
    Recorded Examples.cvClass (fun _ => Examples.posClass) 2 1 (fun _ => 1) ![1, 2] 1 f 0 l ∧
    Recorded Examples.cvClass (fun _ => Examples.posClass) 2 1 (fun _ => 1) ![0, 1] 1 g 0 l' ∧
    Recorded Examples.cvClass (fun _ => Examples.posClass) 2 1 (fun _ => 1)
      ((2 : ℝ) • ![1, 2] + (3 : ℝ) • ![0, 1]) 1 h 0 l'' ∧
    Mixed 2 3 l l' l'' ∧ (∀ ev ∈ l, ev.Ok) ∧ l.length = 2 := by
  have run : ∀ (x0 : Fin 2 → ℝ) (z z' : Fin 1 → ℝ), ∃ f : Filter ℝ DVec DMat Unit (Env Unit LinSysData Unit LinMeasData Unit),
      Recorded Examples.cvClass (fun _ => Examples.posClass) 2 1 (fun _ => 1) x0 1 f 0
        [.measure !![1, 0] (1 : Matrix (Fin 1) (Fin 1) ℝ) z', .measure !![1, 0] 1 z] := by
    intro x0 z z'
    have sc := Examples.cv_contract
    have mcn : ∀ _ : Unit, MeasContract LinMeasData.Sized Examples.posClass := fun _ => Examples.pos_contract
    have o : Examples.cvClass.PlainOps := Examples.plain_ops _
    have mo : ∀ _ : Unit, Examples.posClass.PlainOps := fun _ => Examples.plain_mops _
    have p0 : (1 : Matrix (Fin 2) (Fin 2) ℝ).PosSemidef := PosSemidef.one
    have r0 : Recorded (T := ℝ) Examples.cvClass (fun _ : Unit => Examples.posClass) 2 1 (fun _ => 1) x0 1
        (Filter.construct (kfPlant Examples.cvClass (fun _ => Examples.posClass))
          {rewindHistory := false, historyWindow := 1, allowPast := false} Examples.cvEnv (.of x0) (.of 1) 0) 0 [] :=
      .start _ _ _ ⟨rfl, rfl, ⟨⟨rfl, rfl⟩, rfl, rfl⟩, ⟨rfl, rfl⟩, ⟨rfl, rfl⟩, ⟨rfl, rfl⟩, ⟨rfl, rfl⟩⟩
        (fun _ => ⟨rfl, rfl, ⟨rfl, rfl⟩, ⟨rfl, rfl⟩⟩) ⟨rfl, fun _ => rfl⟩
    obtain ⟨f1, r1, -⟩ := r0.can_correct_const sc mcn o mo p0 (by intro ev h; cases h) () z 1 PosDef.one !![1, 0] pos_const
    obtain ⟨f2, r2, -⟩ := r1.can_correct_const sc mcn o mo p0
      (by intro ev h; rw [List.mem_singleton.mp h]; exact PosDef.one) () z' 1 PosDef.one !![1, 0] pos_const
    exact ⟨f2, r2⟩
  obtain ⟨f, hf⟩ := run ![1, 2] ![5] ![6]
  obtain ⟨g, hg⟩ := run ![0, 1] ![-1] ![4]
  obtain ⟨h, hh⟩ := run ((2 : ℝ) • ![1, 2] + (3 : ℝ) • ![0, 1]) ((2 : ℝ) • ![5] + (3 : ℝ) • ![-1]) ((2 : ℝ) • ![6] + (3 : ℝ) • ![4])
  refine ⟨f, g, h, _, _, _, hf, hg, hh, .cons (.measure _ _ _ _) (.cons (.measure _ _ _ _) .nil), ?_, rfl⟩
  intro ev hev
  rcases List.mem_cons.mp hev with rfl | hev
  · exact PosDef.one
  · rw [List.mem_singleton.mp hev]; exact PosDef.one

end Props
end StateEstimation
