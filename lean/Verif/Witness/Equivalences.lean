import Verif.Props.AllActive
import Verif.Props.Units
import Verif.Props.TimeShift
import Verif.Props.Rewind
import Verif.Witness.Numeric

/-!
# Theorems that compare two filters, applied

C39 (all states active), C72 (other units), C85 (another origin of time).
-/

namespace StateEstimation.Witness

open Props Filter Examples Matrix

theorem someLlt_size : LltSize someLlt := by
  intro A L n hA h
  unfold someLlt at h
  split at h
  next hh =>
    have e := hh.choose_spec.choose_spec
    injection h with h
    subst h
    have hr : A.rows = hh.choose := congrArg DMat.rows e
    exact ⟨hr.symm.trans hA.1, hr.symm.trans hA.1⟩
  next => cases h

section all_active

variable (sort : List (FilterInput ℝ DVec DMat Unit) → List (FilterInput ℝ DVec DMat Unit)) (hsort : ∀ l, (sort l).Perm l)
variable (junk : Nat → Nat → ℝ) (pa : Params ℝ)

/-- Both states of constant velocity listed, in the wrong order. -/
noncomputable def cvBoth : Env Unit LinSysData Unit LinMeasData Unit := { cvEnv with sys := cvEnv.sys.setActiveStates [1, 0] }

theorem cvBoth_ok {Q : DVec → DMat → Prop} : cvBoth.Ok LinSysData.Sized LinMeasData.Sized AnyNoise Q 2 1 (fun _ => 1) :=
  ⟨⟨rfl, rfl, ⟨⟨rfl, rfl⟩, rfl, rfl⟩, ⟨rfl, rfl⟩, ⟨rfl, rfl⟩, ⟨rfl, rfl⟩, ⟨rfl, rfl⟩⟩, trivial, fun x c h => ⟨x, c, rfl, h⟩,
    cvEnv_ok (Q := Q).meas, cvEnv_ok.measMake⟩

theorem cvBoth_all : cvBoth.AllActive 2 1 (fun _ => 1) :=
  ⟨C39_lists cvEnv.sys.fm [1, 0] (Or.inr (by decide)), selects_nil, fun _ => selects_nil⟩

theorem quad_all : quadEnv.AllActive 1 1 (fun _ => 1) := ⟨selects_nil, selects_nil, fun _ => selects_nil⟩

include hsort

example := C39_kfvs_all_active cv_contract (fun _ : Unit => pos_contract) (fun _ => 1) sort hsort pa cvBoth cvBoth_ok cvBoth_all
  (.const 2 7) (.identity 2) 0 ⟨rfl, rfl, rfl⟩ (script (.const 2 5) (.of !![-3, 1; 0, 2])) (script_ok ⟨rfl, rfl, rfl⟩ trivial)
example := C39_ekfvs_all_active quad_contract (fun _ : Unit => square_contract) (fun _ => 1) sort hsort pa quadEnv quadEnv_any quad_all
  (.const 1 7) (.identity 1) 0 ⟨rfl, rfl, rfl⟩ (script (.const 1 5) (.of !![-3])) (script_ok ⟨rfl, rfl, rfl⟩ trivial)
example (sp : SigmaParams) (hsp : ukfInitSigma quadEnv = some sp) := C39_ukfvs_all_active someLlt_size junk quad_contract (fun _ : Unit => square_contract)
  (fun _ => 1) sort hsort pa quadEnv sp ((C39_sigma 1 0 2 (quadEnv, sp) (quadEnv_any (Q := Estimate 1)) quad_all).2.2.2 sp hsp) quadEnv_any quad_all
  (.const 1 7) (.identity 1) 0 ⟨rfl, rfl, rfl⟩ (script (.const 1 5) (.of !![-3])) (script_ok ⟨rfl, rfl, rfl⟩ trivial)
example (sp : SigmaParams) (hsp : ukfInitSigma quadEnv = some sp) := fun g hg => C26_ukf_sizes (g := g) someLlt_size junk quad_contract (fun _ : Unit => square_contract)
  (fun _ => 1) sort hsort pa quadEnv sp ((C39_sigma 1 0 2 (quadEnv, sp) (quadEnv_any (Q := Estimate 1)) quad_all).2.2.2 sp hsp) quadEnv_any
  (.const 1 7) (.identity 1) 0 ⟨rfl, rfl, rfl⟩ (script (.const 1 5) (.of !![-3])) (script_ok ⟨rfl, rfl, rfl⟩ trivial) hg

end all_active

/-- Metres and feet: accelerate, a delayed position measurement, predict. -/
example (sort : List (FilterInput ℝ DVec DMat Unit) → List (FilterInput ℝ DVec DMat Unit)) (hsort : SameSort sort sort) (pa : Params ℝ) :=
  C72_kf_units UnitsExample.feet UnitsExample.sysClassIn (fun _ => UnitsExample.measClassIn) sort hsort pa _ _ UnitsExample.envIn
    (.of ![1, 2]) (.of (1 : Matrix (Fin 2) (Fin 2) ℝ)) _ _ ⟨⟨_, rfl, rfl⟩, ⟨_, rfl, rfl⟩⟩ 0
    [.predictControl (.of ![1]) 2, .correct (.of ![3]) (.of !![4]) 1 (some ()), .predictTime 5]
    [.predictControl (.of ![3.28]) 2, .correct (.of ![300]) (.of !![40000]) 1 (some ()), .predictTime 5] (by
      refine .cons ⟨rfl, Or.inl ⟨Nat.one_pos, _, rfl, ?_⟩⟩ (.cons ⟨rfl, (), rfl, rfl, ⟨_, rfl, ?_⟩, ⟨_, rfl, ?_⟩⟩ (.cons rfl .nil))
      · rw [DVec.of_inj]; show _ = !![3.28] *ᵥ ![1]; ext i; fin_cases i; simp
      · rw [DVec.of_inj]; show _ = !![100] *ᵥ ![3]; ext i; fin_cases i; simp; norm_num
      · rw [DMat.of_inj]; show _ = !![100] * !![4] * !![100]ᵀ; ext i j; fin_cases i; fin_cases j; simp [Matrix.mul_apply]; norm_num)

end StateEstimation.Witness
