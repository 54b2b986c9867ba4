import Verif.Props.OddPart
import Verif.Props.BiasCorrect
import Verif.Props.ImuJacobian

/-!
# C151: readings that do not move a UKF

A sensor that reads the same on opposite sides of the estimate cannot tell a linear estimator which way to go; and a reading of an odd
sensor that is what the sensor would read at the estimate gives no reason to go anywhere.
-/

set_option linter.unusedSectionVars false

namespace StateEstimation

open Matrix Kalman Sigma MeasureTheory ProbabilityTheory Examples

variable {T K X Y : Type} {n m r k : Nat}

/-- The function `η` reads the same at opposite sides of `x`. -/
def EvenAbout (x : Fin n → ℝ) (η : (Fin n → ℝ) → (Fin k → ℝ)) : Prop := ∀ d, η (x + d) = η (x - d)

namespace RightSide

/-- The images of opposite points agree: no cross covariance. -/
theorem cross_even {lam d : ℝ} (h : 0 < (n : ℝ) + lam) {q l : Nat → Fin n → ℝ} (hq : Symm n q l) {y : Nat → Fin k → ℝ}
    (hy : ∀ i < n, y (i + 1) = y (i + 1 + n)) : cross n lam d q y (q 0) (mean n lam y) = 0 := by
  rw [cross_central d q y h.ne' (Symm.dev lam hq)]
  unfold moment
  rw [sum_two]
  refine Finset.sum_eq_zero fun i hi => ?_
  have hi := Finset.mem_range.mp hi
  rw [show i + n + 1 = i + 1 + n by omega, (hq i hi).1, (hq i hi).2, hy i hi]
  simp only [add_sub_cancel_left, sub_sub_cancel_left, neg_vecMulVec, smul_neg, add_neg_cancel]

end RightSide

namespace Props

variable [DecidableEq K] [LinearOrder T] [ExactTime T]

/-- **C151, even sensors.**  Whatever is measured, the UKF's estimate and covariance stay exactly as they were.  That is also all that
can be learned linearly: for every random state distributed symmetrically about the estimate, its covariance with the reading is zero. -/
theorem C151_even {llt : DMat → Option DMat} (hllt : LltSpec llt) (junk : Nat → Nat → ℝ)
    {sc : SysClass T NonlinSysData X} {mc : K → MeasClass T NonlinMeasData Y}
    (hso : sc.PlainOps) (hmc : ∀ j, MeasContract NonlinMeasData.Sized (mc j)) (hmo : ∀ j, (mc j).PlainOps)
    (f : Filter T DVec DMat K (Env K NonlinSysData X NonlinMeasData Y × SigmaParams)) (j : K)
    (hs : f.env.1.sys.Sized NonlinSysData.Sized n m) (hm : (f.env.1.meas j).Sized NonlinMeasData.Sized n k)
    {al ka be : ℝ} (hsp : setSigma n n al ka be = some f.env.2)
    (hal : 0 < al ^ 2 * (n + ka)) (hbe : al ^ 2 ≤ be)
    {x : Fin n → ℝ} {P : Matrix (Fin n) (Fin n) ℝ} (hx : f.getState = .of x) (hP : f.getCovariance = .of P)
    (hPd : P.PosDef) (z : Fin k → ℝ) (R : Matrix (Fin k) (Fin k) ℝ) (hR : R.PosDef)
    (hst : ((f.env.1.meas j).fm.checkStationary && (f.env.1.meas j).fm.isStationary (.of x) (.of z)) = false)
    {η : (Fin n → ℝ) → (Fin k → ℝ)}
    (hh : MeasIs (mc j) n k ((f.env.1.meas j).withCov (.of R)) (TimeOps.sub f.getStateTime f.getStateTime) η) (he : EvenAbout x η) :
    (∃ g, f.correct (ukfPlant llt junk sc mc) (.of z) (.of R) f.getStateTime (some j) = some g ∧
      g.getState = f.getState ∧ g.getCovariance = f.getCovariance) ∧
    ∀ {Ω : Type} [MeasurableSpace Ω] (μ : Measure Ω) [IsProbabilityMeasure μ] (S : Ω → Fin n → ℝ), SymmetricAbout μ x S →
      Measurable η → ∀ (i : Fin n) (a : Fin k), Integrable (fun ω => (S ω i - x i) * η (S ω) a) μ →
        ∫ ω, (S ω i - x i) * η (S ω) a ∂μ = 0 := by
  obtain ⟨g, C, q, y, zHat, S, D, G, P', h1, h2, h3, h4, h5, h6, h7, h8, h9, h10, h11, h12, h13, h14, -⟩ :=
    C37_ukf_correct hllt junk hso hmc hmo f j hs hm hsp hal hbe hx hP hPd z R hR hst
  have hy : ∀ i < 2 * n + 1, y i = η (q i) := by
    intro i hi
    obtain ⟨s, k1, k2⟩ := h7 i hi
    exact DVec.of_inj.mp (k2.symm.trans (hh _ s k1))
  have e : (n : ℝ) + (al ^ 2 * (n + ka) - n) = al ^ 2 * (n + ka) := by ring
  have hq : Symm n q (colsOf C) := fun i hi => by rw [h5]; exact h6 i hi
  have hD : D = 0 := by
    rw [h10, h8, ← h5]
    refine RightSide.cross_even (by rw [e]; exact hal) hq fun i hi => ?_
    rw [hy (i + 1) (by omega), hy (i + 1 + n) (by omega), (h6 i hi).1, (h6 i hi).2]
    exact he _
  have hG : G = 0 := by rw [h11, hD, Matrix.zero_mul]
  refine ⟨⟨g, h1, by rw [h12, hG, hx, Matrix.zero_mulVec, add_zero], by
    rw [h13, h14, hG, hP, Matrix.zero_mul, Matrix.zero_mul, sub_zero]⟩, ?_⟩
  intro Ω _ μ _ S hS hη i a hi
  have := RightSide.odd_integral (μ := μ) (x := x) (S := S) (φ := fun q => (q i - x i) * η q a) ?_ ?_ hS hi
  · rw [this]; simp
  · intro d
    simp only [Pi.add_apply, Pi.sub_apply, he d]
    ring
  · exact ((measurable_pi_apply i).sub_const _).mul ((measurable_pi_apply a).comp hη)

/-- **C151, even sensors, EKF.**  Nor is an EKF moved by such a sensor if the matrix that the sensor reports is its derivative. -/
theorem C151_ekf_even {sc : SysClass T NonlinSysData X} {mc : K → MeasClass T NonlinMeasData Y}
    (hso : sc.PlainOps) (hsc : SysContract NonlinSysData.Sized sc) (hmc : ∀ j, MeasContract NonlinMeasData.Sized (mc j))
    (f : Filter T DVec DMat K (Env K NonlinSysData X NonlinMeasData Y)) (j : K)
    (hs : f.env.sys.Sized NonlinSysData.Sized n m) (hm : (f.env.meas j).Sized NonlinMeasData.Sized n k)
    {x : Fin n → ℝ} {P : Matrix (Fin n) (Fin n) ℝ} (hx : f.getState = .of x) (hP : f.getCovariance = .of P)
    (hPsd : P.PosSemidef) (z : Fin k → ℝ) (R : Matrix (Fin k) (Fin k) ℝ) (hR : R.PosDef)
    (hst : ((f.env.meas j).fm.checkStationary && (f.env.meas j).fm.isStationary (.of x) (.of z)) = false)
    {η : (Fin n → ℝ) → (Fin k → ℝ)} (he : EvenAbout x η)
    (hH : ∀ s H, ((f.env.meas j).withCov (.of R)).UpdatedAt (mc j) n k (.of x) (TimeOps.sub f.getStateTime f.getStateTime) s →
      s.der.H = .of H → HasFDerivAt η (asDeriv H) x) :
    ∃ g, f.correct (ekfPlant sc mc) (.of z) (.of R) f.getStateTime (some j) = some g ∧
      g.getState = f.getState ∧ g.getCovariance = f.getCovariance := by
  obtain ⟨g, H, L, P', dz, h1, h2, h3, h4, h5, h6, h7, h8, h9, -⟩ := C28_C30_ekf_correct hsc hmc f j hs hm hx hP hPsd z R hR hst
  have hd : HasFDerivAt η (asDeriv H) x :=
    hH _ H ⟨(f.env.meas j).withCov (.of R), ⟨hm.states, hm.meas, hm.der, rfl, rfl⟩, Meas.SameConfig.refl _, h3⟩ h4
  have hH0 : H = 0 := by
    have d1 : HasFDerivAt (fun d => η (x + d)) (asDeriv H) (0 : Fin n → ℝ) := by
      have : HasFDerivAt η (asDeriv H) (x + 0) := by rwa [add_zero]
      exact (hasFDerivAt_comp_add_left x).mpr this
    have d2 : HasFDerivAt (fun d => η (x - d)) (-asDeriv H) (0 : Fin n → ℝ) := by
      have : HasFDerivAt η (asDeriv H) (x - 0) := by rwa [sub_zero]
      have h := this.comp (0 : Fin n → ℝ) ((hasFDerivAt_id (0 : Fin n → ℝ)).const_sub x)
      refine h.congr_fderiv ?_
      ext v
      simp
    have e : (fun d => η (x + d)) = fun d => η (x - d) := funext he
    rw [e] at d1
    have := d1.unique d2
    ext a b
    have h := congrFun (congrArg (fun F : (Fin n → ℝ) →L[ℝ] (Fin k → ℝ) => F (Pi.single b 1)) this) a
    simp only [asDeriv_apply, _root_.neg_apply, Pi.neg_apply, Matrix.mulVec_single_one, Matrix.col_apply] at h
    simp only [Matrix.zero_apply]
    linarith
  have hL : L = 0 := by rw [h5, hH0]; simp
  rw [hL, Matrix.zero_mulVec, hso.add, DVec.add_of, add_zero] at h7
  refine ⟨g, h1, ?_, by rw [h8, h9, hL, hP]; simp⟩
  injection h7 with h7
  rw [← h7, hx]

/-- **C151, odd sensors.**  When the reading is what the sensor would read at the estimate, the UKF's estimate stays where it is. -/
theorem C151_odd {llt : DMat → Option DMat} (hllt : LltSpec llt) (junk : Nat → Nat → ℝ)
    {sc : SysClass T NonlinSysData X} {mc : K → MeasClass T NonlinMeasData Y}
    (hso : sc.PlainOps) (hmc : ∀ j, MeasContract NonlinMeasData.Sized (mc j)) (hmo : ∀ j, (mc j).PlainOps)
    (f : Filter T DVec DMat K (Env K NonlinSysData X NonlinMeasData Y × SigmaParams)) (j : K)
    (hs : f.env.1.sys.Sized NonlinSysData.Sized n m) (hm : (f.env.1.meas j).Sized NonlinMeasData.Sized n k)
    {al ka be : ℝ} (hsp : setSigma n n al ka be = some f.env.2)
    (hal : 0 < al ^ 2 * (n + ka)) (hbe : al ^ 2 ≤ be)
    {x : Fin n → ℝ} {P : Matrix (Fin n) (Fin n) ℝ} (hx : f.getState = .of x) (hP : f.getCovariance = .of P)
    (hPd : P.PosDef) (R : Matrix (Fin k) (Fin k) ℝ) (hR : R.PosDef) {η : (Fin n → ℝ) → (Fin k → ℝ)}
    (hst : ((f.env.1.meas j).fm.checkStationary && (f.env.1.meas j).fm.isStationary (.of x) (.of (η x))) = false)
    (hh : MeasIs (mc j) n k ((f.env.1.meas j).withCov (.of R)) (TimeOps.sub f.getStateTime f.getStateTime) η)
    (ho : ∀ a, OddAbout x fun q => η q a) :
    ∃ g, f.correct (ukfPlant llt junk sc mc) (.of (η x)) (.of R) f.getStateTime (some j) = some g ∧ g.getState = f.getState := by
  obtain ⟨g, C, q, y, zHat, S, D, G, P', h1, h2, h3, h4, h5, h6, h7, h8, h9, h10, h11, h12, h13, h14, -⟩ :=
    C37_ukf_correct hllt junk hso hmc hmo f j hs hm hsp hal hbe hx hP hPd (η x) R hR hst
  have hy : ∀ i < 2 * n + 1, y i = η (q i) := by
    intro i hi
    obtain ⟨s, k1, k2⟩ := h7 i hi
    exact DVec.of_inj.mp (k2.symm.trans (hh _ s k1))
  have e : (n : ℝ) + (al ^ 2 * (n + ka) - n) = al ^ 2 * (n + ka) := by ring
  have hz : zHat = η x := by
    funext a
    have := RightSide.dot_mean_eq (n := n) (lam := al ^ 2 * (n + ka) - n) (by rw [e]; exact hal) (Pi.single a 1) y (fun i hi => by
      rw [hy 0 (by omega), hy (i + 1) (by omega), hy (i + 1 + n) (by omega), (h6 i hi).1, (h6 i hi).2, h5]
      simp only [single_dotProduct, one_mul]
      have := ho a (colsOf C i)
      linarith)
    simp only [single_dotProduct, one_mul] at this
    rw [h8, this, hy 0 (by omega), h5]
  exact ⟨g, h1, by rw [h12, hz, sub_self, Matrix.mulVec_zero, add_zero, hx]⟩

/-! ## Witness -/

section
open Dice Quadratic Bias Agree

private theorem unit_pd : (!![(1 : ℝ)] : Matrix (Fin 1) (Fin 1) ℝ).PosDef := by
  have : (1 : Matrix (Fin 1) (Fin 1) ℝ) = !![1] := by ext i j; fin_cases i; fin_cases j; rfl
  rw [← this]; exact PosDef.one

/-- `h = x²` at 0: whatever is read, here 5. -/
example {llt : DMat → Option DMat} (hllt : LltSpec llt) (junk : Nat → Nat → ℝ) (sp : SigmaParams)
    (hsp : ukfInitSigma quadEnv = some sp) (params : Params ℝ) :=
  C151_even hllt junk (mc := fun _ : Unit => squareClass) (plain_ops quadClass.myUpdate) (fun _ => square_contract) (fun _ => plain_mops _)
    (Filter.construct (ukfPlant llt junk quadClass fun _ : Unit => squareClass) params (quadEnv, sp) (vec1 0) (mat1 (4 / 3)) 0) ()
    (m := 1) (k := 1) (x := ![0]) (P := !![4 / 3]) (quadEnv_ok (Q := fun _ _ => True)).sys ((quadEnv_ok (Q := fun _ _ => True)).meas ())
    (al := 0.001) (ka := 0) (be := 2) hsp (by norm_num) (by norm_num) rfl rfl four_thirds_pd ![5] !![1] unit_pd rfl
    (η := quadratic ![0] !![0] (fun _ => !![1])) (square_quadratic _ _)
    (by
      intro d
      funext a
      fin_cases a
      simp [quadratic])

/-- The same for the EKF: the derivative that `squareClass` reports is the right one. -/
example (params : Params ℝ) :=
  C151_ekf_even (mc := fun _ : Unit => squareClass) (plain_ops quadClass.myUpdate) quad_contract (fun _ => square_contract)
    (Filter.construct (ekfPlant quadClass fun _ : Unit => squareClass) params quadEnv (vec1 0) (mat1 (4 / 3)) 0) ()
    (m := 1) (k := 1) (x := ![0]) (P := !![4 / 3]) (quadEnv_ok (Q := fun _ _ => True)).sys ((quadEnv_ok (Q := fun _ _ => True)).meas ())
    rfl rfl four_thirds_pd.posSemidef ![5] !![1] unit_pd rfl (η := fun q => ![q 0 ^ 2])
    (by
      intro d
      funext a
      fin_cases a
      simp)
    (by
      rintro s H ⟨s0, h1, h2, h3⟩ hH
      change (if _ then _ else _) = _ at h3
      rw [if_pos ⟨h1.states, h1.meas⟩] at h3
      injection h3 with h3
      subst h3
      have hz := DMat.of_inj.mp hH
      rw [head_of] at hz
      subst hz
      rw [hasFDerivAt_pi']
      intro i
      fin_cases i
      have := (hasFDerivAt_apply (𝕜 := ℝ) (0 : Fin 1) (![(0 : ℝ)] : Fin 1 → ℝ)).pow 2
      refine HasFDerivAt.congr_fderiv this ?_
      ext v
      simp [dotProduct])

/-- `h = x³`, `H = 3 x²`. -/
private noncomputable def cubeSensor : MeasClass ℝ NonlinMeasData Unit :=
  MeasClass.plain fun s x _ =>
    if s.stateSize = 1 ∧ s.measDims = 1 then some { s with der := ⟨vec1 (head x ^ 3), mat1 (3 * head x ^ 2)⟩ } else some s

private theorem cube_sensor : MeasContract NonlinMeasData.Sized cubeSensor := by
  apply plain_mcontract
  intro n k s x dt hs hx
  split
  next h =>
    have hn : n = 1 := by rw [← hs.states]; exact h.1
    have hk : k = 1 := by rw [← hs.meas]; exact h.2
    subst hn hk
    exact ⟨_, rfl, ⟨hs.states, hs.meas, ⟨rfl, rfl, rfl⟩, hs.cov⟩, ⟨rfl, rfl, rfl, rfl⟩⟩
  next => exact ⟨s, rfl, hs, Meas.SameConfig.refl s⟩

private theorem cube_is (dt : ℝ) (R : DMat) : MeasIs cubeSensor 1 1 ((quadEnv.meas ()).withCov R) dt fun q => ![q 0 ^ 3] := by
  rintro q t ⟨s, h1, h2, h3⟩
  change (if _ then _ else _) = _ at h3
  rw [if_pos ⟨h1.states, h1.meas⟩] at h3
  injection h3 with h3
  subst h3
  show vec1 _ = _
  rw [head_of]

/-- `h = x³` at 0, where it would read 0. -/
example {llt : DMat → Option DMat} (hllt : LltSpec llt) (junk : Nat → Nat → ℝ) (sp : SigmaParams)
    (hsp : ukfInitSigma quadEnv = some sp) (params : Params ℝ) :=
  C151_odd hllt junk (mc := fun _ : Unit => cubeSensor) (plain_ops quadClass.myUpdate) (fun _ => cube_sensor) (fun _ => plain_mops _)
    (Filter.construct (ukfPlant llt junk quadClass fun _ : Unit => cubeSensor) params (quadEnv, sp) (vec1 0) (mat1 (4 / 3)) 0) ()
    (m := 1) (k := 1) (x := ![0]) (P := !![4 / 3]) (quadEnv_ok (Q := fun _ _ => True)).sys ((quadEnv_ok (Q := fun _ _ => True)).meas ())
    (al := 0.001) (ka := 0) (be := 2) hsp (by norm_num) (by norm_num) rfl rfl four_thirds_pd !![1] unit_pd (η := fun q => ![q 0 ^ 3]) rfl
    (cube_is _ _)
    (by
      intro a d
      fin_cases a
      simp
      ring)

end

end Props
end StateEstimation
