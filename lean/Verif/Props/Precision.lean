import Verif.Props.AgreeCorrect
import Verif.Props.Sides
import Verif.Props.Monotone
import Verif.Lemmas.PartUKF

/-!
# C154: what a nonlinear filter learns from one reading

The covariance after a correction does not depend on what was read, and a more precise measurement leaves less uncertainty.
-/

set_option linter.unusedSectionVars false

namespace StateEstimation

open Matrix Kalman Sigma Examples Agree

variable {T K X Y : Type} {n m r k : Nat}

namespace RightSide

/-- Sigma points are determined by the estimate and the factor. -/
theorem points_eq {L : Matrix (Fin n) (Fin n) ℝ} {x : Fin n → ℝ} {q q' : Nat → Fin n → ℝ} (h0 : q 0 = x) (h0' : q' 0 = x)
    (h : ∀ i < n, q (i + 1) = x + colsOf L i ∧ q (i + 1 + n) = x - colsOf L i)
    (h' : ∀ i < n, q' (i + 1) = x + colsOf L i ∧ q' (i + 1 + n) = x - colsOf L i) : ∀ j < 2 * n + 1, q' j = q j := by
  intro j hj
  rcases Nat.eq_zero_or_pos j with e | e
  · rw [e, h0, h0']
  · rcases Nat.lt_or_ge j (n + 1) with e' | e'
    · have a := (h (j - 1) (by omega)).1
      have b := (h' (j - 1) (by omega)).1
      rw [show j - 1 + 1 = j by omega] at a b
      rw [a, b]
    · have a := (h (j - 1 - n) (by omega)).2
      have b := (h' (j - 1 - n) (by omega)).2
      rw [show j - 1 - n + 1 + n = j by omega] at a b
      rw [a, b]

theorem mean_congr {lam : ℝ} {y y' : Nat → Fin k → ℝ} (h : ∀ j < 2 * n + 1, y' j = y j) : mean n lam y' = mean n lam y := by
  unfold mean
  exact Finset.sum_congr rfl fun j hj => by rw [h j (Finset.mem_range.mp hj)]

end RightSide

namespace Props

variable [DecidableEq K] [LinearOrder T] [ExactTime T]

/-- **C154 (UKF).**  One filter, two readings `z`, `z'` with covariances `R`, `R'` of a sensor whose function does not depend on
the covariance: if `R` is at most `R'`, the covariance after the first is at most that after the second.  (With `R = R'`, they are
equal: what was read does not matter.) -/
theorem C154_ukf {llt : DMat → Option DMat} (hllt : LltSpec llt) (junk : Nat → Nat → ℝ)
    {sc : SysClass T NonlinSysData X} {mc : K → MeasClass T NonlinMeasData Y}
    (hso : sc.PlainOps) (hmc : ∀ j, MeasContract NonlinMeasData.Sized (mc j)) (hmo : ∀ j, (mc j).PlainOps)
    (f : Filter T DVec DMat K (Env K NonlinSysData X NonlinMeasData Y × SigmaParams)) (j : K)
    (hs : f.env.1.sys.Sized NonlinSysData.Sized n m) (hm : (f.env.1.meas j).Sized NonlinMeasData.Sized n k)
    {al ka be : ℝ} (hsp : setSigma n n al ka be = some f.env.2)
    (hal : 0 < al ^ 2 * (n + ka)) (hbe : al ^ 2 ≤ be)
    {x : Fin n → ℝ} {P : Matrix (Fin n) (Fin n) ℝ} (hx : f.getState = .of x) (hP : f.getCovariance = .of P)
    (hPd : P.PosDef) (z z' : Fin k → ℝ) (R R' : Matrix (Fin k) (Fin k) ℝ) (hR : R.PosDef) (hR' : R'.PosDef)
    (hle : (R' - R).PosSemidef)
    (hst : ∀ w, ((f.env.1.meas j).fm.checkStationary && (f.env.1.meas j).fm.isStationary (.of x) w) = false)
    {η : (Fin n → ℝ) → (Fin k → ℝ)}
    (hh : MeasIs (mc j) n k ((f.env.1.meas j).withCov (.of R)) (TimeOps.sub f.getStateTime f.getStateTime) η)
    (hh' : MeasIs (mc j) n k ((f.env.1.meas j).withCov (.of R')) (TimeOps.sub f.getStateTime f.getStateTime) η) :
    ∃ g g', ∃ (C C' : Matrix (Fin n) (Fin n) ℝ),
      f.correct (ukfPlant llt junk sc mc) (.of z) (.of R) f.getStateTime (some j) = some g ∧
      f.correct (ukfPlant llt junk sc mc) (.of z') (.of R') f.getStateTime (some j) = some g' ∧
      g.getCovariance = .of C ∧ g'.getCovariance = .of C' ∧ (C' - C).PosSemidef ∧ (R = R' → C = C') := by
  obtain ⟨g, L, q, y, zHat, S, D, G, C, h1, h2, h3, h4, h5, h6, h7, h8, h9, h10, h11, h12, h13, h14, h15, -⟩ :=
    ukf_correct_factor hllt junk hso hmc hmo f j hs hm hsp hal hbe hx hP hPd z R hR (hst _)
  obtain ⟨g', L', q', y', zHat', S', D', G', C', k1, k2, k3, k4, k5, k6, k7, k8, k9, k10, k11, k12, k13, k14, k15, -⟩ :=
    ukf_correct_factor hllt junk hso hmc hmo f j hs hm hsp hal hbe hx hP hPd z' R' hR' (hst _)
  rw [h4] at k4
  have eL : L = L' := DMat.of_inj.mp (Option.some.inj k4)
  subst eL
  have e : (n : ℝ) + (al ^ 2 * (n + ka) - n) = al ^ 2 * (n + ka) := by ring
  have hpos : 0 < (n : ℝ) + (al ^ 2 * (n + ka) - n) := by rw [e]; exact hal
  have eq := RightSide.points_eq h6 k6 h7 k7
  have ey : ∀ i < 2 * n + 1, y' i = y i := by
    intro i hi
    obtain ⟨s, a1, a2⟩ := h8 i hi
    obtain ⟨s', b1, b2⟩ := k8 i hi
    rw [DVec.of_inj.mp (a2.symm.trans (hh _ s a1)), DVec.of_inj.mp (b2.symm.trans (hh' _ s' b1)), eq i hi]
  have ez : zHat' = zHat := by rw [k9, h9, RightSide.mean_congr ey]
  have eD : D' = D := by rw [k11, h11, ez, cross_congr eq ey]
  have eC : cross n (al ^ 2 * (n + ka) - n) (be - al ^ 2) y' y' zHat' zHat' =
      cross n (al ^ 2 * (n + ka) - n) (be - al ^ 2) y y zHat zHat := by rw [ez, cross_congr ey ey]
  rw [eC] at k10
  have hX : (cross n (al ^ 2 * (n + ka) - n) (be - al ^ 2) y y zHat zHat).PosSemidef := by
    rw [h9]; exact unscented_psd hpos (by linarith) y
  have hS : S.PosDef := by rw [h10]; exact hR.add_posSemidef hX
  have hS' : S'.PosDef := by rw [k10]; exact hR'.add_posSemidef hX
  have hSS : (S' - S).PosSemidef := by rw [h10, k10, add_sub_add_right_eq_sub]; exact hle
  have sq : ∀ {A : Matrix (Fin k) (Fin k) ℝ} (_ : A.PosDef), D * A⁻¹ * A * (D * A⁻¹)ᵀ = D * A⁻¹ * Dᵀ := by
    intro A hA
    have hs := psd_symm hA.inv.posSemidef
    rw [Matrix.transpose_mul, hs, Matrix.mul_assoc D, Matrix.nonsing_inv_mul _ (pd_isUnit_det hA), Matrix.mul_one, Matrix.mul_assoc]
  refine ⟨g, g', C, C', h1, k1, h14, k14, ?_, fun hRR => ?_⟩
  · rw [h15, k15, h12, k12, eD, sq hS, sq hS']
    rw [sub_sub_sub_cancel_left, ← Matrix.sub_mul, ← Matrix.mul_sub]
    exact psd_conj (inv_anti hS hS' hSS) D
  · have : S = S' := by rw [h10, k10, hRR]
    rw [h15, k15, h12, k12, eD, this]

/-- **C154 (EKF).** -/
theorem C154_ekf {sc : SysClass T NonlinSysData X} {mc : K → MeasClass T NonlinMeasData Y}
    (hsc : SysContract NonlinSysData.Sized sc) (hmc : ∀ j, MeasContract NonlinMeasData.Sized (mc j))
    (f : Filter T DVec DMat K (Env K NonlinSysData X NonlinMeasData Y)) (j : K)
    (hs : f.env.sys.Sized NonlinSysData.Sized n m) (hm : (f.env.meas j).Sized NonlinMeasData.Sized n k)
    {x : Fin n → ℝ} {P : Matrix (Fin n) (Fin n) ℝ} (hx : f.getState = .of x) (hP : f.getCovariance = .of P)
    (hPsd : P.PosSemidef) (z z' : Fin k → ℝ) (R R' : Matrix (Fin k) (Fin k) ℝ) (hR : R.PosDef) (hR' : R'.PosDef)
    (hle : (R' - R).PosSemidef)
    (hst : ∀ w, ((f.env.meas j).fm.checkStationary && (f.env.meas j).fm.isStationary (.of x) w) = false)
    {H : Matrix (Fin k) (Fin n) ℝ}
    (hH : ∀ s, ((f.env.meas j).withCov (.of R)).UpdatedAt (mc j) n k (.of x) (TimeOps.sub f.getStateTime f.getStateTime) s → s.der.H = .of H)
    (hH' : ∀ s, ((f.env.meas j).withCov (.of R')).UpdatedAt (mc j) n k (.of x) (TimeOps.sub f.getStateTime f.getStateTime) s → s.der.H = .of H) :
    ∃ g g', ∃ (C C' : Matrix (Fin n) (Fin n) ℝ),
      f.correct (ekfPlant sc mc) (.of z) (.of R) f.getStateTime (some j) = some g ∧
      f.correct (ekfPlant sc mc) (.of z') (.of R') f.getStateTime (some j) = some g' ∧
      g.getCovariance = .of C ∧ g'.getCovariance = .of C' ∧ (C' - C).PosSemidef ∧ (R = R' → C = C') := by
  obtain ⟨g, H1, L1, C1, dz1, h1, h2, h3, h4, h5, h6, h7, h8, h9, -⟩ := C28_C30_ekf_correct hsc hmc f j hs hm hx hP hPsd z R hR (hst _)
  obtain ⟨g', H2, L2, C2, dz2, k1, k2, k3, k4, k5, k6, k7, k8, k9, -⟩ := C28_C30_ekf_correct hsc hmc f j hs hm hx hP hPsd z' R' hR' (hst _)
  have e1 : H1 = H := DMat.of_inj.mp (h4.symm.trans (hH _ ⟨(f.env.meas j).withCov (.of R), ⟨hm.states, hm.meas, hm.der, rfl, rfl⟩,
    Meas.SameConfig.refl _, h3⟩))
  have e2 : H2 = H := DMat.of_inj.mp (k4.symm.trans (hH' _ ⟨(f.env.meas j).withCov (.of R'), ⟨hm.states, hm.meas, hm.der, rfl, rfl⟩,
    Meas.SameConfig.refl _, k3⟩))
  subst e1
  subst e2
  have p : ∀ Q : Matrix (Fin k) (Fin k) ℝ, (1 - P * H2ᵀ * (H2 * P * H2ᵀ + Q)⁻¹ * H2) * P = Kalman.post P H2 Q := by
    intro Q
    unfold Kalman.post gain innov
    rw [Matrix.mul_assoc H2 P]
  refine ⟨g, g', C1, C2, h1, k1, h8, k8, ?_, fun hRR => ?_⟩
  · rw [h9, k9, h5, k5, p, p]
    exact Kalman.post_mono hPsd (by rw [sub_self]; exact PosSemidef.zero) hR hle
  · rw [h9, k9, h5, k5, hRR]

/-! ## Witness -/

section
open Dice Quadratic Bias

private theorem pd_one (a : ℝ) (h : 0 < a) : (!![a] : Matrix (Fin 1) (Fin 1) ℝ).PosDef := by
  have : !![a] = a • (1 : Matrix (Fin 1) (Fin 1) ℝ) := by ext i j; fin_cases i; fin_cases j; simp
  rw [this]; exact PosDef.one.smul h

private theorem one_three : (!![(3 : ℝ)] - !![1] : Matrix (Fin 1) (Fin 1) ℝ).PosSemidef := by
  have : (!![(3 : ℝ)] - !![1] : Matrix (Fin 1) (Fin 1) ℝ) = !![2] := by ext i j; fin_cases i; fin_cases j; norm_num
  rw [this]; exact (pd_one 2 (by norm_num)).posSemidef

/-- `h = x²` at 1: read as 5 with variance 1, as 2 with variance 3. -/
example {llt : DMat → Option DMat} (hllt : LltSpec llt) (junk : Nat → Nat → ℝ) (sp : SigmaParams)
    (hsp : ukfInitSigma quadEnv = some sp) (params : Params ℝ) :=
  C154_ukf hllt junk (mc := fun _ : Unit => squareClass) (plain_ops quadClass.myUpdate) (fun _ => square_contract) (fun _ => plain_mops _)
    (Filter.construct (ukfPlant llt junk quadClass fun _ : Unit => squareClass) params (quadEnv, sp) (vec1 1) (mat1 (4 / 3)) 0) ()
    (m := 1) (k := 1) (x := ![1]) (P := !![4 / 3]) (quadEnv_ok (Q := fun _ _ => True)).sys ((quadEnv_ok (Q := fun _ _ => True)).meas ())
    (al := 0.001) (ka := 0) (be := 2) hsp (by norm_num) (by norm_num) rfl rfl four_thirds_pd ![5] ![2] !![1] !![3]
    (pd_one 1 (by norm_num)) (pd_one 3 (by norm_num)) one_three (fun _ => rfl)
    (η := quadratic ![0] !![0] (fun _ => !![1])) (square_quadratic _ _) (square_quadratic _ _)

private theorem square_der (R : DMat) (dt : ℝ) (s : Meas NonlinMeasData Unit)
    (h : ((quadEnv.meas ()).withCov R).UpdatedAt squareClass 1 1 (.of ![1]) dt s) : s.der.H = .of !![2] := by
  obtain ⟨s0, h1, h2, h3⟩ := h
  change (if _ then _ else _) = _ at h3
  rw [if_pos ⟨h1.states, h1.meas⟩] at h3
  injection h3 with h3
  subst h3
  show mat1 _ = _
  rw [head_of]
  show DMat.of _ = _
  congr 1
  ext i j
  fin_cases i; fin_cases j
  simp

example (params : Params ℝ) :=
  C154_ekf (mc := fun _ : Unit => squareClass) quad_contract (fun _ => square_contract)
    (Filter.construct (ekfPlant quadClass fun _ : Unit => squareClass) params quadEnv (vec1 1) (mat1 (4 / 3)) 0) ()
    (m := 1) (k := 1) (x := ![1]) (P := !![4 / 3]) (quadEnv_ok (Q := fun _ _ => True)).sys ((quadEnv_ok (Q := fun _ _ => True)).meas ())
    rfl rfl four_thirds_pd.posSemidef ![5] ![2] !![1] !![3]
    (pd_one 1 (by norm_num)) (pd_one 3 (by norm_num)) one_three (fun _ => rfl) (square_der _ _) (square_der _ _)

end

end Props
end StateEstimation
