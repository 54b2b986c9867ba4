import Verif.Props.Stacked

/-!
# C112: information adds up

Readings taken at the same time add their information to the filter's; readings of one sensor can be merged into one (their
weighted mean) before the filter gets them.
-/

namespace StateEstimation
namespace Props

open Matrix Kalman Examples

/-! ## Specification -/

/-- `z` with covariance `R` is the merger of the readings `zs i` with covariances `Rs i` of one quantity: its information
`R⁻¹` is the sum of theirs, and it is their mean weighted by information. -/
structure MergerOf {N k : Nat} (zs : Fin N → Fin k → ℝ) (Rs : Fin N → Matrix (Fin k) (Fin k) ℝ) (z : Fin k → ℝ)
    (R : Matrix (Fin k) (Fin k) ℝ) : Prop where
  information : R * ∑ i, (Rs i)⁻¹ = 1
  mean : z = R *ᵥ ∑ i, (Rs i)⁻¹ *ᵥ zs i

/-- The plain mean of `N` equally good readings, with `1/N` of their covariance, is their merger. -/
theorem mean_merger {N k : Nat} (hN : 0 < N) (zs : Fin N → Fin k → ℝ) {R : Matrix (Fin k) (Fin k) ℝ} (hR : R.PosDef) :
    MergerOf zs (fun _ => R) ((N : ℝ)⁻¹ • ∑ i, zs i) ((N : ℝ)⁻¹ • R) := by
  have hN' : (N : ℝ) ≠ 0 := by exact_mod_cast hN.ne'
  have hu := pd_isUnit_det hR
  constructor
  · rw [Finset.sum_const, Finset.card_univ, Fintype.card_fin, ← Nat.cast_smul_eq_nsmul ℝ, Matrix.smul_mul, Matrix.mul_smul,
      Matrix.mul_nonsing_inv _ hu, smul_smul, inv_mul_cancel₀ hN', one_smul]
  · rw [← Matrix.mulVec_sum, Matrix.smul_mulVec, Matrix.mulVec_mulVec, Matrix.mul_nonsing_inv _ hu, Matrix.one_mulVec]

section
variable {T K X Y : Type} [LinearOrder T] [ExactTime T] [DecidableEq K] {n m : Nat}

/-- **C112, information.**  A Kalman filter with an invertible covariance, given any number of readings of any sensors at its
current time: the inverse of the new covariance is the inverse of the old one plus `Cᵀ R⁻¹ C` of every reading, and the
information vector `P⁻¹ x` grows by `Cᵀ R⁻¹ z` of every reading. -/
theorem C112_information {sc : SysClass T LinSysData X} {mc : K → MeasClass T LinMeasData Y}
    (sort : List (FilterInput T DVec DMat K) → List (FilterInput T DVec DMat K))
    (hsc : SysContract LinSysData.Sized sc) (hmc : ∀ j, MeasContract LinMeasData.Sized (mc j))
    (hso : sc.PlainOps) (hmo : ∀ j, (mc j).PlainOps) (kd : K → Nat)
    (f : Filter T DVec DMat K (Env K LinSysData X LinMeasData Y))
    (hs : f.env.sys.Sized LinSysData.Sized n m) (hm : ∀ j, (f.env.meas j).Sized LinMeasData.Sized n (kd j))
    {x : Fin n → ℝ} {P : Matrix (Fin n) (Fin n) ℝ} (hx : f.getState = .of x) (hP : f.getCovariance = .of P)
    (hPd : P.PosDef) (C : (j : K) → Matrix (Fin (kd j)) (Fin n) ℝ)
    (hC : ∀ j s x dt s', s.Sized LinMeasData.Sized n (kd j) → (mc j).myUpdate s x dt = some s' → s'.der.C = .of (C j))
    (hst : ∀ j, (f.env.meas j).fm.checkStationary = false)
    {N : Nat} (js : Fin N → K) (zs : (i : Fin N) → Fin (kd (js i)) → ℝ)
    (Rs : (i : Fin N) → Matrix (Fin (kd (js i))) (Fin (kd (js i))) ℝ) (hR : ∀ i, (Rs i).PosDef) :
    ∃ g, ∃ (x' : Fin n → ℝ) (P' : Matrix (Fin n) (Fin n) ℝ), f.run (kfPlant sc mc) sort
          (List.ofFn fun i => Op.correct (.of (zs i)) (.of (Rs i)) f.getStateTime (some (js i))) = some g ∧
      g.getState = .of x' ∧ g.getCovariance = .of P' ∧ P'.PosDef ∧
      P'⁻¹ = P⁻¹ + ∑ i, (C (js i))ᵀ * (Rs i)⁻¹ * C (js i) ∧
      P'⁻¹ *ᵥ x' = P⁻¹ *ᵥ x + ∑ i, (C (js i))ᵀ *ᵥ ((Rs i)⁻¹ *ᵥ zs i) := by
  obtain ⟨g, Q, g1, g2, g3, g4, g5⟩ := sequential sort hsc hmc hso hmo kd C hC js zs Rs hR f.getStateTime (List.finRange N) f x P
    hx hP hPd.posSemidef rfl hs hm hst
  have hPu := pd_isUnit_det hPd
  have hsumM : ((List.finRange N).map fun i => Kalman.info (C (js i)) (Rs i)).sum
      = ∑ i, (C (js i))ᵀ * (Rs i)⁻¹ * C (js i) := by
    rw [← List.ofFn_eq_map, List.sum_ofFn]; rfl
  have hsumb : ((List.finRange N).map fun i => ((C (js i))ᵀ * (Rs i)⁻¹) *ᵥ zs i).sum
      = ∑ i, (C (js i))ᵀ *ᵥ ((Rs i)⁻¹ *ᵥ zs i) := by
    rw [← List.ofFn_eq_map, List.sum_ofFn]
    exact Finset.sum_congr rfl fun i _ => (Matrix.mulVec_mulVec _ _ _).symm
  rw [hsumM] at g2
  rw [hsumb] at g3
  have hpsd : (∑ i, (C (js i))ᵀ * (Rs i)⁻¹ * C (js i)).PosSemidef := by
    refine Matrix.posSemidef_sum _ fun i _ => ?_
    have := psd_conj (hR i).inv.posSemidef (C (js i))ᵀ
    rwa [Matrix.transpose_transpose] at this
  have hsum : (P⁻¹ + ∑ i, (C (js i))ᵀ * (Rs i)⁻¹ * C (js i)).PosDef := hPd.inv.add_posSemidef hpsd
  have hinv : Q * P * (P⁻¹ + ∑ i, (C (js i))ᵀ * (Rs i)⁻¹ * C (js i)) = 1 := by
    rw [Matrix.mul_assoc, Matrix.mul_add, Matrix.mul_nonsing_inv _ hPu]; exact g2
  have hQP : Q * P = (P⁻¹ + ∑ i, (C (js i))ᵀ * (Rs i)⁻¹ * C (js i))⁻¹ := (Matrix.inv_eq_left_inv hinv).symm
  have hfin : (Q * P)⁻¹ = P⁻¹ + ∑ i, (C (js i))ᵀ * (Rs i)⁻¹ * C (js i) := by
    rw [hQP, Matrix.nonsing_inv_nonsing_inv _ (pd_isUnit_det hsum)]
  refine ⟨g, _, Q * P, ?_, g3, g4, ?_, hfin, ?_⟩
  · rw [List.ofFn_eq_map]; exact g1
  · rw [hQP]; exact hsum.inv
  · have e : ∀ b : Fin n → ℝ, Q *ᵥ (x + P *ᵥ b) = (Q * P) *ᵥ (P⁻¹ *ᵥ x + b) := by
      intro b
      rw [← Matrix.mulVec_mulVec (P⁻¹ *ᵥ x + b) Q P, Matrix.mulVec_add P, Matrix.mulVec_mulVec x P,
        Matrix.mul_nonsing_inv _ hPu, Matrix.one_mulVec]
    rw [e, Matrix.mulVec_mulVec, Matrix.nonsing_inv_mul, Matrix.one_mulVec]
    rw [hQP]
    exact pd_isUnit_det hsum.inv

/-- **C112, merging.**  Any (positive semidefinite) covariance: giving the Kalman filter `N ≥ 1` readings of one sensor at its
current time one after the other has the same effect on state, covariance and time as giving it their merger.  In particular
(`mean_merger`) `N` equally good readings can be replaced by their mean with `1/N` of the covariance. -/
theorem C112_merge {sc : SysClass T LinSysData X} {mc : K → MeasClass T LinMeasData Y}
    (sort : List (FilterInput T DVec DMat K) → List (FilterInput T DVec DMat K))
    (hsc : SysContract LinSysData.Sized sc) (hmc : ∀ j, MeasContract LinMeasData.Sized (mc j))
    (hso : sc.PlainOps) (hmo : ∀ j, (mc j).PlainOps) (kd : K → Nat)
    (f : Filter T DVec DMat K (Env K LinSysData X LinMeasData Y))
    (hs : f.env.sys.Sized LinSysData.Sized n m) (hm : ∀ j, (f.env.meas j).Sized LinMeasData.Sized n (kd j))
    {x : Fin n → ℝ} {P : Matrix (Fin n) (Fin n) ℝ} (hx : f.getState = .of x) (hP : f.getCovariance = .of P)
    (hPsd : P.PosSemidef) (C : (j : K) → Matrix (Fin (kd j)) (Fin n) ℝ)
    (hC : ∀ j s x dt s', s.Sized LinMeasData.Sized n (kd j) → (mc j).myUpdate s x dt = some s' → s'.der.C = .of (C j))
    (hst : ∀ j, (f.env.meas j).fm.checkStationary = false)
    {N : Nat} (hN : 0 < N) (j : K) (zs : Fin N → Fin (kd j) → ℝ) (Rs : Fin N → Matrix (Fin (kd j)) (Fin (kd j)) ℝ)
    (hR : ∀ i, (Rs i).PosDef) (z : Fin (kd j) → ℝ) (R : Matrix (Fin (kd j)) (Fin (kd j)) ℝ) (hmerge : MergerOf zs Rs z R) :
    ∃ g h, f.run (kfPlant sc mc) sort
          (List.ofFn fun i => Op.correct (.of (zs i)) (.of (Rs i)) f.getStateTime (some j)) = some g ∧
      f.correct (kfPlant sc mc) (.of z) (.of R) f.getStateTime (some j) = some h ∧
      g.getState = h.getState ∧ g.getCovariance = h.getCovariance ∧ g.getStateTime = h.getStateTime := by
  obtain ⟨g, Q, g1, g2, g3, g4, g5⟩ := sequential sort hsc hmc hso hmo kd C hC (fun _ => j) zs Rs hR f.getStateTime
    (List.finRange N) f x P hx hP hPsd rfl hs hm hst
  have hsumPd : (∑ i, (Rs i)⁻¹).PosDef := by
    have : Nonempty (Fin N) := ⟨⟨0, hN⟩⟩
    exact Matrix.posDef_sum Finset.univ_nonempty fun i _ => (hR i).inv
  have hRinv : R⁻¹ = ∑ i, (Rs i)⁻¹ := Matrix.inv_eq_right_inv hmerge.information
  have hReq : R = (∑ i, (Rs i)⁻¹)⁻¹ := (Matrix.inv_eq_left_inv hmerge.information).symm
  have hRp : R.PosDef := by rw [hReq]; exact hsumPd.inv
  obtain ⟨h, h1, h2, h3, h4, _⟩ := kf_correct_keeps hsc hmc hso hmo kd C hC f j z R hRp x P hx hP hPsd hs hm hst
  have hRu := pd_isUnit_det hRp
  have hSu := pd_isUnit_det (innov_pd hPsd (C j) hRp)
  have hsh := shrink_mul hSu hRu
  have hsumM : ((List.finRange N).map fun i => Kalman.info (C j) (Rs i)).sum = Kalman.info (C j) R := by
    rw [← List.ofFn_eq_map, List.sum_ofFn]
    unfold Kalman.info
    rw [hRinv, Matrix.mul_sum, Matrix.sum_mul]
  have hsumb : ((List.finRange N).map fun i => ((C j)ᵀ * (Rs i)⁻¹) *ᵥ zs i).sum = ((C j)ᵀ * R⁻¹) *ᵥ z := by
    rw [← List.ofFn_eq_map, List.sum_ofFn, hmerge.mean, ← Matrix.mulVec_mulVec, Matrix.mulVec_mulVec _ R⁻¹,
      Matrix.nonsing_inv_mul _ hRu, Matrix.one_mulVec, Matrix.mulVec_sum]
    exact Finset.sum_congr rfl fun i _ => (Matrix.mulVec_mulVec _ _ _).symm
  rw [hsumM] at g2
  have hQ : Q = 1 - gain P (C j) R * C j := by
    rw [← Matrix.inv_eq_left_inv g2, ← Matrix.inv_eq_left_inv hsh]
  refine ⟨g, h, ?_, h1, ?_, ?_, by rw [g5, h4]⟩
  · rw [List.ofFn_eq_map]; exact g1
  · rw [g3, h2, postState_eq hSu hRu, hsumb, hQ]
  · rw [g4, h3, hQ]; rfl

end

/-! ### Non-vacuity: a position sensor of covariance 1 on the cart, read three times as 4, 5 and 9 -/

theorem posSensor_at (j : Bool) (s : Meas LinMeasData Unit) (x : DVec) (dt : ℝ) (s' : Meas LinMeasData Unit)
    (hs : s.Sized LinMeasData.Sized 2 (stackDim j)) (h : (stackClass j).myUpdate s x dt = some s') :
    s'.der.C = .of (stackC j) := by
  cases j
  · have h' : (if s.stateSize = 2 ∧ s.measDims = 2 then some { s with der := ⟨.of !![1, 0; 1, 0]⟩ } else some s) = some s' := h
    rw [if_pos ⟨hs.states, hs.meas⟩] at h'
    injection h' with h'
    subst h'; rfl
  · have h' : (if s.stateSize = 2 ∧ s.measDims = 1 then some { s with der := ⟨.of !![1, 0]⟩ } else some s) = some s' := h
    rw [if_pos ⟨hs.states, hs.meas⟩] at h'
    injection h' with h'
    subst h'; rfl

/-- three readings of variance 1 have the effect of one reading 6 of variance 1/3 -/
example (sort : List (FilterInput ℝ DVec DMat Bool) → List (FilterInput ℝ DVec DMat Bool)) :
    ∃ g h, stackFilter.run (kfPlant cvClass stackClass) sort
        (List.ofFn fun i : Fin 3 => Op.correct (.of fun _ : Fin 1 => ![4, 5, 9] i) (.of (1 : Matrix (Fin 1) (Fin 1) ℝ)) 0 (some true))
          = some g ∧
      stackFilter.correct (kfPlant cvClass stackClass) (.of fun _ : Fin 1 => 6)
        (.of ((3 : ℝ)⁻¹ • (1 : Matrix (Fin 1) (Fin 1) ℝ))) 0 (some true) = some h ∧
      g.getState = h.getState ∧ g.getCovariance = h.getCovariance ∧ g.getStateTime = h.getStateTime := by
  have hz : (fun _ : Fin 1 => (6 : ℝ)) = ((3 : ℕ) : ℝ)⁻¹ • ∑ i : Fin 3, fun _ : Fin 1 => ![(4 : ℝ), 5, 9] i := by
    funext a
    simp [Fin.sum_univ_three]
    norm_num
  rw [hz]
  refine C112_merge (n := 2) (m := 1) sort cv_contract ?_ (plain_ops _) ?_ stackDim stackFilter
    (cvEnv_ok (Q := EstimatePSD 2)).sys ?_ (x := fun _ => 3) (P := 1) rfl rfl PosSemidef.one stackC posSensor_at (fun _ => rfl)
    (by norm_num : 0 < 3) true (fun i _ => ![4, 5, 9] i) (fun _ => 1) (fun _ => PosDef.one) _ _ ?_
  · intro j; cases j
    · exact twoPos_contract
    · exact pos_contract
  · intro j; cases j
    · exact plain_mops _
    · exact plain_mops _
  · intro j; cases j
    · exact ⟨rfl, rfl, ⟨rfl, rfl⟩, rfl, rfl⟩
    · exact ⟨rfl, rfl, ⟨rfl, rfl⟩, rfl, rfl⟩
  · exact mean_merger (by norm_num : 0 < 3) (fun i _ => ![(4 : ℝ), 5, 9] i) PosDef.one

end Props
end StateEstimation
