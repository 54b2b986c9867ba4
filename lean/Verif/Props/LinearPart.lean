import Verif.Props.Unscented
import Verif.Props.Kalman
import Verif.Props.Rooms

/-!
# C148: what is linear in a nonlinear model is treated exactly
-/

set_option linter.unusedSectionVars false

namespace StateEstimation

open Matrix Kalman Sigma

variable {T K X Y : Type} {n m r k : Nat}

/-! ### Specification -/

/-- The linear combinations `L g()` of the prediction are affine in the state: for a state `q` they are `N q + b`, and the reported
Jacobian says so. -/
def AffinePart (sc : SysClass T NonlinSysData X) (n m : Nat) (s0 : Sys NonlinSysData X) (u : DVec) (dt : T)
    (L N : Matrix (Fin r) (Fin n) ℝ) (b : Fin r → ℝ) : Prop :=
  ∀ (q : Fin n → ℝ) (s : Sys NonlinSysData X), s0.UpdatedAt sc n m (.of q) u dt s →
    ∃ (g : Fin n → ℝ) (G : Matrix (Fin n) (Fin n) ℝ), s.der.g = .of g ∧ s.der.G = .of G ∧ L *ᵥ g = N *ᵥ q + b ∧ L * G = N

/-- The sensor's prediction is affine in the state, `h() = H q + b`. -/
def AffineSensor (mc : MeasClass T NonlinMeasData Y) (n k : Nat) (s0 : Meas NonlinMeasData Y) (dt : T)
    (H : Matrix (Fin k) (Fin n) ℝ) (b : Fin k → ℝ) : Prop :=
  ∀ (q : Fin n → ℝ) (s : Meas NonlinMeasData Y), s0.UpdatedAt mc n k (.of q) dt s → s.der.h = .of (H *ᵥ q + b)

/-! ### The unscented transform -/

namespace LinearPart

theorem mulVec_mean (L : Matrix (Fin r) (Fin k) ℝ) (lam : ℝ) (y : Nat → Fin k → ℝ) :
    L *ᵥ mean n lam y = mean n lam fun j => L *ᵥ y j := by
  unfold mean
  rw [Matrix.mulVec_sum]
  exact Finset.sum_congr rfl fun j _ => Matrix.mulVec_smul _ _ _

theorem conj_cross (L : Matrix (Fin r) (Fin k) ℝ) (lam d : ℝ) (y : Nat → Fin k → ℝ) (a : Fin k → ℝ) :
    L * cross n lam d y y a a * Lᵀ = cross n lam d (fun j => L *ᵥ y j) (fun j => L *ᵥ y j) (L *ᵥ a) (L *ᵥ a) := by
  unfold cross
  rw [Matrix.mul_sum, Matrix.sum_mul]
  refine Finset.sum_congr rfl fun j _ => ?_
  rw [Matrix.mul_smul, Matrix.smul_mul, ← Matrix.mulVec_sub, Matrix.mul_vecMulVec, Matrix.vecMulVec_mul, Matrix.vecMul_transpose]

theorem mulVec_cols (N : Matrix (Fin r) (Fin n) ℝ) (C : Matrix (Fin n) (Fin n) ℝ) (i : Nat) : N *ᵥ colsOf C i = colsOf (N * C) i := by
  unfold colsOf
  split
  · funext a
    simp [Matrix.mulVec, Matrix.mul_apply, dotProduct]
  · simp

/-- affine images of the sigma points -/
theorem transform {lam d : ℝ} (h : 0 < (n : ℝ) + lam) {C P : Matrix (Fin n) (Fin n) ℝ} (hC : C * Cᵀ = ((n : ℝ) + lam) • P)
    {x : Fin n → ℝ} {N : Matrix (Fin r) (Fin n) ℝ} {b : Fin r → ℝ} {w : Nat → Fin r → ℝ} (h0 : w 0 = N *ᵥ x + b)
    (hw : ∀ i < n, w (i + 1) = N *ᵥ (x + colsOf C i) + b ∧ w (i + 1 + n) = N *ᵥ (x - colsOf C i) + b) :
    mean n lam w = N *ᵥ x + b ∧ cross n lam d w w (mean n lam w) (mean n lam w) = N * P * Nᵀ := by
  have hs : Symm n w (colsOf (N * C)) := by
    intro i hi
    rw [(hw i hi).1, (hw i hi).2, h0, ← mulVec_cols, Matrix.mulVec_add, Matrix.mulVec_sub]
    exact ⟨by abel, by abel⟩
  refine ⟨by rw [mean_eq h.ne', Symm.dev lam hs, add_zero, h0], ?_⟩
  rw [cross_eq h.ne', Symm.dev lam hs, Symm.moment lam hs hs, sum_cols, Matrix.transpose_mul, ← Matrix.mul_assoc, Matrix.mul_assoc N,
    hC, Matrix.mul_smul, Matrix.smul_mul, smul_smul, one_div, inv_mul_cancel₀ h.ne', one_smul]
  simp

/-- their cross covariance with the sigma points -/
theorem transform_cross {lam d : ℝ} (h : 0 < (n : ℝ) + lam) {C P : Matrix (Fin n) (Fin n) ℝ} (hC : C * Cᵀ = ((n : ℝ) + lam) • P)
    {q : Nat → Fin n → ℝ} (hq : Symm n q (colsOf C)) {N : Matrix (Fin r) (Fin n) ℝ} {b : Fin r → ℝ} {w : Nat → Fin r → ℝ}
    (hw : ∀ i < 2 * n + 1, w i = N *ᵥ q i + b) : cross n lam d q w (q 0) (mean n lam w) = P * Nᵀ := by
  have hs : Symm n w (colsOf (N * C)) := by
    intro i hi
    rw [hw (i + 1) (by omega), hw (i + 1 + n) (by omega), hw 0 (by omega), ← mulVec_cols, (hq i hi).1, (hq i hi).2, Matrix.mulVec_add,
      Matrix.mulVec_sub]
    exact ⟨by abel, by abel⟩
  rw [cross_central d q w h.ne' (Symm.dev lam hq), Symm.moment lam hq hs, sum_cols, Matrix.transpose_mul, ← Matrix.mul_assoc, hC,
    Matrix.smul_mul, smul_smul, one_div, inv_mul_cancel₀ h.ne', one_smul]

end LinearPart

namespace Props

variable [DecidableEq K] [LinearOrder T] [ExactTime T]

/-- **C148 (UKF).**  `predict(u, t)` of a UKF, with linear combinations `L g()` of the prediction that are affine in the state,
however nonlinear the others are: the new estimate has exactly `L x' = N x + b`, with exactly the claimed covariance
`N P Nᵀ` plus that of the noise, as a Kalman filter has it. -/
theorem C148_ukf {llt : DMat → Option DMat} (hllt : LltSpec llt) (junk : Nat → Nat → ℝ)
    {sc : SysClass T NonlinSysData X} {mc : K → MeasClass T NonlinMeasData Y}
    (hsc : SysContract NonlinSysData.Sized sc) (hso : sc.PlainOps)
    (f : Filter T DVec DMat K (Env K NonlinSysData X NonlinMeasData Y × SigmaParams))
    (hs : f.env.1.sys.Sized NonlinSysData.Sized n m) {al ka be : ℝ} (hsp : setSigma n n al ka be = some f.env.2)
    (hal : 0 < al ^ 2 * (n + ka)) (hbe : al ^ 2 ≤ be)
    {x : Fin n → ℝ} {P : Matrix (Fin n) (Fin n) ℝ} (hx : f.getState = .of x) (hP : f.getCovariance = .of P)
    (hPd : P.PosDef) (u : Fin m → ℝ) (hm : 0 < m) (hn : 0 < n) (t : T) (ht : f.getStateTime ≤ t)
    (hst : (f.env.1.sys.fm.checkStationary && f.env.1.sys.fm.isStationary (.of x) (.of u)) = false)
    {L N : Matrix (Fin r) (Fin n) ℝ} {b : Fin r → ℝ}
    (hL : AffinePart sc n m f.env.1.sys (.of u) (TimeOps.sub t f.getStateTime) L N b) :
    ∃ g p, ∃ (x' : Fin n → ℝ) (P' : Matrix (Fin n) (Fin n) ℝ) (W : Matrix (Fin n) (Fin p) ℝ) (V : Matrix (Fin n) (Fin m) ℝ)
      (Rp : Matrix (Fin p) (Fin p) ℝ) (Rc : Matrix (Fin m) (Fin m) ℝ),
      f.predictControl (ukfPlant llt junk sc mc) (.of u) t = some g ∧ g.getState = .of x' ∧ g.getCovariance = .of P' ∧
      g.env.1.sys.P = .of W ∧ g.env.1.sys.V = .of V ∧ f.env.1.sys.Rp = .of Rp ∧ f.env.1.sys.Rc = .of Rc ∧
      L *ᵥ x' = N *ᵥ x + b ∧ L * P' * Lᵀ = N * P * Nᵀ + L * (W * Rp * Wᵀ + V * Rc * Vᵀ) * Lᵀ := by
  obtain ⟨g, p, C, y, W, V, Rp, Rc, h1, h2, h3, h4, h5, h6, h7, h8, h9, h10, h11, h12, h13, -⟩ :=
    C36_ukf_predict hllt junk (mc := mc) hsc hso f hs hsp hal hbe hx hP hPd u hm hn t ht hst
  have img : ∀ (q v : Fin n → ℝ), SysImage sc n m f.env.1.sys (.of q) (.of u) (TimeOps.sub t f.getStateTime) v →
      L *ᵥ v = N *ᵥ q + b := by
    rintro q v ⟨s, k1, k2⟩
    obtain ⟨g, G, e1, -, e2, -⟩ := hL q s k1
    rw [DVec.of_inj.mp (k2.symm.trans e1)]
    exact e2
  have e : (n : ℝ) + (al ^ 2 * (n + ka) - n) = al ^ 2 * (n + ka) := by ring
  obtain ⟨t1, t2⟩ := LinearPart.transform (d := be - al ^ 2) (lam := al ^ 2 * (n + ka) - n) (by rw [e]; exact hal)
    (by rw [e]; exact h4) (w := fun j => L *ᵥ y j) (img _ _ h5) fun i hi => ⟨img _ _ (h6 i hi).1, img _ _ (h6 i hi).2⟩
  refine ⟨g, p, _, _, W, V, Rp, Rc, h1, h12, h13, h8, h9, h10, h11, ?_, ?_⟩
  · rw [LinearPart.mulVec_mean, t1]
  · rw [Matrix.mul_add, Matrix.add_mul, LinearPart.conj_cross, LinearPart.mulVec_mean, t2, add_comm]

/-- **C148 (EKF).**  The same for an EKF. -/
theorem C148_ekf {sc : SysClass T NonlinSysData X} {mc : K → MeasClass T NonlinMeasData Y}
    (hsc : SysContract NonlinSysData.Sized sc) (f : Filter T DVec DMat K (Env K NonlinSysData X NonlinMeasData Y))
    (hs : f.env.sys.Sized NonlinSysData.Sized n m)
    {x : Fin n → ℝ} {P : Matrix (Fin n) (Fin n) ℝ} (hx : f.getState = .of x) (hP : f.getCovariance = .of P)
    (u : Fin m → ℝ) (hm : 0 < m) (t : T) (ht : f.getStateTime ≤ t)
    (hst : (f.env.sys.fm.checkStationary && f.env.sys.fm.isStationary (.of x) (.of u)) = false)
    {L N : Matrix (Fin r) (Fin n) ℝ} {b : Fin r → ℝ}
    (hL : AffinePart sc n m f.env.sys (.of u) (TimeOps.sub t f.getStateTime) L N b) :
    ∃ g p, ∃ (x' : Fin n → ℝ) (P' : Matrix (Fin n) (Fin n) ℝ) (W : Matrix (Fin n) (Fin p) ℝ) (V : Matrix (Fin n) (Fin m) ℝ)
      (Rp : Matrix (Fin p) (Fin p) ℝ) (Rc : Matrix (Fin m) (Fin m) ℝ),
      f.predictControl (ekfPlant sc mc) (.of u) t = some g ∧ g.getState = .of x' ∧ g.getCovariance = .of P' ∧
      g.env.sys.P = .of W ∧ g.env.sys.V = .of V ∧ f.env.sys.Rp = .of Rp ∧ f.env.sys.Rc = .of Rc ∧
      L *ᵥ x' = N *ᵥ x + b ∧ L * P' * Lᵀ = N * P * Nᵀ + L * (W * Rp * Wᵀ + V * Rc * Vᵀ) * Lᵀ := by
  obtain ⟨g, p, G, W, V, Rp, Rc, a1, a2, a3, a4, a5, a6, a7, a8, a9, a10, -⟩ := C27_ekf_predict (mc := mc) hsc f hs hx hP u hm t ht hst
  obtain ⟨y, G', e1, e2, e3, e4⟩ := hL x g.env.sys ⟨_, hs, Sys.SameConfig.refl _, a3⟩
  obtain rfl := DMat.of_inj.mp (a4.symm.trans e2)
  refine ⟨g, p, y, _, W, V, Rp, Rc, a1, a9.trans e1, a10, a5, a6, a7, a8, e3, ?_⟩
  rw [add_assoc, Matrix.mul_add, Matrix.add_mul, ← e4]
  congr 1
  simp only [Matrix.transpose_mul, Matrix.mul_assoc]

/-- **C148 (UKF correction).**  A sensor that is affine in the state, `h() = H q + b`: whatever the system, the UKF's correction is
the Kalman filter's, in the estimate and in the covariance. -/
theorem C148_ukf_correct {llt : DMat → Option DMat} (hllt : LltSpec llt) (junk : Nat → Nat → ℝ)
    {sc : SysClass T NonlinSysData X} {mc : K → MeasClass T NonlinMeasData Y}
    (hso : sc.PlainOps) (hmc : ∀ j, MeasContract NonlinMeasData.Sized (mc j)) (hmo : ∀ j, (mc j).PlainOps)
    (f : Filter T DVec DMat K (Env K NonlinSysData X NonlinMeasData Y × SigmaParams)) (j : K)
    (hs : f.env.1.sys.Sized NonlinSysData.Sized n m) (hm : (f.env.1.meas j).Sized NonlinMeasData.Sized n k)
    {al ka be : ℝ} (hsp : setSigma n n al ka be = some f.env.2)
    (hal : 0 < al ^ 2 * (n + ka)) (hbe : al ^ 2 ≤ be)
    {x : Fin n → ℝ} {P : Matrix (Fin n) (Fin n) ℝ} (hx : f.getState = .of x) (hP : f.getCovariance = .of P)
    (hPd : P.PosDef) (z : Fin k → ℝ) (R : Matrix (Fin k) (Fin k) ℝ) (hR : R.PosDef)
    (hst : ((f.env.1.meas j).fm.checkStationary && (f.env.1.meas j).fm.isStationary (.of x) (.of z)) = false)
    {H : Matrix (Fin k) (Fin n) ℝ} {b : Fin k → ℝ}
    (hH : AffineSensor (mc j) n k ((f.env.1.meas j).withCov (.of R)) (TimeOps.sub f.getStateTime f.getStateTime) H b) :
    ∃ g, f.correct (ukfPlant llt junk sc mc) (.of z) (.of R) f.getStateTime (some j) = some g ∧
      g.getState = .of (x + (P * Hᵀ * (H * P * Hᵀ + R)⁻¹) *ᵥ (z - (H *ᵥ x + b))) ∧
      g.getCovariance = .of ((1 - P * Hᵀ * (H * P * Hᵀ + R)⁻¹ * H) * P) := by
  obtain ⟨g, C, q, y, zHat, S, D, G, P', h1, h2, h3, h4, h5, h6, h7, h8, h9, h10, h11, h12, h13, h14, -⟩ :=
    C37_ukf_correct hllt junk hso hmc hmo f j hs hm hsp hal hbe hx hP hPd z R hR hst
  have hy : ∀ i < 2 * n + 1, y i = H *ᵥ q i + b := by
    intro i hi
    obtain ⟨s, k1, k2⟩ := h7 i hi
    exact DVec.of_inj.mp (k2.symm.trans (hH _ s k1))
  have e : (n : ℝ) + (al ^ 2 * (n + ka) - n) = al ^ 2 * (n + ka) := by ring
  have hpos : 0 < (n : ℝ) + (al ^ 2 * (n + ka) - n) := by rw [e]; exact hal
  have hCC : C * Cᵀ = ((n : ℝ) + (al ^ 2 * (n + ka) - n)) • P := by rw [e]; exact h4
  have hq : Symm n q (colsOf C) := fun i hi => by rw [h5]; exact h6 i hi
  obtain ⟨t1, t2⟩ := LinearPart.transform (d := be - al ^ 2) hpos hCC (w := y) (x := x) (by rw [hy 0 (by omega), h5]) fun i hi =>
    ⟨by rw [hy (i + 1) (by omega), (h6 i hi).1], by rw [hy (i + 1 + n) (by omega), (h6 i hi).2]⟩
  have t3 := LinearPart.transform_cross (d := be - al ^ 2) hpos hCC hq hy
  rw [← h8] at t1 t2 t3
  rw [h5, ← h10] at t3
  have hS : S = H * P * Hᵀ + R := by rw [h9, t2, add_comm]
  have hG : G = P * Hᵀ * (H * P * Hᵀ + R)⁻¹ := by rw [h11, t3, hS]
  refine ⟨g, h1, by rw [h12, hG, t1], ?_⟩
  have hp := post_eq (psd_symm hPd.posSemidef) (pd_isUnit_det (innov_pd hPd.posSemidef H hR)) (psd_symm hR.posSemidef)
  unfold Kalman.post gain innov at hp
  simp only [← Matrix.mul_assoc] at hp
  rw [h13, h14, hG, hS, hp]

/-! ### A concrete case: the two rooms

`g` has the third power of the difference in it, but the total is conserved. -/

theorem rooms_total (u : DVec) (hu : u.size = 1) (dt : ℝ) : AffinePart noisyRoomsClass 2 1 noisyRoomsEnv.sys u dt total total 0 := by
  rintro q s ⟨s0, hs, -, h⟩
  change (if s0.stateSize = 2 ∧ s0.controlDims = 1 then _ else _) = some s at h
  rw [if_pos ⟨hs.states, hs.controls⟩] at h
  injection h with h
  subst h
  refine ⟨_, _, rfl, rfl, ?_, ?_⟩
  · ext i; fin_cases i; simp [total, Matrix.mulVec, dotProduct, Fin.sum_univ_two]
  · ext i j; fin_cases i; fin_cases j <;> simp [total, Matrix.mul_apply, Fin.sum_univ_two]

/-- a thermometer in the first room that shows two degrees too much -/
noncomputable def thermoClass : MeasClass ℝ NonlinMeasData Unit :=
  MeasClass.plain fun s x _ =>
    if s.stateSize = 2 ∧ s.measDims = 1 then some { s with der := ⟨.of ![entry x 0 + 2], .of !![1, 0]⟩ } else some s

theorem thermo_contract : MeasContract NonlinMeasData.Sized thermoClass := by
  apply Examples.plain_mcontract
  intro n k s x dt hs hx
  split
  next h =>
    have hn : n = 2 := by rw [← hs.states]; exact h.1
    have hk : k = 1 := by rw [← hs.meas]; exact h.2
    subst hn hk
    exact ⟨_, rfl, ⟨hs.states, hs.meas, ⟨rfl, rfl, rfl⟩, hs.cov⟩, ⟨rfl, rfl, rfl, rfl⟩⟩
  next => exact ⟨s, rfl, hs, Meas.SameConfig.refl s⟩

theorem thermo_affine (s0 : Meas NonlinMeasData Unit) (dt : ℝ) : AffineSensor thermoClass 2 1 s0 dt !![1, 0] ![2] := by
  rintro q s ⟨s1, hs, -, h⟩
  change (if s1.stateSize = 2 ∧ s1.measDims = 1 then _ else _) = some s at h
  rw [if_pos ⟨hs.states, hs.meas⟩] at h
  injection h with h
  subst h
  show DVec.of _ = DVec.of _
  congr 1
  ext i; fin_cases i; simp [Matrix.mulVec, dotProduct, Fin.sum_univ_two]

/-- Non-vacuity of C148: heat 6 and 4, variance 9 each; the prediction of the UKF has the total of 10, with the variance of 18 plus
the process noise (the noise of the pump cancels). -/
example {llt : DMat → Option DMat} (hllt : LltSpec llt) (junk : Nat → Nat → ℝ) (sp : SigmaParams)
    (hsp : ukfInitSigma noisyRoomsEnv = some sp) (params : Params ℝ) :=
  C148_ukf hllt junk (mc := fun _ : Unit => thermoClass) noisyRooms_contract ⟨fun _ => rfl, fun _ => rfl, fun _ => rfl⟩
    (Filter.construct (ukfPlant llt junk noisyRoomsClass fun _ : Unit => thermoClass) params (noisyRoomsEnv, sp) (.of ![6, 4])
      (.of ((9 : ℝ) • (1 : Matrix (Fin 2) (Fin 2) ℝ))) 0)
    (n := 2) (m := 1)
    ⟨rfl, rfl, ⟨rfl, rfl, rfl⟩, ⟨rfl, rfl⟩, ⟨rfl, rfl⟩, ⟨rfl, rfl⟩, ⟨rfl, rfl⟩⟩ (al := 0.001) (ka := 0) (be := 2) hsp
    (by norm_num) (by norm_num) rfl rfl (PosDef.one.smul (by norm_num)) ![2] (by norm_num) (by norm_num) 1
    (show (0 : ℝ) ≤ 1 by norm_num) rfl (rooms_total _ rfl _)

/-- … and of the EKF … -/
example (params : Params ℝ) :=
  C148_ekf (mc := fun _ : Unit => thermoClass) noisyRooms_contract
    (Filter.construct (ekfPlant noisyRoomsClass fun _ : Unit => thermoClass) params noisyRoomsEnv (.of ![6, 4])
      (.of ((9 : ℝ) • (1 : Matrix (Fin 2) (Fin 2) ℝ))) 0)
    (n := 2) (m := 1)
    ⟨rfl, rfl, ⟨rfl, rfl, rfl⟩, ⟨rfl, rfl⟩, ⟨rfl, rfl⟩, ⟨rfl, rfl⟩, ⟨rfl, rfl⟩⟩ rfl rfl ![2] (by norm_num) 1
    (show (0 : ℝ) ≤ 1 by norm_num) rfl (rooms_total _ rfl _)

/-- … and of the correction with the thermometer. -/
example {llt : DMat → Option DMat} (hllt : LltSpec llt) (junk : Nat → Nat → ℝ) (sp : SigmaParams)
    (hsp : ukfInitSigma noisyRoomsEnv = some sp) (params : Params ℝ) :=
  C148_ukf_correct hllt junk (sc := noisyRoomsClass) (mc := fun _ : Unit => thermoClass) ⟨fun _ => rfl, fun _ => rfl, fun _ => rfl⟩
    (fun _ => thermo_contract) (fun _ => ⟨fun _ => rfl, fun _ => rfl⟩)
    (Filter.construct (ukfPlant llt junk noisyRoomsClass fun _ : Unit => thermoClass) params (noisyRoomsEnv, sp) (.of ![6, 4])
      (.of ((9 : ℝ) • (1 : Matrix (Fin 2) (Fin 2) ℝ))) 0) ()
    (n := 2) (m := 1) (k := 1)
    ⟨rfl, rfl, ⟨rfl, rfl, rfl⟩, ⟨rfl, rfl⟩, ⟨rfl, rfl⟩, ⟨rfl, rfl⟩, ⟨rfl, rfl⟩⟩ ⟨rfl, rfl, ⟨rfl, rfl, rfl⟩, rfl, rfl⟩
    (al := 0.001) (ka := 0) (be := 2) hsp
    (by norm_num) (by norm_num) rfl rfl (PosDef.one.smul (by norm_num)) ![9] 1 PosDef.one rfl (thermo_affine _ _)

end Props
end StateEstimation
