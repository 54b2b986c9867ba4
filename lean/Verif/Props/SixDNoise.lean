import Verif.Lemmas.SysInv
import Verif.Props.SixDFilter

/-!
# C75: where the process noise of `SixDRates` goes; C76: the flags of `SixDRates`
-/

set_option linter.unusedSectionVars false

namespace StateEstimation.Props

open Matrix Real Examples

open StateEstimation.SixDRates (setM blockM part)

variable {K : Type} [DecidableEq K]

/-! ## Specification -/

/-- Specification: the six bias entries. -/
def IsBias (i : Fin 18) : Prop := 12 ≤ i.val

/-- Specification: three entries of a noise vector, from `i`. -/
def noisePart (q : Fin 15 → ℝ) (i : Nat) (h : i + 3 ≤ 15 := by omega) : V3 := fun k => q ⟨i + k.val, by omega⟩

/-- Specification: `W` is what `P()` returns after `update(x, u, dt)`. -/
def NoiseJacobian (s : SixDRates.Obj) (dt : ℝ) (x : Fin 18 → ℝ) (W : Matrix (Fin 18) (Fin 15) ℝ) : Prop :=
  ∃ s', s.update SixDRates.cls (.of x) (.zero 0) dt = some s' ∧ s'.P = .of W

/-- Specification: a positive semidefinite estimate in which the variance of bias `i` is at most `b i`. -/
def BiasBound (b : Fin 18 → ℝ) (x : DVec) (c : DMat) : Prop :=
  EstimatePSD 18 x c ∧ ∃ C : Matrix (Fin 18) (Fin 18) ℝ, c = .of C ∧ ∀ i, IsBias i → C i i ≤ b i

/-! ## The noise Jacobian -/

/-- `P_` after the update. -/
noncomputable def noise (P : Matrix (Fin 18) (Fin 15) ℝ) (v : Fin 18 → ℝ) (dt : ℝ) : Matrix (Fin 18) (Fin 15) ℝ := fun i j =>
  if h : (9 ≤ i.val ∧ i.val < 12) ∧ 12 ≤ j.val then
    SixDRates.noiseGravity dt (part v 9) (part v 6) ⟨i.val - 9, by omega⟩ ⟨j.val - 12, by omega⟩
  else if i.val < 3 ∧ (j.val = i.val ∨ j.val = i.val + 3) then 0.5 * dt ^ 2
  else if (3 ≤ i.val ∧ i.val < 6) ∧ (j.val + 3 = i.val ∨ j.val = i.val) then dt
  else if (6 ≤ i.val ∧ i.val < 9) ∧ (j.val = i.val ∨ j.val = i.val + 3) then dt
  else P i j

theorem updateNoise_of (P : Matrix (Fin 18) (Fin 15) ℝ) (v : Fin 18 → ℝ) (dt : ℝ) :
    SixDRates.updateNoise (.of P) (.of v) dt = some (.of (noise P v dt)) := by
  simp only [SixDRates.updateNoise, Option.bind_eq_bind, SixDRates.seg3_part _ 9 (by omega), SixDRates.seg3_part _ 6 (by omega)]
  rw [Option.bind_some, Option.bind_some]
  iterate 18
    rw [SixDRates.mset_of _ _ _ _ (by omega), Option.bind_some]
  rw [SixDRates.mblock_of _ 9 12 _ (by omega)]
  congr 2
  funext i j
  fin_cases i <;> fin_cases j <;> rfl

theorem noise_again (P : Matrix (Fin 18) (Fin 15) ℝ) (x0 x : Fin 18 → ℝ) (dt0 dt : ℝ) :
    noise (noise P x0 dt0) x dt = noise P x dt := by
  funext i j
  unfold noise
  split_ifs <;> rfl

/-- the parts of `W * q` -/
theorem noise_mulVec (v : Fin 18 → ℝ) (dt : ℝ) (q : Fin 15 → ℝ) :
    velocityOf (noise 0 v dt *ᵥ q) = (dt ^ 2 / 2) • (noisePart q 0 + noisePart q 3) ∧
    accelOf (noise 0 v dt *ᵥ q) = dt • (noisePart q 0 + noisePart q 3) ∧
    rateOf (noise 0 v dt *ᵥ q) = dt • (noisePart q 6 + noisePart q 9) ∧
    gravityOf (noise 0 v dt *ᵥ q) = SixDRates.noiseGravity dt (gravityOf v) (rateOf v) *ᵥ noisePart q 12 ∧
    ∀ i, IsBias i → (noise 0 v dt *ᵥ q) i = 0 := by
  refine ⟨?_, ?_, ?_, ?_, ?_⟩
  · funext k
    fin_cases k <;>
      simp [velocityOf, Matrix.mulVec, dotProduct, Fin.sum_univ_succ, noise, noisePart] <;> ring
  · funext k
    fin_cases k <;>
      simp [accelOf, Matrix.mulVec, dotProduct, Fin.sum_univ_succ, noise, noisePart] <;> ring
  · funext k
    fin_cases k <;>
      simp [rateOf, Matrix.mulVec, dotProduct, Fin.sum_univ_succ, noise, noisePart] <;> ring
  · funext k
    rw [← part_rate v, ← part_gravity v]
    fin_cases k <;>
      simp [gravityOf, Matrix.mulVec, dotProduct, Fin.sum_univ_succ, noise, noisePart]
  · intro i hi
    unfold IsBias at hi
    show ∑ j, noise 0 v dt i j * q j = 0
    refine Finset.sum_eq_zero (fun j _ => ?_)
    unfold noise
    rw [dif_neg (by omega), if_neg (by omega), if_neg (by omega), if_neg (by omega)]
    exact zero_mul _

/-! ## C76: the flags -/

/-- **C76.** `g()` does not depend on the flags; with `compute_jacobian = false` an update leaves `G()` as it is, with
`update_covariance = false` it leaves `P()` as it is. -/
theorem C76_flags (s : SixDRates.Obj) (hs : s.Sized NonlinSysData.Sized 18 0) (hsh : SixDRates.Shape s)
    (x : Fin 18 → ℝ) (u : DVec) (dt : ℝ) (cj uc : Bool) : ∃ s₁ s₂ : SixDRates.Obj,
    SixDRates.cls.myUpdate s (.of x) u dt = some s₁ ∧
    SixDRates.cls.myUpdate { s with ext := ⟨cj, uc⟩ } (.of x) u dt = some s₂ ∧ s₁.der.g = s₂.der.g ∧
    (cj = false → s₂.der.G = s.der.G) ∧ (uc = false → s₂.P = s.P) ∧
    (cj = s.ext.computeJacobian → s₁.der.G = s₂.der.G) ∧ (uc = s.ext.updateCovariance → s₁.P = s₂.P) := by
  obtain ⟨G, hG⟩ := hs.der.2.exists_of
  have hP15 := hs.P
  rw [hsh.2.2] at hP15
  obtain ⟨P, hP⟩ := hP15.exists_of
  have e : ∀ (o : SixDRates.Obj), SixDRates.Shape o → SixDRates.cls.myUpdate o (.of x) u dt = SixDRates.myUpdate o (.of x) u dt := by
    intro o ho
    show (open Classical in if SixDRates.Shape o then SixDRates.myUpdate o (.of x) u dt else some o) = _
    rw [if_pos ho]
  rw [e s hsh, e { s with ext := ⟨cj, uc⟩ } hsh]
  simp only [SixDRates.myUpdate, Option.bind_eq_bind, SixDRates.predictState_of, Option.bind_some, hG, hP,
    SixDRates.updateJacobian_of, updateNoise_of]
  cases hj : s.ext.computeJacobian <;> cases hu : s.ext.updateCovariance <;> cases cj <;> cases uc <;>
    simp only [if_true, Bool.false_eq_true, if_false, Option.bind_some] <;>
    refine ⟨_, _, rfl, rfl, rfl, ?_, ?_, ?_, ?_⟩ <;> intro h <;> first | rfl | cases h

/-! ## C75 -/

/-- What holds of an object with `update_covariance = true` after construction and updates. -/
structure NoiseState (s : SixDRates.Obj) : Prop where
  sized : s.Sized NonlinSysData.Sized 18 0
  shape : SixDRates.Shape s
  uc : s.ext.updateCovariance = true
  P : s.P = .of (0 : Matrix (Fin 18) (Fin 15) ℝ) ∨ ∃ x dt, s.P = .of (noise 0 x dt)

theorem noise_step (s : SixDRates.Obj) (h : NoiseState s) (x : Fin 18 → ℝ) (dt : ℝ) : ∃ s',
    s.update SixDRates.cls (.of x) (.zero 0) dt = some s' ∧ NoiseState s' ∧ s'.P = .of (noise 0 x dt) := by
  obtain ⟨s', h1, h2, h3, h4, h5, _, h6⟩ := SixDRates.myUpdate_of s h.sized h.shape.2.2 x (.zero 0) dt
  have hP : s'.P = .of (noise 0 x dt) := by
    have h7 := h6 h.uc
    rcases h.P with h8 | ⟨x0, dt0, h8⟩
    · rw [h8, updateNoise_of] at h7
      exact (Option.some.inj h7).symm
    · rw [h8, updateNoise_of, noise_again] at h7
      exact (Option.some.inj h7).symm
  refine ⟨s', ?_, ⟨h2, SixDRates.shape_update h.shape h3, by rw [h4]; exact h.uc, Or.inr ⟨x, dt, hP⟩⟩, hP⟩
  unfold Sys.update
  rw [if_pos ⟨h.sized.states.symm, h.sized.controls.symm⟩]
  show (open Classical in if SixDRates.Shape s then SixDRates.myUpdate s (.of x) (.zero 0) dt else some s) = _
  rw [if_pos h.shape, h1]

theorem noise_updates : ∀ (l : List ((Fin 18 → ℝ) × ℝ)) (s : SixDRates.Obj), NoiseState s →
    ∃ s', updates s l = some s' ∧ NoiseState s'
  | [], s, h => ⟨s, rfl, h⟩
  | (x, dt) :: l, s, h => by
      obtain ⟨s', h1, h2, _⟩ := noise_step s h x dt
      obtain ⟨s'', h3, h4⟩ := noise_updates l s' h2
      exact ⟨s'', by rw [updates, h1, Option.bind_some, h3], h4⟩

theorem noise_construct (cj : Bool) : NoiseState (SixDRates.construct cj true) :=
  ⟨SixDRates.construct_sized cj true, SixDRates.construct_shape cj true, rfl, Or.inl rfl⟩

theorem half_angle_cos (dt : ℝ) (w : V3) : |(deltaQuaternion dt w).w - 1| ≤ (dt * norm3 w) ^ 2 / 8 := by
  by_cases h : norm3 w > 1e-9
  · rw [deltaQuaternion_big h]
    show |cos (0.5 * dt * norm3 w) - 1| ≤ _
    have h1 := cos_le_one (0.5 * dt * norm3 w)
    have h2 := one_sub_sq_div_two_le_cos (x := 0.5 * dt * norm3 w)
    rw [abs_of_nonpos (by linarith)]
    have : (0.5 * dt * norm3 w) ^ 2 / 2 = (dt * norm3 w) ^ 2 / 8 := by ring
    linarith
  · rw [deltaQuaternion_small h]
    show |(1 : ℝ) - 1| ≤ _
    rw [sub_self, abs_zero]
    positivity

theorem norm3_cross (a b : V3) : norm3 (crossProduct a b) ≤ norm3 a * norm3 b := by
  have h : sqNorm (crossProduct a b) ≤ (norm3 a * norm3 b) ^ 2 := by
    rw [mul_pow, norm3_sq, norm3_sq]
    simp only [sqNorm, crossProduct, LinearMap.mk₂_apply, Matrix.cons_val_zero, Matrix.cons_val_one, Matrix.cons_val]
    nlinarith [sq_nonneg (a 0 * b 0 + a 1 * b 1 + a 2 * b 2)]
  exact sqrt_le_iff.mpr ⟨mul_nonneg (norm3_nonneg a) (norm3_nonneg b), h⟩

theorem noiseGravity_mulVec (dt : ℝ) (g w c : V3) : SixDRates.noiseGravity dt g w *ᵥ c = (dt ^ 2 / 2) • crossProduct c g +
    (dt ^ 2 / 2) • ((((deltaQuaternion dt w).w - 1) • crossProduct c g + (dt / 2 * (g ⬝ᵥ c)) • w) + (dt * (w ⬝ᵥ g)) • c) := by
  unfold SixDRates.noiseGravity
  ext i
  fin_cases i <;>
    simp [Matrix.mulVec, dotProduct, Fin.sum_univ_three, skew, crossProduct, Matrix.vecMulVec_apply, Matrix.one_apply, Matrix.vecHead, Matrix.vecTail] <;>
    ring

/-- **C75, what holds.** After construction and any updates, the noise components are carried into the state as follows:
a jerk (documented as linear jerk, and likewise the one documented as linear *bias* jerk) changes the velocity by `dt²/2`
and the acceleration by `dt` times itself, an angular acceleration (and likewise the one documented as angular *bias*
acceleration) changes the rate by `dt` times itself, and the gravity angular acceleration `γ` turns gravity by
`dt²/2 γ × g` up to terms of third order.  Missing: the biases, which no noise reaches. -/
theorem C75_noise_partial (cj : Bool) (l : List ((Fin 18 → ℝ) × ℝ)) (x : Fin 18 → ℝ) (dt : ℝ) :
    ∃ s W, updates (SixDRates.construct cj true) l = some s ∧ NoiseJacobian s dt x W ∧ ∀ q : Fin 15 → ℝ,
      velocityOf (W *ᵥ q) = (dt ^ 2 / 2) • (noisePart q 0 + noisePart q 3) ∧
      accelOf (W *ᵥ q) = dt • (noisePart q 0 + noisePart q 3) ∧
      rateOf (W *ᵥ q) = dt • (noisePart q 6 + noisePart q 9) ∧
      norm3 (gravityOf (W *ᵥ q) - (dt ^ 2 / 2) • crossProduct (noisePart q 12) (gravityOf x)) ≤
        dt ^ 2 / 2 * (3 / 2 * (|dt| * norm3 (rateOf x)) + (dt * norm3 (rateOf x)) ^ 2 / 8) *
          norm3 (gravityOf x) * norm3 (noisePart q 12) ∧
      ∀ i, IsBias i → (W *ᵥ q) i = 0 := by
  obtain ⟨s, h1, h2⟩ := noise_updates l _ (noise_construct cj)
  obtain ⟨s', h3, _, h4⟩ := noise_step s h2 x dt
  refine ⟨s, noise 0 x dt, h1, ⟨s', h3, h4⟩, fun q => ?_⟩
  obtain ⟨a1, a2, a3, a4, a5⟩ := noise_mulVec x dt q
  refine ⟨a1, a2, a3, ?_, a5⟩
  rw [a4, noiseGravity_mulVec, add_sub_cancel_left, norm3_smul, abs_of_nonneg (by positivity : (0 : ℝ) ≤ dt ^ 2 / 2)]
  generalize noisePart q 12 = c
  generalize gravityOf x = g
  generalize rateOf x = w
  have k1 := half_angle_cos dt w
  have k2 := norm3_cross c g
  have k3 := dot_abs g c
  have k4 := dot_abs w g
  have hw := norm3_nonneg w
  have hg := norm3_nonneg g
  have hc := norm3_nonneg c
  have hd := abs_nonneg dt
  have b1 : norm3 (((deltaQuaternion dt w).w - 1) • crossProduct c g) ≤ (dt * norm3 w) ^ 2 / 8 * (norm3 c * norm3 g) := by
    rw [norm3_smul]
    exact mul_le_mul k1 k2 (norm3_nonneg _) (by positivity)
  have b2 : norm3 ((dt / 2 * (g ⬝ᵥ c)) • w) ≤ |dt| / 2 * (norm3 g * norm3 c) * norm3 w := by
    rw [norm3_smul, abs_mul, abs_div, abs_of_pos (by norm_num : (0:ℝ) < 2)]
    exact mul_le_mul_of_nonneg_right (mul_le_mul_of_nonneg_left k3 (by positivity)) hw
  have b3 : norm3 ((dt * (w ⬝ᵥ g)) • c) ≤ |dt| * (norm3 w * norm3 g) * norm3 c := by
    rw [norm3_smul, abs_mul]
    exact mul_le_mul_of_nonneg_right (mul_le_mul_of_nonneg_left k4 hd) hc
  have t1 := norm3_add (((deltaQuaternion dt w).w - 1) • crossProduct c g + (dt / 2 * (g ⬝ᵥ c)) • w) ((dt * (w ⬝ᵥ g)) • c)
  have t2 := norm3_add (((deltaQuaternion dt w).w - 1) • crossProduct c g) ((dt / 2 * (g ⬝ᵥ c)) • w)
  have hsum : norm3 (((deltaQuaternion dt w).w - 1) • crossProduct c g + (dt / 2 * (g ⬝ᵥ c)) • w + (dt * (w ⬝ᵥ g)) • c) ≤
      (3 / 2 * (|dt| * norm3 w) + (dt * norm3 w) ^ 2 / 8) * norm3 g * norm3 c := by
    have : (3 / 2 * (|dt| * norm3 w) + (dt * norm3 w) ^ 2 / 8) * norm3 g * norm3 c =
      (dt * norm3 w) ^ 2 / 8 * (norm3 c * norm3 g) + |dt| / 2 * (norm3 g * norm3 c) * norm3 w + |dt| * (norm3 w * norm3 g) * norm3 c := by ring
    rw [this]
    linarith
  calc dt ^ 2 / 2 * _ ≤ dt ^ 2 / 2 * ((3 / 2 * (|dt| * norm3 w) + (dt * norm3 w) ^ 2 / 8) * norm3 g * norm3 c) :=
        mul_le_mul_of_nonneg_left hsum (by positivity)
    _ = _ := by ring

/-- The system model's matrices leave the biases alone: their rows of `G()` are those of the identity, their rows of `P()`
are zero.  True after construction; no member function changes it. -/
def BiasesAlone (s : SixDRates.Obj) : Prop :=
  ∃ (G : Matrix (Fin 18) (Fin 18) ℝ) (W : Matrix (Fin 18) (Fin 15) ℝ), s.der.G = .of G ∧ s.P = .of W ∧
    ∀ i, IsBias i → (∀ j, G i j = (1 : Matrix (Fin 18) (Fin 18) ℝ) i j) ∧ ∀ j, W i j = 0

theorem biasesAlone_construct (cj uc : Bool) : BiasesAlone (SixDRates.construct cj uc) :=
  ⟨1, 0, rfl, rfl, fun _ _ => ⟨fun _ => rfl, fun _ => rfl⟩⟩

theorem biasesAlone_update {s : SixDRates.Obj} (hs : s.Sized NonlinSysData.Sized 18 0) (hsh : SixDRates.Shape s) (h : BiasesAlone s)
    (x : Fin 18 → ℝ) (u : DVec) (dt : ℝ) : ∃ s', SixDRates.cls.myUpdate s (.of x) u dt = some s' ∧ BiasesAlone s' := by
  obtain ⟨G, W, hG, hW, hb⟩ := h
  have e : SixDRates.cls.myUpdate s (.of x) u dt = SixDRates.myUpdate s (.of x) u dt := by
    show (open Classical in if SixDRates.Shape s then SixDRates.myUpdate s (.of x) u dt else some s) = _
    rw [if_pos hsh]
  rw [e]
  simp only [SixDRates.myUpdate, Option.bind_eq_bind, SixDRates.predictState_of, Option.bind_some, hG, hW,
    SixDRates.updateJacobian_of, updateNoise_of]
  have gG : ∀ i, IsBias i → ∀ j, SixDRates.jacobian G x dt i j = (1 : Matrix (Fin 18) (Fin 18) ℝ) i j := by
    intro i hi j
    unfold IsBias at hi
    rw [SixDRates.jacobian_apply, dif_neg (by omega), dif_neg (by omega), if_neg (by omega)]
    exact (hb i hi).1 j
  have gW : ∀ i, IsBias i → ∀ j, noise W x dt i j = 0 := by
    intro i hi j
    unfold IsBias at hi
    unfold noise
    rw [dif_neg (by omega), if_neg (by omega), if_neg (by omega), if_neg (by omega)]
    exact (hb i hi).2 j
  cases hj : s.ext.computeJacobian <;> cases hu : s.ext.updateCovariance <;>
    simp only [if_true, Bool.false_eq_true, if_false, Option.bind_some] <;> refine ⟨_, rfl, ?_⟩
  · exact ⟨G, W, rfl, rfl, hb⟩
  · exact ⟨G, noise W x dt, rfl, rfl, fun i hi => ⟨(hb i hi).1, gW i hi⟩⟩
  · exact ⟨SixDRates.jacobian G x dt, W, rfl, rfl, fun i hi => ⟨gG i hi, (hb i hi).2⟩⟩
  · exact ⟨SixDRates.jacobian G x dt, noise W x dt, rfl, rfl, fun i hi => ⟨gG i hi, gW i hi⟩⟩

theorem bias_entry {G C : Matrix (Fin 18) (Fin 18) ℝ} {W : Matrix (Fin 18) (Fin 15) ℝ} {Rp : Matrix (Fin 15) (Fin 15) ℝ}
    {V : Matrix (Fin 18) (Fin 0) ℝ} {Rc : Matrix (Fin 0) (Fin 0) ℝ} {i : Fin 18}
    (hG : ∀ j, G i j = (1 : Matrix (Fin 18) (Fin 18) ℝ) i j) (hW : ∀ j, W i j = 0) :
    (G * C * Gᵀ + W * Rp * Wᵀ + V * Rc * Vᵀ) i i = C i i := by
  have hr : ∀ k, (G * C) i k = C i k := by
    intro k
    rw [Matrix.mul_apply]
    simp only [hG]
    rw [← Matrix.mul_apply, Matrix.one_mul]
  have h1 : (G * C * Gᵀ) i i = C i i := by
    rw [Matrix.mul_apply]
    simp only [hr, Matrix.transpose_apply, hG, Matrix.one_apply]
    simp
  have h2 : (W * Rp * Wᵀ) i i = 0 := by
    rw [Matrix.mul_apply]
    refine Finset.sum_eq_zero (fun j _ => ?_)
    rw [Matrix.transpose_apply, hW, mul_zero]
  have h3 : (V * Rc * Vᵀ) i i = 0 := by
    rw [Matrix.mul_apply]
    exact Finset.sum_of_isEmpty _
  rw [Matrix.add_apply, Matrix.add_apply, h1, h2, h3, add_zero, add_zero]

theorem ekf_bias_inv {Y : Type} {mc : K → MeasClass ℝ NonlinMeasData Y} (hmc : ∀ j, MeasContract NonlinMeasData.Sized (mc j))
    (kd : K → Nat) (b : Fin 18 → ℝ) :
    PlantInv (ekfPlant SixDRates.cls mc) True (BiasBound b)
      (fun e => Env.Ok NonlinSysData.Sized NonlinMeasData.Sized SixDNoise (BiasBound b) 18 0 kd e ∧ BiasesAlone e.sys)
      (fun u => u.size = 0)
      (fun R => R.Is 0 0 ∧ R.PSD) (fun z c k => z.size = kd k ∧ c.Is (kd k) (kd k) ∧ c.PD) := by
  refine mkPlant_inv_sys (fun _ _ h => h) (fun s _ _ s' h h' => ?_) SixDRates.contract hmc (fun _ _ h => h.1.1.1)
    (fun _ _ _ h h' => ⟨⟨h.1.1, h'⟩, h.2⟩) (fun _ _ h => h.1.2) ?_ ?_
  · cases Option.some.inj h'; exact h
  · intro e x c u dt he ha hx hu
    obtain ⟨s', x', c', h1, h2, h3, h4⟩ := ekfPredict_psd SixDRates.contract he.sys he.noise.1.1 he.noise.1.2 hx.1 hu dt
      (fun s => ({ e with sys := s } : Env K NonlinSysData SixDRates.Flags NonlinMeasData Y))
    obtain ⟨v, rfl⟩ := x.exists_of hx.1.1.1
    have hsh : SixDRates.Shape e.sys := ⟨he.sys.states, he.sys.controls, he.noise.2⟩
    obtain ⟨s'', g1, g2⟩ := biasesAlone_update he.sys hsh ha v u dt
    have hup : e.sys.update SixDRates.cls (.of v) u dt = some s'' := by
      unfold Sys.update
      rw [if_pos ⟨he.sys.states.symm, by rw [hu]; exact he.sys.controls.symm⟩, g1]
    obtain ⟨t, k1, k2, k3⟩ := he.sys.update SixDRates.contract (x := .of v) rfl hu dt
    rw [hup] at k1; cases k1
    obtain ⟨C, rfl, hC⟩ := hx.2
    obtain ⟨G, W, hG, hW, hb⟩ := g2
    obtain ⟨V, hV⟩ := k2.V.exists_of
    obtain ⟨Rc, hRc⟩ := k2.Rc.exists_of
    have hRp15 : s''.Rp.Is 15 15 := by
      have := k2.Rp
      rw [k3.Rp] at this ⊢
      obtain ⟨r1, r2⟩ := this
      exact ⟨he.noise.2, by rw [r2]; exact he.noise.2⟩
    obtain ⟨Rp, hRp⟩ := hRp15.exists_of
    have hval : ekfPredict SixDRates.cls e.sys (.of v) (.of C) u dt
        (fun s => ({ e with sys := s } : Env K NonlinSysData SixDRates.Flags NonlinMeasData Y)) =
        some (s''.der.g, .of (G * C * Gᵀ + W * Rp * Wᵀ + V * Rc * Vᵀ), { e with sys := s'' }) := by
      unfold ekfPredict
      simp only [Option.bind_eq_bind, hup, Option.bind_some, hG, hW, hRp, hV, hRc, propagateCov_of]
    rw [hval] at h1
    obtain ⟨-, rfl, hs⟩ : s''.der.g = x' ∧ .of (G * C * Gᵀ + W * Rp * Wᵀ + V * Rc * Vᵀ) = c' ∧
        ({ e with sys := s'' } : Env K NonlinSysData SixDRates.Flags NonlinMeasData Y) = { e with sys := s' } := by
      have := Option.some.inj h1
      exact ⟨congrArg Prod.fst this, congrArg (fun r => r.2.1) this, congrArg (fun r => r.2.2) this⟩
    refine OptP.of_eq hval ⟨⟨?_, _, rfl, fun i hi => ?_⟩, he.setSys k2 k3, ⟨G, W, hG, hW, hb⟩⟩
    · exact ⟨⟨k2.der.1, rfl, rfl⟩, h2.2⟩
    · rw [bias_entry (hb i hi).1 (hb i hi).2]
      exact hC i hi
  · intro e x c z j dt he ha hx hz hR
    obtain ⟨m', x', c', h1, h2, h3, h4, P, P', h5, h6, h7⟩ := ekfCorrect_psd SixDRates.contract (hmc j) he.sys (he.meas j) hR hx.1 hz dt
      (e.setMeas j)
    refine OptP.of_eq h1 ⟨⟨h2, P', h6, fun i hi => ?_⟩, he.setMeas j h3 h4, ha⟩
    obtain ⟨C, hC, hb⟩ := hx.2
    have : C = P := of_inj (hC.symm.trans h5)
    subst this
    have hd := h7.diag_nonneg (i := i)
    rw [Matrix.sub_apply] at hd
    linarith [hb i hi]

/-- **C75, refuted.** An EKF on the 6-D rates model with any sensors and any process noise: whatever process noise is
configured for the biases, in every sequence of calls (predictions, corrections, queues, out-of-order data, reverts, changes
of the process noise) the variance of a bias never exceeds the one the filter was initialised with (`b`). -/
theorem C75_refuted_bias_variance_never_grows {Y : Type} {mc : K → MeasClass ℝ NonlinMeasData Y}
    (hmc : ∀ j, MeasContract NonlinMeasData.Sized (mc j)) (kd : K → Nat) (b : Fin 18 → ℝ)
    (sort : List (FilterInput ℝ DVec DMat K) → List (FilterInput ℝ DVec DMat K)) (hsort : ∀ l, (sort l).Perm l)
    (params : Params ℝ) (e : Env K NonlinSysData SixDRates.Flags NonlinMeasData Y)
    (he : e.Ok NonlinSysData.Sized NonlinMeasData.Sized SixDNoise (BiasBound b) 18 0 kd) (cj uc : Bool)
    (Rp : Matrix (Fin 15) (Fin 15) ℝ) (hsys : e.sys = { SixDRates.construct cj uc with Rp := .of Rp })
    (x : DVec) (c : DMat) (t : ℝ) (hx : BiasBound b x c)
    (ops : List (Op ℝ DVec DMat K (Env K NonlinSysData SixDRates.Flags NonlinMeasData Y)))
    (hops : ∀ op ∈ ops, op.WellFormed (BiasBound b) (fun e =>
      Env.Ok NonlinSysData.Sized NonlinMeasData.Sized SixDNoise (BiasBound b) 18 0 kd e ∧ BiasesAlone e.sys) 0 kd DMat.PD) :
    ∃ g, (Filter.construct (ekfPlant SixDRates.cls mc) params e x c t).run (ekfPlant SixDRates.cls mc) sort ops = some g ∧
      ∀ s ∈ g.retained, ∃ C : Matrix (Fin 18) (Fin 18) ℝ, s.covariance = .of C ∧ ∀ i, IsBias i → C i i ≤ b i := by
  obtain ⟨g, h1, h2, _⟩ := OptP.exists_of_total (mkPlant_run_inv (ekf_bias_inv hmc kd b) sort hsort params e
    ⟨he, by rw [hsys]; exact biasesAlone_construct cj uc⟩ x c t hx ops hops)
  exact ⟨g, h1, fun s hs => (h2 s hs).2⟩

/-- Non-vacuity of C75: unit process noise in all 15 components, in particular the bias ones, the sensors as constructed, and
a run with predictions, a correction, and a tenfold increase of the process noise: the variance of every bias is at most the
initial 1 in every estimate. -/
example (sort : List (FilterInput ℝ DVec DMat Bool) → List (FilterInput ℝ DVec DMat Bool)) (hsort : ∀ l, (sort l).Perm l) :
    ∃ odom imu g, SixDRatesOdom.construct true = some odom ∧ SixDRatesImu.construct true = some imu ∧
      (Filter.construct (ekfPlant SixDRates.cls sixDSensors) { rewindHistory := true, historyWindow := 5, allowPast := false }
        { sixDEnv odom imu with sys := { SixDRates.construct true true with Rp := .of (1 : Matrix (Fin 15) (Fin 15) ℝ) } }
        (.of levelState) (.identity 18) 0).run (ekfPlant SixDRates.cls sixDSensors) sort
        [.predictTime 1, .correct (.zero 4) (.identity 4) 2 false,
          .userModel (fun e => (e.sys.setProcessCovariance (.of ((10 : ℝ) • 1 : Matrix (Fin 15) (Fin 15) ℝ))).map fun s => { e with sys := s }),
          .predictTime 100] = some g ∧
      ∀ s ∈ g.retained, ∃ C : Matrix (Fin 18) (Fin 18) ℝ, s.covariance = .of C ∧ ∀ i, IsBias i → C i i ≤ 1 := by
  obtain ⟨odom, _, ho, _⟩ := odom_state []
  obtain ⟨imu, _, hi, _⟩ := imu_state []
  have ok := sixDEnv_ok ho hi (Q := BiasBound fun _ => 1)
  obtain ⟨g, h1, h2⟩ := C75_refuted_bias_variance_never_grows (K := Bool) sixDSensors_contract sixDDims (fun _ => 1) sort hsort
    { rewindHistory := true, historyWindow := 5, allowPast := false }
    { sixDEnv odom imu with sys := { SixDRates.construct true true with Rp := .of (1 : Matrix (Fin 15) (Fin 15) ℝ) } }
    ⟨⟨ok.sys.states, ok.sys.controls, ok.sys.der, ⟨rfl, rfl⟩, ⟨rfl, rfl⟩, ok.sys.V, ok.sys.Rc⟩,
      ⟨⟨⟨rfl, PosSemidef.one⟩, ok.noise.1.2⟩, rfl⟩, ok.sysMake, ok.meas, ok.measMake⟩ true true 1 rfl (.of levelState)
    (.identity 18) 0 ⟨level_estimate.1, 1, rfl, fun i _ => by rw [Matrix.one_apply_eq]⟩
    [.predictTime 1, .correct (.zero 4) (.identity 4) 2 false,
      .userModel (fun e => (e.sys.setProcessCovariance (.of ((10 : ℝ) • 1 : Matrix (Fin 15) (Fin 15) ℝ))).map fun s => { e with sys := s }),
      .predictTime 100] (by
      intro op hop
      simp only [List.mem_cons, List.not_mem_nil, or_false] at hop
      rcases hop with rfl | rfl | rfl | rfl
      · trivial
      · exact ⟨false, rfl, rfl, ⟨rfl, rfl⟩, identity_pd 4⟩
      · intro e he
        have hr : e.sys.Rp.cols = 15 := by rw [he.1.sys.Rp.2]; exact he.1.noise.2
        refine ⟨{ e with sys := { e.sys with Rp := .of ((10 : ℝ) • 1 : Matrix (Fin 15) (Fin 15) ℝ) } }, ?_, ?_, he.2⟩
        · show (e.sys.setProcessCovariance _).map _ = _
          unfold Sys.setProcessCovariance
          rw [if_pos ⟨he.1.noise.2.symm, hr.symm⟩]; rfl
        · refine ⟨⟨he.1.sys.states, he.1.sys.controls, he.1.sys.der, ⟨he.1.sys.P.1, ?_⟩, ⟨rfl, rfl⟩, he.1.sys.V, he.1.sys.Rc⟩,
            ⟨⟨⟨rfl, PosSemidef.one.smul (show (0 : ℝ) ≤ 10 by norm_num)⟩, he.1.noise.1.2⟩, rfl⟩, he.1.sysMake, he.1.meas, he.1.measMake⟩
          show e.sys.P.cols = 15
          rw [he.1.sys.P.2]; exact he.1.noise.2
      · trivial)
  exact ⟨odom, imu, g, ho, hi, h1, h2⟩

end StateEstimation.Props
