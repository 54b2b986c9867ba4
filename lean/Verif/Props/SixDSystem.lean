import Verif.Props.SixDSensors
import Mathlib.Analysis.SpecialFunctions.Trigonometric.Bounds
import Mathlib.Analysis.Calculus.Deriv.Pi
import Mathlib.Analysis.Calculus.Deriv.Mul

/-!
# C55 (system model): `G()` of `SixDRates` is not the derivative of `g()`, only an approximation
-/

namespace StateEstimation.Props

open Matrix Real

open StateEstimation.SixDRates (jacobian jacobian_apply)

/-! ## Specification -/

/-- Specification: `f` is what `g()` returns after `update(x, u, dt)`, as a function of `x`. -/
def PredictsState (s : SixDRates.Obj) (dt : ℝ) (f : (Fin 18 → ℝ) → (Fin 18 → ℝ)) : Prop :=
  ∀ x, ∃ s', s.update SixDRates.cls (.of x) (.zero 0) dt = some s' ∧ s'.der.g = .of (f x)

/-- Specification: `G` is what `G()` returns after `update(x, u, dt)`. -/
def Linearises (s : SixDRates.Obj) (dt : ℝ) (x : Fin 18 → ℝ) (G : Matrix (Fin 18) (Fin 18) ℝ) : Prop :=
  ∃ s', s.update SixDRates.cls (.of x) (.zero 0) dt = some s' ∧ s'.der.G = .of G

/-- A sequence of `update` calls. -/
noncomputable def updates (s : SixDRates.Obj) : List ((Fin 18 → ℝ) × ℝ) → Option SixDRates.Obj
  | [] => some s
  | (x, dt) :: l => (s.update SixDRates.cls (.of x) (.zero 0) dt).bind fun s => updates s l

/-! ## The matrix -/

theorem jacobian_again (x0 x : Fin 18 → ℝ) (dt0 dt : ℝ) : jacobian (jacobian 1 x0 dt0) x dt = jacobian 1 x dt := by
  funext i j
  rw [jacobian_apply, jacobian_apply 1 x]
  split_ifs with h1 h2 h3
  · rfl
  · rfl
  · rfl
  · rw [jacobian_apply, dif_neg h1, dif_neg h2, if_neg h3]

/-- What holds of an object after construction and updates. -/
structure RatesState (s : SixDRates.Obj) : Prop where
  sized : s.Sized NonlinSysData.Sized 18 0
  shape : SixDRates.Shape s
  jac : s.ext.computeJacobian = true
  used : s.fm.stateUsage = List.replicate 18 true
  G : s.der.G = .of (1 : Matrix (Fin 18) (Fin 18) ℝ) ∨ ∃ x dt, s.der.G = .of (jacobian 1 x dt)

theorem rates_step (s : SixDRates.Obj) (h : RatesState s) (x : Fin 18 → ℝ) (dt : ℝ) : ∃ s',
    s.update SixDRates.cls (.of x) (.zero 0) dt = some s' ∧ RatesState s' ∧ s'.der.g = .of (SixDRates.predicted s x dt) ∧
    s'.der.G = .of (jacobian 1 x dt) := by
  obtain ⟨s', h1, h2, h3, h4, h5, h6, _⟩ := SixDRates.myUpdate_of s h.sized h.shape.2.2 x (.zero 0) dt
  have hG : s'.der.G = .of (jacobian 1 x dt) := by
    have h7 := h6 h.jac
    rcases h.G with h8 | ⟨x0, dt0, h8⟩
    · rw [h8, SixDRates.updateJacobian_of] at h7
      exact (Option.some.inj h7).symm
    · rw [h8, SixDRates.updateJacobian_of, jacobian_again] at h7
      exact (Option.some.inj h7).symm
  refine ⟨s', ?_, ⟨h2, SixDRates.shape_update h.shape h3, by rw [h4]; exact h.jac, by rw [h3.fm]; exact h.used,
    Or.inr ⟨x, dt, hG⟩⟩, h5, hG⟩
  unfold Sys.update
  rw [if_pos ⟨h.sized.states.symm, h.sized.controls.symm⟩]
  show (open Classical in if SixDRates.Shape s then SixDRates.myUpdate s (.of x) (.zero 0) dt else some s) = _
  rw [if_pos h.shape, h1]

theorem rates_updates : ∀ (l : List ((Fin 18 → ℝ) × ℝ)) (s : SixDRates.Obj), RatesState s →
    ∃ s', updates s l = some s' ∧ RatesState s'
  | [], s, h => ⟨s, rfl, h⟩
  | (x, dt) :: l, s, h => by
      obtain ⟨s', h1, h2, _⟩ := rates_step s h x dt
      obtain ⟨s'', h3, h4⟩ := rates_updates l s' h2
      exact ⟨s'', by rw [updates, h1, Option.bind_some, h3], h4⟩

theorem rates_construct (uc : Bool) : RatesState (SixDRates.construct true uc) :=
  ⟨SixDRates.construct_sized true uc, SixDRates.construct_shape true uc, rfl, rfl, Or.inl rfl⟩

/-! ## What changes with the state -/

theorem rates_used {s : SixDRates.Obj} (h : RatesState s) : SixDRates.gravityUsed s = true ∧
    ∀ i : Nat, i < 3 → SixDRates.used s i = 1 := by
  constructor
  · unfold SixDRates.gravityUsed; rw [h.used]; rfl
  · intro i hi
    unfold SixDRates.used
    rw [h.used]
    interval_cases i <;> simp

theorem rot_add (q : Quat) (a b : V3) : q.rot (a + b) = q.rot a + q.rot b := by
  simp only [rot_eq]
  ext i
  fin_cases i <;> simp <;> ring

theorem rk4_add (dt : ℝ) (a b w : V3) :
    integrateVelocityRK4 dt (a + b) w 0 = integrateVelocityRK4 dt a w 0 + integrateVelocityRK4 dt b w 0 := by
  simp only [integrateVelocityRK4, rot_add]
  ext i
  simp only [Pi.add_apply, Pi.smul_apply, smul_eq_mul, Pi.zero_apply]
  ring

/-- The prediction changes linearly along directions that leave the rate alone. -/
theorem predicted_change {s : SixDRates.Obj} (h : RatesState s) (x v : Fin 18 → ℝ) (dt : ℝ) (hv : rateOf v = 0) :
    (∀ i : Fin 18, 3 ≤ i.val → NotGravity i → SixDRates.predicted s (x + v) dt i = SixDRates.predicted s x dt i + v i) ∧
    velocityOf (SixDRates.predicted s (x + v) dt) =
      velocityOf (SixDRates.predicted s x dt) + velocityOf v + integrateVelocityRK4 dt (accelOf v) (rateOf x) 0 ∧
    gravityOf (SixDRates.predicted s (x + v) dt) =
      gravityOf (SixDRates.predicted s x dt) + (deltaQuaternion dt (rateOf x)).rot (gravityOf v) := by
  have hr : rateOf (x + v) = rateOf x := by
    have : rateOf (x + v) = rateOf x + rateOf v := by funext k; fin_cases k <;> rfl
    rw [this, hv, add_zero]
  have ha : accelOf (x + v) = accelOf x + accelOf v := by funext k; fin_cases k <;> rfl
  have hg : gravityOf (x + v) = gravityOf x + gravityOf v := by funext k; fin_cases k <;> rfl
  obtain ⟨hgu, hu⟩ := rates_used h
  have hvel : ∀ y : Fin 18 → ℝ, velocityOf (SixDRates.predicted s y dt) =
      velocityOf y + integrateVelocityRK4 dt (accelOf y) (rateOf y) 0 := by
    intro y
    rw [← part_accel, ← part_rate]
    funext k
    fin_cases k <;> simp [velocityOf, SixDRates.predicted, hu]
  have hgr : ∀ y : Fin 18 → ℝ, gravityOf (SixDRates.predicted s y dt) = (deltaQuaternion dt (rateOf y)).rot (gravityOf y) := by
    intro y
    rw [← part_rate, ← part_gravity y]
    funext k
    fin_cases k <;> simp [gravityOf, SixDRates.predicted, hgu]
  refine ⟨?_, ?_, ?_⟩
  · intro i h3 hi
    have : ∀ y : Fin 18 → ℝ, SixDRates.predicted s y dt i = y i := by
      intro y
      unfold SixDRates.predicted
      rw [dif_neg (by omega), dif_neg (by rcases hi with h | h <;> omega)]
    rw [this, this]; rfl
  · rw [hvel, hvel, hr, ha, rk4_add]
    have : velocityOf (x + v) = velocityOf x + velocityOf v := by funext k; fin_cases k <;> rfl
    rw [this]
    abel
  · rw [hgr, hgr, hr, hg, rot_add]

theorem jacGravityGravity_mulVec (dt : ℝ) (w v : V3) :
    SixDRates.jacGravityGravity dt w *ᵥ v = (deltaQuaternion dt w).rot v +
      ((2 * sqNorm (deltaQuaternion dt w).vec) • v - ((deltaQuaternion dt w).vec ⬝ᵥ v) • (deltaQuaternion dt w).vec) := by
  have h : (deltaQuaternion dt w).w ^ 2 + (deltaQuaternion dt w).x ^ 2 + (deltaQuaternion dt w).y ^ 2 +
      (deltaQuaternion dt w).z ^ 2 = 1 := C52_unit dt w
  unfold SixDRates.jacGravityGravity
  generalize deltaQuaternion dt w = q at h
  rw [rot_eq]
  ext i
  fin_cases i <;>
    simp [Matrix.mulVec, dotProduct, Fin.sum_univ_three, skew, sqNorm, Quat.vec, Matrix.vecMulVec_apply, Matrix.one_apply, Matrix.vecHead, Matrix.vecTail]
  · linear_combination (v 0) * h
  · linear_combination (v 1) * h
  · linear_combination (v 2) * h

/-- `G` along directions that leave the rate alone. -/
theorem jacobian_change (x v : Fin 18 → ℝ) (dt : ℝ) (hv : rateOf v = 0) :
    (∀ i : Fin 18, 3 ≤ i.val → NotGravity i → (jacobian 1 x dt *ᵥ v) i = v i) ∧
    velocityOf (jacobian 1 x dt *ᵥ v) = velocityOf v + dt • accelOf v ∧
    gravityOf (jacobian 1 x dt *ᵥ v) = SixDRates.jacGravityGravity dt (rateOf x) *ᵥ gravityOf v := by
  have v6 : v 6 = 0 := congrFun hv 0
  have v7 : v 7 = 0 := congrFun hv 1
  have v8 : v 8 = 0 := congrFun hv 2
  have hrow : ∀ i : Fin 18, NotGravity i → (jacobian 1 x dt *ᵥ v) i =
      v i + if h : i.val < 3 then dt * v ⟨i.val + 3, by omega⟩ else 0 := by
    intro i hi
    have e : ∀ j, jacobian 1 x dt i j * v j = (if j = i then v j else 0) + (if i.val < 3 ∧ j.val = i.val + 3 then dt * v j else 0) := by
      intro j
      rw [jacobian_apply, dif_neg (by rcases hi with h | h <;> omega), dif_neg (by rcases hi with h | h <;> omega)]
      by_cases h3 : i.val < 3 ∧ j.val = i.val + 3
      · have hne : ¬ j = i := by intro h; rw [h] at h3; omega
        rw [if_pos h3, if_neg hne, if_pos h3, zero_add]
      · rw [if_neg h3, if_neg h3, add_zero, Matrix.one_apply]
        by_cases h4 : i = j
        · rw [if_pos h4, if_pos h4.symm, one_mul]
        · rw [if_neg h4, if_neg (fun h => h4 h.symm), zero_mul]
    show ∑ j, jacobian 1 x dt i j * v j = _
    simp only [e]
    rw [Finset.sum_add_distrib, Finset.sum_ite_eq' Finset.univ i v, if_pos (Finset.mem_univ _)]
    congr 1
    by_cases h3 : i.val < 3
    · rw [dif_pos h3]
      have : ∀ j : Fin 18, (i.val < 3 ∧ j.val = i.val + 3) ↔ j = ⟨i.val + 3, by omega⟩ := by
        intro j; rw [Fin.ext_iff]; simp [h3]
      simp only [this]
      rw [Finset.sum_ite_eq' Finset.univ _ (fun j => dt * v j), if_pos (Finset.mem_univ _)]
    · rw [dif_neg h3]
      apply Finset.sum_eq_zero
      intro j _
      rw [if_neg (fun h => h3 h.1)]
  refine ⟨?_, ?_, ?_⟩
  · intro i h3 hi
    rw [hrow i hi, dif_neg (by omega), add_zero]
  · funext k
    fin_cases k
    · exact hrow 0 (Or.inl (by decide))
    · exact hrow 1 (Or.inl (by decide))
    · exact hrow 2 (Or.inl (by decide))
  · have hz : ∀ (i : Fin 18) (k : Fin 3) (hk : i.val = 9 + k.val), (jacobian 1 x dt *ᵥ v) i =
        (SixDRates.jacGravityGravity dt (rateOf x) *ᵥ gravityOf v) k := by
      intro i k hk
      have e : ∀ j, jacobian 1 x dt i j * v j = if h : 9 ≤ j.val ∧ j.val < 12 then
          SixDRates.jacGravityGravity dt (rateOf x) k ⟨j.val - 9, by omega⟩ * v j else 0 := by
        intro j
        rw [jacobian_apply, part_rate]
        by_cases h9 : 9 ≤ j.val ∧ j.val < 12
        · rw [dif_pos ⟨by omega, h9⟩, dif_pos h9]
          congr 2
          exact Fin.ext (by simp [hk])
        · rw [dif_neg (by omega), dif_neg h9]
          by_cases h6 : 6 ≤ j.val ∧ j.val < 9
          · have : v j = 0 := by
              have : j = 6 ∨ j = 7 ∨ j = 8 := by omega
              rcases this with rfl | rfl | rfl <;> assumption
            rw [this, mul_zero]
          · rw [dif_neg (by omega), if_neg (by omega), Matrix.one_apply, if_neg (by intro h; rw [h] at hk; omega), zero_mul]
      show ∑ j, jacobian 1 x dt i j * v j = _
      simp only [e]
      simp [Fin.sum_univ_succ, Matrix.mulVec, dotProduct, gravityOf]
    funext k
    fin_cases k
    · exact hz 9 0 rfl
    · exact hz 10 1 rfl
    · exact hz 11 2 rfl

/-! ## Bounds -/

theorem vec_norm (dt : ℝ) (w : V3) : norm3 (deltaQuaternion dt w).vec ≤ |dt| * norm3 w / 2 := by
  by_cases h : norm3 w > 1e-9
  · have hp : 0 < norm3 w := lt_trans (by norm_num) h
    rw [deltaQuaternion_big h]
    have : Quat.vec ⟨cos (0.5 * dt * norm3 w), sin (0.5 * dt * norm3 w) / norm3 w * w 0, sin (0.5 * dt * norm3 w) / norm3 w * w 1,
        sin (0.5 * dt * norm3 w) / norm3 w * w 2⟩ = (sin (0.5 * dt * norm3 w) / norm3 w) • w := by
      ext i; fin_cases i <;> rfl
    rw [this, norm3_smul, abs_div, abs_of_pos hp, div_mul_cancel₀ _ hp.ne']
    refine (abs_sin_le_abs).trans_eq ?_
    rw [abs_mul, abs_mul, abs_of_pos hp, abs_of_pos (by norm_num : (0:ℝ) < 0.5)]
    ring
  · rw [deltaQuaternion_small h]
    have : Quat.identity.vec = 0 := by ext i; fin_cases i <;> rfl
    rw [this, norm3_zero]
    have := norm3_nonneg w
    positivity

theorem rot_moves {q : Quat} (hq : qNormSq q = 1) (v : V3) : norm3 (v - q.rot v) ≤ 2 * norm3 q.vec * norm3 v := by
  have h : q.w ^ 2 + q.x ^ 2 + q.y ^ 2 + q.z ^ 2 = 1 := hq
  have hs : sqNorm (v - q.rot v) ≤ (2 * norm3 q.vec * norm3 v) ^ 2 := by
    have e : (2 * norm3 q.vec * norm3 v) ^ 2 = 4 * (sqNorm q.vec * sqNorm v) := by
      rw [← norm3_sq, ← norm3_sq]; ring
    rw [e, rot_eq]
    simp only [sqNorm, Quat.vec, Pi.sub_apply, Matrix.cons_val_zero, Matrix.cons_val_one, Matrix.cons_val]
    have e2 : (q.x * q.x + q.y * q.y + q.z * q.z) * (v 0 * v 0 + v 1 * v 1 + v 2 * v 2) =
      (q.x * v 0 + q.y * v 1 + q.z * v 2) ^ 2 + ((q.y * v 2 - q.z * v 1) ^ 2 + (q.z * v 0 - q.x * v 2) ^ 2 + (q.x * v 1 - q.y * v 0) ^ 2) := by ring
    rw [e2]
    have := sq_nonneg (q.x * v 0 + q.y * v 1 + q.z * v 2)
    have key : (v 0 - (v 0 + q.w * (2 * (q.y * v 2 - q.z * v 1)) + (q.y * (2 * (q.x * v 1 - q.y * v 0)) - q.z * (2 * (q.z * v 0 - q.x * v 2))))) * (v 0 - (v 0 + q.w * (2 * (q.y * v 2 - q.z * v 1)) + (q.y * (2 * (q.x * v 1 - q.y * v 0)) - q.z * (2 * (q.z * v 0 - q.x * v 2)))))
      + (v 1 - (v 1 + q.w * (2 * (q.z * v 0 - q.x * v 2)) + (q.z * (2 * (q.y * v 2 - q.z * v 1)) - q.x * (2 * (q.x * v 1 - q.y * v 0))))) * (v 1 - (v 1 + q.w * (2 * (q.z * v 0 - q.x * v 2)) + (q.z * (2 * (q.y * v 2 - q.z * v 1)) - q.x * (2 * (q.x * v 1 - q.y * v 0)))))
      + (v 2 - (v 2 + q.w * (2 * (q.x * v 1 - q.y * v 0)) + (q.x * (2 * (q.z * v 0 - q.x * v 2)) - q.y * (2 * (q.y * v 2 - q.z * v 1))))) * (v 2 - (v 2 + q.w * (2 * (q.x * v 1 - q.y * v 0)) + (q.x * (2 * (q.z * v 0 - q.x * v 2)) - q.y * (2 * (q.y * v 2 - q.z * v 1)))))
      = 4 * ((q.y * v 2 - q.z * v 1) ^ 2 + (q.z * v 0 - q.x * v 2) ^ 2 + (q.x * v 1 - q.y * v 0) ^ 2) := by
      linear_combination (4 * ((q.y * v 2 - q.z * v 1) ^ 2 + (q.z * v 0 - q.x * v 2) ^ 2 + (q.x * v 1 - q.y * v 0) ^ 2)) * h
    rw [key]
    linarith
  have hn : 0 ≤ 2 * norm3 q.vec * norm3 v := by
    have := norm3_nonneg q.vec
    have := norm3_nonneg v
    positivity
  exact sqrt_le_iff.mpr ⟨hn, hs⟩

theorem norm3_sub (u v : V3) : norm3 (u - v) ≤ norm3 u + norm3 v := by
  rw [sub_eq_add_neg, ← norm3_neg v]
  exact norm3_add u (-v)

/-- How far the RK4 increment is from `dt * a`. -/
theorem rk4_error (dt : ℝ) (a w : V3) :
    norm3 (integrateVelocityRK4 dt a w 0 - dt • a) ≤ dt ^ 2 / 2 * norm3 w * norm3 a := by
  have e : integrateVelocityRK4 dt a w 0 - dt • a = (-(dt / 6)) •
      ((4 : ℝ) • (a - (deltaQuaternion (0.5 * dt) w).rot a) + (a - (deltaQuaternion dt w).rot a)) := by
    unfold integrateVelocityRK4
    ext i
    simp only [Pi.add_apply, Pi.sub_apply, Pi.smul_apply, smul_eq_mul, Pi.zero_apply]
    ring
  rw [e, norm3_smul, abs_neg, abs_div, abs_of_pos (by norm_num : (0:ℝ) < 6)]
  have h1 := rot_moves (C52_unit (0.5 * dt) w) a
  have h2 := rot_moves (C52_unit dt w) a
  have g1 := vec_norm (0.5 * dt) w
  have g2 := vec_norm dt w
  have hw := norm3_nonneg w
  have ha := norm3_nonneg a
  rw [abs_mul, abs_of_pos (by norm_num : (0:ℝ) < 0.5)] at g1
  have k1 : norm3 (a - (deltaQuaternion (0.5 * dt) w).rot a) ≤ |dt| * norm3 w / 2 * norm3 a :=
    h1.trans (mul_le_mul_of_nonneg_right (by linarith) ha)
  have k2 : norm3 (a - (deltaQuaternion dt w).rot a) ≤ |dt| * norm3 w * norm3 a :=
    h2.trans (mul_le_mul_of_nonneg_right (by linarith) ha)
  have k3 := norm3_add ((4 : ℝ) • (a - (deltaQuaternion (0.5 * dt) w).rot a)) (a - (deltaQuaternion dt w).rot a)
  rw [norm3_smul, abs_of_pos (by norm_num : (0:ℝ) < 4)] at k3
  have hd := abs_nonneg dt
  calc |dt| / 6 * norm3 ((4 : ℝ) • (a - (deltaQuaternion (0.5 * dt) w).rot a) + (a - (deltaQuaternion dt w).rot a))
      ≤ |dt| / 6 * (3 * (|dt| * norm3 w * norm3 a)) := mul_le_mul_of_nonneg_left (by linarith) (by positivity)
    _ = |dt| ^ 2 / 2 * norm3 w * norm3 a := by ring
    _ = dt ^ 2 / 2 * norm3 w * norm3 a := by rw [sq_abs]

theorem dot_abs (u v : V3) : |u ⬝ᵥ v| ≤ norm3 u * norm3 v := by
  have e : u ⬝ᵥ v = u 0 * v 0 + u 1 * v 1 + u 2 * v 2 := by simp [dotProduct, Fin.sum_univ_three]
  rw [e, abs_le]
  have h1 := dot_le u v
  have h2 := dot_le (-u) v
  rw [norm3_neg] at h2
  simp only [Pi.neg_apply] at h2
  exact ⟨by linarith, h1⟩

theorem gravity_error (dt : ℝ) (w v : V3) :
    norm3 ((deltaQuaternion dt w).rot v - SixDRates.jacGravityGravity dt w *ᵥ v) ≤ 3 / 4 * (dt * norm3 w) ^ 2 * norm3 v := by
  rw [jacGravityGravity_mulVec]
  have e : ∀ a b : V3, a - (a + b) = -b := fun a b => by abel
  rw [e, norm3_neg]
  have h := vec_norm dt w
  set q := deltaQuaternion dt w
  have hq := norm3_nonneg q.vec
  have hv := norm3_nonneg v
  have k := norm3_sub ((2 * sqNorm q.vec) • v) ((q.vec ⬝ᵥ v) • q.vec)
  rw [norm3_smul, norm3_smul, ← norm3_sq, abs_of_nonneg (by positivity : 0 ≤ 2 * norm3 q.vec ^ 2)] at k
  have k2 : |q.vec ⬝ᵥ v| * norm3 q.vec ≤ norm3 q.vec * norm3 v * norm3 q.vec :=
    mul_le_mul_of_nonneg_right (dot_abs _ _) hq
  have hsq : norm3 q.vec ^ 2 ≤ (|dt| * norm3 w / 2) ^ 2 := pow_le_pow_left₀ hq h 2
  have e2 : (|dt| * norm3 w / 2) ^ 2 = (dt * norm3 w) ^ 2 / 4 := by
    rw [div_pow, mul_pow, mul_pow, sq_abs]; norm_num
  rw [e2] at hsq
  rw [← norm3_sq]
  calc norm3 ((2 * norm3 q.vec ^ 2) • v - (q.vec ⬝ᵥ v) • q.vec)
      ≤ 3 * norm3 q.vec ^ 2 * norm3 v := by nlinarith
    _ ≤ 3 * ((dt * norm3 w) ^ 2 / 4) * norm3 v := by nlinarith
    _ = 3 / 4 * (dt * norm3 w) ^ 2 * norm3 v := by ring

/-! ## The theorems -/

/-- **C55 for `SixDRates`, the part that holds.** After construction and any updates, for a change `v` of the state that
leaves the angular rate alone, `G() * v` is the exact change of `g()` outside velocity and gravity, and for those it is
off by at most `dt²/2 |w| |v_a|` and `3/4 (dt |w|)² |v_g|`; without rotation it is exact.  Missing: changes of the angular
rate. -/
theorem C55_rates_partial (uc : Bool) (l : List ((Fin 18 → ℝ) × ℝ)) (x : Fin 18 → ℝ) (dt : ℝ) :
    ∃ s f G, updates (SixDRates.construct true uc) l = some s ∧ PredictsState s dt f ∧ Linearises s dt x G ∧
    ∀ v, rateOf v = 0 →
      (∀ i : Fin 18, 3 ≤ i.val → NotGravity i → f (x + v) i - f x i = (G *ᵥ v) i) ∧
      norm3 (velocityOf (f (x + v)) - velocityOf (f x) - velocityOf (G *ᵥ v)) ≤
        dt ^ 2 / 2 * norm3 (rateOf x) * norm3 (accelOf v) ∧
      norm3 (gravityOf (f (x + v)) - gravityOf (f x) - gravityOf (G *ᵥ v)) ≤
        3 / 4 * (dt * norm3 (rateOf x)) ^ 2 * norm3 (gravityOf v) := by
  obtain ⟨s, h1, h2⟩ := rates_updates l _ (rates_construct uc)
  refine ⟨s, fun y => SixDRates.predicted s y dt, jacobian 1 x dt, h1, ?_, ?_, ?_⟩
  · intro y
    obtain ⟨s', h3, _, h4, _⟩ := rates_step s h2 y dt
    exact ⟨s', h3, h4⟩
  · obtain ⟨s', h3, _, _, h5⟩ := rates_step s h2 x dt
    exact ⟨s', h3, h5⟩
  · intro v hv
    obtain ⟨a1, a2, a3⟩ := predicted_change h2 x v dt hv
    obtain ⟨b1, b2, b3⟩ := jacobian_change x v dt hv
    refine ⟨fun i h3 hi => by simp only [a1 i h3 hi, b1 i h3 hi]; ring, ?_, ?_⟩
    · have e : velocityOf (SixDRates.predicted s (x + v) dt) - velocityOf (SixDRates.predicted s x dt)
          - velocityOf (jacobian 1 x dt *ᵥ v) = integrateVelocityRK4 dt (accelOf v) (rateOf x) 0 - dt • accelOf v := by
        rw [a2, b2]; abel
      show norm3 (velocityOf (SixDRates.predicted s (x + v) dt) - velocityOf (SixDRates.predicted s x dt) - _) ≤ _
      rw [e]
      exact rk4_error dt _ _
    · have e : gravityOf (SixDRates.predicted s (x + v) dt) - gravityOf (SixDRates.predicted s x dt)
          - gravityOf (jacobian 1 x dt *ᵥ v) = (deltaQuaternion dt (rateOf x)).rot (gravityOf v) -
            SixDRates.jacGravityGravity dt (rateOf x) *ᵥ gravityOf v := by
        rw [a3, b3]; abel
      show norm3 (gravityOf (SixDRates.predicted s (x + v) dt) - gravityOf (SixDRates.predicted s x dt) - _) ≤ _
      rw [e]
      exact gravity_error dt _ _

/-- Turning about z at one radian per second, gravity along z. -/
def spinning : Fin 18 → ℝ := ![0, 0, 0, 0, 0, 0, 0, 0, 1, 0, 0, -9.8062, 0, 0, 0, 0, 0, 0]

/-- **C55, refuted for `SixDRates`.** Turning about the axis along which gravity points, `g()` returns gravity along the
axis unchanged, but `G()` claims that it grows by the factor `1 + sin²(|w| dt / 2)`; so `G()` is not the derivative of
`g()`. -/
theorem C55_refuted_rates (uc : Bool) : ∃ f G, PredictsState (SixDRates.construct true uc) 1 f ∧
    Linearises (SixDRates.construct true uc) 1 spinning G ∧ ¬ HasFDerivAt f (asDeriv G) spinning := by
  have h2 := rates_construct uc
  refine ⟨fun y => SixDRates.predicted (SixDRates.construct true uc) y 1, jacobian 1 spinning 1, ?_, ?_, ?_⟩
  · intro y
    obtain ⟨s', h3, _, h4, _⟩ := rates_step _ h2 y 1
    exact ⟨s', h3, h4⟩
  · obtain ⟨s', h3, _, _, h5⟩ := rates_step _ h2 spinning 1
    exact ⟨s', h3, h5⟩
  intro hd
  have hn : norm3 ![0, 0, 1] = 1 := (norm3_axis 1 (by norm_num)).2.2.1
  have hr : rateOf spinning = ![0, 0, 1] := rfl
  have hq : deltaQuaternion 1 (rateOf spinning) = ⟨cos (1 / 2), 0, 0, sin (1 / 2)⟩ := by
    rw [hr, deltaQuaternion_big (by rw [hn]; norm_num), hn]
    have e : (0.5 : ℝ) * 1 * 1 = 1 / 2 := by norm_num
    rw [e]; ext <;> simp
  -- along gravity's z entry
  let e : Fin 18 → ℝ := Pi.single 11 1
  have hline : HasDerivAt (fun t : ℝ => SixDRates.predicted (SixDRates.construct true uc) (spinning + t • e) 1 11)
      ((jacobian 1 spinning 1 *ᵥ e) 11) 0 := by
    have h3 : HasDerivAt (fun t : ℝ => spinning + t • e) e 0 := by
      have := ((hasDerivAt_id (0 : ℝ)).smul_const e).const_add spinning
      simpa using this
    have h0 : spinning + (0 : ℝ) • e = spinning := by rw [zero_smul, add_zero]
    have hd11 : HasFDerivAt (fun y => SixDRates.predicted (SixDRates.construct true uc) y 1 11)
        ((ContinuousLinearMap.proj (R := ℝ) (φ := fun _ : Fin 18 => ℝ) 11).comp (asDeriv (jacobian 1 spinning 1)))
        (spinning + (0 : ℝ) • e) := by
      rw [h0]
      exact (hasFDerivAt_pi'.mp hd) 11
    exact HasFDerivAt.comp_hasDerivAt (0 : ℝ) hd11 h3
  have hval : (fun t : ℝ => SixDRates.predicted (SixDRates.construct true uc) (spinning + t • e) 1 11) =
      fun t : ℝ => SixDRates.predicted (SixDRates.construct true uc) spinning 1 11 + t := by
    funext t
    have hv : rateOf (t • e) = 0 := by funext k; fin_cases k <;> simp [rateOf, e]
    have := congrFun (predicted_change h2 spinning (t • e) 1 hv).2.2 2
    rw [hq, rot_eq] at this
    have g0 : gravityOf (t • e) = ![0, 0, t] := by funext k; fin_cases k <;> simp [gravityOf, e]
    rw [g0] at this
    simpa [gravityOf] using this
  rw [hval] at hline
  have h1 : HasDerivAt (fun t : ℝ => SixDRates.predicted (SixDRates.construct true uc) spinning 1 11 + t) 1 0 := by
    simpa using (hasDerivAt_id (0 : ℝ)).const_add (SixDRates.predicted (SixDRates.construct true uc) spinning 1 11)
  have heq := hline.unique h1
  have hv : rateOf e = 0 := by funext k; fin_cases k <;> simp [rateOf, e]
  have hg := congrFun (jacobian_change spinning e 1 hv).2.2 2
  have g0 : gravityOf e = ![0, 0, 1] := by funext k; fin_cases k <;> simp [gravityOf, e]
  rw [jacGravityGravity_mulVec, hq, g0, rot_eq] at hg
  simp [gravityOf, Quat.vec, sqNorm, dotProduct, Fin.sum_univ_three] at hg
  rw [heq] at hg
  have hs : 0 < sin (1 / 2) := sin_pos_of_pos_of_lt_pi (by norm_num) (by have := Real.two_le_pi; linarith)
  norm_num at hs
  nlinarith

end StateEstimation.Props
