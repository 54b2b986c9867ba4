import Verif.Lemmas.SixD
import Verif.Props.Transforms
import Verif.Props.Subsets

/-!
# C50, C51, C54, C66: the 6-D rates states
-/

namespace StateEstimation.Props

open Matrix Real StateEstimation

/-! ## Specification -/

/-- Specification: the gravity entries of a state `[v a w g ba bw]`. -/
def gravityOf (x : Fin 18 → ℝ) : V3 := ![x 9, x 10, x 11]
/-- Specification: the linear acceleration entries. -/
def accelOf (x : Fin 18 → ℝ) : V3 := ![x 3, x 4, x 5]
/-- Specification: the angular rate entries. -/
def rateOf (x : Fin 18 → ℝ) : V3 := ![x 6, x 7, x 8]
/-- Specification: the linear velocity entries. -/
def velocityOf (x : Fin 18 → ℝ) : V3 := ![x 0, x 1, x 2]

/-- Specification: `i` is not one of the gravity entries. -/
def NotGravity (i : Fin 18) : Prop := i.val < 9 ∨ 12 ≤ i.val

/-- Specification: the magnitude of gravity is 9.8062, or gravity is the zero vector. -/
def PhysicalGravity (x : Fin 18 → ℝ) : Prop := norm3 (gravityOf x) = 9.8062 ∨ gravityOf x = 0

theorem part_gravity (x : Fin 18 → ℝ) : SixDRates.part x 9 = gravityOf x := by
  funext k; fin_cases k <;> rfl
theorem part_rate (x : Fin 18 → ℝ) : SixDRates.part x 6 = rateOf x := by
  funext k; fin_cases k <;> rfl
theorem part_accel (x : Fin 18 → ℝ) : SixDRates.part x 3 = accelOf x := by
  funext k; fin_cases k <;> rfl
theorem part_velocity (x : Fin 18 → ℝ) : SixDRates.part x 0 = velocityOf x := by
  funext k; fin_cases k <;> rfl

theorem gravityOf_with (x : Fin 18 → ℝ) (g : V3) : gravityOf (SixDRates.withGravity x g) = g := by
  funext k; fin_cases k <;> rfl

theorem with_other (x : Fin 18 → ℝ) (g : V3) (i : Fin 18) (hi : NotGravity i) : SixDRates.withGravity x g i = x i := by
  unfold SixDRates.withGravity
  rw [dif_neg (by rcases hi with h | h <;> omega)]

theorem norm3_zero : norm3 0 = 0 := by simp [norm3, sqNorm]

theorem normalized_zero : normalized 0 = 0 := by simp [normalized]

theorem norm3_pos {g : V3} (h : g ≠ 0) : 0 < norm3 g := sqrt_pos.mpr (normalized_sqNorm h).2

theorem rescaled_zero : SixDRates.rescaled 0 = 0 := by rw [SixDRates.rescaled, normalized_zero, smul_zero]

theorem rescaled_ne {g : V3} (h : g ≠ 0) : SixDRates.rescaled g = (9.8062 / norm3 g) • g := by
  rw [SixDRates.rescaled, normalized, if_pos (normalized_sqNorm h).2, smul_smul]
  congr 1
  rw [norm3]; ring

theorem rescaled_norm {g : V3} (h : g ≠ 0) : norm3 (SixDRates.rescaled g) = 9.8062 := by
  rw [rescaled_ne h, norm3_smul, abs_of_pos (div_pos (by norm_num) (norm3_pos h))]
  exact div_mul_cancel₀ _ (norm3_pos h).ne'

/-! ## C50 -/

/-- **C50, addition.** Outside gravity the sum is the plain sum; gravity is the summed gravity scaled to norm 9.8062, or
zero if the summed gravity is zero. -/
theorem C50_add (a b : Fin 18 → ℝ) : ∃ r : Fin 18 → ℝ, SixDRates.addState (.of a) (.of b) = some (.of r) ∧
    (∀ i, NotGravity i → r i = a i + b i) ∧
    (gravityOf a + gravityOf b ≠ 0 → norm3 (gravityOf r) = 9.8062 ∧
      ∃ c : ℝ, 0 < c ∧ gravityOf r = c • (gravityOf a + gravityOf b)) ∧
    (gravityOf a + gravityOf b = 0 → gravityOf r = 0) := by
  refine ⟨_, SixDRates.addState_of a b, fun i hi => with_other _ _ i hi, ?_, ?_⟩ <;>
    rw [gravityOf_with, part_gravity] <;>
    have e : gravityOf (a + b) = gravityOf a + gravityOf b := (by funext k; fin_cases k <;> rfl) <;> rw [e] <;> intro h
  · exact ⟨rescaled_norm h, _, div_pos (by norm_num) (norm3_pos h), rescaled_ne h⟩
  · rw [h, rescaled_zero]

/-- **C50, subtraction.** -/
theorem C50_sub (a b : Fin 18 → ℝ) : ∃ r : Fin 18 → ℝ, SixDRates.subtractState (.of a) (.of b) = some (.of r) ∧
    (∀ i, NotGravity i → r i = a i - b i) ∧
    (gravityOf a - gravityOf b ≠ 0 → norm3 (gravityOf r) = 9.8062 ∧
      ∃ c : ℝ, 0 < c ∧ gravityOf r = c • (gravityOf a - gravityOf b)) ∧
    (gravityOf a - gravityOf b = 0 → gravityOf r = 0) := by
  refine ⟨_, SixDRates.subtractState_of a b, fun i hi => with_other _ _ i hi, ?_, ?_⟩ <;>
    rw [gravityOf_with, part_gravity] <;>
    have e : gravityOf (a - b) = gravityOf a - gravityOf b := (by funext k; fin_cases k <;> rfl) <;> rw [e] <;> intro h
  · exact ⟨rescaled_norm h, _, div_pos (by norm_num) (norm3_pos h), rescaled_ne h⟩
  · rw [h, rescaled_zero]

/-- A level state: everything zero except gravity along minus z. -/
def levelState : Fin 18 → ℝ := ![0, 0, 0, 0, 0, 0, 0, 0, 0, 0, 0, -9.8062, 0, 0, 0, 0, 0, 0]

theorem norm3_axis (c : ℝ) (hc : 0 ≤ c) : norm3 ![c, 0, 0] = c ∧ norm3 ![0, c, 0] = c ∧ norm3 ![0, 0, c] = c ∧
    norm3 ![0, 0, -c] = c := by
  simp [norm3, sqNorm, Real.sqrt_mul_self hc]

/-- Non-vacuity of C50: both cases occur (`levelState + levelState`, `levelState - levelState`). -/
example : gravityOf levelState + gravityOf levelState ≠ 0 ∧ gravityOf levelState - gravityOf levelState = 0 ∧
    PhysicalGravity levelState := by
  refine ⟨?_, sub_self _, Or.inl ?_⟩
  · intro h
    have := congrFun h 2
    simp [gravityOf, levelState] at this
    norm_num at this
  · exact (norm3_axis 9.8062 (by norm_num)).2.2.2

/-! ## C66 -/

/-- **C66, refuted for six_d_rates.** Two states of physical gravity: adding the difference back does not give the
state, because the difference of the gravity vectors has been scaled to 9.8062. -/
theorem C66_refuted_six_d : ∃ a b d r : Fin 18 → ℝ, PhysicalGravity a ∧ PhysicalGravity b ∧
    SixDRates.subtractState (.of a) (.of b) = some (.of d) ∧ SixDRates.addState (.of b) (.of d) = some (.of r) ∧
    gravityOf r ≠ gravityOf a := by
  let a : Fin 18 → ℝ := ![0, 0, 0, 0, 0, 0, 0, 0, 0, 9.8062, 0, 0, 0, 0, 0, 0, 0, 0]
  let b : Fin 18 → ℝ := ![0, 0, 0, 0, 0, 0, 0, 0, 0, 0, 9.8062, 0, 0, 0, 0, 0, 0, 0]
  obtain ⟨d, hd, _, hd2, _⟩ := C50_sub a b
  obtain ⟨r, hr, _, hr2, hr3⟩ := C50_add b d
  have ga : gravityOf a = ![9.8062, 0, 0] := rfl
  have gb : gravityOf b = ![0, 9.8062, 0] := rfl
  refine ⟨a, b, d, r, Or.inl ?_, Or.inl ?_, hd, hr, ?_⟩
  · rw [ga]; exact (norm3_axis _ (by norm_num)).1
  · rw [gb]; exact (norm3_axis _ (by norm_num)).2.1
  intro h
  have hne : gravityOf a - gravityOf b ≠ 0 := by
    rw [ga, gb]; intro h0; have := congrFun h0 0; simp at this; norm_num at this
  obtain ⟨hn, c, hc, hcd⟩ := hd2 hne
  have hcd' : gravityOf d = ![c * 9.8062, -(c * 9.8062), 0] := by
    rw [hcd, ga, gb]; ext k; fin_cases k <;> simp
  rw [hcd'] at hn
  have hn2 : norm3 ![c * 9.8062, -(c * 9.8062), 0] ^ 2 = 9.8062 ^ 2 := by rw [hn]
  rw [norm3_sq] at hn2
  simp [sqNorm] at hn2
  by_cases h0 : gravityOf b + gravityOf d = 0
  · rw [hcd', gb] at h0
    have := congrFun h0 0
    simp at this
    rcases this with h | h
    · exact hc.ne' h
    · norm_num at h
  · obtain ⟨_, k, hk, hkr⟩ := hr2 h0
    rw [h, hcd', ga, gb] at hkr
    have := congrFun hkr 1
    simp at this
    rcases this with h | h
    · exact hk.ne' h
    · have : c = 1 := by
        have : (1 - c) * 9.8062 = 0 := by linarith
        rcases mul_eq_zero.mp this with h | h
        · linarith
        · norm_num at h
      subst this
      norm_num at hn2

/-- **C66, the part that holds for six_d_rates.** All entries outside gravity come back; gravity comes back when both
states have the same gravity of norm 9.8062. -/
theorem C66_six_d_partial (a b : Fin 18 → ℝ) : ∃ d r : Fin 18 → ℝ,
    SixDRates.subtractState (.of a) (.of b) = some (.of d) ∧ SixDRates.addState (.of b) (.of d) = some (.of r) ∧
    (∀ i, NotGravity i → r i = a i) ∧
    (gravityOf a = gravityOf b → PhysicalGravity a → r = a) := by
  obtain ⟨d, hd, hd1, _, hd3⟩ := C50_sub a b
  obtain ⟨r, hr, hr1, _, hr3⟩ := C50_add b d
  have ho : ∀ i, NotGravity i → r i = a i := fun i hi => by rw [hr1 i hi, hd1 i hi]; ring
  refine ⟨d, r, hd, hr, ho, ?_⟩
  intro h hp
  have hgd := hd3 (by rw [h, sub_self])
  have hgr : gravityOf r = gravityOf a := by
    have hrr := SixDRates.addState_of b d
    rw [hr] at hrr
    have e : r = SixDRates.withGravity (b + d) (SixDRates.rescaled (SixDRates.part (b + d) 9)) := by
      have := Option.some.inj hrr
      injection this with _ h2
    rw [e, gravityOf_with, part_gravity]
    have e2 : gravityOf (b + d) = gravityOf b + gravityOf d := by funext k; fin_cases k <;> rfl
    rw [e2, hgd, add_zero, ← h]
    rcases hp with hp | hp
    · have hne : gravityOf a ≠ 0 := by
        intro h0; rw [h0, norm3_zero] at hp; norm_num at hp
      rw [rescaled_ne hne, hp, div_self (by norm_num), one_smul]
    · rw [hp, rescaled_zero]
  funext i
  by_cases hi : NotGravity i
  · exact ho i hi
  · have : i = 9 ∨ i = 10 ∨ i = 11 := by unfold NotGravity at hi; omega
    rcases this with rfl | rfl | rfl
    · exact congrFun hgr 0
    · exact congrFun hgr 1
    · exact congrFun hgr 2

/-! ## C51 -/

/-- What one column adds. -/
noncomputable def wterm {N : Nat} (w : Fin N → ℝ) (X : Matrix (Fin 18) (Fin N) ℝ) (k : Fin N) : Fin 18 → ℝ :=
  SixDRates.withGravity (fun i => w k * X i k) (SixDRates.rescaled (w k • gravityOf fun i => X i k))

theorem weightedLoop_eq {N : Nat} (w : Fin N → ℝ) (X : Matrix (Fin 18) (Fin N) ℝ) : ∀ (fuel i : Nat) (acc : Fin 18 → ℝ),
    i + fuel = N → SixDRates.weightedLoop (.of w) (.of X) fuel i (.of acc) =
      some (.of (acc + ∑ k ∈ Finset.univ.filter (fun k : Fin N => i ≤ k.val), wterm w X k))
  | 0, i, acc, hi => by
      have : Finset.univ.filter (fun k : Fin N => i ≤ k.val) = ∅ := by
        ext k; simp; omega
      simp [SixDRates.weightedLoop, this]
  | fuel + 1, i, acc, hi => by
      have hi' : i < N := by omega
      have hs : Finset.univ.filter (fun k : Fin N => i ≤ k.val) =
          insert ⟨i, hi'⟩ (Finset.univ.filter (fun k : Fin N => i + 1 ≤ k.val)) := by
        ext k
        simp only [Finset.mem_filter, Finset.mem_univ, true_and, Finset.mem_insert, Fin.ext_iff]
        omega
      rw [hs, Finset.sum_insert (by simp), ← add_assoc]
      simp only [SixDRates.weightedLoop, DVec.get?, DMat.col?, dif_pos hi', Option.bind_eq_bind, Option.bind_some, DVec.smul]
      have e : (⟨18, fun k => w ⟨i, hi'⟩ * X k ⟨i, hi'⟩⟩ : DVec) = .of (fun k : Fin 18 => w ⟨i, hi'⟩ * X k ⟨i, hi'⟩) := rfl
      rw [e, SixDRates.seg3_part _ 9 (by omega), Option.bind_some, SixDRates.setGravity_of, Option.bind_some,
        DVec.add_of, Option.bind_some, weightedLoop_eq w X fuel (i + 1) _ (by omega), part_gravity]
      congr 5
      congr 1
      funext k; fin_cases k <;> rfl

/-- What `weightedSumOfStates` computes: the plain weighted sum outside gravity, and for gravity the sum of the weighted
gravity vectors each scaled to norm 9.8062, whatever its weight. -/
theorem C51_six_d_value {N : Nat} (w : Fin N → ℝ) (X : Matrix (Fin 18) (Fin N) ℝ) : ∃ r : Fin 18 → ℝ,
    SixDRates.weightedSumOfStates (.of w) (.of X) = some (.of r) ∧
    (∀ i, NotGravity i → r i = ∑ k, w k * X i k) ∧
    gravityOf r = ∑ k, SixDRates.rescaled (w k • gravityOf fun i => X i k) := by
  refine ⟨∑ k, wterm w X k, ?_, ?_, ?_⟩
  · unfold SixDRates.weightedSumOfStates
    rw [if_pos rfl]
    have := weightedLoop_eq w X N 0 0 (by omega)
    simp only [zero_add, Nat.zero_le, Finset.filter_true] at this
    exact this
  · intro i hi
    rw [Finset.sum_apply]
    exact Finset.sum_congr rfl fun k _ => with_other _ _ i hi
  · have hg : ∀ k, gravityOf (wterm w X k) = SixDRates.rescaled (w k • gravityOf fun i => X i k) :=
      fun k => gravityOf_with _ _
    simp only [← hg]
    funext j
    fin_cases j <;> simp [gravityOf, Finset.sum_apply]

/-- **C51, refuted for six_d_rates.** Two equal columns with weights 1/2 and 1/2: the gravity of the result has twice the
magnitude. -/
theorem C51_refuted_six_d : ∃ (x : Fin 18 → ℝ) (w : Fin 2 → ℝ) (r : Fin 18 → ℝ), PhysicalGravity x ∧ ∑ k, w k = 1 ∧
    (∀ k, 0 < w k) ∧ SixDRates.weightedSumOfStates (.of w) (.of fun (i : Fin 18) (_ : Fin 2) => x i) = some (.of r) ∧
    gravityOf r = (2 : ℝ) • gravityOf x ∧ r ≠ x := by
  obtain ⟨r, hr, _, hg⟩ := C51_six_d_value (N := 2) (fun _ => 1 / 2) (fun i _ => levelState i)
  have hl : gravityOf levelState = ![0, 0, -9.8062] := rfl
  have hn : norm3 (gravityOf levelState) = 9.8062 := (norm3_axis 9.8062 (by norm_num)).2.2.2
  have hne : ((1 / 2 : ℝ) • gravityOf levelState) ≠ 0 := by
    rw [hl]; intro h; have := congrFun h 2; simp at this; norm_num at this
  have hg' : gravityOf r = (2 : ℝ) • gravityOf levelState := by
    rw [hg, Fin.sum_univ_two]
    show SixDRates.rescaled ((1 / 2 : ℝ) • gravityOf levelState) + SixDRates.rescaled ((1 / 2 : ℝ) • gravityOf levelState) = _
    rw [rescaled_ne hne, norm3_smul, hn, abs_of_pos (by norm_num), smul_smul, ← add_smul]
    norm_num
  refine ⟨levelState, fun _ => 1 / 2, r, Or.inl hn, by norm_num, fun _ => by norm_num, hr, hg', ?_⟩
  intro h
  rw [h, hl] at hg'
  have := congrFun hg' 2
  simp at this
  norm_num at this

/-- **C51, what holds for six_d_rates.** Equal columns `x` with weights summing to one: every entry outside gravity is
that of `x`; gravity is `x`'s direction scaled to 9.8062 times (number of positive weights − number of negative weights).
In particular `x` comes back when there is exactly one more positive than negative weight and gravity is physical. -/
theorem C51_six_d_partial {N : Nat} (w : Fin N → ℝ) (hw : ∑ k, w k = 1) (x : Fin 18 → ℝ) : ∃ r : Fin 18 → ℝ,
    SixDRates.weightedSumOfStates (.of w) (.of fun (i : Fin 18) (_ : Fin N) => x i) = some (.of r) ∧
    (∀ i, NotGravity i → r i = x i) ∧
    (PhysicalGravity x → gravityOf r = (((Finset.univ.filter fun k => 0 < w k).card : ℝ) -
      ((Finset.univ.filter fun k => w k < 0).card : ℝ)) • gravityOf x) := by
  obtain ⟨r, hr, h1, hg⟩ := C51_six_d_value w (fun i (_ : Fin N) => x i)
  refine ⟨r, hr, fun i hi => by rw [h1 i hi, ← Finset.sum_mul, hw, one_mul], fun hp => ?_⟩
  have ht : ∀ k, SixDRates.rescaled (w k • gravityOf x) =
      ((if 0 < w k then 1 else 0 : ℝ) - (if w k < 0 then 1 else 0 : ℝ)) • gravityOf x := by
    intro k
    rcases hp with hp | hp
    · have hx : gravityOf x ≠ 0 := by intro h0; rw [h0, norm3_zero] at hp; norm_num at hp
      rcases lt_trichotomy (w k) 0 with h | h | h
      · rw [if_neg (not_lt.mpr h.le), if_pos h, rescaled_ne (smul_ne_zero h.ne hx), norm3_smul, hp, abs_of_neg h, smul_smul]
        congr 1
        have := h.ne
        field_simp
        norm_num
      · rw [h, zero_smul, rescaled_zero]; simp
      · rw [if_pos h, if_neg (not_lt.mpr h.le), rescaled_ne (smul_ne_zero h.ne' hx), norm3_smul, hp, abs_of_pos h, smul_smul]
        congr 1
        have := h.ne'
        field_simp
        norm_num
    · rw [hp, smul_zero, rescaled_zero, smul_zero]
  rw [hg]
  show ∑ k, SixDRates.rescaled (w k • gravityOf x) = _
  simp only [ht]
  rw [← Finset.sum_smul, Finset.sum_sub_distrib, Finset.sum_boole, Finset.sum_boole]

/-- Non-vacuity of `C51_six_d_partial`: three columns, one negative weight. -/
example : ∑ k, (![2, -3, 2] : Fin 3 → ℝ) k = 1 := by simp [Fin.sum_univ_three]; norm_num

/-! ## C54 -/

/-- The entry is marked as in use. -/
def InUse (s : SixDRates.Obj) (i : Nat) : Prop := s.fm.stateUsage[i]? = some true

/-- **C54.** Every `update` of a `SixDRates` object succeeds, and in the predicted state
* acceleration, angular rate and biases are those of the state,
* an entry that is not in use is that of the state,
* the norm of gravity is that of the state,
* with all gravity entries in use, gravity is rotated by `deltaQuaternion(dt, w)`,
* a velocity entry in use grows by the entry of the RK4 increment. -/
theorem C54_predict (s : SixDRates.Obj) (hs : s.Sized NonlinSysData.Sized 18 0) (hsh : SixDRates.Shape s)
    (x : Fin 18 → ℝ) (u : DVec) (dt : ℝ) : ∃ (s' : SixDRates.Obj) (x' : Fin 18 → ℝ),
    SixDRates.cls.myUpdate s (.of x) u dt = some s' ∧ s'.der.g = .of x' ∧
    (∀ i : Fin 18, 3 ≤ i.val → NotGravity i → x' i = x i) ∧
    (∀ i : Fin 18, ¬ InUse s i → x' i = x i) ∧
    norm3 (gravityOf x') = norm3 (gravityOf x) ∧
    (InUse s 9 → InUse s 10 → InUse s 11 → gravityOf x' = (deltaQuaternion dt (rateOf x)).rot (gravityOf x)) ∧
    (∀ (i : Fin 3), InUse s i → x' ⟨i, by omega⟩ = x ⟨i, by omega⟩ + integrateVelocityRK4 dt (accelOf x) (rateOf x) 0 i) := by
  obtain ⟨s', h1, _, _, _, h5, _⟩ := SixDRates.myUpdate_of s hs hsh.2.2 x u dt
  have hu : ∀ i, s.fm.stateUsage.getD i false = true ↔ InUse s i := by
    intro i
    unfold InUse
    rw [List.getD_eq_getElem?_getD]
    cases h : s.fm.stateUsage[i]? with
    | none => simp
    | some b => simp
  have hgu : SixDRates.gravityUsed s = true ↔ InUse s 9 ∧ InUse s 10 ∧ InUse s 11 := by
    simp only [SixDRates.gravityUsed, Bool.and_eq_true, hu, and_assoc]
  have hrot : SixDRates.gravityUsed s = true →
      gravityOf (SixDRates.predicted s x dt) = (deltaQuaternion dt (rateOf x)).rot (gravityOf x) := by
    intro h
    rw [← part_rate, ← part_gravity x]
    funext k
    fin_cases k <;> simp [gravityOf, SixDRates.predicted, h]
  have hno : ¬ SixDRates.gravityUsed s = true → ∀ i : Fin 18, 3 ≤ i.val → SixDRates.predicted s x dt i = x i := by
    intro h i hi
    unfold SixDRates.predicted
    rw [dif_neg (by omega), dif_neg (by simp [h])]
  refine ⟨s', _, ?_, h5, ?_, ?_, ?_, ?_, ?_⟩
  · show (open Classical in if SixDRates.Shape s then SixDRates.myUpdate s (.of x) u dt else some s) = _
    rw [if_pos hsh, h1]
  · intro i h3 hg
    unfold SixDRates.predicted
    rw [dif_neg (by omega), dif_neg (by rcases hg with h | h <;> omega)]
  · intro i hi
    unfold SixDRates.predicted
    split
    next h3 =>
      have : SixDRates.used s i.val = 0 := by
        unfold SixDRates.used
        rw [if_neg (by rw [hu]; exact hi)]
      rw [this, zero_mul, add_zero]
    next =>
      split
      next h =>
        exfalso
        have hh := hgu.mp h.2
        apply hi
        have : i.val = 9 ∨ i.val = 10 ∨ i.val = 11 := by omega
        rcases this with e | e | e <;> rw [e]
        · exact hh.1
        · exact hh.2.1
        · exact hh.2.2
      next => rfl
  · by_cases h : SixDRates.gravityUsed s = true
    · rw [hrot h, C52_rotation (C52_unit _ _)]
    · have : gravityOf (SixDRates.predicted s x dt) = gravityOf x := by
        funext k
        fin_cases k
        · exact hno h 9 (by decide)
        · exact hno h 10 (by decide)
        · exact hno h 11 (by decide)
      rw [this]
  · intro h9 h10 h11
    exact hrot (hgu.mpr ⟨h9, h10, h11⟩)
  · intro i hi
    have : SixDRates.used s i.val = 1 := by
      unfold SixDRates.used
      rw [if_pos ((hu _).mpr hi)]
    simp only [SixDRates.predicted, part_accel, part_rate]
    rw [dif_pos i.isLt, this, one_mul]

/-- **C54** for an object on which `setActiveStates(l)` was called last: the states not listed are not modified (unless
no listed state exists, when all states are in use). -/
theorem C54_inactive (cj uc : Bool) (l : List Nat) (x : Fin 18 → ℝ) (u : DVec) (dt : ℝ) :
    ∃ (s' : SixDRates.Obj) (x' : Fin 18 → ℝ),
    SixDRates.cls.myUpdate ((SixDRates.construct cj uc).setActiveStates l) (.of x) u dt = some s' ∧ s'.der.g = .of x' ∧
    ∀ i : Fin 18, i.val ∉ l → (∃ j ∈ l, j < 18) → x' i = x i := by
  have hz : ((SixDRates.construct cj uc).setActiveStates l).Sized NonlinSysData.Sized 18 0 :=
    ⟨rfl, rfl, ⟨rfl, rfl, rfl⟩, ⟨rfl, rfl⟩, ⟨rfl, rfl⟩, ⟨rfl, rfl⟩, ⟨rfl, rfl⟩⟩
  obtain ⟨s', x', h1, h2, _, h4, _⟩ := C54_predict ((SixDRates.construct cj uc).setActiveStates l) hz ⟨rfl, rfl, rfl⟩ x u dt
  refine ⟨s', x', h1, h2, fun i hi hj => h4 i ?_⟩
  unfold InUse
  have := (C44_states (SixDRates.construct cj uc).fm l rfl).used i.val i.isLt
  show ¬ ((SixDRates.construct cj uc).fm.setActiveStates l).stateUsage[i.val]? = _
  rw [this]
  simp only [Option.some.injEq, decide_eq_true_eq, not_or]
  refine ⟨hi, fun h => ?_⟩
  obtain ⟨j, hj1, hj2⟩ := hj
  have h18 : (SixDRates.construct cj uc).fm.stateDims = 18 := rfl
  have := h j hj1
  omega

/-- Non-vacuity of C54: on a constructed object all entries are in use, so gravity does rotate: a half turn about x
turns gravity from minus z to plus z. -/
example : ∃ s' x', SixDRates.cls.myUpdate (SixDRates.construct true true)
      (.of ![0, 0, 0, 0, 0, 0, π, 0, 0, 0, 0, -9.8062, 0, 0, 0, 0, 0, 0]) (.zero 0) 1 = some s' ∧ s'.der.g = .of x' ∧
    gravityOf x' = ![0, 0, 9.8062] := by
  obtain ⟨s', x', h1, h2, _, _, _, h6, _⟩ := C54_predict (SixDRates.construct true true)
    (SixDRates.construct_sized true true) (SixDRates.construct_shape true true)
    ![0, 0, 0, 0, 0, 0, π, 0, 0, 0, 0, -9.8062, 0, 0, 0, 0, 0, 0] (.zero 0) 1
  refine ⟨s', x', h1, h2, ?_⟩
  have hu : ∀ i, i < 18 → InUse (SixDRates.construct true true) i := by
    intro i hi
    unfold InUse
    interval_cases i <;> rfl
  rw [h6 (hu _ (by omega)) (hu _ (by omega)) (hu _ (by omega))]
  have hr : rateOf ![0, 0, 0, 0, 0, 0, π, 0, 0, 0, 0, -9.8062, 0, 0, 0, 0, 0, 0] = ![π, 0, 0] := rfl
  have hg : gravityOf ![0, 0, 0, 0, 0, 0, π, 0, 0, 0, 0, -9.8062, 0, 0, 0, 0, 0, 0] = ![0, 0, -9.8062] := rfl
  have hn : norm3 ![π, 0, 0] = π := (norm3_axis π pi_pos.le).1
  rw [hr, hg, deltaQuaternion_big (by rw [hn]; have := Real.two_le_pi; norm_num; linarith), hn]
  have e : (0.5 : ℝ) * 1 * π = π / 2 := by ring
  rw [e, rot_eq]
  have hp := pi_ne_zero
  ext k
  fin_cases k <;> simp [hp] <;> norm_num

end StateEstimation.Props
