import Verif.Spec.Apart
import Verif.Lemmas.PlantRel
import Verif.Lemmas.Numeric
import Verif.Lemmas.KFSteps

/-!
# Products, sums and inverses of matrices that keep two sides apart
-/

set_option linter.unusedSectionVars false

namespace StateEstimation

open Matrix

variable {T K X Y D DS XS DM XM : Type}

/-- If both succeed, the results are related. -/
def Both {α β : Type} (R : α → β → Prop) (a : Option α) (b : Option β) : Prop := ∀ r q, a = some r → b = some q → R r q

theorem Both.bind {α β γ δ : Type} {R : α → β → Prop} {S : γ → δ → Prop} {a : Option α} {b : Option β} {f : α → Option γ}
    {g : β → Option δ} (h : Both R a b) (hf : ∀ r q, R r q → Both S (f r) (g q)) : Both S (a.bind f) (b.bind g) := by
  intro r q hr hq
  obtain ⟨x, hx, hr⟩ := Option.bind_eq_some_iff.mp hr
  obtain ⟨y, hy, hq⟩ := Option.bind_eq_some_iff.mp hq
  exact hf x y (h x y hx hy) r q hr hq

theorem Both.some {α β : Type} {R : α → β → Prop} {a : α} {b : β} (h : R a b) : Both R (some a) (some b) := by
  intro r q hr hq
  injection hr with hr; injection hq with hq
  subst hr; subst hq; exact h

theorem Both.map {α β γ δ : Type} {R : α → β → Prop} {S : γ → δ → Prop} {a : Option α} {b : Option β} {f : α → γ}
    {g : β → δ} (h : Both R a b) (hf : ∀ r q, R r q → S (f r) (g q)) : Both S (a.map f) (b.map g) := by
  intro r q hr hq
  obtain ⟨x, hx, hr⟩ := Option.map_eq_some_iff.mp hr
  obtain ⟨y, hy, hq⟩ := Option.map_eq_some_iff.mp hq
  subst hr; subst hq
  exact hf x y (h x y hx hy)

theorem OptRel.of_both {α β : Type} {R : α → β → Prop} {A : α → Prop} {B : β → Prop} {a : Option α} {b : Option β}
    (ha : OptP True A a) (hb : OptP True B b) (h : Both R a b) : OptRel True (fun r q => A r ∧ B q ∧ R r q) a b := by
  cases a with
  | none => exact False.elim (ha trivial)
  | some r =>
    cases b with
    | none => exact False.elim (hb trivial)
    | some q => exact ⟨ha, hb, h r q rfl rfl⟩

/-- `ApartMat` for typed matrices. -/
def Sep {m n : Nat} (r c : Nat → Bool) (A A' : Matrix (Fin m) (Fin n) ℝ) : Prop :=
  (∀ i j, r i.val ≠ c j.val → A i j = 0 ∧ A' i j = 0) ∧ ∀ i j, r i.val = true → c j.val = true → A' i j = A i j

theorem apart_of {m n : Nat} {r c : Nat → Bool} {A A' : Matrix (Fin m) (Fin n) ℝ} :
    ApartMat r c (.of A) (.of A') ↔ Sep r c A A' := by
  constructor
  · intro h
    refine ⟨fun i j hij => ⟨?_, ?_⟩, fun i j hi hj => ?_⟩
    · refine h.cross i.val j.val _ hij ?_
      unfold DMat.get?
      rw [dif_pos ⟨i.isLt, j.isLt⟩]
    · refine h.cross' i.val j.val _ hij ?_
      unfold DMat.get?
      rw [dif_pos ⟨i.isLt, j.isLt⟩]
    · have := h.same i.val j.val hi hj
      unfold DMat.get? at this
      rw [dif_pos ⟨i.isLt, j.isLt⟩, dif_pos ⟨i.isLt, j.isLt⟩] at this
      injection this
  · intro h
    refine ⟨rfl, rfl, ?_, ?_, ?_⟩
    · intro i j v hij hv
      unfold DMat.get? at hv
      split at hv
      next hb => injection hv with hv; rw [← hv]; exact (h.1 ⟨i, hb.1⟩ ⟨j, hb.2⟩ hij).1
      next => cases hv
    · intro i j v hij hv
      unfold DMat.get? at hv
      split at hv
      next hb => injection hv with hv; rw [← hv]; exact (h.1 ⟨i, hb.1⟩ ⟨j, hb.2⟩ hij).2
      next => cases hv
    · intro i j hi hj
      unfold DMat.get?
      by_cases hb : i < m ∧ j < n
      · rw [dif_pos hb, dif_pos hb]
        exact congrArg _ (h.2 ⟨i, hb.1⟩ ⟨j, hb.2⟩ hi hj)
      · rw [dif_neg hb, dif_neg hb]

theorem ApartMat.exists_of {r c : Nat → Bool} {A A' : DMat} (h : ApartMat r c A A') :
    ∃ (m n : Nat) (B B' : Matrix (Fin m) (Fin n) ℝ), A = .of B ∧ A' = .of B' ∧ Sep r c B B' := by
  obtain ⟨B', hB'⟩ := A'.exists_of h.rows h.cols
  refine ⟨A.rows, A.cols, A.val, B', rfl, hB', ?_⟩
  rw [← apart_of, ← hB']
  exact h

theorem agree_of {n : Nat} {p : Nat → Bool} {v v' : Fin n → ℝ} : AgreeOn p (.of v) (.of v') ↔ ∀ i : Fin n, p i.val = true → v' i = v i := by
  constructor
  · intro h i hi
    have := h.2 i.val hi
    unfold DVec.get? at this
    rw [dif_pos i.isLt, dif_pos i.isLt] at this
    injection this
  · intro h
    refine ⟨rfl, fun i hi => ?_⟩
    unfold DVec.get?
    by_cases hb : i < n
    · rw [dif_pos hb, dif_pos hb]
      exact congrArg _ (h ⟨i, hb⟩ hi)
    · rw [dif_neg hb, dif_neg hb]

theorem AgreeOn.exists_of {p : Nat → Bool} {x x' : DVec} (h : AgreeOn p x x') :
    ∃ (n : Nat) (v v' : Fin n → ℝ), x = .of v ∧ x' = .of v' ∧ ∀ i : Fin n, p i.val = true → v' i = v i := by
  obtain ⟨v', hv'⟩ := x'.exists_of h.1
  refine ⟨x.size, x.val, v', rfl, hv', ?_⟩
  rw [← agree_of, ← hv']
  exact h

section typed
variable {l m n : Nat} {r k c : Nat → Bool}

theorem Sep.mul {A A' : Matrix (Fin l) (Fin m) ℝ} {B B' : Matrix (Fin m) (Fin n) ℝ} (h : Sep r k A A') (h' : Sep k c B B') :
    Sep r c (A * B) (A' * B') := by
  refine ⟨fun i j hij => ⟨?_, ?_⟩, fun i j hi hj => ?_⟩
  · rw [Matrix.mul_apply]
    refine Finset.sum_eq_zero fun a _ => ?_
    by_cases hia : r i.val = k a.val
    · rw [(h'.1 a j (by rw [← hia]; exact hij)).1, mul_zero]
    · rw [(h.1 i a hia).1, zero_mul]
  · rw [Matrix.mul_apply]
    refine Finset.sum_eq_zero fun a _ => ?_
    by_cases hia : r i.val = k a.val
    · rw [(h'.1 a j (by rw [← hia]; exact hij)).2, mul_zero]
    · rw [(h.1 i a hia).2, zero_mul]
  · rw [Matrix.mul_apply, Matrix.mul_apply]
    refine Finset.sum_congr rfl fun a _ => ?_
    by_cases ha : k a.val = true
    · rw [h.2 i a hi ha, h'.2 a j ha hj]
    · have : r i.val ≠ k a.val := by rw [hi]; exact fun h => ha h.symm
      rw [(h.1 i a this).1, (h.1 i a this).2, zero_mul, zero_mul]

theorem Sep.add {A A' B B' : Matrix (Fin m) (Fin n) ℝ} (h : Sep r c A A') (h' : Sep r c B B') : Sep r c (A + B) (A' + B') := by
  refine ⟨fun i j hij => ⟨?_, ?_⟩, fun i j hi hj => ?_⟩
  · rw [Matrix.add_apply, (h.1 i j hij).1, (h'.1 i j hij).1, add_zero]
  · rw [Matrix.add_apply, (h.1 i j hij).2, (h'.1 i j hij).2, add_zero]
  · rw [Matrix.add_apply, Matrix.add_apply, h.2 i j hi hj, h'.2 i j hi hj]

theorem Sep.sub {A A' B B' : Matrix (Fin m) (Fin n) ℝ} (h : Sep r c A A') (h' : Sep r c B B') : Sep r c (A - B) (A' - B') := by
  refine ⟨fun i j hij => ⟨?_, ?_⟩, fun i j hi hj => ?_⟩
  · rw [Matrix.sub_apply, (h.1 i j hij).1, (h'.1 i j hij).1, sub_zero]
  · rw [Matrix.sub_apply, (h.1 i j hij).2, (h'.1 i j hij).2, sub_zero]
  · rw [Matrix.sub_apply, Matrix.sub_apply, h.2 i j hi hj, h'.2 i j hi hj]

theorem Sep.transpose {A A' : Matrix (Fin m) (Fin n) ℝ} (h : Sep r c A A') : Sep c r Aᵀ A'ᵀ :=
  ⟨fun i j hij => h.1 j i (fun e => hij e.symm), fun i j hi hj => h.2 j i hj hi⟩

theorem Sep.one : Sep r r (1 : Matrix (Fin n) (Fin n) ℝ) 1 := by
  refine ⟨fun i j hij => ?_, fun _ _ _ _ => rfl⟩
  have : i ≠ j := by rintro rfl; exact hij rfl
  rw [Matrix.one_apply_ne this]
  exact ⟨rfl, rfl⟩

/-- The projector on the side that is looked at. -/
private def proj (r : Nat → Bool) (n : Nat) : Matrix (Fin n) (Fin n) ℝ := Matrix.diagonal fun i => if r i.val then 1 else 0

private theorem sep_iff {A A' : Matrix (Fin n) (Fin n) ℝ} :
    Sep r r A A' ↔ proj r n * A = A * proj r n ∧ proj r n * A' = A' * proj r n ∧ proj r n * A = proj r n * A' := by
  unfold proj
  constructor
  · intro h
    refine ⟨?_, ?_, ?_⟩ <;> ext i j <;> simp only [Matrix.diagonal_mul, Matrix.mul_diagonal]
    · by_cases hij : r i.val = r j.val
      · rw [hij, mul_comm]
      · rw [(h.1 i j hij).1, mul_zero, zero_mul]
    · by_cases hij : r i.val = r j.val
      · rw [hij, mul_comm]
      · rw [(h.1 i j hij).2, mul_zero, zero_mul]
    · by_cases hij : r i.val = r j.val
      · by_cases hi : r i.val = true
        · rw [h.2 i j hi (hij.symm.trans hi)]
        · rw [if_neg hi, zero_mul, zero_mul]
      · rw [(h.1 i j hij).1, (h.1 i j hij).2]
  · rintro ⟨h1, h2, h3⟩
    refine ⟨fun i j hij => ⟨?_, ?_⟩, fun i j hi hj => ?_⟩
    · have := congrFun (congrFun h1 i) j
      rw [Matrix.diagonal_mul, Matrix.mul_diagonal] at this
      cases hi : r i.val <;> cases hj : r j.val <;> simp_all
    · have := congrFun (congrFun h2 i) j
      rw [Matrix.diagonal_mul, Matrix.mul_diagonal] at this
      cases hi : r i.val <;> cases hj : r j.val <;> simp_all
    · have := congrFun (congrFun h3 i) j
      rw [Matrix.diagonal_mul, Matrix.diagonal_mul, hi, if_pos rfl, one_mul, one_mul] at this
      exact this.symm

theorem Sep.inv {A A' : Matrix (Fin n) (Fin n) ℝ} (h : Sep r r A A') (hA : IsUnit A.det) (hA' : IsUnit A'.det) :
    Sep r r A⁻¹ A'⁻¹ := by
  rw [sep_iff] at h ⊢
  obtain ⟨h1, h2, h3⟩ := h
  generalize proj r n = E at h1 h2 h3 ⊢
  have comm : ∀ B : Matrix (Fin n) (Fin n) ℝ, IsUnit B.det → E * B = B * E → E * B⁻¹ = B⁻¹ * E := by
    intro B hB h
    calc E * B⁻¹ = B⁻¹ * B * E * B⁻¹ := by rw [Matrix.nonsing_inv_mul B hB, Matrix.one_mul]
      _ = B⁻¹ * (E * B) * B⁻¹ := by rw [Matrix.mul_assoc B⁻¹ B E, h]
      _ = B⁻¹ * E := by rw [Matrix.mul_assoc, Matrix.mul_assoc, Matrix.mul_nonsing_inv B hB, Matrix.mul_one]
  refine ⟨comm A hA h1, comm A' hA' h2, ?_⟩
  calc E * A⁻¹ = E * A⁻¹ * (A' * A'⁻¹) := by rw [Matrix.mul_nonsing_inv A' hA', Matrix.mul_one]
    _ = A⁻¹ * (E * A') * A'⁻¹ := by rw [comm A hA h1]; simp only [Matrix.mul_assoc]
    _ = A⁻¹ * (A * E) * A'⁻¹ := by rw [← h3, h1]
    _ = E * A'⁻¹ := by rw [← Matrix.mul_assoc A⁻¹ A E, Matrix.nonsing_inv_mul A hA, Matrix.one_mul]

theorem Sep.mulVec {A A' : Matrix (Fin m) (Fin n) ℝ} {v v' : Fin n → ℝ} (h : Sep r c A A')
    (hv : ∀ j : Fin n, c j.val = true → v' j = v j) (i : Fin m) (hi : r i.val = true) : (A' *ᵥ v') i = (A *ᵥ v) i := by
  unfold Matrix.mulVec dotProduct
  refine Finset.sum_congr rfl fun j _ => ?_
  show A' i j * v' j = A i j * v j
  by_cases hj : c j.val = true
  · rw [h.2 i j hi hj, hv j hj]
  · have : r i.val ≠ c j.val := by rw [hi]; exact fun h => hj h.symm
    rw [(h.1 i j this).1, (h.1 i j this).2, zero_mul, zero_mul]

end typed

section dyn
variable {r k c : Nat → Bool}

theorem ApartMat.mul {A A' B B' : DMat} (h : ApartMat r k A A') (h' : ApartMat k c B B') :
    Both (ApartMat r c) (A.mul B) (A'.mul B') := by
  intro R R' h1 h2
  obtain ⟨a, b, A, A', rfl, rfl, g⟩ := h.exists_of
  obtain ⟨b', d, B, B', rfl, rfl, g'⟩ := h'.exists_of
  have e : b = b' := (DMat.mul_eq_some h1).1
  subst e
  rw [DMat.mul_of] at h1 h2
  injection h1 with h1; injection h2 with h2
  rw [← h1, ← h2, apart_of]
  exact g.mul g'

theorem ApartMat.add {A A' B B' : DMat} (h : ApartMat r c A A') (h' : ApartMat r c B B') :
    Both (ApartMat r c) (A.add B) (A'.add B') := by
  intro R R' h1 h2
  obtain ⟨a, b, A, A', rfl, rfl, g⟩ := h.exists_of
  obtain ⟨a', b', B, B', rfl, rfl, g'⟩ := h'.exists_of
  have e := DMat.add_eq_some h1
  have e1 : a = a' := e.1
  have e2 : b = b' := e.2.1
  subst e1 e2
  rw [DMat.add_of] at h1 h2
  injection h1 with h1; injection h2 with h2
  rw [← h1, ← h2, apart_of]
  exact g.add g'

theorem ApartMat.sub {A A' B B' : DMat} (h : ApartMat r c A A') (h' : ApartMat r c B B') :
    Both (ApartMat r c) (A.sub B) (A'.sub B') := by
  intro R R' h1 h2
  obtain ⟨a, b, A, A', rfl, rfl, g⟩ := h.exists_of
  obtain ⟨a', b', B, B', rfl, rfl, g'⟩ := h'.exists_of
  have e := DMat.sub_eq_some h1
  have e1 : a = a' := e.1
  have e2 : b = b' := e.2.1
  subst e1 e2
  rw [DMat.sub_of] at h1 h2
  injection h1 with h1; injection h2 with h2
  rw [← h1, ← h2, apart_of]
  exact g.sub g'

theorem ApartMat.transpose {A A' : DMat} (h : ApartMat r c A A') : ApartMat c r A.transpose A'.transpose := by
  obtain ⟨a, b, A, A', rfl, rfl, g⟩ := h.exists_of
  rw [DMat.transpose_of, DMat.transpose_of, apart_of]
  exact g.transpose

theorem ApartMat.identity (n : Nat) : ApartMat r r (.identity n) (.identity n) := by
  rw [DMat.identity_of, apart_of]; exact Sep.one

theorem ApartMat.inverse {A A' : DMat} (h : ApartMat r r A A') : Both (ApartMat r r) A.inverse A'.inverse := by
  intro R R' h1 h2
  obtain ⟨a, b, A, A', rfl, rfl, g⟩ := h.exists_of
  have e : a = b := (DMat.inverse_eq_some h1).1
  subst e
  have hA : IsUnit A.det := by
    by_contra hn
    rw [DMat.inverse_singular A hn] at h1; cases h1
  have hA' : IsUnit A'.det := by
    by_contra hn
    rw [DMat.inverse_singular A' hn] at h2; cases h2
  rw [DMat.inverse_of A hA] at h1
  rw [DMat.inverse_of A' hA'] at h2
  injection h1 with h1; injection h2 with h2
  rw [← h1, ← h2, apart_of]
  exact g.inv hA hA'

theorem ApartMat.mulVec {A A' : DMat} {v v' : DVec} (h : ApartMat r c A A') (hv : AgreeOn c v v') :
    Both (AgreeOn r) (A.mulVec v) (A'.mulVec v') := by
  intro R R' h1 h2
  obtain ⟨a, b, A, A', rfl, rfl, g⟩ := h.exists_of
  obtain ⟨b', v, v', rfl, rfl, gv⟩ := hv.exists_of
  have e : b = b' := (DMat.mulVec_eq_some h1).1
  subst e
  rw [DMat.mulVec_of] at h1 h2
  injection h1 with h1; injection h2 with h2
  rw [← h1, ← h2, agree_of]
  exact g.mulVec gv

theorem AgreeOn.add {a a' b b' : DVec} (h : AgreeOn r a a') (h' : AgreeOn r b b') : Both (AgreeOn r) (a.add b) (a'.add b') := by
  intro R R' h1 h2
  obtain ⟨n, a, a', rfl, rfl, g⟩ := h.exists_of
  obtain ⟨n', b, b', rfl, rfl, g'⟩ := h'.exists_of
  have e : n = n' := (DVec.add_eq_some h1).1
  subst e
  rw [DVec.add_of] at h1 h2
  injection h1 with h1; injection h2 with h2
  rw [← h1, ← h2, agree_of]
  intro i hi
  rw [Pi.add_apply, Pi.add_apply, g i hi, g' i hi]

theorem AgreeOn.sub {a a' b b' : DVec} (h : AgreeOn r a a') (h' : AgreeOn r b b') : Both (AgreeOn r) (a.sub b) (a'.sub b') := by
  intro R R' h1 h2
  obtain ⟨n, a, a', rfl, rfl, g⟩ := h.exists_of
  obtain ⟨n', b, b', rfl, rfl, g'⟩ := h'.exists_of
  have e : n = n' := (DVec.sub_eq_some h1).1
  subst e
  rw [DVec.sub_of] at h1 h2
  injection h1 with h1; injection h2 with h2
  rw [← h1, ← h2, agree_of]
  intro i hi
  rw [Pi.sub_apply, Pi.sub_apply, g i hi, g' i hi]

end dyn

/-! ### The filters -/

variable {p : Sides} {q : Nat → Bool}

theorem propagateCov_apart {A A' c c' P P' Rp Rp' V V' Rc Rc' : DMat} (hA : ApartMat p.states p.states A A')
    (hc : ApartMat p.states p.states c c') (hP : ApartMat p.states p.noises P P') (hRp : ApartMat p.noises p.noises Rp Rp')
    (hV : ApartMat p.states p.controls V V') (hRc : ApartMat p.controls p.controls Rc Rc') :
    Both (ApartMat p.states p.states) (propagateCov A c P Rp V Rc) (propagateCov A' c' P' Rp' V' Rc') := by
  unfold propagateCov
  refine (hA.mul hc).bind fun _ _ h1 => ?_
  refine (h1.mul hA.transpose).bind fun _ _ h1 => ?_
  refine (hP.mul hRp).bind fun _ _ h2 => ?_
  refine (h2.mul hP.transpose).bind fun _ _ h2 => ?_
  refine (hV.mul hRc).bind fun _ _ h3 => ?_
  refine (h3.mul hV.transpose).bind fun _ _ h3 => ?_
  exact (h1.add h2).bind fun _ _ h4 => h4.add h3

theorem kalmanGain_apart {c c' C C' R R' : DMat} (hc : ApartMat p.states p.states c c') (hC : ApartMat q p.states C C')
    (hR : ApartMat q q R R') : Both (ApartMat p.states q) (kalmanGain c C R) (kalmanGain c' C' R') := by
  unfold kalmanGain
  refine (hc.mul hC.transpose).bind fun _ _ h1 => ?_
  refine (hC.mul h1).bind fun _ _ h2 => ?_
  refine (h2.add hR).bind fun _ _ h3 => ?_
  exact h3.inverse.bind fun _ _ h4 => h1.mul h4

theorem shrinkCov_apart {c c' C C' G G' : DMat} (n : Nat) (hG : ApartMat p.states q G G') (hC : ApartMat q p.states C C')
    (hc : ApartMat p.states p.states c c') : Both (ApartMat p.states p.states) (shrinkCov n G C c) (shrinkCov n G' C' c') := by
  unfold shrinkCov
  refine (hG.mul hC).bind fun _ _ h1 => ?_
  exact ((ApartMat.identity n).sub h1).bind fun _ _ h2 => h2.mul hc

theorem Sys.update_apart {DA : D → D → Prop} {sc : SysClass T D X} (h : sc.KeepsApart p DA) {s s' : Sys D X} (hs : s.Apart p DA s')
    {x x' u u' : DVec} (hx : AgreeOn p.states x x') (hu : AgreeOn p.controls u u') (dt : T) :
    Both (Sys.Apart p DA) (s.update sc x u dt) (s'.update sc x' u' dt) := by
  intro r r' hr hr'
  unfold Sys.update at hr hr'
  split at hr
  · split at hr'
    · exact h.update s s' x x' u u' dt r r' hs hx hu hr hr'
    · cases hr'
  · cases hr

theorem Meas.update_apart {DA : D → D → Prop} {mc : MeasClass T D Y} (h : mc.KeepsApart p q DA) {m m' : Meas D Y} (hm : m.Apart q DA m')
    {x x' : DVec} (hx : AgreeOn p.states x x') (dt : T) :
    Both (Meas.Apart q DA) (m.update mc x dt) (m'.update mc x' dt) := by
  intro r r' hr hr'
  unfold Meas.update at hr hr'
  split at hr
  · split at hr'
    · exact h.update m m' x x' dt r r' hm hx hr hr'
    · cases hr'
  · cases hr

/-- What a step of the filter keeps. -/
def StepApart {Z : Type} (p : Sides) (RE : Z → Z → Prop) (r r' : DVec × DMat × Z) : Prop :=
  (AgreeOn p.states r.1 r'.1 ∧ ApartMat p.states p.states r.2.1 r'.2.1) ∧ RE r.2.2 r'.2.2

variable {Z : Type} {RE : Z → Z → Prop}

theorem kfPredict_apart {sc : SysClass T LinSysData X} (h : sc.KeepsApart p (LinSysData.Apart p)) {s s' : Sys LinSysData X}
    (hs : s.Apart p (LinSysData.Apart p) s') {x x' u u' : DVec} {c c' : DMat} (hx : AgreeOn p.states x x')
    (hc : ApartMat p.states p.states c c') (hu : AgreeOn p.controls u u') (dt : T) {b b' : Sys LinSysData X → Z}
    (hb : ∀ r r', s.update sc x u dt = some r → s'.update sc x' u' dt = some r' → r.Apart p (LinSysData.Apart p) r' → RE (b r) (b' r')) :
    Both (StepApart p RE) (kfPredict sc s x c u dt b) (kfPredict sc s' x' c' u' dt b') := by
  unfold kfPredict
  refine Both.bind (R := fun r r' => r.Apart p (LinSysData.Apart p) r' ∧ RE (b r) (b' r'))
    (fun r r' h1 h2 => ⟨Sys.update_apart h hs hx hu dt r r' h1 h2, hb r r' h1 h2 (Sys.update_apart h hs hx hu dt r r' h1 h2)⟩) ?_
  rintro r r' ⟨hr, he⟩
  refine (hr.der.1.mulVec hx).bind fun _ _ h1 => ?_
  refine (hr.der.2.mulVec hu).bind fun _ _ h2 => ?_
  rw [h.plain.add, h.plain.add]
  refine (h1.add h2).bind fun _ _ h3 => ?_
  refine (propagateCov_apart hr.der.1 hc hr.P hr.Rp hr.V hr.Rc).bind fun _ _ h4 => ?_
  exact Both.some ⟨⟨h3, h4⟩, he⟩

theorem ekfPredict_apart {sc : SysClass T NonlinSysData X} (h : sc.KeepsApart p (NonlinSysData.Apart p)) {s s' : Sys NonlinSysData X}
    (hs : s.Apart p (NonlinSysData.Apart p) s') {x x' u u' : DVec} {c c' : DMat} (hx : AgreeOn p.states x x')
    (hc : ApartMat p.states p.states c c') (hu : AgreeOn p.controls u u') (dt : T) {b b' : Sys NonlinSysData X → Z}
    (hb : ∀ r r', s.update sc x u dt = some r → s'.update sc x' u' dt = some r' → r.Apart p (NonlinSysData.Apart p) r' → RE (b r) (b' r')) :
    Both (StepApart p RE) (ekfPredict sc s x c u dt b) (ekfPredict sc s' x' c' u' dt b') := by
  unfold ekfPredict
  refine Both.bind (R := fun r r' => r.Apart p (NonlinSysData.Apart p) r' ∧ RE (b r) (b' r'))
    (fun r r' h1 h2 => ⟨Sys.update_apart h hs hx hu dt r r' h1 h2, hb r r' h1 h2 (Sys.update_apart h hs hx hu dt r r' h1 h2)⟩) ?_
  rintro r r' ⟨hr, he⟩
  refine (propagateCov_apart hr.der.2 hc hr.P hr.Rp hr.V hr.Rc).bind fun _ _ h4 => ?_
  exact Both.some ⟨⟨hr.der.1, h4⟩, he⟩

theorem kfCorrect_apart {sc : SysClass T LinSysData X} (hsc : sc.PlainOps) {mc : MeasClass T LinMeasData Y}
    (h : mc.KeepsApart p q (LinMeasData.Apart p q)) {s s' : Sys LinSysData X} {m m' : Meas LinMeasData Y}
    (hm : m.Apart q (LinMeasData.Apart p q) m') {x x' z z' : DVec} {c c' : DMat} (hx : AgreeOn p.states x x')
    (hc : ApartMat p.states p.states c c') (hz : AgreeOn q z z') (dt : T) {b b' : Meas LinMeasData Y → Z}
    (hb : ∀ r r', m.update mc x dt = some r → m'.update mc x' dt = some r' → r.Apart q (LinMeasData.Apart p q) r' → RE (b r) (b' r')) :
    Both (StepApart p RE) (kfCorrect sc mc s m x c z dt b) (kfCorrect sc mc s' m' x' c' z' dt b') := by
  unfold kfCorrect
  refine Both.bind (R := fun r r' => r.Apart q (LinMeasData.Apart p q) r' ∧ RE (b r) (b' r'))
    (fun r r' h1 h2 => ⟨Meas.update_apart h hm hx dt r r' h1 h2, hb r r' h1 h2 (Meas.update_apart h hm hx dt r r' h1 h2)⟩) ?_
  rintro r r' ⟨hr, he⟩
  refine (kalmanGain_apart hc hr.der hr.cov).bind fun _ _ h1 => ?_
  refine ((show ApartMat q p.states r.der.C r'.der.C from hr.der).mulVec hx).bind fun _ _ h2 => ?_
  rw [h.plain.sub, h.plain.sub, hsc.add, hsc.add]
  refine (hz.sub h2).bind fun _ _ h3 => ?_
  refine (h1.mulVec h3).bind fun _ _ h4 => ?_
  refine (hx.add h4).bind fun _ _ h5 => ?_
  rw [hx.1]
  refine (shrinkCov_apart x.size h1 hr.der hc).bind fun _ _ h6 => ?_
  exact Both.some ⟨⟨h5, h6⟩, he⟩

theorem ekfCorrect_apart {sc : SysClass T NonlinSysData X} (hsc : sc.PlainOps) {mc : MeasClass T NonlinMeasData Y}
    (h : mc.KeepsApart p q (NonlinMeasData.Apart p q)) {s s' : Sys NonlinSysData X} {m m' : Meas NonlinMeasData Y}
    (hm : m.Apart q (NonlinMeasData.Apart p q) m') {x x' z z' : DVec} {c c' : DMat} (hx : AgreeOn p.states x x')
    (hc : ApartMat p.states p.states c c') (hz : AgreeOn q z z') (dt : T) {b b' : Meas NonlinMeasData Y → Z}
    (hb : ∀ r r', m.update mc x dt = some r → m'.update mc x' dt = some r' → r.Apart q (NonlinMeasData.Apart p q) r' → RE (b r) (b' r')) :
    Both (StepApart p RE) (ekfCorrect sc mc s m x c z dt b) (ekfCorrect sc mc s' m' x' c' z' dt b') := by
  unfold ekfCorrect
  refine Both.bind (R := fun r r' => r.Apart q (NonlinMeasData.Apart p q) r' ∧ RE (b r) (b' r'))
    (fun r r' h1 h2 => ⟨Meas.update_apart h hm hx dt r r' h1 h2, hb r r' h1 h2 (Meas.update_apart h hm hx dt r r' h1 h2)⟩) ?_
  rintro r r' ⟨hr, he⟩
  refine (kalmanGain_apart hc hr.der.2 hr.cov).bind fun _ _ h1 => ?_
  rw [h.plain.sub, h.plain.sub, hsc.add, hsc.add]
  refine (hz.sub hr.der.1).bind fun _ _ h3 => ?_
  refine (h1.mulVec h3).bind fun _ _ h4 => ?_
  refine (hx.add h4).bind fun _ _ h5 => ?_
  rw [hx.1]
  refine (shrinkCov_apart x.size h1 hr.der.2 hc).bind fun _ _ h6 => ?_
  exact Both.some ⟨⟨h5, h6⟩, he⟩

end StateEstimation
