import Verif.Props.Turns

/-!
# C129 for the planar states of the library
-/

set_option linter.unusedSectionVars false

namespace StateEstimation
namespace Props

open Turns Real

private theorem sameAngle_of {a b : ℝ} (h : ∃ k : ℤ, b = a + k * (2 * π)) : SameAngle b a := h

private theorem vec_of {J : Nat → Prop} {n : Nat} {a b : Fin n → ℝ} :
    Vec J (.of a) (.of b) ↔ ∀ i, ∃ k : ℤ, b i = a i + k * (2 * π) ∧ (k = 0 ∨ J i) :=
  ⟨fun h i => h.2 i.val i.isLt i.isLt, fun h => ⟨rfl, fun i hi _ => h ⟨i, hi⟩⟩⟩

private theorem vec_split {J : Nat → Prop} {x x' : DVec} (h : Vec J x x') : ∃ (n : Nat) (a b : Fin n → ℝ), x = .of a ∧ x' = .of b := by
  obtain ⟨n, a⟩ := x
  obtain ⟨m, b⟩ := x'
  obtain rfl : n = m := h.1
  exact ⟨n, a, b, rfl, rfl⟩

private theorem vec_other {n : Nat} {a b : Fin n → ℝ} (h : Vec PlanarAngle (.of a) (.of b)) (i : Fin n) (hi : i.val ≠ 6) : b i = a i := by
  obtain ⟨k, h1, h2⟩ := vec_of.mp h i
  rcases h2 with rfl | h2
  · simpa using h1
  · exact absurd h2 hi

private theorem vec_heading {n : Nat} {a b : Fin n → ℝ} (h : Vec PlanarAngle (.of a) (.of b)) (i : Fin n) : SameAngle (b i) (a i) := by
  obtain ⟨k, h1, _⟩ := vec_of.mp h i
  exact ⟨k, h1⟩

private theorem addState_short {n m : Nat} (a : Fin n → ℝ) (b : Fin m → ℝ) (h : ¬ (n = m ∧ 6 < n)) :
    Planar2d.addState (.of a) (.of b) = none := by
  unfold Planar2d.addState
  by_cases hm : n = m
  · subst hm
    rw [DVec.add_of]
    show ((DVec.of (a + b)).get? 6).bind _ = _
    rw [DVec.get?, dif_neg (fun hh => h ⟨rfl, hh⟩)]; rfl
  · unfold DVec.add
    rw [dif_neg hm]; rfl

private theorem subState_short {n m : Nat} (a : Fin n → ℝ) (b : Fin m → ℝ) (h : ¬ (n = m ∧ 6 < n)) :
    Planar2d.subtractState (.of a) (.of b) = none := by
  unfold Planar2d.subtractState
  by_cases hm : n = m
  · subst hm
    rw [DVec.sub_of]
    show ((DVec.of a).get? 6).bind _ = _
    rw [DVec.get?, dif_neg (fun hh => h ⟨rfl, hh⟩)]; rfl
  · unfold DVec.sub
    rw [dif_neg hm]; rfl

/-- **C129, planar addition.**  Adding the same increment to planar states that are the same up to full turns of the heading gives
states that are the same up to full turns, for vectors of any sizes. -/
theorem C129_planar_add (x x' d : DVec) (h : Vec PlanarAngle x x') :
    Units.Both (Vec PlanarAngle) (Planar2d.addState x d) (Planar2d.addState x' d) := by
  obtain ⟨n, a, b, rfl, rfl⟩ := vec_split h
  obtain ⟨m, d⟩ := d
  by_cases hn : n = m ∧ 6 < n
  · obtain ⟨rfl, hn⟩ := hn
    obtain ⟨r, h1, _, _, h2, h3⟩ := C48_addState hn a d
    obtain ⟨r', g1, _, _, g2, g3⟩ := C48_addState hn b d
    rw [h1, g1]
    refine vec_of.mpr fun i => ?_
    by_cases hi : i = heading hn
    · subst hi
      have h4 : SameAngle (b (heading hn) + d (heading hn)) (a (heading hn) + d (heading hn)) := by
        obtain ⟨k, hk⟩ := vec_heading h (heading hn)
        exact ⟨k, by rw [hk]; ring⟩
      obtain ⟨k, hk⟩ := (g2.trans h4).trans h2.symm
      exact ⟨k, hk, Or.inr rfl⟩
    · refine ⟨0, ?_, Or.inl rfl⟩
      rw [g3 i hi, h3 i hi, vec_other h i (fun hh => hi (Fin.ext hh))]; simp
  · rw [addState_short a d hn, addState_short b d hn]; trivial

/-- The short difference of two angles does not depend on full turns, unless they are exactly opposite. -/
theorem C129_difference {a a' b b' : ℝ} (ha : SameAngle a' a) (hb : SameAngle b' b) (h : ¬ Opposite a b) :
    angleDifference a' b' = angleDifference a b := by
  obtain ⟨h1, h2, h3, _⟩ := C47_angleDifference a b
  obtain ⟨g1, g2, g3, _⟩ := C47_angleDifference a' b'
  have h4 : SameAngle (a' - b') (a - b) := by
    obtain ⟨k, hk⟩ := ha
    obtain ⟨l, hl⟩ := hb
    exact ⟨k - l, by rw [hk, hl]; push_cast; ring⟩
  rcases sameAngle_unique ((g3.trans h4).trans h3.symm) g1 g2 h1 h2 with e | ⟨_, e⟩ | ⟨_, e⟩
  · exact e
  · refine absurd ?_ h
    obtain ⟨k, hk⟩ := h3.symm
    exact ⟨k - 1, by rw [hk, e]; push_cast; ring⟩
  · refine absurd ?_ h
    obtain ⟨k, hk⟩ := h3.symm
    exact ⟨k, by rw [hk, e]⟩

/-- **C129, planar differences.**  The difference of planar states does not depend on full turns of their headings, unless the
headings are exactly opposite. -/
theorem C129_planar_sub (x x' y y' : DVec) (hx : Vec PlanarAngle x x') (hy : Vec PlanarAngle y y') (h : ¬ OppositeHeadings x y) :
    Planar2d.subtractState x y = Planar2d.subtractState x' y' := by
  obtain ⟨n, a, a', rfl, rfl⟩ := vec_split hx
  obtain ⟨m, b, b', rfl, rfl⟩ := vec_split hy
  by_cases hn : n = m ∧ 6 < n
  · obtain ⟨rfl, hn⟩ := hn
    have e : ∀ a b : Fin n → ℝ, Planar2d.subtractState (.of a) (.of b) =
        some (.of (Function.update (a - b) (heading hn) (angleDifference (a (heading hn)) (b (heading hn))))) := by
      intro a b
      unfold Planar2d.subtractState
      rw [DVec.sub_of]
      show ((DVec.of a).get? (heading hn)).bind _ = _
      rw [get_of_fin]
      show ((DVec.of b).get? (heading hn)).bind _ = _
      rw [get_of_fin]
      exact set_of _ (heading hn) _
    rw [e, e]
    congr 2
    rw [C129_difference (vec_heading hx (heading hn)) (vec_heading hy (heading hn))
      (fun ho => h ⟨_, _, get_of_fin a (heading hn), get_of_fin b (heading hn), ho⟩)]
    funext i
    by_cases hi : i = heading hn
    · subst hi; simp
    · rw [Function.update_of_ne hi, Function.update_of_ne hi]
      have hi' : i.val ≠ 6 := fun hh => hi (Fin.ext hh)
      show a i - b i = a' i - b' i
      rw [vec_other hx i hi', vec_other hy i hi']
  · rw [subState_short a b hn, subState_short a' b' hn]

/-- The exception is needed: a heading of `π` and one of `-π` are the same, but their differences to `0` are a full turn apart. -/
theorem C129_opposite : angleDifference π 0 = -π ∧ angleDifference (-π) 0 = π := by
  have hpi := pi_pos
  have e0 : π / (2 * π) = 1 / 2 := by field_simp
  have e1 : -π / (2 * π) = -(1 / 2) := by field_simp
  have e2 : 2 * π / (2 * π) = 1 := by field_simp
  have e3 : 2 * -π / (2 * π) = -1 := by field_simp
  have t0 : truncate (1 / 2 : ℝ) = 0 := by
    unfold truncate; rw [if_pos (by norm_num), Int.floor_eq_iff]; norm_num
  have t1 : truncate (-(1 / 2) : ℝ) = 0 := by
    unfold truncate; rw [if_neg (by norm_num), Int.ceil_eq_iff]; norm_num
  have t2 : truncate (1 : ℝ) = 1 := by
    unfold truncate; rw [if_pos (by norm_num), Int.floor_eq_iff]; norm_num
  have t3 : truncate (-1 : ℝ) = -1 := by
    unfold truncate; rw [if_neg (by norm_num), Int.ceil_eq_iff]; norm_num
  constructor
  · simp only [angleDifference, fmod, sub_zero, e0, t0, Int.cast_zero, mul_zero, e2, t2, Int.cast_one]; ring
  · simp only [angleDifference, fmod, sub_zero, e1, t1, Int.cast_zero, mul_zero, e3, t3, Int.cast_neg, Int.cast_one]; ring

/-- **C129, planar averages.**  The weighted sum of planar states does not depend on full turns of their headings. -/
theorem C129_planar_wsum (w : DVec) (A A' : DMat) (h : Mat PlanarAngle A A') :
    Planar2d.weightedSumOfStates w A = Planar2d.weightedSumOfStates w A' := by
  obtain ⟨N, w⟩ := w
  obtain ⟨n, m, A⟩ := A
  obtain ⟨n', m', A'⟩ := A'
  obtain rfl : n = n' := h.1
  obtain rfl : m = m' := h.2.1
  have h : ∀ (i : Fin n) (j : Fin m), ∃ k : ℤ, A' i j = A i j + k * (2 * π) ∧ (k = 0 ∨ PlanarAngle i) := fun i j =>
    h.2.2 i j i.isLt j.isLt i.isLt j.isLt
  by_cases hm : N = m
  · subst hm
    by_cases hn : 6 < n
    · obtain ⟨r, h1, h2, _, _, h3⟩ := C48_weightedSum hn w A
      obtain ⟨r', g1, g2, _, _, g3⟩ := C48_weightedSum hn w A'
      have e1 : Planar2d.weightedSumOfStates ⟨N, w⟩ ⟨n, N, A⟩ = some (.of r) := h1
      have e2 : Planar2d.weightedSumOfStates ⟨N, w⟩ ⟨n, N, A'⟩ = some (.of r') := g1
      rw [e1, e2]
      congr 2
      funext i
      by_cases hi : i = heading hn
      · subst hi
        obtain ⟨m, k1, _, _, k2, _⟩ := C49_weightedAngleSum w (A (heading hn))
        have k3 := k2 (A' (heading hn)) fun j => by
          obtain ⟨k, hk, _⟩ := h (heading hn) j
          exact ⟨k, hk⟩
        rw [k1] at h2; rw [k3] at g2
        rw [← Option.some.inj h2, ← Option.some.inj g2]
      · rw [h3 i hi, g3 i hi]
        refine Finset.sum_congr rfl fun j _ => ?_
        obtain ⟨k, hk, h0⟩ := h i j
        rcases h0 with rfl | h0
        · rw [hk]; simp
        · exact absurd (Fin.ext (b := heading hn) h0) hi
    · have e : ∀ B : Matrix (Fin n) (Fin N) ℝ, Planar2d.weightedSumOfStates ⟨N, w⟩ ⟨n, N, B⟩ = none := by
        intro B
        unfold Planar2d.weightedSumOfStates
        rw [if_pos rfl]
        cases weightedSumLoop ⟨N, w⟩ ⟨n, N, B⟩ (⟨N, w⟩ : DVec).size 0 (DVec.zero (⟨n, N, B⟩ : DMat).rows) with
        | none => rfl
        | some s =>
          show ((⟨n, N, B⟩ : DMat).row? 6).bind _ = none
          unfold DMat.row?
          rw [dif_neg hn]; rfl
      rw [e, e]
  · unfold Planar2d.weightedSumOfStates
    rw [if_neg hm, if_neg hm]

/-! ### Classes for planar states -/

section classes

variable {T X : Type}

/-- **C129, the EKF with the planar functions.**  A system model class that uses `planar_2d::addState` is one for which full turns
are nothing as soon as its predictions are: the EKF theorem applies to it, whatever its other functions are. -/
theorem C129_planar_class (sc : SysClass T NonlinSysData X) (hadd : ∀ s, sc.add s = Planar2d.addState)
    (hup : ∀ s s' x x' u dt, SysSame PlanarAngle s s' → Vec PlanarAngle x x' →
      Units.Both (SysSame PlanarAngle) (sc.myUpdate s x u dt) (sc.myUpdate s' x' u dt)) : SysClassOk PlanarAngle sc where
  update := hup
  add := by
    intro s s' x x' d _ hx
    rw [hadd, hadd]
    exact C129_planar_add x x' d hx

open Classical in
/-- **C129, the UKF with the planar functions.**  The same for a class that uses `planar_2d::subtractState`, except that it gives up
when headings are exactly opposite, and `planar_2d::weightedSumOfStates`. -/
theorem C129_planar_averages (sc : SysClass T NonlinSysData X)
    (hsub : ∀ s x y, sc.sub s x y = if OppositeHeadings x y then none else Planar2d.subtractState x y)
    (hw : ∀ s, sc.wsum s = Planar2d.weightedSumOfStates) : SysAveragesOk PlanarAngle sc where
  sub := by
    intro s s' x x' y y' _ hx hy
    rw [hsub, hsub]
    have hiff : OppositeHeadings x y ↔ OppositeHeadings x' y' := by
      have key : ∀ x x' y y', Vec PlanarAngle x x' → Vec PlanarAngle y y' → OppositeHeadings x y → OppositeHeadings x' y' := by
        rintro x x' y y' hx hy ⟨a, b, h1, h2, k, hk⟩
        obtain ⟨n, x, x', rfl, rfl⟩ := vec_split hx
        obtain ⟨m, y, y', rfl, rfl⟩ := vec_split hy
        unfold DVec.get? at h1 h2
        split at h1
        · next hn =>
          split at h2
          · next hm =>
            injection h1 with h1; injection h2 with h2
            have hn : 6 < n := hn
            have hm : 6 < m := hm
            refine ⟨_, _, get_of_fin x' (heading hn), get_of_fin y' (heading hm), ?_⟩
            obtain ⟨p, hp⟩ := vec_heading hx (heading hn)
            obtain ⟨q, hq⟩ := vec_heading hy (heading hm)
            have h1 : x (heading hn) = a := h1
            have h2 : y (heading hm) = b := h2
            refine ⟨k + p - q, ?_⟩
            rw [hp, hq, h1, h2]
            push_cast
            linear_combination hk
          · cases h2
        · cases h1
      have back : ∀ {x x' : DVec}, Vec PlanarAngle x x' → Vec PlanarAngle x' x := by
        intro x x' h
        obtain ⟨n, x, x', rfl, rfl⟩ := vec_split h
        refine vec_of.mpr fun i => ?_
        obtain ⟨k, h1, h2⟩ := vec_of.mp h i
        exact ⟨-k, by rw [h1]; push_cast; ring, by simpa using h2⟩
      exact ⟨key _ _ _ _ hx hy, key _ _ _ _ (back hx) (back hy)⟩
    by_cases h : OppositeHeadings x y
    · rw [if_pos h, if_pos (hiff.mp h)]
    · rw [if_neg h, if_neg (mt hiff.mpr h)]
      exact C129_planar_sub x x' y y' hx hy h
  wsum := by
    intro s s' w A A' _ h
    rw [hw, hw, C129_planar_wsum w A A' h]
    cases Planar2d.weightedSumOfStates w A' with
    | none => trivial
    | some r =>
      show Vec PlanarAngle r r
      exact ⟨rfl, fun i h h' => ⟨0, by simp, Or.inl rfl⟩⟩

end classes

end Props

namespace Examples

open Turns Real Props

/-- The new position and heading of somebody who walks at unit speed in the direction of the heading. -/
noncomputable def walked (dt : ℝ) (x : Fin 8 → ℝ) : Fin 8 → ℝ :=
  fun i => x i + if i = 0 then dt * cos (x 6) else if i = 1 then dt * sin (x 6) else 0

/-- Its derivatives. -/
noncomputable def walkedJac (dt : ℝ) (x : Fin 8 → ℝ) : Matrix (Fin 8) (Fin 8) ℝ :=
  fun i j => (if i = j then 1 else 0) + if j = 6 then (if i = 0 then -dt * sin (x 6) else if i = 1 then dt * cos (x 6) else 0) else 0

open Classical in
/-- A walker on planar states, with the functions of the library (giving up at exactly opposite headings). -/
noncomputable def walker : SysClass ℝ NonlinSysData Unit where
  myUpdate s x _ dt := if h : x.size = 8 then
      some { s with der := ⟨.of (walked dt fun i => x.val (Fin.cast h.symm i)), .of (walkedJac dt fun i => x.val (Fin.cast h.symm i))⟩ }
    else none
  add _ := Planar2d.addState
  sub _ x y := if OppositeHeadings x y then none else Planar2d.subtractState x y
  wsum _ := Planar2d.weightedSumOfStates
  processStationary s _ _ := some s

theorem walker_ok : SysClassOk PlanarAngle walker ∧ SysAveragesOk PlanarAngle walker := by
  refine ⟨C129_planar_class walker (fun _ => rfl) ?_, C129_planar_averages walker (fun _ _ _ => rfl) (fun _ => rfl)⟩
  intro s s' x x' u dt hs hx
  obtain ⟨n, a⟩ := x
  obtain ⟨m, b⟩ := x'
  obtain rfl : n = m := hx.1
  show Units.Both _ (if h : n = 8 then _ else none) (if h : n = 8 then _ else none)
  by_cases hn : n = 8
  · subst hn
    rw [dif_pos rfl, dif_pos rfl]
    have h6 : cos (b 6) = cos (a 6) ∧ sin (b 6) = sin (a 6) := by
      obtain ⟨k, hk, _⟩ := hx.2 6 (by norm_num) (by norm_num)
      have hk : b 6 = a 6 + k * (2 * π) := hk
      rw [hk]
      exact ⟨cos_add_int_mul_two_pi _ _, sin_add_int_mul_two_pi _ _⟩
    refine ⟨?_, ⟨rfl, fun i hi _ => ?_⟩, ?_, hs.quiet⟩
    · dsimp only
      conv_lhs => rw [hs.same]
    · obtain ⟨k, h1, h2⟩ := hx.2 i hi hi
      have h1 : b ⟨i, hi⟩ = a ⟨i, hi⟩ + k * (2 * π) := h1
      refine ⟨k, ?_, h2⟩
      show walked dt b ⟨i, hi⟩ = walked dt a ⟨i, hi⟩ + k * (2 * π)
      unfold walked
      rw [h1, h6.1, h6.2]; ring
    · show DMat.of (walkedJac dt b) = DMat.of (walkedJac dt a)
      unfold walkedJac
      rw [h6.1, h6.2]
  · rw [dif_neg hn, dif_neg hn]; trivial

open Classical in
/-- A compass that measures the heading. -/
noncomputable def compass : MeasClass ℝ NonlinMeasData Unit where
  myUpdate s x _ := (x.get? 6).map fun a => { s with der := ⟨.of ![a], .of (fun (_ : Fin 1) (j : Fin 8) => if j = 6 then 1 else 0)⟩ }
  sub _ x y := (x.get? 0).bind fun a => (y.get? 0).bind fun b => if Opposite a b then none else some (.of ![angleDifference a b])
  wsum _ w A := (A.row? 0).bind fun r => (weightedAngleSum w r).map fun m => .of ![m]
  processStationary s _ _ := some s

private theorem vec_get {J : Nat → Prop} {x x' : DVec} (h : Vec J x x') (i : Nat) :
    Units.Both (fun a b => SameAngle b a) (x.get? i) (x'.get? i) := by
  unfold DVec.get?
  by_cases hi : i < x.size
  · rw [dif_pos hi, dif_pos (h.1 ▸ hi)]
    obtain ⟨k, hk, _⟩ := h.2 i hi (h.1 ▸ hi)
    exact ⟨k, hk⟩
  · rw [dif_neg hi, dif_neg (h.1 ▸ hi)]; trivial

open Classical in
theorem compass_ok : MeasClassOk PlanarAngle (fun i => i = 0) compass ∧ MeasAveragesOk (fun i => i = 0) compass := by
  have one : ∀ a b : ℝ, SameAngle b a → Vec (fun i => i = 0) (.of ![a]) (.of ![b]) := by
    rintro a b ⟨k, hk⟩
    refine ⟨rfl, fun i hi _ => ⟨k, ?_, Or.inr (by simpa using hi)⟩⟩
    obtain rfl : i = 0 := by simpa using hi
    exact hk
  refine ⟨⟨?_, ?_⟩, ⟨?_⟩⟩
  · intro s s' x x' dt hs hx
    have h := vec_get hx 6
    show Units.Both _ ((x.get? 6).map _) ((x'.get? 6).map _)
    cases h1 : x.get? 6 with
    | none =>
      rw [h1] at h
      cases h2 : x'.get? 6 with
      | none => trivial
      | some b => rw [h2] at h; exact h
    | some a =>
      rw [h1] at h
      cases h2 : x'.get? 6 with
      | none => rw [h2] at h; exact h
      | some b =>
        rw [h2] at h
        refine ⟨?_, one a b h, rfl, hs.quiet⟩
        dsimp only
        conv_lhs => rw [hs.same]
  · intro s s' x x' y y' hs hx hy
    have h := vec_get hx 0
    have g := vec_get hy 0
    show (x.get? 0).bind _ = (x'.get? 0).bind _
    cases h1 : x.get? 0 with
    | none =>
      rw [h1] at h
      cases h2 : x'.get? 0 with
      | none => rfl
      | some b => rw [h2] at h; exact h.elim
    | some a =>
      rw [h1] at h
      cases h2 : x'.get? 0 with
      | none => rw [h2] at h; exact h.elim
      | some a' =>
        rw [h2] at h
        show (y.get? 0).bind _ = (y'.get? 0).bind _
        cases g1 : y.get? 0 with
        | none =>
          rw [g1] at g
          cases g2 : y'.get? 0 with
          | none => rfl
          | some b => rw [g2] at g; exact g.elim
        | some b =>
          rw [g1] at g
          cases g2 : y'.get? 0 with
          | none => rw [g2] at g; exact g.elim
          | some b' =>
            rw [g2] at g
            show (if Opposite a b then none else some (DVec.of ![angleDifference a b])) =
              (if Opposite a' b' then none else some (DVec.of ![angleDifference a' b']))
            have hiff : Opposite a b ↔ Opposite a' b' := by
              obtain ⟨p, hp⟩ := (h : SameAngle a' a)
              obtain ⟨q, hq⟩ := (g : SameAngle b' b)
              constructor
              · rintro ⟨k, hk⟩
                exact ⟨k + p - q, by rw [hp, hq]; push_cast; linear_combination hk⟩
              · rintro ⟨k, hk⟩
                refine ⟨k - p + q, ?_⟩
                rw [hp, hq] at hk
                push_cast; linear_combination hk
            by_cases ho : Opposite a b
            · rw [if_pos ho, if_pos (hiff.mp ho)]
            · rw [if_neg ho, if_neg (mt hiff.mpr ho), C129_difference h g ho]
  · intro s s' w A A' hs h
    obtain ⟨n, m, A⟩ := A
    obtain ⟨n', m', A'⟩ := A'
    obtain rfl : n = n' := h.1
    obtain rfl : m = m' := h.2.1
    show Units.Both _ (((⟨n, m, A⟩ : DMat).row? 0).bind _) (((⟨n, m, A'⟩ : DMat).row? 0).bind _)
    unfold DMat.row?
    by_cases hn : 0 < n
    · rw [dif_pos (show 0 < (⟨n, m, A⟩ : DMat).rows from hn), dif_pos (show 0 < (⟨n, m, A'⟩ : DMat).rows from hn)]
      obtain ⟨N, w⟩ := w
      by_cases hw : N = m
      · subst hw
        obtain ⟨mm, k1, _, _, k2, _⟩ := C49_weightedAngleSum w (A ⟨0, hn⟩)
        have k3 := k2 (A' ⟨0, hn⟩) fun j => by
          obtain ⟨k, hk, _⟩ := h.2.2 0 j hn j.isLt hn j.isLt
          exact ⟨k, hk⟩
        show Units.Both _ ((weightedAngleSum (.of w) (.of (A ⟨0, hn⟩))).map _) ((weightedAngleSum (.of w) (.of (A' ⟨0, hn⟩))).map _)
        rw [k1, k3]
        exact one mm mm (SameAngle.refl _)
      · have e : ∀ r : Fin m → ℝ, weightedAngleSum ⟨N, w⟩ (.of r) = none := by
          intro r; unfold weightedAngleSum; rw [dif_neg hw]
        show Units.Both _ ((weightedAngleSum ⟨N, w⟩ (.of (A ⟨0, hn⟩))).map _) ((weightedAngleSum ⟨N, w⟩ (.of (A' ⟨0, hn⟩))).map _)
        rw [e, e]; trivial
    · rw [dif_neg (show ¬ 0 < (⟨n, m, A⟩ : DMat).rows from hn), dif_neg (show ¬ 0 < (⟨n, m, A'⟩ : DMat).rows from hn)]; trivial

/-- The objects of these classes, as constructed, and states and readings a full turn apart, meet the hypotheses. -/
example (p : Nat) : EnvSame (K := Unit) PlanarAngle (fun _ i => i = 0)
      { sys := Sys.constructNonlinear 8 0 p (), meas := fun _ => Meas.constructNonlinear 8 1 () }
      { sys := Sys.constructNonlinear 8 0 p (), meas := fun _ => Meas.constructNonlinear 8 1 () } ∧
    Vec PlanarAngle (.of ![0, 0, 0, 0, 0, 0, 1, 0]) (.of ![0, 0, 0, 0, 0, 0, 1 + 2 * π, 0]) ∧
    Vec (fun i => i = 0) (.of ![3]) (.of ![3 - 2 * π]) := by
  refine ⟨⟨⟨rfl, ⟨rfl, fun i h h' => ⟨0, by simp, Or.inl rfl⟩⟩, rfl, rfl⟩,
    fun _ => ⟨rfl, ⟨rfl, fun i h h' => ⟨0, by simp, Or.inl rfl⟩⟩, rfl, rfl⟩⟩, ?_, ?_⟩
  · refine ⟨rfl, fun i hi hi' => ?_⟩
    have hi : i < 8 := hi
    by_cases h6 : i = 6
    · subst h6
      exact ⟨1, by simp, Or.inr rfl⟩
    · refine ⟨0, ?_, Or.inl rfl⟩
      interval_cases i <;> simp at h6 ⊢
  · refine ⟨rfl, fun i hi hi' => ?_⟩
    have hi : i < 1 := hi
    obtain rfl : i = 0 := by omega
    exact ⟨-1, by simp; ring, Or.inr rfl⟩

end Examples
end StateEstimation
