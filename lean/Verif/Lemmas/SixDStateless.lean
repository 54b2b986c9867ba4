import Verif.Model.SixD
import Verif.Spec.Sharing
import Verif.Lemmas.Uninit

/-!
# The six-D models compute their results from what the user configured

`G_`, `P_`, `z_pred_` are data members that `myUpdate` only partly overwrites; the rest keeps what the constructor and
`setTf` put there.
-/

namespace StateEstimation

open Matrix

/-- entry of a matrix, 0 outside -/
def DMat.at (A : DMat) (i j : Nat) : ℝ := if h : i < A.rows ∧ j < A.cols then A.val ⟨i, h.1⟩ ⟨j, h.2⟩ else 0
/-- entry of a vector, 0 outside -/
def DVec.at (v : DVec) (i : Nat) : ℝ := if h : i < v.size then v.val ⟨i, h⟩ else 0

/-- the part of a matrix outside `D` -/
noncomputable def DMat.off (D : Nat → Nat → Prop) (A : DMat) : Nat × Nat × (Nat → Nat → ℝ) := by
  classical exact (A.rows, A.cols, fun i j => if D i j then 0 else A.at i j)
/-- the part of a vector outside `D` -/
noncomputable def DVec.off (D : Nat → Prop) (v : DVec) : Nat × (Nat → ℝ) := by
  classical exact (v.size, fun i => if D i then 0 else v.at i)

theorem DMat.off_eq {D : Nat → Nat → Prop} {A B : DMat} :
    A.off D = B.off D ↔ A.rows = B.rows ∧ A.cols = B.cols ∧ ∀ i j, ¬ D i j → A.at i j = B.at i j := by
  classical
  unfold DMat.off
  simp only [Prod.mk.injEq]
  constructor
  · rintro ⟨h1, h2, h3⟩
    refine ⟨h1, h2, fun i j hD => ?_⟩
    have := congrFun (congrFun h3 i) j
    simpa [hD] using this
  · rintro ⟨h1, h2, h3⟩
    refine ⟨h1, h2, funext fun i => funext fun j => ?_⟩
    by_cases hD : D i j
    · rw [if_pos hD, if_pos hD]
    · rw [if_neg hD, if_neg hD, h3 i j hD]

theorem DVec.off_eq {D : Nat → Prop} {a b : DVec} :
    a.off D = b.off D ↔ a.size = b.size ∧ ∀ i, ¬ D i → a.at i = b.at i := by
  classical
  unfold DVec.off
  simp only [Prod.mk.injEq]
  constructor
  · rintro ⟨h1, h3⟩
    refine ⟨h1, fun i hD => ?_⟩
    have := congrFun h3 i
    simpa [hD] using this
  · rintro ⟨h1, h3⟩
    refine ⟨h1, funext fun i => ?_⟩
    by_cases hD : D i
    · rw [if_pos hD, if_pos hD]
    · rw [if_neg hD, if_neg hD, h3 i hD]

theorem DMat.eq_of_off {D : Nat → Nat → Prop} {A B : DMat} (h : A.off D = B.off D) (hD : ∀ i j, ¬ D i j) : A = B := by
  obtain ⟨h1, h2, h3⟩ := DMat.off_eq.mp h
  obtain ⟨r, c, v⟩ := A
  obtain ⟨r', c', v'⟩ := B
  dsimp only at h1 h2
  subst h1 h2
  congr 1
  ext i j
  have := h3 i j (hD _ _)
  simpa [DMat.at, i.2, j.2] using this

theorem DVec.eq_of_off {D : Nat → Prop} {a b : DVec} (h : a.off D = b.off D) (hD : ∀ i, ¬ D i) : a = b := by
  obtain ⟨h1, h3⟩ := DVec.off_eq.mp h
  obtain ⟨r, v⟩ := a
  obtain ⟨r', v'⟩ := b
  dsimp only at h1
  subst h1
  congr 1
  ext i
  have := h3 i (hD _)
  simpa [DVec.at, i.2] using this

/-- an assignment to the entries in `S` -/
structure Writes (S : Nat → Nat → Prop) (w : DMat → Option DMat) : Prop where
  /-- differences within `S` disappear -/
  clears : ∀ D A B, A.off D = B.off D → OptRel False (fun a b => a.off (fun i j => D i j ∧ ¬ S i j) = b.off fun i j => D i j ∧ ¬ S i j)
    (w A) (w B)
  /-- nothing else changes -/
  keeps : ∀ D A a, (∀ i j, S i j → D i j) → w A = some a → a.off D = A.off D

/-- an assignment to the entries in `S` -/
structure WritesV (S : Nat → Prop) (w : DVec → Option DVec) : Prop where
  clears : ∀ D A B, A.off D = B.off D → OptRel False (fun a b => a.off (fun i => D i ∧ ¬ S i) = b.off fun i => D i ∧ ¬ S i)
    (w A) (w B)
  keeps : ∀ D A a, (∀ i, S i → D i) → w A = some a → a.off D = A.off D

/-- everything of the form: check the size, then set the entries of `S` to values that do not depend on the matrix -/
theorem writes_of (S : Nat → Nat → Prop) (w : DMat → Option DMat) (ok : Nat → Nat → Prop) (F : Nat → Nat → ℝ)
    (h0 : ∀ A, ¬ ok A.rows A.cols → w A = none)
    (h1 : ∀ A, ok A.rows A.cols → ∃ a, w A = some a ∧ a.rows = A.rows ∧ a.cols = A.cols ∧
      (∀ i j, i < A.rows → j < A.cols → S i j → a.at i j = F i j) ∧ ∀ i j, ¬ S i j → a.at i j = A.at i j) : Writes S w where
  clears D A B h := by
    obtain ⟨k1, k2, k3⟩ := DMat.off_eq.mp h
    by_cases hok : ok A.rows A.cols
    · obtain ⟨a, e1, e2, e3, e4, e5⟩ := h1 A hok
      obtain ⟨b, f1, f2, f3, f4, f5⟩ := h1 B (by rw [← k1, ← k2]; exact hok)
      rw [e1, f1]
      refine DMat.off_eq.mpr ⟨by rw [e2, f2, k1], by rw [e3, f3, k2], fun i j hD => ?_⟩
      by_cases hS : S i j
      · by_cases hij : i < A.rows ∧ j < A.cols
        · rw [e4 i j hij.1 hij.2 hS, f4 i j (by omega) (by omega) hS]
        · unfold DMat.at
          rw [dif_neg (by omega), dif_neg (by omega)]
      · rw [e5 i j hS, f5 i j hS, k3 i j fun hd => hD ⟨hd, hS⟩]
    · rw [h0 A hok, h0 B (by rw [← k1, ← k2]; exact hok)]
      exact not_false
  keeps D A a hSD ha := by
    by_cases hok : ok A.rows A.cols
    · obtain ⟨a', e1, e2, e3, e4, e5⟩ := h1 A hok
      rw [e1] at ha
      cases ha
      exact DMat.off_eq.mpr ⟨e2, e3, fun i j hD => e5 i j fun hS => hD (hSD i j hS)⟩
    · rw [h0 A hok] at ha; cases ha

theorem writesV_of (S : Nat → Prop) (w : DVec → Option DVec) (ok : Nat → Prop) (F : Nat → ℝ)
    (h0 : ∀ A, ¬ ok A.size → w A = none)
    (h1 : ∀ A, ok A.size → ∃ a, w A = some a ∧ a.size = A.size ∧
      (∀ i, i < A.size → S i → a.at i = F i) ∧ ∀ i, ¬ S i → a.at i = A.at i) : WritesV S w where
  clears D A B h := by
    obtain ⟨k1, k3⟩ := DVec.off_eq.mp h
    by_cases hok : ok A.size
    · obtain ⟨a, e1, e2, e4, e5⟩ := h1 A hok
      obtain ⟨b, f1, f2, f4, f5⟩ := h1 B (by rw [← k1]; exact hok)
      rw [e1, f1]
      refine DVec.off_eq.mpr ⟨by rw [e2, f2, k1], fun i hD => ?_⟩
      by_cases hS : S i
      · by_cases hi : i < A.size
        · rw [e4 i hi hS, f4 i (by omega) hS]
        · unfold DVec.at
          rw [dif_neg (by omega), dif_neg (by omega)]
      · rw [e5 i hS, f5 i hS, k3 i fun hd => hD ⟨hd, hS⟩]
    · rw [h0 A hok, h0 B (by rw [← k1]; exact hok)]
      exact not_false
  keeps D A a hSD ha := by
    by_cases hok : ok A.size
    · obtain ⟨a', e1, e2, e4, e5⟩ := h1 A hok
      rw [e1] at ha
      cases ha
      exact DVec.off_eq.mpr ⟨e2, fun i hD => e5 i fun hS => hD (hSD i hS)⟩
    · rw [h0 A hok] at ha; cases ha

theorem writes_set (i j : Nat) (v : ℝ) : Writes (fun p q => p = i ∧ q = j) fun A => A.set? i j v := by
  refine writes_of _ _ (fun r c => i < r ∧ j < c) (fun _ _ => v) (fun A h => if_neg h) fun A h => ?_
  refine ⟨_, if_pos h, rfl, rfl, ?_, ?_⟩
  · intro p q hp hq hS
    unfold DMat.at
    rw [dif_pos (show p < A.rows ∧ q < A.cols from ⟨hp, hq⟩)]
    exact if_pos hS
  · intro p q hS
    unfold DMat.at
    dsimp only
    by_cases hpq : p < A.rows ∧ q < A.cols
    · rw [dif_pos hpq, dif_pos hpq]
      exact if_neg hS
    · rw [dif_neg hpq, dif_neg hpq]

theorem writes_block33 (i j : Nat) (B : M3) :
    Writes (fun p q => (i ≤ p ∧ p < i + 3) ∧ (j ≤ q ∧ q < j + 3)) fun A => A.setBlock33? i j B := by
  refine writes_of _ _ (fun r c => i + 3 ≤ r ∧ j + 3 ≤ c)
    (fun p q => if h : (i ≤ p ∧ p < i + 3) ∧ (j ≤ q ∧ q < j + 3) then B ⟨p - i, by omega⟩ ⟨q - j, by omega⟩ else 0)
    (fun A h => if_neg h) fun A h => ?_
  refine ⟨_, if_pos h, rfl, rfl, ?_, ?_⟩
  · intro p q hp hq hS
    unfold DMat.at
    rw [dif_pos (show p < A.rows ∧ q < A.cols from ⟨hp, hq⟩)]
    dsimp only
    rw [dif_pos hS, dif_pos hS]
  · intro p q hS
    unfold DMat.at
    dsimp only
    by_cases hpq : p < A.rows ∧ q < A.cols
    · rw [dif_pos hpq, dif_pos hpq, dif_neg hS]
    · rw [dif_neg hpq, dif_neg hpq]

theorem writes_vset (i : Nat) (v : ℝ) : WritesV (fun p => p = i) fun A => A.set? i v := by
  refine writesV_of _ _ (fun r => i < r) (fun _ => v) (fun A h => if_neg h) fun A h => ?_
  refine ⟨_, if_pos h, rfl, ?_, ?_⟩
  · intro p hp hS
    unfold DVec.at
    rw [dif_pos (show p < A.size from hp)]
    exact if_pos hS
  · intro p hS
    unfold DVec.at
    dsimp only
    by_cases hp : p < A.size
    · rw [dif_pos hp, dif_pos hp]
      exact if_neg hS
    · rw [dif_neg hp, dif_neg hp]

theorem writes_seg3 (i : Nat) (s : V3) : WritesV (fun p => i ≤ p ∧ p < i + 3) fun A => A.setSeg3? i s := by
  refine writesV_of _ _ (fun r => i + 3 ≤ r) (fun p => if h : i ≤ p ∧ p < i + 3 then s ⟨p - i, by omega⟩ else 0)
    (fun A h => if_neg h) fun A h => ?_
  refine ⟨_, if_pos h, rfl, ?_, ?_⟩
  · intro p hp hS
    unfold DVec.at
    rw [dif_pos (show p < A.size from hp)]
    dsimp only
    rw [dif_pos hS, dif_pos hS]
  · intro p hS
    unfold DVec.at
    dsimp only
    by_cases hp : p < A.size
    · rw [dif_pos hp, dif_pos hp, dif_neg hS]
    · rw [dif_neg hp, dif_neg hp]

/-- one assignment after the other -/
theorem Writes.then {S S' : Nat → Nat → Prop} {w w' : DMat → Option DMat} (h : Writes S w) (h' : Writes S' w') :
    Writes (fun i j => S i j ∨ S' i j) fun A => (w A).bind w' where
  clears D A B hAB := by
    refine OptRel.bind (h.clears D A B hAB) fun a b hab => ?_
    refine OptRel.mono (h'.clears _ a b hab) fun x y hxy => ?_
    have e : (fun i j => D i j ∧ ¬ (S i j ∨ S' i j)) = fun i j => (D i j ∧ ¬ S i j) ∧ ¬ S' i j := by
      funext i j; simp only [not_or, and_assoc]
    rw [e]; exact hxy
  keeps D A a hSD ha := by
    obtain ⟨b, h1, h2⟩ := Option.bind_eq_some_iff.mp ha
    exact (h'.keeps D b a (fun i j hS => hSD i j (Or.inr hS)) h2).trans (h.keeps D A b (fun i j hS => hSD i j (Or.inl hS)) h1)

theorem WritesV.then {S S' : Nat → Prop} {w w' : DVec → Option DVec} (h : WritesV S w) (h' : WritesV S' w') :
    WritesV (fun i => S i ∨ S' i) fun A => (w A).bind w' where
  clears D A B hAB := by
    refine OptRel.bind (h.clears D A B hAB) fun a b hab => ?_
    refine OptRel.mono (h'.clears _ a b hab) fun x y hxy => ?_
    have e : (fun i => D i ∧ ¬ (S i ∨ S' i)) = fun i => (D i ∧ ¬ S i) ∧ ¬ S' i := by
      funext i; simp only [not_or, and_assoc]
    rw [e]; exact hxy
  keeps D A a hSD ha := by
    obtain ⟨b, h1, h2⟩ := Option.bind_eq_some_iff.mp ha
    exact (h'.keeps D b a (fun i hS => hSD i (Or.inr hS)) h2).trans (h.keeps D A b (fun i hS => hSD i (Or.inl hS)) h1)

/-- the result is determined by what is outside `S` -/
theorem Writes.eq {S : Nat → Nat → Prop} {w : DMat → Option DMat} (h : Writes S w) {A B : DMat} (hAB : A.off S = B.off S) :
    w A = w B := by
  refine OptRel.to_eq (OptRel.mono (h.clears S A B hAB) fun a b hab => ?_)
  exact DMat.eq_of_off hab fun i j hc => hc.2 hc.1

theorem WritesV.eq {S : Nat → Prop} {w : DVec → Option DVec} (h : WritesV S w) {A B : DVec} (hAB : A.off S = B.off S) :
    w A = w B := by
  refine OptRel.to_eq (OptRel.mono (h.clears S A B hAB) fun a b hab => ?_)
  exact DVec.eq_of_off hab fun i hc => hc.2 hc.1

theorem Writes.keep {S : Nat → Nat → Prop} {w : DMat → Option DMat} (h : Writes S w) {A a : DMat} (ha : w A = some a) :
    a.off S = A.off S := h.keeps S A a (fun _ _ => id) ha

theorem WritesV.keep {S : Nat → Prop} {w : DVec → Option DVec} (h : WritesV S w) {A a : DVec} (ha : w A = some a) :
    a.off S = A.off S := h.keeps S A a (fun _ => id) ha


/-! ### `SixDRates` -/

namespace SixDRates

/-- the entries of `G_` that `myUpdate` computes -/
def writtenG (p q : Nat) : Prop :=
  (p = 0 ∧ q = 3) ∨ (p = 1 ∧ q = 4) ∨ (p = 2 ∧ q = 5) ∨ ((9 ≤ p ∧ p < 9 + 3) ∧ (6 ≤ q ∧ q < 6 + 3)) ∨
    ((9 ≤ p ∧ p < 9 + 3) ∧ (9 ≤ q ∧ q < 9 + 3))

/-- the entries of `P_` that `myUpdate` computes -/
def writtenP (p q : Nat) : Prop :=
  (p = 0 ∧ q = 0) ∨ (p = 1 ∧ q = 1) ∨ (p = 2 ∧ q = 2) ∨ (p = 0 ∧ q = 3) ∨ (p = 1 ∧ q = 4) ∨ (p = 2 ∧ q = 5) ∨
  (p = 3 ∧ q = 0) ∨ (p = 4 ∧ q = 1) ∨ (p = 5 ∧ q = 2) ∨ (p = 3 ∧ q = 3) ∨ (p = 4 ∧ q = 4) ∨ (p = 5 ∧ q = 5) ∨
  (p = 6 ∧ q = 6) ∨ (p = 7 ∧ q = 7) ∨ (p = 8 ∧ q = 8) ∨ (p = 6 ∧ q = 9) ∨ (p = 7 ∧ q = 10) ∨ (p = 8 ∧ q = 11) ∨
  ((9 ≤ p ∧ p < 9 + 3) ∧ (12 ≤ q ∧ q < 12 + 3))

theorem writes_jacobian (x : DVec) (dt : ℝ) (g w : V3) (hg : x.seg3? GX = some g) (hw : x.seg3? VPHI = some w) :
    Writes writtenG fun G => updateJacobian G x dt := by
  unfold updateJacobian
  simp only [hg, hw, Option.bind_eq_bind, Option.bind_some]
  exact (writes_set 0 3 dt).then ((writes_set 1 4 dt).then ((writes_set 2 5 dt).then
    ((writes_block33 9 6 (jacGravityRate dt g w)).then (writes_block33 9 9 (jacGravityGravity dt w)))))

theorem writes_noise (x : DVec) (dt : ℝ) (g w : V3) (hg : x.seg3? GX = some g) (hw : x.seg3? VPHI = some w) :
    Writes writtenP fun P => updateNoise P x dt := by
  unfold updateNoise
  simp only [hg, hw, Option.bind_eq_bind, Option.bind_some]
  exact (writes_set 0 0 _).then ((writes_set 1 1 _).then ((writes_set 2 2 _).then ((writes_set 0 3 _).then
    ((writes_set 1 4 _).then ((writes_set 2 5 _).then ((writes_set 3 0 _).then ((writes_set 4 1 _).then
    ((writes_set 5 2 _).then ((writes_set 3 3 _).then ((writes_set 4 4 _).then ((writes_set 5 5 _).then
    ((writes_set 6 6 _).then ((writes_set 7 7 _).then ((writes_set 8 8 _).then ((writes_set 6 9 _).then
    ((writes_set 7 10 _).then ((writes_set 8 11 _).then (writes_block33 9 12 _))))))))))))))))))

open Classical in
/-- Everything about a `SixDRates` object that `myUpdate` does not compute. -/
noncomputable def config (s : Obj) :=
  ((s.fm, s.controlDims, s.activeControls, s.controlUsage, s.Rp, s.Rc, s.V, s.ext),
   s.der.G.off (fun p q => (Shape s ∧ s.ext.computeJacobian = true) ∧ writtenG p q),
   s.P.off (fun p q => (Shape s ∧ s.ext.updateCovariance = true) ∧ writtenP p q),
   if Shape s then none else some s.der.g)

theorem predictState_congr_fm (s s' : Obj) (x : DVec) (dt : ℝ) (h : s.fm = s'.fm) : predictState s x dt = predictState s' x dt := by
  unfold predictState used
  rw [h]

theorem segs {s : Obj} {x xp : DVec} {dt : ℝ} (h : predictState s x dt = some xp) :
    ∃ g w, x.seg3? GX = some g ∧ x.seg3? VPHI = some w := by
  unfold predictState at h
  simp only [Option.bind_eq_bind, Option.bind_eq_some_iff] at h
  obtain ⟨g, hg, w, hw, _⟩ := h
  exact ⟨g, w, hg, hw⟩

private theorem off_true {S : Nat → Nat → Prop} {b : Prop} (hb : b) {A B : DMat} :
    (A.off (fun p q => b ∧ S p q) = B.off fun p q => b ∧ S p q) ↔ A.off S = B.off S := by
  simp only [hb, true_and]

private theorem off_false {S : Nat → Nat → Prop} {b : Prop} (hb : ¬ b) {A B : DMat} :
    (A.off (fun p q => b ∧ S p q) = B.off fun p q => b ∧ S p q) ↔ A = B :=
  ⟨fun h => DMat.eq_of_off h fun i j hc => hb hc.1, fun h => by rw [h]⟩

theorem config_eq {s s' : Obj} : config s = config s' ↔
    (s.fm = s'.fm ∧ s.controlDims = s'.controlDims ∧ s.activeControls = s'.activeControls ∧
      s.controlUsage = s'.controlUsage ∧ s.Rp = s'.Rp ∧ s.Rc = s'.Rc ∧ s.V = s'.V ∧ s.ext = s'.ext) ∧
    (s.der.G.off (fun p q => (Shape s ∧ s.ext.computeJacobian = true) ∧ writtenG p q)
      = s'.der.G.off fun p q => (Shape s ∧ s.ext.computeJacobian = true) ∧ writtenG p q) ∧
    (s.P.off (fun p q => (Shape s ∧ s.ext.updateCovariance = true) ∧ writtenP p q)
      = s'.P.off fun p q => (Shape s ∧ s.ext.updateCovariance = true) ∧ writtenP p q) ∧
    (¬ Shape s → s.der.g = s'.der.g) := by
  have hsh : ∀ (h1 : s.fm = s'.fm) (h2 : s.controlDims = s'.controlDims) (h3 : s.Rp = s'.Rp), Shape s = Shape s' := by
    intro h1 h2 h3; unfold Shape; rw [h1, h2, h3]
  unfold config
  simp only [Prod.mk.injEq]
  constructor
  · rintro ⟨⟨h1, h2, h3, h4, h5, h6, h7, h8⟩, h9, h10, h11⟩
    have hS := hsh h1 h2 h5
    rw [← hS, ← h8] at h9 h10
    refine ⟨⟨h1, h2, h3, h4, h5, h6, h7, h8⟩, h9, h10, fun hn => ?_⟩
    rw [if_neg hn, if_neg (by rw [← hS]; exact hn)] at h11
    exact Option.some.inj h11
  · rintro ⟨⟨h1, h2, h3, h4, h5, h6, h7, h8⟩, h9, h10, h11⟩
    have hS := hsh h1 h2 h5
    rw [← hS, ← h8]
    refine ⟨⟨h1, h2, h3, h4, h5, h6, h7, rfl⟩, h9, h10, ?_⟩
    by_cases hn : Shape s
    · rw [if_pos hn, if_pos hn]
    · rw [if_neg hn, if_neg hn, h11 hn]

theorem myUpdate_bind (s : Obj) (x u : DVec) (dt : ℝ) : myUpdate s x u dt =
    (predictState s x dt).bind fun xp =>
      (if s.ext.computeJacobian = true then updateJacobian s.der.G x dt else some s.der.G).bind fun G =>
      (if s.ext.updateCovariance = true then updateNoise s.P x dt else some s.P).bind fun P =>
      some { s with der := ⟨xp, G⟩, P := P } := by
  unfold myUpdate
  simp only [Option.bind_eq_bind]
  congr 1
  funext xp
  by_cases h1 : s.ext.computeJacobian = true <;> by_cases h2 : s.ext.updateCovariance = true <;> simp [h1, h2]

/-- one update and what it leaves alone -/
theorem myUpdate_config {s r : Obj} {x u : DVec} {dt : ℝ} (hs : Shape s) (h : myUpdate s x u dt = some r) :
    config r = config s := by
  rw [myUpdate_bind] at h
  simp only [Option.bind_eq_some_iff] at h
  obtain ⟨xp, hx, G, hG, P, hP, hr⟩ := h
  cases hr
  obtain ⟨g, w, hg, hw⟩ := segs hx
  symm
  refine config_eq.mpr ⟨⟨rfl, rfl, rfl, rfl, rfl, rfl, rfl, rfl⟩, ?_, ?_, fun hn => absurd hs hn⟩
  · by_cases hf : s.ext.computeJacobian = true
    · rw [if_pos hf] at hG
      rw [off_true ⟨hs, hf⟩]
      exact ((writes_jacobian x dt g w hg hw).keep hG).symm
    · rw [if_neg hf] at hG
      cases hG; rfl
  · by_cases hf : s.ext.updateCovariance = true
    · rw [if_pos hf] at hP
      rw [off_true ⟨hs, hf⟩]
      exact ((writes_noise x dt g w hg hw).keep hP).symm
    · rw [if_neg hf] at hP
      cases hP; rfl

theorem myUpdate_same {s s' : Obj} (hs : Shape s) (h : config s = config s') (x u : DVec) (dt : ℝ) :
    OptRel False (fun r r' => r.der = r'.der ∧ r.P = r'.P ∧ r.V = r'.V) (myUpdate s x u dt) (myUpdate s' x u dt) := by
  obtain ⟨⟨h1, h2, h3, h4, h5, h6, h7, h8⟩, h9, h10, h11⟩ := config_eq.mp h
  rw [myUpdate_bind, myUpdate_bind]
  rw [predictState_congr_fm s s' x dt h1]
  refine OptRel.bind_self _ _ _ fun xp hx => ?_
  obtain ⟨g, w, hg, hw⟩ := segs hx
  have e1 : (if s.ext.computeJacobian = true then updateJacobian s.der.G x dt else some s.der.G)
      = if s'.ext.computeJacobian = true then updateJacobian s'.der.G x dt else some s'.der.G := by
    rw [← h8]
    by_cases hf : s.ext.computeJacobian = true
    · rw [if_pos hf, if_pos hf]
      exact (writes_jacobian x dt g w hg hw).eq ((off_true ⟨hs, hf⟩).mp h9)
    · rw [if_neg hf, if_neg hf, (off_false fun hc => hf hc.2).mp h9]
  have e2 : (if s.ext.updateCovariance = true then updateNoise s.P x dt else some s.P)
      = if s'.ext.updateCovariance = true then updateNoise s'.P x dt else some s'.P := by
    rw [← h8]
    by_cases hf : s.ext.updateCovariance = true
    · rw [if_pos hf, if_pos hf]
      exact (writes_noise x dt g w hg hw).eq ((off_true ⟨hs, hf⟩).mp h10)
    · rw [if_neg hf, if_neg hf, (off_false fun hc => hf hc.2).mp h10]
  rw [e1, e2]
  refine OptRel.bind_self _ _ _ fun G _ => OptRel.bind_self _ _ _ fun P _ => ?_
  exact ⟨rfl, rfl, h7⟩

private theorem shape_eq {s s' : Obj} (h : config s = config s') : Shape s ↔ Shape s' := by
  obtain ⟨⟨h1, h2, h3, h4, h5, h6, h7, h8⟩, _⟩ := config_eq.mp h
  unfold Shape; rw [h1, h2, h5]

/-- `SixDRates` computes its prediction, Jacobian and noise matrix from its configuration, the state and the time step. -/
theorem stateless : cls.Stateless config where
  seen s s' h := by
    obtain ⟨⟨h1, h2, h3, h4, h5, h6, h7, h8⟩, _⟩ := config_eq.mp h
    exact ⟨h1, h2, h6, h5, h3⟩
  update s s' x u dt h := by
    have hE := config_eq.mp h
    obtain ⟨⟨h1, h2, h3, h4, h5, h6, h7, h8⟩, h9, h10, h11⟩ := hE
    by_cases hs : Shape s
    · have hs' := (shape_eq h).mp hs
      have e : cls.myUpdate s x u dt = myUpdate s x u dt := if_pos hs
      have e' : cls.myUpdate s' x u dt = myUpdate s' x u dt := if_pos hs'
      rw [e, e']
      have key := myUpdate_same hs h x u dt
      cases hr : myUpdate s x u dt <;> cases hr' : myUpdate s' x u dt <;> rw [hr, hr'] at key
      · trivial
      · exact key
      · exact key
      · exact ⟨key.1, key.2.1, key.2.2, myUpdate_config hs hr, (myUpdate_config hs' hr').trans h.symm⟩
    · have hs' : ¬ Shape s' := fun hc => hs ((shape_eq h).mpr hc)
      have e : cls.myUpdate s x u dt = some s := if_neg hs
      have e' : cls.myUpdate s' x u dt = some s' := if_neg hs'
      rw [e, e']
      have hG := (off_false fun hc => hs hc.1).mp h9
      have hP := (off_false fun hc => hs hc.1).mp h10
      refine ⟨?_, hP, h7, rfl, h.symm⟩
      have hg := h11 hs
      generalize s.der = d at hG hg
      generalize s'.der = d' at hG hg
      obtain ⟨a, b⟩ := d
      obtain ⟨a', b'⟩ := d'
      dsimp only at hG hg
      rw [hG, hg]
  add s s' h := by
    funext a b
    by_cases hs : Shape s
    · exact (if_pos hs).trans (if_pos ((shape_eq h).mp hs)).symm
    · exact (if_neg hs).trans (if_neg fun hc => hs ((shape_eq h).mpr hc)).symm
  sub s s' h := by
    funext a b
    by_cases hs : Shape s
    · exact (if_pos hs).trans (if_pos ((shape_eq h).mp hs)).symm
    · exact (if_neg hs).trans (if_neg fun hc => hs ((shape_eq h).mpr hc)).symm
  wsum s s' h := by
    funext a b
    by_cases hs : Shape s
    · exact (if_pos hs).trans (if_pos ((shape_eq h).mp hs)).symm
    · exact (if_neg hs).trans (if_neg fun hc => hs ((shape_eq h).mpr hc)).symm
  stationary s s' x u h := ⟨rfl, h.symm⟩

end SixDRates

/-! ### The sensors -/

/-- the entries of `z_pred_` that `myUpdate` computes -/
def writtenZ (k : Nat) (i : Nat) : Prop := i < k

open Classical in
/-- Everything about a sensor with a transform that `myUpdate` and `setCovariance` do not change. -/
noncomputable def tfConfig (Shape : TfMeas → Prop) (k : Nat) (m : TfMeas) :=
  ((m.fm, m.measDims, m.activeMeasurements, m.measurementUsage, m.ext), m.der.H, m.der.h.off fun i => Shape m ∧ i < k)

theorem tfConfig_eq {Shape : TfMeas → Prop} (hsh : ∀ m m' : TfMeas, m.fm = m'.fm → m.measDims = m'.measDims → (Shape m ↔ Shape m'))
    {k : Nat} {m m' : TfMeas} : tfConfig Shape k m = tfConfig Shape k m' ↔
    (m.fm = m'.fm ∧ m.measDims = m'.measDims ∧ m.activeMeasurements = m'.activeMeasurements ∧
      m.measurementUsage = m'.measurementUsage ∧ m.ext = m'.ext) ∧ m.der.H = m'.der.H ∧
    (m.der.h.off (fun i => Shape m ∧ i < k) = m'.der.h.off fun i => Shape m ∧ i < k) := by
  unfold tfConfig
  simp only [Prod.mk.injEq]
  constructor
  · rintro ⟨⟨h1, h2, h3, h4, h5⟩, h6, h7⟩
    refine ⟨⟨h1, h2, h3, h4, h5⟩, h6, ?_⟩
    simpa only [hsh m m' h1 h2] using h7
  · rintro ⟨⟨h1, h2, h3, h4, h5⟩, h6, h7⟩
    refine ⟨⟨h1, h2, h3, h4, h5⟩, h6, ?_⟩
    simpa only [hsh m m' h1 h2] using h7

private theorem voff_true {S : Nat → Prop} {b : Prop} (hb : b) {A B : DVec} :
    (A.off (fun p => b ∧ S p) = B.off fun p => b ∧ S p) ↔ A.off S = B.off S := by
  simp only [hb, true_and]

private theorem voff_false {S : Nat → Prop} {b : Prop} (hb : ¬ b) {A B : DVec} :
    (A.off (fun p => b ∧ S p) = B.off fun p => b ∧ S p) ↔ A = B :=
  ⟨fun h => DVec.eq_of_off h fun i hc => hb hc.1, fun h => by rw [h]⟩

/-- A sensor class that only rewrites the first `k` entries of `z_pred_`. -/
theorem tf_stateless (Shape : TfMeas → Prop) [DecidablePred Shape] (k : Nat)
    (hsh : ∀ m m' : TfMeas, m.fm = m'.fm → m.measDims = m'.measDims → (Shape m ↔ Shape m'))
    (up : TfMeas → DVec → ℝ → Option TfMeas) (w : TfData → DVec → DVec → Option DVec)
    (hw : ∀ e x z z', z.off (fun i => i < k) = z'.off (fun i => i < k) → w e x z = w e x z')
    (hk : ∀ e x z y, w e x z = some y → y.off (fun i => i < k) = z.off fun i => i < k)
    (hup : ∀ m x dt, up m x dt = (w m.ext x m.der.h).map fun z => { m with der := { m.der with h := z } }) :
    (MeasClass.plain fun m x dt => if Shape m then up m x dt else some m).Stateless (tfConfig Shape k) where
  seen m m' h := by
    obtain ⟨⟨h1, h2, h3, h4, h5⟩, h6, h7⟩ := (tfConfig_eq hsh).mp h
    exact ⟨h1, h2, h3⟩
  setCov m R := (tfConfig_eq hsh).mpr ⟨⟨rfl, rfl, rfl, rfl, rfl⟩, rfl, rfl⟩
  update m m' x dt h hc := by
    obtain ⟨⟨h1, h2, h3, h4, h5⟩, h6, h7⟩ := (tfConfig_eq hsh).mp h
    have keepw : ∀ (m : TfMeas) z, Shape m → w m.ext x m.der.h = some z →
        tfConfig Shape k { m with der := { m.der with h := z } } = tfConfig Shape k m := by
      intro m z hs hz
      symm
      refine (tfConfig_eq hsh).mpr ⟨⟨rfl, rfl, rfl, rfl, rfl⟩, rfl, ?_⟩
      rw [voff_true hs]
      exact (hk _ _ _ _ hz).symm
    simp only [MeasClass.plain]
    by_cases hs : Shape m
    · have hs' := (hsh m m' h1 h2).mp hs
      rw [if_pos hs, if_pos hs', hup, hup]
      have e : w m.ext x m.der.h = w m'.ext x m'.der.h := by
        rw [← h5]
        exact hw _ _ _ _ ((voff_true hs).mp h7)
      cases hz : w m'.ext x m'.der.h with
      | none => rw [e, hz]; trivial
      | some z =>
        rw [e, hz]
        refine ⟨?_, rfl, hc.symm, keepw m z hs (e.trans hz), (keepw m' z hs' hz).trans h.symm⟩
        show (⟨z, m.der.H⟩ : NonlinMeasData) = ⟨z, m'.der.H⟩
        rw [h6]
    · have hs' : ¬ Shape m' := fun hx => hs ((hsh m m' h1 h2).mpr hx)
      rw [if_neg hs, if_neg hs']
      have hz := (voff_false hs).mp h7
      refine ⟨?_, rfl, hc.symm, rfl, h.symm⟩
      generalize m.der = d at h6 hz
      generalize m'.der = d' at h6 hz
      obtain ⟨a, b⟩ := d
      obtain ⟨a', b'⟩ := d'
      dsimp only at h6 hz
      rw [h6, hz]
  sub m m' h := rfl
  wsum m m' h := rfl
  stationary m m' x z h := ⟨rfl, h.symm⟩

theorem WritesV.of_iff {S S' : Nat → Prop} {w : DVec → Option DVec} (h : WritesV S w) (hS : ∀ i, S i ↔ S' i) : WritesV S' w := by
  have : S = S' := funext fun i => propext (hS i)
  rwa [← this]

theorem writesV_none (S : Nat → Prop) : WritesV S fun _ => none :=
  ⟨fun _ _ _ _ => not_false, fun _ _ _ _ h => by cases h⟩

namespace SixDRatesOdom

/-- what `myUpdate` does to `z_pred_` -/
noncomputable def rewrite (e : TfData) (x z : DVec) : Option DVec :=
  (x.seg3? SixDRates.VX).bind fun v => (x.seg3? SixDRates.VPHI).bind fun w =>
    (z.setSeg3? 0 (transformLinearVelocity v w e.tf)).bind fun z => z.set? 3 (transformAngularVelocity w e.tf.R 2)

theorem rewrite_writes (e : TfData) (x : DVec) : WritesV (fun i => i < 4) (rewrite e x) := by
  unfold rewrite
  cases x.seg3? SixDRates.VX with
  | none => exact writesV_none _
  | some v =>
    cases x.seg3? SixDRates.VPHI with
    | none => exact writesV_none _
    | some w =>
      simp only [Option.bind_some]
      exact ((writes_seg3 0 _).then (writes_vset 3 _)).of_iff fun i => by omega

/-- `SixDRatesOdom` computes its prediction from its configuration and the state. -/
theorem stateless : cls.Stateless (tfConfig Shape 4) := by
  classical
  refine tf_stateless Shape 4 (fun m m' h1 h2 => by unfold Shape; rw [h1, h2]) myUpdate rewrite
    (fun e x z z' h => (rewrite_writes e x).eq h) (fun e x z y h => (rewrite_writes e x).keep h) ?_
  intro m x dt
  unfold myUpdate rewrite
  simp only [Option.bind_eq_bind]
  cases x.seg3? SixDRates.VX <;> cases x.seg3? SixDRates.VPHI <;> simp only [Option.bind_some, Option.bind_none, Option.map_none]
  simp only [Option.map_eq_bind, Option.bind_assoc]
  rfl

end SixDRatesOdom

namespace SixDRatesImu

/-- the first half of what `myUpdate` does to `z_pred_` -/
noncomputable def rewrite1 (x z : DVec) : Option DVec :=
  (x.seg3? SixDRates.AX).bind fun a => (x.seg3? SixDRates.B_AX).bind fun ba => (x.seg3? SixDRates.GX).bind fun g =>
    (z.setSeg3? 0 (a - ba + g)).bind fun z =>
    (x.seg3? SixDRates.VPHI).bind fun w => (x.seg3? SixDRates.B_WX).bind fun bw => z.setSeg3? 3 (w - bw)

/-- the second half -/
noncomputable def rewrite2 (e : TfData) (z : DVec) : Option DVec :=
  if e.tfSet = true then
    (z.seg3? 0).bind fun za => (z.setSeg3? 0 (e.tf.R *ᵥ za)).bind fun z =>
    (z.seg3? 3).bind fun zw => z.setSeg3? 3 (e.tf.R *ᵥ zw)
  else some z

theorem rewrite1_writes (x : DVec) : WritesV (fun i => i < 6) (rewrite1 x) := by
  unfold rewrite1
  cases x.seg3? SixDRates.AX with
  | none => exact writesV_none _
  | some a =>
    cases x.seg3? SixDRates.B_AX with
    | none => exact writesV_none _
    | some ba =>
      cases x.seg3? SixDRates.GX with
      | none => exact writesV_none _
      | some g =>
        simp only [Option.bind_some]
        cases x.seg3? SixDRates.VPHI with
        | none =>
          simp only [Option.bind_none, Option.bind_fun_none]
          exact writesV_none _
        | some w =>
          cases x.seg3? SixDRates.B_WX with
          | none =>
            simp only [Option.bind_none, Option.bind_some, Option.bind_fun_none]
            exact writesV_none _
          | some bw =>
            simp only [Option.bind_some]
            exact ((writes_seg3 0 _).then (writes_seg3 3 _)).of_iff fun i => by omega

theorem rewrite2_keep (e : TfData) (z y : DVec) (h : rewrite2 e z = some y) :
    y.off (fun i => i < 6) = z.off fun i => i < 6 := by
  unfold rewrite2 at h
  split at h
  · simp only [Option.bind_eq_some_iff] at h
    obtain ⟨za, _, z1, h1, zw, _, h2⟩ := h
    exact ((writes_seg3 3 _).keeps _ z1 y (fun i hi => by omega) h2).trans ((writes_seg3 0 _).keeps _ z z1 (fun i hi => by omega) h1)
  · cases h; rfl

/-- `SixDRatesImu` computes its prediction from its configuration and the state. -/
theorem stateless : cls.Stateless (tfConfig Shape 6) := by
  classical
  refine tf_stateless Shape 6 (fun m m' h1 h2 => by unfold Shape; rw [h1, h2]) myUpdate
    (fun e x z => (rewrite1 x z).bind (rewrite2 e)) ?_ ?_ ?_
  · intro e x z z' h
    exact congrArg (Option.bind · (rewrite2 e)) ((rewrite1_writes x).eq h)
  · intro e x z y h
    obtain ⟨z1, h1, h2⟩ := Option.bind_eq_some_iff.mp h
    exact (rewrite2_keep e z1 y h2).trans ((rewrite1_writes x).keep h1)
  · intro m x dt
    unfold myUpdate rewrite1 rewrite2
    simp only [Option.bind_eq_bind, Option.map_eq_bind, Option.bind_assoc]
    congr 1; funext a
    congr 1; funext ba
    congr 1; funext g
    congr 1; funext z1
    congr 1; funext w
    congr 1; funext bw
    congr 1; funext z2
    by_cases ht : m.ext.tfSet = true
    · simp only [ht, if_true, Option.bind_assoc]
      rfl
    · simp only [ht, if_false]
      rfl

end SixDRatesImu

end StateEstimation
