import Verif.Model.SixD
import Verif.Examples.Linear
import Verif.Lemmas.Subset

/-! # The 6-D rates models on vectors of the right size, and that they meet the contracts -/

namespace StateEstimation

open Matrix Examples

section Ops

variable {n r c : Nat}

theorem seg3_of (v : Fin n → ℝ) (i : Nat) (h : i + 3 ≤ n) :
    (DVec.of v).seg3? i = some fun k => v ⟨i + k.val, by omega⟩ := by
  simp only [DVec.seg3?, dif_pos h]

theorem setSeg3_of (v : Fin n → ℝ) (i : Nat) (s : V3) (h : i + 3 ≤ n) :
    (DVec.of v).setSeg3? i s = some (.of fun j : Fin n =>
      if h : i ≤ j.val ∧ j.val < i + 3 then s ⟨j.val - i, by omega⟩ else v j) := by
  simp only [DVec.setSeg3?, if_pos h]

theorem setBlock33_of (A : Matrix (Fin r) (Fin c) ℝ) (i j : Nat) (B : M3) (h : i + 3 ≤ r ∧ j + 3 ≤ c) :
    (DMat.of A).setBlock33? i j B = some (.of fun (a : Fin r) (b : Fin c) =>
      if h : (i ≤ a.val ∧ a.val < i + 3) ∧ (j ≤ b.val ∧ b.val < j + 3) then
        B ⟨a.val - i, by omega⟩ ⟨b.val - j, by omega⟩ else A a b) := by
  simp only [DMat.setBlock33?, if_pos h]

theorem setBlock13_of (A : Matrix (Fin r) (Fin c) ℝ) (i j : Nat) (s : V3) (h : i + 1 ≤ r ∧ j + 3 ≤ c) :
    (DMat.of A).setBlock13? i j s = some (.of fun (a : Fin r) (b : Fin c) =>
      if h : a.val = i ∧ (j ≤ b.val ∧ b.val < j + 3) then s ⟨b.val - j, by omega⟩ else A a b) := by
  simp only [DMat.setBlock13?, if_pos h]

end Ops

namespace SixDRates

/-- The three entries from `i`. -/
def part (v : Fin 18 → ℝ) (i : Nat) (h : i + 3 ≤ 18 := by omega) : V3 := fun k => v ⟨i + k.val, by omega⟩

theorem seg3_part (v : Fin 18 → ℝ) (i : Nat) (h : i + 3 ≤ 18) : (DVec.of v).seg3? i = some (part v i h) := seg3_of v i h

/-- Replacing the gravity part. -/
def withGravity (v : Fin 18 → ℝ) (g : V3) : Fin 18 → ℝ :=
  fun j => if h : 9 ≤ j.val ∧ j.val < 12 then g ⟨j.val - 9, by omega⟩ else v j

theorem setGravity_of (v : Fin 18 → ℝ) (g : V3) : (DVec.of v).setSeg3? GX g = some (.of (withGravity v g)) :=
  setSeg3_of v 9 g (by omega)

theorem addState_of (a b : Fin 18 → ℝ) :
    addState (.of a) (.of b) = some (.of (withGravity (a + b) (rescaled (part (a + b) 9)))) := by
  simp only [addState, Option.bind_eq_bind, DVec.add_of, Option.bind_some, seg3_part _ 9 (by omega), setGravity_of]

theorem subtractState_of (a b : Fin 18 → ℝ) :
    subtractState (.of a) (.of b) = some (.of (withGravity (a - b) (rescaled (part (a - b) 9)))) := by
  simp only [subtractState, Option.bind_eq_bind, DVec.sub_of, Option.bind_some, seg3_part _ 9 (by omega), setGravity_of]

theorem addAt_of {n : Nat} (v : Fin n → ℝ) (i : Nat) (hi : i < n) (c : ℝ) :
    addAt (.of v) i c = some (.of fun j => if j.val = i then v j + c else v j) := by
  simp only [addAt, DVec.get?, DVec.set?, dif_pos hi, Option.bind_eq_bind, Option.bind_some, if_pos hi]
  congr 2
  funext j
  by_cases h : j.val = i
  · rw [if_pos h, if_pos h]
    have : j = ⟨i, hi⟩ := Fin.ext h
    rw [this]
  · rw [if_neg h, if_neg h]

/-- All three gravity states are in use. -/
def gravityUsed (s : Obj) : Bool :=
  s.fm.stateUsage.getD 9 false && s.fm.stateUsage.getD 10 false && s.fm.stateUsage.getD 11 false

/-- The predicted state. -/
noncomputable def predicted (s : Obj) (v : Fin 18 → ℝ) (dt : ℝ) : Fin 18 → ℝ := fun j =>
  if h : j.val < 3 then v j + used s j.val * integrateVelocityRK4 dt (part v 3) (part v 6) 0 ⟨j.val, h⟩
  else if h : (9 ≤ j.val ∧ j.val < 12) ∧ gravityUsed s then
    (deltaQuaternion dt (part v 6)).rot (part v 9) ⟨j.val - 9, by omega⟩
  else v j

theorem predictState_of (s : Obj) (v : Fin 18 → ℝ) (dt : ℝ) :
    predictState s (.of v) dt = some (.of (predicted s v dt)) := by
  simp only [predictState, Option.bind_eq_bind, Option.bind_some, seg3_part _ 9 (by omega), seg3_part _ 6 (by omega),
    seg3_part _ 3 (by omega), addAt_of (n := 18) _ 0 (by omega), addAt_of (n := 18) _ 1 (by omega),
    addAt_of (n := 18) _ 2 (by omega)]
  have hg : (s.fm.stateUsage.getD 9 false && s.fm.stateUsage.getD 10 false && s.fm.stateUsage.getD 11 false)
    = gravityUsed s := rfl
  rw [hg]
  have base : ∀ j : Fin 18, j.val < 3 ∨ ¬ j.val < 3 := fun j => em _
  cases hu : gravityUsed s with
  | true =>
    rw [if_pos rfl, setGravity_of]
    congr 2
    funext j
    simp only [withGravity, predicted, hu, and_true]
    by_cases h9 : 9 ≤ j.val ∧ j.val < 12
    · rw [dif_pos h9, dif_neg (by omega), dif_pos h9]
    · rw [dif_neg h9]
      by_cases h3 : j.val < 3
      · rw [dif_pos h3]
        have : j = 0 ∨ j = 1 ∨ j = 2 := by omega
        rcases this with rfl | rfl | rfl <;> simp
      · rw [dif_neg h3, dif_neg h9, if_neg (by omega), if_neg (by omega), if_neg (by omega)]
  | false =>
    rw [if_neg (by simp)]
    congr 2
    funext j
    simp only [predicted, hu, Bool.false_eq_true, and_false, dite_false]
    by_cases h3 : j.val < 3
    · rw [dif_pos h3]
      have : j = 0 ∨ j = 1 ∨ j = 2 := by omega
      rcases this with rfl | rfl | rfl <;> simp
    · rw [dif_neg h3, if_neg (by omega), if_neg (by omega), if_neg (by omega)]

/-- The matrix after `A(i, j) = x`. -/
def setM {r c : Nat} (A : Matrix (Fin r) (Fin c) ℝ) (i j : Nat) (x : ℝ) : Matrix (Fin r) (Fin c) ℝ :=
  fun a b => if a.val = i ∧ b.val = j then x else A a b

/-- The matrix after `A.block<3, 3>(i, j) = B`. -/
def blockM {r c : Nat} (A : Matrix (Fin r) (Fin c) ℝ) (i j : Nat) (B : M3) : Matrix (Fin r) (Fin c) ℝ :=
  fun a b => if h : (i ≤ a.val ∧ a.val < i + 3) ∧ (j ≤ b.val ∧ b.val < j + 3) then
    B ⟨a.val - i, by omega⟩ ⟨b.val - j, by omega⟩ else A a b

theorem mset_of {r c : Nat} (A : Matrix (Fin r) (Fin c) ℝ) (i j : Nat) (x : ℝ) (h : i < r ∧ j < c) :
    (DMat.of A).set? i j x = some (.of (setM A i j x)) := by
  simp only [DMat.set?, if_pos h]; rfl

theorem mblock_of {r c : Nat} (A : Matrix (Fin r) (Fin c) ℝ) (i j : Nat) (B : M3) (h : i + 3 ≤ r ∧ j + 3 ≤ c) :
    (DMat.of A).setBlock33? i j B = some (.of (blockM A i j B)) := setBlock33_of A i j B h

/-- The Jacobian after the update. -/
noncomputable def jacobian (G : Matrix (Fin 18) (Fin 18) ℝ) (v : Fin 18 → ℝ) (dt : ℝ) : Matrix (Fin 18) (Fin 18) ℝ :=
  blockM (blockM (setM (setM (setM G 0 3 dt) 1 4 dt) 2 5 dt) 9 6 (jacGravityRate dt (part v 9) (part v 6))) 9 9
    (jacGravityGravity dt (part v 6))

theorem updateJacobian_of (G : Matrix (Fin 18) (Fin 18) ℝ) (v : Fin 18 → ℝ) (dt : ℝ) :
    updateJacobian (.of G) (.of v) dt = some (.of (jacobian G v dt)) := by
  simp only [updateJacobian, Option.bind_eq_bind, seg3_part _ 9 (by omega), seg3_part _ 6 (by omega)]
  rw [Option.bind_some, Option.bind_some, mset_of _ 0 3 _ (by omega), Option.bind_some, mset_of _ 1 4 _ (by omega),
    Option.bind_some, mset_of _ 2 5 _ (by omega), Option.bind_some, mblock_of _ 9 6 _ (by omega), Option.bind_some,
    mblock_of _ 9 9 _ (by omega)]
  rfl

theorem jacobian_apply (G : Matrix (Fin 18) (Fin 18) ℝ) (v : Fin 18 → ℝ) (dt : ℝ) (i j : Fin 18) :
    jacobian G v dt i j =
      if h : (9 ≤ i.val ∧ i.val < 12) ∧ (9 ≤ j.val ∧ j.val < 12) then
        jacGravityGravity dt (part v 6) ⟨i.val - 9, by omega⟩ ⟨j.val - 9, by omega⟩
      else if h : (9 ≤ i.val ∧ i.val < 12) ∧ (6 ≤ j.val ∧ j.val < 9) then
        jacGravityRate dt (part v 9) (part v 6) ⟨i.val - 9, by omega⟩ ⟨j.val - 6, by omega⟩
      else if i.val < 3 ∧ j.val = i.val + 3 then dt else G i j := by
  unfold jacobian blockM setM
  by_cases h1 : (9 ≤ i.val ∧ i.val < 12) ∧ (9 ≤ j.val ∧ j.val < 12)
  · rw [dif_pos h1, dif_pos h1]
  · rw [dif_neg h1, dif_neg h1]
    by_cases h2 : (9 ≤ i.val ∧ i.val < 12) ∧ (6 ≤ j.val ∧ j.val < 9)
    · rw [dif_pos h2, dif_pos h2]
    · rw [dif_neg h2, dif_neg h2]
      split_ifs <;> first | rfl | omega

theorem bind_of_ok {r c : Nat} {o : Option DMat} {k : DMat → Option DMat}
    (h : ∃ A' : Matrix (Fin r) (Fin c) ℝ, o = some (.of A'))
    (hk : ∀ A' : Matrix (Fin r) (Fin c) ℝ, ∃ P' : Matrix (Fin r) (Fin c) ℝ, k (.of A') = some (.of P')) :
    ∃ P' : Matrix (Fin r) (Fin c) ℝ, o.bind k = some (.of P') := by
  obtain ⟨A', rfl⟩ := h
  exact hk A'

theorem updateNoise_ok (P : Matrix (Fin 18) (Fin 15) ℝ) (v : Fin 18 → ℝ) (dt : ℝ) :
    ∃ P' : Matrix (Fin 18) (Fin 15) ℝ, updateNoise (.of P) (.of v) dt = some (.of P') := by
  simp only [updateNoise, Option.bind_eq_bind, seg3_part _ 9 (by omega), seg3_part _ 6 (by omega)]
  rw [Option.bind_some, Option.bind_some]
  iterate 18
    refine bind_of_ok ⟨_, mset_of _ _ _ _ (by omega)⟩ ?_
    intro P
  exact ⟨_, mblock_of _ 9 12 _ (by omega)⟩

theorem myUpdate_of (s : Obj) (hs : s.Sized NonlinSysData.Sized 18 0) (hp : s.Rp.rows = 15) (v : Fin 18 → ℝ) (u : DVec) (dt : ℝ) :
    ∃ s', myUpdate s (.of v) u dt = some s' ∧ s'.Sized NonlinSysData.Sized 18 0 ∧ s.SameConfig s' ∧ s'.ext = s.ext ∧
      s'.der.g = .of (predicted s v dt) ∧
      (s.ext.computeJacobian = true → updateJacobian s.der.G (.of v) dt = some s'.der.G) ∧
      (s.ext.updateCovariance = true → updateNoise s.P (.of v) dt = some s'.P) := by
  obtain ⟨G, hG⟩ := hs.der.2.exists_of
  have hP15 := hs.P
  rw [hp] at hP15
  obtain ⟨P, hP⟩ := hP15.exists_of
  obtain ⟨P', hP'⟩ := updateNoise_ok P v dt
  have e1 := updateJacobian_of G v dt
  simp only [myUpdate, Option.bind_eq_bind, predictState_of, Option.bind_some, hG, hP, e1, hP']
  cases hj : s.ext.computeJacobian <;> cases hu : s.ext.updateCovariance <;> simp only [if_true, Bool.false_eq_true, if_false, Option.bind_some]
  all_goals
    refine ⟨_, rfl, ⟨hs.states, hs.controls, ⟨rfl, ⟨rfl, rfl⟩⟩, ⟨rfl, hp.symm⟩, hs.Rp, hs.V, hs.Rc⟩,
      ⟨rfl, rfl, rfl, rfl, rfl⟩, rfl, rfl, ?_, ?_⟩ <;> intro h <;> first | rfl | cases h

theorem weightedLoop_ok (w : DVec) (X : DMat) (hX : X.Is 18 w.size) : ∀ (fuel i : Nat) (acc : DVec), i + fuel ≤ w.size →
    acc.size = 18 → ∃ r, weightedLoop w X fuel i acc = some r ∧ r.size = 18
  | 0, _, acc, _, ha => ⟨acc, rfl, ha⟩
  | fuel + 1, i, acc, hi, ha => by
      obtain ⟨acc, rfl⟩ := acc.exists_of ha
      obtain ⟨A, rfl⟩ := hX.exists_of
      have hi' : i < w.size := by omega
      simp only [weightedLoop, DVec.get?, dif_pos hi', DMat.col?, Option.bind_eq_bind, Option.bind_some, DVec.smul]
      have e : (⟨18, fun k => w.val ⟨i, hi'⟩ * A k ⟨i, hi'⟩⟩ : DVec) = .of (fun k : Fin 18 => w.val ⟨i, hi'⟩ * A k ⟨i, hi'⟩) := rfl
      rw [e, seg3_part _ 9 (by omega), Option.bind_some, setGravity_of, Option.bind_some, DVec.add_of, Option.bind_some]
      exact weightedLoop_ok w (.of A) ⟨rfl, rfl⟩ fuel (i + 1) _ (by omega) rfl

open Classical in
theorem contract : SysContract NonlinSysData.Sized cls where
  update := by
    intro n m s x u dt hs hx hu
    show ∃ s', (if Shape s then myUpdate s x u dt else some s) = some s' ∧ _
    split
    next h =>
      have hn : n = 18 := by rw [← hs.states]; exact h.1
      have hm : m = 0 := by rw [← hs.controls]; exact h.2.1
      subst hn hm
      obtain ⟨v, rfl⟩ := x.exists_of hx
      obtain ⟨s', h1, h2, h3, _⟩ := myUpdate_of s hs h.2.2 v u dt
      exact ⟨s', h1, h2, h3⟩
    next => exact ⟨s, rfl, hs, Sys.SameConfig.refl s⟩
  add := by
    intro n m s a b hs ha hb
    show ∃ r, (if Shape s then addState a b else a.add b) = some r ∧ _
    split
    next h =>
      have hn : n = 18 := by rw [← hs.states]; exact h.1
      subst hn
      obtain ⟨a, rfl⟩ := a.exists_of ha
      obtain ⟨b, rfl⟩ := b.exists_of hb
      exact ⟨_, addState_of a b, rfl⟩
    next => exact add_size a b _ ha hb
  sub := by
    intro n m s a b hs ha hb
    show ∃ r, (if Shape s then subtractState a b else a.sub b) = some r ∧ _
    split
    next h =>
      have hn : n = 18 := by rw [← hs.states]; exact h.1
      subst hn
      obtain ⟨a, rfl⟩ := a.exists_of ha
      obtain ⟨b, rfl⟩ := b.exists_of hb
      exact ⟨_, subtractState_of a b, rfl⟩
    next => exact sub_size a b _ ha hb
  wsum := by
    intro n m s w X hs hX
    show ∃ r, (if Shape s then weightedSumOfStates w X else weightedSum w X) = some r ∧ _
    split
    next h =>
      have hn : n = 18 := by rw [← hs.states]; exact h.1
      subst hn
      obtain ⟨r, h1, h2⟩ := weightedLoop_ok w X hX w.size 0 (DVec.zero X.rows) (by omega) (by show X.rows = 18; exact hX.1)
      exact ⟨r, by rw [weightedSumOfStates, if_pos hX.2.symm, h1], h2⟩
    next => exact weightedSum_size w X _ hX
  stationary := fun s _ _ hs _ _ => ⟨s, rfl, hs, Sys.SameConfig.refl s⟩

theorem shape_update {s s' : Obj} (h : Shape s) (hc : s.SameConfig s') : Shape s' := by
  obtain ⟨h1, h2, h3⟩ := h
  exact ⟨by rw [hc.fm]; exact h1, by rw [hc.controlDims]; exact h2, by rw [hc.Rp]; exact h3⟩

theorem construct_shape (a b : Bool) : Shape (construct a b) := ⟨rfl, rfl, rfl⟩

theorem construct_sized (a b : Bool) : (construct a b).Sized NonlinSysData.Sized 18 0 :=
  ⟨rfl, rfl, ⟨rfl, rfl, rfl⟩, ⟨rfl, rfl⟩, ⟨rfl, rfl⟩, ⟨rfl, rfl⟩, ⟨rfl, rfl⟩⟩

end SixDRates

namespace SixDRatesOdom

/-- The predicted measurement. -/
noncomputable def predicted (tf : Iso) (v : Fin 18 → ℝ) : Fin 4 → ℝ :=
  ![transformLinearVelocity (SixDRates.part v 0) (SixDRates.part v 6) tf 0,
    transformLinearVelocity (SixDRates.part v 0) (SixDRates.part v 6) tf 1,
    transformLinearVelocity (SixDRates.part v 0) (SixDRates.part v 6) tf 2,
    transformAngularVelocity (SixDRates.part v 6) tf.R 2]

theorem myUpdate_of (m : TfMeas) (hm : m.der.h.size = 4) (v : Fin 18 → ℝ) (dt : ℝ) :
    myUpdate m (.of v) dt = some { m with der := { m.der with h := .of (predicted m.ext.tf v) } } := by
  obtain ⟨z, hz⟩ := m.der.h.exists_of hm
  simp only [myUpdate, Option.bind_eq_bind, SixDRates.seg3_part _ 0 (by omega), SixDRates.seg3_part _ 6 (by omega),
    Option.bind_some, hz, setSeg3_of _ 0 _ (show 0 + 3 ≤ 4 by omega), DVec.set?, show 3 < 4 by omega, if_true]
  congr 5
  funext j
  fin_cases j <;> simp [predicted]

open Classical in
theorem contract : MeasContract NonlinMeasData.Sized cls := by
  apply plain_mcontract
  intro n k s x dt hs hx
  split
  next h =>
    have hn : n = 18 := by rw [← hs.states]; exact h.1
    have hk : k = 4 := by rw [← hs.meas]; exact h.2
    subst hn hk
    obtain ⟨v, rfl⟩ := x.exists_of hx
    exact ⟨_, myUpdate_of s hs.der.1 v dt, ⟨hs.states, hs.meas, ⟨rfl, hs.der.2⟩, hs.cov⟩, ⟨rfl, rfl, rfl, rfl⟩⟩
  next => exact ⟨s, rfl, hs, Meas.SameConfig.refl s⟩

end SixDRatesOdom

namespace SixDRatesImu

open SixDRates (part)

/-- The predicted measurement. -/
noncomputable def predicted (d : TfData) (v : Fin 18 → ℝ) : Fin 6 → ℝ :=
  let a := part v 3 - part v 12 + part v 9
  let w := part v 6 - part v 15
  let a := if d.tfSet then d.tf.R *ᵥ a else a
  let w := if d.tfSet then d.tf.R *ᵥ w else w
  ![a 0, a 1, a 2, w 0, w 1, w 2]

/-- The vector after `v.segment(i, 3) = s`. -/
def seg6 (v : Fin 6 → ℝ) (i : Nat) (s : V3) : Fin 6 → ℝ :=
  fun j => if h : i ≤ j.val ∧ j.val < i + 3 then s ⟨j.val - i, by omega⟩ else v j

theorem setSeg6_of (v : Fin 6 → ℝ) (i : Nat) (s : V3) (h : i + 3 ≤ 6) :
    (DVec.of v).setSeg3? i s = some (.of (seg6 v i s)) := setSeg3_of v i s h

theorem seg6_both (z : Fin 6 → ℝ) (a w : V3) : seg6 (seg6 z 0 a) 3 w = ![a 0, a 1, a 2, w 0, w 1, w 2] := by
  funext j
  fin_cases j <;> simp [seg6]

theorem low_of (a : V3) (w : V3) : (DVec.of ![a 0, a 1, a 2, w 0, w 1, w 2]).seg3? 0 = some a := by
  rw [seg3_of (n := 6) _ 0 (by omega)]
  congr 1
  funext k
  fin_cases k <;> rfl

theorem high_of (a : V3) (w : V3) : (DVec.of ![a 0, a 1, a 2, w 0, w 1, w 2]).seg3? 3 = some w := by
  rw [seg3_of (n := 6) _ 3 (by omega)]
  congr 1
  funext k
  fin_cases k <;> rfl

theorem setLow (a b w : V3) : seg6 ![a 0, a 1, a 2, w 0, w 1, w 2] 0 b = ![b 0, b 1, b 2, w 0, w 1, w 2] := by
  funext j
  fin_cases j <;> simp [seg6]

theorem setHigh (a b w : V3) : seg6 ![a 0, a 1, a 2, w 0, w 1, w 2] 3 b = ![a 0, a 1, a 2, b 0, b 1, b 2] := by
  funext j
  fin_cases j <;> simp [seg6]

theorem myUpdate_of (m : TfMeas) (hm : m.der.h.size = 6) (v : Fin 18 → ℝ) (dt : ℝ) :
    myUpdate m (.of v) dt = some { m with der := { m.der with h := .of (predicted m.ext v) } } := by
  obtain ⟨z, hz⟩ := m.der.h.exists_of hm
  simp only [myUpdate, Option.bind_eq_bind, SixDRates.seg3_part _ 3 (by omega), SixDRates.seg3_part _ 6 (by omega),
    SixDRates.seg3_part _ 9 (by omega), SixDRates.seg3_part _ 12 (by omega), SixDRates.seg3_part _ 15 (by omega),
    Option.bind_some, hz]
  rw [setSeg6_of z 0 _ (by omega), Option.bind_some, setSeg6_of _ 3 _ (by omega), Option.bind_some, seg6_both]
  cases ht : m.ext.tfSet with
  | false =>
    simp only [Bool.false_eq_true, if_false, Option.bind_some]
    simp only [predicted, ht, Bool.false_eq_true, if_false]
  | true =>
    simp only [if_true]
    rw [low_of, Option.bind_some, setSeg6_of _ 0 _ (by omega), Option.bind_some, setLow, high_of, Option.bind_some,
      setSeg6_of _ 3 _ (by omega), Option.bind_some, setHigh]
    simp only [predicted, ht, if_true]

open Classical in
theorem contract : MeasContract NonlinMeasData.Sized cls := by
  apply plain_mcontract
  intro n k s x dt hs hx
  split
  next h =>
    have hn : n = 18 := by rw [← hs.states]; exact h.1
    have hk : k = 6 := by rw [← hs.meas]; exact h.2
    subst hn hk
    obtain ⟨v, rfl⟩ := x.exists_of hx
    exact ⟨_, myUpdate_of s hs.der.1 v dt, ⟨hs.states, hs.meas, ⟨rfl, hs.der.2⟩, hs.cov⟩, ⟨rfl, rfl, rfl, rfl⟩⟩
  next => exact ⟨s, rfl, hs, Meas.SameConfig.refl s⟩

end SixDRatesImu

end StateEstimation
