import Verif.Props.Offset
import Verif.Props.SixDFilter
import Verif.Lemmas.SixDUKF

/-!
# C141 for the models of the library: the biases of an IMU
-/

set_option linter.unusedSectionVars false

namespace StateEstimation
namespace Props

open Offset Matrix

variable {T K X Y : Type}

section vectors

variable {d : Nat → ℝ}

private theorem units_of {α β : Type} {R : α → β → Prop} {o : Option α} {o' : Option β} (h : OptRel False R o o') : Units.Both R o o' := by
  cases o <;> cases o' <;> simp_all [Units.Both, OptRel]

private theorem shift_add (x y : DVec) : OptRel False (fun a b => b = shift d a) (x.add y) ((shift d x).add y) := by
  unfold DVec.add
  by_cases h : x.size = y.size
  · rw [dif_pos h, dif_pos (show (shift d x).size = y.size from h)]
    show _ = shift d _
    unfold shift
    congr 1
    funext i
    show x.val i + d i + _ = x.val i + _ + d i
    ring
  · rw [dif_neg h, dif_neg (show ¬ (shift d x).size = y.size from h)]; exact not_false

private theorem shift_down (x y : DVec) : OptRel False (fun a b => b = shift d a) (x.sub y) ((shift d x).sub y) := by
  unfold DVec.sub
  by_cases h : x.size = y.size
  · rw [dif_pos h, dif_pos (show (shift d x).size = y.size from h)]
    show _ = shift d _
    unfold shift
    congr 1
    funext i
    show x.val i + d i - _ = x.val i - _ + d i
    ring
  · rw [dif_neg h, dif_neg (show ¬ (shift d x).size = y.size from h)]; exact not_false

private theorem shift_sub (x y : DVec) : (shift d x).sub (shift d y) = x.sub y := by
  unfold DVec.sub
  by_cases h : x.size = y.size
  · rw [dif_pos h, dif_pos (show (shift d x).size = (shift d y).size from h)]
    refine congrArg some (congrArg (DVec.mk x.size) (funext fun i => ?_))
    show x.val i + d i - (y.val (Fin.cast h i) + d i) = x.val i - y.val (Fin.cast h i)
    ring
  · rw [dif_neg h, dif_neg (show ¬ (shift d x).size = (shift d y).size from h)]

private theorem shift_zero (x : DVec) : shift (fun _ => 0) x = x := by
  unfold shift
  simp

private theorem shift_seg {i : Nat} (hd : ∀ k < 3, d (i + k) = 0) (x : DVec) : (shift d x).seg3? i = x.seg3? i := by
  unfold DVec.seg3?
  by_cases h : i + 3 ≤ x.size
  · rw [dif_pos h, dif_pos (show i + 3 ≤ (shift d x).size from h)]
    refine congrArg some (funext fun k => ?_)
    show x.val ⟨i + k.val, by omega⟩ + d (i + k.val) = x.val ⟨i + k.val, by omega⟩
    rw [hd k k.2, add_zero]
  · rw [dif_neg h, dif_neg (show ¬ i + 3 ≤ (shift d x).size from h)]

private theorem shift_setSeg {i : Nat} (hd : ∀ k < 3, d (i + k) = 0) (x : DVec) (v : V3) :
    OptRel False (fun a b => b = shift d a) (x.setSeg3? i v) ((shift d x).setSeg3? i v) := by
  unfold DVec.setSeg3?
  by_cases h : i + 3 ≤ x.size
  · rw [if_pos h, if_pos (show i + 3 ≤ (shift d x).size from h)]
    show _ = shift d _
    unfold shift
    congr 1
    funext j
    dsimp only
    split
    next hj =>
      have := hd (j.val - i) (by omega)
      rw [show i + (j.val - i) = j.val by omega] at this
      rw [this, add_zero]
    · rfl
  · rw [if_neg h, if_neg (show ¬ i + 3 ≤ (shift d x).size from h)]; exact not_false

private theorem shift_addAt {i : Nat} (hd : d i = 0) (x : DVec) (c : ℝ) :
    OptRel False (fun a b => b = shift d a) (SixDRates.addAt x i c) (SixDRates.addAt (shift d x) i c) := by
  unfold SixDRates.addAt
  simp only [Option.bind_eq_bind]
  unfold DVec.get? DVec.set?
  by_cases h : i < x.size
  · rw [dif_pos h, dif_pos (show i < (shift d x).size from h), Option.bind_some, Option.bind_some, if_pos h,
      if_pos (show i < (shift d x).size from h)]
    show _ = shift d _
    unfold shift
    congr 1
    funext j
    dsimp only
    split
    next hj => rw [hd, add_zero, hj, hd, add_zero]
    · rfl
  · rw [dif_neg h, dif_neg (show ¬ i < (shift d x).size from h)]; exact not_false

/-- the weights before `i` -/
private noncomputable def before (w : DVec) (i : Nat) : ℝ := ∑ j ∈ Finset.range i, if h : j < w.size then w.val ⟨j, h⟩ else 0

private theorem before_all (w : DVec) : before w w.size = ∑ i, w.val i := by
  unfold before
  rw [Finset.sum_range]
  exact Finset.sum_congr rfl fun i _ => dif_pos i.2

private theorem before_succ {w : DVec} {i : Nat} {a : ℝ} (h : w.get? i = some a) : before w (i + 1) = before w i + a := by
  unfold before
  rw [Finset.sum_range_succ]
  unfold DVec.get? at h
  split at h
  next hi =>
    cases h
    rw [dif_pos hi]
  · cases h

private theorem shift_acc {a b : ℝ} (acc v : DVec) :
    OptRel False (fun r q => q = shift (fun i => (a + b) * d i) r) (acc.add v)
      ((shift (fun i => a * d i) acc).add (shift (fun i => b * d i) v)) := by
  unfold DVec.add
  by_cases h : acc.size = v.size
  · rw [dif_pos h, dif_pos (show (shift (fun i => a * d i) acc).size = (shift (fun i => b * d i) v).size from h)]
    show _ = shift _ _
    unfold shift
    congr 1
    funext i
    show acc.val i + a * d i + (v.val _ + b * d i) = acc.val i + v.val _ + (a + b) * d i
    ring
  · rw [dif_neg h, dif_neg (show ¬ (shift (fun i => a * d i) acc).size = (shift (fun i => b * d i) v).size from h)]; exact not_false

private theorem shift_smul (a : ℝ) (x : DVec) : (shift d x).smul a = shift (fun i => a * d i) (x.smul a) := by
  unfold shift DVec.smul
  congr 1
  funext i
  ring

private theorem col_shift (A : DMat) (j : Nat) : OptRel False (fun a b => b = shift d a) (A.col? j) ((shiftCols d A).col? j) := by
  unfold DMat.col?
  by_cases h : j < A.cols
  · rw [dif_pos h, dif_pos (show j < (shiftCols d A).cols from h)]; rfl
  · rw [dif_neg h, dif_neg (show ¬ j < (shiftCols d A).cols from h)]; exact not_false

private theorem opt_of {α : Type} (o : Option α) {R : α → α → Prop} (h : ∀ a, o = some a → R a a) : OptRel False R o o := by
  cases o
  · exact not_false
  · exact h _ rfl

private theorem loop_shift (w : DVec) (A : DMat) (fuel : Nat) : ∀ (i : Nat) (acc : DVec),
    OptRel False (fun r q => q = shift (fun j => before w (i + fuel) * d j) r) (weightedSumLoop w A fuel i acc)
      (weightedSumLoop w (shiftCols d A) fuel i (shift (fun j => before w i * d j) acc)) := by
  induction fuel with
  | zero => intro i acc; exact rfl
  | succ fuel ih =>
    intro i acc
    unfold weightedSumLoop
    simp only [Option.bind_eq_bind]
    refine OptRel.bind (R := fun a b => b = a ∧ w.get? i = some a) (opt_of _ fun a ha => ⟨rfl, ha⟩) fun a b hab => ?_
    obtain ⟨rfl, ha⟩ := hab
    refine OptRel.bind (col_shift A i) fun c c' hc => ?_
    subst hc
    rw [shift_smul]
    refine OptRel.bind (shift_acc acc _) fun r q hq => ?_
    subst hq
    rw [← before_succ ha, show i + (fuel + 1) = i + 1 + fuel by omega]
    exact ih (i + 1) r

private theorem wsum_shift (w : DVec) (A : DMat) (hw : ∑ i, w.val i = 1) :
    OptRel False (fun a b => b = shift d a) (weightedSum w A) (weightedSum w (shiftCols d A)) := by
  unfold weightedSum
  by_cases h : w.size = A.cols
  · rw [if_pos h, if_pos (show w.size = (shiftCols d A).cols from h)]
    have := loop_shift (d := d) w A w.size 0 (DVec.zero A.rows)
    rw [Nat.zero_add, before_all, hw] at this
    simp only [one_mul] at this
    rw [show before w 0 = 0 from Finset.sum_range_zero _] at this
    simp only [zero_mul] at this
    rw [shift_zero] at this
    exact this
  · rw [if_neg h, if_neg (show ¬ w.size = (shiftCols d A).cols from h)]; exact not_false

private theorem loop6_shift (hd : ∀ k < 3, d (SixDRates.GX + k) = 0) (w : DVec) (A : DMat) (fuel : Nat) : ∀ (i : Nat) (acc : DVec),
    OptRel False (fun r q => q = shift (fun j => before w (i + fuel) * d j) r) (SixDRates.weightedLoop w A fuel i acc)
      (SixDRates.weightedLoop w (shiftCols d A) fuel i (shift (fun j => before w i * d j) acc)) := by
  induction fuel with
  | zero => intro i acc; exact rfl
  | succ fuel ih =>
    intro i acc
    unfold SixDRates.weightedLoop
    simp only [Option.bind_eq_bind]
    refine OptRel.bind (R := fun a b => b = a ∧ w.get? i = some a) (opt_of _ fun a ha => ⟨rfl, ha⟩) fun a b hab => ?_
    obtain ⟨hb, ha⟩ := hab
    subst b
    refine OptRel.bind (col_shift A i) fun c c' hc => ?_
    subst hc
    have hd' : ∀ k < 3, a * d (SixDRates.GX + k) = 0 := fun k hk => by rw [hd k hk, mul_zero]
    rw [shift_smul, shift_seg (d := fun i => a * d i) hd']
    refine OptRel.refl_map _ _ _ fun g => ?_
    refine OptRel.bind (shift_setSeg (d := fun i => a * d i) hd' _ _) fun v v' hv => ?_
    subst hv
    refine OptRel.bind (shift_acc acc _) fun r q hq => ?_
    subst hq
    rw [← before_succ ha, show i + (fuel + 1) = i + 1 + fuel by omega]
    exact ih (i + 1) r

private theorem wsum6_shift (hd : ∀ k < 3, d (SixDRates.GX + k) = 0) (w : DVec) (A : DMat) (hw : ∑ i, w.val i = 1) :
    OptRel False (fun a b => b = shift d a) (SixDRates.weightedSumOfStates w A) (SixDRates.weightedSumOfStates w (shiftCols d A)) := by
  unfold SixDRates.weightedSumOfStates
  by_cases h : w.size = A.cols
  · rw [if_pos h, if_pos (show w.size = (shiftCols d A).cols from h)]
    have := loop6_shift hd w A w.size 0 (DVec.zero A.rows)
    rw [Nat.zero_add, before_all, hw] at this
    simp only [one_mul] at this
    rw [show before w 0 = 0 from Finset.sum_range_zero _] at this
    simp only [zero_mul] at this
    rw [shift_zero] at this
    exact this
  · rw [if_neg h, if_neg (show ¬ w.size = (shiftCols d A).cols from h)]; exact not_false

/-- Classes with the default arithmetic average every offset. -/
theorem plain_averages {n l np : Nat} (d : Nat → ℝ) (up : Sys NonlinSysData X → DVec → DVec → T → Option (Sys NonlinSysData X)) :
    SysAverages n l np d (SysClass.plain up) :=
  ⟨fun _ _ x y _ => shift_sub x y, fun _ _ x y _ => units_of (shift_down (d := d) x y), fun _ _ w A _ hw => units_of (wsum_shift (d := d) w A hw)⟩

theorem plain_maverages {n k : Nat} {ext : Y} (δ : Nat → ℝ) (up : Meas NonlinMeasData Y → DVec → T → Option (Meas NonlinMeasData Y)) :
    MeasAverages n k ext δ (MeasClass.plain up) := ⟨fun _ _ w A _ hw => units_of (wsum_shift (d := δ) w A hw)⟩

end vectors

section sixd

/-- Specification: an offset `da` of the accelerometer bias and `dw` of the gyroscope bias in a 6-D rates state. -/
def biasOffset (da dw : V3) : Nat → ℝ := fun i =>
  if h : 12 ≤ i ∧ i < 15 then da ⟨i - 12, by omega⟩ else if h : 15 ≤ i ∧ i < 18 then dw ⟨i - 15, by omega⟩ else 0

/-- Specification: the same in the reading of an IMU mounted with the rotation `R`: `R da` is taken off the accelerations, `R dw` off
the rates. -/
def imuOffset (R : M3) (da dw : V3) : Nat → ℝ := fun i =>
  if h : i < 3 then -(R *ᵥ da) ⟨i, h⟩ else if h : 3 ≤ i ∧ i < 6 then -(R *ᵥ dw) ⟨i - 3, by omega⟩ else 0

variable {da dw : V3}

private theorem bias_low {i : Nat} (h : i < 12) : biasOffset da dw i = 0 := by
  unfold biasOffset
  rw [dif_neg (by omega), dif_neg (by omega)]

private theorem predictState_rel {s s' : SixDRates.Obj} (h : s'.fm = s.fm) (x : DVec) (dt : ℝ) :
    OptRel False (fun a b => b = shift (biasOffset da dw) a) (SixDRates.predictState s x dt)
      (SixDRates.predictState s' (shift (biasOffset da dw) x) dt) := by
  unfold SixDRates.predictState
  simp only [Option.bind_eq_bind]
  rw [shift_seg (i := SixDRates.GX) fun k hk => bias_low (by dsimp only [SixDRates.GX, SixDRates.VPHI, SixDRates.AX]; omega), shift_seg (i := SixDRates.VPHI) fun k hk => bias_low (by dsimp only [SixDRates.GX, SixDRates.VPHI, SixDRates.AX]; omega),
    shift_seg (i := SixDRates.AX) fun k hk => bias_low (by dsimp only [SixDRates.GX, SixDRates.VPHI, SixDRates.AX]; omega)]
  refine OptRel.refl_map _ _ _ fun g => ?_
  refine OptRel.refl_map _ _ _ fun w => ?_
  refine OptRel.refl_map _ _ _ fun a => ?_
  have hu : ∀ i, SixDRates.used s' i = SixDRates.used s i := fun i => by unfold SixDRates.used; rw [h]
  rw [hu, hu, hu, h]
  refine OptRel.bind (shift_addAt (bias_low (by omega)) _ _) fun x1 _ e => ?_
  subst e
  refine OptRel.bind (shift_addAt (bias_low (by omega)) _ _) fun x2 _ e => ?_
  subst e
  refine OptRel.bind (shift_addAt (bias_low (by omega)) _ _) fun x3 _ e => ?_
  subst e
  split
  · exact shift_setSeg (fun k hk => bias_low (by dsimp only [SixDRates.GX, SixDRates.VPHI, SixDRates.AX]; omega)) _ _
  · exact rfl

private theorem jac_eq (G : DMat) (x : DVec) (dt : ℝ) :
    SixDRates.updateJacobian G (shift (biasOffset da dw) x) dt = SixDRates.updateJacobian G x dt := by
  unfold SixDRates.updateJacobian
  rw [shift_seg (i := SixDRates.GX) fun k hk => bias_low (by dsimp only [SixDRates.GX, SixDRates.VPHI, SixDRates.AX]; omega), shift_seg (i := SixDRates.VPHI) fun k hk => bias_low (by dsimp only [SixDRates.GX, SixDRates.VPHI, SixDRates.AX]; omega)]

private theorem noise_eq (G : DMat) (x : DVec) (dt : ℝ) :
    SixDRates.updateNoise G (shift (biasOffset da dw) x) dt = SixDRates.updateNoise G x dt := by
  unfold SixDRates.updateNoise
  rw [shift_seg (i := SixDRates.GX) fun k hk => bias_low (by dsimp only [SixDRates.GX, SixDRates.VPHI, SixDRates.AX]; omega), shift_seg (i := SixDRates.VPHI) fun k hk => bias_low (by dsimp only [SixDRates.GX, SixDRates.VPHI, SixDRates.AX]; omega)]

private theorem same_shape {s s' : SixDRates.Obj} (h : SysSame 18 0 15 s s') : SixDRates.Shape s ∧ SixDRates.Shape s' := by
  refine ⟨⟨h.states, h.controls, h.noises⟩, ?_⟩
  rw [h.same]
  exact ⟨h.states, h.controls, h.noises⟩

/-- The vehicle model of the library carries any change of the biases along. -/
theorem sixD_carries (da dw : V3) : SysCarries 18 0 15 (biasOffset da dw) SixDRates.cls where
  update := by
    intro s s' x u dt h hx
    obtain ⟨h1, h2⟩ := same_shape h
    rw [SixDRates.cls_update h1, SixDRates.cls_update h2]
    refine units_of ?_
    unfold SixDRates.myUpdate
    simp only [Option.bind_eq_bind]
    have ef : s'.fm = s.fm := by rw [h.same]
    have ee : s'.ext = s.ext := by rw [h.same]
    have eP : s'.P = s.P := by rw [h.same]
    refine OptRel.bind (predictState_rel ef x dt) fun y y' hy => ?_
    subst hy
    rw [ee, h.G, eP, jac_eq, noise_eq]
    have fin : ∀ G P : DMat, SysSame 18 0 15 { s with der := ⟨y, G⟩, P := P }
        { s' with der := ⟨shift (biasOffset da dw) y, G⟩, P := P, ext := s.ext } := fun G P => by
      refine ⟨?_, rfl, h.states, h.controls, h.noises, h.quiet⟩
      dsimp only
      rw [h.same]
    have inner : ∀ G : DMat, OptRel False (fun r r' => SysSame 18 0 15 r r' ∧ r'.der.g = shift (biasOffset da dw) r.der.g)
        (if s.ext.updateCovariance = true then (SixDRates.updateNoise s.P x dt).bind fun P => some { s with der := ⟨y, G⟩, P := P }
          else (some s.P).bind fun P => some { s with der := ⟨y, G⟩, P := P })
        (if s.ext.updateCovariance = true then (SixDRates.updateNoise s.P x dt).bind fun P =>
            some { s' with der := ⟨shift (biasOffset da dw) y, G⟩, P := P, ext := s.ext }
          else (some s.P).bind fun P => some { s' with der := ⟨shift (biasOffset da dw) y, G⟩, P := P, ext := s.ext }) := fun G => by
      split
      · exact OptRel.refl_map _ _ _ fun P => ⟨fin G P, rfl⟩
      · exact ⟨fin G _, rfl⟩
    split
    · exact OptRel.refl_map _ _ _ fun G => inner G
    · exact inner _
  add := by
    intro s s' x y h
    obtain ⟨h1, h2⟩ := same_shape h
    refine units_of ?_
    show OptRel False _ (open Classical in if SixDRates.Shape s then SixDRates.addState x y else x.add y)
      (open Classical in if SixDRates.Shape s' then SixDRates.addState (shift _ x) y else (shift _ x).add y)
    rw [if_pos h1, if_pos h2]
    unfold SixDRates.addState
    simp only [Option.bind_eq_bind]
    refine OptRel.bind (shift_add x y) fun r _ e => ?_
    subst e
    rw [shift_seg (i := SixDRates.GX) fun k hk => bias_low (by dsimp only [SixDRates.GX, SixDRates.VPHI, SixDRates.AX]; omega)]
    refine OptRel.refl_map _ _ _ fun g => ?_
    exact shift_setSeg (fun k hk => bias_low (by dsimp only [SixDRates.GX, SixDRates.VPHI, SixDRates.AX]; omega)) _ _

theorem sixD_averages (da dw : V3) : SysAverages 18 0 15 (biasOffset da dw) SixDRates.cls where
  sub := by
    intro s s' x y h
    obtain ⟨h1, h2⟩ := same_shape h
    show (open Classical in if SixDRates.Shape s' then SixDRates.subtractState (shift _ x) (shift _ y) else (shift _ x).sub (shift _ y)) =
      (open Classical in if SixDRates.Shape s then SixDRates.subtractState x y else x.sub y)
    rw [if_pos h1, if_pos h2]
    unfold SixDRates.subtractState
    rw [shift_sub]
  down := by
    intro s s' x y h
    obtain ⟨h1, h2⟩ := same_shape h
    refine units_of ?_
    show OptRel False _ (open Classical in if SixDRates.Shape s then SixDRates.subtractState x y else x.sub y)
      (open Classical in if SixDRates.Shape s' then SixDRates.subtractState (shift _ x) y else (shift _ x).sub y)
    rw [if_pos h1, if_pos h2]
    unfold SixDRates.subtractState
    simp only [Option.bind_eq_bind]
    refine OptRel.bind (shift_down x y) fun r _ e => ?_
    subst e
    rw [shift_seg (i := SixDRates.GX) fun k hk => bias_low (by dsimp only [SixDRates.GX, SixDRates.VPHI, SixDRates.AX]; omega)]
    refine OptRel.refl_map _ _ _ fun g => ?_
    exact shift_setSeg (fun k hk => bias_low (by dsimp only [SixDRates.GX, SixDRates.VPHI, SixDRates.AX]; omega)) _ _
  wsum := by
    intro s s' w A h hw
    obtain ⟨h1, h2⟩ := same_shape h
    refine units_of ?_
    show OptRel False _ (open Classical in if SixDRates.Shape s then SixDRates.weightedSumOfStates w A else weightedSum w A)
      (open Classical in if SixDRates.Shape s' then SixDRates.weightedSumOfStates w (shiftCols _ A) else weightedSum w (shiftCols _ A))
    rw [if_pos h1, if_pos h2]
    exact wsum6_shift (fun k hk => bias_low (by dsimp only [SixDRates.GX, SixDRates.VPHI, SixDRates.AX]; omega)) w A hw

/-- Specification: the offset of the reading of an IMU (`true`) or odometer (`false`) mounted with the rotation `R`. -/
def readingOffset (b : Bool) (R : M3) (da dw : V3) : Nat → ℝ := if b then imuOffset R da dw else fun _ => 0

/-- `tf_set_` is false only for the identity. -/
def TfMarked (ext : TfData) : Prop := ext.tfSet = true ↔ ¬ IsIdentity ext.tf

theorem sixD_reads (b : Bool) (ext : TfData) (hext : TfMarked ext) (da dw : V3) :
    MeasCarries 18 (sixDDims b) ext (biasOffset da dw) (readingOffset b ext.tf.R da dw) (sixDSensors b) where
  update := by
    intro m m' x dt h hx
    obtain ⟨x, rfl⟩ := x.exists_of hx
    have em : m'.ext = ext := by rw [h.same]; exact h.ext
    have s1 : m'.fm.stateDims = 18 := by rw [h.same]; exact h.states
    have s2 : m'.measDims = sixDDims b := by rw [h.same]; exact h.meas
    have key : ∀ z z' : DVec, z.size = sixDDims b → z' = shift (readingOffset b ext.tf.R da dw) z →
        Units.Both (fun r r' => MeasSame 18 (sixDDims b) ext r r' ∧ r'.der.h = shift (readingOffset b ext.tf.R da dw) r.der.h)
          (some { m with der := { m.der with h := z }, ext := ext }) (some { m' with der := { m'.der with h := z' }, ext := ext }) := by
      intro z z' hz e
      subst e
      refine ⟨⟨?_, h.H, h.states, h.meas, rfl, hz, hz, h.quiet⟩, rfl⟩
      dsimp only
      rw [h.same]
    cases b
    · show Units.Both _ (open Classical in if SixDRatesOdom.Shape m then SixDRatesOdom.myUpdate m _ dt else some m)
        (open Classical in if SixDRatesOdom.Shape m' then SixDRatesOdom.myUpdate m' (.of fun i => x i + biasOffset da dw i) dt else some m')
      rw [if_pos ⟨h.states, h.meas⟩, if_pos ⟨s1, s2⟩, SixDRatesOdom.myUpdate_of m h.h, SixDRatesOdom.myUpdate_of m' h.h', odom_predicted,
        odom_predicted, h.ext, em]
      refine key (DVec.of (odomOf ext.tf x)) _ rfl ?_
      show _ = shift (fun _ => 0) _
      rw [shift_zero, DVec.of_inj]
      have ev : velocityOf (fun i => x i + biasOffset da dw i) = velocityOf x := by
        funext i; fin_cases i <;> simp [velocityOf, biasOffset]
      have ew : rateOf (fun i => x i + biasOffset da dw i) = rateOf x := by
        funext i; fin_cases i <;> simp [rateOf, biasOffset]
      unfold odomOf
      rw [ev, ew]
    · show Units.Both _ (open Classical in if SixDRatesImu.Shape m then SixDRatesImu.myUpdate m _ dt else some m)
        (open Classical in if SixDRatesImu.Shape m' then SixDRatesImu.myUpdate m' (.of fun i => x i + biasOffset da dw i) dt else some m')
      rw [if_pos ⟨h.states, h.meas⟩, if_pos ⟨s1, s2⟩, SixDRatesImu.myUpdate_of m h.h, SixDRatesImu.myUpdate_of m' h.h', h.ext, em,
        imu_predicted _ hext, imu_predicted _ hext]
      refine key (DVec.of (imuOf ext.tf x)) _ rfl ?_
      show DVec.of _ = DVec.of fun i => _ + imuOffset ext.tf.R da dw i
      rw [DVec.of_inj]
      have e3 : ∀ v w : V3, (ext.tf.R *ᵥ (v - w)) = ext.tf.R *ᵥ v - ext.tf.R *ᵥ w := fun v w => Matrix.mulVec_sub _ v w
      funext i
      fin_cases i <;> simp [imuOf, imuOffset, biasOffset, accelOf, gravityOf, rateOf, Matrix.mulVec, dotProduct, Fin.sum_univ_three] <;> ring
  sub := by
    intro m m' x y _
    have : ∀ m : TfMeas, ∀ a c : DVec, (sixDSensors b).sub m a c = a.sub c := by cases b <;> intros <;> rfl
    rw [this, this]
    exact shift_sub x y

theorem sixD_mean (b : Bool) (ext : TfData) (δ : Nat → ℝ) : MeasAverages 18 (sixDDims b) ext δ (sixDSensors b) := by
  cases b
  · exact plain_maverages δ _
  · exact plain_maverages δ _

/-- Specification: a sensor of a 6-D rates model (`true`: IMU, `false`: odometer) as the constructor and `setTf` leave it, without a
stationary predicate. -/
structure Sensor6 (b : Bool) (m : TfMeas) : Prop where
  states : m.fm.stateDims = 18
  meas : m.measDims = sixDDims b
  reading : m.der.h.size = sixDDims b
  marked : m.ext.tfSet = true ↔ ¬ IsIdentity m.ext.tf
  quiet : m.fm.checkStationary = false

variable [DecidableEq K]

private theorem env6_same {e : Env K NonlinSysData SixDRates.Flags NonlinMeasData TfData} {kind : K → Bool} {a b : Bool}
    (hs : e.sys = SixDRates.construct a b) (hm : ∀ k, Sensor6 (kind k) (e.meas k)) :
    EnvSame 18 0 15 (fun k => sixDDims (kind k)) (fun k => (e.meas k).ext) e e := by
  refine ⟨?_, fun k => ⟨rfl, rfl, (hm k).states, (hm k).meas, rfl, (hm k).reading, (hm k).reading, (hm k).quiet⟩⟩
  rw [hs]
  exact ⟨rfl, rfl, rfl, rfl, rfl, rfl⟩

/-- The EKF of a 6-D rates model with some sensors. -/
noncomputable abbrev ekf6 (kind : K → Bool) : Plant ℝ DVec DMat K (Env K NonlinSysData SixDRates.Flags NonlinMeasData TfData) :=
  ekfPlant SixDRates.cls fun k => sixDSensors (kind k)

/-- The UKF of a 6-D rates model with some sensors. -/
noncomputable abbrev ukf6 (llt : DMat → Option DMat) (junk : Nat → Nat → ℝ) (kind : K → Bool) :
    Plant ℝ DVec DMat K (Env K NonlinSysData SixDRates.Flags NonlinMeasData TfData × SigmaParams) :=
  ukfPlant llt junk SixDRates.cls fun k => sixDSensors (kind k)

/-- **C141 for the 6-D rates models, EKF.**  A vehicle model with any number of odometers and IMUs, mounted in any way.  Changing the
initial bias estimates by `da`, `dw` and taking `R da`, `R dw` off the readings of every IMU (`R` its mounting), in any calls, changes
the estimated biases by exactly `da`, `dw` at all times and nothing else: "calibrating" the IMUs in advance is the same as telling the
filter their biases. -/
theorem C141_sixD_ekf (kind : K → Bool) (da dw : V3)
    (sort : List (FilterInput ℝ DVec DMat K) → List (FilterInput ℝ DVec DMat K)) (hsort : SameSort sort sort)
    (params : Params ℝ) (e : Env K NonlinSysData SixDRates.Flags NonlinMeasData TfData) {a b : Bool}
    (hs : e.sys = SixDRates.construct a b) (hm : ∀ k, Sensor6 (kind k) (e.meas k)) (x : DVec) (c : DMat) (t : ℝ)
    (ops ops' : List (Op ℝ DVec DMat K (Env K NonlinSysData SixDRates.Flags NonlinMeasData TfData)))
    (hops : List.Forall₂ (Call (biasOffset da dw) (fun k => readingOffset (kind k) (e.meas k).ext.tf.R da dw)
      (EnvSame 18 0 15 (fun k => sixDDims (kind k)) (fun k => (e.meas k).ext))) ops ops') :
    OffsetOutcome (biasOffset da dw)
      ((Filter.construct (ekf6 kind) params e x c t).run (ekf6 kind) sort ops)
      ((Filter.construct (ekf6 kind) params e (shift (biasOffset da dw) x) c t).run (ekf6 kind) sort ops') :=
  C141_ekf (sixD_carries da dw) (fun k => sixD_reads (kind k) (e.meas k).ext (hm k).marked da dw) sort hsort params e (env6_same hs hm)
    x _ c t rfl ops ops' hops

/-- **C141 for the 6-D rates models, UKF.**  For the sigma points of any `setSigmaPointParameters` call. -/
theorem C141_sixD_ukf (llt : DMat → Option DMat) (junk : Nat → Nat → ℝ) (kind : K → Bool) (da dw : V3)
    (sort : List (FilterInput ℝ DVec DMat K) → List (FilterInput ℝ DVec DMat K)) (hsort : SameSort sort sort)
    (params : Params ℝ) (e : Env K NonlinSysData SixDRates.Flags NonlinMeasData TfData) {a b : Bool}
    (hs : e.sys = SixDRates.construct a b) (hm : ∀ k, Sensor6 (kind k) (e.meas k)) (sp : SigmaParams) (al ka be : ℝ)
    (hsp : setSigma 18 18 al ka be = some sp) (x : DVec) (c : DMat) (t : ℝ)
    (ops ops' : List (Op ℝ DVec DMat K (Env K NonlinSysData SixDRates.Flags NonlinMeasData TfData × SigmaParams)))
    (hops : List.Forall₂ (Call (biasOffset da dw) (fun k => readingOffset (kind k) (e.meas k).ext.tf.R da dw)
      (fun e1 e2 => EnvSame 18 0 15 (fun k => sixDDims (kind k)) (fun k => (e.meas k).ext) e1.1 e2.1 ∧ Weights 18 e1.2 ∧ e2.2 = e1.2))
      ops ops') :
    OffsetOutcome (biasOffset da dw)
      ((Filter.construct (ukf6 llt junk kind) params (e, sp) x c t).run (ukf6 llt junk kind) sort ops)
      ((Filter.construct (ukf6 llt junk kind) params (e, sp)
        (shift (biasOffset da dw) x) c t).run (ukf6 llt junk kind) sort ops') := by
  refine C141_ukf llt junk (sixD_carries da dw) (sixD_averages da dw)
    (fun k => sixD_reads (kind k) (e.meas k).ext (hm k).marked da dw) (fun k => sixD_mean (kind k) _ _) sort hsort params e
    (env6_same hs hm) sp ?_ x _ c t rfl ops ops' hops
  obtain ⟨lam, _, h2, h3⟩ := Sigma.setSigma_eq hsp
  rw [h3]
  refine ⟨rfl, ?_⟩
  show ∑ i : Fin (2 * 18 + 1), Sigma.wm 18 lam i = 1
  rw [Fin.sum_univ_succ]
  simp only [Fin.val_zero, Fin.val_succ, Sigma.wm_zero, Sigma.wm_succ, Finset.sum_const, Finset.card_univ, Fintype.card_fin, nsmul_eq_mul]
  exact Sigma.wm_sum h2

/-! ## Example -/

/-- a quarter turn about the vertical -/
private def turnedMount : Iso := ⟨!![0, -1, 0; 1, 0, 0; 0, 0, 1], 0⟩

private theorem quarter_moves : ¬ IsIdentity turnedMount := fun h => by
  have := congrFun (congrFun h.1 0) 0
  simp [turnedMount] at this

/-- an IMU after `setTf(turnedMount)` -/
private noncomputable def turnedImu : TfMeas :=
  { Meas.constructNonlinear SixDRates.DIMS 6 (⟨turnedMount, true, true⟩ : TfData) with der := ⟨.zero 6, .of (imuH 0 turnedMount)⟩ }

private theorem turned_sensor : Sensor6 true turnedImu := ⟨rfl, rfl, rfl, iff_of_true rfl quarter_moves, rfl⟩

/-- `turnedImu` is what `setTf` makes of a new IMU. -/
example : ∃ m0, SixDRatesImu.construct true = some m0 ∧ TfMeas.setTf SixDRatesImu.postTfUpdate m0 turnedMount = some turnedImu := by
  classical
  have h0 := imu_post (Meas.constructNonlinear SixDRates.DIMS 6 ⟨Iso.identity, false, true⟩) rfl 0 rfl
  refine ⟨_, h0, ?_⟩
  unfold TfMeas.setTf
  have hd : (!decide (turnedMount.R = 1 ∧ turnedMount.t = 0)) = true := by
    rw [decide_eq_false (show ¬ (turnedMount.R = 1 ∧ turnedMount.t = 0) from quarter_moves)]; rfl
  simp only [hd, if_true]
  rw [imu_post _ rfl (imuH 0 Iso.identity) rfl, imuH_again]
  rfl

/-- An IMU turned by a quarter about the vertical: whoever tells the filter that the accelerometer bias is 1 along the first body axis
may instead subtract 1 from the second reading; with a late reading and a queue. -/
example (sort) (hsort : SameSort sort sort) (z1 z2 : DVec) (r : DMat) :
    OffsetOutcome (biasOffset ![1, 0, 0] 0)
      ((Filter.construct (ekf6 fun _ : Unit => true) ⟨true, 5, false⟩ ⟨SixDRates.construct true true, fun _ => turnedImu⟩
        (.of levelState) (.identity 18) 0).run (ekf6 fun _ : Unit => true) sort
        [.correct z1 r 2 (some ()), .enqueueMeasurement z2 r 1 (some ()), .processQueues, .predictTime 3])
      ((Filter.construct (ekf6 fun _ : Unit => true) ⟨true, 5, false⟩ ⟨SixDRates.construct true true, fun _ => turnedImu⟩
        (shift (biasOffset ![1, 0, 0] 0) (.of levelState)) (.identity 18) 0).run (ekf6 fun _ : Unit => true) sort
        [.correct (shift (fun i => if i = 1 then -1 else 0) z1) r 2 (some ()),
          .enqueueMeasurement (shift (fun i => if i = 1 then -1 else 0) z2) r 1 (some ()), .processQueues, .predictTime 3]) := by
  have e : (fun i => if i = 1 then -1 else 0 : Nat → ℝ) = readingOffset true turnedMount.R ![1, 0, 0] 0 := by
    funext i
    unfold readingOffset imuOffset
    rw [if_pos rfl]
    by_cases h : i < 3
    · rw [dif_pos h]
      interval_cases i <;> simp [turnedMount, Matrix.mulVec, dotProduct, Fin.sum_univ_three]
    · rw [dif_neg h, if_neg (by omega)]
      split <;> simp
  rw [e]
  exact C141_sixD_ekf (K := Unit) (fun _ => true) ![1, 0, 0] 0 sort hsort _
    ⟨SixDRates.construct true true, fun _ => turnedImu⟩ rfl (fun _ => turned_sensor) _ _ _ _ _
    (.cons ⟨rfl, (), rfl, rfl, rfl, rfl⟩ (.cons ⟨rfl, (), rfl, rfl, rfl, rfl⟩ (.cons trivial (.cons rfl .nil))))

end sixd

end Props
end StateEstimation
