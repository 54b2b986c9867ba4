import Verif.Spec.Scale
import Verif.Lemmas.Uninit
import Verif.Lemmas.PlantRel
import Verif.Lemmas.Numeric

/-! # Scaling every covariance -/

set_option linter.unusedSectionVars false

namespace StateEstimation

open Matrix

namespace DMat

theorem mul_smul_right (l : ℝ) (A B : DMat) : A.mul (B.smul l) = (A.mul B).map (DMat.smul l) := by
  unfold mul
  by_cases h : A.cols = B.rows
  · rw [dif_pos h, dif_pos (show A.cols = (B.smul l).rows from h)]
    simp only [Option.map_some, smul, Option.some.injEq, DMat.mk.injEq, heq_eq_eq, true_and]
    exact Matrix.mul_smul A.val l (B.val.submatrix (Fin.cast h) id)
  · rw [dif_neg h, dif_neg (show ¬ A.cols = (B.smul l).rows from h)]; rfl

theorem mul_smul_left (l : ℝ) (A B : DMat) : (A.smul l).mul B = (A.mul B).map (DMat.smul l) := by
  unfold mul
  by_cases h : A.cols = B.rows
  · rw [dif_pos h, dif_pos (show (A.smul l).cols = B.rows from h)]
    simp only [Option.map_some, smul, Option.some.injEq, DMat.mk.injEq, heq_eq_eq, true_and]
    exact Matrix.smul_mul l A.val _
  · rw [dif_neg h, dif_neg (show ¬ (A.smul l).cols = B.rows from h)]; rfl

theorem add_smul (l : ℝ) (A B : DMat) : (A.smul l).add (B.smul l) = (A.add B).map (DMat.smul l) := by
  unfold add
  by_cases h : A.rows = B.rows ∧ A.cols = B.cols
  · rw [dif_pos h, dif_pos (show (A.smul l).rows = (B.smul l).rows ∧ (A.smul l).cols = (B.smul l).cols from h)]
    simp only [Option.map_some, smul, Option.some.injEq]
    congr 1
    funext i j
    simp only [Matrix.smul_apply, smul_eq_mul]
    exact (mul_add l _ _).symm
  · rw [dif_neg h, dif_neg (show ¬ ((A.smul l).rows = (B.smul l).rows ∧ (A.smul l).cols = (B.smul l).cols) from h)]; rfl

theorem inverse_smul {l : ℝ} (hl : l ≠ 0) (A : DMat) : (A.smul l).inverse = A.inverse.map (DMat.smul l⁻¹) := by
  obtain ⟨r, c, A⟩ := A
  by_cases h : r = c
  · subst h
    have e : (DMat.smul l ⟨r, r, A⟩) = ⟨r, r, l • A⟩ := rfl
    rw [e]
    unfold inverse
    dsimp only
    rw [dif_pos rfl, dif_pos rfl]
    have hd : IsUnit ((l • A).submatrix id (Fin.cast rfl)).det ↔ IsUnit (A.submatrix id (Fin.cast rfl)).det := by
      show IsUnit (l • A).det ↔ IsUnit A.det
      rw [Matrix.det_smul, IsUnit.mul_iff]
      exact ⟨fun h => h.2, fun h => ⟨(isUnit_iff_ne_zero.mpr hl).pow _, h⟩⟩
    by_cases hu : IsUnit (A.submatrix id (Fin.cast rfl)).det
    · rw [if_pos hu, if_pos (hd.mpr hu)]
      simp only [Option.map_some, smul, Option.some.injEq, DMat.mk.injEq, heq_eq_eq, true_and]
      show (l • A)⁻¹ = l⁻¹ • A⁻¹
      have hu' : IsUnit A.det := hu
      haveI : Invertible l := invertibleOfNonzero hl
      rw [Matrix.inv_smul A l hu', invOf_eq_inv]
    · rw [if_neg hu, if_neg (fun h' => hu (hd.mp h'))]; rfl
  · unfold inverse
    rw [dif_neg h, dif_neg (show ¬ (DMat.smul l ⟨r, c, A⟩).rows = (DMat.smul l ⟨r, c, A⟩).cols from h)]; rfl

theorem smul_smul (a b : ℝ) (A : DMat) : (A.smul b).smul a = A.smul (a * b) := by
  unfold smul
  rw [_root_.smul_smul]

theorem one_smul (A : DMat) : A.smul 1 = A := by
  unfold smul
  rw [_root_.one_smul]

end DMat

theorem Option.bind_map' {α β γ : Type} (o : Option α) (f : α → β) (g : β → Option γ) :
    (o.map f).bind g = o.bind fun a => g (f a) := by cases o <;> rfl

theorem Option.map_bind' {α β γ : Type} (o : Option α) (f : α → Option β) (g : β → γ) :
    (o.bind f).map g = o.bind fun a => (f a).map g := by cases o <;> rfl

theorem propagateCov_smul (l : ℝ) (A c P Rp V Rc : DMat) :
    propagateCov A (c.smul l) P (Rp.smul l) V (Rc.smul l) = (propagateCov A c P Rp V Rc).map (DMat.smul l) := by
  unfold propagateCov
  simp only [Option.bind_eq_bind, DMat.mul_smul_right, DMat.mul_smul_left, DMat.add_smul, Option.bind_map', Option.map_bind']

theorem kalmanGain_smul {l : ℝ} (hl : l ≠ 0) (c C R : DMat) : kalmanGain (c.smul l) C (R.smul l) = kalmanGain c C R := by
  unfold kalmanGain
  simp only [Option.bind_eq_bind, DMat.mul_smul_right, DMat.mul_smul_left, DMat.add_smul, Option.bind_map', DMat.inverse_smul hl]
  refine Option.bind_congr fun a _ => Option.bind_congr fun b _ => Option.bind_congr fun d _ => Option.bind_congr fun e _ => ?_
  rw [Option.map_map]
  have : (DMat.smul l ∘ DMat.smul l⁻¹) = id := by
    funext A
    show (A.smul l⁻¹).smul l = A
    rw [DMat.smul_smul, mul_inv_cancel₀ hl, DMat.one_smul]
  rw [this, Option.map_id]; rfl

theorem shrinkCov_smul (l : ℝ) (n : Nat) (K C c : DMat) : shrinkCov n K C (c.smul l) = (shrinkCov n K C c).map (DMat.smul l) := by
  unfold shrinkCov
  simp only [Option.bind_eq_bind, DMat.mul_smul_right, Option.map_bind']

theorem bind_scaled {α β : Type} {g : β → β} {o : Option α} {F F' : α → Option β} (h : ∀ a, F' a = (F a).map g) :
    o.bind F' = (o.bind F).map g := by
  cases o
  · rfl
  · exact h _

theorem map_bind_scaled {α β : Type} {g : β → β} {m : α → α} {o o' : Option α} {F F' : α → Option β} (ho : o' = o.map m)
    (h : ∀ a, F' (m a) = (F a).map g) : o'.bind F' = (o.bind F).map g := by
  subst ho
  cases o
  · rfl
  · exact h _

/-! ### Subsets -/

theorem getSubsetSq_smul (l : ℝ) (A : DMat) (map : List Nat) :
    getSubsetSq (A.smul l) map = (getSubsetSq A map).map (DMat.smul l) := by
  unfold getSubsetSq
  by_cases hm : (!map.isEmpty) = true
  · rw [if_pos hm, if_pos hm]
    by_cases h : ∀ (i j : Fin map.length), mapAt map i < A.rows ∧ mapAt map j < A.cols
    · rw [dif_pos h, dif_pos (show ∀ (i j : Fin map.length), mapAt map i < (A.smul l).rows ∧ mapAt map j < (A.smul l).cols from h)]
      rfl
    · rw [dif_neg h, dif_neg (show ¬ ∀ (i j : Fin map.length), mapAt map i < (A.smul l).rows ∧ mapAt map j < (A.smul l).cols from h)]
      rfl
  · rw [if_neg hm, if_neg hm]; rfl

theorem DMat.get?_smul (l : ℝ) (A : DMat) (i j : Nat) : (A.smul l).get? i j = (A.get? i j).map (l * ·) := by
  unfold DMat.get?
  by_cases h : i < A.rows ∧ j < A.cols
  · rw [dif_pos h, dif_pos (show i < (A.smul l).rows ∧ j < (A.smul l).cols from h)]; rfl
  · rw [dif_neg h, dif_neg (show ¬ (i < (A.smul l).rows ∧ j < (A.smul l).cols) from h)]; rfl

theorem DMat.set?_smul (l : ℝ) (A : DMat) (i j : Nat) (v : ℝ) : (A.smul l).set? i j (l * v) = (A.set? i j v).map (DMat.smul l) := by
  unfold DMat.set?
  by_cases h : i < A.rows ∧ j < A.cols
  · rw [if_pos h, if_pos (show i < (A.smul l).rows ∧ j < (A.smul l).cols from h)]
    simp only [Option.map_some, smul, Option.some.injEq]
    congr 1
    funext a b
    show (if _ then l * v else l * A.val a b) = l * (if _ then v else A.val a b)
    split <;> rfl
  · rw [if_neg h, if_neg (show ¬ (i < (A.smul l).rows ∧ j < (A.smul l).cols) from h)]; rfl

theorem writeRow_smul (l : ℝ) (S : DMat) (i row : Nat) (cs : List Nat) :
    ∀ j F, writeRow (S.smul l) i row j cs (F.smul l) = (writeRow S i row j cs F).map (DMat.smul l) := by
  induction cs with
  | nil => intro j F; rfl
  | cons c cs ih =>
    intro j F
    unfold writeRow
    simp only [Option.bind_eq_bind, DMat.get?_smul, Option.bind_map', Option.map_bind', DMat.set?_smul, ih]

theorem writeMat_smul (l : ℝ) (S : DMat) (cols : List Nat) (rs : List Nat) :
    ∀ i F, writeMat (S.smul l) cols i rs (F.smul l) = (writeMat S cols i rs F).map (DMat.smul l) := by
  induction rs with
  | nil => intro i F; rfl
  | cons r rs ih =>
    intro i F
    unfold writeMat
    simp only [Option.bind_eq_bind, writeRow_smul, Option.bind_map', Option.map_bind', ih]

theorem convertSubsetToFullSq_smul (l : ℝ) (S F : DMat) (map : List Nat) :
    convertSubsetToFullSq (S.smul l) (F.smul l) map = (convertSubsetToFullSq S F map).map (DMat.smul l) := by
  unfold convertSubsetToFullSq
  by_cases hm : (!map.isEmpty) = true
  · rw [if_pos hm, if_pos hm, writeMat_smul]
  · rw [if_neg hm, if_neg hm]; rfl

/-! ### The filters -/

variable {T K X Y Z DS XS DM XM : Type}

theorem Sys.update_scaled {D : Type} {sc : SysClass T D X} (h : sc.BlindToNoise) (l : ℝ) (s : Sys D X) (x u : DVec) (dt : T) :
    (s.scaled l).update sc x u dt = (s.update sc x u dt).map (Sys.scaled l) := by
  unfold Sys.update
  by_cases hd : x.size = s.stateSize ∧ u.size = s.controlDims
  · rw [if_pos hd, if_pos (show x.size = (s.scaled l).stateSize ∧ u.size = (s.scaled l).controlDims from hd)]
    exact h.update l s x u dt
  · rw [if_neg hd, if_neg (show ¬ (x.size = (s.scaled l).stateSize ∧ u.size = (s.scaled l).controlDims) from hd)]; rfl

theorem Meas.update_scaled {D : Type} {mc : MeasClass T D Y} (h : mc.BlindToNoise) (l : ℝ) (m : Meas D Y) (x : DVec) (dt : T) :
    (m.scaled l).update mc x dt = (m.update mc x dt).map (Meas.scaled l) := by
  unfold Meas.update
  by_cases hd : x.size = m.stateSize
  · rw [if_pos hd, if_pos (show x.size = (m.scaled l).stateSize from hd)]
    exact h.update l m x dt
  · rw [if_neg hd, if_neg (show ¬ (x.size = (m.scaled l).stateSize) from hd)]; rfl

/-- the result with its covariance multiplied and the models replaced -/
noncomputable def scaledR (l : ℝ) {Z : Type} (f : Z → Z) (r : DVec × DMat × Z) : DVec × DMat × Z := (r.1, r.2.1.smul l, f r.2.2)

theorem kfPredict_scaled {sc : SysClass T LinSysData X} (h : sc.BlindToNoise) (l : ℝ) (s : Sys LinSysData X) (x : DVec) (c : DMat)
    (u : DVec) (dt : T) (b b' : Sys LinSysData X → Z) (f : Z → Z) (hb : ∀ s, b' (s.scaled l) = f (b s)) :
    kfPredict sc (s.scaled l) x (c.smul l) u dt b' = (kfPredict sc s x c u dt b).map (scaledR l f) := by
  unfold kfPredict
  simp only [Option.bind_eq_bind, Sys.update_scaled h, Option.bind_map', Option.map_bind', h.add]
  refine Option.bind_congr fun s _ => Option.bind_congr fun a _ => Option.bind_congr fun b _ => Option.bind_congr fun d _ => ?_
  have := propagateCov_smul l s.der.A c s.P s.Rp s.V s.Rc
  show (propagateCov s.der.A (c.smul l) s.P (s.Rp.smul l) s.V (s.Rc.smul l)).bind _ = _
  rw [this, Option.bind_map']
  refine Option.bind_congr fun e _ => ?_
  rw [hb]; rfl

theorem ekfPredict_scaled {sc : SysClass T NonlinSysData X} (h : sc.BlindToNoise) (l : ℝ) (s : Sys NonlinSysData X) (x : DVec) (c : DMat)
    (u : DVec) (dt : T) (b b' : Sys NonlinSysData X → Z) (f : Z → Z) (hb : ∀ s, b' (s.scaled l) = f (b s)) :
    ekfPredict sc (s.scaled l) x (c.smul l) u dt b' = (ekfPredict sc s x c u dt b).map (scaledR l f) := by
  unfold ekfPredict
  simp only [Option.bind_eq_bind, Sys.update_scaled h, Option.bind_map', Option.map_bind']
  refine Option.bind_congr fun s _ => ?_
  have := propagateCov_smul l s.der.G c s.P s.Rp s.V s.Rc
  show (propagateCov s.der.G (c.smul l) s.P (s.Rp.smul l) s.V (s.Rc.smul l)).bind _ = _
  rw [this, Option.bind_map']
  refine Option.bind_congr fun e _ => ?_
  rw [hb]; rfl

theorem kfCorrect_scaled {sc : SysClass T LinSysData X} (h : sc.BlindToNoise) {mc : MeasClass T LinMeasData Y} (hm : mc.BlindToNoise)
    {l : ℝ} (hl : l ≠ 0) (s : Sys LinSysData X) (m : Meas LinMeasData Y) (x : DVec) (c : DMat)
    (z : DVec) (dt : T) (b b' : Meas LinMeasData Y → Z) (f : Z → Z) (hb : ∀ s, b' (s.scaled l) = f (b s)) :
    kfCorrect sc mc (s.scaled l) (m.scaled l) x (c.smul l) z dt b' = (kfCorrect sc mc s m x c z dt b).map (scaledR l f) := by
  unfold kfCorrect
  simp (maxSteps := 2000000) only [Option.bind_eq_bind, Meas.update_scaled hm, Option.bind_map', Option.map_bind', h.add, hm.sub]
  refine Option.bind_congr fun m _ => ?_
  show (kalmanGain (c.smul l) m.der.C (m.cov.smul l)).bind _ = _
  rw [kalmanGain_smul hl]
  refine Option.bind_congr fun G _ => Option.bind_congr fun a _ => Option.bind_congr fun b _ => Option.bind_congr fun d _ =>
    Option.bind_congr fun d _ => ?_
  show (shrinkCov x.size G m.der.C (c.smul l)).bind _ = _
  rw [shrinkCov_smul, Option.bind_map']
  refine Option.bind_congr fun e _ => ?_
  rw [hb]; rfl

theorem ekfCorrect_scaled {sc : SysClass T NonlinSysData X} (h : sc.BlindToNoise) {mc : MeasClass T NonlinMeasData Y}
    (hm : mc.BlindToNoise) {l : ℝ} (hl : l ≠ 0) (s : Sys NonlinSysData X) (m : Meas NonlinMeasData Y) (x : DVec) (c : DMat)
    (z : DVec) (dt : T) (b b' : Meas NonlinMeasData Y → Z) (f : Z → Z) (hb : ∀ s, b' (s.scaled l) = f (b s)) :
    ekfCorrect sc mc (s.scaled l) (m.scaled l) x (c.smul l) z dt b' = (ekfCorrect sc mc s m x c z dt b).map (scaledR l f) := by
  unfold ekfCorrect
  simp (maxSteps := 2000000) only [Option.bind_eq_bind, Meas.update_scaled hm, Option.bind_map', Option.map_bind', h.add, hm.sub]
  refine Option.bind_congr fun m _ => ?_
  show (kalmanGain (c.smul l) m.der.H (m.cov.smul l)).bind _ = _
  rw [kalmanGain_smul hl]
  refine Option.bind_congr fun G _ => Option.bind_congr fun a _ => Option.bind_congr fun b _ => Option.bind_congr fun d _ => ?_
  show (shrinkCov x.size G m.der.H (c.smul l)).bind _ = _
  rw [shrinkCov_smul, Option.bind_map']
  refine Option.bind_congr fun e _ => ?_
  rw [hb]; rfl

theorem kfvsPredict_scaled {sc : SysClass T LinSysData X} (h : sc.BlindToNoise) (l : ℝ) (s : Sys LinSysData X) (x : DVec) (c : DMat)
    (u : DVec) (dt : T) (b b' : Sys LinSysData X → Z) (f : Z → Z) (hb : ∀ s, b' (s.scaled l) = f (b s)) :
    kfvsPredict sc (s.scaled l) x (c.smul l) u dt b' = (kfvsPredict sc s x c u dt b).map (scaledR l f) := by
  unfold kfvsPredict
  refine map_bind_scaled (m := Sys.scaled l) (Sys.update_scaled h l s x u dt) fun s => ?_
  refine bind_scaled (o := getSubset x s.activeStates) fun xS => bind_scaled (o := getSubset u s.activeControls) fun uS => ?_
  refine map_bind_scaled (m := DMat.smul l) (getSubsetSq_smul l c s.activeStates) fun cS => ?_
  refine bind_scaled (o := getSubsetSq s.der.A s.activeStates) fun AS =>
    bind_scaled (o := getSubset2 s.der.B s.activeStates s.activeControls) fun BS => ?_
  refine map_bind_scaled (m := DMat.smul l) (getSubsetSq_smul l s.Rc s.activeControls) fun RS => ?_
  refine bind_scaled (o := getSubset2 s.P s.activeStates []) fun PS =>
    bind_scaled (o := getSubset2 s.V s.activeStates s.activeControls) fun VS => ?_
  refine bind_scaled fun a => bind_scaled fun b => bind_scaled (o := convertSubsetToFullZeroed a s.activeStates s.stateSize) fun a' =>
    bind_scaled (o := convertSubsetToFullZeroed b s.activeStates s.stateSize) fun b' => ?_
  rw [h.add]
  refine bind_scaled fun x' => ?_
  refine map_bind_scaled (m := DMat.smul l) (propagateCov_smul l AS cS PS s.Rp VS RS) fun e => ?_
  refine map_bind_scaled (m := DMat.smul l) (convertSubsetToFullSq_smul l e c s.activeStates) fun e => ?_
  rw [hb]; rfl

theorem ekfvsPredict_scaled {sc : SysClass T NonlinSysData X} (h : sc.BlindToNoise) (l : ℝ) (s : Sys NonlinSysData X) (x : DVec)
    (c : DMat) (u : DVec) (dt : T) (b b' : Sys NonlinSysData X → Z) (f : Z → Z) (hb : ∀ s, b' (s.scaled l) = f (b s)) :
    ekfvsPredict sc (s.scaled l) x (c.smul l) u dt b' = (ekfvsPredict sc s x c u dt b).map (scaledR l f) := by
  unfold ekfvsPredict
  simp only [Option.bind_eq_bind, Sys.update_scaled h, Option.bind_map', Option.map_bind', getSubsetSq_smul]
  refine Option.bind_congr fun s _ => Option.bind_congr fun cS _ => Option.bind_congr fun GS _ => ?_
  show (getSubsetSq (s.Rc.smul l) s.activeControls).bind _ = _
  rw [getSubsetSq_smul, Option.bind_map']
  refine Option.bind_congr fun RS _ => Option.bind_congr fun PS _ => Option.bind_congr fun VS _ => ?_
  show (propagateCov GS (cS.smul l) PS (s.Rp.smul l) VS (RS.smul l)).bind _ = _
  rw [propagateCov_smul, Option.bind_map']
  refine Option.bind_congr fun e _ => ?_
  show (convertSubsetToFullSq (e.smul l) (c.smul l) s.activeStates).bind _ = _
  rw [convertSubsetToFullSq_smul, Option.bind_map']
  refine Option.bind_congr fun e _ => ?_
  rw [hb]; rfl

theorem kfvsCorrect_scaled {sc : SysClass T LinSysData X} (h : sc.BlindToNoise) {mc : MeasClass T LinMeasData Y} (hm : mc.BlindToNoise)
    {l : ℝ} (hl : l ≠ 0) (s : Sys LinSysData X) (m : Meas LinMeasData Y) (x : DVec) (c : DMat)
    (z : DVec) (dt : T) (b b' : Meas LinMeasData Y → Z) (f : Z → Z) (hb : ∀ s, b' (s.scaled l) = f (b s)) :
    kfvsCorrect sc mc (s.scaled l) (m.scaled l) x (c.smul l) z dt b' = (kfvsCorrect sc mc s m x c z dt b).map (scaledR l f) := by
  unfold kfvsCorrect
  simp (maxSteps := 2000000) only [Option.bind_eq_bind, Meas.update_scaled hm, Option.bind_map', Option.map_bind', h.add, hm.sub]
  refine Option.bind_congr fun m _ => ?_
  show (getSubset x s.activeStates).bind _ = _
  refine Option.bind_congr fun xS _ => ?_
  show (getSubsetSq (c.smul l) s.activeStates).bind _ = _
  rw [getSubsetSq_smul, Option.bind_map']
  refine Option.bind_congr fun cS _ => ?_
  show (getSubset2 m.der.C m.activeMeasurements s.activeStates).bind _ = _
  refine Option.bind_congr fun CS _ => ?_
  show (getSubsetSq (m.cov.smul l) m.activeMeasurements).bind _ = _
  rw [getSubsetSq_smul, Option.bind_map']
  refine Option.bind_congr fun RS _ => ?_
  show (kalmanGain (cS.smul l) CS (RS.smul l)).bind _ = _
  rw [kalmanGain_smul hl]
  refine Option.bind_congr fun G _ => Option.bind_congr fun a _ => Option.bind_congr fun b _ => Option.bind_congr fun d _ =>
    Option.bind_congr fun d _ => Option.bind_congr fun d _ => Option.bind_congr fun d _ => Option.bind_congr fun d _ => ?_
  show (shrinkCov cS.rows G CS (cS.smul l)).bind _ = _
  rw [shrinkCov_smul, Option.bind_map']
  refine Option.bind_congr fun e _ => ?_
  show (convertSubsetToFullSq (e.smul l) (c.smul l) s.activeStates).bind _ = _
  rw [convertSubsetToFullSq_smul, Option.bind_map']
  refine Option.bind_congr fun e _ => ?_
  rw [hb]; rfl

theorem ekfvsCorrect_scaled {sc : SysClass T NonlinSysData X} (h : sc.BlindToNoise) {mc : MeasClass T NonlinMeasData Y}
    (hm : mc.BlindToNoise) {l : ℝ} (hl : l ≠ 0) (s : Sys NonlinSysData X) (m : Meas NonlinMeasData Y) (x : DVec) (c : DMat)
    (z : DVec) (dt : T) (b b' : Meas NonlinMeasData Y → Z) (f : Z → Z) (hb : ∀ s, b' (s.scaled l) = f (b s)) :
    ekfvsCorrect sc mc (s.scaled l) (m.scaled l) x (c.smul l) z dt b' = (ekfvsCorrect sc mc s m x c z dt b).map (scaledR l f) := by
  unfold ekfvsCorrect
  simp (maxSteps := 2000000) only [Option.bind_eq_bind, Meas.update_scaled hm, Option.bind_map', Option.map_bind', h.add, hm.sub]
  refine Option.bind_congr fun m _ => ?_
  show (getSubsetSq (c.smul l) s.activeStates).bind _ = _
  rw [getSubsetSq_smul, Option.bind_map']
  refine Option.bind_congr fun cS _ => ?_
  show (getSubset2 m.der.H m.activeMeasurements s.activeStates).bind _ = _
  refine Option.bind_congr fun CS _ => ?_
  show (getSubsetSq (m.cov.smul l) m.activeMeasurements).bind _ = _
  rw [getSubsetSq_smul, Option.bind_map']
  refine Option.bind_congr fun RS _ => ?_
  show (kalmanGain (cS.smul l) CS (RS.smul l)).bind _ = _
  rw [kalmanGain_smul hl]
  refine Option.bind_congr fun G _ => Option.bind_congr fun a _ => Option.bind_congr fun b _ => Option.bind_congr fun d _ =>
    Option.bind_congr fun d _ => Option.bind_congr fun d _ => ?_
  show (shrinkCov cS.rows G CS (cS.smul l)).bind _ = _
  rw [shrinkCov_smul, Option.bind_map']
  refine Option.bind_congr fun e _ => ?_
  show (convertSubsetToFullSq (e.smul l) (c.smul l) s.activeStates).bind _ = _
  rw [convertSubsetToFullSq_smul, Option.bind_map']
  refine Option.bind_congr fun e _ => ?_
  rw [hb]; rfl

/-! ### Every call -/

section plant
variable [DecidableEq K] [TimeOps T]

theorem dvec_empty_eq {a b : DVec} (ha : a.size = 0) (hb : b.size = 0) : a = b := by
  obtain ⟨n, a⟩ := a
  obtain ⟨m, b⟩ := b
  dsimp only at ha hb
  subst ha hb
  congr 1
  funext i
  exact i.elim0

theorem Env.setMeas_scaled (l : ℝ) (e : Env K DS XS DM XM) (k : K) (m : Meas DM XM) :
    (e.scaled l).setMeas k (m.scaled l) = (e.setMeas k m).scaled l := by
  unfold Env.setMeas Env.scaled
  congr 1
  funext j
  dsimp only
  split <;> rfl

theorem OptRel.of_map {α β : Type} {R : α → β → Prop} {a : Option α} {b : Option β} {f : α → β} (h : b = a.map f)
    (hR : ∀ x, a = Option.some x → R x (f x)) : OptRel False R a b := by
  subst h
  cases a
  · exact not_false
  · exact hR _ rfl

theorem mkPlant_scaled {l : ℝ} {sc : SysClass T DS XS} (hsc : sc.BlindToNoise) {mc : K → MeasClass T DM XM}
    (hmc : ∀ k, (mc k).BlindToNoise) {pr co}
    (hpr : ∀ e x c u dt, pr (Env.scaled l e) x (c.smul l) u dt = (pr e x c u dt).map (scaledR l (Env.scaled l)))
    (hpr' : ∀ e x c u dt r, pr e x c u dt = some r → r.2.2.sys.fm = e.sys.fm ∧ r.2.2.meas = e.meas)
    (hco : ∀ e x c z k dt, co (Env.scaled l e) x (c.smul l) z k dt = (co e x c z k dt).map (scaledR l (Env.scaled l)))
    (hco' : ∀ e x c z k dt r, co e x c z k dt = some r → r.2.2.sys = e.sys ∧ ∀ j, (r.2.2.meas j).fm = (e.meas j).fm) :
    PlantRel (mkPlant sc mc pr co) (mkPlant sc mc pr co) False (fun x c x' c' => x' = x ∧ c' = c.smul l)
      (fun e e' => e' = e.scaled l ∧ e.Homogeneous l) (fun u u' => u' = u) (fun R R' => R' = R.smul l)
      (fun z R z' R' _ => z' = z ∧ R' = R.smul l) where
  empty := rfl
  empty' := rfl
  rc := by rintro e _ ⟨rfl, _⟩; rfl
  zero := by rintro e _ ⟨rfl, _⟩; rfl
  setRc := by
    rintro e _ c _ ⟨rfl, he⟩ rfl
    refine OptRel.of_map (f := Env.scaled l) ?_ ?_
    · show (((e.scaled l).sys).setControlCovariance (c.smul l)).map _ = ((e.sys.setControlCovariance c).map _).map _
      unfold Sys.setControlCovariance
      by_cases h : c.rows = e.sys.controlDims ∧ c.cols = e.sys.controlDims
      · rw [if_pos h, if_pos (show (c.smul l).rows = (e.scaled l).sys.controlDims ∧ (c.smul l).cols = (e.scaled l).sys.controlDims from h)]
        rfl
      · rw [if_neg h, if_neg (show ¬ ((c.smul l).rows = (e.scaled l).sys.controlDims ∧ (c.smul l).cols = (e.scaled l).sys.controlDims) from h)]
        rfl
    · intro e' h
      refine ⟨rfl, ?_⟩
      obtain ⟨s, hs, rfl⟩ := Option.map_eq_some_iff.mp h
      unfold Sys.setControlCovariance at hs
      split at hs
      · injection hs with hs; subst hs; exact he
      · cases hs
  sysSt := by
    rintro e _ _ c x _ d d' ⟨rfl, he⟩ ⟨rfl, rfl⟩ hd
    have : d' = d := by
      rcases hd with ⟨_, _, h⟩ | ⟨h, h'⟩
      · exact h
      · exact (dvec_empty_eq h' h)
    subst this
    rfl
  predict := by
    rintro e _ _ c x _ _ u dt ⟨rfl, he⟩ ⟨rfl, rfl⟩ rfl
    refine OptRel.of_map (hpr e x c u dt) fun r hr => ⟨⟨rfl, rfl⟩, rfl, ?_⟩
    obtain ⟨h1, h2⟩ := hpr' _ _ _ _ _ _ hr
    exact ⟨by rw [h1]; exact he.1, by rw [h2]; exact he.2⟩
  sysStationary := by
    rintro e _ _ c x _ d d' ⟨rfl, he⟩ ⟨rfl, rfl⟩ hd -
    have : d' = d := by
      rcases hd with ⟨_, _, h⟩ | ⟨h, h'⟩
      · exact h
      · exact (dvec_empty_eq h' h)
    subst this
    refine OptRel.of_map (f := Env.scaled l) ?_ ?_
    · show (sc.processStationary (e.sys.scaled l) x d').map _ = ((sc.processStationary e.sys x d').map _).map _
      rw [hsc.stationary, Option.map_map, Option.map_map]; rfl
    · intro e' h
      obtain ⟨s, hs, rfl⟩ := Option.map_eq_some_iff.mp h
      have hf := hsc.stationaryFm _ _ _ _ hs
      refine ⟨⟨rfl, by show s.fm.Homogeneous l; rw [hf]; exact he.1, he.2⟩, ?_⟩
      refine OptRel.of_map (f := fun r => (r.1, r.2.smul l)) ?_ fun r _ => ⟨rfl, rfl⟩
      show s.fm.makeStationary x (c.smul l) = (s.fm.makeStationary x c).map _
      rw [hf]; exact he.1 x c
  setMeasCov := by
    rintro e _ k _ R z _ ⟨rfl, he⟩ ⟨rfl, rfl⟩
    refine OptRel.of_map (f := Env.scaled l) ?_ ?_
    · show (((e.scaled l).meas k).setCovariance (R.smul l)).map _ = (((e.meas k).setCovariance R).map _).map _
      unfold Meas.setCovariance
      by_cases h : R.rows = (e.meas k).measDims ∧ R.cols = (e.meas k).measDims
      · rw [if_pos h, if_pos (show (R.smul l).rows = ((e.scaled l).meas k).measDims ∧ (R.smul l).cols = ((e.scaled l).meas k).measDims from h)]
        exact congrArg some (Env.setMeas_scaled l e k { e.meas k with cov := R })
      · rw [if_neg h, if_neg (show ¬ ((R.smul l).rows = ((e.scaled l).meas k).measDims ∧ (R.smul l).cols = ((e.scaled l).meas k).measDims) from h)]
        rfl
    · intro e1 h
      have hfm : ∀ j, (e1.meas j).fm = (e.meas j).fm := by
        obtain ⟨s, hs, rfl⟩ := Option.map_eq_some_iff.mp h
        unfold Meas.setCovariance at hs
        split at hs
        · injection hs with hs
          subst hs
          intro j
          unfold Env.setMeas
          dsimp only
          split
          next hj => subst hj; rfl
          next => rfl
        · cases hs
      have hsys : e1.sys = e.sys := by
        obtain ⟨s, hs, rfl⟩ := Option.map_eq_some_iff.mp h
        rfl
      have he1 : e1.Homogeneous l := ⟨by rw [hsys]; exact he.1, fun j => by rw [hfm]; exact he.2 j⟩
      refine ⟨⟨rfl, he1⟩, ?_, ?_, ?_⟩
      · rintro _ p x _ ⟨rfl, rfl⟩; rfl
      · rintro _ p x _ dt ⟨rfl, rfl⟩
        refine OptRel.of_map (hco e1 x p z k dt) fun r hr => ⟨⟨rfl, rfl⟩, rfl, ?_⟩
        obtain ⟨h1, h2⟩ := hco' _ _ _ _ _ _ _ hr
        exact ⟨by rw [h1]; exact he1.1, fun j => by rw [h2]; exact he1.2 j⟩
      · rintro _ p x _ ⟨rfl, rfl⟩ -
        refine OptRel.of_map (f := Env.scaled l) ?_ ?_
        · show ((mc k).processStationary ((e1.meas k).scaled l) x z).map _ = (((mc k).processStationary (e1.meas k) x z).map _).map _
          rw [(hmc k).stationary, Option.map_map, Option.map_map]
          congr 1
          funext m
          exact Env.setMeas_scaled l e1 k m
        · intro e2 h2
          obtain ⟨m, hm, rfl⟩ := Option.map_eq_some_iff.mp h2
          have hf := (hmc k).stationaryFm _ _ _ _ hm
          have he2 : (e1.setMeas k m).Homogeneous l := by
            refine ⟨he1.1, fun j => ?_⟩
            unfold Env.setMeas
            dsimp only
            split
            next hj => subst hj; rw [hf]; exact he1.2 j
            next => exact he1.2 j
          refine ⟨⟨rfl, he2⟩, ?_⟩
          exact OptRel.of_map (f := fun r => (r.1, r.2.smul l)) (he2.2 k x p) fun r _ => ⟨rfl, rfl⟩

end plant

end StateEstimation
