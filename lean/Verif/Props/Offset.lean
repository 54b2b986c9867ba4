import Verif.Spec.Offset
import Verif.Lemmas.PlantRel
import Verif.Lemmas.UKFUnits
import Verif.Lemmas.Part
import Verif.Lemmas.Uninit
import Verif.Props.DataFree
import Verif.Props.Unscented

/-!
# C141: a constant offset of a sensor
-/

set_option linter.unusedSectionVars false

namespace StateEstimation
namespace Props

open Offset

variable {T K X Y : Type}

section algebra

variable {d : Nat → ℝ}

/-- the columns in `C` have the offset -/
private def On (d : Nat → ℝ) (C : Nat → Prop) (A B : DMat) : Prop :=
  B.rows = A.rows ∧ B.cols = A.cols ∧ ∀ i j (hi : i < A.rows) (hj : j < A.cols) (hi' : i < B.rows) (hj' : j < B.cols), C j →
    B.val ⟨i, hi'⟩ ⟨j, hj'⟩ = A.val ⟨i, hi⟩ ⟨j, hj⟩ + d i

private theorem On.mono {C D : Nat → Prop} {A B : DMat} (h : On d C A B) (hd : ∀ j, D j → C j) : On d D A B :=
  ⟨h.1, h.2.1, fun i j hi hj hi' hj' hD => h.2.2 i j hi hj hi' hj' (hd j hD)⟩

private theorem On.eq {C : Nat → Prop} {A B : DMat} (h : On d C A B) (hc : ∀ j < A.cols, C j) : B = shiftCols d A := by
  obtain ⟨r, c, a⟩ := A
  obtain ⟨r', c', b⟩ := B
  obtain ⟨h1, h2, h3⟩ := h
  dsimp only at h1 h2 hc
  subst h1 h2
  unfold shiftCols
  congr 1
  funext i j
  exact h3 i j i.2 j.2 i.2 j.2 (hc j j.2)

private theorem On.col {C : Nat → Prop} {A B : DMat} (h : On d C A B) (j : Nat) (hj : C j) :
    OptRel False (fun a b => b = shift d a) (A.col? j) (B.col? j) := by
  obtain ⟨r, c, a⟩ := A
  obtain ⟨r', c', b⟩ := B
  obtain ⟨h1, h2, h3⟩ := h
  dsimp only at h1 h2
  subst h1 h2
  unfold DMat.col?
  dsimp only
  by_cases hjc : j < c'
  · rw [dif_pos hjc, dif_pos hjc]
    show _ = shift d _
    unfold shift
    congr 1
    funext i
    exact h3 i j i.2 hjc i.2 hjc hj
  · rw [dif_neg hjc, dif_neg hjc]; exact not_false

private theorem On.setCol {C : Nat → Prop} {A B : DMat} (h : On d C A B) (j : Nat) (v : DVec) :
    OptRel False (fun A' B' => On d (fun i => C i ∨ i = j) A' B' ∧ A'.cols = A.cols) (A.setCol? j v) (B.setCol? j (shift d v)) := by
  obtain ⟨r, c, a⟩ := A
  obtain ⟨r', c', b⟩ := B
  obtain ⟨h1, h2, h3⟩ := h
  dsimp only at h1 h2
  subst h1 h2
  unfold DMat.setCol?
  dsimp only
  by_cases hj : j < c' ∧ r' = v.size
  · rw [dif_pos hj, dif_pos (show j < c' ∧ r' = (shift d v).size from hj)]
    refine ⟨⟨rfl, rfl, fun i l hi hl hi' hl' hC => ?_⟩, rfl⟩
    dsimp only
    by_cases hlj : l = j
    · rw [if_pos hlj, if_pos hlj]; rfl
    · rw [if_neg hlj, if_neg hlj]; exact h3 i l hi hl hi' hl' (hC.resolve_right hlj)
  · rw [dif_neg hj, dif_neg (show ¬ (j < c' ∧ r' = (shift d v).size) from hj)]; exact not_false

private theorem on_none (A : DMat) : On d (fun _ => False) A A := ⟨rfl, rfl, fun _ _ _ _ _ _ h => h.elim⟩

private theorem covLoop_congr (w : DVec) {f f' : Nat → Option (DVec × DVec)} (h : ∀ i, f i = f' i) (fuel i : Nat) (acc : DMat) :
    covLoop w f fuel i acc = covLoop w f' fuel i acc := by rw [funext h]

private theorem shiftCols_col (A : DMat) (j : Nat) : OptRel False (fun a b => b = shift d a) (A.col? j) ((shiftCols d A).col? j) :=
  On.col (C := fun _ => True) (A := A) (B := shiftCols d A) (d := d) ⟨rfl, rfl, fun _ _ _ _ _ _ _ => rfl⟩ j trivial

end algebra

section models

variable {n l np : Nat} {d : Nat → ℝ}

private theorem sysUpdate_rel {sc : SysClass T NonlinSysData X} (hsc : SysCarries n l np d sc) {s s' : Sys NonlinSysData X}
    (hs : SysSame n l np s s') (x : DVec) (u : DVec) (dt : T) :
    OptRel False (fun r r' => SysSame n l np r r' ∧ r'.der.g = shift d r.der.g) (s.update sc x u dt) (s'.update sc (shift d x) u dt) := by
  have e1 : s'.stateSize = s.stateSize := by rw [hs.same]; rfl
  have e2 : s'.controlDims = s.controlDims := by rw [hs.same]
  unfold Sys.update
  rw [e1, e2, show (shift d x).size = x.size from rfl]
  split
  next h => exact OptRel.of_units (hsc.update s s' x u dt hs (h.1.trans hs.states))
  · exact not_false

private theorem measUpdate_rel {k : Nat} {ext : Y} {δ : Nat → ℝ} {mc : MeasClass T NonlinMeasData Y} (hmc : MeasCarries n k ext d δ mc)
    {s s' : Meas NonlinMeasData Y} (hs : MeasSame n k ext s s') (x : DVec) (dt : T) :
    OptRel False (fun r r' => MeasSame n k ext r r' ∧ r'.der.h = shift δ r.der.h) (s.update mc x dt) (s'.update mc (shift d x) dt) := by
  have e1 : s'.stateSize = s.stateSize := by rw [hs.same]; rfl
  unfold Meas.update
  rw [e1, show (shift d x).size = x.size from rfl]
  split
  next h => exact OptRel.of_units (hmc.update s s' x dt hs (h.trans hs.states))
  · exact not_false

private theorem ekfPredict_rel {Z : Type} {RZ : Z → Z → Prop} {sc : SysClass T NonlinSysData X} (hsc : SysCarries n l np d sc)
    {s s' : Sys NonlinSysData X} (hs : SysSame n l np s s') (x : DVec) (c : DMat) (u : DVec) (dt : T)
    {b b' : Sys NonlinSysData X → Z} (hb : ∀ s s', SysSame n l np s s' → RZ (b s) (b' s')) :
    OptRel False (fun r q => (q.1 = shift d r.1 ∧ r.2.1 = q.2.1) ∧ RZ r.2.2 q.2.2) (ekfPredict sc s x c u dt b)
      (ekfPredict sc s' (shift d x) c u dt b') := by
  unfold ekfPredict
  simp only [Option.bind_eq_bind]
  refine OptRel.bind (sysUpdate_rel hsc hs x u dt) fun s s' hs => ?_
  obtain ⟨hs, hg⟩ := hs
  have e : propagateCov s'.der.G c s'.P s'.Rp s'.V s'.Rc = propagateCov s.der.G c s.P s.Rp s.V s.Rc := by
    rw [hs.G, hs.same]
  rw [e]
  exact OptRel.refl_map _ _ _ fun c' => ⟨⟨hg, rfl⟩, hb _ _ hs⟩

private theorem ekfCorrect_rel {Z : Type} {RZ : Z → Z → Prop} {sc : SysClass T NonlinSysData X} (hsc : SysCarries n l np d sc)
    {k : Nat} {ext : Y} {δ : Nat → ℝ} {mc : MeasClass T NonlinMeasData Y} (hmc : MeasCarries n k ext d δ mc) {s s' : Sys NonlinSysData X}
    (hs : SysSame n l np s s') {m m' : Meas NonlinMeasData Y} (hm : MeasSame n k ext m m') (x : DVec) (c : DMat) (z : DVec) (dt : T)
    {b b' : Meas NonlinMeasData Y → Z} (hb : ∀ s s', MeasSame n k ext s s' → RZ (b s) (b' s')) :
    OptRel False (fun r q => (q.1 = shift d r.1 ∧ r.2.1 = q.2.1) ∧ RZ r.2.2 q.2.2) (ekfCorrect sc mc s m x c z dt b)
      (ekfCorrect sc mc s' m' (shift d x) c (shift δ z) dt b') := by
  unfold ekfCorrect
  simp only [Option.bind_eq_bind]
  refine OptRel.bind (measUpdate_rel hmc hm x dt) fun m m' hm => ?_
  obtain ⟨hm, hh⟩ := hm
  have e : kalmanGain c m'.der.H m'.cov = kalmanGain c m.der.H m.cov := by
    rw [hm.H, hm.same]
  rw [e]
  refine OptRel.refl_map _ _ _ fun G => ?_
  rw [hh, hmc.sub m m' z m.der.h hm]
  refine OptRel.refl_map _ _ _ fun dz => ?_
  refine OptRel.refl_map _ _ _ fun dx => ?_
  refine OptRel.bind (OptRel.of_units (hsc.add s s' x dx hs)) fun y y' hy => ?_
  rw [hm.H, show (shift d x).size = x.size from rfl]
  exact OptRel.refl_map _ _ _ fun c' => ⟨⟨hy, rfl⟩, hb _ _ hm⟩

private theorem predictLoop_rel {sc : SysClass T NonlinSysData X} (hsc : SysCarries n l np d sc) (hsa : SysAverages n l np d sc) (L : DMat) (x : DVec)
    (u : DVec) (dt : T) (fuel : Nat) : ∀ (i : Nat) (s s' : Sys NonlinSysData X) (p p' : DMat), i + fuel = n → SysSame n l np s s' →
      On d (written n i) p p' → OptRel False (fun r q => SysSame n l np r.1 q.1 ∧ On d (written n n) r.2 q.2 ∧ r.2.cols = p.cols)
        (ukfPredictLoop sc L x u dt fuel i s p) (ukfPredictLoop sc L (shift d x) u dt fuel i s' p') := by
  induction fuel with
  | zero =>
    intro i s s' p p' hi hs hp
    have : i = n := by omega
    subst this
    exact ⟨hs, hp, rfl⟩
  | succ fuel ih =>
    intro i s s' p p' hi hs hp
    unfold ukfPredictLoop
    simp only [Option.bind_eq_bind]
    refine OptRel.refl_map _ _ _ fun c => ?_
    refine OptRel.bind (OptRel.of_units (hsc.add s s' x c hs)) fun y y' hy => ?_
    subst hy
    refine OptRel.bind (sysUpdate_rel hsc hs y u dt) fun s s' hs => ?_
    obtain ⟨hs, hg⟩ := hs
    rw [hg]
    refine OptRel.bind (hp.setCol (i + 1) s.der.g) fun p1 p1' hp1 => ?_
    refine OptRel.bind (OptRel.of_units (hsa.down s s' x c hs)) fun y y' hy => ?_
    subst hy
    refine OptRel.bind (sysUpdate_rel hsc hs y u dt) fun s s' hs => ?_
    obtain ⟨hs, hg⟩ := hs
    have e : s.stateSize = n := hs.states
    have e' : s'.stateSize = n := by rw [hs.same]; exact hs.states
    rw [e, e', hg]
    refine OptRel.bind (hp1.1.setCol (i + 1 + n) s.der.g) fun p2 p2' hp2 => ?_
    refine OptRel.mono (ih (i + 1) s s' p2 p2' (by omega) hs (hp2.1.mono ?_)) fun r q h => ⟨h.1, h.2.1, ?_⟩
    · intro j hj
      unfold written at hj ⊢
      omega
    · rw [h.2.2, hp2.2, hp1.2]

private theorem ukfPredict_rel {Z : Type} {RZ : Z → Z → Prop} (llt : DMat → Option DMat) (junk : Nat → Nat → ℝ)
    {sc : SysClass T NonlinSysData X} (hsc : SysCarries n l np d sc) (hsa : SysAverages n l np d sc) (sp : SigmaParams) (hsp : Weights n sp)
    {s s' : Sys NonlinSysData X} (hs : SysSame n l np s s') (x : DVec) (c : DMat) (u : DVec) (dt : T)
    {b b' : Sys NonlinSysData X → Z} (hb : ∀ s s', SysSame n l np s s' → RZ (b s) (b' s')) :
    OptRel False (fun r q => (q.1 = shift d r.1 ∧ r.2.1 = q.2.1) ∧ RZ r.2.2 q.2.2) (ukfPredict llt junk sc sp s x c u dt b)
      (ukfPredict llt junk sc sp s' (shift d x) c u dt b') := by
  have e : s.stateSize = n := hs.states
  have e' : s'.stateSize = n := by rw [hs.same]; exact hs.states
  unfold ukfPredict
  simp only [Option.bind_eq_bind]
  rw [e, e']
  refine OptRel.refl_map _ _ _ fun L => ?_
  refine OptRel.bind (sysUpdate_rel hsc hs x u dt) fun s1 s1' hs1 => ?_
  obtain ⟨hs1, hg1⟩ := hs1
  rw [hg1]
  refine OptRel.bind ((on_none (d := d) (DMat.uninit junk n sp.num)).setCol 0 s1.der.g) fun p p' hp => ?_
  have e1 : s1.stateSize = n := hs1.states
  have e1' : s1'.stateSize = n := by rw [hs1.same]; exact hs1.states
  rw [e1, e1']
  refine OptRel.bind (predictLoop_rel hsc hsa L x u dt n 0 s1 s1' p p' (by omega) hs1 (hp.1.mono ?_)) fun r r' hr => ?_
  · intro j hj
    unfold written at hj
    omega
  obtain ⟨hs2, hp2, hc2⟩ := hr
  have hcols : r.2.cols = 2 * n + 1 := by rw [hc2, hp.2]; exact hsp.1
  have hp3 : r'.2 = shiftCols d r.2 := hp2.eq fun j hj => by
    rw [hcols] at hj
    unfold written
    omega
  rw [hp3]
  refine OptRel.bind (OptRel.of_units (hsa.wsum r.1 r'.1 sp.wMean r.2 hs2 hsp.2)) fun y y' hy => ?_
  subst hy
  have e2 : noiseCov r'.1.P r'.1.Rp r'.1.V r'.1.Rc = noiseCov r.1.P r.1.Rp r.1.V r.1.Rc := by rw [hs2.same]
  rw [e2]
  refine OptRel.refl_map _ _ _ fun Q => ?_
  rw [covLoop_congr sp.wCov (f' := fun i => ((shiftCols d r.2).col? i).bind fun c => (sc.sub r'.1 c (shift d y)).bind fun dx => some (dx, dx)) fun i => ?_]
  · exact OptRel.refl_map _ _ _ fun c' => ⟨⟨rfl, rfl⟩, hb _ _ hs2⟩
  · refine OptRel.to_eq (OptRel.bind (shiftCols_col r.2 i) fun a a' ha => ?_)
    subst ha
    rw [hsa.sub r.1 r'.1 a y hs2]
    exact OptRel.of_eq rfl fun _ => rfl

private theorem correctLoop_rel {sc : SysClass T NonlinSysData X} (hsc : SysCarries n l np d sc) (hsa : SysAverages n l np d sc)
    {k : Nat} {ext : Y} {δ : Nat → ℝ} {mc : MeasClass T NonlinMeasData Y} (hmc : MeasCarries n k ext d δ mc) {s s' : Sys NonlinSysData X}
    (hs : SysSame n l np s s') (L : DMat) (x : DVec) (dt : T) (fuel : Nat) : ∀ (i : Nat) (m m' : Meas NonlinMeasData Y) (p p' o o' : DMat),
      i + fuel = n → MeasSame n k ext m m' → On d (written n i) p p' → On δ (written n i) o o' →
      OptRel False (fun r q => MeasSame n k ext r.1 q.1 ∧ (On d (written n n) r.2.1 q.2.1 ∧ r.2.1.cols = p.cols) ∧
          On δ (written n n) r.2.2 q.2.2 ∧ r.2.2.cols = o.cols)
        (ukfCorrectLoop sc mc s L x dt fuel i m p o) (ukfCorrectLoop sc mc s' L (shift d x) dt fuel i m' p' o') := by
  have e : s.stateSize = n := hs.states
  have e' : s'.stateSize = n := by rw [hs.same]; exact hs.states
  induction fuel with
  | zero =>
    intro i m m' p p' o o' hi hm hp ho
    have : i = n := by omega
    subst this
    exact ⟨hm, ⟨hp, rfl⟩, ho, rfl⟩
  | succ fuel ih =>
    intro i m m' p p' o o' hi hm hp ho
    unfold ukfCorrectLoop
    simp only [Option.bind_eq_bind]
    refine OptRel.refl_map _ _ _ fun c => ?_
    refine OptRel.bind (OptRel.of_units (hsc.add s s' x c hs)) fun y y' hy => ?_
    subst hy
    refine OptRel.bind (hp.setCol (i + 1) y) fun p1 p1' hp1 => ?_
    refine OptRel.bind (hp1.1.col (i + 1) (Or.inr rfl)) fun q q' hq => ?_
    subst hq
    refine OptRel.bind (measUpdate_rel hmc hm q dt) fun m m' hm => ?_
    obtain ⟨hm, hh⟩ := hm
    rw [hh]
    refine OptRel.bind (ho.setCol (i + 1) m.der.h) fun o1 o1' ho1 => ?_
    refine OptRel.bind (OptRel.of_units (hsa.down s s' x c hs)) fun y y' hy => ?_
    subst hy
    rw [e, e']
    refine OptRel.bind (hp1.1.setCol (i + 1 + n) y) fun p2 p2' hp2 => ?_
    refine OptRel.bind (hp2.1.col (i + 1 + n) (Or.inr rfl)) fun q q' hq => ?_
    subst hq
    refine OptRel.bind (measUpdate_rel hmc hm q dt) fun m m' hm => ?_
    obtain ⟨hm, hh⟩ := hm
    rw [hh]
    refine OptRel.bind (ho1.1.setCol (i + 1 + n) m.der.h) fun o2 o2' ho2 => ?_
    refine OptRel.mono (ih (i + 1) m m' p2 p2' o2 o2' (by omega) hm (hp2.1.mono ?_) (ho2.1.mono ?_)) fun r q h =>
      ⟨h.1, ⟨h.2.1.1, ?_⟩, h.2.2.1, ?_⟩
    · intro j hj
      unfold written at hj ⊢
      omega
    · intro j hj
      unfold written at hj ⊢
      omega
    · rw [h.2.1.2, hp2.2, hp1.2]
    · rw [h.2.2.2, ho2.2, ho1.2]

private theorem ukfCorrect_rel {Z : Type} {RZ : Z → Z → Prop} (llt : DMat → Option DMat) (junk : Nat → Nat → ℝ)
    {sc : SysClass T NonlinSysData X} (hsc : SysCarries n l np d sc) (hsa : SysAverages n l np d sc)
    {k : Nat} {ext : Y} {δ : Nat → ℝ} {mc : MeasClass T NonlinMeasData Y} (hmc : MeasCarries n k ext d δ mc)
    (hma : MeasAverages n k ext δ mc) (sp : SigmaParams) (hsp : Weights n sp) {s s' : Sys NonlinSysData X}
    (hs : SysSame n l np s s') {m m' : Meas NonlinMeasData Y} (hm : MeasSame n k ext m m') (x : DVec) (c : DMat) (z : DVec) (dt : T)
    {b b' : Meas NonlinMeasData Y → Z} (hb : ∀ s s', MeasSame n k ext s s' → RZ (b s) (b' s')) :
    OptRel False (fun r q => (q.1 = shift d r.1 ∧ r.2.1 = q.2.1) ∧ RZ r.2.2 q.2.2) (ukfCorrect llt junk sc mc sp s m x c z dt b)
      (ukfCorrect llt junk sc mc sp s' m' (shift d x) c (shift δ z) dt b') := by
  have e : s.stateSize = n := hs.states
  have e' : s'.stateSize = n := by rw [hs.same]; exact hs.states
  have em : m'.measurementSize = m.measurementSize := by rw [hm.same]; rfl
  unfold ukfCorrect
  simp (maxSteps := 2000000) only [Option.bind_eq_bind]
  rw [e, e', em]
  refine OptRel.refl_map _ _ _ fun L => ?_
  refine OptRel.bind ((on_none (d := d) (DMat.uninit junk n sp.num)).setCol 0 x) fun p p' hp => ?_
  refine OptRel.bind (measUpdate_rel hmc hm x dt) fun m1 m1' hm1 => ?_
  obtain ⟨hm1, hh1⟩ := hm1
  rw [hh1]
  refine OptRel.bind ((on_none (d := δ) (DMat.uninit junk m.measurementSize sp.num)).setCol 0 m1.der.h) fun o o' ho => ?_
  have h0 : ∀ j, written n 0 j → False ∨ j = 0 := by
    intro j hj
    unfold written at hj
    omega
  refine OptRel.bind (correctLoop_rel hsc hsa hmc hs L x dt n 0 m1 m1' p p' o o' (by omega) hm1 (hp.1.mono h0) (ho.1.mono h0)) fun r r' hr => ?_
  obtain ⟨hm2, ⟨hp2, hpc⟩, ho2, hoc⟩ := hr
  have hall : ∀ j < 2 * n + 1, written n n j := by
    intro j hj
    unfold written
    omega
  have hp3 : r'.2.1 = shiftCols d r.2.1 := hp2.eq fun j hj => hall j (by rw [hpc, hp.2] at hj; exact hsp.1 ▸ hj)
  have ho3 : r'.2.2 = shiftCols δ r.2.2 := ho2.eq fun j hj => hall j (by rw [hoc, ho.2] at hj; exact hsp.1 ▸ hj)
  rw [hp3, ho3]
  refine OptRel.bind (OptRel.of_units (hma.wsum r.1 r'.1 sp.wMean r.2.2 hm2 hsp.2)) fun y y' hy => ?_
  subst hy
  have e2 : r'.1.cov = r.1.cov := by rw [hm2.same]
  have e3 : r'.1.stateSize = r.1.stateSize := by rw [hm2.same]; rfl
  have e4 : r'.1.measurementSize = r.1.measurementSize := by rw [hm2.same]; rfl
  rw [e2, e3, e4]
  rw [covLoop_congr sp.wCov (f' := fun i => ((shiftCols δ r.2.2).col? i).bind fun c => (mc.sub r'.1 c (shift δ y)).bind fun dx => some (dx, dx)) fun i => ?_]
  · refine OptRel.refl_map _ _ _ fun S => ?_
    rw [covLoop_congr sp.wCov (f' := fun i => ((shiftCols d r.2.1).col? i).bind fun p => ((shiftCols d r.2.1).col? 0).bind fun p0 =>
      (sc.sub s' p p0).bind fun dx => ((shiftCols δ r.2.2).col? i).bind fun c => (mc.sub r'.1 c (shift δ y)).bind fun dz => some (dx, dz)) fun i => ?_]
    · refine OptRel.refl_map _ _ _ fun C => ?_
      refine OptRel.refl_map _ _ _ fun Si => ?_
      refine OptRel.refl_map _ _ _ fun G => ?_
      rw [hmc.sub r.1 r'.1 z y hm2]
      refine OptRel.refl_map _ _ _ fun dz => ?_
      refine OptRel.refl_map _ _ _ fun dx => ?_
      refine OptRel.bind (OptRel.of_units (hsc.add s s' x dx hs)) fun w w' hw => ?_
      refine OptRel.refl_map _ _ _ fun GS => ?_
      refine OptRel.refl_map _ _ _ fun GSG => ?_
      exact OptRel.refl_map _ _ _ fun c' => ⟨⟨hw, rfl⟩, hb _ _ hm2⟩
    · refine OptRel.to_eq (OptRel.bind (shiftCols_col r.2.1 i) fun a a' ha => ?_)
      refine OptRel.bind (shiftCols_col r.2.1 0) fun a0 a0' ha0 => ?_
      subst ha ha0
      rw [hsa.sub s s' a a0 hs]
      refine OptRel.refl_map _ _ _ fun dx => ?_
      refine OptRel.bind (shiftCols_col r.2.2 i) fun a a' ha => ?_
      subst ha
      rw [hmc.sub r.1 r'.1 a y hm2]
      exact OptRel.of_eq rfl fun _ => rfl
  · refine OptRel.to_eq (OptRel.bind (shiftCols_col r.2.2 i) fun a a' ha => ?_)
    subst ha
    rw [hmc.sub r.1 r'.1 a y hm2]
    exact OptRel.of_eq rfl fun _ => rfl

end models

section plants

variable [DecidableEq K] [TimeOps T] {n l np : Nat} {kd : K → Nat} {ext : K → Y} {d : Nat → ℝ} {δ : K → Nat → ℝ}

private theorem setSys_same {e e' : Env K NonlinSysData X NonlinMeasData Y} (he : EnvSame n l np kd ext e e') {s s' : Sys NonlinSysData X}
    (hs : SysSame n l np s s') : EnvSame n l np kd ext { e with sys := s } { e' with sys := s' } := ⟨hs, he.2⟩

private theorem setMeas_same {e e' : Env K NonlinSysData X NonlinMeasData Y} (he : EnvSame n l np kd ext e e') (k : K)
    {s s' : Meas NonlinMeasData Y} (hs : MeasSame n (kd k) (ext k) s s') : EnvSame n l np kd ext (e.setMeas k s) (e'.setMeas k s') := by
  refine ⟨he.1, fun j => ?_⟩
  unfold Env.setMeas
  dsimp only
  by_cases hj : j = k
  · subst hj; rw [if_pos rfl, if_pos rfl]; exact hs
  · rw [if_neg hj, if_neg hj]; exact he.2 j

/-- One proof for both filters. -/
private theorem mk_rel {sc : SysClass T NonlinSysData X} {mc : K → MeasClass T NonlinMeasData Y}
    {pr : Env K NonlinSysData X NonlinMeasData Y → DVec → DMat → DVec → T → Option (DVec × DMat × Env K NonlinSysData X NonlinMeasData Y)}
    {co : Env K NonlinSysData X NonlinMeasData Y → DVec → DMat → DVec → K → T →
      Option (DVec × DMat × Env K NonlinSysData X NonlinMeasData Y)}
    (hpr : ∀ e e' x x' c u dt, EnvSame n l np kd ext e e' → x' = shift d x →
      OptRel False (fun r q => (q.1 = shift d r.1 ∧ r.2.1 = q.2.1) ∧ EnvSame n l np kd ext r.2.2 q.2.2) (pr e x c u dt) (pr e' x' c u dt))
    (hco : ∀ e e' x x' c z z' k dt, EnvSame n l np kd ext e e' → x' = shift d x → z' = shift (δ k) z →
      OptRel False (fun r q => (q.1 = shift d r.1 ∧ r.2.1 = q.2.1) ∧ EnvSame n l np kd ext r.2.2 q.2.2) (co e x c z k dt) (co e' x' c z' k dt)) :
    PlantRel (mkPlant sc mc pr co) (mkPlant sc mc pr co) False (fun x c x' c' => x' = shift d x ∧ c = c')
      (EnvSame n l np kd ext) (fun u u' => u = u') (fun c c' => c = c') (fun z c z' c' k => z' = shift (δ k) z ∧ c = c') where
  empty := rfl
  empty' := rfl
  rc := by
    intro e e' he
    show e.sys.Rc = e'.sys.Rc
    rw [he.1.same]
  zero := by
    intro e e' he
    show DVec.zero e.sys.controlDims = DVec.zero e'.sys.controlDims
    rw [he.1.same]
  setRc := by
    rintro e e' c _ he rfl
    show OptRel False _ ((e.sys.setControlCovariance c).map _) ((e'.sys.setControlCovariance c).map _)
    refine OptRel.map (R := SysSame n l np) ?_ fun s s' hs => setSys_same he hs
    have e1 : e'.sys.controlDims = e.sys.controlDims := by rw [he.1.same]
    unfold Sys.setControlCovariance
    rw [e1]
    split
    · refine ⟨?_, he.1.G, he.1.states, he.1.controls, he.1.noises, he.1.quiet⟩
      dsimp only
      rw [he.1.same]
    · exact not_false
  sysSt := by
    intro e e' x c x' c' d d' he hx _
    show (e.sys.fm.checkStationary && _) = (e'.sys.fm.checkStationary && _)
    rw [show e'.sys.fm = e.sys.fm by rw [he.1.same], he.1.quiet]; rfl
  predict := by
    rintro e e' x c x' _ u _ dt he ⟨hx, rfl⟩ rfl
    exact hpr e e' x x' c u dt he hx
  sysStationary := by
    intro e e' x c x' c' d d' he hx _ h
    have h : (e.sys.fm.checkStationary && _) = true := h
    rw [he.1.quiet] at h; cases h
  setMeasCov := by
    rintro e e' m z c z' _ he ⟨hz, rfl⟩
    show OptRel False _ (((e.meas m).setCovariance c).map _) (((e'.meas m).setCovariance c).map _)
    refine OptRel.map (R := MeasSame n (kd m) (ext m)) ?_ fun s s' hs => ?_
    · have e1 : (e'.meas m).measDims = (e.meas m).measDims := by rw [(he.2 m).same]
      unfold Meas.setCovariance
      rw [e1]
      split
      · refine ⟨?_, (he.2 m).H, (he.2 m).states, (he.2 m).meas, (he.2 m).ext, (he.2 m).h, (he.2 m).h', (he.2 m).quiet⟩
        dsimp only
        rw [(he.2 m).same]
      · exact not_false
    · have h1 := setMeas_same he m hs
      have hq : ((e.setMeas m s).meas m).fm.checkStationary = false := (h1.2 m).quiet
      have hq' : ((e'.setMeas m s').meas m).fm.checkStationary = false := by rw [(h1.2 m).same]; exact hq
      refine ⟨h1, ?_, ?_, ?_⟩
      · intro x p x' p' _
        show (((e.setMeas m s).meas m).fm.checkStationary && _) = (((e'.setMeas m s').meas m).fm.checkStationary && _)
        rw [hq, hq']; rfl
      · rintro x p x' _ dt ⟨hx, rfl⟩
        exact hco _ _ x x' p z z' m dt h1 hx hz
      · intro x p x' p' _ h
        have h : (((e.setMeas m s).meas m).fm.checkStationary && _) = true := h
        rw [hq] at h; cases h

private theorem ekf_rel {sc : SysClass T NonlinSysData X} {mc : K → MeasClass T NonlinMeasData Y} (hsc : SysCarries n l np d sc)
    (hmc : ∀ k, MeasCarries n (kd k) (ext k) d (δ k) (mc k)) :
    PlantRel (ekfPlant sc mc) (ekfPlant sc mc) False (fun x c x' c' => x' = shift d x ∧ c = c')
      (EnvSame n l np kd ext) (fun u u' => u = u') (fun c c' => c = c') (fun z c z' c' k => z' = shift (δ k) z ∧ c = c') :=
  mk_rel (fun e e' x x' c u dt he hx => by subst hx; exact ekfPredict_rel hsc he.1 x c u dt fun s s' hs => setSys_same he hs)
    (fun e e' x x' c z z' k dt he hx hz => by
      subst hx hz; exact ekfCorrect_rel hsc (hmc k) he.1 (he.2 k) x c z dt fun s s' hs => setMeas_same he k hs)

private theorem ukf_rel (llt : DMat → Option DMat) (junk : Nat → Nat → ℝ) {sc : SysClass T NonlinSysData X}
    {mc : K → MeasClass T NonlinMeasData Y} (hsc : SysCarries n l np d sc) (hsa : SysAverages n l np d sc)
    (hmc : ∀ k, MeasCarries n (kd k) (ext k) d (δ k) (mc k)) (hma : ∀ k, MeasAverages n (kd k) (ext k) (δ k) (mc k)) :
    PlantRel (ukfPlant llt junk sc mc) (ukfPlant llt junk sc mc) False (fun x c x' c' => x' = shift d x ∧ c = c')
      (fun e e' => EnvSame n l np kd ext e.1 e'.1 ∧ Weights n e.2 ∧ e'.2 = e.2) (fun u u' => u = u') (fun c c' => c = c')
      (fun z c z' c' k => z' = shift (δ k) z ∧ c = c') :=
  mkPlantWith_rel (Weights n) fun sp hsp => mk_rel
    (fun e e' x x' c u dt he hx => by
      subst hx; exact ukfPredict_rel llt junk hsc hsa sp hsp he.1 x c u dt fun s s' hs => setSys_same he hs)
    (fun e e' x x' c z z' k dt he hx hz => by
      subst hx hz; exact ukfCorrect_rel llt junk hsc hsa (hmc k) (hma k) sp hsp he.1 (he.2 k) x c z dt
        fun s s' hs => setMeas_same he k hs)

private theorem data_same {E : Type} {P : Plant T DVec DMat K E} (d : DVec) :
    DataRel P P (fun u u' => u = u') d d := by
  rcases Nat.eq_zero_or_pos (P.vsize d) with h | h
  · exact Or.inr ⟨h, h⟩
  · exact Or.inl ⟨h, h, rfl⟩

private theorem call_rel {E : Type} {RE RE' : E → E → Prop} (h1 : ∀ e e', RE' e e' ↔ RE e e') {P : Plant T DVec DMat K E}
    {op op' : Op T DVec DMat K E} (h : Call d δ RE op op') :
    OpRel P P False (fun x c x' c' => x' = shift d x ∧ c = c') RE' (fun u u' => u = u') (fun z c z' c' k => z' = shift (δ k) z ∧ c = c')
      op op' := by
  cases op <;> cases op' <;> simp only [Call] at h <;> simp only [OpRel]
  · exact h
  · exact h
  · obtain ⟨rfl, rfl⟩ := h; exact ⟨rfl, data_same _⟩
  · exact h
  · obtain ⟨rfl, rfl⟩ := h; exact ⟨rfl, data_same _⟩
  · exact h
  · exact h
  · exact h
  · intro e e' he
    exact OptRel.mono (OptRel.of_units (h e e' ((h1 e e').mp he))) fun a b hab => (h1 a b).mpr hab

private theorem same_result {E : Type} {A : Filter T DVec DMat K E → Filter T DVec DMat K E → Prop}
    {o o' : Option (Filter T DVec DMat K E)}
    (h : OptRel False (fun f g => f.params = g.params ∧ A f g ∧
      List.Forall₂ (fun s s' => s.timestamp = s'.timestamp ∧ s'.x = shift d s.x ∧ s.covariance = s'.covariance) f.retained g.retained) o o') :
    OffsetOutcome d o o' := by
  rcases OptRel.elim h with ⟨rfl, rfl, _⟩ | ⟨f, g, rfl, rfl, _, _, h4⟩
  · trivial
  · have hs := (SimRel.forall₂_concat (l := f.history) (l' := g.history) h4).2
    exact ⟨hs.1, hs.2.1, hs.2.2, h4⟩

end plants

section theorems

variable [DecidableEq K] [TimeOps T] [SaneTime T] {n l np : Nat} {kd : K → Nat} {ext : K → Y} {d : Nat → ℝ} {δ : K → Nat → ℝ}

/-- **C141, EKF.**  Model classes that carry the offset `d` of the state along, sensor `k` then reading `δ k` more.  Two runs of any
calls (any time stamps, delays, queues, rewinding, reverting, changes of the models), the second started at a state with `d` added
and given the readings of the sensors with `δ` added, both fail, or end at the same time, the second estimate being exactly the first
plus `d`, with equal covariances, now and at every remembered moment. -/
theorem C141_ekf {sc : SysClass T NonlinSysData X} {mc : K → MeasClass T NonlinMeasData Y} (hsc : SysCarries n l np d sc)
    (hmc : ∀ k, MeasCarries n (kd k) (ext k) d (δ k) (mc k))
    (sort : List (FilterInput T DVec DMat K) → List (FilterInput T DVec DMat K)) (hsort : SameSort sort sort)
    (params : Params T) (e : Env K NonlinSysData X NonlinMeasData Y) (he : EnvSame n l np kd ext e e) (x x' : DVec) (c : DMat) (t : T)
    (hx : x' = shift d x) (ops ops' : List (Op T DVec DMat K (Env K NonlinSysData X NonlinMeasData Y)))
    (hops : List.Forall₂ (Call d δ (EnvSame n l np kd ext)) ops ops') :
    OffsetOutcome d ((Filter.construct (ekfPlant sc mc) params e x c t).run (ekfPlant sc mc) sort ops)
      ((Filter.construct (ekfPlant sc mc) params e x' c t).run (ekfPlant sc mc) sort ops') := by
  have h := (ekf_rel (T := T) hsc hmc).run hsort
    { params := params
      state := { x := (ekfPlant sc mc).emptyV, covariance := (ekfPlant sc mc).emptyM, timestamp := TimeOps.zero,
                 prevInput := FilterInput.default (ekfPlant sc mc) }
      prevControl := (ekfPlant sc mc).emptyV
      prevControlCov := (ekfPlant sc mc).emptyM
      env := e, history := [], controlQueue := [], measQueue := [] }
    { params := params
      state := { x := (ekfPlant sc mc).emptyV, covariance := (ekfPlant sc mc).emptyM, timestamp := TimeOps.zero,
                 prevInput := FilterInput.default (ekfPlant sc mc) }
      prevControl := (ekfPlant sc mc).emptyV
      prevControlCov := (ekfPlant sc mc).emptyM
      env := e, history := [], controlQueue := [], measQueue := [] } rfl he (Or.inr ⟨rfl, rfl⟩) x c x' c t ⟨hx, rfl⟩
    (hops.imp (fun _ _ h => call_rel (fun _ _ => Iff.rfl) h))
  exact same_result (A := fun f g => _ ∧ _) (h.mono fun f g hfg => ⟨hfg.1, ⟨hfg.2.1, hfg.2.2.1⟩, hfg.2.2.2⟩)

/-- **C141, UKF.**  The same, if differences and weighted averages follow the offset, for sigma points whose mean weights sum to
one, any factorisation and content of uninitialised memory. -/
theorem C141_ukf (llt : DMat → Option DMat) (junk : Nat → Nat → ℝ) {sc : SysClass T NonlinSysData X}
    {mc : K → MeasClass T NonlinMeasData Y} (hsc : SysCarries n l np d sc) (hsa : SysAverages n l np d sc)
    (hmc : ∀ k, MeasCarries n (kd k) (ext k) d (δ k) (mc k)) (hma : ∀ k, MeasAverages n (kd k) (ext k) (δ k) (mc k))
    (sort : List (FilterInput T DVec DMat K) → List (FilterInput T DVec DMat K)) (hsort : SameSort sort sort)
    (params : Params T) (e : Env K NonlinSysData X NonlinMeasData Y) (he : EnvSame n l np kd ext e e) (sp : SigmaParams)
    (hsp : Weights n sp)     (x x' : DVec) (c : DMat) (t : T) (hx : x' = shift d x)
    (ops ops' : List (Op T DVec DMat K (Env K NonlinSysData X NonlinMeasData Y × SigmaParams)))
    (hops : List.Forall₂ (Call d δ fun e e' => EnvSame n l np kd ext e.1 e'.1 ∧ Weights n e.2 ∧ e'.2 = e.2) ops ops') :
    OffsetOutcome d
      ((Filter.construct (ukfPlant llt junk sc mc) params (e, sp) x c t).run (ukfPlant llt junk sc mc) sort ops)
      ((Filter.construct (ukfPlant llt junk sc mc) params (e, sp) x' c t).run (ukfPlant llt junk sc mc) sort ops') := by
  have h := (ukf_rel (T := T) llt junk hsc hsa hmc hma).run hsort
    { params := params
      state := { x := DVec.empty, covariance := DMat.empty, timestamp := TimeOps.zero,
                 prevInput := FilterInput.default (ukfPlant llt junk sc mc) }
      prevControl := DVec.empty
      prevControlCov := DMat.empty
      env := (e, sp), history := [], controlQueue := [], measQueue := [] }
    { params := params
      state := { x := DVec.empty, covariance := DMat.empty, timestamp := TimeOps.zero,
                 prevInput := FilterInput.default (ukfPlant llt junk sc mc) }
      prevControl := DVec.empty
      prevControlCov := DMat.empty
      env := (e, sp), history := [], controlQueue := [], measQueue := [] } rfl ⟨he, hsp, rfl⟩ (Or.inr ⟨rfl, rfl⟩) x c x' c t
    ⟨hx, rfl⟩ (hops.imp (fun _ _ h => call_rel (fun _ _ => Iff.rfl) h))
  exact same_result (A := fun f g => _ ∧ _) (h.mono fun f g hfg => ⟨hfg.1, ⟨hfg.2.1, hfg.2.2.1⟩, hfg.2.2.2⟩)

end theorems
end Props
end StateEstimation
