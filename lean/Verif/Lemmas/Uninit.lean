import Verif.Lemmas.Sharing
import Verif.Spec.Memory

/-! # UKF and UKFVS overwrite the uninitialised matrices before reading them -/

set_option linter.unusedSectionVars false

namespace StateEstimation

variable {T K X Y Z O : Type}

/-- same size, and the same columns where `C` holds -/
def DMat.AgreeOn (C : Nat → Prop) (A B : DMat) : Prop :=
  A.rows = B.rows ∧ A.cols = B.cols ∧ ∀ j, C j → A.col? j = B.col? j

theorem DMat.AgreeOn.mono {C D : Nat → Prop} {A B : DMat} (h : A.AgreeOn C B) (hd : ∀ j, D j → C j) : A.AgreeOn D B :=
  ⟨h.1, h.2.1, fun j hj => h.2.2 j (hd j hj)⟩

theorem DMat.AgreeOn.eq {C : Nat → Prop} {A B : DMat} (h : A.AgreeOn C B) (hc : ∀ j < A.cols, C j) : A = B := by
  obtain ⟨r, c, a⟩ := A
  obtain ⟨r', c', b⟩ := B
  obtain ⟨h1, h2, h3⟩ := h
  dsimp only at h1 h2 hc
  subst h1 h2
  congr 1
  funext i j
  have := h3 j (hc j j.2)
  unfold DMat.col? at this
  dsimp only at this
  rw [dif_pos j.2, dif_pos j.2] at this
  injection this with this
  have h4 := DVec.of_inj.mp this
  exact congrFun h4 i

theorem DMat.AgreeOn.setCol {C : Nat → Prop} {A B : DMat} (h : A.AgreeOn C B) (j : Nat) (v : DVec) :
    OptRel False (fun A' B' => A'.AgreeOn (fun i => C i ∨ i = j) B' ∧ A'.cols = A.cols) (A.setCol? j v) (B.setCol? j v) := by
  obtain ⟨r, c, a⟩ := A
  obtain ⟨r', c', b⟩ := B
  obtain ⟨h1, h2, h3⟩ := h
  dsimp only at h1 h2
  subst h1 h2
  unfold DMat.setCol?
  dsimp only
  by_cases hj : j < c ∧ r = v.size
  · rw [dif_pos hj, dif_pos hj]
    refine ⟨⟨rfl, rfl, fun i hi => ?_⟩, rfl⟩
    unfold DMat.col?
    dsimp only
    by_cases hic : i < c
    · rw [dif_pos hic, dif_pos hic]
      congr 2
      funext q
      by_cases hij : i = j
      · rw [if_pos hij, if_pos hij]
      · rw [if_neg hij, if_neg hij]
        have := h3 i (hi.resolve_right hij)
        unfold DMat.col? at this
        dsimp only at this
        rw [dif_pos hic, dif_pos hic] at this
        injection this with this
        exact congrFun (DVec.of_inj.mp this) q
    · rw [dif_neg hic, dif_neg hic]
  · rw [dif_neg hj, dif_neg hj]
    exact not_false

theorem DMat.uninit_agree (junk junk' : Nat → Nat → ℝ) (r c : Nat) :
    (DMat.uninit junk r c).AgreeOn (fun _ => False) (.uninit junk' r c) := ⟨rfl, rfl, fun _ h => h.elim⟩

/-- columns written after `i` rounds -/
def written (n i j : Nat) : Prop := j ≤ i ∨ (n < j ∧ j ≤ n + i)

theorem SysClass.KeepsModel.upd {D : Type} {sc : SysClass T D X} (h : sc.KeepsModel) {s s' : Sys D X} {x u : DVec} {dt : T}
    (hu : s.update sc x u dt = some s') : s'.fm = s.fm := by
  unfold Sys.update at hu
  split at hu
  · exact h.update _ _ _ _ _ hu
  · cases hu

theorem OptRel.bind_self {α β γ : Type} {R : β → γ → Prop} (o : Option α) (f : α → Option β) (g : α → Option γ)
    (h : ∀ a, o = Option.some a → OptRel False R (f a) (g a)) : OptRel False R (o.bind f) (o.bind g) := by
  cases o
  · exact not_false
  · exact h _ rfl

theorem OptRel.to_eq {α : Type} {a b : Option α} (h : OptRel False Eq a b) : a = b := by
  cases a <;> cases b
  · rfl
  · exact False.elim h
  · exact False.elim h
  · exact congrArg Option.some h

section ukf

variable {sc : SysClass T NonlinSysData X}

theorem ukfPredictLoop_agree (hk : sc.KeepsModel) (L : DMat) (x u : DVec) (dt : T) (n : Nat) (fuel : Nat) :
    ∀ (i : Nat) (s : Sys NonlinSysData X) (A B : DMat), i + fuel = n → s.stateSize = n → A.AgreeOn (written n i) B →
      OptRel False (fun r q => (r.1 = q.1 ∧ r.1.fm = s.fm) ∧ r.2.AgreeOn (written n n) q.2 ∧ r.2.cols = A.cols)
        (ukfPredictLoop sc L x u dt fuel i s A) (ukfPredictLoop sc L x u dt fuel i s B) := by
  induction fuel with
  | zero =>
    intro i s A B hi hs hA
    have : i = n := by omega
    subst this
    exact ⟨⟨rfl, rfl⟩, hA, rfl⟩
  | succ fuel ih =>
    intro i s A B hi hs hA
    unfold ukfPredictLoop
    refine OptRel.refl_map _ _ _ fun c => OptRel.refl_map _ _ _ fun xh => OptRel.bind_self _ _ _ fun s1 h1 => ?_
    refine OptRel.bind (hA.setCol (i + 1) s1.der.g) ?_
    rintro A1 B1 ⟨hA1, hc1⟩
    refine OptRel.refl_map _ _ _ fun xl => OptRel.bind_self _ _ _ fun s2 h2 => ?_
    have f2 : s2.fm = s.fm := (hk.upd h2).trans (hk.upd h1)
    have hs2 : s2.stateSize = n := (congrArg FilterModel.stateDims f2).trans hs
    rw [hs2]
    refine OptRel.bind (hA1.setCol (i + 1 + n) s2.der.g) ?_
    rintro A2 B2 ⟨hA2, hc2⟩
    refine OptRel.mono (ih (i + 1) s2 A2 B2 (by omega) hs2 (hA2.mono ?_)) ?_
    · intro j hj
      unfold written at hj ⊢
      omega
    · rintro r q ⟨⟨a, b⟩, c, d⟩
      exact ⟨⟨a, b.trans f2⟩, c, by rw [d, hc2, hc1]⟩

/-- `UKF::myPredict` reads no column of `sigma_pts` it has not written. -/
theorem ukfPredict_junk (hk : sc.KeepsModel) (llt : DMat → Option DMat) (junk junk' : Nat → Nat → ℝ) {sp : SigmaParams}
    {s : Sys NonlinSysData X} (hn : sp.num = 2 * s.stateSize + 1) (x : DVec) (cov : DMat) (u : DVec) (dt : T)
    (back : Sys NonlinSysData X → Z) :
    OptRel False (fun r q => r = q ∧ ∃ s', r.2.2 = back s' ∧ s'.fm = s.fm)
      (ukfPredict llt junk sc sp s x cov u dt back) (ukfPredict llt junk' sc sp s x cov u dt back) := by
  unfold ukfPredict
  refine OptRel.refl_map _ _ _ fun L => OptRel.bind_self _ _ _ fun s1 h1 => ?_
  have f1 := hk.upd h1
  have hs1 : s1.stateSize = s.stateSize := congrArg FilterModel.stateDims f1
  refine OptRel.bind ((DMat.uninit_agree junk junk' s.stateSize sp.num).setCol 0 s1.der.g) ?_
  rintro A B ⟨hA, hc⟩
  rw [hs1]
  refine OptRel.bind (ukfPredictLoop_agree hk L x u dt s.stateSize s.stateSize 0 s1 A B (by omega) hs1 (hA.mono ?_)) ?_
  · intro j hj; unfold written at hj; right; omega
  · rintro ⟨s2, A2⟩ ⟨s2', B2⟩ ⟨⟨h2, f2⟩, hA2, hc2⟩
    dsimp only at h2 f2 hA2 hc2 ⊢
    have hcols : A2.cols = 2 * s.stateSize + 1 := by rw [hc2, hc, ← hn]; rfl
    have := hA2.eq (by intro j hj; unfold written; omega)
    subst h2 this
    refine OptRel.refl_map _ _ _ fun _ => OptRel.refl_map _ _ _ fun _ => OptRel.refl_map _ _ _ fun _ => ?_
    exact ⟨rfl, s2, rfl, f2.trans f1⟩

variable {mc : MeasClass T NonlinMeasData Y}

theorem ukfCorrectLoop_agree (s : Sys NonlinSysData X) (L : DMat) (x : DVec) (dt : T) (fuel : Nat) :
    ∀ (i : Nat) (m : Meas NonlinMeasData Y) (A B A' B' : DMat), i + fuel = s.stateSize → A.AgreeOn (written s.stateSize i) B →
      A'.AgreeOn (written s.stateSize i) B' →
      OptRel False (fun r q => r.1 = q.1 ∧ (r.2.1.AgreeOn (written s.stateSize s.stateSize) q.2.1 ∧ r.2.1.cols = A.cols) ∧
          r.2.2.AgreeOn (written s.stateSize s.stateSize) q.2.2 ∧ r.2.2.cols = A'.cols)
        (ukfCorrectLoop sc mc s L x dt fuel i m A A') (ukfCorrectLoop sc mc s L x dt fuel i m B B') := by
  induction fuel with
  | zero =>
    intro i m A B A' B' hi hA hA'
    have : i = s.stateSize := by omega
    subst this
    exact ⟨rfl, ⟨hA, rfl⟩, hA', rfl⟩
  | succ fuel ih =>
    intro i m A B A' B' hi hA hA'
    unfold ukfCorrectLoop
    refine OptRel.refl_map _ _ _ fun c => OptRel.refl_map _ _ _ fun xh => ?_
    refine OptRel.bind (hA.setCol (i + 1) xh) ?_
    rintro A1 B1 ⟨hA1, hc1⟩
    rw [show A1.col? (i + 1) = B1.col? (i + 1) from hA1.2.2 _ (Or.inr rfl)]
    refine OptRel.refl_map _ _ _ fun p => OptRel.refl_map _ _ _ fun m1 => ?_
    refine OptRel.bind (hA'.setCol (i + 1) m1.der.h) ?_
    rintro A1' B1' ⟨hA1', hc1'⟩
    refine OptRel.refl_map _ _ _ fun xl => ?_
    refine OptRel.bind (hA1.setCol (i + 1 + s.stateSize) xl) ?_
    rintro A2 B2 ⟨hA2, hc2⟩
    rw [show A2.col? (i + 1 + s.stateSize) = B2.col? (i + 1 + s.stateSize) from hA2.2.2 _ (Or.inr rfl)]
    refine OptRel.refl_map _ _ _ fun p => OptRel.refl_map _ _ _ fun m2 => ?_
    refine OptRel.bind (hA1'.setCol (i + 1 + s.stateSize) m2.der.h) ?_
    rintro A2' B2' ⟨hA2', hc2'⟩
    refine OptRel.mono (ih (i + 1) m2 A2 B2 A2' B2' (by omega) (hA2.mono ?_) (hA2'.mono ?_)) ?_
    · intro j hj; unfold written at hj ⊢; omega
    · intro j hj; unfold written at hj ⊢; omega
    · rintro r q ⟨a, ⟨b, c⟩, d, e⟩
      exact ⟨a, ⟨b, by rw [c, hc2, hc1]⟩, d, by rw [e, hc2', hc1']⟩

/-- `UKF::myCorrect` reads no column of `sigma_pts` and `observed_sigma_pts` it has not written. -/
theorem ukfCorrect_junk (llt : DMat → Option DMat) (junk junk' : Nat → Nat → ℝ) {sp : SigmaParams}
    {s : Sys NonlinSysData X} (hn : sp.num = 2 * s.stateSize + 1) (m : Meas NonlinMeasData Y) (x : DVec) (cov : DMat) (z : DVec)
    (dt : T) (back : Meas NonlinMeasData Y → Z) :
    OptRel False (fun r q => r = q ∧ ∃ m', r.2.2 = back m')
      (ukfCorrect llt junk sc mc sp s m x cov z dt back) (ukfCorrect llt junk' sc mc sp s m x cov z dt back) := by
  unfold ukfCorrect
  refine OptRel.refl_map _ _ _ fun L => ?_
  refine OptRel.bind ((DMat.uninit_agree junk junk' s.stateSize sp.num).setCol 0 x) ?_
  rintro A B ⟨hA, hc⟩
  refine OptRel.refl_map _ _ _ fun m1 => ?_
  refine OptRel.bind ((DMat.uninit_agree junk junk' m.measurementSize sp.num).setCol 0 m1.der.h) ?_
  rintro A' B' ⟨hA', hc'⟩
  refine OptRel.bind (ukfCorrectLoop_agree s L x dt s.stateSize 0 m1 A B A' B' (by omega) (hA.mono ?_) (hA'.mono ?_)) ?_
  · intro j hj; unfold written at hj; right; omega
  · intro j hj; unfold written at hj; right; omega
  · rintro ⟨m2, A2, A2'⟩ ⟨m2', B2, B2'⟩ ⟨h2, ⟨hA2, hc2⟩, hA2', hc2'⟩
    dsimp only at h2 hA2 hc2 hA2' hc2' ⊢
    have hcols : A2.cols = 2 * s.stateSize + 1 := by rw [hc2, hc, ← hn]; rfl
    have hcols' : A2'.cols = 2 * s.stateSize + 1 := by rw [hc2', hc', ← hn]; rfl
    have e1 := hA2.eq (by intro j hj; unfold written; omega)
    have e2 := hA2'.eq (by intro j hj; unfold written; omega)
    subst h2 e1 e2
    refine OptRel.refl_map _ _ _ fun _ => OptRel.refl_map _ _ _ fun _ => OptRel.refl_map _ _ _ fun _ =>
      OptRel.refl_map _ _ _ fun _ => OptRel.refl_map _ _ _ fun _ => OptRel.refl_map _ _ _ fun _ =>
      OptRel.refl_map _ _ _ fun _ => OptRel.refl_map _ _ _ fun _ => OptRel.refl_map _ _ _ fun _ =>
      OptRel.refl_map _ _ _ fun _ => OptRel.refl_map _ _ _ fun _ => ?_
    exact ⟨rfl, m2, rfl⟩

end ukf

section ukfvs

variable {sc : SysClass T NonlinSysData X}

theorem ukfvsPredictLoop_agree (hk : sc.KeepsModel) (L : DMat) (x u : DVec) (dt : T) (n : Nat) (fuel : Nat) :
    ∀ (i : Nat) (o : DVec) (s : Sys NonlinSysData X) (A B : DMat), i + fuel = n → A.AgreeOn (written n i) B →
      OptRel False (fun r q => (r.1 = q.1 ∧ r.1.fm = s.fm) ∧ r.2.AgreeOn (written n n) q.2 ∧ r.2.cols = A.cols)
        (ukfvsPredictLoop sc L x u dt n fuel i o s A) (ukfvsPredictLoop sc L x u dt n fuel i o s B) := by
  induction fuel with
  | zero =>
    intro i o s A B hi hA
    have : i = n := by omega
    subst this
    exact ⟨⟨rfl, rfl⟩, hA, rfl⟩
  | succ fuel ih =>
    intro i o s A B hi hA
    unfold ukfvsPredictLoop
    refine OptRel.refl_map _ _ _ fun c => OptRel.refl_map _ _ _ fun o => OptRel.refl_map _ _ _ fun xh =>
      OptRel.bind_self _ _ _ fun s1 h1 => ?_
    refine OptRel.bind (hA.setCol (i + 1) s1.der.g) ?_
    rintro A1 B1 ⟨hA1, hc1⟩
    refine OptRel.refl_map _ _ _ fun xl => OptRel.bind_self _ _ _ fun s2 h2 => ?_
    have f2 : s2.fm = s.fm := (hk.upd h2).trans (hk.upd h1)
    refine OptRel.bind (hA1.setCol (i + 1 + n) s2.der.g) ?_
    rintro A2 B2 ⟨hA2, hc2⟩
    refine OptRel.mono (ih (i + 1) o s2 A2 B2 (by omega) (hA2.mono ?_)) ?_
    · intro j hj
      unfold written at hj ⊢
      omega
    · rintro r q ⟨⟨a, b⟩, c, d⟩
      exact ⟨⟨a, b.trans f2⟩, c, by rw [d, hc2, hc1]⟩

/-- `UKFVS::myPredict` reads no column of `sigma_pts` it has not written, while the number of sigma points fits. -/
theorem ukfvsPredict_junk (hk : sc.KeepsModel) (llt : DMat → Option DMat) (junk junk' : Nat → Nat → ℝ) {sp : SigmaParams}
    {s : Sys NonlinSysData X} (hn : sp.num = 2 * s.activeStateSize + 1) (x : DVec) (cov : DMat) (u : DVec) (dt : T)
    (back : Sys NonlinSysData X → Z) :
    OptRel False (fun r q => r = q ∧ ∃ s', r.2.2 = back s' ∧ s'.fm = s.fm)
      (ukfvsPredict llt junk sc sp s x cov u dt back) (ukfvsPredict llt junk' sc sp s x cov u dt back) := by
  unfold ukfvsPredict
  refine OptRel.refl_map _ _ _ fun covS => OptRel.refl_map _ _ _ fun L => OptRel.bind_self _ _ _ fun s1 h1 => ?_
  have f1 := hk.upd h1
  refine OptRel.bind ((DMat.uninit_agree junk junk' s.stateSize sp.num).setCol 0 s1.der.g) ?_
  rintro A B ⟨hA, hc⟩
  refine OptRel.bind (ukfvsPredictLoop_agree hk L x u dt s.activeStateSize s.activeStateSize 0 (DVec.zero s1.stateSize) s1 A B
    (by omega) (hA.mono ?_)) ?_
  · intro j hj; unfold written at hj; right; omega
  · rintro ⟨s2, A2⟩ ⟨s2', B2⟩ ⟨⟨h2, f2⟩, hA2, hc2⟩
    dsimp only at h2 f2 hA2 hc2 ⊢
    have hcols : A2.cols = 2 * s.activeStateSize + 1 := by rw [hc2, hc, ← hn]; rfl
    have := hA2.eq (by intro j hj; unfold written; omega)
    subst h2 this
    refine OptRel.refl_map _ _ _ fun _ => OptRel.refl_map _ _ _ fun _ => OptRel.refl_map _ _ _ fun _ =>
      OptRel.refl_map _ _ _ fun _ => OptRel.refl_map _ _ _ fun _ => OptRel.refl_map _ _ _ fun _ =>
      OptRel.refl_map _ _ _ fun _ => ?_
    exact ⟨rfl, s2, rfl, f2.trans f1⟩

variable {mc : MeasClass T NonlinMeasData Y}

theorem ukfvsCorrectLoop_agree (s : Sys NonlinSysData X) (L : DMat) (x : DVec) (dt : T) (fuel : Nat) :
    ∀ (i : Nat) (o : DVec) (m : Meas NonlinMeasData Y) (A B A' B' : DMat), i + fuel = s.activeStateSize →
      A.AgreeOn (written s.activeStateSize i) B → A'.AgreeOn (written s.activeStateSize i) B' →
      OptRel False (fun r q => r.1 = q.1 ∧
          (r.2.1.AgreeOn (written s.activeStateSize s.activeStateSize) q.2.1 ∧ r.2.1.cols = A.cols) ∧
          r.2.2.AgreeOn (written s.activeStateSize s.activeStateSize) q.2.2 ∧ r.2.2.cols = A'.cols)
        (ukfvsCorrectLoop sc mc s L x dt fuel i o m A A') (ukfvsCorrectLoop sc mc s L x dt fuel i o m B B') := by
  induction fuel with
  | zero =>
    intro i o m A B A' B' hi hA hA'
    have : i = s.activeStateSize := by omega
    subst this
    exact ⟨rfl, ⟨hA, rfl⟩, hA', rfl⟩
  | succ fuel ih =>
    intro i o m A B A' B' hi hA hA'
    unfold ukfvsCorrectLoop
    refine OptRel.refl_map _ _ _ fun c => OptRel.refl_map _ _ _ fun o => OptRel.refl_map _ _ _ fun xh => ?_
    refine OptRel.bind (hA.setCol (i + 1) xh) ?_
    rintro A1 B1 ⟨hA1, hc1⟩
    rw [show A1.col? (i + 1) = B1.col? (i + 1) from hA1.2.2 _ (Or.inr rfl)]
    refine OptRel.refl_map _ _ _ fun p => OptRel.refl_map _ _ _ fun m1 => ?_
    refine OptRel.bind (hA'.setCol (i + 1) m1.der.h) ?_
    rintro A1' B1' ⟨hA1', hc1'⟩
    refine OptRel.refl_map _ _ _ fun xl => ?_
    refine OptRel.bind (hA1.setCol (i + 1 + s.activeStateSize) xl) ?_
    rintro A2 B2 ⟨hA2, hc2⟩
    rw [show A2.col? (i + 1 + s.activeStateSize) = B2.col? (i + 1 + s.activeStateSize) from hA2.2.2 _ (Or.inr rfl)]
    refine OptRel.refl_map _ _ _ fun p => OptRel.refl_map _ _ _ fun m2 => ?_
    refine OptRel.bind (hA1'.setCol (i + 1 + s.activeStateSize) m2.der.h) ?_
    rintro A2' B2' ⟨hA2', hc2'⟩
    refine OptRel.mono (ih (i + 1) o m2 A2 B2 A2' B2' (by omega) (hA2.mono ?_) (hA2'.mono ?_)) ?_
    · intro j hj; unfold written at hj ⊢; omega
    · intro j hj; unfold written at hj ⊢; omega
    · rintro r q ⟨a, ⟨b, c⟩, d, e⟩
      exact ⟨a, ⟨b, by rw [c, hc2, hc1]⟩, d, by rw [e, hc2', hc1']⟩

/-- `UKFVS::myCorrect` reads no column it has not written, while the number of sigma points fits. -/
theorem ukfvsCorrect_junk (llt : DMat → Option DMat) (junk junk' : Nat → Nat → ℝ) {sp : SigmaParams}
    {s : Sys NonlinSysData X} (hn : sp.num = 2 * s.activeStateSize + 1) (m : Meas NonlinMeasData Y) (x : DVec) (cov : DMat)
    (z : DVec) (dt : T) (back : Meas NonlinMeasData Y → Z) :
    OptRel False (fun r q => r = q ∧ ∃ m', r.2.2 = back m')
      (ukfvsCorrect llt junk sc mc sp s m x cov z dt back) (ukfvsCorrect llt junk' sc mc sp s m x cov z dt back) := by
  unfold ukfvsCorrect
  refine OptRel.refl_map _ _ _ fun covS => OptRel.refl_map _ _ _ fun L => ?_
  refine OptRel.bind ((DMat.uninit_agree junk junk' s.stateSize sp.num).setCol 0 x) ?_
  rintro A B ⟨hA, hc⟩
  refine OptRel.refl_map _ _ _ fun m1 => ?_
  refine OptRel.bind ((DMat.uninit_agree junk junk' m.measurementSize sp.num).setCol 0 m1.der.h) ?_
  rintro A' B' ⟨hA', hc'⟩
  refine OptRel.bind (ukfvsCorrectLoop_agree s L x dt s.activeStateSize 0 (DVec.zero s.stateSize) m1 A B A' B' (by omega)
    (hA.mono ?_) (hA'.mono ?_)) ?_
  · intro j hj; unfold written at hj; right; omega
  · intro j hj; unfold written at hj; right; omega
  · rintro ⟨m2, A2, A2'⟩ ⟨m2', B2, B2'⟩ ⟨h2, ⟨hA2, hc2⟩, hA2', hc2'⟩
    dsimp only at h2 hA2 hc2 hA2' hc2' ⊢
    have hcols : A2.cols = 2 * s.activeStateSize + 1 := by rw [hc2, hc, ← hn]; rfl
    have hcols' : A2'.cols = 2 * s.activeStateSize + 1 := by rw [hc2', hc', ← hn]; rfl
    have e1 := hA2.eq (by intro j hj; unfold written; omega)
    have e2 := hA2'.eq (by intro j hj; unfold written; omega)
    subst h2 e1 e2
    refine OptRel.refl_map _ _ _ fun _ => OptRel.refl_map _ _ _ fun _ => OptRel.refl_map _ _ _ fun _ =>
      OptRel.refl_map _ _ _ fun _ => OptRel.refl_map _ _ _ fun _ => OptRel.refl_map _ _ _ fun _ =>
      OptRel.refl_map _ _ _ fun _ => OptRel.refl_map _ _ _ fun _ => OptRel.refl_map _ _ _ fun _ =>
      OptRel.refl_map _ _ _ fun _ => OptRel.refl_map _ _ _ fun _ => OptRel.refl_map _ _ _ fun _ =>
      OptRel.refl_map _ _ _ fun _ => OptRel.refl_map _ _ _ fun _ => OptRel.refl_map _ _ _ fun _ => ?_
    exact ⟨rfl, m2, rfl⟩

end ukfvs

section plants

variable {DS XS DM XM : Type} [DecidableEq K] [TimeOps T]

theorem OptRel.map_self {α β : Type} {R : β → β → Prop} (o : Option α) (f : α → β)
    (h : ∀ a, o = Option.some a → R (f a) (f a)) : OptRel False R (o.map f) (o.map f) := by
  cases o
  · exact not_false
  · exact h _ rfl

theorem OptRel.self {α : Type} {R : α → α → Prop} (o : Option α) (h : ∀ a, o = Option.some a → R a a) : OptRel False R o o := by
  cases o
  · exact not_false
  · exact h _ rfl

/-- Two plants that only differ in what uninitialised memory holds. -/
theorem mkPlantWith_junk {sc : SysClass T DS XS} {mc : K → MeasClass T DM XM}
    {predict predict' : O → Env K DS XS DM XM → DVec → DMat → DVec → T → Option (DVec × DMat × Env K DS XS DM XM)}
    {correct correct' : O → Env K DS XS DM XM → DVec → DMat → DVec → K → T → Option (DVec × DMat × Env K DS XS DM XM)}
    (hk : ∀ s x u s', sc.processStationary s x u = some s' → s'.fm = s.fm) (G : FilterModel → O → Prop)
    (hp : ∀ o e x c u dt, G e.sys.fm o →
      OptRel False (fun r q => r = q ∧ r.2.2.sys.fm = e.sys.fm) (predict o e x c u dt) (predict' o e x c u dt))
    (hc : ∀ o e x c z k dt, G e.sys.fm o →
      OptRel False (fun r q => r = q ∧ r.2.2.sys.fm = e.sys.fm) (correct o e x c z k dt) (correct' o e x c z k dt)) :
    PlantSim (mkPlantWith sc mc predict correct) (mkPlantWith sc mc predict' correct') False (fun _ _ => True)
      (fun e e' => e = e' ∧ G e.1.sys.fm e.2) (fun _ => True) (fun _ => True) (fun _ _ _ => True) where
  vsize := rfl
  emptyV := rfl
  zeroV := rfl
  empty := rfl
  controlSize := by rintro e _ ⟨rfl, _⟩; rfl
  rc := by rintro e _ ⟨rfl, _⟩; exact ⟨rfl, trivial⟩
  zero := fun _ _ _ => trivial
  setRc := by
    rintro e _ c ⟨rfl, he⟩ -
    refine OptRel.map_self _ _ fun a ha => ⟨rfl, ?_⟩
    obtain ⟨s, hs, rfl⟩ := Option.map_eq_some_iff.mp ha
    unfold Sys.setControlCovariance at hs
    split at hs
    · injection hs with hs
      subst hs
      exact he
    · cases hs
  sysSt := by rintro e _ x c d ⟨rfl, _⟩ -; rfl
  predict := by
    rintro e _ x c u dt ⟨rfl, he⟩ - -
    refine OptRel.map (hp e.2 e.1 x c u dt he) ?_
    rintro r q ⟨rfl, hr⟩
    exact ⟨rfl, rfl, trivial, rfl, by rw [hr]; exact he⟩
  sysStationary := by
    rintro e _ x c d ⟨rfl, he⟩ - -
    refine OptRel.map_self _ _ fun a ha => ?_
    obtain ⟨s, hs, rfl⟩ := Option.map_eq_some_iff.mp ha
    refine ⟨⟨rfl, ?_⟩, OptRel.self _ fun _ _ => ⟨rfl, trivial⟩⟩
    show G s.fm e.2
    rw [hk _ _ _ _ hs]; exact he
  setMeasCov := by
    rintro e _ m z c ⟨rfl, he⟩ -
    refine OptRel.map_self _ _ fun a ha => ?_
    obtain ⟨s, hs, rfl⟩ := Option.map_eq_some_iff.mp ha
    refine ⟨⟨rfl, he⟩, fun x p _ => rfl, ?_, ?_⟩
    · intro x p dt _
      refine OptRel.map (hc e.2 (e.1.setMeas m s) x p z m dt he) ?_
      rintro r q ⟨rfl, hr⟩
      exact ⟨rfl, rfl, trivial, rfl, by rw [hr]; exact he⟩
    · intro x p _
      refine OptRel.map_self _ _ fun a ha => ?_
      obtain ⟨s', hs', rfl⟩ := Option.map_eq_some_iff.mp ha
      exact ⟨⟨rfl, he⟩, OptRel.self _ fun _ _ => ⟨rfl, trivial⟩⟩

variable {X Y : Type}

theorem ukf_junk {sc : SysClass T NonlinSysData X} {mc : K → MeasClass T NonlinMeasData Y} (hk : sc.KeepsModel)
    (llt : DMat → Option DMat) (junk junk' : Nat → Nat → ℝ) :
    PlantSim (ukfPlant llt junk sc mc) (ukfPlant llt junk' sc mc) False (fun _ _ => True)
      (fun e e' => e = e' ∧ FitsStates e) (fun _ => True) (fun _ => True) (fun _ _ _ => True) := by
  refine mkPlantWith_junk hk.stationary (fun fm (o : SigmaParams) => o.num = 2 * fm.stateDims + 1) ?_ ?_
  · intro o e x c u dt h
    refine OptRel.mono (ukfPredict_junk hk llt junk junk' h x c u dt _) ?_
    rintro r q ⟨rfl, s', hs', hf⟩
    exact ⟨rfl, by rw [hs']; exact hf⟩
  · intro o e x c z k dt h
    refine OptRel.mono (ukfCorrect_junk llt junk junk' h (e.meas k) x c z dt _) ?_
    rintro r q ⟨rfl, m', hm'⟩
    exact ⟨rfl, by rw [hm']; rfl⟩

theorem ukfvs_junk {sc : SysClass T NonlinSysData X} {mc : K → MeasClass T NonlinMeasData Y} (hk : sc.KeepsModel)
    (llt : DMat → Option DMat) (junk junk' : Nat → Nat → ℝ) :
    PlantSim (ukfvsPlant llt junk sc mc) (ukfvsPlant llt junk' sc mc) False (fun _ _ => True)
      (fun e e' => e = e' ∧ FitsActive e) (fun _ => True) (fun _ => True) (fun _ _ _ => True) := by
  refine mkPlantWith_junk hk.stationary (fun fm (o : SigmaParams) => o.num = 2 * fm.activeStateSize + 1) ?_ ?_
  · intro o e x c u dt h
    refine OptRel.mono (ukfvsPredict_junk hk llt junk junk' h x c u dt _) ?_
    rintro r q ⟨rfl, s', hs', hf⟩
    exact ⟨rfl, by rw [hs']; exact hf⟩
  · intro o e x c z k dt h
    refine OptRel.mono (ukfvsCorrect_junk llt junk junk' h (e.meas k) x c z dt _) ?_
    rintro r q ⟨rfl, m', hm'⟩
    exact ⟨rfl, by rw [hm']; rfl⟩

end plants

end StateEstimation
