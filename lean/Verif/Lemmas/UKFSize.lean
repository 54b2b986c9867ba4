import Verif.Lemmas.UKFApi
import Verif.Lemmas.VSSteps

/-! # Sizes in the UKF, for arbitrary vector operations -/

set_option linter.unusedSectionVars false

namespace StateEstimation

open Matrix

variable {T X Y Z : Type} {n m k N : Nat}

theorem bind_elim {α β : Type} {a : Option α} {f : α → Option β} {v : α} {r : Option β} (h : a = some v) (H : a.bind f = r) :
    f v = r := by
  rw [h] at H; exact H

/-- The factor of an `n × n` matrix is `n × n`. -/
def LltSize (llt : DMat → Option DMat) : Prop := ∀ (A L : DMat) (n : Nat), A.Is n n → llt A = some L → L.Is n n

/-- The sigma point parameters have the right sizes. -/
structure SigmaSized (n : Nat) (sp : SigmaParams) : Prop where
  num : sp.num = 2 * n + 1
  wMean : sp.wMean.size = 2 * n + 1
  wCov : sp.wCov.size = 2 * n + 1

theorem setSigma_sized {a b c : ℝ} {sp : SigmaParams} (h : setSigma n n a b c = some sp) : SigmaSized n sp := by
  unfold setSigma at h
  dsimp only at h
  split at h
  · cases h
  · simp only [Option.bind_eq_bind, Option.bind_eq_some_iff] at h
    obtain ⟨w, h1, m0, h2, w', h3, h4⟩ := h
    injection h4 with h4
    subst h4
    unfold DVec.set? at h1 h3
    rw [if_pos (by simp [DVec.const])] at h1
    rw [if_pos (by simp [DVec.const])] at h3
    injection h1 with h1
    injection h3 with h3
    subst h1 h3
    exact ⟨rfl, rfl, rfl⟩

theorem DMat.col_is {A : DMat} {r c : Nat} (h : A.Is r c) {j : Nat} (hj : j < c) : ∃ v, A.col? j = some v ∧ v.size = r := by
  obtain ⟨B, rfl⟩ := h.exists_of
  exact ⟨_, by unfold DMat.col?; rw [dif_pos hj], rfl⟩

theorem DMat.setCol_is {A : DMat} {r c : Nat} (h : A.Is r c) {j : Nat} (hj : j < c) {v : DVec} (hv : v.size = r) :
    ∃ B, A.setCol? j v = some B ∧ B.Is r c := by
  obtain ⟨A, rfl⟩ := h.exists_of
  exact ⟨_, by unfold DMat.setCol?; rw [dif_pos ⟨hj, hv.symm⟩], ⟨rfl, rfl⟩⟩

theorem DVec.get_is {v : DVec} {j : Nat} (h : j < v.size) : ∃ c, v.get? j = some c := by
  unfold DVec.get?; rw [dif_pos h]; exact ⟨_, rfl⟩

theorem DMat.add_is {A B : DMat} {r c : Nat} (h : A.Is r c) (h' : B.Is r c) : ∃ C, A.add B = some C ∧ C.Is r c := by
  obtain ⟨A, rfl⟩ := h.exists_of
  obtain ⟨B, rfl⟩ := h'.exists_of
  exact ⟨_, DMat.add_of A B, rfl, rfl⟩

theorem DMat.sub_is {A B : DMat} {r c : Nat} (h : A.Is r c) (h' : B.Is r c) : ∃ C, A.sub B = some C ∧ C.Is r c := by
  obtain ⟨A, rfl⟩ := h.exists_of
  obtain ⟨B, rfl⟩ := h'.exists_of
  exact ⟨_, DMat.sub_of A B, rfl, rfl⟩

theorem DMat.mul_is {A B : DMat} {r q c : Nat} (h : A.Is r q) (h' : B.Is q c) : ∃ C, A.mul B = some C ∧ C.Is r c := by
  obtain ⟨A, rfl⟩ := h.exists_of
  obtain ⟨B, rfl⟩ := h'.exists_of
  exact ⟨_, DMat.mul_of A B, rfl, rfl⟩

theorem DMat.mulVec_is {A : DMat} {v : DVec} {r c : Nat} (h : A.Is r c) (h' : v.size = c) : ∃ w, A.mulVec v = some w ∧ w.size = r := by
  obtain ⟨A, rfl⟩ := h.exists_of
  obtain ⟨v, rfl⟩ := v.exists_of h'
  exact ⟨_, DMat.mulVec_of A v, rfl⟩

theorem DMat.Is.transpose {A : DMat} {r c : Nat} (h : A.Is r c) : A.transpose.Is c r := ⟨h.2, h.1⟩

theorem covLoop_is {w : DVec} {f : Nat → Option (DVec × DVec)} {r c : Nat} (hw : w.size = N)
    (hf : ∀ i < N, ∃ a b, f i = some (a, b) ∧ a.size = r ∧ b.size = c) : ∀ (fuel i : Nat) (acc : DMat), i + fuel = N → acc.Is r c →
    ∃ B, covLoop w f fuel i acc = some B ∧ B.Is r c := by
  intro fuel
  induction fuel with
  | zero => intro i acc _ h; exact ⟨acc, rfl, h⟩
  | succ fuel ih =>
    intro i acc hi hacc
    obtain ⟨a, b, h1, h2, h3⟩ := hf i (by omega)
    obtain ⟨wi, h4⟩ := w.get_is (j := i) (by omega)
    obtain ⟨B, h5, h6⟩ := DMat.add_is hacc (B := DMat.outer (a.smul wi) b) ⟨h2, h3⟩
    obtain ⟨C, h7, h8⟩ := ih (i + 1) B (by omega) h6
    exact ⟨C, bind_step h1 (bind_step h4 (bind_step h5 h7)), h8⟩

theorem noiseCov_is {P Rp V Rc : DMat} {p : Nat} (h1 : P.Is n p) (h2 : Rp.Is p p) (h3 : V.Is n m) (h4 : Rc.Is m m) :
    ∃ A, noiseCov P Rp V Rc = some A ∧ A.Is n n := by
  obtain ⟨P, rfl⟩ := h1.exists_of
  obtain ⟨Rp, rfl⟩ := h2.exists_of
  obtain ⟨V, rfl⟩ := h3.exists_of
  obtain ⟨Rc, rfl⟩ := h4.exists_of
  exact ⟨_, noiseCov_of P Rp V Rc, rfl, rfl⟩

section
variable {sc : SysClass T NonlinSysData X} (hsc : SysContract NonlinSysData.Sized sc)
  {mc : MeasClass T NonlinMeasData Y} (hmc : MeasContract NonlinMeasData.Sized mc)

include hsc in
theorem ukfPredictLoop_is (s0 : Sys NonlinSysData X) {L : DMat} (hL : L.Is n n) {x u : DVec} (hx : x.size = n) (hu : u.size = m)
    (dt : T) : ∀ (fuel i : Nat) (s : Sys NonlinSysData X) (pts : DMat), i + fuel = n →
    s.Sized NonlinSysData.Sized n m → s0.SameConfig s → pts.Is n (2 * n + 1) →
    ∃ s' pts', ukfPredictLoop sc L x u dt fuel i s pts = some (s', pts') ∧
      s'.Sized NonlinSysData.Sized n m ∧ s0.SameConfig s' ∧ pts'.Is n (2 * n + 1) := by
  intro fuel
  induction fuel with
  | zero => intro i s pts _ h1 h2 h3; exact ⟨s, pts, rfl, h1, h2, h3⟩
  | succ fuel ih =>
    intro i s pts hi hs hc hp
    obtain ⟨c, a1, a2⟩ := DMat.col_is hL (j := i) (by omega)
    obtain ⟨xh, b1, b2⟩ := hsc.add s x c hs hx a2
    obtain ⟨s1, c1, c2, c3⟩ := hs.update hsc b2 hu dt
    obtain ⟨p1, d1, d2⟩ := DMat.setCol_is hp (j := i + 1) (by omega) c2.der.1
    obtain ⟨xl, e1, e2⟩ := hsc.sub s1 x c c2 hx a2
    obtain ⟨s2, f1, f2, f3⟩ := c2.update hsc e2 hu dt
    obtain ⟨p2, g1, g2⟩ := DMat.setCol_is d2 (j := i + 1 + s2.stateSize) (by rw [f2.states]; omega) f2.der.1
    obtain ⟨s', pts', h1, h2⟩ := ih (i + 1) s2 p2 (by omega) f2 (hc.trans (c3.trans f3)) g2
    exact ⟨s', pts', bind_step a1 (bind_step b1 (bind_step c1 (bind_step d1 (bind_step e1 (bind_step f1 (bind_step g1 h1)))))), h2⟩

include hsc in
/-- A UKF prediction on well-sized arguments succeeds iff the factorisation does, and the result is well-sized. -/
theorem ukfPredict_is {llt : DMat → Option DMat} (hllt : LltSize llt) (junk : Nat → Nat → ℝ) {s : Sys NonlinSysData X}
    (hs : s.Sized NonlinSysData.Sized n m) {sp : SigmaParams} (hsp : SigmaSized n sp) {x u : DVec} {cov : DMat}
    (hx : Estimate n x cov) (hu : u.size = m) (dt : T) (back : Sys NonlinSysData X → Z)
    {L : DMat} (hL : llt (cov.smul (s.stateSize + sp.lambda)) = some L) :
    ∃ r, ukfPredict llt junk sc sp s x cov u dt back = some r ∧
    Estimate n r.1 r.2.1 ∧ ∃ s', r.2.2 = back s' ∧ s'.Sized NonlinSysData.Sized n m ∧ s.SameConfig s' := by
  have hLs := hllt (cov.smul (s.stateSize + sp.lambda)) L n hx.2 hL
  obtain ⟨s1, c1, c2, c3⟩ := hs.update hsc hx.1 hu dt
  obtain ⟨p1, d1, d2⟩ := DMat.setCol_is (A := DMat.uninit junk s.stateSize sp.num) (r := n) (c := 2 * n + 1)
    ⟨hs.states, hsp.num⟩ (j := 0) (by omega) c2.der.1
  obtain ⟨s2, p2, e1, e2, e3, e4⟩ := ukfPredictLoop_is hsc s hLs hx.1 hu dt n 0 s1 p1 (by omega) c2 c3 d2
  obtain ⟨x', f1, f2⟩ := hsc.wsum s2 sp.wMean p2 e2 (by rw [hsp.wMean]; exact e4)
  obtain ⟨cov1, g1, g2⟩ := noiseCov_is e2.P e2.Rp e2.V e2.Rc
  obtain ⟨cov2, h1, h2⟩ := covLoop_is (f := fun i => do
    let c ← p2.col? i
    let dx ← sc.sub s2 c x'
    some (dx, dx)) (r := n) (c := n) hsp.wCov (fun i hi => by
      obtain ⟨c, k1, k2⟩ := DMat.col_is e4 hi
      obtain ⟨d, l1, l2⟩ := hsc.sub s2 c x' e2 k2 f2
      exact ⟨d, d, bind_step k1 (bind_step l1 rfl), l2, l2⟩) (2 * n + 1) 0 cov1 (by omega) g2
  refine ⟨(x', cov2, back s2), ?_, ⟨f2, h2⟩, s2, rfl, e2, e3⟩
  unfold ukfPredict
  refine bind_step hL (bind_step c1 (bind_step d1 (bind_step (by rw [c2.states]; exact e1) (bind_step f1 (bind_step g1
    (bind_step (by rw [hsp.num]; exact h1) rfl))))))

include hsc hmc in
theorem ukfCorrectLoop_is {s : Sys NonlinSysData X} (hs : s.Sized NonlinSysData.Sized n m) (m0 : Meas NonlinMeasData Y)
    {L : DMat} (hL : L.Is n n) {x : DVec} (hx : x.size = n)
    (dt : T) : ∀ (fuel i : Nat) (ms : Meas NonlinMeasData Y) (pts obs : DMat), i + fuel = n →
    ms.Sized NonlinMeasData.Sized n k → m0.SameConfig ms → pts.Is n (2 * n + 1) → obs.Is k (2 * n + 1) →
    ∃ ms' pts' obs', ukfCorrectLoop sc mc s L x dt fuel i ms pts obs = some (ms', pts', obs') ∧
      ms'.Sized NonlinMeasData.Sized n k ∧ m0.SameConfig ms' ∧ pts'.Is n (2 * n + 1) ∧ obs'.Is k (2 * n + 1) := by
  intro fuel
  induction fuel with
  | zero => intro i s pts obs _ h1 h2 h3 h4; exact ⟨s, pts, obs, rfl, h1, h2, h3, h4⟩
  | succ fuel ih =>
    intro i ms pts obs hi hms hc hp ho
    have hst := hs.states
    obtain ⟨c, a1, a2⟩ := DMat.col_is hL (j := i) (by omega)
    obtain ⟨xh, b1, b2⟩ := hsc.add s x c hs hx a2
    obtain ⟨p1, d1, d2⟩ := DMat.setCol_is hp (j := i + 1) (by omega) b2
    obtain ⟨q1, q2, q3⟩ := DMat.col_is d2 (j := i + 1) (by omega)
    obtain ⟨m1, c1, c2, c3⟩ := hms.update hmc q3 dt
    obtain ⟨o1, o2, o3⟩ := DMat.setCol_is ho (j := i + 1) (by omega) c2.der.1
    obtain ⟨xl, e1, e2⟩ := hsc.sub s x c hs hx a2
    obtain ⟨p2, g1, g2⟩ := DMat.setCol_is d2 (j := i + 1 + s.stateSize) (by omega) e2
    obtain ⟨r1, r2, r3⟩ := DMat.col_is g2 (j := i + 1 + s.stateSize) (by omega)
    obtain ⟨m2, f1, f2, f3⟩ := c2.update hmc r3 dt
    obtain ⟨u1, u2, u3⟩ := DMat.setCol_is o3 (j := i + 1 + s.stateSize) (by omega) f2.der.1
    obtain ⟨ms', pts', obs', h1, h2⟩ := ih (i + 1) m2 p2 u1 (by omega) f2 (hc.trans (c3.trans f3)) g2 u3
    exact ⟨ms', pts', obs', bind_step a1 (bind_step b1 (bind_step d1 (bind_step q2 (bind_step c1 (bind_step o2 (bind_step e1
      (bind_step g1 (bind_step r2 (bind_step f1 (bind_step u2 h1)))))))))), h2⟩

include hsc hmc in
/-- A UKF correction on well-sized arguments has a well-sized result, if it succeeds. -/
theorem ukfCorrect_size {llt : DMat → Option DMat} (hllt : LltSize llt) (junk : Nat → Nat → ℝ) {s : Sys NonlinSysData X}
    (hs : s.Sized NonlinSysData.Sized n m) {ms : Meas NonlinMeasData Y} (hms : ms.Sized NonlinMeasData.Sized n k)
    {sp : SigmaParams} (hsp : SigmaSized n sp) {x z : DVec} {cov : DMat}
    (hx : Estimate n x cov) (hz : z.size = k) (dt : T) (back : Meas NonlinMeasData Y → Z)
    {r} (h : ukfCorrect llt junk sc mc sp s ms x cov z dt back = some r) :
    Estimate n r.1 r.2.1 ∧ ∃ m', r.2.2 = back m' ∧ m'.Sized NonlinMeasData.Sized n k ∧ ms.SameConfig m' := by
  unfold ukfCorrect at h
  rw [Option.bind_eq_bind, Option.bind_eq_some_iff] at h
  obtain ⟨L, hL, h⟩ := h
  have hLs := hllt (cov.smul (s.stateSize + sp.lambda)) L n hx.2 hL
  obtain ⟨p1, d1, d2⟩ := DMat.setCol_is (A := DMat.uninit junk s.stateSize sp.num) (r := n) (c := 2 * n + 1)
    ⟨hs.states, hsp.num⟩ (j := 0) (by omega) hx.1
  obtain ⟨m1, c1, c2, c3⟩ := hms.update hmc hx.1 dt
  obtain ⟨o1, o2, o3⟩ := DMat.setCol_is (A := DMat.uninit junk ms.measurementSize sp.num) (r := k) (c := 2 * n + 1)
    ⟨hms.meas, hsp.num⟩ (j := 0) (by omega) c2.der.1
  obtain ⟨m2, p2, obs2, e1, e2, e3, e4, e5⟩ := ukfCorrectLoop_is hsc hmc hs ms hLs hx.1 dt n 0 m1 p1 o1 (by omega) c2 c3 d2 o3
  obtain ⟨zp, f1, f2⟩ := hmc.wsum m2 sp.wMean obs2 e2 (by rw [hsp.wMean]; exact e5)
  have hst : s.stateSize = n := hs.states
  obtain ⟨S, g1, g2⟩ := covLoop_is (f := fun i => do
    let c ← obs2.col? i
    let dz ← mc.sub m2 c zp
    some (dz, dz)) (r := k) (c := k) hsp.wCov (fun i hi => by
      obtain ⟨c, k1, k2⟩ := DMat.col_is e5 hi
      obtain ⟨d, l1, l2⟩ := hmc.sub m2 c zp e2 k2 f2
      exact ⟨d, d, bind_step k1 (bind_step l1 rfl), l2, l2⟩) (2 * n + 1) 0 m2.cov (by omega) e2.cov
  obtain ⟨D, D1, D2⟩ := covLoop_is (f := fun i => do
    let p ← p2.col? i
    let p0 ← p2.col? 0
    let dx ← sc.sub s p p0
    let c ← obs2.col? i
    let dz ← mc.sub m2 c zp
    some (dx, dz)) (r := n) (c := k) hsp.wCov (fun i hi => by
      obtain ⟨p, a1, a2⟩ := DMat.col_is e4 hi
      obtain ⟨p0, b1, b2⟩ := DMat.col_is e4 (j := 0) (by omega)
      obtain ⟨dx, u1, u2⟩ := hsc.sub s p p0 hs a2 b2
      obtain ⟨c, k1, k2⟩ := DMat.col_is e5 hi
      obtain ⟨d, l1, l2⟩ := hmc.sub m2 c zp e2 k2 f2
      exact ⟨dx, d, bind_step a1 (bind_step b1 (bind_step u1 (bind_step k1 (bind_step l1 rfl)))), u2, l2⟩) (2 * n + 1) 0
      (DMat.zero m2.stateSize m2.measurementSize) (by omega) ⟨e2.states, e2.meas⟩
  dsimp only at h
  rw [hst, hsp.num] at h
  replace h := bind_elim (v := p1) (by rw [← hsp.num, ← hst]; exact d1) h
  replace h := bind_elim c1 h
  replace h := bind_elim (v := o1) (by rw [← hsp.num]; exact o2) h
  replace h := bind_elim e1 h
  replace h := bind_elim f1 h
  replace h := bind_elim g1 h
  replace h := bind_elim D1 h
  simp only [Option.bind_eq_bind, Option.bind_eq_some_iff] at h
  obtain ⟨Si, h1, G, h2, dz, h3, dx, h4, x', h5, GS, h6, GSG, h7, cov', h8, h9⟩ := h
  injection h9 with h9
  subst h9
  have a2 := DMat.mul_eq_some h2
  have a4 := DMat.mulVec_eq_some h4
  have a8 := DMat.sub_eq_some h8
  obtain ⟨q, hq, hq2⟩ := hsc.add s x dx hs hx.1 (by rw [a4.2, a2.2.1, D2.1])
  rw [h5] at hq
  injection hq with hq
  subst hq
  exact ⟨⟨hq2, by dsimp only; rw [a8.2.2.1, hx.2.1], by dsimp only; rw [a8.2.2.2, hx.2.2]⟩, m2, rfl, e2, e3⟩

end

end StateEstimation
