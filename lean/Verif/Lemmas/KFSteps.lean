import Verif.Model.KF
import Verif.Lemmas.Kalman
import Verif.Lemmas.Numeric

/-! # One step of the Kalman filter and the EKF on well-sized arguments -/

set_option linter.unusedSectionVars false

namespace StateEstimation

open Matrix Kalman

variable {T K X Y : Type} {n m k p : Nat}

theorem propagateCov_of (A cov : Matrix (Fin n) (Fin n) ℝ) (P : Matrix (Fin n) (Fin p) ℝ) (Rp : Matrix (Fin p) (Fin p) ℝ)
    (V : Matrix (Fin n) (Fin m) ℝ) (Rc : Matrix (Fin m) (Fin m) ℝ) :
    propagateCov (.of A) (.of cov) (.of P) (.of Rp) (.of V) (.of Rc)
      = some (.of (A * cov * Aᵀ + P * Rp * Pᵀ + V * Rc * Vᵀ)) := by
  unfold propagateCov
  simp only [Option.bind_eq_bind, DMat.mul_of, Option.bind_some, DMat.transpose_of, DMat.add_of]

theorem kalmanGain_of (cov : Matrix (Fin n) (Fin n) ℝ) (C : Matrix (Fin k) (Fin n) ℝ) (R : Matrix (Fin k) (Fin k) ℝ)
    (h : IsUnit (innov cov C R).det) : kalmanGain (.of cov) (.of C) (.of R) = some (.of (gain cov C R)) := by
  unfold kalmanGain
  simp only [Option.bind_eq_bind, DMat.mul_of, Option.bind_some, DMat.transpose_of, DMat.add_of]
  have h' : IsUnit (C * (cov * Cᵀ) + R).det := h
  rw [DMat.inverse_of _ h']
  simp only [Option.bind_some, DMat.mul_of]
  rfl

theorem shrinkCov_of (G : Matrix (Fin n) (Fin k) ℝ) (C : Matrix (Fin k) (Fin n) ℝ) (cov : Matrix (Fin n) (Fin n) ℝ) :
    shrinkCov n (.of G) (.of C) (.of cov) = some (.of ((1 - G * C) * cov)) := by
  unfold shrinkCov
  simp only [Option.bind_eq_bind, DMat.mul_of, Option.bind_some, DMat.identity_of, DMat.sub_of]

theorem propagateCov_some {A cov P Rp V Rc r : DMat} (h : propagateCov A cov P Rp V Rc = some r) :
    r.rows = A.rows ∧ r.cols = A.rows := by
  unfold propagateCov at h
  simp only [Option.bind_eq_bind, Option.bind_eq_some_iff] at h
  obtain ⟨a, h1, b, h2, c, h3, d, h4, e, h5, f, h6, g, h7, h8⟩ := h
  have a1 := DMat.mul_eq_some h1
  have a2 := DMat.mul_eq_some h2
  have a7 := DMat.add_eq_some h7
  have a8 := DMat.add_eq_some h8
  have : A.transpose.cols = A.rows := rfl
  omega

theorem shrinkCov_some {n : Nat} {G C cov r : DMat} (h : shrinkCov n G C cov = some r) :
    r.rows = n ∧ r.cols = cov.cols := by
  unfold shrinkCov at h
  simp only [Option.bind_eq_bind, Option.bind_eq_some_iff] at h
  obtain ⟨a, h1, b, h2, h3⟩ := h
  have a2 := DMat.sub_eq_some h2
  have a3 := DMat.mul_eq_some h3
  have : (DMat.identity n).rows = n := rfl
  omega

theorem kalmanGain_some {cov C R r : DMat} (h : kalmanGain cov C R = some r) :
    r.rows = cov.rows ∧ r.cols = C.rows := by
  unfold kalmanGain at h
  simp only [Option.bind_eq_bind, Option.bind_eq_some_iff] at h
  obtain ⟨a, h1, b, h2, c, h3, d, h4, h5⟩ := h
  have a1 := DMat.mul_eq_some h1
  have a2 := DMat.mul_eq_some h2
  have a3 := DMat.add_eq_some h3
  have a4 := DMat.inverse_eq_some h4
  have a5 := DMat.mul_eq_some h5
  have : C.transpose.cols = C.rows := rfl
  omega

theorem Sys.Sized.update {D X : Type} {dz : Nat → Nat → D → Prop} {sc : SysClass T D X} (hsc : SysContract dz sc) {s : Sys D X}
    (hs : s.Sized dz n m) {x u : DVec} (hx : x.size = n) (hu : u.size = m) (dt : T) :
    ∃ s', s.update sc x u dt = some s' ∧ s'.Sized dz n m ∧ s.SameConfig s' := by
  unfold Sys.update
  rw [if_pos ⟨by rw [hs.states]; exact hx, by rw [hs.controls]; exact hu⟩]
  exact hsc.update s x u dt hs hx hu

theorem Meas.Sized.update {D X : Type} {dz : Nat → Nat → D → Prop} {mc : MeasClass T D X} (hmc : MeasContract dz mc) {s : Meas D X}
    (hs : s.Sized dz n k) {x : DVec} (hx : x.size = n) (dt : T) :
    ∃ s', s.update mc x dt = some s' ∧ s'.Sized dz n k ∧ s.SameConfig s' := by
  unfold Meas.update
  rw [if_pos (by rw [hs.states]; exact hx)]
  exact hmc.update s x dt hs hx

/-- Noise covariances of a well-sized system as typed matrices. -/
theorem Sys.Sized.noise {D X : Type} {dz : Nat → Nat → D → Prop} {s : Sys D X} (hs : s.Sized dz n m) :
    ∃ (p : Nat) (P : Matrix (Fin n) (Fin p) ℝ) (Rp : Matrix (Fin p) (Fin p) ℝ) (V : Matrix (Fin n) (Fin m) ℝ)
      (Rc : Matrix (Fin m) (Fin m) ℝ), s.P = .of P ∧ s.Rp = .of Rp ∧ s.V = .of V ∧ s.Rc = .of Rc := by
  obtain ⟨P, hP⟩ := hs.P.exists_of
  obtain ⟨Rp, hRp⟩ := hs.Rp.exists_of
  obtain ⟨V, hV⟩ := hs.V.exists_of
  obtain ⟨Rc, hRc⟩ := hs.Rc.exists_of
  exact ⟨s.Rp.rows, P, Rp, V, Rc, hP, hRp, hV, hRc⟩

theorem propagate_psd {A cov : Matrix (Fin n) (Fin n) ℝ} {P : Matrix (Fin n) (Fin p) ℝ} {Rp : Matrix (Fin p) (Fin p) ℝ}
    {V : Matrix (Fin n) (Fin m) ℝ} {Rc : Matrix (Fin m) (Fin m) ℝ} (h1 : cov.PosSemidef) (h2 : Rp.PosSemidef)
    (h3 : Rc.PosSemidef) : (A * cov * Aᵀ + P * Rp * Pᵀ + V * Rc * Vᵀ).PosSemidef :=
  ((psd_conj h1 A).add (psd_conj h2 P)).add (psd_conj h3 V)

/-- `myPredict` of the Kalman filter succeeds and keeps the estimate well-formed. -/
theorem kfPredict_psd {Z : Type} {sc : SysClass T LinSysData X} (hsc : SysContract LinSysData.Sized sc) {s : Sys LinSysData X}
    (hs : s.Sized LinSysData.Sized n m) (h1 : s.Rp.PSD) (h2 : s.Rc.PSD) {x u : DVec} {cov : DMat}
    (hx : EstimatePSD n x cov) (hu : u.size = m) (dt : T) (back : Sys LinSysData X → Z) :
    ∃ s' x' cov', kfPredict sc s x cov u dt back = some (x', cov', back s') ∧ EstimatePSD n x' cov' ∧
      s'.Sized LinSysData.Sized n m ∧ s.SameConfig s' := by
  obtain ⟨⟨hx1, hx2⟩, hx3⟩ := hx
  obtain ⟨s', e1, hs', hc⟩ := hs.update hsc hx1 hu dt
  obtain ⟨x, rfl⟩ := x.exists_of hx1
  obtain ⟨u, rfl⟩ := u.exists_of hu
  obtain ⟨cov, rfl⟩ := hx2.exists_of
  obtain ⟨A, hA⟩ := hs'.der.1.exists_of
  obtain ⟨B, hB⟩ := hs'.der.2.exists_of
  obtain ⟨p, P, Rp, V, Rc, hP, hRp, hV, hRc⟩ := hs'.noise
  obtain ⟨r, hr, hr2⟩ := hsc.add s' (.of (A *ᵥ x)) (.of (B *ᵥ u)) hs' rfl rfl
  refine ⟨s', r, .of (A * cov * Aᵀ + P * Rp * Pᵀ + V * Rc * Vᵀ), ?_, ⟨⟨hr2, rfl, rfl⟩, ?_⟩, hs', hc⟩
  · unfold kfPredict
    simp only [Option.bind_eq_bind, e1, Option.bind_some, hA, hB, hP, hRp, hV, hRc, DMat.mulVec_of, hr, propagateCov_of]
  · rw [DMat.PSD_of]
    rw [← hc.Rp, hRp, DMat.PSD_of] at h1
    rw [← hc.Rc, hRc, DMat.PSD_of] at h2
    exact propagate_psd (DMat.PSD_of.mp hx3) h1 h2

/-- `myPredict` of the EKF succeeds and keeps the estimate well-formed. -/
theorem ekfPredict_psd {Z : Type} {sc : SysClass T NonlinSysData X} (hsc : SysContract NonlinSysData.Sized sc)
    {s : Sys NonlinSysData X} (hs : s.Sized NonlinSysData.Sized n m) (h1 : s.Rp.PSD) (h2 : s.Rc.PSD) {x u : DVec} {cov : DMat}
    (hx : EstimatePSD n x cov) (hu : u.size = m) (dt : T) (back : Sys NonlinSysData X → Z) :
    ∃ s' x' cov', ekfPredict sc s x cov u dt back = some (x', cov', back s') ∧ EstimatePSD n x' cov' ∧
      s'.Sized NonlinSysData.Sized n m ∧ s.SameConfig s' := by
  obtain ⟨⟨hx1, hx2⟩, hx3⟩ := hx
  obtain ⟨s', e1, hs', hc⟩ := hs.update hsc hx1 hu dt
  obtain ⟨cov, rfl⟩ := hx2.exists_of
  obtain ⟨A, hA⟩ := hs'.der.2.exists_of
  obtain ⟨p, P, Rp, V, Rc, hP, hRp, hV, hRc⟩ := hs'.noise
  refine ⟨s', s'.der.g, .of (A * cov * Aᵀ + P * Rp * Pᵀ + V * Rc * Vᵀ), ?_, ⟨⟨hs'.der.1, rfl, rfl⟩, ?_⟩, hs', hc⟩
  · unfold ekfPredict
    simp only [Option.bind_eq_bind, e1, Option.bind_some, hA, hP, hRp, hV, hRc, propagateCov_of]
  · rw [DMat.PSD_of]
    rw [← hc.Rp, hRp, DMat.PSD_of] at h1
    rw [← hc.Rc, hRc, DMat.PSD_of] at h2
    exact propagate_psd (DMat.PSD_of.mp hx3) h1 h2

/-- `myCorrect` of the Kalman filter succeeds and keeps the estimate well-formed. -/
theorem kfCorrect_psd {Z : Type} {sc : SysClass T LinSysData X} (hsc : SysContract LinSysData.Sized sc)
    {mc : MeasClass T LinMeasData Y} (hmc : MeasContract LinMeasData.Sized mc)
    {s : Sys LinSysData X} (hs : s.Sized LinSysData.Sized n m) {ms : Meas LinMeasData Y} (hm : ms.Sized LinMeasData.Sized n k)
    (hR : ms.cov.PD) {x z : DVec} {cov : DMat} (hx : EstimatePSD n x cov) (hz : z.size = k) (dt : T)
    (back : Meas LinMeasData Y → Z) :
    ∃ m' x' cov', kfCorrect sc mc s ms x cov z dt back = some (x', cov', back m') ∧ EstimatePSD n x' cov' ∧
      m'.Sized LinMeasData.Sized n k ∧ ms.SameConfig m' ∧
      (∃ P P' : Matrix (Fin n) (Fin n) ℝ, cov = .of P ∧ cov' = .of P' ∧ (P - P').PosSemidef) := by
  obtain ⟨⟨hx1, hx2⟩, hx3⟩ := hx
  obtain ⟨m', e1, hm', hc⟩ := hm.update hmc hx1 dt
  obtain ⟨x, rfl⟩ := x.exists_of hx1
  obtain ⟨cov, rfl⟩ := hx2.exists_of
  obtain ⟨C, hC⟩ := DMat.Is.exists_of hm'.der
  obtain ⟨R, hRR⟩ := hm'.cov.exists_of
  rw [← hc.cov, hRR, DMat.PD_of] at hR
  rw [DMat.PSD_of] at hx3
  have hS := pd_isUnit_det (innov_pd hx3 C hR)
  obtain ⟨dz, hdz, hdz2⟩ := hmc.sub m' z (.of (C *ᵥ x)) hm' hz rfl
  obtain ⟨dz, rfl⟩ := dz.exists_of hdz2
  obtain ⟨r, hr, hr2⟩ := hsc.add s (.of x) (.of (gain cov C R *ᵥ dz)) hs rfl rfl
  refine ⟨m', r, .of (post cov C R), ?_, ⟨⟨hr2, rfl, rfl⟩, ?_⟩, hm', hc, cov, _, rfl, rfl, post_le hx3 C hR⟩
  · unfold kfCorrect
    simp only [Option.bind_eq_bind, e1, Option.bind_some, hC, hRR, kalmanGain_of _ _ _ hS, DMat.mulVec_of, hdz, hr,
      shrinkCov_of]
    rfl
  · rw [DMat.PSD_of]; exact post_psd hx3 C hR

/-- `myCorrect` of the EKF succeeds and keeps the estimate well-formed. -/
theorem ekfCorrect_psd {Z : Type} {sc : SysClass T NonlinSysData X} (hsc : SysContract NonlinSysData.Sized sc)
    {mc : MeasClass T NonlinMeasData Y} (hmc : MeasContract NonlinMeasData.Sized mc)
    {s : Sys NonlinSysData X} (hs : s.Sized NonlinSysData.Sized n m) {ms : Meas NonlinMeasData Y}
    (hm : ms.Sized NonlinMeasData.Sized n k)
    (hR : ms.cov.PD) {x z : DVec} {cov : DMat} (hx : EstimatePSD n x cov) (hz : z.size = k) (dt : T)
    (back : Meas NonlinMeasData Y → Z) :
    ∃ m' x' cov', ekfCorrect sc mc s ms x cov z dt back = some (x', cov', back m') ∧ EstimatePSD n x' cov' ∧
      m'.Sized NonlinMeasData.Sized n k ∧ ms.SameConfig m' ∧
      (∃ P P' : Matrix (Fin n) (Fin n) ℝ, cov = .of P ∧ cov' = .of P' ∧ (P - P').PosSemidef) := by
  obtain ⟨⟨hx1, hx2⟩, hx3⟩ := hx
  obtain ⟨m', e1, hm', hc⟩ := hm.update hmc hx1 dt
  obtain ⟨x, rfl⟩ := x.exists_of hx1
  obtain ⟨cov, rfl⟩ := hx2.exists_of
  obtain ⟨C, hC⟩ := hm'.der.2.exists_of
  obtain ⟨R, hRR⟩ := hm'.cov.exists_of
  rw [← hc.cov, hRR, DMat.PD_of] at hR
  rw [DMat.PSD_of] at hx3
  have hS := pd_isUnit_det (innov_pd hx3 C hR)
  obtain ⟨dz, hdz, hdz2⟩ := hmc.sub m' z m'.der.h hm' hz hm'.der.1
  obtain ⟨dz, rfl⟩ := dz.exists_of hdz2
  obtain ⟨r, hr, hr2⟩ := hsc.add s (.of x) (.of (gain cov C R *ᵥ dz)) hs rfl rfl
  refine ⟨m', r, .of (post cov C R), ?_, ⟨⟨hr2, rfl, rfl⟩, ?_⟩, hm', hc, cov, _, rfl, rfl, post_le hx3 C hR⟩
  · unfold ekfCorrect
    simp only [Option.bind_eq_bind, e1, Option.bind_some, hC, hRR, kalmanGain_of _ _ _ hS, DMat.mulVec_of, hdz, hr,
      shrinkCov_of]
    rfl
  · rw [DMat.PSD_of]; exact post_psd hx3 C hR

/-! ### Sizes only -/

theorem kfPredict_size {Z : Type} {sc : SysClass T LinSysData X} (hsc : SysContract LinSysData.Sized sc) {s : Sys LinSysData X}
    (hs : s.Sized LinSysData.Sized n m) {x u : DVec} {cov : DMat} (hx : Estimate n x cov) (hu : u.size = m) (dt : T)
    (back : Sys LinSysData X → Z) {r} (h : kfPredict sc s x cov u dt back = some r) :
    Estimate n r.1 r.2.1 ∧ ∃ s', r.2.2 = back s' ∧ s'.Sized LinSysData.Sized n m ∧ s.SameConfig s' := by
  obtain ⟨s', e1, hs', hc⟩ := hs.update hsc hx.1 hu dt
  unfold kfPredict at h
  simp only [Option.bind_eq_bind, e1, Option.bind_some, Option.bind_eq_some_iff] at h
  obtain ⟨Ax, h1, Bu, h2, x', h3, c', h4, h5⟩ := h
  injection h5 with h5
  subst h5
  have a1 := DMat.mulVec_eq_some h1
  have a2 := DMat.mulVec_eq_some h2
  have a4 := propagateCov_some h4
  obtain ⟨q, hq, hq2⟩ := hsc.add s' Ax Bu hs' (by rw [a1.2, hs'.der.1.1]) (by rw [a2.2, hs'.der.2.1])
  rw [h3] at hq
  injection hq with hq
  subst hq
  exact ⟨⟨hq2, by dsimp only; rw [a4.1, hs'.der.1.1], by dsimp only; rw [a4.2, hs'.der.1.1]⟩, s', rfl, hs', hc⟩

theorem ekfPredict_size {Z : Type} {sc : SysClass T NonlinSysData X} (hsc : SysContract NonlinSysData.Sized sc)
    {s : Sys NonlinSysData X}
    (hs : s.Sized NonlinSysData.Sized n m) {x u : DVec} {cov : DMat} (hx : Estimate n x cov) (hu : u.size = m) (dt : T)
    (back : Sys NonlinSysData X → Z) {r} (h : ekfPredict sc s x cov u dt back = some r) :
    Estimate n r.1 r.2.1 ∧ ∃ s', r.2.2 = back s' ∧ s'.Sized NonlinSysData.Sized n m ∧ s.SameConfig s' := by
  obtain ⟨s', e1, hs', hc⟩ := hs.update hsc hx.1 hu dt
  unfold ekfPredict at h
  simp only [Option.bind_eq_bind, e1, Option.bind_some, Option.bind_eq_some_iff] at h
  obtain ⟨c', h4, h5⟩ := h
  injection h5 with h5
  subst h5
  have a4 := propagateCov_some h4
  exact ⟨⟨hs'.der.1, by dsimp only; rw [a4.1, hs'.der.2.1], by dsimp only; rw [a4.2, hs'.der.2.1]⟩, s', rfl, hs', hc⟩

theorem kfCorrect_size {Z : Type} {sc : SysClass T LinSysData X} (hsc : SysContract LinSysData.Sized sc)
    {mc : MeasClass T LinMeasData Y} (hmc : MeasContract LinMeasData.Sized mc)
    {s : Sys LinSysData X} (hs : s.Sized LinSysData.Sized n m) {ms : Meas LinMeasData Y} (hm : ms.Sized LinMeasData.Sized n k)
    {x z : DVec} {cov : DMat} (hx : Estimate n x cov) (hz : z.size = k) (dt : T)
    (back : Meas LinMeasData Y → Z) {r} (h : kfCorrect sc mc s ms x cov z dt back = some r) :
    Estimate n r.1 r.2.1 ∧ ∃ m', r.2.2 = back m' ∧ m'.Sized LinMeasData.Sized n k ∧ ms.SameConfig m' := by
  obtain ⟨m', e1, hm', hc⟩ := hm.update hmc hx.1 dt
  unfold kfCorrect at h
  simp only [Option.bind_eq_bind, e1, Option.bind_some, Option.bind_eq_some_iff] at h
  obtain ⟨G, h1, zp, h2, dz, h3, dx, h4, x', h5, c', h6, h7⟩ := h
  injection h7 with h7
  subst h7
  have a1 := kalmanGain_some h1
  have a4 := DMat.mulVec_eq_some h4
  have a6 := shrinkCov_some h6
  obtain ⟨q, hq, hq2⟩ := hsc.add s x dx hs hx.1 (by rw [a4.2, a1.1, hx.2.1])
  rw [h5] at hq
  injection hq with hq
  subst hq
  exact ⟨⟨hq2, by dsimp only; rw [a6.1, hx.1], by dsimp only; rw [a6.2, hx.2.2]⟩, m', rfl, hm', hc⟩

theorem ekfCorrect_size {Z : Type} {sc : SysClass T NonlinSysData X} (hsc : SysContract NonlinSysData.Sized sc)
    {mc : MeasClass T NonlinMeasData Y} (hmc : MeasContract NonlinMeasData.Sized mc)
    {s : Sys NonlinSysData X} (hs : s.Sized NonlinSysData.Sized n m) {ms : Meas NonlinMeasData Y}
    (hm : ms.Sized NonlinMeasData.Sized n k)
    {x z : DVec} {cov : DMat} (hx : Estimate n x cov) (hz : z.size = k) (dt : T)
    (back : Meas NonlinMeasData Y → Z) {r} (h : ekfCorrect sc mc s ms x cov z dt back = some r) :
    Estimate n r.1 r.2.1 ∧ ∃ m', r.2.2 = back m' ∧ m'.Sized NonlinMeasData.Sized n k ∧ ms.SameConfig m' := by
  obtain ⟨m', e1, hm', hc⟩ := hm.update hmc hx.1 dt
  unfold ekfCorrect at h
  simp only [Option.bind_eq_bind, e1, Option.bind_some, Option.bind_eq_some_iff] at h
  obtain ⟨G, h1, dz, h3, dx, h4, x', h5, c', h6, h7⟩ := h
  injection h7 with h7
  subst h7
  have a1 := kalmanGain_some h1
  have a4 := DMat.mulVec_eq_some h4
  have a6 := shrinkCov_some h6
  obtain ⟨q, hq, hq2⟩ := hsc.add s x dx hs hx.1 (by rw [a4.2, a1.1, hx.2.1])
  rw [h5] at hq
  injection hq with hq
  subst hq
  exact ⟨⟨hq2, by dsimp only; rw [a6.1, hx.1], by dsimp only; rw [a6.2, hx.2.2]⟩, m', rfl, hm', hc⟩

end StateEstimation
