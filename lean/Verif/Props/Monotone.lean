import Verif.Spec.Noise
import Verif.Lemmas.PlantRel
import Verif.Lemmas.KFApi
import Verif.Examples.Linear
import Verif.Props.DataFree

/-!
# C86: less certainty in never gives more certainty out

The covariances a Kalman filter reports are monotone (in the Loewner order) in the covariances it is given.
-/

set_option linter.unusedSectionVars false

namespace StateEstimation

open Matrix Kalman

variable {ι κ : Type} [Fintype ι] [Fintype κ] [DecidableEq ι] [DecidableEq κ]

/-- The corrected covariance is monotone in the prior and the measurement covariance. -/
theorem Kalman.post_mono {P Q : Matrix ι ι ℝ} {C : Matrix κ ι ℝ} {R S : Matrix κ κ ℝ} (hP : P.PosSemidef)
    (hPQ : (Q - P).PosSemidef) (hR : R.PosDef) (hRS : (S - R).PosSemidef) : (post Q C S - post P C R).PosSemidef := by
  have hQ : Q.PosSemidef := by have := hP.add hPQ; rwa [add_sub_cancel] at this
  have hS : S.PosDef := by have := hR.add_posSemidef hRS; rwa [add_sub_cancel] at this
  have iP := innov_pd hP C hR
  have iQ := innov_pd hQ C hS
  have e1 := joseph (psd_symm hP) (pd_isUnit_det iP) (psd_symm hR.posSemidef) (gain Q C S)
  have e2 := post_joseph (psd_symm hQ) (pd_isUnit_det iQ) (psd_symm hS.posSemidef)
  generalize hG : gain Q C S = G at e1 e2
  have e : post Q C S - post P C R = (1 - G * C) * (Q - P) * (1 - G * C)ᵀ + G * (S - R) * Gᵀ
      + (G - gain P C R) * innov P C R * (G - gain P C R)ᵀ := by
    rw [e2]
    have e1' : post P C R = (1 - G * C) * P * (1 - G * C)ᵀ + G * R * Gᵀ
      - (G - gain P C R) * innov P C R * (G - gain P C R)ᵀ := by rw [e1]; abel
    rw [e1']
    generalize (G - gain P C R) * innov P C R * (G - gain P C R)ᵀ = Z
    generalize 1 - G * C = M
    simp only [Matrix.mul_sub, Matrix.sub_mul]
    abel
  rw [e]
  exact ((psd_conj hPQ _).add (psd_conj hRS _)).add (psd_conj iP.posSemidef _)

theorem DMat.Le_of {n : Nat} {A B : Matrix (Fin n) (Fin n) ℝ} : (DMat.of A).Le (.of B) ↔ (B - A).PosSemidef := by
  unfold DMat.Le
  rw [DMat.sub_of]
  constructor
  · rintro ⟨D, h, hD⟩
    injection h with h
    subst h
    exact DMat.PSD_of.mp hD
  · intro h
    exact ⟨_, rfl, DMat.PSD_of.mpr h⟩

theorem DMat.Le.is {A B : DMat} (h : A.Le B) {r c : Nat} (hA : A.Is r c) : B.Is r c := by
  obtain ⟨D, h, _⟩ := h
  have := DMat.sub_eq_some h
  exact ⟨by have := hA.1; omega, by have := hA.2; omega⟩

namespace Props

variable {T K X Y : Type} [DecidableEq K] {n m : Nat} {kd : K → Nat}

/-- related estimates -/
private def RS (n : Nat) (x : DVec) (c : DMat) (x' : DVec) (c' : DMat) : Prop :=
  x.size = n ∧ x'.size = n ∧ c.Is n n ∧ c.PSDLe c'

private theorem psdLe_of {n : Nat} {c c' : DMat} (h : c.PSDLe c') (hc : c.Is n n) :
    ∃ P Q : Matrix (Fin n) (Fin n) ℝ, c = .of P ∧ c' = .of Q ∧ P.PosSemidef ∧ (Q - P).PosSemidef := by
  obtain ⟨Q, rfl⟩ := (h.2.is hc).exists_of
  obtain ⟨P, rfl⟩ := hc.exists_of
  exact ⟨P, Q, rfl, rfl, DMat.PSD_of.mp h.1, DMat.Le_of.mp h.2⟩

private theorem predict_mono {sc : SysClass T LinSysData X} (hc : SysContract LinSysData.Sized sc) (hsc : SysNoiseFree sc)
    {e e' : Env K LinSysData X LinMeasData Y} (he : e.Noisier n m kd e') {x x' u u' : DVec} {c c' : DMat}
    (hx : RS n x c x' c') (hu : u.size = m) (hu' : u'.size = m) (dt : T) :
    OptRel True (fun r q => RS n r.1 r.2.1 q.1 q.2.1 ∧ r.2.2.Noisier n m kd q.2.2)
      (kfPredict sc e.sys x c u dt fun s => { e with sys := s }) (kfPredict sc e'.sys x' c' u' dt fun s => { e' with sys := s }) := by
  obtain ⟨hx1, hx2, hx3, hx4⟩ := hx
  obtain ⟨s, e1, hs, hcf⟩ := he.sized.update hc hx1 hu dt
  obtain ⟨s', e1', hs', hcf'⟩ := he.sized'.update hc hx2 hu' dt
  have hsame : s.SameButNoise s' := by
    unfold Sys.update at e1 e1'
    rw [if_pos ⟨by rw [he.sized.states]; exact hx1, by rw [he.sized.controls]; exact hu⟩] at e1
    rw [if_pos ⟨by rw [he.sized'.states]; exact hx2, by rw [he.sized'.controls]; exact hu'⟩] at e1'
    exact hsc _ _ _ _ _ _ _ _ _ he.sys (hx1.trans hx2.symm) (hu.trans hu'.symm) e1 e1'
  obtain ⟨x, rfl⟩ := x.exists_of hx1
  obtain ⟨u, rfl⟩ := u.exists_of hu
  obtain ⟨x', rfl⟩ := x'.exists_of hx2
  obtain ⟨u', rfl⟩ := u'.exists_of hu'
  obtain ⟨cov, cov', rfl, rfl, hp, hq⟩ := psdLe_of hx4 hx3
  obtain ⟨A, hA⟩ := hs.der.1.exists_of
  obtain ⟨B, hB⟩ := hs.der.2.exists_of
  obtain ⟨P, hP⟩ := hs.P.exists_of
  obtain ⟨V, hV⟩ := hs.V.exists_of
  have hRp : s.Rp.PSDLe s'.Rp := by rw [hcf.Rp, hcf'.Rp]; exact he.Rp
  have hRc : s.Rc.PSDLe s'.Rc := by rw [hcf.Rc, hcf'.Rc]; exact he.Rc
  obtain ⟨W, W', w1, w2, w3, w4⟩ := psdLe_of hRp hs.Rp
  obtain ⟨N, N', n1, n2, n3, n4⟩ := psdLe_of hRc hs.Rc
  obtain ⟨r, hr, hr2⟩ := hc.add s (.of (A *ᵥ x)) (.of (B *ᵥ u)) hs rfl rfl
  obtain ⟨r', hr', hr2'⟩ := hc.add s' (.of (A *ᵥ x')) (.of (B *ᵥ u')) hs' rfl rfl
  have hd' : s'.der = s.der := by rw [hsame.1]
  have hP' : s'.P = .of P := by rw [hsame.1]; exact hP
  have hV' : s'.V = .of V := by rw [hsame.1]; exact hV
  have g1 : kfPredict sc e.sys (.of x) (.of cov) (.of u) dt (fun s => { e with sys := s })
      = some (r, .of (A * cov * Aᵀ + P * W * Pᵀ + V * N * Vᵀ), { e with sys := s }) := by
    unfold kfPredict
    simp only [Option.bind_eq_bind, e1, Option.bind_some, hA, hB, hP, w1, hV, n1, DMat.mulVec_of, hr, propagateCov_of]
  have g2 : kfPredict sc e'.sys (.of x') (.of cov') (.of u') dt (fun s => { e' with sys := s })
      = some (r', .of (A * cov' * Aᵀ + P * W' * Pᵀ + V * N' * Vᵀ), { e' with sys := s' }) := by
    unfold kfPredict
    simp only [Option.bind_eq_bind, e1', Option.bind_some, hd', hA, hB, hP', w2, hV', n2, DMat.mulVec_of, hr', propagateCov_of]
  rw [g1, g2]
  refine ⟨⟨hr2, hr2', ⟨rfl, rfl⟩, DMat.PSD_of.mpr (propagate_psd hp w3 n3), DMat.Le_of.mpr ?_⟩, ?_⟩
  · have : A * cov' * Aᵀ + P * W' * Pᵀ + V * N' * Vᵀ - (A * cov * Aᵀ + P * W * Pᵀ + V * N * Vᵀ)
        = A * (cov' - cov) * Aᵀ + P * (W' - W) * Pᵀ + V * (N' - N) * Vᵀ := by
      simp only [Matrix.mul_sub, Matrix.sub_mul]; abel
    rw [this]
    exact propagate_psd hq w4 n4
  · exact ⟨hs, hs', hsame, hRp, hRc, he.measSized, he.measSized', he.meas,
      by show s.fm.checkStationary = false; rw [hcf.fm]; exact he.quiet.1, he.quiet.2⟩

private theorem setMeas_noisier {e e' : Env K LinSysData X LinMeasData Y} (he : e.Noisier n m kd e') (k : K)
    {s s' : Meas LinMeasData Y} (h1 : s.Sized LinMeasData.Sized n (kd k)) (h2 : s'.Sized LinMeasData.Sized n (kd k))
    (h3 : s.SameButNoise s') (h4 : s.fm.checkStationary = false) : (e.setMeas k s).Noisier n m kd (e'.setMeas k s') := by
  have key : ∀ (p : Meas LinMeasData Y → Meas LinMeasData Y → K → Prop), (∀ j, p (e.meas j) (e'.meas j) j) → p s s' k →
      ∀ j, p ((e.setMeas k s).meas j) ((e'.setMeas k s').meas j) j := by
    intro p ha hk j
    unfold Env.setMeas
    dsimp only
    by_cases hj : j = k
    · subst hj; rw [if_pos rfl, if_pos rfl]; exact hk
    · rw [if_neg hj, if_neg hj]; exact ha j
  exact ⟨he.sized, he.sized', he.sys, he.Rp, he.Rc, key (fun a _ j => a.Sized LinMeasData.Sized n (kd j)) he.measSized h1,
    key (fun _ a j => a.Sized LinMeasData.Sized n (kd j)) he.measSized' h2, key (fun a b _ => a.SameButNoise b) he.meas h3,
    he.quiet.1, key (fun a _ _ => a.fm.checkStationary = false) he.quiet.2 h4⟩

private theorem correct_mono {sc : SysClass T LinSysData X} (hc : SysContract LinSysData.Sized sc)
    {mc : MeasClass T LinMeasData Y} (hmc : MeasContract LinMeasData.Sized mc) (hmf : MeasNoiseFree mc)
    {e e' : Env K LinSysData X LinMeasData Y} (he : e.Noisier n m kd e') (k : K) (hR : (e.meas k).cov.PD)
    (hRR : (e.meas k).cov.Le (e'.meas k).cov) {x x' z z' : DVec} {c c' : DMat}
    (hx : RS n x c x' c') (hz : z.size = kd k) (hz' : z'.size = kd k) (dt : T) :
    OptRel True (fun r q => RS n r.1 r.2.1 q.1 q.2.1 ∧ r.2.2.Noisier n m kd q.2.2)
      (kfCorrect sc mc e.sys (e.meas k) x c z dt (e.setMeas k)) (kfCorrect sc mc e'.sys (e'.meas k) x' c' z' dt (e'.setMeas k)) := by
  obtain ⟨hx1, hx2, hx3, hx4⟩ := hx
  obtain ⟨s, e1, hs, hcf⟩ := (he.measSized k).update hmc hx1 dt
  obtain ⟨s', e1', hs', hcf'⟩ := (he.measSized' k).update hmc hx2 dt
  have hsame : s.SameButNoise s' := by
    unfold Meas.update at e1 e1'
    rw [if_pos (by rw [(he.measSized k).states]; exact hx1)] at e1
    rw [if_pos (by rw [(he.measSized' k).states]; exact hx2)] at e1'
    exact hmf _ _ _ _ _ _ _ (he.meas k) (hx1.trans hx2.symm) e1 e1'
  obtain ⟨x, rfl⟩ := x.exists_of hx1
  obtain ⟨x', rfl⟩ := x'.exists_of hx2
  obtain ⟨cov, cov', rfl, rfl, hp, hq⟩ := psdLe_of hx4 hx3
  obtain ⟨C, hC⟩ := DMat.Is.exists_of hs.der
  have hd' : s'.der = s.der := by rw [hsame.1]
  rw [← hcf.cov] at hR
  rw [← hcf.cov, ← hcf'.cov] at hRR
  obtain ⟨R, R', w1, w2, w3, w4⟩ := psdLe_of ⟨hR.psd, hRR⟩ hs.cov
  rw [w1, DMat.PD_of] at hR
  have hR' : R'.PosDef := by have := hR.add_posSemidef w4; rwa [add_sub_cancel] at this
  have hQ : cov'.PosSemidef := by have := hp.add hq; rwa [add_sub_cancel] at this
  have hS := pd_isUnit_det (innov_pd hp C hR)
  have hS' := pd_isUnit_det (innov_pd hQ C hR')
  obtain ⟨dz, hdz, hdz2⟩ := hmc.sub s z (.of (C *ᵥ x)) hs hz rfl
  obtain ⟨dz, rfl⟩ := dz.exists_of hdz2
  obtain ⟨dz', hdz', hdz2'⟩ := hmc.sub s' z' (.of (C *ᵥ x')) hs' hz' rfl
  obtain ⟨dz', rfl⟩ := dz'.exists_of hdz2'
  obtain ⟨r, hr, hr2⟩ := hc.add e.sys (.of x) (.of (gain cov C R *ᵥ dz)) he.sized rfl rfl
  obtain ⟨r', hr', hr2'⟩ := hc.add e'.sys (.of x') (.of (gain cov' C R' *ᵥ dz')) he.sized' rfl rfl
  have g1 : kfCorrect sc mc e.sys (e.meas k) (.of x) (.of cov) z dt (e.setMeas k)
      = some (r, .of (post cov C R), e.setMeas k s) := by
    unfold kfCorrect
    simp only [Option.bind_eq_bind, e1, Option.bind_some, hC, w1, kalmanGain_of _ _ _ hS, DMat.mulVec_of, hdz, hr,
      shrinkCov_of]
    rfl
  have g2 : kfCorrect sc mc e'.sys (e'.meas k) (.of x') (.of cov') z' dt (e'.setMeas k)
      = some (r', .of (post cov' C R'), e'.setMeas k s') := by
    unfold kfCorrect
    simp only [Option.bind_eq_bind, e1', Option.bind_some, hd', hC, w2, kalmanGain_of _ _ _ hS', DMat.mulVec_of, hdz', hr',
      shrinkCov_of]
    rfl
  rw [g1, g2]
  refine ⟨⟨hr2, hr2', ⟨rfl, rfl⟩, DMat.PSD_of.mpr (post_psd hp C hR), DMat.Le_of.mpr (post_mono hp hq hR w4)⟩, ?_⟩
  exact setMeas_noisier he k hs hs' hsame (by rw [hcf.fm]; exact he.quiet.2 k)

private theorem quiet' {e e' : Env K LinSysData X LinMeasData Y} (he : e.Noisier n m kd e') : Quiet e' := by
  refine ⟨?_, fun k => ?_⟩
  · have h := he.quiet.1
    rw [he.sys.1]; exact h
  · have h := he.quiet.2 k
    rw [(he.meas k).1]; exact h

/-- measurements -/
private def RZ (kd : K → Nat) (z : DVec) (c : DMat) (z' : DVec) (c' : DMat) (k : K) : Prop :=
  z.size = kd k ∧ z'.size = kd k ∧ c.Is (kd k) (kd k) ∧ c.PD ∧ c.Le c'

private theorem kf_mono [TimeOps T] {sc : SysClass T LinSysData X} {mc : K → MeasClass T LinMeasData Y}
    (hc : SysContract LinSysData.Sized sc) (hsc : SysNoiseFree sc)
    (hmc : ∀ k, MeasContract LinMeasData.Sized (mc k)) (hmf : ∀ k, MeasNoiseFree (mc k)) :
    PlantRel (kfPlant sc mc) (kfPlant sc mc) True (RS n)
      (fun e e' => e.Noisier n m kd e') (fun u u' => u.size = m ∧ u'.size = m) (fun c c' => c.Is m m ∧ c.PSDLe c')
      (RZ kd) where
  empty := rfl
  empty' := rfl
  rc := fun e e' he => ⟨he.sized.Rc, he.Rc⟩
  zero := fun e e' he => ⟨he.sized.controls, he.sized'.controls⟩
  setRc := by
    rintro e e' c c' he ⟨h1, h2⟩
    show OptRel True _ ((e.sys.setControlCovariance c).map fun s => { e with sys := s })
      ((e'.sys.setControlCovariance c').map fun s => { e' with sys := s })
    have h1' := h2.2.is h1
    unfold Sys.setControlCovariance
    rw [if_pos, if_pos]
    · exact ⟨⟨he.sized.states, he.sized.controls, he.sized.der, he.sized.P, he.sized.Rp, he.sized.V, h1⟩,
        ⟨he.sized'.states, he.sized'.controls, he.sized'.der, he.sized'.P, he.sized'.Rp, he.sized'.V, h1'⟩,
        by
          refine ⟨?_, he.sys.2.1, h2.2.is ⟨rfl, rfl⟩⟩
          have h := he.sys.1
          dsimp only
          rw [h], he.Rp, h2, he.measSized, he.measSized', he.meas, he.quiet⟩
    · exact ⟨by rw [h1'.1, he.sized'.controls], by rw [h1'.2, he.sized'.controls]⟩
    · exact ⟨by rw [h1.1, he.sized.controls], by rw [h1.2, he.sized.controls]⟩
  sysSt := by
    rintro e e' x c x' c' d d' he _ _
    show (e.sys.fm.checkStationary && _) = (e'.sys.fm.checkStationary && _)
    rw [he.quiet.1, (quiet' he).1]; rfl
  predict := by
    rintro e e' x c x' c' u u' dt he hx ⟨hu, hu'⟩
    exact predict_mono hc hsc he hx hu hu' dt
  sysStationary := by
    rintro e e' x c x' c' d d' he _ _ h
    have h : (e.sys.fm.checkStationary && _) = true := h
    rw [he.quiet.1] at h; cases h
  setMeasCov := by
    rintro e e' k z c z' c' he ⟨hz, hz', h1, h2, h3⟩
    have h1' := h3.is h1
    show OptRel True _ (((e.meas k).setCovariance c).map (e.setMeas k)) (((e'.meas k).setCovariance c').map (e'.setMeas k))
    unfold Meas.setCovariance
    rw [if_pos, if_pos]
    rotate_left
    · exact ⟨by rw [h1'.1, (he.measSized' k).meas], by rw [h1'.2, (he.measSized' k).meas]⟩
    · exact ⟨by rw [h1.1, (he.measSized k).meas], by rw [h1.2, (he.measSized k).meas]⟩
    have hm := he.measSized k
    have hm' := he.measSized' k
    have hN : (e.setMeas k { e.meas k with cov := c }).Noisier n m kd (e'.setMeas k { e'.meas k with cov := c' }) :=
      setMeas_noisier he k ⟨hm.states, hm.meas, hm.der, h1⟩ ⟨hm'.states, hm'.meas, hm'.der, h1'⟩
        ⟨by have h := (he.meas k).1; dsimp only; rw [h], h3.is ⟨rfl, rfl⟩⟩ (he.quiet.2 k)
    have a1 : ((e.setMeas k { e.meas k with cov := c }).meas k).cov = c := by unfold Env.setMeas; dsimp only; rw [if_pos rfl]
    have a2 : ((e'.setMeas k { e'.meas k with cov := c' }).meas k).cov = c' := by
      unfold Env.setMeas; dsimp only; rw [if_pos rfl]
    refine ⟨hN, ?_, ?_, ?_⟩
    · intro x p x' p' _
      show (((e.setMeas k { e.meas k with cov := c }).meas k).fm.checkStationary && _)
        = (((e'.setMeas k { e'.meas k with cov := c' }).meas k).fm.checkStationary && _)
      rw [hN.quiet.2, (quiet' hN).2]; rfl
    · intro x p x' p' dt hx
      exact correct_mono hc (hmc k) (hmf k) hN k (by rw [a1]; exact h2) (by rw [a1, a2]; exact h3) hx hz hz' dt
    · intro x p x' p' _ h
      have h : (((e.setMeas k { e.meas k with cov := c }).meas k).fm.checkStationary && _) = true := h
      rw [hN.quiet.2] at h; cases h

private theorem opRel [TimeOps T] {sc : SysClass T LinSysData X} {mc : K → MeasClass T LinMeasData Y}
    {op op' : Op T DVec DMat K (Env K LinSysData X LinMeasData Y)} (h : op.Noisier n m kd op') :
    OpRel (kfPlant sc mc) (kfPlant sc mc) True (RS n)
      (fun e e' => e.Noisier n m kd e') (fun u u' => u.size = m ∧ u'.size = m) (RZ kd) op op' := by
  have hd : ∀ u u' : DVec, u.size = u'.size → (u.size = m ∨ u.size = 0) →
      DataRel (kfPlant sc mc) (kfPlant sc mc) (fun u u' => u.size = m ∧ u'.size = m) u u' := by
    intro u u' h h2
    rcases Nat.eq_zero_or_pos u.size with h0 | h0
    · exact Or.inr ⟨h0, h.symm.trans h0⟩
    · rcases h2 with h2 | h2
      · exact Or.inl ⟨h0, h0.trans_eq h, h2, h.symm.trans h2⟩
      · omega
  cases op <;> cases op' <;> simp only [Op.Noisier] at h <;> simp only [OpRel]
  · exact ⟨h.2.2.2.2, h.1, h.2.1, h.2.2.1, h.2.2.2.1⟩
  · exact h
  · exact ⟨h.2.2, hd _ _ h.1 h.2.1⟩
  · obtain ⟨h1, rfl, j, h3, h4⟩ := h
    exact ⟨h1, j, h3, h3, h4⟩
  · exact ⟨h.2.2, hd _ _ h.1 h.2.1⟩
  · obtain ⟨h1, rfl, j, h3, h4⟩ := h
    exact ⟨h1, j, h3, h3, h4⟩
  · exact h
  · exact h
  · intro e e' he
    obtain ⟨a, a', h1, h2, h3⟩ := h e e' he
    rw [h1, h2]; exact h3

/-- **C86.** A Kalman filter whose model matrices do not depend on the data, without stationary predicates.  Take two runs
making the same calls at the same times, where the second is given, in the Loewner order, at least the uncertainty of the
first: initial covariance, process noise, control noise, and the (positive definite) covariance of each measurement.  The
measured and commanded numbers may differ at will.  Then neither run aborts, and at the end the second run's covariance is at
least the first's; so it is for every retained past state.  Delays, queues, rewinding and reverting included. -/
theorem C86_monotone [TimeOps T] [SaneTime T] {sc : SysClass T LinSysData X}
    {mc : K → MeasClass T LinMeasData Y} (hc : SysContract LinSysData.Sized sc) (hsc : SysNoiseFree sc)
    (hmc : ∀ k, MeasContract LinMeasData.Sized (mc k)) (hmf : ∀ k, MeasNoiseFree (mc k))
    (sort : List (FilterInput T DVec DMat K) → List (FilterInput T DVec DMat K)) (hsort : SameSort sort sort)
    (params : Params T) (e e' : Env K LinSysData X LinMeasData Y) (he : e.Noisier n m kd e') (x x' : DVec) (c c' : DMat) (t : T)
    (hx : x.size = n) (hx' : x'.size = n) (hcc : c.Is n n) (hle : c.PSDLe c')
    (ops ops' : List (Op T DVec DMat K (Env K LinSysData X LinMeasData Y)))
    (hops : List.Forall₂ (fun op op' => op.Noisier n m kd op') ops ops') :
    ∃ f g, (Filter.construct (kfPlant sc mc) params e x c t).run (kfPlant sc mc) sort ops = some f ∧
      (Filter.construct (kfPlant sc mc) params e' x' c' t).run (kfPlant sc mc) sort ops' = some g ∧
      f.getCovariance.Le g.getCovariance ∧ f.getStateTime = g.getStateTime ∧
      List.Forall₂ (fun s s' => s.timestamp = s'.timestamp ∧ s.covariance.Le s'.covariance) f.retained g.retained := by
  have h := (kf_mono (T := T) (n := n) (m := m) (kd := kd) hc hsc hmc hmf).run hsort
    { params := params
      state := { x := (kfPlant sc mc).emptyV, covariance := (kfPlant sc mc).emptyM, timestamp := TimeOps.zero,
                 prevInput := FilterInput.default (kfPlant sc mc) }
      prevControl := (kfPlant sc mc).emptyV
      prevControlCov := (kfPlant sc mc).emptyM
      env := e, history := [], controlQueue := [], measQueue := [] }
    { params := params
      state := { x := (kfPlant sc mc).emptyV, covariance := (kfPlant sc mc).emptyM, timestamp := TimeOps.zero,
                 prevInput := FilterInput.default (kfPlant sc mc) }
      prevControl := (kfPlant sc mc).emptyV
      prevControlCov := (kfPlant sc mc).emptyM
      env := e', history := [], controlQueue := [], measQueue := [] } rfl he (Or.inr ⟨rfl, rfl⟩) x c x' c' t
      ⟨hx, hx', hcc, hle⟩ (hops.imp (fun _ _ h => opRel h))
  have h1 : OptRel True _ ((Filter.construct (kfPlant sc mc) params e x c t).run (kfPlant sc mc) sort ops)
      ((Filter.construct (kfPlant sc mc) params e' x' c' t).run (kfPlant sc mc) sort ops') := h
  generalize (Filter.construct (kfPlant sc mc) params e x c t).run (kfPlant sc mc) sort ops = o1 at h1 ⊢
  generalize (Filter.construct (kfPlant sc mc) params e' x' c' t).run (kfPlant sc mc) sort ops' = o2 at h1 ⊢
  rcases OptRel.elim h1 with ⟨rfl, rfl, hn⟩ | ⟨f, g, rfl, rfl, h2, h3, _, h4⟩
  · exact absurd trivial hn
  · have hs := (SimRel.forall₂_concat (l := f.history) (l' := g.history) h4).2
    exact ⟨f, g, rfl, rfl, hs.2.2.2.2.2, hs.1, h4.imp (fun _ _ h => ⟨h.1, h.2.2.2.2.2⟩)⟩

/-! The hypotheses are met by the constant-velocity model with a position sensor: a run with a certain start, no noise and
a good sensor, against one with an uncertain start, process noise and a sensor of a hundred times the variance. -/

example : SysNoiseFree Examples.cvClass := by
  rintro s s' x x' u u' dt r r' ⟨h, h1, h2⟩ _ _ hr hr'
  change (if s.stateSize = 2 ∧ s.controlDims = 1 ∧ s.Rp.rows = 2 then _ else some s) = some r at hr
  change (if s'.stateSize = 2 ∧ s'.controlDims = 1 ∧ s'.Rp.rows = 2 then _ else some s') = some r' at hr'
  have e1 : s'.stateSize = s.stateSize := by rw [h]; rfl
  have e2 : s'.controlDims = s.controlDims := by rw [h]
  rw [e1, e2, h1.1] at hr'
  split at hr
  next hc =>
    rw [if_pos hc] at hr'
    injection hr with hr
    injection hr' with hr'
    subst hr hr'
    exact ⟨by dsimp only; rw [h], h1, h2⟩
  next hc =>
    rw [if_neg hc] at hr'
    injection hr with hr
    injection hr' with hr'
    subst hr hr'
    exact ⟨h, h1, h2⟩

example : MeasNoiseFree Examples.posClass := by
  rintro s s' x x' dt r r' ⟨h, h1⟩ _ hr hr'
  change (if s.stateSize = 2 ∧ s.measDims = 1 then _ else some s) = some r at hr
  change (if s'.stateSize = 2 ∧ s'.measDims = 1 then _ else some s') = some r' at hr'
  have e1 : s'.stateSize = s.stateSize := by rw [h]; rfl
  have e2 : s'.measDims = s.measDims := by rw [h]
  rw [e1, e2] at hr'
  split at hr
  next hc =>
    rw [if_pos hc] at hr'
    injection hr with hr
    injection hr' with hr'
    subst hr hr'
    exact ⟨by dsimp only; rw [h], h1⟩
  next hc =>
    rw [if_neg hc] at hr'
    injection hr with hr
    injection hr' with hr'
    subst hr hr'
    exact ⟨h, h1⟩

private theorem zero_le_identity (n : Nat) : (DMat.of (0 : Matrix (Fin n) (Fin n) ℝ)).PSDLe (.identity n) := by
  rw [DMat.identity_of]
  exact ⟨DMat.PSD_of.mpr PosSemidef.zero, DMat.Le_of.mpr (by rw [sub_zero]; exact PosSemidef.one)⟩

example : Env.Noisier 2 1 (fun _ => 1) Examples.cvEnv
    { Examples.cvEnv with sys := { Examples.cvEnv.sys with Rp := .identity 2, Rc := .identity 1 } } where
  sized := ⟨rfl, rfl, ⟨⟨rfl, rfl⟩, rfl, rfl⟩, ⟨rfl, rfl⟩, ⟨rfl, rfl⟩, ⟨rfl, rfl⟩, ⟨rfl, rfl⟩⟩
  sized' := ⟨rfl, rfl, ⟨⟨rfl, rfl⟩, rfl, rfl⟩, ⟨rfl, rfl⟩, ⟨rfl, rfl⟩, ⟨rfl, rfl⟩, ⟨rfl, rfl⟩⟩
  sys := ⟨rfl, ⟨rfl, rfl⟩, ⟨rfl, rfl⟩⟩
  Rp := zero_le_identity 2
  Rc := zero_le_identity 1
  measSized := fun _ => ⟨rfl, rfl, ⟨rfl, rfl⟩, ⟨rfl, rfl⟩⟩
  measSized' := fun _ => ⟨rfl, rfl, ⟨rfl, rfl⟩, ⟨rfl, rfl⟩⟩
  meas := fun _ => ⟨rfl, rfl, rfl⟩
  quiet := ⟨rfl, fun _ => rfl⟩

example : List.Forall₂ (fun op op' => Op.Noisier (T := ℝ) (K := Unit) (X := Unit) (Y := Unit) 2 1 (fun _ => 1) op op')
    [.predictControl (.of ![1]) 2, .correct (.of ![3]) (.of !![1]) 1 (some ())]
    [.predictControl (.of ![-7]) 2, .correct (.of ![3]) (.of !![100]) 1 (some ())] := by
  refine .cons ⟨rfl, Or.inl rfl, rfl⟩ (.cons ⟨rfl, rfl, (), rfl, rfl, rfl, ⟨rfl, rfl⟩, ?_, ?_⟩ .nil)
  · rw [DMat.PD_of]
    have : (!![1] : Matrix (Fin 1) (Fin 1) ℝ) = 1 := by ext i j; fin_cases i; fin_cases j; rfl
    rw [this]; exact PosDef.one
  · rw [DMat.Le_of]
    have : (!![100] - !![1] : Matrix (Fin 1) (Fin 1) ℝ) = (99 : ℝ) • 1 := by
      ext i j; fin_cases i; fin_cases j; norm_num
    rw [this]
    exact PosSemidef.one.smul (by norm_num)

end Props
end StateEstimation
