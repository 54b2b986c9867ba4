import Verif.Spec.Follows
import Verif.Props.WorstCase
import Verif.Lemmas.KFApi
import Verif.Examples.Quad
import Mathlib.Algebra.Order.BigOperators.Ring.Finset

/-!
# C131: an EKF that starts close enough follows the true state

For nonlinear models, without probability.
-/

set_option linter.unusedSectionVars false

namespace StateEstimation

open Matrix Kalman

section
variable {a b : Nat}

theorem len_nonneg (v : Fin a → ℝ) : 0 ≤ len v := Real.sqrt_nonneg _

theorem len_sq (v : Fin a → ℝ) : len v ^ 2 = v ⬝ᵥ v := by
  unfold len
  rw [Real.sq_sqrt (Finset.sum_nonneg fun i _ => sq_nonneg _)]
  exact Finset.sum_congr rfl fun i _ => sq _

theorem abs_dot_le (v d : Fin a → ℝ) : |v ⬝ᵥ d| ≤ len v * len d := by
  refine abs_le_of_sq_le_sq ?_ (mul_nonneg (len_nonneg _) (len_nonneg _))
  rw [mul_pow, len_sq, len_sq]
  have := Finset.sum_mul_sq_le_sq_mul_sq Finset.univ v d
  simpa only [dotProduct, sq] using this

theorem quad_one (c : ℝ) (v : Fin a → ℝ) : v ⬝ᵥ (c • (1 : Matrix (Fin a) (Fin a) ℝ)) *ᵥ v = c * len v ^ 2 := by
  rw [Matrix.smul_mulVec, Matrix.one_mulVec, dotProduct_smul, len_sq, smul_eq_mul]

/-- within `s` standard deviations of a covariance `≤ p`: at most `s √p` away -/
theorem WithinSigmas.len {s p : ℝ} (hs : 0 ≤ s) (hp : 0 ≤ p) {P : Matrix (Fin a) (Fin a) ℝ} {e : Fin a → ℝ} (h : WithinSigmas s P e)
    (hP : (p • (1 : Matrix (Fin a) (Fin a) ℝ) - P).PosSemidef) : len e ≤ s * √p := by
  rcases (len_nonneg e).eq_or_lt with h0 | h0
  · rw [← h0]; positivity
  have h1 := h e
  have h2 := psd_quad hP e
  rw [Matrix.sub_mulVec, dotProduct_sub, quad_one] at h2
  rw [← len_sq, abs_of_nonneg (sq_nonneg _)] at h1
  have h3 : √(e ⬝ᵥ P *ᵥ e) ≤ √p * StateEstimation.len e := by
    rw [← Real.sqrt_sq (len_nonneg e), ← Real.sqrt_mul hp]
    exact Real.sqrt_le_sqrt (by linarith)
  have h4 : StateEstimation.len e ^ 2 ≤ s * √p * StateEstimation.len e := by
    calc _ ≤ _ := h1
      _ ≤ s * (√p * StateEstimation.len e) := mul_le_mul_of_nonneg_left h3 hs
      _ = _ := by ring
  rw [sq] at h4
  exact le_of_mul_le_mul_right h4 h0

/-- a short vector is within few standard deviations of a covariance `≥ q` -/
theorem len_within {c q : ℝ} (hq : 0 < q) {Q : Matrix (Fin a) (Fin a) ℝ} {d : Fin a → ℝ} (hd : len d ≤ c)
    (hQ : (Q - q • (1 : Matrix (Fin a) (Fin a) ℝ)).PosSemidef) : WithinSigmas (c / √q) Q d := by
  have hc : 0 ≤ c := (len_nonneg d).trans hd
  have h1 : WithinSigmas c (1 : Matrix (Fin a) (Fin a) ℝ) d := by
    intro v
    rw [Matrix.one_mulVec, ← len_sq, Real.sqrt_sq (len_nonneg v), mul_comm]
    exact (abs_dot_le v d).trans (mul_le_mul_of_nonneg_left hd (len_nonneg v))
  exact h1.widen hc hq hQ

end

namespace Props

open Examples

/-- The motion's contraction factor: `1 / √(1 + noise / (gain² cov))`. -/
noncomputable def _root_.StateEstimation.TrackLimits.theta (lim : TrackLimits) : ℝ :=
  1 / √(1 + lim.noise / (lim.gain ^ 2 * lim.cov))

/-- What is left of it for the nonlinearity. -/
noncomputable def _root_.StateEstimation.TrackLimits.eta (lim : TrackLimits) : ℝ := (1 - lim.theta) / (lim.often + 2)

/-- What the disturbances and measurement errors of one motion can add, in standard deviations. -/
noncomputable def _root_.StateEstimation.TrackLimits.kick (lim : TrackLimits) : ℝ :=
  2 ^ lim.often * (lim.disturb / √lim.noise + lim.often * (lim.err / √lim.sensor))

theorem eta_pos {lim : TrackLimits} (h1 : 0 < lim.gain) (h2 : 0 < lim.noise) (h3 : 0 < lim.cov) :
    0 < lim.eta ∧ lim.eta ≤ 1 / 2 ∧ 0 < lim.theta ∧ lim.theta + (lim.often + 1) * lim.eta = 1 - lim.eta := by
  have h4 : 1 < √(1 + lim.noise / (lim.gain ^ 2 * lim.cov)) := by
    rw [Real.lt_sqrt zero_le_one]
    have : 0 < lim.noise / (lim.gain ^ 2 * lim.cov) := by positivity
    linarith
  have h5 : lim.theta < 1 := by
    unfold TrackLimits.theta
    rw [div_lt_one (by linarith)]
    exact h4
  have h6 : 0 < lim.theta := by unfold TrackLimits.theta; positivity
  have h7 : (0 : ℝ) < (lim.often : ℝ) + 2 := by positivity
  have h8 : lim.eta * (lim.often + 2) = 1 - lim.theta := div_mul_cancel₀ _ h7.ne'
  refine ⟨div_pos (by linarith) h7, ?_, h6, by linarith⟩
  unfold TrackLimits.eta
  rw [div_le_div_iff₀ h7 two_pos]
  have : (0 : ℝ) ≤ lim.often := Nat.cast_nonneg _
  nlinarith

variable {T K X Y : Type} [DecidableEq K] {n m : Nat} {kd : K → Nat} [LinearOrder T] [ExactTime T]
  {sc : SysClass T NonlinSysData X} {mc : K → MeasClass T NonlinMeasData Y}

/-- bound after a motion and `c` measurements, from `σ` before -/
private noncomputable def bnd (lim : TrackLimits) (σ : ℝ) (c : Nat) : ℝ :=
  (lim.theta + (c + 1) * lim.eta) * σ + 2 ^ c * (lim.disturb / √lim.noise + c * (lim.err / √lim.sensor))

private theorem bnd_mono {lim : TrackLimits} (he : 0 < lim.eta) (hD : 0 ≤ lim.disturb) (hE : 0 ≤ lim.err) {σ : ℝ} (hσ : 0 ≤ σ) {c : Nat}
    (hc : c ≤ lim.often) : bnd lim σ c ≤ (lim.theta + (lim.often + 1) * lim.eta) * σ + lim.kick := by
  unfold bnd TrackLimits.kick
  have h1 : (c : ℝ) ≤ lim.often := by exact_mod_cast hc
  have h2 : (2 : ℝ) ^ c ≤ 2 ^ lim.often := pow_le_pow_right₀ one_le_two hc
  have h3 : 0 ≤ lim.disturb / √lim.noise := by positivity
  have h4 : 0 ≤ lim.err / √lim.sensor := by positivity
  gcongr

private theorem num_step {th eta σ s D' E' r : ℝ} {c : Nat} (he : 0 ≤ eta) (he1 : eta ≤ 1) (hD : 0 ≤ D') (hE : 0 ≤ E') (hσ : 0 ≤ σ)
    (hf : th + ((c : ℝ) + 1) * eta ≤ 1) (hs : s ≤ (th + ((c : ℝ) + 1) * eta) * σ + 2 ^ c * (D' + c * E')) (hr : r ≤ eta * s) :
    s + r + E' ≤ (th + (((c + 1 : ℕ) : ℝ) + 1) * eta) * σ + 2 ^ (c + 1) * (D' + ((c + 1 : ℕ) : ℝ) * E') := by
  have p3 : (1 : ℝ) ≤ 2 ^ c := one_le_pow₀ one_le_two
  have hM : 0 ≤ 2 ^ c * (D' + c * E') := by positivity
  have r1 : (th + ((c : ℝ) + 1) * eta) * σ ≤ 1 * σ := mul_le_mul_of_nonneg_right hf hσ
  have r3 : eta * s ≤ eta * (σ + 2 ^ c * (D' + c * E')) := mul_le_mul_of_nonneg_left (by linarith) he
  have r2 : eta * (2 ^ c * (D' + c * E')) ≤ 1 * (2 ^ c * (D' + c * E')) := mul_le_mul_of_nonneg_right he1 hM
  have q2 : E' ≤ 2 ^ c * E' := by nlinarith
  have q3 : 0 ≤ 2 ^ c * E' := by positivity
  push_cast
  rw [pow_succ]
  have e : (th + ((c : ℝ) + 1 + 1) * eta) * σ + 2 ^ c * 2 * (D' + ((c : ℝ) + 1) * E') =
    (th + ((c : ℝ) + 1) * eta) * σ + eta * σ + (2 ^ c * (D' + c * E') + 2 ^ c * (D' + c * E')) + (2 ^ c * E' + 2 ^ c * E') := by ring
  rw [e]
  have : eta * (σ + 2 ^ c * (D' + c * E')) = eta * σ + eta * (2 ^ c * (D' + c * E')) := by ring
  linarith

private structure Inv (lim : TrackLimits) (n m : Nat) (kd : K → Nat) (s0 : ℝ)
    (f : Filter T DVec DMat K (Env K NonlinSysData X NonlinMeasData Y)) (y : Fin n → ℝ) (k c : Nat) : Prop where
  sys : f.env.sys.Sized NonlinSysData.Sized n m
  meas : ∀ j, (f.env.meas j).Sized NonlinMeasData.Sized n (kd j)
  quiet : f.env.sys.fm.checkStationary = false
  mquiet : ∀ j, (f.env.meas j).fm.checkStationary = false
  est : ∃ (x : Fin n → ℝ) (P : Matrix (Fin n) (Fin n) ℝ) (s : ℝ), f.getState = .of x ∧ f.getCovariance = .of P ∧
    P.PosSemidef ∧ (lim.cov • (1 : Matrix (Fin n) (Fin n) ℝ) - P).PosSemidef ∧ 0 ≤ s ∧ WithinSigmas s P (y - x) ∧
    s ≤ (1 - lim.eta) ^ k * s0 + lim.kick / lim.eta ∧
    (c < lim.often → ∃ σ, 0 ≤ σ ∧ (1 - lim.eta) * σ + lim.kick ≤ (1 - lim.eta) ^ k * s0 + lim.kick / lim.eta ∧ s ≤ bnd lim σ c)

set_option maxHeartbeats 1000000 in
private theorem follows_inv (hsc : SysContract NonlinSysData.Sized sc) (hmc : ∀ j, MeasContract NonlinMeasData.Sized (mc j))
    (ops : sc.PlainOps) (mops : ∀ j, (mc j).PlainOps) {lim : TrackLimits} (h1 : 0 < lim.gain) (h2 : 0 < lim.noise)
    (h3 : 0 < lim.sensor) (h4 : 0 < lim.cov) (hD : 0 ≤ lim.disturb) (hE : 0 ≤ lim.err) (hb : 0 ≤ lim.bend) (hbH : 0 ≤ lim.bendH)
    {s0 smax : ℝ} (hs0 : 0 ≤ s0) (hfit : s0 + lim.kick / lim.eta ≤ smax) (hg : lim.bend * lim.cov * smax ≤ lim.eta * √lim.noise)
    (hh : lim.bendH * lim.cov * smax ≤ lim.eta * √lim.sensor) (hr : smax * √lim.cov ≤ lim.reach)
    {f y k c} (h : Follows lim sc mc n m kd s0 f y k c) : Inv lim n m kd s0 f y k c := by
  obtain ⟨e1, e2, e3, e4⟩ := eta_pos h1 h2 h4
  have hk : 0 ≤ lim.kick := by unfold TrackLimits.kick; positivity
  have hke : 0 ≤ lim.kick / lim.eta := by positivity
  have small : ∀ k : Nat, (1 - lim.eta) ^ k * s0 + lim.kick / lim.eta ≤ smax := by
    intro k
    have : (1 - lim.eta) ^ k ≤ 1 := pow_le_one₀ (by linarith) (by linarith)
    nlinarith
  have sq1 : 0 < √lim.noise := Real.sqrt_pos.mpr h2
  have sq2 : 0 < √lim.sensor := Real.sqrt_pos.mpr h3
  have sq3 : √lim.cov * √lim.cov = lim.cov := Real.mul_self_sqrt h4.le
  induction h with
  | start params e x0 y0 P0 t a1 a2 a3 a4 a5 a6 a7 =>
    refine ⟨a1, a2, a3, a4, x0, P0, s0, rfl, rfl, a5, a6, hs0, a7, ?_, fun h => absurd h (lt_irrefl _)⟩
    simpa using hke
  | @move f y k c g u t gy d p G P W V Rp Rc h hm ht hcall hbend hy hd b1 b2 b3 b4 b5 b6 b7 b8 b9 ih =>
    obtain ⟨i1, i2, i3, i4, x, P0, s, i5, i6, i7, i8, i9, i10, i11, -⟩ := ih
    obtain ⟨g', p', A, W', V', Rp', Rc', c1, c2, c3, c4, c5, c6, c7, c8, c9, c10, c11, c12⟩ :=
      ekf_predict_now (mc := mc) hsc f i1 i5 i6 u hm t ht (by rw [i3]; rfl)
    have := Option.some.inj (hcall.symm.trans c1)
    subst this
    obtain ⟨s', d1, d2, d3⟩ := hsc.update f.env.sys (.of x) (.of u) (TimeOps.sub t f.getStateTime) i1 rfl rfl
    have := Option.some.inj (c2.symm.trans d1)
    subst this
    have hA : G = A := DMat.of_inj.mp (b1.symm.trans c3)
    subst hA
    have hp : p = p' := (congrArg DMat.rows (b4.symm.trans c6))
    subst hp
    have hW : W = W' := DMat.of_inj.mp (b2.symm.trans c4)
    have hV : V = V' := DMat.of_inj.mp (b3.symm.trans c5)
    have hRp : Rp = Rp' := DMat.of_inj.mp (b4.symm.trans c6)
    have hRc : Rc = Rc' := DMat.of_inj.mp (b5.symm.trans c7)
    subst hW hV hRp hRc
    have hP : P = G * P0 * Gᵀ + W * Rp * Wᵀ + V * Rc * Vᵀ := DMat.of_inj.mp (b8.symm.trans c9)
    rw [add_assoc] at hP
    obtain ⟨gx, hgx⟩ := g.env.sys.der.g.exists_of d2.der.1
    obtain ⟨t', k1, k2⟩ := hy
    have hsmax := (i11.trans (small k))
    have hlen : len (y - x) ≤ s * √lim.cov := i10.len i9 h4.le i8
    have hrem := hbend x y gx gy G _ t' ⟨_, i1, Sys.SameConfig.refl _, c2⟩ k1 hgx c3 k2
      (hlen.trans ((mul_le_mul_of_nonneg_right hsmax (Real.sqrt_nonneg _)).trans hr))
    have hrem' : len (gy - gx - G *ᵥ (y - x)) ≤ lim.bend * (lim.cov * s ^ 2) := by
      refine hrem.trans (mul_le_mul_of_nonneg_left ?_ hb)
      calc len (y - x) ^ 2 ≤ (s * √lim.cov) ^ 2 := pow_le_pow_left₀ (len_nonneg _) hlen 2
        _ = lim.cov * s ^ 2 := by rw [mul_pow, sq (√_), sq3]; ring
    generalize hQd : W * Rp * Wᵀ + V * Rc * Vᵀ = Q at *
    have hQ : Q.PosSemidef := by
      have : Q = (Q - lim.noise • 1) + lim.noise • 1 := by abel
      rw [this]; exact b7.add (PosSemidef.one.smul h2.le)
    have hGP : (G * P0 * Gᵀ).PosSemidef := psd_conj i7 G
    have ib : 0 < lim.noise / (lim.gain ^ 2 * lim.cov) := by positivity
    -- the linear part
    have l1 : WithinSigmas (s * lim.theta) P (G *ᵥ (y - x)) := by
      have := (i10.map G).widen (c := 1 + lim.noise / (lim.gain ^ 2 * lim.cov)) (S := P) i9 (by linarith) (by
        have e : P - (1 + lim.noise / (lim.gain ^ 2 * lim.cov)) • (G * P0 * Gᵀ) =
            (Q - lim.noise • (1 : Matrix (Fin n) (Fin n) ℝ)) +
            (lim.noise / (lim.gain ^ 2 * lim.cov)) • (lim.cov • (lim.gain ^ 2 • (1 : Matrix (Fin n) (Fin n) ℝ) - G * Gᵀ) +
              G * (lim.cov • (1 : Matrix (Fin n) (Fin n) ℝ) - P0) * Gᵀ) := by
          have e5 : (lim.noise / (lim.gain ^ 2 * lim.cov)) • (lim.cov • lim.gain ^ 2 • (1 : Matrix (Fin n) (Fin n) ℝ)) = lim.noise • 1 := by
            rw [smul_smul, smul_smul]; congr 1; field_simp
          rw [hP]
          simp only [Matrix.mul_sub, Matrix.sub_mul, Matrix.mul_smul, Matrix.smul_mul, Matrix.mul_one, smul_sub, smul_add, e5]
          module
        rw [e]
        exact b7.add (((b6.smul h4.le).add (psd_conj i8 G)).smul ib.le))
      have e : s / √(1 + lim.noise / (lim.gain ^ 2 * lim.cov)) = s * lim.theta := by
        unfold TrackLimits.theta; rw [mul_one_div]
      rwa [e] at this
    have hPQ : (P - Q).PosSemidef := by rw [hP, add_sub_cancel_right]; exact hGP
    have l2 := (len_within h2 hrem' b7).le (by positivity) hPQ
    have l3 := (len_within h2 hd b7).le (by positivity) hPQ
    have hPp : P.PosSemidef := by rw [hP]; exact hGP.add hQ
    have key : WithinSigmas (bnd lim s 0) P (gy + d - gx) := by
      have e : gy + d - gx = G *ᵥ (y - x) + (gy - gx - G *ᵥ (y - x)) + d := by abel
      rw [e]
      refine ((l1.add l2).add l3).mono ?_
      unfold bnd
      have : lim.bend * (lim.cov * s ^ 2) / √lim.noise ≤ lim.eta * s := by
        rw [div_le_iff₀ sq1]
        have : lim.bend * lim.cov * s ≤ lim.eta * √lim.noise :=
          (mul_le_mul_of_nonneg_left hsmax (by positivity)).trans hg
        nlinarith
      push_cast
      rw [pow_zero]
      linarith
    have hnext : (1 - lim.eta) * s + lim.kick ≤ (1 - lim.eta) ^ (k + 1) * s0 + lim.kick / lim.eta := by
      have e5 : lim.kick / lim.eta * lim.eta = lim.kick := div_mul_cancel₀ _ e1.ne'
      have : (1 - lim.eta) * s ≤ (1 - lim.eta) * ((1 - lim.eta) ^ k * s0 + lim.kick / lim.eta) :=
        mul_le_mul_of_nonneg_left i11 (by linarith)
      rw [pow_succ]
      nlinarith
    have hbn : 0 ≤ bnd lim s 0 := by
      unfold bnd; positivity
    refine ⟨d2, by rw [c11]; exact i2, by rw [d3.fm]; exact i3, by rw [c11]; exact i4, gx, P, _, by rw [c8, hgx], b8, hPp, b9,
      hbn, key, ?_, fun _ => ⟨s, i9, hnext, le_rfl⟩⟩
    refine (bnd_mono e1 hD hE i9 (Nat.zero_le _)).trans ?_
    rw [e4]; exact hnext
  | @measure f y k c g j R hy e h hc hcall hbend hy' he hR ih =>
    obtain ⟨i1, i2, i3, i4, x, P, s, i5, i6, i7, i8, i9, i10, i11, i12⟩ := ih
    obtain ⟨σ, j1, j2, j3⟩ := i12 hc
    have hRd : R.PosDef := by
      have : R = lim.sensor • (1 : Matrix (Fin (kd j)) (Fin (kd j)) ℝ) + (R - lim.sensor • 1) := by abel
      rw [this]; exact (PosDef.one.smul h3).add_posSemidef hR
    have hms : ((f.env.meas j).withCov (.of R)).Sized NonlinMeasData.Sized n (kd j) :=
      ⟨(i2 j).states, (i2 j).meas, (i2 j).der, rfl, rfl⟩
    obtain ⟨ms, d1, d2, d3⟩ := (hmc j).update _ (.of x) (TimeOps.sub f.getStateTime f.getStateTime) hms rfl
    obtain ⟨H, hH⟩ := d2.der.2.exists_of
    obtain ⟨hx, hhx⟩ := ms.der.h.exists_of d2.der.1
    have hu := pd_isUnit_det (innov_pd i7 H hRd)
    obtain ⟨g', dz, x', c1, c2, c3, c4, c5, c6, c7, c8, c9, c10⟩ := ekf_correct_now (mc := mc) hsc hmc f j i1 (i2 j) i5 i6 (hy + e) R
      d1 hH hu (by rw [i4]; rfl)
    have := Option.some.inj (hcall.symm.trans c1)
    subst this
    rw [(mops j).sub, hhx] at c2
    rw [ops.add] at c3
    have hdz : dz = hy + e - hx := by
      have : (DVec.of (hy + e)).sub (.of hx) = some (.of (hy + e - hx)) := DVec.sub_of _ _
      exact (DVec.of_inj.mp (Option.some.inj (this.symm.trans c2))).symm
    have hx' : x' = x + gain P H R *ᵥ dz := by
      have : (DVec.of x).add (.of (gain P H R *ᵥ dz)) = some (.of (x + gain P H R *ᵥ dz)) := DVec.add_of _ _
      exact (DVec.of_inj.mp (Option.some.inj (this.symm.trans c3))).symm
    obtain ⟨t', k1, k2⟩ := hy'
    have hsmax := (i11.trans (small k))
    have hlen : len (y - x) ≤ s * √lim.cov := i10.len i9 h4.le i8
    have hrem := hbend x y hx hy H _ t' ⟨_, hms, Meas.SameConfig.refl _, d1⟩ k1 hhx hH k2
      (hlen.trans ((mul_le_mul_of_nonneg_right hsmax (Real.sqrt_nonneg _)).trans hr))
    have hrem' : len (hy - hx - H *ᵥ (y - x)) ≤ lim.bendH * (lim.cov * s ^ 2) := by
      refine hrem.trans (mul_le_mul_of_nonneg_left ?_ hbH)
      calc len (y - x) ^ 2 ≤ (s * √lim.cov) ^ 2 := pow_le_pow_left₀ (len_nonneg _) hlen 2
        _ = lim.cov * s ^ 2 := by rw [mul_pow, sq (√_), sq3]; ring
    have hj := post_joseph (psd_symm i7) hu (psd_symm hRd.posSemidef)
    have hle1 : (post P H R - (1 - gain P H R * H) * P * (1 - gain P H R * H)ᵀ).PosSemidef := by
      rw [hj, add_sub_cancel_left]; exact psd_conj hRd.posSemidef _
    have hle2 : (post P H R - gain P H R * R * (gain P H R)ᵀ).PosSemidef := by
      rw [hj, add_sub_cancel_right]; exact psd_conj i7 _
    have l1 := (i10.map (1 - gain P H R * H)).le i9 hle1
    have l2 := (((len_within h3 hrem' hR).map (gain P H R)).le (by positivity) hle2).neg
    have l3 := (((len_within h3 he hR).map (gain P H R)).le (by positivity) hle2).neg
    have hq0 : lim.bendH * (lim.cov * s ^ 2) / √lim.sensor ≤ lim.eta * s := by
      rw [div_le_iff₀ sq2]
      have : lim.bendH * lim.cov * s ≤ lim.eta * √lim.sensor :=
        (mul_le_mul_of_nonneg_left hsmax (by positivity)).trans hh
      nlinarith
    have hE' : 0 ≤ lim.err / √lim.sensor := by positivity
    have hD' : 0 ≤ lim.disturb / √lim.noise := by positivity
    have hstep : s + lim.bendH * (lim.cov * s ^ 2) / √lim.sensor + lim.err / √lim.sensor ≤ bnd lim σ (c + 1) := by
      have hcl : (c : ℝ) + 1 ≤ lim.often := by exact_mod_cast hc
      exact num_step e1.le (by linarith) hD' hE' j1 (by
        have := mul_le_mul_of_nonneg_right hcl e1.le
        linarith) j3 hq0
    have key : WithinSigmas (s + lim.bendH * (lim.cov * s ^ 2) / √lim.sensor + lim.err / √lim.sensor) (post P H R) (y - x') := by
      have e' : y - x' = (1 - gain P H R * H) *ᵥ (y - x) + -(gain P H R *ᵥ (hy - hx - H *ᵥ (y - x))) + -(gain P H R *ᵥ e) := by
        rw [hx', hdz, Matrix.sub_mulVec, Matrix.one_mulVec, ← Matrix.mulVec_mulVec (y - x) (gain P H R) H]
        simp only [Matrix.mulVec_sub, Matrix.mulVec_add]
        abel
      rw [e']
      exact (l1.add l2).add l3
    have hs' : 0 ≤ s + lim.bendH * (lim.cov * s ^ 2) / √lim.sensor + lim.err / √lim.sensor := by positivity
    have hpp : (lim.cov • (1 : Matrix (Fin n) (Fin n) ℝ) - post P H R).PosSemidef := by
      have e' : lim.cov • (1 : Matrix (Fin n) (Fin n) ℝ) - post P H R = (lim.cov • 1 - P) + (P - post P H R) := by abel
      rw [e']; exact i8.add (post_le i7 H hRd)
    have hmeas : ∀ l, (g.env.meas l).Sized NonlinMeasData.Sized n (kd l) ∧ (g.env.meas l).fm.checkStationary = false := by
      intro l
      rw [c7]
      by_cases hl : l = j
      · subst hl
        rw [Env.setMeas_meas]
        exact ⟨d2, by rw [d3.fm]; exact i4 l⟩
      · have : (f.env.setMeas j ms).meas l = f.env.meas l := by simp [Env.setMeas, hl]
        rw [this]; exact ⟨i2 l, i4 l⟩
    have hsys : g.env.sys = f.env.sys := by rw [c7]; rfl
    refine ⟨by rw [hsys]; exact i1, fun l => (hmeas l).1, by rw [hsys]; exact i3, fun l => (hmeas l).2, x', _, _, c4, c5,
      post_psd i7 H hRd, hpp, hs', key, ?_, fun _ => ⟨σ, j1, j2, hstep⟩⟩
    refine hstep.trans ((bnd_mono e1 hD hE j1 (Nat.succ_le_of_lt hc)).trans ?_)
    rw [e4]; exact j2

/-- **C131.**  An EKF on nonlinear models, used in order, on a system that moves and is measured as modelled up to bounded
disturbances and errors.  If the true state starts within `s0` standard deviations of the initial belief, and `s0` plus
`kick / eta` (`kick` is what the disturbances and errors of one motion amount to) is small enough for the nonlinearity, then
after `k` motions the true state is within `(1 - eta)^k s0 + kick / eta` of the reported standard deviations in every
direction, for all time. -/
theorem C131_ekf_follows (hsc : SysContract NonlinSysData.Sized sc) (hmc : ∀ j, MeasContract NonlinMeasData.Sized (mc j))
    (ops : sc.PlainOps) (mops : ∀ j, (mc j).PlainOps) {lim : TrackLimits} (h1 : 0 < lim.gain) (h2 : 0 < lim.noise)
    (h3 : 0 < lim.sensor) (h4 : 0 < lim.cov) (hD : 0 ≤ lim.disturb) (hE : 0 ≤ lim.err) (hb : 0 ≤ lim.bend) (hbH : 0 ≤ lim.bendH)
    {s0 smax : ℝ} (hs0 : 0 ≤ s0) (hfit : s0 + lim.kick / lim.eta ≤ smax) (hg : lim.bend * lim.cov * smax ≤ lim.eta * √lim.noise)
    (hh : lim.bendH * lim.cov * smax ≤ lim.eta * √lim.sensor) (hr : smax * √lim.cov ≤ lim.reach)
    {f y k c} (h : Follows lim sc mc n m kd s0 f y k c) :
    ∃ (x : Fin n → ℝ) (P : Matrix (Fin n) (Fin n) ℝ), f.getState = .of x ∧ f.getCovariance = .of P ∧
      WithinSigmas ((1 - lim.eta) ^ k * s0 + lim.kick / lim.eta) P (y - x) ∧
      len (y - x) ≤ ((1 - lim.eta) ^ k * s0 + lim.kick / lim.eta) * √lim.cov := by
  obtain ⟨-, -, -, -, x, P, s, i5, i6, i7, i8, i9, i10, i11, -⟩ :=
    follows_inv hsc hmc ops mops h1 h2 h3 h4 hD hE hb hbH hs0 hfit hg hh hr h
  exact ⟨x, P, i5, i6, i10.mono i11,
    (i10.len i9 h4.le i8).trans (mul_le_mul_of_nonneg_right i11 (Real.sqrt_nonneg _))⟩

/-- **C131 (convergence).**  Without disturbances and errors there is a distance, which depends only on the bounds in `lim`,
such that an EKF that starts closer than this (in standard deviations of its initial belief) converges to the true state,
geometrically with the number of motions. -/
theorem C131_ekf_converges (hsc : SysContract NonlinSysData.Sized sc) (hmc : ∀ j, MeasContract NonlinMeasData.Sized (mc j))
    (ops : sc.PlainOps) (mops : ∀ j, (mc j).PlainOps) {lim : TrackLimits} (h1 : 0 < lim.gain) (h2 : 0 < lim.noise)
    (h3 : 0 < lim.sensor) (h4 : 0 < lim.cov) (hD : lim.disturb = 0) (hE : lim.err = 0) (hb : 0 ≤ lim.bend) (hbH : 0 ≤ lim.bendH)
    (hreach : 0 < lim.reach) :
    ∃ smax > 0, ∃ th < 1, 0 ≤ th ∧ ∀ s0, 0 ≤ s0 → s0 ≤ smax →
      ∀ {f y k c}, Follows lim sc mc n m kd s0 f y k c →
        ∃ x : Fin n → ℝ, f.getState = .of x ∧ len (y - x) ≤ th ^ k * (s0 * √lim.cov) := by
  obtain ⟨e1, e2, e3, e4⟩ := eta_pos h1 h2 h4
  have hk : lim.kick = 0 := by unfold TrackLimits.kick; rw [hD, hE]; simp
  have sq1 : 0 < √lim.noise := Real.sqrt_pos.mpr h2
  have sq2 : 0 < √lim.sensor := Real.sqrt_pos.mpr h3
  have sq3 : 0 < √lim.cov := Real.sqrt_pos.mpr h4
  have small : ∀ B c : ℝ, 0 ≤ B → 0 < c → ∃ s > 0, ∀ s', s' ≤ s → B * s' ≤ c := by
    intro B c hB hc
    refine ⟨c / (B + 1), by positivity, fun s' hs' => ?_⟩
    have : B * s' ≤ B * (c / (B + 1)) := mul_le_mul_of_nonneg_left hs' hB
    refine this.trans ?_
    rw [mul_div_assoc', div_le_iff₀ (by linarith)]
    nlinarith
  obtain ⟨s1, p1, q1⟩ := small (lim.bend * lim.cov) (lim.eta * √lim.noise) (by positivity) (by positivity)
  obtain ⟨s2, p2, q2⟩ := small (lim.bendH * lim.cov) (lim.eta * √lim.sensor) (by positivity) (by positivity)
  obtain ⟨s3, p3, q3⟩ := small (√lim.cov) lim.reach (by positivity) hreach
  refine ⟨min s1 (min s2 s3), lt_min p1 (lt_min p2 p3), 1 - lim.eta, by linarith, by linarith, ?_⟩
  intro s0 hs0 hs f y k c h
  obtain ⟨x, P, k1, -, -, k4⟩ := C131_ekf_follows hsc hmc ops mops h1 h2 h3 h4 hD.ge hE.ge hb hbH hs0
    (smax := min s1 (min s2 s3)) (by rw [hk, zero_div, add_zero]; exact hs)
    (q1 _ (min_le_left _ _)) (q2 _ ((min_le_right _ _).trans (min_le_left _ _)))
    (by rw [mul_comm]; exact q3 _ ((min_le_right _ _).trans (min_le_right _ _))) h
  refine ⟨x, k1, k4.trans (le_of_eq ?_)⟩
  rw [hk, zero_div, add_zero, mul_assoc]

/-! ### The hypotheses are met: `g(x) = x + dt (x² + u)`, `h(x) = x²`, half a time unit, a first belief of 1/2 -/

/-- Bounds for this run. -/
noncomputable def quadLimits : TrackLimits :=
  { gain := 2, noise := 1, sensor := 1, cov := 4, bend := 1 / 2, bendH := 1, reach := 1, disturb := 0, err := 0, often := 1 }

theorem len_one (d : Fin 1 → ℝ) : len d = |d 0| := by
  unfold len; rw [Fin.sum_univ_one, Real.sqrt_sq_eq_abs]

theorem quad_image (s0 : Sys NonlinSysData Unit) (h0 : s0.Rp = .identity 1) (q : Fin 1 → ℝ) (dt : ℝ) (t : Sys NonlinSysData Unit)
    (h : s0.UpdatedAt quadClass 1 1 (.of q) (vec1 0) dt t) :
    t.der.g = .of ![q 0 + dt * (q 0 ^ 2 + 0)] ∧ t.der.G = .of !![1 + 2 * dt * q 0] ∧ t.P = mat1 1 ∧ t.V = mat1 dt := by
  obtain ⟨s, h1, h2, h3⟩ := h
  change (if _ then _ else _) = _ at h3
  rw [if_pos ⟨h1.states, h1.controls, by rw [h2.Rp, h0]; rfl⟩] at h3
  injection h3 with h3
  subst h3
  refine ⟨?_, ?_, rfl, rfl⟩
  · show vec1 _ = _
    rw [head_of, head_vec1]
  · show mat1 _ = _
    rw [head_of]

theorem square_image (s0 : Meas NonlinMeasData Unit) (q : Fin 1 → ℝ) (dt : ℝ) (t : Meas NonlinMeasData Unit)
    (h : s0.UpdatedAt squareClass 1 1 (.of q) dt t) : t.der.h = .of ![q 0 ^ 2] ∧ t.der.H = .of !![2 * q 0] := by
  obtain ⟨s, h1, h2, h3⟩ := h
  change (if _ then _ else _) = _ at h3
  rw [if_pos ⟨h1.states, h1.meas⟩] at h3
  injection h3 with h3
  subst h3
  refine ⟨?_, ?_⟩
  · show vec1 _ = _
    rw [head_of]
  · show mat1 _ = _
    rw [head_of]

theorem psd_of11 {A : Matrix (Fin 1) (Fin 1) ℝ} (h : 0 ≤ A 0 0) : A.PosSemidef := by
  rw [eq11 (A := A) (A 0 0) rfl]; exact psd11 h

theorem quad_bends (s0 : Sys NonlinSysData Unit) (h0 : s0.Rp = .identity 1) : SysBends quadClass 1 1 s0 (vec1 0) (1 / 2 : ℝ) (1 / 2) 1 := by
  intro x y gx gy G t t' h1 h2 h3 h4 h5 _
  have e1 := DVec.of_inj.mp (h3.symm.trans (quad_image s0 h0 x _ t h1).1)
  have e2 := DMat.of_inj.mp (h4.symm.trans (quad_image s0 h0 x _ t h1).2.1)
  have e3 := DVec.of_inj.mp (h5.symm.trans (quad_image s0 h0 y _ t' h2).1)
  rw [len_one, len_one, e1, e2, e3, sq_abs]
  simp only [Pi.sub_apply, Matrix.mulVec, dotProduct, Fin.sum_univ_one, Matrix.cons_val_zero, Matrix.of_apply, Matrix.cons_val', Matrix.cons_val_fin_one]
  refine le_of_eq ?_
  rw [show y 0 + 1 / 2 * (y 0 ^ 2 + 0) - (x 0 + 1 / 2 * (x 0 ^ 2 + 0)) - (1 + 2 * (1 / 2) * x 0) * (y 0 - x 0) = 1 / 2 * (y 0 - x 0) ^ 2 by ring]
  exact abs_of_nonneg (by positivity)

theorem square_bends (s0 : Meas NonlinMeasData Unit) (dt : ℝ) : MeasBends squareClass 1 1 s0 dt 1 1 := by
  intro x y gx gy G t t' h1 h2 h3 h4 h5 _
  have e1 := DVec.of_inj.mp (h3.symm.trans (square_image s0 x _ t h1).1)
  have e2 := DMat.of_inj.mp (h4.symm.trans (square_image s0 x _ t h1).2)
  have e3 := DVec.of_inj.mp (h5.symm.trans (square_image s0 y _ t' h2).1)
  rw [len_one, len_one, e1, e2, e3, sq_abs]
  simp only [Pi.sub_apply, Matrix.mulVec, dotProduct, Fin.sum_univ_one, Matrix.cons_val_zero, Matrix.of_apply, Matrix.cons_val', Matrix.cons_val_fin_one]
  refine le_of_eq ?_
  rw [show y 0 ^ 2 - x 0 ^ 2 - 2 * x 0 * (y 0 - x 0) = 1 * (y 0 - x 0) ^ 2 by ring]
  exact abs_of_nonneg (by positivity)

/-- For every `s0`, a run in which the true state starts `s0` above the belief, moves and is measured. -/
theorem quad_follows (s0 : ℝ) (hs0 : 0 ≤ s0) : ∃ f y, Follows (T := ℝ) (K := Unit) quadLimits quadClass (fun _ => squareClass) 1 1 (fun _ => 1) s0 f y 1 1 := by
  have ok := quadEnv_ok (Q := fun _ _ => True)
  have hone : (1 : Matrix (Fin 1) (Fin 1) ℝ) = !![1] := by ext i j; fin_cases i; fin_cases j; rfl
  have start := Follows.start (lim := quadLimits) (sc := quadClass) (mc := fun _ : Unit => squareClass) (n := 1) (m := 1) (kd := fun _ => 1)
    (s0 := s0) { allowPast := true, rewindHistory := true, historyWindow := 5 } quadEnv ![1 / 2] ![1 / 2 + s0] !![1] (0 : ℝ)
    ok.sys ok.meas rfl (fun _ => rfl) (psd11 (by norm_num)) (by
      exact psd_of11 (by simp [quadLimits]; try norm_num)) (by
      have e : (![1 / 2 + s0] - ![1 / 2] : Fin 1 → ℝ) = ![s0] := by funext i; fin_cases i; simp
      rw [e]; exact within11 (by norm_num) (by simp [abs_of_nonneg hs0]))
  generalize hf : Filter.construct (ekfPlant quadClass fun _ : Unit => squareClass) { allowPast := true, rewindHistory := true, historyWindow := 5 } quadEnv
    (.of ![1 / 2]) (.of !![1]) (0 : ℝ) = f at start
  have fe : f.env = quadEnv := by rw [← hf]; rfl
  have fx : f.getState = .of ![1 / 2] := by rw [← hf]; rfl
  have fP : f.getCovariance = .of !![1] := by rw [← hf]; rfl
  have ft : f.getStateTime = 0 := by rw [← hf]; rfl
  obtain ⟨g, p, G, W, V, Rp, Rc, c1, c2, c3, c4, c5, c6, c7, c8, c9, c10, c11, c12⟩ := ekf_predict_now (mc := fun _ : Unit => squareClass)
    quad_contract f (n := 1) (m := 1) (by rw [fe]; exact ok.sys) fx fP ![0] one_pos (1 / 2) (by rw [ft]; norm_num) (by rw [fe]; rfl)
  have hsub : TimeOps.sub (1 / 2 : ℝ) f.getStateTime = 1 / 2 := by rw [ft]; show (1 / 2 : ℝ) - 0 = 1 / 2; norm_num
  have hRp0 : f.env.sys.Rp = .identity 1 := by rw [fe]; rfl
  have up : f.env.sys.UpdatedAt quadClass 1 1 (.of ![1 / 2]) (vec1 0) (1 / 2 : ℝ) g.env.sys :=
    ⟨_, by rw [fe]; exact ok.sys, Sys.SameConfig.refl _, by have h := c2; rw [hsub] at h; exact h⟩
  obtain ⟨u1, u2, u3, u4⟩ := quad_image _ hRp0 _ _ _ up
  have hp : p = 1 := (congrArg DMat.rows (c6.symm.trans hRp0))
  subst hp
  have eG := DMat.of_inj.mp (c3.symm.trans u2)
  have eW := DMat.of_inj.mp (c4.symm.trans u3)
  have eV := DMat.of_inj.mp (c5.symm.trans u4)
  have eRp : Rp = 1 := DMat.of_inj.mp (c6.symm.trans hRp0)
  have eRc : Rc = 0 := by
    have : f.env.sys.Rc = .of (0 : Matrix (Fin 1) (Fin 1) ℝ) := by rw [fe]; rfl
    exact DMat.of_inj.mp (c7.symm.trans this)
  have eQ : W * Rp * Wᵀ + V * Rc * Vᵀ = !![1] := by
    rw [eW, eRp, eRc]; ext i j; fin_cases i; fin_cases j; simp [Matrix.vecMul, dotProduct]
  have eGG : G * Gᵀ = !![9 / 4] := by
    rw [eG]; ext i j; fin_cases i; fin_cases j; simp [Matrix.vecMul, dotProduct, Matrix.transpose_apply]; norm_num
  have eP : G * !![1] * Gᵀ + W * Rp * Wᵀ + V * Rc * Vᵀ = !![13 / 4] := by
    rw [add_assoc, eQ, ← hone, Matrix.mul_one, eGG]; ext i j; fin_cases i; fin_cases j; simp; norm_num
  obtain ⟨t', a1, a2, a3⟩ := quad_contract.update quadEnv.sys (.of ![1 / 2 + s0]) (vec1 0) (1 / 2 : ℝ) ok.sys rfl rfl
  have hy : SysImage quadClass 1 1 f.env.sys (.of ![1 / 2 + s0]) (vec1 0) (TimeOps.sub (1 / 2 : ℝ) f.getStateTime)
      ![1 / 2 + s0 + 1 / 2 * ((1 / 2 + s0) ^ 2 + 0)] := by
    rw [hsub, fe]
    exact ⟨t', ⟨_, ok.sys, Sys.SameConfig.refl _, a1⟩, (quad_image _ rfl _ _ _ ⟨_, ok.sys, Sys.SameConfig.refl _, a1⟩).1⟩
  have moved := Follows.move g ![0] (1 / 2 : ℝ) _ 0 G _ W V Rp Rc start one_pos (by rw [ft]; norm_num) c1 (by rw [hsub]; exact quad_bends _ hRp0) hy
    (by rw [len_one]; simp [quadLimits]) c3 c4 c5 c6 c7 (by
      rw [eGG]; exact psd_of11 (by simp [quadLimits]; try norm_num)) (by
      rw [eQ]; exact psd_of11 (by simp [quadLimits]; try norm_num)) c9 (by
      rw [eP]; exact psd_of11 (by simp [quadLimits]; try norm_num))
  -- the measurement
  rw [u1] at c8
  rw [eP] at c9
  have gm : g.env.meas () = quadEnv.meas () := by rw [c11, fe]
  have gs : (g.env.meas ()).Sized NonlinMeasData.Sized 1 1 := by rw [gm]; exact ok.meas ()
  have gss : g.env.sys.Sized NonlinSysData.Sized 1 1 := by
    obtain ⟨s', d1, d2, d3⟩ := quad_contract.update f.env.sys (.of ![1 / 2]) (.of ![0]) (TimeOps.sub (1 / 2 : ℝ) f.getStateTime)
      (by rw [fe]; exact ok.sys) rfl rfl
    rw [Option.some.inj (c2.symm.trans d1)]; exact d2
  have hms : ((g.env.meas ()).withCov (.of !![1])).Sized NonlinMeasData.Sized 1 1 := ⟨gs.states, gs.meas, gs.der, rfl, rfl⟩
  obtain ⟨ms, d1, d2, d3⟩ := square_contract.update _ (.of ![1 / 2 + 1 / 2 * ((1 / 2 : ℝ) ^ 2 + 0)]) (TimeOps.sub g.getStateTime g.getStateTime) hms rfl
  have hH := (square_image _ _ _ _ ⟨_, hms, Meas.SameConfig.refl _, d1⟩).2
  obtain ⟨tm, b1, b2, b3⟩ := square_contract.update _ (.of (![1 / 2 + s0 + 1 / 2 * ((1 / 2 + s0) ^ 2 + 0)] + 0)) (TimeOps.sub g.getStateTime g.getStateTime) hms rfl
  have hpd : (!![1] : Matrix (Fin 1) (Fin 1) ℝ).PosDef := by rw [← hone]; exact PosDef.one
  obtain ⟨g', dz, x', k1, -⟩ := ekf_correct_now (mc := fun _ : Unit => squareClass) quad_contract (fun _ => square_contract) g ()
    (n := 1) (m := 1) (k := 1) gss gs (x := ![1 / 2 + 1 / 2 * ((1 / 2) ^ 2 + 0)]) (by rw [c8]; rfl) c9
    (![(![1 / 2 + s0 + 1 / 2 * ((1 / 2 + s0) ^ 2 + 0)] + 0 : Fin 1 → ℝ) 0 ^ 2] + 0) !![1] d1 hH
    (pd_isUnit_det (innov_pd (psd11 (by norm_num)) _ hpd)) (by rw [gm]; rfl)
  refine ⟨g', _, Follows.measure (kd := fun _ : Unit => 1) g' () !![1] _ 0 moved (by decide) k1 ?_ ?_ ?_ ?_⟩
  · exact square_bends _ _
  · exact ⟨tm, ⟨_, hms, Meas.SameConfig.refl _, b1⟩, (square_image _ _ _ _ ⟨_, hms, Meas.SameConfig.refl _, b1⟩).1⟩
  · rw [len_one]; simp [quadLimits]
  · exact psd_of11 (by simp [quadLimits]; try norm_num)

/-- The convergence theorem applies to it, with a positive distance. -/
example : ∃ s0 > 0, ∃ f y, Follows (T := ℝ) (K := Unit) quadLimits quadClass (fun _ => squareClass) 1 1 (fun _ => 1) s0 f y 1 1 ∧
    ∃ th < 1, ∃ x : Fin 1 → ℝ, f.getState = .of x ∧ len (y - x) ≤ th ^ 1 * (s0 * √quadLimits.cov) := by
  obtain ⟨smax, p1, th, p2, p3, h⟩ := C131_ekf_converges (n := 1) (m := 1) (kd := fun _ : Unit => 1) quad_contract
    (mc := fun _ : Unit => squareClass) (fun _ => square_contract)
    (plain_ops _) (fun _ => plain_mops _) (lim := quadLimits) (by norm_num [quadLimits]) (by norm_num [quadLimits]) (by norm_num [quadLimits])
    (by norm_num [quadLimits]) rfl rfl (by norm_num [quadLimits]) (by norm_num [quadLimits]) (by norm_num [quadLimits])
  obtain ⟨f, y, hf⟩ := quad_follows smax p1.le
  obtain ⟨x, hx⟩ := h smax p1.le le_rfl hf
  exact ⟨smax, p1, f, y, hf, th, p2, x, hx⟩

end Props
end StateEstimation
