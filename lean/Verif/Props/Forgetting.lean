import Verif.Props.Monotone
import Verif.Props.Scale
import Verif.Props.Ceiling
import Verif.Spec.Forget
import Verif.Lemmas.History

/-!
# C101: the filter forgets what it believed first

Two Kalman filters that start from different covariances and are then used alike.
-/

set_option linter.unusedSectionVars false

namespace StateEstimation

open Matrix Kalman

section
variable {ι κ : Type} [Fintype ι] [Fintype κ] [DecidableEq ι] [DecidableEq κ]

theorem Kalman.gain_smul {P : Matrix ι ι ℝ} {C : Matrix κ ι ℝ} {R : Matrix κ κ ℝ} {l : ℝ} (hl : l ≠ 0)
    (hS : IsUnit (innov P C R).det) : gain (l • P) C (l • R) = gain P C R := by
  have hi : innov (l • P) C (l • R) = l • innov P C R := by
    unfold innov
    rw [Matrix.smul_mul, Matrix.mul_smul, smul_add]
  letI := invertibleOfNonzero hl
  unfold gain
  rw [hi, Matrix.inv_smul _ l hS, Matrix.smul_mul, Matrix.smul_mul, Matrix.mul_smul, smul_smul, mul_invOf_self, one_smul]

theorem Kalman.post_smul {P : Matrix ι ι ℝ} {C : Matrix κ ι ℝ} {R : Matrix κ κ ℝ} {l : ℝ} (hl : l ≠ 0)
    (hS : IsUnit (innov P C R).det) : post (l • P) C (l • R) = l • post P C R := by
  unfold post
  rw [gain_smul hl hS, Matrix.mul_smul]

end

theorem DMat.PSD.le_smul {A : DMat} (h : A.PSD) {n : Nat} (hA : A.Is n n) {l : ℝ} (hl : 1 ≤ l) : A.Le (A.smul l) := by
  obtain ⟨A, rfl⟩ := hA.exists_of
  rw [DMat.smul_of, DMat.Le_of]
  have : l • A - A = (l - 1) • A := by module
  rw [this]
  exact (DMat.PSD_of.mp h).smul (by linarith)

namespace Props

variable {T K X Y : Type} [DecidableEq K] {n m : Nat} {kd : K → Nat}

/-- The models of a filter, for C101: `n` states, `m` controls, sensors of `kd k` numbers, noise covariances positive
semidefinite, no predicates or functions for standstill. -/
structure Regular (n m : Nat) (kd : K → Nat) (e : Env K LinSysData X LinMeasData Y) : Prop where
  sys : e.sys.Sized LinSysData.Sized n m
  meas : ∀ k, (e.meas k).Sized LinMeasData.Sized n (kd k)
  Rp : e.sys.Rp.PSD
  Rc : e.sys.Rc.PSD
  quiet : Quiet e
  keeps : e.sys.fm.makeStationaryF = none ∧ ∀ k, (e.meas k).fm.makeStationaryF = none

/-- the third run's calls -/
private noncomputable def third (l : ℝ) : Op T DVec DMat K (Env K LinSysData X LinMeasData Y) →
    Op T DVec DMat K (Env K LinSysData X LinMeasData Y)
  | .init x c t => .init x (c.smul l) t
  | .correct z c t k => .correct z (c.smul l) t k
  | .enqueueMeasurement z c t k => .enqueueMeasurement z (c.smul l) t k
  | op => op

private theorem third_scaled {l : ℝ} {op op' : Op T DVec DMat K (Env K LinSysData X LinMeasData Y)}
    (h : op.UpToFactor l n m kd op') : ScaledCall l op' (third l op') := by
  cases op <;> cases op' <;> simp only [Op.UpToFactor] at h <;> simp only [third, ScaledCall, and_self, true_and]
  · obtain ⟨_, rfl, _, j, rfl, _⟩ := h; rfl
  · obtain ⟨_, rfl, _, j, rfl, _⟩ := h; rfl

private theorem third_noisier {l : ℝ} (hl : 1 ≤ l) {op op' : Op T DVec DMat K (Env K LinSysData X LinMeasData Y)}
    (h : op.UpToFactor l n m kd op') : op.Noisier n m kd (third l op') := by
  cases op <;> cases op' <;> simp only [Op.UpToFactor] at h <;> simp only [third, Op.Noisier]
  · exact ⟨h.1, h.2.1, h.2.2.1, ⟨h.2.2.2.1, h.2.2.2.2.1⟩, h.2.2.2.2.2.symm⟩
  · exact h.symm
  · exact ⟨h.2.1.symm, h.1, h.2.2.symm⟩
  · obtain ⟨rfl, rfl, rfl, j, h3, h4, h5, h6, h7⟩ := h
    exact ⟨rfl, rfl, j, h3, h4, h5, h6, h7, h7.psd.le_smul h6 hl⟩
  · exact ⟨h.2.1.symm, h.1, h.2.2.symm⟩
  · obtain ⟨rfl, rfl, rfl, j, h3, h4, h5, h6, h7⟩ := h
    exact ⟨rfl, rfl, j, h3, h4, h5, h6, h7, h7.psd.le_smul h6 hl⟩
  · exact h.symm
  · exact h.symm

/-- **C101 (never grows).**  A Kalman filter whose matrices do not depend on the data.  Two runs making the same calls at the
same times, with the same noise, but any data; the first run's initial covariance is at most `l ≥ 1` times the second's.  Then
no run aborts, and at the end the first run's covariance is at most `l` times the second's, as are those of the remembered
states: in any mode, with late data, queues, rewinding and reverting. -/
theorem C101_never_grows [TimeOps T] [SaneTime T] {sc : SysClass T LinSysData X}
    {mc : K → MeasClass T LinMeasData Y} (hc : SysContract LinSysData.Sized sc) (hsc : SysNoiseFree sc) (hsb : sc.BlindToNoise)
    (hmc : ∀ k, MeasContract LinMeasData.Sized (mc k)) (hmf : ∀ k, MeasNoiseFree (mc k)) (hmb : ∀ k, (mc k).BlindToNoise)
    (sort : List (FilterInput T DVec DMat K) → List (FilterInput T DVec DMat K)) (hsort : SameSort sort sort)
    (params : Params T) (e : Env K LinSysData X LinMeasData Y) (he : Regular n m kd e)
    (l : ℝ) (hl : 1 ≤ l) (x x' : DVec) (c c' : DMat) (t : T)
    (hx : x.size = n) (hx' : x'.size = n) (hcc : c.Is n n) (hpsd : c.PSD) (hle : c.Le (c'.smul l))
    (ops ops' : List (Op T DVec DMat K (Env K LinSysData X LinMeasData Y)))
    (hops : List.Forall₂ (fun op op' => op.UpToFactor l n m kd op') ops ops') :
    ∃ f g, (Filter.construct (kfPlant sc mc) params e x c t).run (kfPlant sc mc) sort ops = some f ∧
      (Filter.construct (kfPlant sc mc) params e x' c' t).run (kfPlant sc mc) sort ops' = some g ∧
      f.getCovariance.Le (g.getCovariance.smul l) ∧ f.getStateTime = g.getStateTime ∧
      List.Forall₂ (fun s s' => s.timestamp = s'.timestamp ∧ s.covariance.Le (s'.covariance.smul l)) f.retained g.retained := by
  have hn : e.Noisier n m kd (e.scaled l) := by
    obtain ⟨p, W, Rp, V, Rc, hW, hRp, hV, hRc⟩ := he.sys.noise
    refine ⟨he.sys, ?_, ⟨rfl, ⟨rfl, rfl⟩, ⟨rfl, rfl⟩⟩, ⟨he.Rp, ?_⟩, ⟨he.Rc, ?_⟩, he.meas, ?_, ?_, he.quiet⟩
    · exact ⟨he.sys.states, he.sys.controls, he.sys.der, he.sys.P, he.sys.Rp, he.sys.V, he.sys.Rc⟩
    · exact he.Rp.le_smul (n := p) (by rw [hRp]; exact ⟨rfl, rfl⟩) hl
    · exact he.Rc.le_smul he.sys.Rc hl
    · intro k; exact ⟨(he.meas k).states, (he.meas k).meas, (he.meas k).der, (he.meas k).cov⟩
    · intro k; exact ⟨rfl, rfl, rfl⟩
  have hh : e.Homogeneous l := by
    have key : ∀ fm : FilterModel, fm.makeStationaryF = none → fm.Homogeneous l := by
      intro fm h x c
      unfold FilterModel.makeStationary
      rw [h]; rfl
    exact ⟨key _ he.keeps.1, fun k => key _ (he.keeps.2 k)⟩
  obtain ⟨f, h, h1, h2, h3, h4, h5⟩ := C86_monotone hc hsc hmc hmf sort hsort params e (e.scaled l) hn x x' c (c'.smul l) t
    hx hx' hcc ⟨hpsd, hle⟩ ops (ops'.map (third l)) (by
      clear * - hops hl
      induction hops with
      | nil => exact .nil
      | cons a _ ih => exact .cons (third_noisier hl a) ih)
  have hs := C97_kf (show 0 < l by linarith) sort hsort params x' c' t hsb hmb e hh ops' (ops'.map (third l)) (by
      clear * - hops
      induction hops with
      | nil => exact .nil
      | cons a _ ih => exact .cons (third_scaled a) ih)
  rw [h2] at hs
  cases hg : (Filter.construct (kfPlant sc mc) params e x' c' t).run (kfPlant sc mc) sort ops' with
  | none => rw [hg] at hs; exact hs.elim
  | some g =>
    rw [hg] at hs
    obtain ⟨s1, s2, s3, s4⟩ := hs
    refine ⟨f, g, h1, rfl, by rw [← s3]; exact h3, h4.trans s2, ?_⟩
    clear * - h5 s4
    generalize f.retained = a at *
    generalize g.retained = b at *
    generalize h.retained = d at *
    induction h5 generalizing b with
    | nil => cases b with
      | nil => exact .nil
      | cons => cases s4
    | cons k _ ih => cases b with
      | nil => cases s4
      | cons s b =>
        simp only [List.map_cons, List.cons.injEq, Prod.mk.injEq] at s4
        refine .cons ⟨k.1.trans s4.1.2.2, ?_⟩ (ih _ s4.2)
        rw [← s4.1.2.1]; exact k.2

/-! ### With process noise, exponentially -/

private theorem rec_forget {x0 x0' : Fin n → ℝ} {P0 P0' Pc : Matrix (Fin n) (Fin n) ℝ} {eps d : ℝ} (heps : 0 ≤ eps) (hd : 0 ≤ d)
    (h0 : P0.PosSemidef) (h0' : P0'.PosSemidef) (hc : (Pc - P0').PosSemidef) (h : ((1 + d) • P0' - P0).PosSemidef)
    {l l' : List (Event n m)} (hl : List.Forall₂ Event.SameKind l l') (hok : ∀ ev ∈ l, ev.Ok) (hst : ∀ ev ∈ l, ev.Stirs eps Pc) :
    (Pc - (kalmanRec x0' P0' l').2).PosSemidef ∧ (kalmanRec x0' P0' l').2.PosSemidef ∧
      ((1 + d / (1 + eps) ^ motions l) • (kalmanRec x0' P0' l').2 - (kalmanRec x0 P0 l).2).PosSemidef := by
  induction hl with
  | nil => simpa [kalmanRec, motions] using ⟨hc, h0', h⟩
  | cons he hl' ih =>
    obtain ⟨i1, i2, i3⟩ := ih (fun ev hev => hok ev (List.mem_cons_of_mem _ hev)) (fun ev hev => hst ev (List.mem_cons_of_mem _ hev))
    have ip := kalmanRec_psd (x0 := x0) h0 (fun ev hev => hok ev (List.mem_cons_of_mem _ hev))
    have ok := hok _ List.mem_cons_self
    have st := hst _ List.mem_cons_self
    cases he with
    | @move p A B W V Rp Rc u u' =>
      simp only [kalmanRec, motions]
      generalize (kalmanRec x0' P0' _).2 = P' at *
      generalize (kalmanRec x0 P0 _).2 = P at *
      obtain ⟨s1, s2⟩ := st
      obtain ⟨o1, o2⟩ := ok
      have hQ : (W * Rp * Wᵀ + V * Rc * Vᵀ).PosSemidef := (psd_conj o1 W).add (psd_conj o2 V)
      simp only [add_assoc]
      generalize W * Rp * Wᵀ + V * Rc * Vᵀ = Q at *
      have hr : ∀ k : Nat, d / (1 + eps) ^ (k + 1) = d / (1 + eps) ^ k / (1 + eps) := by
        intro k; rw [pow_succ, div_mul_eq_div_div]
      have hr0 : ∀ k : Nat, 0 ≤ d / (1 + eps) ^ k := fun k => by positivity
      rw [hr]
      generalize hr : d / (1 + eps) ^ motions _ = r at *
      have hr0 : 0 ≤ r := by rw [← hr]; exact hr0 _
      refine ⟨?_, (psd_conj i2 A).add hQ, ?_⟩
      · have e : Pc - (A * P' * Aᵀ + Q) = (Pc - (A * Pc * Aᵀ + Q)) + A * (Pc - P') * Aᵀ := by
          simp only [Matrix.mul_sub, Matrix.sub_mul]; abel
        rw [e]; exact s2.add (psd_conj i1 A)
      · have e : (1 + r / (1 + eps)) • (A * P' * Aᵀ + Q) - (A * P * Aᵀ + Q) =
            A * ((1 + r) • P' - P) * Aᵀ + (r / (1 + eps)) • ((Q - eps • (A * Pc * Aᵀ)) + eps • (A * (Pc - P') * Aᵀ)) := by
          have h1 : (1 : ℝ) + eps ≠ 0 := by positivity
          have h2 : r = r / (1 + eps) + r / (1 + eps) * eps := by field_simp
          generalize r / (1 + eps) = q at *
          subst h2
          simp only [Matrix.mul_sub, Matrix.sub_mul, Matrix.mul_smul, Matrix.smul_mul]
          module
        rw [e]
        exact (psd_conj i3 A).add ((s1.add ((psd_conj i1 A).smul heps)).smul (by positivity))
    | @measure k C R z z' =>
      simp only [kalmanRec, motions]
      generalize (kalmanRec x0' P0' _).2 = P' at *
      generalize (kalmanRec x0 P0 _).2 = P at *
      have hr0 : ∀ k : Nat, 0 ≤ d / (1 + eps) ^ k := fun k => by positivity
      generalize hr : d / (1 + eps) ^ motions _ = r at *
      have hr0 : 0 ≤ r := by rw [← hr]; exact hr0 _
      have hR : R.PosDef := ok
      refine ⟨?_, post_psd i2 C hR, ?_⟩
      · have e : Pc - post P' C R = (Pc - P') + (P' - post P' C R) := by abel
        rw [e]; exact i1.add (post_le i2 C hR)
      · rw [← post_smul (by positivity) (pd_isUnit_det (innov_pd i2 C hR))]
        refine post_mono ip i3 hR ?_
        have e : (1 + r) • R - R = r • R := by module
        rw [e]; exact hR.posSemidef.smul hr0

theorem sameKind_ok {l l' : List (Event n m)} (hl : List.Forall₂ Event.SameKind l l') (hok : ∀ ev ∈ l, ev.Ok) :
    ∀ ev ∈ l', ev.Ok := by
  induction hl with
  | nil => intro ev h; cases h
  | cons he _ ih =>
    have h1 := hok _ List.mem_cons_self
    intro ev hev
    rcases List.mem_cons.mp hev with rfl | hev
    · cases he with
      | move => exact h1
      | measure => exact h1
    · exact ih (fun ev hev => hok ev (List.mem_cons_of_mem _ hev)) ev hev

/-- **C101 (covariance).**  Two Kalman filters used alike by in-order calls (same matrices and noise, any data), where every
motion brings in enough noise (`Stirs`).  If the first one's initial covariance is at most `1 + d` times the second's, then after
`k` motions, and any number of measurements, its covariance is at most `1 + d / (1 + eps) ^ k` times the second's; and each of
its variances exceeds the second's by at most `d / (1 + eps) ^ k` times the ceiling. -/
theorem C101_covariance [LinearOrder T] [ExactTime T] {sc : SysClass T LinSysData X} {mc : K → MeasClass T LinMeasData Y}
    (hsc : SysContract LinSysData.Sized sc) (hmc : ∀ j, MeasContract LinMeasData.Sized (mc j))
    (ops : sc.PlainOps) (mops : ∀ j, (mc j).PlainOps) {x0 x0' : Fin n → ℝ} {P0 P0' Pc : Matrix (Fin n) (Fin n) ℝ}
    (h0 : P0.PosSemidef) (h0' : P0'.PosSemidef) (hPc : (Pc - P0').PosSemidef) {eps d : ℝ} (heps : 0 ≤ eps) (hd : 0 ≤ d)
    (h : ((1 + d) • P0' - P0).PosSemidef) {f g ctl ctl'} {evs evs' : List (Event n m)}
    (hf : Recorded sc mc n m kd x0 P0 f ctl evs) (hg : Recorded sc mc n m kd x0' P0' g ctl' evs')
    (hsame : List.Forall₂ Event.SameKind evs evs') (hok : ∀ ev ∈ evs, ev.Ok) (hst : ∀ ev ∈ evs, ev.Stirs eps Pc) :
    ∃ P P' : Matrix (Fin n) (Fin n) ℝ, f.getCovariance = .of P ∧ g.getCovariance = .of P' ∧
      ((1 + d / (1 + eps) ^ motions evs) • P' - P).PosSemidef ∧
      ∀ i, P i i ≤ P' i i + d / (1 + eps) ^ motions evs * Pc i i := by
  obtain ⟨i1, i2, i3⟩ := rec_forget (x0 := x0) (x0' := x0') heps hd h0 h0' hPc h hsame hok hst
  refine ⟨_, _, (hf.inv hsc hmc ops mops h0 hok).cov, (hg.inv hsc hmc ops mops h0' (sameKind_ok hsame hok)).cov, i3, ?_⟩
  intro i
  have a := i3.diag_nonneg (i := i)
  have b := i1.diag_nonneg (i := i)
  have hr0 : 0 ≤ d / (1 + eps) ^ motions evs := by positivity
  simp only [Matrix.sub_apply, Matrix.smul_apply, smul_eq_mul] at a b
  nlinarith [mul_nonneg hr0 b]

private theorem rec_meet {x0 x0' : Fin n → ℝ} {P0 Pc : Matrix (Fin n) (Fin n) ℝ} {eps d : ℝ} (heps : 0 ≤ eps) (hd : 0 ≤ d)
    (h0 : P0.PosSemidef) (hc : (Pc - P0).PosSemidef) (h : (d • P0 - vecMulVec (x0 - x0') (x0 - x0')).PosSemidef)
    {l : List (Event n m)} (hok : ∀ ev ∈ l, ev.Ok) (hst : ∀ ev ∈ l, ev.Stirs eps Pc) :
    (kalmanRec x0' P0 l).2 = (kalmanRec x0 P0 l).2 ∧ (Pc - (kalmanRec x0 P0 l).2).PosSemidef ∧
      ((d / (1 + eps) ^ motions l) • (kalmanRec x0 P0 l).2 -
        vecMulVec ((kalmanRec x0 P0 l).1 - (kalmanRec x0' P0 l).1) ((kalmanRec x0 P0 l).1 - (kalmanRec x0' P0 l).1)).PosSemidef := by
  induction l with
  | nil => simpa [kalmanRec, motions] using ⟨hc, h⟩
  | cons ev l ih =>
    obtain ⟨i1, i2, i3⟩ := ih (fun ev hev => hok ev (List.mem_cons_of_mem _ hev)) (fun ev hev => hst ev (List.mem_cons_of_mem _ hev))
    have ip := kalmanRec_psd (x0 := x0) h0 (fun ev hev => hok ev (List.mem_cons_of_mem _ hev))
    have ok := hok _ List.mem_cons_self
    have st := hst _ List.mem_cons_self
    have hr0 : 0 ≤ d / (1 + eps) ^ motions l := by positivity
    have hout : ∀ (M : Matrix (Fin n) (Fin n) ℝ) (v : Fin n → ℝ), vecMulVec (M *ᵥ v) (M *ᵥ v) = M * vecMulVec v v * Mᵀ := by
      intro M v
      rw [Matrix.mul_vecMulVec, Matrix.vecMulVec_mul, Matrix.vecMul_transpose]
    cases ev with
    | move A B W V Rp Rc u =>
      simp only [kalmanRec, motions]
      rw [i1]
      have hr : d / (1 + eps) ^ (motions l + 1) = d / (1 + eps) ^ motions l / (1 + eps) := by rw [pow_succ, div_mul_eq_div_div]
      rw [hr]
      generalize (kalmanRec x0' P0 l).1 = y' at *
      generalize (kalmanRec x0 P0 l).1 = y at *
      generalize (kalmanRec x0 P0 l).2 = P at *
      obtain ⟨s1, s2⟩ := st
      simp only [add_assoc]
      generalize W * Rp * Wᵀ + V * Rc * Vᵀ = Q at *
      generalize d / (1 + eps) ^ motions l = r at *
      refine ⟨trivial, ?_, ?_⟩
      · have e : Pc - (A * P * Aᵀ + Q) = (Pc - (A * Pc * Aᵀ + Q)) + A * (Pc - P) * Aᵀ := by
          simp only [Matrix.mul_sub, Matrix.sub_mul]; abel
        rw [e]; exact s2.add (psd_conj i2 A)
      · have e0 : A *ᵥ y + B *ᵥ u - (A *ᵥ y' + B *ᵥ u) = A *ᵥ (y - y') := by rw [Matrix.mulVec_sub]; abel
        have e : (r / (1 + eps)) • (A * P * Aᵀ + Q) - A * vecMulVec (y - y') (y - y') * Aᵀ =
            A * (r • P - vecMulVec (y - y') (y - y')) * Aᵀ +
              (r / (1 + eps)) • ((Q - eps • (A * Pc * Aᵀ)) + eps • (A * (Pc - P) * Aᵀ)) := by
          have h1 : (1 : ℝ) + eps ≠ 0 := by positivity
          have h2 : r = r / (1 + eps) + r / (1 + eps) * eps := by field_simp
          generalize vecMulVec (y - y') (y - y') = Z
          generalize r / (1 + eps) = q at *
          subst h2
          simp only [Matrix.mul_sub, Matrix.sub_mul, Matrix.mul_smul, Matrix.smul_mul]
          module
        rw [e0, hout, e]
        exact (psd_conj i3 A).add ((s1.add ((psd_conj i2 A).smul heps)).smul (by positivity))
    | measure C R z =>
      simp only [kalmanRec, motions]
      rw [i1]
      generalize (kalmanRec x0' P0 l).1 = y' at *
      generalize (kalmanRec x0 P0 l).1 = y at *
      generalize (kalmanRec x0 P0 l).2 = P at *
      generalize d / (1 + eps) ^ motions l = r at *
      have hR : R.PosDef := ok
      refine ⟨rfl, ?_, ?_⟩
      · have e : Pc - post P C R = (Pc - P) + (P - post P C R) := by abel
        rw [e]; exact i2.add (post_le ip C hR)
      · have e0 : postState y P C R z - postState y' P C R z = (1 - gain P C R * C) *ᵥ (y - y') := by
          unfold postState
          rw [Matrix.sub_mulVec, Matrix.one_mulVec, ← Matrix.mulVec_mulVec (y - y') (gain P C R) C]
          simp only [Matrix.mulVec_sub]
          abel
        rw [e0, hout, post_joseph (psd_symm ip) (pd_isUnit_det (innov_pd ip C hR)) (psd_symm hR.posSemidef)]
        generalize 1 - gain P C R * C = M
        generalize gain P C R = G
        generalize vecMulVec (y - y') (y - y') = Z at *
        have e : r • (M * P * Mᵀ + G * R * Gᵀ) - M * Z * Mᵀ = M * (r • P - Z) * Mᵀ + r • (G * R * Gᵀ) := by
          simp only [Matrix.mul_sub, Matrix.sub_mul, Matrix.mul_smul, Matrix.smul_mul]
          module
        rw [e]
        exact (psd_conj i3 M).add ((psd_conj hR.posSemidef G).smul hr0)

/-- **C101 (state).**  Two Kalman filters with the same initial covariance but different initial states, used alike by in-order
calls with the same data, where every motion brings in enough noise.  If the initial states differ by no more than `d` times the
initial covariance allows, `(x0 - x0') (x0 - x0')ᵀ ≤ d P0`, then after `k` motions, and any number of measurements, the
estimates differ in each component by at most the root of `d / (1 + eps) ^ k` times the ceiling. -/
theorem C101_state [LinearOrder T] [ExactTime T] {sc : SysClass T LinSysData X} {mc : K → MeasClass T LinMeasData Y}
    (hsc : SysContract LinSysData.Sized sc) (hmc : ∀ j, MeasContract LinMeasData.Sized (mc j))
    (ops : sc.PlainOps) (mops : ∀ j, (mc j).PlainOps) {x0 x0' : Fin n → ℝ} {P0 Pc : Matrix (Fin n) (Fin n) ℝ}
    (h0 : P0.PosSemidef) (hPc : (Pc - P0).PosSemidef) {eps d : ℝ} (heps : 0 ≤ eps) (hd : 0 ≤ d)
    (h : (d • P0 - vecMulVec (x0 - x0') (x0 - x0')).PosSemidef) {f g ctl ctl'} {evs : List (Event n m)}
    (hf : Recorded sc mc n m kd x0 P0 f ctl evs) (hg : Recorded sc mc n m kd x0' P0 g ctl' evs)
    (hok : ∀ ev ∈ evs, ev.Ok) (hst : ∀ ev ∈ evs, ev.Stirs eps Pc) :
    ∃ x x' : Fin n → ℝ, f.getState = .of x ∧ g.getState = .of x' ∧
      ∀ i, (x i - x' i) ^ 2 ≤ d / (1 + eps) ^ motions evs * Pc i i := by
  obtain ⟨i1, i2, i3⟩ := rec_meet heps hd h0 hPc h hok hst
  refine ⟨_, _, (hf.inv hsc hmc ops mops h0 hok).x, (hg.inv hsc hmc ops mops h0 hok).x, ?_⟩
  intro i
  have a := i3.diag_nonneg (i := i)
  have b := i2.diag_nonneg (i := i)
  have hr0 : 0 ≤ d / (1 + eps) ^ motions evs := by positivity
  simp only [Matrix.sub_apply, Matrix.smul_apply, smul_eq_mul, vecMulVec_apply, Pi.sub_apply] at a b
  nlinarith [mul_nonneg hr0 b]

/-! ### The hypotheses are met: the leaky integrator `x' = x / 2 + u` of C95, with a ruler

Process variance 2, control variance 1/2; half the standard deviation is carried over, so of a variance of 4 only 1 is: the noise
is more than twice that. -/

theorem half_blind : halfClass.BlindToNoise where
  update := by
    intro l s x u dt
    change (if s.stateSize = 1 ∧ s.controlDims = 1 ∧ s.Rp.rows = 1 then _ else _) = Option.map _ (if s.stateSize = 1 ∧ s.controlDims = 1 ∧ s.Rp.rows = 1 then _ else _)
    split <;> rfl
  updateFm := by
    intro s x u dt s' h
    change (if s.stateSize = 1 ∧ s.controlDims = 1 ∧ s.Rp.rows = 1 then _ else _) = some s' at h
    split at h <;> cases h <;> rfl
  stationary := fun _ _ _ _ => rfl
  stationaryFm := by intro s x u s' h; cases h; rfl
  add := fun _ _ => rfl

theorem half_noiseFree : SysNoiseFree halfClass := by
  rintro s s' x x' u u' dt r r' ⟨h, h1, h2⟩ _ _ hr hr'
  change (if s.stateSize = 1 ∧ s.controlDims = 1 ∧ s.Rp.rows = 1 then _ else some s) = some r at hr
  change (if s'.stateSize = 1 ∧ s'.controlDims = 1 ∧ s'.Rp.rows = 1 then _ else some s') = some r' at hr'
  have e1 : s'.stateSize = s.stateSize := by rw [h]; rfl
  have e2 : s'.controlDims = s.controlDims := by rw [h]
  rw [e1, e2, h1.1] at hr'
  split at hr
  next hc =>
    rw [if_pos hc] at hr'
    injection hr with hr
    injection hr' with hr'
    subst hr hr'
    exact ⟨by dsimp only; rw [h], h1, h2⟩
  next hc =>
    rw [if_neg hc] at hr'
    injection hr with hr
    injection hr' with hr'
    subst hr hr'
    exact ⟨h, h1, h2⟩

/-- `z = x`. -/
noncomputable def wholeClass : MeasClass ℝ LinMeasData Unit :=
  MeasClass.plain fun s _ _ => if s.stateSize = 1 ∧ s.measDims = 1 then some { s with der := ⟨.of !![1]⟩ } else some s

theorem whole_contract : MeasContract LinMeasData.Sized wholeClass := by
  apply Examples.plain_mcontract
  intro n k s x dt hs hx
  split
  next h =>
    obtain ⟨h1, h2⟩ := h
    have hn : n = 1 := by rw [← hs.states]; exact h1
    have hm : k = 1 := by rw [← hs.meas]; exact h2
    subst hn hm
    exact ⟨_, rfl, ⟨hs.states, hs.meas, ⟨rfl, rfl⟩, hs.cov⟩, ⟨rfl, rfl, rfl, rfl⟩⟩
  next => exact ⟨s, rfl, hs, Meas.SameConfig.refl s⟩

theorem whole_blind : wholeClass.BlindToNoise where
  update := by
    intro l s x dt
    change (if s.stateSize = 1 ∧ s.measDims = 1 then _ else _) = Option.map _ (if s.stateSize = 1 ∧ s.measDims = 1 then _ else _)
    split <;> rfl
  updateFm := by
    intro s x dt s' h
    change (if s.stateSize = 1 ∧ s.measDims = 1 then _ else _) = some s' at h
    split at h <;> cases h <;> rfl
  stationary := fun _ _ _ _ => rfl
  stationaryFm := by intro s x u s' h; cases h; rfl
  sub := fun _ _ => rfl

theorem whole_noiseFree : MeasNoiseFree wholeClass := by
  rintro s s' x x' dt r r' ⟨h, h1⟩ _ hr hr'
  change (if s.stateSize = 1 ∧ s.measDims = 1 then _ else some s) = some r at hr
  change (if s'.stateSize = 1 ∧ s'.measDims = 1 then _ else some s') = some r' at hr'
  have e1 : s'.stateSize = s.stateSize := by rw [h]; rfl
  have e2 : s'.measDims = s.measDims := by rw [h]
  rw [e1, e2] at hr'
  split at hr
  next hc =>
    rw [if_pos hc] at hr'
    injection hr with hr
    injection hr' with hr'
    subst hr hr'
    exact ⟨by dsimp only; rw [h], h1⟩
  next hc =>
    rw [if_neg hc] at hr'
    injection hr with hr
    injection hr' with hr'
    subst hr hr'
    exact ⟨h, h1⟩

theorem psd11 {a : ℝ} (h : 0 ≤ a) : (!![a] : Matrix (Fin 1) (Fin 1) ℝ).PosSemidef := by
  have : (!![a] : Matrix (Fin 1) (Fin 1) ℝ) = a • 1 := by ext i j; fin_cases i; fin_cases j; simp
  rw [this]
  exact PosSemidef.one.smul h

theorem eq11 {A : Matrix (Fin 1) (Fin 1) ℝ} (a : ℝ) (h : A 0 0 = a) : A = !![a] := by
  ext i j; fin_cases i; fin_cases j; exact h

theorem half_regular : Regular 1 1 (fun _ => 1) halfEnv where
  sys := ⟨rfl, rfl, ⟨⟨rfl, rfl⟩, rfl, rfl⟩, ⟨rfl, rfl⟩, ⟨rfl, rfl⟩, ⟨rfl, rfl⟩, ⟨rfl, rfl⟩⟩
  meas := fun _ => ⟨rfl, rfl, ⟨rfl, rfl⟩, rfl, rfl⟩
  Rp := DMat.PSD_of.mpr (psd11 (by norm_num))
  Rc := DMat.PSD_of.mpr (psd11 (by norm_num))
  quiet := ⟨rfl, fun _ => rfl⟩
  keeps := ⟨rfl, fun _ => rfl⟩

/-- Initial variances 9 and 3, factor 3; a late measurement among the calls, and a new start in between. -/
example (sort : List (FilterInput ℝ DVec DMat Unit) → List (FilterInput ℝ DVec DMat Unit)) (hsort : SameSort sort sort)
    (params : Params ℝ) :
    ∃ f g, (Filter.construct (kfPlant halfClass fun _ => wholeClass) params halfEnv (.of ![7]) (.of !![9]) 0).run
        (kfPlant halfClass fun _ => wholeClass) sort
        [.predictControl (.of ![1]) 2, .correct (.of ![3]) (.of !![5]) 1 (some ()), .init (.of ![0]) (.of !![2]) 4, .predictTime 5]
        = some f ∧
      (Filter.construct (kfPlant halfClass fun _ => wholeClass) params halfEnv (.of ![0]) (.of !![3]) 0).run
        (kfPlant halfClass fun _ => wholeClass) sort
        [.predictControl (.of ![2]) 2, .correct (.of ![4]) (.of !![5]) 1 (some ()), .init (.of ![1]) (.of !![1]) 4, .predictTime 5]
        = some g ∧ f.getCovariance.Le (g.getCovariance.smul 3) := by
  have p5 : (DMat.of (!![5] : Matrix (Fin 1) (Fin 1) ℝ)).PD := by
    rw [DMat.PD_of, show (!![5] : Matrix (Fin 1) (Fin 1) ℝ) = (5 : ℝ) • 1 by
      ext i j; fin_cases i; fin_cases j; simp]
    exact PosDef.one.smul (by norm_num)
  have le : ∀ a b : ℝ, a ≤ 3 * b → (DMat.of (!![a] : Matrix (Fin 1) (Fin 1) ℝ)).Le ((DMat.of !![b]).smul 3) := by
    intro a b h
    rw [DMat.smul_of, DMat.Le_of, eq11 (A := (3 : ℝ) • !![b] - !![a]) (3 * b - a) (by simp)]
    exact psd11 (by linarith)
  obtain ⟨f, g, h1, h2, h3, _⟩ := C101_never_grows half_contract half_noiseFree half_blind (fun _ : Unit => whole_contract)
    (fun _ => whole_noiseFree) (fun _ => whole_blind) sort hsort params halfEnv half_regular 3 (by norm_num) (.of ![7]) (.of ![0])
    (.of !![9]) (.of !![3]) 0 rfl rfl ⟨rfl, rfl⟩ (DMat.PSD_of.mpr (psd11 (by norm_num))) (le 9 3 (by norm_num))
    [.predictControl (.of ![1]) 2, .correct (.of ![3]) (.of !![5]) 1 (some ()), .init (.of ![0]) (.of !![2]) 4, .predictTime 5]
    [.predictControl (.of ![2]) 2, .correct (.of ![4]) (.of !![5]) 1 (some ()), .init (.of ![1]) (.of !![1]) 4, .predictTime 5]
    (.cons ⟨Or.inl rfl, rfl, rfl⟩ (.cons ⟨rfl, rfl, rfl, (), rfl, rfl, rfl, ⟨rfl, rfl⟩, p5⟩
      (.cons ⟨rfl, rfl, ⟨rfl, rfl⟩, DMat.PSD_of.mpr (psd11 (by norm_num)), le 2 1 (by norm_num), rfl⟩ (.cons rfl .nil))))
  exact ⟨f, g, h1, h2, h3⟩

theorem half_gives (s : Sys LinSysData Unit) (hs : s.Sized LinSysData.Sized 1 1) (x u : DVec) (dt : ℝ) (s' : Sys LinSysData Unit)
    (hp : s.Rp = .of !![2]) (hc : s.Rc = .of !![1 / 2])
    (h : halfClass.myUpdate s x u dt = some s') : s'.Holds (p := 1) !![1 / 2] !![1] !![1] !![1] !![2] !![1 / 2] := by
  change (if s.stateSize = 1 ∧ s.controlDims = 1 ∧ s.Rp.rows = 1 then _ else some s) = some s' at h
  rw [if_pos ⟨hs.states, hs.controls, by rw [hp]⟩] at h
  injection h with h
  subst h
  exact ⟨rfl, rfl, rfl, rfl, hp, hc⟩

theorem half_stirs (u : Fin 1 → ℝ) :
    (Event.move (n := 1) (p := 1) !![1 / 2] !![1] !![1] !![1] !![2] !![1 / 2] u).Stirs 2 !![4] := by
  have a : !![1] * !![2] * !![1]ᵀ + !![1] * !![1 / 2] * !![1]ᵀ = (!![5 / 2] : Matrix (Fin 1) (Fin 1) ℝ) :=
    eq11 _ (by simp [Matrix.vecMul, dotProduct, Matrix.transpose_apply]; norm_num)
  have b : !![1 / 2] * !![4] * !![1 / 2]ᵀ = (!![1] : Matrix (Fin 1) (Fin 1) ℝ) :=
    eq11 _ (by simp [Matrix.vecMul, dotProduct, Matrix.transpose_apply]; norm_num)
  simp only [Event.Stirs]
  rw [a, b]
  constructor
  · rw [eq11 (A := !![5 / 2] - (2 : ℝ) • !![1]) (1 / 2) (by simp; norm_num)]
    exact psd11 (by norm_num)
  · rw [eq11 (A := !![4] - (!![1] + !![5 / 2])) (1 / 2) (by simp; norm_num)]
    exact psd11 (by norm_num)

/-- Two filters, one with four times the variance of the other: measure, move. -/
example : ∃ (f g : Filter ℝ DVec DMat Unit (Env Unit LinSysData Unit LinMeasData Unit)) (l : List (Event 1 1)),
    Recorded halfClass (fun _ => wholeClass) 1 1 (fun _ => 1) ![7] !![4] f ![3] l ∧
    Recorded halfClass (fun _ => wholeClass) 1 1 (fun _ => 1) ![9] !![1] g ![3] l ∧
    (∀ ev ∈ l, ev.Ok) ∧ (∀ ev ∈ l, ev.Stirs 2 !![4]) ∧ motions l = 1 ∧
    ((1 + 3 : ℝ) • !![1] - !![4] : Matrix (Fin 1) (Fin 1) ℝ).PosSemidef := by
  have sc := half_contract
  have mcn : ∀ _ : Unit, MeasContract LinMeasData.Sized wholeClass := fun _ => whole_contract
  have o : halfClass.PlainOps := Examples.plain_ops _
  have mo : ∀ _ : Unit, wholeClass.PlainOps := fun _ => Examples.plain_mops _
  have run : ∀ (x0 : Fin 1 → ℝ) (P0 : Matrix (Fin 1) (Fin 1) ℝ), P0.PosSemidef →
      ∃ f : Filter ℝ DVec DMat Unit (Env Unit LinSysData Unit LinMeasData Unit),
      Recorded halfClass (fun _ => wholeClass) 1 1 (fun _ => 1) x0 P0 f ![3]
        [.move (p := 1) !![1 / 2] !![1] !![1] !![1] !![2] !![1 / 2] ![3], .measure !![1] (1 : Matrix (Fin 1) (Fin 1) ℝ) ![5]] := by
    intro x0 P0 p0
    have r0 : Recorded (T := ℝ) halfClass (fun _ : Unit => wholeClass) 1 1 (fun _ => 1) x0 P0
        (Filter.construct (kfPlant halfClass (fun _ => wholeClass))
          {rewindHistory := false, historyWindow := 1, allowPast := false} halfEnv (.of x0) (.of P0) 0) 0 [] :=
      .start _ _ _ half_regular.sys half_regular.meas half_regular.quiet
    obtain ⟨f1, r1, t1, e1⟩ := r0.can_correct_const sc mcn o mo p0 (by intro ev h; cases h) () ![5] 1 PosDef.one !![1] (by
      intro s x dt s' hs h
      change (if s.stateSize = 1 ∧ s.measDims = 1 then _ else some s) = some s' at h
      rw [if_pos ⟨hs.states, hs.meas⟩] at h
      cases h
      rfl)
    have e1' : f1.env.sys = halfEnv.sys := e1
    obtain ⟨f2, r2, -⟩ := r1.can_predict_const (p := 1) (A := !![1 / 2]) (B := !![1]) (W := !![1]) (V := !![1]) (Rp := !![2])
      (Rc := !![1 / 2]) sc mcn o mo p0 (by intro ev h; rw [List.mem_singleton.mp h]; exact PosDef.one) one_pos ![3] 1
      (by rw [t1]; exact zero_le_one) (by
        intro x s' h
        rw [e1'] at h
        exact half_gives halfEnv.sys half_regular.sys _ _ _ _ rfl rfl h)
    exact ⟨f2, r2⟩
  obtain ⟨f, hf⟩ := run ![7] !![4] (psd11 (by norm_num))
  obtain ⟨g, hg⟩ := run ![9] !![1] (psd11 (by norm_num))
  refine ⟨f, g, _, hf, hg, ?_, ?_, rfl, ?_⟩
  · intro ev h
    rcases List.mem_cons.mp h with rfl | h
    · exact ⟨psd11 (by norm_num), psd11 (by norm_num)⟩
    · rw [List.mem_singleton.mp h]; exact PosDef.one
  · intro ev h
    rcases List.mem_cons.mp h with rfl | h
    · exact half_stirs _
    · rw [List.mem_singleton.mp h]; trivial
  · rw [eq11 (A := (1 + 3 : ℝ) • !![1] - !![4]) 0 (by simp; norm_num)]
    exact psd11 le_rfl

/-- Initial states 7 and 9 are at most 4 times the variance 1 apart: `(7 - 9)² ≤ 4 · 1`. -/
example : ((4 : ℝ) • !![1] - vecMulVec (![7] - ![9]) (![7] - ![9]) : Matrix (Fin 1) (Fin 1) ℝ).PosSemidef := by
  rw [eq11 (A := (4 : ℝ) • !![1] - vecMulVec (![7] - ![9]) (![7] - ![9])) 0 (by simp [vecMulVec_apply]; norm_num)]
  exact psd11 le_rfl

end Props
end StateEstimation
