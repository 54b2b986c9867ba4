import Verif.Lemmas.Observed
import Verif.Props.Steady
import Verif.Examples.Linear

/-!
# C132: what the readings show

A Kalman filter over a stretch of motions and measurements whose readings determine the state at its end (`Shows`): its covariance is
bounded wherever it started, and only then.  When the noise of the motions reaches every state as well (`Stirred`), repeated use
settles from any initial covariance, and with exact data the estimate converges to the true state.
-/

set_option linter.unusedSectionVars false

namespace StateEstimation
namespace Observed

open Matrix Kalman Settle Topology
open _root_.Filter (Tendsto atTop)

variable {n m : Nat}
open Props

theorem mem_of_cycles {k : Nat} {cyc : List (Event n m)} {ev : Event n m} (h : ev ∈ cycles k cyc) : ev ∈ cyc := by
  unfold cycles at h
  rw [List.mem_flatten] at h
  obtain ⟨l, h1, h2⟩ := h
  rw [List.eq_of_mem_replicate h1] at h2
  exact h2

theorem cycles_cons (k : Nat) (cyc : List (Event n m)) : cycles (k + 1) cyc = cyc ++ cycles k cyc := by
  unfold cycles; rw [List.replicate_succ, List.flatten_cons]

theorem cycles_snoc (k : Nat) (cyc : List (Event n m)) : cycles (k + 1) cyc = cycles k cyc ++ cyc := by
  unfold cycles; rw [List.replicate_add, List.flatten_append]; simp

theorem cov_cycles (k : Nat) (cyc : List (Event n m)) (P : Matrix (Fin n) (Fin n) ℝ) :
    cov P (cycles k cyc) = (fun P => cov P cyc)^[k] P := by
  induction k with
  | zero => rfl
  | succ k ih => rw [cycles_cons, cov_append, ih, Function.iterate_succ_apply']

/-- after one cycle, all covariances are between a floor and a ceiling -/
theorem pinch {cyc : List (Event n m)} (hok : ∀ ev ∈ cyc, ev.Ok) (hsh : Shows cyc) (hst : Stirred cyc) :
    ∃ a b δ : ℝ, 0 < a ∧ 0 < b ∧ 0 < δ ∧ δ ≤ 1 ∧ ∀ P : Matrix (Fin n) (Fin n) ℝ, P.PosSemidef →
      (cov P cyc - a • (1 : Matrix (Fin n) (Fin n) ℝ)).PosSemidef ∧ (b • (1 : Matrix (Fin n) (Fin n) ℝ) - cov P cyc).PosSemidef ∧
      (cov 0 cyc - δ • cov P cyc).PosSemidef := by
  obtain ⟨b, hb, h1⟩ := cov_bounded hok hsh
  obtain ⟨a, ha, h2⟩ := pd_floor (cov_pd hok hst)
  refine ⟨a, b, min (a / b) 1, ha, hb, lt_min (by positivity) one_pos, min_le_right _ _, fun P hP => ?_⟩
  have hd0 : 0 ≤ min (a / b) 1 := le_min (by positivity) zero_le_one
  have hd : min (a / b) 1 * b ≤ a := by
    have := mul_le_mul_of_nonneg_right (min_le_left (a / b) 1) hb.le
    rwa [div_mul_cancel₀ _ hb.ne'] at this
  generalize min (a / b) 1 = δ at *
  have mono : (cov P cyc - cov 0 cyc).PosSemidef := cov_mono PosSemidef.zero (by rw [sub_zero]; exact hP) hok
  refine ⟨?_, h1 P hP, ?_⟩
  · have e : cov P cyc - a • (1 : Matrix (Fin n) (Fin n) ℝ) = (cov P cyc - cov 0 cyc) + (cov 0 cyc - a • 1) := by abel
    rw [e]; exact mono.add h2
  · have e : cov 0 cyc - δ • cov P cyc = (cov 0 cyc - a • 1) + (a - δ * b) • (1 : Matrix (Fin n) (Fin n) ℝ) + δ • (b • 1 - cov P cyc) := by
      module
    rw [e]; exact (h2.add (PosSemidef.one.smul (by linarith))).add ((h1 P hP).smul hd0)

theorem iter_psd {cyc : List (Event n m)} (hok : ∀ ev ∈ cyc, ev.Ok) (k : Nat) {P : Matrix (Fin n) (Fin n) ℝ} (h : P.PosSemidef) :
    ((fun P => cov P cyc)^[k] P).PosSemidef := by
  rw [← cov_cycles]; exact cov_psd h fun ev hev => hok ev (mem_of_cycles hev)

/-- any two covariances come together, by a fixed factor per cycle -/
theorem closer {cyc : List (Event n m)} (hok : ∀ ev ∈ cyc, ev.Ok) {δ : ℝ} (h0 : 0 < δ) (h1 : δ ≤ 1)
    (hp : ∀ P : Matrix (Fin n) (Fin n) ℝ, P.PosSemidef → (cov 0 cyc - δ • cov P cyc).PosSemidef) (k : Nat)
    {P Q : Matrix (Fin n) (Fin n) ℝ} (hP : P.PosSemidef) (hQ : Q.PosSemidef) :
    ((1 + (1 / δ - 1) * (1 - δ) ^ k) • (fun P => cov P cyc)^[k + 1] Q - (fun P => cov P cyc)^[k + 1] P).PosSemidef := by
  induction k with
  | zero =>
    have a := hp P hP
    have b : (cov Q cyc - cov 0 cyc).PosSemidef := cov_mono PosSemidef.zero (by rw [sub_zero]; exact hQ) hok
    show ((1 + (1 / δ - 1) * (1 - δ) ^ 0) • cov Q cyc - cov P cyc).PosSemidef
    have e : (1 + (1 / δ - 1) * (1 - δ) ^ 0) • cov Q cyc - cov P cyc
        = (1 / δ) • (cov Q cyc - cov 0 cyc) + (1 / δ) • (cov 0 cyc - δ • cov P cyc) := by
      have h2 : 1 / δ * δ = 1 := by field_simp
      rw [smul_sub, smul_sub, smul_smul, h2, pow_zero]
      module
    rw [e]; exact (b.smul (by positivity)).add (a.smul (by positivity))
  | succ k ih =>
    simp only [Function.iterate_succ_apply' _ (k + 1)]
    have p1 := iter_psd hok (k + 1) hP
    have q1 := iter_psd hok (k + 1) hQ
    generalize (fun P => cov P cyc)^[k + 1] P = P1 at *
    generalize (fun P => cov P cyc)^[k + 1] Q = Q1 at *
    have hd : 0 ≤ (1 / δ - 1) * (1 - δ) ^ k := by
      refine mul_nonneg ?_ (pow_nonneg (by linarith) _)
      rw [sub_nonneg, le_div_iff₀ h0]; linarith
    have ed : (1 / δ - 1) * (1 - δ) ^ (k + 1) = (1 / δ - 1) * (1 - δ) ^ k * (1 - δ) := by rw [pow_succ]; ring
    rw [ed]
    generalize (1 / δ - 1) * (1 - δ) ^ k = d at *
    have c1 := cov_concave hd q1 hok
    have c2 : (cov ((1 + d) • Q1) cyc - cov P1 cyc).PosSemidef := cov_mono p1 ih hok
    have c3 := hp Q1 q1
    have e : (1 + d * (1 - δ)) • cov Q1 cyc - cov P1 cyc = ((1 + d) • cov Q1 cyc - d • cov 0 cyc - cov ((1 + d) • Q1) cyc)
        + (cov ((1 + d) • Q1) cyc - cov P1 cyc) + d • (cov 0 cyc - δ • cov Q1 cyc) := by module
    rw [e]; exact (c1.add c2).add (c3.smul hd)

/-- the rate in absolute terms -/
theorem rate {cyc : List (Event n m)} (hok : ∀ ev ∈ cyc, ev.Ok) {b δ : ℝ} (h0 : 0 < δ) (h1 : δ ≤ 1)
    (hb : ∀ P : Matrix (Fin n) (Fin n) ℝ, P.PosSemidef → (b • (1 : Matrix (Fin n) (Fin n) ℝ) - cov P cyc).PosSemidef)
    (hp : ∀ P : Matrix (Fin n) (Fin n) ℝ, P.PosSemidef → (cov 0 cyc - δ • cov P cyc).PosSemidef) (k : Nat)
    {P Q : Matrix (Fin n) (Fin n) ℝ} (hP : P.PosSemidef) (hQ : Q.PosSemidef) :
    (((1 / δ - 1) * (1 - δ) ^ k * b) • (1 : Matrix (Fin n) (Fin n) ℝ)
      - ((fun P => cov P cyc)^[k + 1] P - (fun P => cov P cyc)^[k + 1] Q)).PosSemidef := by
  have c := closer hok h0 h1 hp k hP hQ
  have u : (b • (1 : Matrix (Fin n) (Fin n) ℝ) - (fun P => cov P cyc)^[k + 1] Q).PosSemidef := by
    rw [Function.iterate_succ_apply']; exact hb _ (iter_psd hok k hQ)
  have hd : 0 ≤ (1 / δ - 1) * (1 - δ) ^ k := by
    refine mul_nonneg ?_ (pow_nonneg (by linarith) _)
    rw [sub_nonneg, le_div_iff₀ h0]; linarith
  generalize (1 / δ - 1) * (1 - δ) ^ k = d at *
  generalize (fun P => cov P cyc)^[k + 1] P = P1 at *
  generalize (fun P => cov P cyc)^[k + 1] Q = Q1 at *
  have e : (d * b) • (1 : Matrix (Fin n) (Fin n) ℝ) - (P1 - Q1) = ((1 + d) • Q1 - P1) + d • (b • 1 - Q1) := by module
  rw [e]; exact c.add (u.smul hd)

/-- what is left of an error after `k + 1` cycles -/
theorem err_small {cyc : List (Event n m)} (hok : ∀ ev ∈ cyc, ev.Ok) {a b δ : ℝ} (ha : 0 < a) (h0 : 0 < δ) (h1 : δ ≤ 1)
    (hb : ∀ P : Matrix (Fin n) (Fin n) ℝ, P.PosSemidef → (b • (1 : Matrix (Fin n) (Fin n) ℝ) - cov P cyc).PosSemidef)
    (hp : ∀ P : Matrix (Fin n) (Fin n) ℝ, P.PosSemidef → (cov 0 cyc - δ • cov P cyc).PosSemidef) (k : Nat)
    {P : Matrix (Fin n) (Fin n) ℝ} (hP : P.PosSemidef) (hPa : (P - a • (1 : Matrix (Fin n) (Fin n) ℝ)).PosSemidef) (d : Fin n → ℝ) :
    len (err P (cycles (k + 1) cyc) *ᵥ d) ≤ √((1 / δ - 1) * b / a) * (√(1 - δ)) ^ k * len d := by
  have hokc : ∀ ev ∈ cycles (k + 1) cyc, ev.Ok := fun ev h => hok ev (mem_of_cycles h)
  have i := err_cov hP hokc
  have r := rate hok h0 h1 hb hp k hP PosSemidef.zero
  rw [← cov_cycles, ← cov_cycles] at r
  generalize err P (cycles (k + 1) cyc) = F at *
  have s := psd_conj hPa F
  have key : (((1 / δ - 1) * (1 - δ) ^ k * b / a) • (1 : Matrix (Fin n) (Fin n) ℝ) - F * Fᵀ).PosSemidef := by
    have ha' : 1 / a * a = 1 := by field_simp
    have e : ((1 / δ - 1) * (1 - δ) ^ k * b / a) • (1 : Matrix (Fin n) (Fin n) ℝ) - F * Fᵀ
        = (1 / a) • ((((1 / δ - 1) * (1 - δ) ^ k * b) • (1 : Matrix (Fin n) (Fin n) ℝ)
            - (cov P (cycles (k + 1) cyc) - cov 0 (cycles (k + 1) cyc)))
          + (cov P (cycles (k + 1) cyc) - F * P * Fᵀ - cov 0 (cycles (k + 1) cyc)) + F * (P - a • 1) * Fᵀ) := by
      simp only [Matrix.mul_sub, Matrix.sub_mul, Matrix.mul_smul, Matrix.smul_mul, Matrix.mul_one]
      simp only [smul_add, smul_sub, smul_smul, ha', one_smul]
      rw [show 1 / a * ((1 / δ - 1) * (1 - δ) ^ k * b) = (1 / δ - 1) * (1 - δ) ^ k * b / a by ring]
      abel
    rw [e]; exact ((r.add i).add s).smul (by positivity)
  have l := len_mulVec key d
  refine l.trans (le_of_eq ?_)
  have hd : 0 ≤ 1 - δ := by linarith
  rw [show (1 / δ - 1) * (1 - δ) ^ k * b / a = (1 / δ - 1) * b / a * (1 - δ) ^ k by ring, Real.sqrt_mul' _ (pow_nonneg hd _),
    show (1 - δ) ^ k = ((√(1 - δ)) ^ k) ^ 2 by rw [← pow_mul, mul_comm, pow_mul, Real.sq_sqrt hd], Real.sqrt_sq (by positivity)]

end Observed

namespace Props

open Matrix Kalman Settle Observed Topology
open _root_.Filter (Tendsto atTop)

variable {n m : Nat}

variable {T K X Y : Type} [DecidableEq K] [LinearOrder T] [ExactTime T] {kd : K → Nat}

section
variable {sc : SysClass T LinSysData X} {mc : K → MeasClass T LinMeasData Y}
  (hsc : SysContract LinSysData.Sized sc) (hmc : ∀ j, MeasContract LinMeasData.Sized (mc j))
  (ops : sc.PlainOps) (mops : ∀ j, (mc j).PlainOps)
include hsc hmc ops mops

/-- **C132 (bounded).**  If the readings of a stretch of motions and measurements determine the state at its end, then there is one
bound `b` for the covariance after the stretch: whatever the initial state and covariance, whatever came before, and whatever the data. -/
theorem C132_bounded {evs : List (Event n m)} (hok : ∀ ev ∈ evs, ev.Ok) (hsh : Shows evs) :
    ∃ b : ℝ, 0 < b ∧ ∀ x0 P0 f ctl (evs' before : List (Event n m)), P0.PosSemidef → (∀ ev ∈ before, ev.Ok) →
      Recorded sc mc n m kd x0 P0 f ctl (evs' ++ before) → List.Forall₂ Event.SameKind evs evs' →
      ∃ P : Matrix (Fin n) (Fin n) ℝ, f.getCovariance = .of P ∧ (b • (1 : Matrix (Fin n) (Fin n) ℝ) - P).PosSemidef := by
  obtain ⟨b, hb, h⟩ := cov_bounded hok hsh
  refine ⟨b, hb, fun x0 P0 f ctl evs' before h0 hokb hf hs => ?_⟩
  have hok' : ∀ ev ∈ evs' ++ before, ev.Ok := by
    intro ev hev
    rcases List.mem_append.mp hev with hev | hev
    · exact sameKind_ok hs hok ev hev
    · exact hokb ev hev
  refine ⟨_, (hf.inv hsc hmc ops mops h0 hok').cov, ?_⟩
  rw [rec_append, cov_kind hs]
  exact h _ (kalmanRec_psd h0 hokb)

/-- **C132 (only then).**  A difference `x` of two states that none of the readings shows and that is not gone at the end: with the
initial covariance `t x xᵀ` the reported covariance is at least `t` times the square of what has become of `x`, so no bound holds
for all initial covariances. -/
theorem C132_needed {evs : List (Event n m)} (hok : ∀ ev ∈ evs, ev.Ok) {x : Fin n → ℝ} (hx : Unseen evs x) {t : ℝ} (ht : 0 ≤ t) {x0 f ctl}
    (hf : Recorded sc mc n m kd x0 (t • vecMulVec x x) f ctl evs) :
    ∃ P : Matrix (Fin n) (Fin n) ℝ, f.getCovariance = .of P ∧ t * (carried evs x ⬝ᵥ carried evs x) ^ 2 ≤ carried evs x ⬝ᵥ P *ᵥ carried evs x := by
  have h0 : (t • vecMulVec x x).PosSemidef := by
    have := Matrix.posSemidef_vecMulVec_self_star x
    rw [star_trivial] at this
    exact this.smul ht
  refine ⟨_, (hf.inv hsc hmc ops mops h0 hok).cov, ?_⟩
  have e := cov_unseen (P := 0) hx t
  rw [zero_add] at e
  rw [cov_kind (kind_refl evs), e]
  have a := psd_nonneg (cov_psd PosSemidef.zero hok : (cov 0 evs).PosSemidef) (carried evs x)
  generalize carried evs x = w at *
  rw [Matrix.add_mulVec, dotProduct_add, Matrix.smul_mulVec, dotProduct_smul, Matrix.vecMulVec_mulVec]
  have : w ⬝ᵥ (MulOpposite.op (w ⬝ᵥ w) • w) = (w ⬝ᵥ w) ^ 2 := by
    rw [dotProduct_smul]; simp [sq]
  rw [this, smul_eq_mul]
  linarith

/-- **C132 (settles).**  A cycle of motions and measurements whose readings determine the state at its end and whose motions' noise
reaches every state.  There is one covariance `Pinf`, positive definite, such that every Kalman filter, whatever its initial state,
covariance and data, reports `Pinf` up to `c q ^ k` after `k + 1` repetitions of the cycle (`q < 1`); and a filter started with `Pinf`
reports exactly `Pinf` after every repetition. -/
theorem C132_settles {cyc : List (Event n m)} (hok : ∀ ev ∈ cyc, ev.Ok) (hsh : Shows cyc) (hst : Stirred cyc) :
    ∃ (Pinf : Matrix (Fin n) (Fin n) ℝ) (c q : ℝ), Pinf.PosDef ∧ 0 ≤ q ∧ q < 1 ∧
      (∀ k x0 P0 f ctl evs, P0.PosSemidef → Recorded sc mc n m kd x0 P0 f ctl evs →
        List.Forall₂ Event.SameKind (cycles (k + 1) cyc) evs →
        ∃ P : Matrix (Fin n) (Fin n) ℝ, f.getCovariance = .of P ∧ ∀ i j, |P i j - Pinf i j| ≤ c * q ^ k) ∧
      (∀ k x0 f ctl evs, Recorded sc mc n m kd x0 Pinf f ctl evs → List.Forall₂ Event.SameKind (cycles k cyc) evs →
        f.getCovariance = .of Pinf) := by
  obtain ⟨a, b, δ, ha, hb, h0, h1, hp⟩ := pinch hok hsh hst
  have hokc : ∀ k, ∀ ev ∈ cycles k cyc, ev.Ok := fun k ev h => hok ev (mem_of_cycles h)
  have hlim : Tendsto (fun k => (1 / δ - 1) * (1 - δ) ^ k * b) atTop (𝓝 0) := by
    have t := tendsto_pow_atTop_nhds_zero_of_lt_one (r := 1 - δ) (by linarith) (by linarith)
    simpa using (t.const_mul (1 / δ - 1)).mul_const b
  obtain ⟨Pinf, p1, p2, p3, p4⟩ := iterate_settles (fun P => cov P cyc) (fun P h => cov_psd h hok)
    (fun P Q hP h => cov_mono hP h hok) b hb (fun P h => (hp P h).2.1) _ hlim
    (fun k P Q hP hQ => rate hok h0 h1 (fun P h => (hp P h).2.1) (fun P h => (hp P h).2.2) k hP hQ)
  have pd : Pinf.PosDef := by
    have := (cov_pd hok hst).add_posSemidef p3
    rwa [add_sub_cancel] at this
  refine ⟨Pinf, 2 * ((1 / δ - 1) * b), 1 - δ, pd, by linarith, by linarith, ?_, ?_⟩
  · intro k x0 P0 f ctl evs hP hf hs
    refine ⟨_, (hf.inv hsc hmc ops mops hP (sameKind_ok hs (hokc _))).cov, fun i j => ?_⟩
    rw [cov_kind hs, cov_cycles]
    refine (p4 k P0 hP i j).trans (le_of_eq (by ring))
  · intro k x0 f ctl evs hf hs
    have e : f.getCovariance = _ := (hf.inv hsc hmc ops mops p1 (sameKind_ok hs (hokc _))).cov
    rw [e, cov_kind hs, cov_cycles]
    congr 1
    exact Function.iterate_fixed p2 k

/-- **C132 (follows).**  With such a cycle and exact data (`Exactly`), the estimate converges to the true state at a geometric rate,
wherever both start: after `k + 2` repetitions their distance is at most `c q ^ k` times the initial distance. -/
theorem C132_follows {cyc : List (Event n m)} (hok : ∀ ev ∈ cyc, ev.Ok) (hsh : Shows cyc) (hst : Stirred cyc) :
    ∃ q : ℝ, 0 ≤ q ∧ q < 1 ∧ ∀ P0 : Matrix (Fin n) (Fin n) ℝ, P0.PosSemidef → ∃ c : ℝ, ∀ k x0 f ctl evs y0 y,
      Recorded sc mc n m kd x0 P0 f ctl evs → List.Forall₂ Event.SameKind (cycles (k + 2) cyc) evs → Exactly y0 evs y →
      ∃ x : Fin n → ℝ, f.getState = .of x ∧ len (y - x) ≤ c * q ^ k * len (y0 - x0) := by
  obtain ⟨a, b, δ, ha, hb, h0, h1, hp⟩ := pinch hok hsh hst
  have hq : √(1 - δ) < 1 := by rw [Real.sqrt_lt' one_pos]; linarith
  refine ⟨√(1 - δ), Real.sqrt_nonneg _, hq, fun P0 hP => ?_⟩
  refine ⟨√((1 / δ - 1) * b / a) * √(∑ i, (err P0 cyc * (err P0 cyc)ᵀ) i i), fun k x0 f ctl evs y0 y hf hs hy => ?_⟩
  have hokc : ∀ k, ∀ ev ∈ cycles k cyc, ev.Ok := fun k ev h => hok ev (mem_of_cycles h)
  refine ⟨_, (hf.inv hsc hmc ops mops hP (sameKind_ok hs (hokc _))).x, ?_⟩
  have e : y - (kalmanRec x0 P0 evs).1 = err P0 (cycles (k + 2) cyc) *ᵥ (y0 - x0) := by
    rw [← rec_exact hy P0, err_state, err_kind hs]
  rw [e, cycles_snoc, err_append, ← Matrix.mulVec_mulVec]
  have c1 := err_small hok ha h0 h1 (fun P h => (hp P h).2.1) (fun P h => (hp P h).2.2) k (cov_psd hP hok) (hp P0 hP).1
    (err P0 cyc *ᵥ (y0 - x0))
  have gg : (err P0 cyc * (err P0 cyc)ᵀ).PosSemidef := by
    have := psd_conj (PosSemidef.one : (1 : Matrix (Fin n) (Fin n) ℝ).PosSemidef) (err P0 cyc)
    rwa [Matrix.mul_one] at this
  have c2 := len_mulVec (le_trace gg) (y0 - x0)
  refine c1.trans ((mul_le_mul_of_nonneg_left c2 (by positivity)).trans (le_of_eq (by ring)))

end

/-! ### The hypotheses are met: a cart with constant velocity, unit steps, process noise on both states and a position sensor,
moving and being measured in turn.  (Its motions have no ceiling in the sense of C101 and C102, as the velocity is not damped.) -/

/-- The constant-velocity models, with process noise. -/
noncomputable def noisyCart : Env Unit LinSysData Unit LinMeasData Unit :=
  { Examples.cvEnv with sys := { Examples.cvEnv.sys with Rp := .of (1 : Matrix (Fin 2) (Fin 2) ℝ) } }

/-- move, measure the position, twice (newest first) -/
noncomputable def twoLooks : List (Event 2 1) :=
  [.measure !![1, 0] (1 : Matrix (Fin 1) (Fin 1) ℝ) ![5],
   .move (p := 2) !![1, 1; 0, 1] !![1 / 2; 1] 1 !![1 / 2; 1] 1 0 ![3],
   .measure !![1, 0] (1 : Matrix (Fin 1) (Fin 1) ℝ) ![4],
   .move (p := 2) !![1, 1; 0, 1] !![1 / 2; 1] 1 !![1 / 2; 1] 1 0 ![2]]

theorem twoLooks_ok : ∀ ev ∈ twoLooks, ev.Ok := by
  intro ev h
  simp only [twoLooks, List.mem_cons, List.not_mem_nil, or_false] at h
  rcases h with rfl | rfl | rfl | rfl
  · exact PosDef.one
  · exact ⟨PosSemidef.one, PosSemidef.zero⟩
  · exact PosDef.one
  · exact ⟨PosSemidef.one, PosSemidef.zero⟩

theorem twoLooks_shows : Shows twoLooks := by
  intro x h
  obtain ⟨h1, h2, -⟩ := h
  have e1 := congrFun h1 0
  have e2 := congrFun h2 0
  simp [carried, Matrix.mulVec, dotProduct, Fin.sum_univ_two] at e1 e2
  have hx1 : x 1 = 0 := by linarith
  have hx0 : x 0 = 0 := by linarith
  have hx : x = 0 := by funext i; fin_cases i <;> assumption
  subst hx
  simp only [twoLooks, carried, Matrix.mulVec_zero]

theorem twoLooks_stirred : Stirred twoLooks := by
  intro v h
  have := h.1
  simpa using this

/-- neither reading alone would do: the velocity is not seen -/
example : ¬ Shows (twoLooks.drop 2) := by
  intro h
  have := congrFun (h ![-1, 1] ⟨by ext i; simp [carried, Matrix.mulVec, dotProduct, Fin.sum_univ_two], trivial⟩) 1
  simp [twoLooks, carried, Matrix.mulVec, dotProduct, Fin.sum_univ_two] at this

private theorem cart_gives (s : Sys LinSysData Unit) (hs : s.Sized LinSysData.Sized 2 1) (x u : DVec) (s' : Sys LinSysData Unit)
    (hp : s.Rp = .of (1 : Matrix (Fin 2) (Fin 2) ℝ)) (hc : s.Rc = .of (0 : Matrix (Fin 1) (Fin 1) ℝ))
    (h : Examples.cvClass.myUpdate s x u 1 = some s') : s'.Holds (p := 2) !![1, 1; 0, 1] !![1 / 2; 1] 1 !![1 / 2; 1] 1 0 := by
  change (if s.stateSize = 2 ∧ s.controlDims = 1 ∧ s.Rp.rows = 2 then _ else some s) = some s' at h
  rw [if_pos ⟨hs.states, hs.controls, by rw [hp]⟩] at h
  injection h with h
  subst h
  refine ⟨rfl, ?_, rfl, ?_, hp, hc⟩ <;> simp

/-- one more motion and one more measurement, with any reading -/
theorem cart_look {x0 : Fin 2 → ℝ} {P0 : Matrix (Fin 2) (Fin 2) ℝ} (p0 : P0.PosSemidef)
    (f : Filter ℝ DVec DMat Unit (Env Unit LinSysData Unit LinMeasData Unit)) (ctl : Fin 1 → ℝ) (evs : List (Event 2 1))
    (r0 : Recorded Examples.cvClass (fun _ => Examples.posClass) 2 1 (fun _ => 1) x0 P0 f ctl evs)
    (hok : ∀ ev ∈ evs, ev.Ok) (hp : f.env.sys.Rp = .of (1 : Matrix (Fin 2) (Fin 2) ℝ)) (hc : f.env.sys.Rc = .of (0 : Matrix (Fin 1) (Fin 1) ℝ))
    (z : Fin 1 → ℝ) :
    ∃ g : Filter ℝ DVec DMat Unit (Env Unit LinSysData Unit LinMeasData Unit),
      Recorded Examples.cvClass (fun _ => Examples.posClass) 2 1 (fun _ => 1) x0 P0 g ![3]
        (.measure !![1, 0] (1 : Matrix (Fin 1) (Fin 1) ℝ) z :: .move (p := 2) !![1, 1; 0, 1] !![1 / 2; 1] 1 !![1 / 2; 1] 1 0 ![3] :: evs) ∧
      (∀ ev ∈ Event.measure !![1, 0] (1 : Matrix (Fin 1) (Fin 1) ℝ) z ::
        .move (p := 2) !![1, 1; 0, 1] !![1 / 2; 1] 1 !![1 / 2; 1] 1 0 ![3] :: evs, ev.Ok) ∧
      g.env.sys.Rp = .of (1 : Matrix (Fin 2) (Fin 2) ℝ) ∧ g.env.sys.Rc = .of (0 : Matrix (Fin 1) (Fin 1) ℝ) := by
  have sc := Examples.cv_contract
  have mcn : ∀ _ : Unit, MeasContract LinMeasData.Sized Examples.posClass := fun _ => Examples.pos_contract
  have o : Examples.cvClass.PlainOps := Examples.plain_ops _
  have mo : ∀ _ : Unit, Examples.posClass.PlainOps := fun _ => Examples.plain_mops _
  have I := r0.inv sc mcn o mo p0 hok
  obtain ⟨f1, r1, t1, h1⟩ := r0.can_predict_const (p := 2) (A := !![1, 1; 0, 1]) (B := !![1 / 2; 1]) (W := 1) (V := !![1 / 2; 1]) (Rp := 1)
    (Rc := 0) sc mcn o mo p0 hok one_pos ![3] (f.getStateTime + 1) (by linarith) (by
      intro x s' h
      have e : TimeOps.sub (f.getStateTime + 1) f.getStateTime = (1 : ℝ) := by
        show f.getStateTime + 1 - f.getStateTime = 1
        ring
      rw [e] at h
      exact cart_gives f.env.sys I.sys _ _ _ hp hc h)
  have hok1 : ∀ ev ∈ Event.move (p := 2) (n := 2) (m := 1) !![1, 1; 0, 1] !![1 / 2; 1] 1 !![1 / 2; 1] 1 0 ![3] :: evs, ev.Ok := by
    intro ev h
    rcases List.mem_cons.mp h with rfl | h
    · exact ⟨PosSemidef.one, PosSemidef.zero⟩
    · exact hok ev h
  obtain ⟨f2, r2, t2, e2⟩ := r1.can_correct_const sc mcn o mo p0 hok1 () z 1 PosDef.one !![1, 0] (by
      intro s x dt s' hs h
      change (if s.stateSize = 2 ∧ s.measDims = 1 then _ else some s) = some s' at h
      rw [if_pos ⟨hs.states, hs.meas⟩] at h
      cases h
      rfl)
  refine ⟨f2, r2, ?_, by rw [e2]; exact h1.Rp, by rw [e2]; exact h1.Rc⟩
  intro ev h
  rcases List.mem_cons.mp h with rfl | h
  · exact PosDef.one
  · exact hok1 ev h

/-- any number of cycles; the data may depend on a true state that the user has in mind -/
theorem cart_runs {x0 : Fin 2 → ℝ} {P0 : Matrix (Fin 2) (Fin 2) ℝ} (p0 : P0.PosSemidef) {Q : List (Event 2 1) → (Fin 2 → ℝ) → Prop}
    {y0 : Fin 2 → ℝ} (h0 : Q [] y0)
    (hQ : ∀ evs y, Q evs y → ∃ z y', Q (.measure !![1, 0] (1 : Matrix (Fin 1) (Fin 1) ℝ) z ::
        .move (p := 2) !![1, 1; 0, 1] !![1 / 2; 1] 1 !![1 / 2; 1] 1 0 ![3] :: evs) y') (k : Nat) :
    ∃ (f : Filter ℝ DVec DMat Unit (Env Unit LinSysData Unit LinMeasData Unit)) (ctl : Fin 1 → ℝ) (evs : List (Event 2 1)) (y : Fin 2 → ℝ),
    Recorded Examples.cvClass (fun _ => Examples.posClass) 2 1 (fun _ => 1) x0 P0 f ctl evs ∧
    List.Forall₂ Event.SameKind (cycles k twoLooks) evs ∧ Q evs y := by
  have key : ∃ (f : Filter ℝ DVec DMat Unit (Env Unit LinSysData Unit LinMeasData Unit)) (ctl : Fin 1 → ℝ) (evs : List (Event 2 1))
      (y : Fin 2 → ℝ), Recorded Examples.cvClass (fun _ => Examples.posClass) 2 1 (fun _ => 1) x0 P0 f ctl evs ∧
      List.Forall₂ Event.SameKind (cycles k twoLooks) evs ∧ Q evs y ∧
      (∀ ev ∈ evs, ev.Ok) ∧ f.env.sys.Rp = .of (1 : Matrix (Fin 2) (Fin 2) ℝ) ∧ f.env.sys.Rc = .of (0 : Matrix (Fin 1) (Fin 1) ℝ) := by
    induction k with
    | zero =>
      refine ⟨_, _, _, _, .start (T := ℝ) {rewindHistory := false, historyWindow := 1, allowPast := false} noisyCart 0
        ⟨rfl, rfl, ⟨⟨rfl, rfl⟩, rfl, rfl⟩, ⟨rfl, rfl⟩, ⟨rfl, rfl⟩, ⟨rfl, rfl⟩, ⟨rfl, rfl⟩⟩ (Examples.cvEnv_ok (Q := fun _ _ => True)).meas
        ⟨rfl, fun _ => rfl⟩, .nil, h0, ?_, rfl, rfl⟩
      intro ev h; cases h
    | succ k ih =>
      obtain ⟨f, ctl, evs, y, r0, hs, hy, hok, hp, hc⟩ := ih
      obtain ⟨z1, y1, hy1⟩ := hQ _ _ hy
      obtain ⟨f1, r1, hok1, hp1, hc1⟩ := cart_look p0 f ctl evs r0 hok hp hc z1
      obtain ⟨z2, y2, hy2⟩ := hQ _ _ hy1
      obtain ⟨f2, r2, hok2, hp2, hc2⟩ := cart_look p0 f1 _ _ r1 hok1 hp1 hc1 z2
      refine ⟨f2, _, _, y2, r2, ?_, hy2, hok2, hp2, hc2⟩
      rw [cycles_cons]
      exact .cons (.measure _ _ _ _) (.cons (.move _ _ _ _ _ _ _ _) (.cons (.measure _ _ _ _) (.cons (.move _ _ _ _ _ _ _ _) hs)))
  obtain ⟨f, ctl, evs, y, h1, h2, h3, _⟩ := key
  exact ⟨f, ctl, evs, y, h1, h2, h3⟩

/-- with exact data, from any belief and any true state, for any number of cycles -/
example (x0 : Fin 2 → ℝ) (P0 : Matrix (Fin 2) (Fin 2) ℝ) (p0 : P0.PosSemidef) (y0 : Fin 2 → ℝ) (k : Nat) :
    ∃ (f : Filter ℝ DVec DMat Unit (Env Unit LinSysData Unit LinMeasData Unit)) (ctl : Fin 1 → ℝ) (evs : List (Event 2 1)) (y : Fin 2 → ℝ),
    Recorded Examples.cvClass (fun _ => Examples.posClass) 2 1 (fun _ => 1) x0 P0 f ctl evs ∧
    List.Forall₂ Event.SameKind (cycles k twoLooks) evs ∧ Exactly y0 evs y :=
  cart_runs p0 .start (fun _ _ h => ⟨_, _, .measure (.move h)⟩) k

end Props
end StateEstimation
