import Verif.Lemmas.Settle

/-!
# C102: repeated use settles

A Kalman filter that goes through the same cycle of motions and measurements again and again, with whatever data, settles at a
covariance that does not depend on where it started.
-/

set_option linter.unusedSectionVars false

namespace StateEstimation
namespace Props

open Matrix Kalman Settle Topology
open _root_.Filter (Tendsto atTop)

variable {n m : Nat}

/-- The events of `k` cycles. -/
def cycles (k : Nat) (cyc : List (Event n m)) : List (Event n m) := (List.replicate k cyc).flatten

private theorem cycles_mem {k : Nat} {cyc : List (Event n m)} {ev : Event n m} (h : ev ∈ cycles k cyc) : ev ∈ cyc := by
  unfold cycles at h
  rw [List.mem_flatten] at h
  obtain ⟨l, h1, h2⟩ := h
  rw [List.eq_of_mem_replicate h1] at h2
  exact h2

private theorem cycles_succ (k : Nat) (cyc : List (Event n m)) : cycles (k + 1) cyc = cyc ++ cycles k cyc := by
  unfold cycles; rw [List.replicate_succ, List.flatten_cons]

private theorem cycles_add (k j : Nat) (cyc : List (Event n m)) : cycles (k + j) cyc = cycles k cyc ++ cycles j cyc := by
  unfold cycles; rw [List.replicate_add, List.flatten_append]

private theorem motions_append (l l' : List (Event n m)) : motions (l ++ l') = motions l + motions l' := by
  induction l with
  | nil => simp [motions]
  | cons e l ih => cases e <;> simp only [List.cons_append, motions, ih] <;> omega

private theorem motions_cycles (k : Nat) (cyc : List (Event n m)) : motions (cycles k cyc) = k * motions cyc := by
  induction k with
  | zero => simp [cycles, motions]
  | succ k ih => rw [cycles_succ, motions_append, ih]; ring

private theorem near {P P' Pc : Matrix (Fin n) (Fin n) ℝ} {eps : ℝ} (heps : 0 < eps) (h0 : P.PosSemidef) (h0' : P'.PosSemidef)
    (hc : (Pc - P).PosSemidef) (hc' : (Pc - P').PosSemidef) {l : List (Event n m)} (hok : ∀ ev ∈ l, ev.Ok)
    (hst : ∀ ev ∈ l, ev.Stirs eps Pc) {k : Nat} (hk : motions l = k + 1) :
    ((1 / eps / (1 + eps) ^ k) • Pc - (cov P l - cov P' l)).PosSemidef := by
  have a := cov_any heps h0 h0' hc hc' hok hst hk
  have b := cov_ceil h0' hc' hok hst
  have hr : 0 ≤ 1 / eps / (1 + eps) ^ k := by positivity
  generalize 1 / eps / (1 + eps) ^ k = r at *
  have e : r • Pc - (cov P l - cov P' l) = ((1 + r) • cov P' l - cov P l) + r • (Pc - cov P' l) := by module
  rw [e]; exact a.add (b.smul hr)

/-- the steady covariance of a cycle -/
private theorem settle {Pc : Matrix (Fin n) (Fin n) ℝ} {eps : ℝ} (heps : 0 < eps) (hPc : Pc.PosSemidef) {cyc : List (Event n m)}
    (hok : ∀ ev ∈ cyc, ev.Ok) (hst : ∀ ev ∈ cyc, ev.Stirs eps Pc) (hmv : 0 < motions cyc) :
    ∃ Pinf : Matrix (Fin n) (Fin n) ℝ, Pinf.PosSemidef ∧ (Pc - Pinf).PosSemidef ∧ cov Pinf cyc = Pinf ∧
      ∀ (k : Nat) (P : Matrix (Fin n) (Fin n) ℝ), P.PosSemidef → (Pc - P).PosSemidef → ∀ i j,
        |cov P (cycles (k + 1) cyc) i j - Pinf i j| ≤ 2 * (1 / eps / (1 + eps) ^ k * ((Pc i i + Pc j j) / 2)) := by
  have hokc : ∀ k, ∀ ev ∈ cycles k cyc, ev.Ok := fun k ev h => hok ev (cycles_mem h)
  have hstc : ∀ k, ∀ ev ∈ cycles k cyc, ev.Stirs eps Pc := fun k ev h => hst ev (cycles_mem h)
  have hz : (Pc - 0).PosSemidef := by rw [sub_zero]; exact hPc
  have hzero : (0 : Matrix (Fin n) (Fin n) ℝ).PosSemidef := PosSemidef.zero
  -- the rate
  have rate : ∀ (k : Nat) (P P' : Matrix (Fin n) (Fin n) ℝ), P.PosSemidef → P'.PosSemidef → (Pc - P).PosSemidef →
      (Pc - P').PosSemidef →
      ((1 / eps / (1 + eps) ^ k) • Pc - (cov P (cycles (k + 1) cyc) - cov P' (cycles (k + 1) cyc))).PosSemidef := by
    intro k P P' h1 h2 h3 h4
    have hm : motions (cycles (k + 1) cyc) = (motions (cycles (k + 1) cyc) - 1) + 1 := by
      rw [motions_cycles]
      have : 0 < (k + 1) * motions cyc := by positivity
      omega
    have a := near heps h1 h2 h3 h4 (hokc (k + 1)) (hstc (k + 1)) hm
    have hle : k ≤ motions (cycles (k + 1) cyc) - 1 := by
      rw [motions_cycles]
      have : k + 1 ≤ (k + 1) * motions cyc := Nat.le_mul_of_pos_right _ hmv
      omega
    have hr : 1 / eps / (1 + eps) ^ (motions (cycles (k + 1) cyc) - 1) ≤ 1 / eps / (1 + eps) ^ k := by
      apply div_le_div_of_nonneg_left (by positivity) (by positivity)
      exact pow_le_pow_right₀ (by linarith) hle
    generalize 1 / eps / (1 + eps) ^ (motions (cycles (k + 1) cyc) - 1) = r at *
    generalize 1 / eps / (1 + eps) ^ k = q at *
    generalize cov P (cycles (k + 1) cyc) - cov P' (cycles (k + 1) cyc) = D at *
    have e : q • Pc - D = (r • Pc - D) + (q - r) • Pc := by module
    rw [e]; exact a.add (hPc.smul (by linarith))
  -- from nothing upwards
  have low : ∀ (k j : Nat), (cov 0 (cycles (k + j) cyc) - cov 0 (cycles k cyc)).PosSemidef := by
    intro k j
    rw [cycles_add, cov_append]
    exact cov_mono hzero (by rw [sub_zero]; exact cov_psd hzero (hokc j)) (hokc k)
  have dist : ∀ (k : Nat) (P : Matrix (Fin n) (Fin n) ℝ), P.PosSemidef → (Pc - P).PosSemidef → ∀ i j,
      |cov P (cycles (k + 1) cyc) i j - cov 0 (cycles (k + 1) cyc) i j| ≤ 1 / eps / (1 + eps) ^ k * ((Pc i i + Pc j j) / 2) := by
    intro k P h1 h2 i j
    have a : (cov P (cycles (k + 1) cyc) - cov 0 (cycles (k + 1) cyc)).PosSemidef :=
      cov_mono hzero (by rw [sub_zero]; exact h1) (hokc _)
    exact abs_entry_le a (rate k P 0 h1 hzero h2 hz) i j
  have step : ∀ (k q : Nat) (i j : Fin n), |cov 0 (cycles (k + 1 + q) cyc) i j - cov 0 (cycles (k + 1) cyc) i j|
      ≤ 1 / eps / (1 + eps) ^ k * ((Pc i i + Pc j j) / 2) := by
    intro k q i j
    rw [cycles_add, cov_append]
    exact dist k _ (cov_psd hzero (hokc q)) (cov_ceil hzero hz (hokc q) (hstc q)) i j
  have shrink : ∀ i j : Fin n, Tendsto (fun k : Nat => 1 / eps / (1 + eps) ^ k * ((Pc i i + Pc j j) / 2)) atTop (𝓝 0) := by
    intro i j
    have t : Tendsto (fun k : Nat => ((1 + eps)⁻¹) ^ k) atTop (𝓝 0) :=
      tendsto_pow_atTop_nhds_zero_of_lt_one (by positivity) (inv_lt_one_of_one_lt₀ (by linarith))
    have t2 := (t.const_mul (1 / eps)).mul_const ((Pc i i + Pc j j) / 2)
    simp only [mul_zero, zero_mul] at t2
    refine t2.congr fun k => ?_
    rw [inv_pow, div_eq_mul_inv (1 / eps)]
  have cauchy : ∀ i j, ∃ L, Tendsto (fun k => cov 0 (cycles (k + 1) cyc) i j) atTop (𝓝 L) := by
    intro i j
    refine cauchySeq_tendsto_of_complete ?_
    rw [Metric.cauchySeq_iff']
    intro δ hδ
    obtain ⟨N, hN⟩ := (Metric.tendsto_atTop.mp (shrink i j)) δ hδ
    refine ⟨N, fun k hk => ?_⟩
    obtain ⟨q, rfl⟩ := Nat.exists_eq_add_of_le hk
    rw [Real.dist_eq]
    have e : N + q + 1 = N + 1 + q := by omega
    rw [e]
    have h1 := step N q i j
    have h2 := hN N le_rfl
    rw [Real.dist_eq, sub_zero] at h2
    exact lt_of_le_of_lt h1 (lt_of_le_of_lt (le_abs_self _) h2)
  choose L hL using cauchy
  have hLp : (Matrix.of L).PosSemidef := psd_of_tendsto (fun k => cov_psd hzero (hokc (k + 1))) hL
  have hLc : (Pc - Matrix.of L).PosSemidef :=
    psd_of_tendsto (fun k => cov_ceil hzero hz (hokc (k + 1)) (hstc (k + 1))) fun i j => (hL i j).const_sub (Pc i j)
  have lim : ∀ (k : Nat) (i j : Fin n), |cov 0 (cycles (k + 1) cyc) i j - L i j| ≤ 1 / eps / (1 + eps) ^ k * ((Pc i i + Pc j j) / 2) := by
    intro k i j
    have t : Tendsto (fun q => |cov 0 (cycles (k + 1) cyc) i j - cov 0 (cycles (k + 1 + q) cyc) i j|) atTop
        (𝓝 |cov 0 (cycles (k + 1) cyc) i j - L i j|) := by
      have h1 : Tendsto (fun q => cov 0 (cycles (k + 1 + q) cyc) i j) atTop (𝓝 (L i j)) := by
        have h2 := (hL i j).comp (_root_.Filter.tendsto_add_atTop_nat k)
        refine h2.congr fun q => ?_
        show cov 0 (cycles (q + k + 1) cyc) i j = _
        rw [show q + k + 1 = k + 1 + q by omega]
      exact (h1.const_sub _).abs
    refine le_of_tendsto' t fun q => ?_
    rw [abs_sub_comm]
    exact step k q i j
  have all : ∀ (k : Nat) (P : Matrix (Fin n) (Fin n) ℝ), P.PosSemidef → (Pc - P).PosSemidef → ∀ i j,
      |cov P (cycles (k + 1) cyc) i j - L i j| ≤ 2 * (1 / eps / (1 + eps) ^ k * ((Pc i i + Pc j j) / 2)) := by
    intro k P h1 h2 i j
    have a := dist k P h1 h2 i j
    have b := lim k i j
    have := abs_sub_le (cov P (cycles (k + 1) cyc) i j) (cov 0 (cycles (k + 1) cyc) i j) (L i j)
    linarith
  refine ⟨Matrix.of L, hLp, hLc, ?_, all⟩
  -- the cycle maps the limit to itself: it lies between the images of the lower and upper sequences
  have low' : ∀ k, (Matrix.of L - cov 0 (cycles k cyc)).PosSemidef := by
    intro k
    refine psd_of_tendsto (M := fun q => cov 0 (cycles (k + (q + 1)) cyc) - cov 0 (cycles k cyc)) (fun q => low k (q + 1)) ?_
    intro i j
    have h2 := ((hL i j).comp (_root_.Filter.tendsto_add_atTop_nat k)).sub_const (cov 0 (cycles k cyc) i j)
    refine h2.congr fun q => ?_
    show cov 0 (cycles (q + k + 1) cyc) i j - _ = _
    rw [show q + k + 1 = k + (q + 1) by omega]; rfl
  ext i j
  -- distance of one cycle applied to the limit and the limit
  have key : ∀ k, |cov (Matrix.of L) cyc i j - L i j| ≤ 2 * (1 / eps / (1 + eps) ^ k * ((Pc i i + Pc j j) / 2)) := by
    intro k
    -- both lie between cov 0 (k+1 cycles) and cov Pc (k+1 cycles)
    have u1 : (cov (Matrix.of L) cyc - cov 0 (cycles (k + 1) cyc)).PosSemidef := by
      rw [cycles_succ, cov_append]
      exact cov_mono (cov_psd hzero (hokc k)) (low' k) hok
    have up : ∀ k, (cov Pc (cycles k cyc) - Matrix.of L).PosSemidef := by
      intro k
      refine psd_of_tendsto (M := fun q => cov Pc (cycles k cyc) - cov 0 (cycles (k + (q + 1)) cyc)) (fun q => ?_) ?_
      · rw [cycles_add, cov_append]
        exact cov_mono (cov_psd hzero (hokc _)) (cov_ceil hzero hz (hokc _) (hstc _)) (hokc k)
      · intro i j
        have h2 := ((hL i j).comp (_root_.Filter.tendsto_add_atTop_nat k)).const_sub (cov Pc (cycles k cyc) i j)
        refine h2.congr fun q => ?_
        show _ - cov 0 (cycles (q + k + 1) cyc) i j = _
        rw [show q + k + 1 = k + (q + 1) by omega]; rfl
    have u2 : (cov Pc (cycles (k + 1) cyc) - cov (Matrix.of L) cyc).PosSemidef := by
      rw [cycles_succ, cov_append]
      exact cov_mono hLp (up k) hok
    have u3 := rate k Pc 0 hPc hzero (by rw [sub_self]; exact hzero) hz
    have u4 : ((1 / eps / (1 + eps) ^ k) • Pc - (cov (Matrix.of L) cyc - cov 0 (cycles (k + 1) cyc))).PosSemidef := by
      have e : (1 / eps / (1 + eps) ^ k) • Pc - (cov (Matrix.of L) cyc - cov 0 (cycles (k + 1) cyc))
          = ((1 / eps / (1 + eps) ^ k) • Pc - (cov Pc (cycles (k + 1) cyc) - cov 0 (cycles (k + 1) cyc)))
            + (cov Pc (cycles (k + 1) cyc) - cov (Matrix.of L) cyc) := by abel
      rw [e]; exact u3.add u2
    have a := abs_entry_le u1 u4 i j
    have b := lim k i j
    have := abs_sub_le (cov (Matrix.of L) cyc i j) (cov 0 (cycles (k + 1) cyc) i j) (L i j)
    simp only [Matrix.sub_apply] at a
    linarith
  have h0 : |cov (Matrix.of L) cyc i j - L i j| ≤ 0 :=
    ge_of_tendsto' (by simpa using (shrink i j).const_mul 2) key
  exact sub_eq_zero.mp (abs_eq_zero.mp (le_antisymm h0 (abs_nonneg _)))

variable {T K X Y : Type} [DecidableEq K] [LinearOrder T] [ExactTime T] {kd : K → Nat}

/-- **C102 (no choice needed).**  Two Kalman filters with any initial covariances below the ceiling, used alike by in-order calls
(same matrices and noise, any data), where every motion brings in enough noise (`Stirs`): after `k + 1` motions, and any number
of measurements, the covariance of one is at most `1 + (1 / eps) / (1 + eps) ^ k` times the other's. -/
theorem C102_any_two {sc : SysClass T LinSysData X} {mc : K → MeasClass T LinMeasData Y}
    (hsc : SysContract LinSysData.Sized sc) (hmc : ∀ j, MeasContract LinMeasData.Sized (mc j))
    (ops : sc.PlainOps) (mops : ∀ j, (mc j).PlainOps) {x0 x0' : Fin n → ℝ} {P0 P0' Pc : Matrix (Fin n) (Fin n) ℝ}
    (h0 : P0.PosSemidef) (h0' : P0'.PosSemidef) (hPc : (Pc - P0).PosSemidef) (hPc' : (Pc - P0').PosSemidef) {eps : ℝ} (heps : 0 < eps)
    {f g ctl ctl'} {evs evs' : List (Event n m)}
    (hf : Recorded sc mc n m kd x0 P0 f ctl evs) (hg : Recorded sc mc n m kd x0' P0' g ctl' evs')
    (hsame : List.Forall₂ Event.SameKind evs evs') (hok : ∀ ev ∈ evs, ev.Ok) (hst : ∀ ev ∈ evs, ev.Stirs eps Pc)
    (k : Nat) (hk : motions evs = k + 1) :
    ∃ P P' : Matrix (Fin n) (Fin n) ℝ, f.getCovariance = .of P ∧ g.getCovariance = .of P' ∧
      ((1 + 1 / eps / (1 + eps) ^ k) • P' - P).PosSemidef := by
  refine ⟨_, _, (hf.inv hsc hmc ops mops h0 hok).cov, (hg.inv hsc hmc ops mops h0' (sameKind_ok hsame hok)).cov, ?_⟩
  rw [cov_kind hsame, cov_kind (kind_refl evs)]
  exact cov_any heps h0 h0' hPc hPc' hok hst hk

/-- **C102 (settles).**  A cycle of motions and measurements, at least one motion in it, where every motion brings in enough
noise, below a ceiling `Pc`.  There is one covariance `Pinf` such that any Kalman filter with initial covariance below the ceiling,
whatever its initial state and data, after `k + 1` repetitions of the cycle reports `Pinf` up to `(1 / eps) / (1 + eps) ^ k` times
the ceiling's variances; and a filter started with `Pinf` reports exactly `Pinf` after every repetition. -/
theorem C102_settles {sc : SysClass T LinSysData X} {mc : K → MeasClass T LinMeasData Y}
    (hsc : SysContract LinSysData.Sized sc) (hmc : ∀ j, MeasContract LinMeasData.Sized (mc j))
    (ops : sc.PlainOps) (mops : ∀ j, (mc j).PlainOps) {Pc : Matrix (Fin n) (Fin n) ℝ} (hPc : Pc.PosSemidef)
    {eps : ℝ} (heps : 0 < eps) {cyc : List (Event n m)} (hok : ∀ ev ∈ cyc, ev.Ok) (hst : ∀ ev ∈ cyc, ev.Stirs eps Pc)
    (hmv : 0 < motions cyc) :
    ∃ Pinf : Matrix (Fin n) (Fin n) ℝ, Pinf.PosSemidef ∧
      (∀ k x0 P0 f ctl evs, P0.PosSemidef → (Pc - P0).PosSemidef → Recorded sc mc n m kd x0 P0 f ctl evs →
        List.Forall₂ Event.SameKind (cycles (k + 1) cyc) evs →
        ∃ P : Matrix (Fin n) (Fin n) ℝ, f.getCovariance = .of P ∧
          ∀ i j, |P i j - Pinf i j| ≤ 1 / eps / (1 + eps) ^ k * (Pc i i + Pc j j)) ∧
      (∀ k x0 f ctl evs, Recorded sc mc n m kd x0 Pinf f ctl evs → List.Forall₂ Event.SameKind (cycles k cyc) evs →
        f.getCovariance = .of Pinf) := by
  obtain ⟨Pinf, p1, p2, p3, p4⟩ := settle heps hPc hok hst hmv
  have hokc : ∀ k, ∀ ev ∈ cycles k cyc, ev.Ok := fun k ev h => hok ev (cycles_mem h)
  refine ⟨Pinf, p1, ?_, ?_⟩
  · intro k x0 P0 f ctl evs h0 hc hf hs
    refine ⟨_, (hf.inv hsc hmc ops mops h0 (sameKind_ok hs (hokc _))).cov, ?_⟩
    rw [cov_kind hs]
    intro i j
    have := p4 k P0 h0 hc i j
    linarith
  · intro k x0 f ctl evs hf hs
    have e : f.getCovariance = _ := (hf.inv hsc hmc ops mops p1 (sameKind_ok hs (hokc _))).cov
    rw [e, cov_kind hs]
    congr 1
    clear * - p3
    induction k with
    | zero => rfl
    | succ k ih => rw [cycles_succ, cov_append, ih, p3]

/-! ### The hypotheses are met: the leaky integrator `x' = x / 2 + u`, moving and being measured in turn, for any number of turns -/

/-- measure, then move (newest first) -/
private noncomputable def turn : List (Event 1 1) :=
  [.move (p := 1) !![1 / 2] !![1] !![1] !![1] !![2] !![1 / 2] ![3], .measure !![1] (1 : Matrix (Fin 1) (Fin 1) ℝ) ![5]]

private theorem turn_ok : ∀ ev ∈ turn, ev.Ok := by
  intro ev h
  rcases List.mem_cons.mp h with rfl | h
  · exact ⟨psd11 (by norm_num), psd11 (by norm_num)⟩
  · rw [List.mem_singleton.mp h]; exact PosDef.one

example : (∀ ev ∈ turn, ev.Ok) ∧ (∀ ev ∈ turn, ev.Stirs 2 !![4]) ∧ 0 < motions turn ∧
    (!![4] : Matrix (Fin 1) (Fin 1) ℝ).PosSemidef := by
  refine ⟨turn_ok, ?_, Nat.one_pos, psd11 (by norm_num)⟩
  intro ev h
  rcases List.mem_cons.mp h with rfl | h
  · exact half_stirs _
  · rw [List.mem_singleton.mp h]; trivial

example (x0 : Fin 1 → ℝ) (P0 : Matrix (Fin 1) (Fin 1) ℝ) (p0 : P0.PosSemidef) (k : Nat) :
    ∃ (f : Filter ℝ DVec DMat Unit (Env Unit LinSysData Unit LinMeasData Unit)) (ctl : Fin 1 → ℝ) (evs : List (Event 1 1)),
    Recorded halfClass (fun _ => wholeClass) 1 1 (fun _ => 1) x0 P0 f ctl evs ∧
    List.Forall₂ Event.SameKind (cycles k turn) evs := by
  have sc := half_contract
  have mcn : ∀ _ : Unit, MeasContract LinMeasData.Sized wholeClass := fun _ => whole_contract
  have o : halfClass.PlainOps := Examples.plain_ops _
  have mo : ∀ _ : Unit, wholeClass.PlainOps := fun _ => Examples.plain_mops _
  have key : ∃ (f : Filter ℝ DVec DMat Unit (Env Unit LinSysData Unit LinMeasData Unit)) (ctl : Fin 1 → ℝ) (evs : List (Event 1 1)),
      Recorded halfClass (fun _ => wholeClass) 1 1 (fun _ => 1) x0 P0 f ctl evs ∧
      List.Forall₂ Event.SameKind (cycles k turn) evs ∧ f.env.sys.Rp = .of !![2] ∧ f.env.sys.Rc = .of !![1 / 2] := by
    induction k with
    | zero =>
      exact ⟨_, _, _, .start (T := ℝ) {rewindHistory := false, historyWindow := 1, allowPast := false} halfEnv 0
        half_regular.sys half_regular.meas half_regular.quiet, .nil, rfl, rfl⟩
    | succ k ih =>
      obtain ⟨f, ctl, evs, r0, hs, hp, hc⟩ := ih
      have hok : ∀ ev ∈ evs, ev.Ok := sameKind_ok hs fun ev h => turn_ok ev (cycles_mem h)
      obtain ⟨f1, r1, t1, e1⟩ := r0.can_correct_const sc mcn o mo p0 hok () ![5] 1 PosDef.one !![1] (by
        intro s x dt s' hs h
        change (if s.stateSize = 1 ∧ s.measDims = 1 then _ else some s) = some s' at h
        rw [if_pos ⟨hs.states, hs.meas⟩] at h
        cases h
        rfl)
      have hok1 : ∀ ev ∈ Event.measure !![1] (1 : Matrix (Fin 1) (Fin 1) ℝ) ![5] :: evs, ev.Ok := by
        intro ev h
        rcases List.mem_cons.mp h with rfl | h
        · exact PosDef.one
        · exact hok ev h
      have I := r1.inv sc mcn o mo p0 hok1
      obtain ⟨f2, r2, t2, h2⟩ := r1.can_predict_const (p := 1) (A := !![1 / 2]) (B := !![1]) (W := !![1]) (V := !![1]) (Rp := !![2])
        (Rc := !![1 / 2]) sc mcn o mo p0 hok1 one_pos ![3] (f1.getStateTime + 1) (by linarith) (by
          intro x s' h
          exact half_gives f1.env.sys I.sys _ _ _ _ (by rw [e1]; exact hp) (by rw [e1]; exact hc) h)
      refine ⟨f2, _, _, r2, ?_, h2.Rp, h2.Rc⟩
      rw [cycles_succ]
      exact .cons (.move _ _ _ _ _ _ _ _) (.cons (.measure _ _ _ _) hs)
  obtain ⟨f, ctl, evs, h1, h2, _⟩ := key
  exact ⟨f, ctl, evs, h1, h2⟩

end Props
end StateEstimation
