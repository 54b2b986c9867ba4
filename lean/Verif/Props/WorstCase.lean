import Verif.Spec.WorstCase
import Verif.Props.Forgetting
import Verif.Props.LeastSquares

/-!
# C123: how far off the estimate can be at worst

Not on average: for every true course of the state and every sequence of errors in the data.
-/

set_option linter.unusedSectionVars false

namespace StateEstimation

open Matrix Kalman

variable {T K X Y : Type} [DecidableEq K] {n m : Nat} {kd : K → Nat}

section
variable {a b : Nat}

theorem quad_conj (v : Fin a → ℝ) (A : Matrix (Fin a) (Fin b) ℝ) (P : Matrix (Fin b) (Fin b) ℝ) :
    v ⬝ᵥ (A * P * Aᵀ) *ᵥ v = (v ᵥ* A) ⬝ᵥ P *ᵥ (v ᵥ* A) := by
  rw [← Matrix.mulVec_mulVec, ← Matrix.mulVec_mulVec, Matrix.mulVec_transpose, Matrix.dotProduct_mulVec]

theorem WithinSigmas.map {r : ℝ} {P : Matrix (Fin b) (Fin b) ℝ} {d : Fin b → ℝ} (h : WithinSigmas r P d)
    (A : Matrix (Fin a) (Fin b) ℝ) : WithinSigmas r (A * P * Aᵀ) (A *ᵥ d) := by
  intro v
  rw [quad_conj, Matrix.dotProduct_mulVec]
  exact h _

theorem WithinSigmas.neg {r : ℝ} {P : Matrix (Fin a) (Fin a) ℝ} {d : Fin a → ℝ} (h : WithinSigmas r P d) :
    WithinSigmas r P (-d) := by
  intro v
  rw [dotProduct_neg, abs_neg]
  exact h v

theorem psd_quad {P : Matrix (Fin a) (Fin a) ℝ} (h : P.PosSemidef) (v : Fin a → ℝ) : 0 ≤ v ⬝ᵥ P *ᵥ v := by
  have := h.dotProduct_mulVec_nonneg v
  rwa [star_trivial] at this

/-- a covariance at least `c` times as large: `1 / √c` of the deviations -/
theorem WithinSigmas.widen {r c : ℝ} (hr : 0 ≤ r) (hc : 0 < c) {P S : Matrix (Fin a) (Fin a) ℝ} {d : Fin a → ℝ}
    (h : WithinSigmas r P d) (hS : (S - c • P).PosSemidef) : WithinSigmas (r / √c) S d := by
  intro v
  have hq := psd_quad hS v
  rw [Matrix.sub_mulVec, dotProduct_sub, Matrix.smul_mulVec, dotProduct_smul, smul_eq_mul] at hq
  refine (h v).trans ?_
  rw [div_mul_eq_mul_div, le_div_iff₀ (Real.sqrt_pos.mpr hc), mul_assoc]
  refine mul_le_mul_of_nonneg_left ?_ hr
  rw [mul_comm, ← Real.sqrt_mul hc.le]
  exact Real.sqrt_le_sqrt (by linarith)

theorem WithinSigmas.add {r s : ℝ} {P : Matrix (Fin a) (Fin a) ℝ} {d e : Fin a → ℝ} (h : WithinSigmas r P d)
    (h' : WithinSigmas s P e) : WithinSigmas (r + s) P (d + e) := by
  intro v
  rw [dotProduct_add, add_mul]
  exact (abs_add_le _ _).trans (add_le_add (h v) (h' v))

theorem WithinSigmas.mono {r s : ℝ} {P : Matrix (Fin a) (Fin a) ℝ} {d : Fin a → ℝ} (h : WithinSigmas r P d) (hs : r ≤ s) :
    WithinSigmas s P d :=
  fun v => (h v).trans (mul_le_mul_of_nonneg_right hs (Real.sqrt_nonneg _))

/-- a larger covariance -/
theorem WithinSigmas.le {r : ℝ} (hr : 0 ≤ r) {P S : Matrix (Fin a) (Fin a) ℝ} {d : Fin a → ℝ} (h : WithinSigmas r P d)
    (hS : (S - P).PosSemidef) : WithinSigmas r S d := by
  have := h.widen hr one_pos (S := S) (by rwa [one_smul])
  rwa [Real.sqrt_one, div_one] at this

theorem WithinSigmas.zero {P : Matrix (Fin a) (Fin a) ℝ} : WithinSigmas 0 P 0 := by
  intro v; rw [dotProduct_zero, abs_zero, zero_mul]

theorem WithinSigmas.component {r : ℝ} {P : Matrix (Fin a) (Fin a) ℝ} {d : Fin a → ℝ} (h : WithinSigmas r P d) (i : Fin a) :
    |d i| ≤ r * √(P i i) := by
  have := h (Pi.single i 1)
  simpa using this

end

namespace Props

private theorem rec_error {x0 : Fin n → ℝ} {P0 Pc : Matrix (Fin n) (Fin n) ℝ} {eps : ℝ} (heps : 0 ≤ eps)
    (h0 : P0.PosSemidef) (hc : (Pc - P0).PosSemidef) {evs : List (Event n m)} {y : Fin n → ℝ} {r : ℝ}
    (h : Happened eps x0 P0 evs y r) (hok : ∀ ev ∈ evs, ev.Ok) (hst : ∀ ev ∈ evs, ev.Stirs eps Pc) :
    0 ≤ r ∧ (Pc - (kalmanRec x0 P0 evs).2).PosSemidef ∧
      WithinSigmas r (kalmanRec x0 P0 evs).2 ((kalmanRec x0 P0 evs).1 - y) := by
  induction h with
  | @start y r hr h =>
    refine ⟨hr, hc, ?_⟩
    have := h.neg
    rwa [neg_sub] at this
  | @move evs y r p A B W V Rp Rc u d dd h hd hw ih =>
    obtain ⟨i0, i1, i2⟩ := ih (fun ev hev => hok ev (List.mem_cons_of_mem _ hev)) (fun ev hev => hst ev (List.mem_cons_of_mem _ hev))
    have ip := kalmanRec_psd (x0 := x0) h0 (fun ev hev => hok ev (List.mem_cons_of_mem _ hev))
    obtain ⟨o1, o2⟩ := hok _ List.mem_cons_self
    obtain ⟨s1, s2⟩ := hst _ List.mem_cons_self
    simp only [kalmanRec, add_assoc]
    generalize (kalmanRec x0 P0 evs).1 = x at *
    generalize (kalmanRec x0 P0 evs).2 = P at *
    have hQ : (W * Rp * Wᵀ + V * Rc * Vᵀ).PosSemidef := (psd_conj o1 W).add (psd_conj o2 V)
    generalize W * Rp * Wᵀ + V * Rc * Vᵀ = Q at *
    refine ⟨by positivity, ?_, ?_⟩
    · have e : Pc - (A * P * Aᵀ + Q) = (Pc - (A * Pc * Aᵀ + Q)) + A * (Pc - P) * Aᵀ := by
        simp only [Matrix.mul_sub, Matrix.sub_mul]; abel
      rw [e]; exact s2.add (psd_conj i1 A)
    · have e : A *ᵥ x + B *ᵥ u - (A *ᵥ y + (B *ᵥ u + d)) = A *ᵥ (x - y) + -d := by rw [Matrix.mulVec_sub]; abel
      rw [e]
      refine ((i2.map A).widen i0 (by linarith) ?_).add (hw.neg.le hd ?_)
      · have e : A * P * Aᵀ + Q - (1 + eps) • (A * P * Aᵀ) = (Q - eps • (A * Pc * Aᵀ)) + eps • (A * (Pc - P) * Aᵀ) := by
          simp only [Matrix.mul_sub, Matrix.sub_mul]
          module
        rw [e]; exact s1.add ((psd_conj i1 A).smul heps)
      · have e : A * P * Aᵀ + Q - Q = A * P * Aᵀ := by abel
        rw [e]; exact psd_conj ip A
  | @measure evs y r k C R z ee h he hz ih =>
    obtain ⟨i0, i1, i2⟩ := ih (fun ev hev => hok ev (List.mem_cons_of_mem _ hev)) (fun ev hev => hst ev (List.mem_cons_of_mem _ hev))
    have ip := kalmanRec_psd (x0 := x0) h0 (fun ev hev => hok ev (List.mem_cons_of_mem _ hev))
    have hR : R.PosDef := hok _ List.mem_cons_self
    simp only [kalmanRec]
    generalize (kalmanRec x0 P0 evs).1 = x at *
    generalize (kalmanRec x0 P0 evs).2 = P at *
    refine ⟨by positivity, ?_, ?_⟩
    · have e : Pc - post P C R = (Pc - P) + (P - post P C R) := by abel
      rw [e]; exact i1.add (post_le ip C hR)
    · have e : postState x P C R z - y = (1 - gain P C R * C) *ᵥ (x - y) + gain P C R *ᵥ (z - C *ᵥ y) := by
        unfold postState
        rw [Matrix.sub_mulVec, Matrix.one_mulVec, ← Matrix.mulVec_mulVec (x - y) (gain P C R) C]
        simp only [Matrix.mulVec_sub]
        abel
      have hj := post_joseph (psd_symm ip) (pd_isUnit_det (innov_pd ip C hR)) (psd_symm hR.posSemidef)
      rw [e]
      refine ((i2.map _).le i0 ?_).add ((hz.map _).le he ?_)
      · rw [hj, add_sub_cancel_left]; exact psd_conj hR.posSemidef _
      · rw [hj, add_sub_cancel_right]; exact psd_conj ip _

variable [LinearOrder T] [ExactTime T] {sc : SysClass T LinSysData X} {mc : K → MeasClass T LinMeasData Y}

/-- **C123 (total error).**  Whatever the true course of the state: if the misfits of the initial belief, of all disturbances
and of all measurement errors (in squared standard deviations) add up to `J`, then in every direction the estimate is within
`√J` of the reported standard deviations. -/
theorem C123_total_error (hsc : SysContract LinSysData.Sized sc) (hmc : ∀ j, MeasContract LinMeasData.Sized (mc j))
    (ops : sc.PlainOps) (mops : ∀ j, (mc j).PlainOps) {x0 : Fin n → ℝ} {P0 : Matrix (Fin n) (Fin n) ℝ} (h0 : P0.PosSemidef)
    {f ctl} {evs : List (Event n m)} (h : Recorded sc mc n m kd x0 P0 f ctl evs) (hok : ∀ ev ∈ evs, ev.Ok)
    {y : Fin n → ℝ} {J : ℝ} (hy : Explains x0 P0 evs y J) :
    ∃ (x : Fin n → ℝ) (P : Matrix (Fin n) (Fin n) ℝ), f.getState = .of x ∧ f.getCovariance = .of P ∧
      WithinSigmas √J P (x - y) := by
  have hP := kalmanRec_psd (x0 := x0) h0 hok
  have hcov := (h.inv hsc hmc ops mops h0 hok).cov
  obtain ⟨x, P, best, h1, h2, h3, h4, h5, h6⟩ := C87_best_explanation hsc hmc ops mops h0 h hok
  have eP : P = (kalmanRec x0 P0 evs).2 := DMat.of_inj.mp (h2.symm.trans hcov)
  rw [← eP] at hP
  refine ⟨x, P, h1, h2, fun v => ?_⟩
  obtain ⟨l, rfl⟩ := (h5 y).mp ⟨J, hy⟩
  have h7 := (h6 l).2 hy
  have hb : 0 ≤ best := by
    clear * - h3 hok h0
    induction h3 with
    | start h => obtain ⟨b, _, rfl⟩ := h; exact psd_quad h0 b
    | move _ hw hv ih =>
      obtain ⟨b, _, rfl⟩ := hw
      obtain ⟨b', _, rfl⟩ := hv
      obtain ⟨o1, o2⟩ := hok _ List.mem_cons_self
      have := ih (fun ev hev => hok ev (List.mem_cons_of_mem _ hev))
      have := psd_quad o1 b
      have := psd_quad o2 b'
      linarith
    | measure _ hz ih =>
      obtain ⟨b, _, rfl⟩ := hz
      have o1 : Matrix.PosDef _ := hok _ List.mem_cons_self
      have := ih (fun ev hev => hok ev (List.mem_cons_of_mem _ hev))
      have := psd_quad o1.posSemidef b
      linarith
  have e : x - (x + P *ᵥ l) = -(P *ᵥ l) := by abel
  rw [e, dotProduct_neg, abs_neg, ← Real.sqrt_mul (by have := psd_quad hP l; linarith)]
  refine Real.abs_le_sqrt ?_
  -- Cauchy-Schwarz for the form `P`
  have cs : (v ⬝ᵥ P *ᵥ l) ^ 2 ≤ (v ⬝ᵥ P *ᵥ v) * (l ⬝ᵥ P *ᵥ l) := by
    have q : ∀ t : ℝ, 0 ≤ (l ⬝ᵥ P *ᵥ l) * (t * t) + (2 * (v ⬝ᵥ P *ᵥ l)) * t + v ⬝ᵥ P *ᵥ v := by
      intro t
      have := psd_quad hP (v + t • l)
      have hs : l ⬝ᵥ P *ᵥ v = v ⬝ᵥ P *ᵥ l := by
        rw [Matrix.dotProduct_mulVec, ← Matrix.mulVec_transpose, psd_symm hP, dotProduct_comm]
      simp only [Matrix.mulVec_add, dotProduct_add, add_dotProduct, Matrix.mulVec_smul, dotProduct_smul, smul_dotProduct,
        smul_eq_mul, hs] at this
      linarith
    have := discrim_le_zero q
    unfold discrim at this
    nlinarith
  refine cs.trans ?_
  rw [mul_comm]
  exact mul_le_mul_of_nonneg_right (by linarith) (psd_quad hP v)

/-- **C123 (errors fade).**  If every motion brings in enough noise (`Stirs`), old errors fade: the estimate is within `r` of the
reported standard deviations of the true state, in every direction, where `r` counts the newest errors fully and the older ones
with a factor `1 / √(1 + eps)` per motion since. -/
theorem C123_errors_fade (hsc : SysContract LinSysData.Sized sc) (hmc : ∀ j, MeasContract LinMeasData.Sized (mc j))
    (ops : sc.PlainOps) (mops : ∀ j, (mc j).PlainOps) {x0 : Fin n → ℝ} {P0 Pc : Matrix (Fin n) (Fin n) ℝ} (h0 : P0.PosSemidef)
    (hPc : (Pc - P0).PosSemidef) {eps : ℝ} (heps : 0 ≤ eps) {f ctl} {evs : List (Event n m)}
    (h : Recorded sc mc n m kd x0 P0 f ctl evs) (hok : ∀ ev ∈ evs, ev.Ok) (hst : ∀ ev ∈ evs, ev.Stirs eps Pc)
    {y : Fin n → ℝ} {r : ℝ} (hy : Happened eps x0 P0 evs y r) :
    ∃ (x : Fin n → ℝ) (P : Matrix (Fin n) (Fin n) ℝ), f.getState = .of x ∧ f.getCovariance = .of P ∧
      WithinSigmas r P (x - y) ∧ ∀ i, |x i - y i| ≤ r * √(Pc i i) := by
  obtain ⟨i0, i1, i2⟩ := rec_error heps h0 hPc hy hok hst
  have hi := h.inv hsc hmc ops mops h0 hok
  exact ⟨_, _, hi.x, hi.cov, i2, fun i => (i2.le i0 i1).component i⟩

/-- **C123 (exact data).**  If the state moves and is measured exactly as modelled, the estimate converges to it, whatever it was
initialised with: after `k` motions each component is off by at most `r / √(1 + eps) ^ k` standard deviations of the ceiling,
where `r` is the initial error. -/
theorem C123_exact_data (hsc : SysContract LinSysData.Sized sc) (hmc : ∀ j, MeasContract LinMeasData.Sized (mc j))
    (ops : sc.PlainOps) (mops : ∀ j, (mc j).PlainOps) {x0 : Fin n → ℝ} {P0 Pc : Matrix (Fin n) (Fin n) ℝ} (h0 : P0.PosSemidef)
    (hPc : (Pc - P0).PosSemidef) {eps : ℝ} (heps : 0 ≤ eps) {f ctl} {evs : List (Event n m)}
    (h : Recorded sc mc n m kd x0 P0 f ctl evs) (hok : ∀ ev ∈ evs, ev.Ok) (hst : ∀ ev ∈ evs, ev.Stirs eps Pc)
    {y0 y : Fin n → ℝ} {r : ℝ} (hr : 0 ≤ r) (hy0 : WithinSigmas r P0 (y0 - x0)) (hy : Exactly y0 evs y) :
    ∃ x : Fin n → ℝ, f.getState = .of x ∧ ∀ i, |x i - y i| ≤ r / √(1 + eps) ^ motions evs * √(Pc i i) := by
  have key : Happened eps x0 P0 evs y (r / √(1 + eps) ^ motions evs) := by
    clear * - hy hr hy0
    induction hy with
    | start => simpa [motions] using Happened.start hr hy0
    | @move evs y p A B W V Rp Rc u _ ih =>
      have := Happened.move (A := A) (B := B) (W := W) (V := V) (Rp := Rp) (Rc := Rc) (u := u) ih le_rfl WithinSigmas.zero
      rw [add_zero, add_zero, div_div, ← pow_succ] at this
      exact this
    | @measure evs y k C R _ ih =>
      have := Happened.measure (C := C) (R := R) (z := C *ᵥ y) ih le_rfl (by rw [sub_self]; exact WithinSigmas.zero)
      rw [add_zero] at this
      exact this
  obtain ⟨x, P, h1, _, _, h4⟩ := C123_errors_fade hsc hmc ops mops h0 hPc heps h hok hst key
  exact ⟨x, h1, h4⟩

/-- **C123 (bounded errors).**  Bounded errors in the data lead to bounded errors in the estimate, for all time: if every
disturbance is within `D` and every measurement error within `E` standard deviations, with at most `N` measurements between
motions, and the first state within `r0`, then the estimate is always within
`r0 + (D + N E) √(1 + eps) / (√(1 + eps) - 1) + N E` standard deviations, however many calls were made. -/
theorem C123_bounded_errors (hsc : SysContract LinSysData.Sized sc) (hmc : ∀ j, MeasContract LinMeasData.Sized (mc j))
    (ops : sc.PlainOps) (mops : ∀ j, (mc j).PlainOps) {x0 : Fin n → ℝ} {P0 Pc : Matrix (Fin n) (Fin n) ℝ} (h0 : P0.PosSemidef)
    (hPc : (Pc - P0).PosSemidef) {eps : ℝ} (heps : 0 < eps) {f ctl} {evs : List (Event n m)}
    (h : Recorded sc mc n m kd x0 P0 f ctl evs) (hok : ∀ ev ∈ evs, ev.Ok) (hst : ∀ ev ∈ evs, ev.Stirs eps Pc)
    {D E r0 : ℝ} {N : Nat} (hD : 0 ≤ D) (hE : 0 ≤ E) (hr : 0 ≤ r0) {y0 y : Fin n → ℝ} (hy0 : WithinSigmas r0 P0 (y0 - x0))
    (hy : BoundedErrors D E N y0 evs y) :
    ∃ (x : Fin n → ℝ) (P : Matrix (Fin n) (Fin n) ℝ), f.getState = .of x ∧ f.getCovariance = .of P ∧
      WithinSigmas (r0 + (D + N * E) * √(1 + eps) / (√(1 + eps) - 1) + N * E) P (x - y) := by
  have hs : 1 < √(1 + eps) := by
    rw [Real.lt_sqrt zero_le_one]; linarith
  have key : ∃ r, Happened eps x0 P0 evs y r ∧ sinceMotion evs ≤ N ∧
      r ≤ r0 + (D + N * E) * √(1 + eps) / (√(1 + eps) - 1) + sinceMotion evs * E := by
    clear * - hy hr hy0 hs hD hE
    induction hy with
    | start =>
      have : 0 ≤ (D + N * E) * √(1 + eps) / (√(1 + eps) - 1) := div_nonneg (by positivity) (by linarith)
      exact ⟨r0, .start hr hy0, Nat.zero_le _, by simp only [sinceMotion]; push_cast; linarith⟩
    | @move evs y p A B W V Rp Rc u d _ hw ih =>
      obtain ⟨r, h1, h2, h3⟩ := ih
      refine ⟨_, .move h1 hD hw, Nat.zero_le _, ?_⟩
      have hn : (sinceMotion evs : ℝ) * E ≤ N * E := mul_le_mul_of_nonneg_right (by exact_mod_cast h2) hE
      have hS : (D + N * E) * √(1 + eps) / (√(1 + eps) - 1) * (√(1 + eps) - 1) = (D + N * E) * √(1 + eps) :=
        div_mul_cancel₀ _ (by linarith)
      simp only [sinceMotion]
      push_cast
      generalize (D + N * E) * √(1 + eps) / (√(1 + eps) - 1) = S at *
      generalize √(1 + eps) = s at *
      have hN : 0 ≤ (N : ℝ) * E := by positivity
      have : r / s ≤ r0 + S - D := by
        rw [div_le_iff₀ (by linarith)]
        nlinarith [mul_nonneg hr (sub_nonneg.mpr hs.le), mul_nonneg hN (sub_nonneg.mpr hs.le)]
      linarith
    | @measure evs y k C R z _ hN hz ih =>
      obtain ⟨r, h1, h2, h3⟩ := ih
      refine ⟨_, .measure h1 hE hz, hN, ?_⟩
      simp only [sinceMotion]
      push_cast
      linarith
  obtain ⟨r, h1, h2, h3⟩ := key
  obtain ⟨x, P, k1, k2, k3, _⟩ := C123_errors_fade hsc hmc ops mops h0 hPc heps.le h hok hst h1
  refine ⟨x, P, k1, k2, k3.mono (h3.trans ?_)⟩
  have : (sinceMotion evs : ℝ) * E ≤ N * E := mul_le_mul_of_nonneg_right (by exact_mod_cast h2) hE
  linarith

/-! ### The hypotheses are met: the leaky integrator of C95 with a ruler, measured 5 when it was 4, then moved by 3 with a
disturbance of 1 -/

theorem within11 {r p d : ℝ} (hp : 0 ≤ p) (h : |d| ≤ r * √p) : WithinSigmas r !![p] ![d] := by
  intro v
  have e1 : v ⬝ᵥ ![d] = v 0 * d := by simp [dotProduct]
  have e2 : v ⬝ᵥ !![p] *ᵥ v = v 0 ^ 2 * p := by simp [dotProduct, Matrix.mulVec]; ring
  rw [e1, e2, abs_mul, Real.sqrt_mul (sq_nonneg _), Real.sqrt_sq_eq_abs]
  calc |v 0| * |d| ≤ |v 0| * (r * √p) := mul_le_mul_of_nonneg_left h (abs_nonneg _)
    _ = _ := by ring

/-- A recorded filter, noise as demanded, and a true course of the state whose errors are bounded: from 4 (the filter believes 7,
variance 4) to `4 / 2 + 3 + 1`. -/
example : ∃ (f : Filter ℝ DVec DMat Unit (Env Unit LinSysData Unit LinMeasData Unit)) (l : List (Event 1 1)),
    Recorded halfClass (fun _ => wholeClass) 1 1 (fun _ => 1) ![7] !![4] f ![3] l ∧
    (∀ ev ∈ l, ev.Ok) ∧ (∀ ev ∈ l, ev.Stirs 2 !![4]) ∧ WithinSigmas (3 / 2) !![4] (![4] - ![7]) ∧
    BoundedErrors 1 1 1 ![4] l ![6] := by
  have sc := half_contract
  have mcn : ∀ _ : Unit, MeasContract LinMeasData.Sized wholeClass := fun _ => whole_contract
  have o : halfClass.PlainOps := Examples.plain_ops _
  have mo : ∀ _ : Unit, wholeClass.PlainOps := fun _ => Examples.plain_mops _
  have p0 : (!![4] : Matrix (Fin 1) (Fin 1) ℝ).PosSemidef := psd11 (by norm_num)
  have r0 : Recorded (T := ℝ) halfClass (fun _ : Unit => wholeClass) 1 1 (fun _ => 1) ![7] !![4]
      (Filter.construct (kfPlant halfClass (fun _ => wholeClass))
        {rewindHistory := false, historyWindow := 1, allowPast := false} halfEnv (.of ![7]) (.of !![4]) 0) 0 [] :=
    .start _ _ _ half_regular.sys half_regular.meas half_regular.quiet
  obtain ⟨f1, r1, t1, e1⟩ := r0.can_correct_const sc mcn o mo p0 (by intro ev h; cases h) () ![5] 1 PosDef.one !![1] (by
    intro s x dt s' hs h
    change (if s.stateSize = 1 ∧ s.measDims = 1 then _ else some s) = some s' at h
    rw [if_pos ⟨hs.states, hs.meas⟩] at h
    cases h
    rfl)
  have e1' : f1.env.sys = halfEnv.sys := e1
  obtain ⟨f2, r2, -⟩ := r1.can_predict_const (p := 1) (A := !![1 / 2]) (B := !![1]) (W := !![1]) (V := !![1]) (Rp := !![2])
    (Rc := !![1 / 2]) sc mcn o mo p0 (by intro ev h; rw [List.mem_singleton.mp h]; exact PosDef.one) one_pos ![3] 1
    (by rw [t1]; exact zero_le_one) (by
      intro x s' h
      rw [e1'] at h
      exact half_gives halfEnv.sys half_regular.sys _ _ _ _ rfl rfl h)
  refine ⟨f2, _, r2, ?_, ?_, ?_, ?_⟩
  · intro ev h
    rcases List.mem_cons.mp h with rfl | h
    · exact ⟨psd11 (by norm_num), psd11 (by norm_num)⟩
    · rw [List.mem_singleton.mp h]; exact PosDef.one
  · intro ev h
    rcases List.mem_cons.mp h with rfl | h
    · exact half_stirs _
    · rw [List.mem_singleton.mp h]; trivial
  · have e : (![4] - ![7] : Fin 1 → ℝ) = ![-3] := by funext i; fin_cases i; norm_num
    rw [e]
    refine within11 (by norm_num) ?_
    rw [show (4 : ℝ) = 2 ^ 2 by norm_num, Real.sqrt_sq (by norm_num)]
    norm_num
  · have hd : WithinSigmas 1 (!![1] * !![2] * !![1]ᵀ + !![1] * !![1 / 2] * !![1]ᵀ : Matrix (Fin 1) (Fin 1) ℝ) ![1] := by
      rw [eq11 (A := !![1] * !![2] * !![1]ᵀ + !![1] * !![1 / 2] * !![1]ᵀ) (5 / 2)
        (by simp [Matrix.vecMul, dotProduct, Matrix.transpose_apply]; norm_num)]
      refine within11 (by norm_num) ?_
      rw [one_mul, abs_one]
      exact Real.one_le_sqrt.mpr (by norm_num)
    have hz : WithinSigmas 1 (1 : Matrix (Fin 1) (Fin 1) ℝ) (![5] - !![1] *ᵥ ![4]) := by
      have e : (![5] - !![1] *ᵥ ![4] : Fin 1 → ℝ) = ![1] := by
        funext i; fin_cases i; simp [Matrix.mulVec, dotProduct]; norm_num
      rw [e, eq11 (A := (1 : Matrix (Fin 1) (Fin 1) ℝ)) 1 (by simp)]
      exact within11 (by norm_num) (by simp)
    have := BoundedErrors.move (A := !![1 / 2]) (B := !![1]) (u := ![3])
      (BoundedErrors.measure (m := 1) (N := 1) (D := 1) (y0 := ![4]) (.start) (by decide) hz) hd
    have e : (!![1 / 2] *ᵥ ![4] + !![1] *ᵥ ![3] + ![1] : Fin 1 → ℝ) = ![6] := by
      funext i; fin_cases i; simp [Matrix.mulVec, dotProduct]; norm_num
    rwa [e] at this

end Props
end StateEstimation
