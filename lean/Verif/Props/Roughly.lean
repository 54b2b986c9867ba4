import Verif.Props.Observed
import Verif.Spec.Roughly

/-!
# C133: bounded errors in, bounded error out

A Kalman filter used in repeated cycles whose readings determine the state and whose noise reaches every state: however the true state
moves and whatever the measurements are, as long as the disturbances and measurement errors are bounded, the error of the estimate
stays bounded at every moment, by a multiple of the bounds plus a geometrically vanishing share of the initial error.
-/

set_option linter.unusedSectionVars false

namespace StateEstimation

namespace Roughly

open Matrix Kalman Settle Observed Props

variable {n m : Nat}

theorem len_zero {a : Nat} : len (0 : Fin a → ℝ) = 0 := by unfold len; simp

theorem len_add {a : Nat} (v w : Fin a → ℝ) : len (v + w) ≤ len v + len w := by
  refine abs_le_of_sq_le_sq' ?_ (add_nonneg (len_nonneg _) (len_nonneg _)) |>.2
  have h := (le_abs_self _).trans (abs_dot_le v w)
  rw [len_sq, dotProduct_add, add_dotProduct, add_dotProduct, dotProduct_comm w v, add_sq, len_sq, len_sq]
  linarith

theorem len_neg {a : Nat} (v : Fin a → ℝ) : len (-v) = len v := by unfold len; simp

theorem len_sub {a : Nat} (v w : Fin a → ℝ) : len (v - w) ≤ len v + len w := by
  rw [sub_eq_add_neg]; exact (len_add _ _).trans (by rw [len_neg])

/-- a matrix is bounded -/
theorem mat_bound {a b : Nat} (A : Matrix (Fin a) (Fin b) ℝ) : ∃ c : ℝ, 0 ≤ c ∧ ∀ v, len (A *ᵥ v) ≤ c * len v := by
  have h := psd_conj (PosSemidef.one : (1 : Matrix (Fin b) (Fin b) ℝ).PosSemidef) A
  rw [Matrix.mul_one] at h
  exact ⟨_, Real.sqrt_nonneg _, fun v => len_mulVec (le_trace h) v⟩

/-- so is the gain, uniformly for bounded covariances -/
theorem gain_bound {k : Nat} (β : ℝ) (C : Matrix (Fin k) (Fin n) ℝ) {R : Matrix (Fin k) (Fin k) ℝ} (hR : R.PosDef) :
    ∃ c : ℝ, 0 ≤ c ∧ ∀ P : Matrix (Fin n) (Fin n) ℝ, P.PosSemidef → (β • (1 : Matrix (Fin n) (Fin n) ℝ) - P).PosSemidef →
      ∀ v, len (gain P C R *ᵥ v) ≤ c * len v := by
  obtain ⟨ρ, hρ, h⟩ := pd_floor hR
  refine ⟨√(β / ρ), Real.sqrt_nonneg _, fun P hP hb v => len_mulVec ?_ v⟩
  have j := post_joseph (psd_symm hP) (pd_isUnit_det (innov_pd hP C hR)) (psd_symm hR.posSemidef)
  have le := post_le hP C hR
  generalize gain P C R = G at *
  have f1 := psd_conj hP (1 - G * C)
  have f2 := psd_conj h G
  generalize (1 - G * C) * P * (1 - G * C)ᵀ = F at *
  generalize post P C R = Q at *
  have hr : 1 / ρ * ρ = 1 := by field_simp
  have e : (β / ρ) • (1 : Matrix (Fin n) (Fin n) ℝ) - G * Gᵀ = (1 / ρ) • ((β • 1 - P) + (P - Q) + F + G * (R - ρ • 1) * Gᵀ) := by
    rw [j]
    simp only [Matrix.mul_sub, Matrix.sub_mul, Matrix.mul_smul, Matrix.smul_mul, Matrix.mul_one, smul_add, smul_sub, smul_smul, hr, one_smul]
    rw [show 1 / ρ * β = β / ρ by ring]
    abel
  rw [e]; exact (((hb.add le).add f1).add f2).smul (by positivity)

/-- one stretch: the error after it is at most a multiple of everything that went wrong; the same for every beginning of the stretch -/
theorem one_stretch (b : ℝ) {l : List (Event n m)} (hok : ∀ ev ∈ l, ev.Ok) : ∃ c : ℝ, 1 ≤ c ∧
    ∀ s, s <:+ l → ∀ (P : Matrix (Fin n) (Fin n) ℝ), P.PosSemidef → (b • (1 : Matrix (Fin n) (Fin n) ℝ) - P).PosSemidef →
      ∀ (D E : ℝ) s' (x y0 y : Fin n → ℝ), 0 ≤ D → 0 ≤ E → List.Forall₂ Event.SameKind s s' → Roughly D E y0 s' y →
        len (y - (kalmanRec x P s').1) ≤ c * (len (y0 - x) + D + E) := by
  induction l with
  | nil =>
    refine ⟨1, le_rfl, fun s hs P hP hb D E s' x y0 y hD hE hk hy => ?_⟩
    rw [List.suffix_nil] at hs
    subst hs
    cases hk
    cases hy
    rw [one_mul]
    show len (y0 - x) ≤ _
    linarith
  | cons ev l ih =>
    have hok' : ∀ ev ∈ l, ev.Ok := fun ev hev => hok ev (List.mem_cons_of_mem _ hev)
    have ok := hok _ List.mem_cons_self
    obtain ⟨c, hc, h⟩ := ih hok'
    cases ev with
    | move A B W V Rp Rc u =>
      obtain ⟨cA, h1, h2⟩ := mat_bound A
      refine ⟨c + (cA * c + 1), by nlinarith, fun s hs P hP hb D E s' x y0 y hD hE hk hy => ?_⟩
      have hL := len_nonneg (y0 - x)
      rcases List.suffix_cons_iff.mp hs with rfl | hs
      · cases hk with
        | cons he hl =>
          cases he with
          | move _ _ _ _ _ _ _ u' =>
            cases hy with
            | @move _ y' _ _ _ _ _ _ _ _ d hy hd =>
              have i := h l List.suffix_rfl P hP hb D E _ x y0 _ hD hE hl hy
              simp only [kalmanRec]
              generalize (kalmanRec x P _).1 = xx at *
              have e : A *ᵥ y' + B *ᵥ u' + d - (A *ᵥ xx + B *ᵥ u') = A *ᵥ (y' - xx) + d := by rw [Matrix.mulVec_sub]; abel
              rw [e]
              refine (len_add _ _).trans ?_
              have := (h2 (y' - xx)).trans (mul_le_mul_of_nonneg_left i h1)
              have hg : 0 ≤ c * (len (y0 - x) + D + E) := by positivity
              have : D ≤ len (y0 - x) + D + E := by linarith
              linarith
      · refine (h s hs P hP hb D E s' x y0 y hD hE hk hy).trans ?_
        exact mul_le_mul_of_nonneg_right (by nlinarith) (by linarith)
    | measure C R z =>
      have hR : R.PosDef := ok
      obtain ⟨cC, h1, h2⟩ := mat_bound C
      obtain ⟨cG, h3, h4⟩ := gain_bound (n := n) (∑ i, cov (b • 1) l i i) C hR
      refine ⟨c + (cG * cC * c + cG), by nlinarith [mul_nonneg (mul_nonneg h3 h1) (zero_le_one.trans hc)],
        fun s hs P hP hb D E s' x y0 y hD hE hk hy => ?_⟩
      have hL := len_nonneg (y0 - x)
      have hcc : 0 ≤ cG * cC * c := mul_nonneg (mul_nonneg h3 h1) (by linarith)
      rcases List.suffix_cons_iff.mp hs with rfl | hs
      · cases hk with
        | cons he hl =>
          cases he with
          | measure _ _ _ z' =>
            cases hy with
            | @measure _ _ _ _ _ _ e hy hz hd =>
              have i := h l List.suffix_rfl P hP hb D E _ x y0 _ hD hE hl hy
              have hcov := cov_kind (x0 := x) (P0 := P) hl
              have hpsd : (cov P l).PosSemidef := cov_psd hP hok'
              have hup : ((∑ i, cov (b • 1) l i i) • (1 : Matrix (Fin n) (Fin n) ℝ) - cov P l).PosSemidef := by
                have m1 := cov_mono hP hb hok'
                have hb1 : (b • (1 : Matrix (Fin n) (Fin n) ℝ)).PosSemidef := by
                  have := hb.add hP
                  rwa [sub_add_cancel] at this
                have m2 := le_trace (cov_psd hb1 hok')
                have := m2.add m1
                rwa [sub_add_sub_cancel] at this
              simp only [kalmanRec]
              rw [hcov]
              generalize (kalmanRec x P _).1 = xx at *
              subst hz
              unfold postState
              have g1 := h4 _ hpsd hup (C *ᵥ (y - xx))
              have g2 := h4 _ hpsd hup e
              have e1 : y - (xx + gain (cov P l) C R *ᵥ (C *ᵥ y + e - C *ᵥ xx))
                  = (y - xx) - gain (cov P l) C R *ᵥ (C *ᵥ (y - xx)) - gain (cov P l) C R *ᵥ e := by
                simp only [Matrix.mulVec_sub, Matrix.mulVec_add]; abel
              rw [e1]
              refine (len_sub _ _).trans ?_
              have s1 := len_sub (y - xx) (gain (cov P l) C R *ᵥ (C *ᵥ (y - xx)))
              have s2 := g1.trans (mul_le_mul_of_nonneg_left (h2 (y - xx)) h3)
              have s3 := mul_le_mul_of_nonneg_left i (mul_nonneg h3 h1)
              have s4 := g2.trans (mul_le_mul_of_nonneg_left hd h3)
              have s5 : cG * E ≤ cG * (len (y0 - x) + D + E) := mul_le_mul_of_nonneg_left (by linarith) h3
              generalize len (y0 - x) + D + E = Z at *
              generalize len (y - xx) = Q at *
              nlinarith
      · refine (h s hs P hP hb D E s' x y0 y hD hE hk hy).trans ?_
        exact mul_le_mul_of_nonneg_right (by linarith) (by linarith)

theorem split_kind {l1 l2 l : List (Event n m)} (h : List.Forall₂ Event.SameKind (l2 ++ l1) l) :
    ∃ l2' l1', l = l2' ++ l1' ∧ List.Forall₂ Event.SameKind l2 l2' ∧ List.Forall₂ Event.SameKind l1 l1' := by
  induction l2 generalizing l with
  | nil => exact ⟨[], l, rfl, .nil, h⟩
  | cons ev l2 ih =>
    cases h with
    | cons he h =>
      obtain ⟨a, b, rfl, h1, h2⟩ := ih h
      exact ⟨_ :: a, b, rfl, .cons he h1, h2⟩

theorem split {D E : ℝ} {y0 y : Fin n → ℝ} {l1 l2 : List (Event n m)} (h : Roughly D E y0 (l2 ++ l1) y) :
    ∃ y1, Roughly D E y0 l1 y1 ∧ Roughly D E y1 l2 y := by
  generalize hl : l2 ++ l1 = l at h
  induction h generalizing l2 with
  | start =>
    obtain ⟨rfl, rfl⟩ := List.append_eq_nil_iff.mp hl
    exact ⟨y0, .start, .start⟩
  | move h hd ih =>
    cases l2 with
    | nil => exact ⟨_, by subst hl; exact .move h hd, .start⟩
    | cons ev l2 =>
      rw [List.cons_append] at hl
      injection hl with e1 e2
      subst e1
      obtain ⟨y1, a, b⟩ := ih e2
      exact ⟨y1, a, .move b hd⟩
  | measure h hz hd ih =>
    cases l2 with
    | nil => exact ⟨_, by subst hl; exact .measure h hz hd, .start⟩
    | cons ev l2 =>
      rw [List.cons_append] at hl
      injection hl with e1 e2
      subst e1
      obtain ⟨y1, a, b⟩ := ih e2
      exact ⟨y1, a, .measure b hz hd⟩

/-- `k` cycles from a covariance between floor and ceiling -/
theorem many {cyc : List (Event n m)} (hok : ∀ ev ∈ cyc, ev.Ok) {a b δ : ℝ} (ha : 0 < a) (h0 : 0 < δ) (h1 : δ ≤ 1)
    (hp : ∀ P : Matrix (Fin n) (Fin n) ℝ, P.PosSemidef →
      (cov P cyc - a • (1 : Matrix (Fin n) (Fin n) ℝ)).PosSemidef ∧ (b • (1 : Matrix (Fin n) (Fin n) ℝ) - cov P cyc).PosSemidef ∧
      (cov 0 cyc - δ • cov P cyc).PosSemidef) {W : ℝ} (hW : 0 ≤ W)
    (hone : ∀ (P : Matrix (Fin n) (Fin n) ℝ), P.PosSemidef → (b • (1 : Matrix (Fin n) (Fin n) ℝ) - P).PosSemidef →
      ∀ (D E : ℝ) s' (x y0 y : Fin n → ℝ), 0 ≤ D → 0 ≤ E → List.Forall₂ Event.SameKind cyc s' → Roughly D E y0 s' y →
        len (y - (kalmanRec x P s').1) ≤ W * (len (y0 - x) + D + E)) {c0 : ℝ} (hc0 : 0 ≤ c0) {q : ℝ} (hq0 : 0 ≤ q) (hq : q < 1)
    (hsmall : ∀ k (P : Matrix (Fin n) (Fin n) ℝ), P.PosSemidef → (P - a • (1 : Matrix (Fin n) (Fin n) ℝ)).PosSemidef → ∀ d,
      len (err P (cycles (k + 1) cyc) *ᵥ d) ≤ c0 * q ^ k * len d)
    {D E : ℝ} (hD : 0 ≤ D) (hE : 0 ≤ E) (k : Nat) :
    ∀ (P : Matrix (Fin n) (Fin n) ℝ), P.PosSemidef → (P - a • (1 : Matrix (Fin n) (Fin n) ℝ)).PosSemidef →
      (b • (1 : Matrix (Fin n) (Fin n) ℝ) - P).PosSemidef → ∀ evs (x y0 y : Fin n → ℝ),
      List.Forall₂ Event.SameKind (cycles (k + 1) cyc) evs → Roughly D E y0 evs y →
      len (y - (kalmanRec x P evs).1) ≤ c0 * q ^ k * len (y0 - x) + W * (1 + c0 * (1 - q ^ k) / (1 - q)) * (D + E) := by
  have hq1 : 1 - q ≠ 0 := by linarith
  -- without an initial error
  have key : ∀ k (P : Matrix (Fin n) (Fin n) ℝ), P.PosSemidef → (P - a • (1 : Matrix (Fin n) (Fin n) ℝ)).PosSemidef →
      (b • (1 : Matrix (Fin n) (Fin n) ℝ) - P).PosSemidef → ∀ evs (y0 y : Fin n → ℝ),
      List.Forall₂ Event.SameKind (cycles (k + 1) cyc) evs → Roughly D E y0 evs y →
      len (y - (kalmanRec y0 P evs).1) ≤ W * (1 + c0 * (1 - q ^ k) / (1 - q)) * (D + E) := by
    intro k
    induction k with
    | zero =>
      intro P hP ha' hb evs y0 y hs hy
      have e : cycles (0 + 1) cyc = cyc := by simp [cycles]
      rw [e] at hs
      have := hone P hP hb D E evs y0 y0 y hD hE hs hy
      rw [sub_self, len_zero] at this
      simpa using this
    | succ k ih =>
      intro P hP ha' hb evs y0 y hs hy
      rw [cycles_snoc] at hs
      obtain ⟨l2, l1, rfl, s2, s1⟩ := split_kind hs
      obtain ⟨y1, r1, r2⟩ := split hy
      have f := hone P hP hb D E l1 y0 y0 y1 hD hE s1 r1
      rw [sub_self, len_zero, zero_add] at f
      rw [rec_append, cov_kind s1]
      have P1 : (cov P cyc).PosSemidef := cov_psd hP hok
      have g := ih (cov P cyc) P1 (hp P hP).1 (hp P hP).2.1 l2 y1 y s2 r2
      have e : y - (kalmanRec (kalmanRec y0 P l1).1 (cov P cyc) l2).1 = (y - (kalmanRec y1 (cov P cyc) l2).1)
          + err (cov P cyc) (cycles (k + 1) cyc) *ᵥ (y1 - (kalmanRec y0 P l1).1) := by
        rw [← err_kind s2, ← err_state]; abel
      rw [e]
      refine (len_add _ _).trans ?_
      have t := (hsmall k (cov P cyc) P1 (hp P hP).1 (y1 - (kalmanRec y0 P l1).1)).trans
        (mul_le_mul_of_nonneg_left f (by positivity))
      refine (add_le_add g t).trans (le_of_eq ?_)
      rw [pow_succ]
      field_simp
      ring
  intro P hP ha' hb evs x y0 y hs hy
  have e : y - (kalmanRec x P evs).1 = err P (cycles (k + 1) cyc) *ᵥ (y0 - x) + (y - (kalmanRec y0 P evs).1) := by
    rw [← err_kind hs, ← err_state]; abel
  rw [e]
  exact (len_add _ _).trans (add_le_add (hsmall k P hP ha' _) (key k P hP ha' hb evs y0 y hs hy))

end Roughly

namespace Props

open Matrix Kalman Settle Observed Roughly

variable {n m : Nat}
variable {T K X Y : Type} [DecidableEq K] [LinearOrder T] [ExactTime T] {kd : K → Nat}

/-- **C133.**  A Kalman filter goes through a cycle of motions and measurements again and again.  If the readings of the cycle determine
the state at its end and the noise of its motions reaches every state, there are a factor `M` and a rate `q < 1`, depending on the cycle
alone, such that: for every initial covariance there is `c` such that, at every moment from the end of the second cycle on (`k + 2`
cycles and any beginning `part` of the next), if the true state has moved as modelled up to disturbances of length at most `D` and was
measured up to errors of length at most `E`, the estimate is within `c q ^ k (d0 + D + E) + M (D + E)` of the true state, where `d0` is
the initial distance. -/
theorem C133_bounded_errors {sc : SysClass T LinSysData X} {mc : K → MeasClass T LinMeasData Y}
    (hsc : SysContract LinSysData.Sized sc) (hmc : ∀ j, MeasContract LinMeasData.Sized (mc j))
    (ops : sc.PlainOps) (mops : ∀ j, (mc j).PlainOps)
    {cyc : List (Event n m)} (hok : ∀ ev ∈ cyc, ev.Ok) (hsh : Shows cyc) (hst : Stirred cyc) :
    ∃ M q : ℝ, 0 ≤ q ∧ q < 1 ∧ ∀ P0 : Matrix (Fin n) (Fin n) ℝ, P0.PosSemidef → ∃ c : ℝ, ∀ D E k part x0 f ctl evs y0 y,
      0 ≤ D → 0 ≤ E → part <:+ cyc → Recorded sc mc n m kd x0 P0 f ctl evs →
      List.Forall₂ Event.SameKind (part ++ cycles (k + 2) cyc) evs → Roughly D E y0 evs y →
      ∃ x : Fin n → ℝ, f.getState = .of x ∧ len (y - x) ≤ c * q ^ k * (len (y0 - x0) + D + E) + M * (D + E) := by
  obtain ⟨a, b, δ, ha, hb, h0, h1, hp⟩ := pinch hok hsh hst
  obtain ⟨W, hW, hone⟩ := one_stretch b hok
  have hW0 : 0 ≤ W := by linarith
  have hq0 : 0 ≤ √(1 - δ) := Real.sqrt_nonneg _
  have hq : √(1 - δ) < 1 := by rw [Real.sqrt_lt' one_pos]; linarith
  have hc0 : 0 ≤ √((1 / δ - 1) * b / a) := Real.sqrt_nonneg _
  have hsmall := fun k (P : Matrix (Fin n) (Fin n) ℝ) hP hPa d =>
    err_small hok ha h0 h1 (fun P h => (hp P h).2.1) (fun P h => (hp P h).2.2) k (P := P) hP hPa d
  generalize √((1 / δ - 1) * b / a) = c0 at *
  generalize √(1 - δ) = q at *
  refine ⟨W * (W * (1 + c0 / (1 - q)) + 1), q, hq0, hq, fun P0 hP => ?_⟩
  obtain ⟨c1, hc1, hfirst⟩ := one_stretch (∑ i, P0 i i) hok
  refine ⟨W * (c0 * c1), fun D E k part x0 f ctl evs y0 y hD hE hpart hf hs hy => ?_⟩
  have hokall : ∀ ev ∈ part ++ cycles (k + 2) cyc, ev.Ok := by
    intro ev h
    rcases List.mem_append.mp h with h | h
    · exact hok ev (hpart.subset h)
    · exact hok ev (mem_of_cycles h)
  refine ⟨_, (hf.inv hsc hmc ops mops hP (sameKind_ok hs hokall)).x, ?_⟩
  obtain ⟨l3, l21, rfl, s3, s21⟩ := split_kind hs
  rw [cycles_snoc] at s21
  obtain ⟨l2, l1, rfl, s2, s1⟩ := split_kind s21
  obtain ⟨y2, r21, r3⟩ := Roughly.split hy
  obtain ⟨y1, r1, r2⟩ := Roughly.split r21
  have f1 := hfirst cyc List.suffix_rfl P0 hP (le_trace hP) D E l1 x0 y0 y1 hD hE s1 r1
  have P1 : (cov P0 cyc).PosSemidef := cov_psd hP hok
  have f2 := many hok ha h0 h1 hp hW0 (fun P hP hb => hone cyc List.suffix_rfl P hP hb) hc0 hq0 hq hsmall hD hE k (cov P0 cyc) P1
    (hp P0 hP).1 (hp P0 hP).2.1 l2 (kalmanRec x0 P0 l1).1 y1 y2 s2 r2
  have P2 : ((cov (cov P0 cyc) (cycles (k + 1) cyc))).PosSemidef := cov_psd P1 fun ev h => hok ev (mem_of_cycles h)
  have b2 : (b • (1 : Matrix (Fin n) (Fin n) ℝ) - cov (cov P0 cyc) (cycles (k + 1) cyc)).PosSemidef := by
    rw [cycles_cons, cov_append]
    exact (hp _ (cov_psd P1 fun ev h => hok ev (mem_of_cycles h))).2.1
  have f3 := hone part hpart _ P2 b2 D E l3 (kalmanRec (kalmanRec x0 P0 l1).1 (cov P0 cyc) l2).1 y2 y hD hE s3 r3
  rw [rec_append, rec_append, cov_kind s1, cov_kind s2]
  have hL := len_nonneg (y0 - x0)
  generalize len (y0 - x0) + D + E = Z at *
  generalize len (y1 - (kalmanRec x0 P0 l1).1) = e1 at *
  generalize len (y2 - (kalmanRec (kalmanRec x0 P0 l1).1 (cov P0 cyc) l2).1) = e2 at *
  refine f3.trans ?_
  have hqk : 0 ≤ q ^ k := pow_nonneg hq0 k
  have g1 : c0 * q ^ k * e1 ≤ c0 * q ^ k * (c1 * Z) := mul_le_mul_of_nonneg_left f1 (by positivity)
  have g2 : W * (1 + c0 * (1 - q ^ k) / (1 - q)) * (D + E) ≤ W * (1 + c0 / (1 - q)) * (D + E) := by
    refine mul_le_mul_of_nonneg_right (mul_le_mul_of_nonneg_left ?_ hW0) (by linarith)
    have : c0 * (1 - q ^ k) / (1 - q) ≤ c0 / (1 - q) := by
      refine div_le_div_of_nonneg_right ?_ (by linarith)
      nlinarith
    linarith
  have : e2 + D + E ≤ c0 * q ^ k * (c1 * Z) + W * (1 + c0 / (1 - q)) * (D + E) + (D + E) := by linarith
  refine (mul_le_mul_of_nonneg_left this hW0).trans (le_of_eq (by ring))

/-! ### The hypotheses are met: the cart of C132; every motion is off by 1 in the position, every reading by 1 / 2 -/

example (x0 : Fin 2 → ℝ) (P0 : Matrix (Fin 2) (Fin 2) ℝ) (p0 : P0.PosSemidef) (y0 : Fin 2 → ℝ) (k : Nat) :
    (∀ ev ∈ twoLooks, ev.Ok) ∧ Shows twoLooks ∧ Stirred twoLooks ∧
    ∃ (f : Filter ℝ DVec DMat Unit (Env Unit LinSysData Unit LinMeasData Unit)) (ctl : Fin 1 → ℝ) (evs : List (Event 2 1)) (y : Fin 2 → ℝ),
    Recorded Examples.cvClass (fun _ => Examples.posClass) 2 1 (fun _ => 1) x0 P0 f ctl evs ∧
    List.Forall₂ Event.SameKind ([] ++ cycles (k + 2) twoLooks) evs ∧ Roughly 1 (1 / 2) y0 evs y := by
  refine ⟨twoLooks_ok, twoLooks_shows, twoLooks_stirred, ?_⟩
  refine cart_runs p0 .start (fun _ _ h => ⟨_, _, .measure (.move (d := ![1, 0]) h ?_) rfl (e := ![1 / 2]) ?_⟩) (k + 2)
  · unfold len; simp
  · rw [len_one]; norm_num

end Props
end StateEstimation
