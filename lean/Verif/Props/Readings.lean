import Verif.Props.Kalman
import Verif.Spec.Readings

/-!
# C94: any number of readings at one time

A list of readings, of any sensors, all stamped with the filter's current time.
-/

set_option linter.unusedSectionVars false

namespace StateEstimation

open Matrix

namespace Kalman

variable {K : Type} {kd : K → Nat} {n : Nat}

/-- covariance after the readings -/
noncomputable def postAll (C : (j : K) → Matrix (Fin (kd j)) (Fin n) ℝ) :
    Matrix (Fin n) (Fin n) ℝ → List (Reading K kd) → Matrix (Fin n) (Fin n) ℝ
  | P, [] => P
  | P, r :: rs => postAll C (post P (C r.sensor) r.R) rs

/-- state after the readings -/
noncomputable def postStateAll (C : (j : K) → Matrix (Fin (kd j)) (Fin n) ℝ) :
    (Fin n → ℝ) → Matrix (Fin n) (Fin n) ℝ → List (Reading K kd) → Fin n → ℝ
  | x, _, [] => x
  | x, P, r :: rs => postStateAll C (postState x P (C r.sensor) r.R r.z) (post P (C r.sensor) r.R) rs

theorem postAll_psd (C : (j : K) → Matrix (Fin (kd j)) (Fin n) ℝ) : ∀ (rs : List (Reading K kd)) (P : Matrix (Fin n) (Fin n) ℝ),
    P.PosSemidef → (∀ r ∈ rs, r.R.PosDef) → (postAll C P rs).PosSemidef
  | [], _, hP, _ => hP
  | r :: rs, _, hP, hR => postAll_psd C rs _ (post_psd hP _ (hR r (by simp))) fun q hq => hR q (by simp [hq])

/-- Closed form. -/
theorem all_closed (C : (j : K) → Matrix (Fin (kd j)) (Fin n) ℝ) : ∀ (rs : List (Reading K kd)) (x : Fin n → ℝ)
    (P : Matrix (Fin n) (Fin n) ℝ), P.PosSemidef → (∀ r ∈ rs, r.R.PosDef) →
    ∃ W : Matrix (Fin n) (Fin n) ℝ, W * (1 + P * (rs.map fun r => info (C r.sensor) r.R).sum) = 1 ∧ postAll C P rs = W * P ∧
      postStateAll C x P rs = W *ᵥ (x + P *ᵥ (rs.map fun r => ((C r.sensor)ᵀ * r.R⁻¹) *ᵥ r.z).sum) := by
  intro rs
  induction rs with
  | nil =>
    intro x P hP _
    exact ⟨1, by simp, by simp [postAll], by simp [postStateAll]⟩
  | cons r rs ih =>
    intro x P hP hR
    have hr := hR r (by simp)
    obtain ⟨W, h1, h2, h3⟩ := ih (postState x P (C r.sensor) r.R r.z) (post P (C r.sensor) r.R) (post_psd hP _ hr)
      (fun q hq => hR q (by simp [hq]))
    have hS := pd_isUnit_det (innov_pd hP (C r.sensor) hr)
    have hU := pd_isUnit_det hr
    have hs := shrink_mul hS hU
    have hx := postState_eq (x := x) (z := r.z) hS hU
    refine ⟨W * (1 - gain P (C r.sensor) r.R * C r.sensor), ?_, ?_, ?_⟩
    · rw [List.map_cons, List.sum_cons, Matrix.mul_add P, ← add_assoc, Matrix.mul_assoc, Matrix.mul_add (1 - _), hs,
        ← Matrix.mul_assoc (1 - _) P]
      exact h1
    · show postAll C (post P (C r.sensor) r.R) rs = _
      rw [h2, Matrix.mul_assoc]; rfl
    · show postStateAll C _ _ rs = _
      rw [h3, hx, List.map_cons, List.sum_cons, ← Matrix.mulVec_mulVec _ W (1 - _)]
      congr 1
      rw [Matrix.mulVec_add P, ← add_assoc, Matrix.mulVec_add (1 - _) (x + _)]
      congr 1
      show ((1 - _) * P) *ᵥ _ = _
      rw [← Matrix.mulVec_mulVec _ (1 - _) P]

/-- One reading: the new variance of `w · x` is at most that of any combination of the reading and the old estimate. -/
theorem post_combination {P : Matrix (Fin n) (Fin n) ℝ} (hP : P.PosSemidef) {k : Nat} (C : Matrix (Fin k) (Fin n) ℝ)
    {R : Matrix (Fin k) (Fin k) ℝ} (hR : R.PosDef) (w : Fin n → ℝ) (l : Fin k → ℝ) :
    w ⬝ᵥ (post P C R *ᵥ w) ≤ (w - Cᵀ *ᵥ l) ⬝ᵥ (P *ᵥ (w - Cᵀ *ᵥ l)) + l ⬝ᵥ (R *ᵥ l) := by
  have hS := innov_pd hP C hR
  have hu := pd_isUnit_det hS
  have hPt := psd_symm hP
  have hG := gain_mul_innov (P := P) (C := C) (R := R) hu
  set G := gain P C R with hGd
  have hpost : post P C R = P - G * innov P C R * Gᵀ := by
    rw [post_eq hPt hu (psd_symm hR.posSemidef)]
  have hsq := hS.posSemidef.dotProduct_mulVec_nonneg (l - Gᵀ *ᵥ w)
  have hSt : (innov P C R)ᵀ = innov P C R := psd_symm hS.posSemidef
  simp only [star_trivial] at hsq
  have e1 : (l - Gᵀ *ᵥ w) ⬝ᵥ (innov P C R *ᵥ (l - Gᵀ *ᵥ w))
      = l ⬝ᵥ (innov P C R *ᵥ l) - 2 * (w ⬝ᵥ ((G * innov P C R) *ᵥ l)) + w ⬝ᵥ ((G * innov P C R * Gᵀ) *ᵥ w) := by
    rw [Matrix.mulVec_sub, dotProduct_sub, sub_dotProduct, sub_dotProduct]
    have a1 : (Gᵀ *ᵥ w) ⬝ᵥ (innov P C R *ᵥ l) = w ⬝ᵥ ((G * innov P C R) *ᵥ l) := by
      rw [Matrix.mulVec_transpose, ← Matrix.dotProduct_mulVec, Matrix.mulVec_mulVec]
    have a2 : (Gᵀ *ᵥ w) ⬝ᵥ (innov P C R *ᵥ (Gᵀ *ᵥ w)) = w ⬝ᵥ ((G * innov P C R * Gᵀ) *ᵥ w) := by
      rw [Matrix.mulVec_transpose, ← Matrix.dotProduct_mulVec, ← Matrix.mulVec_transpose, Matrix.mulVec_mulVec,
        Matrix.mulVec_mulVec, Matrix.mul_assoc]
    have a3 : l ⬝ᵥ (innov P C R *ᵥ (Gᵀ *ᵥ w)) = w ⬝ᵥ ((G * innov P C R) *ᵥ l) := by
      rw [← a1, Matrix.dotProduct_mulVec, ← Matrix.mulVec_transpose, hSt, dotProduct_comm]
    rw [a1, a2, a3]; ring
  have e2 : (w - Cᵀ *ᵥ l) ⬝ᵥ (P *ᵥ (w - Cᵀ *ᵥ l))
      = w ⬝ᵥ (P *ᵥ w) - 2 * (w ⬝ᵥ ((P * Cᵀ) *ᵥ l)) + l ⬝ᵥ ((C * (P * Cᵀ)) *ᵥ l) := by
    rw [Matrix.mulVec_sub, dotProduct_sub, sub_dotProduct, sub_dotProduct]
    have a1 : w ⬝ᵥ (P *ᵥ (Cᵀ *ᵥ l)) = w ⬝ᵥ ((P * Cᵀ) *ᵥ l) := by rw [Matrix.mulVec_mulVec]
    have a2 : (Cᵀ *ᵥ l) ⬝ᵥ (P *ᵥ w) = w ⬝ᵥ ((P * Cᵀ) *ᵥ l) := by
      rw [← a1, Matrix.dotProduct_mulVec w, ← Matrix.mulVec_transpose, hPt, dotProduct_comm]
    have a3 : (Cᵀ *ᵥ l) ⬝ᵥ (P *ᵥ (Cᵀ *ᵥ l)) = l ⬝ᵥ ((C * (P * Cᵀ)) *ᵥ l) := by
      rw [Matrix.mulVec_transpose, ← Matrix.dotProduct_mulVec, ← Matrix.mulVec_transpose, Matrix.mulVec_mulVec,
        Matrix.mulVec_mulVec, Matrix.mul_assoc]
    rw [a1, a2, a3]; ring
  have e3 : l ⬝ᵥ (innov P C R *ᵥ l) = l ⬝ᵥ ((C * (P * Cᵀ)) *ᵥ l) + l ⬝ᵥ (R *ᵥ l) := by
    unfold innov; rw [Matrix.add_mulVec, dotProduct_add]
  have e4 : w ⬝ᵥ (post P C R *ᵥ w) = w ⬝ᵥ (P *ᵥ w) - w ⬝ᵥ ((G * innov P C R * Gᵀ) *ᵥ w) := by
    rw [hpost, Matrix.sub_mulVec, dotProduct_sub]
  rw [hG] at e1
  rw [e4, e2]
  rw [e1, e3] at hsq
  rw [hG]
  linarith

/-- Any number of readings. -/
theorem postAll_combination (C : (j : K) → Matrix (Fin (kd j)) (Fin n) ℝ) :
    ∀ (ws : List (Σ r : Reading K kd, Fin (kd r.sensor) → ℝ)) (P : Matrix (Fin n) (Fin n) ℝ), P.PosSemidef →
      (∀ r ∈ ws, r.1.R.PosDef) → ∀ w : Fin n → ℝ,
      w ⬝ᵥ (postAll C P (ws.map Sigma.fst) *ᵥ w) ≤
        (w - (ws.map fun r => (C r.1.sensor)ᵀ *ᵥ r.2).sum) ⬝ᵥ (P *ᵥ (w - (ws.map fun r => (C r.1.sensor)ᵀ *ᵥ r.2).sum)) +
          (ws.map fun r => r.2 ⬝ᵥ (r.1.R *ᵥ r.2)).sum := by
  intro ws
  induction ws with
  | nil => intro P hP _ w; simp [postAll]
  | cons r rs ih =>
    intro P hP hR w
    have hr := hR r (by simp)
    have h1 := ih (post P (C r.1.sensor) r.1.R) (post_psd hP _ hr) (fun q hq => hR q (by simp [hq])) w
    have h2 := post_combination hP (C r.1.sensor) hr (w - (rs.map fun r => (C r.1.sensor)ᵀ *ᵥ r.2).sum) r.2
    refine h1.trans ((add_le_add_left h2 _).trans (le_of_eq ?_))
    simp only [List.map_cons, List.sum_cons]
    rw [show w - ((C r.1.sensor)ᵀ *ᵥ r.2 + (rs.map fun r => (C r.1.sensor)ᵀ *ᵥ r.2).sum)
      = w - (rs.map fun r => (C r.1.sensor)ᵀ *ᵥ r.2).sum - (C r.1.sensor)ᵀ *ᵥ r.2 by abel]
    ring

theorem postAll_estimates (C : (j : K) → Matrix (Fin (kd j)) (Fin n) ℝ) (l : Combination K kd)
    (P : Matrix (Fin n) (Fin n) ℝ) (hP : P.PosSemidef) (hR : ∀ r ∈ l, r.1.R.PosDef) :
    l.estimates C ⬝ᵥ (postAll C P l.readings *ᵥ l.estimates C) ≤ l.variance := by
  refine (postAll_combination C l P hP hR _).trans (le_of_eq ?_)
  have : l.estimates C - (l.map fun r => (C r.1.sensor)ᵀ *ᵥ r.2).sum = 0 := sub_self _
  rw [this, zero_dotProduct, zero_add]
  rfl

end Kalman

namespace Props

open Kalman Examples

variable {T K X Y : Type} [DecidableEq K] [LinearOrder T] [ExactTime T] {n m : Nat} {kd : K → Nat}

section kf

variable {sc : SysClass T LinSysData X} {mc : K → MeasClass T LinMeasData Y}

private theorem kf_readings (hsc : SysContract LinSysData.Sized sc) (hmc : ∀ j, MeasContract LinMeasData.Sized (mc j))
    (hso : sc.PlainOps) (hmo : ∀ j, (mc j).PlainOps) (C : (j : K) → Matrix (Fin (kd j)) (Fin n) ℝ)
    (hC : ∀ j s x dt s', s.Sized LinMeasData.Sized n (kd j) → (mc j).myUpdate s x dt = some s' → s'.der.C = .of (C j))
    (sort : List (FilterInput T DVec DMat K) → List (FilterInput T DVec DMat K)) (t : T) :
    ∀ (rs : List (Reading K kd)) (_ : ∀ r ∈ rs, r.R.PosDef)
      (q : Filter T DVec DMat K (Env K LinSysData X LinMeasData Y)) (_ : q.getStateTime = t)
      (x : Fin n → ℝ) (P : Matrix (Fin n) (Fin n) ℝ) (_ : q.getState = .of x) (_ : q.getCovariance = .of P) (_ : P.PosSemidef)
      (_ : q.env.sys.Sized LinSysData.Sized n m) (_ : ∀ j, (q.env.meas j).Sized LinMeasData.Sized n (kd j))
      (_ : ∀ j, (q.env.meas j).fm.checkStationary = false),
      ∃ g, q.run (kfPlant sc mc) sort (rs.map (Reading.call t)) = some g ∧ g.getState = .of (postStateAll C x P rs) ∧
        g.getCovariance = .of (postAll C P rs) ∧ g.getStateTime = t := by
  intro rs
  induction rs with
  | nil => intro _ q ht x P hx hP _ _ _ _; exact ⟨q, rfl, hx, hP, ht⟩
  | cons r rs ih =>
    intro hR q ht x P hx hP hpsd hs hm hst
    obtain ⟨g, h1, h2, h3, h4, h5, h6, h7⟩ := kf_correct_keeps hsc hmc hso hmo kd C hC q r.sensor r.z r.R (hR r (by simp)) x P
      hx hP hpsd hs hm hst
    obtain ⟨g', k1, k2, k3, k4⟩ := ih (fun q hq => hR q (by simp [hq])) g (by rw [h4, ht]) _ _ h2 h3
      (post_psd hpsd _ (hR r (by simp))) h5 h6 h7
    refine ⟨g', ?_, k2, k3, k4⟩
    rw [ht] at h1
    have e : q.step (kfPlant sc mc) sort (Reading.call t r) = some g := h1
    rw [List.map_cons]
    unfold Filter.run
    rw [e]
    exact k1

/-- **C32 (any number).**  Readings taken at the filter's time, of any sensors whose `C` does not depend on the state, in any
two orders: same state, same covariance. -/
theorem C32_any_order (hsc : SysContract LinSysData.Sized sc) (hmc : ∀ j, MeasContract LinMeasData.Sized (mc j))
    (hso : sc.PlainOps) (hmo : ∀ j, (mc j).PlainOps) (C : (j : K) → Matrix (Fin (kd j)) (Fin n) ℝ)
    (hC : ∀ j s x dt s', s.Sized LinMeasData.Sized n (kd j) → (mc j).myUpdate s x dt = some s' → s'.der.C = .of (C j))
    (sort : List (FilterInput T DVec DMat K) → List (FilterInput T DVec DMat K)) (hsort : ∀ l, (sort l).Perm l)
    (params : Params T) (e : Env K LinSysData X LinMeasData Y)
    (he : e.Ok LinSysData.Sized LinMeasData.Sized NoisePSD (EstimatePSD n) n m kd)
    (x : DVec) (c : DMat) (t : T) (hx : EstimatePSD n x c)
    (ops : List (Op T DVec DMat K (Env K LinSysData X LinMeasData Y)))
    (hops : ∀ op ∈ ops, op.WellFormed (EstimatePSD n)
      (Env.Ok LinSysData.Sized LinMeasData.Sized NoisePSD (EstimatePSD n) n m kd) m kd DMat.PD) :
    ∃ f, (Filter.construct (kfPlant sc mc) params e x c t).run (kfPlant sc mc) sort ops = some f ∧
      ((∀ j, (f.env.meas j).fm.checkStationary = false) →
        ∀ rs rs' : List (Reading K kd), rs.Perm rs' → (∀ r ∈ rs, r.R.PosDef) →
        ∃ g g', f.run (kfPlant sc mc) sort (rs.map (Reading.call f.getStateTime)) = some g ∧
          f.run (kfPlant sc mc) sort (rs'.map (Reading.call f.getStateTime)) = some g' ∧
          g.getState = g'.getState ∧ g.getCovariance = g'.getCovariance ∧ g.getStateTime = g'.getStateTime) := by
  obtain ⟨f, h1, h2, h3⟩ := OptP.exists_of_total
    (mkPlant_run (kf_inv_psd hsc hmc kd) sort hsort params e he x c t hx ops hops)
  refine ⟨f, h1, fun hq rs rs' hp hR => ?_⟩
  obtain ⟨⟨q1, q2⟩, q3⟩ := h2 f.state (by simp [Filter.retained])
  obtain ⟨x, hx⟩ := f.state.x.exists_of q1
  obtain ⟨P, hP⟩ := q2.exists_of
  rw [hP, DMat.PSD_of] at q3
  have hR' : ∀ r ∈ rs', r.R.PosDef := fun r hr => hR r (hp.mem_iff.mpr hr)
  obtain ⟨g, a1, a2, a3, a4⟩ := kf_readings hsc hmc hso hmo C hC sort f.getStateTime rs hR f rfl x P hx hP q3 h3.sys h3.meas hq
  obtain ⟨g', b1, b2, b3, b4⟩ := kf_readings hsc hmc hso hmo C hC sort f.getStateTime rs' hR' f rfl x P hx hP q3 h3.sys h3.meas hq
  obtain ⟨W, w1, w2, w3⟩ := all_closed C rs x P q3 hR
  obtain ⟨W', v1, v2, v3⟩ := all_closed C rs' x P q3 hR'
  rw [(hp.map _).sum_eq] at w1 w3
  have hW : W = W' := by rw [← Matrix.inv_eq_left_inv w1, ← Matrix.inv_eq_left_inv v1]
  exact ⟨g, g', a1, b1, by rw [a2, b2, w3, v3, hW], by rw [a3, b3, w2, v2, hW], by rw [a4, b4]⟩

/-- **C94 (Kalman filter).**  After any history of calls, let readings of any number of sensors arrive, all stamped with the
filter's time.  Whatever unbiased estimate of a combination `w · x` of the states somebody computes from these readings alone,
the filter's own variance of `w · x` is not larger. -/
theorem C94_kf (hsc : SysContract LinSysData.Sized sc) (hmc : ∀ j, MeasContract LinMeasData.Sized (mc j))
    (hso : sc.PlainOps) (hmo : ∀ j, (mc j).PlainOps) (C : (j : K) → Matrix (Fin (kd j)) (Fin n) ℝ)
    (hC : ∀ j s x dt s', s.Sized LinMeasData.Sized n (kd j) → (mc j).myUpdate s x dt = some s' → s'.der.C = .of (C j))
    (sort : List (FilterInput T DVec DMat K) → List (FilterInput T DVec DMat K)) (hsort : ∀ l, (sort l).Perm l)
    (params : Params T) (e : Env K LinSysData X LinMeasData Y)
    (he : e.Ok LinSysData.Sized LinMeasData.Sized NoisePSD (EstimatePSD n) n m kd)
    (x : DVec) (c : DMat) (t : T) (hx : EstimatePSD n x c)
    (ops : List (Op T DVec DMat K (Env K LinSysData X LinMeasData Y)))
    (hops : ∀ op ∈ ops, op.WellFormed (EstimatePSD n)
      (Env.Ok LinSysData.Sized LinMeasData.Sized NoisePSD (EstimatePSD n) n m kd) m kd DMat.PD) :
    ∃ f, (Filter.construct (kfPlant sc mc) params e x c t).run (kfPlant sc mc) sort ops = some f ∧
      ((∀ j, (f.env.meas j).fm.checkStationary = false) →
        ∀ rs : List (Reading K kd), (∀ r ∈ rs, r.R.PosDef) →
        ∃ g P', f.run (kfPlant sc mc) sort (rs.map (Reading.call f.getStateTime)) = some g ∧
          g.getStateTime = f.getStateTime ∧ g.getCovariance = .of P' ∧ P'.PosSemidef ∧
          ∀ l : Combination K kd, l.readings = rs → l.estimates C ⬝ᵥ (P' *ᵥ l.estimates C) ≤ l.variance) := by
  obtain ⟨f, h1, h2, h3⟩ := OptP.exists_of_total
    (mkPlant_run (kf_inv_psd hsc hmc kd) sort hsort params e he x c t hx ops hops)
  refine ⟨f, h1, fun hq rs hR => ?_⟩
  obtain ⟨⟨q1, q2⟩, q3⟩ := h2 f.state (by simp [Filter.retained])
  obtain ⟨x, hx⟩ := f.state.x.exists_of q1
  obtain ⟨P, hP⟩ := q2.exists_of
  rw [hP, DMat.PSD_of] at q3
  obtain ⟨g, a1, _, a3, a4⟩ := kf_readings hsc hmc hso hmo C hC sort f.getStateTime rs hR f rfl x P hx hP q3 h3.sys h3.meas hq
  refine ⟨g, _, a1, a4, a3, postAll_psd C rs P q3 hR, fun l hl => ?_⟩
  subst hl
  exact postAll_estimates C l P q3 (fun r hr => hR r.1 (List.mem_map_of_mem hr))

end kf

section ekf

variable {sc : SysClass T NonlinSysData X} {mc : K → MeasClass T NonlinMeasData Y}

private theorem ekf_readings (hsc : SysContract NonlinSysData.Sized sc) (hmc : ∀ j, MeasContract NonlinMeasData.Sized (mc j))
    (H : (j : K) → Matrix (Fin (kd j)) (Fin n) ℝ)
    (hH : ∀ j s x dt s', s.Sized NonlinMeasData.Sized n (kd j) → (mc j).myUpdate s x dt = some s' → s'.der.H = .of (H j))
    (sort : List (FilterInput T DVec DMat K) → List (FilterInput T DVec DMat K)) (t : T) :
    ∀ (rs : List (Reading K kd)) (_ : ∀ r ∈ rs, r.R.PosDef)
      (q : Filter T DVec DMat K (Env K NonlinSysData X NonlinMeasData Y)) (_ : q.getStateTime = t)
      (x : Fin n → ℝ) (P : Matrix (Fin n) (Fin n) ℝ) (_ : q.getState = .of x) (_ : q.getCovariance = .of P) (_ : P.PosSemidef)
      (_ : q.env.sys.Sized NonlinSysData.Sized n m) (_ : ∀ j, (q.env.meas j).Sized NonlinMeasData.Sized n (kd j))
      (_ : ∀ j, (q.env.meas j).fm.checkStationary = false),
      ∃ g, q.run (ekfPlant sc mc) sort (rs.map (Reading.call t)) = some g ∧
        g.getCovariance = .of (postAll H P rs) ∧ g.getStateTime = t := by
  intro rs
  induction rs with
  | nil => intro _ q ht x P hx hP _ _ _ _; exact ⟨q, rfl, hP, ht⟩
  | cons r rs ih =>
    intro hR q ht x P hx hP hpsd hs hm hst
    have hms : ((q.env.meas r.sensor).withCov (.of r.R)).Sized NonlinMeasData.Sized n (kd r.sensor) :=
      ⟨(hm _).states, (hm _).meas, (hm _).der, rfl, rfl⟩
    obtain ⟨ms, hup, hms', hcfg⟩ := (hmc r.sensor).update _ (.of x) (TimeOps.sub q.getStateTime q.getStateTime) hms rfl
    have hr := hR r (by simp)
    obtain ⟨g, dz, x', h1, h2, h3, h4, h5, h6, h7, _⟩ := ekf_correct_now hsc hmc q r.sensor hs (hm _) hx hP r.z r.R hup
      (hH _ _ _ _ _ hms hup) (pd_isUnit_det (innov_pd hpsd (H r.sensor) hr)) (by rw [hst]; rfl)
    obtain ⟨g', k1, k3, k4⟩ := ih (fun q hq => hR q (by simp [hq])) g (by rw [h6, ht]) _ _ h4 h5
      (post_psd hpsd _ hr) (by rw [h7]; exact hs)
      (by
        intro i
        rw [h7]
        unfold Env.setMeas
        dsimp only
        by_cases hi : i = r.sensor
        · subst hi; rw [if_pos rfl]; exact hms'
        · rw [if_neg hi]; exact hm i)
      (by
        intro i
        rw [h7]
        unfold Env.setMeas
        dsimp only
        by_cases hi : i = r.sensor
        · subst hi; rw [if_pos rfl, hcfg.fm]; exact hst _
        · rw [if_neg hi]; exact hst i)
    refine ⟨g', ?_, k3, k4⟩
    rw [ht] at h1
    have e : q.step (ekfPlant sc mc) sort (Reading.call t r) = some g := h1
    rw [List.map_cons]
    unfold Filter.run
    rw [e]
    exact k1

/-- **C94 (EKF).**  The same for an EKF (any motion model) with sensors whose Jacobian `H` does not depend on the state. -/
theorem C94_ekf (hsc : SysContract NonlinSysData.Sized sc) (hmc : ∀ j, MeasContract NonlinMeasData.Sized (mc j))
    (H : (j : K) → Matrix (Fin (kd j)) (Fin n) ℝ)
    (hH : ∀ j s x dt s', s.Sized NonlinMeasData.Sized n (kd j) → (mc j).myUpdate s x dt = some s' → s'.der.H = .of (H j))
    (sort : List (FilterInput T DVec DMat K) → List (FilterInput T DVec DMat K)) (hsort : ∀ l, (sort l).Perm l)
    (params : Params T) (e : Env K NonlinSysData X NonlinMeasData Y)
    (he : e.Ok NonlinSysData.Sized NonlinMeasData.Sized NoisePSD (EstimatePSD n) n m kd)
    (x : DVec) (c : DMat) (t : T) (hx : EstimatePSD n x c)
    (ops : List (Op T DVec DMat K (Env K NonlinSysData X NonlinMeasData Y)))
    (hops : ∀ op ∈ ops, op.WellFormed (EstimatePSD n)
      (Env.Ok NonlinSysData.Sized NonlinMeasData.Sized NoisePSD (EstimatePSD n) n m kd) m kd DMat.PD) :
    ∃ f, (Filter.construct (ekfPlant sc mc) params e x c t).run (ekfPlant sc mc) sort ops = some f ∧
      ((∀ j, (f.env.meas j).fm.checkStationary = false) →
        ∀ rs : List (Reading K kd), (∀ r ∈ rs, r.R.PosDef) →
        ∃ g P', f.run (ekfPlant sc mc) sort (rs.map (Reading.call f.getStateTime)) = some g ∧
          g.getStateTime = f.getStateTime ∧ g.getCovariance = .of P' ∧ P'.PosSemidef ∧
          ∀ l : Combination K kd, l.readings = rs → l.estimates H ⬝ᵥ (P' *ᵥ l.estimates H) ≤ l.variance) := by
  obtain ⟨f, h1, h2, h3⟩ := OptP.exists_of_total
    (mkPlant_run (ekf_inv_psd hsc hmc kd) sort hsort params e he x c t hx ops hops)
  refine ⟨f, h1, fun hq rs hR => ?_⟩
  obtain ⟨⟨q1, q2⟩, q3⟩ := h2 f.state (by simp [Filter.retained])
  obtain ⟨x, hx⟩ := f.state.x.exists_of q1
  obtain ⟨P, hP⟩ := q2.exists_of
  rw [hP, DMat.PSD_of] at q3
  obtain ⟨g, a1, a3, a4⟩ := ekf_readings hsc hmc H hH sort f.getStateTime rs hR f rfl x P hx hP q3 h3.sys h3.meas hq
  refine ⟨g, _, a1, a4, a3, postAll_psd H rs P q3 hR, fun l hl => ?_⟩
  subst hl
  exact postAll_estimates H l P q3 (fun r hr => hR r.1 (List.mem_map_of_mem hr))

end ekf

/-! ### What the bound says for one sensor -/

/-- The average of `N` readings of row `a` of sensor `j`. -/
noncomputable def average (j : K) (R : Matrix (Fin (kd j)) (Fin (kd j)) ℝ) (zs : List (Fin (kd j) → ℝ)) (v : Fin (kd j) → ℝ) :
    Combination K kd := zs.map fun z => ⟨⟨j, z, R⟩, (1 / (zs.length : ℝ)) • v⟩

/-- **C94 (averaging).**  `N` readings of one sensor with covariance `R`, all at the filter's time: the filter's covariance of
what the sensor measures is at most `R / N` (Loewner order).  In particular, with one reading, at most `R`; and a state read
directly by a row of the sensor has at most `1/N` of the variance of that row. -/
theorem C94_average {sc : SysClass T LinSysData X} {mc : K → MeasClass T LinMeasData Y}
    (hsc : SysContract LinSysData.Sized sc) (hmc : ∀ j, MeasContract LinMeasData.Sized (mc j))
    (hso : sc.PlainOps) (hmo : ∀ j, (mc j).PlainOps) (C : (j : K) → Matrix (Fin (kd j)) (Fin n) ℝ)
    (hC : ∀ j s x dt s', s.Sized LinMeasData.Sized n (kd j) → (mc j).myUpdate s x dt = some s' → s'.der.C = .of (C j))
    (sort : List (FilterInput T DVec DMat K) → List (FilterInput T DVec DMat K)) (hsort : ∀ l, (sort l).Perm l)
    (params : Params T) (e : Env K LinSysData X LinMeasData Y)
    (he : e.Ok LinSysData.Sized LinMeasData.Sized NoisePSD (EstimatePSD n) n m kd)
    (x : DVec) (c : DMat) (t : T) (hx : EstimatePSD n x c)
    (ops : List (Op T DVec DMat K (Env K LinSysData X LinMeasData Y)))
    (hops : ∀ op ∈ ops, op.WellFormed (EstimatePSD n)
      (Env.Ok LinSysData.Sized LinMeasData.Sized NoisePSD (EstimatePSD n) n m kd) m kd DMat.PD)
    (j : K) (R : Matrix (Fin (kd j)) (Fin (kd j)) ℝ) (hR : R.PosDef) (zs : List (Fin (kd j) → ℝ)) (hz : zs ≠ []) :
    ∃ f, (Filter.construct (kfPlant sc mc) params e x c t).run (kfPlant sc mc) sort ops = some f ∧
      ((∀ j, (f.env.meas j).fm.checkStationary = false) →
        ∃ g P', f.run (kfPlant sc mc) sort (zs.map fun z => .correct (.of z) (.of R) f.getStateTime (some j)) = some g ∧
          g.getCovariance = .of P' ∧
          ((1 / (zs.length : ℝ)) • R - C j * P' * (C j)ᵀ).PosSemidef ∧
          ∀ a i, C j a = Pi.single i 1 → P' i i ≤ R a a / zs.length) := by
  obtain ⟨f, h1, h2⟩ := C94_kf hsc hmc hso hmo C hC sort hsort params e he x c t hx ops hops
  refine ⟨f, h1, fun hq => ?_⟩
  obtain ⟨g, P', a1, _, a3, hP', a4⟩ := h2 hq (zs.map fun z => ⟨j, z, R⟩) (by
    intro r hr; obtain ⟨z, _, rfl⟩ := List.mem_map.mp hr; exact hR)
  rw [List.map_map] at a1
  have hN : (zs.length : ℝ) ≠ 0 := by
    have := List.length_pos_of_ne_nil hz
    positivity
  have sum_const : ∀ {M : Type} [AddCommMonoid M] (b : M), (zs.map fun _ => b).sum = zs.length • b := by
    intro M _ b; rw [List.map_const', List.sum_replicate]
  have bound : ∀ v, ((C j)ᵀ *ᵥ v) ⬝ᵥ (P' *ᵥ ((C j)ᵀ *ᵥ v)) ≤ (1 / (zs.length : ℝ)) * (v ⬝ᵥ (R *ᵥ v)) := by
    intro v
    have := a4 (average j R zs v) (by unfold average Combination.readings; rw [List.map_map]; rfl)
    have e1 : (average j R zs v).estimates C = (C j)ᵀ *ᵥ v := by
      unfold average Combination.estimates
      rw [List.map_map]
      refine (sum_const ((C j)ᵀ *ᵥ ((1 / (zs.length : ℝ)) • v))).trans ?_
      rw [Matrix.mulVec_smul, ← Nat.cast_smul_eq_nsmul ℝ, smul_smul, mul_one_div_cancel hN, one_smul]
    have e2 : (average j R zs v).variance = (1 / (zs.length : ℝ)) * (v ⬝ᵥ (R *ᵥ v)) := by
      unfold average Combination.variance
      rw [List.map_map]
      refine (sum_const (((1 / (zs.length : ℝ)) • v) ⬝ᵥ (R *ᵥ ((1 / (zs.length : ℝ)) • v)))).trans ?_
      rw [Matrix.mulVec_smul, smul_dotProduct, dotProduct_smul, ← Nat.cast_smul_eq_nsmul ℝ]
      simp only [smul_eq_mul]
      rw [← mul_assoc, mul_one_div_cancel hN, one_mul]
    rw [e1, e2] at this
    exact this
  have key : ((1 / (zs.length : ℝ)) • R - C j * P' * (C j)ᵀ).PosSemidef := by
    have hH : ((1 / (zs.length : ℝ)) • R - C j * P' * (C j)ᵀ).IsHermitian := by
      refine Matrix.IsHermitian.sub ?_ (psd_conj hP' (C j)).isHermitian
      show ((1 / (zs.length : ℝ)) • R)ᴴ = _
      rw [Matrix.conjTranspose_smul, hR.isHermitian.eq, star_trivial]
    refine Matrix.PosSemidef.of_dotProduct_mulVec_nonneg hH fun v => ?_
    rw [star_trivial, Matrix.sub_mulVec, dotProduct_sub, Matrix.smul_mulVec, dotProduct_smul, smul_eq_mul, sub_nonneg]
    refine le_trans (le_of_eq ?_) (bound v)
    rw [Matrix.mulVec_transpose, ← Matrix.dotProduct_mulVec, ← Matrix.mulVec_transpose, Matrix.mulVec_mulVec,
      Matrix.mulVec_mulVec]
  refine ⟨g, P', a1, a3, key, fun a i hrow => ?_⟩
  have hd := key.diag_nonneg (i := a)
  have e : (C j * P' * (C j)ᵀ) a a = P' i i := by
    rw [Matrix.mul_apply]
    simp only [Matrix.mul_apply, Matrix.transpose_apply, hrow]
    simp [Pi.single_apply]
  rw [Matrix.sub_apply, e, Matrix.smul_apply, smul_eq_mul] at hd
  rw [div_eq_mul_one_div]
  linarith [mul_comm (R a a) (1 / (zs.length : ℝ))]

/-! The hypotheses are met by the constant-velocity filter with a position sensor, after a prediction and a late measurement. -/

private theorem pos_C : ∀ (j : Unit) (s : Meas LinMeasData Unit) x (dt : ℝ) s', s.Sized LinMeasData.Sized 2 1 →
      posClass.myUpdate s x dt = some s' → s'.der.C = .of (!![1, 0] : Matrix (Fin 1) (Fin 2) ℝ) := by
  intro _ s x dt s' hs h
  change (if s.stateSize = 2 ∧ s.measDims = 1 then some { s with der := ⟨.of !![1, 0]⟩ } else some s) = some s' at h
  rw [if_pos ⟨hs.states, hs.meas⟩] at h
  injection h with h
  rw [← h]

example : ∃ f, cvFilter.run (kfPlant cvClass fun _ => posClass) id [.predictControl (.const 1 3) 2,
      .correct (.const 1 7) (.identity 1) 1 (some ())] = some f ∧ ((∀ j, (f.env.meas j).fm.checkStationary = false) →
    ∃ g, ∃ P' : Matrix (Fin 2) (Fin 2) ℝ, f.run (kfPlant cvClass fun _ => posClass) id ([![5], ![6], ![7]].map fun z =>
        .correct (.of z) (.of (1 : Matrix (Fin 1) (Fin 1) ℝ)) f.getStateTime (some ())) = some g ∧
      g.getCovariance = .of P' ∧ P' 0 0 ≤ 1 / 3) := by
  obtain ⟨f, h1, h2⟩ := C94_average (kd := fun _ : Unit => 1) cv_contract (fun _ => pos_contract) (plain_ops _)
    (fun _ => plain_mops _) (fun _ => !![1, 0]) pos_C id (fun _ => List.Perm.refl _)
    { allowPast := false, rewindHistory := false, historyWindow := 5 } cvEnv cvEnv_ok (.zero 2) (.identity 2) 0 cv_estimate
    [.predictControl (.const 1 3) 2, .correct (.const 1 7) (.identity 1) 1 (some ())]
    (by
      intro op hop
      rcases List.mem_cons.mp hop with rfl | hop
      · exact Or.inl rfl
      · rw [List.mem_singleton.mp hop]; exact ⟨(), rfl, rfl, ⟨rfl, rfl⟩, identity_pd 1⟩)
    () 1 PosDef.one [![5], ![6], ![7]] (by simp)
  refine ⟨f, h1, fun hq => ?_⟩
  obtain ⟨g, P', a1, a2, _, a3⟩ := h2 hq
  refine ⟨g, P', a1, a2, ?_⟩
  have := a3 0 0 (by funext i; fin_cases i <;> rfl)
  simpa using this

/-- Three readings of the position by the fresh filter. -/
example : ∃ g, ∃ P' : Matrix (Fin 2) (Fin 2) ℝ, cvFilter.run (kfPlant cvClass fun _ => posClass) id ([![5], ![6], ![7]].map fun z =>
        .correct (.of z) (.of (1 : Matrix (Fin 1) (Fin 1) ℝ)) 0 (some ())) = some g ∧
      g.getCovariance = .of P' ∧ P' 0 0 ≤ 1 / 3 := by
  obtain ⟨f, h1, h2⟩ := C94_average (kd := fun _ : Unit => 1) cv_contract (fun _ => pos_contract) (plain_ops _)
    (fun _ => plain_mops _) (fun _ => !![1, 0]) pos_C id (fun _ => List.Perm.refl _)
    { allowPast := false, rewindHistory := false, historyWindow := 5 } cvEnv cvEnv_ok (.zero 2) (.identity 2) 0 cv_estimate
    [] (by simp) () 1 PosDef.one [![5], ![6], ![7]] (by simp)
  have : cvFilter = f := Option.some.inj h1
  subst this
  obtain ⟨g, P', a1, a2, _, a3⟩ := h2 (fun _ => rfl)
  refine ⟨g, P', a1, a2, ?_⟩
  have := a3 0 0 (by funext i; fin_cases i <;> rfl)
  simpa using this

end Props
end StateEstimation
