import Verif.Props.Readings
import Verif.Examples.Quad

/-!
# C140: readings that arrive at the same time, EKF

For the Kalman filter their order does not matter (C32).  For the EKF it does, unless the sensors are affine.
-/

set_option linter.unusedSectionVars false

namespace StateEstimation

open Matrix

namespace Props

open Kalman Examples

variable {T K X Y : Type} [DecidableEq K] [LinearOrder T] [ExactTime T] {n m : Nat} {kd : K → Nat}

section ekf

variable {sc : SysClass T NonlinSysData X} {mc : K → MeasClass T NonlinMeasData Y}

/-- One reading of any sensor, now: what the EKF reports and what it keeps. -/
theorem ekf_reading_now (hsc : SysContract NonlinSysData.Sized sc) (hmc : ∀ j, MeasContract NonlinMeasData.Sized (mc j))
    (hso : sc.PlainOps) (hmo : ∀ j, (mc j).PlainOps)
    (q : Filter T DVec DMat K (Env K NonlinSysData X NonlinMeasData Y)) (j : K) (z : Fin (kd j) → ℝ)
    (R : Matrix (Fin (kd j)) (Fin (kd j)) ℝ) (hR : R.PosDef) {x : Fin n → ℝ} {P : Matrix (Fin n) (Fin n) ℝ}
    (hx : q.getState = .of x) (hP : q.getCovariance = .of P) (hPsd : P.PosSemidef)
    (hs : q.env.sys.Sized NonlinSysData.Sized n m) (hm : ∀ j, (q.env.meas j).Sized NonlinMeasData.Sized n (kd j))
    (hst : ∀ j, (q.env.meas j).fm.checkStationary = false) {h : Fin (kd j) → ℝ} {H : Matrix (Fin (kd j)) (Fin n) ℝ}
    (hh : ∀ s s' dt, s.Sized NonlinMeasData.Sized n (kd j) → (mc j).myUpdate s (.of x) dt = some s' → s'.der.h = .of h ∧ s'.der.H = .of H) :
    ∃ g, q.correct (ekfPlant sc mc) (.of z) (.of R) q.getStateTime (some j) = some g ∧
      g.getState = .of (x + gain P H R *ᵥ (z - h)) ∧ g.getCovariance = .of (post P H R) ∧
      g.getStateTime = q.getStateTime ∧ g.env.sys.Sized NonlinSysData.Sized n m ∧
      (∀ j, (g.env.meas j).Sized NonlinMeasData.Sized n (kd j)) ∧ ∀ j, (g.env.meas j).fm.checkStationary = false := by
  have hms : ((q.env.meas j).withCov (.of R)).Sized NonlinMeasData.Sized n (kd j) :=
    ⟨(hm j).states, (hm j).meas, (hm j).der, rfl, rfl⟩
  obtain ⟨ms, hup, hms', hcfg⟩ := (hmc j).update _ (.of x) (TimeOps.sub q.getStateTime q.getStateTime) hms rfl
  obtain ⟨e1, e2⟩ := hh _ _ _ hms hup
  obtain ⟨g, dz, x', h1, h2, h3, h4, h5, h6, h7, _⟩ := ekf_correct_now hsc hmc q j hs (hm j) hx hP z R hup e2
    (pd_isUnit_det (innov_pd hPsd H hR)) (by rw [hst]; rfl)
  refine ⟨g, h1, ?_, h5, h6, by rw [h7]; exact hs, ?_, ?_⟩
  · rw [h4]
    rw [(hmo j).sub, e1, DVec.sub_of] at h2
    have h2' := DVec.of_inj.mp (Option.some.inj h2)
    rw [hso.add, DVec.add_of, ← h2'] at h3
    exact (Option.some.inj h3).symm
  · intro i
    rw [h7]
    unfold Env.setMeas
    dsimp only
    by_cases hi : i = j
    · subst hi; rw [if_pos rfl]; exact hms'
    · rw [if_neg hi]; exact hm i
  · intro i
    rw [h7]
    unfold Env.setMeas
    dsimp only
    by_cases hi : i = j
    · subst hi; rw [if_pos rfl, hcfg.fm]; exact hst i
    · rw [if_neg hi]; exact hst i

/-- Readings of affine sensors with the offset taken off. -/
private def unshift (b : (j : K) → Fin (kd j) → ℝ) (r : Reading K kd) : Reading K kd := ⟨r.sensor, r.z - b r.sensor, r.R⟩

private theorem affine_readings (hsc : SysContract NonlinSysData.Sized sc) (hmc : ∀ j, MeasContract NonlinMeasData.Sized (mc j))
    (hso : sc.PlainOps) (hmo : ∀ j, (mc j).PlainOps)
    (H : (j : K) → Matrix (Fin (kd j)) (Fin n) ℝ) (b : (j : K) → Fin (kd j) → ℝ)
    (hH : ∀ j s (q : Fin n → ℝ) dt s', s.Sized NonlinMeasData.Sized n (kd j) → (mc j).myUpdate s (.of q) dt = some s' →
      s'.der.h = .of (H j *ᵥ q + b j) ∧ s'.der.H = .of (H j))
    (sort : List (FilterInput T DVec DMat K) → List (FilterInput T DVec DMat K)) (t : T) :
    ∀ (rs : List (Reading K kd)) (_ : ∀ r ∈ rs, r.R.PosDef)
      (q : Filter T DVec DMat K (Env K NonlinSysData X NonlinMeasData Y)) (_ : q.getStateTime = t)
      (x : Fin n → ℝ) (P : Matrix (Fin n) (Fin n) ℝ) (_ : q.getState = .of x) (_ : q.getCovariance = .of P) (_ : P.PosSemidef)
      (_ : q.env.sys.Sized NonlinSysData.Sized n m) (_ : ∀ j, (q.env.meas j).Sized NonlinMeasData.Sized n (kd j))
      (_ : ∀ j, (q.env.meas j).fm.checkStationary = false),
      ∃ g, q.run (ekfPlant sc mc) sort (rs.map (Reading.call t)) = some g ∧
        g.getState = .of (postStateAll H x P (rs.map (unshift b))) ∧
        g.getCovariance = .of (postAll H P (rs.map (unshift b))) ∧ g.getStateTime = t := by
  intro rs
  induction rs with
  | nil => intro _ q ht x P hx hP _ _ _ _; exact ⟨q, rfl, hx, hP, ht⟩
  | cons r rs ih =>
    intro hR q ht x P hx hP hpsd hs hm hst
    obtain ⟨g, h1, h2, h3, h4, h5, h6, h7⟩ := ekf_reading_now hsc hmc hso hmo q r.sensor r.z r.R (hR r (by simp))
      hx hP hpsd hs hm hst (fun s s' dt a1 a2 => hH _ s x dt s' a1 a2)
    have e : x + gain P (H r.sensor) r.R *ᵥ (r.z - (H r.sensor *ᵥ x + b r.sensor)) =
        postState x P (H r.sensor) r.R (r.z - b r.sensor) := by
      unfold postState
      rw [show r.z - (H r.sensor *ᵥ x + b r.sensor) = r.z - b r.sensor - H r.sensor *ᵥ x by abel]
    rw [e] at h2
    obtain ⟨g', k1, k2, k3, k4⟩ := ih (fun q hq => hR q (by simp [hq])) g (by rw [h4, ht]) _ _ h2 h3
      (post_psd hpsd _ (hR r (by simp))) h5 h6 h7
    refine ⟨g', ?_, k2, k3, k4⟩
    rw [ht] at h1
    have e : q.step (ekfPlant sc mc) sort (Reading.call t r) = some g := h1
    rw [List.map_cons]
    unfold Filter.run
    rw [e]
    exact k1

/-- **C140** holds for sensors that are affine, `h(x) = H x + b`, whatever the motion model: after any history of calls, any number of
readings of any sensors, all stamped with the filter's time, in any two orders, give the same state and covariance.  Missing from the
full claim: other sensors (false, see below). -/
theorem C140_affine_partial (hsc : SysContract NonlinSysData.Sized sc) (hmc : ∀ j, MeasContract NonlinMeasData.Sized (mc j))
    (hso : sc.PlainOps) (hmo : ∀ j, (mc j).PlainOps)
    (H : (j : K) → Matrix (Fin (kd j)) (Fin n) ℝ) (b : (j : K) → Fin (kd j) → ℝ)
    (hH : ∀ j s (q : Fin n → ℝ) dt s', s.Sized NonlinMeasData.Sized n (kd j) → (mc j).myUpdate s (.of q) dt = some s' →
      s'.der.h = .of (H j *ᵥ q + b j) ∧ s'.der.H = .of (H j))
    (sort : List (FilterInput T DVec DMat K) → List (FilterInput T DVec DMat K)) (hsort : ∀ l, (sort l).Perm l)
    (params : Params T) (e : Env K NonlinSysData X NonlinMeasData Y)
    (he : e.Ok NonlinSysData.Sized NonlinMeasData.Sized NoisePSD (EstimatePSD n) n m kd)
    (x : DVec) (c : DMat) (t : T) (hx : EstimatePSD n x c)
    (ops : List (Op T DVec DMat K (Env K NonlinSysData X NonlinMeasData Y)))
    (hops : ∀ op ∈ ops, op.WellFormed (EstimatePSD n)
      (Env.Ok NonlinSysData.Sized NonlinMeasData.Sized NoisePSD (EstimatePSD n) n m kd) m kd DMat.PD) :
    ∃ f, (Filter.construct (ekfPlant sc mc) params e x c t).run (ekfPlant sc mc) sort ops = some f ∧
      ((∀ j, (f.env.meas j).fm.checkStationary = false) →
        ∀ rs rs' : List (Reading K kd), rs.Perm rs' → (∀ r ∈ rs, r.R.PosDef) →
        ∃ g g', f.run (ekfPlant sc mc) sort (rs.map (Reading.call f.getStateTime)) = some g ∧
          f.run (ekfPlant sc mc) sort (rs'.map (Reading.call f.getStateTime)) = some g' ∧
          g.getState = g'.getState ∧ g.getCovariance = g'.getCovariance ∧ g.getStateTime = g'.getStateTime) := by
  obtain ⟨f, h1, h2, h3⟩ := OptP.exists_of_total
    (mkPlant_run (ekf_inv_psd hsc hmc kd) sort hsort params e he x c t hx ops hops)
  refine ⟨f, h1, fun hq rs rs' hp hR => ?_⟩
  obtain ⟨⟨q1, q2⟩, q3⟩ := h2 f.state (by simp [Filter.retained])
  obtain ⟨x, hx⟩ := f.state.x.exists_of q1
  obtain ⟨P, hP⟩ := q2.exists_of
  rw [hP, DMat.PSD_of] at q3
  have hR' : ∀ r ∈ rs', r.R.PosDef := fun r hr => hR r (hp.mem_iff.mpr hr)
  have un : ∀ {l : List (Reading K kd)}, (∀ r ∈ l, r.R.PosDef) → ∀ r ∈ l.map (unshift b), r.R.PosDef := by
    intro l hl r hr
    obtain ⟨r0, hr0, rfl⟩ := List.mem_map.mp hr
    exact hl r0 hr0
  obtain ⟨g, a1, a2, a3, a4⟩ :=
    affine_readings hsc hmc hso hmo H b hH sort f.getStateTime rs hR f rfl x P hx hP q3 h3.sys h3.meas hq
  obtain ⟨g', b1, b2, b3, b4⟩ :=
    affine_readings hsc hmc hso hmo H b hH sort f.getStateTime rs' hR' f rfl x P hx hP q3 h3.sys h3.meas hq
  obtain ⟨W, w1, w2, w3⟩ := all_closed H (rs.map (unshift b)) x P q3 (un hR)
  obtain ⟨W', v1, v2, v3⟩ := all_closed H (rs'.map (unshift b)) x P q3 (un hR')
  rw [((hp.map (unshift b)).map _).sum_eq] at w1 w3
  have hW : W = W' := by rw [← Matrix.inv_eq_left_inv w1, ← Matrix.inv_eq_left_inv v1]
  exact ⟨g, g', a1, b1, by rw [a2, b2, w3, v3, hW], by rw [a3, b3, w2, v2, hW], by rw [a4, b4]⟩

end ekf

/-! ## A sensor of the square of the state -/

private theorem mul11 (a b : ℝ) : (!![a] : Matrix (Fin 1) (Fin 1) ℝ) * !![b] = !![a * b] := by
  ext i j; fin_cases i; fin_cases j; rw [Matrix.mul_apply]; simp
private theorem add11 (a b : ℝ) : (!![a] : Matrix (Fin 1) (Fin 1) ℝ) + !![b] = !![a + b] := by
  ext i j; fin_cases i; fin_cases j; simp
private theorem sub11 (a b : ℝ) : (!![a] : Matrix (Fin 1) (Fin 1) ℝ) - !![b] = !![a - b] := by
  ext i j; fin_cases i; fin_cases j; simp
private theorem tr11 (a : ℝ) : (!![a] : Matrix (Fin 1) (Fin 1) ℝ)ᵀ = !![a] := by
  ext i j; fin_cases i; fin_cases j; rfl
private theorem inv11 {a : ℝ} (h : a ≠ 0) : (!![a] : Matrix (Fin 1) (Fin 1) ℝ)⁻¹ = !![a⁻¹] := by
  apply Matrix.inv_eq_left_inv
  rw [mul11, inv_mul_cancel₀ h]
  ext i j; fin_cases i; fin_cases j; simp

private theorem square_reading (q : Filter ℝ DVec DMat Unit (Env Unit NonlinSysData Unit NonlinMeasData Unit)) (x p z : ℝ) (hp : 0 < p)
    (hx : q.getState = vec1 x) (hP : q.getCovariance = mat1 p)
    (hs : q.env.sys.Sized NonlinSysData.Sized 1 1) (hm : ∀ j, (q.env.meas j).Sized NonlinMeasData.Sized 1 1)
    (hst : ∀ j, (q.env.meas j).fm.checkStationary = false) :
    ∃ g, q.correct (ekfPlant quadClass fun _ : Unit => squareClass) (vec1 z) (mat1 1) q.getStateTime (some ()) = some g ∧
      g.getState = vec1 (x + p * (2 * x) / (2 * x * p * (2 * x) + 1) * (z - x ^ 2)) ∧
      g.getCovariance = mat1 (p - p * (2 * x) / (2 * x * p * (2 * x) + 1) * (2 * x) * p) ∧
      g.getStateTime = q.getStateTime ∧ g.env.sys.Sized NonlinSysData.Sized 1 1 ∧
      (∀ j, (g.env.meas j).Sized NonlinMeasData.Sized 1 1) ∧ ∀ j, (g.env.meas j).fm.checkStationary = false := by
  have hP' : (!![p] : Matrix (Fin 1) (Fin 1) ℝ).PosSemidef := by
    have : (!![p] : Matrix (Fin 1) (Fin 1) ℝ) = Matrix.diagonal fun _ => p := by ext i j; fin_cases i; fin_cases j; simp
    rw [this]; exact PosSemidef.diagonal fun _ => hp.le
  have hR : (!![1] : Matrix (Fin 1) (Fin 1) ℝ).PosDef := by
    have : (!![1] : Matrix (Fin 1) (Fin 1) ℝ) = 1 := by ext i j; fin_cases i; fin_cases j; simp
    rw [this]; exact PosDef.one
  obtain ⟨g, h1, h2, h3, h4, h5, h6, h7⟩ := ekf_reading_now (kd := fun _ => 1) (mc := fun _ : Unit => squareClass) quad_contract
    (fun _ => square_contract) (plain_ops _) (fun _ => plain_mops _) q () ![z] !![1] hR (x := ![x]) (P := !![p]) hx hP hP' hs hm hst
    (h := ![x ^ 2]) (H := !![2 * x])
    (by
      intro s s' dt a1 a2
      change (if _ then _ else _) = _ at a2
      rw [if_pos ⟨a1.states, a1.meas⟩] at a2
      injection a2 with a2
      subst a2
      refine ⟨?_, ?_⟩
      · show vec1 _ = vec1 _
        rw [head_of]; rfl
      · show mat1 _ = mat1 _
        rw [head_of]; rfl)
  have hi : innov (!![p] : Matrix (Fin 1) (Fin 1) ℝ) !![2 * x] !![1] = !![2 * x * p * (2 * x) + 1] := by
    unfold innov
    rw [tr11, mul11, mul11, add11, mul_assoc (2 * x)]
  have hne : 2 * x * p * (2 * x) + 1 ≠ 0 := by nlinarith [mul_nonneg (mul_self_nonneg (2 * x)) hp.le]
  have hg : gain (!![p] : Matrix (Fin 1) (Fin 1) ℝ) !![2 * x] !![1] = !![p * (2 * x) / (2 * x * p * (2 * x) + 1)] := by
    unfold gain
    rw [hi, inv11 hne, tr11, mul11, mul11, div_eq_mul_inv]
  refine ⟨g, h1, ?_, ?_, h4, h5, h6, h7⟩
  · rw [h2, hg]
    show _ = DVec.of _
    congr 1
    ext i
    rw [Subsingleton.elim i 0]
    rw [Pi.add_apply, Matrix.mulVec, dotProduct, Fin.sum_univ_one]
    rfl
  · rw [h3]
    unfold post
    rw [hg, Matrix.sub_mul, Matrix.one_mul, mul11, mul11, sub11]

/-- **C140 is false for the EKF**: the sensor reads `x²`; estimate 1 with variance 1, the readings 1 and 6 arrive together with variance 1.
In this order the estimate becomes 19/9, in the other order 75/41. -/
theorem C140_order_refuted (params : Params ℝ) : ∃ g₁ g₂ h₁ h₂,
    (Filter.construct (ekfPlant quadClass fun _ : Unit => squareClass) params quadEnv (vec1 1) (mat1 1) 0).correct
      (ekfPlant quadClass fun _ : Unit => squareClass) (vec1 1) (mat1 1) 0 (some ()) = some g₁ ∧
    g₁.correct (ekfPlant quadClass fun _ : Unit => squareClass) (vec1 6) (mat1 1) 0 (some ()) = some g₂ ∧
    (Filter.construct (ekfPlant quadClass fun _ : Unit => squareClass) params quadEnv (vec1 1) (mat1 1) 0).correct
      (ekfPlant quadClass fun _ : Unit => squareClass) (vec1 6) (mat1 1) 0 (some ()) = some h₁ ∧
    h₁.correct (ekfPlant quadClass fun _ : Unit => squareClass) (vec1 1) (mat1 1) 0 (some ()) = some h₂ ∧
    g₂.getState = vec1 (19 / 9) ∧ h₂.getState = vec1 (75 / 41) ∧ g₂.getState ≠ h₂.getState ∧ g₂.getCovariance ≠ h₂.getCovariance := by
  have ok := quadEnv_ok (Q := fun _ _ => True)
  obtain ⟨g₁, a1, a2, a3, a4, a5, a6, a7⟩ := square_reading
    (Filter.construct (ekfPlant quadClass fun _ : Unit => squareClass) params quadEnv (vec1 1) (mat1 1) 0) 1 1 1 one_pos rfl rfl
    ok.sys ok.meas (fun _ => rfl)
  obtain ⟨h₁, b1, b2, b3, b4, b5, b6, b7⟩ := square_reading
    (Filter.construct (ekfPlant quadClass fun _ : Unit => squareClass) params quadEnv (vec1 1) (mat1 1) 0) 1 1 6 one_pos rfl rfl
    ok.sys ok.meas (fun _ => rfl)
  norm_num at a2 a3 b2 b3
  have t0 : (Filter.construct (ekfPlant quadClass fun _ : Unit => squareClass) params quadEnv (vec1 1) (mat1 1) 0).getStateTime = 0 := rfl
  rw [t0] at a1 a4 b1 b4
  obtain ⟨g₂, c1, c2, c3, -⟩ := square_reading g₁ 1 (1 / 5) 6 (by norm_num) a2 a3 a5 a6 a7
  obtain ⟨h₂, d1, d2, d3, -⟩ := square_reading h₁ 3 (1 / 5) 1 (by norm_num) b2 b3 b5 b6 b7
  rw [a4] at c1
  rw [b4] at d1
  norm_num at c2 c3 d2 d3
  refine ⟨g₁, g₂, h₁, h₂, a1, c1, b1, d1, c2, d2, ?_, ?_⟩
  · rw [c2, d2]
    intro h
    have := congrFun (DVec.of_inj.mp h) 0
    norm_num at this
  · rw [c3, d3]
    intro h
    have := congrFun (congrFun (DMat.of_inj.mp h) 0) 0
    norm_num at this

/-! ## Witness: a sensor that reads the state plus 3, next to `g = x + x² + u` -/

/-- `h = x + 3`, `H = 1`. -/
noncomputable def offsetClass : MeasClass ℝ NonlinMeasData Unit :=
  MeasClass.plain fun s x _ =>
    if s.stateSize = 1 ∧ s.measDims = 1 then some { s with der := ⟨vec1 (head x + 3), mat1 1⟩ } else some s

theorem offset_contract : MeasContract NonlinMeasData.Sized offsetClass := by
  apply plain_mcontract
  intro n k s x dt hs hx
  split
  next h =>
    have hn : n = 1 := by rw [← hs.states]; exact h.1
    have hk : k = 1 := by rw [← hs.meas]; exact h.2
    subst hn hk
    exact ⟨_, rfl, ⟨hs.states, hs.meas, ⟨rfl, rfl, rfl⟩, hs.cov⟩, ⟨rfl, rfl, rfl, rfl⟩⟩
  next => exact ⟨s, rfl, hs, Meas.SameConfig.refl s⟩

private theorem pd_one11 : (!![1] : Matrix (Fin 1) (Fin 1) ℝ).PosDef := by
  have : (!![1] : Matrix (Fin 1) (Fin 1) ℝ) = 1 := by ext i j; fin_cases i; fin_cases j; simp
  rw [this]; exact PosDef.one
private theorem psd_one11 : (!![1] : Matrix (Fin 1) (Fin 1) ℝ).PosSemidef := pd_one11.posSemidef

example (params : Params ℝ) := C140_affine_partial (kd := fun _ : Unit => 1) (mc := fun _ : Unit => offsetClass) quad_contract
  (fun _ => offset_contract) (plain_ops _) (fun _ => plain_mops _) (fun _ => !![1]) (fun _ => ![3])
  (by
    intro j s q dt s' a1 a2
    change (if _ then _ else _) = _ at a2
    rw [if_pos ⟨a1.states, a1.meas⟩] at a2
    injection a2 with a2
    subst a2
    refine ⟨?_, rfl⟩
    show vec1 _ = _
    rw [head_of]
    show DVec.of _ = _
    congr 1
    ext i
    fin_cases i
    simp [Matrix.mulVec, dotProduct])
  id (fun l => List.Perm.refl l) params quadEnv
  { quadEnv_ok with noise := ⟨⟨rfl, PosSemidef.one⟩, ⟨rfl, PosSemidef.zero⟩⟩ }
  (vec1 1) (mat1 1) 0 ⟨⟨rfl, rfl, rfl⟩, ⟨rfl, psd_one11⟩⟩
  [.predictControl (vec1 2) 3, .correct (vec1 7) (mat1 1) 5 (some ())]
  (by
    intro op hop
    simp only [List.mem_cons, List.not_mem_nil, or_false] at hop
    rcases hop with rfl | rfl
    · exact Or.inl rfl
    · refine ⟨(), rfl, rfl, ?_⟩
      exact ⟨⟨rfl, rfl⟩, ⟨rfl, pd_one11⟩⟩)

end Props
end StateEstimation
