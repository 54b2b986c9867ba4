import Verif.Lemmas.KFApi
import Verif.Examples.Linear

/-!
# C26–C31: the Kalman filter and the extended Kalman filter

`kfPlant sc mc` is the Kalman filter whose system model class is `sc` and whose measurement model classes are `mc`;
`ekfPlant` the EKF.  `SysContract`/`MeasContract` say what a user's model class owes the filter (right sizes), and
`Env.Ok` that the model objects themselves are well-formed.
-/

set_option linter.unusedSectionVars false

namespace StateEstimation
namespace Props

open Matrix Kalman Examples

variable {T K X Y : Type} [DecidableEq K] {n m k : Nat}

section Trace

variable [TimeOps T]

theorem kf_inv_psd {sc : SysClass T LinSysData X} {mc : K → MeasClass T LinMeasData Y}
    (hsc : SysContract LinSysData.Sized sc) (hmc : ∀ j, MeasContract LinMeasData.Sized (mc j)) (kd : K → Nat) :
    PlantInv (kfPlant sc mc) True (EstimatePSD n)
      (Env.Ok LinSysData.Sized LinMeasData.Sized NoisePSD (EstimatePSD n) n m kd) (fun u => u.size = m)
      (fun R => R.Is m m ∧ R.PSD) (fun z c k => z.size = kd k ∧ c.Is (kd k) (kd k) ∧ c.PD) := by
  refine mkPlant_inv hsc hmc (fun _ _ h => h.1.1) (fun _ _ _ h h' => ⟨h.1, h'⟩) (fun _ _ h => h.2) ?_ ?_
  · intro e x c u dt he hx hu
    obtain ⟨s', x', c', h1, h2, h3, h4⟩ := kfPredict_psd hsc he.sys he.noise.1 he.noise.2 hx hu dt
      (fun s => ({ e with sys := s } : Env K LinSysData X LinMeasData Y))
    exact OptP.of_eq h1 ⟨h2, he.setSys h3 h4⟩
  · intro e x c z j dt he hx hz hR
    obtain ⟨m', x', c', h1, h2, h3, h4, _⟩ := kfCorrect_psd hsc (hmc j) he.sys (he.meas j) hR hx hz dt (e.setMeas j)
    exact OptP.of_eq h1 ⟨h2, he.setMeas j h3 h4⟩

theorem ekf_inv_psd {sc : SysClass T NonlinSysData X} {mc : K → MeasClass T NonlinMeasData Y}
    (hsc : SysContract NonlinSysData.Sized sc) (hmc : ∀ j, MeasContract NonlinMeasData.Sized (mc j)) (kd : K → Nat) :
    PlantInv (ekfPlant sc mc) True (EstimatePSD n)
      (Env.Ok NonlinSysData.Sized NonlinMeasData.Sized NoisePSD (EstimatePSD n) n m kd) (fun u => u.size = m)
      (fun R => R.Is m m ∧ R.PSD) (fun z c k => z.size = kd k ∧ c.Is (kd k) (kd k) ∧ c.PD) := by
  refine mkPlant_inv hsc hmc (fun _ _ h => h.1.1) (fun _ _ _ h h' => ⟨h.1, h'⟩) (fun _ _ h => h.2) ?_ ?_
  · intro e x c u dt he hx hu
    obtain ⟨s', x', c', h1, h2, h3, h4⟩ := ekfPredict_psd hsc he.sys he.noise.1 he.noise.2 hx hu dt
      (fun s => ({ e with sys := s } : Env K NonlinSysData X NonlinMeasData Y))
    exact OptP.of_eq h1 ⟨h2, he.setSys h3 h4⟩
  · intro e x c z j dt he hx hz hR
    obtain ⟨m', x', c', h1, h2, h3, h4, _⟩ := ekfCorrect_psd hsc (hmc j) he.sys (he.meas j) hR hx hz dt (e.setMeas j)
    exact OptP.of_eq h1 ⟨h2, he.setMeas j h3 h4⟩

theorem OptP.of_bind {tot : Prop} {α : Type} {p : α → Prop} {o : Option α} (h : ∀ a, o = some a → p a) (ht : ¬ tot) :
    OptP tot p o := by
  cases o with
  | none => exact ht
  | some a => exact h a rfl

theorem kf_inv_size {sc : SysClass T LinSysData X} {mc : K → MeasClass T LinMeasData Y}
    (hsc : SysContract LinSysData.Sized sc) (hmc : ∀ j, MeasContract LinMeasData.Sized (mc j)) (kd : K → Nat) :
    PlantInv (kfPlant sc mc) False (Estimate n)
      (Env.Ok LinSysData.Sized LinMeasData.Sized AnyNoise (Estimate n) n m kd) (fun u => u.size = m)
      (fun R => R.Is m m ∧ True) (fun z c k => z.size = kd k ∧ c.Is (kd k) (kd k) ∧ True) := by
  refine mkPlant_inv (NM := fun _ => True) hsc hmc (fun _ _ h => h.1) (fun _ _ _ _ _ => trivial)
    (fun _ _ _ => trivial) ?_ ?_
  · intro e x c u dt he hx hu
    refine OptP.of_bind (fun r hr => ?_) id
    obtain ⟨h1, s', h2, h3, h4⟩ := kfPredict_size hsc he.sys hx hu dt _ hr
    refine ⟨h1, ?_⟩
    rw [h2]; exact he.setSys h3 h4
  · intro e x c z j dt he hx hz _
    refine OptP.of_bind (fun r hr => ?_) id
    obtain ⟨h1, s', h2, h3, h4⟩ := kfCorrect_size hsc (hmc j) he.sys (he.meas j) hx hz dt _ hr
    refine ⟨h1, ?_⟩
    rw [h2]; exact he.setMeas j h3 h4

theorem ekf_inv_size {sc : SysClass T NonlinSysData X} {mc : K → MeasClass T NonlinMeasData Y}
    (hsc : SysContract NonlinSysData.Sized sc) (hmc : ∀ j, MeasContract NonlinMeasData.Sized (mc j)) (kd : K → Nat) :
    PlantInv (ekfPlant sc mc) False (Estimate n)
      (Env.Ok NonlinSysData.Sized NonlinMeasData.Sized AnyNoise (Estimate n) n m kd) (fun u => u.size = m)
      (fun R => R.Is m m ∧ True) (fun z c k => z.size = kd k ∧ c.Is (kd k) (kd k) ∧ True) := by
  refine mkPlant_inv (NM := fun _ => True) hsc hmc (fun _ _ h => h.1) (fun _ _ _ _ _ => trivial)
    (fun _ _ _ => trivial) ?_ ?_
  · intro e x c u dt he hx hu
    refine OptP.of_bind (fun r hr => ?_) id
    obtain ⟨h1, s', h2, h3, h4⟩ := ekfPredict_size hsc he.sys hx hu dt _ hr
    refine ⟨h1, ?_⟩
    rw [h2]; exact he.setSys h3 h4
  · intro e x c z j dt he hx hz _
    refine OptP.of_bind (fun r hr => ?_) id
    obtain ⟨h1, s', h2, h3, h4⟩ := ekfCorrect_size hsc (hmc j) he.sys (he.meas j) hx hz dt _ hr
    refine ⟨h1, ?_⟩
    rw [h2]; exact he.setMeas j h3 h4

variable [SaneTime T]

/-- **C26, sizes (Kalman filter).**  Construct the filter with an `n`-state estimate; after *any* sequence of API calls
with well-sized arguments (any time stamps, parameters, order, queues, rewinds; covariances need not even be symmetric) that
ends normally, the current and every remembered state has `n` entries and an `n × n` covariance. -/
theorem C26_kf_sizes {sc : SysClass T LinSysData X} {mc : K → MeasClass T LinMeasData Y}
    (hsc : SysContract LinSysData.Sized sc) (hmc : ∀ j, MeasContract LinMeasData.Sized (mc j)) (kd : K → Nat)
    (sort : List (FilterInput T DVec DMat K) → List (FilterInput T DVec DMat K)) (hsort : ∀ l, (sort l).Perm l)
    (params : Params T) (e : Env K LinSysData X LinMeasData Y)
    (he : e.Ok LinSysData.Sized LinMeasData.Sized AnyNoise (Estimate n) n m kd)
    (x : DVec) (c : DMat) (t : T) (hx : Estimate n x c)
    (ops : List (Op T DVec DMat K (Env K LinSysData X LinMeasData Y)))
    (hops : ∀ op ∈ ops, op.WellFormed (Estimate n)
      (Env.Ok LinSysData.Sized LinMeasData.Sized AnyNoise (Estimate n) n m kd) m kd (fun _ => True))
    (g : Filter T DVec DMat K (Env K LinSysData X LinMeasData Y))
    (hg : (Filter.construct (kfPlant sc mc) params e x c t).run (kfPlant sc mc) sort ops = some g) :
    ∀ s ∈ g.retained, s.x.size = n ∧ s.covariance.rows = n ∧ s.covariance.cols = n := by
  have := mkPlant_run (kf_inv_size hsc hmc kd) sort hsort params e he x c t hx ops hops
  change OptP False _ ((Filter.construct (kfPlant sc mc) params e x c t).run (kfPlant sc mc) sort ops) at this
  rw [hg] at this
  exact this.1

/-- **C26, sizes (EKF).** -/
theorem C26_ekf_sizes {sc : SysClass T NonlinSysData X} {mc : K → MeasClass T NonlinMeasData Y}
    (hsc : SysContract NonlinSysData.Sized sc) (hmc : ∀ j, MeasContract NonlinMeasData.Sized (mc j)) (kd : K → Nat)
    (sort : List (FilterInput T DVec DMat K) → List (FilterInput T DVec DMat K)) (hsort : ∀ l, (sort l).Perm l)
    (params : Params T) (e : Env K NonlinSysData X NonlinMeasData Y)
    (he : e.Ok NonlinSysData.Sized NonlinMeasData.Sized AnyNoise (Estimate n) n m kd)
    (x : DVec) (c : DMat) (t : T) (hx : Estimate n x c)
    (ops : List (Op T DVec DMat K (Env K NonlinSysData X NonlinMeasData Y)))
    (hops : ∀ op ∈ ops, op.WellFormed (Estimate n)
      (Env.Ok NonlinSysData.Sized NonlinMeasData.Sized AnyNoise (Estimate n) n m kd) m kd (fun _ => True))
    (g : Filter T DVec DMat K (Env K NonlinSysData X NonlinMeasData Y))
    (hg : (Filter.construct (ekfPlant sc mc) params e x c t).run (ekfPlant sc mc) sort ops = some g) :
    ∀ s ∈ g.retained, s.x.size = n ∧ s.covariance.rows = n ∧ s.covariance.cols = n := by
  have := mkPlant_run (ekf_inv_size hsc hmc kd) sort hsort params e he x c t hx ops hops
  change OptP False _ ((Filter.construct (ekfPlant sc mc) params e x c t).run (ekfPlant sc mc) sort ops) at this
  rw [hg] at this
  exact this.1

theorem OptP.exists_of_total {α : Type} {p : α → Prop} {o : Option α} (h : OptP True p o) : ∃ a, o = some a ∧ p a := by
  cases o with
  | none => exact absurd trivial h
  | some a => exact ⟨a, rfl, h⟩

/-- **C26 (no assertion trips) and C29 (Kalman filter).**  With positive semidefinite initial covariance and noise and
positive definite measurement covariances, no sequence of well-sized API calls ever fails (no Eigen assertion, no singular
inverse), and the current and every remembered covariance is `n × n`, symmetric positive semidefinite. -/
theorem C26_C29_kf {sc : SysClass T LinSysData X} {mc : K → MeasClass T LinMeasData Y}
    (hsc : SysContract LinSysData.Sized sc) (hmc : ∀ j, MeasContract LinMeasData.Sized (mc j)) (kd : K → Nat)
    (sort : List (FilterInput T DVec DMat K) → List (FilterInput T DVec DMat K)) (hsort : ∀ l, (sort l).Perm l)
    (params : Params T) (e : Env K LinSysData X LinMeasData Y)
    (he : e.Ok LinSysData.Sized LinMeasData.Sized NoisePSD (EstimatePSD n) n m kd)
    (x : DVec) (c : DMat) (t : T) (hx : EstimatePSD n x c)
    (ops : List (Op T DVec DMat K (Env K LinSysData X LinMeasData Y)))
    (hops : ∀ op ∈ ops, op.WellFormed (EstimatePSD n)
      (Env.Ok LinSysData.Sized LinMeasData.Sized NoisePSD (EstimatePSD n) n m kd) m kd DMat.PD) :
    ∃ g, (Filter.construct (kfPlant sc mc) params e x c t).run (kfPlant sc mc) sort ops = some g ∧
      ∀ s ∈ g.retained, s.x.size = n ∧ s.covariance.Is n n ∧ s.covariance.PSD := by
  obtain ⟨g, h1, h2, _⟩ := OptP.exists_of_total
    (mkPlant_run (kf_inv_psd hsc hmc kd) sort hsort params e he x c t hx ops hops)
  exact ⟨g, h1, fun s hs => ⟨(h2 s hs).1.1, (h2 s hs).1.2, (h2 s hs).2⟩⟩

/-- **C26 (no assertion trips) and C29 (EKF).** -/
theorem C26_C29_ekf {sc : SysClass T NonlinSysData X} {mc : K → MeasClass T NonlinMeasData Y}
    (hsc : SysContract NonlinSysData.Sized sc) (hmc : ∀ j, MeasContract NonlinMeasData.Sized (mc j)) (kd : K → Nat)
    (sort : List (FilterInput T DVec DMat K) → List (FilterInput T DVec DMat K)) (hsort : ∀ l, (sort l).Perm l)
    (params : Params T) (e : Env K NonlinSysData X NonlinMeasData Y)
    (he : e.Ok NonlinSysData.Sized NonlinMeasData.Sized NoisePSD (EstimatePSD n) n m kd)
    (x : DVec) (c : DMat) (t : T) (hx : EstimatePSD n x c)
    (ops : List (Op T DVec DMat K (Env K NonlinSysData X NonlinMeasData Y)))
    (hops : ∀ op ∈ ops, op.WellFormed (EstimatePSD n)
      (Env.Ok NonlinSysData.Sized NonlinMeasData.Sized NoisePSD (EstimatePSD n) n m kd) m kd DMat.PD) :
    ∃ g, (Filter.construct (ekfPlant sc mc) params e x c t).run (ekfPlant sc mc) sort ops = some g ∧
      ∀ s ∈ g.retained, s.x.size = n ∧ s.covariance.Is n n ∧ s.covariance.PSD := by
  obtain ⟨g, h1, h2, _⟩ := OptP.exists_of_total
    (mkPlant_run (ekf_inv_psd hsc hmc kd) sort hsort params e he x c t hx ops hops)
  exact ⟨g, h1, fun s hs => ⟨(h2 s hs).1.1, (h2 s hs).1.2, (h2 s hs).2⟩⟩

/-- The setters a user may call between filter calls are well-formed changes, when their argument is. -/
theorem setters_wellFormed {DS XS DM XM : Type} {ds : Nat → Nat → DS → Prop} {dm : Nat → Nat → DM → Prop} {kd : K → Nat}
    {Q : DVec → DMat → Prop} (Rp Rc : DMat) (hRp : Rp.Is n n) (h1 : Rp.PSD) (hRc : Rc.Is m m) (h2 : Rc.PSD) :
    (∀ e : Env K DS XS DM XM, e.Ok ds dm NoisePSD Q n m kd → e.sys.Rp.Is n n →
      ∃ s, e.sys.setProcessCovariance Rp = some s ∧ ({ e with sys := s } : Env K DS XS DM XM).Ok ds dm NoisePSD Q n m kd) ∧
    (∀ e : Env K DS XS DM XM, e.Ok ds dm NoisePSD Q n m kd →
      ∃ s, e.sys.setControlCovariance Rc = some s ∧
        ({ e with sys := s } : Env K DS XS DM XM).Ok ds dm NoisePSD Q n m kd) := by
  constructor
  · intro e he hn
    refine ⟨{ e.sys with Rp := Rp }, ?_, ?_⟩
    · unfold Sys.setProcessCovariance
      rw [if_pos ⟨by rw [hRp.1, hn.1], by rw [hRp.2, hn.2]⟩]
    · refine ⟨⟨he.sys.states, he.sys.controls, he.sys.der, ?_, ?_, he.sys.V, he.sys.Rc⟩, ⟨h1, he.noise.2⟩, he.sysMake,
        he.meas, he.measMake⟩
      · exact ⟨he.sys.P.1, by rw [he.sys.P.2, hn.1, hRp.1]⟩
      · exact ⟨rfl, by rw [hRp.1, hRp.2]⟩
  · intro e he
    refine ⟨{ e.sys with Rc := Rc }, ?_, ?_⟩
    · unfold Sys.setControlCovariance
      rw [if_pos ⟨by rw [hRc.1, he.sys.controls], by rw [hRc.2, he.sys.controls]⟩]
    · exact ⟨⟨he.sys.states, he.sys.controls, he.sys.der, he.sys.P, he.sys.Rp, he.sys.V, hRc⟩, ⟨he.noise.1, h2⟩,
        he.sysMake, he.meas, he.measMake⟩

end Trace

/-- Non-vacuity of C26/C29: the constant-velocity filter, a control, a late measurement with rewinding, an empty control, a
re-initialisation and queued data. -/
example : ∃ g, (Filter.construct (kfPlant cvClass fun _ : Unit => posClass)
      { allowPast := true, rewindHistory := true, historyWindow := 5 } cvEnv (.zero 2) (.identity 2) 0).run
      (kfPlant cvClass fun _ => posClass) (fun l => l)
      [.predictControl (.const 1 3) 2, .correct (.const 1 7) (.identity 1) 1 (some ()), .predictControl .empty 4,
       .init (.const 2 1) (.identity 2) 9, .enqueueMeasurement (.const 1 7) (.identity 1) 11 (some ()), .processQueues]
      = some g ∧ ∀ s ∈ g.retained, s.x.size = 2 ∧ s.covariance.Is 2 2 ∧ s.covariance.PSD := by
  refine C26_C29_kf (m := 1) (T := ℝ) cv_contract (fun _ => pos_contract) (fun _ => 1) _ (fun _ => .refl _) _ _ cvEnv_ok _ _ _
    cv_estimate _ ?_
  intro op hop
  simp only [List.mem_cons, List.not_mem_nil, or_false] at hop
  rcases hop with rfl | rfl | rfl | rfl | rfl | rfl
  · exact Or.inl rfl
  · exact ⟨(), rfl, rfl, ⟨rfl, rfl⟩, identity_pd 1⟩
  · exact Or.inr rfl
  · exact ⟨⟨rfl, rfl, rfl⟩, identity_psd 2⟩
  · exact ⟨(), rfl, rfl, ⟨rfl, rfl⟩, identity_pd 1⟩
  · trivial

section Step

variable [LinearOrder T] [ExactTime T]

/-- **C27 (Kalman filter).**  An in-order `predict(u, t)` (moving) calls the model's `update` with the elapsed time; the new
state is `A x + B u` (added with the model's own addition), the new covariance is `A P Aᵀ + W Rp Wᵀ + V Rc Vᵀ`, and it is
positive semidefinite when `P`, `Rp`, `Rc` are. -/
theorem C27_kf_predict {sc : SysClass T LinSysData X} {mc : K → MeasClass T LinMeasData Y}
    (hsc : SysContract LinSysData.Sized sc) (f : Filter T DVec DMat K (Env K LinSysData X LinMeasData Y))
    (hs : f.env.sys.Sized LinSysData.Sized n m)
    {x : Fin n → ℝ} {P : Matrix (Fin n) (Fin n) ℝ} (hx : f.getState = .of x) (hP : f.getCovariance = .of P)
    (u : Fin m → ℝ) (hm : 0 < m) (t : T) (ht : f.getStateTime ≤ t)
    (hst : (f.env.sys.fm.checkStationary && f.env.sys.fm.isStationary (.of x) (.of u)) = false) :
    ∃ g p, ∃ (A : Matrix (Fin n) (Fin n) ℝ) (B : Matrix (Fin n) (Fin m) ℝ) (W : Matrix (Fin n) (Fin p) ℝ)
      (V : Matrix (Fin n) (Fin m) ℝ) (Rp : Matrix (Fin p) (Fin p) ℝ) (Rc : Matrix (Fin m) (Fin m) ℝ),
      f.predictControl (kfPlant sc mc) (.of u) t = some g ∧ g.getStateTime = t ∧
      sc.myUpdate f.env.sys (.of x) (.of u) (TimeOps.sub t f.getStateTime) = some g.env.sys ∧
      g.env.sys.der = ⟨.of A, .of B⟩ ∧ g.env.sys.P = .of W ∧ g.env.sys.V = .of V ∧
      f.env.sys.Rp = .of Rp ∧ f.env.sys.Rc = .of Rc ∧
      sc.add g.env.sys (.of (A *ᵥ x)) (.of (B *ᵥ u)) = some g.getState ∧
      g.getCovariance = .of (A * P * Aᵀ + W * Rp * Wᵀ + V * Rc * Vᵀ) ∧
      (P.PosSemidef → Rp.PosSemidef → Rc.PosSemidef → g.getCovariance.PSD) := by
  obtain ⟨g, p, A, B, W, V, Rp, Rc, x', h1, h2, h3, h4, h5, h6, h7, h8, h9, h10, h11, _⟩ :=
    kf_predict_now (mc := mc) hsc f hs hx hP u hm t ht hst
  refine ⟨g, p, A, B, W, V, Rp, Rc, h1, h11, h2, h3, h4, h5, h6, h7, by rw [h9]; exact h8, h10, ?_⟩
  intro p1 p2 p3
  rw [h10, DMat.PSD_of]
  exact propagate_psd p1 p2 p3

/-- **C27 (EKF).**  Same with the model's prediction `g()` as state and its Jacobian `G` for `A`. -/
theorem C27_ekf_predict {sc : SysClass T NonlinSysData X} {mc : K → MeasClass T NonlinMeasData Y}
    (hsc : SysContract NonlinSysData.Sized sc) (f : Filter T DVec DMat K (Env K NonlinSysData X NonlinMeasData Y))
    (hs : f.env.sys.Sized NonlinSysData.Sized n m)
    {x : Fin n → ℝ} {P : Matrix (Fin n) (Fin n) ℝ} (hx : f.getState = .of x) (hP : f.getCovariance = .of P)
    (u : Fin m → ℝ) (hm : 0 < m) (t : T) (ht : f.getStateTime ≤ t)
    (hst : (f.env.sys.fm.checkStationary && f.env.sys.fm.isStationary (.of x) (.of u)) = false) :
    ∃ g p, ∃ (G : Matrix (Fin n) (Fin n) ℝ) (W : Matrix (Fin n) (Fin p) ℝ)
      (V : Matrix (Fin n) (Fin m) ℝ) (Rp : Matrix (Fin p) (Fin p) ℝ) (Rc : Matrix (Fin m) (Fin m) ℝ),
      f.predictControl (ekfPlant sc mc) (.of u) t = some g ∧ g.getStateTime = t ∧
      sc.myUpdate f.env.sys (.of x) (.of u) (TimeOps.sub t f.getStateTime) = some g.env.sys ∧
      g.env.sys.der.G = .of G ∧ g.env.sys.P = .of W ∧ g.env.sys.V = .of V ∧
      f.env.sys.Rp = .of Rp ∧ f.env.sys.Rc = .of Rc ∧
      g.getState = g.env.sys.der.g ∧
      g.getCovariance = .of (G * P * Gᵀ + W * Rp * Wᵀ + V * Rc * Vᵀ) ∧
      (P.PosSemidef → Rp.PosSemidef → Rc.PosSemidef → g.getCovariance.PSD) := by
  obtain ⟨g, p, A, W, V, Rp, Rc, h1, h2, h3, h4, h5, h6, h7, h8, h10, h11, _⟩ :=
    ekf_predict_now (mc := mc) hsc f hs hx hP u hm t ht hst
  refine ⟨g, p, A, W, V, Rp, Rc, h1, h11, h2, h3, h4, h5, h6, h7, h8, h10, ?_⟩
  intro p1 p2 p3
  rw [h10, DMat.PSD_of]
  exact propagate_psd p1 p2 p3

/-- **C28 and C30 (Kalman filter).**  `correct(z, R, t, j)` at the current time (moving), with `R` positive definite and
`P` positive semidefinite: the call succeeds; with `C` the matrix the model reports and `L = P Cᵀ (C P Cᵀ + R)⁻¹`, the
state becomes `x + L (z - C x)` (with the models' own addition and subtraction), the covariance `P' = (I - L C) P`, which is
* positive semidefinite, and `P - P'` is too (a measurement never increases uncertainty);
* the error covariance of the linear estimator that uses `L`; and
* no larger, in the Loewner order, than the error covariance of the estimator that uses *any* other gain `J`. -/
theorem C28_C30_kf_correct {sc : SysClass T LinSysData X} {mc : K → MeasClass T LinMeasData Y}
    (hsc : SysContract LinSysData.Sized sc) (hmc : ∀ j, MeasContract LinMeasData.Sized (mc j))
    (f : Filter T DVec DMat K (Env K LinSysData X LinMeasData Y)) (j : K)
    (hs : f.env.sys.Sized LinSysData.Sized n m) (hm : (f.env.meas j).Sized LinMeasData.Sized n k)
    {x : Fin n → ℝ} {P : Matrix (Fin n) (Fin n) ℝ} (hx : f.getState = .of x) (hP : f.getCovariance = .of P)
    (hPsd : P.PosSemidef) (z : Fin k → ℝ) (R : Matrix (Fin k) (Fin k) ℝ) (hR : R.PosDef)
    (hst : ((f.env.meas j).fm.checkStationary && (f.env.meas j).fm.isStationary (.of x) (.of z)) = false) :
    ∃ g, ∃ (C : Matrix (Fin k) (Fin n) ℝ) (L : Matrix (Fin n) (Fin k) ℝ) (P' : Matrix (Fin n) (Fin n) ℝ) (dz : Fin k → ℝ),
      f.correct (kfPlant sc mc) (.of z) (.of R) f.getStateTime (some j) = some g ∧
      g.getStateTime = f.getStateTime ∧
      (mc j).myUpdate ((f.env.meas j).withCov (.of R)) (.of x) (TimeOps.sub f.getStateTime f.getStateTime)
        = some (g.env.meas j) ∧
      (g.env.meas j).der.C = .of C ∧ L = P * Cᵀ * (C * P * Cᵀ + R)⁻¹ ∧
      (mc j).sub (g.env.meas j) (.of z) (.of (C *ᵥ x)) = some (.of dz) ∧
      sc.add f.env.sys (.of x) (.of (L *ᵥ dz)) = some g.getState ∧
      g.getCovariance = .of P' ∧ P' = (1 - L * C) * P ∧
      P'.PosSemidef ∧ (P - P').PosSemidef ∧
      P' = (1 - L * C) * P * (1 - L * C)ᵀ + L * R * Lᵀ ∧
      ∀ J : Matrix (Fin n) (Fin k) ℝ, ((1 - J * C) * P * (1 - J * C)ᵀ + J * R * Jᵀ - P').PosSemidef := by
  have hms : ((f.env.meas j).withCov (.of R)).Sized LinMeasData.Sized n k := ⟨hm.states, hm.meas, hm.der, rfl, rfl⟩
  obtain ⟨ms, hup, hms', _⟩ := (hmc j).update _ (.of x) (TimeOps.sub f.getStateTime f.getStateTime) hms rfl
  obtain ⟨C, hC⟩ := DMat.Is.exists_of hms'.der
  have hS := innov_pd hPsd C hR
  have hSu := pd_isUnit_det hS
  obtain ⟨g, dz, x', h1, h2, h3, h4, h5, h6, h7, _⟩ := kf_correct_now hsc hmc f j hs hm hx hP z R hup hC hSu hst
  have henv : g.env.meas j = ms := by rw [h7, Env.setMeas_meas]
  refine ⟨g, C, gain P C R, post P C R, dz, h1, h6, by rw [henv]; exact hup, by rw [henv]; exact hC, ?_,
    by rw [henv]; exact h2, by rw [h4]; exact h3, h5, rfl, post_psd hPsd C hR, post_le hPsd C hR,
    post_joseph (psd_symm hPsd) hSu (psd_symm hR.posSemidef), ?_⟩
  · unfold gain innov; rw [Matrix.mul_assoc C P]
  · intro J
    rw [joseph (psd_symm hPsd) hSu (psd_symm hR.posSemidef), add_sub_cancel_left]
    exact psd_conj hS.posSemidef _

/-- **C28 and C30 (EKF).**  Same, with the model's predicted measurement `h()` and its Jacobian `H`. -/
theorem C28_C30_ekf_correct {sc : SysClass T NonlinSysData X} {mc : K → MeasClass T NonlinMeasData Y}
    (hsc : SysContract NonlinSysData.Sized sc) (hmc : ∀ j, MeasContract NonlinMeasData.Sized (mc j))
    (f : Filter T DVec DMat K (Env K NonlinSysData X NonlinMeasData Y)) (j : K)
    (hs : f.env.sys.Sized NonlinSysData.Sized n m) (hm : (f.env.meas j).Sized NonlinMeasData.Sized n k)
    {x : Fin n → ℝ} {P : Matrix (Fin n) (Fin n) ℝ} (hx : f.getState = .of x) (hP : f.getCovariance = .of P)
    (hPsd : P.PosSemidef) (z : Fin k → ℝ) (R : Matrix (Fin k) (Fin k) ℝ) (hR : R.PosDef)
    (hst : ((f.env.meas j).fm.checkStationary && (f.env.meas j).fm.isStationary (.of x) (.of z)) = false) :
    ∃ g, ∃ (H : Matrix (Fin k) (Fin n) ℝ) (L : Matrix (Fin n) (Fin k) ℝ) (P' : Matrix (Fin n) (Fin n) ℝ) (dz : Fin k → ℝ),
      f.correct (ekfPlant sc mc) (.of z) (.of R) f.getStateTime (some j) = some g ∧
      g.getStateTime = f.getStateTime ∧
      (mc j).myUpdate ((f.env.meas j).withCov (.of R)) (.of x) (TimeOps.sub f.getStateTime f.getStateTime)
        = some (g.env.meas j) ∧
      (g.env.meas j).der.H = .of H ∧ L = P * Hᵀ * (H * P * Hᵀ + R)⁻¹ ∧
      (mc j).sub (g.env.meas j) (.of z) (g.env.meas j).der.h = some (.of dz) ∧
      sc.add f.env.sys (.of x) (.of (L *ᵥ dz)) = some g.getState ∧
      g.getCovariance = .of P' ∧ P' = (1 - L * H) * P ∧
      P'.PosSemidef ∧ (P - P').PosSemidef ∧
      P' = (1 - L * H) * P * (1 - L * H)ᵀ + L * R * Lᵀ ∧
      ∀ J : Matrix (Fin n) (Fin k) ℝ, ((1 - J * H) * P * (1 - J * H)ᵀ + J * R * Jᵀ - P').PosSemidef := by
  have hms : ((f.env.meas j).withCov (.of R)).Sized NonlinMeasData.Sized n k := ⟨hm.states, hm.meas, hm.der, rfl, rfl⟩
  obtain ⟨ms, hup, hms', _⟩ := (hmc j).update _ (.of x) (TimeOps.sub f.getStateTime f.getStateTime) hms rfl
  obtain ⟨C, hC⟩ := hms'.der.2.exists_of
  have hS := innov_pd hPsd C hR
  have hSu := pd_isUnit_det hS
  obtain ⟨g, dz, x', h1, h2, h3, h4, h5, h6, h7, _⟩ := ekf_correct_now hsc hmc f j hs hm hx hP z R hup hC hSu hst
  have henv : g.env.meas j = ms := by rw [h7, Env.setMeas_meas]
  refine ⟨g, C, gain P C R, post P C R, dz, h1, h6, by rw [henv]; exact hup, by rw [henv]; exact hC, ?_,
    by rw [henv]; exact h2, by rw [h4]; exact h3, h5, rfl, post_psd hPsd C hR, post_le hPsd C hR,
    post_joseph (psd_symm hPsd) hSu (psd_symm hR.posSemidef), ?_⟩
  · unfold gain innov; rw [Matrix.mul_assoc C P]
  · intro J
    rw [joseph (psd_symm hPsd) hSu (psd_symm hR.posSemidef), add_sub_cancel_left]
    exact psd_conj hS.posSemidef _

/-! ### C31: limit cases -/

/-- **C31 (a): a perfect measurement of the whole state.**  `C = I`, `R = 0`, `P` positive definite, default vector
operations: the state becomes `z` and the covariance zero. -/
theorem C31_perfect_measurement {sc : SysClass T LinSysData X} {mc : K → MeasClass T LinMeasData Y}
    (hsc : SysContract LinSysData.Sized sc) (hmc : ∀ j, MeasContract LinMeasData.Sized (mc j))
    (hso : sc.PlainOps) (hmo : ∀ j, (mc j).PlainOps)
    (f : Filter T DVec DMat K (Env K LinSysData X LinMeasData Y)) (j : K)
    (hs : f.env.sys.Sized LinSysData.Sized n m) (hm : (f.env.meas j).Sized LinMeasData.Sized n n)
    {x : Fin n → ℝ} {P : Matrix (Fin n) (Fin n) ℝ} (hx : f.getState = .of x) (hP : f.getCovariance = .of P)
    (hPd : P.PosDef) (z : Fin n → ℝ)
    (hC : ∀ s x dt s', s.Sized LinMeasData.Sized n n → (mc j).myUpdate s x dt = some s' → s'.der.C = .identity n)
    (hst : ((f.env.meas j).fm.checkStationary && (f.env.meas j).fm.isStationary (.of x) (.of z)) = false) :
    ∃ g, f.correct (kfPlant sc mc) (.of z) (.zero n n) f.getStateTime (some j) = some g ∧
      g.getState = .of z ∧ g.getCovariance = .zero n n := by
  have hms : ((f.env.meas j).withCov (.of (0 : Matrix (Fin n) (Fin n) ℝ))).Sized LinMeasData.Sized n n :=
    ⟨hm.states, hm.meas, hm.der, rfl, rfl⟩
  obtain ⟨ms, hup, hms', _⟩ := (hmc j).update _ (.of x) (TimeOps.sub f.getStateTime f.getStateTime) hms rfl
  have hC' : ms.der.C = .of (1 : Matrix (Fin n) (Fin n) ℝ) := hC _ _ _ _ hms hup
  have hinv : innov P (1 : Matrix (Fin n) (Fin n) ℝ) 0 = P := by unfold innov; simp
  have hPu := pd_isUnit_det hPd
  have hg : gain P (1 : Matrix (Fin n) (Fin n) ℝ) 0 = 1 := by
    unfold gain; rw [hinv, Matrix.transpose_one, Matrix.mul_one, Matrix.mul_nonsing_inv _ hPu]
  obtain ⟨g, dz, x', h1, h2, h3, h4, h5, h6, h7, _⟩ :=
    kf_correct_now hsc hmc f j hs hm hx hP z 0 hup hC' (by rw [hinv]; exact hPu) hst
  refine ⟨g, h1, ?_, ?_⟩
  · rw [h4]
    rw [(hmo j).sub, Matrix.one_mulVec, DVec.sub_of] at h2
    rw [hso.add, hg, Matrix.one_mulVec, DVec.add_of] at h3
    have h2' := DVec.of_inj.mp (Option.some.inj h2)
    have h3' := DVec.of_inj.mp (Option.some.inj h3)
    rw [← h3', ← h2']
    congr 1
    simp
  · rw [h5]; unfold post; rw [hg]
    show DMat.of _ = DMat.of (0 : Matrix (Fin n) (Fin n) ℝ)
    congr 1
    simp

/-- **C31 (b): measurement and prior equally certain.**  `C = I`, `R = P` positive definite: the state moves to the midpoint
and the covariance halves. -/
theorem C31_equal_certainty {sc : SysClass T LinSysData X} {mc : K → MeasClass T LinMeasData Y}
    (hsc : SysContract LinSysData.Sized sc) (hmc : ∀ j, MeasContract LinMeasData.Sized (mc j))
    (hso : sc.PlainOps) (hmo : ∀ j, (mc j).PlainOps)
    (f : Filter T DVec DMat K (Env K LinSysData X LinMeasData Y)) (j : K)
    (hs : f.env.sys.Sized LinSysData.Sized n m) (hm : (f.env.meas j).Sized LinMeasData.Sized n n)
    {x : Fin n → ℝ} {P : Matrix (Fin n) (Fin n) ℝ} (hx : f.getState = .of x) (hP : f.getCovariance = .of P)
    (hPd : P.PosDef) (z : Fin n → ℝ)
    (hC : ∀ s x dt s', s.Sized LinMeasData.Sized n n → (mc j).myUpdate s x dt = some s' → s'.der.C = .identity n)
    (hst : ((f.env.meas j).fm.checkStationary && (f.env.meas j).fm.isStationary (.of x) (.of z)) = false) :
    ∃ g, f.correct (kfPlant sc mc) (.of z) (.of P) f.getStateTime (some j) = some g ∧
      g.getState = .of ((2⁻¹ : ℝ) • (x + z)) ∧ g.getCovariance = .of ((2⁻¹ : ℝ) • P) := by
  have hms : ((f.env.meas j).withCov (.of P)).Sized LinMeasData.Sized n n :=
    ⟨hm.states, hm.meas, hm.der, rfl, rfl⟩
  obtain ⟨ms, hup, hms', _⟩ := (hmc j).update _ (.of x) (TimeOps.sub f.getStateTime f.getStateTime) hms rfl
  have hC' : ms.der.C = .of (1 : Matrix (Fin n) (Fin n) ℝ) := hC _ _ _ _ hms hup
  have hinv : innov P (1 : Matrix (Fin n) (Fin n) ℝ) P = (2 : ℝ) • P := by unfold innov; simp [two_smul]
  have hSu := pd_isUnit_det (innov_pd hPd.posSemidef (1 : Matrix (Fin n) (Fin n) ℝ) hPd)
  have hg : gain P (1 : Matrix (Fin n) (Fin n) ℝ) P = (2⁻¹ : ℝ) • 1 := by
    have h := gain_mul_innov hSu
    rw [hinv, Matrix.transpose_one, Matrix.mul_one, Matrix.mul_smul] at h
    have h' := congrArg (fun M => (2⁻¹ : ℝ) • (M * P⁻¹)) h
    simp only [Matrix.smul_mul, smul_smul] at h'
    rw [Matrix.mul_assoc, Matrix.mul_nonsing_inv _ (pd_isUnit_det hPd)] at h'
    simpa using h'
  obtain ⟨g, dz, x', h1, h2, h3, h4, h5, h6, h7, _⟩ :=
    kf_correct_now hsc hmc f j hs hm hx hP z P hup hC' hSu hst
  refine ⟨g, h1, ?_, ?_⟩
  · rw [h4]
    rw [(hmo j).sub, Matrix.one_mulVec, DVec.sub_of] at h2
    rw [hso.add, hg, Matrix.smul_mulVec, Matrix.one_mulVec, DVec.add_of] at h3
    have h2' := DVec.of_inj.mp (Option.some.inj h2)
    have h3' := DVec.of_inj.mp (Option.some.inj h3)
    rw [← h3', ← h2']
    congr 1
    funext i
    simp only [Pi.add_apply, Pi.smul_apply, Pi.sub_apply, smul_eq_mul]
    ring
  · rw [h5]; unfold post; rw [hg]
    congr 1
    rw [Matrix.mul_one, Matrix.sub_mul, Matrix.one_mul, Matrix.smul_mul, Matrix.one_mul]
    ext a b
    simp only [Matrix.sub_apply, Matrix.smul_apply, smul_eq_mul]
    ring

/-- **C31 (c): the posterior covariance does not depend on the measured value** (only on which sensor and its covariance). -/
theorem C31_covariance_independent_of_value {sc : SysClass T LinSysData X} {mc : K → MeasClass T LinMeasData Y}
    (hsc : SysContract LinSysData.Sized sc) (hmc : ∀ j, MeasContract LinMeasData.Sized (mc j))
    (f : Filter T DVec DMat K (Env K LinSysData X LinMeasData Y)) (j : K)
    (hs : f.env.sys.Sized LinSysData.Sized n m) (hm : (f.env.meas j).Sized LinMeasData.Sized n k)
    {x : Fin n → ℝ} {P : Matrix (Fin n) (Fin n) ℝ} (hx : f.getState = .of x) (hP : f.getCovariance = .of P)
    (hPsd : P.PosSemidef) (z₁ z₂ : Fin k → ℝ) (R : Matrix (Fin k) (Fin k) ℝ) (hR : R.PosDef)
    (hst : (f.env.meas j).fm.checkStationary = false) :
    ∃ g₁ g₂, f.correct (kfPlant sc mc) (.of z₁) (.of R) f.getStateTime (some j) = some g₁ ∧
      f.correct (kfPlant sc mc) (.of z₂) (.of R) f.getStateTime (some j) = some g₂ ∧
      g₁.getCovariance = g₂.getCovariance := by
  have hms : ((f.env.meas j).withCov (.of R)).Sized LinMeasData.Sized n k := ⟨hm.states, hm.meas, hm.der, rfl, rfl⟩
  obtain ⟨ms, hup, hms', _⟩ := (hmc j).update _ (.of x) (TimeOps.sub f.getStateTime f.getStateTime) hms rfl
  obtain ⟨C, hC⟩ := DMat.Is.exists_of hms'.der
  have hSu := pd_isUnit_det (innov_pd hPsd C hR)
  obtain ⟨g, dz, x', h1, h2, h3, h4, h5, _⟩ := kf_correct_now hsc hmc f j hs hm hx hP z₁ R hup hC hSu (by rw [hst]; rfl)
  obtain ⟨g', dz', x'', h1', h2', h3', h4', h5', _⟩ :=
    kf_correct_now hsc hmc f j hs hm hx hP z₂ R hup hC hSu (by rw [hst]; rfl)
  exact ⟨g, g', h1, h1', by rw [h5, h5']⟩

/-- **C31 (d): a measurement that agrees exactly with the prediction leaves the state unchanged** (default operations). -/
theorem C31_expected_measurement {sc : SysClass T LinSysData X} {mc : K → MeasClass T LinMeasData Y}
    (hsc : SysContract LinSysData.Sized sc) (hmc : ∀ j, MeasContract LinMeasData.Sized (mc j))
    (hso : sc.PlainOps) (hmo : ∀ j, (mc j).PlainOps)
    (f : Filter T DVec DMat K (Env K LinSysData X LinMeasData Y)) (j : K)
    (hs : f.env.sys.Sized LinSysData.Sized n m) (hm : (f.env.meas j).Sized LinMeasData.Sized n k)
    {x : Fin n → ℝ} {P : Matrix (Fin n) (Fin n) ℝ} (hx : f.getState = .of x) (hP : f.getCovariance = .of P)
    (hPsd : P.PosSemidef) (R : Matrix (Fin k) (Fin k) ℝ) (hR : R.PosDef) (C : Matrix (Fin k) (Fin n) ℝ)
    (hC : ∀ s x dt s', s.Sized LinMeasData.Sized n k → (mc j).myUpdate s x dt = some s' → s'.der.C = .of C)
    (hst : (f.env.meas j).fm.checkStationary = false) :
    ∃ g, f.correct (kfPlant sc mc) (.of (C *ᵥ x)) (.of R) f.getStateTime (some j) = some g ∧
      g.getState = f.getState := by
  have hms : ((f.env.meas j).withCov (.of R)).Sized LinMeasData.Sized n k := ⟨hm.states, hm.meas, hm.der, rfl, rfl⟩
  obtain ⟨ms, hup, hms', _⟩ := (hmc j).update _ (.of x) (TimeOps.sub f.getStateTime f.getStateTime) hms rfl
  obtain ⟨g, dz, x', h1, h2, h3, h4, h5, _⟩ := kf_correct_now hsc hmc f j hs hm hx hP (C *ᵥ x) R hup (hC _ _ _ _ hms hup)
    (pd_isUnit_det (innov_pd hPsd C hR)) (by rw [hst]; rfl)
  refine ⟨g, h1, ?_⟩
  rw [h4, hx]
  rw [(hmo j).sub, DVec.sub_of] at h2
  have h2' := DVec.of_inj.mp (Option.some.inj h2)
  rw [← h2', sub_self, Matrix.mulVec_zero, hso.add, DVec.add_of, add_zero] at h3
  exact (Option.some.inj h3).symm

/-! ### C32: simultaneous measurements commute -/

/-- One correction with a constant `C`: the textbook update, and a filter of which the same can be said again. -/
theorem kf_correct_keeps {sc : SysClass T LinSysData X} {mc : K → MeasClass T LinMeasData Y}
    (hsc : SysContract LinSysData.Sized sc) (hmc : ∀ j, MeasContract LinMeasData.Sized (mc j))
    (hso : sc.PlainOps) (hmo : ∀ j, (mc j).PlainOps) (kd : K → Nat) (C : (j : K) → Matrix (Fin (kd j)) (Fin n) ℝ)
    (hC : ∀ j s x dt s', s.Sized LinMeasData.Sized n (kd j) → (mc j).myUpdate s x dt = some s' → s'.der.C = .of (C j)) :
    ∀ (q : Filter T DVec DMat K (Env K LinSysData X LinMeasData Y)) (j : K) (z : Fin (kd j) → ℝ)
      (R : Matrix (Fin (kd j)) (Fin (kd j)) ℝ) (_ : R.PosDef) (x : Fin n → ℝ) (P : Matrix (Fin n) (Fin n) ℝ)
      (_ : q.getState = .of x) (_ : q.getCovariance = .of P) (_ : P.PosSemidef)
      (_ : q.env.sys.Sized LinSysData.Sized n m) (_ : ∀ j, (q.env.meas j).Sized LinMeasData.Sized n (kd j))
      (_ : ∀ j, (q.env.meas j).fm.checkStationary = false),
      ∃ g, q.correct (kfPlant sc mc) (.of z) (.of R) q.getStateTime (some j) = some g ∧
        g.getState = .of (postState x P (C j) R z) ∧ g.getCovariance = .of (post P (C j) R) ∧
        g.getStateTime = q.getStateTime ∧ g.env.sys.Sized LinSysData.Sized n m ∧
        (∀ j, (g.env.meas j).Sized LinMeasData.Sized n (kd j)) ∧ ∀ j, (g.env.meas j).fm.checkStationary = false := by
  intro q j z R hR x P hx hP hPsd hs hm hst
  have hms : ((q.env.meas j).withCov (.of R)).Sized LinMeasData.Sized n (kd j) :=
    ⟨(hm j).states, (hm j).meas, (hm j).der, rfl, rfl⟩
  obtain ⟨ms, hup, hms', hcfg⟩ := (hmc j).update _ (.of x) (TimeOps.sub q.getStateTime q.getStateTime) hms rfl
  obtain ⟨g, dz, x', h1, h2, h3, h4, h5, h6, h7, _⟩ := kf_correct_now hsc hmc q j hs (hm j) hx hP z R hup (hC _ _ _ _ _ hms hup)
    (pd_isUnit_det (innov_pd hPsd (C j) hR)) (by rw [hst]; rfl)
  refine ⟨g, h1, ?_, h5, h6, by rw [h7]; exact hs, ?_, ?_⟩
  · rw [h4]
    rw [(hmo j).sub, DVec.sub_of] at h2
    have h2' := DVec.of_inj.mp (Option.some.inj h2)
    rw [hso.add, DVec.add_of, ← h2'] at h3
    exact (Option.some.inj h3).symm
  · intro i
    rw [h7]
    unfold Env.setMeas
    dsimp only
    by_cases hi : i = j
    · subst hi; rw [if_pos rfl]; exact hms'
    · rw [if_neg hi]; exact hm i
  · intro i
    rw [h7]
    unfold Env.setMeas
    dsimp only
    by_cases hi : i = j
    · subst hi; rw [if_pos rfl, hcfg.fm]; exact hst i
    · rw [if_neg hi]; exact hst i

/-- **C32.**  Two measurements at the current time (of the same or of different sensors, not declared stationary, whose `C`
does not depend on the state) give the same state and covariance in either order. -/
theorem C32_measurements_commute {sc : SysClass T LinSysData X} {mc : K → MeasClass T LinMeasData Y}
    (hsc : SysContract LinSysData.Sized sc) (hmc : ∀ j, MeasContract LinMeasData.Sized (mc j))
    (hso : sc.PlainOps) (hmo : ∀ j, (mc j).PlainOps) (kd : K → Nat)
    (f : Filter T DVec DMat K (Env K LinSysData X LinMeasData Y))
    (hs : f.env.sys.Sized LinSysData.Sized n m) (hm : ∀ j, (f.env.meas j).Sized LinMeasData.Sized n (kd j))
    {x : Fin n → ℝ} {P : Matrix (Fin n) (Fin n) ℝ} (hx : f.getState = .of x) (hP : f.getCovariance = .of P)
    (hPsd : P.PosSemidef) (C : (j : K) → Matrix (Fin (kd j)) (Fin n) ℝ)
    (hC : ∀ j s x dt s', s.Sized LinMeasData.Sized n (kd j) → (mc j).myUpdate s x dt = some s' → s'.der.C = .of (C j))
    (hst : ∀ j, (f.env.meas j).fm.checkStationary = false)
    (a b : K) (za : Fin (kd a) → ℝ) (zb : Fin (kd b) → ℝ)
    (Ra : Matrix (Fin (kd a)) (Fin (kd a)) ℝ) (Rb : Matrix (Fin (kd b)) (Fin (kd b)) ℝ) (hRa : Ra.PosDef) (hRb : Rb.PosDef) :
    ∃ g₁ g₂ h₁ h₂,
      f.correct (kfPlant sc mc) (.of za) (.of Ra) f.getStateTime (some a) = some g₁ ∧
      g₁.correct (kfPlant sc mc) (.of zb) (.of Rb) f.getStateTime (some b) = some g₂ ∧
      f.correct (kfPlant sc mc) (.of zb) (.of Rb) f.getStateTime (some b) = some h₁ ∧
      h₁.correct (kfPlant sc mc) (.of za) (.of Ra) f.getStateTime (some a) = some h₂ ∧
      g₂.getState = h₂.getState ∧ g₂.getCovariance = h₂.getCovariance ∧ g₂.getStateTime = h₂.getStateTime := by
  -- one correction followed by another
  have key : ∀ (a b : K) (za : Fin (kd a) → ℝ) (zb : Fin (kd b) → ℝ)
      (Ra : Matrix (Fin (kd a)) (Fin (kd a)) ℝ) (Rb : Matrix (Fin (kd b)) (Fin (kd b)) ℝ) (_ : Ra.PosDef) (_ : Rb.PosDef),
      ∃ g₁ g₂, f.correct (kfPlant sc mc) (.of za) (.of Ra) f.getStateTime (some a) = some g₁ ∧
        g₁.correct (kfPlant sc mc) (.of zb) (.of Rb) f.getStateTime (some b) = some g₂ ∧
        g₂.getState = .of (postState (postState x P (C a) Ra za) (post P (C a) Ra) (C b) Rb zb) ∧
        g₂.getCovariance = .of (post (post P (C a) Ra) (C b) Rb) ∧ g₂.getStateTime = f.getStateTime := by
    intro a b za zb Ra Rb hRa hRb
    obtain ⟨g₁, p1, p2, p3, p4, p5, p6, p7⟩ := kf_correct_keeps hsc hmc hso hmo kd C hC f a za Ra hRa x P hx hP hPsd hs hm hst
    obtain ⟨g₂, q1, q2, q3, q4, _⟩ := kf_correct_keeps hsc hmc hso hmo kd C hC g₁ b zb Rb hRb _ _ p2 p3 (post_psd hPsd (C a) hRa) p5 p6 p7
    exact ⟨g₁, g₂, p1, by rw [← p4]; exact q1, q2, q3, by rw [q4, p4]⟩
  obtain ⟨g₁, g₂, p1, p2, p3, p4, p5⟩ := key a b za zb Ra Rb hRa hRb
  obtain ⟨h₁, h₂, q1, q2, q3, q4, q5⟩ := key b a zb za Rb Ra hRb hRa
  have ua := pd_isUnit_det hRa
  have ub := pd_isUnit_det hRb
  have sa := pd_isUnit_det (innov_pd hPsd (C a) hRa)
  have sb := pd_isUnit_det (innov_pd hPsd (C b) hRb)
  have sab := pd_isUnit_det (innov_pd (post_psd hPsd (C a) hRa) (C b) hRb)
  have sba := pd_isUnit_det (innov_pd (post_psd hPsd (C b) hRb) (C a) hRa)
  have e1 := two_steps sa ua sab ub
  have e2 := two_steps sb ub sba ua
  have hM : (1 - gain (post P (C a) Ra) (C b) Rb * C b) * (1 - gain P (C a) Ra * C a)
      = (1 - gain (post P (C b) Rb) (C a) Ra * C a) * (1 - gain P (C b) Rb * C b) := by
    have hN : (1 + P * info (C a) Ra + P * info (C b) Rb) = (1 + P * info (C b) Rb + P * info (C a) Ra) := by abel
    rw [hN] at e1
    exact Matrix.inv_eq_left_inv e1 ▸ Matrix.inv_eq_left_inv e2 ▸ rfl
  have hcov : post (post P (C a) Ra) (C b) Rb = post (post P (C b) Rb) (C a) Ra := by
    show (1 - gain (post P (C a) Ra) (C b) Rb * C b) * ((1 - gain P (C a) Ra * C a) * P)
      = (1 - gain (post P (C b) Rb) (C a) Ra * C a) * ((1 - gain P (C b) Rb * C b) * P)
    rw [← Matrix.mul_assoc, hM, Matrix.mul_assoc]
  have st : ∀ (a b : K) (za : Fin (kd a) → ℝ) (zb : Fin (kd b) → ℝ)
      (Ra : Matrix (Fin (kd a)) (Fin (kd a)) ℝ) (Rb : Matrix (Fin (kd b)) (Fin (kd b)) ℝ),
      Ra.PosDef → Rb.PosDef →
      postState (postState x P (C a) Ra za) (post P (C a) Ra) (C b) Rb zb =
        ((1 - gain (post P (C a) Ra) (C b) Rb * C b) * (1 - gain P (C a) Ra * C a)) *ᵥ
          (x + P *ᵥ (((C a)ᵀ * Ra⁻¹) *ᵥ za) + P *ᵥ (((C b)ᵀ * Rb⁻¹) *ᵥ zb)) := by
    intro a b za zb Ra Rb hRa hRb
    have ua := pd_isUnit_det hRa
    have ub := pd_isUnit_det hRb
    have sa := pd_isUnit_det (innov_pd hPsd (C a) hRa)
    have sab := pd_isUnit_det (innov_pd (post_psd hPsd (C a) hRa) (C b) hRb)
    rw [postState_eq sab ub, postState_eq sa ua]
    rw [← Matrix.mulVec_mulVec _ (1 - gain (post P (C a) Ra) (C b) Rb * C b) (1 - gain P (C a) Ra * C a)]
    congr 1
    rw [Matrix.mulVec_add _ (x + _)]
    congr 1
    show ((1 - gain P (C a) Ra * C a) * P) *ᵥ _ = _
    rw [← Matrix.mulVec_mulVec _ (1 - gain P (C a) Ra * C a) P]
  refine ⟨g₁, g₂, h₁, h₂, p1, p2, q1, q2, ?_, by rw [p4, q4, hcov], by rw [p5, q5]⟩
  rw [p3, q3, st a b za zb Ra Rb hRa hRb, st b a zb za Rb Ra hRb hRa, hM]
  congr 2
  abel

end Step

/-! ### Examples: the constant-velocity filter of `Examples/Linear.lean` at time 0, estimate 0, covariance `I` -/

noncomputable def cvFilter : Filter ℝ DVec DMat Unit (Env Unit LinSysData Unit LinMeasData Unit) :=
  Filter.construct (kfPlant cvClass fun _ : Unit => posClass)
    { allowPast := false, rewindHistory := false, historyWindow := 5 } cvEnv (.zero 2) (.identity 2) 0

example : ∃ g, cvFilter.predictControl (kfPlant cvClass fun _ => posClass) (.const 1 3) 2 = some g ∧
    g.getStateTime = 2 ∧ g.getCovariance.PSD := by
  obtain ⟨g, p, A, B, W, V, Rp, Rc, h1, h2, _, _, _, _, h3, h4, _, _, h5⟩ :=
    C27_kf_predict (mc := fun _ : Unit => posClass) cv_contract cvFilter (cvEnv_ok (Q := EstimatePSD 2)).sys (x := 0) (P := 1)
      rfl rfl (fun _ => 3) Nat.one_pos 2 (by show (0 : ℝ) ≤ 2; norm_num) rfl
  refine ⟨g, h1, h2, h5 PosSemidef.one ?_ ?_⟩
  · have h : (Sys.constructLinear 2 1 2 ()).Rp = DMat.of Rp := h3
    rw [← DMat.PSD_of, ← h]; exact ⟨rfl, PosSemidef.zero⟩
  · have h : (Sys.constructLinear 2 1 2 ()).Rc = DMat.of Rc := h4
    rw [← DMat.PSD_of, ← h]; exact ⟨rfl, PosSemidef.zero⟩

example : ∃ g, cvFilter.correct (kfPlant cvClass fun _ => posClass) (.const 1 7) (.identity 1) 0 (some ()) = some g := by
  obtain ⟨g, _, _, _, _, h, _⟩ := C28_C30_kf_correct cv_contract (fun _ => pos_contract) cvFilter ()
    (cvEnv_ok (Q := EstimatePSD 2)).sys ((cvEnv_ok (Q := EstimatePSD 2)).meas ()) (x := 0) (P := 1) rfl rfl PosSemidef.one
    (fun _ => 7) 1 PosDef.one rfl
  exact ⟨g, h⟩

/-- A sensor of the whole state. -/
noncomputable def fullClass : MeasClass ℝ LinMeasData Unit :=
  MeasClass.plain fun s _ _ =>
    if s.stateSize = s.measDims then some { s with der := ⟨.identity s.stateSize⟩ } else some s

theorem full_contract : MeasContract LinMeasData.Sized fullClass := by
  apply plain_mcontract
  intro n k s x dt hs hx
  split
  next h =>
    have hk : n = k := by rw [← hs.states, ← hs.meas]; exact h
    subst hk
    exact ⟨_, rfl, ⟨hs.states, hs.meas, ⟨hs.states, hs.states⟩, hs.cov⟩, ⟨rfl, rfl, rfl, rfl⟩⟩
  next => exact ⟨s, rfl, hs, Meas.SameConfig.refl s⟩

theorem full_C {n : Nat} (s x dt s') (hs : s.Sized LinMeasData.Sized n n) (h : fullClass.myUpdate s x dt = some s') :
    s'.der.C = .identity n := by
  have h' : (if s.stateSize = s.measDims then some { s with der := ⟨.identity s.stateSize⟩ } else some s) = some s' := h
  rw [if_pos (by rw [hs.states, hs.meas])] at h'
  injection h' with h'
  subst h'
  show DMat.identity s.stateSize = _
  rw [hs.states]

noncomputable def fullEnv : Env Bool LinSysData Unit LinMeasData Unit :=
  { sys := Sys.constructLinear 2 1 2 (), meas := fun _ => Meas.constructLinear 2 2 () }

noncomputable def fullFilter : Filter ℝ DVec DMat Bool (Env Bool LinSysData Unit LinMeasData Unit) :=
  Filter.construct (kfPlant cvClass fun _ : Bool => fullClass)
    { allowPast := false, rewindHistory := false, historyWindow := 5 } fullEnv (.const 2 3) (.identity 2) 0

theorem fullEnv_ok : fullEnv.Ok LinSysData.Sized LinMeasData.Sized NoisePSD (EstimatePSD 2) 2 1 (fun _ => 2) where
  sys := ⟨rfl, rfl, ⟨⟨rfl, rfl⟩, rfl, rfl⟩, ⟨rfl, rfl⟩, ⟨rfl, rfl⟩, ⟨rfl, rfl⟩, ⟨rfl, rfl⟩⟩
  noise := ⟨⟨rfl, PosSemidef.zero⟩, ⟨rfl, PosSemidef.zero⟩⟩
  sysMake := fun x c h => ⟨x, c, rfl, h⟩
  meas := fun _ => ⟨rfl, rfl, ⟨rfl, rfl⟩, rfl, rfl⟩
  measMake := fun _ x c h => ⟨x, c, rfl, h⟩

example : ∃ g, fullFilter.correct (kfPlant cvClass fun _ => fullClass) (.const 2 7) (.zero 2 2) 0 (some true) = some g ∧
    g.getState = .const 2 7 ∧ g.getCovariance = .zero 2 2 :=
  C31_perfect_measurement cv_contract (fun _ => full_contract) (plain_ops _) (fun _ => plain_mops _) fullFilter true
    fullEnv_ok.sys (fullEnv_ok.meas true) (x := fun _ => 3) (P := 1) rfl rfl PosDef.one (fun _ => 7)
    (fun s x dt s' hs h => full_C s x dt s' hs h) rfl

example : ∃ g, fullFilter.correct (kfPlant cvClass fun _ => fullClass) (.const 2 7) (.identity 2) 0 (some true) = some g ∧
    g.getState = .const 2 5 := by
  obtain ⟨g, h1, h2, _⟩ :=
    C31_equal_certainty cv_contract (fun _ => full_contract) (plain_ops _) (fun _ => plain_mops _) fullFilter true
      fullEnv_ok.sys (fullEnv_ok.meas true) (x := fun _ => 3) (P := 1) rfl rfl PosDef.one (fun _ => 7)
      (fun s x dt s' hs h => full_C s x dt s' hs h) rfl
  refine ⟨g, h1, h2.trans ?_⟩
  show DVec.of _ = DVec.of fun _ => (5 : ℝ)
  congr 1
  funext i
  simp only [Pi.smul_apply, Pi.add_apply, smul_eq_mul]
  norm_num

example : ∃ g₁ g₂ h₁ h₂,
    fullFilter.correct (kfPlant cvClass fun _ => fullClass) (.const 2 7) (.identity 2) 0 (some true) = some g₁ ∧
    g₁.correct (kfPlant cvClass fun _ => fullClass) (.const 2 (-1)) (.identity 2) 0 (some false) = some g₂ ∧
    fullFilter.correct (kfPlant cvClass fun _ => fullClass) (.const 2 (-1)) (.identity 2) 0 (some false) = some h₁ ∧
    h₁.correct (kfPlant cvClass fun _ => fullClass) (.const 2 7) (.identity 2) 0 (some true) = some h₂ ∧
    g₂.getState = h₂.getState ∧ g₂.getCovariance = h₂.getCovariance ∧ g₂.getStateTime = h₂.getStateTime :=
  C32_measurements_commute cv_contract (fun _ => full_contract) (plain_ops _) (fun _ => plain_mops _) (fun _ => 2) fullFilter
    fullEnv_ok.sys fullEnv_ok.meas (x := fun _ => 3) (P := 1) rfl rfl PosSemidef.one (fun _ => 1)
    (fun _ s x dt s' hs h => full_C s x dt s' hs h) (fun _ => rfl) true false (fun _ => 7) (fun _ => -1) 1 1 PosDef.one PosDef.one

end Props
end StateEstimation
