import Verif.Props.Monotone
import Verif.Props.Kalman
import Mathlib.Analysis.Matrix.Order

/-!
# C146: a quantity that the system conserves and the filter knows stays as it is

`L` has one row for each linear quantity of the state: the total mass in two tanks, the sum of shares, a coordinate.
-/

set_option linter.unusedSectionVars false

namespace StateEstimation

open Matrix Kalman

variable {T K X Y : Type} {n m r : Nat}

/-! ### Specification -/

/-- Linear system models that conserve `L x` for noise covariances in `N0`: neither the dynamics nor the control nor the noise
change it. -/
def LinConserves (L : Matrix (Fin r) (Fin n) ℝ) (m : Nat) (N0 : DMat → Prop) (sc : SysClass T LinSysData X) : Prop :=
  ∀ (s : Sys LinSysData X) (x u : DVec) (dt : T) (s' : Sys LinSysData X), s.Sized LinSysData.Sized n m → x.size = n → u.size = m →
    N0 s.Rp → sc.myUpdate s x u dt = some s' →
    ∃ (p : Nat) (A : Matrix (Fin n) (Fin n) ℝ) (B V : Matrix (Fin n) (Fin m) ℝ) (W : Matrix (Fin n) (Fin p) ℝ)
      (Rp : Matrix (Fin p) (Fin p) ℝ), s'.der.A = .of A ∧ s'.der.B = .of B ∧ s'.P = .of W ∧ s'.Rp = .of Rp ∧ s'.V = .of V ∧
      L * A = L ∧ L * B = 0 ∧ L * (W * Rp * Wᵀ) = 0 ∧ L * V = 0

/-- Nonlinear system models that conserve `L x`: the prediction has the same `L x`, and the reported Jacobians say so. -/
def NonlinConserves (L : Matrix (Fin r) (Fin n) ℝ) (m : Nat) (N0 : DMat → Prop) (sc : SysClass T NonlinSysData X) : Prop :=
  ∀ (s : Sys NonlinSysData X) (x : Fin n → ℝ) (u : DVec) (dt : T) (s' : Sys NonlinSysData X), s.Sized NonlinSysData.Sized n m →
    u.size = m → N0 s.Rp → sc.myUpdate s (.of x) u dt = some s' →
    ∃ (p : Nat) (g : Fin n → ℝ) (G : Matrix (Fin n) (Fin n) ℝ) (V : Matrix (Fin n) (Fin m) ℝ) (W : Matrix (Fin n) (Fin p) ℝ)
      (Rp : Matrix (Fin p) (Fin p) ℝ), s'.der.g = .of g ∧ s'.der.G = .of G ∧ s'.P = .of W ∧ s'.Rp = .of Rp ∧ s'.V = .of V ∧
      L *ᵥ g = L *ᵥ x ∧ L * G = L ∧ L * (W * Rp * Wᵀ) = 0 ∧ L * V = 0

/-- The estimate is positive semidefinite, has the value `l` for the quantities, and claims covariance 0 for them. -/
def Knows (L : Matrix (Fin r) (Fin n) ℝ) (l : Fin r → ℝ) (x : DVec) (c : DMat) : Prop :=
  ∃ (v : Fin n → ℝ) (C : Matrix (Fin n) (Fin n) ℝ), x = .of v ∧ c = .of C ∧ C.PosSemidef ∧ L *ᵥ v = l ∧ L * C * Lᵀ = 0

/-- Noise covariances: positive semidefinite, and as the model expects. -/
def NoiseKept (N0 : DMat → Prop) (Rp Rc : DMat) : Prop := NoisePSD Rp Rc ∧ N0 Rp

/-! ### Steps -/

/-- zero variance means zero covariance with everything -/
theorem no_covariance {C : Matrix (Fin n) (Fin n) ℝ} (hC : C.PosSemidef) {L : Matrix (Fin r) (Fin n) ℝ} (h : L * C * Lᵀ = 0) :
    L * C = 0 := by
  have hrow : ∀ i, C *ᵥ L i = 0 := by
    intro i
    rw [← hC.dotProduct_mulVec_zero_iff]
    have := congrFun (congrFun h i) i
    rw [Matrix.mul_assoc, Matrix.mul_apply] at this
    simpa [dotProduct, Matrix.mulVec, Matrix.mul_apply, Matrix.transpose_apply] using this
  have hs : Cᵀ = C := by simpa using hC.isHermitian.eq
  ext i j
  have := congrFun (hrow i) j
  rw [Matrix.mul_apply]
  rw [Matrix.mulVec, dotProduct] at this
  rw [Matrix.zero_apply, ← Pi.zero_apply (M := fun _ : Fin n => ℝ) j, ← this]
  refine Finset.sum_congr rfl fun k _ => ?_
  rw [mul_comm, ← congrFun (congrFun hs j) k, Matrix.transpose_apply]

theorem Knows.exact {L : Matrix (Fin r) (Fin n) ℝ} {l : Fin r → ℝ} {x : DVec} {c : DMat} (h : Knows L l x c) :
    ∃ (v : Fin n → ℝ) (C : Matrix (Fin n) (Fin n) ℝ), x = .of v ∧ c = .of C ∧ C.PosSemidef ∧ L *ᵥ v = l ∧ L * C = 0 := by
  obtain ⟨v, C, h1, h2, h3, h4, h5⟩ := h
  exact ⟨v, C, h1, h2, h3, h4, no_covariance h3 h5⟩

theorem Knows.of_exact {L : Matrix (Fin r) (Fin n) ℝ} {l : Fin r → ℝ} {v : Fin n → ℝ} {C : Matrix (Fin n) (Fin n) ℝ}
    (h : EstimatePSD n (.of v) (.of C)) (hv : L *ᵥ v = l) (hC : L * C = 0) : Knows L l (.of v) (.of C) :=
  ⟨v, C, rfl, rfl, DMat.PSD_of.mp h.2, hv, by rw [hC, Matrix.zero_mul]⟩

theorem Knows.psd {L : Matrix (Fin r) (Fin n) ℝ} {l : Fin r → ℝ} {x : DVec} {c : DMat} (h : Knows L l x c) : EstimatePSD n x c := by
  obtain ⟨v, C, rfl, rfl, h3, -⟩ := h
  exact ⟨⟨rfl, rfl, rfl⟩, DMat.PSD_of.mpr h3⟩

theorem conserved_propagate {p : Nat} {L : Matrix (Fin r) (Fin n) ℝ} {A C : Matrix (Fin n) (Fin n) ℝ} {V : Matrix (Fin n) (Fin m) ℝ}
    {W : Matrix (Fin n) (Fin p) ℝ} {Rp : Matrix (Fin p) (Fin p) ℝ} {Rc : Matrix (Fin m) (Fin m) ℝ} (hA : L * A = L)
    (hW : L * (W * Rp * Wᵀ) = 0) (hV : L * V = 0) (hC : L * C = 0) : L * (A * C * Aᵀ + W * Rp * Wᵀ + V * Rc * Vᵀ) = 0 := by
  rw [Matrix.mul_add, Matrix.mul_add, hW, ← Matrix.mul_assoc, ← Matrix.mul_assoc, ← Matrix.mul_assoc, ← Matrix.mul_assoc, hA, hC, hV]
  simp

theorem conserved_gain {k : Nat} {L : Matrix (Fin r) (Fin n) ℝ} {C : Matrix (Fin n) (Fin n) ℝ} {H : Matrix (Fin k) (Fin n) ℝ}
    {R : Matrix (Fin k) (Fin k) ℝ} (hC : L * C = 0) : L * gain C H R = 0 := by
  unfold gain
  rw [← Matrix.mul_assoc, ← Matrix.mul_assoc, hC]
  simp

theorem conserved_post {k : Nat} {L : Matrix (Fin r) (Fin n) ℝ} {C : Matrix (Fin n) (Fin n) ℝ} {H : Matrix (Fin k) (Fin n) ℝ}
    {R : Matrix (Fin k) (Fin k) ℝ} (hC : L * C = 0) : L * Kalman.post C H R = 0 := by
  unfold Kalman.post
  rw [← Matrix.mul_assoc, Matrix.mul_sub, Matrix.mul_one, ← Matrix.mul_assoc, conserved_gain hC, Matrix.zero_mul, sub_zero, hC]

namespace Props

variable [DecidableEq K] {kd : K → Nat}

/-- the models of a filter that knows `L x = l` -/
abbrev LinKnowing (L : Matrix (Fin r) (Fin n) ℝ) (l : Fin r → ℝ) (N0 : DMat → Prop) (m : Nat) (kd : K → Nat)
    (e : Env K LinSysData X LinMeasData Y) : Prop :=
  e.Ok LinSysData.Sized LinMeasData.Sized (NoiseKept N0) (Knows L l) n m kd

abbrev NonlinKnowing (L : Matrix (Fin r) (Fin n) ℝ) (l : Fin r → ℝ) (N0 : DMat → Prop) (m : Nat) (kd : K → Nat)
    (e : Env K NonlinSysData X NonlinMeasData Y) : Prop :=
  e.Ok NonlinSysData.Sized NonlinMeasData.Sized (NoiseKept N0) (Knows L l) n m kd

theorem kf_inv_knows [TimeOps T] {sc : SysClass T LinSysData X} {mc : K → MeasClass T LinMeasData Y}
    (hsc : SysContract LinSysData.Sized sc) (hmc : ∀ j, MeasContract LinMeasData.Sized (mc j)) (hp : sc.PlainOps)
    {L : Matrix (Fin r) (Fin n) ℝ} (l : Fin r → ℝ) {N0 : DMat → Prop} (hL : LinConserves L m N0 sc) :
    PlantInv (kfPlant sc mc) True (Knows L l) (LinKnowing L l N0 m kd) (fun u => u.size = m)
      (fun R => R.Is m m ∧ R.PSD) (fun z c k => z.size = kd k ∧ c.Is (kd k) (kd k) ∧ c.PD) := by
  refine mkPlant_inv hsc hmc (fun _ _ h => h.psd.1.1) (fun _ _ _ h h' => ⟨⟨h.1.1, h'⟩, h.2⟩) (fun _ _ h => h.1.2) ?_ ?_
  · intro e x c u dt he hx hu
    obtain ⟨s', x', c', h1, h2, h3, h4⟩ := kfPredict_psd hsc he.sys he.noise.1.1 he.noise.1.2 hx.psd hu dt
      (fun s => ({ e with sys := s } : Env K LinSysData X LinMeasData Y))
    obtain ⟨v, C, rfl, rfl, -, hv, hC⟩ := hx.exact
    obtain ⟨s1, e1, hs1, hc1⟩ := he.sys.update hsc (x := .of v) rfl hu dt
    have e1' : sc.myUpdate e.sys (.of v) u dt = some s1 := by
      have e2 := e1
      unfold Sys.update at e2
      rwa [if_pos ⟨he.sys.states.symm, by rw [hu, he.sys.controls]⟩] at e2
    obtain ⟨p, A, B, V, W, Rp, hA, hB, hW, hRp, hV, l1, l2, l3, l4⟩ := hL _ _ _ _ _ he.sys rfl hu he.noise.2 e1'
    obtain ⟨Rc, hRc⟩ := hs1.Rc.exists_of
    obtain ⟨u, rfl⟩ := u.exists_of hu
    have hval : kfPredict sc e.sys (.of v) (.of C) (.of u) dt (fun s => ({ e with sys := s } : Env K LinSysData X LinMeasData Y)) =
        some (.of (A *ᵥ v + B *ᵥ u), .of (A * C * Aᵀ + W * Rp * Wᵀ + V * Rc * Vᵀ), { e with sys := s1 }) := by
      unfold kfPredict
      simp only [Option.bind_eq_bind, e1, Option.bind_some, hA, hB, hW, hRp, hV, hRc, DMat.mulVec_of, hp.add, DVec.add_of,
        propagateCov_of]
    rw [hval] at h1
    obtain ⟨rfl, rfl, hs⟩ : .of (A *ᵥ v + B *ᵥ u) = x' ∧ .of (A * C * Aᵀ + W * Rp * Wᵀ + V * Rc * Vᵀ) = c' ∧
        ({ e with sys := s1 } : Env K LinSysData X LinMeasData Y) = { e with sys := s' } := by
      have := Option.some.inj h1
      exact ⟨congrArg Prod.fst this, congrArg (fun r => r.2.1) this, congrArg (fun r => r.2.2) this⟩
    refine OptP.of_eq hval ⟨Knows.of_exact h2 ?_ (conserved_propagate l1 l3 l4 hC), he.setSys hs1 hc1⟩
    rw [Matrix.mulVec_add, Matrix.mulVec_mulVec, Matrix.mulVec_mulVec, l1, l2, Matrix.zero_mulVec, add_zero, hv]
  · intro e x c z j dt he hx hz hR
    obtain ⟨m', x', c', h1, h2, h3, h4, -⟩ :=
      kfCorrect_psd hsc (hmc j) he.sys (he.meas j) hR hx.psd hz dt (e.setMeas j)
    obtain ⟨v, C, rfl, rfl, hCp, hv, hC⟩ := hx.exact
    obtain ⟨m1, e1, hm1, hc1⟩ := (he.meas j).update (hmc j) (x := .of v) rfl dt
    obtain ⟨H, hH⟩ := DMat.Is.exists_of hm1.der
    obtain ⟨R, hRR⟩ := hm1.cov.exists_of
    rw [← hc1.cov, hRR, DMat.PD_of] at hR
    have hS := pd_isUnit_det (innov_pd hCp H hR)
    obtain ⟨dz, hdz, hdz2⟩ := (hmc j).sub m1 z (.of (H *ᵥ v)) hm1 hz rfl
    obtain ⟨dz, rfl⟩ := dz.exists_of hdz2
    have hval : kfCorrect sc (mc j) e.sys (e.meas j) (.of v) (.of C) z dt (e.setMeas j) =
        some (.of (v + gain C H R *ᵥ dz), .of (Kalman.post C H R), e.setMeas j m1) := by
      unfold kfCorrect
      simp only [Option.bind_eq_bind, e1, Option.bind_some, hH, hRR, kalmanGain_of _ _ _ hS, DMat.mulVec_of, hdz, hp.add, DVec.add_of,
        shrinkCov_of]
      rfl
    rw [hval] at h1
    obtain ⟨rfl, rfl⟩ : .of (v + gain C H R *ᵥ dz) = x' ∧ .of (Kalman.post C H R) = c' := by
      have := Option.some.inj h1
      exact ⟨congrArg Prod.fst this, congrArg (fun r => r.2.1) this⟩
    refine OptP.of_eq hval ⟨Knows.of_exact h2 ?_ (conserved_post hC), he.setMeas j hm1 hc1⟩
    rw [Matrix.mulVec_add, Matrix.mulVec_mulVec, conserved_gain hC, Matrix.zero_mulVec, add_zero, hv]

theorem ekf_inv_knows [TimeOps T] {sc : SysClass T NonlinSysData X} {mc : K → MeasClass T NonlinMeasData Y}
    (hsc : SysContract NonlinSysData.Sized sc) (hmc : ∀ j, MeasContract NonlinMeasData.Sized (mc j)) (hp : sc.PlainOps)
    {L : Matrix (Fin r) (Fin n) ℝ} (l : Fin r → ℝ) {N0 : DMat → Prop} (hL : NonlinConserves L m N0 sc) :
    PlantInv (ekfPlant sc mc) True (Knows L l) (NonlinKnowing L l N0 m kd) (fun u => u.size = m)
      (fun R => R.Is m m ∧ R.PSD) (fun z c k => z.size = kd k ∧ c.Is (kd k) (kd k) ∧ c.PD) := by
  refine mkPlant_inv hsc hmc (fun _ _ h => h.psd.1.1) (fun _ _ _ h h' => ⟨⟨h.1.1, h'⟩, h.2⟩) (fun _ _ h => h.1.2) ?_ ?_
  · intro e x c u dt he hx hu
    obtain ⟨s', x', c', h1, h2, h3, h4⟩ := ekfPredict_psd hsc he.sys he.noise.1.1 he.noise.1.2 hx.psd hu dt
      (fun s => ({ e with sys := s } : Env K NonlinSysData X NonlinMeasData Y))
    obtain ⟨v, C, rfl, rfl, -, hv, hC⟩ := hx.exact
    obtain ⟨s1, e1, hs1, hc1⟩ := he.sys.update hsc (x := .of v) rfl hu dt
    have e1' : sc.myUpdate e.sys (.of v) u dt = some s1 := by
      have e2 := e1
      unfold Sys.update at e2
      rwa [if_pos ⟨he.sys.states.symm, by rw [hu, he.sys.controls]⟩] at e2
    obtain ⟨p, g, G, V, W, Rp, hg, hG, hW, hRp, hV, l1, l2, l3, l4⟩ := hL _ _ _ _ _ he.sys hu he.noise.2 e1'
    obtain ⟨Rc, hRc⟩ := hs1.Rc.exists_of
    have hval : ekfPredict sc e.sys (.of v) (.of C) u dt (fun s => ({ e with sys := s } : Env K NonlinSysData X NonlinMeasData Y)) =
        some (.of g, .of (G * C * Gᵀ + W * Rp * Wᵀ + V * Rc * Vᵀ), { e with sys := s1 }) := by
      unfold ekfPredict
      simp only [Option.bind_eq_bind, e1, Option.bind_some, hg, hG, hW, hRp, hV, hRc, propagateCov_of]
    rw [hval] at h1
    obtain ⟨rfl, rfl, hs⟩ : .of g = x' ∧ .of (G * C * Gᵀ + W * Rp * Wᵀ + V * Rc * Vᵀ) = c' ∧
        ({ e with sys := s1 } : Env K NonlinSysData X NonlinMeasData Y) = { e with sys := s' } := by
      have := Option.some.inj h1
      exact ⟨congrArg Prod.fst this, congrArg (fun r => r.2.1) this, congrArg (fun r => r.2.2) this⟩
    exact OptP.of_eq hval ⟨Knows.of_exact h2 (l1.trans hv) (conserved_propagate l2 l3 l4 hC), he.setSys hs1 hc1⟩
  · intro e x c z j dt he hx hz hR
    obtain ⟨m', x', c', h1, h2, h3, h4, -⟩ :=
      ekfCorrect_psd hsc (hmc j) he.sys (he.meas j) hR hx.psd hz dt (e.setMeas j)
    obtain ⟨v, C, rfl, rfl, hCp, hv, hC⟩ := hx.exact
    obtain ⟨m1, e1, hm1, hc1⟩ := (he.meas j).update (hmc j) (x := .of v) rfl dt
    obtain ⟨H, hH⟩ := hm1.der.2.exists_of
    obtain ⟨R, hRR⟩ := hm1.cov.exists_of
    rw [← hc1.cov, hRR, DMat.PD_of] at hR
    have hS := pd_isUnit_det (innov_pd hCp H hR)
    obtain ⟨dz, hdz, hdz2⟩ := (hmc j).sub m1 z m1.der.h hm1 hz hm1.der.1
    obtain ⟨dz, rfl⟩ := dz.exists_of hdz2
    have hval : ekfCorrect sc (mc j) e.sys (e.meas j) (.of v) (.of C) z dt (e.setMeas j) =
        some (.of (v + gain C H R *ᵥ dz), .of (Kalman.post C H R), e.setMeas j m1) := by
      unfold ekfCorrect
      simp only [Option.bind_eq_bind, e1, Option.bind_some, hH, hRR, kalmanGain_of _ _ _ hS, DMat.mulVec_of, hdz, hp.add, DVec.add_of,
        shrinkCov_of]
      rfl
    rw [hval] at h1
    obtain ⟨rfl, rfl⟩ : .of (v + gain C H R *ᵥ dz) = x' ∧ .of (Kalman.post C H R) = c' := by
      have := Option.some.inj h1
      exact ⟨congrArg Prod.fst this, congrArg (fun r => r.2.1) this⟩
    refine OptP.of_eq hval ⟨Knows.of_exact h2 ?_ (conserved_post hC), he.setMeas j hm1 hc1⟩
    rw [Matrix.mulVec_add, Matrix.mulVec_mulVec, conserved_gain hC, Matrix.zero_mulVec, add_zero, hv]

/-- **C146 (Kalman filter).**  The system model conserves the linear quantities `L x`, and the filter is started with a positive
semidefinite covariance that claims no uncertainty about them.  In every history of calls, whatever the sensors measure, every
estimate the filter retains has the initial value of these quantities and still claims no uncertainty about them. -/
theorem C146_kf [TimeOps T] [SaneTime T] {sc : SysClass T LinSysData X} {mc : K → MeasClass T LinMeasData Y}
    (hsc : SysContract LinSysData.Sized sc) (hmc : ∀ j, MeasContract LinMeasData.Sized (mc j)) (hp : sc.PlainOps)
    (L : Matrix (Fin r) (Fin n) ℝ) (N0 : DMat → Prop) (hL : LinConserves L m N0 sc)
    (sort : List (FilterInput T DVec DMat K) → List (FilterInput T DVec DMat K)) (hsort : ∀ l, (sort l).Perm l)
    (params : Params T) (e : Env K LinSysData X LinMeasData Y) (v : Fin n → ℝ) (C : Matrix (Fin n) (Fin n) ℝ) (t : T)
    (hC : C.PosSemidef) (hk : L * C * Lᵀ = 0) (he : LinKnowing L (L *ᵥ v) N0 m kd e)
    (ops : List (Op T DVec DMat K (Env K LinSysData X LinMeasData Y)))
    (hops : ∀ op ∈ ops, op.WellFormed (Knows L (L *ᵥ v)) (LinKnowing L (L *ᵥ v) N0 m kd) m kd DMat.PD) :
    ∃ g, (Filter.construct (kfPlant sc mc) params e (.of v) (.of C) t).run (kfPlant sc mc) sort ops = some g ∧
      Knows L (L *ᵥ v) g.getState g.getCovariance ∧ ∀ s ∈ g.retained, Knows L (L *ᵥ v) s.x s.covariance := by
  obtain ⟨g, h1, h2, _⟩ := OptP.exists_of_total
    (mkPlant_run (kf_inv_knows hsc hmc hp (L *ᵥ v) hL) sort hsort params e he (.of v) (.of C) t ⟨v, C, rfl, rfl, hC, rfl, hk⟩ ops hops)
  exact ⟨g, h1, h2 g.state (by simp [Filter.retained]), h2⟩

/-- **C146 (EKF).** -/
theorem C146_ekf [TimeOps T] [SaneTime T] {sc : SysClass T NonlinSysData X} {mc : K → MeasClass T NonlinMeasData Y}
    (hsc : SysContract NonlinSysData.Sized sc) (hmc : ∀ j, MeasContract NonlinMeasData.Sized (mc j)) (hp : sc.PlainOps)
    (L : Matrix (Fin r) (Fin n) ℝ) (N0 : DMat → Prop) (hL : NonlinConserves L m N0 sc)
    (sort : List (FilterInput T DVec DMat K) → List (FilterInput T DVec DMat K)) (hsort : ∀ l, (sort l).Perm l)
    (params : Params T) (e : Env K NonlinSysData X NonlinMeasData Y) (v : Fin n → ℝ) (C : Matrix (Fin n) (Fin n) ℝ) (t : T)
    (hC : C.PosSemidef) (hk : L * C * Lᵀ = 0) (he : NonlinKnowing L (L *ᵥ v) N0 m kd e)
    (ops : List (Op T DVec DMat K (Env K NonlinSysData X NonlinMeasData Y)))
    (hops : ∀ op ∈ ops, op.WellFormed (Knows L (L *ᵥ v)) (NonlinKnowing L (L *ᵥ v) N0 m kd) m kd DMat.PD) :
    ∃ g, (Filter.construct (ekfPlant sc mc) params e (.of v) (.of C) t).run (ekfPlant sc mc) sort ops = some g ∧
      Knows L (L *ᵥ v) g.getState g.getCovariance ∧ ∀ s ∈ g.retained, Knows L (L *ᵥ v) s.x s.covariance := by
  obtain ⟨g, h1, h2, _⟩ := OptP.exists_of_total
    (mkPlant_run (ekf_inv_knows hsc hmc hp (L *ᵥ v) hL) sort hsort params e he (.of v) (.of C) t ⟨v, C, rfl, rfl, hC, rfl, hk⟩ ops hops)
  exact ⟨g, h1, h2 g.state (by simp [Filter.retained]), h2⟩

/-! ### A concrete case: two connected tanks

A quarter of the difference flows over in every step, a pump moves water from the second tank to the first, both not quite as
expected.  The total of 10 is known, how it is divided is not; only the first tank has a level sensor. -/

/-- The dynamics of the two tanks. -/
noncomputable def tankClass : SysClass ℝ LinSysData Unit :=
  SysClass.plain fun s _ _ _ =>
    if s.stateSize = 2 ∧ s.controlDims = 1 ∧ s.Rp.rows = 1 then
      some { s with der := ⟨.of !![3 / 4, 1 / 4; 1 / 4, 3 / 4], .of !![1; -1]⟩, P := .of !![1; -1], V := .of !![1; -1] }
    else some s

theorem tank_contract : SysContract LinSysData.Sized tankClass := by
  apply Examples.plain_contract
  intro n m s x u dt hs hx hu
  split
  next h =>
    obtain ⟨h1, h2, h3⟩ := h
    have hn : n = 2 := by rw [← hs.states]; exact h1
    have hm : m = 1 := by rw [← hs.controls]; exact h2
    subst hn hm
    exact ⟨_, rfl, ⟨hs.states, hs.controls, ⟨⟨rfl, rfl⟩, rfl, rfl⟩, ⟨rfl, h3.symm⟩, hs.Rp, ⟨rfl, rfl⟩, hs.Rc⟩,
      ⟨rfl, rfl, rfl, rfl, rfl⟩⟩
  next => exact ⟨s, rfl, hs, Sys.SameConfig.refl s⟩

/-- the total -/
def total : Matrix (Fin 1) (Fin 2) ℝ := !![1, 1]

theorem tank_conserves : LinConserves total 1 (fun Rp => Rp.Is 1 1) tankClass := by
  intro s x u dt s' hs hx hu hN h
  change (if s.stateSize = 2 ∧ s.controlDims = 1 ∧ s.Rp.rows = 1 then _ else _) = some s' at h
  rw [if_pos ⟨hs.states, hs.controls, hN.1⟩] at h
  injection h with h
  subst h
  obtain ⟨Rp, hRp⟩ := hN.exists_of
  have e1 : total * (!![1; -1] : Matrix (Fin 2) (Fin 1) ℝ) = 0 := by
    ext i j; fin_cases i; fin_cases j; simp [total, Matrix.mul_apply, Fin.sum_univ_two]
  refine ⟨1, !![3 / 4, 1 / 4; 1 / 4, 3 / 4], !![1; -1], !![1; -1], !![1; -1], Rp, rfl, rfl, rfl, hRp, rfl, ?_, e1, ?_, e1⟩
  · ext i j; fin_cases i; fin_cases j <;> simp [total, Matrix.mul_apply, Fin.sum_univ_two] <;> norm_num
  · rw [← Matrix.mul_assoc, ← Matrix.mul_assoc, e1]; simp

/-- the level sensor: prediction and `C` as they were set up -/
noncomputable def levelClass : MeasClass ℝ LinMeasData Unit := MeasClass.plain fun s _ _ => some s

theorem level_contract : MeasContract LinMeasData.Sized levelClass := by
  apply Examples.plain_mcontract
  intro n k s x dt hs hx
  exact ⟨s, rfl, hs, Meas.SameConfig.refl s⟩

/-- the two tanks, process and control noise 1, a level sensor on the first -/
noncomputable def tankEnv : Env Unit LinSysData Unit LinMeasData Unit :=
  { sys := { Sys.constructLinear 2 1 1 () with Rp := .of (1 : Matrix (Fin 1) (Fin 1) ℝ), Rc := .of (1 : Matrix (Fin 1) (Fin 1) ℝ) }
    meas := fun _ => { Meas.constructLinear 2 1 () with der := ⟨.of !![1, 0]⟩ } }

/-- unknown division of a known total -/
def unknownSplit : Matrix (Fin 2) (Fin 2) ℝ := !![1, -1; -1, 1]

theorem unknownSplit_psd : unknownSplit.PosSemidef := by
  have : unknownSplit = (!![1; -1] : Matrix (Fin 2) (Fin 1) ℝ) * (!![1; -1] : Matrix (Fin 2) (Fin 1) ℝ)ᴴ := by
    ext i j; fin_cases i <;> fin_cases j <;> simp [unknownSplit, Matrix.mul_apply]
  rw [this]
  exact Matrix.posSemidef_self_mul_conjTranspose _

theorem total_split : total *ᵥ ![6, 4] = ![10] := by
  ext i; fin_cases i; simp [total, Matrix.mulVec, dotProduct, Fin.sum_univ_two]; norm_num

/-- Non-vacuity of C146: pumping, level readings (the first far off), late data and a revert; the estimated total is 10
throughout, and known. -/
example (sort : List (FilterInput ℝ DVec DMat Unit) → List (FilterInput ℝ DVec DMat Unit)) (hsort : ∀ l, (sort l).Perm l) :
    ∃ g, (Filter.construct (kfPlant tankClass fun _ => levelClass) { rewindHistory := true, historyWindow := 5, allowPast := false }
        tankEnv (.of ![6, 4]) (.of unknownSplit) 0).run (kfPlant tankClass fun _ => levelClass) sort
        [.predictControl (.of ![2]) 1, .correct (.of ![100]) (.identity 1) 2 (some ()), .correct (.of ![5]) (.identity 1) 1.5 (some ()),
          .predictTime 4, .revertToState 3] = some g ∧
      ∀ s ∈ g.retained, Knows total ![10] s.x s.covariance := by
  have he : LinKnowing total (total *ᵥ ![6, 4]) (fun Rp => Rp.Is 1 1) 1 (fun _ => 1) tankEnv := by
    refine ⟨⟨rfl, rfl, ⟨⟨rfl, rfl⟩, rfl, rfl⟩, ⟨rfl, rfl⟩, ⟨rfl, rfl⟩, ⟨rfl, rfl⟩, ⟨rfl, rfl⟩⟩, ⟨⟨?_, ?_⟩, rfl, rfl⟩,
      fun x c h => ⟨x, c, rfl, h⟩, fun _ => ⟨rfl, rfl, ⟨rfl, rfl⟩, rfl, rfl⟩, fun _ x c h => ⟨x, c, rfl, h⟩⟩
    · exact DMat.PSD_of.mpr PosSemidef.one
    · exact DMat.PSD_of.mpr PosSemidef.one
  obtain ⟨g, h1, -, h2⟩ := C146_kf tank_contract (fun _ => level_contract) ⟨fun _ => rfl, fun _ => rfl, fun _ => rfl⟩ total
    (fun Rp => Rp.Is 1 1) tank_conserves sort hsort { rewindHistory := true, historyWindow := 5, allowPast := false } tankEnv ![6, 4] unknownSplit 0
    unknownSplit_psd (by
      ext i j; fin_cases i; fin_cases j; simp [total, unknownSplit, Matrix.mul_apply, Fin.sum_univ_two, Matrix.transpose_apply]) he
    [.predictControl (.of ![2]) 1, .correct (.of ![100]) (.identity 1) 2 (some ()), .correct (.of ![5]) (.identity 1) 1.5 (some ()),
          .predictTime 4, .revertToState 3] (by
    intro op hop
    simp only [List.mem_cons, List.not_mem_nil, or_false] at hop
    rcases hop with rfl | rfl | rfl | rfl | rfl
    · exact Or.inl rfl
    · exact ⟨(), rfl, rfl, ⟨rfl, rfl⟩, ⟨rfl, PosDef.one⟩⟩
    · exact ⟨(), rfl, rfl, ⟨rfl, rfl⟩, ⟨rfl, PosDef.one⟩⟩
    · trivial
    · trivial)
  rw [total_split] at h2
  exact ⟨g, h1, h2⟩

end Props
end StateEstimation
