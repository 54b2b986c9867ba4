import Verif.Lemmas.Observed
import Verif.Props.Monotone
import Verif.Props.Kalman
import Verif.Examples.Linear
import Mathlib.Analysis.Matrix.Order

/-!
# C147: what no sensor sees is never learned

The columns of `U` are directions in the state space: the common position of vehicles that only measure their distances, a
coordinate nobody measures.
-/

set_option linter.unusedSectionVars false

namespace StateEstimation

open Matrix Kalman

variable {T K X Y : Type} {n m r : Nat}

/-! ### Specification -/

/-- Linear system models that leave a displacement in the directions `U` as it is, `A U = U`. -/
def LinKeepsDir (U : Matrix (Fin n) (Fin r) ℝ) (m : Nat) (sc : SysClass T LinSysData X) : Prop :=
  ∀ (s : Sys LinSysData X) (x u : DVec) (dt : T) (s' : Sys LinSysData X), s.Sized LinSysData.Sized n m → x.size = n → u.size = m →
    sc.myUpdate s x u dt = some s' → ∃ A : Matrix (Fin n) (Fin n) ℝ, s'.der.A = .of A ∧ A * U = U

/-- Nonlinear system models whose reported Jacobian says so, wherever it is evaluated. -/
def NonlinKeepsDir (U : Matrix (Fin n) (Fin r) ℝ) (m : Nat) (sc : SysClass T NonlinSysData X) : Prop :=
  ∀ (s : Sys NonlinSysData X) (x u : DVec) (dt : T) (s' : Sys NonlinSysData X), s.Sized NonlinSysData.Sized n m → x.size = n →
    u.size = m → sc.myUpdate s x u dt = some s' → ∃ G : Matrix (Fin n) (Fin n) ℝ, s'.der.G = .of G ∧ G * U = U

/-- Linear sensors that do not see a displacement in the directions `U`, `C U = 0`. -/
def LinBlind (U : Matrix (Fin n) (Fin r) ℝ) (k : Nat) (mc : MeasClass T LinMeasData Y) : Prop :=
  ∀ (s : Meas LinMeasData Y) (x : DVec) (dt : T) (s' : Meas LinMeasData Y), s.Sized LinMeasData.Sized n k → x.size = n →
    mc.myUpdate s x dt = some s' → ∃ H : Matrix (Fin k) (Fin n) ℝ, s'.der.C = .of H ∧ H * U = 0

/-- Nonlinear sensors whose reported Jacobian says so, wherever it is evaluated. -/
def NonlinBlind (U : Matrix (Fin n) (Fin r) ℝ) (k : Nat) (mc : MeasClass T NonlinMeasData Y) : Prop :=
  ∀ (s : Meas NonlinMeasData Y) (x : DVec) (dt : T) (s' : Meas NonlinMeasData Y), s.Sized NonlinMeasData.Sized n k → x.size = n →
    mc.myUpdate s x dt = some s' → ∃ H : Matrix (Fin k) (Fin n) ℝ, s'.der.H = .of H ∧ H * U = 0

/-- The claimed uncertainty contains at least the uncertainty `S` in the directions `U`. -/
def Unsure (U : Matrix (Fin n) (Fin r) ℝ) (S : Matrix (Fin r) (Fin r) ℝ) (x : DVec) (c : DMat) : Prop :=
  ∃ (v : Fin n → ℝ) (C : Matrix (Fin n) (Fin n) ℝ), x = .of v ∧ c = .of C ∧ C.PosSemidef ∧ (C - U * S * Uᵀ).PosSemidef

/-! ### Steps -/

theorem Unsure.psd {U : Matrix (Fin n) (Fin r) ℝ} {S : Matrix (Fin r) (Fin r) ℝ} {x : DVec} {c : DMat} (h : Unsure U S x c) :
    EstimatePSD n x c := by
  obtain ⟨v, C, rfl, rfl, h3, -⟩ := h
  exact ⟨⟨rfl, rfl, rfl⟩, DMat.PSD_of.mpr h3⟩

/-- so no linear function `w x` of the state is claimed to be better known than `S` allows -/
theorem Unsure.variance {U : Matrix (Fin n) (Fin r) ℝ} {S : Matrix (Fin r) (Fin r) ℝ} {x : DVec} {C : Matrix (Fin n) (Fin n) ℝ}
    (h : Unsure U S x (.of C)) (w : Fin n → ℝ) : (Uᵀ *ᵥ w) ⬝ᵥ S *ᵥ (Uᵀ *ᵥ w) ≤ w ⬝ᵥ C *ᵥ w := by
  obtain ⟨v, C', -, h2, -, h4⟩ := h
  obtain rfl := DMat.of_inj.mp h2
  have := Observed.psd_nonneg h4 w
  rw [Matrix.sub_mulVec, dotProduct_sub, Observed.quad_conj'] at this
  linarith

theorem unsure_propagate {p : Nat} {U : Matrix (Fin n) (Fin r) ℝ} {S : Matrix (Fin r) (Fin r) ℝ} {A C : Matrix (Fin n) (Fin n) ℝ}
    {V : Matrix (Fin n) (Fin m) ℝ} {W : Matrix (Fin n) (Fin p) ℝ} {Rp : Matrix (Fin p) (Fin p) ℝ} {Rc : Matrix (Fin m) (Fin m) ℝ}
    (hA : A * U = U) (hRp : Rp.PosSemidef) (hRc : Rc.PosSemidef) (hC : (C - U * S * Uᵀ).PosSemidef) :
    (A * C * Aᵀ + W * Rp * Wᵀ + V * Rc * Vᵀ - U * S * Uᵀ).PosSemidef := by
  have e : A * C * Aᵀ + W * Rp * Wᵀ + V * Rc * Vᵀ - U * S * Uᵀ = A * (C - U * S * Uᵀ) * Aᵀ + W * Rp * Wᵀ + V * Rc * Vᵀ := by
    have : A * (U * S * Uᵀ) * Aᵀ = U * S * Uᵀ := by
      calc A * (U * S * Uᵀ) * Aᵀ = (A * U) * S * (A * U)ᵀ := by simp only [Matrix.transpose_mul, Matrix.mul_assoc]
        _ = _ := by rw [hA]
    rw [Matrix.mul_sub, Matrix.sub_mul, this]
    abel
  rw [e]
  exact ((psd_conj hC _).add (psd_conj hRp _)).add (psd_conj hRc _)

theorem unsure_post {k : Nat} {U : Matrix (Fin n) (Fin r) ℝ} {S : Matrix (Fin r) (Fin r) ℝ} {C : Matrix (Fin n) (Fin n) ℝ}
    {H : Matrix (Fin k) (Fin n) ℝ} {R : Matrix (Fin k) (Fin k) ℝ} (hCp : C.PosSemidef) (hR : R.PosDef)
    (hH : H * U = 0) (hC : (C - U * S * Uᵀ).PosSemidef) : (Kalman.post C H R - U * S * Uᵀ).PosSemidef := by
  rw [post_joseph (psd_symm hCp) (pd_isUnit_det (innov_pd hCp H hR)) (psd_symm hR.posSemidef)]
  generalize gain C H R = G
  have hU : (1 - G * H) * U = U := by rw [Matrix.sub_mul, Matrix.mul_assoc, hH, Matrix.mul_zero, sub_zero, Matrix.one_mul]
  have : (1 - G * H) * (U * S * Uᵀ) * (1 - G * H)ᵀ = U * S * Uᵀ := by
    calc (1 - G * H) * (U * S * Uᵀ) * (1 - G * H)ᵀ = ((1 - G * H) * U) * S * ((1 - G * H) * U)ᵀ := by
          simp only [Matrix.transpose_mul, Matrix.mul_assoc]
      _ = _ := by rw [hU]
  have e : (1 - G * H) * C * (1 - G * H)ᵀ + G * R * Gᵀ - U * S * Uᵀ =
      (1 - G * H) * (C - U * S * Uᵀ) * (1 - G * H)ᵀ + G * R * Gᵀ := by
    rw [Matrix.mul_sub (1 - G * H), Matrix.sub_mul ((1 - G * H) * C), this]
    abel
  rw [e]
  exact (psd_conj hC _).add (psd_conj hR.posSemidef _)

namespace Props

variable [DecidableEq K] {kd : K → Nat}

/-- the models of such a filter -/
abbrev LinUnsure (U : Matrix (Fin n) (Fin r) ℝ) (S : Matrix (Fin r) (Fin r) ℝ) (m : Nat) (kd : K → Nat)
    (e : Env K LinSysData X LinMeasData Y) : Prop :=
  e.Ok LinSysData.Sized LinMeasData.Sized NoisePSD (Unsure U S) n m kd

abbrev NonlinUnsure (U : Matrix (Fin n) (Fin r) ℝ) (S : Matrix (Fin r) (Fin r) ℝ) (m : Nat) (kd : K → Nat)
    (e : Env K NonlinSysData X NonlinMeasData Y) : Prop :=
  e.Ok NonlinSysData.Sized NonlinMeasData.Sized NoisePSD (Unsure U S) n m kd

theorem kf_inv_unsure [TimeOps T] {sc : SysClass T LinSysData X} {mc : K → MeasClass T LinMeasData Y}
    (hsc : SysContract LinSysData.Sized sc) (hmc : ∀ j, MeasContract LinMeasData.Sized (mc j))
    {U : Matrix (Fin n) (Fin r) ℝ} (S : Matrix (Fin r) (Fin r) ℝ) (hL : LinKeepsDir U m sc) (hM : ∀ j, LinBlind U (kd j) (mc j)) :
    PlantInv (kfPlant sc mc) True (Unsure U S) (LinUnsure U S m kd) (fun u => u.size = m)
      (fun R => R.Is m m ∧ R.PSD) (fun z c k => z.size = kd k ∧ c.Is (kd k) (kd k) ∧ c.PD) := by
  refine mkPlant_inv hsc hmc (fun _ _ h => h.psd.1.1) (fun _ _ _ h h' => ⟨h.1, h'⟩) (fun _ _ h => h.2) ?_ ?_
  · intro e x c u dt he hx hu
    obtain ⟨s', x', c', h1, h2, h3, h4⟩ := kfPredict_psd hsc he.sys he.noise.1 he.noise.2 (Unsure.psd hx) hu dt
      (fun s => ({ e with sys := s } : Env K LinSysData X LinMeasData Y))
    obtain ⟨v, C, rfl, rfl, hCp, hC⟩ := hx
    obtain ⟨s1, e1, hs1, hc1⟩ := he.sys.update hsc (x := .of v) rfl hu dt
    have e1' : sc.myUpdate e.sys (.of v) u dt = some s1 := by
      have e2 := e1
      unfold Sys.update at e2
      rwa [if_pos ⟨he.sys.states.symm, by rw [hu, he.sys.controls]⟩] at e2
    obtain ⟨A, hA, l1⟩ := hL _ _ _ _ _ he.sys rfl hu e1'
    obtain ⟨B, hB⟩ := hs1.der.2.exists_of
    obtain ⟨W, hW⟩ := hs1.P.exists_of
    obtain ⟨Rp, hRp⟩ := hs1.Rp.exists_of
    obtain ⟨V, hV⟩ := hs1.V.exists_of
    obtain ⟨Rc, hRc⟩ := hs1.Rc.exists_of
    obtain ⟨u, rfl⟩ := u.exists_of hu
    obtain ⟨y, hy, hy2⟩ := hsc.add s1 (.of (A *ᵥ v)) (.of (B *ᵥ u)) hs1 rfl rfl
    obtain ⟨y, rfl⟩ := y.exists_of hy2
    have hval : kfPredict sc e.sys (.of v) (.of C) (.of u) dt (fun s => ({ e with sys := s } : Env K LinSysData X LinMeasData Y)) =
        some (.of y, .of (A * C * Aᵀ + W * Rp * Wᵀ + V * Rc * Vᵀ), { e with sys := s1 }) := by
      unfold kfPredict
      simp only [Option.bind_eq_bind, e1, Option.bind_some, hA, hB, hW, hRp, hV, hRc, DMat.mulVec_of, hy,
        propagateCov_of]
    rw [hval] at h1
    obtain ⟨rfl, rfl, hs⟩ : .of y = x' ∧ .of (A * C * Aᵀ + W * Rp * Wᵀ + V * Rc * Vᵀ) = c' ∧
        ({ e with sys := s1 } : Env K LinSysData X LinMeasData Y) = { e with sys := s' } := by
      have := Option.some.inj h1
      exact ⟨congrArg Prod.fst this, congrArg (fun r => r.2.1) this, congrArg (fun r => r.2.2) this⟩
    have hRpp : Rp.PosSemidef := DMat.PSD_of.mp (hRp ▸ hc1.Rp ▸ he.noise.1)
    have hRcp : Rc.PosSemidef := DMat.PSD_of.mp (hRc ▸ hc1.Rc ▸ he.noise.2)
    exact OptP.of_eq hval ⟨⟨_, _, rfl, rfl, DMat.PSD_of.mp h2.2, unsure_propagate l1 hRpp hRcp hC⟩, he.setSys hs1 hc1⟩
  · intro e x c z j dt he hx hz hR
    obtain ⟨m', x', c', h1, h2, h3, h4, -⟩ :=
      kfCorrect_psd hsc (hmc j) he.sys (he.meas j) hR (Unsure.psd hx) hz dt (e.setMeas j)
    obtain ⟨v, C, rfl, rfl, hCp, hC⟩ := hx
    obtain ⟨m1, e1, hm1, hc1⟩ := (he.meas j).update (hmc j) (x := .of v) rfl dt
    have e1' : (mc j).myUpdate (e.meas j) (.of v) dt = some m1 := by
      have e2 := e1
      unfold Meas.update at e2
      rwa [if_pos (he.meas j).states.symm] at e2
    obtain ⟨H, hH, hHU⟩ := hM j _ _ _ _ (he.meas j) rfl e1'
    obtain ⟨R, hRR⟩ := hm1.cov.exists_of
    rw [← hc1.cov, hRR, DMat.PD_of] at hR
    have hS := pd_isUnit_det (innov_pd hCp H hR)
    obtain ⟨dz, hdz, hdz2⟩ := (hmc j).sub m1 z (.of (H *ᵥ v)) hm1 hz rfl
    obtain ⟨dz, rfl⟩ := dz.exists_of hdz2
    obtain ⟨y, hy, hy2⟩ := hsc.add e.sys (.of v) (.of (gain C H R *ᵥ dz)) he.sys rfl rfl
    obtain ⟨y, rfl⟩ := y.exists_of hy2
    have hval : kfCorrect sc (mc j) e.sys (e.meas j) (.of v) (.of C) z dt (e.setMeas j) =
        some (.of y, .of (Kalman.post C H R), e.setMeas j m1) := by
      unfold kfCorrect
      simp only [Option.bind_eq_bind, e1, Option.bind_some, hH, hRR, kalmanGain_of _ _ _ hS, DMat.mulVec_of, hdz, hy,
        shrinkCov_of]
      rfl
    rw [hval] at h1
    obtain ⟨rfl, rfl⟩ : .of y = x' ∧ .of (Kalman.post C H R) = c' := by
      have := Option.some.inj h1
      exact ⟨congrArg Prod.fst this, congrArg (fun r => r.2.1) this⟩
    exact OptP.of_eq hval ⟨⟨_, _, rfl, rfl, DMat.PSD_of.mp h2.2, unsure_post hCp hR hHU hC⟩, he.setMeas j hm1 hc1⟩

theorem ekf_inv_unsure [TimeOps T] {sc : SysClass T NonlinSysData X} {mc : K → MeasClass T NonlinMeasData Y}
    (hsc : SysContract NonlinSysData.Sized sc) (hmc : ∀ j, MeasContract NonlinMeasData.Sized (mc j))
    {U : Matrix (Fin n) (Fin r) ℝ} (S : Matrix (Fin r) (Fin r) ℝ) (hL : NonlinKeepsDir U m sc) (hM : ∀ j, NonlinBlind U (kd j) (mc j)) :
    PlantInv (ekfPlant sc mc) True (Unsure U S) (NonlinUnsure U S m kd) (fun u => u.size = m)
      (fun R => R.Is m m ∧ R.PSD) (fun z c k => z.size = kd k ∧ c.Is (kd k) (kd k) ∧ c.PD) := by
  refine mkPlant_inv hsc hmc (fun _ _ h => h.psd.1.1) (fun _ _ _ h h' => ⟨h.1, h'⟩) (fun _ _ h => h.2) ?_ ?_
  · intro e x c u dt he hx hu
    obtain ⟨s', x', c', h1, h2, h3, h4⟩ := ekfPredict_psd hsc he.sys he.noise.1 he.noise.2 (Unsure.psd hx) hu dt
      (fun s => ({ e with sys := s } : Env K NonlinSysData X NonlinMeasData Y))
    obtain ⟨v, C, rfl, rfl, hCp, hC⟩ := hx
    obtain ⟨s1, e1, hs1, hc1⟩ := he.sys.update hsc (x := .of v) rfl hu dt
    have e1' : sc.myUpdate e.sys (.of v) u dt = some s1 := by
      have e2 := e1
      unfold Sys.update at e2
      rwa [if_pos ⟨he.sys.states.symm, by rw [hu, he.sys.controls]⟩] at e2
    obtain ⟨G, hG, l1⟩ := hL _ _ _ _ _ he.sys rfl hu e1'
    obtain ⟨g, hg⟩ := s1.der.g.exists_of hs1.der.1
    obtain ⟨W, hW⟩ := hs1.P.exists_of
    obtain ⟨Rp, hRp⟩ := hs1.Rp.exists_of
    obtain ⟨V, hV⟩ := hs1.V.exists_of
    obtain ⟨Rc, hRc⟩ := hs1.Rc.exists_of
    have hval : ekfPredict sc e.sys (.of v) (.of C) u dt (fun s => ({ e with sys := s } : Env K NonlinSysData X NonlinMeasData Y)) =
        some (.of g, .of (G * C * Gᵀ + W * Rp * Wᵀ + V * Rc * Vᵀ), { e with sys := s1 }) := by
      unfold ekfPredict
      simp only [Option.bind_eq_bind, e1, Option.bind_some, hg, hG, hW, hRp, hV, hRc, propagateCov_of]
    rw [hval] at h1
    obtain ⟨rfl, rfl, hs⟩ : .of g = x' ∧ .of (G * C * Gᵀ + W * Rp * Wᵀ + V * Rc * Vᵀ) = c' ∧
        ({ e with sys := s1 } : Env K NonlinSysData X NonlinMeasData Y) = { e with sys := s' } := by
      have := Option.some.inj h1
      exact ⟨congrArg Prod.fst this, congrArg (fun r => r.2.1) this, congrArg (fun r => r.2.2) this⟩
    have hRpp : Rp.PosSemidef := DMat.PSD_of.mp (hRp ▸ hc1.Rp ▸ he.noise.1)
    have hRcp : Rc.PosSemidef := DMat.PSD_of.mp (hRc ▸ hc1.Rc ▸ he.noise.2)
    exact OptP.of_eq hval ⟨⟨_, _, rfl, rfl, DMat.PSD_of.mp h2.2, unsure_propagate l1 hRpp hRcp hC⟩, he.setSys hs1 hc1⟩
  · intro e x c z j dt he hx hz hR
    obtain ⟨m', x', c', h1, h2, h3, h4, -⟩ :=
      ekfCorrect_psd hsc (hmc j) he.sys (he.meas j) hR (Unsure.psd hx) hz dt (e.setMeas j)
    obtain ⟨v, C, rfl, rfl, hCp, hC⟩ := hx
    obtain ⟨m1, e1, hm1, hc1⟩ := (he.meas j).update (hmc j) (x := .of v) rfl dt
    have e1' : (mc j).myUpdate (e.meas j) (.of v) dt = some m1 := by
      have e2 := e1
      unfold Meas.update at e2
      rwa [if_pos (he.meas j).states.symm] at e2
    obtain ⟨H, hH, hHU⟩ := hM j _ _ _ _ (he.meas j) rfl e1'
    obtain ⟨R, hRR⟩ := hm1.cov.exists_of
    rw [← hc1.cov, hRR, DMat.PD_of] at hR
    have hS := pd_isUnit_det (innov_pd hCp H hR)
    obtain ⟨dz, hdz, hdz2⟩ := (hmc j).sub m1 z m1.der.h hm1 hz hm1.der.1
    obtain ⟨dz, rfl⟩ := dz.exists_of hdz2
    obtain ⟨y, hy, hy2⟩ := hsc.add e.sys (.of v) (.of (gain C H R *ᵥ dz)) he.sys rfl rfl
    obtain ⟨y, rfl⟩ := y.exists_of hy2
    have hval : ekfCorrect sc (mc j) e.sys (e.meas j) (.of v) (.of C) z dt (e.setMeas j) =
        some (.of y, .of (Kalman.post C H R), e.setMeas j m1) := by
      unfold ekfCorrect
      simp only [Option.bind_eq_bind, e1, Option.bind_some, hH, hRR, kalmanGain_of _ _ _ hS, DMat.mulVec_of, hdz, hy,
        shrinkCov_of]
      rfl
    rw [hval] at h1
    obtain ⟨rfl, rfl⟩ : .of y = x' ∧ .of (Kalman.post C H R) = c' := by
      have := Option.some.inj h1
      exact ⟨congrArg Prod.fst this, congrArg (fun r => r.2.1) this⟩
    exact OptP.of_eq hval ⟨⟨_, _, rfl, rfl, DMat.PSD_of.mp h2.2, unsure_post hCp hR hHU hC⟩, he.setMeas j hm1 hc1⟩

/-- **C147 (Kalman filter).**  The system model leaves displacements in the directions `U` as they are and no sensor sees them.  If the
initial covariance contains the uncertainty `S` in these directions, so does the covariance of every estimate the filter retains,
in every history of calls. -/
theorem C147_kf [TimeOps T] [SaneTime T] {sc : SysClass T LinSysData X} {mc : K → MeasClass T LinMeasData Y}
    (hsc : SysContract LinSysData.Sized sc) (hmc : ∀ j, MeasContract LinMeasData.Sized (mc j))
    (U : Matrix (Fin n) (Fin r) ℝ) (S : Matrix (Fin r) (Fin r) ℝ) (hL : LinKeepsDir U m sc) (hM : ∀ j, LinBlind U (kd j) (mc j))
    (sort : List (FilterInput T DVec DMat K) → List (FilterInput T DVec DMat K)) (hsort : ∀ l, (sort l).Perm l)
    (params : Params T) (e : Env K LinSysData X LinMeasData Y) (v : Fin n → ℝ) (C : Matrix (Fin n) (Fin n) ℝ) (t : T)
    (hC : C.PosSemidef) (hk : (C - U * S * Uᵀ).PosSemidef) (he : LinUnsure U S m kd e)
    (ops : List (Op T DVec DMat K (Env K LinSysData X LinMeasData Y)))
    (hops : ∀ op ∈ ops, op.WellFormed (Unsure U S) (LinUnsure U S m kd) m kd DMat.PD) :
    ∃ g, (Filter.construct (kfPlant sc mc) params e (.of v) (.of C) t).run (kfPlant sc mc) sort ops = some g ∧
      Unsure U S g.getState g.getCovariance ∧ ∀ s ∈ g.retained, Unsure U S s.x s.covariance := by
  obtain ⟨g, h1, h2, _⟩ := OptP.exists_of_total
    (mkPlant_run (kf_inv_unsure hsc hmc S hL hM) sort hsort params e he (.of v) (.of C) t ⟨v, C, rfl, rfl, hC, hk⟩ ops hops)
  exact ⟨g, h1, h2 g.state (by simp [Filter.retained]), h2⟩

/-- **C147 (EKF).**  The system model leaves displacements in the directions `U` as they are and no sensor sees them, as far as the reported Jacobians tell.  If the
initial covariance contains the uncertainty `S` in these directions, so does the covariance of every estimate the filter retains,
in every history of calls. -/
theorem C147_ekf [TimeOps T] [SaneTime T] {sc : SysClass T NonlinSysData X} {mc : K → MeasClass T NonlinMeasData Y}
    (hsc : SysContract NonlinSysData.Sized sc) (hmc : ∀ j, MeasContract NonlinMeasData.Sized (mc j))
    (U : Matrix (Fin n) (Fin r) ℝ) (S : Matrix (Fin r) (Fin r) ℝ) (hL : NonlinKeepsDir U m sc) (hM : ∀ j, NonlinBlind U (kd j) (mc j))
    (sort : List (FilterInput T DVec DMat K) → List (FilterInput T DVec DMat K)) (hsort : ∀ l, (sort l).Perm l)
    (params : Params T) (e : Env K NonlinSysData X NonlinMeasData Y) (v : Fin n → ℝ) (C : Matrix (Fin n) (Fin n) ℝ) (t : T)
    (hC : C.PosSemidef) (hk : (C - U * S * Uᵀ).PosSemidef) (he : NonlinUnsure U S m kd e)
    (ops : List (Op T DVec DMat K (Env K NonlinSysData X NonlinMeasData Y)))
    (hops : ∀ op ∈ ops, op.WellFormed (Unsure U S) (NonlinUnsure U S m kd) m kd DMat.PD) :
    ∃ g, (Filter.construct (ekfPlant sc mc) params e (.of v) (.of C) t).run (ekfPlant sc mc) sort ops = some g ∧
      Unsure U S g.getState g.getCovariance ∧ ∀ s ∈ g.retained, Unsure U S s.x s.covariance := by
  obtain ⟨g, h1, h2, _⟩ := OptP.exists_of_total
    (mkPlant_run (ekf_inv_unsure hsc hmc S hL hM) sort hsort params e he (.of v) (.of C) t ⟨v, C, rfl, rfl, hC, hk⟩ ops hops)
  exact ⟨g, h1, h2 g.state (by simp [Filter.retained]), h2⟩

/-! ### A concrete case: two vehicles that measure their distance

The state is their two positions; the control moves the first one.  Where the pair is as a whole is not measured. -/

/-- The vehicles stay where they are, apart from the control. -/
noncomputable def pairClass : SysClass ℝ LinSysData Unit :=
  SysClass.plain fun s _ _ _ =>
    if s.stateSize = 2 ∧ s.controlDims = 1 then
      some { s with der := ⟨.of (1 : Matrix (Fin 2) (Fin 2) ℝ), .of !![1; 0]⟩, V := .of !![1; 0] }
    else some s

theorem pair_contract : SysContract LinSysData.Sized pairClass := by
  apply Examples.plain_contract
  intro n m s x u dt hs hx hu
  split
  next h =>
    obtain ⟨h1, h2⟩ := h
    have hn : n = 2 := by rw [← hs.states]; exact h1
    have hm : m = 1 := by rw [← hs.controls]; exact h2
    subst hn hm
    exact ⟨_, rfl, ⟨hs.states, hs.controls, ⟨⟨rfl, rfl⟩, rfl, rfl⟩, hs.P, hs.Rp, ⟨rfl, rfl⟩, hs.Rc⟩, ⟨rfl, rfl, rfl, rfl, rfl⟩⟩
  next => exact ⟨s, rfl, hs, Sys.SameConfig.refl s⟩

/-- The range sensor. -/
noncomputable def rangeClass : MeasClass ℝ LinMeasData Unit :=
  MeasClass.plain fun s _ _ => if s.stateSize = 2 ∧ s.measDims = 1 then some { s with der := ⟨.of !![1, -1]⟩ } else some s

theorem range_contract : MeasContract LinMeasData.Sized rangeClass := by
  apply Examples.plain_mcontract
  intro n k s x dt hs hx
  split
  next h =>
    obtain ⟨h1, h2⟩ := h
    have hn : n = 2 := by rw [← hs.states]; exact h1
    have hk : k = 1 := by rw [← hs.meas]; exact h2
    subst hn hk
    exact ⟨_, rfl, ⟨hs.states, hs.meas, ⟨rfl, rfl⟩, hs.cov⟩, ⟨rfl, rfl, rfl, rfl⟩⟩
  next => exact ⟨s, rfl, hs, Meas.SameConfig.refl s⟩

/-- both positions displaced alike -/
def together : Matrix (Fin 2) (Fin 1) ℝ := !![1; 1]

theorem pair_keeps : LinKeepsDir together 1 pairClass := by
  intro s x u dt s' hs hx hu h
  change (if s.stateSize = 2 ∧ s.controlDims = 1 then _ else _) = some s' at h
  rw [if_pos ⟨hs.states, hs.controls⟩] at h
  injection h with h
  subst h
  exact ⟨1, rfl, Matrix.one_mul _⟩

theorem range_blind : LinBlind together 1 rangeClass := by
  intro s x dt s' hs hx h
  change (if s.stateSize = 2 ∧ s.measDims = 1 then _ else _) = some s' at h
  rw [if_pos ⟨hs.states, hs.meas⟩] at h
  injection h with h
  subst h
  refine ⟨_, rfl, ?_⟩
  ext i j; fin_cases i; fin_cases j; simp [together, Matrix.mul_apply, Fin.sum_univ_two]

/-- the two vehicles, process and control noise 1 -/
noncomputable def pairEnv : Env Unit LinSysData Unit LinMeasData Unit :=
  { sys := { Sys.constructLinear 2 1 2 () with
      P := .of (1 : Matrix (Fin 2) (Fin 2) ℝ), Rp := .of (1 : Matrix (Fin 2) (Fin 2) ℝ), Rc := .of (1 : Matrix (Fin 1) (Fin 1) ℝ) }
    meas := fun _ => Meas.constructLinear 2 1 () }

/-- variance 9 for each position: 9/2 of it is about where the pair is -/
theorem pair_start :
    ((9 : ℝ) • (1 : Matrix (Fin 2) (Fin 2) ℝ) - together * ((9 / 2 : ℝ) • (1 : Matrix (Fin 1) (Fin 1) ℝ)) * togetherᵀ).PosSemidef := by
  have : (9 : ℝ) • (1 : Matrix (Fin 2) (Fin 2) ℝ) - together * ((9 / 2 : ℝ) • (1 : Matrix (Fin 1) (Fin 1) ℝ)) * togetherᵀ =
      (9 / 2 : ℝ) • ((!![1; -1] : Matrix (Fin 2) (Fin 1) ℝ) * (!![1; -1] : Matrix (Fin 2) (Fin 1) ℝ)ᴴ) := by
    rw [Matrix.mul_smul, Matrix.mul_one, Matrix.smul_mul]
    ext i j; fin_cases i <;> fin_cases j <;>
      simp [together, Matrix.vecMul, dotProduct, Matrix.transpose_apply] <;> norm_num
  rw [this]
  exact (Matrix.posSemidef_self_mul_conjTranspose _).smul (by norm_num)

/-- Non-vacuity of C147: whatever ranges are measured, late or not, the variance claimed for the first vehicle's position never
falls below 9/2. -/
example (sort : List (FilterInput ℝ DVec DMat Unit) → List (FilterInput ℝ DVec DMat Unit)) (hsort : ∀ l, (sort l).Perm l) :
    ∃ g, (Filter.construct (kfPlant pairClass fun _ => rangeClass) { rewindHistory := true, historyWindow := 5, allowPast := false }
        pairEnv (.of ![0, 3]) (.of ((9 : ℝ) • (1 : Matrix (Fin 2) (Fin 2) ℝ))) 0).run (kfPlant pairClass fun _ => rangeClass) sort
        [.predictControl (.of ![2]) 1, .correct (.of ![1]) (.identity 1) 2 (some ()), .correct (.of ![1]) (.identity 1) 1.5 (some ()),
          .predictTime 4, .revertToState 3] = some g ∧
      ∀ s ∈ g.retained, ∃ v, s.covariance.get? 0 0 = some v ∧ 9 / 2 ≤ v := by
  have he : LinUnsure together ((9 / 2 : ℝ) • (1 : Matrix (Fin 1) (Fin 1) ℝ)) 1 (fun _ => 1) pairEnv := by
    refine ⟨⟨rfl, rfl, ⟨⟨rfl, rfl⟩, rfl, rfl⟩, ⟨rfl, rfl⟩, ⟨rfl, rfl⟩, ⟨rfl, rfl⟩, ⟨rfl, rfl⟩⟩, ⟨?_, ?_⟩,
      fun x c h => ⟨x, c, rfl, h⟩, fun _ => ⟨rfl, rfl, ⟨rfl, rfl⟩, rfl, rfl⟩, fun _ x c h => ⟨x, c, rfl, h⟩⟩
    · exact DMat.PSD_of.mpr PosSemidef.one
    · exact DMat.PSD_of.mpr PosSemidef.one
  obtain ⟨g, h1, -, h2⟩ := C147_kf pair_contract (fun _ => range_contract) together
    ((9 / 2 : ℝ) • (1 : Matrix (Fin 1) (Fin 1) ℝ)) pair_keeps (fun _ => range_blind) sort hsort
    { rewindHistory := true, historyWindow := 5, allowPast := false } pairEnv ![0, 3] ((9 : ℝ) • (1 : Matrix (Fin 2) (Fin 2) ℝ)) 0
    (PosSemidef.one.smul (by norm_num)) pair_start he
    [.predictControl (.of ![2]) 1, .correct (.of ![1]) (.identity 1) 2 (some ()), .correct (.of ![1]) (.identity 1) 1.5 (some ()),
          .predictTime 4, .revertToState 3] (by
    intro op hop
    simp only [List.mem_cons, List.not_mem_nil, or_false] at hop
    rcases hop with rfl | rfl | rfl | rfl | rfl
    · exact Or.inl rfl
    · exact ⟨(), rfl, rfl, ⟨rfl, rfl⟩, ⟨rfl, PosDef.one⟩⟩
    · exact ⟨(), rfl, rfl, ⟨rfl, rfl⟩, ⟨rfl, PosDef.one⟩⟩
    · trivial
    · trivial)
  refine ⟨g, h1, fun s hs => ?_⟩
  have h := h2 s hs
  obtain ⟨v, C, -, hC, -⟩ := id h
  rw [hC] at h ⊢
  refine ⟨C 0 0, rfl, ?_⟩
  have := h.variance ![1, 0]
  simpa [together, Matrix.mulVec, dotProduct, Fin.sum_univ_two, Matrix.transpose_apply] using this

end Props
end StateEstimation
