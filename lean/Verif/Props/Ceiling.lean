import Verif.Props.Monotone
import Verif.Props.Kalman
import Verif.Spec.Ceiling

/-!
# C95: a stable system has a bounded covariance

`Holds` says that a ceiling `Pmax` for the covariance is not exceeded by one prediction from the ceiling itself, with the most
noise there is.  Then no history of calls makes the filter report more than `Pmax`.
-/

set_option linter.unusedSectionVars false

namespace StateEstimation

open Matrix Kalman

theorem propagate_le {n p m : Nat} {A P Pm : Matrix (Fin n) (Fin n) ℝ} {W : Matrix (Fin n) (Fin p) ℝ}
    {Rp Rpm : Matrix (Fin p) (Fin p) ℝ} {V : Matrix (Fin n) (Fin m) ℝ} {Rc Rcm : Matrix (Fin m) (Fin m) ℝ}
    (h1 : (Pm - P).PosSemidef) (h2 : (Rpm - Rp).PosSemidef) (h3 : (Rcm - Rc).PosSemidef)
    (h : (Pm - (A * Pm * Aᵀ + W * Rpm * Wᵀ + V * Rcm * Vᵀ)).PosSemidef) :
    (Pm - (A * P * Aᵀ + W * Rp * Wᵀ + V * Rc * Vᵀ)).PosSemidef := by
  have e : Pm - (A * P * Aᵀ + W * Rp * Wᵀ + V * Rc * Vᵀ)
      = (Pm - (A * Pm * Aᵀ + W * Rpm * Wᵀ + V * Rcm * Vᵀ)) + A * (Pm - P) * Aᵀ + W * (Rpm - Rp) * Wᵀ + V * (Rcm - Rc) * Vᵀ := by
    simp only [Matrix.mul_sub, Matrix.sub_mul]; abel
  rw [e]
  exact ((h.add (psd_conj h1 A)).add (psd_conj h2 W)).add (psd_conj h3 V)

namespace Props

variable {T K X Y : Type} [DecidableEq K] {n p m : Nat} {kd : K → Nat}
  {Pmax : Matrix (Fin n) (Fin n) ℝ} {Rpmax : Matrix (Fin p) (Fin p) ℝ} {Rcmax : Matrix (Fin m) (Fin m) ℝ}

/-- the step, for both filters -/
private theorem step_upTo {D : Type} {dz : Nat → Nat → D → Prop} {jac : D → DMat} {sc : SysClass T D X}
    (hjac : ∀ d, dz n m d → (jac d).Is n n)
    (hh : sc.Holds dz jac Pmax Rpmax Rcmax) {s s' : Sys D X} (hs : s.Sized dz n m) {x u : DVec} {dt : T}
    (hup : sc.myUpdate s x u dt = some s') (hs' : s'.Sized dz n m) (hc : s.SameConfig s')
    (hN : NoiseUpTo Rpmax Rcmax s.Rp s.Rc) {c : DMat} (hci : c.Is n n) (hcl : c.Le (.of Pmax)) {c' : DMat}
    (hc' : propagateCov (jac s'.der) c s'.P s'.Rp s'.V s'.Rc = some c') : c'.Le (.of Pmax) := by
  have hsz := hN.1.2
  obtain ⟨c, rfl⟩ := hci.exists_of
  have h1 := DMat.Le_of.mp hcl
  obtain ⟨A, W, V, hA, hW, hV, hle⟩ := hh s x u dt s' hs (by
    obtain ⟨D, h, _⟩ := hsz
    have h := DMat.sub_eq_some h
    have h1 : (DMat.of Rpmax).rows = p := rfl
    have h2 : (DMat.of Rpmax).cols = p := rfl
    exact ⟨by omega, by omega⟩) hup
  obtain ⟨Rp, hRp⟩ := (show s'.Rp.Is p p by
    rw [hc.Rp]
    obtain ⟨D, h, _⟩ := hsz
    have h := DMat.sub_eq_some h
    have h1 : (DMat.of Rpmax).rows = p := rfl
    have h2 : (DMat.of Rpmax).cols = p := rfl
    exact ⟨by omega, by omega⟩).exists_of
  obtain ⟨Rc, hRc⟩ := hs'.Rc.exists_of
  rw [← hc.Rp, ← hc.Rc, hRp, hRc] at hN
  rw [hA, hW, hV, hRp, hRc, propagateCov_of] at hc'
  injection hc' with hc'
  subst hc'
  rw [DMat.Le_of]
  exact propagate_le h1 (DMat.Le_of.mp hN.1.2) (DMat.Le_of.mp hN.2.2) hle

theorem kf_inv_upTo {sc : SysClass T LinSysData X} {mc : K → MeasClass T LinMeasData Y}
    [TimeOps T] (hsc : SysContract LinSysData.Sized sc) (hmc : ∀ j, MeasContract LinMeasData.Sized (mc j))
    (hh : sc.Holds LinSysData.Sized LinSysData.A Pmax Rpmax Rcmax) :
    PlantInv (kfPlant sc mc) True (EstimateUpTo Pmax)
      (Env.Ok LinSysData.Sized LinMeasData.Sized (NoiseUpTo Rpmax Rcmax) (EstimateUpTo Pmax) n m kd) (fun u => u.size = m)
      (fun R => R.Is m m ∧ R.PSD ∧ R.Le (.of Rcmax)) (fun z c k => z.size = kd k ∧ c.Is (kd k) (kd k) ∧ c.PD) := by
  refine mkPlant_inv (NC := fun R => R.PSD ∧ R.Le (.of Rcmax)) hsc hmc (fun _ _ h => h.1.1.1) (fun _ _ _ h h' => ⟨h.1, h'⟩)
    (fun _ _ h => h.2) ?_ ?_
  · intro e x c u dt he hx hu
    obtain ⟨s1, e1, hs1, hc1⟩ := he.sys.update hsc hx.1.1.1 hu dt
    obtain ⟨s', x', c', h1, h2, h3, h4⟩ := kfPredict_psd hsc he.sys he.noise.1.1 he.noise.2.1 hx.1 hu dt
      (fun s => ({ e with sys := s } : Env K LinSysData X LinMeasData Y))
    refine OptP.of_eq h1 ⟨⟨h2, ?_⟩, he.setSys h3 h4⟩
    have h1' := h1
    unfold kfPredict at h1'
    simp only [Option.bind_eq_bind, e1, Option.bind_some, Option.bind_eq_some_iff] at h1'
    obtain ⟨a1, _, a2, _, x1, _, cc, hcc, h5⟩ := h1'
    simp only [Option.some.injEq, Prod.mk.injEq] at h5
    obtain ⟨_, rfl, _⟩ := h5
    have e1' : sc.myUpdate e.sys x u dt = some s1 := by
      unfold Sys.update at e1
      rwa [if_pos ⟨by rw [hx.1.1.1, he.sys.states], by rw [hu, he.sys.controls]⟩] at e1
    exact step_upTo (fun d hd => hd.1) hh he.sys e1' hs1 hc1 he.noise hx.1.1.2 hx.2 hcc
  · intro e x c z j dt he hx hz hR
    obtain ⟨m', x', c', h1, h2, h3, h4, P, P', rfl, rfl, h5⟩ :=
      kfCorrect_psd hsc (hmc j) he.sys (he.meas j) hR hx.1 hz dt (e.setMeas j)
    refine OptP.of_eq h1 ⟨⟨h2, ?_⟩, he.setMeas j h3 h4⟩
    rw [DMat.Le_of]
    have : Pmax - P' = (Pmax - P) + (P - P') := by abel
    rw [this]; exact (DMat.Le_of.mp hx.2).add h5

theorem ekf_inv_upTo {sc : SysClass T NonlinSysData X} {mc : K → MeasClass T NonlinMeasData Y}
    [TimeOps T] (hsc : SysContract NonlinSysData.Sized sc) (hmc : ∀ j, MeasContract NonlinMeasData.Sized (mc j))
    (hh : sc.Holds NonlinSysData.Sized NonlinSysData.G Pmax Rpmax Rcmax) :
    PlantInv (ekfPlant sc mc) True (EstimateUpTo Pmax)
      (Env.Ok NonlinSysData.Sized NonlinMeasData.Sized (NoiseUpTo Rpmax Rcmax) (EstimateUpTo Pmax) n m kd) (fun u => u.size = m)
      (fun R => R.Is m m ∧ R.PSD ∧ R.Le (.of Rcmax)) (fun z c k => z.size = kd k ∧ c.Is (kd k) (kd k) ∧ c.PD) := by
  refine mkPlant_inv (NC := fun R => R.PSD ∧ R.Le (.of Rcmax)) hsc hmc (fun _ _ h => h.1.1.1) (fun _ _ _ h h' => ⟨h.1, h'⟩)
    (fun _ _ h => h.2) ?_ ?_
  · intro e x c u dt he hx hu
    obtain ⟨s1, e1, hs1, hc1⟩ := he.sys.update hsc hx.1.1.1 hu dt
    obtain ⟨s', x', c', h1, h2, h3, h4⟩ := ekfPredict_psd hsc he.sys he.noise.1.1 he.noise.2.1 hx.1 hu dt
      (fun s => ({ e with sys := s } : Env K NonlinSysData X NonlinMeasData Y))
    refine OptP.of_eq h1 ⟨⟨h2, ?_⟩, he.setSys h3 h4⟩
    have h1' := h1
    unfold ekfPredict at h1'
    simp only [Option.bind_eq_bind, e1, Option.bind_some, Option.bind_eq_some_iff] at h1'
    obtain ⟨cc, hcc, h5⟩ := h1'
    simp only [Option.some.injEq, Prod.mk.injEq] at h5
    obtain ⟨_, rfl, _⟩ := h5
    have e1' : sc.myUpdate e.sys x u dt = some s1 := by
      unfold Sys.update at e1
      rwa [if_pos ⟨by rw [hx.1.1.1, he.sys.states], by rw [hu, he.sys.controls]⟩] at e1
    exact step_upTo (fun d hd => hd.2) hh he.sys e1' hs1 hc1 he.noise hx.1.1.2 hx.2 hcc
  · intro e x c z j dt he hx hz hR
    obtain ⟨m', x', c', h1, h2, h3, h4, P, P', rfl, rfl, h5⟩ :=
      ekfCorrect_psd hsc (hmc j) he.sys (he.meas j) hR hx.1 hz dt (e.setMeas j)
    refine OptP.of_eq h1 ⟨⟨h2, ?_⟩, he.setMeas j h3 h4⟩
    rw [DMat.Le_of]
    have : Pmax - P' = (Pmax - P) + (P - P') := by abel
    rw [this]; exact (DMat.Le_of.mp hx.2).add h5

/-- **C95 (Kalman filter).**  The ceiling is not exceeded by any history of calls: predictions and measurements in any order of
time, late, queued, replayed after rewinding, `initialize` and `revertToState`, with the user changing the noise up to the
given maxima; nor is it by any remembered state. -/
theorem C95_kf [TimeOps T] [SaneTime T] {sc : SysClass T LinSysData X} {mc : K → MeasClass T LinMeasData Y}
    (hsc : SysContract LinSysData.Sized sc) (hmc : ∀ j, MeasContract LinMeasData.Sized (mc j))
    (hh : sc.Holds LinSysData.Sized LinSysData.A Pmax Rpmax Rcmax)
    (sort : List (FilterInput T DVec DMat K) → List (FilterInput T DVec DMat K)) (hsort : ∀ l, (sort l).Perm l)
    (params : Params T) (e : Env K LinSysData X LinMeasData Y)
    (he : e.Ok LinSysData.Sized LinMeasData.Sized (NoiseUpTo Rpmax Rcmax) (EstimateUpTo Pmax) n m kd)
    (x : DVec) (c : DMat) (t : T) (hx : EstimateUpTo Pmax x c)
    (ops : List (Op T DVec DMat K (Env K LinSysData X LinMeasData Y)))
    (hops : ∀ op ∈ ops, op.WellFormed (EstimateUpTo Pmax)
      (Env.Ok LinSysData.Sized LinMeasData.Sized (NoiseUpTo Rpmax Rcmax) (EstimateUpTo Pmax) n m kd) m kd DMat.PD) :
    ∃ g, (Filter.construct (kfPlant sc mc) params e x c t).run (kfPlant sc mc) sort ops = some g ∧
      g.getCovariance.Le (.of Pmax) ∧ ∀ s ∈ g.retained, s.covariance.Le (.of Pmax) := by
  obtain ⟨g, h1, h2, _⟩ := OptP.exists_of_total
    (mkPlant_run (kf_inv_upTo hsc hmc hh) sort hsort params e he x c t hx ops hops)
  exact ⟨g, h1, (h2 g.state (by simp [Filter.retained])).2, fun s hs => (h2 s hs).2⟩

/-- **C95 (EKF).** -/
theorem C95_ekf [TimeOps T] [SaneTime T] {sc : SysClass T NonlinSysData X} {mc : K → MeasClass T NonlinMeasData Y}
    (hsc : SysContract NonlinSysData.Sized sc) (hmc : ∀ j, MeasContract NonlinMeasData.Sized (mc j))
    (hh : sc.Holds NonlinSysData.Sized NonlinSysData.G Pmax Rpmax Rcmax)
    (sort : List (FilterInput T DVec DMat K) → List (FilterInput T DVec DMat K)) (hsort : ∀ l, (sort l).Perm l)
    (params : Params T) (e : Env K NonlinSysData X NonlinMeasData Y)
    (he : e.Ok NonlinSysData.Sized NonlinMeasData.Sized (NoiseUpTo Rpmax Rcmax) (EstimateUpTo Pmax) n m kd)
    (x : DVec) (c : DMat) (t : T) (hx : EstimateUpTo Pmax x c)
    (ops : List (Op T DVec DMat K (Env K NonlinSysData X NonlinMeasData Y)))
    (hops : ∀ op ∈ ops, op.WellFormed (EstimateUpTo Pmax)
      (Env.Ok NonlinSysData.Sized NonlinMeasData.Sized (NoiseUpTo Rpmax Rcmax) (EstimateUpTo Pmax) n m kd) m kd DMat.PD) :
    ∃ g, (Filter.construct (ekfPlant sc mc) params e x c t).run (ekfPlant sc mc) sort ops = some g ∧
      g.getCovariance.Le (.of Pmax) ∧ ∀ s ∈ g.retained, s.covariance.Le (.of Pmax) := by
  obtain ⟨g, h1, h2, _⟩ := OptP.exists_of_total
    (mkPlant_run (ekf_inv_upTo hsc hmc hh) sort hsort params e he x c t hx ops hops)
  exact ⟨g, h1, (h2 g.state (by simp [Filter.retained])).2, fun s hs => (h2 s hs).2⟩

/-! ### A concrete case: a leaky integrator in discrete time, `x' = x / 2 + u`

With process variance at most 2 and control variance at most 1 the variance never exceeds 4. -/

/-- `A = [1/2]`, `B = P = V = [1]`. -/
noncomputable def halfClass : SysClass ℝ LinSysData Unit :=
  SysClass.plain fun s _ _ _ =>
    if s.stateSize = 1 ∧ s.controlDims = 1 ∧ s.Rp.rows = 1 then
      some { s with der := ⟨.of !![1 / 2], .of !![1]⟩, P := .of !![1], V := .of !![1] }
    else some s

theorem half_contract : SysContract LinSysData.Sized halfClass := by
  apply Examples.plain_contract
  intro n m s x u dt hs hx hu
  split
  next h =>
    obtain ⟨h1, h2, h3⟩ := h
    have hn : n = 1 := by rw [← hs.states]; exact h1
    have hm : m = 1 := by rw [← hs.controls]; exact h2
    subst hn hm
    exact ⟨_, rfl, ⟨hs.states, hs.controls, ⟨⟨rfl, rfl⟩, rfl, rfl⟩, ⟨rfl, h3.symm⟩, hs.Rp, ⟨rfl, rfl⟩, hs.Rc⟩,
      ⟨rfl, rfl, rfl, rfl, rfl⟩⟩
  next => exact ⟨s, rfl, hs, Sys.SameConfig.refl s⟩

private theorem le1 {a b : ℝ} (h : a ≤ b) : (DMat.of (!![a] : Matrix (Fin 1) (Fin 1) ℝ)).Le (.of !![b]) := by
  rw [DMat.Le_of]
  have : (!![b] - !![a] : Matrix (Fin 1) (Fin 1) ℝ) = (b - a) • 1 := by
    ext i j; fin_cases i; fin_cases j; simp
  rw [this]
  exact PosSemidef.one.smul (by linarith)

theorem half_holds : halfClass.Holds LinSysData.Sized LinSysData.A !![4] !![2] !![1] := by
  intro s x u dt s' hs hp h
  change (if s.stateSize = 1 ∧ s.controlDims = 1 ∧ s.Rp.rows = 1 then _ else _) = some s' at h
  rw [if_pos ⟨hs.states, hs.controls, hp.1⟩] at h
  injection h with h
  subst h
  refine ⟨_, _, _, rfl, rfl, rfl, ?_⟩
  have e : (!![1 / 2] * !![4] * !![1 / 2]ᵀ + !![1] * !![2] * !![1]ᵀ + !![1] * !![1] * !![1]ᵀ : Matrix (Fin 1) (Fin 1) ℝ)
      = !![4] := by
    ext i j; fin_cases i; fin_cases j
    simp [Matrix.vecMul, dotProduct, Matrix.transpose_apply]; norm_num
  rw [e, sub_self]
  exact PosSemidef.zero

/-- The models: one state, one control, process variance 2, control variance 1/2. -/
noncomputable def halfEnv : Env Unit LinSysData Unit LinMeasData Unit :=
  { sys := { Sys.constructLinear 1 1 1 () with Rp := .of !![2], Rc := .of !![1 / 2] }
    meas := fun _ => Meas.constructLinear 1 1 () }

private theorem psd1 {a : ℝ} (h : 0 ≤ a) : (DMat.of (!![a] : Matrix (Fin 1) (Fin 1) ℝ)).PSD := by
  rw [DMat.PSD_of]
  have : (!![a] : Matrix (Fin 1) (Fin 1) ℝ) = a • 1 := by ext i j; fin_cases i; fin_cases j; simp
  rw [this]
  exact PosSemidef.one.smul h

example : halfEnv.Ok LinSysData.Sized LinMeasData.Sized (NoiseUpTo !![2] !![1]) (EstimateUpTo !![4]) 1 1
    (fun _ => 1) where
  sys := ⟨rfl, rfl, ⟨⟨rfl, rfl⟩, rfl, rfl⟩, ⟨rfl, rfl⟩, ⟨rfl, rfl⟩, ⟨rfl, rfl⟩, ⟨rfl, rfl⟩⟩
  noise := ⟨⟨psd1 (by norm_num), le1 (by norm_num)⟩, psd1 (by norm_num), le1 (by norm_num)⟩
  sysMake := fun x c h => ⟨x, c, rfl, h⟩
  meas := fun _ => ⟨rfl, rfl, ⟨rfl, rfl⟩, rfl, rfl⟩
  measMake := fun _ x c h => ⟨x, c, rfl, h⟩

example : EstimateUpTo !![4] (.of ![7]) (.of !![3]) :=
  ⟨⟨⟨rfl, rfl, rfl⟩, psd1 (by norm_num)⟩, le1 (by norm_num)⟩

end Props
end StateEstimation
