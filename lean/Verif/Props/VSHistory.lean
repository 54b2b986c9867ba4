import Verif.Props.VariableState
import Verif.Props.AllActive

/-!
# C26 (UKF sizes) and C42: covariances of the variable-state filters over every history
-/

set_option linter.unusedSectionVars false

namespace StateEstimation
namespace Props

open Matrix Kalman Examples Sigma

variable {T K X Y : Type} [DecidableEq K] {n m k ns p : Nat}

section Trace

variable [TimeOps T] [SaneTime T]

/-- **C26 (UKF).**  Whatever the vector operations, the noise and the matrix factorisation: after every sequence of well-sized
calls, if none failed, the current and every remembered state has `n` entries and its covariance is `n × n`. -/
theorem C26_ukf_sizes {llt : DMat → Option DMat} (hllt : LltSize llt) (junk : Nat → Nat → ℝ)
    {sc : SysClass T NonlinSysData X} {mc : K → MeasClass T NonlinMeasData Y}
    (hsc : SysContract NonlinSysData.Sized sc) (hmc : ∀ j, MeasContract NonlinMeasData.Sized (mc j)) (kd : K → Nat)
    (sort : List (FilterInput T DVec DMat K) → List (FilterInput T DVec DMat K)) (hsort : ∀ l, (sort l).Perm l)
    (params : Params T) (e : Env K NonlinSysData X NonlinMeasData Y) (sp : SigmaParams) (hsp : SigmaSized n sp)
    (he : e.Ok NonlinSysData.Sized NonlinMeasData.Sized AnyNoise (Estimate n) n m kd)
    (x : DVec) (c : DMat) (t : T) (hx : Estimate n x c)
    (ops : List (Op T DVec DMat K (Env K NonlinSysData X NonlinMeasData Y × SigmaParams)))
    (hops : ∀ op ∈ ops, op.WellFormed (Estimate n)
      (fun e => (Env.Ok NonlinSysData.Sized NonlinMeasData.Sized AnyNoise (Estimate n) n m kd e.1 ∧ True) ∧
        SigmaSized n e.2) m kd (fun _ => True))
    {g} (hg : (Filter.construct (ukfPlant llt junk sc mc) params (e, sp) x c t).run (ukfPlant llt junk sc mc) sort ops = some g) :
    ∀ s ∈ g.retained, s.x.size = n ∧ s.covariance.Is n n := by
  have h := run_of_inv (ukf_inv_size hllt junk hsc hmc (n := n) (m := m) kd (A := fun _ => True)
    ⟨fun _ _ _ _ => trivial, fun _ _ _ _ => trivial⟩) rfl sort hsort params (e, sp) ⟨⟨he, trivial⟩, hsp⟩ x c t hx ops hops
  rw [hg] at h
  exact h.1

/-- **C42, the part that holds (KalmanFilterVS, active block).**  With positive semidefinite noise and positive definite
measurement covariances, no well-sized call ever fails, every remembered covariance is symmetric, and its block of the active
states is positive semidefinite - the full matrix need not be (`C42_refuted`). -/
theorem C42_kfvs_active_partial {sc : SysClass T LinSysData X} {mc : K → MeasClass T LinMeasData Y}
    (hsc : SysContract LinSysData.Sized sc) (hmc : ∀ j, MeasContract LinMeasData.Sized (mc j)) (kd : K → Nat)
    (σ : Fin ns → Fin n)
    (sort : List (FilterInput T DVec DMat K) → List (FilterInput T DVec DMat K)) (hsort : ∀ l, (sort l).Perm l)
    (params : Params T) (e : Env K LinSysData X LinMeasData Y)
    (he : e.Ok LinSysData.Sized LinMeasData.Sized NoisePSD (ActivePSD σ) n m kd) (hsel : e.Selecting σ m kd)
    (x : DVec) (c : DMat) (t : T) (hx : ActivePSD σ x c)
    (ops : List (Op T DVec DMat K (Env K LinSysData X LinMeasData Y)))
    (hops : ∀ op ∈ ops, op.WellFormed (ActivePSD σ)
      (fun e => Env.Ok LinSysData.Sized LinMeasData.Sized NoisePSD (ActivePSD σ) n m kd e ∧ e.Selecting σ m kd) m kd DMat.PD) :
    ∃ g, (Filter.construct (kfvsPlant sc mc) params e x c t).run (kfvsPlant sc mc) sort ops = some g ∧
      ∀ s ∈ g.retained, s.x.size = n ∧ ∃ P : Matrix (Fin n) (Fin n) ℝ, s.covariance = .of P ∧ Pᵀ = P ∧
        (P.submatrix σ σ).PosSemidef := by
  obtain ⟨g, h1, h2, _⟩ := OptP.exists_of_total
    (run_of_inv (kfvs_inv hsc hmc activePSD_inv kd) rfl sort hsort params e ⟨he, hsel⟩ x c t hx ops hops)
  exact ⟨g, h1, h2⟩

/-- **C42, the part that holds (KalmanFilterVS, full matrix).**  If the active states are uncorrelated with the inactive ones to
begin with, they stay so, and the full covariance stays positive semidefinite. -/
theorem C42_kfvs_separated_partial {sc : SysClass T LinSysData X} {mc : K → MeasClass T LinMeasData Y}
    (hsc : SysContract LinSysData.Sized sc) (hmc : ∀ j, MeasContract LinMeasData.Sized (mc j)) (kd : K → Nat)
    (σ : Fin ns → Fin n)
    (sort : List (FilterInput T DVec DMat K) → List (FilterInput T DVec DMat K)) (hsort : ∀ l, (sort l).Perm l)
    (params : Params T) (e : Env K LinSysData X LinMeasData Y)
    (he : e.Ok LinSysData.Sized LinMeasData.Sized NoisePSD (SeparatedPSD σ) n m kd) (hsel : e.Selecting σ m kd)
    (x : DVec) (c : DMat) (t : T) (hx : SeparatedPSD σ x c)
    (ops : List (Op T DVec DMat K (Env K LinSysData X LinMeasData Y)))
    (hops : ∀ op ∈ ops, op.WellFormed (SeparatedPSD σ)
      (fun e => Env.Ok LinSysData.Sized LinMeasData.Sized NoisePSD (SeparatedPSD σ) n m kd e ∧ e.Selecting σ m kd) m kd DMat.PD) :
    ∃ g, (Filter.construct (kfvsPlant sc mc) params e x c t).run (kfvsPlant sc mc) sort ops = some g ∧
      ∀ s ∈ g.retained, s.x.size = n ∧ ∃ P : Matrix (Fin n) (Fin n) ℝ, s.covariance = .of P ∧ P.PosSemidef ∧
        ∀ i b, (∀ j, σ j ≠ b) → P (σ i) b = 0 := by
  obtain ⟨g, h1, h2, _⟩ := OptP.exists_of_total
    (run_of_inv (kfvs_inv hsc hmc (separatedPSD_inv hsel.states.inj) kd) rfl sort hsort params e ⟨he, hsel⟩ x c t hx ops hops)
  exact ⟨g, h1, h2⟩

/-- **C42, the part that holds (EKFVS, active block).** -/
theorem C42_ekfvs_active_partial {sc : SysClass T NonlinSysData X} {mc : K → MeasClass T NonlinMeasData Y}
    (hsc : SysContract NonlinSysData.Sized sc) (hmc : ∀ j, MeasContract NonlinMeasData.Sized (mc j)) (kd : K → Nat)
    (σ : Fin ns → Fin n)
    (sort : List (FilterInput T DVec DMat K) → List (FilterInput T DVec DMat K)) (hsort : ∀ l, (sort l).Perm l)
    (params : Params T) (e : Env K NonlinSysData X NonlinMeasData Y)
    (he : e.Ok NonlinSysData.Sized NonlinMeasData.Sized NoisePSD (ActivePSD σ) n m kd) (hsel : e.Selecting σ m kd)
    (x : DVec) (c : DMat) (t : T) (hx : ActivePSD σ x c)
    (ops : List (Op T DVec DMat K (Env K NonlinSysData X NonlinMeasData Y)))
    (hops : ∀ op ∈ ops, op.WellFormed (ActivePSD σ)
      (fun e => Env.Ok NonlinSysData.Sized NonlinMeasData.Sized NoisePSD (ActivePSD σ) n m kd e ∧ e.Selecting σ m kd)
      m kd DMat.PD) :
    ∃ g, (Filter.construct (ekfvsPlant sc mc) params e x c t).run (ekfvsPlant sc mc) sort ops = some g ∧
      ∀ s ∈ g.retained, s.x.size = n ∧ ∃ P : Matrix (Fin n) (Fin n) ℝ, s.covariance = .of P ∧ Pᵀ = P ∧
        (P.submatrix σ σ).PosSemidef := by
  obtain ⟨g, h1, h2, _⟩ := OptP.exists_of_total
    (run_of_inv (ekfvs_inv hsc hmc activePSD_inv kd) rfl sort hsort params e ⟨he, hsel⟩ x c t hx ops hops)
  exact ⟨g, h1, h2⟩

/-- **C42, the part that holds (EKFVS, full matrix).** -/
theorem C42_ekfvs_separated_partial {sc : SysClass T NonlinSysData X} {mc : K → MeasClass T NonlinMeasData Y}
    (hsc : SysContract NonlinSysData.Sized sc) (hmc : ∀ j, MeasContract NonlinMeasData.Sized (mc j)) (kd : K → Nat)
    (σ : Fin ns → Fin n)
    (sort : List (FilterInput T DVec DMat K) → List (FilterInput T DVec DMat K)) (hsort : ∀ l, (sort l).Perm l)
    (params : Params T) (e : Env K NonlinSysData X NonlinMeasData Y)
    (he : e.Ok NonlinSysData.Sized NonlinMeasData.Sized NoisePSD (SeparatedPSD σ) n m kd) (hsel : e.Selecting σ m kd)
    (x : DVec) (c : DMat) (t : T) (hx : SeparatedPSD σ x c)
    (ops : List (Op T DVec DMat K (Env K NonlinSysData X NonlinMeasData Y)))
    (hops : ∀ op ∈ ops, op.WellFormed (SeparatedPSD σ)
      (fun e => Env.Ok NonlinSysData.Sized NonlinMeasData.Sized NoisePSD (SeparatedPSD σ) n m kd e ∧ e.Selecting σ m kd)
      m kd DMat.PD) :
    ∃ g, (Filter.construct (ekfvsPlant sc mc) params e x c t).run (ekfvsPlant sc mc) sort ops = some g ∧
      ∀ s ∈ g.retained, s.x.size = n ∧ ∃ P : Matrix (Fin n) (Fin n) ℝ, s.covariance = .of P ∧ P.PosSemidef ∧
        ∀ i b, (∀ j, σ j ≠ b) → P (σ i) b = 0 := by
  obtain ⟨g, h1, h2, _⟩ := OptP.exists_of_total
    (run_of_inv (ekfvs_inv hsc hmc (separatedPSD_inv hsel.states.inj) kd) rfl sort hsort params e ⟨he, hsel⟩ x c t hx ops hops)
  exact ⟨g, h1, h2⟩

/-- **C42, the part that holds (UKFVS, active block, with the conditions of C36/C37).** -/
theorem C42_ukfvs_active_partial {llt : DMat → Option DMat} (hllt : LltSpec llt) (junk : Nat → Nat → ℝ)
    {sc : SysClass T NonlinSysData X} {mc : K → MeasClass T NonlinMeasData Y}
    (hsc : SysContract NonlinSysData.Sized sc) (hso : sc.PlainOps)
    (hspread : sc.SpreadsNoise NonlinSysData.Sized n m p) (hmc : ∀ j, MeasContract NonlinMeasData.Sized (mc j))
    (hmo : ∀ j, (mc j).PlainOps) (kd : K → Nat) (σ : Fin ns → Fin n)
    (sort : List (FilterInput T DVec DMat K) → List (FilterInput T DVec DMat K)) (hsort : ∀ l, (sort l).Perm l)
    (params : Params T) (e : Env K NonlinSysData X NonlinMeasData Y × SigmaParams)
    (he : e.1.Ok NonlinSysData.Sized NonlinMeasData.Sized (NoisePD p) (ActivePD σ) n m kd) (hsel : e.1.Selecting σ m kd)
    (hsig : SigmaAdmissible ns e.2)
    (x : DVec) (c : DMat) (t : T) (hx : ActivePD σ x c)
    (ops : List (Op T DVec DMat K (Env K NonlinSysData X NonlinMeasData Y × SigmaParams)))
    (hops : ∀ op ∈ ops, op.WellFormed (ActivePD σ)
      (fun e => (Env.Ok NonlinSysData.Sized NonlinMeasData.Sized (NoisePD p) (ActivePD σ) n m kd e.1 ∧ e.1.Selecting σ m kd) ∧
        SigmaAdmissible ns e.2) m kd DMat.PD) :
    ∃ g, (Filter.construct (ukfvsPlant llt junk sc mc) params e x c t).run (ukfvsPlant llt junk sc mc) sort ops = some g ∧
      ∀ s ∈ g.retained, s.x.size = n ∧ ∃ P : Matrix (Fin n) (Fin n) ℝ, s.covariance = .of P ∧ Pᵀ = P ∧
        (P.submatrix σ σ).PosDef := by
  obtain ⟨g, h1, h2, _⟩ := OptP.exists_of_total
    (run_of_inv (ukfvs_inv hllt junk hsc hso hspread hmc hmo activePD_inv kd) rfl sort hsort params e ⟨⟨he, hsel⟩, hsig⟩
      x c t hx ops hops)
  exact ⟨g, h1, h2⟩

/-- **C42, the part that holds (UKFVS, full matrix).** -/
theorem C42_ukfvs_separated_partial {llt : DMat → Option DMat} (hllt : LltSpec llt) (junk : Nat → Nat → ℝ)
    {sc : SysClass T NonlinSysData X} {mc : K → MeasClass T NonlinMeasData Y}
    (hsc : SysContract NonlinSysData.Sized sc) (hso : sc.PlainOps)
    (hspread : sc.SpreadsNoise NonlinSysData.Sized n m p) (hmc : ∀ j, MeasContract NonlinMeasData.Sized (mc j))
    (hmo : ∀ j, (mc j).PlainOps) (kd : K → Nat) (σ : Fin ns → Fin n)
    (sort : List (FilterInput T DVec DMat K) → List (FilterInput T DVec DMat K)) (hsort : ∀ l, (sort l).Perm l)
    (params : Params T) (e : Env K NonlinSysData X NonlinMeasData Y × SigmaParams)
    (he : e.1.Ok NonlinSysData.Sized NonlinMeasData.Sized (NoisePD p) (SeparatedPD σ) n m kd) (hsel : e.1.Selecting σ m kd)
    (hsig : SigmaAdmissible ns e.2)
    (x : DVec) (c : DMat) (t : T) (hx : SeparatedPD σ x c)
    (ops : List (Op T DVec DMat K (Env K NonlinSysData X NonlinMeasData Y × SigmaParams)))
    (hops : ∀ op ∈ ops, op.WellFormed (SeparatedPD σ)
      (fun e => (Env.Ok NonlinSysData.Sized NonlinMeasData.Sized (NoisePD p) (SeparatedPD σ) n m kd e.1 ∧
        e.1.Selecting σ m kd) ∧ SigmaAdmissible ns e.2) m kd DMat.PD) :
    ∃ g, (Filter.construct (ukfvsPlant llt junk sc mc) params e x c t).run (ukfvsPlant llt junk sc mc) sort ops = some g ∧
      ∀ s ∈ g.retained, s.x.size = n ∧ ∃ P : Matrix (Fin n) (Fin n) ℝ, s.covariance = .of P ∧ P.PosSemidef ∧
        (∀ i b, (∀ j, σ j ≠ b) → P (σ i) b = 0) ∧ (P.submatrix σ σ).PosDef := by
  obtain ⟨g, h1, h2, _⟩ := OptP.exists_of_total
    (run_of_inv (ukfvs_inv hllt junk hsc hso hspread hmc hmo (separatedPD_inv hsel.states.inj) kd) rfl sort hsort params e
      ⟨⟨he, hsel⟩, hsig⟩ x c t hx ops hops)
  refine ⟨g, h1, fun s hs => ?_⟩
  obtain ⟨⟨a1, P, a2, a3, a4⟩, _, P', b2, b3, b4⟩ := h2 s hs
  have := DMat.of_inj.mp (a2.symm.trans b2); subst this
  exact ⟨a1, P, a2, a3, a4, b4⟩

end Trace

/-! ### Concrete filters with one of two states active -/

/-- The constant-velocity models with only state `0` (the position) active. -/
noncomputable def posOnly : Env Unit LinSysData Unit LinMeasData Unit :=
  { cvEnv with sys := cvEnv.sys.setActiveStates [0] }

/-- Selects state `0` of two. -/
def sel0 : Fin 1 → Fin 2 := fun _ => 0

theorem posOnly_selects : Selects posOnly.sys.activeStates sel0 := ⟨by decide, by decide⟩

theorem posOnly_ok {Q : DVec → DMat → Prop} : posOnly.Ok LinSysData.Sized LinMeasData.Sized NoisePSD Q 2 1 (fun _ => 1) :=
  ⟨⟨rfl, rfl, ⟨⟨rfl, rfl⟩, rfl, rfl⟩, ⟨rfl, rfl⟩, ⟨rfl, rfl⟩, ⟨rfl, rfl⟩, ⟨rfl, rfl⟩⟩, (cvEnv_ok (Q := Q)).noise, fun x c h => ⟨x, c, rfl, h⟩,
    cvEnv_ok (Q := Q).meas, cvEnv_ok.measMake⟩

theorem posOnly_selecting : posOnly.Selecting sel0 1 (fun _ => 1) :=
  ⟨posOnly_selects, ⟨1, id, selects_nil⟩, fun _ => ⟨1, id, selects_nil⟩⟩

/-- Non-vacuity of the C42 theorems: both kinds of initial estimate exist. -/
example : SeparatedPSD sel0 (.zero 2) (.identity 2) ∧ ActivePSD sel0 (.zero 2) (.of !![1, 1; 1, 1]) := by
  refine ⟨⟨rfl, 1, rfl, PosSemidef.one, ?_⟩, rfl, _, rfl, ?_, ?_⟩
  · intro i b hb
    rw [Matrix.one_apply_ne]
    exact fun h => hb i h
  · ext i j; fin_cases i <;> fin_cases j <;> rfl
  · have : (!![1, 1; 1, 1] : Matrix (Fin 2) (Fin 2) ℝ).submatrix sel0 sel0 = 1 := by
      ext i j; fin_cases i; fin_cases j; simp [sel0]
    rw [this]; exact PosSemidef.one

/-- **C42 is false for the full matrix.**  Position and velocity fully correlated, `P = [1 1; 1 1]` (positive semidefinite), only
the position active; one position measurement with variance 1 through `KalmanFilterVS` leaves `[1/2 1; 1 1]`, which is not
positive semidefinite. -/
theorem C42_refuted : ∃ (f g : Filter ℝ DVec DMat Unit (Env Unit LinSysData Unit LinMeasData Unit)) (P P' : Matrix (Fin 2) (Fin 2) ℝ),
    f = Filter.construct (kfvsPlant cvClass fun _ => posClass) { allowPast := false, rewindHistory := false, historyWindow := 0 } posOnly (.zero 2) (.of P) 0 ∧
    P.PosSemidef ∧ f.correct (kfvsPlant cvClass fun _ => posClass) (.const 1 1) (.identity 1) 0 (some ()) = some g ∧
    g.getCovariance = .of P' ∧ P' = !![1 / 2, 1; 1, 1] ∧ ¬ P'.PosSemidef := by
  set f := Filter.construct (kfvsPlant cvClass fun _ : Unit => posClass) { allowPast := false, rewindHistory := false, historyWindow := 0 } posOnly (.zero 2)
    (.of !![1, 1; 1, 1]) (0 : ℝ) with hf
  have hblk : (!![1, 1; 1, 1] : Matrix (Fin 2) (Fin 2) ℝ).submatrix sel0 sel0 = 1 := by
    ext i j; fin_cases i; fin_cases j; simp [sel0]
  have hpsd : (!![1, 1; 1, 1] : Matrix (Fin 2) (Fin 2) ℝ).PosSemidef := by
    have : (!![1, 1; 1, 1] : Matrix (Fin 2) (Fin 2) ℝ) = (!![1; 1] : Matrix (Fin 2) (Fin 1) ℝ) * (!![1; 1] : Matrix (Fin 2) (Fin 1) ℝ)ᵀ := by
      ext i j; fin_cases i <;> fin_cases j <;> simp [Matrix.mul_apply]
    rw [this, ← Matrix.conjTranspose_eq_transpose_of_trivial]
    exact Matrix.posSemidef_self_mul_conjTranspose _
  obtain ⟨g, C, L, zf, dz, dx, P', h1, _, h3, h4, h5, _, _, _, _, h10, h11, _⟩ :=
    C41_kfvs_correct (K := Unit) cv_contract (fun _ => pos_contract) f () (n := 2) (m := 1) (k := 1) (ns := 1) (ks := 1)
      (posOnly_ok (Q := fun _ _ => True)).sys ((posOnly_ok (Q := fun _ _ => True)).meas ())
      (σ := sel0) posOnly_selects (ρ := id) selects_nil (x := fun _ => 0) (P := !![1, 1; 1, 1]) rfl rfl
      (by rw [hblk]; exact PosSemidef.one) (fun _ => 1) 1 PosDef.one rfl
  have hC : C = !![1, 0] := by
    have : (posClass.myUpdate ((f.env.meas ()).withCov (.of (1 : Matrix (Fin 1) (Fin 1) ℝ))) (.of fun _ : Fin 2 => (0:ℝ)) (TimeOps.sub f.getStateTime f.getStateTime))
        = some { ((f.env.meas ()).withCov (.of (1 : Matrix (Fin 1) (Fin 1) ℝ))) with der := ⟨.of !![1, 0]⟩ } := by
      unfold posClass MeasClass.plain
      dsimp only
      rw [if_pos ⟨rfl, rfl⟩]
    rw [this] at h3
    injection h3 with h3
    rw [← h3] at h4
    exact (DMat.of_inj.mp h4).symm
  have hL : L = !![1 / 2] := by
    rw [h5, hblk, hC, Matrix.inv_subsingleton]
    ext i j; fin_cases i; fin_cases j
    simp [Matrix.mul_apply, sel0]
    norm_num
  have hP' : P' = !![1 / 2, 1; 1, 1] := by
    ext i j
    fin_cases i <;> fin_cases j
    · have := h11.selected 0 0
      show P' (sel0 0) (sel0 0) = _
      rw [this, hblk, hL, hC]
      simp [Matrix.mul_apply, sel0, Matrix.vecMul, dotProduct]
      norm_num
    · exact h11.others 0 1 (by decide)
    · exact h11.others 1 0 (by decide)
    · exact h11.others 1 1 (by decide)
  refine ⟨f, g, !![1, 1; 1, 1], P', rfl, hpsd, h1, h10, hP', ?_⟩
  intro h
  have := h.dotProduct_mulVec_nonneg ![1, -1]
  rw [hP'] at this
  simp [Matrix.mulVec, dotProduct, Fin.sum_univ_two] at this
  norm_num at this

/-- A nonlinear model that predicts the elapsed time for every state: `g() = (dt, ..., dt)`. -/
noncomputable def elapsedClass : SysClass ℝ NonlinSysData Unit :=
  SysClass.plain fun s _ _ dt => some { s with der := ⟨.const s.stateSize dt, .identity s.stateSize⟩ }

theorem elapsed_contract : SysContract NonlinSysData.Sized elapsedClass := by
  apply plain_contract
  intro n m s x u dt hs hx hu
  refine ⟨_, rfl, ⟨hs.states, hs.controls, ⟨hs.states, hs.states, hs.states⟩, hs.P, hs.Rp, hs.V, hs.Rc⟩, ⟨rfl, rfl, rfl, rfl, rfl⟩⟩

/-- Two states, one control; only state `0` is active. -/
noncomputable def elapsedEnv : Env Unit NonlinSysData Unit NonlinMeasData Unit :=
  { sys := (Sys.constructNonlinear 2 1 2 ()).setActiveStates [0], meas := fun _ => Meas.constructNonlinear 2 1 () }

/-- **C40 is false of EKFVS: `predict` overwrites the inactive states with what the model predicts for them.**  Two states `(7, 7)`,
state `1` inactive; after `predict(u, t = 3)` it is `3`. -/
theorem C40_refuted_ekfvs :
    ∃ (f g : Filter ℝ DVec DMat Unit (Env Unit NonlinSysData Unit NonlinMeasData Unit)) (σ : Fin 1 → Fin 2) (x x' : Fin 2 → ℝ),
      f = Filter.construct (ekfvsPlant elapsedClass fun _ => squareClass)
        { allowPast := false, rewindHistory := false, historyWindow := 0 } elapsedEnv (.of x) (.identity 2) 0 ∧
      Selects f.env.sys.activeStates σ ∧ (∀ i, σ i ≠ 1) ∧
      f.predictControl (ekfvsPlant elapsedClass fun _ => squareClass) (.zero 1) 3 = some g ∧ g.getState = .of x' ∧
      x 1 = 7 ∧ x' 1 = 3 := by
  set f := Filter.construct (ekfvsPlant elapsedClass fun _ : Unit => squareClass)
    { allowPast := false, rewindHistory := false, historyWindow := 0 } elapsedEnv (.of fun _ : Fin 2 => (7 : ℝ)) (.identity 2) (0 : ℝ)
  have hsel : Selects f.env.sys.activeStates sel0 := ⟨by decide, by decide⟩
  obtain ⟨g, p, G, W, V, Rp, Rc, P', h1, _, h3, _, _, _, _, _, h9, _⟩ :=
    C41_ekfvs_predict (K := Unit) (mc := fun _ => squareClass) elapsed_contract f (n := 2) (m := 1)
      ⟨rfl, rfl, ⟨rfl, rfl, rfl⟩, ⟨rfl, rfl⟩, ⟨rfl, rfl⟩, ⟨rfl, rfl⟩, rfl, rfl⟩ hsel (τ := id) selects_nil
      (x := fun _ => 7) (P := 1) rfl rfl (fun _ => 0) (by norm_num) 3 (by show (0 : ℝ) ≤ 3; norm_num) rfl
  refine ⟨f, g, sel0, fun _ => 7, fun _ => 3, rfl, hsel, by decide, h1, ?_, rfl, rfl⟩
  have h4 := Option.some.inj h3
  rw [h9, ← h4]
  show DVec.const 2 ((3 : ℝ) - 0) = _
  rw [sub_zero]; rfl

/-- Non-vacuity of C41 and of the first C40 refutation: `KalmanFilterVS` with the position active only; `predict` erases a velocity
of 5. -/
example : ∃ g x', (Filter.construct (kfvsPlant cvClass fun _ : Unit => posClass)
      { allowPast := false, rewindHistory := false, historyWindow := 0 } posOnly (.of fun _ : Fin 2 => (5 : ℝ)) (.identity 2)
      (0 : ℝ)).predictControl (kfvsPlant cvClass fun _ => posClass) (.of fun _ : Fin 1 => 1) 1 = some g ∧
    g.getState = .of x' ∧ x' (1 : Fin 2) = 0 := by
  obtain ⟨g, x', h1, h2, h3⟩ := C40_refuted_kfvs (K := Unit) (mc := fun _ => posClass) cv_contract (plain_ops _)
    (Filter.construct (kfvsPlant cvClass fun _ : Unit => posClass)
      { allowPast := false, rewindHistory := false, historyWindow := 0 } posOnly (.of fun _ : Fin 2 => (5 : ℝ)) (.identity 2) (0 : ℝ))
    (posOnly_ok (Q := fun _ _ => True)).sys posOnly_selects (τ := id) selects_nil (x := fun _ => 5) (P := 1) rfl rfl
    (fun _ : Fin 1 => 1) (by norm_num) 1 (by show (0 : ℝ) ≤ 1; norm_num) rfl
  exact ⟨g, x', h1, h2, h3 1 (by decide)⟩

end Props
end StateEstimation
