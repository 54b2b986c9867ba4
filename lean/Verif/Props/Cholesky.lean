import Verif.Lemmas.Llt
import Verif.Lemmas.UKFAffine
import Verif.Props.Unscented

/-!
# C91: the UKF and exactly known components

`ukf.cpp` takes its sigma points from `((n + lambda) * covariance).llt().matrixL()` and never asks whether the factorisation
succeeded.  Here the factorisation is the algorithm Eigen runs (`eigenLlt`, Model/Llt.lean), not a parameter.
-/

namespace StateEstimation
namespace Props

open Matrix Examples Sigma

variable {T K X Y : Type} [DecidableEq K] {n m k : Nat}

/-- The joint covariance of the first `k` components is `B`; all other components are known exactly (zero variance). -/
def KnownLast {n k : Nat} (B : Matrix (Fin k) (Fin k) ℝ) (P : Matrix (Fin n) (Fin n) ℝ) : Prop :=
  k ≤ n ∧ ∀ i j : Fin n, P i j = if h : i.val < k ∧ j.val < k then B ⟨i, h.1⟩ ⟨j, h.2⟩ else 0

theorem KnownLast.lead {B : Matrix (Fin k) (Fin k) ℝ} {P : Matrix (Fin n) (Fin n) ℝ} (h : KnownLast B P) (hB : B.PosDef)
    {c : ℝ} (hc : 0 < c) : Llt.Lead k (c • P) := by
  have hs : ∀ i j, B i j = B j i := fun i j => by simpa using (hB.isHermitian.apply i j).symm
  refine ⟨fun i j => ?_, fun i j hi => ?_, fun v ⟨i0, hi0, hv⟩ => ?_⟩
  · rw [Matrix.smul_apply, Matrix.smul_apply, h.2, h.2]
    by_cases hij : i.val < k ∧ j.val < k
    · rw [dif_pos hij, dif_pos hij.symm, hs]
    · rw [dif_neg hij, dif_neg (fun x => hij x.symm)]
  · rw [Matrix.smul_apply, h.2, dif_neg (fun x => absurd x.1 (not_lt.mpr hi)), smul_zero]
  · have hne : (fun i : Fin k => v (Fin.castLE h.1 i)) ≠ 0 := fun e => hv (by
      have := congrFun e ⟨i0.val, hi0⟩
      simpa using this)
    have hp := hB.dotProduct_mulVec_pos hne
    have key : ∀ f : Fin n → ℝ, (∀ i : Fin n, k ≤ i.val → f i = 0) → ∑ i, f i = ∑ i : Fin k, f (Fin.castLE h.1 i) := by
      intro f hf
      have em : ∑ i : Fin k, f (Fin.castLE h.1 i) = ∑ i ∈ Finset.univ.map (Fin.castLEEmb h.1), f i := by
        rw [Finset.sum_map]; rfl
      rw [em]
      symm
      refine Finset.sum_subset (Finset.subset_univ _) fun i _ hi => hf i ?_
      by_contra hlt
      exact hi (Finset.mem_map.mpr ⟨⟨i.val, not_le.mp hlt⟩, Finset.mem_univ _, rfl⟩)
    have e : ∑ i, ∑ j, v i * (c • P) i j * v j
        = c * ((fun i : Fin k => v (Fin.castLE h.1 i)) ⬝ᵥ (B *ᵥ fun i : Fin k => v (Fin.castLE h.1 i))) := by
      rw [key _ (fun i hi => Finset.sum_eq_zero fun j _ => by
        rw [Matrix.smul_apply, h.2, dif_neg (fun x => absurd x.1 (not_lt.mpr hi))]; simp)]
      simp only [dotProduct, mulVec, Finset.mul_sum]
      refine Finset.sum_congr rfl fun i _ => ?_
      rw [key _ (fun j hj => by rw [Matrix.smul_apply, h.2, dif_neg (fun x => absurd x.2 (not_lt.mpr hj))]; simp)]
      refine Finset.sum_congr rfl fun j _ => ?_
      rw [Matrix.smul_apply, h.2, dif_pos ⟨i.isLt, j.isLt⟩, smul_eq_mul]
      simp only [Fin.castLE, Fin.eta]
      ring
    rw [e]
    exact mul_pos hc (by simpa using hp)

/-- **C91 (the factorisation on positive definite matrices).**  For every size and every positive definite matrix, the
algorithm behind `.llt().matrixL()` returns a lower triangular `L` with `L Lᵀ = M`.  This discharges the assumption
`LltSpec` of C35 - C38, C40 - C42 and C67 for Eigen's algorithm. -/
theorem C91_factor_partial (M : Matrix (Fin n) (Fin n) ℝ) (hM : M.PosDef) :
    ∃ L : Matrix (Fin n) (Fin n) ℝ, eigenLlt (.of M) = some (.of L) ∧ L * Lᵀ = M ∧ ∀ i j, i < j → L i j = 0 :=
  ⟨lltLower M, eigenLlt_of M, ((Llt.Lead.of_posDef hM).lower le_rfl).1, ((Llt.Lead.of_posDef hM).lower le_rfl).2⟩

/-- **C91 (every history, positive definite).**  C36/C37 with Eigen's algorithm in place of an assumed factorisation. -/
theorem C91_ukf_every_history_partial [TimeOps T] [SaneTime T] {p : Nat} (junk : Nat → Nat → ℝ)
    {sc : SysClass T NonlinSysData X} {mc : K → MeasClass T NonlinMeasData Y}
    (hsc : SysContract NonlinSysData.Sized sc) (hso : sc.PlainOps)
    (hsp : sc.SpreadsNoise NonlinSysData.Sized n m p) (hmc : ∀ j, MeasContract NonlinMeasData.Sized (mc j))
    (hmo : ∀ j, (mc j).PlainOps) (kd : K → Nat)
    (sort : List (FilterInput T DVec DMat K) → List (FilterInput T DVec DMat K)) (hsort : ∀ l, (sort l).Perm l)
    (params : Params T) (e : Env K NonlinSysData X NonlinMeasData Y × SigmaParams)
    (he : Env.Ok NonlinSysData.Sized NonlinMeasData.Sized (NoisePD p) (EstimatePD n) n m kd e.1)
    (hsig : SigmaAdmissible n e.2)
    (x : DVec) (c : DMat) (t : T) (hx : EstimatePD n x c)
    (ops : List (Op T DVec DMat K (Env K NonlinSysData X NonlinMeasData Y × SigmaParams)))
    (hops : ∀ op ∈ ops, op.WellFormed (EstimatePD n)
      (fun e => Env.Ok NonlinSysData.Sized NonlinMeasData.Sized (NoisePD p) (EstimatePD n) n m kd e.1 ∧
        SigmaAdmissible n e.2) m kd DMat.PD) :
    ∃ g, (Filter.construct (ukfPlant eigenLlt junk sc mc) params e x c t).run (ukfPlant eigenLlt junk sc mc) sort ops
        = some g ∧ ∀ s ∈ g.retained, s.x.size = n ∧ s.covariance.Is n n ∧ s.covariance.PD :=
  C36_C37_ukf_every_history eigenLlt_spec junk hsc hso hsp hmc hmo kd sort hsort params e he hsig x c t hx ops hops

section Step

variable [LinearOrder T] [ExactTime T]

/-- **C91, the part that holds (predict).**  If the exactly known components are the *last* ones, and the others have a
positive definite joint covariance, an in-order `predict(u, t)` of a UKF whose model is `A x + b` gives the exact predicted
mean and covariance, `A x + b` and `A P Aᵀ + W Rp Wᵀ + V Rc Vᵀ`.  Missing from C91: known components in any other place,
see `C91_refuted`. -/
theorem C91_known_last_partial (junk : Nat → Nat → ℝ)
    {sc : SysClass T NonlinSysData X} {mc : K → MeasClass T NonlinMeasData Y}
    (hsc : SysContract NonlinSysData.Sized sc) (hso : sc.PlainOps)
    (f : Filter T DVec DMat K (Env K NonlinSysData X NonlinMeasData Y × SigmaParams))
    (hs : f.env.1.sys.Sized NonlinSysData.Sized n m) {al ka be : ℝ} (hsp : setSigma n n al ka be = some f.env.2)
    (hal : 0 < al ^ 2 * (n + ka))
    {x : Fin n → ℝ} {P : Matrix (Fin n) (Fin n) ℝ} (hx : f.getState = .of x) (hP : f.getCovariance = .of P)
    {B : Matrix (Fin k) (Fin k) ℝ} (hB : B.PosDef) (hPB : KnownLast B P)
    (u : Fin m → ℝ) (hm : 0 < m) (t : T) (ht : f.getStateTime ≤ t)
    (hst : (f.env.1.sys.fm.checkStationary && f.env.1.sys.fm.isStationary (.of x) (.of u)) = false)
    {A : Matrix (Fin n) (Fin n) ℝ} {b : Fin n → ℝ} {W' V' : DMat}
    (haff : ∀ (q : Fin n → ℝ) s, f.env.1.sys.UpdatedAt sc n m (.of q) (.of u) (TimeOps.sub t f.getStateTime) s →
      s.der.g = .of (A *ᵥ q + b) ∧ s.der.G = .of A ∧ s.P = W' ∧ s.V = V') :
    ∃ g p, ∃ (W : Matrix (Fin n) (Fin p) ℝ) (V : Matrix (Fin n) (Fin m) ℝ) (Rp : Matrix (Fin p) (Fin p) ℝ)
      (Rc : Matrix (Fin m) (Fin m) ℝ),
      f.predictControl (ukfPlant eigenLlt junk sc mc) (.of u) t = some g ∧ g.getStateTime = t ∧
      W' = .of W ∧ V' = .of V ∧ f.env.1.sys.Rp = .of Rp ∧ f.env.1.sys.Rc = .of Rc ∧
      g.getState = .of (A *ᵥ x + b) ∧ g.getCovariance = .of (A * P * Aᵀ + W * Rp * Wᵀ + V * Rc * Vᵀ) := by
  obtain ⟨lam, e1, e2, e3⟩ := setSigma_eq hsp
  have hpos : 0 < (n : ℝ) + lam := by rw [e1]; exact hal
  obtain ⟨s', p, W, V, Rp, Rc, e, hs', hc, hW, hV, hRp, hRc⟩ :=
    ukfPredict_affine' (d := be - al ^ 2) hsc hso junk hpos hs x (u := .of u) rfl (eigenLlt_of _)
      ((hPB.lead hB hpos).lower hPB.1).1 (TimeOps.sub t f.getStateTime) haff
      (fun s => ({ f.env.1 with sys := s } : Env K NonlinSysData X NonlinMeasData Y))
  obtain ⟨g, h1, h2, h3, h4, h5, h6⟩ := with_predict_now (sc := sc) (mc := mc)
    (predict := fun sp e x cov u dt => ukfPredict eigenLlt junk sc sp e.sys x cov u dt fun s => { e with sys := s })
    (correct := fun sp e x cov z k dt => ukfCorrect eigenLlt junk sc (mc k) sp e.sys (e.meas k) x cov z dt (e.setMeas k))
    f (.of u) hm t ht (by rw [hs.controls]; exact hs.Rc) (by rw [hx]; exact hst) (by rw [hx, hP, e3]; exact e)
  exact ⟨g, p, W, V, Rp, Rc, h1, h4, hW, hV, hRp, hRc, h2, h3⟩

end Step

/-! ### The refutation -/

/-- Two states that do not move and have no noise: `g() = x`, `G = I`, `P = 0`, `V = 0`. -/
noncomputable def stillClass : SysClass ℝ NonlinSysData Unit :=
  SysClass.plain fun s x _ _ =>
    if s.stateSize = x.size then
      some { s with der := ⟨x, .identity x.size⟩
                    P := .zero x.size s.Rp.rows
                    V := .zero x.size s.controlDims }
    else some s

theorem still_contract : SysContract NonlinSysData.Sized stillClass := by
  apply plain_contract
  intro n m s x u dt hs hx hu
  rw [if_pos (hs.states.trans hx.symm)]
  refine ⟨_, rfl, ⟨hs.states, hs.controls, ⟨hx, hx, hx⟩, ⟨hx, rfl⟩, hs.Rp, ⟨hx, hs.controls⟩, hs.Rc⟩, ⟨rfl, rfl, rfl, rfl, rfl⟩⟩

/-- Fresh objects for two states and one control. -/
noncomputable def stillEnv : Env Unit NonlinSysData Unit NonlinMeasData Unit :=
  { sys := Sys.constructNonlinear 2 1 1 (), meas := fun _ => Meas.constructNonlinear 2 1 () }

theorem still_sized : stillEnv.sys.Sized NonlinSysData.Sized 2 1 :=
  ⟨rfl, rfl, ⟨rfl, rfl, rfl⟩, ⟨rfl, rfl⟩, ⟨rfl, rfl⟩, ⟨rfl, rfl⟩, ⟨rfl, rfl⟩⟩

theorem still_updated (q : Fin 2 → ℝ) (u : DVec) (dt : ℝ) (s' : Sys NonlinSysData Unit)
    (h : stillEnv.sys.UpdatedAt stillClass 2 1 (.of q) u dt s') :
    s'.der.g = .of ((1 : Matrix (Fin 2) (Fin 2) ℝ) *ᵥ q + 0) ∧ s'.der.G = .of (1 : Matrix (Fin 2) (Fin 2) ℝ) ∧ s'.P = .zero 2 1 ∧ s'.V = .zero 2 1 := by
  obtain ⟨s, h1, h2, h3⟩ := h
  change (if _ then _ else _) = _ at h3
  rw [if_pos (by rw [h1.states])] at h3
  injection h3 with h3
  subst h3
  refine ⟨by simp, rfl, ?_, ?_⟩
  · show DMat.zero 2 s.Rp.rows = _
    rw [h2.Rp]; rfl
  · show DMat.zero 2 s.controlDims = _
    rw [h1.controls]

/-- **C91 is false.**  Two states that do not move, no noise at all, the constructor's sigma point parameters.  The first
component is known exactly, the second has variance 4.  After one `predict` the EKF still says so; the UKF, with the
factorisation Eigen runs, reports the variance 0.000032 for the second component, although no measurement was made. -/
theorem C91_refuted (junk : Nat → Nat → ℝ) (sp : SigmaParams) (hsp : ukfInitSigma stillEnv = some sp) (params : Params ℝ) :
    (∃ g, (Filter.construct (ekfPlant stillClass fun _ : Unit => squareClass) params stillEnv (.of ![7, 1])
        (.of !![0, 0; 0, 4]) 0).predictControl (ekfPlant stillClass fun _ : Unit => squareClass) (vec1 5) 1 = some g ∧
      g.getState = .of ![7, 1] ∧ g.getCovariance = .of !![0, 0; 0, 4]) ∧
    (∃ g, (Filter.construct (ukfPlant eigenLlt junk stillClass fun _ : Unit => squareClass) params (stillEnv, sp)
        (.of ![7, 1]) (.of !![0, 0; 0, 4]) 0).predictControl
          (ukfPlant eigenLlt junk stillClass fun _ : Unit => squareClass) (vec1 5) 1 = some g ∧
      g.getState = .of ![7, 1] ∧ g.getCovariance = .of !![0, 0; 0, 0.000032]) := by
  have hid : (1 : Matrix (Fin 2) (Fin 2) ℝ) *ᵥ ![7, 1] + 0 = ![7, 1] := by simp
  refine ⟨?_, ?_⟩
  · obtain ⟨g, p, G, W, V, Rp, Rc, h1, h2, h3, h4, h5, h6, h7, h8, h9, h10, h11⟩ := C27_ekf_predict
      (mc := fun _ : Unit => squareClass) still_contract
      (Filter.construct (ekfPlant stillClass fun _ : Unit => squareClass) params stillEnv (.of ![7, 1]) (.of !![0, 0; 0, 4]) 0)
      (n := 2) (m := 1) (x := ![7, 1]) (P := !![0, 0; 0, 4]) still_sized rfl rfl ![5] (by norm_num) 1
      (show (0 : ℝ) ≤ 1 by norm_num) rfl
    have hU := still_updated _ _ _ _ ⟨_, still_sized, Sys.SameConfig.refl _, h3⟩
    have hp : p = 1 := (congrArg DMat.rows h7).symm
    subst hp
    have e1 : (1 : Matrix (Fin 2) (Fin 2) ℝ) = G := DMat.of_inj.mp (hU.2.1.symm.trans h4)
    have e2 : (0 : Matrix (Fin 2) (Fin 1) ℝ) = W := DMat.of_inj.mp (hU.2.2.1.symm.trans h5)
    have e3 : (0 : Matrix (Fin 2) (Fin 1) ℝ) = V := DMat.of_inj.mp (hU.2.2.2.symm.trans h6)
    refine ⟨g, h1, by rw [h9, hU.1, hid], ?_⟩
    rw [h10, ← e1, ← e2, ← e3]
    simp
  · have hsp' : setSigma 2 2 0.001 0 2 = some sp := hsp
    obtain ⟨lam, e1, e2, e3⟩ := setSigma_eq hsp'
    have hc : ((2 : ℕ) : ℝ) + lam = 0.000002 := by rw [e1]; norm_num
    have hpos : 0 < ((2 : ℕ) : ℝ) + lam := by rw [hc]; norm_num
    have hL : lltLower ((((2 : ℕ) : ℝ) + lam) • !![0, 0; 0, 4]) = (!![0, 0; 0, 0.000008] : Matrix (Fin 2) (Fin 2) ℝ) := by
      rw [hc]
      have hloop : ∀ A : Nat → Nat → ℝ, A 0 0 = 0 → lltLoop 2 0 A = A := fun A hA => by
        rw [lltLoop, if_pos (by simp [lltPivot, hA])]
      ext i j
      unfold lltLower
      rw [hloop _ (by simp)]
      fin_cases i <;> fin_cases j <;> simp <;> norm_num
    have hLL : lltLower ((((2 : ℕ) : ℝ) + lam) • !![0, 0; 0, 4]) * (lltLower ((((2 : ℕ) : ℝ) + lam) • !![0, 0; 0, 4]))ᵀ
        = (((2 : ℕ) : ℝ) + lam) • (!![0, 0; 0, 0.000032] : Matrix (Fin 2) (Fin 2) ℝ) := by
      rw [hL, hc]
      ext i j
      fin_cases i <;> fin_cases j <;> simp [Matrix.mul_apply] <;> norm_num
    obtain ⟨s', p, W, V, Rp, Rc, e, hs', hcf, hW, hV, hRp, hRc⟩ :=
      ukfPredict_affine' (d := 2 - 0.001 ^ 2) still_contract (plain_ops _) junk hpos still_sized ![7, 1] (u := vec1 5) rfl
        (eigenLlt_of _) hLL (TimeOps.sub (1 : ℝ) 0) (fun q t => still_updated q _ _ t)
        (fun s => ({ stillEnv with sys := s } : Env Unit NonlinSysData Unit NonlinMeasData Unit))
    obtain ⟨g, h1, h2, h3, h4, h5, h6⟩ := with_predict_now (sc := stillClass) (mc := fun _ : Unit => squareClass)
      (predict := fun sp e x cov u dt => ukfPredict eigenLlt junk stillClass sp e.sys x cov u dt fun s => { e with sys := s })
      (correct := fun sp e x cov z k dt => ukfCorrect eigenLlt junk stillClass squareClass sp e.sys (e.meas k) x cov z dt
        (e.setMeas k))
      (Filter.construct (ukfPlant eigenLlt junk stillClass fun _ : Unit => squareClass) params (stillEnv, sp)
        (.of ![7, 1]) (.of !![0, 0; 0, 4]) 0) (vec1 5) (by simp) 1 (show (0 : ℝ) ≤ 1 by norm_num) ⟨rfl, rfl⟩ rfl
      (by rw [show sp = _ from e3]; exact e)
    have hp : p = 1 := (congrArg DMat.rows hRp).symm
    subst hp
    have e4 : (0 : Matrix (Fin 2) (Fin 1) ℝ) = W := DMat.of_inj.mp hW
    have e5 : (0 : Matrix (Fin 2) (Fin 1) ℝ) = V := DMat.of_inj.mp hV
    refine ⟨g, h1, by rw [h2, hid], ?_⟩
    rw [h3, ← e4, ← e5]
    simp

/-- A case for the positive part: the same filter with the known component last keeps its covariance. -/
example (junk : Nat → Nat → ℝ) (sp : SigmaParams) (hsp : ukfInitSigma stillEnv = some sp) (params : Params ℝ) :
    ∃ g, (Filter.construct (ukfPlant eigenLlt junk stillClass fun _ : Unit => squareClass) params (stillEnv, sp)
        (.of ![1, 7]) (.of !![4, 0; 0, 0]) 0).predictControl
          (ukfPlant eigenLlt junk stillClass fun _ : Unit => squareClass) (vec1 5) 1 = some g ∧
      g.getState = .of ![1, 7] ∧ g.getCovariance = .of !![4, 0; 0, 0] := by
  have hB : (!![(4 : ℝ)] : Matrix (Fin 1) (Fin 1) ℝ).PosDef := by
    have : (!![(4 : ℝ)] : Matrix (Fin 1) (Fin 1) ℝ) = (4 : ℝ) • 1 := by ext i j; fin_cases i; fin_cases j; simp
    rw [this]; exact PosDef.one.smul (by norm_num)
  obtain ⟨g, p, W, V, Rp, Rc, h1, h2, h3, h4, h5, h6, h7, h8⟩ := C91_known_last_partial junk
    (mc := fun _ : Unit => squareClass) still_contract (plain_ops _)
    (Filter.construct (ukfPlant eigenLlt junk stillClass fun _ : Unit => squareClass) params (stillEnv, sp)
        (.of ![1, 7]) (.of !![4, 0; 0, 0]) 0) (n := 2) (m := 1) still_sized (x := ![1, 7]) (P := !![4, 0; 0, 0])
    (show setSigma 2 2 0.001 0 2 = some sp from hsp) (by norm_num) rfl rfl hB
    ⟨by norm_num, fun i j => by fin_cases i <;> fin_cases j <;> rfl⟩ ![5] (by norm_num) 1 (show (0 : ℝ) ≤ 1 by norm_num) rfl
    (fun q t => still_updated q _ _ t)
  have hp : p = 1 := (congrArg DMat.rows h5).symm
  subst hp
  have e4 : (0 : Matrix (Fin 2) (Fin 1) ℝ) = W := DMat.of_inj.mp h3
  have e5 : (0 : Matrix (Fin 2) (Fin 1) ℝ) = V := DMat.of_inj.mp h4
  refine ⟨g, h1, by rw [h7]; simp, ?_⟩
  rw [h8, ← e4, ← e5]
  simp

end Props
end StateEstimation
