import Verif.Props.SixDNoise

/-! # C144: what no sensor looks at stays as it was

Without an IMU nothing in the 6-D filter looks at the accelerometer and gyroscope biases: their estimates, their covariance
and their (zero) correlation with the other states are the initial ones in every estimate of every history. -/

namespace StateEstimation.Props

open Matrix Filter Kalman Examples

variable {K : Type} [DecidableEq K]

/-! ## Specification -/

/-- Specification: the columns of `H()` at the biases are zero. -/
def SeesNoBias {Y : Type} (m : Meas NonlinMeasData Y) : Prop :=
  ∀ (k : Nat) (H : Matrix (Fin k) (Fin 18) ℝ), m.der.H = .of H → ∀ a i, IsBias i → H a i = 0

/-- Specification: a kind of sensor whose objects, once they see no bias, never do. -/
structure NeverSeesBias {Y : Type} (mc : MeasClass ℝ NonlinMeasData Y) : Prop where
  update : ∀ m x dt m', SeesNoBias m → m.update mc x dt = some m' → SeesNoBias m'
  stationary : ∀ m x z m', SeesNoBias m → mc.processStationary m x z = some m' → SeesNoBias m'

/-- Specification: in the estimate `x`, `c` the biases are `β`, their covariance is that of `D`, and they are uncorrelated
with all other states. -/
def BiasesAs (β : Fin 18 → ℝ) (D : Matrix (Fin 18) (Fin 18) ℝ) (x : DVec) (c : DMat) : Prop :=
  ∃ (v : Fin 18 → ℝ) (C : Matrix (Fin 18) (Fin 18) ℝ), x = .of v ∧ c = .of C ∧
    ∀ i, IsBias i → v i = β i ∧ (∀ j, IsBias j → C i j = D i j ∧ C j i = D j i) ∧
      ∀ j, ¬ IsBias j → C i j = 0 ∧ C j i = 0

/-! ## Sensors -/

theorem odom_never : NeverSeesBias SixDRatesOdom.cls where
  update m x dt m' hm hu := by
    unfold Meas.update at hu
    split at hu
    · have hu : (open Classical in if SixDRatesOdom.Shape m then SixDRatesOdom.myUpdate m x dt else some m) = some m' := hu
      split at hu
      · unfold SixDRatesOdom.myUpdate at hu
        simp only [Option.bind_eq_bind, Option.bind_eq_some_iff] at hu
        obtain ⟨v, _, w, _, z, _, z', _, h⟩ := hu
        cases Option.some.inj h
        exact hm
      · cases Option.some.inj hu; exact hm
    · cases hu
  stationary m x z m' hm h := by cases Option.some.inj h; exact hm

theorem odom_sees {m : TfMeas} {tf eff : Iso} (h : TfState 4 (odomH 0) m tf eff) : SeesNoBias m := by
  intro k H hH a i hi
  have hH' := hH.symm.trans h.H
  have hk : k = 4 := congrArg DMat.rows hH'
  subst hk
  rw [of_inj hH']
  unfold IsBias at hi
  unfold odomH rowM
  rw [dif_neg (by omega)]
  unfold SixDRates.blockM
  rw [dif_neg (by omega), dif_neg (by omega)]
  rfl

/-! ## The system model -/

/-- The system model's matrices leave the biases alone, rows and columns. -/
def BiasesApart (s : SixDRates.Obj) : Prop :=
  ∃ (G : Matrix (Fin 18) (Fin 18) ℝ) (W : Matrix (Fin 18) (Fin 15) ℝ), s.der.G = .of G ∧ s.P = .of W ∧
    ∀ i, IsBias i → (∀ j, G i j = (1 : Matrix (Fin 18) (Fin 18) ℝ) i j ∧ G j i = (1 : Matrix (Fin 18) (Fin 18) ℝ) j i) ∧ ∀ j, W i j = 0

theorem biasesApart_construct (cj uc : Bool) : BiasesApart (SixDRates.construct cj uc) :=
  ⟨1, 0, rfl, rfl, fun _ _ => ⟨fun _ => ⟨rfl, rfl⟩, fun _ => rfl⟩⟩

theorem biasesApart_update {s : SixDRates.Obj} (hsh : SixDRates.Shape s) (h : BiasesApart s)
    (x : Fin 18 → ℝ) (u : DVec) (dt : ℝ) : ∃ s', SixDRates.cls.myUpdate s (.of x) u dt = some s' ∧ BiasesApart s' := by
  obtain ⟨G, W, hG, hW, hb⟩ := h
  have e : SixDRates.cls.myUpdate s (.of x) u dt = SixDRates.myUpdate s (.of x) u dt := by
    show (open Classical in if SixDRates.Shape s then SixDRates.myUpdate s (.of x) u dt else some s) = _
    rw [if_pos hsh]
  rw [e]
  simp only [SixDRates.myUpdate, Option.bind_eq_bind, SixDRates.predictState_of, Option.bind_some, hG, hW,
    SixDRates.updateJacobian_of, updateNoise_of]
  have gG : ∀ i, IsBias i → ∀ j, SixDRates.jacobian G x dt i j = (1 : Matrix (Fin 18) (Fin 18) ℝ) i j ∧
      SixDRates.jacobian G x dt j i = (1 : Matrix (Fin 18) (Fin 18) ℝ) j i := by
    intro i hi j
    unfold IsBias at hi
    rw [SixDRates.jacobian_apply, dif_neg (by omega), dif_neg (by omega), if_neg (by omega),
      SixDRates.jacobian_apply, dif_neg (by omega), dif_neg (by omega), if_neg (by omega)]
    exact (hb i hi).1 j
  have gW : ∀ i, IsBias i → ∀ j, noise W x dt i j = 0 := by
    intro i hi j
    unfold IsBias at hi
    unfold noise
    rw [dif_neg (by omega), if_neg (by omega), if_neg (by omega), if_neg (by omega)]
    exact (hb i hi).2 j
  cases hj : s.ext.computeJacobian <;> cases hu : s.ext.updateCovariance <;>
    simp only [if_true, Bool.false_eq_true, if_false, Option.bind_some] <;> refine ⟨_, rfl, ?_⟩
  · exact ⟨G, W, rfl, rfl, hb⟩
  · exact ⟨G, noise W x dt, rfl, rfl, fun i hi => ⟨(hb i hi).1, gW i hi⟩⟩
  · exact ⟨SixDRates.jacobian G x dt, W, rfl, rfl, fun i hi => ⟨gG i hi, (hb i hi).2⟩⟩
  · exact ⟨SixDRates.jacobian G x dt, noise W x dt, rfl, rfl, fun i hi => ⟨gG i hi, gW i hi⟩⟩

theorem bias_row {G C : Matrix (Fin 18) (Fin 18) ℝ} {W : Matrix (Fin 18) (Fin 15) ℝ} {Rp : Matrix (Fin 15) (Fin 15) ℝ}
    {V : Matrix (Fin 18) (Fin 0) ℝ} {Rc : Matrix (Fin 0) (Fin 0) ℝ} {D : Matrix (Fin 18) (Fin 18) ℝ} {i : Fin 18} (hi : IsBias i)
    (hb : ∀ i, IsBias i → (∀ j, G i j = (1 : Matrix (Fin 18) (Fin 18) ℝ) i j ∧ G j i = (1 : Matrix (Fin 18) (Fin 18) ℝ) j i) ∧ ∀ j, W i j = 0)
    (hC : (∀ j, IsBias j → C i j = D i j) ∧ ∀ j, ¬ IsBias j → C i j = 0) :
    (∀ j, IsBias j → (G * C * Gᵀ + W * Rp * Wᵀ + V * Rc * Vᵀ) i j = D i j) ∧
      ∀ j, ¬ IsBias j → (G * C * Gᵀ + W * Rp * Wᵀ + V * Rc * Vᵀ) i j = 0 := by
  have hr : ∀ k, (G * C) i k = C i k := by
    intro k
    rw [Matrix.mul_apply]
    simp only [fun j => ((hb i hi).1 j).1]
    rw [← Matrix.mul_apply, Matrix.one_mul]
  have h2 : ∀ j, (W * Rp * Wᵀ) i j = 0 := by
    intro j
    rw [Matrix.mul_assoc, Matrix.mul_apply]
    exact Finset.sum_eq_zero (fun k _ => by rw [(hb i hi).2 k, zero_mul])
  have h3 : ∀ j, (V * Rc * Vᵀ) i j = 0 := by
    intro j
    rw [Matrix.mul_apply]
    exact Finset.sum_of_isEmpty _
  have h1 : ∀ j, (G * C * Gᵀ) i j = C i j := by
    intro j
    rw [Matrix.mul_apply]
    have : ∀ k, (G * C) i k * Gᵀ k j = C i k * (1 : Matrix (Fin 18) (Fin 18) ℝ) k j := by
      intro k
      rw [hr, Matrix.transpose_apply]
      by_cases hk : IsBias k
      · rw [((hb k hk).1 j).2, Matrix.one_apply, Matrix.one_apply]
        simp only [eq_comm]
      · rw [hC.2 k hk, zero_mul, zero_mul]
    simp only [this]
    rw [← Matrix.mul_apply, Matrix.mul_one]
  refine ⟨fun j hj => ?_, fun j hj => ?_⟩ <;> rw [Matrix.add_apply, Matrix.add_apply, h1, h2, h3, add_zero, add_zero]
  · exact hC.1 j hj
  · exact hC.2 j hj

/-! ## A correction -/

theorem bias_gain {k : Nat} {C : Matrix (Fin 18) (Fin 18) ℝ} {H : Matrix (Fin k) (Fin 18) ℝ} {R : Matrix (Fin k) (Fin k) ℝ} {i : Fin 18}
    (hC : ∀ j, ¬ IsBias j → C i j = 0) (hH : ∀ a i, IsBias i → H a i = 0) : ∀ a, gain C H R i a = 0 := by
  have h0 : ∀ a, (C * Hᵀ) i a = 0 := by
    intro a
    rw [Matrix.mul_apply]
    refine Finset.sum_eq_zero (fun j _ => ?_)
    by_cases hj : IsBias j
    · rw [Matrix.transpose_apply, hH a j hj, mul_zero]
    · rw [hC j hj, zero_mul]
  intro a
  unfold gain
  rw [Matrix.mul_apply]
  exact Finset.sum_eq_zero (fun b _ => by rw [h0, zero_mul])

theorem bias_post {k : Nat} {C : Matrix (Fin 18) (Fin 18) ℝ} {H : Matrix (Fin k) (Fin 18) ℝ} {R : Matrix (Fin k) (Fin k) ℝ} {i : Fin 18}
    (hC : ∀ j, ¬ IsBias j → C i j = 0) (hH : ∀ a i, IsBias i → H a i = 0) : ∀ j, Kalman.post C H R i j = C i j := by
  intro j
  have hg := bias_gain (R := R) hC hH
  unfold Kalman.post
  rw [Matrix.sub_mul, Matrix.one_mul, Matrix.sub_apply, Matrix.mul_assoc, Matrix.mul_apply]
  rw [Finset.sum_eq_zero (fun b _ => by rw [hg, zero_mul]), sub_zero]

/-! ## Every history -/

/-- A positive semidefinite estimate with the biases as at the start. -/
def BiasInv (β : Fin 18 → ℝ) (D : Matrix (Fin 18) (Fin 18) ℝ) (x : DVec) (c : DMat) : Prop :=
  EstimatePSD 18 x c ∧ BiasesAs β D x c

theorem biasInv_of_rows {β : Fin 18 → ℝ} {D : Matrix (Fin 18) (Fin 18) ℝ} {v : Fin 18 → ℝ} {C : Matrix (Fin 18) (Fin 18) ℝ}
    (h : EstimatePSD 18 (.of v) (.of C)) (hv : ∀ i, IsBias i → v i = β i)
    (hC : ∀ i, IsBias i → (∀ j, IsBias j → C i j = D i j) ∧ ∀ j, ¬ IsBias j → C i j = 0) : BiasInv β D (.of v) (.of C) := by
  have hs : ∀ i j, C j i = C i j := by
    intro i j
    have h2 := h.2
    rw [DMat.PSD_of] at h2
    have := h2.1.apply i j
    simpa using this
  exact ⟨h, v, C, rfl, rfl, fun i hi => ⟨hv i hi, fun j hj => ⟨(hC i hi).1 j hj, (hC j hj).1 i hi⟩,
    fun j hj => ⟨(hC i hi).2 j hj, by rw [hs]; exact (hC i hi).2 j hj⟩⟩⟩

theorem notGravity_of_bias {i : Fin 18} (hi : IsBias i) : NotGravity i := by
  unfold IsBias at hi
  unfold NotGravity
  omega

/-- What the models keep. -/
def BiasEnv {Y : Type} (Q : DVec → DMat → Prop) (kd : K → Nat) (e : Env K NonlinSysData SixDRates.Flags NonlinMeasData Y) : Prop :=
  Env.Ok NonlinSysData.Sized NonlinMeasData.Sized SixDNoise Q 18 0 kd e ∧ BiasesApart e.sys ∧ ∀ j, SeesNoBias (e.meas j)

theorem ekf_biases_inv {Y : Type} {mc : K → MeasClass ℝ NonlinMeasData Y} (hmc : ∀ j, MeasContract NonlinMeasData.Sized (mc j))
    (hno : ∀ j, NeverSeesBias (mc j)) (kd : K → Nat) (β : Fin 18 → ℝ) (D : Matrix (Fin 18) (Fin 18) ℝ) :
    PlantInv (ekfPlant SixDRates.cls mc) True (BiasInv β D) (BiasEnv (BiasInv β D) kd) (fun u => u.size = 0)
      (fun R => R.Is 0 0 ∧ R.PSD) (fun z c k => z.size = kd k ∧ c.Is (kd k) (kd k) ∧ c.PD) := by
  refine mkPlant_inv_objs (A := BiasesApart) (B := fun _ => SeesNoBias) (fun _ _ _ h => h)
    (fun j m x z m' h h' => (hno j).stationary m x z m' h h') (fun _ _ h => h) (fun s _ _ s' h h' => ?_) SixDRates.contract hmc (fun _ _ h => h.1.1.1)
    (fun _ _ _ h h' => ⟨⟨h.1.1, h'⟩, h.2⟩) (fun _ _ h => h.1.2) ?_ ?_
  · cases Option.some.inj h'; exact h
  · intro e x c u dt he ha hm hx hu
    obtain ⟨s', x', c', h1, h2, h3, h4⟩ := ekfPredict_psd SixDRates.contract he.sys he.noise.1.1 he.noise.1.2 hx.1 hu dt
      (fun s => ({ e with sys := s } : Env K NonlinSysData SixDRates.Flags NonlinMeasData Y))
    obtain ⟨hx0, v, C, rfl, rfl, hvC⟩ := hx
    have hsh : SixDRates.Shape e.sys := ⟨he.sys.states, he.sys.controls, he.noise.2⟩
    obtain ⟨s'', g1, g2⟩ := biasesApart_update hsh ha v u dt
    obtain ⟨s3, v', p1, p2, p3, -⟩ := C54_predict e.sys he.sys hsh v u dt
    rw [g1] at p1; cases p1
    have hup : e.sys.update SixDRates.cls (.of v) u dt = some s'' := by
      unfold Sys.update
      rw [if_pos ⟨he.sys.states.symm, by rw [hu]; exact he.sys.controls.symm⟩, g1]
    obtain ⟨t, k1, k2, k3⟩ := he.sys.update SixDRates.contract (x := .of v) rfl hu dt
    rw [hup] at k1; cases k1
    obtain ⟨G, W, hG, hW, hb⟩ := g2
    obtain ⟨V, hV⟩ := k2.V.exists_of
    obtain ⟨Rc, hRc⟩ := k2.Rc.exists_of
    have hRp15 : s''.Rp.Is 15 15 := by
      have := k2.Rp
      rw [k3.Rp] at this ⊢
      obtain ⟨r1, r2⟩ := this
      exact ⟨he.noise.2, by rw [r2]; exact he.noise.2⟩
    obtain ⟨Rp, hRp⟩ := hRp15.exists_of
    have hval : ekfPredict SixDRates.cls e.sys (.of v) (.of C) u dt
        (fun s => ({ e with sys := s } : Env K NonlinSysData SixDRates.Flags NonlinMeasData Y)) =
        some (s''.der.g, .of (G * C * Gᵀ + W * Rp * Wᵀ + V * Rc * Vᵀ), { e with sys := s'' }) := by
      unfold ekfPredict
      simp only [Option.bind_eq_bind, hup, Option.bind_some, hG, hW, hRp, hV, hRc, propagateCov_of]
    rw [hval] at h1
    obtain ⟨hx', rfl, hs⟩ : s''.der.g = x' ∧ .of (G * C * Gᵀ + W * Rp * Wᵀ + V * Rc * Vᵀ) = c' ∧
        ({ e with sys := s'' } : Env K NonlinSysData SixDRates.Flags NonlinMeasData Y) = { e with sys := s' } := by
      have := Option.some.inj h1
      exact ⟨congrArg Prod.fst this, congrArg (fun r => r.2.1) this, congrArg (fun r => r.2.2) this⟩
    rw [← hx', p2] at h2
    rw [p2] at hval
    refine OptP.of_eq hval ⟨biasInv_of_rows h2 (fun i hi => ?_) (fun i hi => ?_), he.setSys k2 k3, ⟨G, W, hG, hW, hb⟩, hm⟩
    · have h3 : 3 ≤ i.val := by unfold IsBias at hi; omega
      rw [p3 i h3 (notGravity_of_bias hi)]
      exact (hvC i hi).1
    · exact bias_row hi hb ⟨fun j hj => ((hvC i hi).2.1 j hj).1, fun j hj => ((hvC i hi).2.2 j hj).1⟩
  · intro e x c z j dt he ha hm hx hz hR
    obtain ⟨m', x', c', h1, h2, h3, h4, -⟩ := ekfCorrect_psd SixDRates.contract (hmc j) he.sys (he.meas j) hR hx.1 hz dt
      (e.setMeas j)
    obtain ⟨hx0, v, C, rfl, rfl, hvC⟩ := hx
    obtain ⟨m'', e1, hm'', hc⟩ := (he.meas j).update (hmc j) (x := .of v) rfl dt
    have hsee := (hno j).update _ _ _ _ (hm j) e1
    obtain ⟨H, hH⟩ := hm''.der.2.exists_of
    obtain ⟨R, hRR⟩ := hm''.cov.exists_of
    rw [← hc.cov, hRR, DMat.PD_of] at hR
    have hP := hx0.2
    rw [DMat.PSD_of] at hP
    have hS := pd_isUnit_det (innov_pd hP H hR)
    obtain ⟨dz, hdz, hdz2⟩ := (hmc j).sub m'' z m''.der.h hm'' hz hm''.der.1
    obtain ⟨dz, rfl⟩ := dz.exists_of hdz2
    obtain ⟨r, hr, hr2, -⟩ := C50_add v (gain C H R *ᵥ dz)
    have hr' : SixDRates.cls.add e.sys (.of v) (.of (gain C H R *ᵥ dz)) = some (.of r) := by
      show (open Classical in if SixDRates.Shape e.sys then _ else _) = _
      rw [if_pos ⟨he.sys.states, he.sys.controls, he.noise.2⟩]
      exact hr
    have hval : ekfCorrect SixDRates.cls (mc j) e.sys (e.meas j) (.of v) (.of C) z dt (e.setMeas j) =
        some (.of r, .of (Kalman.post C H R), e.setMeas j m'') := by
      unfold ekfCorrect
      simp only [Option.bind_eq_bind, e1, Option.bind_some, hH, hRR, kalmanGain_of _ _ _ hS, DMat.mulVec_of, hdz, hr',
        shrinkCov_of]
      rfl
    rw [hval] at h1
    obtain ⟨rfl, rfl⟩ : .of r = x' ∧ .of (Kalman.post C H R) = c' := by
      have := Option.some.inj h1
      exact ⟨congrArg Prod.fst this, congrArg (fun r => r.2.1) this⟩
    have hsee' := hsee _ H hH
    refine OptP.of_eq hval ⟨biasInv_of_rows h2 (fun i hi => ?_) (fun i hi => ?_), he.setMeas j hm'' hc, ha, fun l => ?_⟩
    · rw [hr2 i (notGravity_of_bias hi), Matrix.mulVec, dotProduct,
        Finset.sum_eq_zero (fun a _ => by rw [bias_gain (fun j hj => ((hvC i hi).2.2 j hj).1) hsee', zero_mul]), add_zero]
      exact (hvC i hi).1
    · have hp := bias_post (R := R) (fun j hj => ((hvC i hi).2.2 j hj).1) hsee'
      exact ⟨fun j hj => by rw [hp]; exact ((hvC i hi).2.1 j hj).1, fun j hj => by rw [hp]; exact ((hvC i hi).2.2 j hj).1⟩
    · show SeesNoBias (if l = j then m'' else e.meas l)
      by_cases hl : l = j
      · rw [if_pos hl]; exact hsee
      · rw [if_neg hl]; exact hm l

/-- **C144.** An EKF on the 6-D rates model, with sensors whose Jacobian has nothing at the biases, started with biases
uncorrelated with the other states: in every sequence of calls every estimate the filter retains has exactly the initial
biases, with exactly the initial covariance between them, still uncorrelated with everything else. -/
theorem C144_biases_stay {Y : Type} {mc : K → MeasClass ℝ NonlinMeasData Y}
    (hmc : ∀ j, MeasContract NonlinMeasData.Sized (mc j)) (hno : ∀ j, NeverSeesBias (mc j)) (kd : K → Nat)
    (sort : List (FilterInput ℝ DVec DMat K) → List (FilterInput ℝ DVec DMat K)) (hsort : ∀ l, (sort l).Perm l)
    (params : Params ℝ) (e : Env K NonlinSysData SixDRates.Flags NonlinMeasData Y)
    (v : Fin 18 → ℝ) (C : Matrix (Fin 18) (Fin 18) ℝ)
    (he : e.Ok NonlinSysData.Sized NonlinMeasData.Sized SixDNoise (BiasInv v C) 18 0 kd) (cj uc : Bool)
    (Rp : Matrix (Fin 15) (Fin 15) ℝ) (hsys : e.sys = { SixDRates.construct cj uc with Rp := .of Rp })
    (hm : ∀ j, SeesNoBias (e.meas j)) (t : ℝ) (hC : C.PosSemidef) (hcross : ∀ i j, IsBias i → ¬ IsBias j → C i j = 0)
    (ops : List (Op ℝ DVec DMat K (Env K NonlinSysData SixDRates.Flags NonlinMeasData Y)))
    (hops : ∀ op ∈ ops, op.WellFormed (BiasInv v C) (BiasEnv (BiasInv v C) kd) 0 kd DMat.PD) :
    ∃ g, (Filter.construct (ekfPlant SixDRates.cls mc) params e (.of v) (.of C) t).run (ekfPlant SixDRates.cls mc) sort ops =
        some g ∧ ∀ s ∈ g.retained, BiasesAs v C s.x s.covariance := by
  obtain ⟨g, h1, h2, _⟩ := OptP.exists_of_total (mkPlant_run_inv (ekf_biases_inv hmc hno kd v C) sort hsort params e
    ⟨he, by rw [hsys]; exact biasesApart_construct cj uc, hm⟩ (.of v) (.of C) t
    (biasInv_of_rows ⟨⟨rfl, rfl, rfl⟩, DMat.PSD_of.mpr hC⟩ (fun _ _ => rfl) fun i hi => ⟨fun _ _ => rfl, fun j hj => hcross i j hi hj⟩)
    ops hops)
  exact ⟨g, h1, fun s hs => (h2 s hs).2⟩

/-- **C144, odometers.** Any number of the library's odometers, each mounted by any sequence of `setTf` calls (`l j`), with
any process noise. -/
theorem C144_odometers (kd : K → Nat)
    (sort : List (FilterInput ℝ DVec DMat K) → List (FilterInput ℝ DVec DMat K)) (hsort : ∀ l, (sort l).Perm l)
    (params : Params ℝ) (e : Env K NonlinSysData SixDRates.Flags NonlinMeasData TfData) (l : K → List Iso)
    (v : Fin 18 → ℝ) (C : Matrix (Fin 18) (Fin 18) ℝ)
    (he : e.Ok NonlinSysData.Sized NonlinMeasData.Sized SixDNoise (BiasInv v C) 18 0 kd) (cj uc : Bool)
    (Rp : Matrix (Fin 15) (Fin 15) ℝ) (hsys : e.sys = { SixDRates.construct cj uc with Rp := .of Rp })
    (hm : ∀ j, ((SixDRatesOdom.construct true).bind fun m => setTfs SixDRatesOdom.postTfUpdate m (l j)) = some (e.meas j))
    (t : ℝ) (hC : C.PosSemidef) (hcross : ∀ i j, IsBias i → ¬ IsBias j → C i j = 0)
    (ops : List (Op ℝ DVec DMat K (Env K NonlinSysData SixDRates.Flags NonlinMeasData TfData)))
    (hops : ∀ op ∈ ops, op.WellFormed (BiasInv v C) (BiasEnv (BiasInv v C) kd) 0 kd DMat.PD) :
    ∃ g, (Filter.construct (ekfPlant SixDRates.cls fun _ => SixDRatesOdom.cls) params e (.of v) (.of C) t).run
        (ekfPlant SixDRates.cls fun _ => SixDRatesOdom.cls) sort ops = some g ∧
      ∀ s ∈ g.retained, BiasesAs v C s.x s.covariance := by
  refine C144_biases_stay (fun _ => SixDRatesOdom.contract) (fun _ => odom_never) kd sort hsort params e v C he cj uc Rp hsys
    (fun j => ?_) t hC hcross ops hops
  obtain ⟨m0, m, h1, h2, h3⟩ := odom_state (l j)
  have := hm j
  rw [h1, Option.bind_some, h2] at this
  cases Option.some.inj this
  exact odom_sees h3

/-- Non-vacuity of C144: two odometers, the second mounted somewhere else, unit process noise in all 15 components, known
non-zero initial biases with unit covariance, and a run with predictions, corrections, a late reading and a revert. -/
example (sort : List (FilterInput ℝ DVec DMat Bool) → List (FilterInput ℝ DVec DMat Bool)) (hsort : ∀ l, (sort l).Perm l) (tf : Iso) :
    ∃ odom odom' g, SixDRatesOdom.construct true = some odom ∧ setTfs SixDRatesOdom.postTfUpdate odom [tf] = some odom' ∧
      (Filter.construct (ekfPlant SixDRates.cls fun _ => SixDRatesOdom.cls)
        { rewindHistory := true, historyWindow := 5, allowPast := false }
        (⟨{ SixDRates.construct true true with Rp := .of (1 : Matrix (Fin 15) (Fin 15) ℝ) }, fun b => if b then odom' else odom⟩ :
          Env Bool NonlinSysData SixDRates.Flags NonlinMeasData TfData)
        (.of (fun i : Fin 18 => (i.val : ℝ))) (.of (1 : Matrix (Fin 18) (Fin 18) ℝ)) 0).run
        (ekfPlant SixDRates.cls fun _ => SixDRatesOdom.cls) sort
        [.predictTime 1, .correct (.zero 4) (.identity 4) 2 false, .correct (.zero 4) (.identity 4) 1.5 true,
          .predictTime 100, .revertToState 3] = some g ∧
      ∀ s ∈ g.retained, BiasesAs (fun i : Fin 18 => (i.val : ℝ)) 1 s.x s.covariance := by
  obtain ⟨odom, odom2, ho, h2, h3⟩ := odom_state []
  cases Option.some.inj h2
  obtain ⟨odom0, odom', ho', h4, h5⟩ := odom_state [tf]
  rw [ho] at ho'; cases ho'
  have sz : ∀ {m : TfMeas} {tf eff : Iso}, TfState 4 (odomH 0) m tf eff → m.cov.Is 4 4 → m.Sized NonlinMeasData.Sized 18 4 :=
    fun h hc => ⟨h.states, h.meas, ⟨h.hsize, by rw [h.H]; exact ⟨rfl, rfl⟩⟩, hc⟩
  have c0 : odom.cov.Is 4 4 := by
    have h0 := odom_post (Meas.constructNonlinear SixDRates.DIMS 4 ⟨Iso.identity, false, true⟩) rfl 0 rfl
    have e0 : SixDRatesOdom.construct true = _ := h0
    rw [ho] at e0
    cases Option.some.inj e0
    exact ⟨rfl, rfl⟩
  have m0 : ∀ x c, odom.fm.makeStationary x c = some (x, c) := by
    have h0 := odom_post (Meas.constructNonlinear SixDRates.DIMS 4 ⟨Iso.identity, false, true⟩) rfl 0 rfl
    have e0 : SixDRatesOdom.construct true = _ := h0
    rw [ho] at e0
    cases Option.some.inj e0
    exact fun _ _ => rfl
  have c2 : odom'.cov = odom.cov ∧ odom'.fm = odom.fm := by
    simp only [setTfs, Option.bind_eq_some_iff] at h4
    obtain ⟨m, hm, hm'⟩ := h4
    cases Option.some.inj hm'
    unfold TfMeas.setTf at hm
    dsimp only at hm
    split at hm
    · unfold SixDRatesOdom.postTfUpdate at hm
      split at hm
      · simp only [Option.bind_eq_bind, Option.bind_eq_some_iff] at hm
        obtain ⟨_, _, _, _, _, _, hm⟩ := hm
        cases Option.some.inj hm
        exact ⟨rfl, rfl⟩
      · cases Option.some.inj hm; exact ⟨rfl, rfl⟩
    · cases Option.some.inj hm; exact ⟨rfl, rfl⟩
  have c1 : odom'.cov.Is 4 4 := by rw [c2.1]; exact c0
  have m1 : ∀ x c, odom'.fm.makeStationary x c = some (x, c) := by rw [c2.2]; exact m0
  have p1 : (⟨{ SixDRates.construct true true with Rp := .of (1 : Matrix (Fin 15) (Fin 15) ℝ) }, fun b => if b then odom' else odom⟩ :
      Env Bool NonlinSysData SixDRates.Flags NonlinMeasData TfData).Ok NonlinSysData.Sized
      NonlinMeasData.Sized SixDNoise (BiasInv (fun i : Fin 18 => (i.val : ℝ)) 1) 18 0 (fun _ => 4) := by
    refine ⟨?_, ?_, fun x c h => ⟨x, c, rfl, h⟩, ?_, fun b x c h => ⟨x, c, by cases b; exacts [m0 x c, m1 x c], h⟩⟩
    · exact ⟨rfl, rfl, (SixDRates.construct_sized true true).der, ⟨rfl, rfl⟩, ⟨rfl, rfl⟩, (SixDRates.construct_sized true true).V,
        (SixDRates.construct_sized true true).Rc⟩
    · exact ⟨⟨⟨rfl, PosSemidef.one⟩, ⟨rfl, PosSemidef.zero⟩⟩, rfl⟩
    · intro b
      cases b
      · exact sz h3 c0
      · exact sz h5 c1
  obtain ⟨g, g1, g2⟩ := C144_odometers (K := Bool) (fun _ => 4) sort hsort
    { rewindHistory := true, historyWindow := 5, allowPast := false } _
    (fun b => if b then [tf] else []) (fun i : Fin 18 => (i.val : ℝ)) 1 p1 true true 1 rfl (by
    intro b
    cases b
    · exact (congrArg (fun o => o.bind fun m => setTfs SixDRatesOdom.postTfUpdate m []) ho).trans h2
    · exact (congrArg (fun o => o.bind fun m => setTfs SixDRatesOdom.postTfUpdate m [tf]) ho).trans h4) 0 PosSemidef.one (by
    intro i j hi hj
    exact Matrix.one_apply_ne (fun h => hj (h ▸ hi)))
    [.predictTime 1, .correct (.zero 4) (.identity 4) 2 false, .correct (.zero 4) (.identity 4) 1.5 true,
          .predictTime 100, .revertToState 3] (by
    intro op hop
    simp only [List.mem_cons, List.not_mem_nil, or_false] at hop
    rcases hop with rfl | rfl | rfl | rfl | rfl
    · trivial
    · exact ⟨false, rfl, rfl, ⟨rfl, rfl⟩, identity_pd 4⟩
    · exact ⟨true, rfl, rfl, ⟨rfl, rfl⟩, identity_pd 4⟩
    · trivial
    · trivial)
  exact ⟨odom, odom', g, ho, h4, g1, g2⟩

end StateEstimation.Props
