import Verif.Props.SixD
import Verif.Props.ImuJacobian

/-!
# C55 (measurement models) and C56: `H()` is the derivative of `h()`, and `setTf`
-/

namespace StateEstimation.Props

open Matrix Real

/-! ## Specification -/

/-- Specification: the transform is the identity. -/
def IsIdentity (tf : Iso) : Prop := tf.R = 1 ∧ tf.t = 0

/-- Specification: `f` is what `h()` returns after `update(x, dt)`, as a function of `x`. -/
def PredictsMeas {k : Nat} (cls : MeasClass ℝ NonlinMeasData TfData) (m : TfMeas) (f : (Fin 18 → ℝ) → (Fin k → ℝ)) : Prop :=
  ∀ x dt, ∃ m', m.update cls (.of x) dt = some m' ∧ m'.der.h = .of (f x)

/-- Specification: `H()` is, at every state, the derivative of `h()` with respect to the state, and `update` does not
change it. -/
def Consistent (k : Nat) (cls : MeasClass ℝ NonlinMeasData TfData) (m : TfMeas) : Prop :=
  ∃ (f : (Fin 18 → ℝ) → (Fin k → ℝ)) (H : Matrix (Fin k) (Fin 18) ℝ), PredictsMeas cls m f ∧ m.der.H = .of H ∧
    (∀ x, HasFDerivAt f (asDeriv H) x) ∧ ∀ (x : Fin 18 → ℝ) dt m', m.update cls (.of x) dt = some m' → m'.der.H = .of H

/-- Specification: what the odometry sensor measures when mounted with `tf`: the linear velocity and the yaw rate in its
frame. -/
noncomputable def odomOf (tf : Iso) (x : Fin 18 → ℝ) : Fin 4 → ℝ :=
  ![transformLinearVelocity (velocityOf x) (rateOf x) tf 0, transformLinearVelocity (velocityOf x) (rateOf x) tf 1,
    transformLinearVelocity (velocityOf x) (rateOf x) tf 2, (tf.R *ᵥ rateOf x) 2]

/-- Specification: what the IMU measures when mounted with `tf`: acceleration minus bias plus gravity and rate minus
bias, in its axes. -/
noncomputable def imuOf (tf : Iso) (x : Fin 18 → ℝ) : Fin 6 → ℝ :=
  let a := tf.R *ᵥ (accelOf x - ![x 12, x 13, x 14] + gravityOf x)
  let w := tf.R *ᵥ (rateOf x - ![x 15, x 16, x 17])
  ![a 0, a 1, a 2, w 0, w 1, w 2]

/-- A sequence of `setTf` calls. -/
noncomputable def setTfs (post : TfMeas → Option TfMeas) (m : TfMeas) : List Iso → Option TfMeas
  | [] => some m
  | tf :: l => (m.setTf post tf).bind fun m => setTfs post m l

/-- Specification: the transform of the last call (`t0` without calls). -/
def latest (t0 : Iso) : List Iso → Iso
  | [] => t0
  | tf :: l => latest tf l

/-! ## Matrices after `postTfUpdate` -/

/-- `A.block<1, 3>(i, j) = r`. -/
def rowM {r c : Nat} (A : Matrix (Fin r) (Fin c) ℝ) (i j : Nat) (s : V3) : Matrix (Fin r) (Fin c) ℝ :=
  fun a b => if h : a.val = i ∧ (j ≤ b.val ∧ b.val < j + 3) then s ⟨b.val - j, by omega⟩ else A a b

open StateEstimation.SixDRates (blockM mblock_of)

theorem mrow_of {r c : Nat} (A : Matrix (Fin r) (Fin c) ℝ) (i j : Nat) (s : V3) (h : i + 1 ≤ r ∧ j + 3 ≤ c) :
    (DMat.of A).setBlock13? i j s = some (.of (rowM A i j s)) := setBlock13_of A i j s h

/-- `H_` of the odometry model after `postTfUpdate`. -/
def odomH (H : Matrix (Fin 4) (Fin 18) ℝ) (tf : Iso) : Matrix (Fin 4) (Fin 18) ℝ :=
  rowM (blockM (blockM H 0 0 tf.R) 0 6 (-skew tf.t * tf.R)) 3 6 (tf.R 2)

theorem odomH_again (H : Matrix (Fin 4) (Fin 18) ℝ) (tf0 tf : Iso) : odomH (odomH H tf0) tf = odomH H tf := by
  funext a b
  fin_cases a <;> fin_cases b <;> rfl

theorem odom_post (m : TfMeas) (hj : m.ext.computeJacobian = true) (H : Matrix (Fin 4) (Fin 18) ℝ) (hH : m.der.H = .of H) :
    SixDRatesOdom.postTfUpdate m = some { m with der := { m.der with H := .of (odomH H m.ext.tf) } } := by
  unfold SixDRatesOdom.postTfUpdate
  rw [if_pos hj]
  simp only [Option.bind_eq_bind, hH]
  rw [mblock_of _ 0 0 _ (by omega), Option.bind_some, mblock_of _ 0 6 _ (by omega), Option.bind_some,
    mrow_of _ 3 6 _ (by omega), Option.bind_some]
  rfl

/-- `H_` of the IMU model after `postTfUpdate`. -/
def imuH (H : Matrix (Fin 6) (Fin 18) ℝ) (tf : Iso) : Matrix (Fin 6) (Fin 18) ℝ :=
  blockM (blockM (blockM (blockM (blockM H 0 3 tf.R) 0 12 (-tf.R)) 0 9 tf.R) 3 6 tf.R) 3 15 (-tf.R)

theorem imuH_again (H : Matrix (Fin 6) (Fin 18) ℝ) (tf0 tf : Iso) : imuH (imuH H tf0) tf = imuH H tf := by
  funext a b
  unfold imuH blockM
  split_ifs <;> first | rfl | (exfalso; omega)

theorem imu_post (m : TfMeas) (hj : m.ext.computeJacobian = true) (H : Matrix (Fin 6) (Fin 18) ℝ) (hH : m.der.H = .of H) :
    SixDRatesImu.postTfUpdate m = some { m with der := { m.der with H := .of (imuH H m.ext.tf) } } := by
  unfold SixDRatesImu.postTfUpdate
  rw [if_pos hj]
  simp only [Option.bind_eq_bind, hH]
  rw [mblock_of _ 0 3 _ (by omega), Option.bind_some, mblock_of _ 0 12 _ (by omega), Option.bind_some,
    mblock_of _ 0 9 _ (by omega), Option.bind_some, mblock_of _ 3 6 _ (by omega), Option.bind_some,
    mblock_of _ 3 15 _ (by omega), Option.bind_some]
  rfl

theorem odomH_mulVec (tf : Iso) (x : Fin 18 → ℝ) : odomH 0 tf *ᵥ x = odomOf tf x := by
  ext a
  fin_cases a <;>
    simp [odomH, rowM, blockM, odomOf, Matrix.mulVec, dotProduct, Fin.sum_univ_succ, transformLinearVelocity, velocityOf,
      rateOf, skew, Matrix.mul_apply, crossProduct] <;> ring

theorem imuH_mulVec (tf : Iso) (x : Fin 18 → ℝ) : imuH 0 tf *ᵥ x = imuOf tf x := by
  ext a
  fin_cases a <;>
    simp [imuH, blockM, imuOf, Matrix.mulVec, dotProduct, Fin.sum_univ_succ, accelOf, gravityOf, rateOf] <;> ring

/-! ## Sequences of `setTf` -/

/-- What holds of an object after some calls: `tf` is the latest transform, `eff` the latest one that is not the
identity. -/
structure TfState (k : Nat) (Hof : Iso → Matrix (Fin k) (Fin 18) ℝ) (m : TfMeas) (tf eff : Iso) : Prop where
  states : m.fm.stateDims = 18
  meas : m.measDims = k
  hsize : m.der.h.size = k
  tfEq : m.ext.tf = tf
  tfSet : m.ext.tfSet = true ↔ ¬ IsIdentity tf
  jac : m.ext.computeJacobian = true
  H : m.der.H = .of (Hof eff)

open Classical in
/-- Specification: the last transform that is not the identity (`t0` if there is none). -/
noncomputable def latestMoved (t0 : Iso) : List Iso → Iso
  | [] => t0
  | tf :: l => latestMoved (if IsIdentity tf then t0 else tf) l

open Classical in
theorem setTfs_state {k : Nat} {Hof : Iso → Matrix (Fin k) (Fin 18) ℝ} {post : TfMeas → Option TfMeas}
    (hpost : ∀ m, m.ext.computeJacobian = true → ∀ t0, m.der.H = .of (Hof t0) →
      post m = some { m with der := { m.der with H := .of (Hof m.ext.tf) } }) :
    ∀ (l : List Iso) (m : TfMeas) (tf eff : Iso), TfState k Hof m tf eff →
      ∃ m', setTfs post m l = some m' ∧ TfState k Hof m' (latest tf l) (latestMoved eff l)
  | [], m, tf, eff, h => ⟨m, rfl, h⟩
  | t1 :: l, m, tf, eff, h => by
      unfold setTfs latest latestMoved TfMeas.setTf
      by_cases hi : IsIdentity t1
      · have hd : (!decide (t1.R = 1 ∧ t1.t = 0)) = false := by
          rw [decide_eq_true (show t1.R = 1 ∧ t1.t = 0 from hi)]; rfl
        simp only [hd, Bool.false_eq_true, if_false, Option.bind_some]
        rw [if_pos hi]
        exact setTfs_state hpost l _ t1 eff ⟨h.states, h.meas, h.hsize, rfl, iff_of_false (by simp) (fun hc => hc hi), h.jac, h.H⟩
      · have hd : (!decide (t1.R = 1 ∧ t1.t = 0)) = true := by
          rw [decide_eq_false (show ¬ (t1.R = 1 ∧ t1.t = 0) from hi)]; rfl
        simp only [hd, if_true]
        rw [if_neg hi, hpost { m with ext := { m.ext with tf := t1, tfSet := true } } h.jac eff h.H, Option.bind_some]
        exact setTfs_state hpost l _ t1 t1 ⟨h.states, h.meas, h.hsize, rfl, iff_of_true rfl hi, h.jac, rfl⟩

theorem odom_state (l : List Iso) : ∃ m0 m, SixDRatesOdom.construct true = some m0 ∧
    setTfs SixDRatesOdom.postTfUpdate m0 l = some m ∧
    TfState 4 (odomH 0) m (latest Iso.identity l) (latestMoved Iso.identity l) := by
  have h0 := odom_post (Meas.constructNonlinear SixDRates.DIMS 4 ⟨Iso.identity, false, true⟩) rfl 0 rfl
  obtain ⟨m, h1, h2⟩ := setTfs_state (k := 4) (Hof := odomH 0) (post := SixDRatesOdom.postTfUpdate)
    (fun m hj t0 hH => by rw [odom_post m hj _ hH, odomH_again]) l _ Iso.identity Iso.identity
    (⟨rfl, rfl, rfl, rfl, iff_of_false (fun h => Bool.noConfusion h) (fun h => h ⟨rfl, rfl⟩), rfl, rfl⟩ : TfState 4 (odomH 0)
      { Meas.constructNonlinear SixDRates.DIMS 4 ⟨Iso.identity, false, true⟩ with
        der := { (Meas.constructNonlinear SixDRates.DIMS 4 (⟨Iso.identity, false, true⟩ : TfData)).der with
          H := .of (odomH 0 Iso.identity) } } Iso.identity Iso.identity)
  exact ⟨_, m, h0, h1, h2⟩

theorem imu_state (l : List Iso) : ∃ m0 m, SixDRatesImu.construct true = some m0 ∧
    setTfs SixDRatesImu.postTfUpdate m0 l = some m ∧
    TfState 6 (imuH 0) m (latest Iso.identity l) (latestMoved Iso.identity l) := by
  have h0 := imu_post (Meas.constructNonlinear SixDRates.DIMS 6 ⟨Iso.identity, false, true⟩) rfl 0 rfl
  obtain ⟨m, h1, h2⟩ := setTfs_state (k := 6) (Hof := imuH 0) (post := SixDRatesImu.postTfUpdate)
    (fun m hj t0 hH => by rw [imu_post m hj _ hH, imuH_again]) l _ Iso.identity Iso.identity
    (⟨rfl, rfl, rfl, rfl, iff_of_false (fun h => Bool.noConfusion h) (fun h => h ⟨rfl, rfl⟩), rfl, rfl⟩ : TfState 6 (imuH 0)
      { Meas.constructNonlinear SixDRates.DIMS 6 ⟨Iso.identity, false, true⟩ with
        der := { (Meas.constructNonlinear SixDRates.DIMS 6 (⟨Iso.identity, false, true⟩ : TfData)).der with
          H := .of (imuH 0 Iso.identity) } } Iso.identity Iso.identity)
  exact ⟨_, m, h0, h1, h2⟩

theorem odom_predicted (tf : Iso) (x : Fin 18 → ℝ) : SixDRatesOdom.predicted tf x = odomOf tf x := by
  unfold SixDRatesOdom.predicted odomOf
  rw [part_velocity, part_rate]
  rfl

theorem imu_predicted (d : TfData) (h : d.tfSet = true ↔ ¬ IsIdentity d.tf) (x : Fin 18 → ℝ) :
    SixDRatesImu.predicted d x = imuOf d.tf x := by
  unfold SixDRatesImu.predicted imuOf
  have e12 : SixDRates.part x 12 = ![x 12, x 13, x 14] := by funext k; fin_cases k <;> rfl
  have e15 : SixDRates.part x 15 = ![x 15, x 16, x 17] := by funext k; fin_cases k <;> rfl
  rw [part_accel, part_gravity, part_rate, e12, e15]
  cases ht : d.tfSet with
  | true => simp only [if_true]
  | false =>
    have hi : IsIdentity d.tf := by
      by_contra hc
      rw [h.mpr hc] at ht
      cases ht
    simp only [Bool.false_eq_true, if_false, hi.1, Matrix.one_mulVec]

open Classical in
theorem odom_update {m : TfMeas} {tf eff : Iso} (h : TfState 4 (odomH 0) m tf eff) (x : Fin 18 → ℝ) (dt : ℝ) :
    m.update SixDRatesOdom.cls (.of x) dt = some { m with der := { m.der with h := .of (odomOf tf x) } } := by
  unfold Meas.update
  rw [if_pos (show (DVec.of x).size = m.stateSize from h.states.symm)]
  show (if SixDRatesOdom.Shape m then SixDRatesOdom.myUpdate m (.of x) dt else some m) = _
  rw [if_pos ⟨h.states, h.meas⟩, SixDRatesOdom.myUpdate_of m h.hsize, odom_predicted, h.tfEq]

open Classical in
theorem imu_update {m : TfMeas} {tf eff : Iso} (h : TfState 6 (imuH 0) m tf eff) (x : Fin 18 → ℝ) (dt : ℝ) :
    m.update SixDRatesImu.cls (.of x) dt = some { m with der := { m.der with h := .of (imuOf tf x) } } := by
  unfold Meas.update
  rw [if_pos (show (DVec.of x).size = m.stateSize from h.states.symm)]
  show (if SixDRatesImu.Shape m then SixDRatesImu.myUpdate m (.of x) dt else some m) = _
  rw [if_pos ⟨h.states, h.meas⟩, SixDRatesImu.myUpdate_of m h.hsize, imu_predicted _ (by rw [h.tfEq]; exact h.tfSet), h.tfEq]

theorem of_inj {r c : Nat} {A B : Matrix (Fin r) (Fin c) ℝ} (h : DMat.of A = DMat.of B) : A = B := by
  injection h

theorem vof_inj {r : Nat} {a b : Fin r → ℝ} (h : DVec.of a = DVec.of b) : a = b := by
  injection h

theorem asDeriv_inj {r c : Nat} {A B : Matrix (Fin r) (Fin c) ℝ} (h : asDeriv A = asDeriv B) : A = B := by
  ext i j
  have := congrFun (congrArg (fun L : (Fin c → ℝ) →L[ℝ] (Fin r → ℝ) => L (Pi.single j 1)) h) i
  simpa using this

/-- An object is consistent exactly when the two matrices agree. -/
theorem consistent_iff {k : Nat} {Hof : Iso → Matrix (Fin k) (Fin 18) ℝ} {cls : MeasClass ℝ NonlinMeasData TfData}
    {f : Iso → (Fin 18 → ℝ) → (Fin k → ℝ)} (hf : ∀ tf x, Hof tf *ᵥ x = f tf x) {m : TfMeas} {tf eff : Iso}
    (h : TfState k Hof m tf eff)
    (hup : ∀ (x : Fin 18 → ℝ) dt, m.update cls (.of x) dt = some { m with der := { m.der with h := .of (f tf x) } }) :
    Consistent k cls m ↔ Hof eff = Hof tf := by
  have hd : ∀ x, HasFDerivAt (f tf) (asDeriv (Hof tf)) x := by
    intro x
    have : f tf = asDeriv (Hof tf) := by funext y; rw [asDeriv_apply, hf]
    rw [this]
    exact (asDeriv (Hof tf)).hasFDerivAt
  constructor
  · rintro ⟨f', H, h1, h2, h3, _⟩
    have e : f' = f tf := by
      funext x
      obtain ⟨m', h4, h5⟩ := h1 x 0
      rw [hup x 0] at h4
      rw [← Option.some.inj h4] at h5
      exact (vof_inj h5).symm
    subst e
    rw [h.H] at h2
    rw [of_inj h2]
    exact asDeriv_inj ((h3 0).unique (hd 0))
  · intro he
    refine ⟨f tf, Hof tf, fun x dt => ⟨_, hup x dt, rfl⟩, by rw [h.H, he], hd, ?_⟩
    intro x dt m' hm
    rw [hup x dt] at hm
    rw [← Option.some.inj hm]
    show m.der.H = _
    rw [h.H, he]

/-! ## The theorems -/

/-- **C56 (prediction).** After any sequence of `setTf` calls, `h()` of the odometry model is the measurement of a sensor
mounted with the latest transform. -/
theorem C56_odom_prediction (l : List Iso) : ∃ m0 m, SixDRatesOdom.construct true = some m0 ∧
    setTfs SixDRatesOdom.postTfUpdate m0 l = some m ∧
    PredictsMeas SixDRatesOdom.cls m (odomOf (latest Iso.identity l)) := by
  obtain ⟨m0, m, h1, h2, h3⟩ := odom_state l
  exact ⟨m0, m, h1, h2, fun x dt => ⟨_, odom_update h3 x dt, rfl⟩⟩

/-- **C56 (prediction).** Same for the IMU model. -/
theorem C56_imu_prediction (l : List Iso) : ∃ m0 m, SixDRatesImu.construct true = some m0 ∧
    setTfs SixDRatesImu.postTfUpdate m0 l = some m ∧
    PredictsMeas SixDRatesImu.cls m (imuOf (latest Iso.identity l)) := by
  obtain ⟨m0, m, h1, h2, h3⟩ := imu_state l
  exact ⟨m0, m, h1, h2, fun x dt => ⟨_, imu_update h3 x dt, rfl⟩⟩

/-- Specification: the last call did not set the identity, or no call ever set anything else. -/
def LastMoves (l : List Iso) : Prop := (∀ tf ∈ l, IsIdentity tf) ∨ ¬ IsIdentity (latest Iso.identity l)

theorem identity_eq {tf : Iso} (h : IsIdentity tf) : tf = Iso.identity := by
  obtain ⟨R, t⟩ := tf
  obtain ⟨h1, h2⟩ := h
  simp only at h1 h2
  rw [h1, h2]; rfl

theorem latestMoved_eq : ∀ (l : List Iso) (t0 e0 : Iso), (¬ IsIdentity (latest t0 l) → t0 = e0 ∨ IsIdentity t0) →
    ¬ IsIdentity (latest t0 l) → latestMoved e0 l = latest t0 l
  | [], t0, e0, h, hn => by
      rcases h hn with h | h
      · exact h.symm
      · exact absurd h hn
  | tf :: l, t0, e0, _, hn => by
      unfold latestMoved
      by_cases hi : IsIdentity tf
      · rw [if_pos hi]
        exact latestMoved_eq l tf e0 (fun _ => Or.inr hi) hn
      · rw [if_neg hi]
        exact latestMoved_eq l tf tf (fun _ => Or.inl rfl) hn

theorem latest_identity : ∀ (l : List Iso) (t0 : Iso), IsIdentity t0 → (∀ tf ∈ l, IsIdentity tf) →
    latest t0 l = Iso.identity ∧ latestMoved Iso.identity l = Iso.identity
  | [], t0, h0, _ => ⟨identity_eq h0, rfl⟩
  | tf :: l, t0, h0, h => by
      have ht := h tf List.mem_cons_self
      unfold latest latestMoved
      rw [if_pos ht]
      exact latest_identity l tf ht fun t ht => h t (List.mem_cons_of_mem _ ht)

theorem lastMoves_eq {l : List Iso} (h : LastMoves l) : latestMoved Iso.identity l = latest Iso.identity l := by
  rcases h with h | h
  · obtain ⟨h1, h2⟩ := latest_identity l Iso.identity ⟨rfl, rfl⟩ h
    rw [h1, h2]
  · exact latestMoved_eq l _ _ (fun _ => Or.inl rfl) h

/-- **C55 / C56, odometry.** If the last `setTf` did not set the identity (or nothing else was ever set), `H()` is the
derivative of `h()` at every state. -/
theorem C55_C56_odom_partial (l : List Iso) (hl : LastMoves l) : ∃ m0 m, SixDRatesOdom.construct true = some m0 ∧
    setTfs SixDRatesOdom.postTfUpdate m0 l = some m ∧ Consistent 4 SixDRatesOdom.cls m := by
  obtain ⟨m0, m, h1, h2, h3⟩ := odom_state l
  exact ⟨m0, m, h1, h2, (consistent_iff odomH_mulVec h3 (odom_update h3)).mpr (by rw [lastMoves_eq hl])⟩

/-- **C55 / C56, IMU.** -/
theorem C55_C56_imu_partial (l : List Iso) (hl : LastMoves l) : ∃ m0 m, SixDRatesImu.construct true = some m0 ∧
    setTfs SixDRatesImu.postTfUpdate m0 l = some m ∧ Consistent 6 SixDRatesImu.cls m := by
  obtain ⟨m0, m, h1, h2, h3⟩ := imu_state l
  exact ⟨m0, m, h1, h2, (consistent_iff imuH_mulVec h3 (imu_update h3)).mpr (by rw [lastMoves_eq hl])⟩

/-- C55 without any `setTf`: the freshly constructed models. -/
theorem C55_sensors_constructed : (∃ m, SixDRatesOdom.construct true = some m ∧ Consistent 4 SixDRatesOdom.cls m) ∧
    ∃ m, SixDRatesImu.construct true = some m ∧ Consistent 6 SixDRatesImu.cls m := by
  obtain ⟨m, _, h1, h2, h3⟩ := C55_C56_odom_partial [] (Or.inl fun _ h => by cases h)
  obtain ⟨n, _, g1, g2, g3⟩ := C55_C56_imu_partial [] (Or.inl fun _ h => by cases h)
  cases h2
  cases g2
  exact ⟨⟨m, h1, h3⟩, ⟨n, g1, g3⟩⟩

theorem quarterTurn_ne : quarterTurn ≠ 1 := by
  intro h
  have := congrFun (congrFun h 0) 0
  simp [quarterTurn] at this

/-- **C56, refuted for the odometry model.** Mount the sensor with a quarter turn, then back with the identity: `h()` is
that of the identity, `H()` still that of the quarter turn, so `H()` is not the derivative. -/
theorem C56_refuted_odom : ∃ m0 m, SixDRatesOdom.construct true = some m0 ∧
    setTfs SixDRatesOdom.postTfUpdate m0 [⟨quarterTurn, 0⟩, Iso.identity] = some m ∧ ¬ Consistent 4 SixDRatesOdom.cls m := by
  obtain ⟨m0, m, h1, h2, h3⟩ := odom_state [⟨quarterTurn, 0⟩, Iso.identity]
  refine ⟨m0, m, h1, h2, fun hc => ?_⟩
  have he := (consistent_iff odomH_mulVec h3 (odom_update h3)).mp hc
  have e1 : latestMoved Iso.identity [⟨quarterTurn, 0⟩, Iso.identity] = ⟨quarterTurn, 0⟩ := by
    simp only [latestMoved]
    rw [if_pos ⟨rfl, rfl⟩, if_neg (fun h => quarterTurn_ne h.1)]
  rw [e1] at he
  have := congrFun (congrFun he 0) 0
  simp [odomH, rowM, blockM, Iso.identity, quarterTurn, latest] at this

/-- **C56, refuted for the IMU model.** -/
theorem C56_refuted_imu : ∃ m0 m, SixDRatesImu.construct true = some m0 ∧
    setTfs SixDRatesImu.postTfUpdate m0 [⟨quarterTurn, 0⟩, Iso.identity] = some m ∧ ¬ Consistent 6 SixDRatesImu.cls m := by
  obtain ⟨m0, m, h1, h2, h3⟩ := imu_state [⟨quarterTurn, 0⟩, Iso.identity]
  refine ⟨m0, m, h1, h2, fun hc => ?_⟩
  have he := (consistent_iff imuH_mulVec h3 (imu_update h3)).mp hc
  have e1 : latestMoved Iso.identity [⟨quarterTurn, 0⟩, Iso.identity] = ⟨quarterTurn, 0⟩ := by
    simp only [latestMoved]
    rw [if_pos ⟨rfl, rfl⟩, if_neg (fun h => quarterTurn_ne h.1)]
  rw [e1] at he
  have := congrFun (congrFun he 0) 3
  simp [imuH, blockM, Iso.identity, quarterTurn, latest] at this

/-- Non-vacuity of the partial theorems: a sequence through the identity that ends elsewhere. -/
example : LastMoves [⟨quarterTurn, ![1, 2, 3]⟩, Iso.identity, ⟨quarterTurn, 0⟩] :=
  Or.inr fun h => quarterTurn_ne h.1

end StateEstimation.Props
