import Verif.Props.Units
import Verif.Examples.Quad

/-!
# C153: a symmetric problem

A symmetry of a problem is a change of coordinates in which models, noise and sensors look the same as before: exchanging two equal
tanks, mirroring left and right.  Mirrored data then give the mirrored estimate, and data that are their own mirror image give an
estimate that is its own mirror image.
-/

set_option linter.unusedSectionVars false

namespace StateEstimation

open Matrix Units Examples

variable {T K X Y : Type} {n m p : Nat} {kd : K → Nat}

/-- The estimate looks the same in the new coordinates. -/
def Units.OwnImage (u : Units n m p kd) (x : DVec) (c : DMat) : Prop :=
  ∃ (v : Fin n → ℝ) (M : Matrix (Fin n) (Fin n) ℝ), x = .of v ∧ c = .of M ∧ u.T *ᵥ v = v ∧ u.T * M * u.Tᵀ = M

theorem Units.OwnImage.of_in {u : Units n m p kd} {x : DVec} {c : DMat} (h : u.StateIn x c x c) : u.OwnImage x c := by
  obtain ⟨⟨v, h1, h2⟩, M, h3, h4⟩ := h
  exact ⟨v, M, h1, h3, (DVec.of_inj.mp (h1.symm.trans h2)).symm, (DMat.of_inj.mp (h3.symm.trans h4)).symm⟩

theorem Units.OwnImage.to_in {u : Units n m p kd} {x : DVec} {c : DMat} (h : u.OwnImage x c) : u.StateIn x c x c := by
  obtain ⟨v, M, h1, h2, h3, h4⟩ := h
  exact ⟨⟨v, h1, by rw [h3, h1]⟩, M, h2, by rw [h4, h2]⟩

namespace Props

variable [DecidableEq K] [LinearOrder T] [TimeOps T] [SaneTime T]

/-- **C153 (Kalman filter, mirrored data).**  `u` is a symmetry of the models.  From an estimate and from its mirror image, with data
and with their mirror images: both runs fail or both complete, and then report the same times and mirrored estimates, current and
remembered ones. -/
theorem C153_kf_mirror (u : Units n m p kd) {sc : SysClass T LinSysData X} (hsc : u.SysClassIn u.LinSysIn sc sc)
    {mc : K → MeasClass T LinMeasData Y} (hmc : ∀ k, u.MeasClassIn k (u.LinMeasIn k) (mc k) (mc k))
    (sort : List (FilterInput T DVec DMat K) → List (FilterInput T DVec DMat K)) (hsort : SameSort sort sort)
    (params : Params T) (e : Env K LinSysData X LinMeasData Y) (he : u.EnvIn u.LinSysIn u.LinMeasIn e e)
    (x : Fin n → ℝ) (P : Matrix (Fin n) (Fin n) ℝ) (t : T)
    (ops ops' : List (Op T DVec DMat K (Env K LinSysData X LinMeasData Y)))
    (hops : List.Forall₂ (u.CallIn (u.EnvIn u.LinSysIn u.LinMeasIn)) ops ops') :
    Both (fun f g => f.getStateTime = g.getStateTime ∧ u.StateIn f.getState f.getCovariance g.getState g.getCovariance ∧
        List.Forall₂ (fun s s' => s.timestamp = s'.timestamp ∧ u.StateIn s.x s.covariance s'.x s'.covariance) f.history g.history)
      ((Filter.construct (kfPlant sc mc) params e (.of x) (.of P) t).run (kfPlant sc mc) sort ops)
      ((Filter.construct (kfPlant sc mc) params e (.of (u.T *ᵥ x)) (.of (u.T * P * u.Tᵀ)) t).run (kfPlant sc mc) sort ops') := by
  have := C72_kf_units u hsc hmc sort hsort params e e he (.of x) (.of P) _ _ ⟨⟨_, rfl, rfl⟩, _, rfl, rfl⟩ t ops ops' hops
  revert this
  cases (Filter.construct (kfPlant sc mc) params e (.of x) (.of P) t).run (kfPlant sc mc) sort ops <;>
    cases (Filter.construct (kfPlant sc mc) params e (.of (u.T *ᵥ x)) (.of (u.T * P * u.Tᵀ)) t).run (kfPlant sc mc) sort ops'
  · exact id
  · exact id
  · exact id
  · exact fun h => ⟨h.1, h.2.1, h.2.2.2⟩

/-- **C153 (EKF, mirrored data).** -/
theorem C153_ekf_mirror (u : Units n m p kd) {sc : SysClass T NonlinSysData X} (hsc : u.SysClassIn u.NonlinSysIn sc sc)
    {mc : K → MeasClass T NonlinMeasData Y} (hmc : ∀ k, u.MeasClassIn k (u.NonlinMeasIn k) (mc k) (mc k))
    (sort : List (FilterInput T DVec DMat K) → List (FilterInput T DVec DMat K)) (hsort : SameSort sort sort)
    (params : Params T) (e : Env K NonlinSysData X NonlinMeasData Y) (he : u.EnvIn u.NonlinSysIn u.NonlinMeasIn e e)
    (x : Fin n → ℝ) (P : Matrix (Fin n) (Fin n) ℝ) (t : T)
    (ops ops' : List (Op T DVec DMat K (Env K NonlinSysData X NonlinMeasData Y)))
    (hops : List.Forall₂ (u.CallIn (u.EnvIn u.NonlinSysIn u.NonlinMeasIn)) ops ops') :
    Both (fun f g => f.getStateTime = g.getStateTime ∧ u.StateIn f.getState f.getCovariance g.getState g.getCovariance ∧
        List.Forall₂ (fun s s' => s.timestamp = s'.timestamp ∧ u.StateIn s.x s.covariance s'.x s'.covariance) f.history g.history)
      ((Filter.construct (ekfPlant sc mc) params e (.of x) (.of P) t).run (ekfPlant sc mc) sort ops)
      ((Filter.construct (ekfPlant sc mc) params e (.of (u.T *ᵥ x)) (.of (u.T * P * u.Tᵀ)) t).run (ekfPlant sc mc) sort ops') := by
  have := C72_ekf_units u hsc hmc sort hsort params e e he (.of x) (.of P) _ _ ⟨⟨_, rfl, rfl⟩, _, rfl, rfl⟩ t ops ops' hops
  revert this
  cases (Filter.construct (ekfPlant sc mc) params e (.of x) (.of P) t).run (ekfPlant sc mc) sort ops <;>
    cases (Filter.construct (ekfPlant sc mc) params e (.of (u.T *ᵥ x)) (.of (u.T * P * u.Tᵀ)) t).run (ekfPlant sc mc) sort ops'
  · exact id
  · exact id
  · exact id
  · exact fun h => ⟨h.1, h.2.1, h.2.2.2⟩

private theorem own_ops {E : Type} {u : Units n m p kd} {RE : E → E → Prop} {ops : List (Op T DVec DMat K E)}
    (h : ∀ op ∈ ops, u.CallIn RE op op) : List.Forall₂ (u.CallIn RE) ops ops := by
  induction ops with
  | nil => exact .nil
  | cons a l ih => exact .cons (h a (List.mem_cons_self ..)) (ih fun b hb => h b (List.mem_cons_of_mem _ hb))

/-- **C153 (Kalman filter, symmetric data).**  If the initial estimate and all data are their own mirror images, then so are all
estimates ever after, current and remembered ones. -/
theorem C153_kf_symmetric (u : Units n m p kd) {sc : SysClass T LinSysData X} (hsc : u.SysClassIn u.LinSysIn sc sc)
    {mc : K → MeasClass T LinMeasData Y} (hmc : ∀ k, u.MeasClassIn k (u.LinMeasIn k) (mc k) (mc k))
    (sort : List (FilterInput T DVec DMat K) → List (FilterInput T DVec DMat K)) (hsort : SameSort sort sort)
    (params : Params T) (e : Env K LinSysData X LinMeasData Y) (he : u.EnvIn u.LinSysIn u.LinMeasIn e e)
    (x : DVec) (c : DMat) (hx : u.OwnImage x c) (t : T) (ops : List (Op T DVec DMat K (Env K LinSysData X LinMeasData Y)))
    (hops : ∀ op ∈ ops, u.CallIn (u.EnvIn u.LinSysIn u.LinMeasIn) op op)
    {f : Filter T DVec DMat K (Env K LinSysData X LinMeasData Y)}
    (hf : (Filter.construct (kfPlant sc mc) params e x c t).run (kfPlant sc mc) sort ops = some f) :
    u.OwnImage f.getState f.getCovariance ∧ ∀ s ∈ f.history, u.OwnImage s.x s.covariance := by
  have := C72_kf_units u hsc hmc sort hsort params e e he x c x c hx.to_in t ops ops (own_ops hops)
  rw [hf] at this
  refine ⟨.of_in this.2.1, fun s hs => .of_in ?_⟩
  exact (List.forall₂_same.mp this.2.2.2 s hs).2

/-- **C153 (EKF, symmetric data).** -/
theorem C153_ekf_symmetric (u : Units n m p kd) {sc : SysClass T NonlinSysData X} (hsc : u.SysClassIn u.NonlinSysIn sc sc)
    {mc : K → MeasClass T NonlinMeasData Y} (hmc : ∀ k, u.MeasClassIn k (u.NonlinMeasIn k) (mc k) (mc k))
    (sort : List (FilterInput T DVec DMat K) → List (FilterInput T DVec DMat K)) (hsort : SameSort sort sort)
    (params : Params T) (e : Env K NonlinSysData X NonlinMeasData Y) (he : u.EnvIn u.NonlinSysIn u.NonlinMeasIn e e)
    (x : DVec) (c : DMat) (hx : u.OwnImage x c) (t : T) (ops : List (Op T DVec DMat K (Env K NonlinSysData X NonlinMeasData Y)))
    (hops : ∀ op ∈ ops, u.CallIn (u.EnvIn u.NonlinSysIn u.NonlinMeasIn) op op)
    {f : Filter T DVec DMat K (Env K NonlinSysData X NonlinMeasData Y)}
    (hf : (Filter.construct (ekfPlant sc mc) params e x c t).run (ekfPlant sc mc) sort ops = some f) :
    u.OwnImage f.getState f.getCovariance ∧ ∀ s ∈ f.history, u.OwnImage s.x s.covariance := by
  have := C72_ekf_units u hsc hmc sort hsort params e e he x c x c hx.to_in t ops ops (own_ops hops)
  rw [hf] at this
  refine ⟨.of_in this.2.1, fun s hs => .of_in ?_⟩
  exact (List.forall₂_same.mp this.2.2.2 s hs).2

/-! ## Two equal rooms that exchange heat

One heater for both, one meter for the sum; the rooms may be exchanged. -/

namespace SymmetryExample

open UnitsExample

/-- Exchange the rooms (and their noises). -/
noncomputable def swap : Units 2 1 2 (K := Unit) (fun _ => 1) where
  T := !![0, 1; 1, 0]
  U := 1
  N := !![0, 1; 1, 0]
  D := fun _ => 1
  hT := by rw [Matrix.det_fin_two_of]; norm_num
  hD := fun _ => by rw [Matrix.det_one]; exact isUnit_one

/-- `A = [1 - dt, dt; dt, 1 - dt]`, `B = [dt; dt]`. -/
noncomputable def roomsClass : SysClass ℝ LinSysData Unit :=
  SysClass.plain fun s _ _ dt =>
    if s.stateSize = 2 ∧ s.controlDims = 1 ∧ s.Rp.rows = 2 then
      some { s with der := ⟨.of !![1 - dt, dt; dt, 1 - dt], .of !![dt; dt]⟩
                    P := .of (1 : Matrix (Fin 2) (Fin 2) ℝ)
                    V := .of !![dt; dt] }
    else some s

/-- `C = [1 1]`. -/
noncomputable def sumClass : MeasClass ℝ LinMeasData Unit :=
  MeasClass.plain fun s _ _ =>
    if s.stateSize = 2 ∧ s.measDims = 1 then some { s with der := ⟨.of !![1, 1]⟩ } else some s

noncomputable def roomsEnv : Env Unit LinSysData Unit LinMeasData Unit :=
  { sys := { Sys.constructLinear 2 1 2 () with Rp := .identity 2 }, meas := fun _ => Meas.constructLinear 2 1 () }

theorem rooms_swap : swap.SysClassIn swap.LinSysIn roomsClass roomsClass where
  ops := Examples.plain_ops _
  ops' := Examples.plain_ops _
  update s s' x v dt hs := by
    obtain ⟨M, h1, h2⟩ := hs.Rp
    have c1 : s.stateSize = 2 ∧ s.controlDims = 1 ∧ s.Rp.rows = 2 := ⟨hs.states, hs.controls, by rw [h1]⟩
    have c2 : s'.stateSize = 2 ∧ s'.controlDims = 1 ∧ s'.Rp.rows = 2 := ⟨hs.states', hs.controls', by rw [h2]⟩
    show Both _ (if s.stateSize = 2 ∧ s.controlDims = 1 ∧ s.Rp.rows = 2 then _ else some s)
      (if s'.stateSize = 2 ∧ s'.controlDims = 1 ∧ s'.Rp.rows = 2 then _ else some s')
    rw [if_pos c1, if_pos c2]
    have hB : !![dt; dt] * swap.U = swap.T * !![dt; dt] := by
      show !![dt; dt] * (1 : Matrix (Fin 1) (Fin 1) ℝ) = !![0, 1; 1, 0] * !![dt; dt]
      ext i j; fin_cases i <;> fin_cases j <;> simp [Matrix.mul_apply, Fin.sum_univ_succ]
    refine ⟨hs.states, hs.states', hs.controls, hs.controls', ⟨⟨_, _, rfl, rfl, ?_⟩, _, _, rfl, rfl, hB⟩, ⟨1, 1, rfl, rfl, ?_⟩,
      hs.Rp, ⟨_, _, rfl, rfl, hB⟩, hs.Rc, hs.fm⟩
    · show !![1 - dt, dt; dt, 1 - dt] * !![0, 1; 1, 0] = !![0, 1; 1, 0] * !![1 - dt, dt; dt, 1 - dt]
      ext i j; fin_cases i <;> fin_cases j <;> simp [Matrix.mul_apply, Fin.sum_univ_succ]
    · show (1 : Matrix (Fin 2) (Fin 2) ℝ) * !![0, 1; 1, 0] = !![0, 1; 1, 0] * 1
      rw [one_mul, mul_one]
  stationary s s' x d d' hs _ := hs

theorem sum_swap : swap.MeasClassIn () (swap.LinMeasIn ()) sumClass sumClass where
  ops := Examples.plain_mops _
  ops' := Examples.plain_mops _
  update s s' x dt hs := by
    show Both _ (if s.stateSize = 2 ∧ s.measDims = 1 then _ else some s) (if s'.stateSize = 2 ∧ s'.measDims = 1 then _ else some s')
    rw [if_pos ⟨hs.states, hs.meas⟩, if_pos ⟨hs.states', hs.meas'⟩]
    refine ⟨hs.states, hs.states', hs.meas, hs.meas', ⟨_, _, rfl, rfl, ?_⟩, hs.cov, hs.fm⟩
    show !![1, 1] * !![0, 1; 1, 0] = (1 : Matrix (Fin 1) (Fin 1) ℝ) * !![1, 1]
    ext i j; fin_cases i; fin_cases j <;> simp [Matrix.mul_apply, Fin.sum_univ_succ]
  stationary s s' x z hs := hs

theorem always (u : Units n m p (K := K) kd) (R : DVec → DVec → Prop) (a : Nat) :
    u.StationaryIn R (FilterModel.construct a) (FilterModel.construct a) where
  check := rfl
  is _ _ _ _ _ _ _ _ := rfl
  make _ _ _ _ h := h

theorem swap_env : swap.EnvIn swap.LinSysIn swap.LinMeasIn roomsEnv roomsEnv :=
  ⟨⟨rfl, rfl, rfl, rfl, ⟨mat_zero _ _, mat_zero _ _⟩, mat_zero _ _,
      ⟨1, DMat.identity_of, by
        rw [show roomsEnv.sys.Rp = .of (1 : Matrix (Fin 2) (Fin 2) ℝ) from DMat.identity_of, DMat.of_inj]
        show 1 = !![0, 1; 1, 0] * 1 * !![0, 1; 1, 0]ᵀ
        ext i j; fin_cases i <;> fin_cases j <;> simp [Matrix.mul_apply, Fin.sum_univ_succ]⟩,
      mat_zero _ _, cov_zero _, always _ _ _⟩,
    fun _ => ⟨rfl, rfl, rfl, rfl, mat_zero _ _, cov_zero _, always _ _ _⟩⟩

/-- Heat, then read the meter (late, if the parameters allow for it): both rooms 3, and equally uncertain. -/
example (sort : List (FilterInput ℝ DVec DMat Unit) → List (FilterInput ℝ DVec DMat Unit)) (hsort : SameSort sort sort) (pa : Params ℝ) :=
  fun f hf => C153_kf_symmetric swap rooms_swap (fun _ => sum_swap) sort hsort pa roomsEnv swap_env
    (.of ![3, 3]) (.of !![2, 1; 1, 2])
    ⟨_, _, rfl, rfl, by
      show !![0, 1; 1, 0] *ᵥ ![(3 : ℝ), 3] = _
      ext i; fin_cases i <;> simp, by
      show !![0, 1; 1, 0] * !![(2 : ℝ), 1; 1, 2] * !![0, 1; 1, 0]ᵀ = _
      ext i j; fin_cases i <;> fin_cases j <;> simp [Matrix.mul_apply, Fin.sum_univ_succ]⟩ 0
    [.predictControl (.of ![1]) 2, .correct (.of ![7]) (.of !![4]) 1 (some ()), .predictTime 5] (by
      intro op h
      simp only [List.mem_cons, List.not_mem_nil, or_false] at h
      rcases h with rfl | rfl | rfl
      · refine ⟨rfl, Or.inl ⟨Nat.one_pos, _, rfl, ?_⟩⟩
        rw [DVec.of_inj]; exact (Matrix.one_mulVec _).symm
      · refine ⟨rfl, (), rfl, rfl, ⟨_, rfl, ?_⟩, ⟨_, rfl, ?_⟩⟩
        · rw [DVec.of_inj]; exact (Matrix.one_mulVec _).symm
        · rw [DMat.of_inj]; show _ = (1 : Matrix (Fin 1) (Fin 1) ℝ) * _ * (1 : Matrix (Fin 1) (Fin 1) ℝ)ᵀ; simp
      · rfl) (f := f) hf

/-- The other room warmer: the data are the same, the estimate is the mirrored one. -/
example (sort : List (FilterInput ℝ DVec DMat Unit) → List (FilterInput ℝ DVec DMat Unit)) (hsort : SameSort sort sort) (pa : Params ℝ) :=
  C153_kf_mirror swap rooms_swap (fun _ => sum_swap) sort hsort pa roomsEnv swap_env ![3, 5] !![2, 1; 1, 4] 0
    [.predictControl (.of ![1]) 2, .correct (.of ![7]) (.of !![4]) 1 (some ()), .predictTime 5]
    [.predictControl (.of ![1]) 2, .correct (.of ![7]) (.of !![4]) 1 (some ()), .predictTime 5] (by
      refine .cons ⟨rfl, Or.inl ⟨Nat.one_pos, _, rfl, ?_⟩⟩ (.cons ⟨rfl, (), rfl, rfl, ⟨_, rfl, ?_⟩, ⟨_, rfl, ?_⟩⟩ (.cons rfl .nil))
      · rw [DVec.of_inj]; exact (Matrix.one_mulVec _).symm
      · rw [DVec.of_inj]; exact (Matrix.one_mulVec _).symm
      · rw [DMat.of_inj]; show _ = (1 : Matrix (Fin 1) (Fin 1) ℝ) * _ * (1 : Matrix (Fin 1) (Fin 1) ℝ)ᵀ; simp)

/-! ### A nonlinear problem that is the same on the left and on the right -/

/-- Left and right. -/
noncomputable def mirror : Units 1 1 1 (K := Unit) (fun _ => 1) where
  T := -1
  U := -1
  N := -1
  D := fun _ => -1
  hT := by rw [Matrix.det_fin_one]; norm_num
  hD := fun _ => by rw [Matrix.det_fin_one]; norm_num

/-- `g = x + dt (u - x³)`, `G = 1 - 3 dt x²`. -/
noncomputable def springClass : SysClass ℝ NonlinSysData Unit :=
  SysClass.plain fun s x u dt =>
    if s.stateSize = 1 ∧ s.controlDims = 1 ∧ s.Rp.rows = 1 then
      some { s with der := ⟨vec1 (head x + dt * (head u - head x ^ 3)), mat1 (1 - 3 * dt * head x ^ 2)⟩
                    P := mat1 1
                    V := mat1 dt }
    else some s

/-- `h = x³`, `H = 3 x²`. -/
noncomputable def cubeGauge : MeasClass ℝ NonlinMeasData Unit :=
  MeasClass.plain fun s x _ =>
    if s.stateSize = 1 ∧ s.measDims = 1 then some { s with der := ⟨vec1 (head x ^ 3), mat1 (3 * head x ^ 2)⟩ } else some s

private theorem head_mirror (x : Fin 1 → ℝ) : head (.of ((-1 : Matrix (Fin 1) (Fin 1) ℝ) *ᵥ x)) = -head (.of x) := by
  rw [head_of, head_of, Matrix.neg_mulVec, Matrix.one_mulVec]
  rfl

private theorem vec_mirror {a b : ℝ} (h : b = -a) : VecIn (-1 : Matrix (Fin 1) (Fin 1) ℝ) (vec1 a) (vec1 b) :=
  ⟨![a], rfl, by rw [DVec.of_inj, Matrix.neg_mulVec, Matrix.one_mulVec, h]; ext i; fin_cases i; rfl⟩

private theorem mat_mirror (a : ℝ) : MatIn (-1 : Matrix (Fin 1) (Fin 1) ℝ) (-1 : Matrix (Fin 1) (Fin 1) ℝ) (mat1 a) (mat1 a) :=
  ⟨_, _, rfl, rfl, by simp⟩

theorem spring_mirror : mirror.SysClassIn mirror.NonlinSysIn springClass springClass where
  ops := Examples.plain_ops _
  ops' := Examples.plain_ops _
  update s s' x v dt hs := by
    obtain ⟨M, h1, h2⟩ := hs.Rp
    have c1 : s.stateSize = 1 ∧ s.controlDims = 1 ∧ s.Rp.rows = 1 := ⟨hs.states, hs.controls, by rw [h1]⟩
    have c2 : s'.stateSize = 1 ∧ s'.controlDims = 1 ∧ s'.Rp.rows = 1 := ⟨hs.states', hs.controls', by rw [h2]⟩
    show Both _ (if s.stateSize = 1 ∧ s.controlDims = 1 ∧ s.Rp.rows = 1 then _ else some s)
      (if s'.stateSize = 1 ∧ s'.controlDims = 1 ∧ s'.Rp.rows = 1 then _ else some s')
    rw [if_pos c1, if_pos c2]
    have e1 : head (.of (mirror.T *ᵥ x)) = -head (.of x) := head_mirror x
    have e2 : head (.of (mirror.U *ᵥ v)) = -head (.of v) := head_mirror v
    rw [e1, e2]
    refine ⟨hs.states, hs.states', hs.controls, hs.controls', ⟨vec_mirror (by ring), ?_⟩, mat_mirror 1,
      hs.Rp, mat_mirror dt, hs.Rc, hs.fm⟩
    rw [neg_sq]
    exact mat_mirror _
  stationary s s' x d d' hs _ := hs

theorem gauge_mirror : mirror.MeasClassIn () (mirror.NonlinMeasIn ()) cubeGauge cubeGauge where
  ops := Examples.plain_mops _
  ops' := Examples.plain_mops _
  update s s' x dt hs := by
    show Both _ (if s.stateSize = 1 ∧ s.measDims = 1 then _ else some s) (if s'.stateSize = 1 ∧ s'.measDims = 1 then _ else some s')
    rw [if_pos ⟨hs.states, hs.meas⟩, if_pos ⟨hs.states', hs.meas'⟩]
    have e1 : head (.of (mirror.T *ᵥ x)) = -head (.of x) := head_mirror x
    rw [e1]
    refine ⟨hs.states, hs.states', hs.meas, hs.meas', ⟨vec_mirror (by ring), ?_⟩, hs.cov, hs.fm⟩
    rw [neg_sq]
    exact mat_mirror _
  stationary s s' x z hs := hs

private theorem vec_zero {a : Nat} (A : Matrix (Fin a) (Fin a) ℝ) : VecIn A (.zero a) (.zero a) := ⟨0, rfl, by simp; rfl⟩

theorem mirror_env : mirror.EnvIn mirror.NonlinSysIn mirror.NonlinMeasIn quadEnv quadEnv :=
  ⟨⟨rfl, rfl, rfl, rfl, ⟨vec_zero _, mat_zero _ _⟩, mat_zero _ _,
      ⟨1, DMat.identity_of, by
        rw [show quadEnv.sys.Rp = .of (1 : Matrix (Fin 1) (Fin 1) ℝ) from DMat.identity_of, DMat.of_inj]
        show 1 = (-1 : Matrix (Fin 1) (Fin 1) ℝ) * 1 * (-1 : Matrix (Fin 1) (Fin 1) ℝ)ᵀ
        simp⟩,
      mat_zero _ _, cov_zero _, always _ _ _⟩,
    fun _ => ⟨rfl, rfl, rfl, rfl, ⟨vec_zero _, mat_zero _ _⟩, cov_zero _, always _ _ _⟩⟩

private theorem cov_mirror (a : ℝ) : CovIn (-1 : Matrix (Fin 1) (Fin 1) ℝ) (mat1 a) (mat1 a) := ⟨_, rfl, by simp⟩

/-- From 2, pushed by 1, read as 7; from -2, pushed by -1, read as -7. -/
example (sort : List (FilterInput ℝ DVec DMat Unit) → List (FilterInput ℝ DVec DMat Unit)) (hsort : SameSort sort sort) (pa : Params ℝ) :=
  C153_ekf_mirror mirror spring_mirror (fun _ => gauge_mirror) sort hsort pa quadEnv mirror_env ![2] !![3] 0
    [.predictControl (vec1 1) 2, .correct (vec1 7) (mat1 4) 1 (some ()), .predictTime 5]
    [.predictControl (vec1 (-1)) 2, .correct (vec1 (-7)) (mat1 4) 1 (some ()), .predictTime 5]
    (.cons ⟨rfl, Or.inl ⟨Nat.one_pos, vec_mirror rfl⟩⟩ (.cons ⟨rfl, (), rfl, rfl, vec_mirror rfl, cov_mirror 4⟩ (.cons rfl .nil)))

/-- At 0, not pushed, read as 0: it stays there. -/
example (sort : List (FilterInput ℝ DVec DMat Unit) → List (FilterInput ℝ DVec DMat Unit)) (hsort : SameSort sort sort) (pa : Params ℝ) :=
  fun f hf => C153_ekf_symmetric mirror spring_mirror (fun _ => gauge_mirror) sort hsort pa quadEnv mirror_env (vec1 0) (mat1 3)
    (.of_in ⟨vec_mirror (by norm_num), cov_mirror 3⟩) 0
    [.predictControl (vec1 0) 2, .correct (vec1 0) (mat1 4) 1 (some ()), .predictTime 5] (by
      intro op h
      simp only [List.mem_cons, List.not_mem_nil, or_false] at h
      rcases h with rfl | rfl | rfl
      · exact ⟨rfl, Or.inl ⟨Nat.one_pos, vec_mirror (by norm_num)⟩⟩
      · exact ⟨rfl, (), rfl, rfl, vec_mirror (by norm_num), cov_mirror 4⟩
      · rfl) (f := f) hf

end SymmetryExample

end Props
end StateEstimation
