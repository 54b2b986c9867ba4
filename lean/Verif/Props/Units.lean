import Verif.Spec.Units
import Verif.Lemmas.PlantRel
import Verif.Lemmas.KFApi
import Verif.Props.DataFree

/-!
# C72: changing the units changes nothing but the units

The Kalman filter and the EKF commute with every invertible linear change of the coordinates of state, controls and
measurements, through every sequence of API calls.
-/

set_option linter.unusedSectionVars false

namespace StateEstimation
namespace Props

open Matrix Kalman Units

variable {T K X Y : Type} {n m p : Nat} {kd : K → Nat}

private theorem both_iff {α β : Type} {R : α → β → Prop} {a : Option α} {b : Option β} :
    Both R a b ↔ OptRel False R a b := by
  cases a <;> cases b <;> simp [Both, OptRel]

private theorem both_map {α β γ δ : Type} {R : α → β → Prop} {S : γ → δ → Prop} {a b} {f : α → γ} {g : β → δ}
    (h : OptRel False R a b) (hfg : ∀ x y, R x y → S (f x) (g y)) : OptRel False S (a.map f) (b.map g) := OptRel.map h hfg

/-! ### One step -/

theorem units_propagate (u : Units n m p kd) {A A' c c' P P' Rp Rp' V V' Rc Rc' : DMat} (hA : MatIn u.T u.T A A')
    (hc : CovIn u.T c c') (hP : MatIn u.T u.N P P') (hRp : CovIn u.N Rp Rp') (hV : MatIn u.T u.U V V')
    (hRc : CovIn u.U Rc Rc') :
    ∃ r r', propagateCov A c P Rp V Rc = some r ∧ propagateCov A' c' P' Rp' V' Rc' = some r' ∧ CovIn u.T r r' := by
  obtain ⟨A, A', rfl, rfl, hA⟩ := hA
  obtain ⟨c, rfl, rfl⟩ := hc
  obtain ⟨P, P', rfl, rfl, hP⟩ := hP
  obtain ⟨Rp, rfl, rfl⟩ := hRp
  obtain ⟨V, V', rfl, rfl, hV⟩ := hV
  obtain ⟨Rc, rfl, rfl⟩ := hRc
  refine ⟨_, _, propagateCov_of _ _ _ _ _ _, propagateCov_of _ _ _ _ _ _, _, rfl, ?_⟩
  rw [DMat.of_inj]
  have key : ∀ {a : Nat} (J J' : Matrix (Fin n) (Fin a) ℝ) (B : Matrix (Fin a) (Fin a) ℝ) (Q : Matrix (Fin a) (Fin a) ℝ),
      J' * B = u.T * J → J' * (B * Q * Bᵀ) * J'ᵀ = u.T * (J * Q * Jᵀ) * u.Tᵀ := by
    intro a J J' B Q h
    calc J' * (B * Q * Bᵀ) * J'ᵀ = (J' * B) * Q * (J' * B)ᵀ := by
          rw [Matrix.transpose_mul]; simp only [Matrix.mul_assoc]
      _ = _ := by rw [h, Matrix.transpose_mul]; simp only [Matrix.mul_assoc]
  rw [key _ _ _ _ hA, key _ _ _ _ hP, key _ _ _ _ hV]
  simp only [Matrix.mul_add, Matrix.add_mul]

private theorem innov_in {k : Nat} (T P : Matrix (Fin n) (Fin n) ℝ) (D R : Matrix (Fin k) (Fin k) ℝ)
    {C C' : Matrix (Fin k) (Fin n) ℝ} (hC : C' * T = D * C) :
    innov (T * P * Tᵀ) C' (D * R * Dᵀ) = D * innov P C R * Dᵀ := by
  unfold innov
  have : C' * (T * P * Tᵀ * C'ᵀ) = (C' * T) * P * (C' * T)ᵀ := by
    rw [Matrix.transpose_mul]; simp only [Matrix.mul_assoc]
  rw [this, hC, Matrix.transpose_mul]
  simp only [Matrix.mul_add, Matrix.add_mul, Matrix.mul_assoc]

private theorem isUnit_innov_in {k : Nat} (T P : Matrix (Fin n) (Fin n) ℝ) (D R : Matrix (Fin k) (Fin k) ℝ)
    {C C' : Matrix (Fin k) (Fin n) ℝ} (hD : IsUnit D.det) (hC : C' * T = D * C) :
    IsUnit (innov (T * P * Tᵀ) C' (D * R * Dᵀ)).det ↔ IsUnit (innov P C R).det := by
  rw [innov_in T P D R hC, Matrix.det_mul, Matrix.det_mul, Matrix.det_transpose]
  rw [IsUnit.mul_iff, IsUnit.mul_iff]
  exact ⟨fun h => h.1.2, fun h => ⟨⟨hD, h⟩, hD⟩⟩

private theorem gain_in {k : Nat} (T P : Matrix (Fin n) (Fin n) ℝ) (D R : Matrix (Fin k) (Fin k) ℝ)
    {C C' : Matrix (Fin k) (Fin n) ℝ} (hD : IsUnit D.det) (hC : C' * T = D * C) (hS : IsUnit (innov P C R).det) :
    gain (T * P * Tᵀ) C' (D * R * Dᵀ) * D = T * gain P C R := by
  have hDt : IsUnit Dᵀ.det := by rw [Matrix.det_transpose]; exact hD
  unfold gain
  rw [innov_in T P D R hC, Matrix.mul_inv_rev, Matrix.mul_inv_rev]
  have h1 : T * P * Tᵀ * C'ᵀ = T * (P * Cᵀ) * Dᵀ := by
    calc T * P * Tᵀ * C'ᵀ = T * P * (C' * T)ᵀ := by rw [Matrix.transpose_mul]; simp only [Matrix.mul_assoc]
      _ = _ := by rw [hC, Matrix.transpose_mul]; simp only [Matrix.mul_assoc]
  rw [h1]
  calc T * (P * Cᵀ) * Dᵀ * (Dᵀ⁻¹ * ((innov P C R)⁻¹ * D⁻¹)) * D
      = T * (P * Cᵀ) * (Dᵀ * Dᵀ⁻¹) * (innov P C R)⁻¹ * (D⁻¹ * D) := by simp only [Matrix.mul_assoc]
    _ = _ := by
      rw [Matrix.mul_nonsing_inv _ hDt, Matrix.nonsing_inv_mul _ hD, Matrix.mul_one, Matrix.mul_one]
      simp only [Matrix.mul_assoc]

private theorem post_in {k : Nat} (T P : Matrix (Fin n) (Fin n) ℝ) (D R : Matrix (Fin k) (Fin k) ℝ)
    {C C' : Matrix (Fin k) (Fin n) ℝ} (hD : IsUnit D.det) (hC : C' * T = D * C) (hS : IsUnit (innov P C R).det) :
    post (T * P * Tᵀ) C' (D * R * Dᵀ) = T * post P C R * Tᵀ := by
  unfold post
  have h := gain_in T P D R hD hC hS
  set G := gain (T * P * Tᵀ) C' (D * R * Dᵀ)
  calc (1 - G * C') * (T * P * Tᵀ) = (T - G * (C' * T)) * P * Tᵀ := by
        simp only [Matrix.sub_mul, Matrix.one_mul, Matrix.mul_assoc]
    _ = (T - (G * D) * C) * P * Tᵀ := by rw [hC]; simp only [Matrix.mul_assoc]
    _ = _ := by rw [h]; simp only [Matrix.sub_mul, Matrix.mul_sub, Matrix.one_mul, Matrix.mul_one, Matrix.mul_assoc]

private theorem kalmanGain_none {k : Nat} (cov : Matrix (Fin n) (Fin n) ℝ) (C : Matrix (Fin k) (Fin n) ℝ)
    (R : Matrix (Fin k) (Fin k) ℝ) (h : ¬ IsUnit (innov cov C R).det) : kalmanGain (.of cov) (.of C) (.of R) = none := by
  unfold kalmanGain
  simp only [Option.bind_eq_bind, DMat.mul_of, Option.bind_some, DMat.transpose_of, DMat.add_of]
  have h' : ¬ IsUnit (C * (cov * Cᵀ) + R).det := h
  rw [DMat.inverse_singular _ h', Option.bind_none]

/-- The part of a correction shared by the two filters; `add` is how a correction is applied to the state. -/
theorem units_correct {k : Nat} {Z Z' : Type} (u : Units n m p kd) (D : Matrix (Fin k) (Fin k) ℝ) (hD : IsUnit D.det)
    {R : Z → Z' → Prop} {x x' z z' h h' : DVec} {c c' C C' Q Q' : DMat} {add add' : DVec → DVec → Option DVec}
    (hadd : ∀ d d', VecIn u.T d d' → ∃ r r', add x d = some r ∧ add' x' d' = some r' ∧ VecIn u.T r r')
    (hx : VecIn u.T x x') (hc : CovIn u.T c c')
    (hz : VecIn D z z') (hh : VecIn D h h') (hC : MatIn D u.T C C') (hQ : CovIn D Q Q') {b : Z} {b' : Z'} (hb : R b b') :
    OptRel False (fun r q => u.StateIn r.1 r.2.1 q.1 q.2.1 ∧ R r.2.2 q.2.2)
      (do let G ← kalmanGain c C Q
          let dz ← z.sub h
          let dx ← G.mulVec dz
          let y ← add x dx
          let cov' ← shrinkCov x.size G C c
          some (y, cov', b))
      (do let G ← kalmanGain c' C' Q'
          let dz ← z'.sub h'
          let dx ← G.mulVec dz
          let y ← add' x' dx
          let cov' ← shrinkCov x'.size G C' c'
          some (y, cov', b')) := by
  obtain ⟨x, rfl, rfl⟩ := hx
  obtain ⟨c, rfl, rfl⟩ := hc
  obtain ⟨z, rfl, rfl⟩ := hz
  obtain ⟨h, rfl, rfl⟩ := hh
  obtain ⟨C, C', rfl, rfl, hC⟩ := hC
  obtain ⟨Q, rfl, rfl⟩ := hQ
  by_cases hS : IsUnit (innov c C Q).det
  · rw [kalmanGain_of _ _ _ hS, kalmanGain_of _ _ _ ((isUnit_innov_in u.T c D Q hD hC).mpr hS)]
    simp only [Option.bind_eq_bind, Option.bind_some, DVec.sub_of, DMat.mulVec_of, shrinkCov_of]
    obtain ⟨r, r', e, e', hr⟩ := hadd (.of (gain c C Q *ᵥ (z - h)))
      (.of (gain (u.T * c * u.Tᵀ) C' (D * Q * Dᵀ) *ᵥ (D *ᵥ z - D *ᵥ h))) ⟨_, rfl, by
        rw [DVec.of_inj, ← Matrix.mulVec_sub, Matrix.mulVec_mulVec, gain_in u.T c D Q hD hC hS, Matrix.mulVec_mulVec]⟩
    rw [e, e']
    refine ⟨⟨hr, ⟨_, rfl, ?_⟩⟩, hb⟩
    rw [DMat.of_inj]
    exact post_in u.T c D Q hD hC hS
  · rw [kalmanGain_none _ _ _ hS, kalmanGain_none _ _ _ (fun hh => hS ((isUnit_innov_in u.T c D Q hD hC).mp hh))]
    exact fun h => h

private theorem sys_update_in {D : Type} {u : Units n m p kd} {dr : D → D → Prop} {sc sc' : SysClass T D X}
    (hsc : u.SysClassIn dr sc sc') {s s' : Sys D X} (hs : u.SysIn dr s s') {x x' v v' : DVec} (hx : VecIn u.T x x')
    (hv : VecIn u.U v v') (dt : T) : OptRel False (u.SysIn dr) (s.update sc x v dt) (s'.update sc' x' v' dt) := by
  obtain ⟨x, rfl, rfl⟩ := hx
  obtain ⟨v, rfl, rfl⟩ := hv
  unfold Sys.update
  rw [if_pos ⟨hs.states.symm, hs.controls.symm⟩, if_pos ⟨hs.states'.symm, hs.controls'.symm⟩]
  exact both_iff.mp (hsc.update s s' x v dt hs)

private theorem meas_update_in {D : Type} {u : Units n m p kd} {k : K} {dr : D → D → Prop} {mc mc' : MeasClass T D Y}
    (hmc : u.MeasClassIn k dr mc mc') {s s' : Meas D Y} (hs : u.MeasIn k dr s s') {x x' : DVec} (hx : VecIn u.T x x')
    (dt : T) : OptRel False (u.MeasIn k dr) (s.update mc x dt) (s'.update mc' x' dt) := by
  obtain ⟨x, rfl, rfl⟩ := hx
  unfold Meas.update
  rw [if_pos hs.states.symm, if_pos hs.states'.symm]
  exact both_iff.mp (hmc.update s s' x dt hs)

private theorem mulVec_in {a b : Nat} {A : Matrix (Fin a) (Fin a) ℝ} {B : Matrix (Fin b) (Fin b) ℝ} {J J' : DMat}
    {v v' : DVec} (hJ : MatIn A B J J') (hv : VecIn B v v') :
    ∃ r r', J.mulVec v = some r ∧ J'.mulVec v' = some r' ∧ VecIn A r r' := by
  obtain ⟨J, J', rfl, rfl, h⟩ := hJ
  obtain ⟨v, rfl, rfl⟩ := hv
  refine ⟨_, _, DMat.mulVec_of _ _, DMat.mulVec_of _ _, _, rfl, ?_⟩
  rw [DVec.of_inj, Matrix.mulVec_mulVec, h, Matrix.mulVec_mulVec]

private theorem add_in {a : Nat} {A : Matrix (Fin a) (Fin a) ℝ} {v v' w w' : DVec} (hv : VecIn A v v') (hw : VecIn A w w') :
    ∃ r r', v.add w = some r ∧ v'.add w' = some r' ∧ VecIn A r r' := by
  obtain ⟨v, rfl, rfl⟩ := hv
  obtain ⟨w, rfl, rfl⟩ := hw
  exact ⟨_, _, DVec.add_of _ _, DVec.add_of _ _, _, rfl, by rw [DVec.of_inj, Matrix.mulVec_add]⟩

private theorem kfPredict_in {Z Z' : Type} {u : Units n m p kd} {sc sc' : SysClass T LinSysData X}
    (hsc : u.SysClassIn u.LinSysIn sc sc') {s s' : Sys LinSysData X} (hs : u.SysIn u.LinSysIn s s') {x x' v v' : DVec}
    {c c' : DMat} (hx : u.StateIn x c x' c') (hv : VecIn u.U v v') (dt : T) {R : Z → Z' → Prop} {b : Sys LinSysData X → Z}
    {b' : Sys LinSysData X → Z'} (hb : ∀ s s', u.SysIn u.LinSysIn s s' → R (b s) (b' s')) :
    OptRel False (fun r q => u.StateIn r.1 r.2.1 q.1 q.2.1 ∧ R r.2.2 q.2.2) (kfPredict sc s x c v dt b)
      (kfPredict sc' s' x' c' v' dt b') := by
  unfold kfPredict
  simp only [Option.bind_eq_bind]
  refine OptRel.bind (sys_update_in hsc hs hx.1 hv dt) (fun s s' hs => ?_)
  obtain ⟨a, a', e1, e1', ha⟩ := mulVec_in hs.der.1 hx.1
  obtain ⟨d, d', e2, e2', hd⟩ := mulVec_in hs.der.2 hv
  obtain ⟨y, y', e3, e3', hy⟩ := add_in ha hd
  obtain ⟨q, q', e4, e4', hq⟩ := units_propagate u hs.der.1 hx.2 hs.P hs.Rp hs.V hs.Rc
  simp only [e1, e1', e2, e2', hsc.ops.add, hsc.ops'.add, e3, e3', e4, e4', Option.bind_some]
  exact ⟨⟨hy, hq⟩, hb _ _ hs⟩

private theorem ekfPredict_in {Z Z' : Type} {u : Units n m p kd} {sc sc' : SysClass T NonlinSysData X}
    (hsc : u.SysClassIn u.NonlinSysIn sc sc') {s s' : Sys NonlinSysData X} (hs : u.SysIn u.NonlinSysIn s s') {x x' v v' : DVec}
    {c c' : DMat} (hx : u.StateIn x c x' c') (hv : VecIn u.U v v') (dt : T) {R : Z → Z' → Prop} {b : Sys NonlinSysData X → Z}
    {b' : Sys NonlinSysData X → Z'} (hb : ∀ s s', u.SysIn u.NonlinSysIn s s' → R (b s) (b' s')) :
    OptRel False (fun r q => u.StateIn r.1 r.2.1 q.1 q.2.1 ∧ R r.2.2 q.2.2) (ekfPredict sc s x c v dt b)
      (ekfPredict sc' s' x' c' v' dt b') := by
  unfold ekfPredict
  simp only [Option.bind_eq_bind]
  refine OptRel.bind (sys_update_in hsc hs hx.1 hv dt) (fun s s' hs => ?_)
  obtain ⟨q, q', e4, e4', hq⟩ := units_propagate u hs.der.2 hx.2 hs.P hs.Rp hs.V hs.Rc
  simp only [e4, e4', Option.bind_some]
  exact ⟨⟨hs.der.1, hq⟩, hb _ _ hs⟩

private theorem kfCorrect_in {Z Z' : Type} {u : Units n m p kd} {k : K} {sc sc' : SysClass T LinSysData X}
    (hsc : sc.PlainOps) (hsc' : sc'.PlainOps) {mc mc' : MeasClass T LinMeasData Y}
    (hmc : u.MeasClassIn k (u.LinMeasIn k) mc mc') {s s' : Sys LinSysData X} {r r' : Meas LinMeasData Y}
    (hr : u.MeasIn k (u.LinMeasIn k) r r') {x x' z z' : DVec}
    {c c' : DMat} (hx : u.StateIn x c x' c') (hz : VecIn (u.D k) z z') (dt : T) {R : Z → Z' → Prop} {b : Meas LinMeasData Y → Z}
    {b' : Meas LinMeasData Y → Z'} (hb : ∀ s s', u.MeasIn k (u.LinMeasIn k) s s' → R (b s) (b' s')) :
    OptRel False (fun r q => u.StateIn r.1 r.2.1 q.1 q.2.1 ∧ R r.2.2 q.2.2) (kfCorrect sc mc s r x c z dt b)
      (kfCorrect sc' mc' s' r' x' c' z' dt b') := by
  unfold kfCorrect
  simp only [Option.bind_eq_bind]
  refine OptRel.bind (meas_update_in hmc hr hx.1 dt) (fun r r' hr => ?_)
  obtain ⟨a, a', e1, e1', ha⟩ := mulVec_in hr.der hx.1
  simp only [e1, e1', hsc.add, hsc'.add, hmc.ops.sub, hmc.ops'.sub, Option.bind_some]
  exact units_correct u (u.D k) (u.hD k) (add := DVec.add) (add' := DVec.add) (fun d d' hd => add_in hx.1 hd) hx.1 hx.2 hz ha hr.der hr.cov (hb _ _ hr)

private theorem ekfCorrect_in {Z Z' : Type} {u : Units n m p kd} {k : K} {sc sc' : SysClass T NonlinSysData X}
    (hsc : sc.PlainOps) (hsc' : sc'.PlainOps) {mc mc' : MeasClass T NonlinMeasData Y}
    (hmc : u.MeasClassIn k (u.NonlinMeasIn k) mc mc') {s s' : Sys NonlinSysData X} {r r' : Meas NonlinMeasData Y}
    (hr : u.MeasIn k (u.NonlinMeasIn k) r r') {x x' z z' : DVec}
    {c c' : DMat} (hx : u.StateIn x c x' c') (hz : VecIn (u.D k) z z') (dt : T) {R : Z → Z' → Prop}
    {b : Meas NonlinMeasData Y → Z} {b' : Meas NonlinMeasData Y → Z'}
    (hb : ∀ s s', u.MeasIn k (u.NonlinMeasIn k) s s' → R (b s) (b' s')) :
    OptRel False (fun r q => u.StateIn r.1 r.2.1 q.1 q.2.1 ∧ R r.2.2 q.2.2) (ekfCorrect sc mc s r x c z dt b)
      (ekfCorrect sc' mc' s' r' x' c' z' dt b') := by
  unfold ekfCorrect
  simp only [Option.bind_eq_bind]
  refine OptRel.bind (meas_update_in hmc hr hx.1 dt) (fun r r' hr => ?_)
  simp only [hsc.add, hsc'.add, hmc.ops.sub, hmc.ops'.sub]
  exact units_correct u (u.D k) (u.hD k) (add := DVec.add) (add' := DVec.add) (fun d d' hd => add_in hx.1 hd) hx.1 hx.2 hz hr.der.1 hr.der.2 hr.cov (hb _ _ hr)

/-! ### Every call -/

variable [DecidableEq K]

private theorem EnvIn_setMeas {DS DM : Type} {u : Units n m p kd} {ds : DS → DS → Prop} {dm : K → DM → DM → Prop}
    {e e' : Env K DS X DM Y} (he : u.EnvIn ds dm e e') (k : K) {r r' : Meas DM Y} (hr : u.MeasIn k (dm k) r r') :
    u.EnvIn ds dm (e.setMeas k r) (e'.setMeas k r') := by
  refine ⟨he.1, fun j => ?_⟩
  show u.MeasIn j (dm j) ((e.setMeas k r).meas j) ((e'.setMeas k r').meas j)
  unfold Env.setMeas
  dsimp only
  by_cases hj : j = k
  · subst hj; rw [if_pos rfl, if_pos rfl]; exact hr
  · rw [if_neg hj, if_neg hj]; exact he.2 j

private theorem mk_rel [TimeOps T] {DS DM : Type} {u : Units n m p kd} {ds : DS → DS → Prop} {dm : K → DM → DM → Prop}
    {sc sc' : SysClass T DS X} (hsc : u.SysClassIn ds sc sc') {mc mc' : K → MeasClass T DM Y}
    (hmc : ∀ k, u.MeasClassIn k (dm k) (mc k) (mc' k)) {pr co pr' co'}
    (hpr : ∀ (e e' : Env K DS X DM Y) x c x' c' v v' (dt : T), u.EnvIn ds dm e e' → u.StateIn x c x' c' → VecIn u.U v v' →
      OptRel False (fun r q => u.StateIn r.1 r.2.1 q.1 q.2.1 ∧ u.EnvIn ds dm r.2.2 q.2.2) (pr e x c v dt) (pr' e' x' c' v' dt))
    (hco : ∀ (e e' : Env K DS X DM Y) k x c x' c' z z' (dt : T), u.EnvIn ds dm e e' → u.StateIn x c x' c' →
      VecIn (u.D k) z z' →
      OptRel False (fun r q => u.StateIn r.1 r.2.1 q.1 q.2.1 ∧ u.EnvIn ds dm r.2.2 q.2.2) (co e x c z k dt) (co' e' x' c' z' k dt)) :
    PlantRel (mkPlant sc mc pr co) (mkPlant sc' mc' pr' co') False u.StateIn (u.EnvIn ds dm) (VecIn u.U) (CovIn u.U)
      (fun z c z' c' k => VecIn (u.D k) z z' ∧ CovIn (u.D k) c c') where
  empty := rfl
  empty' := rfl
  rc e e' he := he.1.Rc
  zero e e' he := by
    show VecIn u.U (.zero e.sys.controlDims) (.zero e'.sys.controlDims)
    rw [he.1.controls, he.1.controls']
    exact ⟨0, rfl, by rw [Matrix.mulVec_zero]; rfl⟩
  setRc e e' c c' he hc := by
    obtain ⟨M, rfl, rfl⟩ := hc
    show OptRel False _ ((e.sys.setControlCovariance _).map _) ((e'.sys.setControlCovariance _).map _)
    unfold Sys.setControlCovariance
    rw [if_pos ⟨he.1.controls.symm, he.1.controls.symm⟩, if_pos ⟨he.1.controls'.symm, he.1.controls'.symm⟩]
    exact ⟨⟨he.1.states, he.1.states', he.1.controls, he.1.controls', he.1.der, he.1.P, he.1.Rp, he.1.V, ⟨M, rfl, rfl⟩,
      he.1.fm⟩, he.2⟩
  sysSt e e' x c x' c' d d' he hx hd := by
    show (e.sys.fm.checkStationary && e.sys.fm.isStationary x d) = (e'.sys.fm.checkStationary && e'.sys.fm.isStationary x' d')
    rw [he.1.fm.check, he.1.fm.is x c x' c' d d' hx (by
      rcases hd with ⟨h1, _, h3⟩ | h
      · exact Or.inl ⟨h1, h3⟩
      · exact Or.inr h)]
  predict e e' x c x' c' v v' dt he hx hv := hpr e e' x c x' c' v v' dt he hx hv
  sysStationary e e' x c x' c' d d' he hx hd _ := by
    have hd : u.DataIn d d' := by
      rcases hd with ⟨h1, _, h3⟩ | h
      · exact Or.inl ⟨h1, h3⟩
      · exact Or.inr h
    show OptRel False _ ((sc.processStationary e.sys x d).map _) ((sc'.processStationary e'.sys x' d').map _)
    obtain ⟨y, rfl, rfl⟩ := hx.1
    refine both_map (both_iff.mp (hsc.stationary e.sys e'.sys y d d' he.1 hd)) (fun s s' hs => ⟨⟨hs, he.2⟩, ?_⟩)
    have := hs.fm.make _ _ _ _ hx
    show OptRel False _ (s.fm.makeStationary _ _) (s'.fm.makeStationary _ _)
    generalize s.fm.makeStationary _ _ = a at this ⊢
    generalize s'.fm.makeStationary _ _ = b at this ⊢
    cases a <;> cases b <;> simp only [OptRel] at this ⊢
    · exact fun h => h
    · exact this
  setMeasCov e e' k z c z' c' he hz := by
    obtain ⟨hz, M, rfl, rfl⟩ := hz
    show OptRel False _ (((e.meas k).setCovariance _).map _) (((e'.meas k).setCovariance _).map _)
    have hk := he.2 k
    unfold Meas.setCovariance
    rw [if_pos ⟨hk.meas.symm, hk.meas.symm⟩, if_pos ⟨hk.meas'.symm, hk.meas'.symm⟩]
    have hk1 : u.MeasIn k (dm k) { e.meas k with cov := .of M } { e'.meas k with cov := .of (u.D k * M * (u.D k)ᵀ) } :=
      ⟨hk.states, hk.states', hk.meas, hk.meas', hk.der, ⟨M, rfl, rfl⟩, hk.fm⟩
    have he1 := EnvIn_setMeas he k hk1
    refine ⟨he1, ?_, ?_, ?_⟩
    · intro x q x' q' hx
      have := (he1.2 k).fm
      show ((_ : FilterModel).checkStationary && FilterModel.isStationary _ x z) = (FilterModel.checkStationary _ && FilterModel.isStationary _ x' z')
      rw [this.check, this.is x q x' q' z z' hx hz]
    · intro x q x' q' dt hx
      exact hco _ _ k x q x' q' z z' dt he1 hx hz
    · intro x q x' q' hx _
      obtain ⟨y, rfl, rfl⟩ := hx.1
      obtain ⟨w, rfl, rfl⟩ := hz
      show OptRel False _ (((mc k).processStationary _ _ _).map _) (((mc' k).processStationary _ _ _).map _)
      refine both_map (both_iff.mp ((hmc k).stationary _ _ y w (he1.2 k))) (fun s s' hs => ?_)
      have he2 := EnvIn_setMeas he1 k hs
      refine ⟨he2, ?_⟩
      have := (he2.2 k).fm.make _ _ _ _ hx
      show OptRel False _ (FilterModel.makeStationary _ _ _) (FilterModel.makeStationary _ _ _)
      generalize FilterModel.makeStationary _ _ _ = a at this ⊢
      generalize FilterModel.makeStationary _ _ _ = b at this ⊢
      cases a <;> cases b <;> simp only [OptRel] at this ⊢
      · exact fun h => h
      · exact this

theorem units_call [TimeOps T] {DS DM : Type} {u : Units n m p kd} {RE : Env K DS X DM Y → Env K DS X DM Y → Prop}
    {sc sc' : SysClass T DS X} {mc mc' : K → MeasClass T DM Y} {pr co pr' co'}
    {op op' : Op T DVec DMat K (Env K DS X DM Y)} (h : u.CallIn RE op op') :
    OpRel (mkPlant sc mc pr co) (mkPlant sc' mc' pr' co') False u.StateIn RE (VecIn u.U)
      (fun z c z' c' k => VecIn (u.D k) z z' ∧ CovIn (u.D k) c c') op op' := by
  have hd : ∀ d d', u.DataIn d d' → DataRel (mkPlant sc mc pr co) (mkPlant sc' mc' pr' co') (VecIn u.U) d d' := by
    intro d d' h
    rcases h with ⟨h1, h2⟩ | h
    · refine Or.inl ⟨h1, ?_, h2⟩
      obtain ⟨v, rfl, rfl⟩ := h2
      exact h1
    · exact Or.inr h
  cases op <;> cases op' <;> simp only [CallIn] at h <;> simp only [OpRel]
  · exact h
  · exact h
  · exact ⟨h.1, hd _ _ h.2⟩
  · exact h
  · exact ⟨h.1, hd _ _ h.2⟩
  · exact h
  · exact h
  · exact h
  · exact fun e e' he => both_iff.mp (h e e' he)

private theorem run_in [TimeOps T] [SaneTime T] {DS DM : Type} {u : Units n m p kd} {ds : DS → DS → Prop} {dm : K → DM → DM → Prop}
    {sc sc' : SysClass T DS X} {mc mc' : K → MeasClass T DM Y} {pr co pr' co'}
    (h : PlantRel (mkPlant sc mc pr co) (mkPlant sc' mc' pr' co') False u.StateIn (u.EnvIn ds dm) (VecIn u.U) (CovIn u.U)
      (fun z c z' c' k => VecIn (u.D k) z z' ∧ CovIn (u.D k) c c'))
    (sort : List (FilterInput T DVec DMat K) → List (FilterInput T DVec DMat K)) (hsort : SameSort sort sort)
    (params : Params T) (e e' : Env K DS X DM Y) (he : u.EnvIn ds dm e e') (x : DVec) (c : DMat) (x' : DVec) (c' : DMat)
    (hx : u.StateIn x c x' c') (t : T) (ops ops' : List (Op T DVec DMat K (Env K DS X DM Y)))
    (hops : List.Forall₂ (u.CallIn (u.EnvIn ds dm)) ops ops') :
    Both (fun f g => f.getStateTime = g.getStateTime ∧ u.StateIn f.getState f.getCovariance g.getState g.getCovariance ∧
        u.EnvIn ds dm f.env g.env ∧ List.Forall₂ (fun s s' => s.timestamp = s'.timestamp ∧
          u.StateIn s.x s.covariance s'.x s'.covariance) f.history g.history)
      ((Filter.construct (mkPlant sc mc pr co) params e x c t).run (mkPlant sc mc pr co) sort ops)
      ((Filter.construct (mkPlant sc' mc' pr' co') params e' x' c' t).run (mkPlant sc' mc' pr' co') sort ops') := by
  rw [both_iff]
  refine OptRel.mono (h.run hsort
    { params := params
      state := { x := (mkPlant sc mc pr co).emptyV, covariance := (mkPlant sc mc pr co).emptyM, timestamp := TimeOps.zero,
                 prevInput := FilterInput.default (mkPlant sc mc pr co) }
      prevControl := (mkPlant sc mc pr co).emptyV
      prevControlCov := (mkPlant sc mc pr co).emptyM
      env := e, history := [], controlQueue := [], measQueue := [] }
    { params := params
      state := { x := (mkPlant sc' mc' pr' co').emptyV, covariance := (mkPlant sc' mc' pr' co').emptyM,
                 timestamp := TimeOps.zero, prevInput := FilterInput.default (mkPlant sc' mc' pr' co') }
      prevControl := (mkPlant sc' mc' pr' co').emptyV
      prevControlCov := (mkPlant sc' mc' pr' co').emptyM
      env := e', history := [], controlQueue := [], measQueue := [] } rfl he (Or.inr ⟨rfl, rfl⟩) x c x' c' t hx
    (hops.imp (fun _ _ h => units_call h))) ?_
  rintro f g ⟨_, h2, _, h4⟩
  obtain ⟨h5, h6⟩ := SimRel.forall₂_concat (l := f.history) (l' := g.history) h4
  exact ⟨h6.1, h6.2, h2, h5⟩

private theorem kf_units_rel [TimeOps T] (u : Units n m p kd) {sc sc' : SysClass T LinSysData X}
    (hsc : u.SysClassIn u.LinSysIn sc sc') {mc mc' : K → MeasClass T LinMeasData Y}
    (hmc : ∀ k, u.MeasClassIn k (u.LinMeasIn k) (mc k) (mc' k)) :
    PlantRel (kfPlant sc mc) (kfPlant sc' mc') False u.StateIn (u.EnvIn u.LinSysIn u.LinMeasIn) (VecIn u.U) (CovIn u.U)
      (fun z c z' c' k => VecIn (u.D k) z z' ∧ CovIn (u.D k) c c') := by
  unfold kfPlant
  refine mk_rel hsc hmc ?_ ?_
  · intro e e' x c x' c' v v' dt he hx hv
    exact kfPredict_in hsc he.1 hx hv dt (fun s s' hs => ⟨hs, he.2⟩)
  · intro e e' k x c x' c' z z' dt he hx hz
    exact kfCorrect_in hsc.ops hsc.ops' (hmc k) (he.2 k) hx hz dt (fun r r' hr => EnvIn_setMeas he k hr)

/-- **C72 (Kalman filter).** Two Kalman filters for the same problem, the second in other coordinates: the initial estimate
is `(T x, T P Tᵀ)`, the models are the transformed models, and every call is the corresponding call (any order of time
stamps, rewinding, queues, reverting, stationary handling, model changes).  Then either both runs abort, or they end at the
same time with `x' = T x` and `P' = T P Tᵀ`, for the current and every retained state. -/
theorem C72_kf_units [TimeOps T] [SaneTime T] (u : Units n m p kd) {sc sc' : SysClass T LinSysData X}
    (hsc : u.SysClassIn u.LinSysIn sc sc') {mc mc' : K → MeasClass T LinMeasData Y}
    (hmc : ∀ k, u.MeasClassIn k (u.LinMeasIn k) (mc k) (mc' k))
    (sort : List (FilterInput T DVec DMat K) → List (FilterInput T DVec DMat K)) (hsort : SameSort sort sort)
    (params : Params T) (e e' : Env K LinSysData X LinMeasData Y) (he : u.EnvIn u.LinSysIn u.LinMeasIn e e')
    (x : DVec) (c : DMat) (x' : DVec) (c' : DMat) (hx : u.StateIn x c x' c') (t : T)
    (ops ops' : List (Op T DVec DMat K (Env K LinSysData X LinMeasData Y)))
    (hops : List.Forall₂ (u.CallIn (u.EnvIn u.LinSysIn u.LinMeasIn)) ops ops') :
    Both (fun f g => f.getStateTime = g.getStateTime ∧ u.StateIn f.getState f.getCovariance g.getState g.getCovariance ∧
        u.EnvIn u.LinSysIn u.LinMeasIn f.env g.env ∧ List.Forall₂ (fun s s' => s.timestamp = s'.timestamp ∧
          u.StateIn s.x s.covariance s'.x s'.covariance) f.history g.history)
      ((Filter.construct (kfPlant sc mc) params e x c t).run (kfPlant sc mc) sort ops)
      ((Filter.construct (kfPlant sc' mc') params e' x' c' t).run (kfPlant sc' mc') sort ops') :=
  run_in (kf_units_rel u hsc hmc) sort hsort params e e' he x c x' c' hx t ops ops' hops

private theorem ekf_units_rel [TimeOps T] (u : Units n m p kd) {sc sc' : SysClass T NonlinSysData X}
    (hsc : u.SysClassIn u.NonlinSysIn sc sc') {mc mc' : K → MeasClass T NonlinMeasData Y}
    (hmc : ∀ k, u.MeasClassIn k (u.NonlinMeasIn k) (mc k) (mc' k)) :
    PlantRel (ekfPlant sc mc) (ekfPlant sc' mc') False u.StateIn (u.EnvIn u.NonlinSysIn u.NonlinMeasIn) (VecIn u.U) (CovIn u.U)
      (fun z c z' c' k => VecIn (u.D k) z z' ∧ CovIn (u.D k) c c') := by
  unfold ekfPlant
  refine mk_rel hsc hmc ?_ ?_
  · intro e e' x c x' c' v v' dt he hx hv
    exact ekfPredict_in hsc he.1 hx hv dt (fun s s' hs => ⟨hs, he.2⟩)
  · intro e e' k x c x' c' z z' dt he hx hz
    exact ekfCorrect_in hsc.ops hsc.ops' (hmc k) (he.2 k) hx hz dt (fun r r' hr => EnvIn_setMeas he k hr)

/-- **C72 (EKF).** The same for the extended Kalman filter with arbitrary nonlinear models: it is enough that the second
model computes the first one's `g`, `G`, `h`, `H` in the new coordinates. -/
theorem C72_ekf_units [TimeOps T] [SaneTime T] (u : Units n m p kd) {sc sc' : SysClass T NonlinSysData X}
    (hsc : u.SysClassIn u.NonlinSysIn sc sc') {mc mc' : K → MeasClass T NonlinMeasData Y}
    (hmc : ∀ k, u.MeasClassIn k (u.NonlinMeasIn k) (mc k) (mc' k))
    (sort : List (FilterInput T DVec DMat K) → List (FilterInput T DVec DMat K)) (hsort : SameSort sort sort)
    (params : Params T) (e e' : Env K NonlinSysData X NonlinMeasData Y) (he : u.EnvIn u.NonlinSysIn u.NonlinMeasIn e e')
    (x : DVec) (c : DMat) (x' : DVec) (c' : DMat) (hx : u.StateIn x c x' c') (t : T)
    (ops ops' : List (Op T DVec DMat K (Env K NonlinSysData X NonlinMeasData Y)))
    (hops : List.Forall₂ (u.CallIn (u.EnvIn u.NonlinSysIn u.NonlinMeasIn)) ops ops') :
    Both (fun f g => f.getStateTime = g.getStateTime ∧ u.StateIn f.getState f.getCovariance g.getState g.getCovariance ∧
        u.EnvIn u.NonlinSysIn u.NonlinMeasIn f.env g.env ∧ List.Forall₂ (fun s s' => s.timestamp = s'.timestamp ∧
          u.StateIn s.x s.covariance s'.x s'.covariance) f.history g.history)
      ((Filter.construct (ekfPlant sc mc) params e x c t).run (ekfPlant sc mc) sort ops)
      ((Filter.construct (ekfPlant sc' mc') params e' x' c' t).run (ekfPlant sc' mc') sort ops') :=
  run_in (ekf_units_rel u hsc hmc) sort hsort params e e' he x c x' c' hx t ops ops' hops

/-! ### The hypotheses can be met: metres to feet

State position and velocity in feet instead of metres, control in feet per second squared, sensor in centimetres. -/

namespace UnitsExample

/-- 1 m = 3.28 ft (rounded), sensor in cm. -/
noncomputable def feet : Units 2 1 2 (K := Unit) (fun _ => 1) where
  T := !![3.28, 0; 0, 3.28]
  U := !![3.28]
  N := 1
  D := fun _ => !![100]
  hT := by rw [Matrix.det_fin_two_of]; norm_num
  hD := fun _ => by rw [Matrix.det_fin_one]; norm_num

/-- The position sensor in the new coordinates: `C = [100/3.28 0]`. -/
noncomputable def cmClass : MeasClass ℝ LinMeasData Unit :=
  MeasClass.plain fun s _ _ =>
    if s.stateSize = 2 ∧ s.measDims = 1 then some { s with der := ⟨.of !![100 / 3.28, 0]⟩ } else some s

/-- The process noise Jacobian `P` becomes `T`, the rest of the motion model is unchanged. -/
noncomputable def ftClass : SysClass ℝ LinSysData Unit :=
  SysClass.plain fun s _ _ dt =>
    if s.stateSize = 2 ∧ s.controlDims = 1 ∧ s.Rp.rows = 2 then
      some { s with der := ⟨.of !![1, dt; 0, 1], .of !![dt ^ 2 / 2; dt]⟩
                    P := .of !![3.28, 0; 0, 3.28]
                    V := .of !![dt ^ 2 / 2; dt] }
    else some s

theorem sysClassIn : feet.SysClassIn feet.LinSysIn Examples.cvClass ftClass where
  ops := Examples.plain_ops _
  ops' := Examples.plain_ops _
  update s s' x v dt hs := by
    obtain ⟨M, h1, h2⟩ := hs.Rp
    have c1 : s.stateSize = 2 ∧ s.controlDims = 1 ∧ s.Rp.rows = 2 := ⟨hs.states, hs.controls, by rw [h1]⟩
    have c2 : s'.stateSize = 2 ∧ s'.controlDims = 1 ∧ s'.Rp.rows = 2 := ⟨hs.states', hs.controls', by rw [h2]⟩
    show Both _ (if s.stateSize = 2 ∧ s.controlDims = 1 ∧ s.Rp.rows = 2 then _ else some s)
      (if s'.stateSize = 2 ∧ s'.controlDims = 1 ∧ s'.Rp.rows = 2 then _ else some s')
    rw [if_pos c1, if_pos c2]
    have hB : !![dt ^ 2 / 2; dt] * feet.U = feet.T * !![dt ^ 2 / 2; dt] := by
      show !![dt ^ 2 / 2; dt] * !![3.28] = !![3.28, 0; 0, 3.28] * !![dt ^ 2 / 2; dt]
      ext i j; fin_cases i <;> fin_cases j <;> simp [Matrix.mul_apply, Fin.sum_univ_succ] <;> ring
    refine ⟨hs.states, hs.states', hs.controls, hs.controls', ⟨⟨_, _, rfl, rfl, ?_⟩, _, _, rfl, rfl, hB⟩, ⟨1, _, rfl, rfl, ?_⟩,
      hs.Rp, ⟨_, _, rfl, rfl, hB⟩, hs.Rc, hs.fm⟩
    · show !![1, dt; 0, 1] * !![3.28, 0; 0, 3.28] = !![3.28, 0; 0, 3.28] * !![1, dt; 0, 1]
      ext i j; fin_cases i <;> fin_cases j <;> simp [Matrix.mul_apply, Fin.sum_univ_succ] <;> ring
    · show !![3.28, 0; 0, 3.28] * (1 : Matrix (Fin 2) (Fin 2) ℝ) = !![3.28, 0; 0, 3.28] * 1
      rfl
  stationary s s' x d d' hs _ := hs

theorem measClassIn : feet.MeasClassIn () (feet.LinMeasIn ()) Examples.posClass cmClass where
  ops := Examples.plain_mops _
  ops' := Examples.plain_mops _
  update s s' x dt hs := by
    show Both _ (if s.stateSize = 2 ∧ s.measDims = 1 then _ else some s) (if s'.stateSize = 2 ∧ s'.measDims = 1 then _ else some s')
    rw [if_pos ⟨hs.states, hs.meas⟩, if_pos ⟨hs.states', hs.meas'⟩]
    refine ⟨hs.states, hs.states', hs.meas, hs.meas', ⟨_, _, rfl, rfl, ?_⟩, hs.cov, hs.fm⟩
    show !![100 / 3.28, 0] * !![3.28, 0; 0, 3.28] = !![(100 : ℝ)] * !![1, 0]
    ext i j; fin_cases i; fin_cases j <;> simp [Matrix.mul_apply, Fin.sum_univ_succ] <;> norm_num
  stationary s s' x z hs := hs

theorem stationaryIn (R : DVec → DVec → Prop) : feet.StationaryIn R (FilterModel.construct 2) (FilterModel.construct 2) where
  check := rfl
  is _ _ _ _ _ _ _ _ := rfl
  make _ _ _ _ h := h

theorem cov_zero {a : Nat} (A : Matrix (Fin a) (Fin a) ℝ) : CovIn A (.zero a a) (.zero a a) := ⟨0, rfl, by simp; rfl⟩
theorem mat_zero {a b : Nat} (A : Matrix (Fin a) (Fin a) ℝ) (B : Matrix (Fin b) (Fin b) ℝ) :
    MatIn A B (.zero a b) (.zero a b) := ⟨0, 0, rfl, rfl, by simp⟩

theorem envIn : feet.EnvIn feet.LinSysIn feet.LinMeasIn Examples.cvEnv Examples.cvEnv :=
  ⟨⟨rfl, rfl, rfl, rfl, ⟨mat_zero _ _, mat_zero _ _⟩, mat_zero _ _, cov_zero _, mat_zero _ _, cov_zero _, stationaryIn _⟩,
    fun _ => ⟨rfl, rfl, rfl, rfl, mat_zero _ _, cov_zero _, stationaryIn _⟩⟩

/-- Accelerate, then a delayed position measurement. -/
example : List.Forall₂ (feet.CallIn (T := ℝ) (feet.EnvIn (X := Unit) (Y := Unit) feet.LinSysIn feet.LinMeasIn))
    [.predictControl (.of ![1]) 2, .correct (.of ![3]) (.of !![4]) 1 (some ()), .predictTime 5]
    [.predictControl (.of ![3.28]) 2, .correct (.of ![300]) (.of !![40000]) 1 (some ()), .predictTime 5] := by
  refine .cons ⟨rfl, Or.inl ⟨Nat.one_pos, _, rfl, ?_⟩⟩ (.cons ⟨rfl, (), rfl, rfl, ⟨_, rfl, ?_⟩, ⟨_, rfl, ?_⟩⟩ (.cons rfl .nil))
  · rw [DVec.of_inj]; show _ = !![3.28] *ᵥ ![1]; ext i; fin_cases i; simp
  · rw [DVec.of_inj]; show _ = !![100] *ᵥ ![3]; ext i; fin_cases i; simp; norm_num
  · rw [DMat.of_inj]; show _ = !![100] * !![4] * !![100]ᵀ; ext i j; fin_cases i; fin_cases j; simp [Matrix.mul_apply]; norm_num

end UnitsExample

end Props
end StateEstimation
