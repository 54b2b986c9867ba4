import Verif.Spec.Example
import Verif.Props.SixDSensors
import Verif.Props.SixDFilter
import Verif.Lemmas.VSApi

/-! # The example program: its models and one correction -/

set_option linter.unusedSectionVars false

namespace StateEstimation.Example

open Matrix Kalman Props

/-- Number of measurements. -/
def dims : Kind → Nat
  | .odom => 4
  | .imu => 6

theorem sensors_contract (k : Kind) : MeasContract NonlinMeasData.Sized (sensors k) := by
  cases k
  · exact SixDRatesOdom.contract
  · exact SixDRatesImu.contract

/-- The active states. -/
def act : Fin 9 → Fin 18 := Fin.castLE (by omega)

theorem act_inj : Function.Injective act := Fin.castLE_injective _

theorem act_val (i : Fin 9) : (act i).val = i.val := rfl

theorem act_ne {b : Fin 18} (h : 9 ≤ b.val) (i : Fin 9) : act i ≠ b := by
  intro q
  have := congrArg Fin.val q
  rw [act_val] at this
  omega

theorem act_selects : Selects [0, 1, 2, 3, 4, 5, 6, 7, 8] act := ⟨by decide, act_inj⟩

/-- Configuration of the models after the setup. -/
structure Configured (e : Models) : Prop where
  sel : e.Selecting act 0 dims
  grav : SixDRates.gravityUsed e.sys = false

theorem closed : Env.Closed Configured := by
  constructor
  · intro e h s h1 h2
    refine ⟨h.sel.of_same h1 h2, ?_⟩
    have := h.grav
    unfold SixDRates.gravityUsed at this ⊢
    dsimp only
    rw [h1]; exact this
  · intro e h j s h1
    exact ⟨h.sel.setMeas j h1, h.grav⟩

theorem diag_psd {n : Nat} {d : Fin n → ℝ} (h : ∀ i, 0 ≤ d i) : (diag d).PSD := by
  refine DMat.PSD_of.mpr (Matrix.PosSemidef.diagonal fun i => h i)

theorem diag_pd {n : Nat} {d : Fin n → ℝ} (h : ∀ i, 0 < d i) : (diag d).PD := by
  refine DMat.PD_of.mpr (Matrix.PosDef.diagonal fun i => h i)

theorem kept_size {x : DVec} {c : DMat} (h : Kept x c) : x.size = 18 := by
  obtain ⟨v, P, rfl, _⟩ := h
  rfl

theorem kept_initial : Kept (.of initialState) (diag initialVar) := by
  refine ⟨_, _, rfl, rfl, Matrix.PosSemidef.diagonal ?_, ?_, ?_⟩
  · intro i; fin_cases i <;> norm_num [initialVar]
  · intro i hi; fin_cases i <;> first | (exfalso; revert hi; decide) | rfl
  · intro a b h
    rw [Matrix.diagonal_apply]
    by_cases hab : a = b
    · subst hab
      rw [if_pos rfl, if_pos rfl]
      have : 9 ≤ a.val := by omega
      fin_cases a <;> first | (exfalso; revert this; decide) | rfl
    · rw [if_neg hab, if_neg hab]

/-- Zeroing the rates. -/
def still (v : Fin 18 → ℝ) : Fin 18 → ℝ := fun i => if i.val < 9 then 0 else v i

theorem makeStationary_of (v : Fin 18 → ℝ) (c : DMat) : makeStationary (.of v) c = some (.of (still v), c) := by
  unfold makeStationary
  simp only [Option.bind_eq_bind, setSeg3_of (n := 18) _ 0 _ (by decide), setSeg3_of (n := 18) _ 3 _ (by decide),
    setSeg3_of (n := 18) _ 6 _ (by decide), Option.bind_some]
  congr 3
  funext i
  fin_cases i <;> rfl

theorem makeStationary_keeps {fm : FilterModel} (h : fm.makeStationaryF = some makeStationary) : fm.MakeKeeps Kept := by
  rintro x c ⟨v, P, rfl, rfl, h1, h2, h3⟩
  refine ⟨_, _, ?_, still v, P, rfl, rfl, h1, ?_, h3⟩
  · unfold FilterModel.makeStationary
    rw [h]
    exact makeStationary_of v _
  · intro i hi
    rw [still, if_neg (by omega)]
    exact h2 i hi

theorem Kept.step {v v' : Fin 18 → ℝ} {P P' : Matrix (Fin 18) (Fin 18) ℝ} {S : Matrix (Fin 9) (Fin 9) ℝ} (h : Kept (.of v) (.of P))
    (hv : ∀ i : Fin 18, 9 ≤ i.val → v' i = v i) (hov : OverwritesMat act act S P P') (hS : S.PosSemidef) : Kept (.of v') (.of P') := by
  obtain ⟨w, Q, e1, e2, h1, h2, h3⟩ := h
  cases vof_inj e1
  cases Props.of_inj e2
  refine ⟨v', P', rfl, rfl, (hov.separated_psd act_inj hS h1 ?_).1, fun i hi => (hv i hi).trans (h2 i hi), ?_⟩
  · intro i b hb
    have hb9 : 9 ≤ b.val := by
      by_contra hc
      exact hb ⟨b.val, by omega⟩ (Fin.ext rfl)
    rw [h3 _ _ (Or.inr hb9), if_neg (act_ne hb9 i)]
  · intro a b hab
    rw [hov.others a b, h3 a b hab]
    rintro i j ⟨rfl, rfl⟩
    rcases hab with h | h
    · exact act_ne h i rfl
    · exact act_ne h j rfl

theorem rescaled_up : SixDRates.rescaled ![0, 0, 9.8062] = ![0, 0, 9.8062] := by
  have hn : norm3 ![0, 0, (9.8062 : ℝ)] = 9.8062 := by
    have e : sqNorm ![0, 0, (9.8062 : ℝ)] = 9.8062 ^ 2 := by simp [sqNorm]; norm_num
    rw [norm3, e, Real.sqrt_sq (by norm_num)]
  have h0 : (![0, 0, 9.8062] : V3) ≠ 0 := by
    intro h
    have : (9.8062 : ℝ) = 0 := congrFun h 2
    norm_num at this
  rw [rescaled_ne h0, hn, div_self (by norm_num), one_smul]

/-- The plant keeps `Kept`. -/
theorem plant_inv : PlantInv plant True Kept
    (fun e => Env.Ok NonlinSysData.Sized NonlinMeasData.Sized SixDNoise Kept 18 0 dims e ∧ Configured e) (fun u => u.size = 0)
      (fun R => R.Is 0 0 ∧ R.PSD) (fun z c k => z.size = dims k ∧ c.Is (dims k) (dims k) ∧ c.PD) := by
  refine mkPlant_inv_closed closed SixDRates.contract sensors_contract (fun _ _ h => kept_size h)
    (fun _ _ _ h h' => ⟨⟨h.1.1, h'⟩, h.2⟩) (fun _ _ h => h.1.2) ?_ ?_
  · intro e x c u dt he hcfg hx hu
    obtain ⟨v, P, rfl, rfl, hP, hrest⟩ := id hx
    obtain ⟨ms, τ, hτ⟩ := hcfg.sel.controls
    obtain ⟨s', p, x', G, W, V, Rp, Rc, P', h1, h2, h3, h4, h5, h6, h7, h8, h9, h10⟩ :=
      ekfvsPredict_of SixDRates.contract he.sys hcfg.sel.states hτ v P hu dt (fun s => ({ e with sys := s } : Models))
    refine OptP.of_eq h1 ⟨hx.step ?_ h10 ?_, he.setSys h3 h4, closed.of_same hcfg h4.fm h4.activeControls⟩
    · obtain ⟨s'', g1, _, _, _, g5, _⟩ := SixDRates.myUpdate_of e.sys he.sys he.noise.2 v u dt
      have hsh : SixDRates.Shape e.sys := ⟨he.sys.states, he.sys.controls, he.noise.2⟩
      have e1 : SixDRates.cls.myUpdate e.sys (.of v) u dt = SixDRates.myUpdate e.sys (.of v) u dt := by
        show (open Classical in if SixDRates.Shape e.sys then SixDRates.myUpdate e.sys (.of v) u dt else _) = _
        rw [if_pos hsh]
      rw [e1, g1] at h2
      cases Option.some.inj h2
      rw [h5] at g5
      cases vof_inj g5
      intro i hi
      unfold SixDRates.predicted
      rw [dif_neg (by omega), dif_neg (by rw [hcfg.grav]; simp)]
    · have hn := he.noise.1
      rw [h8, h9] at hn
      exact subPropagate_psd (hP.submatrix act) (DMat.PSD_of.mp hn.1) (DMat.PSD_of.mp hn.2)
  · intro e x c z j dt he hcfg hx hz hR
    obtain ⟨v, P, rfl, rfl, hP, hgr, hrest⟩ := id hx
    obtain ⟨z, rfl⟩ := z.exists_of hz
    obtain ⟨ks, ρ, hρ⟩ := hcfg.sel.meas j
    obtain ⟨R, hRe⟩ := (he.meas j).cov.exists_of
    rw [hRe, DMat.PD_of] at hR
    have hR' := hR.submatrix hρ.inj
    obtain ⟨m', zh, H, dz, dx, x', P', h1, h2, h3, h4, h5, h6, h7, h8, h9⟩ :=
      ekfvsCorrect_of SixDRates.contract (sensors_contract j) he.sys (he.meas j) hcfg.sel.states hρ v P (hP.submatrix act) hRe hR' z dt
        (e.setMeas j)
    refine OptP.of_eq h1 ⟨hx.step ?_ h9 (post_psd (hP.submatrix act) _ hR'), he.setMeas j h3 h4, closed.setMeas hcfg j h4.activeMeasurements⟩
    have hsh : SixDRates.Shape e.sys := ⟨he.sys.states, he.sys.controls, he.noise.2⟩
    have e1 : SixDRates.cls.add e.sys (.of v) (.of dx) = SixDRates.addState (.of v) (.of dx) := by
      show (open Classical in if SixDRates.Shape e.sys then SixDRates.addState (.of v) (.of dx) else _) = _
      rw [if_pos hsh]
    rw [e1, SixDRates.addState_of] at h8
    cases vof_inj (Option.some.inj h8)
    intro i hi
    have hdx : ∀ b : Fin 18, 9 ≤ b.val → (v + dx) b = v b := by
      intro b hb
      show v b + dx b = v b
      rw [h7.others b (act_ne hb)]
      exact add_zero _
    have hg : SixDRates.part (v + dx) 9 = ![0, 0, 9.8062] := by
      funext k
      show (v + dx) ⟨9 + k.val, _⟩ = _
      rw [hdx _ (by show 9 ≤ 9 + k.val; omega), hgr _ (by show 9 ≤ 9 + k.val; omega)]
      fin_cases k <;> rfl
    unfold SixDRates.withGravity
    split
    next hc =>
      rw [hg, rescaled_up, hgr i hi]
      obtain ⟨i, hi18⟩ := i
      dsimp only at hi hc ⊢
      obtain rfl | rfl | rfl : i = 9 ∨ i = 10 ∨ i = 11 := by omega
      all_goals rfl
    next => exact hdx i hi

/-- The inputs of the loop are in order, from time `t` on. -/
def InOrder : ℝ → List Reading → Prop
  | _, [] => True
  | t, m :: ms => t ≤ m.t ∧ m.z.size = dims m.kind ∧ InOrder m.t ms

theorem inOrder_of : ∀ {t : ℝ} {ms : List Reading}, (∀ m ∈ ms, t ≤ m.t ∧ m.z.size = dims m.kind) → ms.Pairwise (fun a b => a.t ≤ b.t) →
    InOrder t ms
  | _, [], _, _ => trivial
  | t, m :: ms, h, hp => by
    rw [List.pairwise_cons] at hp
    exact ⟨(h m (by simp)).1, (h m (by simp)).2, inOrder_of (fun k hk => ⟨hp.1 k hk, (h k (by simp [hk])).2⟩) hp.2⟩

/-- The invariant of the filter of the example. -/
abbrev FOk (f : Filter ℝ DVec DMat Kind Models) : Prop := CoreOk plant Kept
    (fun e => Env.Ok NonlinSysData.Sized NonlinMeasData.Sized SixDNoise Kept 18 0 dims e ∧ Configured e) (fun u => u.size = 0)
      (fun R => R.Is 0 0 ∧ R.PSD) f.core

theorem covOf_pd (k : Kind) : (covOf k).Is (dims k) (dims k) ∧ (covOf k).PD := by
  cases k
  · refine ⟨⟨rfl, rfl⟩, diag_pd ?_⟩
    intro i; fin_cases i <;> norm_num
  · refine ⟨⟨rfl, rfl⟩, diag_pd ?_⟩
    intro i; fin_cases i <;> norm_num

/-- One correction of the example, in terms of cores. -/
theorem correct_core (f : Filter ℝ DVec DMat Kind Models) (m : Reading) (ht : f.getStateTime ≤ m.t)
    {c : Core ℝ DVec DMat Models} (hc : Core.apply plant f.core (measurementInput m.z (covOf m.kind) m.t (some m.kind)) = some c) :
    ∃ g, f.correct plant m.z (covOf m.kind) m.t (some m.kind) = some g ∧ g.core = c := by
  rw [Filter.correct_inorder plant f m.z _ _ _ ht, Filter.applyInput_eq, hc]
  refine ⟨_, rfl, ?_⟩
  rw [Filter.pruned_core]
  rfl

theorem step_ok (f : Filter ℝ DVec DMat Kind Models) (hf : FOk f) (m : Reading) (ht : f.getStateTime ≤ m.t)
    (hz : m.z.size = dims m.kind) :
    ∃ g, f.correct plant m.z (covOf m.kind) m.t (some m.kind) = some g ∧ FOk g ∧ g.getStateTime = m.t := by
  obtain ⟨c, h1, h2⟩ := OptP.exists_of_total (plant_inv.apply f.core (measurementInput m.z (covOf m.kind) m.t (some m.kind)) hf
    (by
      unfold InputOk measurementInput
      rw [if_neg (by simp)]
      exact ⟨m.kind, rfl, hz, (covOf_pd m.kind).1, (covOf_pd m.kind).2⟩))
  obtain ⟨g, h3, h4⟩ := correct_core f m ht h1
  refine ⟨g, h3, by show CoreOk _ _ _ _ _ g.core; rw [h4]; exact h2, ?_⟩
  have h5 := Core.apply_ts plant f.core c (measurementInput m.z (covOf m.kind) m.t (some m.kind)) h1
  show g.core.ts = m.t
  rw [h4, h5]
  exact max_eq_right ht

theorem loop_ok : ∀ (ms : List Reading) (f : Filter ℝ DVec DMat Kind Models), FOk f → InOrder f.getStateTime ms →
    ∃ os, loop ms f = some os ∧ os.map Output.t = ms.map Reading.t ∧ ∀ o ∈ os, Kept o.x o.cov
  | [], _, _, _ => ⟨[], rfl, rfl, by simp⟩
  | m :: ms, f, hf, ho => by
    obtain ⟨g, h1, h2, h3⟩ := step_ok f hf m ho.1 ho.2.1
    obtain ⟨os, k1, k2, k3⟩ := loop_ok ms g h2 (by rw [h3]; exact ho.2.2)
    refine ⟨⟨g.getStateTime, g.getState, g.getCovariance⟩ :: os, ?_, ?_, ?_⟩
    · unfold loop
      simp only [Option.bind_eq_bind, h1, Option.bind_some, k1]
    · rw [List.map_cons, List.map_cons, k2]
      exact congrArg (· :: _) h3
    · intro o ho
      rcases List.mem_cons.mp ho with rfl | h
      · exact h2.1
      · exact k3 o h

/-- The odometry model after the setup. -/
noncomputable def exOdom : TfMeas :=
  let m := Meas.constructNonlinear SixDRates.DIMS 4 (⟨odomTf, true, true⟩ : TfData)
  { m with fm := setStationary m.fm isStationaryOdom makeStationary, der := { m.der with H := .of (odomH 0 odomTf) } }

/-- The IMU model after the setup. -/
noncomputable def exImu : TfMeas :=
  let m := Meas.constructNonlinear SixDRates.DIMS 6 (⟨Iso.identity, false, true⟩ : TfData)
  { m with fm := setStationary m.fm isStationaryImu makeStationary, der := { m.der with H := .of (imuH 0 Iso.identity) } }

/-- The system model after the setup. -/
noncomputable def exSys : SixDRates.Obj :=
  let s := SixDRates.construct true true
  { s with fm := setStationary s.fm isStationarySystem makeStationary, Rp := processCov }

/-- The models after the setup. -/
noncomputable def exEnv : Models := { sys := exSys, meas := fun k => match k with | .odom => exOdom | .imu => exImu }

theorem odomTf_ne : ¬ (odomTf.R = 1 ∧ odomTf.t = 0) := by
  rintro ⟨_, h⟩
  have : (-0.26 : ℝ) = 0 := congrFun h 0
  norm_num at this

theorem setup_eq : setup = some exEnv := by
  have e0 : SixDRatesOdom.construct true = _ :=
    odom_post (Meas.constructNonlinear SixDRates.DIMS 4 ⟨Iso.identity, false, true⟩) rfl 0 rfl
  have e1 : SixDRatesImu.construct true = _ :=
    imu_post (Meas.constructNonlinear SixDRates.DIMS 6 ⟨Iso.identity, false, true⟩) rfl 0 rfl
  unfold setup
  refine bind_step e0 (bind_step e1 ?_)
  refine bind_step (a := exOdom) ?_ ?_
  · unfold TfMeas.setTf
    have hd : (!(open Classical in decide (odomTf.R = 1 ∧ odomTf.t = 0))) = true := by
      rw [decide_eq_false odomTf_ne]; rfl
    simp only [hd, if_true]
    refine (odom_post _ rfl _ rfl).trans ?_
    rw [odomH_again]
    rfl
  · refine bind_step (a := exSys) ?_ rfl
    unfold Sys.setProcessCovariance
    exact if_pos ⟨rfl, rfl⟩

theorem odom_selects : Selects [0, 1, 2, 3] (id : Fin 4 → Fin 4) := ⟨by decide, fun _ _ h => h⟩
theorem imu_selects : Selects [0, 1, 2, 3, 4, 5] (id : Fin 6 → Fin 6) := ⟨by decide, fun _ _ h => h⟩

theorem exEnv_ok : Env.Ok NonlinSysData.Sized NonlinMeasData.Sized SixDNoise Kept 18 0 dims (activate exEnv) ∧
    Configured (activate exEnv) := by
  refine ⟨⟨⟨rfl, rfl, ⟨rfl, ⟨rfl, rfl⟩⟩, ⟨rfl, rfl⟩, ⟨rfl, rfl⟩, ⟨rfl, rfl⟩, ⟨rfl, rfl⟩⟩, ⟨⟨?_, ?_⟩, rfl⟩, makeStationary_keeps rfl, ?_, ?_⟩, ?_, ?_⟩
  · refine diag_psd ?_
    intro i; fin_cases i <;> norm_num
  · exact ⟨rfl, PosSemidef.zero⟩
  · intro k
    cases k
    · exact ⟨rfl, rfl, ⟨rfl, rfl, rfl⟩, rfl, rfl⟩
    · exact ⟨rfl, rfl, ⟨rfl, rfl, rfl⟩, rfl, rfl⟩
  · intro k
    cases k
    · exact makeStationary_keeps rfl
    · exact makeStationary_keeps rfl
  · refine ⟨?_, ⟨0, id, ?_⟩, ?_⟩
    · have : (activate exEnv).sys.activeStates = [0, 1, 2, 3, 4, 5, 6, 7, 8] := by decide
      rw [this]; exact act_selects
    · exact selects_nil
    · intro k
      cases k
      · exact ⟨4, id, odom_selects⟩
      · exact ⟨6, id, imu_selects⟩
  · decide

end StateEstimation.Example
