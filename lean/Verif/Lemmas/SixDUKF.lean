import Verif.Lemmas.UKFSteps
import Verif.Lemmas.SixD
import Verif.Lemmas.UKFApi
import Verif.Props.SixD
import Verif.Lemmas.Asking

/-! # The prediction of a UKF on the 6-D rates model -/

set_option linter.unusedSectionVars false

namespace StateEstimation

open Matrix Kalman Sigma

namespace SixDRates

variable {Z : Type}

theorem cls_add {s : Obj} (h : Shape s) (a b : DVec) : cls.add s a b = addState a b := if_pos h
theorem cls_sub {s : Obj} (h : Shape s) (a b : DVec) : cls.sub s a b = subtractState a b := if_pos h
theorem cls_wsum {s : Obj} (h : Shape s) (w : DVec) (X : DMat) : cls.wsum s w X = weightedSumOfStates w X := if_pos h
theorem cls_update {s : Obj} (h : Shape s) (x u : DVec) (dt : ℝ) : cls.myUpdate s x u dt = myUpdate s x u dt := if_pos h

/-- the sum of two states -/
noncomputable def plus (a b : Fin 18 → ℝ) : Fin 18 → ℝ := withGravity (a + b) (rescaled (part (a + b) 9))
/-- the difference of two states -/
noncomputable def minus (a b : Fin 18 → ℝ) : Fin 18 → ℝ := withGravity (a - b) (rescaled (part (a - b) 9))

theorem predicted_config {s s' : Obj} (h : s.SameConfig s') (v : Fin 18 → ℝ) (dt : ℝ) : predicted s' v dt = predicted s v dt := by
  have e1 : ∀ i, used s' i = used s i := fun i => by unfold used; rw [h.fm]
  have e2 : gravityUsed s' = gravityUsed s := by unfold gravityUsed; rw [h.fm]
  funext j
  unfold predicted
  simp only [e1, e2]

theorem update_predicted {s0 s : Obj} (hs : s.Sized NonlinSysData.Sized 18 0) (hsh : Shape s) (h0 : s0.SameConfig s)
    (q : Fin 18 → ℝ) {u : DVec} (hu : u.size = 0) (dt : ℝ) :
    ∃ s', s.update cls (.of q) u dt = some s' ∧ s'.Sized NonlinSysData.Sized 18 0 ∧ Shape s' ∧ s0.SameConfig s' ∧
      s'.der.g = .of (predicted s0 q dt) := by
  obtain ⟨s', h1, h2, h3, _, h4, _⟩ := myUpdate_of s hs hsh.2.2 q u dt
  refine ⟨s', ?_, h2, shape_update hsh h3, h0.trans h3, by rw [h4, predicted_config h0]⟩
  unfold Sys.update
  rw [if_pos ⟨by rw [hs.states], by rw [hs.controls]; exact hu⟩, cls_update hsh]
  exact h1

theorem loop_of (s0 : Obj) (L : Matrix (Fin 18) (Fin 18) ℝ) (x : Fin 18 → ℝ) {u : DVec} (hu : u.size = 0)
    (dt : ℝ) : ∀ (fuel i : Nat) (s : Obj) (y : Nat → Fin 18 → ℝ), i + fuel = 18 →
    s.Sized NonlinSysData.Sized 18 0 → Shape s → s0.SameConfig s →
    ∃ s' y', ukfPredictLoop cls (.of L) (.of x) u dt fuel i s (ptsOf 37 y) = some (s', ptsOf 37 y') ∧
      s'.Sized NonlinSysData.Sized 18 0 ∧ Shape s' ∧ s0.SameConfig s' ∧
      (∀ j, j ≤ i ∨ (18 < j ∧ j ≤ 18 + i) → y' j = y j) ∧
      (∀ j, i ≤ j → j < 18 → y' (j + 1) = predicted s0 (plus x (colsOf L j)) dt ∧
        y' (j + 1 + 18) = predicted s0 (minus x (colsOf L j)) dt) := by
  intro fuel
  induction fuel with
  | zero =>
    intro i s y hi hs hsh h0
    exact ⟨s, y, rfl, hs, hsh, h0, fun _ _ => rfl, fun j h1 h2 => by omega⟩
  | succ fuel ih =>
    intro i s y hi hs hsh h0
    obtain ⟨s1, e1, hs1, hh1, hc1, hg1⟩ := update_predicted hs hsh h0 (plus x (colsOf L i)) hu dt
    obtain ⟨s2, e2, hs2, hh2, hc2, hg2⟩ := update_predicted hs1 hh1 hc1 (minus x (colsOf L i)) hu dt
    obtain ⟨s', y', e3, hs', hh', hc', hy, him⟩ := ih (i + 1) s2
      (Function.update (Function.update y (i + 1) (predicted s0 (plus x (colsOf L i)) dt)) (i + 1 + 18)
        (predicted s0 (minus x (colsOf L i)) dt)) (by omega) hs2 hh2 hc2
    refine ⟨s', y', ?_, hs', hh', hc', ?_, ?_⟩
    · unfold ukfPredictLoop
      simp only [Option.bind_eq_bind, col_of L (show i < 18 by omega), Option.bind_some, cls_add hsh, cls_sub hh1,
        show addState (.of x) (.of (colsOf L i)) = some (.of (plus x (colsOf L i))) from addState_of _ _,
        show subtractState (.of x) (.of (colsOf L i)) = some (.of (minus x (colsOf L i))) from subtractState_of _ _,
        e1, hg1, setCol_pts y (show i + 1 < 37 by omega), e2, hg2, hs2.states,
        setCol_pts (Function.update y (i + 1) _) (show i + 1 + 18 < 37 by omega)]
      exact e3
    · intro j hj
      rw [hy j (by omega), Function.update_of_ne (by omega), Function.update_of_ne (by omega)]
    · intro j h1 h2
      by_cases hj : j = i
      · subst hj
        rw [hy (j + 1) (by omega), hy (j + 1 + 18) (by omega), Function.update_self, Function.update_of_ne (by omega),
          Function.update_self]
        exact ⟨rfl, rfl⟩
      · exact him j (by omega) h2

/-- What a UKF prediction computes on the 6-D rates model. -/
theorem ukf_predict_of {llt : DMat → Option DMat} (junk : Nat → Nat → ℝ) {s : Obj}
    (hs : s.Sized NonlinSysData.Sized 18 0) (hsh : Shape s) {lam : ℝ} {num : Nat} (hnum : num = 37) (w v : Nat → ℝ) {L cov : Matrix (Fin 18) (Fin 18) ℝ}
    (hL : llt (.of ((((18 : ℕ) : ℝ) + lam) • cov)) = some (.of L)) (x : Fin 18 → ℝ) {u : DVec} (hu : u.size = 0) (dt : ℝ)
    (back : Obj → Z) :
    ∃ s', ∃ (y : Nat → Fin 18 → ℝ) (x' : Fin 18 → ℝ) (W : Matrix (Fin 18) (Fin 15) ℝ) (Rp : Matrix (Fin 15) (Fin 15) ℝ)
      (V : Matrix (Fin 18) (Fin 0) ℝ) (Rc : Matrix (Fin 0) (Fin 0) ℝ),
      ukfPredict llt junk cls ⟨num, lam, .of (fun j : Fin 37 => w j), .of (fun j : Fin 37 => v j)⟩ s (.of x) (.of cov) u dt back
        = some (.of x', .of (W * Rp * Wᵀ + V * Rc * Vᵀ +
          ∑ j ∈ Finset.range 37, v j • vecMulVec (minus (y j) x') (minus (y j) x')), back s') ∧
      s'.Sized NonlinSysData.Sized 18 0 ∧ s.SameConfig s' ∧
      y 0 = predicted s x dt ∧
      (∀ i < 18, y (i + 1) = predicted s (plus x (colsOf L i)) dt ∧ y (i + 1 + 18) = predicted s (minus x (colsOf L i)) dt) ∧
      Props.gravityOf x' = ∑ j ∈ Finset.range 37, rescaled (w j • Props.gravityOf (y j)) ∧
      s'.P = .of W ∧ s.Rp = .of Rp := by
  subst hnum
  obtain ⟨s1, e1, hs1, hh1, hc1, hg1⟩ := update_predicted hs hsh (Sys.SameConfig.refl s) x hu dt
  obtain ⟨s', y, e2, hs', hh', hc', hy, him⟩ := loop_of s L x hu dt 18 0 s1
    (Function.update (fun j (a : Fin 18) => junk a j) 0 (predicted s x dt)) (by omega) hs1 hh1 hc1
  obtain ⟨x', hx1, _, hx2⟩ := Props.C51_six_d_value (fun j : Fin 37 => w j) (fun a (j : Fin 37) => y j a)
  have hWs := hs'.P
  have hRps := hs'.Rp
  rw [show s'.Rp.rows = 15 from hh'.2.2] at hWs hRps
  obtain ⟨W, hW⟩ := hWs.exists_of
  obtain ⟨Rp, hRp⟩ := hRps.exists_of
  obtain ⟨V, hV⟩ := hs'.V.exists_of
  obtain ⟨Rc, hRc⟩ := hs'.Rc.exists_of
  refine ⟨s', y, x', W, Rp, V, Rc, ?_, hs', hc', ?_, fun i hi => him i (by omega) hi, ?_, hW, hc'.Rp ▸ hRp⟩
  · unfold ukfPredict
    simp only [Option.bind_eq_bind, hs.states, DMat.smul_of, hL, Option.bind_some, e1, hg1, uninit_pts,
      setCol_pts _ (show 0 < 37 by omega), hs1.states, e2, cls_wsum hh', hx1, hW, hV, hRp, hRc, noiseCov_of]
    rw [covLoop_of' v _ (fun i => minus (y i) x') (fun i => minus (y i) x')]
    · rfl
    · intro i hi
      simp only [col_pts y hi, Option.bind_some, cls_sub hh']
      rw [show subtractState (.of (y i)) (.of x') = some (.of (minus (y i) x')) from subtractState_of _ _]
      rfl
  · rw [hy 0 (by omega), Function.update_self]
  · rw [hx2, Finset.sum_range]

end SixDRates

/-- `predict(t)` of a UKF without a control in use. -/
theorem ukf_predictTime {T K X Y : Type} [DecidableEq K] [LinearOrder T] [ExactTime T] {llt : DMat → Option DMat} {junk : Nat → Nat → ℝ}
    {sc : SysClass T NonlinSysData X} {mc : K → MeasClass T NonlinMeasData Y}
    (f : Filter T DVec DMat K (Env K NonlinSysData X NonlinMeasData Y × SigmaParams)) (hp : f.prevControl.size = 0)
    (hq : f.env.1.sys.fm.checkStationary = false)
    (hRc : f.env.1.sys.Rc.Is f.env.1.sys.controlDims f.env.1.sys.controlDims) {t : T} (ht : f.state.timestamp < t)
    {x : DVec} {c : DMat} {e : Env K NonlinSysData X NonlinMeasData Y}
    (h : ukfPredict llt junk sc f.env.2 f.env.1.sys f.state.x f.state.covariance (.zero f.env.1.sys.controlDims)
      (TimeOps.sub t f.state.timestamp) (fun s => { f.env.1 with sys := s }) = some (x, c, e)) :
    ∃ g, f.predictTime (ukfPlant llt junk sc mc) t = some g ∧ g.getState = x ∧ g.getCovariance = c ∧ g.env = (e, f.env.2) := by
  have e1 := predictTime_core (P := ukfPlant llt junk sc mc) rfl f t hq ht
  have hgo : f.core.goOn (ukfPlant llt junk sc mc) t = some ⟨x, c, t, f.core.pc, f.core.pcc, (e, f.env.2)⟩ := by
    unfold Core.goOn
    have hin : f.core.inUse (ukfPlant llt junk sc mc) = (.zero f.env.1.sys.controlDims, f.env.1.sys.Rc) := by
      unfold Core.inUse
      rw [if_neg (by show ¬ f.prevControl.size > 0; omega)]
      rfl
    have es : (ukfPlant llt junk sc mc).setRc f.core.env f.env.1.sys.Rc = some f.env := by
      show ((f.env.1.sys.setControlCovariance f.env.1.sys.Rc).map _).map _ = _
      unfold Sys.setControlCovariance
      rw [if_pos ⟨hRc.1, hRc.2⟩]
      rfl
    have ep : (ukfPlant llt junk sc mc).myPredict f.env f.core.x f.core.cov (.zero f.env.1.sys.controlDims) (TimeOps.sub t f.core.ts) =
        some (x, c, e, f.env.2) :=
      (show (ukfPredict llt junk sc f.env.2 f.env.1.sys f.state.x f.state.covariance _ (TimeOps.sub t f.state.timestamp) _).map _ = _ from
        (congrArg (Option.map _) h).trans rfl)
    rw [hin, es, Option.bind_some, ep]
    rfl
  rw [hgo] at e1
  obtain ⟨g, k1, k2⟩ := Option.map_eq_some_iff.mp e1
  exact ⟨g, k1, congrArg Core.x k2, congrArg Core.cov k2, congrArg Core.env k2⟩

end StateEstimation
