import Verif.Props.VSHistory
import Verif.Props.VSPitfalls
import Verif.Props.TimeShift
import Verif.Props.SharingVS

/-!
# Concrete cases for the one-call theorems of the variable-state filters (C40, C41), for C85 and for C93

Two states of which only the first is active, a sensor that squares the first state, correlated initial covariance.
-/

namespace StateEstimation
namespace Props

open Matrix Kalman Examples Sigma

/-- `h = x₀²`, `H = [2 x₀, 0]`: a sensor for the first of two states. -/
noncomputable def firstSquared : MeasClass ℝ NonlinMeasData Unit :=
  MeasClass.plain fun s x _ =>
    if s.stateSize = 2 ∧ s.measDims = 1 then
      some { s with der := ⟨vec1 (head x ^ 2), .of (!![2 * head x, 0] : Matrix (Fin 1) (Fin 2) ℝ)⟩ }
    else some s

theorem firstSquared_contract : MeasContract NonlinMeasData.Sized firstSquared := by
  apply plain_mcontract
  intro n k s x dt hs hx
  split
  next h =>
    have hn : n = 2 := by rw [← hs.states]; exact h.1
    have hk : k = 1 := by rw [← hs.meas]; exact h.2
    subst hn hk
    exact ⟨_, rfl, ⟨hs.states, hs.meas, ⟨rfl, rfl, rfl⟩, hs.cov⟩, ⟨rfl, rfl, rfl, rfl⟩⟩
  next => exact ⟨s, rfl, hs, Meas.SameConfig.refl s⟩

/-- A correlated covariance of two states. -/
def tied : Matrix (Fin 2) (Fin 2) ℝ := !![2, 1; 1, 2]

theorem tied_block : tied.submatrix sel0 sel0 = (2 : ℝ) • 1 := by
  ext i j; fin_cases i; fin_cases j; simp [tied, sel0]

theorem tied_pd : (tied.submatrix sel0 sel0).PosDef := by
  rw [tied_block]; exact PosDef.one.smul (by norm_num)

theorem elapsed_sized : elapsedEnv.sys.Sized NonlinSysData.Sized 2 1 :=
  ⟨rfl, rfl, ⟨rfl, rfl, rfl⟩, ⟨rfl, rfl⟩, ⟨rfl, rfl⟩, ⟨rfl, rfl⟩, rfl, rfl⟩

theorem elapsed_meas_sized : (elapsedEnv.meas ()).Sized NonlinMeasData.Sized 2 1 :=
  ⟨rfl, rfl, ⟨rfl, rfl, rfl⟩, rfl, rfl⟩

theorem elapsed_selects : Selects elapsedEnv.sys.activeStates sel0 := ⟨by decide, by decide⟩

/-- The hypotheses of C41 and C40 for `EKFVS` hold: a filter at `(3, 7)` corrected with the reading 10.  The second state
stays 7. -/
example : ∃ g x', (Filter.construct (ekfvsPlant elapsedClass fun _ : Unit => firstSquared)
      { allowPast := false, rewindHistory := false, historyWindow := 0 } elapsedEnv (.of ![3, 7]) (.of tied) (0 : ℝ)).correct
        (ekfvsPlant elapsedClass fun _ => firstSquared) (.of fun _ : Fin 1 => 10) (.of (1 : Matrix (Fin 1) (Fin 1) ℝ)) 0 (some ())
      = some g ∧ g.getState = .of x' ∧ x' (1 : Fin 2) = 7 := by
  obtain ⟨g, x', h1, h2, h3⟩ := C40_ekfvs_correct_partial (K := Unit) (mc := fun _ => firstSquared) elapsed_contract (plain_ops _)
    (fun _ => firstSquared_contract) (Filter.construct (ekfvsPlant elapsedClass fun _ : Unit => firstSquared)
      { allowPast := false, rewindHistory := false, historyWindow := 0 } elapsedEnv (.of ![3, 7]) (.of tied) (0 : ℝ)) ()
    elapsed_sized elapsed_meas_sized elapsed_selects (ρ := id) selects_nil (x := ![3, 7]) (P := tied) rfl rfl tied_pd.posSemidef
    (fun _ => 10) 1 PosDef.one rfl
  exact ⟨g, x', h1, h2, (h3 1 (by decide)).trans rfl⟩

/-- The same for `KalmanFilterVS` with the constant-velocity models. -/
example : ∃ g x', (Filter.construct (kfvsPlant cvClass fun _ : Unit => posClass)
      { allowPast := false, rewindHistory := false, historyWindow := 0 } posOnly (.of ![3, 7]) (.of tied) (0 : ℝ)).correct
        (kfvsPlant cvClass fun _ => posClass) (.of fun _ : Fin 1 => 10) (.of (1 : Matrix (Fin 1) (Fin 1) ℝ)) 0 (some ())
      = some g ∧ g.getState = .of x' ∧ x' (1 : Fin 2) = 7 := by
  obtain ⟨g, x', h1, h2, h3⟩ := C40_kfvs_correct_partial (K := Unit) (mc := fun _ => posClass) cv_contract (plain_ops _)
    (fun _ => pos_contract) (Filter.construct (kfvsPlant cvClass fun _ : Unit => posClass)
      { allowPast := false, rewindHistory := false, historyWindow := 0 } posOnly (.of ![3, 7]) (.of tied) (0 : ℝ)) ()
    (posOnly_ok (Q := fun _ _ => True)).sys ((posOnly_ok (Q := fun _ _ => True)).meas ()) posOnly_selects
    (ρ := id) selects_nil (x := ![3, 7]) (P := tied) rfl rfl tied_pd.posSemidef
    (fun _ => 10) 1 PosDef.one rfl
  exact ⟨g, x', h1, h2, (h3 1 (by decide)).trans rfl⟩

/-- The default sigma point parameters for one active state exist and are admissible. -/
theorem default_sigma_one : ∃ sp, setSigma 1 1 0.001 0 2 = some sp ∧ (0 : ℝ) < 0.001 ^ 2 * (((1 : ℕ) : ℝ) + 0) ∧
    (0.001 : ℝ) ^ 2 ≤ 2 := by
  have : ((1 : ℕ) : ℝ) + (0.001 ^ 2 * (((1 : ℕ) : ℝ) + 0) - ((1 : ℕ) : ℝ)) ≠ 0 := by norm_num
  unfold setSigma
  simp only [this, if_false]
  exact ⟨_, rfl, by norm_num, by norm_num⟩

/-- The same for `UKFVS` with the default parameters: both the prediction and the correction theorem apply. -/
example (junk : Nat → Nat → ℝ) : ∃ sp, setSigma 1 1 0.001 0 2 = some sp ∧
    ∃ g x' h, (Filter.construct (ukfvsPlant someLlt junk elapsedClass fun _ : Unit => firstSquared)
      { allowPast := false, rewindHistory := false, historyWindow := 0 } (elapsedEnv, sp) (.of ![3, 7]) (.of tied) (0 : ℝ)).correct
        (ukfvsPlant someLlt junk elapsedClass fun _ => firstSquared) (.of fun _ : Fin 1 => 10)
        (.of (1 : Matrix (Fin 1) (Fin 1) ℝ)) 0 (some ())
      = some g ∧ g.getState = .of x' ∧ x' (1 : Fin 2) = 7 ∧
    (Filter.construct (ukfvsPlant someLlt junk elapsedClass fun _ : Unit => firstSquared)
      { allowPast := false, rewindHistory := false, historyWindow := 0 } (elapsedEnv, sp) (.of ![3, 7]) (.of tied)
      (0 : ℝ)).predictControl (ukfvsPlant someLlt junk elapsedClass fun _ => firstSquared) (.of fun _ : Fin 1 => 1) 2 = some h ∧
    h.getStateTime = 2 := by
  obtain ⟨sp, h1, h2, h3⟩ := default_sigma_one
  set f := Filter.construct (ukfvsPlant someLlt junk elapsedClass fun _ : Unit => firstSquared)
      { allowPast := false, rewindHistory := false, historyWindow := 0 } (elapsedEnv, sp) (.of ![3, 7]) (.of tied) (0 : ℝ)
  obtain ⟨g, L, q, y, S, D, G, x', P', g1, _, _, _, _, _, _, _, _, _, g2, _, g3, _⟩ := C40_C41_ukfvs_correct (K := Unit)
    (mc := fun _ => firstSquared) someLlt_spec junk (plain_ops _) (fun _ => firstSquared_contract) (fun _ => plain_mops _) f ()
    elapsed_sized elapsed_meas_sized elapsed_selects (ρ := id) selects_nil h1 h2 h3 (x := ![3, 7]) (P := tied) rfl rfl tied_pd
    (fun _ => 10) 1 PosDef.one rfl
  obtain ⟨h, p, L2, y2, W, V, Rp, Rc, P2, k1, k2, _⟩ := C41_ukfvs_predict (K := Unit) (mc := fun _ => firstSquared) someLlt_spec
    junk elapsed_contract (plain_ops _) f elapsed_sized elapsed_selects (τ := id) selects_nil h1 h2 h3 (x := ![3, 7]) (P := tied)
    rfl rfl tied_pd (fun _ : Fin 1 => 1) (by norm_num) 2 (by show (0 : ℝ) ≤ 2; norm_num) rfl
  exact ⟨sp, h1, g, x', h, g1, g2, (g3 1 (by decide)).trans rfl, k1, k2⟩

/-- C85 for the constant-velocity Kalman filter: seconds against milliseconds with another origin, three calls, one of them
late. -/
example (p : Params ℝ) (z : DVec) (R : DMat) :=
  C85_clock 1000 17 (by norm_num) (kfPlant cvClass fun _ : Unit => posClass)
    (fun l => l.insertionSort fun a b => a.timestamp ≤ b.timestamp)
    (fun l => ⟨List.perm_insertionSort _ l,
      (List.pairwise_insertionSort (fun a b : FilterInput ℝ DVec DMat Unit => a.timestamp ≤ b.timestamp) l).imp
        fun h => decide_eq_false (not_lt.mpr h)⟩)
    (sortsAlike_insertion 1000 17 (by norm_num)) p cvEnv (.of ![3, 7]) (.of tied) 0
    [.predictTime 1, .correct z R 2 (some ()), .correct z R 1 (some ())]

end Props
end StateEstimation
