import Verif.Lemmas.Sigma
import Verif.Examples.Linear

/-! # The loops of the UKF on well-sized arguments -/

set_option linter.unusedSectionVars false

namespace StateEstimation

open Matrix Kalman Sigma

variable {T K X Y : Type} {n m k p N : Nat}

/-- matrix whose columns are given by natural number -/
abbrev ptsOf (N : Nat) (y : Nat → Fin n → ℝ) : DMat := .of (fun a (j : Fin N) => y j a)

theorem uninit_pts (junk : Nat → Nat → ℝ) : DMat.uninit junk n N = ptsOf N (fun j (a : Fin n) => junk a j) := rfl

theorem setCol_pts (y : Nat → Fin n → ℝ) {i : Nat} (hi : i < N) (v : Fin n → ℝ) :
    (ptsOf N y).setCol? i (.of v) = some (ptsOf N (Function.update y i v)) := by
  unfold DMat.setCol?
  rw [dif_pos ⟨hi, rfl⟩]
  congr 1
  show DMat.of _ = DMat.of _
  congr 1
  funext a b
  by_cases h : b.val = i
  · rw [if_pos h, h, Function.update_self]; rfl
  · rw [if_neg h, Function.update_of_ne h]

theorem col_pts (y : Nat → Fin n → ℝ) {i : Nat} (hi : i < N) : (ptsOf N y).col? i = some (.of (y i)) := by
  unfold DMat.col?
  rw [dif_pos hi]

theorem col_of (L : Matrix (Fin n) (Fin m) ℝ) {i : Nat} (hi : i < m) : (DMat.of L).col? i = some (.of (colsOf L i)) := by
  unfold DMat.col? colsOf
  rw [dif_pos hi, dif_pos hi]

theorem get_of (w : Nat → ℝ) {i : Nat} (hi : i < N) : (DVec.of fun j : Fin N => w j).get? i = some (w i) := by
  unfold DVec.get?
  rw [dif_pos hi]

theorem weightedSumLoop_pts (w : Nat → ℝ) (y : Nat → Fin n → ℝ) : ∀ (fuel i : Nat) (acc : Fin n → ℝ), i + fuel = N →
    weightedSumLoop (.of fun j : Fin N => w j) (ptsOf N y) fuel i (.of acc)
      = some (.of (acc + ∑ j ∈ Finset.range fuel, w (i + j) • y (i + j))) := by
  intro fuel
  induction fuel with
  | zero => intro i acc _; simp [weightedSumLoop]
  | succ fuel ih =>
    intro i acc hi
    unfold weightedSumLoop
    simp only [Option.bind_eq_bind, get_of w (show i < N by omega), col_pts y (show i < N by omega), Option.bind_some,
      DVec.smul_of, DVec.add_of]
    rw [ih (i + 1) _ (by omega), Finset.sum_range_succ']
    simp only [add_zero]
    congr 2
    rw [add_assoc, add_comm (w i • y i)]
    congr 2
    refine Finset.sum_congr rfl fun j _ => ?_
    rw [show i + 1 + j = i + (j + 1) by omega]

theorem weightedSum_pts (w : Nat → ℝ) (y : Nat → Fin n → ℝ) :
    weightedSum (.of fun j : Fin N => w j) (ptsOf N y) = some (.of (∑ j ∈ Finset.range N, w j • y j)) := by
  unfold weightedSum
  rw [if_pos rfl]
  have := weightedSumLoop_pts (N := N) w y N 0 0 (by omega)
  simp only [Nat.zero_add, zero_add] at this
  exact this

theorem covLoop_of (w : Nat → ℝ) (f : Nat → Option (DVec × DVec)) (a : Nat → Fin n → ℝ) (b : Nat → Fin k → ℝ)
    (hf : ∀ i < N, f i = some (.of (a i), .of (b i))) : ∀ (fuel i : Nat) (acc : Matrix (Fin n) (Fin k) ℝ), i + fuel = N →
    covLoop (.of fun j : Fin N => w j) f fuel i (.of acc)
      = some (.of (acc + ∑ j ∈ Finset.range fuel, w (i + j) • vecMulVec (a (i + j)) (b (i + j)))) := by
  intro fuel
  induction fuel with
  | zero => intro i acc _; simp [covLoop]
  | succ fuel ih =>
    intro i acc hi
    unfold covLoop
    simp only [Option.bind_eq_bind, get_of w (show i < N by omega), hf i (by omega), Option.bind_some, DVec.smul_of,
      DMat.outer_of, DMat.add_of]
    rw [ih (i + 1) _ (by omega), Finset.sum_range_succ']
    simp only [add_zero]
    congr 2
    rw [add_assoc, add_comm (vecMulVec (w i • a i) (b i)), smul_vecMulVec]
    congr 2
    refine Finset.sum_congr rfl fun j _ => ?_
    rw [show i + 1 + j = i + (j + 1) by omega]

theorem covLoop_of' (w : Nat → ℝ) (f : Nat → Option (DVec × DVec)) (a : Nat → Fin n → ℝ) (b : Nat → Fin k → ℝ)
    (hf : ∀ i < N, f i = some (.of (a i), .of (b i))) (acc : Matrix (Fin n) (Fin k) ℝ) :
    covLoop (.of fun j : Fin N => w j) f N 0 (.of acc)
      = some (.of (acc + ∑ j ∈ Finset.range N, w j • vecMulVec (a j) (b j))) := by
  have := covLoop_of w f a b hf N 0 acc (by omega)
  simpa using this

theorem noiseCov_of (P : Matrix (Fin n) (Fin p) ℝ) (Rp : Matrix (Fin p) (Fin p) ℝ)
    (V : Matrix (Fin n) (Fin m) ℝ) (Rc : Matrix (Fin m) (Fin m) ℝ) :
    noiseCov (.of P) (.of Rp) (.of V) (.of Rc) = some (.of (P * Rp * Pᵀ + V * Rc * Vᵀ)) := by
  unfold noiseCov
  simp only [Option.bind_eq_bind, DMat.mul_of, Option.bind_some, DMat.transpose_of, DMat.add_of]

theorem Sys.SameConfig.trans {D X : Type} {a b c : Sys D X} (h : a.SameConfig b) (h' : b.SameConfig c) : a.SameConfig c :=
  ⟨h'.fm.trans h.fm, h'.controlDims.trans h.controlDims, h'.activeControls.trans h.activeControls, h'.Rp.trans h.Rp,
    h'.Rc.trans h.Rc⟩
theorem Meas.SameConfig.trans {D X : Type} {a b c : Meas D X} (h : a.SameConfig b) (h' : b.SameConfig c) : a.SameConfig c :=
  ⟨h'.fm.trans h.fm, h'.measDims.trans h.measDims, h'.activeMeasurements.trans h.activeMeasurements, h'.cov.trans h.cov⟩

theorem Sys.Sized.update' {sc : SysClass T NonlinSysData X} (hsc : SysContract NonlinSysData.Sized sc)
    {s0 s : Sys NonlinSysData X} (hs : s.Sized NonlinSysData.Sized n m) (h0 : s0.SameConfig s) {u : DVec} (q : Fin n → ℝ)
    (hu : u.size = m) (dt : T) :
    ∃ (s' : Sys NonlinSysData X) (y : Fin n → ℝ), s.update sc (.of q) u dt = some s' ∧ s'.Sized NonlinSysData.Sized n m ∧ s0.SameConfig s' ∧
      s0.UpdatedAt sc n m (.of q) u dt s' ∧ s'.der.g = .of y := by
  obtain ⟨s', h1, h2, h3⟩ := hsc.update s (.of q) u dt hs rfl hu
  obtain ⟨y, hy⟩ := s'.der.g.exists_of h2.der.1
  refine ⟨s', y, ?_, h2, h0.trans h3, ⟨s, hs, h0, h1⟩, hy⟩
  unfold Sys.update
  rw [if_pos ⟨by rw [hs.states], by rw [hs.controls]; exact hu⟩]
  exact h1

theorem Meas.Sized.update' {mc : MeasClass T NonlinMeasData Y} (hmc : MeasContract NonlinMeasData.Sized mc)
    {s0 s : Meas NonlinMeasData Y} (hs : s.Sized NonlinMeasData.Sized n k) (h0 : s0.SameConfig s) (q : Fin n → ℝ) (dt : T) :
    ∃ (s' : Meas NonlinMeasData Y) (y : Fin k → ℝ), s.update mc (.of q) dt = some s' ∧ s'.Sized NonlinMeasData.Sized n k ∧ s0.SameConfig s' ∧
      s0.UpdatedAt mc n k (.of q) dt s' ∧ s'.der.h = .of y := by
  obtain ⟨s', h1, h2, h3⟩ := hmc.update s (.of q) dt hs rfl
  obtain ⟨y, hy⟩ := s'.der.h.exists_of h2.der.1
  refine ⟨s', y, ?_, h2, h0.trans h3, ⟨s, hs, h0, h1⟩, hy⟩
  unfold Meas.update
  rw [if_pos (by rw [hs.states])]
  exact h1

section Predict
variable {sc : SysClass T NonlinSysData X} (hsc : SysContract NonlinSysData.Sized sc) (hso : sc.PlainOps)

include hsc hso in
theorem ukfPredictLoop_of (s0 : Sys NonlinSysData X) (L : Matrix (Fin n) (Fin n) ℝ) (x : Fin n → ℝ) {u : DVec} (hu : u.size = m)
    (dt : T) : ∀ (fuel i : Nat) (s : Sys NonlinSysData X) (y : Nat → Fin n → ℝ), i + fuel = n →
    s.Sized NonlinSysData.Sized n m → s0.SameConfig s →
    ∃ s' y', ukfPredictLoop sc (.of L) (.of x) u dt fuel i s (ptsOf (2 * n + 1) y) = some (s', ptsOf (2 * n + 1) y') ∧
      s'.Sized NonlinSysData.Sized n m ∧ s0.SameConfig s' ∧
      (∀ j, j ≤ i ∨ (n < j ∧ j ≤ n + i) → y' j = y j) ∧
      (∀ j, i ≤ j → j < n → SysImage sc n m s0 (.of (x + colsOf L j)) u dt (y' (j + 1)) ∧
        SysImage sc n m s0 (.of (x - colsOf L j)) u dt (y' (j + 1 + n))) ∧
      (fuel = 0 ∧ s' = s ∨ 0 < fuel ∧ s0.UpdatedAt sc n m (.of (x - colsOf L (n - 1))) u dt s') := by
  intro fuel
  induction fuel with
  | zero =>
    intro i s y hi hs h0
    exact ⟨s, y, rfl, hs, h0, fun _ _ => rfl, fun j h1 h2 => by omega, Or.inl ⟨rfl, rfl⟩⟩
  | succ fuel ih =>
    intro i s y hi hs h0
    obtain ⟨s1, y1, e1, hs1, hc1, hu1, hg1⟩ := hs.update' hsc h0 (x + colsOf L i) hu dt
    obtain ⟨s2, y2, e2, hs2, hc2, hu2, hg2⟩ := hs1.update' hsc hc1 (x - colsOf L i) hu dt
    obtain ⟨s', y', e3, hs', hc', hy, him, hlast⟩ := ih (i + 1) s2
      (Function.update (Function.update y (i + 1) y1) (i + 1 + n) y2) (by omega) hs2 hc2
    refine ⟨s', y', ?_, hs', hc', ?_, ?_, Or.inr ⟨by omega, ?_⟩⟩
    · unfold ukfPredictLoop
      simp only [Option.bind_eq_bind, col_of L (show i < n by omega), Option.bind_some, hso.add, hso.sub, DVec.add_of,
        DVec.sub_of, e1, hg1, setCol_pts y (show i + 1 < 2 * n + 1 by omega), e2, hg2, hs2.states,
        setCol_pts (Function.update y (i + 1) y1) (show i + 1 + n < 2 * n + 1 by omega)]
      exact e3
    · intro j hj
      rw [hy j (by omega), Function.update_of_ne (by omega), Function.update_of_ne (by omega)]
    · intro j h1 h2
      by_cases hj : j = i
      · subst hj
        rw [hy (j + 1) (by omega), hy (j + 1 + n) (by omega), Function.update_self, Function.update_of_ne (by omega),
          Function.update_self]
        exact ⟨⟨s1, hu1, hg1⟩, ⟨s2, hu2, hg2⟩⟩
      · exact him j (by omega) h2
    · rcases hlast with ⟨rfl, rfl⟩ | ⟨_, h⟩
      · rw [show n - 1 = i by omega]; exact hu2
      · exact h

/-- What a UKF prediction computes (`sp` for `2n+1` points, default vector operations). -/
theorem ukfPredict_of {Z : Type} (hsc : SysContract NonlinSysData.Sized sc) (hso : sc.PlainOps)
    {llt : DMat → Option DMat} (junk : Nat → Nat → ℝ) {s : Sys NonlinSysData X}
    (hs : s.Sized NonlinSysData.Sized n m) {lam d : ℝ} {L cov : Matrix (Fin n) (Fin n) ℝ}
    (hL : llt (.of (((n : ℝ) + lam) • cov)) = some (.of L)) (x : Fin n → ℝ) {u : DVec} (hu : u.size = m) (dt : T)
    (back : Sys NonlinSysData X → Z) :
    ∃ s' p, ∃ (y : Nat → Fin n → ℝ) (W : Matrix (Fin n) (Fin p) ℝ) (V : Matrix (Fin n) (Fin m) ℝ) (Rp : Matrix (Fin p) (Fin p) ℝ)
      (Rc : Matrix (Fin m) (Fin m) ℝ),
      ukfPredict llt junk sc ⟨2 * n + 1, lam, .of (fun j : Fin (2 * n + 1) => wm n lam j),
        .of (fun j : Fin (2 * n + 1) => wc n lam d j)⟩ s (.of x) (.of cov) u dt back
        = some (.of (mean n lam y), .of (W * Rp * Wᵀ + V * Rc * Vᵀ + cross n lam d y y (mean n lam y) (mean n lam y)), back s') ∧
      s'.Sized NonlinSysData.Sized n m ∧ s.SameConfig s' ∧
      SysImage sc n m s (.of x) u dt (y 0) ∧
      (∀ i < n, SysImage sc n m s (.of (x + colsOf L i)) u dt (y (i + 1)) ∧
        SysImage sc n m s (.of (x - colsOf L i)) u dt (y (i + 1 + n))) ∧
      (n = 0 ∧ s.UpdatedAt sc n m (.of x) u dt s' ∨ 0 < n ∧ s.UpdatedAt sc n m (.of (x - colsOf L (n - 1))) u dt s') ∧
      s'.P = .of W ∧ s'.V = .of V ∧ s.Rp = .of Rp ∧ s.Rc = .of Rc := by
  obtain ⟨s1, y1, e1, hs1, hc1, hu1, hg1⟩ := hs.update' hsc (Sys.SameConfig.refl s) x hu dt
  obtain ⟨s', y, e2, hs', hc', hy, him, hlast⟩ := ukfPredictLoop_of hsc hso s L x hu dt n 0 s1
    (Function.update (fun j (a : Fin n) => junk a j) 0 y1) (by omega) hs1 hc1
  obtain ⟨p, W, Rp, V, Rc, hW, hRp, hV, hRc⟩ := hs'.noise
  refine ⟨s', p, y, W, V, Rp, Rc, ?_, hs', hc', ?_, fun i hi => him i (by omega) hi, ?_, hW, hV, hc'.Rp ▸ hRp, hc'.Rc ▸ hRc⟩
  · unfold ukfPredict
    simp only [Option.bind_eq_bind, hs.states, DMat.smul_of, hL, Option.bind_some, e1, hg1, uninit_pts,
      setCol_pts _ (show 0 < 2 * n + 1 by omega), hs1.states, e2, hso.wsum, weightedSum_pts, hW, hV, hRp, hRc, noiseCov_of]
    rw [covLoop_of' (wc n lam d) _ (fun i => y i - mean n lam y) (fun i => y i - mean n lam y)]
    · rfl
    · intro i hi
      simp only [col_pts y hi, Option.bind_some, hso.sub]
      show (DVec.sub (.of (y i)) (.of (mean n lam y))).bind _ = _
      rw [DVec.sub_of]; rfl
  · rw [hy 0 (by omega), Function.update_self]
    exact ⟨s1, hu1, hg1⟩
  · rcases hlast with ⟨h, rfl⟩ | ⟨h1, h2⟩
    · exact Or.inl ⟨h, hu1⟩
    · exact Or.inr ⟨h1, h2⟩

end Predict

section Correct
variable {sc : SysClass T NonlinSysData X} (hso : sc.PlainOps)
  {mc : MeasClass T NonlinMeasData Y} (hmc : MeasContract NonlinMeasData.Sized mc)

include hso hmc in
theorem ukfCorrectLoop_of {s : Sys NonlinSysData X} (hs : s.Sized NonlinSysData.Sized n m) (m0 : Meas NonlinMeasData Y)
    (L : Matrix (Fin n) (Fin n) ℝ) (x : Fin n → ℝ)
    (dt : T) : ∀ (fuel i : Nat) (ms : Meas NonlinMeasData Y) (q : Nat → Fin n → ℝ) (y : Nat → Fin k → ℝ), i + fuel = n →
    ms.Sized NonlinMeasData.Sized n k → m0.SameConfig ms →
    ∃ ms' q' y', ukfCorrectLoop sc mc s (.of L) (.of x) dt fuel i ms (ptsOf (2 * n + 1) q) (ptsOf (2 * n + 1) y)
        = some (ms', ptsOf (2 * n + 1) q', ptsOf (2 * n + 1) y') ∧
      ms'.Sized NonlinMeasData.Sized n k ∧ m0.SameConfig ms' ∧
      (∀ j, j ≤ i ∨ (n < j ∧ j ≤ n + i) → q' j = q j ∧ y' j = y j) ∧
      (∀ j, i ≤ j → j < n → q' (j + 1) = x + colsOf L j ∧ q' (j + 1 + n) = x - colsOf L j ∧
        MeasImage mc n k m0 (.of (x + colsOf L j)) dt (y' (j + 1)) ∧
        MeasImage mc n k m0 (.of (x - colsOf L j)) dt (y' (j + 1 + n))) := by
  intro fuel
  induction fuel with
  | zero =>
    intro i ms q y hi hms h0
    exact ⟨ms, q, y, rfl, hms, h0, fun _ _ => ⟨rfl, rfl⟩, fun j h1 h2 => by omega⟩
  | succ fuel ih =>
    intro i ms q y hi hms h0
    obtain ⟨s1, y1, e1, hs1, hc1, hu1, hg1⟩ := hms.update' hmc h0 (x + colsOf L i) dt
    obtain ⟨s2, y2, e2, hs2, hc2, hu2, hg2⟩ := hs1.update' hmc hc1 (x - colsOf L i) dt
    obtain ⟨s', q', y', e3, hs', hc', hy, him⟩ := ih (i + 1) s2
      (Function.update (Function.update q (i + 1) (x + colsOf L i)) (i + 1 + n) (x - colsOf L i))
      (Function.update (Function.update y (i + 1) y1) (i + 1 + n) y2) (by omega) hs2 hc2
    refine ⟨s', q', y', ?_, hs', hc', ?_, ?_⟩
    · unfold ukfCorrectLoop
      simp only [Option.bind_eq_bind, col_of L (show i < n by omega), Option.bind_some, hso.add, hso.sub, DVec.add_of,
        DVec.sub_of, setCol_pts _ (show i + 1 < 2 * n + 1 by omega), col_pts _ (show i + 1 < 2 * n + 1 by omega),
        Function.update_self, e1, hg1, e2, hg2, hs.states,
        setCol_pts _ (show i + 1 + n < 2 * n + 1 by omega), col_pts _ (show i + 1 + n < 2 * n + 1 by omega)]
      exact e3
    · intro j hj
      obtain ⟨h1, h2⟩ := hy j (by omega)
      rw [h1, h2]
      simp only [Function.update_of_ne (show j ≠ i + 1 + n by omega), Function.update_of_ne (show j ≠ i + 1 by omega)]
      exact ⟨trivial, trivial⟩
    · intro j h1 h2
      by_cases hj : j = i
      · subst hj
        obtain ⟨a1, a2⟩ := hy (j + 1) (by omega)
        obtain ⟨b1, b2⟩ := hy (j + 1 + n) (by omega)
        rw [a1, a2, b1, b2]
        simp only [Function.update_self, Function.update_of_ne (show j + 1 ≠ j + 1 + n by omega)]
        exact ⟨trivial, trivial, ⟨s1, hu1, hg1⟩, ⟨s2, hu2, hg2⟩⟩
      · exact him j (by omega) h2

/-- What a UKF correction computes (`sp` for `2n+1` points, default vector operations). -/
theorem ukfCorrect_of {Z : Type} (hso : sc.PlainOps) (hmc : MeasContract NonlinMeasData.Sized mc) (hmo : mc.PlainOps)
    {llt : DMat → Option DMat} (junk : Nat → Nat → ℝ) {s : Sys NonlinSysData X}
    (hs : s.Sized NonlinSysData.Sized n m) {ms : Meas NonlinMeasData Y} (hms : ms.Sized NonlinMeasData.Sized n k)
    {lam d : ℝ} {L cov : Matrix (Fin n) (Fin n) ℝ}
    (hL : llt (.of (((n : ℝ) + lam) • cov)) = some (.of L)) (x : Fin n → ℝ) (z : Fin k → ℝ) (dt : T)
    (back : Meas NonlinMeasData Y → Z) :
    ∃ ms', ∃ (q : Nat → Fin n → ℝ) (y : Nat → Fin k → ℝ) (R : Matrix (Fin k) (Fin k) ℝ),
      ms'.Sized NonlinMeasData.Sized n k ∧ ms.SameConfig ms' ∧ ms.cov = .of R ∧
      q 0 = x ∧ Symm n q (colsOf L) ∧
      MeasImage mc n k ms (.of x) dt (y 0) ∧
      (∀ i < n, MeasImage mc n k ms (.of (x + colsOf L i)) dt (y (i + 1)) ∧
        MeasImage mc n k ms (.of (x - colsOf L i)) dt (y (i + 1 + n))) ∧
      (IsUnit (R + cross n lam d y y (mean n lam y) (mean n lam y)).det →
        ukfCorrect llt junk sc mc ⟨2 * n + 1, lam, .of (fun j : Fin (2 * n + 1) => wm n lam j),
          .of (fun j : Fin (2 * n + 1) => wc n lam d j)⟩ s ms (.of x) (.of cov) (.of z) dt back
          = some (.of (x + (cross n lam d q y (q 0) (mean n lam y) * (R + cross n lam d y y (mean n lam y) (mean n lam y))⁻¹) *ᵥ
                (z - mean n lam y)),
              .of (cov - cross n lam d q y (q 0) (mean n lam y) * (R + cross n lam d y y (mean n lam y) (mean n lam y))⁻¹ *
                (R + cross n lam d y y (mean n lam y) (mean n lam y)) *
                (cross n lam d q y (q 0) (mean n lam y) * (R + cross n lam d y y (mean n lam y) (mean n lam y))⁻¹)ᵀ), back ms')) := by
  obtain ⟨s1, y1, e1, hs1, hc1, hu1, hg1⟩ := hms.update' hmc (Meas.SameConfig.refl ms) x dt
  obtain ⟨ms', q, y, e2, hs', hc', hy, him⟩ := ukfCorrectLoop_of hso hmc hs ms L x dt n 0 s1
    (Function.update (fun j (a : Fin n) => junk a j) 0 x) (Function.update (fun j (a : Fin k) => junk a j) 0 y1)
    (by omega) hs1 hc1
  obtain ⟨R, hR⟩ := hs'.cov.exists_of
  have h0 := hy 0 (by omega)
  simp only [Function.update_self] at h0
  refine ⟨ms', q, y, R, hs', hc', hc'.cov ▸ hR, h0.1, ?_, ?_, ?_, ?_⟩
  · intro i hi
    rw [h0.1]
    exact ⟨(him i (by omega) hi).1, (him i (by omega) hi).2.1⟩
  · rw [h0.2]; exact ⟨s1, hu1, hg1⟩
  · intro i hi
    exact (him i (by omega) hi).2.2
  · intro hdet
    unfold ukfCorrect Meas.measurementSize
    simp only [Option.bind_eq_bind, hs.states, hms.meas, DMat.smul_of, hL, Option.bind_some, e1, hg1, uninit_pts,
      setCol_pts _ (show 0 < 2 * n + 1 by omega), e2, hmo.wsum, weightedSum_pts, hR]
    have hS := covLoop_of' (N := 2 * n + 1) (wc n lam d) (fun i => ((ptsOf (2 * n + 1) y).col? i).bind fun c =>
        (mc.sub ms' c (.of (mean n lam y))).bind fun dz => some (dz, dz))
        (fun i => y i - mean n lam y) (fun i => y i - mean n lam y) (by
          intro i hi
          simp only [col_pts y hi, Option.bind_some, hmo.sub, DVec.sub_of]) R
    have hX := covLoop_of' (N := 2 * n + 1) (wc n lam d) (fun i => ((ptsOf (2 * n + 1) q).col? i).bind fun p =>
        ((ptsOf (2 * n + 1) q).col? 0).bind fun p0 => (sc.sub s p p0).bind fun dx =>
        ((ptsOf (2 * n + 1) y).col? i).bind fun c =>
        (mc.sub ms' c (.of (mean n lam y))).bind fun dz => some (dx, dz))
        (fun i => q i - q 0) (fun i => y i - mean n lam y) (by
          intro i hi
          simp only [col_pts _ hi, col_pts _ (show 0 < 2 * n + 1 by omega), Option.bind_some, hmo.sub, hso.sub, DVec.sub_of]) 0
    rw [zero_add] at hX
    change covLoop _ _ _ _ _ = some (.of (R + cross n lam d y y (mean n lam y) (mean n lam y))) at hS
    change covLoop _ _ _ _ _ = some (.of (cross n lam d q y (q 0) (mean n lam y))) at hX
    have hm0 : (DVec.of (∑ j ∈ Finset.range (2 * n + 1), wm n lam j • y j)) = .of (mean n lam y) := rfl
    rw [hm0, hS]
    simp only [Option.bind_some, DMat.inverse_of _ hdet, hs'.states, hs'.meas, DMat.zero_of]
    rw [hX]
    simp only [Option.bind_some, DMat.mul_of, hmo.sub, DVec.sub_of, DMat.mulVec_of, hso.add, DVec.add_of, DMat.transpose_of,
      DMat.sub_of]

end Correct

end StateEstimation
