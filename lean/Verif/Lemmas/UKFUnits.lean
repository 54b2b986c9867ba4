import Verif.Spec.Units
import Verif.Lemmas.Apart
import Verif.Lemmas.UKFApi
import Verif.Lemmas.Uninit
import Verif.Lemmas.Llt

/-!
# One UKF step in two systems of units
-/

set_option linter.unusedSectionVars false

namespace StateEstimation

open Matrix Sigma

variable {T K X Y Z Z' : Type} {n m p k : Nat} {kd : K → Nat}

/-! ### The factor Eigen computes is the only one that is lower triangular with a positive diagonal -/

theorem lltLower_unique {M G : Matrix (Fin n) (Fin n) ℝ} (h : Units.LowerPos G) (hG : G * Gᵀ = M) : lltLower M = G := by
  ext i j
  unfold lltLower
  split
  · next hij =>
    refine Llt.loop_spec (k0 := n) h.1 (fun i _ => h.2 i) (fun i _ hi => absurd i.isLt (not_lt.mpr hi)) hG n 0 _ rfl
      (Nat.zero_le _) (fun a b _ => ?_) i j hij
    simp
  · next hij => exact (h.1 i j (not_le.mp hij)).symm

theorem lltLower_posDef {M : Matrix (Fin n) (Fin n) ℝ} (hM : M.PosDef) :
    Units.LowerPos (lltLower M) ∧ lltLower M * (lltLower M)ᵀ = M := by
  obtain ⟨G, hG, hp, _, hGG⟩ := (Llt.Lead.of_posDef hM).factor
  have h : Units.LowerPos G := ⟨hG, fun i => hp i i.isLt⟩
  rw [lltLower_unique h hGG]
  exact ⟨h, hGG⟩

theorem Units.LowerPos.mul {A B : Matrix (Fin n) (Fin n) ℝ} (hA : LowerPos A) (hB : LowerPos B) : LowerPos (A * B) := by
  refine ⟨fun i j hij => ?_, fun i => ?_⟩
  · rw [mul_apply]
    refine Finset.sum_eq_zero fun l _ => ?_
    rcases lt_or_ge i l with h | h
    · rw [hA.1 i l h, zero_mul]
    · rw [hB.1 l j (lt_of_le_of_lt h hij), mul_zero]
  · rw [mul_apply, Finset.sum_eq_single i]
    · exact mul_pos (hA.2 i) (hB.2 i)
    · intro l _ hl
      rcases lt_or_gt_of_ne hl with h | h
      · rw [hB.1 l i h, mul_zero]
      · rw [hA.1 i l h, zero_mul]
    · intro h; exact absurd (Finset.mem_univ i) h

theorem lltLower_units {A M : Matrix (Fin n) (Fin n) ℝ} (hA : Units.LowerPos A) (hM : M.PosDef) :
    lltLower (A * M * Aᵀ) = A * lltLower M := by
  obtain ⟨h1, h2⟩ := lltLower_posDef hM
  refine lltLower_unique (hA.mul h1) ?_
  rw [transpose_mul]
  conv_rhs => rw [← h2]
  simp only [Matrix.mul_assoc]

theorem eigenLlt_units {A M : Matrix (Fin n) (Fin n) ℝ} (hA : Units.LowerPos A) (hM : M.PosDef) {c : ℝ} (hc : 0 < c) :
    ∃ L, eigenLlt (.of (c • M)) = some (.of L) ∧ eigenLlt (.of (c • (A * M * Aᵀ))) = some (.of (A * L)) := by
  refine ⟨_, eigenLlt_of _, ?_⟩
  rw [← lltLower_units hA (hM.smul hc), eigenLlt_of]
  congr 2
  rw [Matrix.mul_smul, Matrix.smul_mul]

/-! ### Sums over sigma points -/

theorem colsOf_unitsMul (A L : Matrix (Fin n) (Fin n) ℝ) (i : Nat) : colsOf (A * L) i = A *ᵥ colsOf L i := by
  unfold colsOf
  split
  · funext a; simp [mul_apply, mulVec, dotProduct]
  · simp

theorem mean_mulVec (lam : ℝ) (A : Matrix (Fin k) (Fin k) ℝ) (y : Nat → Fin k → ℝ) :
    mean n lam (fun j => A *ᵥ y j) = A *ᵥ mean n lam y := by
  unfold mean
  rw [mulVec_sum]
  exact Finset.sum_congr rfl fun j _ => by rw [mulVec_smul]

theorem cross_mulVec {a b : Nat} (lam d : ℝ) (A : Matrix (Fin a) (Fin a) ℝ) (B : Matrix (Fin b) (Fin b) ℝ) (x : Nat → Fin a → ℝ)
    (y : Nat → Fin b → ℝ) (x0 : Fin a → ℝ) (y0 : Fin b → ℝ) :
    cross n lam d (fun j => A *ᵥ x j) (fun j => B *ᵥ y j) (A *ᵥ x0) (B *ᵥ y0) = A * cross n lam d x y x0 y0 * Bᵀ := by
  unfold cross
  rw [Matrix.mul_sum, Matrix.sum_mul]
  refine Finset.sum_congr rfl fun j _ => ?_
  rw [Matrix.mul_smul, Matrix.smul_mul, ← mulVec_sub, ← mulVec_sub, mul_vecMulVec, vecMulVec_mul, vecMul_transpose]

theorem pts_of_written {A : Matrix (Fin k) (Fin k) ℝ} {a a' : Nat → Fin k → ℝ} (h : ∀ j, written n n j → a' j = A *ᵥ a j) :
    ptsOf (2 * n + 1) a' = ptsOf (2 * n + 1) (fun j => A *ᵥ a j) := by
  refine congrArg DMat.of ?_
  funext i j
  rw [h j.val (by unfold written; have := j.isLt; omega)]

theorem update_written {A : Matrix (Fin k) (Fin k) ℝ} {y y' : Nat → Fin k → ℝ} {i : Nat} (h : ∀ j, written n i j → y' j = A *ᵥ y j)
    (g g' : Fin k → ℝ) (j : Nat) (hj : written n (i + 1) j) :
    Function.update (Function.update y' (i + 1) (A *ᵥ g)) (i + 1 + n) (A *ᵥ g') j
      = A *ᵥ Function.update (Function.update y (i + 1) g) (i + 1 + n) g' j := by
  by_cases h1 : j = i + 1 + n
  · subst h1; rw [Function.update_self, Function.update_self]
  · rw [Function.update_of_ne h1, Function.update_of_ne h1]
    by_cases h2 : j = i + 1
    · subst h2; rw [Function.update_self, Function.update_self]
    · rw [Function.update_of_ne h2, Function.update_of_ne h2]
      exact h j (by unfold written at hj ⊢; omega)

theorem OptRel.of_units {α β : Type} {R : α → β → Prop} {a : Option α} {b : Option β} (h : Units.Both R a b) : OptRel False R a b := by
  cases a <;> cases b <;> simp_all [Units.Both, OptRel]

theorem OptRel.peel {α β γ δ : Type} {S : γ → δ → Prop} {a : α} {b : β} {o : Option α} {o' : Option β} (h : o = Option.some a)
    (h' : o' = Option.some b) {f : α → Option γ} {g : β → Option δ} (hf : OptRel False S (f a) (g b)) :
    OptRel False S (o.bind f) (o'.bind g) := by
  subst h; subst h'; exact hf

/-! ### Prediction -/

section Predict
variable {u : Units n m p kd} {sc sc' : SysClass T NonlinSysData X}

theorem sysUpdate_units (hsc : u.SysClassIn u.NonlinSysIn sc sc') {s s' : Sys NonlinSysData X} (hs : u.SysIn u.NonlinSysIn s s')
    (x : Fin n → ℝ) (v : Fin m → ℝ) (dt : T) :
    OptRel False (u.SysIn u.NonlinSysIn) (s.update sc (.of x) (.of v) dt) (s'.update sc' (.of (u.T *ᵥ x)) (.of (u.U *ᵥ v)) dt) := by
  unfold Sys.update
  rw [if_pos ⟨hs.states.symm, hs.controls.symm⟩, if_pos ⟨hs.states'.symm, hs.controls'.symm⟩]
  exact OptRel.of_units (hsc.update s s' x v dt hs)

theorem ukfPredictLoop_units (hsc : u.SysClassIn u.NonlinSysIn sc sc') (L : Matrix (Fin n) (Fin n) ℝ) (x : Fin n → ℝ)
    (v : Fin m → ℝ) (dt : T) : ∀ (fuel i : Nat) (s s' : Sys NonlinSysData X) (y y' : Nat → Fin n → ℝ), i + fuel = n →
      u.SysIn u.NonlinSysIn s s' → (∀ j, written n i j → y' j = u.T *ᵥ y j) →
      OptRel False (fun r q => u.SysIn u.NonlinSysIn r.1 q.1 ∧ ∃ a : Nat → Fin n → ℝ, r.2 = ptsOf (2 * n + 1) a ∧
          q.2 = ptsOf (2 * n + 1) (fun j => u.T *ᵥ a j))
        (ukfPredictLoop sc (.of L) (.of x) (.of v) dt fuel i s (ptsOf (2 * n + 1) y))
        (ukfPredictLoop sc' (.of (u.T * L)) (.of (u.T *ᵥ x)) (.of (u.U *ᵥ v)) dt fuel i s' (ptsOf (2 * n + 1) y')) := by
  intro fuel
  induction fuel with
  | zero =>
    intro i s s' y y' hi hs hy
    have : i = n := by omega
    subst this
    exact ⟨hs, y, rfl, pts_of_written hy⟩
  | succ fuel ih =>
    intro i s s' y y' hi hs hy
    unfold ukfPredictLoop
    simp only [Option.bind_eq_bind]
    refine OptRel.peel (col_of L (by omega)) (col_of (u.T * L) (by omega)) ?_
    rw [colsOf_unitsMul]
    refine OptRel.peel (by rw [hsc.ops.add, DVec.add_of]) (by rw [hsc.ops'.add, DVec.add_of, ← mulVec_add]) ?_
    refine OptRel.bind (sysUpdate_units hsc hs _ v dt) fun s s' hs => ?_
    obtain ⟨⟨g, e1, e2⟩, _⟩ := hs.der
    rw [e1, e2]
    refine OptRel.peel (setCol_pts y (by omega) _) (setCol_pts y' (by omega) _) ?_
    refine OptRel.peel (by rw [hsc.ops.sub, DVec.sub_of]) (by rw [hsc.ops'.sub, DVec.sub_of, ← mulVec_sub]) ?_
    refine OptRel.bind (sysUpdate_units hsc hs _ v dt) fun s s' hs => ?_
    obtain ⟨⟨g', e1', e2'⟩, _⟩ := hs.der
    rw [e1', e2', hs.states, hs.states']
    refine OptRel.peel (setCol_pts _ (by omega) _) (setCol_pts _ (by omega) _) ?_
    refine ih (i + 1) s s' _ _ (by omega) hs fun j hj => ?_
    exact update_written hy _ _ j hj

theorem noiseCov_units {P P' Rp Rp' V V' Rc Rc' : DMat} (hP : Units.MatIn u.T u.N P P') (hRp : Units.CovIn u.N Rp Rp')
    (hV : Units.MatIn u.T u.U V V') (hRc : Units.CovIn u.U Rc Rc') :
    ∃ Q : Matrix (Fin n) (Fin n) ℝ, noiseCov P Rp V Rc = some (.of Q) ∧ noiseCov P' Rp' V' Rc' = some (.of (u.T * Q * u.Tᵀ)) := by
  obtain ⟨P, P', rfl, rfl, hP⟩ := hP
  obtain ⟨Rp, rfl, rfl⟩ := hRp
  obtain ⟨V, V', rfl, rfl, hV⟩ := hV
  obtain ⟨Rc, rfl, rfl⟩ := hRc
  refine ⟨_, noiseCov_of _ _ _ _, ?_⟩
  rw [noiseCov_of]
  have key : ∀ {a : Nat} (J J' : Matrix (Fin n) (Fin a) ℝ) (B : Matrix (Fin a) (Fin a) ℝ) (Q : Matrix (Fin a) (Fin a) ℝ),
      J' * B = u.T * J → J' * (B * Q * Bᵀ) * J'ᵀ = u.T * (J * Q * Jᵀ) * u.Tᵀ := by
    intro a J J' B Q h
    calc J' * (B * Q * Bᵀ) * J'ᵀ = (J' * B) * Q * (J' * B)ᵀ := by
          rw [Matrix.transpose_mul]; simp only [Matrix.mul_assoc]
      _ = _ := by rw [h, Matrix.transpose_mul]; simp only [Matrix.mul_assoc]
  rw [key _ _ _ _ hP, key _ _ _ _ hV]
  simp only [Matrix.mul_add, Matrix.add_mul]

theorem ukfPredict_units (hT : Units.LowerPos u.T) (hsc : u.SysClassIn u.NonlinSysIn sc sc') {s s' : Sys NonlinSysData X}
    (hs : u.SysIn u.NonlinSysIn s s') {sp : SigmaParams} (hsp : SigmaAdmissible n sp) {x x' v v' : DVec} {c c' : DMat}
    (hx : u.StateIn x c x' c') (hc : c.PD) (hv : Units.VecIn u.U v v') (junk junk' : Nat → Nat → ℝ) (dt : T)
    {R : Z → Z' → Prop} {b : Sys NonlinSysData X → Z} {b' : Sys NonlinSysData X → Z'}
    (hb : ∀ s s', u.SysIn u.NonlinSysIn s s' → R (b s) (b' s')) :
    OptRel False (fun r q => u.StateIn r.1 r.2.1 q.1 q.2.1 ∧ R r.2.2 q.2.2) (ukfPredict eigenLlt junk sc sp s x c v dt b)
      (ukfPredict eigenLlt junk' sc' sp s' x' c' v' dt b') := by
  obtain ⟨lam, d, hlam, hd, rfl⟩ := hsp.elim
  obtain ⟨⟨x, rfl, rfl⟩, M, rfl, rfl⟩ := hx
  obtain ⟨v, rfl, rfl⟩ := hv
  rw [DMat.PD_of] at hc
  obtain ⟨L, e1, e2⟩ := eigenLlt_units hT hc hlam
  unfold ukfPredict
  simp only [Option.bind_eq_bind, hs.states, hs.states', DMat.smul_of]
  refine OptRel.peel e1 e2 ?_
  refine OptRel.bind (sysUpdate_units hsc hs x v dt) fun s s' hs => ?_
  obtain ⟨⟨g, e3, e4⟩, _⟩ := hs.der
  rw [e3, e4, hs.states, hs.states', uninit_pts, uninit_pts]
  refine OptRel.peel (setCol_pts _ (by omega) _) (setCol_pts _ (by omega) _) ?_
  refine OptRel.bind (ukfPredictLoop_units hsc L x v dt n 0 s s' _ _ (by omega) hs fun j hj => ?_) ?_
  · have : j = 0 := by unfold written at hj; omega
    subst this; simp
  · rintro ⟨s, q⟩ ⟨s', q'⟩ ⟨hs, a, h1, h2⟩
    dsimp only at h1 h2 hs ⊢
    subst h1 h2
    refine OptRel.peel (b := .of (u.T *ᵥ mean n lam a)) (by rw [hsc.ops.wsum]; exact weightedSum_pts _ _)
      (by rw [hsc.ops'.wsum, ← mean_mulVec]; exact weightedSum_pts _ _) ?_
    obtain ⟨Q, h3, h4⟩ := noiseCov_units hs.P hs.Rp hs.V hs.Rc
    refine OptRel.peel h3 h4 ?_
    refine OptRel.peel (covLoop_of' (wc n lam d) _ (fun i => a i - mean n lam a) (fun i => a i - mean n lam a) ?_ _)
      (covLoop_of' (wc n lam d) _ (fun i => u.T *ᵥ a i - u.T *ᵥ mean n lam a) (fun i => u.T *ᵥ a i - u.T *ᵥ mean n lam a) ?_ _) ?_
    · intro i hi
      simp only [col_pts a hi, Option.bind_some, hsc.ops.sub]
      show (DVec.sub (.of (a i)) (.of (mean n lam a))).bind _ = _
      rw [DVec.sub_of]; rfl
    · intro i hi
      simp only [col_pts _ hi, Option.bind_some, hsc.ops'.sub, DVec.sub_of]
    · refine ⟨⟨⟨_, rfl, rfl⟩, _, rfl, ?_⟩, hb _ _ hs⟩
      dsimp only
      rw [DMat.of_inj, Matrix.mul_add, Matrix.add_mul]
      congr 1
      exact cross_mulVec (n := n) lam d u.T u.T a a _ _

end Predict

/-! ### Correction -/

section Correct
variable {u : Units n m p kd} {κ : K} {mc mc' : MeasClass T NonlinMeasData Y}

theorem measUpdate_units (hmc : u.MeasClassIn κ (u.NonlinMeasIn κ) mc mc') {s s' : Meas NonlinMeasData Y}
    (hs : u.MeasIn κ (u.NonlinMeasIn κ) s s') (x : Fin n → ℝ) (dt : T) :
    OptRel False (u.MeasIn κ (u.NonlinMeasIn κ)) (s.update mc (.of x) dt) (s'.update mc' (.of (u.T *ᵥ x)) dt) := by
  unfold Meas.update
  rw [if_pos hs.states.symm, if_pos hs.states'.symm]
  exact OptRel.of_units (hmc.update s s' x dt hs)

theorem ukfCorrectLoop_units {sc sc' : SysClass T NonlinSysData X} (hso : sc.PlainOps) (hso' : sc'.PlainOps)
    (hmc : u.MeasClassIn κ (u.NonlinMeasIn κ) mc mc') {s s' : Sys NonlinSysData X} (hs : s.stateSize = n) (hs' : s'.stateSize = n)
    (L : Matrix (Fin n) (Fin n) ℝ) (x : Fin n → ℝ) (dt : T) :
    ∀ (fuel i : Nat) (r r' : Meas NonlinMeasData Y) (q q' : Nat → Fin n → ℝ) (y y' : Nat → Fin (kd κ) → ℝ), i + fuel = n →
      u.MeasIn κ (u.NonlinMeasIn κ) r r' → (∀ j, written n i j → q' j = u.T *ᵥ q j) → (∀ j, written n i j → y' j = u.D κ *ᵥ y j) →
      OptRel False (fun a b => u.MeasIn κ (u.NonlinMeasIn κ) a.1 b.1 ∧
          (∃ q : Nat → Fin n → ℝ, a.2.1 = ptsOf (2 * n + 1) q ∧ b.2.1 = ptsOf (2 * n + 1) (fun j => u.T *ᵥ q j)) ∧
          ∃ y : Nat → Fin (kd κ) → ℝ, a.2.2 = ptsOf (2 * n + 1) y ∧ b.2.2 = ptsOf (2 * n + 1) (fun j => u.D κ *ᵥ y j))
        (ukfCorrectLoop sc mc s (.of L) (.of x) dt fuel i r (ptsOf (2 * n + 1) q) (ptsOf (2 * n + 1) y))
        (ukfCorrectLoop sc' mc' s' (.of (u.T * L)) (.of (u.T *ᵥ x)) dt fuel i r' (ptsOf (2 * n + 1) q') (ptsOf (2 * n + 1) y')) := by
  intro fuel
  induction fuel with
  | zero =>
    intro i r r' q q' y y' hi hr hq hy
    have : i = n := by omega
    subst this
    exact ⟨hr, ⟨q, rfl, pts_of_written hq⟩, y, rfl, pts_of_written hy⟩
  | succ fuel ih =>
    intro i r r' q q' y y' hi hr hq hy
    unfold ukfCorrectLoop
    simp only [Option.bind_eq_bind, hs, hs']
    refine OptRel.peel (col_of L (by omega)) (col_of (u.T * L) (by omega)) ?_
    rw [colsOf_unitsMul]
    refine OptRel.peel (by rw [hso.add, DVec.add_of]) (by rw [hso'.add, DVec.add_of, ← mulVec_add]) ?_
    refine OptRel.peel (setCol_pts q (by omega) _) (setCol_pts q' (by omega) _) ?_
    refine OptRel.peel (by rw [col_pts _ (by omega), Function.update_self]) (by rw [col_pts _ (by omega), Function.update_self]) ?_
    refine OptRel.bind (measUpdate_units hmc hr _ dt) fun r r' hr => ?_
    obtain ⟨⟨g, e1, e2⟩, _⟩ := hr.der
    rw [e1, e2]
    refine OptRel.peel (setCol_pts y (by omega) _) (setCol_pts y' (by omega) _) ?_
    refine OptRel.peel (by rw [hso.sub, DVec.sub_of]) (by rw [hso'.sub, DVec.sub_of, ← mulVec_sub]) ?_
    refine OptRel.peel (setCol_pts _ (by omega) _) (setCol_pts _ (by omega) _) ?_
    refine OptRel.peel (by rw [col_pts _ (by omega), Function.update_self]) (by rw [col_pts _ (by omega), Function.update_self]) ?_
    refine OptRel.bind (measUpdate_units hmc hr _ dt) fun r r' hr => ?_
    obtain ⟨⟨g', e1', e2'⟩, _⟩ := hr.der
    rw [e1', e2']
    refine OptRel.peel (setCol_pts _ (by omega) _) (setCol_pts _ (by omega) _) ?_
    refine ih (i + 1) r r' _ _ _ _ (by omega) hr (fun j hj => ?_) (fun j hj => ?_)
    · exact update_written hq _ _ j hj
    · exact update_written hy _ _ j hj

theorem inverse_units {D S : Matrix (Fin k) (Fin k) ℝ} (hD : IsUnit D.det) (hS : IsUnit S.det) :
    (D * S * Dᵀ)⁻¹ = Dᵀ⁻¹ * S⁻¹ * D⁻¹ ∧ IsUnit (D * S * Dᵀ).det := by
  refine ⟨by rw [Matrix.mul_inv_rev, Matrix.mul_inv_rev, Matrix.mul_assoc], ?_⟩
  rw [det_mul, det_mul, det_transpose]
  exact (hD.mul hS).mul hD

set_option maxHeartbeats 1600000 in
theorem ukfCorrect_units (hT : Units.LowerPos u.T) {sc sc' : SysClass T NonlinSysData X} (hso : sc.PlainOps) (hso' : sc'.PlainOps)
    (hmc : u.MeasClassIn κ (u.NonlinMeasIn κ) mc mc') {s s' : Sys NonlinSysData X} (hs : s.stateSize = n) (hs' : s'.stateSize = n)
    {r r' : Meas NonlinMeasData Y} (hr : u.MeasIn κ (u.NonlinMeasIn κ) r r') {sp : SigmaParams} (hsp : SigmaAdmissible n sp)
    {x x' z z' : DVec} {c c' : DMat} (hx : u.StateIn x c x' c') (hc : c.PD) (hz : Units.VecIn (u.D κ) z z')
    (junk junk' : Nat → Nat → ℝ) (dt : T) {R : Z → Z' → Prop} {b : Meas NonlinMeasData Y → Z} {b' : Meas NonlinMeasData Y → Z'}
    (hb : ∀ s s', u.MeasIn κ (u.NonlinMeasIn κ) s s' → R (b s) (b' s')) :
    OptRel False (fun r q => u.StateIn r.1 r.2.1 q.1 q.2.1 ∧ R r.2.2 q.2.2) (ukfCorrect eigenLlt junk sc mc sp s r x c z dt b)
      (ukfCorrect eigenLlt junk' sc' mc' sp s' r' x' c' z' dt b') := by
  obtain ⟨lam, d, hlam, hd, rfl⟩ := hsp.elim
  obtain ⟨⟨x, rfl, rfl⟩, M, rfl, rfl⟩ := hx
  obtain ⟨z, rfl, rfl⟩ := hz
  rw [DMat.PD_of] at hc
  obtain ⟨L, e1, e2⟩ := eigenLlt_units hT hc hlam
  unfold ukfCorrect Meas.measurementSize
  simp (maxSteps := 1000000) only [Option.bind_eq_bind, hs, hs', hr.meas, hr.meas', DMat.smul_of]
  refine OptRel.peel e1 e2 ?_
  rw [uninit_pts, uninit_pts, uninit_pts, uninit_pts]
  refine OptRel.peel (setCol_pts _ (by omega) _) (setCol_pts _ (by omega) _) ?_
  refine OptRel.bind (measUpdate_units hmc hr x dt) fun r r' hr => ?_
  obtain ⟨⟨g, e3, e4⟩, _⟩ := hr.der
  rw [e3, e4]
  refine OptRel.peel (setCol_pts _ (by omega) _) (setCol_pts _ (by omega) _) ?_
  refine OptRel.bind (ukfCorrectLoop_units hso hso' hmc hs hs' L x dt n 0 r r' _ _ _ _ (by omega) hr (fun j hj => ?_) fun j hj => ?_) ?_
  · have : j = 0 := by unfold written at hj; omega
    subst this; simp
  · have : j = 0 := by unfold written at hj; omega
    subst this; simp
  · rintro ⟨r, q, o⟩ ⟨r', q', o'⟩ ⟨hr, ⟨a, h1, h2⟩, y, h3, h4⟩
    dsimp only at h1 h2 h3 h4 hr ⊢
    subst h1 h2 h3 h4
    obtain ⟨Q, c1, c2⟩ := hr.cov
    have E : mean n lam (fun j => u.D κ *ᵥ y j) = u.D κ *ᵥ mean n lam y := mean_mulVec _ _ _
    refine OptRel.peel (a := .of (mean n lam y)) (b := .of (u.D κ *ᵥ mean n lam y)) (by rw [hmc.ops.wsum]; exact weightedSum_pts _ _)
      (by rw [hmc.ops'.wsum, ← E]; exact weightedSum_pts _ _) ?_
    rw [c1, c2, hr.states, hr.meas, hr.states', hr.meas', DMat.zero_of]
    refine OptRel.peel (a := .of (Q + cross n lam d y y (mean n lam y) (mean n lam y)))
      (b := .of (u.D κ * (Q + cross n lam d y y (mean n lam y) (mean n lam y)) * (u.D κ)ᵀ)) ?_ ?_ ?_
    · refine covLoop_of' (wc n lam d) _ (fun i => y i - mean n lam y) (fun i => y i - mean n lam y) (fun i hi => ?_) _
      simp only [col_pts y hi, Option.bind_some, hmc.ops.sub, DVec.sub_of]
    · rw [Matrix.mul_add, Matrix.add_mul, ← cross_mulVec]
      refine covLoop_of' (wc n lam d) _ (fun i => u.D κ *ᵥ y i - u.D κ *ᵥ mean n lam y)
        (fun i => u.D κ *ᵥ y i - u.D κ *ᵥ mean n lam y) (fun i hi => ?_) _
      simp only [col_pts _ hi, Option.bind_some, hmc.ops'.sub, DVec.sub_of]
    generalize Q + cross n lam d y y (mean n lam y) (mean n lam y) = S
    have X1 := covLoop_of' (N := 2 * n + 1) (wc n lam d) (fun i => ((ptsOf (2 * n + 1) a).col? i).bind fun p =>
        ((ptsOf (2 * n + 1) a).col? 0).bind fun p0 => (sc.sub s p p0).bind fun dx =>
        ((ptsOf (2 * n + 1) y).col? i).bind fun c =>
        (mc.sub r c (.of (mean n lam y))).bind fun dz => some (dx, dz))
        (fun i => a i - a 0) (fun i => y i - mean n lam y) (by
          intro i hi
          simp only [col_pts _ hi, col_pts _ (show 0 < 2 * n + 1 by omega), Option.bind_some, hmc.ops.sub, hso.sub, DVec.sub_of]) 0
    have X2 := covLoop_of' (N := 2 * n + 1) (wc n lam d) (fun i => ((ptsOf (2 * n + 1) (fun j => u.T *ᵥ a j)).col? i).bind fun p =>
        ((ptsOf (2 * n + 1) (fun j => u.T *ᵥ a j)).col? 0).bind fun p0 => (sc'.sub s' p p0).bind fun dx =>
        ((ptsOf (2 * n + 1) (fun j => u.D κ *ᵥ y j)).col? i).bind fun c =>
        (mc'.sub r' c (.of (u.D κ *ᵥ mean n lam y))).bind fun dz => some (dx, dz))
        (fun i => u.T *ᵥ a i - u.T *ᵥ a 0) (fun i => u.D κ *ᵥ y i - u.D κ *ᵥ mean n lam y) (by
          intro i hi
          simp only [col_pts _ hi, col_pts _ (show 0 < 2 * n + 1 by omega), Option.bind_some, hmc.ops'.sub, hso'.sub, DVec.sub_of]) 0
    rw [zero_add] at X1 X2
    refine OptRel.peel X1 X2 ?_
    have hX := cross_mulVec (n := n) lam d u.T (u.D κ) a y (a 0) (mean n lam y)
    unfold cross at hX
    rw [hX]
    generalize ∑ j ∈ Finset.range (2 * n + 1), wc n lam d j • vecMulVec (a j - a 0) (y j - mean n lam y) = C
    by_cases hS : IsUnit S.det
    · obtain ⟨i1, i2⟩ := inverse_units (u.hD κ) hS
      refine OptRel.peel (DMat.inverse_of _ hS) (DMat.inverse_of _ i2) ?_
      simp only [DMat.mul_of, hmc.ops.sub, hmc.ops'.sub, DVec.sub_of, DMat.mulVec_of, hso.add, hso'.add, DVec.add_of,
        DMat.transpose_of, DMat.sub_of, Option.bind_some]
      have hDt : IsUnit (u.D κ)ᵀ.det := by rw [det_transpose]; exact u.hD κ
      have hG : u.T * C * (u.D κ)ᵀ * (u.D κ * S * (u.D κ)ᵀ)⁻¹ = u.T * (C * S⁻¹) * (u.D κ)⁻¹ := by
        rw [i1]
        calc u.T * C * (u.D κ)ᵀ * ((u.D κ)ᵀ⁻¹ * S⁻¹ * (u.D κ)⁻¹)
            = u.T * C * ((u.D κ)ᵀ * (u.D κ)ᵀ⁻¹) * S⁻¹ * (u.D κ)⁻¹ := by simp only [Matrix.mul_assoc]
          _ = _ := by rw [Matrix.mul_nonsing_inv _ hDt, Matrix.mul_one]; simp only [Matrix.mul_assoc]
      rw [hG]
      refine ⟨⟨⟨_, rfl, ?_⟩, _, rfl, ?_⟩, hb _ _ hr⟩
      · dsimp only
        rw [DVec.of_inj, ← mulVec_sub, mulVec_mulVec, Matrix.mul_assoc, Matrix.nonsing_inv_mul _ (u.hD κ), Matrix.mul_one,
          mulVec_add, ← mulVec_mulVec]
      · dsimp only
        rw [DMat.of_inj, Matrix.mul_sub, Matrix.sub_mul]
        congr 1
        calc u.T * (C * S⁻¹) * (u.D κ)⁻¹ * (u.D κ * S * (u.D κ)ᵀ) * (u.T * (C * S⁻¹) * (u.D κ)⁻¹)ᵀ
            = u.T * (C * S⁻¹) * ((u.D κ)⁻¹ * u.D κ) * S * ((u.D κ)⁻¹ * u.D κ)ᵀ * (u.T * (C * S⁻¹))ᵀ := by
              simp only [transpose_mul, Matrix.mul_assoc]
          _ = _ := by
              rw [Matrix.nonsing_inv_mul _ (u.hD κ), transpose_one, Matrix.mul_one, Matrix.mul_one]
              simp only [transpose_mul, Matrix.mul_assoc]
    · have hS' : ¬ IsUnit (u.D κ * S * (u.D κ)ᵀ).det := fun h => by
        rw [det_mul, det_mul, IsUnit.mul_iff, IsUnit.mul_iff] at h
        exact hS h.1.2
      rw [DMat.inverse_singular _ hS, DMat.inverse_singular _ hS']
      exact fun h => h

end Correct

end StateEstimation
