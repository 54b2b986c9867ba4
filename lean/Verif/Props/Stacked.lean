import Verif.Props.Kalman
import Mathlib.Data.Matrix.Block

/-!
# C77: measurements taken at the same time may be applied one sensor after the other or all in one stacked measurement
-/

namespace StateEstimation
namespace Props

open Matrix Kalman Examples

/-! ## Specification -/

/-- Specification: the measurement `z` with matrix `C` and covariance `R` is the measurements `zs i` with `Cs i`, `Rs i`
stacked: its entries are theirs, arranged in any order given by `e`, and the noises of different ones are uncorrelated. -/
structure StackOf {N n k : Nat} {d : Fin N → Nat} (e : Fin k ≃ Σ i, Fin (d i)) (zs : (i : Fin N) → Fin (d i) → ℝ)
    (Cs : (i : Fin N) → Matrix (Fin (d i)) (Fin n) ℝ) (Rs : (i : Fin N) → Matrix (Fin (d i)) (Fin (d i)) ℝ)
    (z : Fin k → ℝ) (C : Matrix (Fin k) (Fin n) ℝ) (R : Matrix (Fin k) (Fin k) ℝ) : Prop where
  z : ∀ i a, z (e.symm ⟨i, a⟩) = zs i a
  C : ∀ i a l, C (e.symm ⟨i, a⟩) l = Cs i a l
  R_same : ∀ i a b, R (e.symm ⟨i, a⟩) (e.symm ⟨i, b⟩) = Rs i a b
  R_other : ∀ i j a b, i ≠ j → R (e.symm ⟨i, a⟩) (e.symm ⟨j, b⟩) = 0

/-! ## Block matrices -/

section Blocks
variable {N n : Nat} {d : Fin N → Nat}

/-- All rows one below the other. -/
def rowsOf (Cs : (i : Fin N) → Matrix (Fin (d i)) (Fin n) ℝ) : Matrix (Σ i, Fin (d i)) (Fin n) ℝ := fun p l => Cs p.1 p.2 l

theorem blockDiag_mulVec (A : (i : Fin N) → Matrix (Fin (d i)) (Fin (d i)) ℝ) (v : (Σ i, Fin (d i)) → ℝ) (i : Fin N) (a : Fin (d i)) :
    (blockDiagonal' A *ᵥ v) ⟨i, a⟩ = (A i *ᵥ fun b => v ⟨i, b⟩) a := by
  show ∑ p : (Σ i, Fin (d i)), blockDiagonal' A ⟨i, a⟩ p * v p = ∑ b, A i a b * v ⟨i, b⟩
  rw [Fintype.sum_sigma]
  rw [Finset.sum_eq_single i]
  · exact Finset.sum_congr rfl fun b _ => by rw [blockDiagonal'_apply_eq]
  · intro j _ hj
    exact Finset.sum_eq_zero fun b _ => by rw [blockDiagonal'_apply_ne _ _ _ (Ne.symm hj), zero_mul]
  · intro h; exact absurd (Finset.mem_univ _) h

theorem rowsOf_transpose_mulVec (Cs : (i : Fin N) → Matrix (Fin (d i)) (Fin n) ℝ) (v : (Σ i, Fin (d i)) → ℝ) :
    (rowsOf Cs)ᵀ *ᵥ v = ∑ i, (Cs i)ᵀ *ᵥ fun b => v ⟨i, b⟩ := by
  funext l
  rw [Finset.sum_apply]
  show ∑ p : (Σ i, Fin (d i)), rowsOf Cs p l * v p = ∑ i, ∑ b, Cs i b l * v ⟨i, b⟩
  rw [Fintype.sum_sigma]
  rfl

theorem rowsOf_mulVec (Cs : (i : Fin N) → Matrix (Fin (d i)) (Fin n) ℝ) (v : Fin n → ℝ) (i : Fin N) (a : Fin (d i)) :
    (rowsOf Cs *ᵥ v) ⟨i, a⟩ = (Cs i *ᵥ v) a := rfl

theorem blockDiag_inv {Rs : (i : Fin N) → Matrix (Fin (d i)) (Fin (d i)) ℝ} (h : ∀ i, IsUnit (Rs i).det) :
    (blockDiagonal' Rs)⁻¹ = blockDiagonal' fun i => (Rs i)⁻¹ := by
  refine Matrix.inv_eq_left_inv ?_
  rw [← blockDiagonal'_mul]
  have : (fun k => (Rs k)⁻¹ * Rs k) = fun k => (1 : Matrix (Fin (d k)) (Fin (d k)) ℝ) := by
    funext k; exact Matrix.nonsing_inv_mul _ (h k)
  rw [this]
  exact blockDiagonal'_one

theorem blockDiag_posDef {Rs : (i : Fin N) → Matrix (Fin (d i)) (Fin (d i)) ℝ} (h : ∀ i, (Rs i).PosDef) :
    (blockDiagonal' Rs).PosDef := by
  rw [posDef_iff_dotProduct_mulVec]
  refine ⟨?_, ?_⟩
  · unfold Matrix.IsHermitian
    rw [blockDiagonal'_conjTranspose]
    congr 1
    funext i
    exact (h i).isHermitian
  · intro x hx
    have e : star x ⬝ᵥ (blockDiagonal' Rs *ᵥ x) = ∑ i, (star fun b => x ⟨i, b⟩) ⬝ᵥ (Rs i *ᵥ fun b => x ⟨i, b⟩) := by
      show ∑ p : (Σ i, Fin (d i)), star x p * (blockDiagonal' Rs *ᵥ x) p = _
      rw [Fintype.sum_sigma]
      refine Finset.sum_congr rfl fun i _ => ?_
      refine Finset.sum_congr rfl fun a _ => ?_
      rw [blockDiag_mulVec]; rfl
    rw [e]
    obtain ⟨⟨i, a⟩, hia⟩ := Function.ne_iff.mp hx
    refine Finset.sum_pos' (fun j _ => ((h j).posSemidef).dotProduct_mulVec_nonneg _) ⟨i, Finset.mem_univ i, ?_⟩
    exact (h i).dotProduct_mulVec_pos fun h0 => hia (congrFun h0 a)

end Blocks

section Stack
variable {N n k : Nat} {d : Fin N → Nat} {e : Fin k ≃ Σ i, Fin (d i)} {zs : (i : Fin N) → Fin (d i) → ℝ}
  {Cs : (i : Fin N) → Matrix (Fin (d i)) (Fin n) ℝ} {Rs : (i : Fin N) → Matrix (Fin (d i)) (Fin (d i)) ℝ}
  {z : Fin k → ℝ} {C : Matrix (Fin k) (Fin n) ℝ} {R : Matrix (Fin k) (Fin k) ℝ}

theorem StackOf.R_eq (h : StackOf e zs Cs Rs z C R) : R = (blockDiagonal' Rs).submatrix e e := by
  ext a b
  show R a b = blockDiagonal' Rs (e a) (e b)
  have h1 := h.R_same
  have h2 := h.R_other
  obtain ⟨p, rfl⟩ := e.symm.surjective a
  obtain ⟨q, rfl⟩ := e.symm.surjective b
  rw [e.apply_symm_apply, e.apply_symm_apply]
  obtain ⟨i, a⟩ := p
  obtain ⟨j, b⟩ := q
  by_cases hij : i = j
  · subst hij
    rw [h1, blockDiagonal'_apply_eq]
  · rw [h2 _ _ _ _ hij, blockDiagonal'_apply_ne _ _ _ hij]

theorem StackOf.C_eq (h : StackOf e zs Cs Rs z C R) : C = (rowsOf Cs).submatrix e id := by
  ext a l
  obtain ⟨p, rfl⟩ := e.symm.surjective a
  show _ = rowsOf Cs (e (e.symm p)) l
  rw [e.apply_symm_apply]
  exact h.C p.1 p.2 l

theorem StackOf.z_eq (h : StackOf e zs Cs Rs z C R) : z = (fun p : (Σ i, Fin (d i)) => zs p.1 p.2) ∘ e := by
  funext a
  obtain ⟨p, rfl⟩ := e.symm.surjective a
  show _ = zs (e (e.symm p)).1 (e (e.symm p)).2
  rw [h.z p.1 p.2, e.apply_symm_apply]

theorem StackOf.posDef (h : StackOf e zs Cs Rs z C R) (hR : ∀ i, (Rs i).PosDef) : R.PosDef := by
  rw [h.R_eq]
  exact (blockDiag_posDef hR).submatrix e.injective

theorem StackOf.weighted (h : StackOf e zs Cs Rs z C R) (hR : ∀ i, (Rs i).PosDef) (w : (Σ i, Fin (d i)) → ℝ) :
    (Cᵀ * R⁻¹) *ᵥ (w ∘ e) = ∑ i, ((Cs i)ᵀ * (Rs i)⁻¹) *ᵥ fun b => w ⟨i, b⟩ := by
  have hdet : ∀ i, IsUnit (Rs i).det := fun i => pd_isUnit_det (hR i)
  have e1 : Cᵀ * R⁻¹ = ((rowsOf Cs)ᵀ * (blockDiagonal' Rs)⁻¹).submatrix id e := by
    rw [h.C_eq, h.R_eq, Matrix.inv_submatrix_equiv, Matrix.transpose_submatrix, Matrix.submatrix_mul_equiv]
  rw [e1, Matrix.submatrix_mulVec_equiv]
  have e2 : (w ∘ e) ∘ e.symm = w := by funext p; simp
  rw [e2, Function.comp_id, ← Matrix.mulVec_mulVec, blockDiag_inv hdet, rowsOf_transpose_mulVec]
  refine Finset.sum_congr rfl fun i _ => ?_
  rw [← Matrix.mulVec_mulVec]
  congr 1
  funext a
  exact blockDiag_mulVec _ _ i a

theorem StackOf.info_sum (h : StackOf e zs Cs Rs z C R) (hR : ∀ i, (Rs i).PosDef) :
    info C R = ∑ i, info (Cs i) (Rs i) := by
  refine Matrix.ext_of_mulVec_single fun l => ?_
  have e1 : info C R *ᵥ Pi.single l 1 = (Cᵀ * R⁻¹) *ᵥ ((rowsOf Cs *ᵥ Pi.single l 1) ∘ e) := by
    unfold Kalman.info
    rw [← Matrix.mulVec_mulVec]
    congr 1
    rw [h.C_eq]; rfl
  rw [e1, h.weighted hR, Matrix.sum_mulVec]
  refine Finset.sum_congr rfl fun i _ => ?_
  unfold Kalman.info
  rw [← Matrix.mulVec_mulVec (Pi.single l 1) ((Cs i)ᵀ * (Rs i)⁻¹) (Cs i)]
  rfl

end Stack

/-! ## The theorem -/

section Step
variable {T K X Y : Type} [LinearOrder T] [ExactTime T] [DecidableEq K] {n m : Nat}

theorem sequential {sc : SysClass T LinSysData X} {mc : K → MeasClass T LinMeasData Y} (sort : List (FilterInput T DVec DMat K) → List (FilterInput T DVec DMat K))
    (hsc : SysContract LinSysData.Sized sc) (hmc : ∀ j, MeasContract LinMeasData.Sized (mc j))
    (hso : sc.PlainOps) (hmo : ∀ j, (mc j).PlainOps) (kd : K → Nat) (C : (j : K) → Matrix (Fin (kd j)) (Fin n) ℝ)
    (hC : ∀ j s x dt s', s.Sized LinMeasData.Sized n (kd j) → (mc j).myUpdate s x dt = some s' → s'.der.C = .of (C j))
    {N : Nat} (js : Fin N → K) (zs : (i : Fin N) → Fin (kd (js i)) → ℝ)
    (Rs : (i : Fin N) → Matrix (Fin (kd (js i))) (Fin (kd (js i))) ℝ) (hR : ∀ i, (Rs i).PosDef) (t : T) :
    ∀ (l : List (Fin N)) (f : Filter T DVec DMat K (Env K LinSysData X LinMeasData Y)) (x : Fin n → ℝ)
      (P : Matrix (Fin n) (Fin n) ℝ) (_ : f.getState = .of x) (_ : f.getCovariance = .of P) (_ : P.PosSemidef)
      (_ : f.getStateTime = t)
      (_ : f.env.sys.Sized LinSysData.Sized n m) (_ : ∀ j, (f.env.meas j).Sized LinMeasData.Sized n (kd j))
      (_ : ∀ j, (f.env.meas j).fm.checkStationary = false),
      ∃ g Q, f.run (kfPlant sc mc) sort (l.map fun i => Op.correct (.of (zs i)) (.of (Rs i)) t (some (js i))) = some g ∧
        Q * (1 + P * (l.map fun i => Kalman.info (C (js i)) (Rs i)).sum) = 1 ∧
        g.getState = .of (Q *ᵥ (x + P *ᵥ (l.map fun i => ((C (js i))ᵀ * (Rs i)⁻¹) *ᵥ zs i).sum)) ∧
        g.getCovariance = .of (Q * P) ∧ g.getStateTime = t := by
  intro l
  induction l with
  | nil =>
    intro f x P hx hP _ ht _ _ _
    refine ⟨f, 1, rfl, ?_, ?_, ?_, ht⟩
    · simp
    · simpa using hx
    · simpa using hP
  | cons i l ih =>
    intro f x P hx hP hPsd ht hs hm hst
    obtain ⟨g₁, p1, p2, p3, p4, p5, p6, p7⟩ :=
      kf_correct_keeps hsc hmc hso hmo kd C hC f (js i) (zs i) (Rs i) (hR i) x P hx hP hPsd hs hm hst
    obtain ⟨g, Q, q1, q2, q3, q4, q5⟩ := ih g₁ _ _ p2 p3 (post_psd hPsd _ (hR i)) (p4.trans ht) p5 p6 p7
    have hRu := pd_isUnit_det (hR i)
    have hSu := pd_isUnit_det (innov_pd hPsd (C (js i)) (hR i))
    have hsh := shrink_mul hSu hRu
    refine ⟨g, Q * (1 - gain P (C (js i)) (Rs i) * C (js i)), ?_, ?_, ?_, ?_, q5⟩
    · rw [ht] at p1
      rw [List.map_cons, Filter.run]
      have hstep : f.step (kfPlant sc mc) sort (.correct (.of (zs i)) (.of (Rs i)) t (some (js i))) = some g₁ := p1
      rw [hstep]; exact q1
    · rw [List.map_cons, List.sum_cons, Matrix.mul_assoc, Matrix.mul_add P, ← add_assoc, Matrix.mul_add _ (1 + _), hsh,
        ← Matrix.mul_assoc _ P]
      exact q2
    · rw [q3, postState_eq hSu hRu, List.map_cons, List.sum_cons]
      congr 1
      rw [← Matrix.mulVec_mulVec _ Q]
      congr 1
      show _ + ((1 - gain P (C (js i)) (Rs i) * C (js i)) * P) *ᵥ _ = _
      rw [← Matrix.mulVec_mulVec _ (1 - gain P (C (js i)) (Rs i) * C (js i)) P, ← Matrix.mulVec_add, Matrix.mulVec_add P, add_assoc]
    · rw [q4, Matrix.mul_assoc]; rfl

/-- **C77.**  Applying any number of measurements taken at the filter's current time one after the other — of any sensors,
in any order, several of one sensor included — gives the same state, covariance and time as applying the one measurement in
which they are stacked. -/
theorem C77_sequential_is_stacked {sc : SysClass T LinSysData X} {mc : K → MeasClass T LinMeasData Y}
    (sort : List (FilterInput T DVec DMat K) → List (FilterInput T DVec DMat K))
    (hsc : SysContract LinSysData.Sized sc) (hmc : ∀ j, MeasContract LinMeasData.Sized (mc j))
    (hso : sc.PlainOps) (hmo : ∀ j, (mc j).PlainOps) (kd : K → Nat)
    (f : Filter T DVec DMat K (Env K LinSysData X LinMeasData Y))
    (hs : f.env.sys.Sized LinSysData.Sized n m) (hm : ∀ j, (f.env.meas j).Sized LinMeasData.Sized n (kd j))
    {x : Fin n → ℝ} {P : Matrix (Fin n) (Fin n) ℝ} (hx : f.getState = .of x) (hP : f.getCovariance = .of P)
    (hPsd : P.PosSemidef) (C : (j : K) → Matrix (Fin (kd j)) (Fin n) ℝ)
    (hC : ∀ j s x dt s', s.Sized LinMeasData.Sized n (kd j) → (mc j).myUpdate s x dt = some s' → s'.der.C = .of (C j))
    (hst : ∀ j, (f.env.meas j).fm.checkStationary = false)
    {N : Nat} (js : Fin N → K) (zs : (i : Fin N) → Fin (kd (js i)) → ℝ)
    (Rs : (i : Fin N) → Matrix (Fin (kd (js i))) (Fin (kd (js i))) ℝ) (hR : ∀ i, (Rs i).PosDef)
    (s : K) (z : Fin (kd s) → ℝ) (R : Matrix (Fin (kd s)) (Fin (kd s)) ℝ) (e : Fin (kd s) ≃ Σ i, Fin (kd (js i)))
    (hstack : StackOf e zs (fun i => C (js i)) Rs z (C s) R) :
    ∃ g h, f.run (kfPlant sc mc) sort
          (List.ofFn fun i => Op.correct (.of (zs i)) (.of (Rs i)) f.getStateTime (some (js i))) = some g ∧
      f.correct (kfPlant sc mc) (.of z) (.of R) f.getStateTime (some s) = some h ∧
      g.getState = h.getState ∧ g.getCovariance = h.getCovariance ∧ g.getStateTime = h.getStateTime := by
  obtain ⟨g, Q, g1, g2, g3, g4, g5⟩ := sequential sort hsc hmc hso hmo kd C hC js zs Rs hR f.getStateTime (List.finRange N) f x P
    hx hP hPsd rfl hs hm hst
  have hRp := hstack.posDef hR
  obtain ⟨h, h1, h2, h3, h4, _⟩ := kf_correct_keeps hsc hmc hso hmo kd C hC f s z R hRp x P hx hP hPsd hs hm hst
  have hRu := pd_isUnit_det hRp
  have hSu := pd_isUnit_det (innov_pd hPsd (C s) hRp)
  have hsh := shrink_mul hSu hRu
  rw [hstack.info_sum hR] at hsh
  have hsumM : ((List.finRange N).map fun i => Kalman.info (C (js i)) (Rs i)).sum = ∑ i, Kalman.info (C (js i)) (Rs i) := by
    rw [← List.ofFn_eq_map, List.sum_ofFn]
  have hsumb : ((List.finRange N).map fun i => ((C (js i))ᵀ * (Rs i)⁻¹) *ᵥ zs i).sum = ((C s)ᵀ * R⁻¹) *ᵥ z := by
    rw [← List.ofFn_eq_map, List.sum_ofFn, hstack.z_eq, hstack.weighted hR]
  rw [hsumM] at g2
  have hQ : Q = 1 - gain P (C s) R * C s := by
    rw [← Matrix.inv_eq_left_inv g2, ← Matrix.inv_eq_left_inv hsh]
  refine ⟨g, h, ?_, h1, ?_, ?_, by rw [g5, h4]⟩
  · rw [List.ofFn_eq_map]; exact g1
  · rw [g3, h2, postState_eq hSu hRu, hsumb, hQ]
  · rw [g4, h3, hQ]; rfl

end Step

/-! ### Example: two position sensors of different quality, and the stacked measurement of both -/

/-- `C = [1 0; 1 0]`. -/
noncomputable def twoPosClass : MeasClass ℝ LinMeasData Unit :=
  MeasClass.plain fun s _ _ =>
    if s.stateSize = 2 ∧ s.measDims = 2 then some { s with der := ⟨.of !![1, 0; 1, 0]⟩ } else some s

theorem twoPos_contract : MeasContract LinMeasData.Sized twoPosClass := by
  apply plain_mcontract
  intro n k s x dt hs hx
  split
  next h =>
    have hn : n = 2 := by rw [← hs.states]; exact h.1
    have hk : k = 2 := by rw [← hs.meas]; exact h.2
    subst hn hk
    exact ⟨_, rfl, ⟨hs.states, hs.meas, ⟨rfl, rfl⟩, hs.cov⟩, ⟨rfl, rfl, rfl, rfl⟩⟩
  next => exact ⟨s, rfl, hs, Meas.SameConfig.refl s⟩

noncomputable def stackClass : Bool → MeasClass ℝ LinMeasData Unit := fun b => if b then posClass else twoPosClass

def stackDim : Bool → Nat := fun b => if b then 1 else 2

noncomputable def stackC : (b : Bool) → Matrix (Fin (stackDim b)) (Fin 2) ℝ
  | true => !![1, 0]
  | false => !![1, 0; 1, 0]

noncomputable def stackFilter : Filter ℝ DVec DMat Bool (Env Bool LinSysData Unit LinMeasData Unit) :=
  Filter.construct (kfPlant cvClass stackClass)
    { allowPast := false, rewindHistory := true, historyWindow := 5 }
    { sys := Sys.constructLinear 2 1 2 (), meas := fun b => Meas.constructLinear 2 (stackDim b) () } (.const 2 3) (.identity 2) 0

def stackEquiv : Fin 2 ≃ Σ _ : Fin 2, Fin 1 where
  toFun i := ⟨i, 0⟩
  invFun p := p.1
  left_inv _ := rfl
  right_inv p := by obtain ⟨i, a⟩ := p; rw [Subsingleton.elim a 0]

example (sort : List (FilterInput ℝ DVec DMat Bool) → List (FilterInput ℝ DVec DMat Bool)) :
    ∃ g h, stackFilter.run (kfPlant cvClass stackClass) sort
        (List.ofFn fun i : Fin 2 => Op.correct (.of fun _ : Fin 1 => ![7, 9] i) (.of (Matrix.diagonal fun _ : Fin 1 => ![(1 : ℝ), 4] i)) 0 (some true))
          = some g ∧
      stackFilter.correct (kfPlant cvClass stackClass) (.of ![7, 9]) (.of (Matrix.diagonal ![1, 4])) 0 (some false) = some h ∧
      g.getState = h.getState ∧ g.getCovariance = h.getCovariance ∧ g.getStateTime = h.getStateTime := by
  refine C77_sequential_is_stacked (n := 2) (m := 1) sort cv_contract ?_ (plain_ops _) ?_ stackDim stackFilter
    (cvEnv_ok (Q := EstimatePSD 2)).sys ?_ (x := fun _ => 3) (P := 1) rfl rfl PosSemidef.one stackC ?_ (fun _ => rfl)
    (fun _ => true) (fun i _ => ![7, 9] i) (fun i => Matrix.diagonal fun _ : Fin 1 => ![(1 : ℝ), 4] i) ?_ false ![7, 9]
    (Matrix.diagonal ![1, 4]) stackEquiv ?_
  · intro j; cases j
    · exact twoPos_contract
    · exact pos_contract
  · intro j; cases j
    · exact plain_mops _
    · exact plain_mops _
  · intro j; cases j
    · exact ⟨rfl, rfl, ⟨rfl, rfl⟩, rfl, rfl⟩
    · exact ⟨rfl, rfl, ⟨rfl, rfl⟩, rfl, rfl⟩
  · intro j s x dt s' hs h
    cases j
    · have h' : (if s.stateSize = 2 ∧ s.measDims = 2 then some { s with der := ⟨.of !![1, 0; 1, 0]⟩ } else some s) = some s' := h
      rw [if_pos ⟨hs.states, hs.meas⟩] at h'
      injection h' with h'
      subst h'; rfl
    · have h' : (if s.stateSize = 2 ∧ s.measDims = 1 then some { s with der := ⟨.of !![1, 0]⟩ } else some s) = some s' := h
      rw [if_pos ⟨hs.states, hs.meas⟩] at h'
      injection h' with h'
      subst h'; rfl
  · intro i
    refine (Matrix.posDef_diagonal_iff (n := Fin 1)).mpr fun _ => ?_
    fin_cases i <;> norm_num
  · refine ⟨fun i a => rfl, fun i a l => ?_, fun i a b => ?_, fun i j a b hij => ?_⟩
    · have ha : a = (0 : Fin 1) := Subsingleton.elim (α := Fin 1) _ _
      subst ha
      fin_cases i <;> fin_cases l <;> rfl
    · have ha : a = b := Subsingleton.elim (α := Fin 1) _ _
      subst ha
      have e1 := Matrix.diagonal_apply_eq (n := Fin 1) (fun _ => ![(1 : ℝ), 4] i) a
      have e2 := Matrix.diagonal_apply_eq (n := Fin 2) ![(1 : ℝ), 4] i
      exact e2.trans e1.symm
    · exact Matrix.diagonal_apply_ne _ hij

end Props
end StateEstimation
