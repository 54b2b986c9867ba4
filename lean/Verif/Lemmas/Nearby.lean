import Verif.Spec.Nearby
import Verif.Lemmas.History
import Mathlib.Topology.Instances.Matrix
import Mathlib.Topology.MetricSpace.Pseudo.Pi
import Mathlib.Topology.Algebra.Order.Field
import Mathlib.Topology.Algebra.GroupWithZero
import Mathlib.Analysis.Normed.Field.Basic

/-! # The Kalman recursion is continuous in everything -/

namespace StateEstimation
namespace Nearby

open Matrix Kalman

/-- `close` is fine enough to see the topology -/
def Fine {α : Type} [TopologicalSpace α] (close : ℝ → α → α → Prop) : Prop :=
  ∀ a, ∀ U ∈ nhds a, ∃ δ : ℝ, 0 < δ ∧ ∀ δ', δ' ≤ δ → ∀ b, close δ' a b → b ∈ U

theorem fine_vec (a : Nat) : Fine (fun δ (v w : Fin a → ℝ) => NearVec δ v w) := by
  intro v U hU
  obtain ⟨ε, hε, h⟩ := Metric.mem_nhds_iff.mp hU
  refine ⟨ε / 2, by positivity, fun δ' hd w hw => h ?_⟩
  rw [Metric.mem_ball]
  refine lt_of_le_of_lt ((dist_pi_le_iff (by positivity : (0 : ℝ) ≤ ε / 2)).mpr fun i => ?_) (by linarith)
  rw [Real.dist_eq]
  exact (hw i).trans hd

theorem fine_mat (a b : Nat) : Fine (fun δ (v w : Matrix (Fin a) (Fin b) ℝ) => NearMat δ v w) := by
  intro v U hU
  have hU' : (U : Set (Fin a → Fin b → ℝ)) ∈ @nhds (Fin a → Fin b → ℝ) _ v := hU
  obtain ⟨ε, hε, h⟩ := Metric.mem_nhds_iff.mp hU'
  refine ⟨ε / 2, by positivity, fun δ' hd w hw => h ?_⟩
  show dist (α := Fin a → Fin b → ℝ) w v < ε
  refine lt_of_le_of_lt ((dist_pi_le_iff (by positivity : (0 : ℝ) ≤ ε / 2)).mpr fun i => ?_) (by linarith)
  refine (dist_pi_le_iff (by positivity : (0 : ℝ) ≤ ε / 2)).mpr fun j => ?_
  rw [Real.dist_eq]
  exact (hw i j).trans hd

theorem Fine.prod {α β : Type} [TopologicalSpace α] [TopologicalSpace β] {c : ℝ → α → α → Prop} {d : ℝ → β → β → Prop}
    (hc : Fine c) (hd : Fine d) : Fine (fun δ (a b : α × β) => c δ a.1 b.1 ∧ d δ a.2 b.2) := by
  rintro ⟨a, b⟩ U hU
  obtain ⟨V, hV, W, hW, h⟩ := mem_nhds_prod_iff.mp hU
  obtain ⟨δ1, p1, h1⟩ := hc a V hV
  obtain ⟨δ2, p2, h2⟩ := hd b W hW
  exact ⟨min δ1 δ2, lt_min p1 p2, fun δ' hle p hp =>
    h ⟨h1 δ' (hle.trans (min_le_left _ _)) _ hp.1, h2 δ' (hle.trans (min_le_right _ _)) _ hp.2⟩⟩

/-- the boxes of radius `ε` are neighbourhoods -/
theorem vec_box {a : Nat} (v : Fin a → ℝ) {ε : ℝ} (hε : 0 < ε) : {w | NearVec ε v w} ∈ nhds v := by
  refine Metric.mem_nhds_iff.mpr ⟨ε, hε, fun w hw i => ?_⟩
  have := (dist_pi_lt_iff hε).mp hw i
  rw [Real.dist_eq] at this
  exact this.le

theorem mat_box {a b : Nat} (v : Matrix (Fin a) (Fin b) ℝ) {ε : ℝ} (hε : 0 < ε) : {w | NearMat ε v w} ∈ nhds v := by
  have : {w : Fin a → Fin b → ℝ | NearMat ε v w} ∈ @nhds (Fin a → Fin b → ℝ) _ v := by
    refine Metric.mem_nhds_iff.mpr ⟨ε, hε, fun w hw i j => ?_⟩
    have := (dist_pi_lt_iff hε).mp ((dist_pi_lt_iff hε).mp hw i) j
    rw [Real.dist_eq] at this
    exact this.le
  exact this

variable {n m p k : Nat}

/-- a motion -/
theorem move_near (x : Fin n → ℝ) (P : Matrix (Fin n) (Fin n) ℝ) (A : Matrix (Fin n) (Fin n) ℝ) (B : Matrix (Fin n) (Fin m) ℝ)
    (W : Matrix (Fin n) (Fin p) ℝ) (V : Matrix (Fin n) (Fin m) ℝ) (Rp : Matrix (Fin p) (Fin p) ℝ)
    (Rc : Matrix (Fin m) (Fin m) ℝ) (u : Fin m → ℝ) {ε : ℝ} (hε : 0 < ε) :
    ∃ δ : ℝ, 0 < δ ∧ ∀ δ', δ' ≤ δ → ∀ x' P' A' B' W' V' Rp' Rc' u', NearVec δ' x x' → NearMat δ' P P' → NearMat δ' A A' →
      NearMat δ' B B' → NearMat δ' W W' → NearMat δ' V V' → NearMat δ' Rp Rp' → NearMat δ' Rc Rc' → NearVec δ' u u' →
      NearVec ε (A *ᵥ x + B *ᵥ u) (A' *ᵥ x' + B' *ᵥ u') ∧
      NearMat ε (A * P * Aᵀ + W * Rp * Wᵀ + V * Rc * Vᵀ) (A' * P' * A'ᵀ + W' * Rp' * W'ᵀ + V' * Rc' * V'ᵀ) := by
  have F1 : Continuous fun q : (Fin n → ℝ) × Matrix (Fin n) (Fin n) ℝ × Matrix (Fin n) (Fin n) ℝ × Matrix (Fin n) (Fin m) ℝ ×
      Matrix (Fin n) (Fin p) ℝ × Matrix (Fin n) (Fin m) ℝ × Matrix (Fin p) (Fin p) ℝ × Matrix (Fin m) (Fin m) ℝ × (Fin m → ℝ) =>
      q.2.2.1 *ᵥ q.1 + q.2.2.2.1 *ᵥ q.2.2.2.2.2.2.2.2 := by fun_prop
  have F2 : Continuous fun q : (Fin n → ℝ) × Matrix (Fin n) (Fin n) ℝ × Matrix (Fin n) (Fin n) ℝ × Matrix (Fin n) (Fin m) ℝ ×
      Matrix (Fin n) (Fin p) ℝ × Matrix (Fin n) (Fin m) ℝ × Matrix (Fin p) (Fin p) ℝ × Matrix (Fin m) (Fin m) ℝ × (Fin m → ℝ) =>
      q.2.2.1 * q.2.1 * q.2.2.1ᵀ + q.2.2.2.2.1 * q.2.2.2.2.2.2.1 * q.2.2.2.2.1ᵀ +
        q.2.2.2.2.2.1 * q.2.2.2.2.2.2.2.1 * q.2.2.2.2.2.1ᵀ := by fun_prop
  have h1 := F1.continuousAt.preimage_mem_nhds (x := (x, P, A, B, W, V, Rp, Rc, u)) (vec_box _ hε)
  have h2 := F2.continuousAt.preimage_mem_nhds (x := (x, P, A, B, W, V, Rp, Rc, u)) (mat_box _ hε)
  obtain ⟨δ, hδ, h⟩ := ((fine_vec n).prod ((fine_mat n n).prod ((fine_mat n n).prod ((fine_mat n m).prod ((fine_mat n p).prod
    ((fine_mat n m).prod ((fine_mat p p).prod ((fine_mat m m).prod (fine_vec m))))))))) _ _ (_root_.Filter.inter_mem h1 h2)
  refine ⟨δ, hδ, fun δ' hd x' P' A' B' W' V' Rp' Rc' u' a1 a2 a3 a4 a5 a6 a7 a8 a9 => ?_⟩
  have := h δ' hd (x', P', A', B', W', V', Rp', Rc', u') ⟨a1, a2, a3, a4, a5, a6, a7, a8, a9⟩
  exact ⟨this.1, this.2⟩

/-- all numbers of a measurement -/
abbrev Reads (n k : Nat) : Type :=
  (Fin n → ℝ) × Matrix (Fin n) (Fin n) ℝ × Matrix (Fin k) (Fin n) ℝ × Matrix (Fin k) (Fin k) ℝ × (Fin k → ℝ)

/-- the inverse innovation covariance -/
theorem inv_cont (x : Fin n → ℝ) {P : Matrix (Fin n) (Fin n) ℝ} (hP : P.PosSemidef) (C : Matrix (Fin k) (Fin n) ℝ)
    {R : Matrix (Fin k) (Fin k) ℝ} (hR : R.PosDef) (z : Fin k → ℝ) :
    ContinuousAt (fun q : Reads n k => (innov q.2.1 q.2.2.1 q.2.2.2.1)⁻¹) (x, P, C, R, z) := by
  have hS : Continuous fun q : Reads n k => innov q.2.1 q.2.2.1 q.2.2.2.1 := by unfold innov; fun_prop
  have hdet : (innov P C R).det ≠ 0 := (pd_isUnit_det (innov_pd hP C hR)).ne_zero
  have hinv : ContinuousAt (Inv.inv : Matrix (Fin k) (Fin k) ℝ → Matrix (Fin k) (Fin k) ℝ) (innov P C R) := by
    refine continuousAt_matrix_inv _ ?_
    rw [Ring.inverse_eq_inv']
    exact continuousAt_inv₀ hdet
  exact ContinuousAt.comp (f := fun q : Reads n k => innov q.2.1 q.2.2.1 q.2.2.2.1) (x := (x, P, C, R, z)) hinv hS.continuousAt

theorem gain_cont (x : Fin n → ℝ) {P : Matrix (Fin n) (Fin n) ℝ} (hP : P.PosSemidef) (C : Matrix (Fin k) (Fin n) ℝ)
    {R : Matrix (Fin k) (Fin k) ℝ} (hR : R.PosDef) (z : Fin k → ℝ) :
    ContinuousAt (fun q : Reads n k => gain q.2.1 q.2.2.1 q.2.2.2.1) (x, P, C, R, z) := by
  have G : Continuous fun q : Reads n k × Matrix (Fin k) (Fin k) ℝ => q.1.2.1 * q.1.2.2.1ᵀ * q.2 := by fun_prop
  have H : ContinuousAt (fun q : Reads n k => (q, (innov q.2.1 q.2.2.1 q.2.2.2.1)⁻¹)) (x, P, C, R, z) :=
    continuousAt_id.prodMk (inv_cont x hP C hR z)
  have F := ContinuousAt.comp (f := fun q : Reads n k => (q, (innov q.2.1 q.2.2.1 q.2.2.2.1)⁻¹)) G.continuousAt H
  exact F

theorem post_cont (x : Fin n → ℝ) {P : Matrix (Fin n) (Fin n) ℝ} (hP : P.PosSemidef) (C : Matrix (Fin k) (Fin n) ℝ)
    {R : Matrix (Fin k) (Fin k) ℝ} (hR : R.PosDef) (z : Fin k → ℝ) :
    ContinuousAt (fun q : Reads n k => post q.2.1 q.2.2.1 q.2.2.2.1) (x, P, C, R, z) := by
  have G : Continuous fun q : Reads n k × Matrix (Fin n) (Fin k) ℝ => (1 - q.2 * q.1.2.2.1) * q.1.2.1 := by fun_prop
  have H : ContinuousAt (fun q : Reads n k => (q, gain q.2.1 q.2.2.1 q.2.2.2.1)) (x, P, C, R, z) :=
    continuousAt_id.prodMk (gain_cont x hP C hR z)
  have F := ContinuousAt.comp (f := fun q : Reads n k => (q, gain q.2.1 q.2.2.1 q.2.2.2.1)) G.continuousAt H
  exact F

theorem postState_cont (x : Fin n → ℝ) {P : Matrix (Fin n) (Fin n) ℝ} (hP : P.PosSemidef) (C : Matrix (Fin k) (Fin n) ℝ)
    {R : Matrix (Fin k) (Fin k) ℝ} (hR : R.PosDef) (z : Fin k → ℝ) :
    ContinuousAt (fun q : Reads n k => postState q.1 q.2.1 q.2.2.1 q.2.2.2.1 q.2.2.2.2) (x, P, C, R, z) := by
  have G : Continuous fun q : Reads n k × Matrix (Fin n) (Fin k) ℝ => q.1.1 + q.2 *ᵥ (q.1.2.2.2.2 - q.1.2.2.1 *ᵥ q.1.1) := by
    fun_prop
  exact ContinuousAt.comp (g := fun q : Reads n k × Matrix (Fin n) (Fin k) ℝ =>
    q.1.1 + q.2 *ᵥ (q.1.2.2.2.2 - q.1.2.2.1 *ᵥ q.1.1)) G.continuousAt (continuousAt_id.prodMk (gain_cont x hP C hR z))

/-- a measurement -/
theorem measure_near (x : Fin n → ℝ) {P : Matrix (Fin n) (Fin n) ℝ} (hP : P.PosSemidef) (C : Matrix (Fin k) (Fin n) ℝ)
    {R : Matrix (Fin k) (Fin k) ℝ} (hR : R.PosDef) (z : Fin k → ℝ) {ε : ℝ} (hε : 0 < ε) :
    ∃ δ : ℝ, 0 < δ ∧ ∀ δ', δ' ≤ δ → ∀ x' P' C' R' z', NearVec δ' x x' → NearMat δ' P P' → NearMat δ' C C' →
      NearMat δ' R R' → NearVec δ' z z' →
      NearVec ε (postState x P C R z) (postState x' P' C' R' z') ∧ NearMat ε (post P C R) (post P' C' R') := by
  have h1 := (postState_cont x hP C hR z).preimage_mem_nhds (vec_box _ hε)
  have h2 := (post_cont x hP C hR z).preimage_mem_nhds (mat_box _ hε)
  obtain ⟨δ, hδ, h⟩ := ((fine_vec n).prod ((fine_mat n n).prod ((fine_mat k n).prod ((fine_mat k k).prod (fine_vec k)))))
    (x, P, C, R, z) _ (_root_.Filter.inter_mem h1 h2)
  refine ⟨δ, hδ, fun δ' hd x' P' C' R' z' a1 a2 a3 a4 a5 => ?_⟩
  have := h δ' hd (x', P', C', R', z') ⟨a1, a2, a3, a4, a5⟩
  exact ⟨this.1, this.2⟩

theorem _root_.StateEstimation.NearVec.mono {a : Nat} {δ ε : ℝ} (h : δ ≤ ε) {v w : Fin a → ℝ} (hv : NearVec δ v w) : NearVec ε v w :=
  fun i => (hv i).trans h
theorem _root_.StateEstimation.NearMat.mono {a b : Nat} {δ ε : ℝ} (h : δ ≤ ε) {v w : Matrix (Fin a) (Fin b) ℝ} (hv : NearMat δ v w) :
    NearMat ε v w := fun i j => (hv i j).trans h

theorem _root_.StateEstimation.Event.Near.mono {δ ε : ℝ} (h : δ ≤ ε) {e e' : Event n m} (he : Event.Near δ e e') : Event.Near ε e e' := by
  cases he with
  | move a1 a2 a3 a4 a5 a6 a7 => exact .move (a1.mono h) (a2.mono h) (a3.mono h) (a4.mono h) (a5.mono h) (a6.mono h) (a7.mono h)
  | measure a1 a2 a3 => exact .measure (a1.mono h) (a2.mono h) (a3.mono h)

/-- the whole recursion -/
theorem rec_near {x0 : Fin n → ℝ} {P0 : Matrix (Fin n) (Fin n) ℝ} (h0 : P0.PosSemidef) {evs : List (Event n m)}
    (hok : ∀ ev ∈ evs, ev.Ok) : ∀ ε : ℝ, 0 < ε → ∃ δ : ℝ, 0 < δ ∧ ∀ x0' P0' evs', NearVec δ x0 x0' → NearMat δ P0 P0' →
      List.Forall₂ (Event.Near δ) evs evs' →
      NearVec ε (kalmanRec x0 P0 evs).1 (kalmanRec x0' P0' evs').1 ∧
      NearMat ε (kalmanRec x0 P0 evs).2 (kalmanRec x0' P0' evs').2 := by
  induction evs with
  | nil =>
    intro ε hε
    refine ⟨ε, hε, fun x0' P0' evs' hx hP he => ?_⟩
    cases he
    exact ⟨hx, hP⟩
  | cons ev evs ih =>
    intro ε hε
    have hok' : ∀ ev ∈ evs, ev.Ok := fun e he => hok e (List.mem_cons_of_mem _ he)
    cases ev with
    | move A B W V Rp Rc u =>
      obtain ⟨δ1, p1, h1⟩ := move_near (kalmanRec x0 P0 evs).1 (kalmanRec x0 P0 evs).2 A B W V Rp Rc u hε
      obtain ⟨δ2, p2, h2⟩ := ih hok' δ1 p1
      refine ⟨min δ1 δ2, lt_min p1 p2, fun x0' P0' evs' hx hP he => ?_⟩
      cases he with
      | cons hh ht =>
        obtain ⟨r1, r2⟩ := h2 x0' P0' _ (hx.mono (min_le_right _ _)) (hP.mono (min_le_right _ _))
          (ht.imp fun _ _ h => h.mono (min_le_right _ _))
        cases hh.mono (min_le_left δ1 δ2) with
        | move a1 a2 a3 a4 a5 a6 a7 => exact h1 δ1 le_rfl _ _ _ _ _ _ _ _ _ r1 r2 a1 a2 a3 a4 a5 a6 a7
    | measure C R z =>
      obtain ⟨δ1, p1, h1⟩ := measure_near (kalmanRec x0 P0 evs).1 (kalmanRec_psd h0 hok') C (hok _ List.mem_cons_self) z hε
      obtain ⟨δ2, p2, h2⟩ := ih hok' δ1 p1
      refine ⟨min δ1 δ2, lt_min p1 p2, fun x0' P0' evs' hx hP he => ?_⟩
      cases he with
      | cons hh ht =>
        obtain ⟨r1, r2⟩ := h2 x0' P0' _ (hx.mono (min_le_right _ _)) (hP.mono (min_le_right _ _))
          (ht.imp fun _ _ h => h.mono (min_le_right _ _))
        cases hh.mono (min_le_left δ1 δ2) with
        | measure a1 a2 a3 => exact h1 δ1 le_rfl _ _ _ _ _ r1 r2 a1 a2 a3

end Nearby
end StateEstimation
