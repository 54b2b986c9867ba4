import Verif.Spec.World
import Verif.Lemmas.Moments
import Verif.Lemmas.History
import Verif.Examples.Linear
import Mathlib.Probability.ProbabilityMassFunction.Integrals
import Mathlib.Probability.Distributions.Uniform

/-!
# C89: no linear estimator does better than the Kalman filter; C74 for all in-order calls
-/

set_option linter.unusedSectionVars false

namespace StateEstimation
namespace Props

open Matrix MeasureTheory Kalman Moments

variable {Ω : Type} [MeasurableSpace Ω] {μ : Measure Ω} {n m : Nat}

/-! ### What any rule gives: the covariance is the mean-square error -/

private structure WInv (μ : Measure Ω) (x0 : Fin n → ℝ) (P0 : Matrix (Fin n) (Fin n) ℝ) (evs : Ω → List (Event n m))
    (x : Ω → Fin n → ℝ) (past : Set (Ω → ℝ)) (P : Matrix (Fin n) (Fin n) ℝ) : Prop where
  p0 : P0.PosSemidef
  ok : ∀ ω, ∀ ev ∈ evs ω, ev.Ok
  cov : ∀ ω, (kalmanRec x0 P0 (evs ω)).2 = P
  centered : Centered μ past
  span : InSpan past (fun ω => x ω - (kalmanRec x0 P0 (evs ω)).1)
  mse : mom μ (fun ω => x ω - (kalmanRec x0 P0 (evs ω)).1) (fun ω => x ω - (kalmanRec x0 P0 (evs ω)).1) = P

private theorem noise_psd {past : Set (Ω → ℝ)} {a : Nat} {Q : Matrix (Fin a) (Fin a) ℝ} {w : Ω → Fin a → ℝ}
    (h : IsNoise μ past Q w) : Q.PosSemidef := by
  rw [← mom_cov h]; exact mom_psd h.finite

private theorem move_error {x0 : Fin n → ℝ} {P0 : Matrix (Fin n) (Fin n) ℝ} {evs : Ω → List (Event n m)} {x : Ω → Fin n → ℝ}
    {p : Nat} (A : Matrix (Fin n) (Fin n) ℝ) (B : Matrix (Fin n) (Fin m) ℝ)
    (W : Matrix (Fin n) (Fin p) ℝ) (V : Matrix (Fin n) (Fin m) ℝ) (Rp : Matrix (Fin p) (Fin p) ℝ)
    (Rc : Matrix (Fin m) (Fin m) ℝ) (u : Ω → Fin m → ℝ) (w : Ω → Fin p → ℝ) (v : Ω → Fin m → ℝ) :
    (fun ω => A *ᵥ x ω + B *ᵥ u ω + W *ᵥ w ω + V *ᵥ v ω - (kalmanRec x0 P0 (Event.move A B W V Rp Rc (u ω) :: evs ω)).1)
      = fun ω => (1 : Matrix (Fin n) (Fin n) ℝ) *ᵥ (A *ᵥ (x ω - (kalmanRec x0 P0 (evs ω)).1) + W *ᵥ w ω) + V *ᵥ v ω := by
  funext ω
  simp only [kalmanRec]
  rw [Matrix.one_mulVec, Matrix.mulVec_sub]
  abel

private theorem measure_error {x0 : Fin n → ℝ} {P0 P : Matrix (Fin n) (Fin n) ℝ} {evs : Ω → List (Event n m)}
    {x : Ω → Fin n → ℝ} (hP : ∀ ω, (kalmanRec x0 P0 (evs ω)).2 = P) {k : Nat}
    (C : Matrix (Fin k) (Fin n) ℝ) (R : Matrix (Fin k) (Fin k) ℝ) (ν : Ω → Fin k → ℝ) :
    (fun ω => x ω - (kalmanRec x0 P0 (Event.measure C R (C *ᵥ x ω + ν ω) :: evs ω)).1)
      = fun ω => (1 - gain P C R * C) *ᵥ (x ω - (kalmanRec x0 P0 (evs ω)).1) + (-gain P C R) *ᵥ ν ω := by
  funext ω
  simp only [kalmanRec, postState, hP ω]
  rw [Matrix.neg_mulVec, Matrix.sub_mulVec, Matrix.one_mulVec, ← Matrix.mulVec_mulVec, Matrix.mulVec_sub, Matrix.mulVec_sub,
    Matrix.mulVec_sub, Matrix.mulVec_add]
  abel

private theorem winv [IsFiniteMeasure μ] {rule : Set (Ω → ℝ) → (Ω → Fin m → ℝ) → Prop} {x0 : Fin n → ℝ}
    {P0 : Matrix (Fin n) (Fin n) ℝ} {evs x past data} (h : World μ rule x0 P0 evs x past data) :
    ∃ P, WInv μ x0 P0 evs x past P := by
  induction h with
  | start x hn =>
    refine ⟨P0, noise_psd hn, fun _ _ h => (nomatch h), fun _ => rfl, ?_, inSpan_new _, mom_cov hn⟩
    exact centered_add (past := ∅) (fun s hs => absurd hs (Set.notMem_empty s)) hn
  | @move evs x past data p A B W V Rp Rc u w v _ _ hw hv ih =>
    obtain ⟨P, I⟩ := ih
    have c1 := centered_add I.centered hw
    have c2 := centered_add c1 hv
    have s1 : InSpan (addNoise past w) (fun ω => A *ᵥ (x ω - (kalmanRec x0 P0 (evs ω)).1) + W *ᵥ w ω) :=
      inSpan_add (inSpan_mulVec A (span_mono (past_sub w) I.span)) (inSpan_mulVec W (inSpan_new w))
    refine ⟨A * P * Aᵀ + W * Rp * Wᵀ + V * Rc * Vᵀ, I.p0, ?_, fun ω => by simp only [kalmanRec, I.cov], c2, ?_, ?_⟩
    · intro ω ev hev
      rcases List.mem_cons.mp hev with rfl | hev
      · exact ⟨noise_psd hw, noise_psd hv⟩
      · exact I.ok ω ev hev
    · rw [move_error]
      exact inSpan_add (inSpan_mulVec _ (span_mono (past_sub v) s1)) (inSpan_mulVec V (inSpan_new v))
    · rw [move_error, mom_step 1 V (inSpan_fin2 c1 s1) hv.finite (mom_white c1 hv s1), mom_cov hv,
        mom_step A W (inSpan_fin2 I.centered I.span) hw.finite (mom_white I.centered hw I.span), mom_cov hw, I.mse]
      simp
  | @measure evs x past data k C R ν _ hR hn ih =>
    obtain ⟨P, I⟩ := ih
    have hPsd : P.PosSemidef := by rw [← I.mse]; exact mom_psd (inSpan_fin2 I.centered I.span)
    have hS : IsUnit (innov P C R).det := pd_isUnit_det (innov_pd hPsd C hR)
    refine ⟨post P C R, I.p0, ?_, fun ω => by simp only [kalmanRec, I.cov], centered_add I.centered hn, ?_, ?_⟩
    · intro ω ev hev
      rcases List.mem_cons.mp hev with rfl | hev
      · exact hR
      · exact I.ok ω ev hev
    · rw [measure_error I.cov]
      exact inSpan_add (inSpan_mulVec _ (span_mono (past_sub ν) I.span)) (inSpan_mulVec _ (inSpan_new ν))
    · rw [measure_error I.cov, mom_step _ _ (inSpan_fin2 I.centered I.span) hn.finite (mom_white I.centered hn I.span),
        mom_cov hn, I.mse, post_joseph (psd_symm hPsd) hS (psd_symm hR.posSemidef)]
      simp

/-! ### What affine feedback gives: the error is uncorrelated with the data -/

private structure AInv (μ : Measure Ω) (x0 : Fin n → ℝ) (P0 : Matrix (Fin n) (Fin n) ℝ) (evs : Ω → List (Event n m))
    (x : Ω → Fin n → ℝ) (past data : Set (Ω → ℝ)) : Prop where
  known : Known data (fun ω => (kalmanRec x0 P0 (evs ω)).1)
  truth : ∀ i, (fun ω => x ω i) ∈ Submodule.span ℝ (insert (fun _ => 1) past)
  sub : ∀ d ∈ data, d ∈ Submodule.span ℝ (insert (fun _ => (1 : ℝ)) past)
  orth : ∀ d ∈ data, ∀ i, ∫ ω, (x ω - (kalmanRec x0 P0 (evs ω)).1) i * d ω ∂μ = 0

private theorem known_mulVec {data : Set (Ω → ℝ)} {a c : Nat} (F : Matrix (Fin c) (Fin a) ℝ) {e : Ω → Fin a → ℝ}
    (he : Known data e) : Known data (fun ω => F *ᵥ e ω) := inSpan_mulVec F he

private theorem known_add {data : Set (Ω → ℝ)} {a : Nat} {e e' : Ω → Fin a → ℝ}
    (he : Known data e) (he' : Known data e') : Known data (fun ω => e ω + e' ω) := inSpan_add he he'

private theorem known_sub {data : Set (Ω → ℝ)} {a : Nat} {e e' : Ω → Fin a → ℝ}
    (he : Known data e) (he' : Known data e') : Known data (fun ω => e ω - e' ω) := fun i => Submodule.sub_mem _ (he i) (he' i)

private theorem known_mono {data data' : Set (Ω → ℝ)} (h : data ⊆ data') {a : Nat} {e : Ω → Fin a → ℝ} (he : Known data e) :
    Known data' e := fun i => Submodule.span_mono (Set.insert_subset_insert h) (he i)

private theorem known_const {data : Set (Ω → ℝ)} {a : Nat} (c : Fin a → ℝ) : Known data (fun _ => c) := by
  intro i
  have : (fun _ : Ω => c i) = c i • (fun _ => (1 : ℝ)) := by funext _; simp
  rw [this]
  exact Submodule.smul_mem _ _ (Submodule.subset_span (Set.mem_insert _ _))

private theorem known_fin2 [IsProbabilityMeasure μ] {past : Set (Ω → ℝ)} (h : Centered μ past) {s : Ω → ℝ}
    (hs : s ∈ Submodule.span ℝ (insert (fun _ => (1 : ℝ)) past)) : MemLp s 2 μ := by
  induction hs using Submodule.span_induction with
  | mem s hs =>
    rcases hs with rfl | hs
    · exact memLp_const 1
    · exact (h s hs).1
  | zero => exact MemLp.zero'
  | add a b _ _ ha hb => exact ha.add hb
  | smul r a _ ha => exact ha.const_smul r

/-- `t` uncorrelated with `1` and all of `base` is uncorrelated with their span -/
private theorem span_orth {base : Set (Ω → ℝ)} (hm : ∀ s ∈ base, MemLp s 2 μ) [IsProbabilityMeasure μ] {t : Ω → ℝ} (ht : MemLp t 2 μ)
    (h1 : ∫ ω, t ω ∂μ = 0) (hw : ∀ s ∈ base, ∫ ω, t ω * s ω ∂μ = 0) {s : Ω → ℝ}
    (hs : s ∈ Submodule.span ℝ (insert (fun _ => (1 : ℝ)) base)) : MemLp s 2 μ ∧ ∫ ω, t ω * s ω ∂μ = 0 := by
  induction hs using Submodule.span_induction with
  | mem s hs =>
    rcases hs with rfl | hs
    · exact ⟨memLp_const 1, by simpa using h1⟩
    · exact ⟨hm s hs, hw s hs⟩
  | zero => exact ⟨MemLp.zero', by simp⟩
  | add a b ha' hb' ha hb =>
    refine ⟨ha.1.add hb.1, ?_⟩
    have := integral_add (int_mul ht ha.1) (int_mul ht hb.1)
    simp only [Pi.add_apply, mul_add]
    rw [this, ha.2, hb.2, add_zero]
  | smul r a _ ha =>
    refine ⟨ha.1.const_smul r, ?_⟩
    simp only [Pi.smul_apply, smul_eq_mul]
    have : (fun ω => t ω * (r * a ω)) = fun ω => r * (t ω * a ω) := by funext ω; ring
    rw [this, integral_const_mul, ha.2, mul_zero]

private theorem sub_known {past data : Set (Ω → ℝ)} (h : ∀ d ∈ data, d ∈ Submodule.span ℝ (insert (fun _ => (1 : ℝ)) past))
    {s : Ω → ℝ} (hs : s ∈ Submodule.span ℝ (insert (fun _ => (1 : ℝ)) data)) :
    s ∈ Submodule.span ℝ (insert (fun _ => (1 : ℝ)) past) := by
  refine Submodule.span_le.mpr ?_ hs
  rintro d (rfl | hd)
  · exact Submodule.subset_span (Set.mem_insert _ _)
  · exact h d hd

/-- fresh noise is uncorrelated with everything that has happened -/
private theorem noise_orth [IsProbabilityMeasure μ] {past : Set (Ω → ℝ)} (hc : Centered μ past) {a : Nat}
    {Q : Matrix (Fin a) (Fin a) ℝ} {w : Ω → Fin a → ℝ} (hw : IsNoise μ past Q w) {b : Nat} {y : Ω → Fin b → ℝ} (hy : Known past y) :
    Fin2 μ y ∧ mom μ w y = 0 := by
  refine ⟨fun i => known_fin2 hc (hy i), ?_⟩
  ext i j
  exact (span_orth (fun s hs => (hc s hs).1) (hw.finite i) (hw.mean i) (fun s hs => hw.white s hs i) (hy j)).2

private theorem past_known {past : Set (Ω → ℝ)} {a : Nat} {e : Ω → Fin a → ℝ} (he : InSpan past e) : Known past e :=
  fun i => Submodule.span_mono (Set.subset_insert _ _) (he i)

private theorem orth_iff {data : Set (Ω → ℝ)} {a : Nat} {e : Ω → Fin a → ℝ} :
    (∀ d ∈ data, ∀ i, ∫ ω, e ω i * d ω ∂μ = 0) ↔ ∀ d ∈ data, mom μ e (fun ω => fun _ : Fin 1 => d ω) = 0 := by
  constructor
  · intro h d hd; ext i j; exact h d hd i
  · intro h d hd i; exact congrFun (congrFun (h d hd) i) 0

private theorem err_orth [IsProbabilityMeasure μ] {x0 : Fin n → ℝ} {P0 P : Matrix (Fin n) (Fin n) ℝ} {evs : Ω → List (Event n m)}
    {x : Ω → Fin n → ℝ} {past data : Set (Ω → ℝ)} (I : WInv μ x0 P0 evs x past P) (J : AInv μ x0 P0 evs x past data)
    {b : Nat} {y : Ω → Fin b → ℝ} (hy : Known data y) :
    Fin2 μ y ∧ mom μ (fun ω => x ω - (kalmanRec x0 P0 (evs ω)).1) y = 0 := by
  have hd : ∀ d ∈ data, MemLp d 2 μ := fun d hd => known_fin2 I.centered (J.sub d hd)
  have key : ∀ i j, MemLp (fun ω => y ω j) 2 μ ∧ ∫ ω, (x ω - (kalmanRec x0 P0 (evs ω)).1) i * y ω j ∂μ = 0 := by
    intro i j
    obtain ⟨h1, h2⟩ := span_centered I.centered (I.span i)
    exact span_orth hd h1 h2 (fun d hd => J.orth d hd i) (hy j)
  constructor
  · intro j
    exact known_fin2 I.centered (sub_known J.sub (hy j))
  · ext i j; exact (key i j).2

private theorem ainv [IsProbabilityMeasure μ] {x0 : Fin n → ℝ} {P0 : Matrix (Fin n) (Fin n) ℝ} {evs x past data}
    (h : World μ (m := m) (fun data u => Known data u) x0 P0 evs x past data) : AInv μ x0 P0 evs x past data := by
  induction h with
  | start x hn =>
    refine ⟨known_const _, ?_, fun d hd => absurd hd (Set.notMem_empty d), fun d hd => absurd hd (Set.notMem_empty d)⟩
    have h1 : Known (addNoise ∅ fun ω => x ω - x0) (fun ω => (x ω - x0) + x0) :=
      known_add (past_known (inSpan_new _)) (known_const x0)
    have e : (fun ω => (x ω - x0) + x0) = x := by funext ω; simp
    rw [e] at h1
    exact h1
  | @move evs x past data p A B W V Rp Rc u w v hW hu hw hv ih =>
    obtain ⟨P, I⟩ := winv hW
    have c1 := centered_add I.centered hw
    have hsub : past ⊆ addNoise (addNoise past w) v := fun s hs => past_sub v (past_sub w hs)
    have hup : Known past u := fun i => sub_known ih.sub (hu i)
    refine ⟨?_, ?_, ?_, ?_⟩
    · exact known_add (known_mulVec A ih.known) (known_mulVec B hu)
    · exact known_add (known_add (known_add (known_mulVec A (known_mono hsub ih.truth)) (known_mulVec B (known_mono hsub hup)))
        (known_mulVec W (past_known (span_mono (past_sub v) (inSpan_new w))))) (known_mulVec V (past_known (inSpan_new v)))
    · exact fun d hd => Submodule.span_mono (Set.insert_subset_insert hsub) (ih.sub d hd)
    · have s1 : InSpan (addNoise past w) (fun ω => A *ᵥ (x ω - (kalmanRec x0 P0 (evs ω)).1) + W *ᵥ w ω) :=
        inSpan_add (inSpan_mulVec A (span_mono (past_sub w) I.span)) (inSpan_mulVec W (inSpan_new w))
      have f0 := inSpan_fin2 I.centered I.span
      have f1 := inSpan_fin2 c1 s1
      rw [orth_iff]
      intro d hd
      have kd : Known data (fun ω => fun _ : Fin 1 => d ω) := fun _ => Submodule.subset_span (Or.inr hd)
      obtain ⟨g0, g1⟩ := err_orth I ih kd
      have kp : Known past (fun ω => fun _ : Fin 1 => d ω) := fun _ => ih.sub d hd
      have g2 := (noise_orth I.centered hw kp).2
      have g3 := (noise_orth c1 hv (known_mono (past_sub w) kp)).2
      have e := move_error (x0 := x0) (P0 := P0) (evs := evs) (x := x) A B W V Rp Rc u w v
      rw [e, mom_add (fin2_mulVec _ f1) (fin2_mulVec V hv.finite) g0, mom_mulVec _ f1 g0, mom_mulVec V hv.finite g0,
        mom_add (fin2_mulVec A f0) (fin2_mulVec W hw.finite) g0, mom_mulVec A f0 g0, mom_mulVec W hw.finite g0, g1, g2, g3]
      simp
  | @measure evs x past data k C R ν hW hR hn ih =>
    obtain ⟨P, I⟩ := winv hW
    have hPsd : P.PosSemidef := by rw [← I.mse]; exact mom_psd (inSpan_fin2 I.centered I.span)
    have hS : IsUnit (innov P C R).det := pd_isUnit_det (innov_pd hPsd C hR)
    have f0 := inSpan_fin2 I.centered I.span
    have hz : Known (addNoise data fun ω => C *ᵥ x ω + ν ω) (fun ω => C *ᵥ x ω + ν ω) := past_known (inSpan_new _)
    have hzp : Known (addNoise past ν) (fun ω => C *ᵥ x ω + ν ω) :=
      known_add (known_mulVec C (known_mono (past_sub ν) ih.truth)) (past_known (inSpan_new ν))
    have hk : Known (addNoise data fun ω => C *ᵥ x ω + ν ω) (fun ω => (kalmanRec x0 P0 (evs ω)).1) :=
      known_mono (past_sub _) ih.known
    refine ⟨?_, known_mono (past_sub ν) ih.truth, ?_, ?_⟩
    · have h2 := known_add hk (known_mulVec (gain P C R) (known_sub hz (known_mulVec C hk)))
      simp only [kalmanRec, postState, I.cov]
      exact h2
    · rintro d (hd | ⟨i, rfl⟩)
      · exact Submodule.span_mono (Set.insert_subset_insert (past_sub ν)) (ih.sub d hd)
      · exact hzp i
    · have e := measure_error I.cov (x := x) C R ν
      -- against anything known before
      have old : ∀ {b : Nat} {y : Ω → Fin b → ℝ}, Known data y →
          Fin2 μ y ∧ mom μ (fun ω => (1 - gain P C R * C) *ᵥ (x ω - (kalmanRec x0 P0 (evs ω)).1) + (-gain P C R) *ᵥ ν ω) y = 0 := by
        intro b y hy
        obtain ⟨g0, g1⟩ := err_orth I ih hy
        have g2 := (noise_orth I.centered hn (fun i => sub_known ih.sub (hy i) : Known past y)).2
        refine ⟨g0, ?_⟩
        rw [mom_add (fin2_mulVec _ f0) (fin2_mulVec _ hn.finite) g0, mom_mulVec _ f0 g0, mom_mulVec _ hn.finite g0, g1, g2]
        simp
      -- against the innovation
      have new : mom μ (fun ω => (1 - gain P C R * C) *ᵥ (x ω - (kalmanRec x0 P0 (evs ω)).1) + (-gain P C R) *ᵥ ν ω)
          (fun ω => C *ᵥ (x ω - (kalmanRec x0 P0 (evs ω)).1) + ν ω) = 0 := by
        have fz := fin2_add (fin2_mulVec C f0) hn.finite
        have w1 := mom_white I.centered hn I.span
        have w2 : mom μ (fun ω => x ω - (kalmanRec x0 P0 (evs ω)).1) ν = 0 := by rw [← mom_transpose, w1, Matrix.transpose_zero]
        rw [mom_add (fin2_mulVec _ f0) (fin2_mulVec _ hn.finite) fz, mom_mulVec _ f0 fz, mom_mulVec _ hn.finite fz,
          mom_add_right (fin2_mulVec C f0) hn.finite f0, mom_add_right (fin2_mulVec C f0) hn.finite hn.finite, w2, mom_cov hn,
          ← mom_transpose (fun ω => C *ᵥ (x ω - (kalmanRec x0 P0 (evs ω)).1)), mom_mulVec C f0 f0,
          ← mom_transpose (fun ω => C *ᵥ (x ω - (kalmanRec x0 P0 (evs ω)).1)), mom_mulVec C f0 hn.finite, w2, I.mse]
        have := gain_mul_innov hS
        unfold innov at this
        rw [Matrix.transpose_mul, psd_symm hPsd]
        simp only [Matrix.mul_zero, Matrix.transpose_zero, zero_add, add_zero, Matrix.sub_mul, Matrix.one_mul, Matrix.neg_mul]
        rw [Matrix.mul_assoc, sub_add_eq_add_sub, ← sub_eq_add_neg, sub_sub, ← Matrix.mul_add, sub_eq_zero]
        rw [add_comm, this]
      show ∀ d ∈ addNoise data fun ω => C *ᵥ x ω + ν ω, ∀ (i : Fin n),
        ∫ ω, ((fun ω => x ω - (kalmanRec x0 P0 (Event.measure C R (C *ᵥ x ω + ν ω) :: evs ω)).1) ω) i * d ω ∂μ = 0
      rw [e]
      rintro d (hd | ⟨j, rfl⟩) i
      · exact congrFun (congrFun (old (y := fun ω => fun _ : Fin 1 => d ω) (fun _ => Submodule.subset_span (Or.inr hd))).2 i) 0
      · have o := old (known_mulVec C ih.known)
        have fe : Fin2 μ (fun ω => (1 - gain P C R * C) *ᵥ (x ω - (kalmanRec x0 P0 (evs ω)).1) + (-gain P C R) *ᵥ ν ω) :=
          fin2_add (fin2_mulVec _ f0) (fin2_mulVec _ hn.finite)
        have fi : Fin2 μ (fun ω => C *ᵥ (x ω - (kalmanRec x0 P0 (evs ω)).1) + ν ω) := fin2_add (fin2_mulVec C f0) hn.finite
        have s := mom_add_right fi o.1 fe
        rw [new, o.2, add_zero] at s
        have e2 : (fun ω => C *ᵥ (x ω - (kalmanRec x0 P0 (evs ω)).1) + ν ω + C *ᵥ (kalmanRec x0 P0 (evs ω)).1)
            = fun ω => C *ᵥ x ω + ν ω := by
          funext ω; rw [Matrix.mulVec_sub]; abel
        rw [e2] at s
        exact congrFun (congrFun s i) j

/-! ### The filter -/

variable {T K X Y : Type} [DecidableEq K] [LinearOrder T] [ExactTime T] {kd : K → Nat}

/-- **C74**, for all in-order calls (`predict(u, t)`, `predict(t)`, `correct` at the current time and in the future) and any
rule for choosing the controls: the estimate is unbiased, and the reported covariance is the same for every outcome and is
exactly the covariance of the error. -/
theorem C74_all_in_order_calls [IsProbabilityMeasure μ] {sc : SysClass T LinSysData X} {mc : K → MeasClass T LinMeasData Y}
    (hsc : SysContract LinSysData.Sized sc) (hmc : ∀ j, MeasContract LinMeasData.Sized (mc j))
    (ops : sc.PlainOps) (mops : ∀ j, (mc j).PlainOps) {x0 : Fin n → ℝ} {P0 : Matrix (Fin n) (Fin n) ℝ}
    {rule : Set (Ω → ℝ) → (Ω → Fin m → ℝ) → Prop} {f : Ω → Filter T DVec DMat K (Env K LinSysData X LinMeasData Y)} {ctl : Ω → Fin m → ℝ}
    {evs : Ω → List (Event n m)} {x past data}
    (hf : ∀ ω, Recorded sc mc n m kd x0 P0 (f ω) (ctl ω) (evs ω)) (h : World μ rule x0 P0 evs x past data) :
    ∃ (xh : Ω → Fin n → ℝ) (P : Matrix (Fin n) (Fin n) ℝ),
      (∀ ω, (f ω).getState = .of (xh ω) ∧ (f ω).getCovariance = .of P) ∧
      (∀ i, Integrable (fun ω => x ω i - xh ω i) μ ∧ ∫ ω, (x ω i - xh ω i) ∂μ = 0) ∧
      (∀ i j, Integrable (fun ω => (x ω i - xh ω i) * (x ω j - xh ω j)) μ ∧
        ∫ ω, (x ω i - xh ω i) * (x ω j - xh ω j) ∂μ = P i j) := by
  obtain ⟨P, I⟩ := winv h
  refine ⟨fun ω => (kalmanRec x0 P0 (evs ω)).1, P, fun ω => ?_, fun i => ?_, fun i j => ?_⟩
  · have J := (hf ω).inv hsc hmc ops mops I.p0 (I.ok ω)
    exact ⟨J.x, by rw [← I.cov ω]; exact J.cov⟩
  · obtain ⟨h1, h2⟩ := span_centered I.centered (I.span i)
    exact ⟨h1.integrable (by norm_num), h2⟩
  · have h1 := (span_centered I.centered (I.span i)).1
    have h2 := (span_centered I.centered (I.span j)).1
    exact ⟨int_mul h1 h2, congrFun (congrFun I.mse i) j⟩

private theorem quad_eq {e : Ω → Fin n → ℝ} (he : Fin2 μ e) (l : Fin n → ℝ) :
    ∫ ω, (l ⬝ᵥ e ω) ^ 2 ∂μ = l ⬝ᵥ (mom μ e e *ᵥ l) := by
  have h := mom_quad (μ := μ) (Matrix.of fun (_ : Fin 1) j => l j) he
  have h2 := congrFun (congrFun h 0) 0
  have e1 : ((Matrix.of fun (_ : Fin 1) j => l j) * mom μ e e * (Matrix.of fun (_ : Fin 1) j => l j)ᵀ) 0 0
      = l ⬝ᵥ (mom μ e e *ᵥ l) := by
    rw [Matrix.mul_assoc]
    simp only [Matrix.mul_apply, Matrix.transpose_apply, Matrix.of_apply, dotProduct, Matrix.mulVec]
  rw [← e1, ← h2]
  simp only [mom, Matrix.of_apply, Matrix.mulVec, dotProduct, pow_two]

/-- **C89.** In a world that behaves as the models say, with controls computed linearly (affinely) from the measurements so
far: the Kalman filter's estimate is itself computed linearly from the measurements, and among all estimates computed so, no
matter how, it has the least mean square error in every direction `l` of the state space, namely `lᵀ P l` with the reported
covariance `P`; and it is the only one (up to outcomes of probability 0).  The distribution of the noises is free. -/
theorem C89_best_linear_estimate [IsProbabilityMeasure μ] {sc : SysClass T LinSysData X} {mc : K → MeasClass T LinMeasData Y}
    (hsc : SysContract LinSysData.Sized sc) (hmc : ∀ j, MeasContract LinMeasData.Sized (mc j))
    (ops : sc.PlainOps) (mops : ∀ j, (mc j).PlainOps) {x0 : Fin n → ℝ} {P0 : Matrix (Fin n) (Fin n) ℝ}
    {f : Ω → Filter T DVec DMat K (Env K LinSysData X LinMeasData Y)} {ctl : Ω → Fin m → ℝ}
    {evs : Ω → List (Event n m)} {x past data}
    (hf : ∀ ω, Recorded sc mc n m kd x0 P0 (f ω) (ctl ω) (evs ω))
    (h : World μ (fun data u => Known data u) x0 P0 evs x past data) :
    ∃ (xh : Ω → Fin n → ℝ) (P : Matrix (Fin n) (Fin n) ℝ),
      (∀ ω, (f ω).getState = .of (xh ω) ∧ (f ω).getCovariance = .of P) ∧
      Known data xh ∧ (∀ l, ∫ ω, (l ⬝ᵥ (x ω - xh ω)) ^ 2 ∂μ = l ⬝ᵥ (P *ᵥ l)) ∧
      ∀ y : Ω → Fin n → ℝ, Known data y →
        (∀ l, l ⬝ᵥ (P *ᵥ l) ≤ ∫ ω, (l ⬝ᵥ (x ω - y ω)) ^ 2 ∂μ) ∧
        ((∀ l, ∫ ω, (l ⬝ᵥ (x ω - y ω)) ^ 2 ∂μ = l ⬝ᵥ (P *ᵥ l)) → y =ᵐ[μ] xh) := by
  obtain ⟨P, I⟩ := winv h
  have J := ainv h
  have f0 := inSpan_fin2 I.centered I.span
  refine ⟨fun ω => (kalmanRec x0 P0 (evs ω)).1, P, fun ω => ?_, J.known, fun l => ?_, fun y hy => ?_⟩
  · have J := (hf ω).inv hsc hmc ops mops I.p0 (I.ok ω)
    exact ⟨J.x, by rw [← I.cov ω]; exact J.cov⟩
  · rw [quad_eq f0, I.mse]
  · obtain ⟨g0, g1⟩ := err_orth I J (known_sub J.known hy)
    have key : ∀ l, ∫ ω, (l ⬝ᵥ (x ω - y ω)) ^ 2 ∂μ
        = l ⬝ᵥ (P *ᵥ l) + ∫ ω, (l ⬝ᵥ ((kalmanRec x0 P0 (evs ω)).1 - y ω)) ^ 2 ∂μ := by
      intro l
      have e : (fun ω => x ω - y ω) = fun ω => (1 : Matrix (Fin n) (Fin n) ℝ) *ᵥ (x ω - (kalmanRec x0 P0 (evs ω)).1)
          + (1 : Matrix (Fin n) (Fin n) ℝ) *ᵥ ((kalmanRec x0 P0 (evs ω)).1 - y ω) := by
        funext ω; rw [Matrix.one_mulVec, Matrix.one_mulVec]; abel
      have f1 : Fin2 μ (fun ω => x ω - y ω) := by
        rw [e]; exact fin2_add (fin2_mulVec _ f0) (fin2_mulVec _ g0)
      rw [quad_eq f1, quad_eq g0, e, mom_step 1 1 f0 g0 (by rw [← mom_transpose, g1, Matrix.transpose_zero]), I.mse]
      simp [Matrix.add_mulVec]
    constructor
    · intro l
      rw [key l]
      have : 0 ≤ ∫ ω, (l ⬝ᵥ ((kalmanRec x0 P0 (evs ω)).1 - y ω)) ^ 2 ∂μ := integral_nonneg (fun ω => sq_nonneg _)
      linarith
    · intro hl
      have hz : ∀ i, ∀ᵐ ω ∂μ, ((kalmanRec x0 P0 (evs ω)).1 - y ω) i = 0 := by
        intro i
        have h1 := hl (Pi.single i 1)
        rw [key, add_eq_left] at h1
        have h2 : Integrable (fun ω => ((kalmanRec x0 P0 (evs ω)).1 - y ω) i * ((kalmanRec x0 P0 (evs ω)).1 - y ω) i) μ :=
          int_mul (g0 i) (g0 i)
        have h3 : ∫ ω, ((kalmanRec x0 P0 (evs ω)).1 - y ω) i * ((kalmanRec x0 P0 (evs ω)).1 - y ω) i ∂μ = 0 := by
          rw [← h1]
          congr 1
          funext ω
          rw [single_dotProduct, one_mul, pow_two]
        rw [integral_eq_zero_iff_of_nonneg (fun ω => mul_self_nonneg _) h2] at h3
        filter_upwards [h3] with ω hω
        exact mul_self_eq_zero.mp hω
      have := (ae_all_iff (ι := Fin n)).mpr hz
      filter_upwards [this] with ω hω
      funext i
      have := hω i
      rw [Pi.sub_apply, sub_eq_zero] at this
      exact this.symm

/-! ### A case that meets the hypotheses: two coins

The true position is +1 or -1 by the first coin; a position sensor has an error of +1 or -1 by the second coin.  The measured
value, negated, is then used as a control for half a second. -/

/-- two fair coins -/
private noncomputable def coins : Measure (Bool × Bool) := (PMF.uniformOfFintype (Bool × Bool)).toMeasure

private noncomputable instance : IsProbabilityMeasure coins := by unfold coins; infer_instance

private theorem coins_integral (g : Bool × Bool → ℝ) :
    ∫ ω, g ω ∂coins = (g (true, true) + g (true, false) + g (false, true) + g (false, false)) / 4 := by
  unfold coins
  rw [PMF.integral_eq_sum, Fintype.sum_prod_type]
  simp [PMF.uniformOfFintype_apply]
  ring

private def sgn (b : Bool) : ℝ := if b then 1 else -1

private theorem sgn_true : sgn true = 1 := rfl
private theorem sgn_false : sgn false = -1 := rfl

private def truth (ω : Bool × Bool) : Fin 2 → ℝ := ![sgn ω.1, 0]

private def sensorError (ω : Bool × Bool) : Fin 1 → ℝ := ![sgn ω.2]

private theorem truth_noise : IsNoise coins ∅ !![1, 0; 0, 0] (fun ω => truth ω - 0) where
  finite := fun i => MemLp.of_discrete
  mean := fun i => by
    rw [coins_integral]; fin_cases i <;> simp [truth, sgn_true, sgn_false]
  cov := fun i j => by
    rw [coins_integral]; fin_cases i <;> fin_cases j <;> simp [truth, sgn_true, sgn_false]
    norm_num
  white := fun s hs => absurd hs (Set.notMem_empty s)

private theorem sensor_noise : IsNoise coins (addNoise ∅ fun ω => truth ω - 0) (1 : Matrix (Fin 1) (Fin 1) ℝ) sensorError where
  finite := fun i => MemLp.of_discrete
  mean := fun i => by
    rw [coins_integral]; fin_cases i; simp [sensorError, sgn_true, sgn_false]
  cov := fun i j => by
    rw [coins_integral]; fin_cases i; fin_cases j; simp [sensorError, sgn_true, sgn_false]; norm_num
  white := by
    rintro s (hs | ⟨i, rfl⟩) j
    · exact absurd hs (Set.notMem_empty s)
    · rw [coins_integral]; fin_cases j; fin_cases i <;> simp [sensorError, truth, sgn_true, sgn_false]

private theorem no_noise {a : Nat} (past : Set (Bool × Bool → ℝ)) : IsNoise coins past (0 : Matrix (Fin a) (Fin a) ℝ) (fun _ => 0) where
  finite := fun i => MemLp.of_discrete
  mean := fun i => by simp
  cov := fun i j => by simp
  white := fun s _ i => by simp

private theorem pos_const' (s : Meas LinMeasData Unit) (x : DVec) (dt : ℝ) (s' : Meas LinMeasData Unit)
    (hs : s.Sized LinMeasData.Sized 2 1) (h : Examples.posClass.myUpdate s x dt = some s') : s'.der.C = .of !![1, 0] := by
  have e : Examples.posClass.myUpdate s x dt =
      if s.stateSize = 2 ∧ s.measDims = 1 then some { s with der := ⟨.of !![1, 0]⟩ } else some s := rfl
  rw [e, if_pos ⟨hs.states, hs.meas⟩] at h
  cases h
  rfl

private theorem cv_holds (x u : DVec) (s' : Sys LinSysData Unit)
    (h : Examples.cvClass.myUpdate Examples.cvEnv.sys x u (1 / 2 : ℝ) = some s') :
    s'.Holds (p := 2) !![1, 1 / 2; 0, 1] !![(1 / 2) ^ 2 / 2; 1 / 2] 1 !![(1 / 2) ^ 2 / 2; 1 / 2] 0 0 := by
  have e : Examples.cvClass.myUpdate Examples.cvEnv.sys x u (1 / 2 : ℝ) =
      some { Examples.cvEnv.sys with der := ⟨.of !![1, 1 / 2; 0, 1], .of !![(1 / 2) ^ 2 / 2; 1 / 2]⟩
                                     P := .identity 2
                                     V := .of !![(1 / 2) ^ 2 / 2; 1 / 2] } := rfl
  rw [e] at h
  cases h
  exact ⟨rfl, rfl, rfl, rfl, rfl, rfl⟩

private noncomputable def measured (ω : Bool × Bool) : Fin 1 → ℝ := !![1, 0] *ᵥ truth ω + sensorError ω

example : ∃ (f : Bool × Bool → Filter ℝ DVec DMat Unit (Env Unit LinSysData Unit LinMeasData Unit))
    (ctl : Bool × Bool → Fin 1 → ℝ) (evs : Bool × Bool → List (Event 2 1)) (x : Bool × Bool → Fin 2 → ℝ) (past data : Set (Bool × Bool → ℝ)),
    (∀ ω, Recorded Examples.cvClass (fun _ => Examples.posClass) 2 1 (fun _ => 1) 0 !![1, 0; 0, 0] (f ω) (ctl ω) (evs ω)) ∧
    World coins (fun data u => Known data u) 0 !![1, 0; 0, 0] evs x past data ∧ (∀ ω, (evs ω).length = 2) ∧
    ctl (true, true) ≠ ctl (true, false) := by
  have sc := Examples.cv_contract
  have mcn : ∀ _ : Unit, MeasContract LinMeasData.Sized Examples.posClass := fun _ => Examples.pos_contract
  have o : Examples.cvClass.PlainOps := Examples.plain_ops _
  have mo : ∀ _ : Unit, Examples.posClass.PlainOps := fun _ => Examples.plain_mops _
  have p0 : (!![1, 0; 0, 0] : Matrix (Fin 2) (Fin 2) ℝ).PosSemidef := noise_psd truth_noise
  have r0 : Recorded (T := ℝ) Examples.cvClass (fun _ : Unit => Examples.posClass) 2 1 (fun _ => 1) 0 !![1, 0; 0, 0]
      (Filter.construct (kfPlant Examples.cvClass (fun _ => Examples.posClass))
        {rewindHistory := false, historyWindow := 1, allowPast := false} Examples.cvEnv (.of 0) (.of !![1, 0; 0, 0]) 0) 0 [] :=
    .start _ _ _ ⟨rfl, rfl, ⟨⟨rfl, rfl⟩, rfl, rfl⟩, ⟨rfl, rfl⟩, ⟨rfl, rfl⟩, ⟨rfl, rfl⟩, ⟨rfl, rfl⟩⟩
      (fun _ => ⟨rfl, rfl, ⟨rfl, rfl⟩, ⟨rfl, rfl⟩⟩) ⟨rfl, fun _ => rfl⟩
  choose f1 r1 t1 s1 using fun ω : Bool × Bool =>
    r0.can_correct_const sc mcn o mo p0 (by intro ev h; cases h) () (measured ω) 1 PosDef.one !![1, 0] pos_const'
  have t1' : ∀ ω, (f1 ω).getStateTime = 0 := t1
  have s1' : ∀ ω, (f1 ω).env.sys = Examples.cvEnv.sys := s1
  choose f2 r2 t2 s2 using fun ω : Bool × Bool =>
    (r1 ω).can_predict_const (p := 2) (A := !![1, 1 / 2; 0, 1]) (B := !![(1 / 2) ^ 2 / 2; 1 / 2]) (W := 1)
      (V := !![(1 / 2) ^ 2 / 2; 1 / 2]) (Rp := 0) (Rc := 0) sc mcn o mo p0
      (by intro ev h; rw [List.mem_singleton.mp h]; exact PosDef.one) one_pos (-measured ω) (1 / 2) (by rw [t1']; norm_num)
      (by
        intro x s' h
        rw [s1', t1'] at h
        have e : TimeOps.sub (1 / 2 : ℝ) 0 = 1 / 2 := sub_zero _
        rw [e] at h
        exact cv_holds _ _ _ h)
  have w0 : World (m := 1) coins (fun data u => Known data u) 0 !![1, 0; 0, 0] _ truth _ _ := .start truth truth_noise
  have w1 := World.measure !![1, 0] (1 : Matrix (Fin 1) (Fin 1) ℝ) sensorError w0 PosDef.one sensor_noise
  have w2 := World.move (p := 2) !![1, 1 / 2; 0, 1] !![(1 / 2) ^ 2 / 2; 1 / 2] 1
    !![(1 / 2) ^ 2 / 2; 1 / 2] 0 0 (fun ω => -measured ω) (fun _ => 0) (fun _ => 0) w1 (by
      intro i
      exact Submodule.neg_mem _ (Submodule.subset_span (Or.inr (Or.inr ⟨i, rfl⟩)))) (no_noise _) (no_noise _)
  refine ⟨f2, _, _, _, _, _, r2, w2, fun _ => rfl, ?_⟩
  intro h
  have := congrFun h 0
  simp [measured, truth, sensorError, sgn_true, sgn_false] at this
  norm_num at this

end Props
end StateEstimation
