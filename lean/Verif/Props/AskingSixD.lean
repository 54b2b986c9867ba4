import Verif.Lemmas.Asking
import Verif.Props.SixDNoise

/-!
# C108, `SixDRates`: the more often the filter is asked, the more certain it gets

The noise matrix of `SixDRates` is proportional to the time step, so the variance a prediction adds goes with the *square* of
the time step.
-/

set_option linter.unusedSectionVars false

namespace StateEstimation
namespace Props

open Matrix Filter

open StateEstimation.SixDRates (part)

variable {K Y : Type} [DecidableEq K]

/-- The sum of the squares of the steps from `t` through the times `ts`. -/
def squaredSteps : ℝ → List ℝ → ℝ
  | _, [] => 0
  | t, s :: ts => (s - t) ^ 2 + squaredSteps s ts

/-- The acceleration entries of the state (`AX`, `AY`, `AZ`). -/
def accel (i : Fin 3) : Fin 18 := ⟨3 + i.val, by omega⟩

/-- The noises that move the acceleration `i`: the linear jerk and the linear bias jerk. -/
def jerk (i : Fin 3) : Fin 15 := ⟨i.val, by omega⟩
/-- See `jerk`. -/
def biasJerk (i : Fin 3) : Fin 15 := ⟨3 + i.val, by omega⟩

/-- The variance of the sum of the two jerks. -/
def jerkVariance (Rp : Matrix (Fin 15) (Fin 15) ℝ) (i : Fin 3) : ℝ :=
  Rp (jerk i) (jerk i) + Rp (jerk i) (biasJerk i) + Rp (biasJerk i) (jerk i) + Rp (biasJerk i) (biasJerk i)

/-- the accelerations are not moved, and take the noise of the two jerks -/
private theorem accel_entry {C : Matrix (Fin 18) (Fin 18) ℝ} {Rp : Matrix (Fin 15) (Fin 15) ℝ} {V : Matrix (Fin 18) (Fin 0) ℝ}
    {Rc : Matrix (Fin 0) (Fin 0) ℝ} (x : Fin 18 → ℝ) (dt : ℝ) (i : Fin 3) :
    (SixDRates.jacobian 1 x dt * C * (SixDRates.jacobian 1 x dt)ᵀ + noise 0 x dt * Rp * (noise 0 x dt)ᵀ + V * Rc * Vᵀ)
      (accel i) (accel i) = C (accel i) (accel i) + dt ^ 2 * jerkVariance Rp i := by
  have hG : ∀ j, SixDRates.jacobian 1 x dt (accel i) j = (1 : Matrix (Fin 18) (Fin 18) ℝ) (accel i) j := by
    intro j
    have : (accel i).val = 3 + i.val := rfl
    rw [SixDRates.jacobian_apply, dif_neg (by omega), dif_neg (by omega), if_neg (by omega)]
  have h0 := bias_entry (C := C) (W := (0 : Matrix (Fin 18) (Fin 15) ℝ)) (Rp := Rp) (V := V) (Rc := Rc) hG (fun _ => rfl)
  rw [Matrix.add_apply, Matrix.add_apply] at h0 ⊢
  have hz : ((0 : Matrix (Fin 18) (Fin 15) ℝ) * Rp * (0 : Matrix (Fin 18) (Fin 15) ℝ)ᵀ) (accel i) (accel i) = 0 := by
    rw [Matrix.zero_mul, Matrix.zero_mul]; rfl
  have hW : noise 0 x dt (accel i) = dt • (Pi.single (jerk i) 1 + Pi.single (biasJerk i) 1) := by
    funext j
    unfold noise accel jerk biasJerk
    fin_cases i <;> fin_cases j <;> simp [Pi.single_apply]
  have hw : (noise 0 x dt * Rp * (noise 0 x dt)ᵀ) (accel i) (accel i) = dt ^ 2 * jerkVariance Rp i := by
    have : (noise 0 x dt * Rp * (noise 0 x dt)ᵀ) (accel i) (accel i)
        = (noise 0 x dt (accel i)) ᵥ* Rp ⬝ᵥ (noise 0 x dt (accel i)) := rfl
    rw [this, hW]
    simp only [smul_vecMul, smul_dotProduct, dotProduct_smul, add_vecMul, Matrix.single_one_vecMul, dotProduct_add,
      dotProduct_single_one, Pi.add_apply, Matrix.row, smul_eq_mul]
    rw [Pi.smul_apply, Pi.smul_apply, Pi.add_apply, Pi.add_apply, smul_eq_mul, smul_eq_mul]
    unfold jerkVariance
    ring
  rw [hz] at h0
  rw [hw]
  linarith

/-- **C108 (refuted for `SixDRates`).**  An EKF on the 6-D rates model as constructed (computing its Jacobian and noise), with
process noise `Rp`, any sensors, in any mode: after questions for the times `ts` the variance of an acceleration is the first
one plus the variance of the jerks times the sum of the *squares* of the steps.  So it depends on the questions in between, and
the more of them the less: see `C108_six_d_steps`. -/
theorem C108_six_d_refuted (mc : K → MeasClass ℝ NonlinMeasData Y) (meas : K → Meas NonlinMeasData Y)
    (sort : List (FilterInput ℝ DVec DMat K) → List (FilterInput ℝ DVec DMat K)) (params : Params ℝ)
    (Rp : Matrix (Fin 15) (Fin 15) ℝ) (x : Fin 18 → ℝ) (C : Matrix (Fin 18) (Fin 18) ℝ) (t0 : ℝ) (ts : List ℝ)
    (hts : (t0 :: ts).Pairwise (· < ·)) :
    ∃ g D, (construct (ekfPlant SixDRates.cls mc) params ⟨{ SixDRates.construct true true with Rp := .of Rp }, meas⟩
        (.of x) (.of C) t0).run (ekfPlant SixDRates.cls mc) sort (ts.map .predictTime) = some g ∧ g.getCovariance = .of D ∧
      ∀ i, D (accel i) (accel i) = C (accel i) (accel i) + squaredSteps t0 ts * jerkVariance Rp i := by
  have key : ∀ (ts : List ℝ) (f : Filter ℝ DVec DMat K (Env K NonlinSysData SixDRates.Flags NonlinMeasData Y)) (x : Fin 18 → ℝ)
      (C : Matrix (Fin 18) (Fin 18) ℝ), (f.state.timestamp :: ts).Pairwise (· < ·) → NoiseState f.env.sys → RatesState f.env.sys →
      f.env.sys.Rp = .of Rp → f.env.sys.fm.checkStationary = false → f.prevControl.size = 0 → f.state.x = .of x →
      f.state.covariance = .of C →
      ∃ g D, f.run (ekfPlant SixDRates.cls mc) sort (ts.map .predictTime) = some g ∧ g.getCovariance = .of D ∧
        ∀ i, D (accel i) (accel i) = C (accel i) (accel i) + squaredSteps f.state.timestamp ts * jerkVariance Rp i := by
    intro ts
    induction ts with
    | nil =>
      intro f x C _ _ _ _ _ _ hx hc
      exact ⟨f, C, rfl, hc, fun i => by rw [squaredSteps, zero_mul, add_zero]⟩
    | cons t ts ih =>
      intro f x C ht hn hr hRp hq hp hx hc
      obtain ⟨ht1, ht2⟩ := List.pairwise_cons.mp ht
      have e1 := predictTime_core (P := ekfPlant SixDRates.cls mc) rfl f t hq (ht1 t List.mem_cons_self)
      obtain ⟨s', a1, a2, a3⟩ := noise_step f.env.sys hn x (t - f.state.timestamp)
      obtain ⟨s'', b1, b2, b3, b4⟩ := rates_step f.env.sys hr x (t - f.state.timestamp)
      obtain rfl : s' = s'' := Option.some.inj (a1.symm.trans b1)
      obtain ⟨_, c1, c2, c3⟩ := hn.sized.update SixDRates.contract (x := .of x) rfl (show (DVec.zero 0).size = 0 from rfl)
        (t - f.state.timestamp)
      obtain rfl : s' = _ := Option.some.inj (a1.symm.trans c1)
      have hset : f.env.sys.setControlCovariance f.env.sys.Rc = some f.env.sys := by
        unfold Sys.setControlCovariance
        rw [if_pos ⟨by rw [hn.sized.Rc.1, hn.sized.controls], by rw [hn.sized.Rc.2, hn.sized.controls]⟩]
      have hin : f.core.inUse (ekfPlant SixDRates.cls mc) = (.zero 0, f.env.sys.Rc) := by
        unfold Core.inUse
        rw [if_neg (by show ¬ f.prevControl.size > 0; omega)]
        show (DVec.zero f.env.sys.controlDims, f.env.sys.Rc) = _
        rw [hn.sized.controls]
      obtain ⟨V, hV⟩ := c2.V.exists_of
      obtain ⟨Rc, hRc⟩ := c2.Rc.exists_of
      have hRp' : s'.Rp = .of Rp := c3.Rp.trans hRp
      have hval : ekfPredict SixDRates.cls f.env.sys (.of x) (.of C) (.zero 0) (t - f.state.timestamp)
          (fun s => ({ f.env with sys := s } : Env K NonlinSysData SixDRates.Flags NonlinMeasData Y)) =
          some (s'.der.g, .of (SixDRates.jacobian 1 x (t - f.state.timestamp) * C * (SixDRates.jacobian 1 x (t - f.state.timestamp))ᵀ
            + noise 0 x (t - f.state.timestamp) * Rp * (noise 0 x (t - f.state.timestamp))ᵀ + V * Rc * Vᵀ), { f.env with sys := s' }) := by
        unfold ekfPredict
        simp only [Option.bind_eq_bind, a1, Option.bind_some, b4, a3, hRp', hV, hRc, propagateCov_of]
      have hgo : f.core.goOn (ekfPlant SixDRates.cls mc) t = some ⟨s'.der.g,
          .of (SixDRates.jacobian 1 x (t - f.state.timestamp) * C * (SixDRates.jacobian 1 x (t - f.state.timestamp))ᵀ
            + noise 0 x (t - f.state.timestamp) * Rp * (noise 0 x (t - f.state.timestamp))ᵀ + V * Rc * Vᵀ), t, f.core.pc, f.core.pcc,
          { f.env with sys := s' }⟩ := by
        unfold Core.goOn
        rw [hin]
        have es : (ekfPlant SixDRates.cls mc).setRc f.core.env f.env.sys.Rc = some f.env := by
          show (f.env.sys.setControlCovariance f.env.sys.Rc).map _ = _
          rw [hset]
          rfl
        have ep : (ekfPlant SixDRates.cls mc).myPredict f.env f.core.x f.core.cov (.zero 0) (TimeOps.sub t f.core.ts) = _ :=
          (show ekfPredict SixDRates.cls f.env.sys f.state.x f.state.covariance (.zero 0) (t - f.state.timestamp) _ = _ by
            rw [hx, hc])
        rw [es, Option.bind_some, ep, hval]
        rfl
      rw [hgo] at e1
      obtain ⟨f', k1, k2⟩ := Option.map_eq_some_iff.mp e1
      have k3 : f.step (ekfPlant SixDRates.cls mc) sort (.predictTime t) = some f' := k1
      have q1 : f'.state.x = s'.der.g := congrArg Core.x k2
      have q2 : f'.state.covariance = _ := congrArg Core.cov k2
      have q3 : f'.state.timestamp = t := congrArg Core.ts k2
      have q4 : f'.prevControl = f.prevControl := congrArg Core.pc k2
      have q5 : f'.env = { f.env with sys := s' } := congrArg Core.env k2
      have q6 : f'.env.sys = s' := by rw [q5]
      obtain ⟨g, D, j1, j2, j3⟩ := ih f' (SixDRates.predicted f.env.sys x (t - f.state.timestamp)) _ (by rw [q3]; exact ht2)
        (by rw [q6]; exact a2) (by rw [q6]; exact b2) (by rw [q6]; exact hRp')
        (by rw [q6, c3.fm]; exact hq) (by rw [q4]; exact hp) (q1.trans b3) q2
      refine ⟨g, D, ?_, j2, fun i => ?_⟩
      · rw [List.map_cons, Filter.run, k3]
        exact j1
      · rw [j3 i, accel_entry, q3, squaredSteps]
        ring
  have hn : NoiseState ({ SixDRates.construct true true with Rp := .of Rp } : SixDRates.Obj) := by
    have h := SixDRates.construct_sized true true
    exact ⟨⟨h.states, h.controls, h.der, ⟨rfl, rfl⟩, ⟨rfl, rfl⟩, h.V, h.Rc⟩, ⟨rfl, rfl, rfl⟩, rfl, Or.inl rfl⟩
  exact key ts _ x C hts hn ⟨hn.sized, hn.shape, rfl, rfl, Or.inl rfl⟩ rfl rfl rfl rfl rfl

theorem squaredSteps_equal (a d : ℝ) (n : Nat) :
    squaredSteps a ((List.range' 1 n).map fun k : Nat => a + k * d) = n * d ^ 2 := by
  have key : ∀ (n : Nat) (s : Nat), squaredSteps (a + s * d) ((List.range' (s + 1) n).map fun k : Nat => a + k * d) = n * d ^ 2 := by
    intro n
    induction n with
    | zero => intro s; simp [squaredSteps]
    | succ n ih =>
      intro s
      rw [List.range'_succ, List.map_cons, squaredSteps]
      have := ih (s + 1)
      rw [this]
      push_cast
      ring
  have := key n 0
  simpa using this

/-- **C108 (refuted for `SixDRates`: more questions, less uncertainty).**  Asked `n` times in equal steps over the time `T`, the
EKF on the 6-D rates model says that the variance of an acceleration has grown by the variance of the jerks times `T²/n`: it
goes to zero with the number of questions. -/
theorem C108_six_d_steps (mc : K → MeasClass ℝ NonlinMeasData Y) (meas : K → Meas NonlinMeasData Y)
    (sort : List (FilterInput ℝ DVec DMat K) → List (FilterInput ℝ DVec DMat K)) (params : Params ℝ)
    (Rp : Matrix (Fin 15) (Fin 15) ℝ) (x : Fin 18 → ℝ) (C : Matrix (Fin 18) (Fin 18) ℝ) (t0 T : ℝ) (hT : 0 < T) (n : Nat)
    (hn : 0 < n) :
    ∃ g D, (construct (ekfPlant SixDRates.cls mc) params ⟨{ SixDRates.construct true true with Rp := .of Rp }, meas⟩
        (.of x) (.of C) t0).run (ekfPlant SixDRates.cls mc) sort
          ((List.range' 1 n).map fun k : Nat => .predictTime (t0 + k * (T / n))) = some g ∧ g.getCovariance = .of D ∧
      ∀ i, D (accel i) (accel i) = C (accel i) (accel i) + T ^ 2 / n * jerkVariance Rp i := by
  have hn' : (0 : ℝ) < n := Nat.cast_pos.mpr hn
  have hd : 0 < T / n := div_pos hT hn'
  obtain ⟨g, D, h1, h2, h3⟩ := C108_six_d_refuted mc meas sort params Rp x C t0
    ((List.range' 1 n).map fun k : Nat => t0 + k * (T / n)) (by
      rw [List.pairwise_cons]
      constructor
      · intro t ht
        obtain ⟨k, hk, rfl⟩ := List.mem_map.mp ht
        have : (0 : ℝ) < k := Nat.cast_pos.mpr (by simp at hk; omega)
        have := mul_pos this hd
        linarith
      · refine List.pairwise_map.mpr (List.Pairwise.imp ?_ List.pairwise_lt_range')
        intro a b hab
        have : (a : ℝ) < b := Nat.cast_lt.mpr hab
        have := mul_lt_mul_of_pos_right this hd
        linarith)
  refine ⟨g, D, ?_, h2, fun i => ?_⟩
  · rw [List.map_map] at h1
    exact h1
  · rw [h3 i, squaredSteps_equal]
    congr 2
    field_simp

/-- With unit process noise: asked once after 10 seconds, the variance has grown by 200; asked every 0.1 seconds, by 2. -/
example (mc : K → MeasClass ℝ NonlinMeasData Y) (meas : K → Meas NonlinMeasData Y)
    (sort : List (FilterInput ℝ DVec DMat K) → List (FilterInput ℝ DVec DMat K)) (params : Params ℝ) (n : Nat) (hn : 0 < n) :
    ∃ g D, (construct (ekfPlant SixDRates.cls mc) params ⟨{ SixDRates.construct true true with Rp := .of (1 : Matrix (Fin 15) (Fin 15) ℝ) }, meas⟩
        (.of (0 : Fin 18 → ℝ)) (.of (0 : Matrix (Fin 18) (Fin 18) ℝ)) 0).run (ekfPlant SixDRates.cls mc) sort
          ((List.range' 1 n).map fun k : Nat => .predictTime (0 + k * (10 / n))) = some g ∧ g.getCovariance = .of D ∧
      D (accel 0) (accel 0) = 200 / n := by
  obtain ⟨g, D, h1, h2, h3⟩ := C108_six_d_steps mc meas sort params 1 0 0 0 10 (by norm_num) n hn
  refine ⟨g, D, h1, h2, (h3 0).trans ?_⟩
  have : jerkVariance 1 0 = 2 := by
    unfold jerkVariance jerk biasJerk
    simp [Matrix.one_apply]
    norm_num
  rw [this, Matrix.zero_apply]
  ring

end Props
end StateEstimation
