import Verif.Lemmas.OneStep
import Verif.Model.KF
import Verif.Model.UKF
import Verif.Model.VS
import Verif.Spec.Models
import Verif.Props.Kalman
import Mathlib.LinearAlgebra.Matrix.ToLin

/-!
# C116: a correction moves the estimate in proportion to what is measured

For all six filter classes with the default vector operations: among the readings a sensor may give at a time, the estimate
after the correction depends on the reading through `x + G (z - zp)`, where `x` is what the filter would predict for that time,
and the covariance does not depend on it.
-/

set_option linter.unusedSectionVars false

namespace StateEstimation
namespace Props

open Filter

/-- a partial function of vectors that is linear on the vectors of each size on which it is defined -/
private def LinOpt (f : DVec → Option DVec) : Prop :=
  ∀ (k : Nat) (a : Fin k → ℝ) (d : DVec), f (.of a) = some d →
    ∃ (n : Nat) (A : (Fin k → ℝ) →ₗ[ℝ] (Fin n → ℝ)), ∀ b : Fin k → ℝ, f (.of b) = some (.of (A b))

private theorem LinOpt.comp {f g : DVec → Option DVec} (hf : LinOpt f) (hg : LinOpt g) : LinOpt fun v => (f v).bind g := by
  intro k a d h
  obtain ⟨w, h1, h2⟩ := Option.bind_eq_some_iff.mp h
  obtain ⟨n, A, hA⟩ := hf k a w h1
  rw [hA a, Option.some.injEq] at h1
  rw [← h1] at h2
  obtain ⟨n', B, hB⟩ := hg _ _ d h2
  exact ⟨n', B ∘ₗ A, fun b => by show (f (.of b)).bind g = _; rw [hA b, Option.bind_some, hB]; rfl⟩

private theorem linOpt_mulVec (G : DMat) : LinOpt G.mulVec := by
  intro k a d h
  unfold DMat.mulVec at h
  split at h
  · rename_i hk
    obtain ⟨r, B, hB⟩ : ∃ (r : Nat) (B : Matrix (Fin r) (Fin k) ℝ), G = DMat.of B := ⟨_, G.exists_of rfl hk⟩
    subst hB
    exact ⟨_, B.mulVecLin, fun b => by rw [DMat.mulVec_of]; rfl⟩
  · simp at h

private theorem linOpt_getSubset (map : List Nat) : LinOpt fun v => getSubset v map := by
  intro k a d h
  change getSubset (.of a) map = some d at h
  unfold getSubset at h
  split at h
  · rename_i hm
    split at h
    · rename_i hb
      refine ⟨map.length, LinearMap.funLeft ℝ ℝ (fun i => (⟨mapAt map i, hb i⟩ : Fin k)), fun b => ?_⟩
      show getSubset (.of b) map = _
      unfold getSubset
      rw [if_pos hm, dif_pos hb]
      rfl
    · simp at h
  · rename_i hm
    exact ⟨k, LinearMap.id, fun b => by show getSubset (.of b) map = _; unfold getSubset; rw [if_neg hm]; rfl⟩

private theorem linOpt_write (map : List Nat) : ∀ (i : Nat) {k n : Nat} (a : Fin k → ℝ) (v : Fin n → ℝ) (d : DVec),
    writeVec (.of a) i map (.of v) = some d →
    ∃ A : (Fin k → ℝ) × (Fin n → ℝ) →ₗ[ℝ] (Fin n → ℝ), ∀ b w, writeVec (.of b) i map (.of w) = some (.of (A (b, w))) := by
  induction map with
  | nil => intro i k n a v d _; exact ⟨LinearMap.snd ℝ _ _, fun b w => rfl⟩
  | cons r rs ih =>
    intro i k n a v d h
    simp only [writeVec, Option.bind_eq_bind] at h
    obtain ⟨c, h1, h⟩ := Option.bind_eq_some_iff.mp h
    obtain ⟨full, h2, h⟩ := Option.bind_eq_some_iff.mp h
    unfold DVec.get? at h1
    split at h1
    · rename_i hi
      unfold DVec.set? at h2
      split at h2
      · rename_i hr
        rw [Option.some.injEq] at h2
        rw [← h2] at h
        have hi' : i < k := hi
        obtain ⟨A, hA⟩ := ih (i + 1) (n := n) a (fun j => if j.val = r then c else v j) d h
        let S : (Fin k → ℝ) × (Fin n → ℝ) →ₗ[ℝ] (Fin n → ℝ) :=
          { toFun := fun p j => if j.val = r then p.1 ⟨i, hi'⟩ else p.2 j
            map_add' := by intro p q; funext j; by_cases hj : j.val = r <;> simp [hj]
            map_smul' := by intro t p; funext j; by_cases hj : j.val = r <;> simp [hj] }
        refine ⟨A ∘ₗ (LinearMap.prod (LinearMap.fst ℝ _ _) S), fun b w => ?_⟩
        simp only [writeVec, Option.bind_eq_bind]
        have e1 : (DVec.of b).get? i = some (b ⟨i, hi'⟩) := by unfold DVec.get?; exact dif_pos hi'
        have e2 : (DVec.of w).set? r (b ⟨i, hi'⟩) = some (.of (S (b, w))) := by unfold DVec.set?; exact if_pos hr
        rw [e1, Option.bind_some, e2, Option.bind_some, hA]
        rfl
      · simp at h2
    · simp at h1

private theorem linOpt_convert (map : List Nat) (n : Nat) : LinOpt fun v => convertSubsetToFullZeroed v map n := by
  intro k a d h
  change convertSubsetToFullZeroed (.of a) map n = some d at h
  unfold convertSubsetToFullZeroed at h
  split at h
  · rename_i hm
    obtain ⟨A, hA⟩ := linOpt_write map 0 a (0 : Fin n → ℝ) d h
    refine ⟨n, A ∘ₗ LinearMap.inl ℝ _ _, fun b => ?_⟩
    show convertSubsetToFullZeroed (.of b) map n = _
    unfold convertSubsetToFullZeroed
    rw [if_pos hm]
    exact hA b 0
  · rename_i hm
    exact ⟨k, LinearMap.id, fun b => by show convertSubsetToFullZeroed (.of b) map n = _; unfold convertSubsetToFullZeroed; rw [if_neg hm]; rfl⟩

variable {Z : Type}

/-- the correction step `F` moves `x` in proportion to the reading -/
private def AffineIn (x : DVec) (F : DVec → Option (DVec × DMat × Z)) : Prop :=
  ∀ (k : Nat) (z0 : Fin k → ℝ) r0, F (.of z0) = some r0 →
    ∃ (n : Nat) (xv : Fin n → ℝ) (G : Matrix (Fin n) (Fin k) ℝ) (zp : Fin k → ℝ), x = .of xv ∧
      ∀ z : Fin k → ℝ, F (.of z) = some (.of (xv + G.mulVec (z - zp)), r0.2)

private theorem affine_bind {A : Type} {x : DVec} {o : Option A} {F : A → DVec → Option (DVec × DMat × Z)}
    (h : ∀ a, AffineIn x (F a)) : AffineIn x fun z => o >>= fun a => F a z := by
  intro k z0 r0 h0
  obtain ⟨a, rfl, h1⟩ := Option.bind_eq_some_iff.mp h0
  exact h a k z0 r0 h1

private theorem affine_end {sub add : DVec → DVec → Option DVec} (hsub : sub = DVec.sub) (hadd : add = DVec.add) {x zp : DVec} {lin : DVec → Option DVec} {rest : DVec → Option (DVec × DMat × Z)} (hl : LinOpt lin)
    (o : Option (DMat × Z)) (hr : ∀ x', rest x' = o.map fun c => (x', c)) :
    AffineIn x fun z => sub z zp >>= fun dz => lin dz >>= fun dx => add x dx >>= rest := by
  subst hsub hadd
  intro k z0 r0 h00
  obtain ⟨dz, h1, h0⟩ := Option.bind_eq_some_iff.mp h00
  clear h00
  obtain ⟨dx, h2, h01⟩ := Option.bind_eq_some_iff.mp h0
  clear h0
  obtain ⟨x', h3, h0⟩ := Option.bind_eq_some_iff.mp h01
  clear h01
  have hs : k = zp.size := by
    unfold DVec.sub at h1
    split at h1
    · rename_i h; exact h
    · simp at h1
  obtain ⟨zpv, rfl⟩ := zp.exists_of hs.symm
  rw [DVec.sub_of, Option.some.injEq] at h1
  rw [← h1] at h2
  obtain ⟨n, A, hA⟩ := hl _ _ _ h2
  rw [hA, Option.some.injEq] at h2
  rw [← h2] at h3
  have hx : x.size = n := by
    unfold DVec.add at h3
    split at h3
    · rename_i h; exact h
    · simp at h3
  obtain ⟨xv, rfl⟩ := x.exists_of hx
  rw [hr] at h0
  obtain ⟨c, rfl, h4⟩ := Option.map_eq_some_iff.mp h0
  refine ⟨n, xv, LinearMap.toMatrix' A, zpv, rfl, fun z => ?_⟩
  show ((DVec.sub (.of z) (.of zpv)).bind fun dz => (lin dz).bind fun dx => (DVec.add (.of xv) dx).bind rest) = _
  rw [DVec.sub_of, Option.bind_some, hA, Option.bind_some, DVec.add_of, Option.bind_some, hr, Option.map_some,
    LinearMap.toMatrix'_mulVec, ← h4]

section classes
variable {T X Y : Type}

private theorem affine_kf {sc : SysClass T LinSysData X} {mc : MeasClass T LinMeasData Y} (hso : sc.PlainOps) (hmo : mc.PlainOps)
    (s : Sys LinSysData X) (m : Meas LinMeasData Y) (x : DVec) (cov : DMat) (dt : T) (back : Meas LinMeasData Y → Z) :
    AffineIn x fun z => kfCorrect sc mc s m x cov z dt back := by
  unfold kfCorrect
  refine affine_bind fun m' => affine_bind fun G => affine_bind fun zp => affine_end (hmo.sub _) (hso.add _) (linOpt_mulVec G)
    ((shrinkCov x.size G m'.der.C cov).map fun c => (c, back m')) fun x' => ?_
  cases shrinkCov x.size G m'.der.C cov <;> rfl

private theorem affine_ekf {sc : SysClass T NonlinSysData X} {mc : MeasClass T NonlinMeasData Y} (hso : sc.PlainOps)
    (hmo : mc.PlainOps) (s : Sys NonlinSysData X) (m : Meas NonlinMeasData Y) (x : DVec) (cov : DMat) (dt : T)
    (back : Meas NonlinMeasData Y → Z) : AffineIn x fun z => ekfCorrect sc mc s m x cov z dt back := by
  unfold ekfCorrect
  refine affine_bind fun m' => affine_bind fun G => affine_end (hmo.sub _) (hso.add _) (linOpt_mulVec G)
    ((shrinkCov x.size G m'.der.H cov).map fun c => (c, back m')) fun x' => ?_
  cases shrinkCov x.size G m'.der.H cov <;> rfl

private theorem affine_ukf (llt : DMat → Option DMat) (junk : Nat → Nat → ℝ) {sc : SysClass T NonlinSysData X}
    {mc : MeasClass T NonlinMeasData Y} (hso : sc.PlainOps) (hmo : mc.PlainOps) (sp : SigmaParams) (s : Sys NonlinSysData X)
    (m : Meas NonlinMeasData Y) (x : DVec) (cov : DMat) (dt : T) (back : Meas NonlinMeasData Y → Z) :
    AffineIn x fun z => ukfCorrect llt junk sc mc sp s m x cov z dt back := by
  unfold ukfCorrect
  refine affine_bind fun L => affine_bind fun pts => affine_bind fun m' => affine_bind fun obs => affine_bind fun r =>
    affine_bind fun zp => affine_bind fun S => affine_bind fun cross => affine_bind fun Si => affine_bind fun G =>
    affine_end (hmo.sub _) (hso.add _) (linOpt_mulVec G)
    ((G.mul S).bind fun GS => (GS.mul G.transpose).bind fun GSG => (cov.sub GSG).map fun c => (c, back r.1)) fun x' => ?_
  cases G.mul S with
  | none => rfl
  | some GS =>
    simp only [Option.bind_eq_bind, Option.bind_some]
    cases GS.mul G.transpose with
    | none => rfl
    | some GSG =>
      simp only [Option.bind_eq_bind, Option.bind_some]
      cases cov.sub GSG <;> rfl

private theorem affine_vs {sub add : DVec → DVec → Option DVec} (hsub : sub = DVec.sub) (hadd : add = DVec.add) {x zp : DVec} {am as : List Nat} {n : Nat} (G : DMat) {rest : DVec → Option (DVec × DMat × Z)}
    (o : Option (DMat × Z)) (hr : ∀ x', rest x' = o.map fun c => (x', c)) :
    AffineIn x fun z => sub z zp >>= fun dz => getSubset dz am >>= fun dzS => G.mulVec dzS >>= fun dxS =>
      convertSubsetToFullZeroed dxS as n >>= fun dx => add x dx >>= rest := by
  have := affine_end hsub hadd (x := x) (zp := zp) (rest := rest)
    (((linOpt_getSubset am).comp (linOpt_mulVec G)).comp (linOpt_convert as n)) o hr
  simp only [Option.bind_eq_bind, Option.bind_assoc] at this ⊢
  exact this

private theorem affine_kfvs {sc : SysClass T LinSysData X} {mc : MeasClass T LinMeasData Y} (hso : sc.PlainOps) (hmo : mc.PlainOps)
    (s : Sys LinSysData X) (m : Meas LinMeasData Y) (x : DVec) (cov : DMat) (dt : T) (back : Meas LinMeasData Y → Z) :
    AffineIn x fun z => kfvsCorrect sc mc s m x cov z dt back := by
  unfold kfvsCorrect
  refine affine_bind fun m' => affine_bind fun xS => affine_bind fun covS => affine_bind fun CS => affine_bind fun RS =>
    affine_bind fun G => affine_bind fun zS => affine_bind fun zFull => affine_vs (hmo.sub _) (hso.add _) G
    ((shrinkCov covS.rows G CS covS).bind fun c => (convertSubsetToFullSq c cov s.activeStates).map fun c => (c, back m'))
    fun x' => ?_
  cases shrinkCov covS.rows G CS covS with
  | none => rfl
  | some c =>
    simp only [Option.bind_eq_bind, Option.bind_some]
    cases convertSubsetToFullSq c cov s.activeStates <;> rfl

private theorem affine_ekfvs {sc : SysClass T NonlinSysData X} {mc : MeasClass T NonlinMeasData Y} (hso : sc.PlainOps)
    (hmo : mc.PlainOps) (s : Sys NonlinSysData X) (m : Meas NonlinMeasData Y) (x : DVec) (cov : DMat) (dt : T)
    (back : Meas NonlinMeasData Y → Z) : AffineIn x fun z => ekfvsCorrect sc mc s m x cov z dt back := by
  unfold ekfvsCorrect
  refine affine_bind fun m' => affine_bind fun covS => affine_bind fun HS => affine_bind fun RS =>
    affine_bind fun G => affine_vs (hmo.sub _) (hso.add _) G
    ((shrinkCov covS.rows G HS covS).bind fun c => (convertSubsetToFullSq c cov s.activeStates).map fun c => (c, back m'))
    fun x' => ?_
  cases shrinkCov covS.rows G HS covS with
  | none => rfl
  | some c =>
    simp only [Option.bind_eq_bind, Option.bind_some]
    cases convertSubsetToFullSq c cov s.activeStates <;> rfl

private theorem affine_ukfvs (llt : DMat → Option DMat) (junk : Nat → Nat → ℝ) {sc : SysClass T NonlinSysData X}
    {mc : MeasClass T NonlinMeasData Y} (hso : sc.PlainOps) (hmo : mc.PlainOps) (sp : SigmaParams) (s : Sys NonlinSysData X)
    (m : Meas NonlinMeasData Y) (x : DVec) (cov : DMat) (dt : T) (back : Meas NonlinMeasData Y → Z) :
    AffineIn x fun z => ukfvsCorrect llt junk sc mc sp s m x cov z dt back := by
  unfold ukfvsCorrect
  refine affine_bind fun covS => affine_bind fun L => affine_bind fun pts => affine_bind fun m' => affine_bind fun obs =>
    affine_bind fun r => affine_bind fun zp => affine_bind fun RS => affine_bind fun S => affine_bind fun cross =>
    affine_bind fun Si => affine_bind fun G => affine_vs (hmo.sub _) (hso.add _) G
    ((G.mul S).bind fun GS => (GS.mul G.transpose).bind fun GSG => (covS.sub GSG).bind fun c =>
      (convertSubsetToFullSq c cov s.activeStates).map fun c => (c, back r.1)) fun x' => ?_
  cases G.mul S with
  | none => rfl
  | some GS =>
    simp only [Option.bind_eq_bind, Option.bind_some]
    cases GS.mul G.transpose with
    | none => rfl
    | some GSG =>
      simp only [Option.bind_eq_bind, Option.bind_some]
      cases covS.sub GSG with
      | none => rfl
      | some c =>
        simp only [Option.bind_eq_bind, Option.bind_some]
        cases convertSubsetToFullSq c cov s.activeStates <;> rfl

end classes

section api
variable {T K E : Type} [LinearOrder T] [ExactTime T]

/-- **The claim for one filter class.**  A sensor `j` and a system model that do not test for stationarity, a time `t` that is not
before the state's time: if some reading of `k` components with covariance `R` is accepted, then so is every reading of `k`
components, and there are a matrix `G` and an expected reading `zp` such that after the reading `z` the state is
`x + G (z - zp)`, where `x` is what `predict(t)` reports; the covariance, time and models do not depend on the reading. -/
def RespondsLinearly (P : Plant T DVec DMat K E) : Prop :=
  ∀ (f : Filter T DVec DMat K E) (j : K) (R : DMat) (t : T) (k : Nat) (z0 : Fin k → ℝ) (g0 : Filter T DVec DMat K E),
    P.sysCheck f.env = false → P.measCheck f.env j = false → f.getStateTime ≤ t →
    f.correct P (.of z0) R t (some j) = some g0 →
    ∃ (q : Filter T DVec DMat K E) (n : Nat) (x : Fin n → ℝ) (G : Matrix (Fin n) (Fin k) ℝ) (zp : Fin k → ℝ),
      f.predictTime P t = some q ∧ q.getState = .of x ∧
      ∀ z : Fin k → ℝ, ∃ g, f.correct P (.of z) R t (some j) = some g ∧ g.getState = .of (x + G.mulVec (z - zp)) ∧
        g.getCovariance = g0.getCovariance ∧ g.getStateTime = g0.getStateTime ∧ g.env = g0.env

private theorem respond (P : Plant T DVec DMat K E) (hk : P.KeepsChecks)
    (hA : ∀ e x c j dt, AffineIn x fun z => P.myCorrect e x c z j dt) : RespondsLinearly P := by
  intro f j R t k z0 g0 hs hm ht hg0
  obtain ⟨hno, hyes⟩ := correct_as_step hk f j t hs hm ht
  cases hq : f.predictTime P t with
  | none => rw [hno _ _ hq] at hg0; cases hg0
  | some q =>
    obtain ⟨_, _, hcor⟩ := hyes q hq
    rw [hcor] at hg0
    obtain ⟨env, henv, hg0⟩ := Option.bind_eq_some_iff.mp hg0
    obtain ⟨r0, hr0, hg0⟩ := Option.map_eq_some_iff.mp hg0
    obtain ⟨n, xv, G, zp, hx, hall⟩ := hA env q.getState q.getCovariance j (TimeOps.sub t f.core.ts) k z0 r0 hr0
    refine ⟨q, n, xv, G, zp, rfl, hx, fun z => ?_⟩
    have hz : P.myCorrect env q.getState q.getCovariance (.of z) j (TimeOps.sub t f.getStateTime)
        = some (.of (xv + G.mulVec (z - zp)), r0.2) := hall z
    refine ⟨_, by rw [hcor, henv, Option.bind_some, hz, Option.map_some], ?_⟩
    rw [← hg0]
    refine ⟨?_, ?_, ?_, ?_⟩
    · simp [getState]
    · simp [getCovariance]
    · simp [getStateTime]
    · have e : ∀ h : Filter T DVec DMat K E, h.pruned.env = h.env := fun h => congrArg Core.env (pruned_core h)
      rw [e, e]
      rfl

end api

section filters
variable {T K X Y : Type} [LinearOrder T] [ExactTime T] [DecidableEq K]

/-- **C116 (Kalman filter).** -/
theorem C116_kf {sc : SysClass T LinSysData X} {mc : K → MeasClass T LinMeasData Y} (hso : sc.PlainOps)
    (hmo : ∀ j, (mc j).PlainOps) : RespondsLinearly (kfPlant sc mc) :=
  respond _ (kf_keepsChecks sc mc) fun e x c j dt => affine_kf hso (hmo j) _ _ _ _ _ _

/-- **C116 (EKF).** -/
theorem C116_ekf {sc : SysClass T NonlinSysData X} {mc : K → MeasClass T NonlinMeasData Y} (hso : sc.PlainOps)
    (hmo : ∀ j, (mc j).PlainOps) : RespondsLinearly (ekfPlant sc mc) :=
  respond _ (ekf_keepsChecks sc mc) fun e x c j dt => affine_ekf hso (hmo j) _ _ _ _ _ _

private theorem affine_with {O DS XS DM XM : Type}
    {correct : O → Env K DS XS DM XM → DVec → DMat → DVec → K → T → Option (DVec × DMat × Env K DS XS DM XM)}
    (hA : ∀ o e x c j dt, AffineIn x fun z => correct o e x c z j dt) (e : Env K DS XS DM XM × O) (x : DVec) (c : DMat) (j : K)
    (dt : T) : AffineIn x fun z => (correct e.2 e.1 x c z j dt).map fun r => (r.1, r.2.1, r.2.2, e.2) := by
  intro k z0 r0 h
  obtain ⟨r1, h1, rfl⟩ := Option.map_eq_some_iff.mp h
  obtain ⟨n, xv, G, zp, hx, hall⟩ := hA e.2 e.1 x c j dt k z0 r1 h1
  refine ⟨n, xv, G, zp, hx, fun z => ?_⟩
  have hz : correct e.2 e.1 x c (.of z) j dt = some (.of (xv + G.mulVec (z - zp)), r1.2) := hall z
  show (correct e.2 e.1 x c (.of z) j dt).map _ = _
  rw [hz]
  rfl

/-- **C116 (UKF)**, for every factorisation routine, every sigma point parameters and whatever is in uninitialised memory. -/
theorem C116_ukf (llt : DMat → Option DMat) (junk : Nat → Nat → ℝ) {sc : SysClass T NonlinSysData X}
    {mc : K → MeasClass T NonlinMeasData Y} (hso : sc.PlainOps) (hmo : ∀ j, (mc j).PlainOps) :
    RespondsLinearly (ukfPlant llt junk sc mc) :=
  respond _ (ukf_keepsChecks llt junk sc mc) fun e x c j dt =>
    affine_with (fun _ _ _ _ j _ => affine_ukf llt junk hso (hmo j) _ _ _ _ _ _ _) e x c j dt

/-- **C116 (Kalman filter with variable states).** -/
theorem C116_kf_vs {sc : SysClass T LinSysData X} {mc : K → MeasClass T LinMeasData Y} (hso : sc.PlainOps)
    (hmo : ∀ j, (mc j).PlainOps) : RespondsLinearly (kfvsPlant sc mc) :=
  respond _ (kfvs_keepsChecks sc mc) fun e x c j dt => affine_kfvs hso (hmo j) _ _ _ _ _ _

/-- **C116 (EKF with variable states).** -/
theorem C116_ekf_vs {sc : SysClass T NonlinSysData X} {mc : K → MeasClass T NonlinMeasData Y} (hso : sc.PlainOps)
    (hmo : ∀ j, (mc j).PlainOps) : RespondsLinearly (ekfvsPlant sc mc) :=
  respond _ (ekfvs_keepsChecks sc mc) fun e x c j dt => affine_ekfvs hso (hmo j) _ _ _ _ _ _

/-- **C116 (UKF with variable states).** -/
theorem C116_ukf_vs (llt : DMat → Option DMat) (junk : Nat → Nat → ℝ) {sc : SysClass T NonlinSysData X}
    {mc : K → MeasClass T NonlinMeasData Y} (hso : sc.PlainOps) (hmo : ∀ j, (mc j).PlainOps) :
    RespondsLinearly (ukfvsPlant llt junk sc mc) :=
  respond _ (ukfvs_keepsChecks llt junk sc mc) fun e x c j dt =>
    affine_with (fun _ _ _ _ j _ => affine_ukfvs llt junk hso (hmo j) _ _ _ _ _ _ _) e x c j dt

/-- **C31 (EKF): a measurement equal to the predicted one, `h(x)`, leaves the state unchanged** (default operations). -/
theorem C31_ekf_expected_measurement {n m k : Nat} {sc : SysClass T NonlinSysData X} {mc : K → MeasClass T NonlinMeasData Y}
    (hsc : SysContract NonlinSysData.Sized sc) (hmc : ∀ j, MeasContract NonlinMeasData.Sized (mc j))
    (hso : sc.PlainOps) (hmo : ∀ j, (mc j).PlainOps)
    (f : Filter T DVec DMat K (Env K NonlinSysData X NonlinMeasData Y)) (j : K)
    (hs : f.env.sys.Sized NonlinSysData.Sized n m) (hm : (f.env.meas j).Sized NonlinMeasData.Sized n k)
    {x : Fin n → ℝ} {P : Matrix (Fin n) (Fin n) ℝ} (hx : f.getState = .of x) (hP : f.getCovariance = .of P)
    (hPsd : P.PosSemidef) (R : Matrix (Fin k) (Fin k) ℝ) (hR : R.PosDef) (h : (Fin n → ℝ) → Fin k → ℝ)
    (hh : ∀ s x dt s', s.Sized NonlinMeasData.Sized n k → (mc j).myUpdate s (.of x) dt = some s' → s'.der.h = .of (h x))
    (hst : (f.env.meas j).fm.checkStationary = false) :
    ∃ g, f.correct (ekfPlant sc mc) (.of (h x)) (.of R) f.getStateTime (some j) = some g ∧ g.getState = f.getState := by
  have hms : ((f.env.meas j).withCov (.of R)).Sized NonlinMeasData.Sized n k := ⟨hm.states, hm.meas, hm.der, rfl, rfl⟩
  obtain ⟨ms, hup, hms', _⟩ := (hmc j).update _ (.of x) (TimeOps.sub f.getStateTime f.getStateTime) hms rfl
  obtain ⟨H, hH⟩ := hms'.der.2.exists_of
  obtain ⟨g, dz, x', h1, h2, h3, h4, h5, _⟩ := ekf_correct_now hsc hmc f j hs hm hx hP (h x) R hup hH
    (Kalman.pd_isUnit_det (Kalman.innov_pd hPsd H hR)) (by rw [hst]; rfl)
  refine ⟨g, h1, ?_⟩
  rw [h4, hx]
  rw [(hmo j).sub, hh _ _ _ _ hms hup, DVec.sub_of] at h2
  have h2' := DVec.of_inj.mp (Option.some.inj h2)
  rw [← h2', sub_self, Matrix.mulVec_zero, hso.add, DVec.add_of, add_zero] at h3
  exact (Option.some.inj h3).symm

end filters

/-! ### A concrete case -/

/-- Non-vacuity: the constant-velocity filter with a position sensor accepts the reading 7 at time 0, hence every reading, and
readings equally far from the expected one on both sides give states on both sides of the predicted one. -/
example : ∃ (x d : Fin 2 → ℝ) (zp : Fin 1 → ℝ) (g h : _),
    cvFilter.correct (kfPlant Examples.cvClass fun _ => Examples.posClass) (.of (zp + 1)) (.identity 1) 0 (some ()) = some g ∧
    cvFilter.correct (kfPlant Examples.cvClass fun _ => Examples.posClass) (.of (zp - 1)) (.identity 1) 0 (some ()) = some h ∧
    cvFilter.getState = .of x ∧ g.getState = .of (x + d) ∧ h.getState = .of (x - d) ∧ g.getCovariance = h.getCovariance := by
  obtain ⟨g0, _, _, _, _, h0, _⟩ := C28_C30_kf_correct Examples.cv_contract (fun _ => Examples.pos_contract) cvFilter ()
    (Examples.cvEnv_ok (Q := EstimatePSD 2)).sys ((Examples.cvEnv_ok (Q := EstimatePSD 2)).meas ()) (x := 0) (P := 1) rfl rfl
    Matrix.PosSemidef.one (fun _ => 7) 1 Matrix.PosDef.one rfl
  obtain ⟨q, n, x, G, zp, hq, hx, hall⟩ := C116_kf (sc := Examples.cvClass) (mc := fun _ : Unit => Examples.posClass)
    (Examples.plain_ops _) (fun _ => Examples.plain_mops _) cvFilter () (.of 1) 0 1 (fun _ => 7) g0 rfl rfl
    (le_refl (0 : ℝ)) h0
  have hqf : q = cvFilter := by
    have e : cvFilter.predictTime (kfPlant Examples.cvClass fun _ : Unit => Examples.posClass) 0 = some cvFilter := by
      unfold predictTime
      rw [if_neg]
      rw [LawfulTime.lt_iff, not_lt]
      exact le_refl (0 : ℝ)
    exact (Option.some.inj (e.symm.trans hq)).symm
  subst hqf
  have hn : n = 2 := congrArg DVec.size hx.symm
  subst hn
  obtain ⟨g, hg1, hg2, hg3, _⟩ := hall (zp + 1)
  obtain ⟨h, hh1, hh2, hh3, _⟩ := hall (zp - 1)
  refine ⟨x, G.mulVec 1, zp, g, h, hg1, hh1, hx, ?_, ?_, hg3.trans hh3.symm⟩
  · rw [hg2, add_sub_cancel_left]
  · rw [hh2]
    have e : zp - 1 - zp = -1 := by funext i; simp
    rw [e, Matrix.mulVec_neg, sub_eq_add_neg]



end Props
end StateEstimation
