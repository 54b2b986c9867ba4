import Verif.Spec.NaNData
import Verif.Lemmas.Taint
import Verif.Lemmas.PlantRel
import Verif.Lemmas.Sharing
import Verif.Props.DataFree
import Verif.Props.Kalman
import Verif.Examples.Linear

/-! # C100: a NaN among the measured numbers -/

set_option linter.unusedSectionVars false
set_option linter.unusedVariables false

namespace StateEstimation
namespace Props

variable {T K X Y : Type} [DecidableEq K]

/-! ### Arithmetic -/

private theorem ndot_nan {n : Nat} (a : Fin n → ℝ) (v : Fin n → WithNaN ℝ) (h : ∃ j, v j = .nan) : ndot a v = .nan := by
  induction n with
  | zero => obtain ⟨j, _⟩ := h; exact j.elim0
  | succ n ih =>
    obtain ⟨j, hj⟩ := h
    rw [ndot]
    rcases Fin.eq_zero_or_eq_succ j with rfl | ⟨k, rfl⟩
    · rw [hj]
      simp only [nmul]
      cases ndot (fun j => a j.succ) fun j => v j.succ <;> rfl
    · rw [ih (fun j => a j.succ) (fun j => v j.succ) ⟨k, hj⟩]
      cases nmul (WithNaN.num (a 0)) (v 0) <;> rfl

private theorem ndot_num {n : Nat} (a w : Fin n → ℝ) (v : Fin n → WithNaN ℝ) (h : ∀ j, v j = .num (w j)) :
    ndot a v = .num (∑ j, a j * w j) := by
  induction n with
  | zero => simp [ndot]
  | succ n ih =>
    rw [ndot, ih (fun j => a j.succ) (fun j => w j.succ) (fun j => v j.succ) (fun j => h j.succ), h 0, Fin.sum_univ_succ]
    rfl

private theorem clean_or (v : NVec) : v.Clean ∨ v.HasNaN := by
  by_cases h : v.HasNaN
  · exact Or.inr h
  · exact Or.inl (fun i hi => h ⟨i, hi⟩)

private theorem not_clean {v : NVec} (h : v.Clean) : ¬ v.HasNaN := fun ⟨i, hi⟩ => h i hi

private theorem num_of {a : WithNaN ℝ} (h : a ≠ .nan) : ∃ r, a = .num r := by
  cases a with
  | num r => exact ⟨r, rfl⟩
  | nan => exact absurd rfl h

private theorem nadd_nan {a b : WithNaN ℝ} : nadd a b = .nan ↔ a = .nan ∨ b = .nan := by
  cases a <;> cases b <;> simp [nadd]
private theorem nsub_nan {a b : WithNaN ℝ} : nsub a b = .nan ↔ a = .nan ∨ b = .nan := by
  cases a <;> cases b <;> simp [nsub]

/-- a product of a matrix with a vector is all NaN or without NaN -/
private theorem mul_taint {A : DMat} {v r : NVec} (h : A.mulNVec v = some r) :
    r.size = A.rows ∧ A.cols = v.size ∧ (v.Clean → r.Clean) ∧ (v.HasNaN → r.AllNaN) := by
  unfold DMat.mulNVec at h
  split at h
  · rename_i hc
    injection h with h; subst h
    refine ⟨rfl, hc, fun hv i => ?_, fun ⟨j, hj⟩ i => ?_⟩
    · have : ∀ j : Fin A.cols, ∃ r, v.val (Fin.cast hc j) = .num r := fun j => num_of (hv _)
      choose w hw using this
      show ndot _ _ ≠ .nan
      rw [ndot_num (A.val i) w _ hw]
      simp
    · exact ndot_nan _ _ ⟨Fin.cast hc.symm j, by simpa using hj⟩
  · cases h

private theorem add_taint {a b r : NVec} (h : a.add b = some r) :
    a.size = b.size ∧ r.size = a.size ∧ (a.Clean → b.Clean → r.Clean) ∧ (a.AllNaN → r.AllNaN) ∧ (b.AllNaN → r.AllNaN) := by
  unfold NVec.add at h
  split at h
  · rename_i hc
    injection h with h; subst h
    refine ⟨hc, rfl, fun ha hb i hi => ?_, fun ha i => nadd_nan.mpr (Or.inl (ha i)), fun hb i => nadd_nan.mpr (Or.inr (hb _))⟩
    rcases nadd_nan.mp hi with h | h
    · exact ha _ h
    · exact hb _ h
  · cases h

private theorem sub_taint {a b r : NVec} (h : a.sub b = some r) :
    a.size = b.size ∧ r.size = a.size ∧ (a.Clean → b.Clean → r.Clean) ∧ (a.HasNaN → r.HasNaN) := by
  unfold NVec.sub at h
  split at h
  · rename_i hc
    injection h with h; subst h
    refine ⟨hc, rfl, fun ha hb i hi => ?_, fun ⟨i, hi⟩ => ⟨i, nsub_nan.mpr (Or.inl hi)⟩⟩
    rcases nsub_nan.mp hi with h | h
    · exact ha _ h
    · exact hb _ h
  · cases h

/-! ### The steps -/

variable {n m : Nat} {kd : K → Nat}

/-- a clean state or nothing but NaN -/
private def Whole (n : Nat) (x : NVec) (c : DMat) : Prop := x.size = n ∧ c.Is n n ∧ (x.Clean ∨ x.AllNaN)

private theorem known_size (v : NVec) : v.known.size = v.size := rfl

private theorem predict_taint {sc : SysClass T LinSysData X} (hsc : SysContract LinSysData.Sized sc)
    {e e' : Env K LinSysData X LinMeasData Y} (he : NaNOk n m kd e) {x : NVec} {c : DMat} {u : NVec} {dt : T}
    (hx : x.size = n) (hu : u.size = m) {x' : NVec} {c' : DMat}
    (h : kfPredictN sc e.sys x c u dt (fun s => { e with sys := s }) = some (x', c', e')) :
    NaNOk n m kd e' ∧ x'.size = n ∧ c'.Is n n ∧ (x.Clean → u.Clean → x'.Clean) ∧ (x.HasNaN → x'.AllNaN) ∧
      (u.HasNaN → x'.AllNaN) := by
  unfold kfPredictN at h
  simp only [Option.bind_eq_bind, Option.bind_eq_some_iff] at h
  obtain ⟨s, hs, a, ha, b, hb, y, hy, p, hp, h⟩ := h
  simp only [Option.some.injEq, Prod.mk.injEq] at h
  obtain ⟨rfl, rfl, rfl⟩ := h
  obtain ⟨s2, hs2, hsz, hcfg⟩ := hsc.update e.sys x.known u.known dt he.sys hx hu
  have hs3 : s = s2 := by
    unfold Sys.updateN Sys.update at hs
    split at hs
    · rw [hs2] at hs; injection hs with hs; exact hs.symm
    · cases hs
  subst hs3
  obtain ⟨a1, a2, a3, a4⟩ := mul_taint ha
  obtain ⟨b1, b2, b3, b4⟩ := mul_taint hb
  obtain ⟨y1, y2, y3, y4, y5⟩ := add_taint hy
  have hn : y.size = n := by rw [y2, a1]; exact hsz.der.1.1
  refine ⟨⟨hsz, he.meas, ?_, he.quiet.2⟩, hn, ?_, fun h1 h2 => y3 (a3 h1) (b3 h2), fun h => y4 (a4 h), fun h => y5 (b4 h)⟩
  · show s.fm.checkStationary = false
    rw [hcfg.fm]; exact he.quiet.1
  · unfold propagateCov at hp
    simp only [Option.bind_eq_bind, Option.bind_eq_some_iff] at hp
    obtain ⟨q1, h1, q2, h2, q3, h3, q4, h4, q5, h5, q6, h6, q7, h7, h8⟩ := hp
    have k1 := DMat.mul_eq_some h1
    have k2 := DMat.mul_eq_some h2
    have k7 := DMat.add_eq_some h7
    have k8 := DMat.add_eq_some h8
    have hA : s.der.A.transpose.cols = s.der.A.rows := rfl
    constructor
    · rw [k8.2.2.1, k7.2.2.1, k2.2.1, k1.2.1]; exact hsz.der.1.1
    · rw [k8.2.2.2, k7.2.2.2, k2.2.2, hA]; exact hsz.der.1.1

private theorem correct_taint {mc : MeasClass T LinMeasData Y} (hmc : MeasContract LinMeasData.Sized mc)
    {e e' : Env K LinSysData X LinMeasData Y} (k : K) (he : NaNOk n m kd e) {x : NVec} {c : DMat} {z : NVec} {dt : T}
    (hx : x.size = n) (hc : c.Is n n) {x' : NVec} {c' : DMat}
    (h : kfCorrectN mc (e.meas k) x c z dt (e.setMeas k) = some (x', c', e')) :
    NaNOk n m kd e' ∧ x'.size = n ∧ c'.Is n n ∧ (x.Clean → z.Clean → x'.Clean) ∧ (x.AllNaN → x'.AllNaN) ∧
      (z.HasNaN → x'.AllNaN) := by
  unfold kfCorrectN at h
  simp only [Option.bind_eq_bind, Option.bind_eq_some_iff] at h
  obtain ⟨s, hs, G, hG, zp, hzp, dz, hdz, dx, hdx, y, hy, p, hp, h⟩ := h
  simp only [Option.some.injEq, Prod.mk.injEq] at h
  obtain ⟨rfl, rfl, rfl⟩ := h
  obtain ⟨s2, hs2, hsz, hcfg⟩ := hmc.update (e.meas k) x.known dt (he.meas k) hx
  have hs3 : s = s2 := by
    unfold Meas.updateN Meas.update at hs
    split at hs
    · rw [hs2] at hs; injection hs with hs; exact hs.symm
    · cases hs
  subst hs3
  obtain ⟨a1, a2, a3, a4⟩ := mul_taint hzp
  obtain ⟨b1, b2, b3, b4⟩ := sub_taint hdz
  obtain ⟨d1, d2, d3, d4⟩ := mul_taint hdx
  obtain ⟨y1, y2, y3, y4, y5⟩ := add_taint hy
  refine ⟨⟨he.sys, ?_, he.quiet.1, ?_⟩, by rw [y2, hx], ?_, fun h1 h2 => y3 h1 (d3 (b3 h2 (a3 h1))), y4,
    fun h => y5 (d4 (b4 h))⟩
  · intro j
    show ((e.setMeas k s).meas j).Sized _ _ _
    unfold Env.setMeas
    dsimp only
    by_cases hj : j = k
    · rw [if_pos hj, hj]; exact hsz
    · rw [if_neg hj]; exact he.meas j
  · intro j
    show ((e.setMeas k s).meas j).fm.checkStationary = false
    unfold Env.setMeas
    dsimp only
    by_cases hj : j = k
    · rw [if_pos hj, hcfg.fm]; exact he.quiet.2 k
    · rw [if_neg hj]; exact he.quiet.2 j
  · unfold shrinkCov at hp
    simp only [Option.bind_eq_bind, Option.bind_eq_some_iff] at hp
    obtain ⟨q1, h1, q2, h2, h3⟩ := hp
    have k2 := DMat.sub_eq_some h2
    have k3 := DMat.mul_eq_some h3
    have hI : (DMat.identity x.size).rows = x.size := rfl
    constructor
    · rw [k3.2.1, k2.2.2.1, hI, hx]
    · rw [k3.2.2]; exact hc.2

/-- the measurement contains a NaN -/
private def NaNIn (i : FilterInput T NVec DMat K) : Prop := i.isControl = false ∧ i.data.HasNaN

private theorem setRc_ok {e e1 : Env K LinSysData X LinMeasData Y} {c : DMat} (he : NaNOk n m kd e) (hc : c.Is m m)
    (h : ((e.sys.setControlCovariance c).map fun s => ({ e with sys := s } : Env K LinSysData X LinMeasData Y)) = some e1) :
    NaNOk n m kd e1 := by
  unfold Sys.setControlCovariance at h
  split at h
  · injection h with h; subst h
    exact ⟨⟨he.sys.states, he.sys.controls, he.sys.der, he.sys.P, he.sys.Rp, he.sys.V, hc⟩, he.meas, he.quiet⟩
  · cases h

private theorem setCov_ok {e e1 : Env K LinSysData X LinMeasData Y} {c : DMat} {k : K} (he : NaNOk n m kd e)
    (hc : c.Is (kd k) (kd k)) (h : (((e.meas k).setCovariance c).map (e.setMeas k)) = some e1) : NaNOk n m kd e1 := by
  unfold Meas.setCovariance at h
  split at h
  · injection h with h; subst h
    refine ⟨he.sys, fun j => ?_, he.quiet.1, fun j => ?_⟩
    · show ((e.setMeas k _).meas j).Sized _ _ _
      unfold Env.setMeas
      dsimp only
      by_cases hj : j = k
      · rw [if_pos hj, hj]; exact ⟨(he.meas k).states, (he.meas k).meas, (he.meas k).der, hc⟩
      · rw [if_neg hj]; exact he.meas j
    · show ((e.setMeas k _).meas j).fm.checkStationary = false
      unfold Env.setMeas
      dsimp only
      by_cases hj : j = k
      · rw [if_pos hj]; exact he.quiet.2 k
      · rw [if_neg hj]; exact he.quiet.2 j
  · cases h

private theorem optP_of {α : Type} {p : α → Prop} {o : Option α} (h : ∀ a, o = some a → p a) : OptP False p o := by
  cases o with
  | none => exact id
  | some a => exact h a rfl

/-- the invariant; `W` is `Clean` or "clean or all NaN" -/
private theorem nan_inv [TimeOps T] {sc : SysClass T LinSysData X} {mc : K → MeasClass T LinMeasData Y}
    (hsc : SysContract LinSysData.Sized sc) (hmc : ∀ k, MeasContract LinMeasData.Sized (mc k)) (W N : NVec → Prop)
    (hW1 : ∀ x u x' : NVec, W x → u.Clean → (x.Clean → u.Clean → x'.Clean) → (x.HasNaN → x'.AllNaN) → W x')
    (hW2 : ∀ x z x' : NVec, W x → N z → (x.Clean → z.Clean → x'.Clean) → (x.AllNaN → x'.AllNaN) → (z.HasNaN → x'.AllNaN) → W x') :
    PlantInv (kfPlantN (K := K) sc mc) False (fun x c => x.size = n ∧ c.Is n n ∧ W x) (NaNOk n m kd)
      (fun u => u.size = m ∧ u.Clean) (fun R => R.Is m m) (fun z c k => z.size = kd k ∧ N z ∧ c.Is (kd k) (kd k)) where
  empty := rfl
  rc e he := he.sys.Rc
  zero e he := ⟨he.sys.controls, fun i h => by cases h⟩
  setRc e c he hc := optP_of (fun a ha => setRc_ok he hc ha)
  predict e x c u dt he hx hu := optP_of (by
    rintro ⟨x', c', e'⟩ h
    obtain ⟨h1, h2, h3, h4, h5, h6⟩ := predict_taint hsc he hx.1 hu.1 h
    exact ⟨⟨h2, h3, hW1 x u x' hx.2.2 hu.2 h4 h5⟩, h1⟩)
  sysStationary e x c d he hx hd := optP_of (by
    intro e' h
    change ((sc.processStationary e.sys x.known d.known).map fun s => ({ e with sys := s } : Env K LinSysData X LinMeasData Y)) = some e' at h
    have hd' : d.size = m ∨ d.size = 0 := by
      rcases Nat.eq_zero_or_pos d.size with h | h
      · exact Or.inr h
      · exact Or.inl (hd h).1
    obtain ⟨s', hs, hsz, hcfg⟩ := hsc.stationary e.sys x.known d.known he.sys hx.1 hd'
    rw [hs] at h
    injection h with h; subst h
    refine ⟨⟨hsz, he.meas, ?_, he.quiet.2⟩, hx⟩
    show s'.fm.checkStationary = false
    rw [hcfg.fm]; exact he.quiet.1)
  setMeasCov e k z c he hz := optP_of (by
    intro e1 h1
    have he1 : NaNOk n m kd e1 := setCov_ok he hz.2.2 h1
    refine ⟨he1, ?_, ?_⟩
    · intro x p dt hx
      refine optP_of ?_
      rintro ⟨x', c', e'⟩ h
      obtain ⟨h1, h2, h3, h4, h5, h6⟩ := correct_taint (hmc k) k he1 hx.1 hx.2.1 h
      exact ⟨⟨h2, h3, hW2 x z x' hx.2.2 hz.2.1 h4 h5 h6⟩, h1⟩
    · intro x p hx
      refine optP_of ?_
      intro e2 h
      obtain ⟨s', hs, hsz, hcfg⟩ := (hmc k).stationary (e1.meas k) x.known z.known (he1.meas k) hx.1 hz.1
      change (((mc k).processStationary (e1.meas k) x.known z.known).map (e1.setMeas k)) = some e2 at h
      rw [hs] at h
      injection h with h; subst h
      refine ⟨⟨he1.sys, fun j => ?_, he1.quiet.1, fun j => ?_⟩, hx⟩
      · show ((e1.setMeas k _).meas j).Sized _ _ _
        unfold Env.setMeas
        dsimp only
        by_cases hj : j = k
        · rw [if_pos hj, hj]; exact hsz
        · rw [if_neg hj]; exact he1.meas j
      · show ((e1.setMeas k _).meas j).fm.checkStationary = false
        unfold Env.setMeas
        dsimp only
        by_cases hj : j = k
        · rw [if_pos hj, hcfg.fm]; exact he1.quiet.2 k
        · rw [if_neg hj]; exact he1.quiet.2 j)

/-- a clean state or nothing but NaN -/
private def Pure (x : NVec) : Prop := x.Clean ∨ x.AllNaN

private theorem clean_inv [TimeOps T] {sc : SysClass T LinSysData X} {mc : K → MeasClass T LinMeasData Y}
    (hsc : SysContract LinSysData.Sized sc) (hmc : ∀ k, MeasContract LinMeasData.Sized (mc k)) :
    PlantInv (kfPlantN (K := K) sc mc) False (fun x c => x.size = n ∧ c.Is n n ∧ x.Clean) (NaNOk n m kd)
      (fun u => u.size = m ∧ u.Clean) (fun R => R.Is m m) (fun z c k => z.size = kd k ∧ z.Clean ∧ c.Is (kd k) (kd k)) :=
  nan_inv hsc hmc NVec.Clean NVec.Clean (fun _ _ _ h1 h2 h3 _ => h3 h1 h2) (fun _ _ _ h1 h2 h3 _ _ => h3 h1 h2)

private theorem pure_inv [TimeOps T] {sc : SysClass T LinSysData X} {mc : K → MeasClass T LinMeasData Y}
    (hsc : SysContract LinSysData.Sized sc) (hmc : ∀ k, MeasContract LinMeasData.Sized (mc k)) (hn : 0 < n) :
    PlantInv (kfPlantN (K := K) sc mc) False (fun x c => x.size = n ∧ c.Is n n ∧ Pure x ∧ 0 < x.size) (NaNOk n m kd)
      (fun u => u.size = m ∧ u.Clean) (fun R => R.Is m m) (fun z c k => z.size = kd k ∧ True ∧ c.Is (kd k) (kd k)) := by
  have h := nan_inv (n := n) (m := m) (kd := kd) hsc hmc Pure (fun _ => True) (fun x u x' h1 h2 h3 h4 => by
      rcases h1 with h1 | h1
      · exact Or.inl (h3 h1 h2)
      · rcases clean_or x with h | h
        · exact Or.inl (h3 h h2)
        · exact Or.inr (h4 h))
    (fun x z x' h1 _ h3 h4 h5 => by
      rcases clean_or z with hz | hz
      · rcases h1 with h1 | h1
        · exact Or.inl (h3 h1 hz)
        · exact Or.inr (h4 h1)
      · exact Or.inr (h5 hz))
  have e : (fun (x : NVec) (c : DMat) => x.size = n ∧ c.Is n n ∧ Pure x ∧ 0 < x.size) =
      fun x c => x.size = n ∧ c.Is n n ∧ Pure x := by
    funext x c
    apply propext
    constructor
    · rintro ⟨a, b, c, _⟩; exact ⟨a, b, c⟩
    · rintro ⟨a, b, c⟩; exact ⟨a, b, c, by rw [a]; exact hn⟩
  rw [e]; exact h

private theorem all_has {x : NVec} (h : x.AllNaN) (hs : 0 < x.size) : x.HasNaN := ⟨⟨0, hs⟩, h _⟩

private theorem nan_taint [LinearOrder T] [ExactTime T] {sc : SysClass T LinSysData X} {mc : K → MeasClass T LinMeasData Y}
    (hsc : SysContract LinSysData.Sized sc) (hmc : ∀ k, MeasContract LinMeasData.Sized (mc k)) (hn : 0 < n) :
    Taint (kfPlantN (K := K) sc mc) (fun x c => x.size = n ∧ c.Is n n ∧ Pure x ∧ 0 < x.size) (NaNOk n m kd)
      (fun u => u.size = m ∧ u.Clean) (fun R => R.Is m m) (fun z c k => z.size = kd k ∧ True ∧ c.Is (kd k) (kd k))
      NVec.HasNaN (NaNIn (T := T)) := by
  have hinv := pure_inv (T := T) (n := n) (m := m) (kd := kd) hsc hmc hn
  -- propagation
  have hctl : ∀ (c : Core T NVec DMat (Env K LinSysData X LinMeasData Y)) (i : FilterInput T NVec DMat K) d,
      CoreOk (kfPlantN sc mc) (fun x c => x.size = n ∧ c.Is n n ∧ Pure x ∧ 0 < x.size) (NaNOk n m kd)
        (fun u => u.size = m ∧ u.Clean) (fun R => R.Is m m) c →
      ((kfPlantN sc mc).vsize i.data > 0 → (i.data.size = m ∧ i.data.Clean) ∧ i.covariance.Is m m) →
      c.control (kfPlantN sc mc) i = some d → (d.x.HasNaN ↔ c.x.HasNaN) := by
    rintro ⟨x, cov, ts, pc, pcc, e⟩ i d hc hi h
    obtain ⟨h1, h2, h3⟩ := hc
    dsimp only at h1 h2 h3
    have hsel : ∃ u r a p, (if (kfPlantN sc mc).vsize i.data > 0 then (i.data, i.covariance, i.data, i.covariance)
          else if (kfPlantN sc mc).vsize pc > 0 then (pc, pcc, pc, pcc)
          else ((kfPlantN sc mc).zeroV ((kfPlantN sc mc).controlSize e), (kfPlantN sc mc).rc e, pc, pcc)) = (u, r, a, p) ∧
          (u.size = m ∧ u.Clean) ∧ r.Is m m := by
      by_cases k1 : (kfPlantN sc mc).vsize i.data > 0
      · rw [if_pos k1]; exact ⟨_, _, _, _, rfl, (hi k1).1, (hi k1).2⟩
      · rw [if_neg k1]
        by_cases k2 : (kfPlantN sc mc).vsize pc > 0
        · rw [if_pos k2]; exact ⟨_, _, _, _, rfl, (h3 k2).1, (h3 k2).2⟩
        · rw [if_neg k2]; exact ⟨_, _, _, _, rfl, hinv.zero e h2, hinv.rc e h2⟩
    obtain ⟨u, r, a, p, k1, k2, k3⟩ := hsel
    unfold Core.control at h
    dsimp only at h
    rw [k1] at h
    have hq : (kfPlantN sc mc).sysCheck e = false := h2.quiet.1
    rw [hq] at h
    simp only [Bool.false_and, Bool.not_false, if_true] at h
    split at h
    · cases h
    · rename_i e1 he1
      have he1' : NaNOk n m kd e1 := setRc_ok h2 k3 he1
      split at h
      · cases h
      · rename_i x' c' e' hp
        injection h with h; subst h
        obtain ⟨_, q2, _, q4, q5, _⟩ := predict_taint hsc he1' h1.1 k2.1 hp
        show x'.HasNaN ↔ x.HasNaN
        constructor
        · intro hx'
          rcases clean_or x with hx | hx
          · exact absurd hx' (not_clean (q4 hx k2.2))
          · exact hx
        · intro hx; exact all_has (q5 hx) (by rw [q2]; exact hn)
  have hmeas : ∀ (c : Core T NVec DMat (Env K LinSysData X LinMeasData Y)) (i : FilterInput T NVec DMat K) dt d,
      CoreOk (kfPlantN sc mc) (fun x c => x.size = n ∧ c.Is n n ∧ Pure x ∧ 0 < x.size) (NaNOk n m kd)
        (fun u => u.size = m ∧ u.Clean) (fun R => R.Is m m) c →
      (∃ k, i.model = some k ∧ i.data.size = kd k ∧ True ∧ i.covariance.Is (kd k) (kd k)) →
      c.meas (kfPlantN sc mc) i dt = some d → (d.x.HasNaN ↔ c.x.HasNaN ∨ i.data.HasNaN) := by
    rintro ⟨x, cov, ts, pc, pcc, e⟩ i dt d hc ⟨k, hk, hz1, _, hz2⟩ h
    obtain ⟨h1, h2, h3⟩ := hc
    dsimp only at h1 h2 h3
    unfold Core.meas at h
    rw [hk] at h
    dsimp only at h
    split at h
    · cases h
    · rename_i e1 he1
      have he1' : NaNOk n m kd e1 := setCov_ok h2 hz2 he1
      have hq : (kfPlantN sc mc).measCheck e1 k = false := he1'.quiet.2 k
      rw [hq] at h
      simp only [Bool.false_and, Bool.not_false, if_true] at h
      split at h
      · cases h
      · rename_i x' c' e' hp
        injection h with h; subst h
        obtain ⟨_, q2, _, q4, q5, q6⟩ := correct_taint (hmc k) k he1' h1.1 h1.2.1 hp
        show x'.HasNaN ↔ x.HasNaN ∨ i.data.HasNaN
        constructor
        · intro hx'
          rcases clean_or x with hx | hx
          · rcases clean_or i.data with hz | hz
            · exact absurd hx' (not_clean (q4 hx hz))
            · exact Or.inr hz
          · exact Or.inl hx
        · rintro (hx | hz)
          · rcases h1.2.2.1 with h | h
            · exact absurd hx (not_clean h)
            · exact all_has (q5 h) (by rw [q2]; exact hn)
          · exact all_has (q6 hz) (by rw [q2]; exact hn)
  intro c i d hc hi h
  unfold Core.apply at h
  dsimp only at h
  unfold InputOk at hi
  by_cases hctrl : i.isControl = true
  · rw [if_pos hctrl] at hi h
    rw [Option.map_eq_some_iff] at h
    obtain ⟨d', h1, rfl⟩ := h
    have : ¬ NaNIn i := fun hh => absurd (hctrl.symm.trans hh.1) (by simp)
    show d'.x.HasNaN ↔ _
    rw [hctl c i d' hc hi h1]
    simp [this]
  · rw [if_neg hctrl] at hi h
    have hNaN : NaNIn i ↔ i.data.HasNaN := ⟨fun h => h.2, fun h => ⟨by simpa using hctrl, h⟩⟩
    rw [hNaN]
    split at h
    · rw [Option.bind_eq_some_iff] at h
      obtain ⟨d', h1, h2⟩ := h
      rw [Option.map_eq_some_iff] at h1
      obtain ⟨d'', h3, rfl⟩ := h1
      have hok : CoreOk (kfPlantN (K := K) sc mc) (fun x c => x.size = n ∧ c.Is n n ∧ Pure x ∧ 0 < x.size) (NaNOk n m kd)
          (fun u => u.size = m ∧ u.Clean) (fun R => R.Is m m) d'' := by
        have := hinv.control c (c.advInput i.timestamp) hc hc.2.2
        rw [h3] at this
        exact this
      rw [hmeas _ i _ d (by exact hok) hi h2]
      show d''.x.HasNaN ∨ _ ↔ _
      rw [hctl c _ d'' hc hc.2.2 h3]
    · exact hmeas c i _ d hc hi h

private theorem nan_ops {N : NVec → Prop} {W : NVec → Prop} (hW : ∀ x : NVec, x.size = n → x.Clean → W x)
    [TimeOps T] {sc : SysClass T LinSysData X} {mc : K → MeasClass T LinMeasData Y}
    (op : Op T NVec DMat K (Env K LinSysData X LinMeasData Y)) (h : NaNOp N n m kd op) :
    OpOk (kfPlantN sc mc) False (fun x c => x.size = n ∧ c.Is n n ∧ W x) (NaNOk n m kd)
      (fun u => u.size = m ∧ u.Clean) (fun z c k => z.size = kd k ∧ N z ∧ c.Is (kd k) (kd k)) op := by
  cases op with
  | init x c t => exact ⟨h.1, h.2.2, hW x h.1 h.2.1⟩
  | predictControl u t =>
    intro hv
    exact ⟨h.1.resolve_right (Nat.pos_iff_ne_zero.mp hv), h.2⟩
  | enqueueControl u t =>
    intro hv
    exact ⟨h.1.resolve_right (Nat.pos_iff_ne_zero.mp hv), h.2⟩
  | correct z c t mdl => exact h
  | enqueueMeasurement z c t mdl => exact h
  | userModel g => exact fun e he => optP_of (fun a ha => h e a he ha)
  | _ => exact trivial

/-! ### With numbers in place of the NaNs -/

private theorem fill_mul (A : DMat) {v : NVec} {w : DVec} (h : v.FilledBy w) :
    OptRel False NVec.FilledBy (A.mulNVec v) (A.mulVec w) := by
  obtain ⟨hs, hv⟩ := h
  unfold DMat.mulNVec DMat.mulVec
  by_cases hc : A.cols = v.size
  · rw [dif_pos hc, dif_pos (hc.trans hs)]
    refine ⟨rfl, fun i r hr => ?_⟩
    have hr : ndot (A.val i) (fun j => v.val (Fin.cast hc j)) = .num r := hr
    have hno : ∀ j, v.val (Fin.cast hc j) = .num (w.val (Fin.cast (hc.trans hs) j)) := by
      intro j
      cases hj : v.val (Fin.cast hc j) with
      | nan => rw [ndot_nan _ _ ⟨j, hj⟩] at hr; cases hr
      | num q =>
        have := hv _ _ hj
        rw [← this]; rfl
    rw [ndot_num (A.val i) _ _ hno] at hr
    injection hr with hr
  · rw [dif_neg hc, dif_neg (fun hh => hc (hh.trans hs.symm))]; exact fun h => h

private theorem fill_add {v v' : NVec} {w w' : DVec} (h : v.FilledBy w) (h' : v'.FilledBy w') :
    OptRel False NVec.FilledBy (v.add v') (w.add w') := by
  obtain ⟨hs, hv⟩ := h
  obtain ⟨hs', hv'⟩ := h'
  unfold NVec.add DVec.add
  by_cases hc : v.size = v'.size
  · rw [dif_pos hc, dif_pos (hs.symm.trans (hc.trans hs'))]
    refine ⟨hs, fun i r hr => ?_⟩
    have hr : nadd (v.val i) (v'.val (Fin.cast hc i)) = .num r := hr
    cases h1 : v.val i with
    | nan => rw [h1] at hr; cases hr
    | num a =>
      cases h2 : v'.val (Fin.cast hc i) with
      | nan => rw [h1, h2] at hr; cases hr
      | num b =>
        rw [h1, h2] at hr
        injection hr with hr
        rw [← hr, ← hv _ _ h1, ← hv' _ _ h2]; rfl
  · rw [dif_neg hc, dif_neg (fun hh => hc (hs.trans (hh.trans hs'.symm)))]; exact fun h => h

private theorem fill_sub {v v' : NVec} {w w' : DVec} (h : v.FilledBy w) (h' : v'.FilledBy w') :
    OptRel False NVec.FilledBy (v.sub v') (w.sub w') := by
  obtain ⟨hs, hv⟩ := h
  obtain ⟨hs', hv'⟩ := h'
  unfold NVec.sub DVec.sub
  by_cases hc : v.size = v'.size
  · rw [dif_pos hc, dif_pos (hs.symm.trans (hc.trans hs'))]
    refine ⟨hs, fun i r hr => ?_⟩
    have hr : nsub (v.val i) (v'.val (Fin.cast hc i)) = .num r := hr
    cases h1 : v.val i with
    | nan => rw [h1] at hr; cases hr
    | num a =>
      cases h2 : v'.val (Fin.cast hc i) with
      | nan => rw [h1, h2] at hr; cases hr
      | num b =>
        rw [h1, h2] at hr
        injection hr with hr
        rw [← hr, ← hv _ _ h1, ← hv' _ _ h2]; rfl
  · rw [dif_neg hc, dif_neg (fun hh => hc (hs.trans (hh.trans hs'.symm)))]; exact fun h => h

private theorem refl_rel {α : Type} {R : α → α → Prop} (o : Option α) (h : ∀ a, o = some a → R a a) :
    OptRel False R o o := by
  cases o with
  | none => exact fun h => h
  | some a => exact h a rfl

private theorem fill_predict {sc : SysClass T LinSysData X} (hsc : SysDataFree sc) (e : Env K LinSysData X LinMeasData Y)
    (he : Quiet e) {x u : NVec} {x' u' : DVec} (c : DMat) (dt : T) (hx : x.FilledBy x') (hu : u.FilledBy u') :
    OptRel False (fun r q => (r.1.FilledBy q.1 ∧ r.2.1 = q.2.1) ∧ r.2.2 = q.2.2 ∧ Quiet r.2.2)
      (kfPredictN sc e.sys x c u dt fun s => { e with sys := s }) (kfPredict sc e.sys x' c u' dt fun s => { e with sys := s }) := by
  unfold kfPredictN kfPredict
  have h1 : OptRel False (fun s s' => s = s' ∧ s.fm = e.sys.fm) (e.sys.updateN sc x u dt) (e.sys.update sc x' u' dt) := by
    unfold Sys.updateN Sys.update
    have e1 : x.known.size = x'.size := hx.1
    have e2 : u.known.size = u'.size := hu.1
    rw [← e1, ← e2, hsc.update e.sys x.known x' u.known u' dt e1 e2]
    split
    · exact refl_rel _ (fun a ha => ⟨rfl, hsc.fm _ _ _ _ _ ha⟩)
    · exact fun h => h
  simp only [Option.bind_eq_bind]
  refine OptRel.bind h1 ?_
  rintro s _ ⟨rfl, hfm⟩
  refine OptRel.bind (fill_mul s.der.A hx) (fun a a' ha => ?_)
  refine OptRel.bind (fill_mul s.der.B hu) (fun b b' hb => ?_)
  rw [hsc.ops.add]
  refine OptRel.bind (fill_add ha hb) (fun y y' hy => ?_)
  refine OptRel.bind (refl_rel (R := fun a b => a = b) _ (fun _ _ => rfl)) ?_
  rintro p _ rfl
  exact ⟨⟨hy, rfl⟩, rfl, by
    refine ⟨?_, he.2⟩
    show s.fm.checkStationary = false
    rw [hfm]; exact he.1⟩

private theorem fill_correct {sc : SysClass T LinSysData X} (hsc : SysDataFree sc) {mc : MeasClass T LinMeasData Y}
    (hmc : MeasDataFree mc) (e : Env K LinSysData X LinMeasData Y) (k : K)
    (he : Quiet e) {x z : NVec} {x' z' : DVec} (c : DMat) (dt : T) (hx : x.FilledBy x') (hz : z.FilledBy z') :
    OptRel False (fun r q => (r.1.FilledBy q.1 ∧ r.2.1 = q.2.1) ∧ r.2.2 = q.2.2 ∧ Quiet r.2.2)
      (kfCorrectN mc (e.meas k) x c z dt (e.setMeas k)) (kfCorrect sc mc e.sys (e.meas k) x' c z' dt (e.setMeas k)) := by
  unfold kfCorrectN kfCorrect
  have e1 : x.known.size = x'.size := hx.1
  have h1 : OptRel False (fun s s' => s = s' ∧ s.fm = (e.meas k).fm) ((e.meas k).updateN mc x dt) ((e.meas k).update mc x' dt) := by
    unfold Meas.updateN Meas.update
    rw [← e1, hmc.update (e.meas k) x.known x' dt e1]
    split
    · exact refl_rel _ (fun a ha => ⟨rfl, hmc.fm _ _ _ _ ha⟩)
    · exact fun h => h
  simp only [Option.bind_eq_bind]
  refine OptRel.bind h1 ?_
  rintro m _ ⟨rfl, hfm⟩
  refine OptRel.bind (refl_rel (R := fun a b => a = b) _ (fun _ _ => rfl)) ?_
  rintro G _ rfl
  refine OptRel.bind (fill_mul m.der.C hx) (fun a a' ha => ?_)
  rw [hmc.ops.sub, hsc.ops.add]
  refine OptRel.bind (fill_sub hz ha) (fun b b' hb => ?_)
  refine OptRel.bind (fill_mul G hb) (fun d d' hd => ?_)
  refine OptRel.bind (fill_add hx hd) (fun y y' hy => ?_)
  rw [show x.size = x'.size from e1]
  refine OptRel.bind (refl_rel (R := fun a b => a = b) _ (fun _ _ => rfl)) ?_
  rintro p _ rfl
  refine ⟨⟨hy, rfl⟩, rfl, he.1, fun j => ?_⟩
  show ((e.setMeas k m).meas j).fm.checkStationary = false
  unfold Env.setMeas
  dsimp only
  by_cases hj : j = k
  · rw [if_pos hj, hfm]; exact he.2 k
  · rw [if_neg hj]; exact he.2 j

private theorem fill_rel [TimeOps T] {sc : SysClass T LinSysData X} {mc : K → MeasClass T LinMeasData Y} (hsc : SysDataFree sc)
    (hmc : ∀ k, MeasDataFree (mc k)) :
    PlantRel (kfPlantN sc mc) (kfPlant sc mc) False (fun x c x' c' => x.FilledBy x' ∧ c = c')
      (fun e e' => e = e' ∧ Quiet e) NVec.FilledBy (fun c c' => c = c')
      (fun z c z' c' _ => z.FilledBy z' ∧ c = c') where
  empty := rfl
  empty' := rfl
  rc := by rintro e _ ⟨rfl, _⟩; rfl
  zero := by
    rintro e _ ⟨rfl, _⟩
    refine ⟨rfl, fun i r hr => ?_⟩
    have hr : WithNaN.num (0 : ℝ) = .num r := hr
    injection hr with hr
  setRc := by
    rintro e _ c _ ⟨rfl, he⟩ rfl
    refine refl_rel _ (fun a ha => ⟨rfl, ?_⟩)
    have ha : ((e.sys.setControlCovariance c).map fun s => { e with sys := s }) = some a := ha
    unfold Sys.setControlCovariance at ha
    split at ha
    · injection ha with ha; subst ha; exact he
    · cases ha
  sysSt := by
    rintro e _ x c x' _ d d' ⟨rfl, he⟩ ⟨hx, rfl⟩ _
    show (e.sys.fm.checkStationary && _) = (e.sys.fm.checkStationary && _)
    rw [he.1]; rfl
  predict := by
    rintro e _ x c x' _ u u' dt ⟨rfl, he⟩ ⟨hx, rfl⟩ hu
    exact fill_predict hsc e he c dt hx hu
  sysStationary := by
    rintro e _ x c x' _ d d' ⟨rfl, he⟩ ⟨hx, rfl⟩ _ h
    have h : (e.sys.fm.checkStationary && _) = true := h
    rw [he.1] at h; cases h
  setMeasCov := by
    rintro e _ m z c z' _ ⟨rfl, he⟩ ⟨hz, rfl⟩
    refine refl_rel _ (fun a ha => ?_)
    have ha : (((e.meas m).setCovariance c).map (e.setMeas m)) = some a := ha
    have hq : Quiet a := by
      unfold Meas.setCovariance at ha
      split at ha
      · injection ha with ha; subst ha
        refine ⟨he.1, fun j => ?_⟩
        show ((e.setMeas m _).meas j).fm.checkStationary = false
        unfold Env.setMeas
        dsimp only
        by_cases hj : j = m
        · rw [if_pos hj]; exact he.2 m
        · rw [if_neg hj]; exact he.2 j
      · cases ha
    refine ⟨⟨rfl, hq⟩, ?_, ?_, ?_⟩
    · intro x p x' p' _
      show ((a.meas m).fm.checkStationary && _) = ((a.meas m).fm.checkStationary && _)
      rw [hq.2]; rfl
    · rintro x p x' _ dt ⟨hx, rfl⟩
      exact fill_correct hsc (hmc m) a m hq p dt hx hz
    · intro x p x' p' _ h
      have h : ((a.meas m).fm.checkStationary && _) = true := h
      rw [hq.2] at h; cases h

private theorem sameButNaN_rel [TimeOps T] {sc : SysClass T LinSysData X} {mc : K → MeasClass T LinMeasData Y}
    {op : Op T NVec DMat K (Env K LinSysData X LinMeasData Y)} {op' : Op T DVec DMat K (Env K LinSysData X LinMeasData Y)}
    (h : SameButNaN op op') :
    OpRel (kfPlantN sc mc) (kfPlant sc mc) False (fun x c x' c' => x.FilledBy x' ∧ c = c')
      (fun e e' => e = e' ∧ Quiet e) NVec.FilledBy (fun z c z' c' _ => z.FilledBy z' ∧ c = c') op op' := by
  have hd : ∀ (u : NVec) (u' : DVec), u.FilledBy u' →
      DataRel (kfPlantN sc mc) (kfPlant sc mc) NVec.FilledBy u u' := by
    intro u u' h
    rcases Nat.eq_zero_or_pos u.size with h0 | h0
    · exact Or.inr ⟨h0, h.1.symm.trans h0⟩
    · exact Or.inl ⟨h0, h0.trans_eq h.1, h⟩
  cases op <;> cases op' <;> simp only [SameButNaN] at h <;> simp only [OpRel]
  · exact ⟨h.2.2, h.1, h.2.1⟩
  · exact h
  · exact ⟨h.2, hd _ _ h.1⟩
  · obtain ⟨h1, h2, h3, rfl, h5⟩ := h
    obtain ⟨k, hk⟩ := Option.ne_none_iff_exists'.mp h5
    exact ⟨h3, k, hk, hk, h1, h2⟩
  · exact ⟨h.2, hd _ _ h.1⟩
  · obtain ⟨h1, h2, h3, rfl, h5⟩ := h
    obtain ⟨k, hk⟩ := Option.ne_none_iff_exists'.mp h5
    exact ⟨h3, k, hk, hk, h1, h2⟩
  · exact h
  · exact h
  · obtain ⟨rfl, h⟩ := h
    rintro e _ ⟨rfl, he⟩
    exact refl_rel _ (fun a ha => ⟨rfl, h e a he ha⟩)

/-! ### The property -/

/-- **C100 (partial).** A Kalman filter whose model matrices do not depend on the data, without stationary predicates, on
IEEE numbers with NaN.

(a) If no initial state, control or measurement handed over contains a NaN, no retained state ever does.

(b) Whatever data is NaN: compare with a run on ordinary numbers in which each NaN was replaced by some number.  Either both
abort, or they end with the same models and parameters, the same times and the same covariances, and wherever a
retained state has a number, it is the number of the other run.

What is missing, and false (`C100_refuted_poisons`, `C100_refuted_never_recovers`, `C100_refuted_control`): a NaN
measurement is not rejected, it makes the whole state NaN, and no further data, late or in order, repairs it; a NaN in a
control stays in use after `initialize`. -/
theorem C100_partial [TimeOps T] [SaneTime T] {sc : SysClass T LinSysData X} {mc : K → MeasClass T LinMeasData Y}
    (hsc : SysDataFree sc) (hmc : ∀ k, MeasDataFree (mc k)) :
    (∀ (n m : Nat) (kd : K → Nat) (sort : List (FilterInput T NVec DMat K) → List (FilterInput T NVec DMat K)),
      (∀ l, (sort l).Perm l) → SysContract LinSysData.Sized sc → (∀ k, MeasContract LinMeasData.Sized (mc k)) →
      ∀ (params : Params T) (e : Env K LinSysData X LinMeasData Y), NaNOk n m kd e →
      ∀ (x : NVec) (c : DMat) (t : T), x.size = n → c.Is n n → x.Clean →
      ∀ ops : List (Op T NVec DMat K (Env K LinSysData X LinMeasData Y)), (∀ op ∈ ops, NaNOp NVec.Clean n m kd op) →
      ∀ f, (Filter.construct (kfPlantN sc mc) params e x c t).run (kfPlantN sc mc) sort ops = some f →
        ∀ s ∈ f.retained, s.x.Clean) ∧
    (∀ (sort : List (FilterInput T NVec DMat K) → List (FilterInput T NVec DMat K))
      (sort' : List (FilterInput T DVec DMat K) → List (FilterInput T DVec DMat K)), SameSort sort sort' →
      ∀ (params : Params T) (e : Env K LinSysData X LinMeasData Y), Quiet e →
      ∀ (x : NVec) (x' : DVec) (c : DMat) (t : T), x.FilledBy x' →
      ∀ (ops : List (Op T NVec DMat K (Env K LinSysData X LinMeasData Y)))
        (ops' : List (Op T DVec DMat K (Env K LinSysData X LinMeasData Y))), List.Forall₂ SameButNaN ops ops' →
      match (Filter.construct (kfPlantN sc mc) params e x c t).run (kfPlantN sc mc) sort ops,
        (Filter.construct (kfPlant sc mc) params e x' c t).run (kfPlant sc mc) sort' ops' with
      | none, none => True
      | some f, some g => f.params = g.params ∧ f.env = g.env ∧
          List.Forall₂ (fun s s' => s.timestamp = s'.timestamp ∧ s.covariance = s'.covariance ∧ s.x.FilledBy s'.x)
            f.retained g.retained
      | _, _ => False) := by
  refine ⟨?_, ?_⟩
  · intro n m kd sort hsort hsc hmc params e he x c t hx hc hcl ops hops f hf s hs
    have h := (clean_inv (T := T) (n := n) (m := m) (kd := kd) hsc hmc).run sort hsort
      { params := params
        state := { x := (kfPlantN sc mc).emptyV, covariance := (kfPlantN sc mc).emptyM, timestamp := TimeOps.zero,
                   prevInput := FilterInput.default (kfPlantN sc mc) }
        prevControl := (kfPlantN sc mc).emptyV
        prevControlCov := (kfPlantN sc mc).emptyM
        env := e, history := [], controlQueue := [], measQueue := [] } he (fun h => absurd h (Nat.lt_irrefl 0)) x c t
      ⟨hx, hc, hcl⟩ ops (fun op hop => nan_ops (fun _ _ h => h) op (hops op hop))
    change OptP False _ ((Filter.construct (kfPlantN sc mc) params e x c t).run (kfPlantN sc mc) sort ops) at h
    rw [hf] at h
    exact (h.1 s hs).2.2
  · intro sort sort' hsort params e he x x' c t hx ops ops' hops
    have h := (fill_rel (T := T) hsc hmc).run hsort
      { params := params
        state := { x := (kfPlantN sc mc).emptyV, covariance := (kfPlantN sc mc).emptyM, timestamp := TimeOps.zero,
                   prevInput := FilterInput.default (kfPlantN sc mc) }
        prevControl := (kfPlantN sc mc).emptyV
        prevControlCov := (kfPlantN sc mc).emptyM
        env := e, history := [], controlQueue := [], measQueue := [] }
      { params := params
        state := { x := (kfPlant sc mc).emptyV, covariance := (kfPlant sc mc).emptyM, timestamp := TimeOps.zero,
                   prevInput := FilterInput.default (kfPlant sc mc) }
        prevControl := (kfPlant sc mc).emptyV
        prevControlCov := (kfPlant sc mc).emptyM
        env := e, history := [], controlQueue := [], measQueue := [] } rfl ⟨rfl, he⟩ (Or.inr ⟨rfl, rfl⟩) x c x' c t ⟨hx, rfl⟩
      (hops.imp (fun _ _ h => sameButNaN_rel h))
    have h1 : OptRel False _ ((Filter.construct (kfPlantN sc mc) params e x c t).run (kfPlantN sc mc) sort ops)
        ((Filter.construct (kfPlant sc mc) params e x' c t).run (kfPlant sc mc) sort' ops') := h
    generalize (Filter.construct (kfPlantN sc mc) params e x c t).run (kfPlantN sc mc) sort ops = o1 at h1 ⊢
    generalize (Filter.construct (kfPlant sc mc) params e x' c t).run (kfPlant sc mc) sort' ops' = o2 at h1 ⊢
    rcases OptRel.elim h1 with ⟨rfl, rfl, _⟩ | ⟨f, g, rfl, rfl, h2, h3, _, h4⟩
    · trivial
    · exact ⟨h2, h3.1, h4.imp (fun _ _ h => ⟨h.1, h.2.2, h.2.1⟩)⟩

section Poison

variable [LinearOrder T] [ExactTime T] {sc : SysClass T LinSysData X} {mc : K → MeasClass T LinMeasData Y}

private theorem fed_any (hsc : SysContract LinSysData.Sized sc) (hmc : ∀ k, MeasContract LinMeasData.Sized (mc k)) (hn : 0 < n)
    {sort : List (FilterInput T NVec DMat K) → List (FilterInput T NVec DMat K)} (hsort : IsTimeSort sort)
    {params : Params T} {e : Env K LinSysData X LinMeasData Y} (he : NaNOk n m kd e) {x : NVec} {c : DMat} {t : T}
    (hx : x.size = n) (hc : c.Is n n) (hcl : x.Clean) {f : Filter T NVec DMat K (Env K LinSysData X LinMeasData Y)}
    (hf : FedTo (kfPlantN sc mc) sort (NaNOp (fun _ => True) n m kd) (Filter.construct (kfPlantN sc mc) params e x c t) f) :
    TaintAny (pure_inv (T := T) (n := n) (m := m) (kd := kd) hsc hmc hn) NVec.HasNaN (NaNIn (T := T)) f :=
  (TaintAny.fed (nan_taint (T := T) (n := n) (m := m) (kd := kd) hsc hmc hn) (fun _ h => h.1) hsort
    (fun op hop => nan_ops (fun x hx h => ⟨Or.inl h, by rw [hx]; exact hn⟩) op hop)
    (TaintAny.init (pure_inv (T := T) (n := n) (m := m) (kd := kd) hsc hmc hn)
      { params := params
        state := { x := (kfPlantN sc mc).emptyV, covariance := (kfPlantN sc mc).emptyM, timestamp := TimeOps.zero,
                   prevInput := FilterInput.default (kfPlantN sc mc) }
        prevControl := (kfPlantN sc mc).emptyV
        prevControlCov := (kfPlantN sc mc).emptyM
        env := e, history := [], controlQueue := [], measQueue := [] } he (fun h => absurd h (Nat.lt_irrefl 0)) x c t
      ⟨hx, hc, Or.inl hcl, by rw [hx]; exact hn⟩) hf).1

private theorem any_pure (hsc : SysContract LinSysData.Sized sc) (hmc : ∀ k, MeasContract LinMeasData.Sized (mc k)) (hn : 0 < n)
    {f : Filter T NVec DMat K (Env K LinSysData X LinMeasData Y)}
    (hf : TaintAny (pure_inv (T := T) (n := n) (m := m) (kd := kd) hsc hmc hn) NVec.HasNaN (NaNIn (T := T)) f) :
    f.state.x.HasNaN → f.state.x.AllNaN := by
  intro h
  have : Pure f.state.x := by
    rcases hf with hf | hf
    · exact hf.pre.ok.state.2.2.2.2.2.1
    · exact hf.ok.state.2.2.2.2.2.1
  rcases this with h1 | h1
  · exact absurd h (not_clean h1)
  · exact h1

/-- **C100 (refutation 1).** A measurement with a NaN anywhere in it makes every entry of the state NaN, with rewinding on
(also when it is late and inserted in the past) and off.  The filter ignores it only if it is late, and then because it is
late. -/
theorem C100_refuted_poisons (hsc : SysContract LinSysData.Sized sc) (hmc : ∀ k, MeasContract LinMeasData.Sized (mc k))
    (hn : 0 < n) {sort : List (FilterInput T NVec DMat K) → List (FilterInput T NVec DMat K)} (hsort : IsTimeSort sort)
    {params : Params T} {e : Env K LinSysData X LinMeasData Y} (he : NaNOk n m kd e) {x : NVec} {c : DMat} {t0 : T}
    (hx : x.size = n) (hc : c.Is n n) (hcl : x.Clean) {f g : Filter T NVec DMat K (Env K LinSysData X LinMeasData Y)}
    (hf : FedTo (kfPlantN sc mc) sort (NaNOp (fun _ => True) n m kd) (Filter.construct (kfPlantN sc mc) params e x c t0) f)
    (z : NVec) (R : DMat) (t : T) (k : K) (hz : z.size = kd k) (hR : R.Is (kd k) (kd k)) (hnan : z.HasNaN)
    (hg : f.correct (kfPlantN sc mc) z R t (some k) = some g) :
    g.getState.AllNaN ∨ g = f ∧ t < f.getStateTime := by
  have ha := fed_any hsc hmc hn hsort he hx hc hcl hf
  have hb := fed_any hsc hmc hn hsort he hx hc hcl (FedTo.call f g (.correct z R t (some k)) hf ⟨k, rfl, hz, trivial, hR⟩ trivial hg)
  have hbad : NaNIn (measurementInput z R t (some k)) := ⟨rfl, hnan⟩
  have hi : InputOk (kfPlantN sc mc) (fun u => u.size = m ∧ u.Clean) (fun R => R.Is m m)
      (fun z c k => z.size = kd k ∧ True ∧ c.Is (kd k) (kd k)) (measurementInput z R t (some k)) := ⟨k, rfl, hz, trivial, hR⟩
  have htaint := nan_taint (T := T) (n := n) (m := m) (kd := kd) hsc hmc hn
  rcases ha with ha | ha
  · have hg' : f.step (kfPlantN sc mc) sort (.correct z R t (some k)) = some g := hg
    rw [Filter.step_asInput (kfPlantN sc mc) sort f _ (measurementInput z R t (some k)) ha.pre.on rfl] at hg'
    rcases (ha.insertInput htaint hi hg').2 with ⟨h1, h2⟩ | h1
    · exact Or.inr ⟨h1, h2⟩
    · exact Or.inl (any_pure hsc hmc hn hb (h1.mpr (Or.inr hbad)))
  · rw [TimeEmb.correct_bind] at hg
    split at hg
    · split at hg
      · obtain ⟨_, b⟩ := ha.applyPrune htaint hi hg
        exact Or.inl (any_pure hsc hmc hn hb (b.mpr (Or.inr hbad)))
      · rename_i hh
        simp only [Option.some.injEq] at hg
        refine Or.inr ⟨hg.symm, ?_⟩
        by_contra hlt
        apply hh
        have : TimeOps.le TimeOps.zero (TimeOps.sub t f.state.timestamp) = true :=
          (LawfulTime.le_iff _ _).mpr ((LawfulTime.sub_nonneg_iff _ _).mpr (not_lt.mp hlt))
        simp [this]
    · rename_i hh; rw [ha.off] at hh; simp at hh

/-- **C100 (refutation 2).** Once the state contains a NaN, every entry of it is NaN after any further calls that only feed
data: predictions, corrections in order or late, queued data processed in bulk, with rewinding on or off, changes to the
models.  No amount of good data repairs the estimate. -/
theorem C100_refuted_never_recovers (hsc : SysContract LinSysData.Sized sc) (hmc : ∀ k, MeasContract LinMeasData.Sized (mc k))
    (hn : 0 < n) {sort : List (FilterInput T NVec DMat K) → List (FilterInput T NVec DMat K)} (hsort : IsTimeSort sort)
    {params : Params T} {e : Env K LinSysData X LinMeasData Y} (he : NaNOk n m kd e) {x : NVec} {c : DMat} {t0 : T}
    (hx : x.size = n) (hc : c.Is n n) (hcl : x.Clean) {f g : Filter T NVec DMat K (Env K LinSysData X LinMeasData Y)}
    (hf : FedTo (kfPlantN sc mc) sort (NaNOp (fun _ => True) n m kd) (Filter.construct (kfPlantN sc mc) params e x c t0) f)
    (hnan : f.getState.HasNaN) (hg : FedTo (kfPlantN sc mc) sort (NaNOp (fun _ => True) n m kd) f g) : g.getState.AllNaN := by
  have ha := fed_any hsc hmc hn hsort he hx hc hcl hf
  obtain ⟨a, b⟩ := ha.fed (nan_taint (T := T) (n := n) (m := m) (kd := kd) hsc hmc hn) (fun _ h => h.1) hsort
    (fun op hop => nan_ops (fun x hx h => ⟨Or.inl h, by rw [hx]; exact hn⟩) op hop) hg
  exact any_pure hsc hmc hn a (b hnan)

private theorem ctrl_step (hsc : SysContract LinSysData.Sized sc)
    {c d : Core T NVec DMat (Env K LinSysData X LinMeasData Y)} {i : FilterInput T NVec DMat K} (he : NaNOk n m kd c.env)
    (hx : c.x.size = n) {u : NVec} {r : DMat}
    (hsel : i.data.size > 0 ∧ u = i.data ∧ r = i.covariance ∨ i.data.size = 0 ∧ c.pc.size > 0 ∧ u = c.pc ∧ r = c.pcc)
    (hu : u.size = m) (hr : r.Is m m) (hnan : u.HasNaN) (h : c.control (kfPlantN sc mc) i = some d) :
    NaNOk n m kd d.env ∧ d.pc = u ∧ d.pcc = r ∧ d.x.AllNaN := by
  obtain ⟨x, cov, ts, pc, pcc, e⟩ := c
  dsimp only at he hx hsel
  have k1 : (if (kfPlantN sc mc).vsize i.data > 0 then (i.data, i.covariance, i.data, i.covariance)
          else if (kfPlantN sc mc).vsize pc > 0 then (pc, pcc, pc, pcc)
          else ((kfPlantN sc mc).zeroV ((kfPlantN sc mc).controlSize e), (kfPlantN sc mc).rc e, pc, pcc)) = (u, r, u, r) := by
    rcases hsel with ⟨h1, rfl, rfl⟩ | ⟨h1, h2, rfl, rfl⟩
    · rw [if_pos (show (kfPlantN sc mc).vsize i.data > 0 from h1)]
    · rw [if_neg (show ¬ (kfPlantN sc mc).vsize i.data > 0 from by change ¬ i.data.size > 0; omega), if_pos (by exact h2)]
  unfold Core.control at h
  dsimp only at h
  rw [k1] at h
  have hq : (kfPlantN sc mc).sysCheck e = false := he.quiet.1
  rw [hq] at h
  simp only [Bool.false_and, Bool.not_false, if_true] at h
  split at h
  · cases h
  · rename_i e1 he1
    have he1' : NaNOk n m kd e1 := setRc_ok he hr he1
    split at h
    · cases h
    · rename_i x' c' e' hp
      injection h with h; subst h
      obtain ⟨q1, _, _, _, _, q6⟩ := predict_taint hsc he1' hx hu hp
      exact ⟨q1, rfl, rfl, q6 hnan⟩

private theorem apply_ctrl (P : Plant T NVec DMat K (Env K LinSysData X LinMeasData Y))
    {f g : Filter T NVec DMat K (Env K LinSysData X LinMeasData Y)} {i : FilterInput T NVec DMat K} (hi : i.isControl = true)
    (hg : (f.applyInput P i).map Filter.pruned = some g) :
    ∃ d, f.core.control P i = some d ∧ g.env = d.env ∧ g.prevControl = d.pc ∧ g.prevControlCov = d.pcc ∧ g.state.x = d.x := by
  rw [Option.map_eq_some_iff] at hg
  obtain ⟨g', h1, rfl⟩ := hg
  obtain ⟨c, hc, rfl⟩ := Filter.applyInput_some P f g' i h1
  unfold Core.apply at hc
  rw [if_pos hi, Option.map_eq_some_iff] at hc
  obtain ⟨d, hd, rfl⟩ := hc
  have e := Filter.pruned_core { f.withCore (d.tick (TimeOps.sub i.timestamp f.core.ts)) i with history := f.pushed }
  exact ⟨d, hd, congrArg Core.env e, congrArg Core.pc e, congrArg Core.pcc e, congrArg Core.x e⟩

/-- **C100 (refutation 3).** A NaN in a control outlives `initialize`: the filter keeps the last control in use, so the first
prediction after a fresh initialisation with good numbers makes every entry of the state NaN. -/
theorem C100_refuted_control (hsc : SysContract LinSysData.Sized sc) {f g h : Filter T NVec DMat K (Env K LinSysData X LinMeasData Y)}
    (he : NaNOk n m kd f.env) (u : NVec) (t : T) (hu : u.size = m) (hnan : u.HasNaN) (hx : f.getState.size = n)
    (ht : f.getStateTime ≤ t) (hg : f.predictControl (kfPlantN sc mc) u t = some g)
    (x : NVec) (c : DMat) (t0 t1 : T) (hx0 : x.size = n) (h01 : t0 < t1)
    (hh : (g.init x c t0).predictTime (kfPlantN sc mc) t1 = some h) : h.getState.AllNaN := by
  have hu0 : u.size > 0 := by obtain ⟨i, _⟩ := hnan; exact Nat.lt_of_le_of_lt (Nat.zero_le _) i.2
  rw [Filter.predictControl_inorder _ _ _ _ ht] at hg
  obtain ⟨d, h1, h2, h3, h4, _⟩ := apply_ctrl _ rfl hg
  obtain ⟨k1, k2, k3, _⟩ := ctrl_step (n := n) (m := m) (kd := kd) hsc he hx (u := u) (r := f.env.sys.Rc)
    (Or.inl ⟨hu0, rfl, rfl⟩) hu he.sys.Rc hnan h1
  rw [Filter.predictTime_future _ _ _ (show (g.init x c t0).getStateTime < t1 from h01)] at hh
  obtain ⟨d', l1, _, _, _, l5⟩ := apply_ctrl _ rfl hh
  have he' : NaNOk n m kd (g.init x c t0).core.env := by
    show NaNOk n m kd g.env
    rw [h2]; exact k1
  have := (ctrl_step (n := n) (m := m) (kd := kd) hsc he' (show (g.init x c t0).core.x.size = n from hx0) (u := u) (r := f.env.sys.Rc)
    (Or.inr ⟨rfl, (by show g.prevControl.size > 0; rw [h3, k2]; exact hu0), (by show u = g.prevControl; rw [h3, k2]),
      (by show _ = g.prevControlCov; rw [h4, k3])⟩) hu he.sys.Rc hnan l1).2.2.2
  show h.state.x.AllNaN
  rw [l5]; exact this

end Poison

/-! ### The hypotheses are met, and the NaN strikes -/

section Examples

open Examples

private theorem cv_free : SysDataFree cvClass where
  ops := plain_ops _
  update := by intro s x x' u u' dt _ _; rfl
  fm := by
    intro s x u dt s' h
    change (if s.stateSize = 2 ∧ s.controlDims = 1 ∧ s.Rp.rows = 2 then _ else some s) = some s' at h
    split at h
    · injection h with h; subst h; rfl
    · injection h with h; subst h; rfl

private theorem pos_free : MeasDataFree posClass where
  ops := plain_mops _
  update := by intro s x x' dt _; rfl
  fm := by
    intro s x dt s' h
    change (if s.stateSize = 2 ∧ s.measDims = 1 then _ else some s) = some s' at h
    split at h
    · injection h with h; subst h; rfl
    · injection h with h; subst h; rfl

private theorem cv_nan : NaNOk 2 1 (fun _ => 1) cvEnv :=
  ⟨(cvEnv_ok (Q := EstimatePSD 2)).sys, (cvEnv_ok (Q := EstimatePSD 2)).meas, rfl, fun _ => rfl⟩

private noncomputable def tsort {V M K : Type} (l : List (FilterInput ℝ V M K)) : List (FilterInput ℝ V M K) :=
  l.insertionSort (fun a b => TimeOps.lt b.timestamp a.timestamp = false)

private theorem tsort_sorts {V M K : Type} : IsTimeSort (tsort (V := V) (M := M) (K := K)) := by
  intro l
  refine ⟨List.perm_insertionSort _ _, ?_⟩
  have : Std.Total (fun a b : FilterInput ℝ V M K => TimeOps.lt b.timestamp a.timestamp = false) := ⟨fun a b => by
    rw [Filter.lt_false_iff, Filter.lt_false_iff]; exact le_total _ _⟩
  have : IsTrans (FilterInput ℝ V M K) (fun a b => TimeOps.lt b.timestamp a.timestamp = false) := ⟨fun a b c h1 h2 => by
    rw [Filter.lt_false_iff] at *; exact h1.trans h2⟩
  exact List.pairwise_insertionSort _ _

private theorem fed_run {T K V M E : Type} [TimeOps T] {P : Plant T V M K E}
    {sort : List (FilterInput T V M K) → List (FilterInput T V M K)} {wf : Op T V M K E → Prop} (ops : List (Op T V M K E))
    (h : ∀ op ∈ ops, wf op ∧ op.FeedsOn) {f g k : Filter T V M K E} (hf : FedTo P sort wf k f) (hg : f.run P sort ops = some g) :
    FedTo P sort wf k g := by
  induction ops generalizing f with
  | nil => unfold Filter.run at hg; injection hg with hg; subst hg; exact hf
  | cons op ops ih =>
    unfold Filter.run at hg
    split at hg
    · cases hg
    · rename_i f' hf'
      exact ih (fun o ho => h o (by simp [ho])) (FedTo.call f f' op hf (h op (by simp)).1 (h op (by simp)).2 hf') hg

private noncomputable def nanOps : List (Op ℝ NVec DMat Unit (Env Unit LinSysData Unit LinMeasData Unit)) :=
  [.correct (.of ![.nan]) (.identity 1) 1 (some ()), .correct (.of ![.num 7]) (.identity 1) 3 (some ()),
   .correct (.of ![.num 7]) (.identity 1) 2 (some ())]

private noncomputable def numOps : List (Op ℝ DVec DMat Unit (Env Unit LinSysData Unit LinMeasData Unit)) :=
  [.correct (.of ![5]) (.identity 1) 1 (some ()), .correct (.of ![7]) (.identity 1) 3 (some ()),
   .correct (.of ![7]) (.identity 1) 2 (some ())]

private theorem filled_num (r : ℝ) : (NVec.of ![.num r]).FilledBy (.of ![r]) := by
  refine ⟨rfl, fun i q h => ?_⟩
  fin_cases i
  have h : WithNaN.num r = .num q := h
  injection h

private theorem filled_nan (r : ℝ) : (NVec.of ![.nan]).FilledBy (.of ![r]) := by
  refine ⟨rfl, fun i q h => ?_⟩
  fin_cases i
  have h : WithNaN.nan = .num q := h
  cases h

private theorem filled_zero (n : Nat) : (NVec.zero n).FilledBy (.zero n) := by
  refine ⟨rfl, fun i q h => ?_⟩
  have h : WithNaN.num 0 = .num q := h
  injection h

private theorem same_ops : List.Forall₂ SameButNaN nanOps numOps :=
  .cons ⟨filled_nan 5, rfl, rfl, rfl, by simp⟩ (.cons ⟨filled_num 7, rfl, rfl, rfl, by simp⟩
    (.cons ⟨filled_num 7, rfl, rfl, rfl, by simp⟩ .nil))

private theorem nan_wf : ∀ op ∈ nanOps, NaNOp (fun _ => True) 2 1 (fun _ => 1) op ∧ op.FeedsOn := by
  intro op hop
  simp only [nanOps, List.mem_cons, List.not_mem_nil, or_false] at hop
  rcases hop with rfl | rfl | rfl
  · exact ⟨⟨(), rfl, rfl, trivial, rfl, rfl⟩, trivial⟩
  · exact ⟨⟨(), rfl, rfl, trivial, rfl, rfl⟩, trivial⟩
  · exact ⟨⟨(), rfl, rfl, trivial, rfl, rfl⟩, trivial⟩

/-- The constant-velocity filter with rewinding: a NaN position at time 1, a good one at 3, a late good one at 2.  The calls
succeed, with the covariances of the run that measured 5 at time 1, and both state entries are NaN in the end. -/
example : ∃ f g, (Filter.construct (kfPlantN cvClass fun _ : Unit => posClass)
      { allowPast := true, rewindHistory := true, historyWindow := 5 } cvEnv (.zero 2) (.identity 2) 0).run
      (kfPlantN cvClass fun _ => posClass) tsort nanOps = some f ∧
    (Filter.construct (kfPlant cvClass fun _ : Unit => posClass)
      { allowPast := true, rewindHistory := true, historyWindow := 5 } cvEnv (.zero 2) (.identity 2) 0).run
      (kfPlant cvClass fun _ => posClass) tsort numOps = some g ∧
    f.getCovariance = g.getCovariance ∧ f.getState.AllNaN := by
  obtain ⟨g, hg, _⟩ := C26_C29_kf (m := 1) (T := ℝ) cv_contract (fun _ => pos_contract) (fun _ => 1) tsort
    (fun l => (tsort_sorts l).1) { allowPast := true, rewindHistory := true, historyWindow := 5 } _ cvEnv_ok _ _ 0
    cv_estimate numOps (by
      intro op hop
      simp only [numOps, List.mem_cons, List.not_mem_nil, or_false] at hop
      rcases hop with rfl | rfl | rfl
      · exact ⟨(), rfl, rfl, ⟨rfl, rfl⟩, identity_pd 1⟩
      · exact ⟨(), rfl, rfl, ⟨rfl, rfl⟩, identity_pd 1⟩
      · exact ⟨(), rfl, rfl, ⟨rfl, rfl⟩, identity_pd 1⟩)
  have h := (C100_partial cv_free (fun _ : Unit => pos_free)).2 tsort tsort sameSort_insertion
    { allowPast := true, rewindHistory := true, historyWindow := 5 } cvEnv cv_nan.quiet (.zero 2) (.zero 2) (.identity 2) 0
    (filled_zero 2) nanOps numOps same_ops
  rw [hg] at h
  cases hf : (Filter.construct (kfPlantN cvClass fun _ : Unit => posClass)
      { allowPast := true, rewindHistory := true, historyWindow := 5 } cvEnv (.zero 2) (.identity 2) 0).run
      (kfPlantN cvClass fun _ => posClass) tsort nanOps with
  | none => rw [hf] at h; exact h.elim
  | some f =>
    rw [hf] at h
    refine ⟨f, g, rfl, hg, (SimRel.forall₂_concat (l := f.history) (l' := g.history) h.2.2).2.2.1, ?_⟩
    have hcl : (NVec.zero 2).Clean := fun i h => by cases h
    unfold nanOps at hf
    unfold Filter.run at hf
    split at hf
    · cases hf
    · rename_i f1 hf1
      have hp := C100_refuted_poisons (n := 2) (m := 1) (kd := fun _ => 1) cv_contract (fun _ : Unit => pos_contract) (by norm_num)
        tsort_sorts (params := { allowPast := true, rewindHistory := true, historyWindow := 5 }) cv_nan (x := .zero 2) (t0 := 0) rfl (c := .identity 2) ⟨rfl, rfl⟩ hcl
        (FedTo.refl (wf := NaNOp (fun _ => True) 2 1 fun _ => 1)) (.of ![.nan]) (.identity 1) 1 () rfl ⟨rfl, rfl⟩ ⟨0, rfl⟩ (show _ = some f1 from hf1)
      rcases hp with hp | ⟨_, hlt⟩
      · have h1 : FedTo _ tsort (NaNOp (fun _ => True) 2 1 fun _ => 1) _ f1 :=
          FedTo.call _ f1 (.correct (.of ![.nan]) (.identity 1) 1 (some ())) FedTo.refl ⟨(), rfl, rfl, trivial, rfl, rfl⟩ trivial hf1
        have hsz : 0 < f1.getState.size := by
          rcases fed_any cv_contract (fun _ : Unit => pos_contract) (by norm_num) tsort_sorts cv_nan rfl ⟨rfl, rfl⟩ hcl h1 with h | h
          · exact h.pre.ok.state.2.2.2.2.2.2
          · exact h.ok.state.2.2.2.2.2.2
        exact C100_refuted_never_recovers cv_contract (fun _ : Unit => pos_contract) (by norm_num) tsort_sorts cv_nan rfl
          ⟨rfl, rfl⟩ hcl h1 (all_has hp hsz) (fed_run _ (fun op hop => nan_wf op (List.mem_cons_of_mem _ hop)) FedTo.refl hf)
      · exact absurd hlt (by show ¬ (1:ℝ) < 0; norm_num)

/-- Refutation 3 happens: a NaN command at time 1, then a fresh initialisation, then a prediction. -/
example : ∃ f, (Filter.construct (kfPlantN cvClass fun _ : Unit => posClass)
      { allowPast := true, rewindHistory := false, historyWindow := 5 } cvEnv (.zero 2) (.identity 2) 0).run
      (kfPlantN cvClass fun _ => posClass) tsort
      [.predictControl (.of ![.nan]) 1, .init (.zero 2) (.identity 2) 10, .predictTime 11] = some f ∧ f.getState.AllNaN := by
  obtain ⟨g, hg, _⟩ := C26_C29_kf (m := 1) (T := ℝ) cv_contract (fun _ => pos_contract) (fun _ => 1) tsort
    (fun l => (tsort_sorts l).1) { allowPast := true, rewindHistory := false, historyWindow := 5 } _ cvEnv_ok _ _ 0
    cv_estimate [.predictControl (.of ![3]) 1, .init (.zero 2) (.identity 2) 10, .predictTime 11] (by
      intro op hop
      simp only [List.mem_cons, List.not_mem_nil, or_false] at hop
      rcases hop with rfl | rfl | rfl
      · exact Or.inl rfl
      · exact cv_estimate
      · trivial)
  have h := (C100_partial cv_free (fun _ : Unit => pos_free)).2 tsort tsort sameSort_insertion
    { allowPast := true, rewindHistory := false, historyWindow := 5 } cvEnv cv_nan.quiet (.zero 2) (.zero 2) (.identity 2) 0
    (filled_zero 2) [.predictControl (.of ![.nan]) 1, .init (.zero 2) (.identity 2) 10, .predictTime 11]
    [.predictControl (.of ![3]) 1, .init (.zero 2) (.identity 2) 10, .predictTime 11]
    (.cons ⟨filled_nan 3, rfl⟩ (.cons ⟨filled_zero 2, rfl, rfl⟩ (.cons rfl .nil)))
  rw [hg] at h
  cases hf : (Filter.construct (kfPlantN cvClass fun _ : Unit => posClass)
      { allowPast := true, rewindHistory := false, historyWindow := 5 } cvEnv (.zero 2) (.identity 2) 0).run
      (kfPlantN cvClass fun _ => posClass) tsort
      [.predictControl (.of ![.nan]) 1, .init (.zero 2) (.identity 2) 10, .predictTime 11] with
  | none => rw [hf] at h; exact h.elim
  | some f =>
    refine ⟨f, rfl, ?_⟩
    unfold Filter.run at hf
    split at hf
    · cases hf
    · rename_i f1 hf1
      unfold Filter.run at hf
      split at hf
      · cases hf
      · rename_i f2 hf2
        have hf2 : some (f1.init _ _ _) = some f2 := hf2
        injection hf2 with hf2
        subst hf2
        unfold Filter.run at hf
        split at hf
        · cases hf
        · rename_i f3 hf3
          unfold Filter.run at hf
          injection hf with hf
          subst hf
          exact C100_refuted_control (n := 2) (m := 1) (kd := fun _ : Unit => 1) (f := Filter.construct (kfPlantN cvClass fun _ : Unit => posClass)
              { allowPast := true, rewindHistory := false, historyWindow := 5 } cvEnv (.zero 2) (.identity 2) 0)
            cv_contract cv_nan (.of ![.nan]) 1 rfl ⟨0, rfl⟩ rfl
            (by show (0:ℝ) ≤ 1; norm_num) hf1 (.zero 2) (.identity 2) 10 11 rfl (by norm_num) hf3

end Examples

end Props
end StateEstimation
