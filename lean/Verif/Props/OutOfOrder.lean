import Verif.Lemmas.OutOfOrder
import Verif.Examples.Toy

/-! # C09, C10: arrival order in rewind mode -/

set_option linter.unusedSectionVars false

namespace StateEstimation
namespace Props

open Filter

variable {T V M K E : Type}

section spec
variable [TimeOps T]

/-- The models have no memory beyond `Rc`: they may cache whatever they like (Jacobians, the last covariance, ...),
but `≈` (any equivalence on model objects that fixes `Rc`) is kept by every callback, and what the callbacks
return is the same for `≈` models.  Setting `Rc` to the value it has is `≈` to doing nothing. -/
structure Memoryless (P : Plant T V M K E) (eqv : E → E → Prop) : Prop where
  refl : ∀ e, eqv e e
  symm : ∀ e e', eqv e e' → eqv e' e
  trans : ∀ e e' e'', eqv e e' → eqv e' e'' → eqv e e''
  rc : ∀ e e', eqv e e' → P.rc e = P.rc e'
  controlSize : ∀ e e', eqv e e' → P.controlSize e = P.controlSize e'
  setRc : ∀ e e', eqv e e' → OptRel False (fun a a' => eqv e a ∧ eqv e a') (P.setRc e (P.rc e)) (P.setRc e' (P.rc e))
  sysIsStationary : ∀ e e' x u, eqv e e' →
    (P.sysCheck e && P.sysIsStationary e x u) = (P.sysCheck e' && P.sysIsStationary e' x u)
  sysProcess : ∀ e e' x c u, eqv e e' → OptRel False (fun a a' => eqv e a ∧ eqv e a' ∧ P.sysMake a x c = P.sysMake a' x c)
    (P.sysProcess e x u) (P.sysProcess e' x u)
  setMeasCov : ∀ e e' m R, eqv e e' →
    (P.setMeasCov e m R).isSome = (P.setMeasCov e' m R).isSome
  /-- the measurement callbacks, after the covariance was set -/
  meas : ∀ e e' m R a a', eqv e e' → P.setMeasCov e m R = some a → P.setMeasCov e' m R = some a' →
    (∀ x z, (P.measCheck a m && P.measIsStationary a m x z) = (P.measCheck a' m && P.measIsStationary a' m x z)) ∧
    (∀ x c z dt, OptRel False (fun r r' => r.1 = r'.1 ∧ r.2.1 = r'.2.1 ∧ eqv e r.2.2 ∧ eqv e r'.2.2)
      (P.myCorrect a x c z m dt) (P.myCorrect a' x c z m dt)) ∧
    (∀ x c z, OptRel False (fun r r' => eqv e r ∧ eqv e r' ∧ P.measMake r m x c = P.measMake r' m x c)
      (P.measProcess a m x z) (P.measProcess a' m x z))
  predict : ∀ e e' x c u dt, eqv e e' →
    OptRel False (fun r r' => r.1 = r'.1 ∧ r.2.1 = r'.2.1 ∧ eqv e r.2.2 ∧ eqv e r'.2.2)
      (P.myPredict e x c u dt) (P.myPredict e' x c u dt)

end spec

section core
variable [TimeOps T] {P : Plant T V M K E} {eqv : E → E → Prop}

theorem Memoryless.control (hM : Memoryless P eqv) (e0 : E) (x : V) (c : M) (t : T) (pc pc' : V) (pcc pcc' : M)
    (e e' : E) (he : eqv e0 e) (he' : eqv e0 e') (i : FilterInput T V M K)
    (hsel : P.vsize i.data > 0 ∧ i.covariance = P.rc e0 ∨
      P.vsize i.data = 0 ∧ pc = pc' ∧ pcc = pcc' ∧ (P.vsize pc > 0 → pcc = P.rc e0)) :
    OptRel False (fun a b : Core T V M E => a.x = b.x ∧ a.cov = b.cov ∧ a.ts = t ∧ b.ts = t ∧
        a.pc = (if P.vsize i.data > 0 then i.data else pc) ∧ b.pc = (if P.vsize i.data > 0 then i.data else pc') ∧
        a.pcc = (if P.vsize i.data > 0 then i.covariance else pcc) ∧
        b.pcc = (if P.vsize i.data > 0 then i.covariance else pcc') ∧ eqv e0 a.env ∧ eqv e0 b.env)
      (Core.control P ⟨x, c, t, pc, pcc, e⟩ i) (Core.control P ⟨x, c, t, pc', pcc', e'⟩ i) := by
  have hee' : eqv e e' := hM.trans _ _ _ (hM.symm _ _ he) he'
  have hrce : P.rc e = P.rc e0 := (hM.rc _ _ he).symm
  have hrce' : P.rc e' = P.rc e0 := (hM.rc _ _ he').symm
  -- both branches select the same control and the covariance `Rc`
  have hkey : ∃ (u a b : V) (p q : M),
      (if P.vsize i.data > 0 then (i.data, i.covariance, i.data, i.covariance)
        else if P.vsize pc > 0 then (pc, pcc, pc, pcc)
        else (P.zeroV (P.controlSize e), P.rc e, pc, pcc)) = (u, P.rc e, a, p) ∧
      (if P.vsize i.data > 0 then (i.data, i.covariance, i.data, i.covariance)
        else if P.vsize pc' > 0 then (pc', pcc', pc', pcc')
        else (P.zeroV (P.controlSize e'), P.rc e', pc', pcc')) = (u, P.rc e, b, q) ∧
      a = (if P.vsize i.data > 0 then i.data else pc) ∧ b = (if P.vsize i.data > 0 then i.data else pc') ∧
      p = (if P.vsize i.data > 0 then i.covariance else pcc) ∧
      q = (if P.vsize i.data > 0 then i.covariance else pcc') := by
    rcases hsel with ⟨h1, h2⟩ | ⟨h1, rfl, rfl, h2⟩
    · simp only [h1, if_true]
      exact ⟨i.data, i.data, i.data, i.covariance, i.covariance, by rw [hrce, h2], by rw [hrce, h2], rfl, rfl, rfl, rfl⟩
    · have h1' : ¬ P.vsize i.data > 0 := by omega
      simp only [h1', if_false]
      by_cases h3 : P.vsize pc > 0
      · simp only [h3, if_true]
        exact ⟨pc, pc, pc, pcc, pcc, by rw [hrce, h2 h3], by rw [hrce, h2 h3], rfl, rfl, rfl, rfl⟩
      · simp only [h3, if_false]
        exact ⟨P.zeroV (P.controlSize e), pc, pc, pcc, pcc, rfl, by rw [hM.controlSize _ _ hee', hrce', hrce],
          rfl, rfl, rfl, rfl⟩
  obtain ⟨u, a, b, p, q, k1, k2, k3, k4, k5, k6⟩ := hkey
  unfold Core.control
  dsimp only
  rw [k1, k2, ← hM.sysIsStationary _ _ _ _ hee']
  dsimp only
  by_cases hst : (!(P.sysCheck e && P.sysIsStationary e x i.data)) = true
  · rw [if_pos hst, if_pos hst]
    have h1 := hM.setRc e e' hee'
    generalize P.setRc e (P.rc e) = r1 at h1 ⊢
    generalize P.setRc e' (P.rc e) = r2 at h1 ⊢
    cases r1 <;> cases r2 <;> simp only [OptRel] at h1
    · exact not_false
    · rename_i v1 v2
      dsimp only
      have hv : eqv v1 v2 := hM.trans _ _ _ (hM.symm _ _ h1.1) h1.2
      have h2 := hM.predict v1 v2 x c u (TimeOps.sub i.timestamp t) hv
      generalize P.myPredict v1 x c u _ = r3 at h2 ⊢
      generalize P.myPredict v2 x c u _ = r4 at h2 ⊢
      cases r3 <;> cases r4 <;> simp only [OptRel] at h2
      · exact not_false
      · have hz := hM.trans _ _ _ he h1.1
        exact ⟨h2.1, h2.2.1, rfl, rfl, k3, k4, k5, k6, hM.trans _ _ _ hz h2.2.2.1, hM.trans _ _ _ hz h2.2.2.2⟩
  · rw [if_neg hst, if_neg hst]
    have h1 := hM.sysProcess e e' x c i.data hee'
    generalize P.sysProcess e x i.data = r1 at h1 ⊢
    generalize P.sysProcess e' x i.data = r2 at h1 ⊢
    cases r1 <;> cases r2 <;> simp only [OptRel] at h1
    · exact not_false
    · rename_i v1 v2
      dsimp only
      rw [h1.2.2]
      cases P.sysMake v2 x c with
      | none => exact not_false
      | some r => exact ⟨rfl, rfl, rfl, rfl, k3, k4, k5, k6, hM.trans _ _ _ he h1.1, hM.trans _ _ _ he h1.2.1⟩

theorem Memoryless.meas_core (hM : Memoryless P eqv) (e0 : E) (x : V) (c : M) (t : T) (pc pc' : V) (pcc pcc' : M)
    (e e' : E) (he : eqv e0 e) (he' : eqv e0 e') (i : FilterInput T V M K) (dt : T) :
    OptRel False (fun a b : Core T V M E => a.x = b.x ∧ a.cov = b.cov ∧ a.pc = pc ∧ b.pc = pc' ∧ a.pcc = pcc ∧
        b.pcc = pcc' ∧ eqv e0 a.env ∧ eqv e0 b.env)
      (Core.meas P ⟨x, c, t, pc, pcc, e⟩ i dt) (Core.meas P ⟨x, c, t, pc', pcc', e'⟩ i dt) := by
  have hee' : eqv e e' := hM.trans _ _ _ (hM.symm _ _ he) he'
  unfold Core.meas
  dsimp only
  cases i.model with
  | none => exact not_false
  | some m =>
    dsimp only
    have h1 := hM.setMeasCov e e' m i.covariance hee'
    cases h2 : P.setMeasCov e m i.covariance with
    | none =>
      rw [h2] at h1
      have : P.setMeasCov e' m i.covariance = none := by simpa using h1
      rw [this]; exact not_false
    | some a =>
      rw [h2] at h1
      obtain ⟨a', h3⟩ := Option.isSome_iff_exists.mp (by simpa using h1.symm)
      rw [h3]
      dsimp only
      obtain ⟨k2, k3, k4⟩ := hM.meas e e' m _ a a' hee' h2 h3
      rw [← k2]
      split
      · have := k3 x c i.data dt
        generalize P.myCorrect a x c i.data m dt = r1 at this ⊢
        generalize P.myCorrect a' x c i.data m dt = r2 at this ⊢
        cases r1 <;> cases r2 <;> simp only [OptRel] at this
        · exact not_false
        · exact ⟨this.1, this.2.1, rfl, rfl, rfl, rfl, hM.trans _ _ _ he this.2.2.1, hM.trans _ _ _ he this.2.2.2⟩
      · have := k4 x c i.data
        generalize P.measProcess a m x i.data = r1 at this ⊢
        generalize P.measProcess a' m x i.data = r2 at this ⊢
        cases r1 <;> cases r2 <;> simp only [OptRel] at this
        · exact not_false
        · rename_i v1 v2
          dsimp only
          rw [this.2.2]
          cases P.measMake v2 m x c with
          | none => exact not_false
          | some r => exact ⟨rfl, rfl, rfl, rfl, rfl, rfl, hM.trans _ _ _ he this.1, hM.trans _ _ _ he this.2.1⟩

/-- explicit controls only -/
theorem Memoryless.pure_controls (hM : Memoryless P eqv) (e0 : E) :
    PureStep P (fun _ _ e => eqv e0 e)
      (fun i : FilterInput T V M K => i.isControl = true ∧ P.vsize i.data > 0 ∧ i.covariance = P.rc e0)
      (fun x c t i => (Core.apply P ⟨x, c, t, P.emptyV, P.emptyM, e0⟩ i).map fun d => (d.x, d.cov)) := by
  rintro ⟨x, c, t, pc, pcc, e⟩ i he ⟨h1, h2, h3⟩
  unfold Core.apply
  dsimp only at he ⊢
  rw [if_pos h1, if_pos h1]
  have := hM.control e0 x c t pc P.emptyV pcc P.emptyM e e0 he (hM.refl _) i (Or.inl ⟨h2, h3⟩)
  generalize Core.control P ⟨x, c, t, pc, pcc, e⟩ i = r1 at this ⊢
  generalize Core.control P ⟨x, c, t, P.emptyV, P.emptyM, e0⟩ i = r2 at this ⊢
  cases r1 <;> cases r2 <;> simp only [OptRel] at this
  · exact not_false
  · exact ⟨this.1, this.2.1, this.2.2.2.2.2.2.2.2.1⟩

/-- one fixed remembered control -/
theorem Memoryless.pure_fixed (hM : Memoryless P eqv) (e0 : E) (pc0 : V) (pcc0 : M)
    (hpc : P.vsize pc0 > 0 → pcc0 = P.rc e0) :
    PureStep P (fun pc pcc e => pc = pc0 ∧ pcc = pcc0 ∧ eqv e0 e)
      (fun i : FilterInput T V M K => i.isControl = true → P.vsize i.data = 0 ∨ i.data = pc0 ∧ i.covariance = pcc0)
      (fun x c t i => (Core.apply P ⟨x, c, t, pc0, pcc0, e0⟩ i).map fun d => (d.x, d.cov)) := by
  rintro ⟨x, c, t, pc, pcc, e⟩ i ⟨rfl, rfl, he⟩ hA
  dsimp only at he hpc
  have hctrl : ∀ j : FilterInput T V M K, (P.vsize j.data = 0 ∨ j.data = pc ∧ j.covariance = pcc) →
      OptRel False (fun a b : Core T V M E => a.x = b.x ∧ a.cov = b.cov ∧ a.ts = t ∧ b.ts = t ∧ a.pc = pc ∧ b.pc = pc ∧
        a.pcc = pcc ∧ b.pcc = pcc ∧ eqv e0 a.env ∧ eqv e0 b.env)
        (Core.control P ⟨x, c, t, pc, pcc, e⟩ j) (Core.control P ⟨x, c, t, pc, pcc, e0⟩ j) := by
    intro j hj
    have hsel : P.vsize j.data > 0 ∧ j.covariance = P.rc e0 ∨
        P.vsize j.data = 0 ∧ pc = pc ∧ pcc = pcc ∧ (P.vsize pc > 0 → pcc = P.rc e0) := by
      by_cases h : P.vsize j.data > 0
      · left
        rcases hj with hj | ⟨hj1, hj2⟩
        · omega
        · exact ⟨h, by rw [hj2]; exact hpc (by rw [← hj1]; exact h)⟩
      · right; exact ⟨by omega, rfl, rfl, hpc⟩
    refine OptRel.mono (hM.control e0 x c t pc pc pcc pcc e e0 he (hM.refl _) j hsel) ?_
    rintro a b ⟨g1, g2, g3, g4, g5, g6, g7, g8, g9, g10⟩
    by_cases h : P.vsize j.data > 0
    · simp only [h, if_true] at g5 g6 g7 g8
      rcases hj with hj | ⟨hj1, hj2⟩
      · omega
      · rw [hj1] at g5 g6; rw [hj2] at g7 g8
        exact ⟨g1, g2, g3, g4, g5, g6, g7, g8, g9, g10⟩
    · simp only [h, if_false] at g5 g6 g7 g8
      exact ⟨g1, g2, g3, g4, g5, g6, g7, g8, g9, g10⟩
  unfold Core.apply
  dsimp only
  by_cases hc : i.isControl = true
  · rw [if_pos hc, if_pos hc]
    have := hctrl i (hA hc)
    generalize Core.control P ⟨x, c, t, pc, pcc, e⟩ i = r1 at this ⊢
    generalize Core.control P ⟨x, c, t, pc, pcc, e0⟩ i = r2 at this ⊢
    cases r1 <;> cases r2 <;> simp only [OptRel] at this
    · exact not_false
    · exact ⟨this.1, this.2.1, this.2.2.2.2.1, this.2.2.2.2.2.2.1, this.2.2.2.2.2.2.2.2.1⟩
  · rw [if_neg hc, if_neg hc]
    split
    · have := hctrl (Core.advInput ⟨x, c, t, pc, pcc, e⟩ i.timestamp) (Or.inr ⟨rfl, rfl⟩)
      have hadv : (Core.advInput ⟨x, c, t, pc, pcc, e0⟩ i.timestamp : FilterInput T V M K)
        = Core.advInput ⟨x, c, t, pc, pcc, e⟩ i.timestamp := rfl
      rw [hadv]
      generalize Core.control P ⟨x, c, t, pc, pcc, e⟩ (Core.advInput ⟨x, c, t, pc, pcc, e⟩ i.timestamp) = r1 at this ⊢
      generalize Core.control P ⟨x, c, t, pc, pcc, e0⟩ (Core.advInput ⟨x, c, t, pc, pcc, e⟩ i.timestamp) = r2 at this ⊢
      cases r1 <;> cases r2 <;> simp only [OptRel] at this
      · exact not_false
      · rename_i a b
        obtain ⟨ax, ac, at', ap, apc, ae⟩ := a
        obtain ⟨bx, bc, bt, bp, bpc, be⟩ := b
        dsimp only at this
        obtain ⟨rfl, rfl, rfl, rfl, rfl, rfl, rfl, rfl, h9, h10⟩ := this
        simp only [Option.map_some, Option.bind_some, Core.tick]
        have h2 := hM.meas_core e0 ax ac (TimeOps.add bt (TimeOps.sub i.timestamp bt)) bp bp bpc bpc ae be h9 h10 i
          (TimeOps.sub i.timestamp bt)
        generalize Core.meas P ⟨ax, ac, _, bp, bpc, ae⟩ i _ = r3 at h2 ⊢
        generalize Core.meas P ⟨ax, ac, _, bp, bpc, be⟩ i _ = r4 at h2 ⊢
        cases r3 <;> cases r4 <;> simp only [OptRel] at h2
        · exact not_false
        · exact ⟨h2.1, h2.2.1, h2.2.2.1, h2.2.2.2.2.1, h2.2.2.2.2.2.2.1⟩
    · have h2 := hM.meas_core e0 x c t pc pc pcc pcc e e0 he (hM.refl _) i (TimeOps.sub i.timestamp t)
      generalize Core.meas P ⟨x, c, t, pc, pcc, e⟩ i _ = r3 at h2 ⊢
      generalize Core.meas P ⟨x, c, t, pc, pcc, e0⟩ i _ = r4 at h2 ⊢
      cases r3 <;> cases r4 <;> simp only [OptRel] at h2
      · exact not_false
      · exact ⟨h2.1, h2.2.1, h2.2.2.1, h2.2.2.2.2.1, h2.2.2.2.2.2.2.1⟩

end core

section main
variable [LinearOrder T] [ExactTime T]

theorem init_holds {G : V → M → E → Prop} {A : FilterInput T V M K → Prop}
    {F : V → M → T → FilterInput T V M K → Option (V × M)} (f0 : Filter T V M K E)
    (hr : f0.params.rewindHistory = true) (x : V) (c : M) (t0 : T)
    (hG : G f0.prevControl f0.prevControlCov f0.env) :
    Holds G A F (f0.init x c t0).state [] (f0.init x c t0) :=
  ⟨hr, hG, by simp, rfl, rfl, by simp [retained, Filter.init, Filter.clear], by simp [retained, Filter.init, Filter.clear],
    by simp [TimeSorted, retained, Filter.init, Filter.clear]⟩

/-- sorted permutations with distinct time stamps are equal -/
theorem sorted_perm_eq (l l' : List (FilterInput T V M K)) (h : l.Perm l')
    (h1 : l.Pairwise (fun a b => a.timestamp ≤ b.timestamp)) (h2 : l'.Pairwise (fun a b => a.timestamp < b.timestamp)) :
    l = l' := by
  have hd : l.Pairwise (fun a b => a.timestamp ≠ b.timestamp) :=
    h.symm.pairwise (h2.imp (fun {a b} hab => ne_of_lt hab)) (fun {a b} hab => Ne.symm hab)
  have h1' : l.Pairwise (fun a b => a.timestamp < b.timestamp) := by
    refine (h1.and hd).imp ?_
    rintro a b ⟨p, q⟩
    exact lt_of_le_of_ne p q
  refine List.Perm.eq_of_pairwise (le := fun a b => a.timestamp < b.timestamp) ?_ h1' h2 h
  intro a b _ _ hab hba
  exact absurd hab (not_lt.mpr hba.le)

/-- General form: any arrival order of admissible calls against the time order. -/
theorem arrival_order {P : Plant T V M K E} {G : V → M → E → Prop} {A : FilterInput T V M K → Prop}
    {F : V → M → T → FilterInput T V M K → Option (V × M)} (hF : PureStep P G A F)
    (sort) (R : M) (hrc : ∀ pc pcc e, G pc pcc e → P.rc e = R) (f0 : Filter T V M K E)
    (hr : f0.params.rewindHistory = true) (x : V) (c : M) (t0 : T) (hG : G f0.prevControl f0.prevControlCov f0.env)
    (arrival ordered : List (Op T V M K E)) (hperm : arrival.Perm ordered)
    (ins : Op T V M K E → FilterInput T V M K) (hins : ∀ op ∈ ordered, op.inputWith R = some (ins op))
    (hsorted : ordered.Pairwise (fun a b => (ins a).timestamp < (ins b).timestamp))
    (hA : ∀ op ∈ ordered, A (ins op)) (h0 : ∀ op ∈ ordered, t0 < (ins op).timestamp)
    (hw : ∀ op ∈ ordered, TimeOps.sub (ins op).timestamp f0.params.historyWindow ≤ t0)
    (g : Filter T V M K E) (hg : (f0.init x c t0).run P sort arrival = some g) :
    ∃ g', (f0.init x c t0).run P sort ordered = some g' ∧ g.getState = g'.getState ∧
      g.getCovariance = g'.getCovariance ∧ g.getStateTime = g'.getStateTime := by
  have hstart := init_holds (A := A) (F := F) f0 hr x c t0 hG
  have hord : (ordered.map ins).Pairwise (fun a b => a.timestamp < b.timestamp) := by
    rw [List.pairwise_map]; exact hsorted
  have hpi : (arrival.map ins).Perm (ordered.map ins) := hperm.map ins
  have hrun : ∀ (ops : List (Op T V M K E)) (g : Filter T V M K E), ops.Perm ordered →
      (f0.init x c t0).run P sort ops = some g →
      Holds G A F (f0.init x c t0).state (ordered.map ins) g := by
    intro ops g hp hgr
    have hpi : (ops.map ins).Perm (ordered.map ins) := hp.map ins
    obtain ⟨ks, hk1, hk2⟩ := hstart.run hF sort R hrc f0.params.historyWindow ops (ops.map ins) (by
        rw [List.map_map]
        refine List.map_congr_left ?_
        intro op hop
        exact hins op (hp.mem_iff.mp hop)) rfl (by
        intro j hj
        obtain ⟨op, hop, rfl⟩ := List.mem_map.mp hj
        exact hA op (hp.mem_iff.mp hop)) (by
        intro j hj
        obtain ⟨op, hop, rfl⟩ := List.mem_map.mp hj
        exact h0 op (hp.mem_iff.mp hop)) (by
        rw [List.nil_append]
        exact hpi.symm.pairwise (hord.imp (fun {a b} hab => ne_of_lt hab)) (fun {a b} hab => Ne.symm hab)) (by
        intro j hj
        rw [List.nil_append] at hj
        obtain ⟨op, hop, rfl⟩ := List.mem_map.mp hj
        exact hw op (hp.mem_iff.mp hop)) hgr
    rw [List.nil_append] at hk1
    have := sorted_perm_eq ks (ordered.map ins) (hk1.trans hpi) hk2.inputs_sorted hord
    rw [← this]; exact hk2
  have hg1 := hrun arrival g hperm hg
  have hsucc := Holds.inorder_succeeds (f := f0.init x c t0) hF sort R hrc ordered (ordered.map ins) (by
      rw [List.map_map]
      exact List.map_congr_left hins) hr hG (by
      intro j hj
      obtain ⟨op, hop, rfl⟩ := List.mem_map.mp hj
      exact hA op hop) (hord.imp (fun {a b} hab => le_of_lt hab)) (by
      intro j hj
      obtain ⟨op, hop, rfl⟩ := List.mem_map.mp hj
      exact (h0 op hop).le) hg1.pureRun_some
  obtain ⟨g', hg'⟩ := Option.isSome_iff_exists.mp hsucc
  exact ⟨g', hg', hg1.same_estimate (hrun ordered g' (List.Perm.refl _) hg')⟩

/-- **C09.**  Rewind mode, after `initialize` at `t0`: explicit (non-empty) controls with distinct time stamps later than
`t0`, all so close that nothing leaves the history window, give in *any* arrival order the same state, covariance
and time as in time order.  For memoryless models whose `Rc` the user leaves alone. -/
theorem C09_out_of_order_controls (P : Plant T V M K E) (eqv : E → E → Prop) (hM : Memoryless P eqv) (sort)
    (f0 : Filter T V M K E) (hr : f0.params.rewindHistory = true) (x : V) (c : M) (t0 : T)
    (arrival ordered : List (V × T)) (hperm : arrival.Perm ordered)
    (hsorted : ordered.Pairwise (fun a b => a.2 < b.2))
    (hu : ∀ a ∈ ordered, P.vsize a.1 > 0 ∧ t0 < a.2 ∧ TimeOps.sub a.2 f0.params.historyWindow ≤ t0)
    (g : Filter T V M K E)
    (hg : (f0.init x c t0).run P sort (arrival.map fun a => .predictControl a.1 a.2) = some g) :
    ∃ g', (f0.init x c t0).run P sort (ordered.map fun a => .predictControl a.1 a.2) = some g' ∧
      g.getState = g'.getState ∧ g.getCovariance = g'.getCovariance ∧ g.getStateTime = g'.getStateTime := by
  refine arrival_order (hM.pure_controls f0.env) sort (P.rc f0.env) (fun _ _ e he => (hM.rc _ _ he).symm) f0 hr x c t0
    (hM.refl _) _ _ (hperm.map _)
    (fun op => match op with
      | .predictControl u t => ⟨u, P.rc f0.env, t, true, none⟩
      | _ => ⟨P.emptyV, P.emptyM, t0, true, none⟩) ?_ ?_ ?_ ?_ ?_ g hg
  · intro op hop
    obtain ⟨a, _, rfl⟩ := List.mem_map.mp hop
    rfl
  · rw [List.pairwise_map]; exact hsorted
  · intro op hop
    obtain ⟨a, ha, rfl⟩ := List.mem_map.mp hop
    exact ⟨rfl, (hu a ha).1, rfl⟩
  · intro op hop
    obtain ⟨a, ha, rfl⟩ := List.mem_map.mp hop
    exact (hu a ha).2.1
  · intro op hop
    obtain ⟨a, ha, rfl⟩ := List.mem_map.mp hop
    exact (hu a ha).2.2

/-- time stamp of a direct call with data -/
def callTime (t0 : T) : Op T V M K E → T
  | .predictControl _ t | .correct _ _ t _ => t
  | _ => t0

/-- **C10 (partial).**  Rewind mode, after `initialize` at `t0`: any mixture of measurements, control-free predictions
(`predict(u, t)` with empty `u`) and repetitions of the one control the filter already remembers, with distinct time
stamps later than `t0` and within the window, gives in any arrival order the estimate of the time order.
Missing from C10: mixtures with a *new* control (false, `C10_refuted`), and `predict(t)` calls, which are ignored when
late (C01). -/
theorem C10_out_of_order_mixture_partial (P : Plant T V M K E) (eqv : E → E → Prop) (hM : Memoryless P eqv) (sort)
    (f0 : Filter T V M K E) (hr : f0.params.rewindHistory = true)
    (hpcc : P.vsize f0.prevControl > 0 → f0.prevControlCov = P.rc f0.env) (x : V) (c : M) (t0 : T)
    (arrival ordered : List (Op T V M K E)) (hperm : arrival.Perm ordered)
    (hsorted : ordered.Pairwise (fun a b => callTime t0 a < callTime t0 b))
    (hkind : ∀ op ∈ ordered, (∃ z R t m, op = .correct z R t m) ∨
      ∃ u t, op = .predictControl u t ∧ (P.vsize u = 0 ∨ u = f0.prevControl))
    (ht : ∀ op ∈ ordered, t0 < callTime t0 op ∧ TimeOps.sub (callTime t0 op) f0.params.historyWindow ≤ t0)
    (g : Filter T V M K E) (hg : (f0.init x c t0).run P sort arrival = some g) :
    ∃ g', (f0.init x c t0).run P sort ordered = some g' ∧
      g.getState = g'.getState ∧ g.getCovariance = g'.getCovariance ∧ g.getStateTime = g'.getStateTime := by
  have hts : ∀ op ∈ ordered, ((op.inputWith (P.rc f0.env)).getD ⟨P.emptyV, P.emptyM, t0, true, none⟩).timestamp
      = callTime t0 op := by
    intro op hop
    rcases hkind op hop with ⟨z, R, t, m, rfl⟩ | ⟨u, t, rfl, _⟩ <;> rfl
  refine arrival_order (hM.pure_fixed f0.env f0.prevControl f0.prevControlCov hpcc) sort (P.rc f0.env)
    (fun _ _ e he => (hM.rc _ _ he.2.2).symm) f0 hr x c t0 ⟨rfl, rfl, hM.refl _⟩ _ _ hperm
    (fun op => (op.inputWith (P.rc f0.env)).getD ⟨P.emptyV, P.emptyM, t0, true, none⟩) ?_ ?_ ?_ ?_ ?_ g hg
  · intro op hop
    rcases hkind op hop with ⟨z, R, t, m, rfl⟩ | ⟨u, t, rfl, _⟩ <;> rfl
  · refine hsorted.imp_of_mem ?_
    intro a b ha hb hab
    rw [hts a ha, hts b hb]; exact hab
  · intro op hop
    rcases hkind op hop with ⟨z, R, t, m, rfl⟩ | ⟨u, t, rfl, hu⟩
    · intro h; simp [Op.inputWith] at h
    · intro _
      rcases hu with hu | rfl
      · left; exact hu
      · by_cases hv : P.vsize f0.prevControl > 0
        · right; exact ⟨rfl, (hpcc hv).symm⟩
        · left
          show P.vsize f0.prevControl = 0
          omega
  · intro op hop
    rw [hts op hop]; exact (ht op hop).1
  · intro op hop
    rw [hts op hop]; exact (ht op hop).2

end main

/-- The toy plant is memoryless: its only model state is `Rc`. -/
theorem toy_memoryless : Memoryless toy (fun e e' => e = e') where
  refl _ := rfl
  symm _ _ h := h.symm
  trans _ _ _ h h' := h.trans h'
  rc _ _ h := h
  controlSize _ _ _ := rfl
  setRc := by rintro e _ rfl; exact ⟨rfl, rfl⟩
  sysIsStationary _ _ _ _ _ := rfl
  sysProcess := by rintro e _ x c u rfl; exact ⟨rfl, rfl, rfl⟩
  setMeasCov _ _ _ _ _ := rfl
  meas := by
    rintro e _ m R a a' rfl h1 h2
    simp only [toy, Option.some.injEq] at h1 h2
    subst h1 h2
    exact ⟨fun _ _ => rfl, fun _ _ _ _ => ⟨rfl, rfl, rfl, rfl⟩, fun _ _ _ => ⟨rfl, rfl, rfl⟩⟩
  predict := by rintro e _ x c u dt rfl; exact ⟨rfl, rfl, rfl, rfl⟩

/-- C09 applies to three controls arriving in the order 3, 1, 2; the common result is not trivial. -/
example :
    estimate (toyRun (toyRewind.init [0] 0 0) (([([5], 3), ([7], 1), ([9], 2)] : List (List ℤ × ℤ)).map
      fun a => .predictControl a.1 a.2)) = some ([7 + 9 + 5], 3, 3) ∧
    ∃ g', toyRun (toyRewind.init [0] 0 0) (([([7], 1), ([9], 2), ([5], 3)] : List (List ℤ × ℤ)).map
      fun a => .predictControl a.1 a.2) = some g' ∧ g'.getState = [21] ∧ g'.getCovariance = 3 ∧ g'.getStateTime = 3 := by
  have h1 : estimate (toyRun (toyRewind.init [0] 0 0) (([([5], 3), ([7], 1), ([9], 2)] : List (List ℤ × ℤ)).map
      fun a => .predictControl a.1 a.2)) = some ([7 + 9 + 5], 3, 3) := by decide
  refine ⟨h1, ?_⟩
  simp only [estimate, Option.map_eq_some_iff] at h1
  obtain ⟨g, hg, hv⟩ := h1
  simp only [Prod.mk.injEq] at hv
  obtain ⟨g', h2, h3, h4, h5⟩ := C09_out_of_order_controls toy _ toy_memoryless insSort toyRewind rfl [0] 0 0
    [([5], 3), ([7], 1), ([9], 2)] [([7], 1), ([9], 2), ([5], 3)] (by decide) (by decide) (by decide) g hg
  exact ⟨g', h2, by rw [← h3, hv.1]; rfl, by rw [← h4, hv.2.1], by rw [← h5, hv.2.2]⟩

/-- the order used in the C10 example -/
def toyMixArrival : List (Op ℤ (List ℤ) ℤ Unit ℤ) :=
  [.correct [8] 1 3 (some ()), .predictControl [] 4, .correct [40] 1 1 (some ()), .correct [100] 1 2 (some ())]
/-- the same calls in time order -/
def toyMixOrdered : List (Op ℤ (List ℤ) ℤ Unit ℤ) :=
  [.correct [40] 1 1 (some ()), .correct [100] 1 2 (some ()), .correct [8] 1 3 (some ()), .predictControl [] 4]

/-- C10_partial applies to three measurements and a control-free prediction arriving in the order 3, 4, 1, 2. -/
example :
    estimate (toyRun (toyRewind.init [0] 0 0) toyMixArrival) = some ([34], 4, 4) ∧
    ∃ g', toyRun (toyRewind.init [0] 0 0) toyMixOrdered = some g' ∧ g'.getState = [34] := by
  have h1 : estimate (toyRun (toyRewind.init [0] 0 0) toyMixArrival) = some ([34], 4, 4) := by decide
  refine ⟨h1, ?_⟩
  simp only [estimate, Option.map_eq_some_iff] at h1
  obtain ⟨g, hg, hv⟩ := h1
  simp only [Prod.mk.injEq] at hv
  obtain ⟨g', h2, h3, h4, h5⟩ := C10_out_of_order_mixture_partial toy _ toy_memoryless insSort toyRewind rfl
    (by decide) [0] 0 0 toyMixArrival toyMixOrdered
    (by
      refine List.Perm.trans (l₂ := [.correct [8] 1 3 (some ()), .correct [40] 1 1 (some ()),
        .correct [100] 1 2 (some ()), .predictControl [] 4]) ?_ ?_
      · refine List.Perm.cons _ ?_
        refine (List.Perm.swap _ _ _).trans (List.Perm.cons _ (List.Perm.swap _ _ _))
      · refine (List.Perm.swap _ _ _).trans (List.Perm.cons _ (List.Perm.swap _ _ _)))
    (by simp [toyMixOrdered, callTime])
    (by
      intro op hop
      simp only [toyMixOrdered, List.mem_cons, List.not_mem_nil, or_false] at hop
      rcases hop with rfl | rfl | rfl | rfl
      · exact Or.inl ⟨_, _, _, _, rfl⟩
      · exact Or.inl ⟨_, _, _, _, rfl⟩
      · exact Or.inl ⟨_, _, _, _, rfl⟩
      · exact Or.inr ⟨_, _, rfl, Or.inl rfl⟩)
    (by
      intro op hop
      simp only [toyMixOrdered, List.mem_cons, List.not_mem_nil, or_false] at hop
      rcases hop with rfl | rfl | rfl | rfl <;> decide)
    g hg
  exact ⟨g', h2, by rw [← h3, hv.1]⟩

/-- **C10 refuted.**  A control at time 3 followed by a late measurement at time 2 gives `[10]`, in time order it gives
`[5]`: rewinding does not restore the control in use, so the late measurement is reached with a control that, at its
time, had not been given yet. -/
theorem C10_refuted :
    estimate (toyRun toyRewind [.predictControl [5] 3, .correct [0] 0 2 (some ())]) = some ([10], 2, 3) ∧
    estimate (toyRun toyRewind [.correct [0] 0 2 (some ()), .predictControl [5] 3]) = some ([5], 2, 3) := by
  constructor <;> decide

end Props
end StateEstimation
