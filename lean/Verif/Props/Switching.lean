import Verif.Props.Modes
import Verif.Props.OutOfOrder

/-!
# C113: switching `rewind_history` during use

The parameters are public data (`parameters()`), so rewinding can be switched off and on between calls.  In-order data do not
notice.  But what was given while rewinding was off is not remembered, while the states of before are kept: a late reading that
arrives after rewinding was switched on again silently takes back everything given in the meantime, except the last piece, and
the last piece before the switch.
-/

set_option linter.unusedSectionVars false

namespace StateEstimation
namespace Props

open Filter

variable {T V M K E : Type} [LinearOrder T] [ExactTime T]

/-- the calls without the parameter changes -/
def unswitched : List (Op T V M K E) → List (Op T V M K E)
  | [] => []
  | .setParams _ :: ops => unswitched ops
  | op :: ops => op :: unswitched ops

/-- **C113 (in-order data).**  Right after `initialize` (or with nothing remembered otherwise), make any calls, with any changes of
the parameters in between.  If the calls are in order, the state, covariance, time, control in use and models are
those of the same calls without the parameter changes, or both abort. -/
theorem C113_switching_in_order (P : Plant T V M K E) (sort) (hsort : IsTimeSort sort) (f : Filter T V M K E)
    (hh : f.history = []) (ops : List (Op T V M K E)) (hops : f.InOrderRun P sort (unswitched ops)) :
    (f.run P sort ops).map (fun g => (g.getState, g.getCovariance, g.getStateTime, g.prevControl, g.prevControlCov, g.env))
      = (f.run P sort (unswitched ops)).map
        (fun g => (g.getState, g.getCovariance, g.getStateTime, g.prevControl, g.prevControlCov, g.env)) := by
  have key : ∀ (ops : List (Op T V M K E)) (f g : Filter T V M K E), ModeSim f g → f.InOrderRun P sort (unswitched ops) →
      BothOr ModeSim (f.run P sort (unswitched ops)) (g.run P sort ops) := by
    intro ops
    induction ops with
    | nil => intro f g h _; exact h
    | cons op ops ih =>
      intro f g h ho
      by_cases hsw : ∃ p, op = .setParams p
      · obtain ⟨p, rfl⟩ := hsw
        exact ih f _ ⟨h.core, h.cq, h.mq, h.histf, h.histg⟩ ho
      · have hu : unswitched (op :: ops) = op :: unswitched ops := by
          cases op <;> first | rfl | exact absurd ⟨_, rfl⟩ hsw
        rw [hu] at ho ⊢
        have hs := h.step P sort hsort f g op ho.1
        rw [run, run]
        cases hf : f.step P sort op with
        | none =>
          cases hg : g.step P sort op with
          | none => trivial
          | some g' => rw [hf, hg] at hs; exact absurd hs (by simp [BothOr])
        | some f' =>
          cases hg : g.step P sort op with
          | none => rw [hf, hg] at hs; exact absurd hs (by simp [BothOr])
          | some g' =>
            rw [hf, hg] at hs
            exact ih f' g' hs (ho.2 f' hf)
  have := key ops f f ⟨rfl, rfl, rfl, by simp [hh], by simp [hh]⟩ hops
  cases hf : f.run P sort (unswitched ops) with
  | none =>
    cases hg : f.run P sort ops with
    | none => rfl
    | some g' => rw [hf, hg] at this; exact absurd this (by simp [BothOr])
  | some f' =>
    cases hg : f.run P sort ops with
    | none => rw [hf, hg] at this; exact absurd this (by simp [BothOr])
    | some g' =>
      rw [hf, hg] at this
      have hc := ModeSim.core this
      simp only [Filter.core, Core.mk.injEq] at hc
      simp [getState, getCovariance, getStateTime, hc]

/-! ### The gap -/

/-- the call for one reading: value, covariance, time, model -/
def readingCall (a : V × M × T × Option K) : Op T V M K E := .correct a.1 a.2.1 a.2.2.1 a.2.2.2

/-- the input it makes -/
private def readingInput (a : V × M × T × Option K) : FilterInput T V M K := measurementInput a.1 a.2.1 a.2.2.1 a.2.2.2

section pure
variable {P : Plant T V M K E} {G : V → M → E → Prop} {A : FilterInput T V M K → Prop}
  {F : V → M → T → FilterInput T V M K → Option (V × M)}

private theorem pure_applyAll_same (hF : PureStep P G A F) (js : List (FilterInput T V M K)) (hA : ∀ j ∈ js, A j)
    (f k f' k' : Filter T V M K E) (hf : G f.prevControl f.prevControlCov f.env) (hk : G k.prevControl k.prevControlCov k.env)
    (hx : f.state.x = k.state.x) (hc : f.state.covariance = k.state.covariance) (ht : f.state.timestamp = k.state.timestamp)
    (h1 : Filter.applyAll P f js = some f') (h2 : Filter.applyAll P k js = some k') :
    f'.state.x = k'.state.x ∧ f'.state.covariance = k'.state.covariance ∧ f'.state.timestamp = k'.state.timestamp := by
  induction js generalizing f k with
  | nil =>
    simp only [Filter.applyAll, Option.some.injEq] at h1 h2
    subst h1 h2
    exact ⟨hx, hc, ht⟩
  | cons j js ih =>
    rw [Filter.applyAll] at h1 h2
    cases e1 : Filter.applyInput P f j with
    | none => rw [e1] at h1; simp at h1
    | some f1 =>
      cases e2 : Filter.applyInput P k j with
      | none => rw [e2] at h2; simp at h2
      | some k1 =>
        rw [e1] at h1
        rw [e2] at h2
        have t1 := applyInput_time P f f1 j e1
        have t2 := applyInput_time P k k1 j e2
        obtain ⟨c1, a1, rfl⟩ := applyInput_some P f f1 j e1
        obtain ⟨c2, a2, rfl⟩ := applyInput_some P k k1 j e2
        have p1 := hF f.core j hf (hA j (by simp))
        have p2 := hF k.core j hk (hA j (by simp))
        have eF : F k.core.x k.core.cov k.core.ts j = F f.core.x f.core.cov f.core.ts j := by
          show F k.state.x k.state.covariance k.state.timestamp j = F f.state.x f.state.covariance f.state.timestamp j
          rw [hx, hc, ht]
        rw [a1] at p1
        rw [a2, eF] at p2
        cases eV : F f.core.x f.core.cov f.core.ts j with
        | none => rw [eV] at p1; exact p1.elim
        | some r =>
          rw [eV] at p1 p2
          obtain ⟨b1, b2, b3⟩ := p1
          obtain ⟨d1, d2, d3⟩ := p2
          exact ih (fun j hj => hA j (by simp [hj])) _ _ b3 d3 (b1.trans d1.symm) (b2.trans d2.symm)
            (by rw [t1, t2, ht]) h1 h2

/-- a late input on two filters that remember the same states, and the same last input -/
private theorem insert_same (hF : PureStep P G A F) (f k f' k' : Filter T V M K E) (i : FilterInput T V M K)
    (hf : G f.prevControl f.prevControlCov f.env) (hk : G k.prevControl k.prevControlCov k.env)
    (hs : TimeSorted f.history) (hh : f.history = k.history) (hp : f.state.prevInput = k.state.prevInput)
    (ht1 : i.timestamp < f.state.timestamp) (ht2 : i.timestamp < k.state.timestamp)
    (front : FilterState T V M K) (rest) (hfr : f.history = front :: rest) (h0 : front.timestamp < i.timestamp)
    (hA : A i) (hAr : ∀ s ∈ rest, A s.prevInput) (hAl : A f.state.prevInput)
    (h1 : insertInput P f i = some f') (h2 : insertInput P k i = some k') :
    f'.state.x = k'.state.x ∧ f'.state.covariance = k'.state.covariance ∧ f'.state.timestamp = k'.state.timestamp := by
  unfold insertInput at h1 h2
  rw [if_pos ((LawfulTime.lt_iff _ _).mpr ht1)] at h1
  rw [if_pos ((LawfulTime.lt_iff _ _).mpr ht2)] at h2
  obtain ⟨older, s, newer, e1, e2, e3, e4, e5⟩ := rewindHistory_sorted f hs i.timestamp ht1.le front rest hfr h0
  obtain ⟨older', s', newer', e1', e2', e3', e4', e5'⟩ :=
    rewindHistory_sorted k (by rw [← hh]; exact hs) i.timestamp ht2.le front rest (by rw [← hh]; exact hfr) h0
  have hsplit : ∀ (l r l' r' : List (FilterState T V M K)), (∀ b ∈ l, b.timestamp < i.timestamp) →
      (∀ b ∈ l', b.timestamp < i.timestamp) → (∀ b ∈ r, i.timestamp ≤ b.timestamp) → (∀ b ∈ r', i.timestamp ≤ b.timestamp) →
      l ++ r = l' ++ r' → l = l' ∧ r = r' := by
    intro l
    induction l with
    | nil =>
      intro r l' r' _ h2 h3 _ he
      cases l' with
      | nil => exact ⟨rfl, he⟩
      | cons b l' =>
        rw [List.nil_append] at he
        exact absurd (h2 b (by simp)) (not_lt.mpr (h3 b (by rw [he]; simp)))
    | cons a l ih =>
      intro r l' r' h1 h2 h3 h4 he
      cases l' with
      | nil =>
        rw [List.nil_append] at he
        exact absurd (h1 a (by simp)) (not_lt.mpr (h4 a (by rw [← he]; simp)))
      | cons b l' =>
        simp only [List.cons_append, List.cons.injEq] at he
        obtain ⟨i1, i2⟩ := ih r l' r' (fun b hb => h1 b (by simp [hb])) (fun b hb => h2 b (by simp [hb])) h3 h4 he.2
        exact ⟨by rw [he.1, i1], i2⟩
  have hold : ∀ {o : List (FilterState T V M K)} {s : FilterState T V M K}, (∀ b ∈ o, b.timestamp < i.timestamp) →
      s.timestamp < i.timestamp → ∀ b ∈ o ++ [s], b.timestamp < i.timestamp := by
    intro o s ho hs b hb
    rcases List.mem_append.mp hb with hb | hb
    · exact ho b hb
    · rw [List.mem_singleton] at hb; rw [hb]; exact hs
  obtain ⟨q1, q2⟩ := hsplit (older ++ [s]) newer (older' ++ [s']) newer' (hold e2 e3) (hold e2' e3') e4 e4' (by
    have := e1.symm.trans (hh.trans e1')
    simpa using this)
  obtain ⟨rfl, q4⟩ := List.append_inj' q1 rfl
  simp only [List.cons.injEq, and_true] at q4
  subst q2 q4
  rw [e5] at h1
  rw [e5'] at h2
  dsimp only at h1 h2
  obtain ⟨f1, g1, rfl⟩ := applyBatchInputs_some P _ f' _ h1
  obtain ⟨k1, g2, rfl⟩ := applyBatchInputs_some P _ k' _ h2
  rw [pruned_state, pruned_state]
  have hin : (newer ++ [k.state]).map FilterState.prevInput = (newer ++ [f.state]).map FilterState.prevInput := by
    simp [hp]
  rw [hin] at g2
  refine pure_applyAll_same hF _ ?_ _ _ f1 k1 ?_ ?_ ?_ ?_ ?_ g1 g2
  · intro j hj
    rcases List.mem_cons.mp hj with rfl | hj
    · exact hA
    · obtain ⟨b, hb, rfl⟩ := List.mem_map.mp hj
      rcases List.mem_append.mp hb with hb | hb
      · refine hAr b ?_
        have hmem : b ∈ f.history := by rw [e1]; simp [hb]
        rw [hfr] at hmem
        rcases List.mem_cons.mp hmem with rfl | hmem
        · exact absurd h0 (not_lt.mpr (e4 b hb))
        · exact hmem
      · rw [List.mem_singleton] at hb; rw [hb]; exact hAl
  · exact hf
  · exact hk
  · rfl
  · rfl
  · rfl

/-- readings given while rewinding is off -/
private theorem gap_keeps (hF : PureStep P G A F) (sort) (hA : ∀ a : V × M × T × Option K, A (readingInput a))
    (l : List (V × M × T × Option K)) (f g : Filter T V M K E) (hr : f.params.rewindHistory = false)
    (hG : G f.prevControl f.prevControlCov f.env) (hs : l.Pairwise fun a b => a.2.2.1 ≤ b.2.2.1)
    (ht : ∀ a ∈ l, f.state.timestamp ≤ a.2.2.1) (hg : f.run P sort (l.map readingCall) = some g) :
    g.params = f.params ∧ g.history = f.history ∧ G g.prevControl g.prevControlCov g.env ∧
    (∀ a, l.getLast? = some a → g.state.prevInput = readingInput a ∧ g.state.timestamp = a.2.2.1) := by
  induction l generalizing f with
  | nil =>
    simp only [List.map_nil, run, Option.some.injEq] at hg
    subst hg
    exact ⟨rfl, rfl, hG, by simp⟩
  | cons a l ih =>
    rw [List.map_cons, run] at hg
    have hs' := List.pairwise_cons.mp hs
    have hta := ht a (by simp)
    have hstep : f.step P sort (readingCall a) = (Filter.applyInput P f (readingInput a)).map pruned :=
      correct_inorder P f a.1 a.2.1 a.2.2.1 a.2.2.2 hta
    rw [hstep] at hg
    cases e1 : Filter.applyInput P f (readingInput a) with
    | none => rw [e1] at hg; simp at hg
    | some f1 =>
      rw [e1] at hg
      simp only [Option.map_some] at hg
      have t1 := applyInput_time P f f1 _ e1
      obtain ⟨c1, c2, c3, c4, c5⟩ := applyInput_frame P f f1 _ e1
      have t1' : f1.state.timestamp = a.2.2.1 := by
        rw [t1]
        show max f.state.timestamp a.2.2.1 = a.2.2.1
        exact max_eq_right hta
      have hpr : f1.pruned = f1 := by unfold pruned; rw [c1, hr]; rfl
      rw [hpr] at hg
      have hG1 : G f1.prevControl f1.prevControlCov f1.env := by
        obtain ⟨d, hd, rfl⟩ := applyInput_some P f f1 _ e1
        have p1 := hF f.core (readingInput a) hG (hA a)
        rw [hd] at p1
        cases eV : F f.core.x f.core.cov f.core.ts (readingInput a) with
        | none => rw [eV] at p1; exact p1.elim
        | some r => rw [eV] at p1; exact p1.2.2
      obtain ⟨i1, i2, i3, i4⟩ := ih f1 (by rw [c1]; exact hr) hG1 hs'.2 (by intro b hb; rw [t1']; exact hs'.1 b hb) hg
      have hh1 : f1.history = f.history := by rw [c4]; unfold pushed; rw [hr]; rfl
      refine ⟨i1.trans c1, i2.trans hh1, i3, ?_⟩
      intro b hb
      cases l with
      | nil =>
        simp only [List.getLast?_singleton, Option.some.injEq] at hb
        subst hb
        simp only [List.map_nil, run, Option.some.injEq] at hg
        subst hg
        exact ⟨c5, t1'⟩
      | cons c l => exact i4 b (by simpa using hb)

/-- readings given in order while rewinding is on, within the window -/
private theorem rewind_holds (hF : PureStep P G A F) (sort) (hA : ∀ a : V × M × T × Option K, A (readingInput a))
    {s0 : FilterState T V M K} (l : List (V × M × T × Option K)) (is) (f g : Filter T V M K E) (h : Holds G A F s0 is f)
    (hs : l.Pairwise fun a b => a.2.2.1 ≤ b.2.2.1) (ht : ∀ a ∈ l, f.state.timestamp ≤ a.2.2.1)
    (hw : ∀ a ∈ l, TimeOps.sub a.2.2.1 f.params.historyWindow ≤ s0.timestamp)
    (hg : f.run P sort (l.map readingCall) = some g) :
    Holds G A F s0 (is ++ l.map readingInput) g ∧ g.params = f.params := by
  induction l generalizing f is with
  | nil =>
    simp only [List.map_nil, run, Option.some.injEq] at hg
    subst hg
    simpa using h
  | cons a l ih =>
    rw [List.map_cons, run] at hg
    have hs' := List.pairwise_cons.mp hs
    have hta := ht a (by simp)
    have hstep : f.step P sort (readingCall a) = (Filter.applyInput P f (readingInput a)).map pruned :=
      correct_inorder P f a.1 a.2.1 a.2.2.1 a.2.2.2 hta
    rw [hstep] at hg
    cases e1 : Filter.applyInput P f (readingInput a) with
    | none => rw [e1] at hg; simp at hg
    | some f1 =>
      rw [e1] at hg
      simp only [Option.map_some] at hg
      obtain ⟨h1, h2, h3⟩ := h.applyInput hF (hA a) hta e1
      have h3' : f1.state.timestamp = a.2.2.1 := h3
      have hpr : f1.pruned = f1 := h1.pruned_eq (by rw [h3', h2]; exact hw a (by simp))
      rw [hpr] at hg
      obtain ⟨i1, i2⟩ := ih _ f1 h1 hs'.2 (by intro b hb; rw [h3']; exact hs'.1 b hb)
        (by intro b hb; rw [h2]; exact hw b (by simp [hb])) hg
      refine ⟨by simpa using i1, i2.trans h2⟩

private theorem run_append (sort) (l l' : List (Op T V M K E)) (f g : Filter T V M K E)
    (h : f.run P sort (l ++ l') = some g) : ∃ m, f.run P sort l = some m ∧ m.run P sort l' = some g := by
  induction l generalizing f with
  | nil => exact ⟨f, rfl, h⟩
  | cons op l ih =>
    rw [List.cons_append, run] at h
    rw [run]
    cases e : f.step P sort op with
    | none => rw [e] at h; simp at h
    | some m => rw [e] at h; exact ih m h

end pure

/-- **C113 (what was given while rewinding was off is lost).**  Any filter class with memoryless models, rewinding on; readings
`before` and `last` in time order; rewinding is switched off; readings `gap` and `final` in time order; rewinding is switched on again; and a
reading `late` from before `last`.  All within the history window.  The estimate is then the one obtained had `last` and
all of `gap` never been given. -/
theorem C113_gap_lost (P : Plant T V M K E) (eqv : E → E → Prop) (hM : Memoryless P eqv) (sort) (f0 : Filter T V M K E)
    (hr : f0.params.rewindHistory = true) (hpcc : P.vsize f0.prevControl > 0 → f0.prevControlCov = P.rc f0.env)
    (x : V) (c : M) (t0 : T) (off : Params T) (hoff : off.rewindHistory = false)
    (before gap : List (V × M × T × Option K)) (last final late : V × M × T × Option K)
    (horder : (before ++ last :: gap ++ [final]).Pairwise fun a b => a.2.2.1 ≤ b.2.2.1)
    (hstart : ∀ a ∈ before ++ last :: gap ++ [final], t0 ≤ a.2.2.1)
    (hwindow : ∀ a ∈ before ++ last :: gap ++ [final], TimeOps.sub a.2.2.1 f0.params.historyWindow ≤ t0)
    (hlate : t0 < late.2.2.1 ∧ late.2.2.1 < last.2.2.1) (g g' : Filter T V M K E)
    (hg : (f0.init x c t0).run P sort (before.map readingCall ++ [readingCall last, .setParams off] ++ gap.map readingCall
      ++ [readingCall final, .setParams f0.params, readingCall late]) = some g)
    (hg' : (f0.init x c t0).run P sort (before.map readingCall ++ [readingCall final, readingCall late]) = some g') :
    g.getState = g'.getState ∧ g.getCovariance = g'.getCovariance ∧ g.getStateTime = g'.getStateTime := by
  have hF := hM.pure_fixed f0.env f0.prevControl f0.prevControlCov hpcc
  have hA : ∀ a : V × M × T × Option K, (fun i : FilterInput T V M K => i.isControl = true →
      P.vsize i.data = 0 ∨ i.data = f0.prevControl ∧ i.covariance = f0.prevControlCov) (readingInput a) := by
    intro a h; simp [readingInput, measurementInput] at h
  have hinit := init_holds (A := fun i : FilterInput T V M K => i.isControl = true →
      P.vsize i.data = 0 ∨ i.data = f0.prevControl ∧ i.covariance = f0.prevControlCov)
    (F := fun x c t i => (Core.apply P ⟨x, c, t, f0.prevControl, f0.prevControlCov, f0.env⟩ i).map fun d => (d.x, d.cov))
    (G := fun pc pcc e => pc = f0.prevControl ∧ pcc = f0.prevControlCov ∧ eqv f0.env e) f0 hr x c t0 ⟨rfl, rfl, hM.refl _⟩
  rw [List.append_assoc, List.append_assoc] at hg
  obtain ⟨h, hh, hg⟩ := run_append sort _ _ _ _ hg
  obtain ⟨h', hh', hg'⟩ := run_append sort _ _ _ _ hg'
  rw [hh] at hh'
  cases hh'
  have ho1 := List.pairwise_append.mp horder
  have ho2 := List.pairwise_append.mp ho1.1
  have ho3 := List.pairwise_cons.mp ho2.2.1
  obtain ⟨H, hp⟩ := rewind_holds hF sort hA before [] _ h hinit ho2.1 (fun a ha => hstart a (by simp [ha]))
    (fun a ha => hwindow a (by simp [ha])) hh
  rw [List.nil_append] at H
  have hp : h.params = f0.params := hp
  have htime : ∀ b, (∀ a ∈ before, a.2.2.1 ≤ b) → t0 ≤ b → h.state.timestamp ≤ b := by
    intro b hb h0
    rw [H.state_time]
    cases e : before.getLast? with
    | none =>
      have : before = [] := by simpa using e
      subst this
      exact h0
    | some a =>
      rw [List.getLast?_map, e]
      exact hb a (List.mem_of_getLast? e)
  have hlast : h.state.timestamp ≤ last.2.2.1 := htime _ (fun a ha => ho2.2.2 a ha last (by simp)) (hstart last (by simp))
  have hfinal : h.state.timestamp ≤ final.2.2.1 :=
    htime _ (fun a ha => ho1.2.2 a (by simp [ha]) final (by simp)) (hstart final (by simp))
  have hlf : last.2.2.1 ≤ final.2.2.1 := ho1.2.2 last (by simp) final (by simp)
  -- one more reading with rewinding on
  have one : ∀ (a : V × M × T × Option K) (f : Filter T V M K E), h.state.timestamp ≤ a.2.2.1 →
      TimeOps.sub a.2.2.1 f0.params.historyWindow ≤ t0 → h.step P sort (readingCall a) = some f →
      (f.prevControl = f0.prevControl ∧ f.prevControlCov = f0.prevControlCov ∧ eqv f0.env f.env) ∧ f.params = f0.params ∧ f.history = h.retained ∧
        f.state.prevInput = readingInput a ∧ f.state.timestamp = a.2.2.1 := by
    intro a f ha hwa hf
    have hstep : h.step P sort (readingCall a) = (Filter.applyInput P h (readingInput a)).map pruned :=
      correct_inorder P h a.1 a.2.1 a.2.2.1 a.2.2.2 ha
    rw [hstep] at hf
    cases e1 : Filter.applyInput P h (readingInput a) with
    | none => rw [e1] at hf; simp at hf
    | some f1 =>
      rw [e1] at hf
      simp only [Option.map_some, Option.some.injEq] at hf
      obtain ⟨h1, h2, h3⟩ := H.applyInput hF (hA a) ha e1
      have hpr : f1.pruned = f1 := h1.pruned_eq (by rw [h3, h2, hp]; exact hwa)
      rw [hpr] at hf
      subst hf
      obtain ⟨c1, c2, c3, c4, c5⟩ := applyInput_frame P h f1 _ e1
      refine ⟨h1.glob, h2.trans hp, ?_, c5, h3⟩
      rw [c4]; unfold pushed; rw [H.rewind]; rfl
  -- with the gap
  rw [List.cons_append, run] at hg
  cases el : h.step P sort (readingCall last) with
  | none => rw [el] at hg; simp at hg
  | some f =>
    rw [el] at hg
    obtain ⟨F1, F2, F3, F4, F5⟩ := one last f hlast (hwindow last (by simp)) el
    simp only [List.cons_append, List.nil_append, run, step] at hg
    rw [show gap.map readingCall ++ [readingCall final, .setParams f0.params, readingCall late]
      = (gap ++ [final]).map readingCall ++ [.setParams f0.params, readingCall late] by simp] at hg
    obtain ⟨g0, hg0, hg⟩ := run_append sort _ _ _ _ hg
    obtain ⟨G1, G2, G3, G4⟩ := gap_keeps hF sort hA (gap ++ [final]) { f with params := off } g0 hoff F1 (by
        have : (gap ++ [final]).Sublist (before ++ last :: gap ++ [final]) := by
          refine List.Sublist.append ?_ (List.Sublist.refl _)
          exact (List.sublist_cons_self _ _).trans (List.sublist_append_right _ _)
        exact horder.sublist this) (by
        intro a ha
        show f.state.timestamp ≤ a.2.2.1
        rw [F5]
        rcases List.mem_append.mp ha with ha | ha
        · exact ho3.1 a ha
        · rw [List.mem_singleton] at ha; rw [ha]; exact hlf) hg0
    obtain ⟨G5, G6⟩ := G4 final (by simp)
    simp only [run, step] at hg
    -- without
    rw [run] at hg'
    cases ef : h.step P sort (readingCall final) with
    | none => rw [ef] at hg'; simp at hg'
    | some k =>
      rw [ef] at hg'
      obtain ⟨K1, K2, K3, K4, K5⟩ := one final k hfinal (hwindow final (by simp)) ef
      dsimp only at hg'
      rw [run] at hg'
      have hfirst := H.first
      have hinputs := H.inputs
      unfold Filter.inputs at hinputs
      cases hret : h.retained with
      | nil => simp [retained] at hret
      | cons front rest =>
        rw [hret] at hfirst hinputs
        simp only [List.head?_cons, Option.some.injEq, List.tail_cons] at hfirst hinputs
        have lateStep : ∀ m : Filter T V M K E, m.params = f0.params →
            m.step P sort (readingCall late) = insertInput P m (readingInput late) := by
          intro m hm
          show Filter.correct P m _ _ _ _ = _
          unfold Filter.correct
          rw [hm, hr]
          rfl
        have hg1 : ∃ m, m = ({ g0 with params := f0.params } : Filter T V M K E) ∧ insertInput P m (readingInput late) = some g := by
          refine ⟨_, rfl, ?_⟩
          rw [← lateStep { g0 with params := f0.params } rfl]
          cases e : Filter.step P sort ({ g0 with params := f0.params } : Filter T V M K E) (readingCall late) with
          | none =>
            exfalso
            have e' : Filter.correct P ({ g0 with params := f0.params } : Filter T V M K E) late.1 late.2.1 late.2.2.1 late.2.2.2 = none := e
            simp only [readingCall, e'] at hg
            simp at hg
          | some q =>
            have e' : Filter.correct P ({ g0 with params := f0.params } : Filter T V M K E) late.1 late.2.1 late.2.2.1 late.2.2.2 = some q := e
            simp only [readingCall, e', Option.some.injEq] at hg
            rw [hg]
        obtain ⟨m, hm, hg1⟩ := hg1
        have hg2 : insertInput P k (readingInput late) = some g' := by
          rw [← lateStep k K2]
          cases e : Filter.step P sort k (readingCall late) with
          | none => rw [e] at hg'; simp at hg'
          | some q => rw [e] at hg'; simpa [run] using hg'
        have hmh : m.history = h.retained := by rw [hm]; exact G2.trans F3
        refine insert_same hF m k g g' (readingInput late) ?_ K1 ?_ (hmh.trans K3.symm) ?_ ?_ ?_ front rest
          (hmh.trans hret) ?_ (hA late) ?_ ?_ hg1 hg2
        · rw [hm]; exact G3
        · rw [hmh]; exact H.sorted
        · rw [hm, K4]; exact G5
        · rw [hm]
          show late.2.2.1 < g0.state.timestamp
          rw [G6]
          exact lt_of_lt_of_le hlate.2 hlf
        · rw [K5]
          exact lt_of_lt_of_le hlate.2 hlf
        · rw [hfirst]; exact hlate.1
        · intro s hs
          have : s.prevInput ∈ before.map readingInput := by
            rw [← hinputs]; exact List.mem_map_of_mem hs
          obtain ⟨a, _, ha⟩ := List.mem_map.mp this
          rw [← ha]; exact hA a
        · rw [hm]
          show _ → _
          have e : ({ g0 with params := f0.params } : Filter T V M K E).state.prevInput = readingInput final := G5
          rw [e]; exact hA final

/-! ### The consequence -/

/-- readings of times 1, 2, 4; rewinding off; readings of times 5, 6, 7; rewinding on; then a reading of time 3 -/
def interrupted : List (Op ℤ (List ℤ) ℤ Unit ℤ) :=
  [.correct [8] 1 1 (some ()), .correct [16] 1 2 (some ()), .correct [64] 1 4 (some ()), .setParams ⟨false, 100, false⟩,
    .correct [320] 1 5 (some ()), .correct [512] 1 6 (some ()), .correct [1000] 1 7 (some ()), .setParams ⟨true, 100, false⟩,
    .correct [24] 1 3 (some ())]

/-- **C113 (the full claim fails).**  It is not true that the estimate depends only on the data given: with rewinding switched off
and on again in between, the same readings lead to another estimate than without. -/
theorem C113_switching_late_refuted : ¬ ∀ (f : Filter ℤ (List ℤ) ℤ Unit ℤ) (ops : List (Op ℤ (List ℤ) ℤ Unit ℤ)),
    f.history = [] → f.params = ⟨true, 100, false⟩ →
    estimate (f.run toy insSort ops) = estimate (f.run toy insSort (unswitched ops)) := by
  intro h
  have := h (toyRewind.init [0] 0 0) interrupted rfl rfl
  revert this
  decide

/-- and it is the estimate without the readings of times 4, 5 and 6, as C113 says -/
example : estimate (toyRun (toyRewind.init [0] 0 0) interrupted) = some ([508], 4, 7) ∧
    estimate (toyRun (toyRewind.init [0] 0 0) [.correct [8] 1 1 (some ()), .correct [16] 1 2 (some ()),
      .correct [1000] 1 7 (some ()), .correct [24] 1 3 (some ())]) = some ([508], 4, 7) := by decide

/-- Non-vacuity of C113: the interrupted run meets its hypotheses. -/
example : ∃ g g', (toyRewind.init [0] 0 0).run toy insSort interrupted = some g ∧
    (toyRewind.init [0] 0 0).run toy insSort ([([8], 1, 1, some ()), ([16], 1, 2, some ())].map readingCall ++
      [readingCall ([1000], 1, 7, some ()), readingCall ([24], 1, 3, some ())]) = some g' ∧ g.getState = g'.getState := by
  have h1 : ((toyRewind.init [0] 0 0).run toy insSort interrupted).isSome = true := by decide
  have h2 : ((toyRewind.init [0] 0 0).run toy insSort ([([8], 1, 1, some ()), ([16], 1, 2, some ())].map readingCall ++
      [readingCall ([1000], 1, 7, some ()), readingCall ([24], 1, 3, some ())])).isSome = true := by decide
  obtain ⟨g, hg⟩ := Option.isSome_iff_exists.mp h1
  obtain ⟨g', hg'⟩ := Option.isSome_iff_exists.mp h2
  refine ⟨g, g', hg, hg', ?_⟩
  exact (C113_gap_lost toy _ toy_memoryless insSort toyRewind rfl (by decide) [0] 0 0 ⟨false, 100, false⟩ rfl
    [([8], 1, 1, some ()), ([16], 1, 2, some ())] [([320], 1, 5, some ()), ([512], 1, 6, some ())] ([64], 1, 4, some ())
    ([1000], 1, 7, some ()) ([24], 1, 3, some ()) (by decide) (by decide) (by decide) (by decide) g g' hg hg').1

/-- Non-vacuity of the in-order form: parameters are switched between in-order calls. -/
example : (toyRewind.init [0] 0 0).InOrderRun toy insSort (unswitched
    [.correct [8] 1 1 (some ()), .setParams ⟨false, 3, false⟩, .predictControl [5] 3, .setParams ⟨true, 1, false⟩, .predictTime 4]) := by
  refine ⟨by unfold InOrder; decide, fun g hg => ?_⟩; cases hg
  refine ⟨by unfold InOrder; decide, fun g hg => ?_⟩; cases hg
  exact ⟨trivial, fun g hg => trivial⟩

end Props
end StateEstimation
