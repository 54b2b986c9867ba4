import Verif.Lemmas.Ledger

/-! # Runs of inputs whose ties commute -/

set_option linter.unusedSectionVars false

namespace StateEstimation
namespace Filter

variable {T V M K E : Type} [LinearOrder T] [ExactTime T]
variable {G : V → M → E → Prop} {A : FilterInput T V M K → Prop}
  {F : V → M → T → FilterInput T V M K → Option (V × M)} {s0 : FilterState T V M K}

/-- the estimate is the pure run of what is held -/
theorem Holds.pureRun_eq {is} {f : Filter T V M K E} (h : Holds G A F s0 is f) :
    pureRun F s0.x s0.covariance s0.timestamp is = some (f.state.x, f.state.covariance) := by
  have key : ∀ (l : List (FilterState T V M K)) (a : FilterState T V M K), (a :: l).IsChain (PureNext F) →
      (∀ s ∈ l, s.prevInput.timestamp = s.timestamp) →
      pureRun F a.x a.covariance a.timestamp (l.map FilterState.prevInput)
        = some (((a :: l).getLast (by simp)).x, ((a :: l).getLast (by simp)).covariance) := by
    intro l
    induction l with
    | nil => intro a _ _; rfl
    | cons b l ih =>
      intro a h1 h2
      rw [List.isChain_cons_cons] at h1
      have e1 : F a.x a.covariance a.timestamp b.prevInput = some (b.x, b.covariance) := h1.1
      have e2 := h2 b List.mem_cons_self
      rw [List.map_cons, pureRun, e1, Option.bind_some, e2]
      have e3 := ih b h1.2 (fun s hs => h2 s (List.mem_cons_of_mem _ hs))
      have e4 : (a :: b :: l).getLast (by simp) = (b :: l).getLast (by simp) := List.getLast_cons (by simp)
      rw [e4]
      exact e3
  have a1 := h.first
  have i1 := h.inputs
  have c1 := h.chain
  have s1 := h.stamped
  unfold Filter.inputs at i1
  have hl : f.retained.getLast? = some f.state := by simp [retained]
  cases hf : f.retained with
  | nil => rw [hf] at hl; simp at hl
  | cons a l =>
    rw [hf] at a1 i1 c1 s1 hl
    simp only [List.head?_cons, Option.some.injEq, List.tail_cons] at a1 i1
    subst a1
    rw [← i1, key l a c1 s1]
    rw [List.getLast?_eq_some_getLast (by simp), Option.some.injEq] at hl
    rw [hl]

/-- two inputs with the same time stamp can be exchanged -/
def TiesCommute (Good : V → M → Prop) (A : FilterInput T V M K → Prop)
    (F : V → M → T → FilterInput T V M K → Option (V × M)) : Prop :=
  ∀ x p t (i j : FilterInput T V M K), Good x p → A i → A j → i.isControl = false → j.isControl = false →
    i.timestamp = j.timestamp → t ≤ i.timestamp →
    (F x p t i).bind (fun r => F r.1 r.2 i.timestamp j) = (F x p t j).bind (fun r => F r.1 r.2 j.timestamp i)

/-- what holds of a state is kept -/
def KeepsGood (Good : V → M → Prop) (A : FilterInput T V M K → Prop)
    (F : V → M → T → FilterInput T V M K → Option (V × M)) : Prop :=
  ∀ x p t i r, Good x p → A i → F x p t i = some r → Good r.1 r.2

variable {Good : V → M → Prop}

theorem pureRun_front (hk : KeepsGood Good A F) (hc : TiesCommute Good A F) (i : FilterInput T V M K) (b : List (FilterInput T V M K))
    (hi : A i) (hri : i.isControl = false) :
    ∀ (a : List (FilterInput T V M K)) (x : V) (p : M) (t : T), Good x p → (∀ c ∈ a, A c ∧ c.isControl = false ∧ c.timestamp = i.timestamp) →
      t ≤ i.timestamp → pureRun F x p t (a ++ i :: b) = pureRun F x p t (i :: (a ++ b)) := by
  intro a
  induction a with
  | nil => intro x p t _ _ _; rfl
  | cons c a ih =>
    intro x p t hg ha ht
    obtain ⟨h1, h2, h3⟩ := ha c (by simp)
    have e1 : pureRun F x p t (c :: a ++ i :: b)
        = ((F x p t c).bind fun r => F r.1 r.2 c.timestamp i).bind fun r => pureRun F r.1 r.2 i.timestamp (a ++ b) := by
      rw [List.cons_append, pureRun, Option.bind_assoc]
      cases hF : F x p t c with
      | none => rfl
      | some r =>
        simp only [Option.bind_some]
        rw [ih r.1 r.2 c.timestamp (hk x p t c r hg h1 hF) (fun d hd => ha d (by simp [hd])) h3.le, pureRun]
    rw [e1, ← hc x p t i c hg hi h1 hri h2 h3.symm ht, Option.bind_assoc, pureRun]
    congr 1
    funext r
    rw [List.cons_append, pureRun, h3]

/-- Two time-sorted arrangements of the same inputs. -/
theorem pureRun_perm (hk : KeepsGood Good A F) (hc : TiesCommute Good A F) :
    ∀ (l l' : List (FilterInput T V M K)) (x : V) (p : M) (t : T), Good x p → l.Perm l' →
      l.Pairwise (fun a b => a.timestamp ≤ b.timestamp) → l'.Pairwise (fun a b => a.timestamp ≤ b.timestamp) →
      l.Pairwise (fun a b => a.timestamp = b.timestamp → a.isControl = false ∧ b.isControl = false) →
      (∀ i ∈ l, A i ∧ t ≤ i.timestamp) → pureRun F x p t l = pureRun F x p t l' := by
  intro l
  induction l with
  | nil =>
    intro l' x p t _ hp _ _ _ _
    rw [List.nil_perm.mp hp]
  | cons i l ih =>
    intro l' x p t hg hp hs hs' ht hA
    obtain ⟨a, b, rfl⟩ := List.append_of_mem (hp.mem_iff.mp (List.mem_cons_self (a := i) (l := l)))
    have hp' : l.Perm (a ++ b) := ((List.perm_middle.symm.trans hp.symm).cons_inv).symm
    have hsl := List.pairwise_cons.mp hs
    have htl := List.pairwise_cons.mp ht
    have hs'' := List.pairwise_append.mp hs'
    have hal : ∀ c ∈ a, c ∈ l := fun c hc => hp'.mem_iff.mpr (List.mem_append_left _ hc)
    have htie : ∀ c ∈ a, c.timestamp = i.timestamp := fun c hc =>
      le_antisymm (hs''.2.2 c hc i (by simp)) (hsl.1 c (hal c hc))
    have hAi := hA i (by simp)
    have hsab : (a ++ b).Pairwise (fun a b => a.timestamp ≤ b.timestamp) :=
      hs'.sublist (List.Sublist.append_left (List.sublist_cons_self _ _) _)
    have hfront : pureRun F x p t (a ++ i :: b) = pureRun F x p t (i :: (a ++ b)) := by
      cases a with
      | nil => rfl
      | cons c a' =>
        have hri : i.isControl = false := (htl.1 c (hal c (by simp)) (htie c (by simp)).symm).1
        exact pureRun_front hk hc i b hAi.1 hri (c :: a') x p t hg (fun d hd =>
          ⟨(hA d (by simp [hal d hd])).1, (htl.1 d (hal d hd) (htie d hd).symm).2, htie d hd⟩) hAi.2
    rw [hfront, pureRun, pureRun]
    cases hF : F x p t i with
    | none => rfl
    | some r =>
      simp only [Option.bind_some]
      exact ih (a ++ b) r.1 r.2 i.timestamp (hk x p t i r hg hAi.1 hF) hp' hsl.2 hsab htl.2
        (fun j hj => ⟨(hA j (by simp [hj])).1, hsl.1 j hj⟩)

/-- Two filters that hold time-sorted arrangements of the same inputs, whose ties commute, report the same. -/
theorem Holds.same_despite_ties (hk : KeepsGood Good A F) (hc : TiesCommute Good A F) (h0 : Good s0.x s0.covariance)
    {is is'} {f g : Filter T V M K E} (h : Holds G A F s0 is f) (h' : Holds G A F s0 is' g) (hp : is.Perm is')
    (ht : is.Pairwise (fun a b => a.timestamp = b.timestamp → a.isControl = false ∧ b.isControl = false))
    (hs : ∀ i ∈ is, s0.timestamp ≤ i.timestamp) :
    f.getState = g.getState ∧ f.getCovariance = g.getCovariance ∧ f.getStateTime = g.getStateTime := by
  have e := pureRun_perm hk hc is is' s0.x s0.covariance s0.timestamp h0 hp h.inputs_sorted h'.inputs_sorted ht
    (fun i hi => ⟨h.kinds i hi, hs i hi⟩)
  rw [h.pureRun_eq, h'.pureRun_eq, Option.some.injEq, Prod.mk.injEq] at e
  refine ⟨e.1, e.2, ?_⟩
  have hm : is.map FilterInput.timestamp = is'.map FilterInput.timestamp := by
    refine List.Perm.eq_of_pairwise (le := fun a b => a ≤ b) ?_ ?_ ?_ (hp.map _)
    · intro a b _ _ h1 h2; exact le_antisymm h1 h2
    · rw [List.pairwise_map]; exact h.inputs_sorted
    · rw [List.pairwise_map]; exact h'.inputs_sorted
  show f.state.timestamp = g.state.timestamp
  rw [h.state_time, h'.state_time, ← List.getLast?_map, ← List.getLast?_map, hm]

end Filter
end StateEstimation
