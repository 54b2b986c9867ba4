import Verif.Spec.DataFree
import Verif.Lemmas.PlantRel
import Verif.Lemmas.KFApi
import Verif.Examples.Linear

/-!
# C73: the covariance of the Kalman filter does not depend on the data

Two runs of the same Kalman filter that differ only in the numbers measured, commanded and initially believed have the same
covariances, times and retained states.
-/

set_option linter.unusedSectionVars false

namespace StateEstimation
namespace Props

open Matrix

variable {T K X Y : Type} [DecidableEq K]

private theorem optRel_refl {α : Type} {R : α → α → Prop} (o : Option α) (h : ∀ a, o = some a → R a a) :
    OptRel False R o o := by
  cases o with
  | none => exact fun h => h
  | some a => exact h a rfl

private theorem mulVec_rel (A : DMat) {x x' : DVec} (h : x.size = x'.size) :
    OptRel False (fun a b : DVec => a.size = b.size) (A.mulVec x) (A.mulVec x') := by
  unfold DMat.mulVec
  by_cases hc : A.cols = x.size
  · rw [dif_pos hc, dif_pos (hc.trans h)]; exact rfl
  · rw [dif_neg hc, dif_neg (fun hh => hc (hh.trans h.symm))]; exact fun h => h

private theorem add_rel {x x' y y' : DVec} (h : x.size = x'.size) (h' : y.size = y'.size) :
    OptRel False (fun a b : DVec => a.size = b.size) (x.add y) (x'.add y') := by
  unfold DVec.add
  by_cases hc : x.size = y.size
  · rw [dif_pos hc, dif_pos (h.symm.trans (hc.trans h'))]; exact h
  · rw [dif_neg hc, dif_neg (fun hh => hc (h.trans (hh.trans h'.symm)))]; exact fun h => h

private theorem sub_rel {x x' y y' : DVec} (h : x.size = x'.size) (h' : y.size = y'.size) :
    OptRel False (fun a b : DVec => a.size = b.size) (x.sub y) (x'.sub y') := by
  unfold DVec.sub
  by_cases hc : x.size = y.size
  · rw [dif_pos hc, dif_pos (h.symm.trans (hc.trans h'))]; exact h
  · rw [dif_neg hc, dif_neg (fun hh => hc (h.trans (hh.trans h'.symm)))]; exact fun h => h

private theorem kfPredict_rel {sc : SysClass T LinSysData X} (hsc : SysDataFree sc) (e : Env K LinSysData X LinMeasData Y)
    (he : Quiet e) (x : DVec) (c : DMat) (x' : DVec) (u u' : DVec) (dt : T) (hx : x.size = x'.size) (hu : u.size = u'.size) :
    OptRel False (fun r q => (r.1.size = q.1.size ∧ r.2.1 = q.2.1) ∧ r.2.2 = q.2.2 ∧ Quiet r.2.2)
      (kfPredict sc e.sys x c u dt fun s => { e with sys := s }) (kfPredict sc e.sys x' c u' dt fun s => { e with sys := s }) := by
  unfold kfPredict
  have h1 : OptRel False (fun s s' => s = s' ∧ s.fm = e.sys.fm) (e.sys.update sc x u dt) (e.sys.update sc x' u' dt) := by
    unfold Sys.update
    rw [← hx, ← hu, hsc.update e.sys x x' u u' dt hx hu]
    split
    · exact optRel_refl _ (fun a ha => ⟨rfl, hsc.fm _ _ _ _ _ ha⟩)
    · exact fun h => h
  simp only [Option.bind_eq_bind]
  refine OptRel.bind h1 ?_
  rintro s _ ⟨rfl, hfm⟩
  refine OptRel.bind (mulVec_rel s.der.A hx) (fun a a' ha => ?_)
  refine OptRel.bind (mulVec_rel s.der.B hu) (fun b b' hb => ?_)
  rw [hsc.ops.add]
  refine OptRel.bind (add_rel ha hb) (fun y y' hy => ?_)
  refine OptRel.bind (optRel_refl (R := fun a b => a = b) _ (fun _ _ => rfl)) ?_
  rintro p _ rfl
  exact ⟨⟨hy, rfl⟩, rfl, by
    refine ⟨?_, he.2⟩
    show s.fm.checkStationary = false
    rw [hfm]; exact he.1⟩

private theorem kfCorrect_rel {sc : SysClass T LinSysData X} (hsc : SysDataFree sc) {mc : MeasClass T LinMeasData Y}
    (hmc : MeasDataFree mc) (e : Env K LinSysData X LinMeasData Y) (k : K)
    (he : Quiet e) (x : DVec) (c : DMat) (x' : DVec) (z z' : DVec) (dt : T) (hx : x.size = x'.size) (hz : z.size = z'.size) :
    OptRel False (fun r q => (r.1.size = q.1.size ∧ r.2.1 = q.2.1) ∧ r.2.2 = q.2.2 ∧ Quiet r.2.2)
      (kfCorrect sc mc e.sys (e.meas k) x c z dt (e.setMeas k)) (kfCorrect sc mc e.sys (e.meas k) x' c z' dt (e.setMeas k)) := by
  unfold kfCorrect
  have h1 : OptRel False (fun s s' => s = s' ∧ s.fm = (e.meas k).fm) ((e.meas k).update mc x dt) ((e.meas k).update mc x' dt) := by
    unfold Meas.update
    rw [← hx, hmc.update (e.meas k) x x' dt hx]
    split
    · exact optRel_refl _ (fun a ha => ⟨rfl, hmc.fm _ _ _ _ ha⟩)
    · exact fun h => h
  simp only [Option.bind_eq_bind]
  refine OptRel.bind h1 ?_
  rintro m _ ⟨rfl, hfm⟩
  refine OptRel.bind (optRel_refl (R := fun a b => a = b) _ (fun _ _ => rfl)) ?_
  rintro G _ rfl
  refine OptRel.bind (mulVec_rel m.der.C hx) (fun a a' ha => ?_)
  rw [hmc.ops.sub, hsc.ops.add]
  refine OptRel.bind (sub_rel hz ha) (fun b b' hb => ?_)
  refine OptRel.bind (mulVec_rel G hb) (fun d d' hd => ?_)
  refine OptRel.bind (add_rel hx hd) (fun y y' hy => ?_)
  rw [hx]
  refine OptRel.bind (optRel_refl (R := fun a b => a = b) _ (fun _ _ => rfl)) ?_
  rintro p _ rfl
  refine ⟨⟨hy, rfl⟩, rfl, he.1, fun j => ?_⟩
  show ((e.setMeas k m).meas j).fm.checkStationary = false
  unfold Env.setMeas
  dsimp only
  by_cases hj : j = k
  · rw [if_pos hj, hfm]; exact he.2 k
  · rw [if_neg hj]; exact he.2 j

private theorem kf_rel [TimeOps T] {sc : SysClass T LinSysData X} {mc : K → MeasClass T LinMeasData Y} (hsc : SysDataFree sc)
    (hmc : ∀ k, MeasDataFree (mc k)) :
    PlantRel (kfPlant sc mc) (kfPlant sc mc) False (fun x c x' c' => x.size = x'.size ∧ c = c')
      (fun e e' => e = e' ∧ Quiet e) (fun u u' => u.size = u'.size) (fun c c' => c = c')
      (fun z c z' c' _ => z.size = z'.size ∧ c = c') where
  empty := rfl
  empty' := rfl
  rc := by rintro e _ ⟨rfl, _⟩; rfl
  zero := by rintro e _ ⟨rfl, _⟩; rfl
  setRc := by
    rintro e _ c _ ⟨rfl, he⟩ rfl
    refine optRel_refl _ (fun a ha => ⟨rfl, ?_⟩)
    have ha : ((e.sys.setControlCovariance c).map fun s => { e with sys := s }) = some a := ha
    unfold Sys.setControlCovariance at ha
    split at ha
    · injection ha with ha; subst ha; exact he
    · cases ha
  sysSt := by
    rintro e _ x c x' _ d d' ⟨rfl, he⟩ ⟨hx, rfl⟩ _
    show (e.sys.fm.checkStationary && _) = (e.sys.fm.checkStationary && _)
    rw [he.1]; rfl
  predict := by
    rintro e _ x c x' _ u u' dt ⟨rfl, he⟩ ⟨hx, rfl⟩ hu
    exact kfPredict_rel hsc e he x c x' u u' dt hx hu
  sysStationary := by
    rintro e _ x c x' _ d d' ⟨rfl, he⟩ ⟨hx, rfl⟩ _ h
    have h : (e.sys.fm.checkStationary && _) = true := h
    rw [he.1] at h; cases h
  setMeasCov := by
    rintro e _ m z c z' _ ⟨rfl, he⟩ ⟨hz, rfl⟩
    refine optRel_refl _ (fun a ha => ?_)
    have ha : (((e.meas m).setCovariance c).map (e.setMeas m)) = some a := ha
    have hq : Quiet a := by
      unfold Meas.setCovariance at ha
      split at ha
      · injection ha with ha; subst ha
        refine ⟨he.1, fun j => ?_⟩
        show ((e.setMeas m _).meas j).fm.checkStationary = false
        unfold Env.setMeas
        dsimp only
        by_cases hj : j = m
        · rw [if_pos hj]; exact he.2 m
        · rw [if_neg hj]; exact he.2 j
      · cases ha
    refine ⟨⟨rfl, hq⟩, ?_, ?_, ?_⟩
    · intro x p x' p' _
      show ((a.meas m).fm.checkStationary && _) = ((a.meas m).fm.checkStationary && _)
      rw [hq.2]; rfl
    · rintro x p x' _ dt ⟨hx, rfl⟩
      exact kfCorrect_rel hsc (hmc m) a m hq x p x' z z' dt hx hz
    · intro x p x' p' _ h
      have h : ((a.meas m).fm.checkStationary && _) = true := h
      rw [hq.2] at h; cases h

private theorem sameButData_rel [TimeOps T] {sc : SysClass T LinSysData X} {mc : K → MeasClass T LinMeasData Y}
    {op op' : Op T DVec DMat K (Env K LinSysData X LinMeasData Y)} (h : SameButData op op') :
    OpRel (kfPlant sc mc) (kfPlant sc mc) False (fun x c x' c' => x.size = x'.size ∧ c = c')
      (fun e e' => e = e' ∧ Quiet e) (fun u u' => u.size = u'.size)
      (fun z c z' c' _ => z.size = z'.size ∧ c = c') op op' := by
  have hd : ∀ u u' : DVec, u.size = u'.size →
      DataRel (kfPlant sc mc) (kfPlant sc mc) (fun u u' => u.size = u'.size) u u' := by
    intro u u' h
    rcases Nat.eq_zero_or_pos u.size with h0 | h0
    · exact Or.inr ⟨h0, h.symm.trans h0⟩
    · exact Or.inl ⟨h0, h0.trans_eq h, h⟩
  cases op <;> cases op' <;> simp only [SameButData] at h <;> simp only [OpRel]
  · exact ⟨h.2.2, h.1, h.2.1⟩
  · exact h
  · exact ⟨h.2, hd _ _ h.1⟩
  · obtain ⟨h1, h2, h3, rfl, h5⟩ := h
    obtain ⟨k, hk⟩ := Option.ne_none_iff_exists'.mp h5
    exact ⟨h3, k, hk, hk, h1, h2⟩
  · exact ⟨h.2, hd _ _ h.1⟩
  · obtain ⟨h1, h2, h3, rfl, h5⟩ := h
    obtain ⟨k, hk⟩ := Option.ne_none_iff_exists'.mp h5
    exact ⟨h3, k, hk, hk, h1, h2⟩
  · exact h
  · exact h
  · obtain ⟨rfl, h⟩ := h
    rintro e _ ⟨rfl, he⟩
    exact optRel_refl _ (fun a ha => ⟨rfl, h e a he ha⟩)

/-- **C73.** A Kalman filter whose model matrices do not depend on the data, without stationary predicates.  For any two
sequences of calls that are the same except for the numbers in the initial state, the controls and the measurements (and
any time stamps, delays, queues, rewinding, reverting, changes of the models): either both runs abort or both end with
the same parameters and models, and their retained states have pairwise equal covariances and times. -/
theorem C73_covariance_data_free [TimeOps T] [SaneTime T] {sc : SysClass T LinSysData X}
    {mc : K → MeasClass T LinMeasData Y} (hsc : SysDataFree sc) (hmc : ∀ k, MeasDataFree (mc k))
    (sort : List (FilterInput T DVec DMat K) → List (FilterInput T DVec DMat K)) (hsort : SameSort sort sort)
    (params : Params T) (e : Env K LinSysData X LinMeasData Y) (he : Quiet e) (x x' : DVec) (c : DMat) (t : T)
    (hx : x.size = x'.size) (ops ops' : List (Op T DVec DMat K (Env K LinSysData X LinMeasData Y)))
    (hops : List.Forall₂ SameButData ops ops') :
    match (Filter.construct (kfPlant sc mc) params e x c t).run (kfPlant sc mc) sort ops,
      (Filter.construct (kfPlant sc mc) params e x' c t).run (kfPlant sc mc) sort ops' with
    | none, none => True
    | some f, some g => f.getCovariance = g.getCovariance ∧ f.getStateTime = g.getStateTime ∧
        f.getState.size = g.getState.size ∧ f.params = g.params ∧ f.env = g.env ∧
        f.retained.map (fun s => (s.timestamp, s.covariance)) = g.retained.map (fun s => (s.timestamp, s.covariance))
    | _, _ => False := by
  have h := (kf_rel (T := T) hsc hmc).run hsort
    { params := params
      state := { x := (kfPlant sc mc).emptyV, covariance := (kfPlant sc mc).emptyM, timestamp := TimeOps.zero,
                 prevInput := FilterInput.default (kfPlant sc mc) }
      prevControl := (kfPlant sc mc).emptyV
      prevControlCov := (kfPlant sc mc).emptyM
      env := e, history := [], controlQueue := [], measQueue := [] }
    { params := params
      state := { x := (kfPlant sc mc).emptyV, covariance := (kfPlant sc mc).emptyM, timestamp := TimeOps.zero,
                 prevInput := FilterInput.default (kfPlant sc mc) }
      prevControl := (kfPlant sc mc).emptyV
      prevControlCov := (kfPlant sc mc).emptyM
      env := e, history := [], controlQueue := [], measQueue := [] } rfl ⟨rfl, he⟩ (Or.inr ⟨rfl, rfl⟩) x c x' c t ⟨hx, rfl⟩
    (hops.imp (fun _ _ h => sameButData_rel h))
  have h1 : OptRel False _ ((Filter.construct (kfPlant sc mc) params e x c t).run (kfPlant sc mc) sort ops)
      ((Filter.construct (kfPlant sc mc) params e x' c t).run (kfPlant sc mc) sort ops') := h
  generalize (Filter.construct (kfPlant sc mc) params e x c t).run (kfPlant sc mc) sort ops = o1 at h1 ⊢
  generalize (Filter.construct (kfPlant sc mc) params e x' c t).run (kfPlant sc mc) sort ops' = o2 at h1 ⊢
  rcases OptRel.elim h1 with ⟨rfl, rfl, _⟩ | ⟨f, g, rfl, rfl, h2, h3, _, h4⟩
  · trivial
  · have hs := (SimRel.forall₂_concat (l := f.history) (l' := g.history) h4).2
    refine ⟨hs.2.2, hs.1, hs.2.1, h2, h3.1, ?_⟩
    clear * - h4
    generalize f.retained = l at h4 ⊢
    generalize g.retained = l' at h4 ⊢
    induction h4 with
    | nil => rfl
    | cons a _ ih => rw [List.map_cons, List.map_cons, ih, a.1, a.2.2]

/-! The hypotheses are met by the constant-velocity model with a position sensor, by stable sorting, and by two runs with
different numbers. -/

theorem sameSort_insertion {T V M V' M' K : Type} [TimeOps T] :
    SameSort (T := T) (V := V) (M := M) (V' := V') (M' := M') (K := K)
      (fun l => l.insertionSort (fun a b => TimeOps.lt b.timestamp a.timestamp = false))
      (fun l => l.insertionSort (fun a b => TimeOps.lt b.timestamp a.timestamp = false)) := by
  intro R hR l l' h
  have ins : ∀ (a : FilterInput T V M K) (b : FilterInput T V' M' K) l l', R a b → List.Forall₂ R l l' →
      List.Forall₂ R (l.orderedInsert (fun a b => TimeOps.lt b.timestamp a.timestamp = false) a)
        (l'.orderedInsert (fun a b => TimeOps.lt b.timestamp a.timestamp = false) b) := by
    intro a b l l' hab h
    induction h with
    | nil => exact List.Forall₂.cons hab List.Forall₂.nil
    | @cons c d l l' hcd hl ih =>
      rw [List.orderedInsert_cons, List.orderedInsert_cons, hR _ _ hab, hR _ _ hcd]
      split
      · exact List.Forall₂.cons hab (List.Forall₂.cons hcd hl)
      · exact List.Forall₂.cons hcd ih
  induction h with
  | nil => exact List.Forall₂.nil
  | cons a _ ih => exact ins _ _ _ _ a ih

example : SysDataFree Examples.cvClass where
  ops := Examples.plain_ops _
  update := by intro s x x' u u' dt _ _; rfl
  fm := by
    intro s x u dt s' h
    change (if s.stateSize = 2 ∧ s.controlDims = 1 ∧ s.Rp.rows = 2 then _ else some s) = some s' at h
    split at h
    · injection h with h; subst h; rfl
    · injection h with h; subst h; rfl

example : MeasDataFree Examples.posClass where
  ops := Examples.plain_mops _
  update := by intro s x x' dt _; rfl
  fm := by
    intro s x dt s' h
    change (if s.stateSize = 2 ∧ s.measDims = 1 then _ else some s) = some s' at h
    split at h
    · injection h with h; subst h; rfl
    · injection h with h; subst h; rfl

example : Quiet Examples.cvEnv := ⟨rfl, fun _ => rfl⟩

example : List.Forall₂ (SameButData (T := ℝ) (K := Unit) (X := Unit) (Y := Unit))
    [.predictControl (.of ![1]) 2, .correct (.of ![3]) (.identity 1) 1 (some ())]
    [.predictControl (.of ![-7]) 2, .correct (.of ![100]) (.identity 1) 1 (some ())] := by
  refine .cons ⟨rfl, rfl⟩ (.cons ⟨rfl, rfl, rfl, rfl, by simp⟩ .nil)

end Props
end StateEstimation
