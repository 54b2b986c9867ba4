import Verif.Lemmas.TimeMap
import Verif.Props.Init
import Verif.Model.SixD

/-!
# C85: only time differences matter, and the unit of time is free
-/

namespace StateEstimation.Props

open Filter

variable {V M K E : Type}

/-- The two outcomes are the same seen from two clocks: both abnormal, or the same estimate, models, history, queued and
replayable inputs, with every time stamp translated by `φ` and every duration by `ψ`. -/
def SameOnClocks (φ ψ : ℝ → ℝ) : Option (Filter ℝ V M K E) → Option (Filter ℝ V M K E) → Prop
  | none, none => True
  | some f, some g =>
    g.getState = f.getState ∧ g.getCovariance = f.getCovariance ∧ g.getStateTime = φ f.getStateTime ∧
    g.params = f.params.mapTime ψ ∧ g.env = f.env ∧ g.prevControl = f.prevControl ∧
    g.controlQueue = f.controlQueue.map (·.mapTime φ) ∧ g.measQueue = f.measQueue.map (·.mapTime φ) ∧
    g.retained.map (fun s => (s.x, s.covariance, s.timestamp)) = f.retained.map (fun s => (s.x, s.covariance, φ s.timestamp)) ∧
    g.inputs = f.inputs.map (·.mapTime φ)
  | _, _ => False

/-- `std::sort` only compares time stamps, so it permutes the translated inputs in the same way (in particular ties). -/
def SortsAlike (sort : List (FilterInput ℝ V M K) → List (FilterInput ℝ V M K)) (φ : ℝ → ℝ) : Prop :=
  ∀ l, sort (l.map (·.mapTime φ)) = (sort l).map (·.mapTime φ)

/-- affine change of the clock -/
def affineEmb (a b : ℝ) (ha : 0 < a) : TimeEmb ℝ ℝ where
  φ := fun t => a * t + b
  ψ := fun d => a * d
  D := fun _ => True
  lt_eq x y := by
    show decide (a * x + b < a * y + b) = decide (x < y)
    simp [ha]
  le_eq x y := by
    show decide (a * x + b ≤ a * y + b) = decide (x ≤ y)
    simp [ha]
  pos_eq d := by
    show decide (0 < a * d) = decide (0 < d)
    simp [ha]
  nonneg_eq d := by
    show decide (0 ≤ a * d) = decide (0 ≤ d)
    simp [ha]
  sub_eq x y _ _ := by
    show a * (x - y) = a * x + b - (a * y + b)
    ring
  back_eq x y _ _ := by
    show a * (x - y) + b = a * x + b - a * y
    ring
  add_eq x y _ _ := by
    show y + (x - y) = x
    ring
  add_eq' x y := by
    show a * y + b + (a * x + b - (a * y + b)) = a * x + b
    ring

theorem retained_mapTime (φ ψ : ℝ → ℝ) (f : Filter ℝ V M K E) : (f.mapTime φ ψ).retained = f.retained.map (·.mapTime φ) := by
  unfold Filter.retained Filter.mapTime
  simp

theorem inputs_eq_tail (f : Filter ℝ V M K E) : f.inputs = f.retained.tail.map FilterState.prevInput := rfl

/-- **C85.**  A filter of any class with any models, and a second one of the same kind whose clock shows `a * t + b` when the
first shows `t` (another origin, another unit), whose models accordingly see `a * dt` where those of the first see `dt`
(`Q.onClock` is `Q` with the step converted).  After the same sequence of calls (whatever it is: late inputs, queues,
rewinding, reverting, parameter and model changes), translated to the other clock, both end abnormally or both hold the
same estimates, with translated times. -/
theorem C85_clock (a b : ℝ) (ha : 0 < a) (Q : Plant ℝ V M K E)
    (sort : List (FilterInput ℝ V M K) → List (FilterInput ℝ V M K)) (hsort : IsTimeSort sort)
    (halike : SortsAlike sort fun t => a * t + b) (params : Params ℝ) (e : E) (x : V) (c : M) (t : ℝ) (ops : List (Op ℝ V M K E)) :
    SameOnClocks (fun t => a * t + b) (fun d => a * d)
      ((construct (Q.onClock fun d => a * d) params e x c t).run (Q.onClock fun d => a * d) sort ops)
      ((construct Q (params.mapTime fun d => a * d) e x c (a * t + b)).run Q sort
        (ops.map (·.mapTime (fun t => a * t + b) fun d => a * d))) := by
  set em := affineEmb a b ha with hem
  set P := Q.onClock fun d => a * d with hP
  set f := construct P params e x c t with hf
  set g := construct Q (params.mapTime fun d => a * d) e x c (a * t + b) with hg
  have h1 := em.run Q sort sort hsort (fun l _ => halike l) ops f
    ⟨trivial, trivial, trivial, fun _ _ => ⟨trivial, trivial⟩, fun _ _ => trivial⟩
    (fun op _ => by cases op <;> trivial)
  have h2 : SameBehaviour Q (f.mapTime em.φ em.ψ) g :=
    C17_history_forgotten Q
      ({ params := params.mapTime em.ψ
         state := { x := P.emptyV, covariance := P.emptyM, timestamp := 0, prevInput := (FilterInput.default P).mapTime em.φ }
         prevControl := P.emptyV, prevControlCov := P.emptyM, env := e, history := [], controlQueue := [], measQueue := [] } :
        Filter ℝ V M K E)
      { params := params.mapTime em.ψ
        state := { x := Q.emptyV, covariance := Q.emptyM, timestamp := TimeOps.zero, prevInput := FilterInput.default Q }
        prevControl := Q.emptyV, prevControlCov := Q.emptyM, env := e, history := [], controlQueue := [], measQueue := [] }
      rfl rfl rfl rfl x c (a * t + b)
  have h1 := h1.1
  have hPe : Q.onClock em.ψ = P := rfl
  rw [hPe] at h1
  show SameOnClocks em.φ em.ψ _ (Filter.run Q sort g (ops.map (·.mapTime em.φ em.ψ)))
  rcases h2 sort (ops.map (·.mapTime em.φ em.ψ)) with ⟨k1, k2⟩ | ⟨f', g', k1, k2, k3⟩
  · rw [k1] at h1
    rw [k2]
    cases hr : f.run P sort ops with
    | none => trivial
    | some r => rw [hr] at h1; cases h1
  · rw [k1] at h1
    rw [k2]
    cases hr : f.run P sort ops with
    | none => rw [hr] at h1; cases h1
    | some r =>
      rw [hr] at h1
      obtain rfl := Option.some.inj h1
      refine ⟨k3.state.symm, k3.covariance.symm, k3.time.symm, k3.params.symm, k3.env.symm, k3.control.symm, k3.controlQueue.symm,
        k3.measQueue.symm, k3.retained.symm.trans ?_, k3.inputs.symm.trans ?_⟩
      · rw [retained_mapTime, List.map_map]; rfl
      · rw [inputs_eq_tail, retained_mapTime, inputs_eq_tail, ← List.map_tail, List.map_map, List.map_map]; rfl

/-- **C85 (origin of time).**  Adding the same amount to every time stamp changes nothing but the times reported. -/
theorem C85_origin (b : ℝ) (P : Plant ℝ V M K E)
    (sort : List (FilterInput ℝ V M K) → List (FilterInput ℝ V M K)) (hsort : IsTimeSort sort)
    (halike : SortsAlike sort fun t => t + b) (params : Params ℝ) (e : E) (x : V) (c : M) (t : ℝ) (ops : List (Op ℝ V M K E)) :
    SameOnClocks (fun t => t + b) id ((construct P params e x c t).run P sort ops)
      ((construct P params e x c (t + b)).run P sort (ops.map (·.mapTime (fun t => t + b) id))) := by
  have e1 : (fun t : ℝ => 1 * t + b) = fun t => t + b := by funext t; rw [one_mul]
  have e2 : (fun d : ℝ => 1 * d) = id := by funext t; rw [one_mul]; rfl
  have h := C85_clock 1 b one_pos P sort hsort (by rw [e1]; exact halike) params e x c t ops
  rw [e1, e2, one_mul] at h
  exact h

/-- A sorting algorithm that sorts alike. -/
theorem sortsAlike_insertion (a b : ℝ) (ha : 0 < a) :
    SortsAlike (V := V) (M := M) (K := K) (fun l => l.insertionSort fun a b => a.timestamp ≤ b.timestamp) fun t => a * t + b := by
  intro l
  refine (List.map_insertionSort _ _ _ l ?_).symm
  intro i _ j _
  show i.timestamp ≤ j.timestamp ↔ a * i.timestamp + b ≤ a * j.timestamp + b
  constructor
  · intro h; gcongr
  · intro h; nlinarith

end StateEstimation.Props
