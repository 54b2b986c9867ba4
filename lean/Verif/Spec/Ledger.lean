import Verif.Model.FilterBase

/-! # Specification vocabulary: the books a user could keep about the data given to a filter -/

namespace StateEstimation

/-- One piece of data handed to a filter: a control, a reading, or the request to predict up to a time. -/
inductive Given (T V M K : Type) where
  | control (u : V) (t : T)
  | reading (z : V) (R : M) (t : T) (m : Option K)
  | advance (t : T)

namespace Given
variable {T V M K E : Type}

def time : Given T V M K → T
  | control _ t => t
  | reading _ _ t _ => t
  | advance t => t

/-- the call that hands it over directly -/
def call : Given T V M K → Op T V M K E
  | control u t => .predictControl u t
  | reading z R t m => .correct z R t m
  | advance t => .predictTime t

def isReading : Given T V M K → Bool
  | reading _ _ _ _ => true
  | _ => false

end Given

/-- What has been given to the filter and not been taken back since it was initialised at time `start`, and what is waiting
in the queues. -/
structure Ledger (T V M K : Type) where
  start : T
  applied : List (Given T V M K)
  waiting : List (Given T V M K)

namespace Ledger
variable {T V M K E : Type} [LinearOrder T]

/-- The user's book-keeping for one call: a direct call adds its data; a prediction adds something only if it is later than
everything given so far; an enqueued piece waits until `processQueues`; `revertToState(t)` takes back everything from time `t` on
and empties the queues (unless `t` is not after the start, then it does nothing). -/
def note (L : Ledger T V M K) : Op T V M K E → Ledger T V M K
  | .predictControl u t => { L with applied := L.applied ++ [.control u t] }
  | .correct z R t m => { L with applied := L.applied ++ [.reading z R t m] }
  | .predictTime t =>
    if L.start < t ∧ ∀ a ∈ L.applied, a.time < t then { L with applied := L.applied ++ [.advance t] } else L
  | .enqueueControl u t => { L with waiting := L.waiting ++ [.control u t] }
  | .enqueueMeasurement z R t m => { L with waiting := L.waiting ++ [.reading z R t m] }
  | .processQueues => { L with applied := L.applied ++ L.waiting, waiting := [] }
  | .clearControlQueue => { L with waiting := L.waiting.filter fun a => a.isReading }
  | .clearMeasurementQueue => { L with waiting := L.waiting.filter fun a => !a.isReading }
  | .revertToState t =>
    if L.start < t then { L with applied := L.applied.filter fun a => decide (a.time < t), waiting := [] } else L
  | _ => L

/-- the books after a sequence of calls -/
def after (L : Ledger T V M K) (ops : List (Op T V M K E)) : Ledger T V M K := ops.foldl note L

/-- Everything in the books is of an admissible kind, after the start and within the history window of length `W`. -/
def Fits [TimeOps T] (kind : Given T V M K → Prop) (W : T) (L : Ledger T V M K) : Prop :=
  ∀ a ∈ L.applied ++ L.waiting, kind a ∧ L.start < a.time ∧ TimeOps.sub a.time W ≤ L.start

/-- Only readings share a time stamp. -/
def OnlyReadingsTie (L : Ledger T V M K) : Prop :=
  (L.applied ++ L.waiting).Pairwise fun a b => a.time = b.time → a.isReading = true ∧ b.isReading = true

/-- Everything in the books is of an admissible kind, after the start and within the history window of length `W`, and no two
pieces have the same time stamp. -/
def Clean [TimeOps T] (kind : Given T V M K → Prop) (W : T) (L : Ledger T V M K) : Prop :=
  (∀ a ∈ L.applied ++ L.waiting, kind a ∧ L.start < a.time ∧ TimeOps.sub a.time W ≤ L.start) ∧
  (L.applied ++ L.waiting).Pairwise fun a b => a.time ≠ b.time

/-- Everything applied lies after the start, and at most `w` after something else that was applied, or after the start: the
time stamps in the books have no gap longer than `w`. -/
def Unbroken [TimeOps T] (w : T) (L : Ledger T V M K) : Prop :=
  ∀ a ∈ L.applied, L.start < a.time ∧
    ∃ s ∈ L.start :: L.applied.map Given.time, s < a.time ∧ TimeOps.sub a.time w ≤ s

/-- Everything in the books is of an admissible kind and after the start, no two pieces have the same time stamp, and what has
been applied has no gap longer than `w`. -/
def CleanUnbroken [TimeOps T] (kind : Given T V M K → Prop) (w : T) (L : Ledger T V M K) : Prop :=
  (∀ a ∈ L.applied ++ L.waiting, kind a ∧ L.start < a.time) ∧
  (L.applied ++ L.waiting).Pairwise (fun a b => a.time ≠ b.time) ∧ L.Unbroken w

end Ledger

/-- The calls the books speak about: all but `initialize`, changing the parameters and changing the models. -/
def Op.IsBooked {T V M K E : Type} : Op T V M K E → Prop
  | .init _ _ _ | .setParams _ | .userModel _ => False
  | _ => True

end StateEstimation
