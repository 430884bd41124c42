import Verif.Model.Listening
/-!
# What is expected of stopping and starting to listen
-/
namespace Verif.Listening

/-- The ids of the frames of link `i` that the application was shown. -/
def shownOn (i : Nat) (log : List Ev) : List Nat :=
  log.filterMap (fun e => match e with
    | .shown j id => if j = i then some id else none
    | _ => none)

/-- The ids that were acknowledged over link `i`. -/
def ackedOn (i : Nat) (log : List Ev) : List Nat :=
  log.filterMap (fun e => match e with
    | .acked j id => if j = i then some id else none
    | _ => none)

/-- Everything the application was shown. -/
def shownAll (log : List Ev) : List (Nat × Nat) :=
  log.filterMap (fun e => match e with
    | .shown i id => some (i, id)
    | _ => none)

/-- A call of `StartListening` that is connecting. -/
def Phase.isDialing : Phase → Bool
  | .dialing _ => true
  | _ => false

/-- A call of `StartListening` that has read a frame and has not shown it yet. -/
def Phase.isHandling : Phase → Bool
  | .handling _ _ _ => true
  | _ => false

/-- One call at a time: `StartListening` is called when no other call is in progress, and `StopListening` when none is
connecting. -/
def Orderly : State → List Action → Prop
  | _, [] => True
  | s, a :: as =>
    (a = .start → ∀ p ∈ s.calls, p = .done) ∧ (a = .stop → ∀ p ∈ s.calls, p.isDialing = false) ∧
    ∀ s', step s a = some s' → Orderly s' as

end Verif.Listening
