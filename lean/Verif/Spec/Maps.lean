import Verif.Model.Maps
/-!
# When goroutines get into each other's way
-/
namespace Verif.Spec.Maps
open Verif.Maps

/-- Two goroutines are inside the same map, one of them writing: the program may be ended. -/
def Clash (s : State) : Prop :=
  ∃ i j m w, i ≠ j ∧ (s.threads i).inside = some (m, true) ∧ (s.threads j).inside = some (m, w)

/-- Whatever the schedule, no two goroutines get into each other's way. -/
def Safe (s : State) : Prop := ∀ sched, ¬ Clash (run s sched)

/-- The server accepts the message, perhaps after saying that sessions are stale. -/
def Smooth (l : List Answer) : Prop := ∀ a ∈ l, a ≠ .mismatched

/-- A text to someone whose devices are known, and the own devices known. -/
def Easy (self : String) (known : Map → String → Bool) : Call → Prop
  | .send u l y => known .devices u = true ∧ Smooth l ∧
      (∀ l', y = some l' → known .devices self = true ∧ Smooth l')
  | .gotText => True
  | _ => False

/-- Messages to people and to groups (of the old kind) of people whose devices are known, texts received, and requests of the own
devices for the groups, the own devices being known. -/
def Known (self : String) (known : Map → String → Bool) : Call → Prop
  | .send u l y => Easy self known (.send u l y)
  | .sendGroup _ ms => ∀ m ∈ ms, Easy self known (.send m.1 m.2.1 m.2.2)
  | .gotText => True
  | .gotGroupsRequest l => known .devices self = true ∧ Smooth l
  | _ => False

/-- What is received, other than requests of the own devices. -/
def Received : Call → Prop
  | .gotText => True
  | .gotProfileKey _ => True
  | _ => False

end Verif.Spec.Maps
