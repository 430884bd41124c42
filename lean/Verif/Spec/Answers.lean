import Verif.Model.Answers
/-!
# What is asked of messages sent in answer (C148)
-/
namespace Verif.Answers
open Verif Verif.Receive

/-- The account `n` is among those that the client, whose account is `me`, was asked to write to: itself, by a request
for contacts or groups, and the account named in a verification. -/
def Asked (me : String) (evs : List Ev) (n : String) : Prop :=
  (n = me ∧ ∃ t, Ev.sendUpdate t ∈ evs) ∨ ∃ v, Ev.sendVerified v ∈ evs ∧ n = verifiedDest v

/-- The environment answers as the code does, for the account `me`. -/
def Real (P : Prims) (me : String) (X : Receive.Ext) : Prop :=
  ∃ A : Ext, A.self = me ∧ X.sendUpdate = sendUpdate P A ∧ X.sendVerified = sendVerified P A

/-- The file that a content tells the user's devices to fetch: its contacts are field 2 of the sync message and its
groups field 3 (protobuf/SignalService.proto, `SyncMessage`). -/
def pointerIn (part : Nat) (b : Bytes) : Option (List Wire.Field) := do
  let fs ← Wire.decFields b
  let sync ← Record.subOne fs 2
  let part ← Record.subOne (sync.getD []) part
  let blob ← Record.subOne (part.getD []) 1
  blob

end Verif.Answers
