import Verif.Spec.Crossing
/-!
# A session begun anew over older ones
-/
namespace Verif.StartOver
open Verif Verif.Keys Verif.Messages Verif.Session Verif.Api Verif.Names Verif.Conv

/-- The store without any session. -/
def forget (st : Store) : Store := { st with sessions := fun _ => .absent }

/-- The two clients had they never met: everything as in `S`, without the sessions. -/
def strangers (S : Setup) : Setup := { S with initiator := forget S.initiator, responder := forget S.responder }

/-- The clients may have any sessions with each other, current and archived, or files that cannot be read, as long as
a file that is read can be parsed, and the responder has no session from the new base key. -/
structure Again (P : Prims) (S : Setup) : Prop where
  ok : (strangers S).Ok P
  iLoads : ∃ sr, loadSession S.initiator S.nameR S.devR = .ok sr
  rLoads : ∃ sr, loadSession S.responder S.nameI S.devI = .ok sr ∧ sr.hasState 3 (ser (newPair P S.rb).pub) = false

end Verif.StartOver
