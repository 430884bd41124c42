import Verif.Spec.Conversation
/-!
# What is kept for messages that were skipped

The number of message keys in a stored session, the number of messages that were accepted from an address, and what
would have to be kept in a conversation.
-/
namespace Verif.Growth
open Verif Verif.Messages Verif.Session Verif.Api Verif.Conv

/-- Message keys kept in one state. -/
def keysIn (s : SState) : Nat := (s.recv.map (fun c => c.mks.length)).sum

/-- Message keys kept in a session record. -/
def kept (r : SRecord) : Nat := ((r.cur :: r.prev).map keysIn).sum

/-- The call returns the plaintext of a message. -/
def Accepts (P : Prims) (st : Store) (e : Event) : Bool :=
  let isOk (x : Res Bytes) : Bool := match x with | .ok _ => true | _ => false
  match e.call with
  | .decryptW rnd m => isOk (decryptWhisper P e.env rnd st e.peer e.dev m).res
  | .decryptP rnd m => isOk (decryptPreKey P e.env rnd st e.peer e.dev m).res
  | _ => false

/-- How many messages of `(rec, dev)` are accepted in a history. -/
def accepted (P : Prims) (rec : String) (dev : Nat) : Store → List Event → Nat
  | _, [] => 0
  | st, e :: es =>
    (if e.peer = rec ∧ e.dev = dev ∧ Accepts P st e = true then 1 else 0) + accepted P rec dev (step P st e) es

/-- Messages of epoch `e` that are older than the newest accepted one and were not accepted. -/
def missing (acc : List (Nat × Nat)) (e : Nat) : Nat :=
  ((List.range (pos acc e)).filter (fun c => (e, c) ∉ acc)).length

/-- One party sends `n + 1` empty messages, of which the last is delivered; and this `k` times. -/
def flood (rnd : Nat → Nat → Bytes) (n : Nat) : Nat → List Ev
  | 0 => []
  | k + 1 => flood rnd n k ++ List.replicate (n + 1) (.send false []) ++ [.deliver ((n + 1) * k + n) (rnd k)]

end Verif.Growth
