import Verif.Spec.Clients
/-!
# The server's mailboxes

What the server accepts for a device stays in the device's mailbox until the device has acknowledged it. Over a
connection the server sends the contents of the mailbox in order, once; when the connection is lost and there is a new
one, it starts again with what is left. (The server is not part of this code; that it does so is an assumption. The
client's side is `StartListening`, websocket.go:143-230: it acknowledges every frame, and after an error it returns, so
that the application may call it again.)

The messages of both directions are numbered in the order in which the server accepted them, as in `Pair.wire`.
-/
namespace Verif.Clients
open Verif Verif.Keys Verif.Session Verif.Api Verif.Conv

/-- The mailboxes: who sent message `i`, which messages were acknowledged, and how far the server has gone over the
present connection of the peer of `who`. -/
structure Mail where
  sent : List Bool := []
  gone : List Nat := []
  upTo : Bool → Nat := fun _ => 0

inductive MEv where
  /-- An application sends. -/
  | send (who : Bool) (X : Send.SendExt) (m : Send.OutMsg)
  /-- The server sends the next message in the mailbox of the peer of `who`. -/
  | frame (who : Bool) (X : Receive.Ext) (id : Nat) (body : Bytes) (atts : List Bytes) (g : Option Bytes)
  /-- An acknowledgement of message `i` reaches the server. -/
  | acked (i : Nat)
  /-- The connection of the peer of `who` is lost, and there is a new one. -/
  | broken (who : Bool)
  /-- The initiator or the responder does something else. -/
  | other (who : Bool) (c : Client)

/-- Message `i` is still to be sent over the connection of the peer of `who`. -/
def Mail.Due (M : Mail) (who : Bool) (i : Nat) : Bool :=
  decide (M.upTo who ≤ i) && decide (M.sent[i]? = some who) && decide (i ∉ M.gone)

/-- The next message for the peer of `who`. -/
def Mail.next (M : Mail) (who : Bool) : Option Nat := (List.range M.sent.length).find? (M.Due who)

def Mail.step (M : Mail) : MEv → Mail
  | .send who _ _ => { M with sent := M.sent ++ [who] }
  | .frame who _ _ _ _ _ => match M.next who with
    | some i => { M with upTo := fun b => if b = who then i + 1 else M.upTo b }
    | none => M
  | .acked i => match M.sent[i]? with
    | some who => if i < M.upTo who then { M with gone := i :: M.gone } else M
    | none => M
  | .broken who => { M with upTo := fun b => if b = who then 0 else M.upTo b }
  | .other _ _ => M

/-- What this means for the clients. -/
def Mail.event (M : Mail) : MEv → List CEv
  | .send who X m => [.send who X m]
  | .frame who X id body atts g => match M.next who with
    | some i => [.deliver i X id body atts g]
    | none => []
  | .acked _ => []
  | .broken _ => []
  | .other who c => [.other who c]

def Mail.run : Mail → List MEv → Mail
  | M, [] => M
  | M, e :: es => Mail.run (M.step e) es

def Mail.events : Mail → List MEv → List CEv
  | _, [] => []
  | M, e :: es => M.event e ++ Mail.events (M.step e) es

/-- What matters of a message to the applications (without attachments and group, which are fetched). -/
structure Gist where
  text : Bytes
  timestamp : Nat
  expireTimer : Nat
  profileKey : Bytes
  deriving DecidableEq

/-- Who said what: what the application handed to `SendMessage`, by default with the time of the clock, and the user's
profile key. -/
def MEv.said : MEv → Option (Bool × Gist)
  | .send who X m => some (who, ⟨m.msg, m.timestamp.getD X.now, m.expireTimer, X.profileKey⟩)
  | _ => none

/-- Those of the first `k` messages that `who` sent. -/
def saidBy (who : Bool) (k : Nat) (es : List MEv) : List Gist :=
  ((es.filterMap MEv.said).take k).filterMap (fun x => if x.1 = who then some x.2 else none)

/-- What the applications were shown as coming from `name`, in order. -/
def heardFrom (name : String) (outs : List COut) : List Gist :=
  outs.flatMap (fun o => match o with
    | .told evs _ => evs.filterMap (fun e => match e with
      | .onMessage m => if m.sourceUuid = name then some ⟨m.message, m.timestamp, m.expireTimer, m.profileKey⟩ else none
      | _ => none)
    | _ => [])

/-- The program is interrupted while it handles a frame, after having done `n` of the things it tells of. (What it
stores, it has stored before the first of them: `decryptMessage`, textsecure.go:570-640, is called before
`handleMessage`.) -/
def COut.cut (n : Nat) : COut → COut
  | .told evs _ => .told (evs.take n) .crashed
  | o => o

/-- The program is interrupted during event `k` whenever `cuts k` is a number. -/
def interrupt (cuts : Nat → Option Nat) (outs : List COut) : List COut :=
  outs.mapIdx (fun k o => ((cuts k).map (fun n => o.cut n)).getD o)

/-- The application is shown a message. -/
def COut.Shows (o : COut) : Prop := ∃ evs e m, o = .told evs e ∧ .onMessage m ∈ evs

end Verif.Clients
