import Verif.Model.Dialogue
/-!
# Reading what the companion process sends (crayfish/backend.go:288-372)

The loop of `StartWebsocket` over the messages of the websocket, and the calls that wait for an answer. The race between
the reader and the callers is in `Verif/Model/Crayfish.lean`; here a call is at its channel before the next message comes.
-/
namespace Verif.Companion
open Verif Verif.Dialogue

/-- `json.Unmarshal` into a pointer to `int32` (crayfish/backend.go:66, 82, 97): `none` is an error, `some none` nil. -/
def intoType : Option Json → Option (Option Int)
  | none => some none
  | some .null => some none
  | some (.num (some n)) => if -2 ^ 31 ≤ n ∧ n < 2 ^ 31 then some (some n) else none
  | some _ => none

/-- The value under a name, as `json.Unmarshal` finds it (crayfish/backend.go:65-69, 81-84, 96-99). Simplified: names are
compared exactly, where `encoding/json` ignores case; of a name given twice the last value is taken, where `encoding/json`
would merge objects (the theorems are about objects whose names are distinct). -/
def field (l : List (String × Json)) (k : String) : Option Json :=
  ((l.filter (fun x => decide (x.1 = k))).getLast?).map (·.2)

/-- `json.Unmarshal` into a pointer to `CrayfishWebSocketRequestMessage` or `CrayfishWebSocketResponseMessage`
(crayfish/backend.go:81-84, 96-99): the type, which may be nil, and the message. -/
def intoPart : Option Json → Option (Option (Option Int × Json))
  | none => some none
  | some .null => some none
  | some (.obj l) => (intoType (field l "type")).map fun t => some (t, (field l "message").getD .null)
  | some _ => none

/-- `CrayfishWebSocketMessage` (crayfish/backend.go:65-69). -/
structure Frame where
  type : Option Int
  request : Option (Option Int × Json)
  response : Option (Option Int × Json)

/-- `json.Unmarshal` of a message (crayfish/backend.go:318-325). A bare null leaves everything nil. -/
def parse : Json → Option Frame
  | .null => some ⟨none, none, none⟩
  | .obj l =>
    match intoType (field l "type"), intoPart (field l "request"), intoPart (field l "response") with
    | some t, some q, some r => some ⟨t, q, r⟩
    | _, _, _ => none
  | _ => none

/-- The channel for answers in the instance (crayfish/backend.go:36), which holds one answer: its content, and whether a
call waits at it. -/
structure Chan where
  buffer : List Json := []
  waiting : Bool := false

/-- What comes of a message. Code: crayfish/backend.go:288-348. -/
inductive Step where
  /-- The reader goes on; the waiting call may have got an answer. -/
  | on (chan : Option Chan) (got : Option Json)
  /-- `StartWebsocket` returns an error; the connection is made anew (crayfish/backend.go:269-281). -/
  | again
  /-- A nil pointer: the program crashes. -/
  | crash
  /-- The reader waits to put an answer into a full channel at which no call is. -/
  | stuck

/-- `handleCrayfishRequestMessage` (crayfish/backend.go:361-364). -/
def handleRequest (chan : Option Chan) : Option (Option Int × Json) → Step
  | none => .crash
  | some (none, _) => .crash
  | some (some _, _) => .on chan none

/-- `handleCrayfishResponseMessage` (crayfish/backend.go:366-372). A waiting call takes the answer at once. -/
def handleResponse (chan : Option Chan) : Option (Option Int × Json) → Step
  | none => .crash
  | some (none, _) => .crash
  | some (some t, m) =>
    match chan with
    | none => .on none none
    | some c =>
      if t > 1 then
        if c.waiting then .on (some ⟨c.buffer, false⟩) (some m)
        else if c.buffer.isEmpty then .on (some ⟨[m], false⟩) none
        else .stuck
      else .on (some c) none

/-- One round of the loop (crayfish/backend.go:309-347); `none` is text that is not JSON. -/
def round (chan : Option Chan) : Option Json → Step
  | none => .again
  | some j =>
    match parse j with
    | none => .again
    | some f =>
      match f.type with
      | none => .on chan none
      | some t =>
        if t = 1 then handleRequest chan f.request
        else if t = 2 then handleResponse chan f.response
        else .on chan none

/-- What happens: the application makes a call, or a message arrives. Code:
crayfish/backend.go:288-348; crayfish/envelope.go:10-50. -/
inductive Event where
  | call
  | arrives (text : Option Json)

/-- What becomes of the client. Code: crayfish/backend.go:288-348. -/
inductive End where
  | listening (chan : Option Chan)
  | crashed
  | deaf

/-- The client over a run of events: the answers that calls got, and what became of it. A call makes a new channel and
waits at it (crayfish/envelope.go:34-36, crayfish/avatar.go:37-39, crayfish/register.go:72-74). A reader that is stuck stays so: nothing
else reads from the old channel, and calls make new ones; a read deadline does not touch it. -/
def run (chan : Option Chan) : List Event → List Json × End
  | [] => ([], .listening chan)
  | .call :: l => run (some ⟨[], true⟩) l
  | .arrives x :: l =>
    match round chan x with
    | .on c g => (g.toList ++ (run c l).1, (run c l).2)
    | .again => run chan l
    | .crash => ([], .crashed)
    | .stuck => ([], .deaf)

end Verif.Companion
