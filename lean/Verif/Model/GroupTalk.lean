import Verif.Model.GroupStore
import Verif.Model.Content
/-!
# The group context of a message (groups.go:205-251, groupsv2/groupsv2.go:239-318)

`GroupContextV2` on the wire, from `sendGroupV2Helper` of one client to `HandleGroupsV2` of another.
-/
namespace Verif.GroupTalk
open Verif Verif.Wire Verif.Record Verif.GroupStore

/-- `proto.Marshal` of the `GroupContextV2` that `sendGroupV2Helper` makes (groups.go:227-230;
protobuf/SignalService.proto:650-654). -/
def ctxBytes (masterKey : Bytes) (revision : Nat) : Bytes := encFields [(1, .len masterKey), (2, .varint revision)]

/-- The `outgoingMessage` for one member (groups.go:232-239). -/
def outMsg (att : Option Send.OutAtt) (o : Out) : Send.OutMsg :=
  { destination := Content.text o.destination, msg := o.msg, attachment := att, expireTimer := o.timer
    timestamp := some o.timestamp, groupV2 := some (ctxBytes o.masterKey o.revision) }

/-- The fields of the context that are read (groupsv2/groupsv2.go:240-290): a change that is empty counts as none;
`broken` is what `Unmarshal` leaves in a `GroupChange` that is no message. -/
def readCtx (broken : Bytes → Bytes × Bytes) (b : Bytes) : Option Ctx := do
  let fs ← decFields b
  let ch := bytesOr fs 3
  some { masterKey := bytesOr fs 1, revision := numOr fs 2
         change := if ch = [] then none
           else some (match decFields ch with
             | some cs => (bytesOr cs 1, bytesOr cs 2)
             | none => broken ch) }

/-- `HandleGroupsV2` as `handleDataMessage` calls it (handler.go:86; groupsv2/groupsv2.go:239-243): a message without a context
has no group. A context that is no message is refused with the whole content before. -/
def receive (Z : Zk) (parse : Bytes → Actions) (broken : Bytes → Bytes × Bytes) (E : Env) (src : Bytes)
    (dm : Receive.DataMsg) (w : World) : World × Res (Option G) :=
  match dm.group with
  | none => (w, .ok none)
  | some b =>
    match readCtx broken b with
    | none => (w, .err .handler)
    | some c =>
      match handle Z parse E src c w with
      | (w, .ok g) => (w, .ok (some g))
      | (w, .err e) => (w, .err e)
      | (w, .panic) => (w, .panic)

/-! ## The sender's other devices -/

/-- The transcript `sendMessage` makes of a message (sender.go:34-51). -/
def transcript (dest : String) (d : Send.WireData) : Send.Transcript :=
  let plus := dest.toList.head? = some '+'
  ⟨if plus then some dest else none, if plus then none else some dest, d.timestamp, d⟩

/-- The transcripts of a message to a group, all parts of which were sent: one for each member for whom the server asked
for one (`sync`), with the place of the member (groups.go:231-246; sender.go:41-51). -/
def transcripts (sync : Nat → Bool) (pk : Bytes) (att : Option Send.OutAtt) (outs : List Out) : List (Nat × Send.Transcript) :=
  (outs.zipIdx.filter (fun p => sync p.2)).map (fun p =>
    (p.2, transcript (outMsg att p.1).destination (Send.createMessage 0 pk (outMsg att p.1))))

/-- `handleGroupsV2` of transcripts (groups.go:178-188): the group is looked up, nothing else. -/
def lookup (dm : Receive.DataMsg) (w : World) : World × Option G :=
  match dm.group with
  | none => (w, none)
  | some b =>
    match decFields b with
    | none => (w, none)
    | some fs => find (hexid (bytesOr fs 1)) w

/-- Contents that come to another device of the user one after the other, with the time of the server. The group
looked up may be loaded, also if the message is refused for another reason: a simplification without effect on what
is found. Code: handler.go:11-39; sync.go:86-133. -/
def device (P : Prims) (X : Receive.Ext) (src uuid : String) :
    List (Nat × Bytes) → World → Receive.World → Receive.World
  | [], _, w => w
  | (ts, b) :: r, gw, w =>
    let found := fun dm => (lookup dm gw).2.map (fun g => hexid g.masterKey)
    let w' := (Receive.handleMessage P { X with syncGroupsV2 := fun _ dm => .ok (found dm) } src uuid ts b w).1
    let gw' := match ((X.parseContent b).bind (·.sync)).bind (·.sent) with
      | some s => match s.message with
        | some dm => (lookup dm gw).1
        | none => gw
      | none => gw
    device P X src uuid r gw' w'

end Verif.GroupTalk
