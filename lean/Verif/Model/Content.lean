import Verif.Model.Record
import Verif.Model.Send
/-!
# Contents, envelopes and frames on the wire

The encodings that `Model/Receive` and `Model/Send` leave open: what `proto.Unmarshal` makes of the bytes of
a `Content`, an `Envelope` and a `WebSocketMessage`, and what `proto.Marshal` writes for the contents the
client sends (protobuf/SignalService.proto, protobuf/WebSocketResources.proto; proto2, so strings are not
checked to be UTF-8).

Simplifications: parts that the client only passes on (quotes, contacts, stickers, reactions, group
contexts, `Verified`) are kept as bytes and of them, and of the parts never looked at, only the outermost
layer is checked to be well formed. Text is one character per byte, as in Go's strings.
-/
namespace Verif.Content
open Verif Verif.Wire Verif.Record Verif.Keys

/-- Bytes of a `string` field. Code: protobuf/SignalService.proto:127-338. -/
def text (b : Bytes) : String := String.ofList (b.map (fun c => Char.ofNat c.toNat))

/-! ## Fields -/

/-- A `uint64` field. Code: protobuf/SignalService.proto:127-338. -/
def getU64 (fs : List Field) (num : Nat) : Option Nat :=
  fs.foldl (fun acc f => match f with
    | (n, .varint v) => if n = num then some v else acc
    | _ => acc) none

/-- A `string` field, empty if absent. Code: protobuf/SignalService.proto:127-338. -/
def textOr (fs : List Field) (num : Nat) : String := text (bytesOr fs num)

/-- The varints of a packed field. Code: protobuf/SignalService.proto:344-353. -/
def unpack : Nat → Bytes → Option (List Nat)
  | 0, _ => none
  | fuel + 1, b => match b with
    | [] => some []
    | _ => match decVarint b with
      | none => none
      | some (n, r) => (unpack fuel r).map (n :: ·)

/-- A repeated `uint64` field, packed or not. Code: protobuf/SignalService.proto:344-353. -/
def getU64s : List Field → Nat → Option (List Nat)
  | [], _ => some []
  | (n, .varint v) :: fs, num => if n = num then (getU64s fs num).map (v :: ·) else getU64s fs num
  | (n, .len b) :: fs, num =>
    if n = num then do
      let vs ← unpack (b.length + 1) b
      let rest ← getU64s fs num
      some (vs ++ rest)
    else getU64s fs num
  | _ :: fs, num => getU64s fs num

/-- An embedded message kept as bytes; several occurrences are merged, which is concatenation. Outer `none`:
malformed; inner `none`: absent. Code: protobuf/SignalService.proto:42-52. -/
def rawOne (fs : List Field) (num : Nat) : Option (Option Bytes) :=
  match getAll fs num with
  | [] => some none
  | bs => if bs.all (fun b => (decFields b).isSome) then some (some bs.flatten) else none

/-- A repeated embedded message kept as bytes. Code: protobuf/SignalService.proto:127-338. -/
def rawMany (fs : List Field) (num : Nat) : Option (Option Bytes) :=
  match getAll fs num with
  | [] => some none
  | bs => if bs.all (fun b => (decFields b).isSome) then some (some (encFields (bs.map (fun b => (num, .len b)))))
          else none

/-! ## Attachment pointers -/

/-- `getAttachmentLocation` (attachments.go:222-231; constants server.go:40-41, 93-94). -/
def location (id : Nat) (key : Bytes) (cdn : Nat) : Bytes :=
  ascii (if cdn = 2 then "https://cdn2.signal.org" else "https://cdn.signal.org") ++ ascii "/attachments/" ++
    (if id ≠ 0 then ascii (toString id) else key)

/-- Little-endian. Code: protobuf/SignalService.proto:600-626. -/
def leNat : Bytes → Nat
  | [] => 0
  | b :: bs => b.toNat + 256 * leNat bs

/-- The `oneof` of `AttachmentPointer`: the last of `cdnId` (1) and `cdnKey` (15). Code:
protobuf/SignalService.proto:600-626. -/
def identifier (fs : List Field) : Nat × Bytes :=
  fs.foldl (fun acc f => match f with
    | (n, .fixed64 b) => if n = 1 then (leNat b, []) else acc
    | (n, .len b) => if n = 15 then (0, b) else acc
    | _ => acc) (0, [])

/-- `AttachmentPointer` as far as used (attachments.go:98-124). -/
def attPtr (fs : List Field) : Receive.AttPtr :=
  ⟨bytesOr fs 3, location (identifier fs).1 (identifier fs).2 (numOr fs 14)⟩

/-! ## Reading contents (handler.go:11-18) -/

/-- Parts of a message that are not looked at must be well formed. Code:
protobuf/SignalService.proto:42-52. -/
def checked (fs : List Field) (nums : List Nat) : Option Unit :=
  if nums.all (fun n => (rawOne fs n).isSome) then some () else none

/-- `DataMessage`. Code: protobuf/SignalService.proto:127-338. -/
def dataMsg (fs : List Field) : Option Receive.DataMsg := do
  let atts ← subs fs 2
  let group ← rawOne fs 15
  let quote ← rawOne fs 8
  let contact ← rawMany fs 9
  let sticker ← rawOne fs 11
  let reaction ← rawOne fs 16
  checked fs [10, 17, 18, 19, 20, 21, 22]
  some { body := bytesOr fs 1, attachments := atts.map attPtr, flags := numOr fs 4, expireTimer := numOr fs 5
         profileKey := bytesOr fs 6, timestamp := getU64 fs 7, group := group, quote := quote
         contact := contact, sticker := sticker, reaction := reaction }

/-- `SyncMessage_Sent`. Code: protobuf/SignalService.proto:426-448. -/
def sentMsg (fs : List Field) : Option Receive.Sent := do
  let m ← subOne fs 3
  let m ← optional m dataMsg
  checked fs [5, 8, 9]
  some { message := m, destE164 := textOr fs 1, destUuid := textOr fs 7 }

/-- `SyncMessage_Read`. Code: protobuf/SignalService.proto:479-483. -/
def readMsg (fs : List Field) : String × Nat := (textOr fs 3, (getU64 fs 2).getD 0)

/-- `SyncMessage`. Code: protobuf/SignalService.proto:425-598. -/
def syncMsg (fs : List Field) : Option Receive.SyncMsg := do
  let sent ← subOne fs 1
  let sent ← optional sent sentMsg
  let contacts ← subOne fs 2
  checked (contacts.getD []) [1]
  let groups ← subOne fs 3
  checked (groups.getD []) [1]
  let request ← subOne fs 4
  let read ← subs fs 5
  let blocked ← subOne fs 6
  let verified ← rawOne fs 7
  checked fs [9, 10, 11, 12, 13, 14, 15, 16, 17, 18]
  some { sent := sent, contacts := contacts.isSome, groups := groups.isSome
         request := request.map (fun r => numOr r 1), read := read.map readMsg, blocked := blocked.isSome
         verified := verified
         other := [9, 10, 11, 12, 13, 14, 15, 16, 17, 18].any (fun n => getAll fs n ≠ []) }

/-- `CallMessage`. Code: protobuf/SignalService.proto:54-125. -/
def callMsg (fs : List Field) : Option Receive.CallMsg := do
  let offer ← subOne fs 1
  let answer ← subOne fs 2
  let ice ← subs fs 3
  let legacy ← subOne fs 4
  let busy ← subOne fs 5
  let hangup ← subOne fs 7
  checked fs [10]
  some { answer := answer.isSome, offer := offer.isSome, hangup := hangup.isSome, busy := busy.isSome
         legacyHangup := legacy.isSome, iceUpdate := ice ≠ [] }

/-- `ReceiptMessage`. Code: protobuf/SignalService.proto:344-353. -/
def receiptMsg (fs : List Field) : Option Receive.ReceiptMsg := do
  let ts ← getU64s fs 2
  some { type := getU32 fs 1, timestamps := ts }

/-- `proto.Unmarshal` into a `Content` (handler.go:12-13). -/
def parseContent (b : Bytes) : Option Receive.Content := do
  let fs ← decFields b
  let data ← subOne fs 1
  let data ← optional data dataMsg
  let sync ← subOne fs 2
  let sync ← optional sync syncMsg
  let call ← subOne fs 3
  let call ← optional call callMsg
  let null ← subOne fs 4
  let receipt ← subOne fs 5
  let receipt ← optional receipt receiptMsg
  let typing ← subOne fs 6
  checked fs [9]
  some { data := data, sync := sync, call := call, receipt := receipt, typing := typing.isSome
         null := null.isSome }

/-! ## Writing contents (sender.go:22-31, 42-51) -/

/-- The pointer of an attachment as filled in by `createMessage` (server.go:759-783). -/
def attFields (a : Send.WireAtt) : List Field :=
  [(2, .len a.contentType), (3, .len a.keys), (4, .varint a.size), (6, .len a.digest), (7, .len a.fileName)] ++
    (match a.flags with
    | some f => [(8, .varint f)]
    | none => []) ++ [(14, .varint a.cdnNr), (15, .len a.cdnKey)]

/-- An optional `bytes`, `string` or message field. Code: protobuf/SignalService.proto:14-40. -/
def optBytes (num : Nat) : Option Bytes → List Field
  | some b => [(num, .len b)]
  | none => []

/-- `DataMessage` as filled in by `createMessage` (server.go:749-793): pointers that are set are written even
if zero; a nil profile key is not written (an empty one would be, to the same effect). -/
def dataFields (d : Send.WireData) : List Field :=
  optBytes 1 d.body ++ d.attachments.map (fun a => sub 2 (attFields a)) ++
    [(4, .varint d.flags), (5, .varint d.expireTimer)] ++ optLen 6 d.profileKey ++ [(7, .varint d.timestamp)] ++
    optBytes 15 d.groupV2

/-- `proto.Marshal` of the `Content` of a data message (sender.go:22-25). Nothing in it can fail. -/
def marshalData (d : Send.WireData) : Bytes := encFields [sub 1 (dataFields d)]

/-- The transcript (sender.go:42-51). -/
def sentFields (t : Send.Transcript) : List Field :=
  optBytes 1 (t.destE164.map ascii) ++ [(2, .varint t.timestamp), sub 3 (dataFields t.message)] ++
    optBytes 7 (t.destUuid.map ascii)

/-- `proto.Marshal` of the `Content` of a transcript (sender.go:72-76). -/
def marshalSync (t : Send.Transcript) : Bytes := encFields [sub 2 [sub 1 (sentFields t)]]

/-! ## Envelopes and frames -/

/-- `createEnvelope` (textsecure.go:556-563): `proto.Unmarshal` into an `Envelope`. -/
def parseEnvelope (b : Bytes) : Option Receive.Envelope := do
  let fs ← decFields b
  some { type := getU32 fs 1, sourceUuid := textOr fs 11, sourceDevice := numOr fs 7
         timestamp := (getU64 fs 5).getD 0, serverTimestamp := (getU64 fs 10).getD 0
         destinationUuid := (getBytes fs 13).map text, content := getBytes fs 8 }

/-- `proto.Unmarshal` into a `WebSocketMessage`, its request's id and body (websocket.go:166-175, 207). -/
def parseFrame (b : Bytes) : Receive.Frame :=
  match (do
    let fs ← decFields b
    let req ← subOne fs 2
    checked fs [3]
    some (req.getD [])) with
  | none => .garbage
  | some req => .msg ((getU64 req 4).getD 0) (bytesOr req 3)

/-- `sendAck` (websocket.go:78-100). -/
def ackBytes (id : Nat) : Bytes :=
  encFields [(1, .varint 2), sub 3 [(1, .varint id), (2, .varint 200), (3, .len (ascii "OK"))]]

end Verif.Content
