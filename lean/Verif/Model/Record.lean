import Verif.Model.Wire
import Verif.Model.Session
/-!
# Stored session records

Models `SessionRecord.Serialize` and `LoadSessionRecord` (axolotl/session.go:265-294) for the generated
types of axolotl/protobuf/LocalStorageProtocol.pb.go (proto3): zero numbers and empty byte strings are
omitted, embedded messages are written when the pointer is not nil, fields in the order of their numbers.
-/
namespace Verif.Record
open Verif Verif.Wire Verif.Session

/-- A proto3 number field: omitted when zero. Code:
axolotl/protobuf/LocalStorageProtocol.proto:11-57. -/
def optVar (num v : Nat) : List Field := if v = 0 then [] else [(num, .varint v)]

/-- A proto3 bytes field: omitted when empty. Code:
axolotl/protobuf/LocalStorageProtocol.proto:11-57. -/
def optLen (num : Nat) (b : Bytes) : List Field := if b = [] then [] else [(num, .len b)]

/-- An embedded message. Code: axolotl/protobuf/LocalStorageProtocol.proto:11-57. -/
def sub (num : Nat) (fs : List Field) : Field := (num, .len (encFields fs))

/-- `SessionStructure_Chain_ChainKey` (axolotl/protobuf/LocalStorageProtocol.pb.go:687-688). -/
def chainKeyFields (c : ChainKey) : List Field := optVar 1 c.idx ++ optLen 2 c.key

/-- `SessionStructure_Chain_MessageKey` (axolotl/protobuf/LocalStorageProtocol.pb.go:742-745). -/
def msgKeyFields (m : MsgKeys) : List Field :=
  optVar 1 m.idx ++ optLen 2 m.cipherKey ++ optLen 3 m.macKey ++ optLen 4 m.iv

/-- `SessionStructure_Chain` for a receiver (axolotl/protobuf/LocalStorageProtocol.pb.go:553-556; axolotl/session.go:139-151). -/
def recvFields (c : RecvChain) : List Field :=
  optLen 1 c.ratchet ++ [sub 3 (chainKeyFields c.ck)] ++ c.mks.map (fun m => sub 4 (msgKeyFields m))

/-- `SessionStructure_Chain` for the sender (axolotl/session.go:153-162). -/
def sendFields (c : SendChain) : List Field :=
  optLen 1 c.pub ++ optLen 2 c.priv ++ [sub 3 (chainKeyFields c.ck)]

/-- An `int32` held as its 32-bit pattern is written sign-extended to 64 bits. Code:
axolotl/protobuf/LocalStorageProtocol.proto:33-37. -/
def signExtend (n : Nat) : Nat := if n < 2 ^ 31 then n else n + (2 ^ 64 - 2 ^ 32)

/-- `SessionStructure_PendingPreKey` (axolotl/protobuf/LocalStorageProtocol.pb.go:624-626). -/
def pendingFields (p : Pending) : List Field :=
  optVar 1 p.preKeyId ++ optLen 2 p.baseKey ++ optVar 3 (signExtend p.signedPreKeyId)

/-- `SessionStructure` (axolotl/protobuf/LocalStorageProtocol.pb.go:38-50). `PendingKeyExchange` and `NeedsRefresh` are
never set by this code. -/
def stateFields (s : SState) : List Field :=
  optVar 1 s.version ++ optLen 2 s.localId ++ optLen 3 s.remoteId ++ optLen 4 s.rootKey
    ++ optVar 5 s.prevCounter
    ++ (match s.sender with
      | some c => [sub 6 (sendFields c)]
      | none => [])
    ++ s.recv.map (fun c => sub 7 (recvFields c))
    ++ (match s.pending with
      | some p => [sub 9 (pendingFields p)]
      | none => [])
    ++ optVar 10 s.remoteReg ++ optVar 11 s.localReg ++ optLen 13 s.aliceBase

/-- `RecordStructure` (axolotl/protobuf/LocalStorageProtocol.pb.go:174-176). -/
def recordFields (r : SRecord) : List Field :=
  sub 1 (stateFields r.cur) :: r.prev.map (fun s => sub 2 (stateFields s))

/-- `SessionRecord.Serialize` (axolotl/session.go:281-294). -/
def serialize (r : SRecord) : Bytes := encFields (recordFields r)

/-! ## Reading -/

/-- All occurrences of an embedded message; `none` if one is malformed. Code:
axolotl/protobuf/LocalStorageProtocol.proto:11-57. -/
def subs (fs : List Field) (num : Nat) : Option (List (List Field)) := (getAll fs num).mapM decFields

/-- A singular embedded message: several occurrences are merged, which for the field lists is
concatenation. Outer `none`: malformed; inner `none`: absent. Code:
axolotl/protobuf/LocalStorageProtocol.proto:11-57. -/
def subOne (fs : List Field) (num : Nat) : Option (Option (List Field)) :=
  match subs fs num with
  | none => none
  | some [] => some none
  | some (l :: ls) => some (some (l ++ ls.flatten))

/-- A bytes field, empty if absent. Code: axolotl/protobuf/LocalStorageProtocol.proto:11-57. -/
def bytesOr (fs : List Field) (num : Nat) : Bytes := (getBytes fs num).getD []
/-- A number field, zero if absent. Code: axolotl/protobuf/LocalStorageProtocol.proto:11-57. -/
def numOr (fs : List Field) (num : Nat) : Nat := (getU32 fs num).getD 0

/-- A chain key. Code: axolotl/protobuf/LocalStorageProtocol.proto:16-19. -/
def decChainKey (fs : List Field) : ChainKey := ⟨bytesOr fs 2, numOr fs 1⟩

/-- A stored message key. Code: axolotl/protobuf/LocalStorageProtocol.proto:23-28. -/
def decMsgKey (fs : List Field) : MsgKeys := ⟨bytesOr fs 2, bytesOr fs 3, bytesOr fs 4, numOr fs 1⟩

/-- A chain without chain key is treated as malformed (the Go code would load it and dereference nil on
its use). Code: axolotl/protobuf/LocalStorageProtocol.proto:12-31. -/
def decRecv (fs : List Field) : Option RecvChain := do
  let ck ← subOne fs 3
  let ck ← ck
  let mks ← subs fs 4
  some ⟨bytesOr fs 1, decChainKey ck, mks.map decMsgKey⟩

/-- The sender chain. Code: axolotl/protobuf/LocalStorageProtocol.proto:12-31. -/
def decSend (fs : List Field) : Option SendChain := do
  let ck ← subOne fs 3
  let ck ← ck
  let _ ← subs fs 4
  some ⟨bytesOr fs 1, bytesOr fs 2, decChainKey ck⟩

/-- The pending prekey. Code: axolotl/protobuf/LocalStorageProtocol.proto:33-37. -/
def decPending (fs : List Field) : Pending := ⟨numOr fs 1, numOr fs 3, bytesOr fs 2⟩

/-- Decode an optional embedded message. Code: axolotl/protobuf/LocalStorageProtocol.proto:11-57. -/
def optional (o : Option (List Field)) (dec : List Field → Option α) : Option (Option α) :=
  match o with
  | none => some none
  | some fs => (dec fs).map some

/-- One session state; `PendingKeyExchange` (field 8) is ignored. Code:
axolotl/protobuf/LocalStorageProtocol.proto:11-57; axolotl/session.go:268-280. -/
def decState (fs : List Field) : Option SState := do
  let snd ← subOne fs 6
  let snd ← optional snd decSend
  let rcs ← subs fs 7
  let rcs ← rcs.mapM decRecv
  let pend ← subOne fs 9
  let pend ← optional pend (fun fs => some (decPending fs))
  some { version := numOr fs 1, localId := bytesOr fs 2, remoteId := bytesOr fs 3, rootKey := bytesOr fs 4
         prevCounter := numOr fs 5, sender := snd, recv := rcs, pending := pend, remoteReg := numOr fs 10
         localReg := numOr fs 11, aliceBase := bytesOr fs 13 }

/-- `LoadSessionRecord` (axolotl/session.go:265-278). A record without current session is given an empty
one: the Go getters behave the same on nil, its setters would panic. -/
def loadRecord (b : Bytes) : Res SRecord :=
  match (do
    let fs ← decFields b
    let cur ← subOne fs 1
    let cur ← decState (cur.getD [])
    let prev ← subs fs 2
    let prev ← prev.mapM decState
    some ({ cur := cur, prev := prev, fresh := false } : SRecord)) with
  | some r => .ok r
  | none => .err .badProto

end Verif.Record
