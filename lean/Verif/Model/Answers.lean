import Verif.Model.Content
/-!
# What the client sends in answer to sync messages

The calls that `Receive.Ext` leaves open: `sendVerifiedMessage` and `sendNullMessage` (sender.go:90-130) with the
check before them (sync.go:38-44), and the ends of `sendContactUpdate` and `sendGroupUpdate` (sync.go:190-212,
238-260), after the stream has been built (`Model/Sync`).
-/
namespace Verif.Answers
open Verif Verif.Wire Verif.Record Verif.Content

/-- `Verified.GetDestinationUuid` (protobuf/SignalService.proto:411-423). -/
def verifiedDest (v : Bytes) : String := textOr ((decFields v).getD []) 5

/-- `proto.Marshal` of the `Content` of a null message (sender.go:91-96, 109-115): the padding is empty, not nil. -/
def nullContent : Bytes := encFields [sub 4 [(1, .len [])]]

/-- Environment of one answer. Code: sync.go:155-212, 215-260. -/
structure Ext where
  /-- `config.ConfigFile.ProfileKey` -/
  profileKey : Bytes
  /-- `config.ConfigFile.UUID`, or `Tel` if that is empty -/
  self : String
  now : Nat
  /-- the contacts (1) or groups (2) collected, written as a stream and uploaded (sync.go:158-193, 215-241); the
  address book that `GetRegisteredContacts` goes through is not part of this state -/
  upload : Nat → Res Send.OutAtt
  D : Nat → Nat → Send.DevExt
  srv : Nat → Send.Request → Send.Reply
  /-- attempts looked at -/
  fuel : Nat

/-- The result of a call that may still be trying: then it is no success. Code: sync.go:155-212,
215-260. -/
def done : Option (Res Send.Response) → Res Unit
  | some (.ok _) => .ok ()
  | some (.err e) => .err e
  | some .panic => .panic
  | none => .err .other

/-- `sendNullMessage` (sender.go:104-130). -/
def sendNull (P : Prims) (A : Ext) (uuid : String) (s : Send.State) : Send.State × Res Unit :=
  let r := Send.sendLoop P A.D A.srv uuid (Files.padMessage nullContent) A.now A.fuel 0 (Send.withDefault s uuid)
  (r.1, done r.2)

/-- The branch `GetVerified` (sync.go:38-44) with `GetAccessForSync` (unidentifiedAccess/unidentifiedAccess.go:
`aes.NewCipher` accepts three lengths) and `sendVerifiedMessage` (sender.go:90-98). The access key is not used. -/
def sendVerified (P : Prims) (A : Ext) (v : Bytes) (s : Send.State) : Send.State × Res Unit :=
  if A.profileKey.length = 16 ∨ A.profileKey.length = 24 ∨ A.profileKey.length = 32 then
    sendNull P A (verifiedDest v) s
  else (s, .err .other)

/-- The pointer to the uploaded stream (sync.go:195-208, 243-256). -/
def blob (a : Send.OutAtt) : List Field :=
  [(2, .len a.contentType), (3, .len a.keys), (4, .varint a.size), (6, .len a.digest), (14, .varint a.cdnNr),
   (15, .len a.cdnKey)]

/-- The `Content` of the answer: contacts are field 2, groups field 3 of `SyncMessage`. Code:
sync.go:155-212, 215-260. -/
def updateContent (t : Nat) (a : Send.OutAtt) : Bytes :=
  encFields [sub 2 [sub (if t = 1 then 2 else 3) [sub 1 (blob a)]]]

/-- `sendSyncMessage` (sender.go:66-88) for `sendContactUpdate` and `sendGroupUpdate` (sync.go:154-212, 215-260):
`resp.Timestamp` is read before the error is looked at, and `resp` is nil when there was one. -/
def sendUpdate (P : Prims) (A : Ext) (t : Nat) (s : Send.State) : Send.State × Res Unit :=
  match A.upload t with
  | .err e => (s, .err e)
  | .panic => (s, .panic)
  | .ok a =>
    let r := Send.sendLoop P A.D A.srv A.self (Files.padMessage (updateContent t a)) A.now A.fuel 0
      (Send.withDefault s A.self)
    (r.1, match r.2 with
      | some (.ok _) => .ok ()
      | some _ => .panic
      | none => .err .other)

/-- The environment of a frame with these answers. Code: websocket.go:144-229. -/
def wire (P : Prims) (A : Ext) (X : Receive.Ext) : Receive.Ext :=
  { X with sendUpdate := sendUpdate P A, sendVerified := sendVerified P A }

end Verif.Answers
