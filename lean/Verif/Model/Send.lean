import Verif.Model.Receive
import Verif.Model.Encoding
/-!
# The send path

Models `makePreKeyBundle` (prekeys.go:161-214), `createMessage`, `buildMessage`, `buildAndSendMessage`
(server.go:749-956), `sendMessage` and `sendSyncMessage` (sender.go:13-87) and `EndSession`
(textsecure.go:185-203) over the stores of `Api`.
-/
namespace Verif.Send
open Verif Verif.Keys Verif.Messages Verif.Session Verif.Api Verif.Names

/-! ## Prekey replies -/

/-- `preKeyEntity` (prekeys.go:20-23): the key as text. -/
structure PkEntity where
  id : Nat
  publicKey : Bytes
  deriving DecidableEq, Repr

/-- `signedPreKeyEntity` (prekeys.go:25-29). -/
structure SpkEntity where
  id : Nat
  publicKey : Bytes
  signature : Bytes
  deriving DecidableEq, Repr

/-- `preKeyResponseItem` (prekeys.go:38-43). -/
structure PkItem where
  deviceId : Nat
  registrationId : Nat
  signedPreKey : Option SpkEntity
  preKey : Option PkEntity
  deriving DecidableEq, Repr

/-- `preKeyResponse` (prekeys.go:45-48), the decoded JSON reply of the server. -/
structure PkReply where
  identityKey : Bytes
  devices : List PkItem
  deriving DecidableEq, Repr

/-- The one-time prekey (prekeys.go:172-183): the decoded key goes to `NewECPublicKey`, which panics
unless it has 32 bytes, before the decoding error is looked at (line 179 before 180). -/
def decodePreKey : Option PkEntity → Res (Nat × Option Bytes)
  | none => .ok (0, none)
  | some e =>
    match Encoding.decodeKey e.publicKey with
    | .ok k => .ok (e.id, some k)
    | .err _ => .panic
    | .panic => .panic

/-- `makePreKeyBundle` (prekeys.go:161-214) after the HTTP request: the device id *of the reply* and the
bundle. `decodeKey` returns 32 bytes, so the other key constructors do not panic. The conversion of the
signed prekey id to `int32` (and back when it is sent) is the identity and left out. -/
def makeBundle (r : PkReply) : Res (Nat × Bundle) :=
  match r.devices with
  | [d] => do
    let pk ← decodePreKey d.preKey
    match d.signedPreKey with
    | none => .err .other
    | some s => do
      let spk ← Encoding.decodeKey s.publicKey
      let sig ← Encoding.decodeSignature s.signature
      let ik ← Encoding.decodeKey r.identityKey
      .ok (d.deviceId, { regId := d.registrationId, preKeyId := pk.1, preKey := pk.2
                         signedPreKeyId := s.id, signedPreKey := some spk, signature := sig
                         identityKey := ik })
  | _ => .err .other

/-! ## Building the request -/

/-- Environment while one device is handled: the server's reply to a prekey request (or the error of
`getPreKeys`), the randomness of a new session, failing writes. Code: server.go:813-856. -/
structure DevExt where
  prekeys : Nat → Res PkReply
  rb : Bytes
  rr : Bytes
  env : Env := {}

/-- `Envelope_CIPHERTEXT` = 1, `Envelope_PREKEY_BUNDLE` = 3. Code:
protobuf/SignalService.proto:14-40. -/
def typeNum : MsgType → Nat
  | .whisper => 1
  | .prekey => 3

/-- Lines 823-833: a session is built unless there is one. It is stored under the device id of the
reply. Code: server.go:813-856. -/
def ensureSession (P : Prims) (D : DevExt) (st : Store) (recid : String) (dev : Nat) : Store × Res Unit :=
  if containsSession st recid dev then (st, .ok ())
  else match D.prekeys dev with
  | .err e => (st, .err e)
  | .panic => (st, .panic)
  | .ok r =>
    match makeBundle r with
    | .err e => (st, .err e)
    | .panic => (st, .panic)
    | .ok (bdev, b) =>
      let o := buildSender P D.env st D.rb D.rr recid bdev b
      (applyWrites st o.writes, o.res)

/-- One iteration of the loop in `buildMessage` (server.go:822-853). -/
def buildOne (P : Prims) (D : DevExt) (st : Store) (recid : String) (dev : Nat) (pt : Bytes) :
    Store × Res JMsg :=
  match ensureSession P D st recid dev with
  | (st1, .err e) => (st1, .err e)
  | (st1, .panic) => (st1, .panic)
  | (st1, .ok _) =>
    let o := encryptMsg P D.env st1 recid dev pt
    let st2 := applyWrites st1 o.writes
    match o.res with
    | .err e => (st2, .err e)
    | .panic => (st2, .panic)
    | .ok (ct, ty) =>
      match remoteRegId st2 recid dev with
      | .err e => (st2, .err e)
      | .panic => (st2, .panic)
      | .ok rr => (st2, .ok ⟨typeNum ty, dev, rr, Encoding.b64Encode ct⟩)

/-- The loop; `D i` is the environment of the `i`-th device. Code: server.go:813-856. -/
def buildLoop (P : Prims) (D : Nat → DevExt) (recid : String) (pt : Bytes) :
    Nat → List Nat → Store → Store × Res (List JMsg)
  | _, [], st => (st, .ok [])
  | i, dev :: devs, st =>
    match buildOne P (D i) st recid dev pt with
    | (st1, .err e) => (st1, .err e)
    | (st1, .panic) => (st1, .panic)
    | (st1, .ok m) =>
      match buildLoop P D recid pt (i + 1) devs st1 with
      | (st2, .ok ms) => (st2, .ok (m :: ms))
      | r => r

/-- `buildMessage` (server.go:813-856). -/
def buildMessage (P : Prims) (D : Nat → DevExt) (st : Store) (receiver : String) (pt : Bytes)
    (devices : List Nat) : Store × Res (List JMsg) :=
  match Receive.recID receiver with
  | .err e => (st, .err e)
  | .panic => (st, .panic)
  | .ok recid => buildLoop P D recid pt 0 devices st

/-! ## Sending with reconciliation -/

/-- Reply of the server to `PUT /v1/messages/<uuid>`: a transport error, 409, 410, another status outside
2xx, or success with `needsSync`. An undecodable JSON body gives the zero value (errors of `Decode` are
ignored), i.e. empty lists or `needsSync = false`. Code: server.go:883-956. -/
inductive Reply where
  | netErr
  | mismatched (missing extra : List Nat)
  | stale (devs : List Nat)
  | status
  | ok (needsSync : Bool)
  deriving DecidableEq, Repr

/-- `deviceLists[uuid]`. Code: server.go:881. -/
def State.devs (s : State) (uuid : String) : List Nat := (s.devices uuid).getD []

/-- Lines 909-923. Code: server.go:883-956. -/
def reconcile (old missing extra : List Nat) : List Nat := old.filter (fun d => !extra.contains d) ++ missing

/-- Lines 929-936: deletes the sessions of the stale devices; `recID` cannot fail here (it succeeded in
`buildMessage`). Code: server.go:883-956. -/
def dropStale (st : Store) (recid : String) (devs : List Nat) : Store :=
  devs.foldl (fun st d => deleteSession st recid d) st

/-- The recipient id used for the sessions of `uuid`; if there is none `buildMessage` has already failed.
Code: textsecure.go:477-486. -/
def recidOf (uuid : String) : String :=
  match Receive.recID uuid with
  | .ok r => r
  | _ => uuid

/-- `sendMessageResponse`. Code: server.go:873-876. -/
structure Response where
  needsSync : Bool
  ts : Nat
  deriving DecidableEq, Repr

/-- `buildAndSendMessage` (server.go:883-956) with a timestamp. The recursion has no bound in Go; here
`fuel` bounds the attempts and running out of it is `none` (still trying). `D k` and `srv k` are the
environment and the server at the `k`-th attempt. -/
def sendLoop (P : Prims) (D : Nat → Nat → DevExt) (srv : Nat → Request → Reply) (uuid : String) (pt : Bytes)
    (ts : Nat) : Nat → Nat → State → State × Option (Res Response)
  | 0, _, s => (s, none)
  | fuel + 1, k, s =>
    match buildMessage P (D k) s.store uuid pt (s.devs uuid) with
    | (st1, .err e) => ({ s with store := st1 }, some (.err e))
    | (st1, .panic) => ({ s with store := st1 }, some .panic)
    | (st1, .ok ms) =>
      let req : Request := ⟨uuid, ts, ms⟩
      let s1 : State := { s with store := st1, log := s.log ++ [req] }
      match srv k req with
      | .netErr => (s1, some (.err .http))
      | .status => (s1, some (.err .http))
      | .ok ns => (s1, some (.ok ⟨ns, ts⟩))
      | .mismatched missing extra =>
        sendLoop P D srv uuid pt ts fuel (k + 1)
          { s1 with devices := fun u => if u = uuid then some (reconcile (s.devs uuid) missing extra)
                                        else s1.devices u }
      | .stale devs =>
        sendLoop P D srv uuid pt ts fuel (k + 1)
          { s1 with store := dropStale st1 (recidOf uuid) devs }

/-- Lines `if _, ok := deviceLists[..]; !ok` (sender.go:16-18, 68-70). -/
def withDefault (s : State) (uuid : String) : State :=
  { s with devices := fun u => if u = uuid then some ((s.devices uuid).getD [1]) else s.devices u }

/-! ## Data messages -/

/-- `attachmentPointerV3` (textsecure.go:93-101). -/
structure OutAtt where
  cdnKey : Bytes
  cdnNr : Nat
  contentType : Bytes
  keys : Bytes
  digest : Bytes
  size : Nat
  voiceNote : Bool
  deriving DecidableEq, Repr

/-- `groupMessage` (groups.go:190-195), legacy groups; `type` as in `GroupContext_Type`. -/
structure GroupV1Msg where
  id : Bytes
  name : Bytes := []
  members : List String := []
  type : Nat
  deriving DecidableEq, Repr

/-- `outgoingMessage` (textsecure.go:103-112). -/
structure OutMsg where
  destination : String
  msg : Bytes := []
  group : Option GroupV1Msg := none
  groupV2 : Option Bytes := none
  attachment : Option OutAtt := none
  flags : Nat := 0
  expireTimer : Nat := 0
  timestamp : Option Nat := none
  deriving DecidableEq, Repr

/-- `AttachmentPointer` as filled in. Code: protobuf/SignalService.proto:600-626. -/
structure WireAtt where
  cdnKey : Bytes
  cdnNr : Nat
  contentType : Bytes
  keys : Bytes
  digest : Bytes
  size : Nat
  fileName : Bytes
  flags : Option Nat
  deriving DecidableEq, Repr

/-- The `DataMessage` built for sending; `group` is the legacy group context (field `Group`, which no
statement sets). Code: protobuf/SignalService.proto:127-338; server.go:749-793. -/
structure WireData where
  timestamp : Nat
  body : Option Bytes
  expireTimer : Nat
  attachments : List WireAtt
  group : Option GroupV1Msg
  groupV2 : Option Bytes
  profileKey : Bytes
  flags : Nat
  deriving DecidableEq, Repr

/-- `createMessage` (server.go:749-793); `now` the clock, `profileKey` from the configuration.
`msg.group` is not used. -/
def createMessage (now : Nat) (profileKey : Bytes) (m : OutMsg) : WireData :=
  { timestamp := m.timestamp.getD now
    body := if m.msg = [] then none else some m.msg
    expireTimer := m.expireTimer
    attachments := match m.attachment with
      | none => []
      | some a => [{ cdnKey := a.cdnKey, cdnNr := a.cdnNr, contentType := a.contentType, keys := a.keys
                     digest := a.digest, size := a.size
                     fileName := if a.voiceNote then ascii "voice.mp3" else []
                     flags := if a.voiceNote then some 1 else none }]
    group := none
    groupV2 := m.groupV2
    profileKey := profileKey
    flags := m.flags }

/-- The content sent to the client's own devices (sender.go:42-51). -/
structure Transcript where
  destE164 : Option String
  destUuid : Option String
  timestamp : Nat
  message : WireData
  deriving DecidableEq, Repr

/-- Environment of one `sendMessage`. `marshal`, `marshalSync` are `proto.Marshal` of the `Content`.
Code: sender.go:13-64. -/
structure SendExt where
  now : Nat
  profileKey : Bytes
  marshal : WireData → Res Bytes
  marshalSync : Transcript → Res Bytes
  D : Nat → Nat → DevExt
  srv : Nat → Request → Reply
  D' : Nat → Nat → DevExt
  srv' : Nat → Request → Reply
  /-- `config.ConfigFile.UUID`, or `Tel` if that is empty -/
  self : String

/-- `sendSyncMessage` (sender.go:62-87): `resp.Timestamp` is read before the error is looked at, and
`resp` is nil when there was one. -/
def sendSync (P : Prims) (X : SendExt) (fuel : Nat) (t : Transcript) (s : State) : State × Option (Res Nat) :=
  let s := withDefault s X.self
  match X.marshalSync t with
  | .err e => (s, some (.err e))
  | .panic => (s, some .panic)
  | .ok b =>
    match sendLoop P X.D' X.srv' X.self (Files.padMessage b) t.timestamp fuel 0 s with
    | (s', none) => (s', none)
    | (s', some (.ok r)) => (s', some (.ok r.ts))
    | (s', some (.err _)) => (s', some .panic)
    | (s', some .panic) => (s', some .panic)

/-- `sendMessage` (sender.go:13-60). An error of the transcript is logged only. -/
def sendMessage (P : Prims) (X : SendExt) (fuel : Nat) (m : OutMsg) (s : State) : State × Option (Res Nat) :=
  let s := withDefault s m.destination
  let dm := createMessage X.now X.profileKey m
  match X.marshal dm with
  | .err e => (s, some (.err e))
  | .panic => (s, some .panic)
  | .ok b =>
    match sendLoop P X.D X.srv m.destination (Files.padMessage b) dm.timestamp fuel 0 s with
    | (s', none) => (s', none)
    | (s', some (.err e)) => (s', some (.err e))
    | (s', some .panic) => (s', some .panic)
    | (s', some (.ok r)) =>
      if r.needsSync = false then (s', some (.ok r.ts))
      else
        let plus := m.destination.toList.head? = some '+'
        let t : Transcript := ⟨if plus then some m.destination else none,
          if plus then none else some m.destination, dm.timestamp, dm⟩
        match sendSync P X fuel t s' with
        | (s'', none) => (s'', none)
        | (s'', some .panic) => (s'', some .panic)
        | (s'', some _) => (s'', some (.ok r.ts))

/-- `EndSession` (textsecure.go:185-203); `list` gives the files of the sessions directory. -/
def endSession (P : Prims) (X : SendExt) (fuel : Nat) (list : Store → List Name) (uuid : String) (msg : Bytes)
    (s : State) : State × Option (Res Nat) :=
  match sendMessage P X fuel { destination := uuid, msg := msg, flags := 1 } s with
  | (s', some (.ok ts)) =>
    (match Receive.recID uuid with
    | .ok clean => ({ s' with store := deleteAllSessions s'.store (list s'.store) clean }, some (.ok ts))
    | .err e => (s', some (.err e))
    | .panic => (s', some .panic))
  | r => r

end Verif.Send
