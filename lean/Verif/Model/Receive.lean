import Verif.Model.Outbox
import Verif.Model.Files
/-!
# The receive path

Models `StartListening` and the writer (websocket.go), `decryptReceivedMessage` … `handleReceivedMessage`
and `handleFlags` (textsecure.go:470-673), `handleMessage` and the handlers (handler.go), the incoming
half of sync.go, and `UpdateProfileKey` (contacts/contacts.go).

Everything outside the client (parsing of protocol buffers, downloads, the group server, crayfish, which
callbacks the application set, randomness, failing file writes) is an `Ext`; each incoming frame comes
with its own `Ext`, so theorems over lists of frames cover every behaviour of the environment.
Effects are recorded in a log.
-/
namespace Verif.Receive
open Verif Verif.Keys Verif.Messages Verif.Session Verif.Api Verif.Names

/-! ## Decoded messages -/

/-- `AttachmentPointer`: the key, and the address of the blob (`getAttachmentLocation`, attachments.go:222-231;
used by the download only). -/
structure AttPtr where
  key : Bytes
  location : Bytes
  deriving DecidableEq, Repr

/-- `signalservice.DataMessage`: the fields used by the client. Absent scalar fields read as zero
(protobuf getters) except `timestamp`, which is dereferenced. Quote, contact, sticker, reaction and the
group context are opaque. Code: protobuf/SignalService.proto:127-338. -/
structure DataMsg where
  body : Bytes := []
  attachments : List AttPtr := []
  flags : Nat := 0
  expireTimer : Nat := 0
  profileKey : Bytes := []
  timestamp : Option Nat := none
  group : Option Bytes := none
  quote : Option Bytes := none
  contact : Option Bytes := none
  sticker : Option Bytes := none
  reaction : Option Bytes := none
  deriving DecidableEq, Repr

/-- `SyncMessage_Sent`. Code: protobuf/SignalService.proto:426-448. -/
structure Sent where
  message : Option DataMsg := none
  destE164 : String := ""
  destUuid : String := ""
  deriving DecidableEq, Repr

/-- `SyncMessage`: `other` stands for the kinds after `verified`, none of which is acted on
(sync.go:46-78). -/
structure SyncMsg where
  sent : Option Sent := none
  contacts : Bool := false
  groups : Bool := false
  request : Option Nat := none
  read : List (String × Nat) := []
  blocked : Bool := false
  verified : Option Bytes := none
  other : Bool := false
  deriving DecidableEq, Repr

/-- `CallMessage`: which parts are present. Code: protobuf/SignalService.proto:54-125. -/
structure CallMsg where
  answer : Bool := false
  offer : Bool := false
  hangup : Bool := false
  busy : Bool := false
  legacyHangup : Bool := false
  iceUpdate : Bool := false
  deriving DecidableEq, Repr

/-- `ReceiptMessage`. Code: protobuf/SignalService.proto:344-353. -/
structure ReceiptMsg where
  type : Option Nat := none
  timestamps : List Nat := []
  deriving DecidableEq, Repr

/-- `Content`: any combination of parts may be present. Code: protobuf/SignalService.proto:42-52. -/
structure Content where
  data : Option DataMsg := none
  sync : Option SyncMsg := none
  call : Option CallMsg := none
  receipt : Option ReceiptMsg := none
  typing : Bool := false
  null : Bool := false
  deriving DecidableEq, Repr

/-- `Envelope`: `type` and `destinationUuid` are dereferenced, the others read through getters.
Code: protobuf/SignalService.proto:14-40. -/
structure Envelope where
  type : Option Nat := none
  sourceUuid : String := ""
  sourceDevice : Nat := 0
  timestamp : Nat := 0
  serverTimestamp : Nat := 0
  destinationUuid : Option String := none
  content : Option Bytes := none
  deriving DecidableEq, Repr

/-- `Message` (message.go), as passed to the application. Code: message.go:10-27. -/
structure AppMsg where
  source : String
  sourceUuid : String
  message : Bytes
  timestamp : Nat
  attachments : List Bytes := []
  group : Option Bytes := none
  flags : Nat := 0
  expireTimer : Nat := 0
  profileKey : Bytes := []
  quote : Option Bytes := none
  contact : Option Bytes := none
  sticker : Option Bytes := none
  reaction : Option Bytes := none
  deriving DecidableEq, Repr

/-! ## Effects and environment -/

/-- The internal handlers of handler.go:22-35. -/
inductive Kind where
  | data | sync | call | receipt | typing | null
  deriving DecidableEq, Repr

/-- Observable effects: application callbacks, acknowledgements, outgoing answers to sync messages.
`enter` marks the start of an internal handler. Code: handler.go:10-38; sync.go:18-83;
websocket.go:78-99. -/
inductive Ev where
  | enter (k : Kind)
  | onReceipt (uuid : String) (dev ts : Nat)
  | onMessage (m : AppMsg)
  | onReceiptMessage (m : AppMsg)
  | onTyping (m : AppMsg)
  | onSyncSent (m : AppMsg) (ts : Nat)
  | onSyncRead (uuid : String) (ts : Nat)
  | sendUpdate (type : Nat)
  | sendVerified (v : Bytes)
  | ack (id : Nat)
  deriving DecidableEq, Repr

/-- Which callbacks of `client` are non-nil. Code: textsecure.go:212-229. -/
structure Callbacks where
  receipt : Bool := true
  message : Bool := true
  receiptMessage : Bool := true
  typing : Bool := true
  syncSent : Bool := true
  syncRead : Bool := true
  deriving DecidableEq, Repr

/-- Environment of one frame. Code: websocket.go:144-229; textsecure.go:565-673. -/
structure Ext where
  signalingKey : Bytes
  parseEnvelope : Bytes → Option Envelope
  parseContent : Bytes → Option Content
  /-- download of an attachment (attachments.go:91-108) -/
  fetch : AttPtr → Res Bytes
  /-- `groupsv2.HandleGroupsV2` (incoming data) and `handleGroupsV2` (sync) as far as visible here -/
  groupsV2 : String → DataMsg → Res (Option Bytes)
  syncGroupsV2 : String → DataMsg → Res (Option Bytes)
  /-- `WriteContactsToPath` succeeds -/
  contactsOk : Bool := true
  /-- `sendContactUpdate`, `sendGroupUpdate`, and the verified answer (`Model/Answers`) -/
  sendUpdate : Nat → Send.State → Send.State × Res Unit
  sendVerified : Bytes → Send.State → Send.State × Res Unit
  /-- crayfish and base64: sender, timestamp, content (textsecure.go:640-650) -/
  crayfish : Envelope → Res (String × Nat × Bytes)
  /-- listing of the sessions directory -/
  list : Store → List Name
  cb : Callbacks := {}
  env : Env := {}
  rnd : Nat → Bytes
  /-- randomness of the legacy attempt -/
  rnd' : Nat → Bytes

/-- Client state: the stores, the profile keys of the contacts, the log, `deviceLists` (server.go:881), and the
requests made in answer to messages. -/
structure World where
  store : Store
  contacts : String → Option Bytes
  log : List Ev
  devices : String → Option (List Nat) := fun _ => none
  sent : List Send.Request := []

/-- A call that changes the world. Code: textsecure.go:565-673. -/
def M (α : Type) := World → World × Res α

/-- Sequences of calls; an error or a panic ends them. Code: textsecure.go:565-673. -/
instance : Monad M where
  pure a := fun w => (w, .ok a)
  bind x f := fun w => match x w with
    | (w', .ok a) => f a w'
    | (w', .err e) => (w', .err e)
    | (w', .panic) => (w', .panic)

namespace M
/-- An observable effect. Code: textsecure.go:212-229. -/
def emit (e : Ev) : M Unit := fun w => ({ w with log := w.log ++ [e] }, .ok ())
/-- A result without effect. Code: textsecure.go:565-673. -/
def lift (r : Res α) : M α := fun w => (w, r)
/-- A change of the stored state. Code: textsecure.go:565-673. -/
def update (f : World → World) : M Unit := fun w => (f w, .ok ())
/-- A call of the send path. Code: sync.go:155-212, 215-260. -/
def answer (f : Send.State → Send.State × Res Unit) : M Unit := fun w =>
  let r := f ⟨w.store, w.devices, w.sent⟩
  ({ w with store := r.1.store, devices := r.1.devices, sent := r.1.log }, r.2)
end M
open M

/-! ## Handlers -/

/-- `recID` (textsecure.go:477-486). -/
def recID (s : String) : Res String :=
  match s.toList with
  | [] => .err .other
  | '+' :: t => .ok (String.ofList t)
  | _ => .ok s

/-- `textSecureStore.DeleteAllSessions`. Code: store.go:451-457. -/
def deleteAll (X : Ext) (rec : String) : M Unit :=
  update fun w => { w with store := deleteAllSessions w.store (X.list w.store) rec }

/-- `UpdateProfileKey` (contacts/contacts.go:163-178): the map is changed even if writing the file
fails. -/
def updateProfileKey (X : Ext) (src : String) (k : Bytes) : M Unit := do
  update fun w => { w with contacts := fun s => if s = src then some k else w.contacts s }
  lift (if X.contactsOk then .ok () else .err .storeWrite)

/-- `handleFlags` (textsecure.go:494-513). -/
def handleFlags (X : Ext) (src : String) (dm : DataMsg) : M Nat :=
  if dm.flags = 1 then do
    let clean ← lift (recID src)
    deleteAll X clean
    deleteAll X src
    pure 1
  else if dm.flags = 4 then do
    updateProfileKey X src dm.profileKey
    pure 4
  else pure 0

/-- `*dm.Timestamp`. Code: handler.go:75-112. -/
def derefTs (dm : DataMsg) : M Nat := lift (match dm.timestamp with | some t => .ok t | none => .panic)

/-- A callback, if set. Code: textsecure.go:212-229. -/
def callback (set : Bool) (e : Ev) : M Unit := if set then emit e else pure ()

/-- `handleDataMessage` (handler.go:74-111). Attachments are passed on as their plaintexts; names and
mime types are not modelled. -/
def handleData (P : Prims) (X : Ext) (src uuid : String) (dm : DataMsg) : M Unit := do
  let flags ← handleFlags X uuid dm
  let atts ← lift (Files.handleAttachments P X.fetch AttPtr.key dm.attachments)
  let ts ← derefTs dm
  let gr ← lift (X.groupsV2 src dm)
  callback X.cb.message (.onMessage
    { source := src, sourceUuid := uuid, message := dm.body, attachments := atts, group := gr
      flags := flags, expireTimer := dm.expireTimer, profileKey := dm.profileKey, timestamp := ts
      quote := dm.quote, contact := dm.contact, sticker := dm.sticker, reaction := dm.reaction })

/-- `handleSyncSent` (sync.go:86-133). `HandleContacts` always returns nil (contacts/contacts.go:150-161). -/
def handleSyncSent (P : Prims) (X : Ext) (s : Sent) (ts : Nat) : M Unit :=
  match s.message with
  | none => lift (.err .handler)
  | some dm => do
    let flags ← handleFlags X s.destE164 dm
    let atts ← lift (Files.handleAttachments P X.fetch AttPtr.key dm.attachments)
    let gr ← lift (X.syncGroupsV2 s.destE164 dm)
    let t ← derefTs dm
    callback X.cb.syncSent (.onSyncSent
      { source := s.destE164, sourceUuid := s.destUuid, message := dm.body, attachments := atts
        group := gr, flags := flags, expireTimer := dm.expireTimer, profileKey := dm.profileKey
        timestamp := t, quote := dm.quote, contact := none, sticker := dm.sticker
        reaction := dm.reaction } ts)

/-- `handleSyncRequest` (sync.go:137-147): contacts 1, groups 2. -/
def handleSyncRequest (X : Ext) (t : Nat) : M Unit :=
  if t = 1 ∨ t = 2 then do
    emit (.sendUpdate t)
    answer (X.sendUpdate t)
  else pure ()

/-- `handleSyncRead` (sync.go:262-270). -/
def handleSyncRead (X : Ext) (l : List (String × Nat)) : M Unit :=
  update fun w => if X.cb.syncRead then { w with log := w.log ++ l.map (fun r => .onSyncRead r.1 r.2) }
                  else w

/-- `handleSyncMessage` (sync.go:18-82). -/
def handleSync (P : Prims) (X : Ext) (ts : Nat) (sm : SyncMsg) : M Unit :=
  match sm.sent with
  | some s => handleSyncSent P X s ts
  | none =>
    if sm.contacts then pure ()
    else if sm.groups then pure ()
    else match sm.request with
    | some t => handleSyncRequest X t
    | none =>
      if sm.read ≠ [] then handleSyncRead X sm.read
      else if sm.blocked then pure ()
      else match sm.verified with
      | some v => do
        emit (.sendVerified v)
        answer (X.sendVerified v)
      | none => pure ()

/-- `handleCallMessage` (handler.go:113-156). -/
def callText (c : CallMsg) : String :=
  "Call " ++ (if c.answer then "answer" else "") ++ (if c.offer then "offer" else "")
    ++ (if c.hangup then "hangup" else "") ++ (if c.busy then "busy" else "")
    ++ (if c.legacyHangup then "hangup" else "") ++ (if c.iceUpdate then "ring" else "")

/-- `handleCallMessage`. Code: handler.go:113-151. -/
def handleCall (X : Ext) (src uuid : String) (ts : Nat) (c : CallMsg) : M Unit :=
  callback X.cb.message (.onMessage
    { source := src, sourceUuid := uuid, message := ascii (callText c), timestamp := ts })

/-- `handleReceiptMessage` (handler.go:54-72): index 0 of the timestamps and `*cm.Type`. -/
def handleReceiptMsg (X : Ext) (src uuid : String) (r : ReceiptMsg) : M Unit :=
  match r.timestamps with
  | [] => lift .panic
  | t :: _ =>
    match r.type with
    | none => lift .panic
    | some ty =>
      let text := if ty = 1 then "readReceiptMessage" else if ty = 0 then "deliveryReceiptMessage"
                  else "sentReceiptMessage"
      callback X.cb.receiptMessage (.onReceiptMessage
        { source := src, sourceUuid := uuid, message := ascii text, timestamp := t })

/-- `handleTypingMessage` (handler.go:40-53). -/
def handleTyping (X : Ext) (src uuid : String) (ts : Nat) : M Unit :=
  callback X.cb.typing (.onTyping
    { source := src, sourceUuid := uuid, message := ascii "typingMessage", timestamp := ts })

/-- `handleMessage` after `proto.Unmarshal` (handler.go:21-39). -/
def dispatch (P : Prims) (X : Ext) (src uuid : String) (ts : Nat) (c : Content) : M Unit :=
  match c.data with
  | some dm => do emit (.enter .data); handleData P X src uuid dm
  | none => match c.sync with
    | some sm => do emit (.enter .sync); handleSync P X ts sm
    | none => match c.call with
      | some cm => do emit (.enter .call); handleCall X src uuid ts cm
      | none => match c.receipt with
        | some rm => do emit (.enter .receipt); handleReceiptMsg X src uuid rm
        | none =>
          if c.typing then do emit (.enter .typing); handleTyping X src uuid ts
          else if c.null then emit (.enter .null)
          else pure ()

/-- `handleMessage` (handler.go:11-39). -/
def handleMessage (P : Prims) (X : Ext) (src uuid : String) (ts : Nat) (b : Bytes) : M Unit :=
  match X.parseContent b with
  | none => lift (.err .badProto)
  | some c => dispatch P X src uuid ts c

/-! ## Envelopes -/

/-- A cipher call: its writes happen, its result is returned as a value (`err` is inspected by the
caller); only a panic propagates. Code: textsecure.go:565-673. -/
def cipher (o : World → Out Bytes) : M (Res Bytes) := fun w =>
  let r := o w
  ({ w with store := applyWrites w.store r.writes },
   match r.res with
   | .panic => .panic
   | x => .ok x)

/-- The address of the legacy attempt (textsecure.go:593-596). -/
def legacyId (s : String) : String :=
  match recID s with
  | .ok t => t
  | _ => s

/-- Case `CIPHERTEXT` (textsecure.go:575-612). The inner `err` of the legacy attempt shadows the outer
one, which stays `InvalidMessageError`: after the attempt the outer error is returned unless the inner
one was a duplicate. `InvalidMessageError` is what `decrypt` returns when no state accepts. -/
def handleCiphertext (P : Prims) (X : Ext) (env : Envelope) : M Unit :=
  match env.content with
  | none => lift (.err .other)
  | some msg => do
    let wm ← lift (loadWhisper msg)
    let r ← cipher fun w => decryptWhisper P X.env X.rnd w.store env.sourceUuid env.sourceDevice wm
    match r with
    | .panic => lift .panic
    | .err .duplicate => pure ()
    | .err .invalidMessage => do
      let r' ← cipher fun w =>
        decryptWhisper P X.env X.rnd' w.store (legacyId env.sourceUuid) env.sourceDevice wm
      match r' with
      | .err .duplicate => pure ()
      | _ => lift (.err .invalidMessage)
    | .err e => lift (.err e)
    | .ok b => handleMessage P X env.sourceUuid env.sourceUuid env.serverTimestamp (Files.stripPadding b)

/-- Case `PREKEY_BUNDLE` (textsecure.go:614-640). -/
def handlePreKey (P : Prims) (X : Ext) (env : Envelope) : M Unit := do
  let m ← lift (loadPreKeyMsg (env.content.getD []))
  let r ← cipher fun w => decryptPreKey P X.env X.rnd w.store env.sourceUuid env.sourceDevice m
  match r with
  | .panic => lift .panic
  | .err e =>
    if e = .duplicate ∨ e = .preKeyNotFound ∨ e = .invalidMessage then pure () else lift (.err e)
  | .ok b => handleMessage P X env.sourceUuid env.sourceUuid env.serverTimestamp (Files.stripPadding b)

/-- Case `UNIDENTIFIED_SENDER` (textsecure.go:641-667): `SignalingKey[0]`, `*env.DestinationUuid`. -/
def handleSealed (P : Prims) (X : Ext) (env : Envelope) : M Unit :=
  match X.signalingKey, env.destinationUuid with
  | [], _ => lift .panic
  | _, none => lift .panic
  | _, some _ => do
    let (sender, ts, content) ← lift (X.crayfish env)
    if content = [] then lift (.err .other)
    else handleMessage P X "" sender ts content

/-- `handleReceivedMessage` (textsecure.go:565-673); `none` is the nil envelope. -/
def handleReceived (P : Prims) (X : Ext) : Option Envelope → M Unit
  | none => lift .panic
  | some env =>
    match env.type with
    | none => lift .panic
    | some 5 => callback X.cb.receipt (.onReceipt env.sourceUuid env.sourceDevice env.timestamp)
    | some 1 => handleCiphertext P X env
    | some 3 => handlePreKey P X env
    | some 6 => handleSealed P X env
    | some _ => lift (.err .other)

/-! ## The listener (websocket.go:143-230) -/

/-- What `ReadMessage` and `Unmarshal` give: the connection failed, the frame is no
`WebSocketMessage`, or a message. A frame without request has id 0 and no body. Code:
websocket.go:144-229. -/
inductive Frame where
  | closed
  | garbage
  | msg (id : Nat) (body : Bytes)
  deriving DecidableEq, Repr

/-- Processing of a body (websocket.go:173-204): errors are only logged. The two cases of an empty body
differ in what they log. -/
def process (P : Prims) (X : Ext) (body : Bytes) : M Unit :=
  if body = [] then pure ()
  else match Files.decryptReceivedMessage P X.signalingKey body with
  | .panic => lift .panic
  | .err _ => pure ()
  | .ok pt => handleReceived P X (X.parseEnvelope pt)

/-- How listening ended. `waiting`: all given frames were consumed. Code: websocket.go:144-229. -/
inductive Ended where
  | waiting | closed | crashed
  deriving DecidableEq, Repr

/-- The loop. `sendAck` marshals a fixed message (cannot fail) and hands it to the writer. Code:
websocket.go:144-229. -/
def listen (P : Prims) : List (Ext × Frame) → World → World × Ended
  | [], w => (w, .waiting)
  | (X, f) :: fs, w =>
    match f with
    | .closed => (w, .closed)
    | .garbage => (w, .closed)
    | .msg id body =>
      match process P X body w with
      | (w', .panic) => (w', .crashed)
      | (w', _) => listen P fs { w' with log := w'.log ++ [.ack id] }

/-! ### The writer

`sendAck` pushes on a channel of capacity 256, from which `writeWorker` (websocket.go:107-140) takes
and writes, stopping at the first write error. The two goroutines are interleaved arbitrarily. -/

/-- State of the two goroutines: acknowledgements in the channel, on the wire, whether the writer still
runs; `w` and `done` (frames processed, with their ids) belong to the listener. Code:
websocket.go:144-229, 108-141. -/
structure Net where
  w : World
  done : List Nat
  queue : List Nat
  wire : List Nat
  writer : Bool

/-- Capacity of the channel (websocket.go:146). -/
def chanCap : Nat := 256

/-- One step of either goroutine. Listener: process the frame and push its acknowledgement; it is
blocked while the channel is full. Writer: write the first acknowledgement; or fail and stop. Pings do
not appear. Code: websocket.go:144-229, 108-141. -/
inductive NStep (P : Prims) : Net → Net → Prop
  | listener (n : Net) (X : Ext) (id : Nat) (body : Bytes) (w' : World) (r : Res Unit)
      (hp : process P X body n.w = (w', r)) (hr : r ≠ .panic) (hq : n.queue.length < chanCap) :
      NStep P n { n with w := w', done := n.done ++ [id], queue := n.queue ++ [id] }
  | write (n : Net) (id : Nat) (q : List Nat) (hw : n.writer = true) (hq : n.queue = id :: q) :
      NStep P n { n with queue := q, wire := n.wire ++ [id] }
  | fail (n : Net) (hw : n.writer = true) : NStep P n { n with writer := false }

/-- Executions. Code: websocket.go:144-229, 108-141. -/
inductive NRun (P : Prims) : Net → Net → Prop
  | refl (n : Net) : NRun P n n
  | step {a b c : Net} : NRun P a b → NStep P b c → NRun P a c

end Verif.Receive
