import Verif.Spec.Conversation
import Verif.Model.Send
import Verif.Model.Receive
import Verif.Model.Content
import Mathlib.Data.List.Forall2
/-!
# Specification of two clients and a server

Two whole clients: one calls `SendMessage`, the other listens on its websocket. The server accepts every
request, keeps the messages, and delivers any of them any number of times, in any order, or never. What the
applications should see is given by the abstract conversation `Conv.Abs`, which knows nothing of keys,
padding, base64, protocol buffers or files.
-/
namespace Verif.Content
open Verif Verif.Wire

/-! ## Messages that fit their Go types -/

/-- Numbers within the Go types; the group context is an encoded message; the whole is shorter than `2^59`
bytes. -/
structure Fits (d : Send.WireData) : Prop where
  timestamp : d.timestamp < 2 ^ 64
  flags : d.flags < u32
  expireTimer : d.expireTimer < u32
  atts : ∀ a ∈ d.attachments, a.size < u32 ∧ a.cdnNr < u32 ∧ ∀ f, a.flags = some f → f < u32
  group : ∀ g, d.groupV2 = some g → (decFields g).isSome
  size : (marshalData d).length < 2 ^ 59

/-- One character per byte. -/
def OneByte (s : String) : Prop := ∀ c ∈ s.toList, c.toNat < 256

structure FitsT (t : Send.Transcript) : Prop where
  message : Fits t.message
  timestamp : t.timestamp < 2 ^ 64
  e164 : ∀ s, t.destE164 = some s → OneByte s
  uuid : ∀ s, t.destUuid = some s → OneByte s
  size : (marshalSync t).length < 2 ^ 59

/-- What the other side should make of a data message: every field as sent, nothing else; the attachments
with their keys and the addresses under which the server keeps them. -/
def seen (d : Send.WireData) : Receive.DataMsg :=
  { body := d.body.getD []
    attachments := d.attachments.map (fun a => ⟨a.keys,
      Keys.ascii (if a.cdnNr = 2 then "https://cdn2.signal.org" else "https://cdn.signal.org") ++
        Keys.ascii "/attachments/" ++ a.cdnKey⟩)
    flags := d.flags, expireTimer := d.expireTimer, profileKey := d.profileKey, timestamp := some d.timestamp
    group := d.groupV2 }

/-- What one's own other devices should make of a transcript. -/
def seenSent (t : Send.Transcript) : Receive.Sent :=
  { message := some (seen t.message), destE164 := t.destE164.getD "", destUuid := t.destUuid.getD "" }

/-! ## What other clients write

Contents that this client only reads, written from SignalService.proto. -/

/-- A receipt: type and times. -/
def receiptBytes (ty : Nat) (ts : List Nat) : Bytes :=
  encFields [Record.sub 5 ((1, .varint ty) :: ts.map (fun t => (2, .varint t)))]

/-- The same with the times packed into one field. -/
def receiptPacked (ty : Nat) (ts : List Nat) : Bytes :=
  encFields [Record.sub 5 [(1, .varint ty), (2, .len (ts.map encVarint).flatten)]]

/-- What was read on another device of the user: sender and time of each message. -/
def readsBytes (l : List (String × Nat)) : Bytes :=
  encFields [Record.sub 2 (l.map (fun r => Record.sub 5 [(2, .varint r.2), (3, .len (Keys.ascii r.1))]))]

/-- A request for contacts (1), groups (2), … by another device of the user. -/
def requestBytes (ty : Nat) : Bytes := encFields [Record.sub 2 [Record.sub 4 [(1, .varint ty)]]]

/-- A call message with one part: 1 offer, 2 answer, 3 ICE, 4 hangup (old), 5 busy, 7 hangup. -/
def callBytes (part : Nat) (fs : List Field) : Bytes := encFields [Record.sub 3 [Record.sub part fs]]

/-- What this client should make of it. -/
def seenCall (part : Nat) : Receive.CallMsg :=
  { offer := decide (part = 1), answer := decide (part = 2), iceUpdate := decide (part = 3),
    legacyHangup := decide (part = 4), busy := decide (part = 5), hangup := decide (part = 7) }

/-- A typing notice. -/
def typingBytes (fs : List Field) : Bytes := encFields [Record.sub 6 fs]

/-- An attachment that the server names by a number. -/
structure ByNumber where
  cdnId : Nat
  keys : Bytes
  cdnNr : Nat

/-- Little-endian, eight bytes. -/
def le8 (n : Nat) : Bytes := (List.range 8).map (fun i => UInt8.ofNat (n / 256 ^ i))

/-- A data message with a quote, contacts, a sticker and a reaction (as bytes). -/
structure Foreign where
  body : Bytes
  atts : List ByNumber
  flags : Nat
  expireTimer : Nat
  profileKey : Bytes
  timestamp : Nat
  quote : Bytes
  contacts : List Bytes
  sticker : Bytes
  group : Bytes
  reaction : Bytes

def foreignFields (d : Foreign) : List Field :=
  [(1, .len d.body)] ++
    d.atts.map (fun a => Record.sub 2 [(1, .fixed64 (le8 a.cdnId)), (3, .len a.keys), (14, .varint a.cdnNr)]) ++
    [(4, .varint d.flags), (5, .varint d.expireTimer), (6, .len d.profileKey), (7, .varint d.timestamp),
     (8, .len d.quote)] ++ d.contacts.map (fun c => (9, .len c)) ++
    [(11, .len d.sticker), (15, .len d.group), (16, .len d.reaction)]

def foreignBytes (d : Foreign) : Bytes := encFields [Record.sub 1 (foreignFields d)]

structure FitsF (d : Foreign) : Prop where
  flags : d.flags < u32
  expireTimer : d.expireTimer < u32
  timestamp : d.timestamp < 2 ^ 64
  atts : ∀ a ∈ d.atts, 0 < a.cdnId ∧ a.cdnId < 2 ^ 64 ∧ a.cdnNr < u32
  quote : (decFields d.quote).isSome
  contacts : ∀ c ∈ d.contacts, (decFields c).isSome
  sticker : (decFields d.sticker).isSome
  group : (decFields d.group).isSome
  reaction : (decFields d.reaction).isSome
  size : (foreignBytes d).length < 2 ^ 64

/-- What this client should make of it. -/
def seenForeign (d : Foreign) : Receive.DataMsg :=
  { body := d.body
    attachments := d.atts.map (fun a => ⟨a.keys,
      Keys.ascii (if a.cdnNr = 2 then "https://cdn2.signal.org" else "https://cdn.signal.org") ++
        Keys.ascii "/attachments/" ++ Keys.ascii (toString a.cdnId)⟩)
    flags := d.flags, expireTimer := d.expireTimer, profileKey := d.profileKey, timestamp := some d.timestamp
    group := some d.group, quote := some d.quote
    contact := if d.contacts = [] then none else some (encFields (d.contacts.map (fun c => (9, .len c))))
    sticker := some d.sticker, reaction := some d.reaction }

end Verif.Content

namespace Verif.Clients
open Verif Verif.Keys Verif.Session Verif.Api Verif.Conv

/-- A client between calls: the state of the send path (which holds the stores) and the contacts. -/
structure Client where
  send : Send.State
  contacts : String → Option Bytes

/-- Two devices, the initiator and the responder, their numbers among the devices of their accounts, and what the
server has accepted from one for the other: sent by the responder?, message. -/
structure Pair where
  I : Client
  R : Client
  wire : List (Bool × Send.JMsg)
  devI : Nat
  devR : Nat

def Pair.client (w : Pair) (responder : Bool) : Client := if responder then w.R else w.I

/-- An event of the schedule. -/
inductive CEv where
  /-- The application of the initiator (`false`) or of the responder (`true`) sends `m`. -/
  | send (responder : Bool) (X : Send.SendExt) (m : Send.OutMsg)
  /-- The server delivers message number `i` as frame `id` with body `body`; `atts` and `g` are what the
  attachment server and the group server have for it. -/
  | deliver (i : Nat) (X : Receive.Ext) (id : Nat) (body : Bytes) (atts : List Bytes) (g : Option Bytes)
  /-- The initiator or the responder does something else, after which it is as `c`. -/
  | other (responder : Bool) (c : Client)

/-- What an event yields: the result of `SendMessage`, or everything the application was told and how
listening goes on. -/
inductive COut where
  | sent (r : Option (Res Nat))
  | nothing
  | told (evs : List Receive.Ev) (e : Receive.Ended)

/-- The recipient's side of a frame. -/
def hear (P : Prims) (c : Client) (X : Receive.Ext) (id : Nat) (body : Bytes) : Client × COut :=
  let r := Receive.listen P [(X, .msg id body)] ⟨c.send.store, c.contacts, [], c.send.devices, c.send.log⟩
  (⟨⟨r.1.store, r.1.devices, r.1.sent⟩, r.1.contacts⟩, .told r.1.log r.2)

/-- The messages for device `dev` of `name` in the requests made since `old`. -/
def newMsgs (name : String) (dev : Nat) (old new : List Send.Request) : List Send.JMsg :=
  (new.drop old.length).flatMap (fun r => if r.dest = name then r.msgs.filter (fun j => j.dev = dev) else [])

/-- One event. -/
def Pair.step (P : Prims) (w : Pair) : CEv → Pair × COut
  | .send false X m =>
    let r := Send.sendMessage P X 2 m w.I.send
    ({ w with I := { w.I with send := r.1 }
              wire := w.wire ++ (newMsgs m.destination w.devR w.I.send.log r.1.log).map (fun j => (false, j)) },
     .sent r.2)
  | .send true X m =>
    let r := Send.sendMessage P X 2 m w.R.send
    ({ w with R := { w.R with send := r.1 }
              wire := w.wire ++ (newMsgs m.destination w.devI w.R.send.log r.1.log).map (fun j => (true, j)) },
     .sent r.2)
  | .deliver i X id body _ _ => match w.wire[i]? with
    | none => (w, .nothing)
    | some (false, _) => let r := hear P w.R X id body; ({ w with R := r.1 }, r.2)
    | some (true, _) => let r := hear P w.I X id body; ({ w with I := r.1 }, r.2)
  | .other false c => ({ w with I := c }, .nothing)
  | .other true c => ({ w with R := c }, .nothing)

def Pair.outs (P : Prims) : Pair → List CEv → List COut
  | _, [] => []
  | w, ev :: evs => (w.step P ev).2 :: Pair.outs P (w.step P ev).1 evs

/-! ## The server's side of the wire -/

/-- The envelope the server makes of a message (the server is not part of this code). -/
def envelopeBytes (type dev ts sts : Nat) (name : String) (content : Bytes) : Bytes :=
  Wire.encFields [(1, .varint type), (5, .varint ts), (7, .varint dev), (8, .len content), (10, .varint sts),
    (11, .len (ascii name))]

/-- The frame it sends. -/
def frameBytes (id : Nat) (body : Bytes) : Bytes :=
  Wire.encFields [(1, .varint 1), Record.sub 2 [(1, .len (ascii "PUT")), (2, .len (ascii "/api/v1/message")),
    (3, .len body), (4, .varint id)]]

/-- What it reads in an acknowledgement: the type of the message, and of the response the id, the status and
the message. -/
def readAck (b : Bytes) : Option (Nat × Nat × Nat × Bytes) := do
  let fs ← Wire.decFields b
  let r ← Record.subOne fs 3
  let r := r.getD []
  some ((Wire.getU32 fs 1).getD 0, (Content.getU64 r 1).getD 0, (Wire.getU32 r 2).getD 0, Record.bytesOr r 3)

/-! ## What the applications should see -/

/-- The abstract conversation, and what was said: the message and its encoding. -/
structure Sight where
  abs : Abs := {}
  said : List (Send.WireData × Bytes) := []

/-- The encoding of `d`. -/
def encoded (X : Send.SendExt) (d : Send.WireData) : Bytes :=
  match X.marshal d with
  | .ok b => b
  | _ => []

def Sight.step (s : Sight) : CEv → Sight
  | .send who X m =>
    let d := Send.createMessage X.now X.profileKey m
    ⟨s.abs.step (.send who (Files.padMessage (encoded X d))), s.said ++ [(d, encoded X d)]⟩
  | .deliver i X _ _ _ _ => ⟨s.abs.step (.deliver i X.rnd), s.said⟩
  | .other _ _ => s

/-- What the application of `name`'s peer is shown of `d` (of the flags, the end of a session and a new profile key). -/
def shown (name : String) (d : Send.WireData) (atts : List Bytes) (g : Option Bytes) : Receive.AppMsg :=
  { source := name, sourceUuid := name, message := d.body.getD [], timestamp := d.timestamp
    attachments := atts, group := g, flags := if d.flags = 1 ∨ d.flags = 4 then d.flags else 0, expireTimer := d.expireTimer, profileKey := d.profileKey }

inductive CWant where
  /-- sent, with this timestamp -/
  | sent (ts : Nat)
  | nothing
  /-- shown to the application, and acknowledged -/
  | shown (m : Receive.AppMsg) (id : Nat)
  /-- acknowledged only -/
  | silent (id : Nat)
  /-- shown to nobody (the epoch is older than the receiver remembers) -/
  | stale (id : Nat)

/-- The address of the sender of a message of the initiator (`false`) or responder (`true`). -/
def senderName (S : Setup) (who : Bool) : String := if who then S.nameR else S.nameI
def senderDev (S : Setup) (who : Bool) : Nat := if who then S.devR else S.devI

def Sight.want (S : Setup) (s : Sight) : CEv → CWant
  | .send _ X m => .sent (Send.createMessage X.now X.profileKey m).timestamp
  | .deliver i _ id _ atts g => match s.abs.log[i]?, s.said[i]? with
    | some m, some d => match s.abs.expect m with
      | .accept => .shown (shown (senderName S (decide (m.epoch % 2 = 0))) d.1 atts g) id
      | .refuse => .silent id
      | .stale => .stale id
    | _, _ => .nothing
  | .other _ _ => .nothing

def wants (S : Setup) : Sight → List CEv → List CWant
  | _, [] => []
  | s, ev :: evs => s.want S ev :: wants S (s.step ev) evs

def CAgree : CWant → COut → Prop
  | .sent ts, .sent r => r = some (.ok ts)
  | .nothing, .nothing => True
  | .shown m id, .told evs e => evs = [.enter .data, .onMessage m, .ack id] ∧ e = .waiting
  | .silent id, .told evs e => evs = [.ack id] ∧ e = .waiting
  | .stale id, .told evs _ => ∀ x ∈ evs, x = .ack id
  | _, _ => False

/-! ## Schedules considered -/

/-- What the receiver's parser should make of a data message as sent (`loc` is what the client keeps of
where an attachment is). -/
def view (loc : Send.WireAtt → Bytes) (d : Send.WireData) : Receive.DataMsg :=
  { body := d.body.getD [], attachments := d.attachments.map (fun a => ⟨a.keys, loc a⟩), flags := d.flags
    expireTimer := d.expireTimer, profileKey := d.profileKey, timestamp := some d.timestamp
    group := d.groupV2 }

/-- What a conversation with device `dev` of `n`, whose identity key is `k`, rests on is the same in the store `b` as
in `a`: the session, that the key is trusted, that it is the saved one, and the own identity. -/
structure Apart (n : String) (dev : Nat) (k : Bytes) (a b : Store) : Prop where
  session : b.sessions (Names.sessName n dev) = a.sessions (Names.sessName n dev)
  trust : isTrusted a n k = true → isTrusted b n k = true
  saved : a.identities n = .key k → b.identities n = .key k
  identity : b.identity = a.identity
  regId : b.regId = a.regId

/-- The identity key of the initiator (`false`) or responder (`true`). -/
def senderKey (S : Setup) (who : Bool) : Bytes := if who then S.idR.pub else S.idI.pub

/-- The devices that the client knows of the account `n`: by default there is the first one. -/
def Client.devs (c : Client) (n : String) : List Nat := (c.send.devices n).getD [1]

/-- Something else that `who` does, to others or with others: of the conversation, nothing changes, and the peer's
device is still known; the responder still has the prekeys that the initiator is given. -/
structure OtherOk (S : Setup) (w : Pair) (who : Bool) (c : Client) : Prop where
  apart : Apart (senderName S (!who)) (senderDev S (!who)) (senderKey S (!who)) (w.client who).send.store c.send.store
  known : senderDev S (!who) ∈ c.devs (senderName S (!who)) ∧ (c.devs (senderName S (!who))).Nodup
  keys : who = true → (∀ k, S.opk = some k → c.send.store.preKeys S.pkId = w.R.send.store.preKeys S.pkId) ∧
    c.send.store.signedPreKeys S.spkId = w.R.send.store.signedPreKeys S.spkId

/-- The call finds the peer's device: either it is the only device of the peer and there are no linked devices, or the
call succeeds (which depends also on the other devices). -/
def Reaches (P : Prims) (S : Setup) (w : Pair) (who : Bool) (X : Send.SendExt) (m : Send.OutMsg) : Prop :=
  ((w.client who).devs m.destination = [senderDev S (!who)] ∧ ∀ r, X.srv 0 r = .ok false) ∨
  ∃ ts, (Send.sendMessage P X 2 m (w.client who).send).2 = some (.ok ts)

/-- A send: any message for the peer; encoding succeeds; the server accepts. The first send of all
asks for prekeys and is given the responder's bundle; `S.rb` and `S.rr` are the random bytes it draws. Bundles of
other devices of the peer are of its account; the client's own linked devices are devices of another account. -/
structure SendOk (P : Prims) (S : Setup) (s : Sight) (w : Pair) (who : Bool) (X : Send.SendExt) (m : Send.OutMsg) :
    Prop where
  dest : m.destination = senderName S (!who)
  enc : ∃ b, X.marshal (Send.createMessage X.now X.profileKey m) = .ok b ∧ b.length < 2 ^ 59
  env : ∀ i, (X.D 0 i).env = {}
  srv : ∀ r, ∃ linked, X.srv 0 r = .ok linked
  first : s.said = [] → ∀ i, ((w.client who).devs m.destination)[i]? = some S.devR →
    (X.D 0 i).rb = S.rb ∧ (X.D 0 i).rr = S.rr ∧
    ∃ r, (X.D 0 i).prekeys S.devR = .ok r ∧ Send.makeBundle r = .ok (S.devR, S.bundle)
  session : who = true → s.abs.lvR ≠ 0
  others : ∀ i d, ((w.client who).devs m.destination)[i]? = some d → d ≠ senderDev S (!who) →
    ∀ r bd b, (X.D 0 i).prekeys d = .ok r → Send.makeBundle r = .ok (bd, b) →
      bd = d ∧ b.identityKey = senderKey S (!who)
  self : Send.recidOf X.self ≠ m.destination
  reaches : Reaches P S w who X m

/-- A delivery: the body is (as `decryptReceivedMessage` sees it) an envelope that names the sender and
holds the message that the server accepted; the receiver's parser undoes the sender's encoding; the
attachments and the group can be fetched; file writes succeed; fresh randomness. -/
structure DeliverOk (P : Prims) (S : Setup) (loc : Send.WireAtt → Bytes) (s : Sight) (w : Pair) (i : Nat)
    (X : Receive.Ext) (body : Bytes) (atts : List Bytes) (g : Option Bytes) : Prop where
  env : X.env = {}
  rnd : (X.rnd 0).length = 32 ∧ (X.rnd' 0).length = 32
  cb : X.cb.message = true
  contacts : X.contactsOk = true
  carried : ∀ who j, w.wire[i]? = some (who, j) → body ≠ [] ∧ ∃ pt e,
    Files.decryptReceivedMessage P X.signalingKey body = .ok pt ∧ X.parseEnvelope pt = some e ∧
    e.type = some j.type ∧ e.sourceUuid = senderName S who ∧ e.sourceDevice = senderDev S who ∧
    e.content = Encoding.b64Quanta j.content
  parsed : ∀ d, s.said[i]? = some d → X.parseContent d.2 = some { data := some (view loc d.1) } ∧
    Files.handleAttachments P X.fetch Receive.AttPtr.key (view loc d.1).attachments = .ok atts ∧
    ∀ src, X.groupsV2 src (view loc d.1) = .ok g

/-- Message `i` is not the end of the session (see `Pair.reset` for that). -/
def Sight.GoesOn (s : Sight) (i : Nat) : Prop := ∀ d, s.said[i]? = some d → d.1.flags ≠ 1

def CEv.Ok (P : Prims) (S : Setup) (loc : Send.WireAtt → Bytes) (s : Sight) (w : Pair) : CEv → Prop
  | .send who X m => SendOk P S s w who X m
  | .deliver i X _ body atts g => DeliverOk P S loc s w i X body atts g ∧ s.GoesOn i
  | .other who c => OtherOk S w who c

/-- No stale message happens to authenticate (`Conv.NoForgery`), neither at the first attempt nor at the
second one that `handleReceivedMessage` makes after a failure. -/
def CEv.NoForgery (P : Prims) (S : Setup) (s : Sight) (w : Pair) : CEv → Prop
  | .send _ _ _ => True
  | .other _ _ => True
  | .deliver i X _ _ _ _ => s.abs.want (.deliver i X.rnd) = .stale → ∀ who j b ty, w.wire[i]? = some (who, j) →
      Encoding.b64Quanta j.content = some b → j.type = Send.typeNum ty →
      let st := (if who then w.I else w.R).send.store
      let o := receive P X.rnd st (senderName S who) (senderDev S who) b ty
      (∀ pt, o.res ≠ .ok pt) ∧
      ∀ pt, (receive P X.rnd' (applyWrites st o.writes) (senderName S who) (senderDev S who) b ty).res ≠ .ok pt

/-- Every event is one of those considered, at the time it happens. -/
def Ok (P : Prims) (S : Setup) (loc : Send.WireAtt → Bytes) : Sight → Pair → List CEv → Prop
  | _, _, [] => True
  | s, w, ev :: evs => ev.Ok P S loc s w ∧ ev.NoForgery P S s w ∧ Ok P S loc (s.step ev) (w.step P ev).1 evs

/-- The ratchet keys that may be drawn. -/
def keysOf (P : Prims) (evs : List CEv) : List Bytes :=
  evs.flatMap (fun ev => match ev with
    | .deliver _ X _ _ _ _ => [(newPair P (X.rnd 0)).pub, (newPair P (X.rnd' 0)).pub]
    | _ => [])

/-- The parties address each other by ids without leading `+`, and know each other's device. -/
structure Peers (S : Setup) (w : Pair) : Prop where
  nameI : S.nameI ≠ "" ∧ S.nameI.toList.head? ≠ some '+'
  nameR : S.nameR ≠ "" ∧ S.nameR.toList.head? ≠ some '+'
  storeI : w.I.send.store = S.initiator
  storeR : w.R.send.store = S.responder
  devR : S.devR ∈ w.I.devs S.nameR ∧ (w.I.devs S.nameR).Nodup
  devI : S.devI ∈ w.R.devs S.nameI ∧ (w.R.devs S.nameI).Nodup
  wire : w.wire = []
  numI : w.devI = S.devI
  numR : w.devR = S.devR

/-! ## The encodings of the code

The conditions above with the encodings filled in: nothing is assumed about parsing. -/

structure SendReal (P : Prims) (S : Setup) (s : Sight) (w : Pair) (who : Bool) (X : Send.SendExt) (m : Send.OutMsg) :
    Prop where
  dest : m.destination = senderName S (!who)
  marshal : X.marshal = fun d => .ok (Content.marshalData d)
  fits : Content.Fits (Send.createMessage X.now X.profileKey m)
  env : ∀ i, (X.D 0 i).env = {}
  srv : ∀ r, ∃ linked, X.srv 0 r = .ok linked
  first : s.said = [] → ∀ i, ((w.client who).devs m.destination)[i]? = some S.devR →
    (X.D 0 i).rb = S.rb ∧ (X.D 0 i).rr = S.rr ∧
    ∃ r, (X.D 0 i).prekeys S.devR = .ok r ∧ Send.makeBundle r = .ok (S.devR, S.bundle)
  session : who = true → s.abs.lvR ≠ 0
  others : ∀ i d, ((w.client who).devs m.destination)[i]? = some d → d ≠ senderDev S (!who) →
    ∀ r bd b, (X.D 0 i).prekeys d = .ok r → Send.makeBundle r = .ok (bd, b) →
      bd = d ∧ b.identityKey = senderKey S (!who)
  self : Send.recidOf X.self ≠ m.destination
  reaches : Reaches P S w who X m

/-- Addresses that can be written into an envelope. -/
structure Addresses (S : Setup) : Prop where
  nameI : Content.OneByte S.nameI
  nameR : Content.OneByte S.nameR
  devI : S.devI < u32
  devR : S.devR < u32

/-- The server has, under the address in the pointer, the blob that the sender uploaded for `p`. -/
def Stored (P : Prims) (X : Receive.Ext) (a : Receive.AttPtr) (p : Bytes) : Prop :=
  ∃ iv u, a.key.length = 64 ∧ iv.length = 16 ∧ Files.uploadAttachment P a.key iv p = .ok u ∧ X.fetch a = .ok u.blob

structure DeliverReal (P : Prims) (S : Setup) (s : Sight) (w : Pair) (i : Nat)
    (X : Receive.Ext) (body : Bytes) (atts : List Bytes) (g : Option Bytes) : Prop where
  env : X.env = {}
  rnd : (X.rnd 0).length = 32 ∧ (X.rnd' 0).length = 32
  cb : X.cb.message = true
  contacts : X.contactsOk = true
  parseEnvelope : X.parseEnvelope = Content.parseEnvelope
  parseContent : X.parseContent = Content.parseContent
  carried : ∀ who j, w.wire[i]? = some (who, j) → body ≠ [] ∧ ∃ ts sts c,
    Encoding.b64Quanta j.content = some c ∧ j.type < u32 ∧ ts < 2 ^ 64 ∧ sts < 2 ^ 64 ∧
    (envelopeBytes j.type (senderDev S who) ts sts (senderName S who) c).length < 2 ^ 64 ∧
    Files.decryptReceivedMessage P X.signalingKey body =
      .ok (envelopeBytes j.type (senderDev S who) ts sts (senderName S who) c)
  stored : ∀ d, s.said[i]? = some d → List.Forall₂ (Stored P X) (Content.seen d.1).attachments atts
  group : ∀ d, s.said[i]? = some d → ∀ src, X.groupsV2 src (Content.seen d.1) = .ok g

def CEv.Real (P : Prims) (S : Setup) (s : Sight) (w : Pair) : CEv → Prop
  | .send who X m => SendReal P S s w who X m
  | .deliver i X _ body atts g => DeliverReal P S s w i X body atts g ∧ s.GoesOn i
  | .other who c => OtherOk S w who c

def Real (P : Prims) (S : Setup) : Sight → Pair → List CEv → Prop
  | _, _, [] => True
  | s, w, ev :: evs => ev.Real P S s w ∧ ev.NoForgery P S s w ∧ Real P S (s.step ev) (w.step P ev).1 evs

/-- The body of a frame is an envelope of a message of `who` with ciphertext `b`. -/
structure Heard (P : Prims) (S : Setup) (X : Receive.Ext) (who : Bool) (b : Bytes) (ty : MsgType)
    (body : Bytes) : Prop where
  env : X.env = {}
  name : Receive.recID (senderName S who) = .ok (senderName S who)
  carried : body ≠ [] ∧ ∃ pt e, Files.decryptReceivedMessage P X.signalingKey body = .ok pt ∧
    X.parseEnvelope pt = some e ∧ e.type = some (Send.typeNum ty) ∧ e.sourceUuid = senderName S who ∧
    e.sourceDevice = senderDev S who ∧ e.content = some b

/-! ## Frames of others -/

/-- The envelope of a frame. -/
def Carries (P : Prims) (X : Receive.Ext) (body : Bytes) (e : Receive.Envelope) : Prop :=
  ∃ pt, Files.decryptReceivedMessage P X.signalingKey body = .ok pt ∧ X.parseEnvelope pt = some e

/-- The content of a frame, decrypted with the sessions of `st`, is `b`, sent by `uuid`. -/
def Plain (P : Prims) (X : Receive.Ext) (st : Store) (body : Bytes) (uuid : String) (b : Bytes) : Prop :=
  ∃ e, Carries P X body e ∧
    ((e.type = some 1 ∧ uuid = e.sourceUuid ∧ ∃ msg wm p, e.content = some msg ∧ Messages.loadWhisper msg = .ok wm ∧
        (decryptWhisper P X.env X.rnd st e.sourceUuid e.sourceDevice wm).res = .ok p ∧ b = Files.stripPadding p) ∨
     (e.type = some 3 ∧ uuid = e.sourceUuid ∧ ∃ m p, Messages.loadPreKeyMsg (e.content.getD []) = .ok m ∧
        (decryptPreKey P X.env X.rnd st e.sourceUuid e.sourceDevice m).res = .ok p ∧ b = Files.stripPadding p) ∨
     (e.type = some 6 ∧ ∃ ts, X.crayfish e = .ok (uuid, ts, b)))

/-- The content, sent by `uuid`, tells to end the session with `peer`: the sender's own one, or, in a transcript, one
with the recipient it names. -/
def Ends (uuid : String) (c : Receive.Content) (peer : String) : Prop :=
  (∃ dm, c.data = some dm ∧ dm.flags = 1 ∧ peer = uuid) ∨
  (c.data = none ∧ ∃ sm s dm, c.sync = some sm ∧ sm.sent = some s ∧ s.message = some dm ∧ dm.flags = 1 ∧
    peer = s.destE164)

/-- `s` is an address of the account `n`. -/
def AddressOf (s n : String) : Prop := s = n ∨ s = "+" ++ n

/-- The call does nothing but write to `dest`, as far as the state is concerned. -/
def Writes (P : Prims) (dest : String) (f : Send.State → Send.State × Res Unit) : Prop :=
  ∀ s, (f s).1 = s ∨ ∃ D srv pt ts fuel, (f s).1 = (Send.sendLoop P D srv dest pt ts fuel 0 (Send.withDefault s dest)).1

/-- The call writes to another account than `n`. -/
def Away (P : Prims) (n : String) (f : Send.State → Send.State × Res Unit) : Prop :=
  ∃ dest, ¬ AddressOf dest n ∧ Writes P dest f

/-- What the client is asked to send when it gets the content. -/
def Answers (X : Receive.Ext) (c : Receive.Content) (f : Send.State → Send.State × Res Unit) : Prop :=
  c.data = none ∧ ∃ sm, c.sync = some sm ∧
    ((∃ t, sm.request = some t ∧ f = X.sendUpdate t) ∨ ∃ v, sm.verified = some v ∧ f = X.sendVerified v)

/-- The frame does not concern the conversation with device `dev` of `n`: it comes from another device, does not
present another identity key of `n`, does not use up the prekey `pk`, does not tell to end the session, and does not
ask to write to `n`. -/
structure Elsewhere (P : Prims) (n : String) (dev : Nat) (k : Bytes) (pk : Option Nat) (X : Receive.Ext) (st : Store)
    (body : Bytes) : Prop where
  whisper : ∀ e, Carries P X body e → e.type = some 1 → e.sourceDevice ≠ dev ∨ ¬ AddressOf e.sourceUuid n
  prekey : ∀ e m, Carries P X body e → e.type = some 3 → Messages.loadPreKeyMsg (e.content.getD []) = .ok m →
    (e.sourceUuid ≠ n ∨ (e.sourceDevice ≠ dev ∧ m.identityKey = k)) ∧
    ∀ i, pk = some i → m.preKeyId ≠ i ∨ i = 0xFFFFFF
  ends : ∀ uuid b c peer, Plain P X st body uuid b → X.parseContent b = some c → Ends uuid c peer → ¬ AddressOf peer n
  answers : ∀ uuid b c f, Plain P X st body uuid b → X.parseContent b = some c → Answers X c f → Away P n f

/-- The sessions directory is finite. -/
def Few (st : Store) : Prop := ∃ l : List Names.Name, ∀ n, st.sessions n ≠ .absent → n ∈ l

/-- `list` gives the files of any sessions directory. -/
def Lister (list : Store → List Names.Name) : Prop := ∀ st, Few st → Listing st (list st)

/-- Other things a client does: sending to others (and so, transcripts to its own devices), ending sessions with
others, receiving anything else. -/
inductive Act where
  | send (X : Send.SendExt) (fuel : Nat) (m : Send.OutMsg)
  | endSession (X : Send.SendExt) (fuel : Nat) (list : Store → List Names.Name) (uuid : String) (msg : Bytes)
  | hear (X : Receive.Ext) (id : Nat) (body : Bytes)

def Act.run (P : Prims) (c : Client) : Act → Client
  | .send X fuel m => { c with send := (Send.sendMessage P X fuel m c.send).1 }
  | .endSession X fuel list uuid msg => { c with send := (Send.endSession P X fuel list uuid msg c.send).1 }
  | .hear X id body => (Clients.hear P c X id body).1

/-- It is with others than `n` (or with other devices of theirs). -/
def Act.Apart (P : Prims) (n : String) (dev : Nat) (k : Bytes) (pk : Option Nat) (c : Client) : Act → Prop
  | .send X _ m => ¬ AddressOf m.destination n ∧ ¬ AddressOf X.self n
  | .endSession X _ _ uuid _ => ¬ AddressOf uuid n ∧ ¬ AddressOf X.self n
  | .hear X _ body => Elsewhere P n dev k pk X c.send.store body

/-- A schedule of a conversation and of other acts of the two clients. -/
inductive FEv where
  | talk (ev : CEv)
  | does (who : Bool) (a : Act)

def FEv.step (P : Prims) (w : Pair) : FEv → Pair × COut
  | .talk ev => w.step P ev
  | .does false a => ({ w with I := a.run P w.I }, .nothing)
  | .does true a => ({ w with R := a.run P w.R }, .nothing)

def FEv.outs (P : Prims) (w : Pair) : List FEv → List COut
  | [] => []
  | ev :: evs => (ev.step P w).2 :: FEv.outs P (ev.step P w).1 evs

/-- What is expected: acts of the other kind count for nothing. -/
def FEv.sight (s : Sight) : FEv → Sight
  | .talk ev => s.step ev
  | .does _ _ => s

def FEv.wants (S : Setup) (s : Sight) : List FEv → List CWant
  | [] => []
  | .talk ev :: evs => s.want S ev :: FEv.wants S (s.step ev) evs
  | .does _ _ :: evs => .nothing :: FEv.wants S s evs

def FEv.Real (P : Prims) (S : Setup) : Sight → Pair → List FEv → Prop
  | _, _, [] => True
  | s, w, .talk ev :: evs =>
    ev.Real P S s w ∧ ev.NoForgery P S s w ∧ FEv.Real P S (s.step ev) (w.step P ev).1 evs
  | s, w, .does who a :: evs =>
    a.Apart P (senderName S (!who)) (senderDev S (!who)) (senderKey S (!who)) (if who then some S.pkId else none)
      (w.client who) ∧ FEv.Real P S s (FEv.step P w (.does who a)).1 evs

/-- The ratchet keys that may be drawn in the conversation. -/
def FEv.keysOf (P : Prims) (evs : List FEv) : List Bytes :=
  evs.flatMap (fun ev => match ev with
    | .talk ev => Clients.keysOf P [ev]
    | .does _ _ => [])

/-! ## Ending a session -/

/-- After a schedule. -/
def Sight.run (s : Sight) (evs : List CEv) : Sight := evs.foldl Sight.step s
def Pair.run (P : Prims) (w : Pair) (evs : List CEv) : Pair := evs.foldl (fun w ev => (w.step P ev).1) w

/-- One of the two calls `EndSession`. -/
def Pair.reset (P : Prims) (w : Pair) (responder : Bool) (X : Send.SendExt) (list : Store → List Names.Name)
    (peer : String) (msg : Bytes) : Pair × Option (Res Nat) :=
  if responder then
    let r := Send.endSession P X 2 list peer msg w.R.send
    ({ w with R := { w.R with send := r.1 }
              wire := w.wire ++ (newMsgs peer w.devI w.R.send.log r.1.log).map (fun j => (true, j)) }, r.2)
  else
    let r := Send.endSession P X 2 list peer msg w.I.send
    ({ w with I := { w.I with send := r.1 }
              wire := w.wire ++ (newMsgs peer w.devR w.I.send.log r.1.log).map (fun j => (false, j)) }, r.2)

/-- `list` gives the files of the sessions directory, whether or not the one of `extra` is added and whichever of
them are removed. -/
def Lists (list : Store → List Names.Name) (st : Store) (extra : Names.Name) : Prop :=
  ∀ st', (∀ n, st'.sessions n ≠ .absent → st.sessions n ≠ .absent ∨ n = extra) → Listing st' (list st')

/-- The end of a conversation: `EndSession` by the initiator (`false`) or the responder (`true`), and the delivery of
the message it sends. -/
structure Ending where
  who : Bool
  X : Send.SendExt
  list : Store → List Names.Name
  msg : Bytes
  Y : Receive.Ext
  id : Nat
  body : Bytes
  atts : List Bytes
  g : Option Bytes

/-- The message that is sent. -/
def Ending.message (S : Setup) (e : Ending) : Send.OutMsg :=
  { destination := senderName S (!e.who), msg := e.msg, flags := 1 }

def Ending.sending (S : Setup) (e : Ending) : CEv := .send e.who e.X (e.message S)

/-- It is the next message that the server has. -/
def Ending.delivery (w : Pair) (e : Ending) : CEv := .deliver w.wire.length e.Y e.id e.body e.atts e.g

/-- The clients after it, the result of `EndSession`, and what the other application is told. -/
def Ending.run (P : Prims) (S : Setup) (w : Pair) (e : Ending) : Pair × Option (Res Nat) × COut :=
  let r := w.reset P e.who e.X e.list (senderName S (!e.who)) e.msg
  let d := r.1.step P (e.delivery w)
  (d.1, r.2, d.2)

/-- As for other messages; the sessions directories can be listed; the message is not one that the abstract
conversation would refuse (more than 2000 messages ahead). -/
structure Ending.Ok (P : Prims) (S : Setup) (s : Sight) (w : Pair) (e : Ending) : Prop where
  send : SendReal P S s w e.who e.X (e.message S)
  deliver : DeliverReal P S (s.step (e.sending S)) (w.reset P e.who e.X e.list (senderName S (!e.who)) e.msg).1
    w.wire.length e.Y e.body e.atts e.g
  list : let st := ((w.step P (e.sending S)).1.client e.who).send.store
    Listing st (e.list st)
  lists : Lists e.Y.list (w.client (!e.who)).send.store (Names.sessName (senderName S e.who) (senderDev S e.who))
  due : ∀ m, (s.step (e.sending S)).abs.log[w.wire.length]? = some m →
    (s.step (e.sending S)).abs.expect m = .accept

/-- Prekeys that a client has published. -/
structure Offer where
  spk : KeyPair
  opk : Option KeyPair
  rb : Bytes
  rr : Bytes
  spkId : Nat
  pkId : Nat
  bundle : Bundle

/-- The client with identity `id` and store `st` holds them and has signed them; `rb` and `rr` are what the other
client will draw. -/
structure Offer.Ok (P : Prims) (id : KeyPair) (st : Store) (o : Offer) : Prop where
  spk : o.spk.Valid P
  opk : ∀ k, o.opk = some k → k.Valid P
  rb : o.rb.length = 32
  rr : o.rr.length = 32
  spkId : o.spkId ≠ 0 ∧ o.spkId < 2 ^ 32
  pkId : o.pkId < 2 ^ 32 ∧ (o.pkId = 0 ↔ o.opk = none)
  bundleId : o.bundle.identityKey = id.pub
  bundleSpk : o.bundle.signedPreKey = some o.spk.pub ∧ o.bundle.signedPreKeyId = o.spkId
  bundleOpk : o.bundle.preKey = o.opk.map KeyPair.pub ∧ o.bundle.preKeyId = o.pkId
  bundleSig : P.verify id.pub (5 :: o.spk.pub) o.bundle.signature = true
  rSpk : st.signedPreKeys o.spkId = some o.spk
  rOpk : ∀ k, o.opk = some k → st.preKeys o.pkId = some k

/-- A new conversation of the same two clients as they are now; `swap`: begun by the other one. -/
def next (S : Setup) (swap : Bool) (w : Pair) (o : Offer) : Setup :=
  if swap then
    { idI := S.idR, idR := S.idI, spk := o.spk, opk := o.opk, rb := o.rb, rr := o.rr, spkId := o.spkId
      pkId := o.pkId, regI := S.regR, regR := S.regI, nameI := S.nameR, devI := S.devR, nameR := S.nameI
      devR := S.devI, initiator := w.R.send.store, responder := w.I.send.store, bundle := o.bundle }
  else
    { idI := S.idI, idR := S.idR, spk := o.spk, opk := o.opk, rb := o.rb, rr := o.rr, spkId := o.spkId
      pkId := o.pkId, regI := S.regI, regR := S.regR, nameI := S.nameI, devI := S.devI, nameR := S.nameR
      devR := S.devR, initiator := w.I.send.store, responder := w.R.send.store, bundle := o.bundle }

/-- The clients in their new parts; nothing said yet. -/
def Pair.turn (w : Pair) (swap : Bool) : Pair :=
  if swap then ⟨w.R, w.I, [], w.devR, w.devI⟩ else ⟨w.I, w.R, [], w.devI, w.devR⟩

end Verif.Clients
