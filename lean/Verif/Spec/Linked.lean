import Verif.Spec.Clients
/-!
# Specification of two devices of one account

The user writes to others from either of two devices of their account. What is sent from one device should be
shown on the other, with the recipient, once. The server accepts the transcripts, keeps them, and delivers any of
them any number of times, in any order, or never.
-/
namespace Verif.Linked
open Verif Verif.Keys Verif.Session Verif.Api Verif.Conv Verif.Clients

/-- A message written on one device: what the application handed over, the clock, the profile key. -/
structure Wrote where
  m : Send.OutMsg
  now : Nat
  key : Bytes

/-- Recipients are named by telephone numbers (which begin with `+`) or by ids. -/
def isNumber (s : String) : Prop := s.toList.head? = some '+'

instance (s : String) : Decidable (isNumber s) := by unfold isNumber; infer_instance

/-- The other device is told of the message as it went out, and of the recipient. -/
def Wrote.transcript (x : Wrote) : Send.Transcript :=
  { destE164 := if isNumber x.m.destination then some x.m.destination else none
    destUuid := if isNumber x.m.destination then none else some x.m.destination
    timestamp := x.m.timestamp.getD x.now
    message := Send.createMessage x.now x.key x.m }

def Wrote.bytes (x : Wrote) : Bytes := Content.marshalSync x.transcript

/-- What the other device shows: text, time, timer as the application gave them; the recipient; the attachments
themselves. -/
def Wrote.shown (x : Wrote) (atts : List Bytes) (g : Option Bytes) : Receive.AppMsg :=
  { source := if isNumber x.m.destination then x.m.destination else ""
    sourceUuid := if isNumber x.m.destination then "" else x.m.destination
    message := x.m.msg, timestamp := x.m.timestamp.getD x.now, attachments := atts, group := g
    flags := if x.m.flags = 4 then 4 else 0, expireTimer := x.m.expireTimer, profileKey := x.key }

/-- An event of the schedule. -/
inductive LEv where
  /-- One of the devices (`false`: the one that writes first) sends `m` to somebody. -/
  | send (who : Bool) (X : Send.SendExt) (fuel : Nat) (m : Send.OutMsg)
  /-- The server delivers transcript number `i`, which it received at time `sts`, as frame `id` with body `body`;
  `atts` and `g` are what the attachment server and the group server have for it. -/
  | deliver (i : Nat) (X : Receive.Ext) (id : Nat) (body : Bytes) (sts : Nat) (atts : List Bytes) (g : Option Bytes)
  /-- The device does something else, after which it is as `c`. -/
  | other (who : Bool) (c : Client)

/-- One event: sending puts on the wire what is for the other device of the account `X.self`. -/
def step (P : Prims) (w : Pair) : LEv → Pair × COut
  | .send false X fuel m =>
    let r := Send.sendMessage P X fuel m w.I.send
    ({ w with I := { w.I with send := r.1 }
              wire := w.wire ++ (newMsgs X.self w.devR w.I.send.log r.1.log).map (fun j => (false, j)) }, .sent r.2)
  | .send true X fuel m =>
    let r := Send.sendMessage P X fuel m w.R.send
    ({ w with R := { w.R with send := r.1 }
              wire := w.wire ++ (newMsgs X.self w.devI w.R.send.log r.1.log).map (fun j => (true, j)) }, .sent r.2)
  | .deliver i X id body _ _ _ => match w.wire[i]? with
    | none => (w, .nothing)
    | some (false, _) => let r := hear P w.R X id body; ({ w with R := r.1 }, r.2)
    | some (true, _) => let r := hear P w.I X id body; ({ w with I := r.1 }, r.2)
  | .other false c => ({ w with I := c }, .nothing)
  | .other true c => ({ w with R := c }, .nothing)

def outs (P : Prims) : Pair → List LEv → List COut
  | _, [] => []
  | w, ev :: evs => (step P w ev).2 :: outs P (step P w ev).1 evs

/-! ## What the applications should see -/

/-- The abstract conversation between the devices, and what was written. -/
structure Sight where
  abs : Abs := {}
  said : List Wrote := []

def Sight.step (s : Sight) : LEv → Sight
  | .send who X _ m =>
    let x : Wrote := ⟨m, X.now, X.profileKey⟩
    ⟨s.abs.step (.send who (Files.padMessage x.bytes)), s.said ++ [x]⟩
  | .deliver i X _ _ _ _ _ => ⟨s.abs.step (.deliver i X.rnd), s.said⟩
  | .other _ _ => s

inductive Want where
  /-- sent, with this timestamp -/
  | sent (ts : Nat)
  | nothing
  /-- shown as sent by the user, with the time at the server, and acknowledged -/
  | shown (m : Receive.AppMsg) (sts id : Nat)
  /-- acknowledged only -/
  | silent (id : Nat)
  /-- shown to nobody (the epoch is older than the receiver remembers) -/
  | stale (id : Nat)

def Sight.want (s : Sight) : LEv → Want
  | .send _ X _ m => .sent (m.timestamp.getD X.now)
  | .deliver i _ id _ sts atts g => match s.abs.log[i]?, s.said[i]? with
    | some m, some x => match s.abs.expect m with
      | .accept => .shown (x.shown atts g) sts id
      | .refuse => .silent id
      | .stale => .stale id
    | _, _ => .nothing
  | .other _ _ => .nothing

def wants : Sight → List LEv → List Want
  | _, [] => []
  | s, ev :: evs => s.want ev :: wants (s.step ev) evs

def Agree : Want → COut → Prop
  | .sent ts, .sent r => r = some (.ok ts)
  | .nothing, .nothing => True
  | .shown m sts id, .told evs e => evs = [.enter .sync, .onSyncSent m sts, .ack id] ∧ e = .waiting
  | .silent id, .told evs e => evs = [.ack id] ∧ e = .waiting
  | .stale id, .told evs _ => ∀ x ∈ evs, x = .ack id
  | _, _ => False

/-! ## Schedules considered -/

/-- A send to somebody else: the call succeeds, and whenever the server accepts the message, it says that there are
linked devices; it accepts the transcript. The other device is known. For the first transcript of all the client asks
for prekeys and is given the bundle of the other device; bundles of further devices are of the same account. -/
structure SendReal (P : Prims) (S : Setup) (s : Sight) (w : Pair) (who : Bool) (X : Send.SendExt) (fuel : Nat)
    (m : Send.OutMsg) : Prop where
  elsewhere : Send.recidOf m.destination ≠ senderName S who
  self : X.self = senderName S who
  marshal : X.marshalSync = fun t => .ok (Content.marshalSync t)
  fits : Content.FitsT (Wrote.transcript ⟨m, X.now, X.profileKey⟩)
  linked : ∀ k r l, X.srv k r = .ok l → l = true
  env : ∀ i, (X.D' 0 i).env = {}
  srv : ∀ r, ∃ l, X.srv' 0 r = .ok l
  first : s.said = [] → ∀ i, ((w.client who).devs X.self)[i]? = some S.devR →
    (X.D' 0 i).rb = S.rb ∧ (X.D' 0 i).rr = S.rr ∧
    ∃ r, (X.D' 0 i).prekeys S.devR = .ok r ∧ Send.makeBundle r = .ok (S.devR, S.bundle)
  session : who = true → s.abs.lvR ≠ 0
  others : ∀ i d, ((w.client who).devs X.self)[i]? = some d → d ≠ senderDev S (!who) →
    ∀ r bd b, (X.D' 0 i).prekeys d = .ok r → Send.makeBundle r = .ok (bd, b) →
      bd = d ∧ b.identityKey = senderKey S (!who)
  succeeds : ∃ ts, (Send.sendMessage P X fuel m (w.client who).send).2 = some (.ok ts)

/-- A delivery: the frame is an envelope that names the account and the sending device, with the message the server
accepted and the time; attachments and the group can be fetched; file writes succeed; fresh randomness. -/
structure DeliverReal (P : Prims) (S : Setup) (s : Sight) (w : Pair) (i : Nat)
    (X : Receive.Ext) (body : Bytes) (sts : Nat) (atts : List Bytes) (g : Option Bytes) : Prop where
  env : X.env = {}
  rnd : (X.rnd 0).length = 32 ∧ (X.rnd' 0).length = 32
  cb : X.cb.syncSent = true
  contacts : X.contactsOk = true
  parseEnvelope : X.parseEnvelope = Content.parseEnvelope
  parseContent : X.parseContent = Content.parseContent
  carried : ∀ who j, w.wire[i]? = some (who, j) → body ≠ [] ∧ ∃ ts c,
    Encoding.b64Quanta j.content = some c ∧ j.type < u32 ∧ ts < 2 ^ 64 ∧ sts < 2 ^ 64 ∧
    (envelopeBytes j.type (senderDev S who) ts sts (senderName S who) c).length < 2 ^ 64 ∧
    Files.decryptReceivedMessage P X.signalingKey body =
      .ok (envelopeBytes j.type (senderDev S who) ts sts (senderName S who) c)
  stored : ∀ x, s.said[i]? = some x → List.Forall₂ (Stored P X) (Content.seen x.transcript.message).attachments atts
  group : ∀ x, s.said[i]? = some x → ∀ src, X.syncGroupsV2 src (Content.seen x.transcript.message) = .ok g
  /-- It does not tell of the end of a session (see `C134_end_not_shown`). -/
  goesOn : ∀ x, s.said[i]? = some x → x.m.flags ≠ 1

def LEv.Real (P : Prims) (S : Setup) (s : Sight) (w : Pair) : LEv → Prop
  | .send who X fuel m => SendReal P S s w who X fuel m
  | .deliver i X _ body sts atts g => DeliverReal P S s w i X body sts atts g
  | .other who c => OtherOk S w who c

/-- No stale message happens to authenticate (as `Clients.CEv.NoForgery`). -/
def LEv.NoForgery (P : Prims) (S : Setup) (s : Sight) (w : Pair) : LEv → Prop
  | .send _ _ _ _ => True
  | .other _ _ => True
  | .deliver i X _ _ _ _ _ => s.abs.want (.deliver i X.rnd) = .stale → ∀ who j b ty, w.wire[i]? = some (who, j) →
      Encoding.b64Quanta j.content = some b → j.type = Send.typeNum ty →
      let st := (if who then w.I else w.R).send.store
      let o := receive P X.rnd st (senderName S who) (senderDev S who) b ty
      (∀ pt, o.res ≠ .ok pt) ∧
      ∀ pt, (receive P X.rnd' (applyWrites st o.writes) (senderName S who) (senderDev S who) b ty).res ≠ .ok pt

def Real (P : Prims) (S : Setup) : Sight → Pair → List LEv → Prop
  | _, _, [] => True
  | s, w, ev :: evs => ev.Real P S s w ∧ ev.NoForgery P S s w ∧ Real P S (s.step ev) (step P w ev).1 evs

/-- The ratchet keys that may be drawn. -/
def keysOf (P : Prims) (evs : List LEv) : List Bytes :=
  evs.flatMap (fun ev => match ev with
    | .deliver _ X _ _ _ _ _ => [(newPair P (X.rnd 0)).pub, (newPair P (X.rnd' 0)).pub]
    | _ => [])

end Verif.Linked
