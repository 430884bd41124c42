import Verif.Proof.Pieces
import Verif.Proof.Clients
import Verif.Proof.Content
import Verif.Props.Conversation
import Verif.Props.Send
/-!
# Properties C106 (what one client sends, the other's application is shown), C107 (encodings)
-/
namespace Verif.Props
open Verif Verif.Keys Verif.Messages Verif.Session Verif.Api Verif.Names Verif.Conv Verif.Clients

/-! ## C107: contents, acknowledgements, envelopes and frames on the wire -/

/-- C107. For every data message within the Go types, what the receiving client's parser makes of the bytes
the sending client writes is exactly that message: body, attachments with their keys and addresses, flags,
timer, profile key, timestamp, group, and nothing else. -/
theorem C107_data (d : Send.WireData) (h : Content.Fits d) :
    Content.parseContent (Content.marshalData d) = some { data := some (Content.seen d) } :=
  Content.parse_data d h

/-- The transcripts for one's own devices are read as the message sent and its destination. -/
theorem C107_transcript (t : Send.Transcript) (h : Content.FitsT t) :
    Content.parseContent (Content.marshalSync t) = some { sync := some { sent := some (Content.seenSent t) } } :=
  Content.parse_sync t h

/-- An acknowledgement is read by the server as a response (type 2) of status 200 to the request with that
id. -/
theorem C107_ack (id : Nat) (h : id < 2 ^ 64) :
    readAck (Content.ackBytes id) = some (2, id, 200, ascii "OK") :=
  Content.readAck_ack id h

/-- A frame of the server is read as its id and body. -/
theorem C107_frame (id : Nat) (body : Bytes) (hid : id < 2 ^ 64) (hl : (frameBytes id body).length < 2 ^ 64) :
    Content.parseFrame (frameBytes id body) = .msg id body :=
  Content.parse_frame id body hid hl

/-- An envelope of the server is read as it is. -/
theorem C107_envelope (type dev ts sts : Nat) (name : String) (content : Bytes) (h1 : type < 2 ^ 32)
    (h2 : dev < 2 ^ 32) (h3 : ts < 2 ^ 64) (h4 : sts < 2 ^ 64) (hn : Content.OneByte name)
    (hl : (envelopeBytes type dev ts sts name content).length < 2 ^ 64) :
    Content.parseEnvelope (envelopeBytes type dev ts sts name content) =
      some { type := some type, sourceUuid := name, sourceDevice := dev, timestamp := ts, serverTimestamp := sts
             content := some content } :=
  Content.parse_envelope type dev ts sts name content h1 h2 h3 h4 hn hl

/-! Contents of other clients, written from SignalService.proto (`Spec/Clients`). -/

/-- Receipts are read with their type and all their times, whether these are packed or not. -/
theorem C107_receipt (ty : Nat) (ts : List Nat) (hty : ty < 2 ^ 32) (hts : ∀ t ∈ ts, t < 2 ^ 64)
    (hl : (Content.receiptBytes ty ts).length < 2 ^ 64) (hl' : (Content.receiptPacked ty ts).length < 2 ^ 64) :
    Content.parseContent (Content.receiptBytes ty ts) = some { receipt := some ⟨some ty, ts⟩ } ∧
    Content.parseContent (Content.receiptPacked ty ts) = some { receipt := some ⟨some ty, ts⟩ } :=
  ⟨Content.parse_receipt ty ts hty hts hl, Content.parse_receipt_packed ty ts hty hts hl'⟩

/-- What was read on other devices is read as senders and times, in order. -/
theorem C107_reads (l : List (String × Nat)) (hn : ∀ r ∈ l, Content.OneByte r.1 ∧ r.2 < 2 ^ 64)
    (hl : (Content.readsBytes l).length < 2 ^ 64) :
    Content.parseContent (Content.readsBytes l) = some { sync := some { read := l } } :=
  Content.parse_reads l hn hl

theorem C107_request (ty : Nat) (h : ty < 2 ^ 32) :
    Content.parseContent (Content.requestBytes ty) = some { sync := some { request := some ty } } :=
  Content.parse_request ty h

/-- Calls are read with the part they have. -/
theorem C107_call (part : Nat) (fs : List Wire.Field) (hp : part ∈ [1, 2, 3, 4, 5, 7])
    (hv : ∀ f ∈ fs, Wire.Field.valid f) (hl : (Content.callBytes part fs).length < 2 ^ 64) :
    Content.parseContent (Content.callBytes part fs) = some { call := some (Content.seenCall part) } :=
  Content.parse_call part fs hp hv hl

theorem C107_typing (fs : List Wire.Field) (hv : ∀ f ∈ fs, Wire.Field.valid f)
    (hl : (Content.typingBytes fs).length < 2 ^ 64) :
    Content.parseContent (Content.typingBytes fs) = some { typing := true } :=
  Content.parse_typing fs hv hl

/-- Data messages with everything that this client never writes itself: attachments named by number, quote,
contacts, sticker, reaction. -/
theorem C107_foreign (d : Content.Foreign) (h : Content.FitsF d) :
    Content.parseContent (Content.foreignBytes d) = some { data := some (Content.seenForeign d) } :=
  Content.parse_foreign d h

/-- Key and number of an attachment exclude each other: if a message has both, the later one counts, whatever else
is written before, between and after. -/
theorem C107_attachment_last (fs gs hs : List Wire.Field) (id : Nat) (key : Bytes) (hid : id < 2 ^ 64)
    (hhs : ∀ f ∈ hs, f.1 ≠ 1 ∧ f.1 ≠ 15) :
    Content.identifier (fs ++ [(1, .fixed64 (Content.le8 id))] ++ gs ++ [(15, .len key)] ++ hs) = (0, key) ∧
    Content.identifier (fs ++ [(15, .len key)] ++ gs ++ [(1, .fixed64 (Content.le8 id))] ++ hs) = (id, []) := by
  constructor
  · rw [Content.identifier_skip _ _ hhs, Content.identifier_snoc]; simp
  · rw [Content.identifier_skip _ _ hhs, Content.identifier_snoc]; simp [Content.leNat_le8 id hid]

/-- A part of a data message (quote, sticker, group, reaction) that is sent in two pieces is read as one part with
the fields of both. -/
theorem C107_parts_in_pieces (fs g h : List Wire.Field) (n : Nat) (hn : n ∈ [8, 11, 15, 16])
    (hg : ∀ f ∈ g, Wire.Field.valid f) (hh : ∀ f ∈ h, Wire.Field.valid f) :
    Content.dataMsg (fs ++ [Record.sub n g, Record.sub n h]) = Content.dataMsg (fs ++ [Record.sub n (g ++ h)]) :=
  Content.dataMsg_pieces fs g h n hn hg hh

/-- So is a data message, transcript, call or receipt sent in two pieces. -/
theorem C107_pieces (fs g h : List Wire.Field) (n : Nat) (hn : 1 ≤ n ∧ n ≤ 100) (hf : ∀ f ∈ fs, Record.NumOk f)
    (hg : ∀ f ∈ g, Wire.Field.valid f) (hh : ∀ f ∈ h, Wire.Field.valid f)
    (h1 : (Wire.encFields (fs ++ [Record.sub n g, Record.sub n h])).length < 2 ^ 64)
    (h2 : (Wire.encFields (fs ++ [Record.sub n (g ++ h)])).length < 2 ^ 64) :
    Content.parseContent (Wire.encFields (fs ++ [Record.sub n g, Record.sub n h])) =
      Content.parseContent (Wire.encFields (fs ++ [Record.sub n (g ++ h)])) :=
  Content.parse_pieces fs g h n hn hf hg hh h1 h2

/-- A text and its group in separate pieces, the group itself in two. -/
example : (Content.parseContent (Wire.encFields [Record.sub 1 [(1, .len [65])],
    Record.sub 1 [Record.sub 15 [(1, .len [7])], Record.sub 15 [(3, .len [8])]]])).bind (·.data) =
    some { body := [65], group := some (Wire.encFields [(1, .len [7]), (3, .len [8])]) } := by decide +kernel

/-- Messages to which these apply. -/
example : (Content.receiptBytes 1 [5, 2 ^ 63]).length < 2 ^ 64 ∧ (Content.receiptPacked 1 [5, 2 ^ 63]).length < 2 ^ 64 ∧
    (Content.readsBytes [("bob", 7), ("eve", 8)]).length < 2 ^ 64 ∧
    (Content.callBytes 7 [(1, .varint 9)]).length < 2 ^ 64 ∧ (Content.typingBytes [(1, .varint 9)]).length < 2 ^ 64 := by
  decide +kernel

example : Content.FitsF { body := [1], atts := [⟨2 ^ 63 + 5, [2], 2⟩, ⟨7, [3], 0⟩], flags := 0, expireTimer := 9
                          profileKey := [4], timestamp := 2 ^ 40, quote := [8, 1], contacts := [[8, 1], []]
                          sticker := [], group := [8, 2], reaction := [8, 3] } where
  flags := by decide
  expireTimer := by decide
  timestamp := by decide
  atts := by decide
  quote := by decide +kernel
  contacts := by decide +kernel
  sticker := by decide +kernel
  group := by decide +kernel
  reaction := by decide +kernel
  size := by decide +kernel

/-! ## C106 -/

theorem begin_rel {P : Prims} {S : Setup} {w : Pair} (hS : S.Ok P) (hne : S.spk.pub ≠ (newPair P S.rr).pub)
    (hw : Peers S w) : CRel P S (initG P S) {} w (World.init P S) :=
  { rel := (init_rel hS hne).2
    I := Or.inr ⟨rfl, rfl, by rw [hw.storeI]; exact hS.iTrust, by rw [hw.storeI]; exact hS.iNone⟩
    R := hw.storeR
    wire := by rw [hw.wire]; exact List.Forall₂.nil, said := List.Forall₂.nil
    devR := hw.devR, devI := hw.devI, numI := hw.numI, numR := hw.numR
    identI := by rw [hw.storeI]; exact ⟨hS.iIdent, hS.iReg⟩ }

/-- C106, for any encoding: two clients and a server that delivers accepted messages in any order, any
number of times or never. Whatever the schedule, every send succeeds with the message's timestamp; every
delivery shows the receiving application exactly the message that was sent, once, and acknowledges it, or
(duplicates, messages too far ahead) acknowledges it and shows nothing, as the abstract conversation
prescribes. Assumed of the encoding: the receiver's parser undoes the sender's. -/
theorem C106_any_encoding (P : Prims) (S : Setup) (hS : S.Ok P) (loc : Send.WireAtt → Bytes) (w : Pair)
    (hw : Peers S w) (evs : List CEv) (hl : Ok P S loc {} w evs)
    (hk : (S.spk.pub :: (newPair P S.rr).pub :: keysOf P evs).Nodup) (hn : evs.length < 2 ^ 32 - 1) :
    List.Forall₂ CAgree (wants S {} evs) (Pair.outs P w evs) := by
  have hne : S.spk.pub ≠ (newPair P S.rr).pub := by
    rw [List.nodup_cons] at hk
    intro h
    exact hk.1 (by rw [h]; exact List.mem_cons_self)
  have hN : Named S := ⟨recID_self hw.nameI.1 hw.nameI.2, recID_self hw.nameR.1 hw.nameR.2⟩
  refine (csimulate hS hN hne [] evs (initG P S) {} w (World.init P S) (begin_rel hS hne hw) hl ?_ ?_).1
  · rw [List.append_nil]; exact hk
  · show 0 + evs.length + 1 < u32
    unfold u32
    omega

theorem stored_all (P : Prims) (X : Receive.Ext) (as : List Receive.AttPtr) (ps : List Bytes)
    (h : List.Forall₂ (Stored P X) as ps) :
    Files.handleAttachments P X.fetch Receive.AttPtr.key as = .ok ps := by
  induction h with
  | nil => rfl
  | @cons a b _ _ ha _ ih =>
    obtain ⟨iv, u, hk, hiv, hu, hf⟩ := ha
    obtain ⟨u', hu', _, _, hr⟩ := C32_attachment_round_trip P _ iv _ hk hiv
    rw [hu] at hu'
    injection hu' with hu'
    subst hu'
    have hkeys : u.keys = a.key := by
      unfold Files.uploadAttachment at hu
      simp only [Res.bind_eq_ok] at hu
      obtain ⟨_, _, hu⟩ := hu
      injection hu with hu
      rw [← hu]
    rw [hkeys] at hr
    simp only [Files.handleAttachments, hf, ih]
    show (Files.handleSingleAttachment P a.key u.blob >>= fun p => Res.ok (p :: _)) = _
    rw [hr]
    rfl

theorem send_real_ok {P : Prims} {S : Setup} {s : Sight} {w : Pair} {who : Bool} {X : Send.SendExt} {m : Send.OutMsg}
    (h : SendReal P S s w who X m) : SendOk P S s w who X m :=
  { dest := h.dest, enc := ⟨_, by rw [h.marshal], h.fits.size⟩
    env := h.env, srv := h.srv, first := h.first, session := h.session, others := h.others, self := h.self
    reaches := h.reaches }

/-- What was said, with its encoding. -/
def AllFit (s : Sight) : Prop := ∀ d ∈ s.said, Content.Fits d.1 ∧ d.2 = Content.marshalData d.1

/-- Where the client looks for an attachment. -/
abbrev codeLoc : Send.WireAtt → Bytes := fun a => Content.location 0 a.cdnKey a.cdnNr

theorem deliver_real_ok {P : Prims} {S : Setup} (hA : Addresses S) {s : Sight} {w : Pair} (hs : AllFit s) {i : Nat}
    {X : Receive.Ext} {body : Bytes} {atts : List Bytes} {g : Option Bytes}
    (h1 : DeliverReal P S s w i X body atts g) : DeliverOk P S codeLoc s w i X body atts g := by
  refine { env := h1.env, rnd := h1.rnd, cb := h1.cb, contacts := h1.contacts, carried := ?_, parsed := ?_ }
  · intro who j hj
    obtain ⟨hb, ts, sts, c, hc, ht, hts, hsts, hlen, hd⟩ := h1.carried who j hj
    have hdev : senderDev S who < u32 := by cases who; exact hA.devI; exact hA.devR
    have hname : Content.OneByte (senderName S who) := by cases who; exact hA.nameI; exact hA.nameR
    have hp := Content.parse_envelope j.type (senderDev S who) ts sts (senderName S who) c ht hdev hts hsts
      hname hlen
    exact ⟨hb, _, _, hd, by rw [h1.parseEnvelope]; exact hp, rfl, rfl, rfl, hc.symm⟩
  · intro d hd
    obtain ⟨hf, hb⟩ := hs d (List.mem_of_getElem? hd)
    refine ⟨?_, stored_all P X _ _ (h1.stored d hd), h1.group d hd⟩
    rw [h1.parseContent, hb, Content.parse_data d.1 hf]
    rfl

theorem fit_send {P : Prims} {S : Setup} {s : Sight} {w : Pair} {who : Bool} {X : Send.SendExt} {m : Send.OutMsg}
    (h : SendReal P S s w who X m) (hs : AllFit s) : AllFit (s.step (.send who X m)) := by
  intro d hd
  simp only [Sight.step, List.mem_append, List.mem_singleton] at hd
  rcases hd with hd | rfl
  · exact hs d hd
  · refine ⟨h.fits, ?_⟩
    simp only [encoded, h.marshal]

theorem real_ok (P : Prims) (S : Setup) (hA : Addresses S) : ∀ (evs : List CEv) (s : Sight) (w : Pair),
    AllFit s → Real P S s w evs → Ok P S codeLoc s w evs ∧ AllFit (s.run evs) := by
  intro evs
  induction evs with
  | nil => intro s w hs _; exact ⟨trivial, hs⟩
  | cons ev evs ih =>
    intro s w hs hr
    obtain ⟨h1, h2, h3⟩ := hr
    cases ev with
    | send who X m =>
      obtain ⟨i1, i2⟩ := ih _ _ (fit_send h1 hs) h3
      exact ⟨⟨send_real_ok h1, h2, i1⟩, i2⟩
    | deliver i X id body atts g =>
      obtain ⟨i1, i2⟩ := ih (s.step (.deliver i X id body atts g)) _ hs h3
      exact ⟨⟨⟨deliver_real_ok hA hs h1.1, h1.2⟩, h2, i1⟩, i2⟩
    | other who c =>
      obtain ⟨i1, i2⟩ := ih s _ hs h3
      exact ⟨⟨h1, h2, i1⟩, i2⟩

/-- C106. The same with the encodings of the code: what the application of one client hands to `SendMessage`
is what the other's `MessageHandler` is given, through marshalling, padding, encryption, base64, the server's
envelope, decryption, unpadding and parsing, with the attachments downloaded and decrypted; under every
schedule. -/
theorem C106_end_to_end (P : Prims) (S : Setup) (hS : S.Ok P) (hA : Addresses S) (w : Pair) (hw : Peers S w)
    (evs : List CEv) (hl : Real P S {} w evs)
    (hk : (S.spk.pub :: (newPair P S.rr).pub :: keysOf P evs).Nodup) (hn : evs.length < 2 ^ 32 - 1) :
    List.Forall₂ CAgree (wants S {} evs) (Pair.outs P w evs) :=
  C106_any_encoding P S hS _ w hw evs (real_ok P S hA evs {} w (by intro d hd; cases hd) hl).1 hk hn

/-! A conversation that meets the hypotheses: Alice sends a text with an attachment, Bob receives it and
answers, Alice receives the answer, and the server delivers Alice's message a second time. -/
namespace Demo

def pair0 : Pair :=
  ⟨⟨⟨alice0, fun _ => none, []⟩, fun _ => none⟩, ⟨⟨bob0, fun _ => none, []⟩, fun _ => none⟩, [], 1, 1⟩

def sendExt : Send.SendExt :=
  { now := 1000, profileKey := [1, 2, 3], marshal := fun d => .ok (Content.marshalData d)
    marshalSync := fun t => .ok (Content.marshalSync t)
    D := fun _ _ => { prekeys := fun _ => .ok (Send.reply 1 1002), rb := List.replicate 32 59
                      rr := List.replicate 32 70 }
    srv := fun _ _ => .ok false
    D' := fun _ _ => { prekeys := fun _ => .err .http, rb := [], rr := [] }
    srv' := fun _ _ => .netErr, self := "self" }

def attKeys : Bytes := List.replicate 64 6

def attBlob : Bytes := match Files.uploadAttachment P attKeys (List.replicate 16 9) [42, 43] with
  | .ok u => u.blob
  | _ => []

def hello : Send.OutMsg :=
  { destination := "bob", msg := ascii "hello"
    attachment := some { cdnKey := ascii "k", cdnNr := 2, contentType := ascii "image/png", keys := attKeys
                         digest := [], size := 2, voiceNote := false } }

def answer : Send.OutMsg := { destination := "alice", msg := ascii "hi" }

def hearExt (r : UInt8) : Receive.Ext :=
  { signalingKey := List.replicate 52 1, parseEnvelope := Content.parseEnvelope
    parseContent := Content.parseContent, fetch := fun _ => .ok attBlob, groupsV2 := fun _ _ => .ok none
    syncGroupsV2 := fun _ _ => .ok none, sendUpdate := fun _ s => (s, .ok ()), sendVerified := fun _ s => (s, .ok ())
    crayfish := fun _ => .err .other, list := fun _ => [], rnd := rnd r, rnd' := rnd (r + 101) }

/-- The envelope of the message at `i`. -/
def envOf (w : Pair) (i : Nat) (name : String) : Bytes :=
  match w.wire[i]? with
  | some (_, j) => envelopeBytes j.type 1 5 6 name ((Encoding.b64Quanta j.content).getD [])
  | none => []

def ev1 : CEv := .send false sendExt hello
def w1 : Pair := (pair0.step P ev1).1
def ev2 : CEv := .deliver 0 (hearExt 83) 100 (envOf w1 0 "alice") [[42, 43]] none
def w2 : Pair := (w1.step P ev2).1
def ev3 : CEv := .send true sendExt answer
def w3 : Pair := (w2.step P ev3).1
def ev4 : CEv := .deliver 1 (hearExt 84) 101 (envOf w3 1 "bob") [] none
def w4 : Pair := (w3.step P ev4).1
def ev5 : CEv := .deliver 0 (hearExt 85) 102 (envOf w1 0 "alice") [[42, 43]] none

def talk : List CEv := [ev1, ev2, ev3, ev4, ev5]

set_option maxRecDepth 100000 in
theorem bundle_of_reply : Send.makeBundle (Send.reply 1 1002) = .ok (1, bundle 7) := by
  have h1 : Encoding.decodeKey (Encoding.encodeKey Demo.bobOpk.pub) = .ok Demo.bobOpk.pub :=
    Encoding.C41_key_round_trip _ (by decide +kernel)
  have h2 : Encoding.decodeKey (Encoding.encodeKey Demo.bobSpk.pub) = .ok Demo.bobSpk.pub :=
    Encoding.C41_key_round_trip _ (by decide +kernel)
  have h3 : Encoding.decodeKey (Encoding.encodeKey Demo.bobId.pub) = .ok Demo.bobId.pub :=
    Encoding.C41_key_round_trip _ (by decide +kernel)
  have h4 : Encoding.decodeSignature (Encoding.b64EncodeNoPad (Demo.toySig Demo.bobId (ser Demo.bobSpk.pub)))
      = .ok (Demo.toySig Demo.bobId (ser Demo.bobSpk.pub)) := by
    exact Encoding.C41_signature_round_trip _ (by decide +kernel)
  simp [Send.makeBundle, Send.reply, Send.decodePreKey, h1, h2, h3, h4, Demo.bundle]

end Demo

open Demo in
example : (Pair.outs P pair0 talk).map (fun o => match o with
    | .told evs .waiting => evs
    | _ => []) =
    [[],
     [.enter .data,
      .onMessage { source := "alice", sourceUuid := "alice", message := ascii "hello", timestamp := 1000
                   attachments := [[42, 43]], group := none, flags := 0, expireTimer := 0
                   profileKey := [1, 2, 3] },
      .ack 100],
     [],
     [.enter .data,
      .onMessage { source := "bob", sourceUuid := "bob", message := ascii "hi", timestamp := 1000
                   attachments := [], group := none, flags := 0, expireTimer := 0
                   profileKey := [1, 2, 3] },
      .ack 101],
     [.ack 102]] := by decide +kernel

namespace Demo

theorem fits_hello : Content.Fits (Send.createMessage 1000 [1, 2, 3] hello) where
  timestamp := by decide
  flags := by decide
  expireTimer := by decide
  atts := by
    intro a ha
    have ha : a ∈ [_] := ha
    rw [List.mem_singleton] at ha
    subst ha
    exact ⟨by decide, by decide, by intro f hf; cases hf⟩
  group := by intro g hg; cases hg
  size := by decide +kernel

theorem fits_answer : Content.Fits (Send.createMessage 1000 [1, 2, 3] answer) where
  timestamp := by decide
  flags := by decide
  expireTimer := by decide
  atts := by intro a ha; cases ha
  group := by intro g hg; cases hg
  size := by decide +kernel

/-- The conditions of a delivery that do not depend on the message. -/
theorem deliverReal_core (r : UInt8) (s : Sight) (w : Pair) (i : Nat) (who : Bool) (j : Send.JMsg) (atts : List Bytes)
    (d : Send.WireData × Bytes) (hw : w.wire[i]? = some (who, j))
    (hb : (envOf w i (senderName setup who)).length < 2 ^ 64)
    (hc : (Encoding.b64Quanta j.content).isSome) (ht : j.type < u32)
    (hd : Files.decryptReceivedMessage P (List.replicate 52 1) (envOf w i (senderName setup who)) =
      .ok (envOf w i (senderName setup who)))
    (hs : s.said[i]? = some d) (ha : List.Forall₂ (Stored P (hearExt r)) (Content.seen d.1).attachments atts) :
    DeliverReal P setup s w i (hearExt r) (envOf w i (senderName setup who)) atts none := by
  obtain ⟨c, hc⟩ := Option.isSome_iff_exists.mp hc
  have he : envOf w i (senderName setup who) =
      envelopeBytes j.type (senderDev setup who) 5 6 (senderName setup who) c := by
    have : senderDev setup who = 1 := by cases who <;> rfl
    rw [this]
    simp [envOf, hw, hc]
  refine { env := rfl, rnd := ⟨by simp [hearExt, rnd], by simp [hearExt, rnd]⟩, cb := rfl, contacts := rfl
           parseEnvelope := rfl, parseContent := rfl, carried := ?_, stored := ?_, group := ?_ }
  · intro who' j' h
    rw [hw] at h
    cases h
    refine ⟨?_, 5, 6, c, hc, ht, by decide, by decide, ?_, ?_⟩
    · intro h0
      rw [h0] at hd
      cases hd
    · rw [← he]; exact hb
    · rw [← he]; exact hd
  · intro d' h
    rw [hs] at h
    cases h
    exact ha
  · intro d' _ src
    rfl

theorem deliverReal (r : UInt8) (s : Sight) (w : Pair) (i : Nat) (who : Bool) (j : Send.JMsg) (atts : List Bytes)
    (d : Send.WireData × Bytes) (hw : w.wire[i]? = some (who, j))
    (hb : (envOf w i (senderName setup who)).length < 2 ^ 64)
    (hc : (Encoding.b64Quanta j.content).isSome) (ht : j.type < u32)
    (hd : Files.decryptReceivedMessage P (List.replicate 52 1) (envOf w i (senderName setup who)) =
      .ok (envOf w i (senderName setup who)))
    (hs : s.said[i]? = some d) (hf : d.1.flags ≠ 1) (ha : List.Forall₂ (Stored P (hearExt r)) (Content.seen d.1).attachments atts) :
    DeliverReal P setup s w i (hearExt r) (envOf w i (senderName setup who)) atts none ∧ s.GoesOn i :=
  ⟨deliverReal_core r s w i who j atts d hw hb hc ht hd hs ha,
    by intro d' h; rw [hs] at h; cases h; exact hf⟩

def j0 : Send.JMsg := ((w1.wire[0]?).map Prod.snd).getD ⟨0, 0, 0, []⟩
def j1 : Send.JMsg := ((w3.wire[1]?).map Prod.snd).getD ⟨0, 0, 0, []⟩

def d0 : Send.WireData := Send.createMessage 1000 [1, 2, 3] hello
def d1 : Send.WireData := Send.createMessage 1000 [1, 2, 3] answer

theorem stored_hello (r : UInt8) : List.Forall₂ (Stored P (hearExt r)) (Content.seen d0).attachments [[42, 43]] := by
  refine List.Forall₂.cons ?_ List.Forall₂.nil
  obtain ⟨u, hu, _⟩ := C32_attachment_round_trip P attKeys (List.replicate 16 9) [42, 43] (by decide) (by decide)
  refine ⟨List.replicate 16 9, u, by decide, by decide, hu, ?_⟩
  show Res.ok attBlob = _
  unfold attBlob
  rw [hu]

/-- With one device there are no others. -/
theorem only_one {l : List Nat} {dev : Nat} {Q : Nat → Nat → Prop} (h : l = [dev]) :
    ∀ i d, l[i]? = some d → d ≠ dev → Q i d := by
  intro i d hi hne
  subst h
  match i with
  | 0 => simp at hi; exact absurd hi.symm hne
  | i + 1 => simp at hi

set_option maxRecDepth 100000 in
theorem talk_real : Real P setup {} pair0 talk := by
  refine ⟨?_, trivial, ?_⟩
  · exact { dest := rfl, marshal := rfl, fits := fits_hello, env := fun _ => rfl, srv := fun _ => ⟨false, rfl⟩
            first := fun _ _ _ => ⟨rfl, rfl, _, rfl, bundle_of_reply⟩, session := by intro h; cases h
            others := only_one rfl, self := by decide, reaches := Or.inl ⟨rfl, fun _ => rfl⟩ }
  refine ⟨?_, ?_, ?_⟩
  · exact deliverReal 83 _ w1 0 false j0 _ (d0, Content.marshalData d0) (by decide +kernel) (by decide +kernel)
      (by decide +kernel) (by decide +kernel) (by decide +kernel) rfl (by decide) (stored_hello _)
  · intro h
    exact absurd h (by decide +kernel)
  refine ⟨?_, trivial, ?_⟩
  · exact { dest := rfl, marshal := rfl, fits := fits_answer, env := fun _ => rfl, srv := fun _ => ⟨false, rfl⟩
            first := (fun h => by cases h), session := by decide +kernel
            others := only_one (by decide +kernel), self := by decide
            reaches := Or.inl ⟨by decide +kernel, fun _ => rfl⟩ }
  refine ⟨?_, ?_, ?_⟩
  · exact deliverReal 84 _ w3 1 true j1 _ (d1, Content.marshalData d1) (by decide +kernel) (by decide +kernel)
      (by decide +kernel) (by decide +kernel) (by decide +kernel) rfl (by decide) List.Forall₂.nil
  · intro h
    exact absurd h (by decide +kernel)
  refine ⟨?_, ?_, trivial⟩
  · have h : envOf w1 0 "alice" = envOf w4 0 (senderName setup false) := by decide +kernel
    show DeliverReal P setup _ w4 0 (hearExt 85) (envOf w1 0 "alice") _ none ∧ _
    rw [h]
    exact deliverReal 85 _ w4 0 false j0 _ (d0, Content.marshalData d0) (by decide +kernel) (by decide +kernel)
      (by decide +kernel) (by decide +kernel) (by decide +kernel) rfl (by decide) (stored_hello _)
  · intro h
    exact absurd h (by decide +kernel)

theorem addresses : Addresses setup where
  nameI := by unfold Content.OneByte; decide
  nameR := by unfold Content.OneByte; decide
  devI := by decide
  devR := by decide

theorem peers0 : Peers setup pair0 :=
  ⟨by decide, by decide, rfl, rfl, ⟨by decide, by decide⟩, ⟨by decide, by decide⟩, rfl, rfl, rfl⟩

theorem talk_keys : (setup.spk.pub :: (newPair P setup.rr).pub :: keysOf P talk).Nodup := by decide +kernel

end Demo

open Demo in
example : setup.Ok P ∧ Addresses setup ∧ Peers setup pair0 ∧ Real P setup {} pair0 talk ∧
    (setup.spk.pub :: (newPair P setup.rr).pub :: keysOf P talk).Nodup ∧ talk.length < 2 ^ 32 - 1 :=
  ⟨setup_ok, addresses,
    peers0, talk_real, talk_keys, by decide⟩

/-- A transcript within the Go types (C107). -/
example : Content.FitsT { message := Demo.d0, timestamp := 1000, destE164 := some "+4912", destUuid := some "bob" } :=
  ⟨Demo.fits_hello, by decide, by unfold Content.OneByte; decide, by unfold Content.OneByte; decide, by decide +kernel⟩

/-- The theorem applied to it. -/
example : List.Forall₂ CAgree (wants Demo.setup {} Demo.talk) (Pair.outs Demo.P Demo.pair0 Demo.talk) :=
  C106_end_to_end Demo.P Demo.setup Demo.setup_ok Demo.addresses Demo.pair0
    Demo.peers0 Demo.talk Demo.talk_real Demo.talk_keys (by decide)

end Verif.Props
