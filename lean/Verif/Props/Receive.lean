import Verif.Proof.Receive
import Verif.Proof.Files
import Verif.Props.Store
import Verif.Props.Demo
import Mathlib.Tactic.ByContra
/-!
# Properties of the receive path (C43-C48)
-/
namespace Verif.Props.Receive
open Verif Verif.Keys Verif.Messages Verif.Session Verif.Api Verif.Names Verif.Receive

/-! ## A concrete environment -/

/-- An environment in which nothing fails. Content and envelopes are decoded by the given tables; the
sessions directory is listed from candidates. -/
def calm (parseE : Bytes → Option Envelope) (parseC : Bytes → Option Content) (names : List Name) : Ext :=
  { signalingKey := List.replicate 52 1, parseEnvelope := parseE, parseContent := parseC
    fetch := fun _ => .err .http, groupsV2 := fun _ _ => .ok none, syncGroupsV2 := fun _ _ => .ok none
    sendUpdate := fun _ s => (s, .ok ()), sendVerified := fun _ s => (s, .ok ()), crayfish := fun _ => .err .other
    list := fun st => names.filter (fun n => st.sessions n ≠ .absent)
    rnd := Demo.rnd 3, rnd' := Demo.rnd 4 }

def world (st : Store) : World := { store := st, contacts := fun _ => none, log := [] }

/-! ## C43 Every request is acknowledged once, in order -/

/-- Ids of the requests read before the connection ends. -/
def requests : List Frame → List Nat
  | [] => []
  | .msg id _ :: fs => id :: requests fs
  | _ :: _ => []

/-- The acknowledgements in a log. -/
def acks (l : List Ev) : List Nat := l.filterMap (fun | .ack id => some id | _ => none)

/-- The effects of processing the requests, each followed by the acknowledgement of that request. -/
def interleave : List (List Ev) → List Nat → List Ev
  | d :: ds, id :: ids => d ++ .ack id :: interleave ds ids
  | _, _ => []

theorem acks_none {d : List Ev} (h : ∀ e ∈ d, Inner e) : acks d = [] := by
  unfold acks
  rw [List.filterMap_eq_nil_iff]
  intro e he
  have := h e he
  cases e <;> simp_all [Inner]

/-- For all frames and environments, if processing never crashes the process: the log is extended by one
block per request, in arrival order, each block being effects of processing (no acknowledgement)
followed by the acknowledgement of that request, whatever processing returned. -/
theorem C43_acked_in_order (P : Prims) (fs : List (Ext × Frame)) (w : World)
    (h : (listen P fs w).2 ≠ .crashed) :
    ∃ ds : List (List Ev), ds.length = (requests (fs.map Prod.snd)).length ∧
      (∀ d ∈ ds, ∀ e ∈ d, ∀ id, e ≠ .ack id) ∧
      (listen P fs w).1.log = w.log ++ interleave ds (requests (fs.map Prod.snd)) ∧
      acks (listen P fs w).1.log = acks w.log ++ requests (fs.map Prod.snd) := by
  induction fs generalizing w with
  | nil => exact ⟨[], rfl, by simp, by simp [listen, interleave, requests], by simp [listen, requests]⟩
  | cons xf fs ih =>
    obtain ⟨X, f⟩ := xf
    cases f with
    | closed => exact ⟨[], rfl, by simp, by simp [listen, interleave], by simp [listen, requests]⟩
    | garbage => exact ⟨[], rfl, by simp, by simp [listen, interleave], by simp [listen, requests]⟩
    | msg id body =>
      obtain ⟨d, hd, hin⟩ := appends_process P X body w
      rcases hp : process P X body w with ⟨w', r⟩
      rw [hp] at hd
      simp only at hd
      have key : listen P ((X, .msg id body) :: fs) w =
          listen P fs { w' with log := w'.log ++ [.ack id] } := by
        cases r with
        | panic => exact absurd (by simp [listen, hp]) h
        | ok a => simp [listen, hp]
        | err e => simp [listen, hp]
      rw [key] at h ⊢
      obtain ⟨ds, h1, h2, h3, h4⟩ := ih _ h
      refine ⟨d :: ds, ?_, ?_, ?_, ?_⟩
      · simp [requests, h1]
      · intro d' hd' e he id' heq
        rcases List.mem_cons.mp hd' with rfl | hd'
        · have := hin e he; rw [heq] at this; exact this
        · exact h2 d' hd' e he id' heq
      · rw [h3]; simp [requests, interleave, hd]
      · rw [h4]
        simp only [hd, acks, List.filterMap_append, List.map_cons, requests]
        have : acks d = [] := acks_none hin
        unfold acks at this
        simp [this]

/-- Three requests (a failing one, an empty one and another failing one), then the connection closes:
acknowledged 7, 8, 9. -/
example : ∃ fs, (listen Demo.P fs (world Demo.alice0)).2 = .closed ∧
    requests (fs.map Prod.snd) = [7, 8, 9] ∧ acks (listen Demo.P fs (world Demo.alice0)).1.log = [7, 8, 9] :=
  ⟨[(calm (fun _ => some { type := some 2 }) (fun _ => none) [], .msg 7 (List.replicate 20 5)),
    (calm (fun _ => none) (fun _ => none) [], .msg 8 []),
    (calm (fun _ => some { type := some 1 }) (fun _ => none) [], .msg 9 (List.replicate 20 5)),
    (calm (fun _ => none) (fun _ => none) [], .closed),
    (calm (fun _ => none) (fun _ => none) [], .msg 10 [])], by decide +kernel, by decide +kernel,
    by decide +kernel⟩

/-- In every interleaving of listener and writer, what was written to the connection is, in order, the
requests processed so far, without those still queued: no acknowledgement precedes the processing of its
request, none is duplicated, dropped or reordered. -/
theorem C43_wire_order (P : Prims) (a b : Net) (h : NRun P a b) (h0 : a.wire ++ a.queue = a.done) :
    b.wire ++ b.queue = b.done := by
  induction h with
  | refl => exact h0
  | step _ hs ih =>
    cases hs with
    | listener X id body w' r hp hr hq => simp [← ih]
    | write id q hw hq => rw [← ih, hq]; simp
    | fail hw => exact ih

/-- While the writer is alive, every acknowledgement queued reaches the wire: some continuation (the
writer alone running) ends with all processed requests acknowledged. -/
theorem C43_all_written (P : Prims) (n : Net) (hw : n.writer = true) (h0 : n.wire ++ n.queue = n.done) :
    ∃ m, NRun P n m ∧ m.wire = n.done ∧ m.queue = [] ∧ m.done = n.done := by
  obtain ⟨q, hq⟩ : ∃ q, q = n.queue := ⟨_, rfl⟩
  induction q generalizing n with
  | nil => exact ⟨n, .refl n, by rw [← h0, ← hq]; simp, hq.symm, rfl⟩
  | cons id q ih =>
    have st : NStep P n { n with queue := q, wire := n.wire ++ [id] } := .write n id q hw hq.symm
    obtain ⟨m, hm, h1, h2, h3⟩ := ih { n with queue := q, wire := n.wire ++ [id] } hw
      (by simp only [← h0, ← hq]; simp) rfl
    refine ⟨m, ?_, h1, h2, h3⟩
    have : ∀ {x y z : Net}, NStep P x y → NRun P y z → NRun P x z := by
      intro x y z hxy hyz
      induction hyz with
      | refl => exact .step (.refl _) hxy
      | step _ h' ih' => exact .step ih' h'
    exact this st hm

/-- Two requests processed, the first one written. -/
example : ∃ n, NRun Demo.P ⟨world Demo.alice0, [], [], [], true⟩ n ∧ n.done = [4, 6] ∧ n.wire = [4] := by
  refine ⟨⟨world Demo.alice0, [4, 6], [6], [4], true⟩, ?_, rfl, rfl⟩
  refine .step (.step (.step (.refl _) (.listener _ (calm (fun _ => none) (fun _ => none) []) 4 [] _ (.ok ())
    rfl (by simp) (by decide))) (.listener _ (calm (fun _ => none) (fun _ => none) []) 6 [] _ (.ok ())
    rfl (by simp) (by decide))) (.write _ 4 [6] rfl rfl)

/-! ## C44 No acknowledgement without handling (refuted) -/

/-- Refutation, in general form: whatever error processing reported, the request is acknowledged. -/
theorem C44_failed_message_acked (P : Prims) (X : Ext) (w w' : World) (id : Nat) (body : Bytes) (e : Err)
    (h : process P X body w = (w', .err e)) :
    (listen P [(X, .msg id body)] w).1.log = w'.log ++ [.ack id] := by
  simp [listen, h]

/-- A message that cannot be decrypted (no session with the sender): nothing is handed to the
application, and the request is acknowledged. -/
theorem C44_undecryptable_acked : ∃ (X : Ext) (body : Bytes) (id : Nat),
    (process Demo.P X body (world Demo.alice0)).2.isErr = true ∧
    (listen Demo.P [(X, .msg id body)] (world Demo.alice0)).1.log = [.ack id] :=
  ⟨calm (fun _ => some { type := some 1, sourceUuid := "bob", sourceDevice := 1
                         content := some Demo.a1.2 }) (fun _ => none) [], List.replicate 20 5, 7,
    by decide +kernel, by decide +kernel⟩

/-- What does hold: a frame that is not a websocket message, or whose processing crashes, is not
acknowledged. -/
theorem C44_unreadable_not_acked_partial (P : Prims) (X : Ext) (w : World) (f : Frame)
    (hf : f = .garbage ∨ f = .closed ∨ ∃ id body, f = .msg id body ∧ (process P X body w).2 = .panic) :
    acks (listen P [(X, f)] w).1.log = acks w.log := by
  rcases hf with rfl | rfl | ⟨id, body, rfl, h⟩
  · rfl
  · rfl
  · obtain ⟨d, hd, hin⟩ := appends_process P X body w
    rcases hp : process P X body w with ⟨w', r⟩
    rw [hp] at h hd
    simp only at h hd
    subst h
    simp only [listen, hp, hd, acks, List.filterMap_append]
    have : acks d = [] := acks_none hin
    unfold acks at this
    simp [this]

example : (process Demo.P (calm (fun _ => none) (fun _ => none) []) (List.replicate 20 5)
    (world Demo.alice0)).2 = .panic := by decide +kernel

/-! ## C46 Dispatch is deterministic and exclusive -/

/-- Priority of the parts of a content. -/
def priority : List Kind := [.data, .sync, .call, .receipt, .typing, .null]

/-- The content has a part of that kind. -/
def hasPart (c : Content) : Kind → Bool
  | .data => c.data.isSome
  | .sync => c.sync.isSome
  | .call => c.call.isSome
  | .receipt => c.receipt.isSome
  | .typing => c.typing
  | .null => c.null

/-- The content with all other parts removed. -/
def only (c : Content) : Kind → Content
  | .data => { data := c.data }
  | .sync => { sync := c.sync }
  | .call => { call := c.call }
  | .receipt => { receipt := c.receipt }
  | .typing => { typing := c.typing }
  | .null => { null := c.null }

def expected (c : Content) : Option Kind := priority.find? (hasPart c)

/-- The callbacks and answers each kind of part may cause. -/
def causes : Kind → Ev → Prop
  | .data, .onMessage _ => True
  | .call, .onMessage _ => True
  | .sync, .onSyncSent _ _ => True
  | .sync, .onSyncRead _ _ => True
  | .sync, .sendUpdate _ => True
  | .sync, .sendVerified _ => True
  | .receipt, .onReceiptMessage _ => True
  | .typing, .onTyping _ => True
  | _, _ => False

theorem enter_first {x : M Unit} (k : Kind) (w : World) (hx : Appends (causes k) x) :
    ∃ d, ((M.emit (.enter k) >>= fun _ => x) w).1.log = w.log ++ .enter k :: d ∧ ∀ e ∈ d, causes k e := by
  obtain ⟨d, hd, hp⟩ := hx { w with log := w.log ++ [.enter k] }
  refine ⟨d, ?_, hp⟩
  rw [bind_run, emit_run]
  simp only at hd ⊢
  rw [hd]; simp

/-- Every content, whatever parts it has: the part of highest priority decides; the outcome is as if the
other parts were absent; exactly one internal handler is entered, and only its callbacks are invoked. -/
theorem C46_exclusive (P : Prims) (X : Ext) (src uuid : String) (ts : Nat) (c : Content) (k : Kind)
    (h : expected c = some k) (w : World) :
    dispatch P X src uuid ts c w = dispatch P X src uuid ts (only c k) w ∧
    ∃ d, (dispatch P X src uuid ts c w).1.log = w.log ++ .enter k :: d ∧ ∀ e ∈ d, causes k e := by
  obtain ⟨data, sync, call, receipt, typing, null⟩ := c
  cases data with
  | some dm =>
    simp [expected, priority, hasPart] at h; subst h
    exact ⟨rfl, enter_first _ w (appends_handleData _ _ _ _ _ _ fun _ => trivial)⟩
  | none =>
  cases sync with
  | some sm =>
    simp [expected, priority, hasPart] at h; subst h
    exact ⟨rfl, enter_first _ w (appends_handleSync _ _ _ _ _ (fun _ _ => trivial) (fun _ _ => trivial)
      (fun _ => trivial) (fun _ => trivial))⟩
  | none =>
  cases call with
  | some cm =>
    simp [expected, priority, hasPart] at h; subst h
    exact ⟨rfl, enter_first _ w (appends_callback _ _ _ trivial)⟩
  | none =>
  cases receipt with
  | some rm =>
    simp [expected, priority, hasPart] at h; subst h
    exact ⟨rfl, enter_first _ w (appends_handleReceiptMsg _ _ _ _ _ fun _ => trivial)⟩
  | none =>
  cases typing with
  | true =>
    simp [expected, priority, hasPart] at h; subst h
    exact ⟨rfl, enter_first _ w (appends_callback _ _ _ trivial)⟩
  | false =>
  cases null with
  | true =>
    simp [expected, priority, hasPart] at h; subst h
    exact ⟨rfl, [], by simp [dispatch, emit_run], by simp⟩
  | false => simp [expected, priority, hasPart] at h

/-- A content without any known part does nothing. -/
theorem C46_nothing (P : Prims) (X : Ext) (src uuid : String) (ts : Nat) (c : Content)
    (h : expected c = none) (w : World) : dispatch P X src uuid ts c w = (w, .ok ()) := by
  obtain ⟨data, sync, call, receipt, typing, null⟩ := c
  cases data <;> cases sync <;> cases call <;> cases receipt <;> cases typing <;> cases null <;>
    simp [expected, priority, hasPart] at h
  rfl

/-- A content with a call part, a typing part and a data part is treated as its data part. -/
example : expected { data := some { timestamp := some 3 }, call := some {}, typing := true } = some .data ∧
    (dispatch Demo.P (calm (fun _ => none) (fun _ => none) []) "a" "b" 1
      { data := some { timestamp := some 3 }, call := some {}, typing := true } (world Demo.alice0)).1.log
    = [.enter .data, .onMessage { source := "a", sourceUuid := "b", message := [], timestamp := 3 }] := by
  decide +kernel

/-! ## C45 A decrypted message reaches the application -/

/-- Data messages: what the application is told. For every complete data message without flags and
attachments, the callback gets exactly its content. -/
theorem C45_data_delivered (P : Prims) (X : Ext) (src uuid : String) (ts t : Nat) (c : Content)
    (dm : DataMsg) (g : Option Bytes) (w : World) (hc : c.data = some dm) (ht : dm.timestamp = some t)
    (ha : dm.attachments = []) (hf : dm.flags ≠ 1) (hf' : dm.flags ≠ 4) (hg : X.groupsV2 src dm = .ok g)
    (hcb : X.cb.message = true) :
    dispatch P X src uuid ts c w =
      ({ w with log := w.log ++ [.enter .data, .onMessage
          { source := src, sourceUuid := uuid, message := dm.body, timestamp := t, group := g
            expireTimer := dm.expireTimer, profileKey := dm.profileKey, quote := dm.quote
            contact := dm.contact, sticker := dm.sticker, reaction := dm.reaction }] }, .ok ()) := by
  simp [dispatch, hc, handleData, handleFlags, hf, hf', ha, Files.handleAttachments, derefTs, ht, hg,
    callback, hcb, bind_run, emit_run, lift_run, pure_run]

/-- The same with attachments: the callback gets their plaintexts, in order. -/
theorem C45_attachments_delivered (P : Prims) (X : Ext) (src uuid : String) (ts t : Nat) (c : Content)
    (dm : DataMsg) (g : Option Bytes) (atts : List Bytes) (w : World) (hc : c.data = some dm)
    (ht : dm.timestamp = some t)
    (ha : Files.handleAttachments P X.fetch AttPtr.key dm.attachments = .ok atts)
    (hf : dm.flags ≠ 1) (hf' : dm.flags ≠ 4) (hg : X.groupsV2 src dm = .ok g) (hcb : X.cb.message = true) :
    dispatch P X src uuid ts c w =
      ({ w with log := w.log ++ [.enter .data, .onMessage
          { source := src, sourceUuid := uuid, message := dm.body, timestamp := t, group := g
            attachments := atts, expireTimer := dm.expireTimer, profileKey := dm.profileKey, quote := dm.quote
            contact := dm.contact, sticker := dm.sticker, reaction := dm.reaction }] }, .ok ()) := by
  simp [dispatch, hc, handleData, handleFlags, hf, hf', ha, derefTs, ht, hg,
    callback, hcb, bind_run, emit_run, lift_run, pure_run]

/-- Transcripts of messages sent from another device: the callback gets the content with the recipient, by
number and by UUID, and the time of the transcript. Shared contacts are not passed on. -/
theorem C45_transcript_delivered (P : Prims) (X : Ext) (src uuid : String) (ts t : Nat) (c : Content)
    (sm : SyncMsg) (s : Sent) (dm : DataMsg) (g : Option Bytes) (atts : List Bytes) (w : World)
    (hc0 : c.data = none) (hc : c.sync = some sm) (hs : sm.sent = some s) (hm : s.message = some dm)
    (ht : dm.timestamp = some t)
    (ha : Files.handleAttachments P X.fetch AttPtr.key dm.attachments = .ok atts)
    (hf : dm.flags ≠ 1) (hf' : dm.flags ≠ 4) (hg : X.syncGroupsV2 s.destE164 dm = .ok g)
    (hcb : X.cb.syncSent = true) :
    dispatch P X src uuid ts c w =
      ({ w with log := w.log ++ [.enter .sync, .onSyncSent
          { source := s.destE164, sourceUuid := s.destUuid, message := dm.body, timestamp := t, group := g
            attachments := atts, expireTimer := dm.expireTimer, profileKey := dm.profileKey, quote := dm.quote
            contact := none, sticker := dm.sticker, reaction := dm.reaction } ts] }, .ok ()) := by
  simp [dispatch, hc0, hc, handleSync, hs, handleSyncSent, hm, handleFlags, hf, hf', ha, derefTs, ht, hg,
    callback, hcb, bind_run, emit_run, lift_run, pure_run]

/-- Read receipts of another device: one callback per entry, in order. -/
theorem C45_reads_delivered (P : Prims) (X : Ext) (src uuid : String) (ts : Nat) (c : Content)
    (sm : SyncMsg) (w : World) (hc0 : c.data = none) (hc : c.sync = some sm) (hs : sm.sent = none)
    (hcon : sm.contacts = false) (hgr : sm.groups = false) (hreq : sm.request = none) (hr : sm.read ≠ [])
    (hcb : X.cb.syncRead = true) :
    dispatch P X src uuid ts c w =
      ({ w with log := w.log ++ .enter .sync :: sm.read.map (fun r => .onSyncRead r.1 r.2) }, .ok ()) := by
  simp [dispatch, hc0, hc, handleSync, hs, hcon, hgr, hreq, hr, handleSyncRead, hcb, bind_run, emit_run, M.update]

/-- What a receipt of each type is shown as. -/
def receiptText : Nat → String
  | 0 => "deliveryReceiptMessage"
  | 1 => "readReceiptMessage"
  | _ => "sentReceiptMessage"

/-- The words for the parts of a call notice, in the order in which they are shown. -/
def callWords (c : CallMsg) : List String :=
  ([(c.answer, "answer"), (c.offer, "offer"), (c.hangup, "hangup"), (c.busy, "busy"), (c.legacyHangup, "hangup"),
    (c.iceUpdate, "ring")].filter (·.1)).map (·.2)

/-- Calls, receipts and typing notices: from the sender, with the time they are about. -/
theorem C45_notices_delivered (P : Prims) (X : Ext) (src uuid : String) (ts : Nat) (c : Content) (w : World)
    (h0 : c.data = none) (h1 : c.sync = none) :
    (∀ cm, c.call = some cm → X.cb.message = true →
      dispatch P X src uuid ts c w = ({ w with log := w.log ++ [.enter .call, .onMessage
        { source := src, sourceUuid := uuid, message := ascii ("Call " ++ String.join (callWords cm)),
          timestamp := ts }] }, .ok ())) ∧
    (∀ r t l ty, c.call = none → c.receipt = some r → r.timestamps = t :: l → r.type = some ty →
      X.cb.receiptMessage = true →
      dispatch P X src uuid ts c w = ({ w with log := w.log ++ [.enter .receipt, .onReceiptMessage
        { source := src, sourceUuid := uuid, timestamp := t,
          message := ascii (receiptText ty) }] }, .ok ())) ∧
    (c.call = none → c.receipt = none → c.typing = true → X.cb.typing = true →
      dispatch P X src uuid ts c w = ({ w with log := w.log ++ [.enter .typing, .onTyping
        { source := src, sourceUuid := uuid, message := ascii "typingMessage", timestamp := ts }] }, .ok ())) := by
  refine ⟨?_, ?_, ?_⟩
  · intro cm hc hcb
    have ht : callText cm = "Call " ++ String.join (callWords cm) := by
      clear hc
      obtain ⟨a, b, c, d, e, f⟩ := cm
      revert a b c d e f
      decide +kernel
    rw [← ht]
    simp [dispatch, h0, h1, hc, handleCall, callback, hcb, bind_run, emit_run]
  · intro r t l ty hc hr ht hty hcb
    have hm : (if ty = 1 then "readReceiptMessage" else if ty = 0 then "deliveryReceiptMessage"
        else "sentReceiptMessage") = receiptText ty := by
      rcases ty with _ | _ | n <;> simp [receiptText]
    simp only [dispatch, h0, h1, hc, hr, handleReceiptMsg, ht, hty, hm, callback, hcb, if_true, bind_run, emit_run]
    simp
  · intro hc hr ht hcb
    simp [dispatch, h0, h1, hc, hr, ht, handleTyping, callback, hcb, bind_run, emit_run]

/-- The sender's padded content is what is parsed: with C29, if the peer encrypted `padMessage plain` and
it was decrypted, then `plain` is what is dispatched, from that sender. -/
def Dispatched (P : Prims) (X : Ext) (env : Envelope) (w : World) (ws : List Write) (pt : Bytes) : Prop :=
  handleReceived P X (some env) w =
    handleMessage P X env.sourceUuid env.sourceUuid env.serverTimestamp (Files.stripPadding pt)
      { w with store := applyWrites w.store ws }

theorem recid_plain (s : String) (h : s.toList.head? ≠ some '+') :
    legacyId s = s := by
  unfold legacyId recID
  rcases hs : s.toList with _ | ⟨c, l⟩
  · rfl
  · rw [hs] at h
    simp only [List.head?_cons, ne_eq, Option.some.injEq] at h
    split
    · rename_i h1
      split at h1
      · exact absurd h1 (by simp)
      · rename_i h2
        simp only [List.cons.injEq] at h2
        exact absurd h2.1 h
      · cases h1; rfl
    · rfl

/-- For every envelope of type `CIPHERTEXT` whose source does not start with `+`: either the message
was decrypted and its content is dispatched (with the advanced session stored), or no session changed
and no effect happened. -/
theorem C45_ciphertext_partial (P : Prims) (X : Ext) (env : Envelope) (w : World)
    (hty : env.type = some 1) (hsrc : env.sourceUuid.toList.head? ≠ some '+') :
    (∃ msg wm pt, env.content = some msg ∧ loadWhisper msg = .ok wm ∧
      (decryptWhisper P X.env X.rnd w.store env.sourceUuid env.sourceDevice wm).res = .ok pt ∧
      Dispatched P X env w
        (decryptWhisper P X.env X.rnd w.store env.sourceUuid env.sourceDevice wm).writes pt) ∨
    ((handleReceived P X (some env) w).1.store.sessions = w.store.sessions ∧
      (handleReceived P X (some env) w).1.log = w.log) := by
  have e0 : handleReceived P X (some env) = handleCiphertext P X env := by
    simp [handleReceived, hty]
  unfold Dispatched
  rw [e0]
  unfold handleCiphertext
  cases hm : env.content with
  | none => right; exact ⟨rfl, rfl⟩
  | some msg =>
    simp only
    cases hl : loadWhisper msg with
    | err e => right; exact ⟨rfl, rfl⟩
    | panic => right; exact ⟨rfl, rfl⟩
    | ok wm =>
      rw [lift_ok_bind, recid_plain _ hsrc]
      have hf := decryptWhisper_fail P X.env X.rnd w.store env.sourceUuid env.sourceDevice wm
      have hr := decryptWhisper_rnd P X.env X.rnd X.rnd' w.store env.sourceUuid env.sourceDevice wm
      have hf' := decryptWhisper_fail P X.env X.rnd' w.store env.sourceUuid env.sourceDevice wm
      rcases ho : decryptWhisper P X.env X.rnd w.store env.sourceUuid env.sourceDevice wm with ⟨ws, res⟩
      rcases ho' : decryptWhisper P X.env X.rnd' w.store env.sourceUuid env.sourceDevice wm with ⟨ws', res'⟩
      rw [ho, ho'] at hr
      rw [ho] at hf
      rw [ho'] at hf'
      simp only at hr hf hf'
      subst hr
      cases res with
      | ok pt =>
        left
        refine ⟨msg, wm, pt, rfl, hl, by rw [ho], ?_⟩
        rw [bind_run, cipher_ok _ w ws pt ho, ho]
      | panic =>
        right
        simp only [Res.isOk, Bool.false_eq_true, false_or] at hf
        subst hf
        rw [bind_run, cipher_panic _ w [] ho]
        exact ⟨rfl, rfl⟩
      | err e =>
        right
        simp only [Res.isOk, Bool.false_eq_true, false_or] at hf hf'
        subst hf; subst hf'
        have hn : ({ w with store := applyWrites w.store [] } : World) = w := rfl
        rw [bind_run, cipher_err _ w [] e ho, hn]
        by_cases hd : e = .duplicate
        · subst hd; exact ⟨rfl, rfl⟩
        · by_cases hi : e = .invalidMessage
          · subst hi
            simp only
            rw [bind_run, cipher_err _ w [] _ ho', hn]
            exact ⟨rfl, rfl⟩
          · cases e <;> simp_all [lift_run]

/-- The same for `PREKEY_BUNDLE`, for every source. -/
theorem C45_prekey_partial (P : Prims) (X : Ext) (env : Envelope) (w : World)
    (hty : env.type = some 3) :
    (∃ m pt, loadPreKeyMsg (env.content.getD []) = .ok m ∧
      (decryptPreKey P X.env X.rnd w.store env.sourceUuid env.sourceDevice m).res = .ok pt ∧
      Dispatched P X env w
        (decryptPreKey P X.env X.rnd w.store env.sourceUuid env.sourceDevice m).writes pt) ∨
    ((handleReceived P X (some env) w).1.store.sessions = w.store.sessions ∧
      (handleReceived P X (some env) w).1.log = w.log) := by
  have e0 : handleReceived P X (some env) = handlePreKey P X env := by
    simp [handleReceived, hty]
  unfold Dispatched
  rw [e0]
  unfold handlePreKey
  cases hl : loadPreKeyMsg (env.content.getD []) with
  | err e => right; exact ⟨rfl, rfl⟩
  | panic => right; exact ⟨rfl, rfl⟩
  | ok m =>
    rw [lift_ok_bind, bind_run]
    have hf := (C05_failed_decrypt_keeps_sessions P X.env X.rnd w.store env.sourceUuid env.sourceDevice).2 m
    rcases ho : decryptPreKey P X.env X.rnd w.store env.sourceUuid env.sourceDevice m with ⟨ws, res⟩
    rw [ho] at hf
    cases res with
    | ok pt => left; exact ⟨m, pt, rfl, by rw [ho], by rw [cipher_ok _ w ws pt ho, ho]⟩
    | panic =>
      right
      have hs := funext (hf (by intro pt; simp))
      rw [cipher_panic _ w ws ho]
      exact ⟨hs, rfl⟩
    | err e =>
      right
      have hs := funext (hf (by intro pt; simp))
      rw [cipher_err _ w ws e ho]
      simp only
      split
      · exact ⟨hs, rfl⟩
      · exact ⟨hs, rfl⟩

/-- Bob's reply to Alice. -/
def reply : Store × Bytes := Demo.send Demo.b1.1 "alice" (Files.padMessage [42])

/-- Alice gets Bob's reply from the address `src`; its content is a data message with body "hi". -/
def replyExt : Ext :=
  calm (fun _ => none) (fun b => if b = [42] then some { data := some { body := [104, 105], timestamp := some 5 } }
    else none) []

def replyEnv (src : String) : Envelope :=
  { type := some 1, sourceUuid := src, sourceDevice := 1, content := some reply.2 }

/-- The hypotheses are met: Bob's reply arrives under the address of the session and is delivered. -/
example : (handleReceived Demo.P replyExt (some (replyEnv "bob")) (world Demo.a1.1)).2 = .ok () ∧
    (handleReceived Demo.P replyExt (some (replyEnv "bob")) (world Demo.a1.1)).1.log =
      [.enter .data, .onMessage { source := "bob", sourceUuid := "bob", message := [104, 105]
                                  timestamp := 5 }] := by decide +kernel

/-- A transcript of a message to Carol, sent from another device. -/
example : (dispatch Demo.P replyExt "bob" "bob" 9
      { sync := some { sent := some { destE164 := "+1", destUuid := "carol", message := some { body := [7], timestamp := some 5 } } } }
      (world Demo.a1.1)).1.log =
    [.enter .sync, .onSyncSent { source := "+1", sourceUuid := "carol", message := [7], timestamp := 5 } 9] := by
  decide +kernel

/-- The first message (a prekey message), too. -/
example : (handleReceived Demo.P { replyExt with parseContent := fun b => if b = [1] then some { typing := true } else none }
      (some { type := some 3, sourceUuid := "alice", sourceDevice := 1, content := some Demo.a1.2 })
      (world Demo.bob0)).1.log =
    [.enter .typing, .onTyping ⟨"alice", "alice", ascii "typingMessage", 0, [], none, 0, 0, [], none, none,
      none, none⟩] := by
  decide +kernel

/-- Refutation for the legacy address form: the same reply from "+bob" is decrypted under the session
of "bob", whose advanced state is stored (the message cannot be decrypted again), but an error is
returned and nothing is dispatched. -/
theorem C45_legacy_message_lost :
    (handleReceived Demo.P replyExt (some (replyEnv "+bob")) (world Demo.a1.1)).2 = .err .invalidMessage ∧
    (handleReceived Demo.P replyExt (some (replyEnv "+bob")) (world Demo.a1.1)).1.log = [] ∧
    (handleReceived Demo.P replyExt (some (replyEnv "+bob")) (world Demo.a1.1)).1.store.sessions
        (sessName "bob" 1) ≠ Demo.a1.1.sessions (sessName "bob" 1) ∧
    (Demo.recvW (handleReceived Demo.P replyExt (some (replyEnv "+bob")) (world Demo.a1.1)).1.store
        "bob" 9 reply.2).2 = .err .invalidMessage := by
  decide +kernel

/-! ## C47 Incoming content never crashes the client (refuted) -/

/-- Refutation: for every environment, sender and state, these contents crash the process: a receipt
without timestamps, a receipt without type, a data message without timestamp (and no attachments or
flags). -/
theorem C47_contents_that_crash (P : Prims) (X : Ext) (src uuid : String) (ts : Nat) (w : World)
    (c : Content)
    (h : (c.data = none ∧ c.sync = none ∧ c.call = none ∧
          ∃ r, c.receipt = some r ∧ (r.timestamps = [] ∨ r.type = none)) ∨
      (∃ dm, c.data = some dm ∧ dm.timestamp = none ∧ dm.attachments = [] ∧ dm.flags = 0)) :
    (dispatch P X src uuid ts c w).2 = .panic := by
  rcases h with ⟨h1, h2, h3, r, hr, h⟩ | ⟨dm, hd, ht, ha, hf⟩
  · simp only [dispatch, h1, h2, h3, hr, bind_run, emit_run, handleReceiptMsg]
    rcases h with h | h
    · rw [h]; rfl
    · rw [h]; cases r.timestamps <;> rfl
  · simp [dispatch, hd, handleData, handleFlags, hf, ha, Files.handleAttachments, derefTs, ht, bind_run,
      emit_run, lift_run, pure_run]

/-- Refutation at the listener: a request whose body has 1 to 9 bytes, and one that carries no parsable
envelope, or one without type, end the process (and with it all further processing). -/
theorem C47_frames_that_crash (P : Prims) (X : Ext) (w : World) (id : Nat) (body : Bytes)
    (fs : List (Ext × Frame))
    (h : (body ≠ [] ∧ body.length < 10) ∨
      (body ≠ [] ∧ ∃ pt, Files.decryptReceivedMessage P X.signalingKey body = .ok pt ∧
        (X.parseEnvelope pt = none ∨ ∃ e, X.parseEnvelope pt = some e ∧ e.type = none))) :
    listen P ((X, .msg id body) :: fs) w = (w, .crashed) := by
  have : process P X body w = (w, .panic) := by
    rcases h with ⟨h1, h2⟩ | ⟨h1, pt, h2, h3⟩
    · simp [process, h1, Files.decryptReceivedMessage, h2, lift_run]
    · simp only [process, h1, h2, if_false]
      rcases h3 with h3 | ⟨e, h3, h4⟩
      · rw [h3]; rfl
      · rw [h3]; simp [handleReceived, h4, lift_run]
  simp [listen, this]

/-- A frame as in the second case: 20 bytes without valid MAC are taken as the envelope. -/
example : ∃ pt, Files.decryptReceivedMessage Demo.P (List.replicate 52 1) (List.replicate 20 5) = .ok pt :=
  ⟨List.replicate 20 5, by decide +kernel⟩

/-- A part is complete: the fields the handlers dereference are present, and the attachments can be
opened without crashing (C28, C32: keys and blobs long enough). -/
def CompleteData (P : Prims) (X : Ext) (dm : DataMsg) : Prop :=
  dm.timestamp ≠ none ∧ ∀ a ∈ dm.attachments, X.fetch a ≠ .panic ∧
    ∀ b, X.fetch a = .ok b → Files.handleSingleAttachment P a.key b ≠ .panic

structure Complete (P : Prims) (X : Ext) (c : Content) : Prop where
  data : ∀ dm, c.data = some dm → CompleteData P X dm
  sent : ∀ sm s dm, c.sync = some sm → sm.sent = some s → s.message = some dm → CompleteData P X dm
  receipt : ∀ r, c.receipt = some r → r.timestamps ≠ [] ∧ r.type ≠ none

/-- The environment's own calls do not panic. -/
structure Sane (X : Ext) : Prop where
  groups : ∀ s d, X.groupsV2 s d ≠ .panic
  syncGroups : ∀ s d, X.syncGroupsV2 s d ≠ .panic
  update : ∀ t s, (X.sendUpdate t s).2 ≠ .panic
  verified : ∀ v s, (X.sendVerified v s).2 ≠ .panic

def NoPanic {α : Type} (x : M α) : Prop := ∀ w, (x w).2 ≠ .panic

theorem noPanic_bind {α β : Type} (x : M α) (f : α → M β) (hx : NoPanic x) (hf : ∀ a, NoPanic (f a)) :
    NoPanic (x >>= f) := by
  intro w
  rw [bind_run]
  have := hx w
  rcases h : x w with ⟨w', r⟩
  rw [h] at this
  cases r with
  | ok a => exact hf a w'
  | err e => simp
  | panic => exact absurd rfl this

theorem noPanic_lift {α : Type} (r : Res α) (h : r ≠ .panic) : NoPanic (M.lift r) := fun _ => h
theorem noPanic_answer (f : Send.State → Send.State × Res Unit) (h : ∀ s, (f s).2 ≠ .panic) : NoPanic (M.answer f) :=
  fun _ => h _
theorem noPanic_pure {α : Type} (a : α) : NoPanic (pure a : M α) := fun w => by rw [pure_run]; simp
theorem noPanic_emit (e : Ev) : NoPanic (M.emit e) := fun w => by rw [emit_run]; simp
theorem noPanic_update (f : World → World) : NoPanic (M.update f) := fun w => by rw [update_run]; simp
theorem noPanic_callback (b : Bool) (e : Ev) : NoPanic (callback b e) := by
  unfold callback; split
  · exact noPanic_emit e
  · exact noPanic_pure ()

theorem noPanic_flags (X : Ext) (src : String) (dm : DataMsg) : NoPanic (handleFlags X src dm) := by
  unfold handleFlags
  split
  · refine noPanic_bind _ _ (noPanic_lift _ ?_) fun _ => noPanic_bind _ _ (noPanic_update _) fun _ =>
      noPanic_bind _ _ (noPanic_update _) fun _ => noPanic_pure _
    unfold recID; split <;> simp
  · split
    · refine noPanic_bind _ _ (noPanic_bind _ _ (noPanic_update _) fun _ => noPanic_lift _ ?_) fun _ =>
        noPanic_pure _
      split <;> simp
    · exact noPanic_pure _

theorem noPanic_attachments (P : Prims) (X : Ext) (l : List AttPtr)
    (h : ∀ a ∈ l, X.fetch a ≠ .panic ∧
      ∀ b, X.fetch a = .ok b → Files.handleSingleAttachment P a.key b ≠ .panic) :
    Files.handleAttachments P X.fetch AttPtr.key l ≠ .panic := by
  induction l with
  | nil => simp [Files.handleAttachments]
  | cons a l ih =>
    obtain ⟨h1, h2⟩ := h a List.mem_cons_self
    have ih' := ih (fun x hx => h x (List.mem_cons_of_mem _ hx))
    unfold Files.handleAttachments
    rcases hf : X.fetch a with b | e | _
    · simp only [Res.ok_bind]
      have h3 := h2 b hf
      rcases h4 : Files.handleSingleAttachment P a.key b with p | e | _
      · simp only [Res.ok_bind]
        rcases h5 : Files.handleAttachments P X.fetch AttPtr.key l with p | e | _
        · simp
        · simp
        · exact absurd h5 ih'
      · simp
      · exact absurd h4 h3
    · simp
    · exact absurd hf h1

theorem noPanic_ts (dm : DataMsg) (h : dm.timestamp ≠ none) : NoPanic (derefTs dm) := by
  unfold derefTs
  apply noPanic_lift
  cases ht : dm.timestamp with
  | none => exact absurd ht h
  | some t => simp

/-- What does hold: complete contents never crash the client, in any state; they are handled or an error
is returned. -/
theorem C47_complete_content_partial (P : Prims) (X : Ext) (src uuid : String) (ts : Nat) (c : Content)
    (hX : Sane X) (hc : Complete P X c) (w : World) : (dispatch P X src uuid ts c w).2 ≠ .panic := by
  have main : NoPanic (dispatch P X src uuid ts c) := by
    unfold dispatch
    split
    · rename_i dm hd
      obtain ⟨h1, h2⟩ := hc.data dm hd
      refine noPanic_bind _ _ (noPanic_emit _) fun _ => ?_
      unfold handleData
      refine noPanic_bind _ _ (noPanic_flags _ _ _) fun _ => ?_
      refine noPanic_bind _ _ (noPanic_lift _ (noPanic_attachments _ _ _ h2)) fun _ => ?_
      refine noPanic_bind _ _ (noPanic_ts dm h1) fun _ => ?_
      exact noPanic_bind _ _ (noPanic_lift _ (hX.groups _ _)) fun _ => noPanic_callback _ _
    · split
      · rename_i sm hs
        refine noPanic_bind _ _ (noPanic_emit _) fun _ => ?_
        unfold handleSync
        split
        · rename_i s hsent
          unfold handleSyncSent
          split
          · exact noPanic_lift _ (by simp)
          · rename_i dm hd
            obtain ⟨h1, h2⟩ := hc.sent sm s dm hs hsent hd
            refine noPanic_bind _ _ (noPanic_flags _ _ _) fun _ => ?_
            refine noPanic_bind _ _ (noPanic_lift _ (noPanic_attachments _ _ _ h2)) fun _ => ?_
            refine noPanic_bind _ _ (noPanic_lift _ (hX.syncGroups _ _)) fun _ => ?_
            exact noPanic_bind _ _ (noPanic_ts dm h1) fun _ => noPanic_callback _ _
        · repeat' split
          all_goals first
            | exact noPanic_pure _
            | exact noPanic_update _
            | exact noPanic_bind _ _ (noPanic_emit _) fun _ => noPanic_answer _ (hX.verified _)
            | skip
          unfold handleSyncRequest
          split
          · exact noPanic_bind _ _ (noPanic_emit _) fun _ => noPanic_answer _ (hX.update _)
          · exact noPanic_pure _
      · split
        · exact noPanic_bind _ _ (noPanic_emit _) fun _ => noPanic_callback _ _
        · split
          · rename_i rm hr
            obtain ⟨h1, h2⟩ := hc.receipt rm hr
            refine noPanic_bind _ _ (noPanic_emit _) fun _ => ?_
            unfold handleReceiptMsg
            split
            · rename_i h; exact absurd h h1
            · split
              · rename_i h; exact absurd h h2
              · exact noPanic_callback _ _
          · split
            · exact noPanic_bind _ _ (noPanic_emit _) fun _ => noPanic_callback _ _
            · split
              · exact noPanic_emit _
              · exact noPanic_pure _
  exact main w

/-- A complete content with an attachment (whose download fails, so that an error is reported). -/
example : Complete Demo.P (calm (fun _ => none) (fun _ => none) [])
    { data := some { timestamp := some 3, attachments := [⟨[], [104]⟩] } } ∧
    Sane (calm (fun _ => none) (fun _ => none) []) := by
  refine ⟨⟨?_, ?_, ?_⟩, ⟨?_, ?_, ?_, ?_⟩⟩ <;> simp [CompleteData, calm]

/-! ## C48 Session reset request -/

/-- The listing of the sessions directory is right for the given store and all stores with fewer
sessions. -/
def ListsBelow (X : Ext) (st : Store) : Prop :=
  ∀ st' : Store, (∀ n, st'.sessions n ≠ .absent → st.sessions n ≠ .absent) → Listing st' (X.list st')

/-- The other form of an address under which the sender's sessions may be stored. -/
def withoutPlus (s : String) : String := String.ofList (if s.toList.head? = some '+' then s.toList.tail else s.toList)

theorem recID_eq (s : String) (h : s ≠ "") : recID s = .ok (withoutPlus s) := by
  have hl : s.toList ≠ [] := by
    intro h'; apply h
    rw [← String.ofList_toList (s := s), h']
  unfold recID withoutPlus
  rcases hs : s.toList with _ | ⟨c, l⟩
  · exact absurd hs hl
  · by_cases hc : c = '+'
    · subst hc; simp
    · split
      · rename_i h1; simp at h1
      · rename_i h1; simp at h1; exact absurd h1.1 hc
      · have : s = String.ofList (c :: l) := by rw [← hs, String.ofList_toList]
        simp [hc, ← this]

theorem handleFlags_end (X : Ext) (src : String) (dm : DataMsg) (w : World) (hf : dm.flags = 1)
    (hs : src ≠ "") :
    handleFlags X src dm w =
      (let st1 := deleteAllSessions w.store (X.list w.store) (withoutPlus src)
       { w with store := deleteAllSessions st1 (X.list st1) src }, .ok 1) := by
  simp [handleFlags, hf, recID_eq src hs, bind_run, lift_run, deleteAll, update_run, pure_run]

theorem deleteAll_sub (st : Store) (names : List Name) (rec : String) (n : Name)
    (h : (deleteAllSessions st names rec).sessions n ≠ .absent) : st.sessions n ≠ .absent := by
  unfold deleteAllSessions at h
  rw [foldl_delete] at h
  split at h
  · exact absurd rfl h
  · exact h

/-- The state after `handleFlags` on an end-session request, stated by its effects: no device of the
sender keeps a session, under either form of its address; every other session, and everything else, is
untouched. For all stores and senders. -/
theorem C48_end_session_partial (X : Ext) (src : String) (dm : DataMsg) (w : World) (hf : dm.flags = 1)
    (hs : src ≠ "") (hl : ListsBelow X w.store) :
    (∀ dev, dev < 2 ^ 32 →
      containsSession (handleFlags X src dm w).1.store src dev = false ∧
      containsSession (handleFlags X src dm w).1.store (withoutPlus src) dev = false) ∧
    (∀ r d, r ≠ src → r ≠ withoutPlus src →
      (handleFlags X src dm w).1.store.sessions (sessName r d) = w.store.sessions (sessName r d)) ∧
    (handleFlags X src dm w).1.contacts = w.contacts ∧ (handleFlags X src dm w).1.log = w.log ∧
    (handleFlags X src dm w).2 = .ok 1 := by
  rw [handleFlags_end X src dm w hf hs]
  obtain ⟨st1, hst1⟩ : ∃ st1, st1 = deleteAllSessions w.store (X.list w.store) (withoutPlus src) := ⟨_, rfl⟩
  have a1 := C11_delete_all w.store (X.list w.store) (withoutPlus src) (hl _ fun _ h => h)
  have a2 := C11_delete_all st1 (X.list st1) src (hl _ fun n h => by
    rw [hst1] at h; exact deleteAll_sub _ _ _ _ h)
  simp only [← hst1] at a1 ⊢
  refine ⟨fun dev hd => ⟨a2.1 dev hd, ?_⟩, ?_, trivial, trivial, trivial⟩
  · have h1 := a1.1 dev hd
    unfold containsSession at h1 ⊢
    simp only [ne_eq, decide_not, Bool.not_eq_eq_eq_not, Bool.not_false, decide_eq_true_eq] at h1 ⊢
    by_contra hc
    exact deleteAll_sub st1 (X.list st1) src _ hc h1
  · intro r d h1 h2
    rw [a2.2 r d h1, a1.2 r d h2]

/-- An incoming data message with that flag resets the sender's sessions before anything else: this is
the state in which attachments and groups are handled, whatever their outcome. -/
theorem C48_incoming_data (P : Prims) (X : Ext) (src uuid : String) (ts : Nat) (c : Content) (dm : DataMsg)
    (w : World) (hc : c.data = some dm) (hf : dm.flags = 1) (hs : uuid ≠ "") :
    (dispatch P X src uuid ts c w).1.store =
      (handleFlags X uuid dm w).1.store := by
  rw [handleFlags_end X uuid dm w hf hs]
  simp only [dispatch, hc, bind_run, emit_run, handleData, handleFlags_end X uuid dm _ hf hs]
  simp only [lift_run]
  rcases Files.handleAttachments P X.fetch AttPtr.key dm.attachments with _ | _ | _ <;> try rfl
  simp only [derefTs, lift_run]
  rcases dm.timestamp with _ | t <;> try rfl
  rcases X.groupsV2 src dm with _ | _ | _ <;> try rfl
  simp only [callback]
  split <;> rfl

/-- Sessions with bob (two devices), with "+bob" and with carol. -/
def crowded : Store :=
  { Demo.alice0 with
    sessions := fun n => if n = sessName "bob" 1 ∨ n = sessName "bob" 2 ∨ n = sessName "+bob" 1 ∨
      n = sessName "carol" 2 then .good {} else .absent }

def crowdedExt : Ext :=
  calm (fun _ => none) (fun _ => none)
    [sessName "bob" 1, sessName "bob" 2, sessName "+bob" 1, sessName "carol" 2]

example : ListsBelow crowdedExt crowded := by
  intro st' h n
  simp only [crowdedExt, calm, List.mem_filter, decide_eq_true_eq, and_iff_right_iff_imp]
  intro hn
  have := h n hn
  simp only [crowded] at this
  split at this
  · simpa using ‹_›
  · exact absurd rfl this

/-- The reset removes bob's sessions under both forms and keeps carol's. -/
example : let w := (handleFlags crowdedExt "+bob" { flags := 1 } (world crowded)).1
    containsSession w.store "bob" 2 = false ∧ containsSession w.store "+bob" 1 = false ∧
    containsSession w.store "carol" 2 = true := by decide +kernel

/-- Refutation of the full statement: the flag is compared with equality, so an end-session bit combined
with another flag (here `EXPIRATION_TIMER_UPDATE`) deletes nothing, in any state. -/
theorem C48_combined_flags_ignored (P : Prims) (X : Ext) (src uuid : String) (ts : Nat) (c : Content)
    (dm : DataMsg) (w : World) (hc : c.data = some dm) (hf : dm.flags = 3) :
    (dispatch P X src uuid ts c w).1.store = w.store := by
  simp only [dispatch, hc, bind_run, emit_run, handleData, handleFlags, hf]
  simp only [show (3 : Nat) ≠ 1 by decide, show (3 : Nat) ≠ 4 by decide, if_false, pure_run, lift_run]
  rcases Files.handleAttachments P X.fetch AttPtr.key dm.attachments with _ | _ | _ <;> try rfl
  simp only [derefTs, lift_run]
  rcases dm.timestamp with _ | t <;> try rfl
  rcases X.groupsV2 src dm with _ | _ | _ <;> try rfl
  simp only [callback]
  split <;> rfl

/-- Bit 0 of these flags is the end-session flag. -/
example : Nat.testBit 3 0 = true := by decide

end Verif.Props.Receive
