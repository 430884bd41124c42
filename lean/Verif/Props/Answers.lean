import Verif.Proof.Answers
import Verif.Props.Others
/-!
# Messages sent in answer (C148)

Handling what others send makes the client write to nobody but the user's own devices.
-/
namespace Verif.Props
open Verif Verif.Keys Verif.Api Verif.Clients Verif.Answers

/-! ## What holds -/

/-- Whatever is received, in any state: all requests made are to the user's own account, after a request for contacts
or groups, or to an account named in a verification; so are all changes of the lists of devices. What is missing: that
those come from the user's own devices. -/
theorem C148_only_asked_partial (P : Prims) (me : String) (fs : List (Receive.Ext × Receive.Frame))
    (hX : ∀ x ∈ fs, Real P me x.1) (w : Receive.World) :
    ∃ evs new, (Receive.listen P fs w).1.log = w.log ++ evs ∧ (Receive.listen P fs w).1.sent = w.sent ++ new ∧
      (∀ r ∈ new, Asked me evs r.dest) ∧
      ∀ u, (Receive.listen P fs w).1.devices u ≠ w.devices u → Asked me evs u := by
  obtain ⟨d, hd, ⟨new, hn, hq⟩, hdev⟩ := obeys_listen P fs hX w
  exact ⟨d, new, hd, hn, hq, hdev⟩

/-- A frame without a sync part, or with a data part: nothing is sent. -/
theorem C148_no_sync_partial (P : Prims) (me : String) (X : Receive.Ext) (hX : Real P me X) (c : Client) (id : Nat)
    (body : Bytes)
    (h : ∀ uuid b k, Plain P X c.send.store body uuid b → X.parseContent b = some k → k.data = none → k.sync = none) :
    (hear P c X id body).1.send.log = c.send.log ∧ (hear P c X id body).1.send.devices = c.send.devices := by
  obtain ⟨evs, new, h1, h2, h3, h4⟩ := C148_only_asked_partial P me [(X, .msg id body)]
    (by intro x hx; rw [List.mem_singleton] at hx; rw [hx]; exact hX) ⟨c.send.store, c.contacts, [], c.send.devices, c.send.log⟩
  have hno : ∀ u, ¬ Asked me evs u := by
    intro u hu
    have h5 := C121_needs_sync_part_partial P X c id body h evs _ (by simp only [hear]; rw [h1]; rfl)
    rcases hu with ⟨_, t, ht⟩ | ⟨v, hv, _⟩
    · exact h5 _ ht trivial
    · exact h5 _ hv trivial
  constructor
  · show (Receive.listen P [(X, .msg id body)] _).1.sent = _
    rw [h2]
    have : new = [] := List.eq_nil_iff_forall_not_mem.mpr fun r hr => hno _ (h3 r hr)
    simp [this]
  · funext u
    by_cases hu : (hear P c X id body).1.send.devices u = c.send.devices u
    · exact hu
    · exact absurd (h4 u hu) (hno u)

/-- What the devices are told when they ask: their client reads a sync message with the contacts, or the groups, and
nothing else; the file that was uploaded, its key, digest and size. -/
theorem C148_update_read (t : Nat) (a : Send.OutAtt) (hs : a.size < u32) (hn : a.cdnNr < u32)
    (hl : (updateContent t a).length < 2 ^ 64) :
    Content.parseContent (updateContent t a) = some { sync := some { contacts := t = 1, groups := t ≠ 1 } } ∧
    ∃ fs, pointerIn (if t = 1 then 2 else 3) (updateContent t a) = some fs ∧
      Content.attPtr fs = ⟨a.keys, Content.location 0 a.cdnKey a.cdnNr⟩ ∧ Wire.getBytes fs 6 = some a.digest ∧
      Wire.getU32 fs 4 = some a.size ∧ Wire.getBytes fs 2 = some a.contentType :=
  update_read t a hs hn hl

/-- What the account named in a verification is told: nothing. -/
theorem C148_null_read : Content.parseContent nullContent = some { null := true } := by decide +kernel

/-! ## What does not -/

/-- A content that is nothing but a verification. -/
structure Verifies (k : Receive.Content) (v : Bytes) : Prop where
  data : k.data = none
  sync : ∃ sm, k.sync = some sm ∧ sm.sent = none ∧ sm.contacts = false ∧ sm.groups = false ∧ sm.request = none ∧
    sm.read = [] ∧ sm.blocked = false ∧ sm.verified = some v

/-- The code refutes the property: whoever sends a verification that names an account, this client writes to that
account, if it can build a message to it. -/
theorem C148_anyone_makes_write (P : Prims) (A : Answers.Ext) (X : Receive.Ext) (stranger uuid : String) (ts : Nat)
    (b : Bytes) (k : Receive.Content) (v : Bytes) (w : Receive.World) (hp : X.parseContent b = some k)
    (hk : Verifies k v) (hkey : A.profileKey.length = 32) (hf : 0 < A.fuel) (st1 : Store) (ms : List Send.JMsg)
    (hb : Send.buildMessage P (A.D 0) w.store (verifiedDest v) (Files.padMessage nullContent)
      ((w.devices (verifiedDest v)).getD [1]) = (st1, .ok ms)) :
    ∃ rest, (Receive.handleMessage P (wire P A X) stranger uuid ts b w).1.sent =
      w.sent ++ ⟨verifiedDest v, A.now, ms⟩ :: rest := by
  obtain ⟨hd, sm, hs, h1, h2, h3, h4, h5, h6, h7⟩ := hk
  obtain ⟨fuel, hfu⟩ : ∃ n, A.fuel = n + 1 := ⟨A.fuel - 1, by omega⟩
  have hp' : (wire P A X).parseContent b = some k := hp
  have hlen : A.profileKey.length = 16 ∨ A.profileKey.length = 24 ∨ A.profileKey.length = 32 := Or.inr (Or.inr hkey)
  have hdev : ∀ s : Send.State, (Send.withDefault s (verifiedDest v)).devs (verifiedDest v) =
      (s.devices (verifiedDest v)).getD [1] := by intro s; simp [Send.withDefault, Send.State.devs]
  have hst : ∀ s : Send.State, (Send.withDefault s (verifiedDest v)).store = s.store := fun _ => rfl
  simp only [Receive.handleMessage, hp', Receive.dispatch, hd, hs, Receive.bind_run, Receive.emit_run, Receive.handleSync,
    h1, h2, h3, h4, h5, h6, h7, Bool.false_eq_true, if_false, ne_eq, not_true_eq_false, Receive.M.answer]
  show ∃ rest, ((sendVerified P A v _).1).log = _
  unfold sendVerified
  rw [if_pos hlen]
  unfold sendNull
  simp only [hfu]
  unfold Send.sendLoop
  rw [hdev, hst]
  simp only [hb]
  split
  · exact ⟨[], rfl⟩
  · exact ⟨[], rfl⟩
  · exact ⟨[], rfl⟩
  · obtain ⟨l, hl, _⟩ := (reach_sendLoop P A.D A.srv (verifiedDest v) (Files.padMessage nullContent) A.now fuel 1 _).1
    exact ⟨l, by rw [hl]; simp [Send.withDefault]⟩
  · obtain ⟨l, hl, _⟩ := (reach_sendLoop P A.D A.srv (verifiedDest v) (Files.padMessage nullContent) A.now fuel 1 _).1
    exact ⟨l, by rw [hl]; simp [Send.withDefault]⟩

/-- A verification counts as handled exactly if the answer was taken by the server: everything else is an error or a
crash. -/
theorem C148_verified_reported (P : Prims) (A : Answers.Ext) (X : Receive.Ext) (src uuid : String) (ts : Nat)
    (b : Bytes) (k : Receive.Content) (v : Bytes) (w : Receive.World) (hp : X.parseContent b = some k)
    (hk : Verifies k v) (hkey : A.profileKey.length = 32) :
    (Receive.handleMessage P (wire P A X) src uuid ts b w).2 = .ok () ↔
      ∃ r, (Send.sendLoop P A.D A.srv (verifiedDest v) (Files.padMessage nullContent) A.now A.fuel 0
        (Send.withDefault ⟨w.store, w.devices, w.sent⟩ (verifiedDest v))).2 = some (.ok r) := by
  obtain ⟨hd, sm, hs, h1, h2, h3, h4, h5, h6, h7⟩ := hk
  have hp' : (wire P A X).parseContent b = some k := hp
  have hlen : A.profileKey.length = 16 ∨ A.profileKey.length = 24 ∨ A.profileKey.length = 32 := Or.inr (Or.inr hkey)
  simp only [Receive.handleMessage, hp', Receive.dispatch, hd, hs, Receive.bind_run, Receive.emit_run, Receive.handleSync,
    h1, h2, h3, h4, h5, h6, h7, Bool.false_eq_true, if_false, ne_eq, not_true_eq_false, Receive.M.answer]
  show (sendVerified P A v _).2 = _ ↔ _
  unfold sendVerified
  rw [if_pos hlen]
  unfold sendNull
  show done (Send.sendLoop P A.D A.srv (verifiedDest v) (Files.padMessage nullContent) A.now A.fuel 0
        (Send.withDefault ⟨w.store, w.devices, w.sent⟩ (verifiedDest v))).2 = _ ↔ _
  generalize (Send.sendLoop P A.D A.srv (verifiedDest v) (Files.padMessage nullContent) A.now A.fuel 0
        (Send.withDefault ⟨w.store, w.devices, w.sent⟩ (verifiedDest v))).2 = q
  cases q with
  | none => simp [done]
  | some q => cases q <;> simp [done]

/-- Whoever sends a request for contacts or groups, the client crashes if the answer cannot be sent to the user's
devices. -/
theorem C148_anyone_crashes (P : Prims) (A : Answers.Ext) (X : Receive.Ext) (stranger uuid : String) (ts : Nat)
    (b : Bytes) (k : Receive.Content) (sm : Receive.SyncMsg) (t : Nat) (w : Receive.World)
    (hp : X.parseContent b = some k) (hd : k.data = none) (hs : k.sync = some sm) (h1 : sm.sent = none)
    (h2 : sm.contacts = false) (h3 : sm.groups = false) (h4 : sm.request = some t) (ht : t = 1 ∨ t = 2)
    (a : Send.OutAtt) (hu : A.upload t = .ok a) (e : Err)
    (hf : (Send.sendLoop P A.D A.srv A.self (Files.padMessage (updateContent t a)) A.now A.fuel 0
      (Send.withDefault ⟨w.store, w.devices, w.sent⟩ A.self)).2 = some (.err e)) :
    (Receive.handleMessage P (wire P A X) stranger uuid ts b w).2 = .panic := by
  have hp' : (wire P A X).parseContent b = some k := hp
  simp only [Receive.handleMessage, hp', Receive.dispatch, hd, hs, Receive.bind_run, Receive.emit_run, Receive.handleSync,
    h1, h2, h3, h4, Bool.false_eq_true, if_false, Receive.handleSyncRequest, if_pos ht, Receive.M.answer]
  show (sendUpdate P A t _).2 = .panic
  unfold sendUpdate
  simp only [hu, hf]

/-- A request for contacts or groups is answered, to whoever made it, with what was asked for, to the user's own devices,
if a message to them can be built. -/
theorem C148_request_answered (P : Prims) (A : Answers.Ext) (X : Receive.Ext) (src uuid : String) (ts : Nat)
    (b : Bytes) (k : Receive.Content) (sm : Receive.SyncMsg) (t : Nat) (w : Receive.World)
    (hp : X.parseContent b = some k) (hd : k.data = none) (hs : k.sync = some sm) (h1 : sm.sent = none)
    (h2 : sm.contacts = false) (h3 : sm.groups = false) (h4 : sm.request = some t) (ht : t = 1 ∨ t = 2)
    (a : Send.OutAtt) (hu : A.upload t = .ok a) (hf : 0 < A.fuel) (st1 : Store) (ms : List Send.JMsg)
    (hb : Send.buildMessage P (A.D 0) w.store A.self (Files.padMessage (updateContent t a))
      ((w.devices A.self).getD [1]) = (st1, .ok ms)) :
    ∃ rest, (Receive.handleMessage P (wire P A X) src uuid ts b w).1.sent = w.sent ++ ⟨A.self, A.now, ms⟩ :: rest := by
  obtain ⟨fuel, hfu⟩ : ∃ n, A.fuel = n + 1 := ⟨A.fuel - 1, by omega⟩
  have hp' : (wire P A X).parseContent b = some k := hp
  have hdev : ∀ s : Send.State, (Send.withDefault s A.self).devs A.self = (s.devices A.self).getD [1] := by
    intro s; simp [Send.withDefault, Send.State.devs]
  have hst : ∀ s : Send.State, (Send.withDefault s A.self).store = s.store := fun _ => rfl
  simp only [Receive.handleMessage, hp', Receive.dispatch, hd, hs, Receive.bind_run, Receive.emit_run, Receive.handleSync,
    h1, h2, h3, h4, Bool.false_eq_true, if_false, Receive.handleSyncRequest, if_pos ht, Receive.M.answer]
  show ∃ rest, ((sendUpdate P A t _).1).log = _
  unfold sendUpdate
  simp only [hu, hfu]
  unfold Send.sendLoop
  rw [hdev, hst]
  simp only [hb]
  split
  · exact ⟨[], rfl⟩
  · exact ⟨[], rfl⟩
  · exact ⟨[], rfl⟩
  · obtain ⟨l, hl, _⟩ := (reach_sendLoop P A.D A.srv A.self (Files.padMessage (updateContent t a)) A.now fuel 1 _).1
    exact ⟨l, by rw [hl]; simp [Send.withDefault]⟩
  · obtain ⟨l, hl, _⟩ := (reach_sendLoop P A.D A.srv A.self (Files.padMessage (updateContent t a)) A.now fuel 1 _).1
    exact ⟨l, by rw [hl]; simp [Send.withDefault]⟩

/-! ## Cases -/

/-! Carol makes Bob write to Dave, whom he does not know: a session with Dave is begun, and Dave's key pinned. -/
namespace Demo

def forge3 : Send.SendExt :=
  { sendExt with marshal := fun _ => .ok (Wire.encFields [Record.sub 2 [Record.sub 7 [(5, .len (ascii "dave"))]]]) }

def c3 : Pair := (c1.step P (.send false forge3 { destination := "bob", msg := ascii "x" })).1
def verifyFrame : Bytes := envOf c3 1 "carol"

def answers : Answers.Ext :=
  { profileKey := List.replicate 32 8, self := "bob", now := 1100, upload := fun _ => .err .http
    D := fun _ _ => { prekeys := fun _ => .ok (Send.reply 1 1002), rb := List.replicate 32 63
                      rr := List.replicate 32 74 }
    srv := fun _ _ => .ok false, fuel := 1 }

def hearA : Receive.Ext := wire P answers (hearExt 92)

/-- Bob, to whom Carol has written. -/
def bobC : Client := (hear P pair0.R (hearExt 90) 200 carolFrame).1
def bobD : Client := (hear P bobC hearA 202 verifyFrame).1

set_option maxRecDepth 100000 in
theorem written : bobC.send.log = [] ∧ bobD.send.log.map (fun r => (r.dest, r.ts, r.msgs.length)) = [("dave", 1100, 1)] ∧
    containsSession bobC.send.store "dave" 1 = false ∧ containsSession bobD.send.store "dave" 1 = true ∧
    (bobC.send.devices "dave", bobD.send.devices "dave") = (none, some [1]) := by
  decide +kernel

set_option maxRecDepth 100000 in
/-- What the application is shown of it: nothing. -/
example : told (hear P bobC hearA 202 verifyFrame).2 =
    [.enter .sync, .sendVerified (Wire.encFields [(5, .len (ascii "dave"))]), .ack 202] := by
  decide +kernel

set_option maxRecDepth 100000 in
/-- What C148 does say of it. -/
example : ∃ evs new, (Receive.listen P [(hearA, .msg 202 verifyFrame)] ⟨bobC.send.store, bobC.contacts, [],
      bobC.send.devices, bobC.send.log⟩).1.sent = bobC.send.log ++ new ∧ new ≠ [] ∧ ∀ r ∈ new, Asked "bob" evs r.dest := by
  obtain ⟨evs, new, _, h2, h3, _⟩ := C148_only_asked_partial P "bob" [(hearA, .msg 202 verifyFrame)]
    (by intro x hx; rw [List.mem_singleton] at hx; rw [hx]; exact ⟨answers, rfl, rfl, rfl⟩)
    ⟨bobC.send.store, bobC.contacts, [], bobC.send.devices, bobC.send.log⟩
  refine ⟨evs, new, h2, ?_, h3⟩
  intro h0
  rw [h0, List.append_nil] at h2
  have h5 : bobD.send.log = bobC.send.log := h2
  have h4 := written.2.1
  rw [h5, written.1] at h4
  cases h4

/-- The content of a frame, computed. -/
def contentOf (X : Receive.Ext) (st : Store) (body : Bytes) : Option Receive.Content :=
  match Files.decryptReceivedMessage P X.signalingKey body with
  | .ok pt =>
    match X.parseEnvelope pt with
    | none => none
    | some e =>
      let r : Res Bytes := if e.type = some 1 then
          match Messages.loadWhisper (e.content.getD []) with
          | .ok wm => (decryptWhisper P X.env X.rnd st e.sourceUuid e.sourceDevice wm).res
          | .err x => .err x
          | .panic => .panic
        else if e.type = some 3 then
          match Messages.loadPreKeyMsg (e.content.getD []) with
          | .ok m => (decryptPreKey P X.env X.rnd st e.sourceUuid e.sourceDevice m).res
          | .err x => .err x
          | .panic => .panic
        else .panic
      match r with
      | .ok p => X.parseContent (Files.stripPadding p)
      | _ => none
  | _ => none

theorem contentOf_plain (X : Receive.Ext) (st : Store) (body : Bytes) (uuid : String) (b : Bytes) (k : Receive.Content)
    (hc : ∀ e, X.crayfish e = .err .other) (h : Plain P X st body uuid b) (hk : X.parseContent b = some k) :
    contentOf X st body = some k := by
  obtain ⟨e, ⟨pt, h1, h2⟩, h3⟩ := h
  rcases h3 with ⟨ht, _, msg, wm, p, hm, hl, hr, rfl⟩ | ⟨ht, _, m, p, hl, hr, rfl⟩ | ⟨_, ts, hx⟩
  · simp [contentOf, h1, h2, ht, hm, hl, hr, hk]
  · simp [contentOf, h1, h2, ht, hl, hr, hk]
  · rw [hc] at hx
    cases hx

set_option maxRecDepth 100000 in
/-- Carol's first message, which has no sync part: Bob sends nothing. -/
example : (hear P pair0.R hearA 200 carolFrame).1.send.log = pair0.R.send.log := by
  refine (C148_no_sync_partial P "bob" hearA ⟨answers, rfl, rfl, rfl⟩ pair0.R 200 carolFrame ?_).1
  intro uuid b k hpl hk _
  have h := contentOf_plain hearA _ _ uuid b k (fun _ => rfl) hpl hk
  have h0 : (contentOf hearA pair0.R.send.store carolFrame).map (fun k => k.sync.isNone) = some true := by decide +kernel
  rw [h] at h0
  cases hs : k.sync with
  | none => rfl
  | some x => simp [hs] at h0

/-- Carol asks for Bob's contacts; the answer to his devices fails, which crashes his client. -/
def forge4 : Send.SendExt :=
  { sendExt with marshal := fun _ => .ok (Wire.encFields [Record.sub 2 [Record.sub 4 [(1, .varint 1)]]]) }

def c4 : Pair := (c1.step P (.send false forge4 { destination := "bob", msg := ascii "x" })).1

def lost : Answers.Ext :=
  { answers with upload := fun _ => .ok ⟨ascii "k", 2, [], List.replicate 64 1, List.replicate 32 2, 5, false⟩, srv := fun _ _ => .netErr }

set_option maxRecDepth 100000 in
example : (Receive.process P (wire P lost (hearExt 92)) (envOf c4 1 "carol")
    ⟨bobC.send.store, bobC.contacts, [], bobC.send.devices, bobC.send.log⟩).2 = .panic := by
  decide +kernel

/-- A list of contacts, uploaded. -/
example : Content.parseContent (updateContent 1 ⟨ascii "k", 2, ascii "application/octet-stream", List.replicate 64 1,
    List.replicate 32 2, 5, false⟩) = some { sync := some { contacts := true } } :=
  (C148_update_read 1 _ (by decide) (by decide) (by decide +kernel)).1

end Demo
end Verif.Props
