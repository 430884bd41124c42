import Verif.Proof.Linked
import Verif.Proof.Content
import Verif.Props.Clients
/-!
# Properties C134–C136: the user's other devices
-/
namespace Verif.Props
open Verif Verif.Keys Verif.Messages Verif.Session Verif.Api Verif.Conv Verif.Clients Verif.Names

/-! ## C134 -/

theorem linked_deliver_ok {P : Prims} {S : Setup} (hA : Addresses S) (s : Linked.Sight) (w : Pair) (i : Nat)
    (X : Receive.Ext) (body : Bytes) (sts : Nat) (atts : List Bytes) (g : Option Bytes) (hs : Linked.AllFit s)
    (h1 : Linked.DeliverReal P S s w i X body sts atts g) : Linked.DeliverOk P S s w i X body sts atts g := by
  refine { env := h1.env, rnd := h1.rnd, cb := h1.cb, contacts := h1.contacts, carried := ?_, parsed := ?_ }
  · intro who j hj
    obtain ⟨hb, ts, c, hc, ht, hts, hsts, hlen, hd⟩ := h1.carried who j hj
    have hdev : senderDev S who < u32 := by cases who; exact hA.devI; exact hA.devR
    have hname : Content.OneByte (senderName S who) := by cases who; exact hA.nameI; exact hA.nameR
    have hp := Content.parse_envelope j.type (senderDev S who) ts sts (senderName S who) c ht hdev hts hsts
      hname hlen
    exact ⟨hb, _, _, hd, by rw [h1.parseEnvelope]; exact hp, rfl, rfl, rfl, hc.symm, rfl⟩
  · intro x hx
    have hf := hs x (List.mem_of_getElem? hx)
    refine ⟨?_, stored_all P X _ _ (h1.stored x hx), h1.group x hx, h1.goesOn x hx⟩
    rw [h1.parseContent]
    exact Content.parse_sync x.transcript hf

/-- C134. Two devices of one account and a server that delivers the transcripts in any order, any number of times or
never. Whatever the schedule, what the user sends to anyone from one device is shown on the other as sent by the
user: with the recipient, the text, the time, the timer, the profile key and the attachments, and the time at the
server; once; and each call returns the time of its message. Not shown are only repetitions (and what the abstract
conversation calls too far ahead or stale). Missing: ends of sessions (`C134_end_not_shown`). -/
theorem C134_shown_partial (P : Prims) (S : Setup) (hU : S.nameI = S.nameR) (hS : S.Ok P) (hA : Addresses S)
    (w : Pair) (hw : Peers S w) (evs : List Linked.LEv) (hl : Linked.Real P S {} w evs)
    (hk : (S.spk.pub :: (newPair P S.rr).pub :: Linked.keysOf P evs).Nodup) (hn : evs.length < 2 ^ 32 - 1) :
    List.Forall₂ Linked.Agree (Linked.wants {} evs) (Linked.outs P w evs) := by
  have hne : S.spk.pub ≠ (newPair P S.rr).pub := by
    rw [List.nodup_cons] at hk
    intro h
    exact hk.1 (by rw [h]; exact List.mem_cons_self)
  have hN : Named S := ⟨recID_self hw.nameI.1 hw.nameI.2, recID_self hw.nameR.1 hw.nameR.2⟩
  refine Linked.simulate hU hS hN hne (fun s w i X body sts atts g => linked_deliver_ok hA s w i X body sts atts g)
    evs (initG P S) {} w (World.init P S) (begin_rel hS hne hw) (by intro x hx; cases hx) hl hk ?_
  show 0 + evs.length + 1 < u32
  unfold u32
  omega

/-- C134 refuted for ends of sessions: when the user ends a session with someone named by an id, the transcript is
not shown on the other device, whatever its state; handling it fails. -/
theorem C134_end_not_shown (P : Prims) (X : Receive.Ext) (x : Linked.Wrote) (src uuid : String) (ts : Nat)
    (w : Receive.World) (hx : X.parseContent = Content.parseContent) (hf : Content.FitsT x.transcript)
    (he : x.m.flags = 1) (hd : ¬ Linked.isNumber x.m.destination) :
    Receive.handleMessage P X src uuid ts x.bytes w = ({ w with log := w.log ++ [.enter .sync] }, .err .other) := by
  unfold Receive.handleMessage
  rw [hx, show x.bytes = Content.marshalSync x.transcript from rfl, Content.parse_sync x.transcript hf]
  have h1 : (Content.seen x.transcript.message).flags = 1 := he
  have h2 : (Content.seenSent x.transcript).destE164 = "" := by
    show (if Linked.isNumber x.m.destination then some x.m.destination else none).getD "" = ""
    rw [if_neg hd]; rfl
  have h3 : (Content.seenSent x.transcript).message = some (Content.seen x.transcript.message) := rfl
  have hF : Receive.handleFlags X "" (Content.seen x.transcript.message) = fun w => (w, .err .other) := by
    unfold Receive.handleFlags
    rw [if_pos h1]
    rfl
  simp only [Receive.dispatch, Receive.handleSync, Receive.handleSyncSent, h3, h2, hF, bind, Receive.M.emit]

/-! ## C135 -/

/-- What a content tells of profile keys: whose it says it is, and the key. -/
def toldKey (uuid : String) (c : Receive.Content) (s : String) (k : Bytes) : Prop :=
  (∃ dm, c.data = some dm ∧ dm.flags = 4 ∧ s = uuid ∧ k = dm.profileKey) ∨
  (c.data = none ∧ ∃ sm t dm, c.sync = some sm ∧ sm.sent = some t ∧ t.message = some dm ∧ dm.flags = 4 ∧
    s = t.destE164 ∧ k = dm.profileKey)

/-- The contacts after `x` are those before, but for what `R` says. -/
def ChangesOnly (R : String → Bytes → Prop) (x : Receive.M α) : Prop :=
  ∀ w s, (x w).1.contacts s = w.contacts s ∨ ∃ k, R s k ∧ (x w).1.contacts s = some k

theorem ChangesOnly.pure (R : String → Bytes → Prop) (a : α) : ChangesOnly R (pure a : Receive.M α) :=
  fun _ _ => Or.inl rfl

theorem ChangesOnly.lift (R : String → Bytes → Prop) (a : Res α) : ChangesOnly R (Receive.M.lift a) :=
  fun _ _ => Or.inl rfl

theorem ChangesOnly.answer (R : String → Bytes → Prop) (f : Send.State → Send.State × Res Unit) :
    ChangesOnly R (Receive.M.answer f) := fun _ _ => Or.inl rfl

theorem ChangesOnly.emit (R : String → Bytes → Prop) (e : Receive.Ev) : ChangesOnly R (Receive.M.emit e) :=
  fun _ _ => Or.inl rfl

theorem ChangesOnly.callback (R : String → Bytes → Prop) (b : Bool) (e : Receive.Ev) :
    ChangesOnly R (Receive.callback b e) := by
  cases b
  · exact ChangesOnly.pure R ()
  · exact ChangesOnly.emit R e

theorem ChangesOnly.bind {R : String → Bytes → Prop} {x : Receive.M α} {f : α → Receive.M β} (hx : ChangesOnly R x)
    (hf : ∀ a, ChangesOnly R (f a)) : ChangesOnly R (x >>= f) := by
  intro w s
  have e : (x >>= f) w = match x w with
    | (w', .ok a) => f a w'
    | (w', .err e) => (w', .err e)
    | (w', .panic) => (w', .panic) := rfl
  have h1 := hx w s
  rcases hxw : x w with ⟨w', r⟩
  rw [hxw] at h1 e
  cases r with
  | err er => rw [e]; exact h1
  | panic => rw [e]; exact h1
  | ok a =>
    simp only at h1 e
    rw [e]
    rcases hf a w' s with h2 | ⟨k, h2, h3⟩
    · rw [h2]; exact h1
    · exact Or.inr ⟨k, h2, h3⟩

theorem flags_contacts (X : Receive.Ext) (src : String) (dm : Receive.DataMsg) :
    ChangesOnly (fun s k => dm.flags = 4 ∧ s = src ∧ k = dm.profileKey) (Receive.handleFlags X src dm) := by
  unfold Receive.handleFlags
  split
  · refine ChangesOnly.bind (ChangesOnly.lift _ _) (fun clean => ?_)
    refine ChangesOnly.bind (fun _ _ => Or.inl rfl) (fun _ => ?_)
    exact ChangesOnly.bind (fun _ _ => Or.inl rfl) (fun _ => ChangesOnly.pure _ _)
  · split
    · rename_i h4
      refine ChangesOnly.bind ?_ (fun _ => ChangesOnly.pure _ _)
      unfold Receive.updateProfileKey
      refine ChangesOnly.bind ?_ (fun _ => ChangesOnly.lift _ _)
      intro w s
      by_cases hs : s = src
      · exact Or.inr ⟨dm.profileKey, ⟨h4, hs, rfl⟩, by simp [Receive.M.update, hs]⟩
      · exact Or.inl (by simp [Receive.M.update, hs])
    · exact ChangesOnly.pure _ _

theorem ChangesOnly.mono {R R' : String → Bytes → Prop} {x : Receive.M α} (h : ChangesOnly R x)
    (hr : ∀ s k, R s k → R' s k) : ChangesOnly R' x := by
  intro w s
  rcases h w s with h | ⟨k, h, h'⟩
  · exact Or.inl h
  · exact Or.inr ⟨k, hr s k h, h'⟩

/-- C135 as far as it holds. Whatever content arrives in a message of `uuid`, and whatever fails: the only profile key
that may change is that of `uuid`, to the key in a data message that announces one; or, if the content is a transcript
that announces one, that of the recipient it names. -/
theorem C135_contacts_partial (P : Prims) (X : Receive.Ext) (src uuid : String) (ts : Nat) (b : Bytes)
    (w : Receive.World) (s : String) :
    (Receive.handleMessage P X src uuid ts b w).1.contacts s = w.contacts s ∨
    ∃ c k, X.parseContent b = some c ∧ toldKey uuid c s k ∧
      (Receive.handleMessage P X src uuid ts b w).1.contacts s = some k := by
  unfold Receive.handleMessage
  rcases hp : X.parseContent b with _ | c
  · exact Or.inl rfl
  · suffices h : ChangesOnly (toldKey uuid c) (Receive.dispatch P X src uuid ts c) by
      rcases h w s with h | ⟨k, h, h'⟩
      · exact Or.inl h
      · exact Or.inr ⟨c, k, rfl, h, h'⟩
    unfold Receive.dispatch
    rcases hd : c.data with _ | dm
    · rcases hs : c.sync with _ | sm
      · rcases c.call with _ | cm
        · rcases c.receipt with _ | rm
          · simp only
            split
            · exact ChangesOnly.bind (ChangesOnly.emit _ _) (fun _ => ChangesOnly.callback _ _ _)
            · split
              · exact ChangesOnly.emit _ _
              · exact ChangesOnly.pure _ _
          · refine ChangesOnly.bind (ChangesOnly.emit _ _) (fun _ => ?_)
            unfold Receive.handleReceiptMsg
            split
            · exact ChangesOnly.lift _ _
            · split
              · exact ChangesOnly.lift _ _
              · exact ChangesOnly.callback _ _ _
        · exact ChangesOnly.bind (ChangesOnly.emit _ _) (fun _ => ChangesOnly.callback _ _ _)
      · refine ChangesOnly.bind (ChangesOnly.emit _ _) (fun _ => ?_)
        unfold Receive.handleSync
        rcases ht : sm.sent with _ | t
        · simp only
          split
          · exact ChangesOnly.pure _ _
          · split
            · exact ChangesOnly.pure _ _
            · split
              · unfold Receive.handleSyncRequest
                split
                · exact ChangesOnly.bind (ChangesOnly.emit _ _) (fun _ => ChangesOnly.answer _ _)
                · exact ChangesOnly.pure _ _
              · split
                · intro w s
                  refine Or.inl ?_
                  simp only [Receive.handleSyncRead, Receive.M.update]
                  split <;> rfl
                · split
                  · exact ChangesOnly.pure _ _
                  · split
                    · exact ChangesOnly.bind (ChangesOnly.emit _ _) (fun _ => ChangesOnly.answer _ _)
                    · exact ChangesOnly.pure _ _
        · simp only [Receive.handleSyncSent]
          rcases hm : t.message with _ | dm
          · exact ChangesOnly.lift _ _
          · refine ChangesOnly.bind ((flags_contacts X t.destE164 dm).mono ?_) (fun _ => ?_)
            · intro s k h
              exact Or.inr ⟨hd, sm, t, dm, hs, ht, hm, h⟩
            · refine ChangesOnly.bind (ChangesOnly.lift _ _) (fun _ => ?_)
              refine ChangesOnly.bind (ChangesOnly.lift _ _) (fun _ => ?_)
              refine ChangesOnly.bind (ChangesOnly.lift _ _) (fun _ => ?_)
              exact ChangesOnly.callback _ _ _
    · refine ChangesOnly.bind (ChangesOnly.emit _ _) (fun _ => ?_)
      unfold Receive.handleData
      refine ChangesOnly.bind ((flags_contacts X uuid dm).mono ?_) (fun _ => ?_)
      · intro s k h
        exact Or.inl ⟨dm, hd, h⟩
      · refine ChangesOnly.bind (ChangesOnly.lift _ _) (fun _ => ?_)
        refine ChangesOnly.bind (ChangesOnly.lift _ _) (fun _ => ?_)
        refine ChangesOnly.bind (ChangesOnly.lift _ _) (fun _ => ?_)
        exact ChangesOnly.callback _ _ _

/-- C135 refuted: when the user tells someone their profile key from one device, the other device records the user's
own key as the key of the recipient (and, when the recipient is named by an id, as the key of the contact without
a number). -/
theorem C135_own_key_recorded (P : Prims) (X : Receive.Ext) (x : Linked.Wrote) (src uuid : String) (ts : Nat)
    (w : Receive.World) (hx : X.parseContent = Content.parseContent) (hf : Content.FitsT x.transcript)
    (he : x.m.flags = 4) :
    (Receive.handleMessage P X src uuid ts x.bytes w).1.contacts
      (if Linked.isNumber x.m.destination then x.m.destination else "") = some x.key := by
  have hp : X.parseContent x.bytes = some { sync := some { sent := some (Content.seenSent x.transcript) } } := by
    rw [hx]; exact Content.parse_sync x.transcript hf
  have h1 : (Content.seen x.transcript.message).flags = 4 := he
  have h2 : (Content.seenSent x.transcript).destE164 = if Linked.isNumber x.m.destination then x.m.destination else "" := by
    show (if Linked.isNumber x.m.destination then some x.m.destination else none).getD "" = _
    split <;> rfl
  have h3 : (Content.seenSent x.transcript).message = some (Content.seen x.transcript.message) := rfl
  have h4 : (Content.seen x.transcript.message).profileKey = x.key := rfl
  rw [← h2]
  -- after the update nothing else writes
  obtain ⟨sn, hsn⟩ : ∃ sn, sn = Content.seenSent x.transcript := ⟨_, rfl⟩
  obtain ⟨dm, hdm⟩ : ∃ dm, dm = Content.seen x.transcript.message := ⟨_, rfl⟩
  rw [← hsn] at hp h3 ⊢
  rw [← hdm] at h1 h3 h4
  have hrest : ∀ (fl : Nat), ChangesOnly (fun _ _ => False) (do
      let atts ← Receive.M.lift (Files.handleAttachments P X.fetch Receive.AttPtr.key dm.attachments)
      let gr ← Receive.M.lift (X.syncGroupsV2 sn.destE164 dm)
      let t ← Receive.derefTs dm
      Receive.callback X.cb.syncSent (.onSyncSent
        { source := sn.destE164, sourceUuid := sn.destUuid, message := dm.body, attachments := atts
          group := gr, flags := fl, expireTimer := dm.expireTimer, profileKey := dm.profileKey
          timestamp := t, quote := dm.quote, contact := none, sticker := dm.sticker
          reaction := dm.reaction } ts)) := by
    intro fl
    refine ChangesOnly.bind (ChangesOnly.lift _ _) (fun _ => ?_)
    refine ChangesOnly.bind (ChangesOnly.lift _ _) (fun _ => ?_)
    refine ChangesOnly.bind (ChangesOnly.lift _ _) (fun _ => ?_)
    exact ChangesOnly.callback _ _ _
  obtain ⟨w1, hw1⟩ : ∃ w1 : Receive.World, w1 = { w with
      log := w.log ++ [.enter .sync]
      contacts := fun s => if s = sn.destE164 then some dm.profileKey else w.contacts s } := ⟨_, rfl⟩
  have hc1 : w1.contacts sn.destE164 = some x.key := by rw [hw1]; simp [h4]
  unfold Receive.handleMessage
  rw [hp]
  simp only [Receive.dispatch, Receive.handleSync, Receive.handleSyncSent, h3, Receive.handleFlags, h1,
    show ¬ (4 : Nat) = 1 by decide, if_false, if_true, Receive.updateProfileKey]
  by_cases hok : X.contactsOk = true
  · have := hrest 4 w1 sn.destE164
    rcases this with this | ⟨_, h, _⟩
    · rw [hc1] at this
      rw [← this]
      simp only [bind, Receive.M.emit, Receive.M.update, Receive.M.lift, hok, if_true, pure, hw1]
    · exact h.elim
  · rw [← hc1, hw1]
    simp only [bind, Receive.M.emit, Receive.M.update, Receive.M.lift, hok, Bool.false_eq_true, if_false]

/-! ## C136 -/

/-- The devices a request is for. -/
def addressed (r : Send.Request) : List Nat := r.msgs.map Send.JMsg.dev

/-- C136 refuted: the first transcript of all, with no device list for the user's own account, is made for device 1,
which is this client itself, and is sent to the server. -/
theorem C136_first_to_itself (P : Prims) (X : Send.SendExt) (fuel : Nat) (t : Send.Transcript) (s : Send.State)
    (b : Bytes) (hm : X.marshalSync t = .ok b) (hno : s.devices X.self = none) (ms : List Send.JMsg) (st1 : Store)
    (hb : Send.buildMessage P (X.D' 0) s.store X.self (Files.padMessage b) [1] = (st1, .ok ms)) :
    ∃ r l, (Send.sendSync P X (fuel + 1) t s).1.log = s.log ++ r :: l ∧ r.dest = X.self ∧ addressed r = [1] := by
  have hd : (Send.withDefault s X.self).devs X.self = [1] := by
    simp [Send.State.devs, Send.withDefault, hno]
  have hdev : ms.map Send.JMsg.dev = [1] := by
    unfold Send.buildMessage at hb
    rcases hr : Receive.recID X.self with n | e | _
    · rw [hr] at hb
      exact buildLoop_devs P _ n _ [1] _ _ _ _ hb
    · rw [hr] at hb; cases hb
    · rw [hr] at hb; cases hb
  obtain ⟨q, hq⟩ : ∃ q, q = Send.sendLoop P X.D' X.srv' X.self (Files.padMessage b) t.timestamp (fuel + 1) 0
      (Send.withDefault s X.self) := ⟨_, rfl⟩
  have hlog : (Send.sendSync P X (fuel + 1) t s).1.log = q.1.log := by
    simp only [Send.sendSync, hm, ← hq]
    rcases q with ⟨s', _ | (_ | _ | _)⟩ <;> rfl
  have hb' : Send.buildMessage P (X.D' 0) (Send.withDefault s X.self).store X.self (Files.padMessage b)
      ((Send.withDefault s X.self).devs X.self) = (st1, .ok ms) := by rw [hd]; exact hb
  have hl : ∃ l, q.1.log = s.log ++ ⟨X.self, t.timestamp, ms⟩ :: l := by
    rw [hq]
    unfold Send.sendLoop
    rw [hb']
    simp only
    split
    · exact ⟨[], rfl⟩
    · exact ⟨[], rfl⟩
    · exact ⟨[], rfl⟩
    · obtain ⟨l, hl⟩ := Linked.sendLoop_log P X.D' X.srv' X.self (Files.padMessage b) t.timestamp fuel 1 _
      exact ⟨l, by rw [hl]; simp [Send.withDefault]⟩
    · obtain ⟨l, hl⟩ := Linked.sendLoop_log P X.D' X.srv' X.self (Files.padMessage b) t.timestamp fuel 1 _
      exact ⟨l, by rw [hl]; simp [Send.withDefault]⟩
  obtain ⟨l, hl⟩ := hl
  exact ⟨⟨X.self, t.timestamp, ms⟩, l, hlog.trans hl, rfl, hdev⟩

theorem loop_avoids (P : Prims) (D : Nat → Nat → Send.DevExt) (srv : Nat → Send.Request → Send.Reply) (n : String)
    (pt : Bytes) (ts own fuel : Nat) (hsrv : ∀ k r a e, srv k r = .mismatched a e → own ∉ a) :
    ∀ (k : Nat) (s : Send.State), own ∉ s.devs n →
    ∃ l, (Send.sendLoop P D srv n pt ts fuel k s).1.log = s.log ++ l ∧ ∀ r ∈ l, own ∉ addressed r := by
  induction fuel with
  | zero => intro k s _; exact ⟨[], by simp [Send.sendLoop], by simp⟩
  | succ fuel ih =>
    intro k s hs
    unfold Send.sendLoop
    rcases hb : Send.buildMessage P (D k) s.store n pt (s.devs n) with ⟨st1, rb⟩
    cases rb with
    | err e => exact ⟨[], by simp, by simp⟩
    | panic => exact ⟨[], by simp, by simp⟩
    | ok ms =>
      have hdev : ms.map Send.JMsg.dev = s.devs n := by
        unfold Send.buildMessage at hb
        rcases hr : Receive.recID n with x | e | _
        · rw [hr] at hb
          exact buildLoop_devs P _ x _ _ _ _ _ _ hb
        · rw [hr] at hb; cases hb
        · rw [hr] at hb; cases hb
      have hone : ∀ r ∈ [(⟨n, ts, ms⟩ : Send.Request)], own ∉ addressed r := by
        intro r hr
        rw [List.mem_singleton.mp hr]
        unfold addressed
        rw [hdev]
        exact hs
      simp only
      cases hq : srv k ⟨n, ts, ms⟩ with
      | netErr => exact ⟨_, rfl, hone⟩
      | status => exact ⟨_, rfl, hone⟩
      | ok ns => exact ⟨_, rfl, hone⟩
      | mismatched a e =>
        obtain ⟨l, h1, h2⟩ := ih (k + 1) { s with store := st1, log := s.log ++ [⟨n, ts, ms⟩]
                                                  devices := fun u => if u = n then some (Send.reconcile (s.devs n) a e)
                                                    else s.devices u } (by
          simp only [Send.State.devs, if_true, Option.getD_some, Send.reconcile, List.mem_append, List.mem_filter, not_or]
          exact ⟨fun h => hs h.1, hsrv k _ a e hq⟩)
        refine ⟨[⟨n, ts, ms⟩] ++ l, by simp only; rw [h1, List.append_assoc], ?_⟩
        intro r hr
        rcases List.mem_append.mp hr with hr | hr
        · exact hone r hr
        · exact h2 r hr
      | stale l0 =>
        obtain ⟨l, h1, h2⟩ := ih (k + 1) { s with log := s.log ++ [⟨n, ts, ms⟩]
                                                  store := Send.dropStale st1 (Send.recidOf n) l0 } hs
        refine ⟨[⟨n, ts, ms⟩] ++ l, by simp only; rw [h1, List.append_assoc], ?_⟩
        intro r hr
        rcases List.mem_append.mp hr with hr | hr
        · exact hone r hr
        · exact h2 r hr

/-- C136 as far as it holds: once the devices of the user's account are known, without the own one, no transcript
is made for the own device, through any number of attempts, as long as the server does not call it missing. -/
theorem C136_not_to_itself_partial (P : Prims) (X : Send.SendExt) (fuel : Nat) (t : Send.Transcript) (s : Send.State)
    (own : Nat) (l : List Nat) (hl : s.devices X.self = some l) (ho : own ∉ l)
    (hsrv : ∀ k r a e, X.srv' k r = .mismatched a e → own ∉ a) :
    ∃ l, (Send.sendSync P X fuel t s).1.log = s.log ++ l ∧ ∀ r ∈ l, own ∉ addressed r := by
  rcases hm : X.marshalSync t with b | e | _
  · have hd : own ∉ (Send.withDefault s X.self).devs X.self := by
      simpa [Send.State.devs, Send.withDefault, hl] using ho
    obtain ⟨l, h1, h2⟩ := loop_avoids P X.D' X.srv' X.self (Files.padMessage b) t.timestamp own fuel hsrv 0 _ hd
    refine ⟨l, ?_, h2⟩
    rw [show s.log = (Send.withDefault s X.self).log from rfl, ← h1]
    simp only [Send.sendSync, hm]
    generalize Send.sendLoop P X.D' X.srv' X.self _ _ fuel 0 _ = q
    rcases q with ⟨s', _ | (_ | _ | _)⟩ <;> rfl
  · exact ⟨[], by simp [Send.sendSync, hm, Send.withDefault], by simp⟩
  · exact ⟨[], by simp [Send.sendSync, hm, Send.withDefault], by simp⟩

/-! ## Examples

The account "me" with a phone (device 1) and a linked device 2. The phone writes to Carol, with an attachment; the
other device is told of it and writes to Dave, by number; the phone is told of that; and the first transcript is
delivered again. -/
namespace Demo.Link

def setupL : Setup :=
  { setup with idI := bobId, nameI := "me", nameR := "me", devI := 1, devR := 2, initiator := client bobId 1001 }

def pairL : Pair :=
  ⟨⟨⟨client bobId 1001, fun u => if u = "me" then some [2] else none, []⟩, fun _ => none⟩,
   ⟨⟨bob0, fun u => if u = "me" then some [1] else none, []⟩, fun _ => none⟩, [], 1, 2⟩

def sendExtL : Send.SendExt :=
  { sendExt with
    srv := fun _ _ => .ok true
    D' := fun _ _ => { prekeys := fun d => .ok (Send.reply d 1002), rb := List.replicate 32 59
                       rr := List.replicate 32 70 }
    srv' := fun _ _ => .ok false, self := "me" }

def toCarol : Send.OutMsg := { hello with destination := "carol" }
def toDave : Send.OutMsg := { destination := "+4912", msg := ascii "hi" }

def envL (w : Pair) (i dev : Nat) : Bytes :=
  match w.wire[i]? with
  | some (_, j) => envelopeBytes j.type dev 5 6 "me" ((Encoding.b64Quanta j.content).getD [])
  | none => []

def l1 : Linked.LEv := .send false sendExtL 3 toCarol
def v1 : Pair := (Linked.step P pairL l1).1
def l2 : Linked.LEv := .deliver 0 (hearExt 83) 100 (envL v1 0 1) 6 [[42, 43]] none
def v2 : Pair := (Linked.step P v1 l2).1
def l3 : Linked.LEv := .send true sendExtL 3 toDave
def v3 : Pair := (Linked.step P v2 l3).1
def l4 : Linked.LEv := .deliver 1 (hearExt 84) 101 (envL v3 1 2) 6 [] none
def v4 : Pair := (Linked.step P v3 l4).1
def l5 : Linked.LEv := .deliver 0 (hearExt 85) 102 (envL v4 0 1) 6 [[42, 43]] none

def devices : List Linked.LEv := [l1, l2, l3, l4, l5]

end Demo.Link

open Demo Demo.Link in
example : (Linked.outs P pairL devices).map (fun o => match o with
    | .told evs .waiting => evs
    | _ => []) =
    [[],
     [.enter .sync,
      .onSyncSent { source := "", sourceUuid := "carol", message := ascii "hello", timestamp := 1000
                    attachments := [[42, 43]], group := none, flags := 0, expireTimer := 0
                    profileKey := [1, 2, 3] } 6,
      .ack 100],
     [],
     [.enter .sync,
      .onSyncSent { source := "+4912", sourceUuid := "", message := ascii "hi", timestamp := 1000
                    attachments := [], group := none, flags := 0, expireTimer := 0
                    profileKey := [1, 2, 3] } 6,
      .ack 101],
     [.ack 102]] := by decide +kernel

namespace Demo.Link

theorem setupL_ok : setupL.Ok P where
  idI := pair_valid _
  idR := pair_valid _
  spk := pair_valid _
  opk := by intro k hk; injection hk with hk; subst hk; exact pair_valid _
  rb := by decide
  rr := by decide
  spkId := by decide
  pkId := ⟨by decide, by simp [setupL, setup]⟩
  regI := by decide
  regR := by decide
  bundleId := rfl
  bundleSpk := ⟨rfl, rfl⟩
  bundleOpk := ⟨rfl, rfl⟩
  bundleSig := by decide +kernel
  iIdent := rfl
  iReg := rfl
  iTrust := by decide
  iNone := rfl
  rIdent := rfl
  rReg := rfl
  rTrust := by decide
  rNone := rfl
  rSpk := rfl
  rOpk := by intro k hk; injection hk with hk; subst hk; rfl

theorem addressesL : Addresses setupL where
  nameI := by unfold Content.OneByte; decide
  nameR := by unfold Content.OneByte; decide
  devI := by decide
  devR := by decide

theorem peersL : Peers setupL pairL :=
  ⟨by decide, by decide, rfl, rfl, ⟨by decide, by decide⟩, ⟨by decide, by decide⟩, rfl, rfl, rfl⟩

def x0 : Linked.Wrote := ⟨toCarol, 1000, [1, 2, 3]⟩
def x1 : Linked.Wrote := ⟨toDave, 1000, [1, 2, 3]⟩

theorem fits_x0 : Content.FitsT x0.transcript :=
  ⟨fits_hello, by decide, by unfold Content.OneByte; decide, by unfold Content.OneByte; decide, by decide +kernel⟩

theorem fits_x1 : Content.FitsT x1.transcript :=
  ⟨fits_answer, by decide, by unfold Content.OneByte; decide, by unfold Content.OneByte; decide, by decide +kernel⟩

set_option maxRecDepth 100000 in
theorem bundle_of_reply2 : Send.makeBundle (Send.reply 2 1002) = .ok (2, bundle 7) := by
  have h1 : Encoding.decodeKey (Encoding.encodeKey Demo.bobOpk.pub) = .ok Demo.bobOpk.pub :=
    Encoding.C41_key_round_trip _ (by decide +kernel)
  have h2 : Encoding.decodeKey (Encoding.encodeKey Demo.bobSpk.pub) = .ok Demo.bobSpk.pub :=
    Encoding.C41_key_round_trip _ (by decide +kernel)
  have h3 : Encoding.decodeKey (Encoding.encodeKey Demo.bobId.pub) = .ok Demo.bobId.pub :=
    Encoding.C41_key_round_trip _ (by decide +kernel)
  have h4 : Encoding.decodeSignature (Encoding.b64EncodeNoPad (Demo.toySig Demo.bobId (ser Demo.bobSpk.pub)))
      = .ok (Demo.toySig Demo.bobId (ser Demo.bobSpk.pub)) := by
    exact Encoding.C41_signature_round_trip _ (by decide +kernel)
  simp [Send.makeBundle, Send.reply, Send.decodePreKey, h1, h2, h3, h4, Demo.bundle]

theorem deliverL (r : UInt8) (s : Linked.Sight) (w : Pair) (i dev : Nat) (who : Bool) (j : Send.JMsg)
    (atts : List Bytes) (x : Linked.Wrote) (hw : w.wire[i]? = some (who, j)) (hdev : senderDev setupL who = dev)
    (hb : (envL w i dev).length < 2 ^ 64)
    (hc : (Encoding.b64Quanta j.content).isSome) (ht : j.type < u32)
    (hd : Files.decryptReceivedMessage P (List.replicate 52 1) (envL w i dev) = .ok (envL w i dev))
    (hs : s.said[i]? = some x) (hf : x.m.flags ≠ 1)
    (ha : List.Forall₂ (Stored P (hearExt r)) (Content.seen x.transcript.message).attachments atts) :
    Linked.DeliverReal P setupL s w i (hearExt r) (envL w i dev) 6 atts none := by
  obtain ⟨c, hc⟩ := Option.isSome_iff_exists.mp hc
  have hn : senderName setupL who = "me" := by cases who <;> rfl
  have he : envL w i dev = envelopeBytes j.type (senderDev setupL who) 5 6 (senderName setupL who) c := by
    rw [hn, hdev]
    simp [envL, hw, hc]
  refine { env := rfl, rnd := ⟨by simp [hearExt, rnd], by simp [hearExt, rnd]⟩, cb := rfl, contacts := rfl
           parseEnvelope := rfl, parseContent := rfl, carried := ?_, stored := ?_, group := ?_, goesOn := ?_ }
  · intro who' j' h
    rw [hw] at h
    cases h
    refine ⟨?_, 5, c, hc, ht, by decide, by decide, ?_, ?_⟩
    · intro h0
      rw [h0] at hd
      cases hd
    · rw [← he]; exact hb
    · rw [← he]; exact hd
  · intro x' h
    rw [hs] at h
    cases h
    exact ha
  · intro d' _ src
    rfl
  · intro x' h
    rw [hs] at h
    cases h
    exact hf

def k0 : Send.JMsg := ((v1.wire[0]?).map Prod.snd).getD ⟨0, 0, 0, []⟩
def k1 : Send.JMsg := ((v3.wire[1]?).map Prod.snd).getD ⟨0, 0, 0, []⟩

theorem accepted : ∀ k r l, sendExtL.srv k r = .ok l → l = true := by
  intro k r l h
  have h : Send.Reply.ok true = .ok l := h
  injection h with h
  exact h.symm

set_option maxRecDepth 100000 in
theorem devices_real : Linked.Real P setupL {} pairL devices := by
  refine ⟨?_, trivial, ?_⟩
  · exact { elsewhere := by decide, self := rfl, marshal := rfl, fits := fits_x0, linked := accepted, env := fun _ => rfl
            srv := fun _ => ⟨false, rfl⟩, first := fun _ _ _ => ⟨rfl, rfl, _, rfl, bundle_of_reply2⟩
            session := by intro h; cases h
            others := only_one (by decide), succeeds := ⟨1000, by decide +kernel⟩ }
  refine ⟨?_, ?_, ?_⟩
  · exact deliverL 83 _ v1 0 1 false k0 _ x0 (by decide +kernel) rfl (by decide +kernel)
      (by decide +kernel) (by decide +kernel) (by decide +kernel) rfl (by decide) (stored_hello _)
  · intro h
    exact absurd h (by decide +kernel)
  refine ⟨?_, trivial, ?_⟩
  · exact { elsewhere := by decide, self := rfl, marshal := rfl, fits := fits_x1, linked := accepted, env := fun _ => rfl
            srv := fun _ => ⟨false, rfl⟩, first := (fun h => by cases h)
            session := by decide +kernel
            others := only_one (by decide +kernel), succeeds := ⟨1000, by decide +kernel⟩ }
  refine ⟨?_, ?_, ?_⟩
  · exact deliverL 84 _ v3 1 2 true k1 _ x1 (by decide +kernel) rfl (by decide +kernel)
      (by decide +kernel) (by decide +kernel) (by decide +kernel) rfl (by decide) List.Forall₂.nil
  · intro h
    exact absurd h (by decide +kernel)
  refine ⟨?_, ?_, trivial⟩
  · exact deliverL 85 _ v4 0 1 false k0 _ x0 (by decide +kernel) rfl (by decide +kernel)
      (by decide +kernel) (by decide +kernel) (by decide +kernel) rfl (by decide) (stored_hello _)
  · intro h
    exact absurd h (by decide +kernel)

end Demo.Link

/-- The theorem applied to it. -/
example : List.Forall₂ Linked.Agree (Linked.wants {} Demo.Link.devices) (Linked.outs Demo.P Demo.Link.pairL Demo.Link.devices) :=
  C134_shown_partial Demo.P Demo.Link.setupL rfl Demo.Link.setupL_ok Demo.Link.addressesL Demo.Link.pairL
    Demo.Link.peersL Demo.Link.devices Demo.Link.devices_real (by decide +kernel) (by decide)

/-- An end of a session, and an announcement of the profile key, within the Go types. -/
example : Content.FitsT (Linked.Wrote.transcript ⟨{ Demo.answer with destination := "carol", flags := 1 }, 1000, [1]⟩) :=
  ⟨⟨by decide, by decide, by decide, (by intro a ha; cases ha), (by intro g hg; cases hg), by decide +kernel⟩, by decide,
    by unfold Content.OneByte; decide, by unfold Content.OneByte; decide, by decide +kernel⟩

example : ¬ Linked.isNumber "carol" ∧ Linked.isNumber "+4912" := by decide

example : Content.FitsT (Linked.Wrote.transcript ⟨{ Demo.answer with destination := "+4912", flags := 4 }, 1000, [1]⟩) :=
  ⟨⟨by decide, by decide, by decide, (by intro a ha; cases ha), (by intro g hg; cases hg), by decide +kernel⟩, by decide,
    by unfold Content.OneByte; decide, by unfold Content.OneByte; decide, by decide +kernel⟩

open Demo Demo.Link in
/-- A phone that has not heard of the other device: the first transcript is for itself; the server's answer makes
the client address device 2. -/
example : (Send.sendSync P { sendExtL with srv' := fun k _ => if k = 0 then .mismatched [2] [1] else .ok false } 3
    x0.transcript ⟨client bobId 1001, fun _ => none, []⟩).1.log.map addressed = [[1], [2]] := by decide +kernel

end Verif.Props
