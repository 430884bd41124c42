import Verif.Props.Receive
/-!
# C177: senders who hide from the server
-/
namespace Verif.Props.Hidden
open Verif Verif.Keys Verif.Receive Verif.Receive.M Verif.Props.Receive

/-! ## Specification -/

/-- The same call of the application, with nobody as the sender's number or name; the account stays. -/
def nameless : Ev → Ev
  | .onMessage m => .onMessage { m with source := "" }
  | .onReceiptMessage m => .onReceiptMessage { m with source := "" }
  | .onTyping m => .onTyping { m with source := "" }
  | e => e

/-- `x` does to the client what `y` does, and calls the application as `y` does, without the name. -/
def Like (x y : M Unit) : Prop :=
  ∀ w, ∃ d, (y w).1.log = w.log ++ d ∧ x w = ({ (y w).1 with log := w.log ++ d.map nameless }, (y w).2)

/-! ## Proofs -/

theorem like_self (x : M Unit) (h : Appends (fun e => nameless e = e) x) : Like x x := by
  intro w
  obtain ⟨d, hd, hp⟩ := h w
  refine ⟨d, hd, ?_⟩
  have : d.map nameless = d := by
    conv => rhs; rw [← List.map_id d]
    exact List.map_congr_left hp
  rw [this, ← hd]

theorem like_bind {α : Type} (m : M α) (f g : α → M Unit) (hm : Appends (fun e => nameless e = e) m)
    (h : ∀ a, Like (f a) (g a)) : Like (m >>= f) (m >>= g) := by
  intro w
  obtain ⟨d, hd, hp⟩ := hm w
  have hfix : d.map nameless = d := by
    conv => rhs; rw [← List.map_id d]
    exact List.map_congr_left hp
  rcases hw : m w with ⟨w', r⟩
  rw [hw] at hd
  simp only at hd
  cases r with
  | ok a =>
    obtain ⟨d', h1, h2⟩ := h a w'
    refine ⟨d ++ d', ?_, ?_⟩
    · simp only [bind_run, hw, h1, hd, List.append_assoc]
    · simp only [bind_run, hw, h2, List.map_append, hfix, ← List.append_assoc, ← hd]
  | err e =>
    refine ⟨d, by simp only [bind_run, hw, hd], ?_⟩
    simp only [bind_run, hw, hfix, ← hd]
  | panic =>
    refine ⟨d, by simp only [bind_run, hw, hd], ?_⟩
    simp only [bind_run, hw, hfix, ← hd]

theorem like_callback (b : Bool) (e : Ev) : Like (callback b (nameless e)) (callback b e) := by
  intro w
  cases b
  · exact ⟨[], by simp [callback, pure_run], by simp [callback, pure_run]⟩
  · exact ⟨[e], rfl, rfl⟩

theorem like_dispatch (P : Prims) (X : Ext) (u : String) (ts : Nat) (c : Content)
    (hg : ∀ dm, X.groupsV2 "" dm = X.groupsV2 u dm) : Like (dispatch P X "" u ts c) (dispatch P X u u ts c) := by
  unfold dispatch
  cases c.data with
  | some dm =>
    refine like_bind _ _ _ (appends_emit _ _ rfl) fun _ => ?_
    unfold handleData
    refine like_bind _ _ _ (appends_handleFlags _ _ _ _) fun flags => ?_
    refine like_bind _ _ _ (appends_lift _ _) fun atts => ?_
    refine like_bind _ _ _ (appends_lift _ _) fun t => ?_
    rw [hg dm]
    refine like_bind _ _ _ (appends_lift _ _) fun gr => ?_
    exact like_callback _ (.onMessage _)
  | none =>
    cases c.sync with
    | some sm =>
      refine like_bind _ _ _ (appends_emit _ _ rfl) fun _ => ?_
      exact like_self _ (appends_handleSync _ _ _ _ _ (fun _ _ => rfl) (fun _ _ => rfl) (fun _ => rfl) (fun _ => rfl))
    | none =>
      cases c.call with
      | some cm =>
        refine like_bind _ _ _ (appends_emit _ _ rfl) fun _ => ?_
        exact like_callback _ (.onMessage _)
      | none =>
        cases c.receipt with
        | some rm =>
          refine like_bind _ _ _ (appends_emit _ _ rfl) fun _ => ?_
          unfold handleReceiptMsg
          cases rm.timestamps with
          | nil => exact like_self _ (appends_lift _ _)
          | cons t l =>
            cases rm.type with
            | none => exact like_self _ (appends_lift _ _)
            | some ty => exact like_callback _ (.onReceiptMessage _)
        | none =>
          simp only
          split
          · refine like_bind _ _ _ (appends_emit _ _ rfl) fun _ => ?_
            exact like_callback _ (.onTyping _)
          · split
            · exact like_self _ (appends_emit _ _ rfl)
            · exact like_self _ (appends_pure _ _)

/-- What is done with a sealed message the companion has opened. -/
theorem sealed_opened (P : Prims) (X : Ext) (env : Envelope) (u : String) (ts : Nat) (b : Bytes) (h6 : env.type = some 6)
    (hk : X.signalingKey ≠ []) (hd : env.destinationUuid ≠ none) (hc : X.crayfish env = .ok (u, ts, b)) (hb : b ≠ []) :
    handleReceived P X (some env) = handleMessage P X "" u ts b := by
  obtain ⟨v, hv⟩ := Option.ne_none_iff_exists'.mp hd
  obtain ⟨k, l, hl⟩ := List.exists_cons_of_ne_nil hk
  simp only [handleReceived, h6, handleSealed, hl, hv, hc, lift_ok_bind, if_neg hb]

/-! ## C177 -/

/-- **C177 (part).** A message from a sender who hides from the server, once the companion has opened it: the client does
with it, to its stored state and with the same result, what it does with the same content that came openly from the
account the companion names, and calls the application in the same way with that account, but without the sender's
name. Missing: the name (here, and `C170_nameless`), and protection against repetition and against another identity
key, which the client leaves to the companion. -/
theorem C177_like_open_partial (P : Prims) (X : Ext) (env : Envelope) (u : String) (ts : Nat) (b : Bytes) (w : World)
    (h6 : env.type = some 6) (hk : X.signalingKey ≠ []) (hd : env.destinationUuid ≠ none)
    (hc : X.crayfish env = .ok (u, ts, b)) (hb : b ≠ []) (hg : ∀ dm, X.groupsV2 "" dm = X.groupsV2 u dm) :
    ∃ d, (handleMessage P X u u ts b w).1.log = w.log ++ d ∧
      handleReceived P X (some env) w =
        ({ (handleMessage P X u u ts b w).1 with log := w.log ++ d.map nameless }, (handleMessage P X u u ts b w).2) := by
  rw [sealed_opened P X env u ts b h6 hk hd hc hb]
  unfold handleMessage
  cases X.parseContent b with
  | none => exact like_self _ (appends_lift _ _) w
  | some c => exact like_dispatch P X u ts c hg w

/-- **C177 refuted (repetition).** Unlike C06, nothing in the client keeps a message from being shown again: as often as the
companion opens the envelope, whatever the client's state, it is shown and acknowledged. -/
theorem C177_shown_again (P : Prims) (X : Ext) (env : Envelope) (u : String) (ts t : Nat) (b : Bytes) (c : Content)
    (dm : DataMsg) (g : Option Bytes) (h6 : env.type = some 6) (hd : env.destinationUuid ≠ none)
    (hc : X.crayfish env = .ok (u, ts, b)) (hb : b ≠ []) (hp : X.parseContent b = some c) (hcd : c.data = some dm)
    (ht : dm.timestamp = some t) (ha : dm.attachments = []) (hf : dm.flags ≠ 1) (hf' : dm.flags ≠ 4)
    (hg : X.groupsV2 "" dm = .ok g) (hcb : X.cb.message = true) (body pt : Bytes) (hne : body ≠ [])
    (hk : X.signalingKey ≠ []) (hopen : Files.decryptReceivedMessage P X.signalingKey body = .ok pt)
    (henv : X.parseEnvelope pt = some env) (ids : List Nat) (w : World) :
    ∃ m : AppMsg, m.message = dm.body ∧ m.sourceUuid = u ∧ m.timestamp = t ∧
      listen P (ids.map (fun i => (X, Frame.msg i body))) w =
        ({ w with log := w.log ++ ids.flatMap (fun i => [.enter .data, .onMessage m, .ack i]) }, .waiting) := by
  refine ⟨{ source := "", sourceUuid := u, message := dm.body, timestamp := t, group := g
            expireTimer := dm.expireTimer, profileKey := dm.profileKey, quote := dm.quote
            contact := dm.contact, sticker := dm.sticker, reaction := dm.reaction }, rfl, rfl, rfl, ?_⟩
  induction ids generalizing w with
  | nil => simp [listen]
  | cons i ids ih =>
    have e : process P X body w = ({ w with log := w.log ++ [.enter .data, .onMessage
        { source := "", sourceUuid := u, message := dm.body, timestamp := t, group := g
          expireTimer := dm.expireTimer, profileKey := dm.profileKey, quote := dm.quote
          contact := dm.contact, sticker := dm.sticker, reaction := dm.reaction }] }, .ok ()) := by
      simp only [process, if_neg hne, hopen, henv]
      rw [sealed_opened P X env u ts b h6 hk hd hc hb]
      simp only [handleMessage, hp]
      exact C45_data_delivered P X "" u ts t c dm g w hcd ht ha hf hf' hg hcb
    simp only [List.map_cons, listen, e, ih, List.flatMap_cons, List.append_assoc, List.cons_append, List.nil_append]

/-- The application is called alike in worlds with the same log, whatever else they hold. -/
def Blind (x : M Unit) : Prop := ∀ w w', w.log = w'.log → (x w).1.log = (x w').1.log

/-- The same, and with the same result. -/
def Blind' {α : Type} (x : M α) : Prop := ∀ w w', w.log = w'.log → (x w).1.log = (x w').1.log ∧ (x w).2 = (x w').2

theorem blind_bind {α : Type} (m : M α) (f : α → M Unit) (hm : Blind' m) (h : ∀ a, Blind (f a)) : Blind (m >>= f) := by
  intro w w' hw
  obtain ⟨h1, h2⟩ := hm w w' hw
  rcases e : m w with ⟨v, r⟩
  rcases e' : m w' with ⟨v', r'⟩
  rw [e, e'] at h1 h2
  simp only at h1 h2
  subst h2
  cases r with
  | ok a => simpa only [bind_run, e, e'] using h a v v' h1
  | err _ => simpa only [bind_run, e, e'] using h1
  | panic => simpa only [bind_run, e, e'] using h1

theorem blind'_bind {α β : Type} (m : M α) (f : α → M β) (hm : Blind' m) (h : ∀ a, Blind' (f a)) : Blind' (m >>= f) := by
  intro w w' hw
  obtain ⟨h1, h2⟩ := hm w w' hw
  rcases e : m w with ⟨v, r⟩
  rcases e' : m w' with ⟨v', r'⟩
  rw [e, e'] at h1 h2
  simp only at h1 h2
  subst h2
  cases r with
  | ok a => simpa only [bind_run, e, e'] using h a v v' h1
  | err _ => simpa only [bind_run, e, e'] using ⟨h1, trivial⟩
  | panic => simpa only [bind_run, e, e'] using ⟨h1, trivial⟩

theorem Blind'.blind {x : M Unit} (h : Blind' x) : Blind x := fun w w' hw => (h w w' hw).1

theorem blind'_lift {α : Type} (r : Res α) : Blind' (lift r) := fun _ _ h => ⟨h, rfl⟩
theorem blind'_pure {α : Type} (a : α) : Blind' (pure a : M α) := fun _ _ h => ⟨h, rfl⟩
theorem blind'_emit (e : Ev) : Blind' (emit e) := fun w w' h => ⟨by simp [emit, h], rfl⟩
theorem blind'_update (f : World → World) (h : ∀ w, (f w).log = w.log) : Blind' (M.update f) :=
  fun w w' hw => ⟨by simp [M.update, h, hw], rfl⟩
theorem blind'_callback (b : Bool) (e : Ev) : Blind' (callback b e) := by
  cases b
  · exact blind'_pure ()
  · exact blind'_emit e
theorem blind_answer (f : Send.State → Send.State × Res Unit) : Blind (answer f) := fun _ _ h => h

theorem blind'_flags (X : Ext) (s : String) (dm : DataMsg) : Blind' (handleFlags X s dm) := by
  unfold handleFlags
  split
  · refine blind'_bind _ _ (blind'_lift _) fun _ => ?_
    refine blind'_bind _ _ (blind'_update _ fun _ => rfl) fun _ => ?_
    refine blind'_bind _ _ (blind'_update _ fun _ => rfl) fun _ => ?_
    exact blind'_pure _
  · split
    · refine blind'_bind _ _ ?_ fun _ => blind'_pure _
      exact blind'_bind _ _ (blind'_update _ fun _ => rfl) fun _ => blind'_lift _
    · exact blind'_pure _

theorem blind_dispatch (P : Prims) (X : Ext) (src u : String) (ts : Nat) (c : Content) : Blind (dispatch P X src u ts c) := by
  unfold dispatch
  cases c.data with
  | some dm =>
    refine blind_bind _ _ (blind'_emit _) fun _ => ?_
    unfold handleData
    refine blind_bind _ _ (blind'_flags _ _ _) fun _ => ?_
    refine blind_bind _ _ (blind'_lift _) fun _ => ?_
    refine blind_bind _ _ (blind'_lift _) fun _ => ?_
    refine blind_bind _ _ (blind'_lift _) fun _ => ?_
    exact (blind'_callback _ _).blind
  | none =>
    cases c.sync with
    | some sm =>
      refine blind_bind _ _ (blind'_emit _) fun _ => ?_
      unfold handleSync
      split
      · unfold handleSyncSent
        split
        · exact (blind'_lift _).blind
        · refine blind_bind _ _ (blind'_flags _ _ _) fun _ => ?_
          refine blind_bind _ _ (blind'_lift _) fun _ => ?_
          refine blind_bind _ _ (blind'_lift _) fun _ => ?_
          refine blind_bind _ _ (blind'_lift _) fun _ => ?_
          exact (blind'_callback _ _).blind
      · split
        · exact (blind'_pure _).blind
        · split
          · exact (blind'_pure _).blind
          · split
            · unfold handleSyncRequest
              split
              · exact blind_bind _ _ (blind'_emit _) fun _ => blind_answer _
              · exact (blind'_pure _).blind
            · split
              · unfold handleSyncRead
                intro w w' hw
                simp only [M.update]
                split <;> simp [hw]
              · split
                · exact (blind'_pure _).blind
                · split
                  · exact blind_bind _ _ (blind'_emit _) fun _ => blind_answer _
                  · exact (blind'_pure _).blind
    | none =>
      cases c.call with
      | some cm => exact blind_bind _ _ (blind'_emit _) fun _ => (blind'_callback _ _).blind
      | none =>
        cases c.receipt with
        | some rm =>
          refine blind_bind _ _ (blind'_emit _) fun _ => ?_
          unfold handleReceiptMsg
          cases rm.timestamps with
          | nil => exact (blind'_lift _).blind
          | cons t l =>
            cases rm.type with
            | none => exact (blind'_lift _).blind
            | some ty => exact (blind'_callback _ _).blind
        | none =>
          simp only
          split
          · exact blind_bind _ _ (blind'_emit _) fun _ => (blind'_callback _ _).blind
          · split
            · exact (blind'_emit _).blind
            · exact (blind'_pure _).blind

/-- **C177 refuted (identity).** What the application is told of such a message does not depend on the identities, sessions and
prekeys the client has stored, nor on its contacts: a key the user has compared, or one that was pinned at first contact
(C14), counts for nothing in it. -/
theorem C177_identity_not_compared (P : Prims) (X : Ext) (env : Envelope) (h6 : env.type = some 6) (w w' : World)
    (hw : w.log = w'.log) :
    (handleReceived P X (some env) w).1.log = (handleReceived P X (some env) w').1.log := by
  have h : Blind (handleReceived P X (some env)) := by
    simp only [handleReceived, h6]
    unfold handleSealed
    split
    · exact (blind'_lift _).blind
    · exact (blind'_lift _).blind
    · refine blind_bind _ _ (blind'_lift _) fun r => ?_
      obtain ⟨s, t, b⟩ := r
      simp only
      split
      · exact (blind'_lift _).blind
      · unfold handleMessage
        split
        · exact (blind'_lift _).blind
        · exact blind_dispatch _ _ _ _ _ _
  exact h w w' hw

/-! ## Concrete cases -/

/-- Carol's message, opened by the companion. -/
def X : Ext :=
  { calm (fun _ => some { type := some 6, destinationUuid := some "alice" })
      (fun _ => some { data := some { body := ascii "hi", timestamp := some 5 } }) [] with
    crayfish := fun _ => .ok ("carol", 7, [42]) }

example : X.crayfish { type := some 6, destinationUuid := some "alice" } = .ok ("carol", 7, [42]) ∧ X.signalingKey ≠ [] ∧
    (∀ dm, X.groupsV2 "" dm = X.groupsV2 "carol" dm) ∧
    (handleReceived Demo.P X (some { type := some 6, destinationUuid := some "alice" }) (world Demo.alice0)).1.log =
      [.enter .data, .onMessage { source := "", sourceUuid := "carol", message := ascii "hi", timestamp := 5 }] :=
  ⟨rfl, by decide, fun _ => rfl, by decide +kernel⟩

/-- The hypotheses of `C177_shown_again` on a frame, and two copies of it. -/
example : Files.decryptReceivedMessage Demo.P X.signalingKey (List.replicate 20 5) = .ok (List.replicate 20 5) ∧
    (X.parseEnvelope (List.replicate 20 5)).isSome = true ∧
    (listen Demo.P ([1, 2].map (fun i => (X, Frame.msg i (List.replicate 20 5)))) (world Demo.alice0)).1.log =
      [.enter .data, .onMessage { source := "", sourceUuid := "carol", message := ascii "hi", timestamp := 5 }, .ack 1,
       .enter .data, .onMessage { source := "", sourceUuid := "carol", message := ascii "hi", timestamp := 5 }, .ack 2] := by
  decide +kernel

end Verif.Props.Hidden
