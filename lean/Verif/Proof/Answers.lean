import Verif.Spec.Answers
import Verif.Proof.Receive
import Verif.Proof.Content
import Verif.Proof.Linked
/-!
# Lemmas for C148
-/
namespace Verif.Answers
open Verif Verif.Receive Verif.Api M

/-- Requests and changes of device lists between two states concern the accounts in `Q`. -/
def Reach (Q : String → Prop) (a b : Send.State) : Prop :=
  (∃ new, b.log = a.log ++ new ∧ ∀ r ∈ new, Q r.dest) ∧ ∀ u, b.devices u ≠ a.devices u → Q u

theorem Reach.refl (Q : String → Prop) (a : Send.State) : Reach Q a a :=
  ⟨⟨[], by simp, by simp⟩, fun _ h => absurd rfl h⟩

theorem Reach.mono {Q Q' : String → Prop} {a b : Send.State} (h : Reach Q a b) (hq : ∀ u, Q u → Q' u) : Reach Q' a b :=
  ⟨h.1.imp fun _ hn => ⟨hn.1, fun r hr => hq _ (hn.2 r hr)⟩, fun u hu => hq u (h.2 u hu)⟩

theorem Reach.trans {Q : String → Prop} {a b c : Send.State} (h : Reach Q a b) (h' : Reach Q b c) : Reach Q a c := by
  obtain ⟨⟨l, hl, hq⟩, hd⟩ := h
  obtain ⟨⟨l', hl', hq'⟩, hd'⟩ := h'
  refine ⟨⟨l ++ l', by rw [hl', hl, List.append_assoc], ?_⟩, ?_⟩
  · intro r hr
    rcases List.mem_append.mp hr with hr | hr
    · exact hq r hr
    · exact hq' r hr
  · intro u hu
    by_cases hb : b.devices u = a.devices u
    · exact hd' u (by rw [hb]; exact hu)
    · exact hd u hb

theorem reach_store (Q : String → Prop) (s : Send.State) (st : Store) : Reach Q s { s with store := st } :=
  ⟨⟨[], by simp, by simp⟩, fun _ h => absurd rfl h⟩

theorem reach_sendLoop (P : Prims) (D : Nat → Nat → Send.DevExt) (srv : Nat → Send.Request → Send.Reply) (n : String)
    (pt : Bytes) (ts fuel : Nat) : ∀ (k : Nat) (s : Send.State),
    Reach (· = n) s (Send.sendLoop P D srv n pt ts fuel k s).1 := by
  induction fuel with
  | zero => intro k s; exact Reach.refl _ _
  | succ fuel ih =>
    intro k s
    unfold Send.sendLoop
    rcases hb : Send.buildMessage P (D k) s.store n pt (s.devs n) with ⟨st1, rb⟩
    cases rb with
    | err e => exact reach_store _ s st1
    | panic => exact reach_store _ s st1
    | ok ms =>
      have h1 : Reach (· = n) s { s with store := st1, log := s.log ++ [⟨n, ts, ms⟩] } :=
        ⟨⟨_, rfl, by simp⟩, fun _ h => absurd rfl h⟩
      simp only
      split
      · exact h1
      · exact h1
      · exact h1
      · refine Reach.trans (h1.trans ?_) (ih (k + 1) _)
        refine ⟨⟨[], by simp, by simp⟩, fun u hu => ?_⟩
        by_cases hn : u = n
        · exact hn
        · simp [hn] at hu
      · refine Reach.trans (h1.trans ?_) (ih (k + 1) _)
        exact ⟨⟨[], by simp, by simp⟩, fun u hu => absurd rfl hu⟩

theorem reach_default (n : String) (s : Send.State) : Reach (· = n) s (Send.withDefault s n) := by
  refine ⟨⟨[], by simp [Send.withDefault], by simp⟩, fun u hu => ?_⟩
  by_cases hn : u = n
  · exact hn
  · simp [Send.withDefault, hn] at hu

theorem reach_verified (P : Prims) (A : Ext) (v : Bytes) (s : Send.State) :
    Reach (· = verifiedDest v) s (sendVerified P A v s).1 := by
  unfold sendVerified
  split
  · exact (reach_default _ s).trans (reach_sendLoop P _ _ _ _ _ _ _ _)
  · exact Reach.refl _ _

theorem reach_update (P : Prims) (A : Ext) (t : Nat) (s : Send.State) :
    Reach (· = A.self) s (sendUpdate P A t s).1 := by
  unfold sendUpdate
  split
  · exact Reach.refl _ _
  · exact Reach.refl _ _
  · exact (reach_default _ s).trans (reach_sendLoop P _ _ _ _ _ _ _ _)

/-! ## Calls -/

def World.out' (w : World) : Send.State := ⟨w.store, w.devices, w.sent⟩

/-- The call writes to none but those it was asked to write to. -/
def Obeys {α : Type} (me : String) (x : M α) : Prop :=
  ∀ w, ∃ d, (x w).1.log = w.log ++ d ∧ Reach (Asked me d) (World.out' w) (World.out' (x w).1)

variable {me : String}

theorem obeys_quiet {α : Type} (x : M α) (h1 : Appends (fun _ => True) x) (h2 : ∀ w, (x w).1.devices = w.devices)
    (h3 : ∀ w, (x w).1.sent = w.sent) : Obeys me x := by
  intro w
  obtain ⟨d, hd, _⟩ := h1 w
  exact ⟨d, hd, ⟨[], by simp [World.out', h3], by simp⟩, fun u hu => absurd (by simp [World.out', h2]) hu⟩

theorem obeys_pure {α : Type} (a : α) : Obeys me (pure a : M α) :=
  obeys_quiet _ (appends_pure _ a) (fun _ => rfl) (fun _ => rfl)
theorem obeys_lift {α : Type} (r : Res α) : Obeys me (lift r) :=
  obeys_quiet _ (appends_lift _ r) (fun _ => rfl) (fun _ => rfl)
theorem obeys_emit (e : Ev) : Obeys me (emit e) :=
  obeys_quiet _ (appends_emit _ e trivial) (fun _ => rfl) (fun _ => rfl)
theorem obeys_callback (b : Bool) (e : Ev) : Obeys me (callback b e) := by
  unfold callback; split
  · exact obeys_emit e
  · exact obeys_pure ()
theorem obeys_cipher (o : World → Out Bytes) : Obeys me (cipher o) :=
  obeys_quiet _ (appends_cipher _ o) (fun _ => rfl) (fun _ => rfl)

theorem asked_left {d d' : List Ev} {u : String} (h : Asked me d u) : Asked me (d ++ d') u :=
  h.imp (fun h => ⟨h.1, h.2.imp fun _ h => List.mem_append_left _ h⟩)
    (fun h => h.imp fun _ h => ⟨List.mem_append_left _ h.1, h.2⟩)
theorem asked_right {d d' : List Ev} {u : String} (h : Asked me d' u) : Asked me (d ++ d') u :=
  h.imp (fun h => ⟨h.1, h.2.imp fun _ h => List.mem_append_right _ h⟩)
    (fun h => h.imp fun _ h => ⟨List.mem_append_right _ h.1, h.2⟩)

theorem obeys_bind {α β : Type} (x : M α) (f : α → M β) (hx : Obeys me x) (hf : ∀ a, Obeys me (f a)) :
    Obeys me (x >>= f) := by
  intro w
  obtain ⟨d, hd, hr⟩ := hx w
  rw [bind_run]
  rcases h : x w with ⟨w', r⟩
  rw [h] at hd hr
  cases r with
  | ok a =>
    obtain ⟨d', hd', hr'⟩ := hf a w'
    refine ⟨d ++ d', ?_, (hr.mono fun _ => asked_left).trans (hr'.mono fun _ => asked_right)⟩
    simp only at hd ⊢
    rw [hd', hd, List.append_assoc]
  | err e => exact ⟨d, hd, hr⟩
  | panic => exact ⟨d, hd, hr⟩

theorem obeys_answer (e : Ev) (f : Send.State → Send.State × Res Unit)
    (h : ∀ s, Reach (Asked me [e]) s (f s).1) : Obeys me (do emit e; answer f) := by
  intro w
  refine ⟨[e], ?_, ?_⟩
  · simp [bind_run, emit_run, answer]
  · simpa [bind_run, emit_run, answer, World.out'] using h ⟨w.store, w.devices, w.sent⟩

theorem obeys_handleFlags (X : Receive.Ext) (src : String) (dm : DataMsg) : Obeys me (handleFlags X src dm) := by
  unfold handleFlags
  split
  · refine obeys_bind _ _ (obeys_lift _) fun c => ?_
    refine obeys_bind _ _ (obeys_quiet _ (appends_update _ _ fun _ => rfl) (fun _ => rfl) fun _ => rfl) fun _ => ?_
    exact obeys_bind _ _ (obeys_quiet _ (appends_update _ _ fun _ => rfl) (fun _ => rfl) fun _ => rfl) fun _ =>
      obeys_pure _
  · split
    · refine obeys_bind _ _ ?_ fun _ => obeys_pure _
      exact obeys_bind _ _ (obeys_quiet _ (appends_update _ _ fun _ => rfl) (fun _ => rfl) fun _ => rfl) fun _ =>
        obeys_lift _
    · exact obeys_pure _

theorem obeys_handleSync (P : Prims) (X : Receive.Ext) (hX : Real P me X) (ts : Nat) (sm : SyncMsg) :
    Obeys me (handleSync P X ts sm) := by
  obtain ⟨A, hA, hu, hv⟩ := hX
  unfold handleSync
  split
  · unfold handleSyncSent
    split
    · exact obeys_lift _
    · refine obeys_bind _ _ (obeys_handleFlags _ _ _) fun _ => ?_
      refine obeys_bind _ _ (obeys_lift _) fun _ => ?_
      refine obeys_bind _ _ (obeys_lift _) fun _ => ?_
      refine obeys_bind _ _ (obeys_lift _) fun _ => ?_
      exact obeys_callback _ _
  · split
    · exact obeys_pure _
    · split
      · exact obeys_pure _
      · split
        · rename_i t _
          unfold handleSyncRequest
          split
          · refine obeys_answer _ _ fun s => ?_
            rw [hu]
            exact (reach_update P A t s).mono fun u h => Or.inl ⟨h.trans hA, t, by simp⟩
          · exact obeys_pure _
        · split
          · refine obeys_quiet _ ?_ ?_ ?_
            · intro w
              unfold handleSyncRead
              by_cases hc : X.cb.syncRead = true
              · exact ⟨sm.read.map (fun r => .onSyncRead r.1 r.2), by simp [update_run, hc], fun _ _ => trivial⟩
              · exact ⟨[], by simp [update_run, hc], by simp⟩
            · intro w
              simp only [handleSyncRead, update_run]
              split <;> rfl
            · intro w
              simp only [handleSyncRead, update_run]
              split <;> rfl
          · split
            · exact obeys_pure _
            · split
              · rename_i v _
                refine obeys_answer _ _ fun s => ?_
                rw [hv]
                exact (reach_verified P A v s).mono fun u h => Or.inr ⟨v, by simp, h⟩
              · exact obeys_pure _

theorem obeys_handleMessage (P : Prims) (X : Receive.Ext) (hX : Real P me X) (src uuid : String) (ts : Nat) (b : Bytes) :
    Obeys me (handleMessage P X src uuid ts b) := by
  unfold handleMessage
  split
  · exact obeys_lift _
  · unfold dispatch
    split
    · refine obeys_bind _ _ (obeys_emit _) fun _ => ?_
      unfold handleData
      refine obeys_bind _ _ (obeys_handleFlags _ _ _) fun _ => ?_
      refine obeys_bind _ _ (obeys_lift _) fun _ => ?_
      refine obeys_bind _ _ (obeys_lift _) fun _ => ?_
      exact obeys_bind _ _ (obeys_lift _) fun _ => obeys_callback _ _
    · split
      · exact obeys_bind _ _ (obeys_emit _) fun _ => obeys_handleSync P X hX _ _
      · split
        · exact obeys_bind _ _ (obeys_emit _) fun _ => obeys_callback _ _
        · split
          · refine obeys_bind _ _ (obeys_emit _) fun _ => ?_
            unfold handleReceiptMsg
            split
            · exact obeys_lift _
            · split
              · exact obeys_lift _
              · exact obeys_callback _ _
          · split
            · exact obeys_bind _ _ (obeys_emit _) fun _ => obeys_callback _ _
            · split
              · exact obeys_emit _
              · exact obeys_pure _

theorem obeys_process (P : Prims) (X : Receive.Ext) (hX : Real P me X) (body : Bytes) : Obeys me (process P X body) := by
  unfold process
  split
  · exact obeys_pure _
  · split
    · exact obeys_lift _
    · exact obeys_pure _
    · unfold handleReceived
      split
      · exact obeys_lift _
      · split
        · exact obeys_lift _
        · exact obeys_callback _ _
        · unfold handleCiphertext
          split
          · exact obeys_lift _
          · refine obeys_bind _ _ (obeys_lift _) fun wm => ?_
            refine obeys_bind _ _ (obeys_cipher _) fun r => ?_
            split
            · exact obeys_lift _
            · exact obeys_pure _
            · refine obeys_bind _ _ (obeys_cipher _) fun r' => ?_
              split
              · exact obeys_pure _
              · exact obeys_lift _
            · exact obeys_lift _
            · exact obeys_handleMessage P X hX _ _ _ _
        · unfold handlePreKey
          refine obeys_bind _ _ (obeys_lift _) fun m => ?_
          refine obeys_bind _ _ (obeys_cipher _) fun r => ?_
          split
          · exact obeys_lift _
          · split
            · exact obeys_pure _
            · exact obeys_lift _
          · exact obeys_handleMessage P X hX _ _ _ _
        · unfold handleSealed
          split
          · exact obeys_lift _
          · exact obeys_lift _
          · refine obeys_bind _ _ (obeys_lift _) fun r => ?_
            obtain ⟨a, b, c⟩ := r
            simp only
            split
            · exact obeys_lift _
            · exact obeys_handleMessage P X hX _ _ _ _
        · exact obeys_lift _

theorem obeys_listen (P : Prims) (fs : List (Receive.Ext × Frame)) (hX : ∀ x ∈ fs, Real P me x.1) : ∀ w,
    ∃ d, (listen P fs w).1.log = w.log ++ d ∧ Reach (Asked me d) (World.out' w) (World.out' (listen P fs w).1) := by
  induction fs with
  | nil => intro w; exact ⟨[], by simp [listen], Reach.refl _ _⟩
  | cons x fs ih =>
    intro w
    obtain ⟨X, f⟩ := x
    cases f with
    | closed => exact ⟨[], by simp [listen], Reach.refl _ _⟩
    | garbage => exact ⟨[], by simp [listen], Reach.refl _ _⟩
    | msg id body =>
      obtain ⟨d, hd, hr⟩ := obeys_process P X (hX _ List.mem_cons_self) body w
      have go : ∀ w' : World, w'.log = w.log ++ d → Reach (Asked me d) (World.out' w) (World.out' w') →
          ∃ d', (listen P fs { w' with log := w'.log ++ [.ack id] }).1.log = w.log ++ d' ∧
            Reach (Asked me d') (World.out' w) (World.out' (listen P fs { w' with log := w'.log ++ [.ack id] }).1) := by
        intro w' h1 h2
        obtain ⟨d', hd', hr'⟩ := ih (fun x hx => hX x (List.mem_cons_of_mem _ hx)) { w' with log := w'.log ++ [.ack id] }
        refine ⟨d ++ ([.ack id] ++ d'), ?_, ?_⟩
        · rw [hd']; simp only [h1, List.append_assoc]
        · exact (h2.mono fun _ => asked_left).trans
            (Reach.mono (show Reach (Asked me d') (World.out' w') _ from hr')
              fun u hu => asked_right (d := d) (asked_right (d := [.ack id]) hu))
      simp only [listen]
      rcases hp : process P X body w with ⟨w', r⟩
      rw [hp] at hd hr
      cases r with
      | ok _ => exact go w' hd hr
      | err _ => exact go w' hd hr
      | panic => exact ⟨d, hd, hr⟩

section
open Verif.Wire Verif.Record Verif.Content Verif.Messages

theorem blob_numOk (a : Send.OutAtt) (hs : a.size < u32) (hn : a.cdnNr < u32) : ∀ f ∈ blob a, NumOk f := by
  have := u32_lt
  intro f hf
  unfold blob at hf
  simp at hf
  rcases hf with rfl | rfl | rfl | rfl | rfl | rfl <;> simp [NumOk] <;> omega

theorem update_read (t : Nat) (a : Send.OutAtt) (hs : a.size < u32) (hn : a.cdnNr < u32)
    (hl : (updateContent t a).length < 2 ^ 64) :
    Content.parseContent (updateContent t a) = some { sync := some { contacts := t = 1, groups := t ≠ 1 } } ∧
    ∃ fs, pointerIn (if t = 1 then 2 else 3) (updateContent t a) = some fs ∧
      Content.attPtr fs = ⟨a.keys, Content.location 0 a.cdnKey a.cdnNr⟩ ∧ getBytes fs 6 = some a.digest ∧
      getU32 fs 4 = some a.size ∧ getBytes fs 2 = some a.contentType := by
  obtain ⟨n, hn0⟩ : ∃ n : Nat, n = if t = 1 then 2 else 3 := ⟨_, rfl⟩
  have hn1 : 2 ≤ n ∧ n ≤ 3 := by rw [hn0]; split <;> omega
  unfold updateContent at hl ⊢
  rw [← hn0] at hl ⊢
  have l2 : (encFields [sub n [sub 1 (blob a)]]).length < 2 ^ 64 := sub_len_lt (n := 2) (by simp) hl
  have l3 : (encFields [sub 1 (blob a)]).length < 2 ^ 64 := sub_len_lt (n := n) (by simp) l2
  have l4 : (encFields (blob a)).length < 2 ^ 64 := sub_len_lt (n := 1) (by simp) l3
  have v4 := valid_of (blob_numOk a hs hn) l4
  have k3 : ∀ f ∈ [sub 1 (blob a)], NumOk f := numOk_one (numOk_sub (by omega) (by omega))
  have v3 := valid_of k3 l3
  have k2 : ∀ f ∈ [sub n [sub 1 (blob a)]], NumOk f := numOk_one (numOk_sub (by omega) (by omega))
  have v2 := valid_of k2 l2
  have v1 : ∀ f ∈ [sub 2 [sub n [sub 1 (blob a)]]], Field.valid f :=
    valid_of (numOk_one (numOk_sub (by omega) (by omega))) hl
  have s4 := subOne_single _ _ 1 (getAll_sub 1 (blob a)) v4
  have s3 := subOne_single _ _ n (getAll_sub n [sub 1 (blob a)]) v3
  have s2 := subOne_single _ _ 2 (getAll_sub 2 [sub n [sub 1 (blob a)]]) v2
  have g : ∀ m, n ≠ m → getAll [sub n [sub 1 (blob a)]] m = [] := fun m hm => getAll_sub_ne n _ m hm
  have hc : checked [sub 1 (blob a)] [1] = some () := by
    have hd : (decFields (encFields (blob a))).isSome = true := by rw [decFields_enc _ v4]; rfl
    have hr := rawOne_single [sub 1 (blob a)] 1 _ (getAll_sub 1 (blob a)) hd
    simp [checked, hr]
  constructor
  · rw [parse_syncPart _ k2 hl]
    have hn1' := hn1
    by_cases ht : t = 1
    · have hn2 : n = 2 := by rw [hn0, if_pos ht]
      subst hn2
      simp [syncMsg, subOne_absent, subs_empty, g, s3, rawOne_absent, checked_absent, Record.optional, checked_nil, hc, ht]
    · have hn3 : n = 3 := by rw [hn0, if_neg ht]
      subst hn3
      simp [syncMsg, subOne_absent, subs_empty, g, s3, rawOne_absent, checked_absent, Record.optional, checked_nil, hc, ht]
  · refine ⟨blob a, ?_, ?_, ?_, ?_, ?_⟩
    · unfold pointerIn
      rw [decFields_enc _ v1]
      simp [s2, s3, s4]
    · unfold attPtr blob bytesOr numOr
      simp [getBytes, getU32, identifier, Nat.mod_eq_of_lt hn]
    · simp [blob, getBytes]
    · simp [blob, getU32, Nat.mod_eq_of_lt hs]
    · simp [blob, getBytes]
end

end Verif.Answers
