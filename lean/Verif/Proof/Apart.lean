import Verif.Proof.Reset
import Verif.Proof.Receive
/-!
# What a frame, and a send, can change in the store
-/
namespace Verif.Receive
open Verif Verif.Api Verif.Names Verif.Messages M

/-- The same with another store. -/
abbrev _root_.Verif.Send.State.at (s : Send.State) (st : Store) : Send.State := { s with store := st }

/-- The part of the state that the send path uses. -/
def World.out (w : World) : Send.State := ⟨w.store, w.devices, w.sent⟩

/-- The state after the call is related to the one before. -/
def KeepsAt {α : Type} (R : Send.State → Send.State → Prop) (x : M α) (w : World) : Prop := R w.out (x w).1.out

variable {R : Send.State → Send.State → Prop}

theorem keeps_pure (hr : ∀ a, R a a) {α : Type} (a : α) (w : World) : KeepsAt R (pure a : M α) w := hr _
theorem keeps_lift (hr : ∀ a, R a a) {α : Type} (r : Res α) (w : World) : KeepsAt R (lift r) w := hr _
theorem keeps_answer (f : Send.State → Send.State × Res Unit) (h : ∀ s, R s (f s).1) (w : World) :
    KeepsAt R (answer f) w := h _
theorem keeps_emit (hr : ∀ a, R a a) (e : Ev) (w : World) : KeepsAt R (emit e) w := hr _

theorem keeps_bind (ht : ∀ a b c, R a b → R b c → R a c) {α β : Type} (x : M α) (f : α → M β) (w : World)
    (hx : KeepsAt R x w) (hf : ∀ a w', x w = (w', .ok a) → KeepsAt R (f a) w') : KeepsAt R (x >>= f) w := by
  unfold KeepsAt at *
  rw [bind_run]
  rcases h : x w with ⟨w', r⟩
  rw [h] at hx
  cases r with
  | ok a => exact ht _ _ _ hx (hf a w' h)
  | err e => exact hx
  | panic => exact hx

theorem keeps_callback (hr : ∀ a, R a a) (b : Bool) (e : Ev) (w : World) : KeepsAt R (callback b e) w := by
  unfold callback; split
  · exact keeps_emit hr e w
  · exact keeps_pure hr () w

/-- The deletion of all sessions of an account keeps `R`. -/
def DelKeeps (R : Send.State → Send.State → Prop) (X : Ext) (rec : String) : Prop :=
  ∀ s, R s (s.at (deleteAllSessions s.store (X.list s.store) rec))

theorem keeps_handleFlags (hr : ∀ a, R a a) (ht : ∀ a b c, R a b → R b c → R a c) (X : Ext) (src : String)
    (dm : DataMsg) (h : dm.flags = 1 → DelKeeps R X src ∧ ∀ c, recID src = .ok c → DelKeeps R X c) (w : World) :
    KeepsAt R (handleFlags X src dm) w := by
  unfold handleFlags
  split
  · rename_i hf
    obtain ⟨h1, h2⟩ := h hf
    refine keeps_bind ht _ _ w (keeps_lift hr _ _) fun c w' hc => ?_
    have hc : recID src = .ok c := by
      rw [lift_run] at hc; exact (Prod.mk.inj hc).2
    refine keeps_bind ht _ _ w' (h2 c hc _) fun _ w'' _ => ?_
    exact keeps_bind ht _ _ w'' (h1 _) fun _ w' _ => keeps_pure hr _ _
  · split
    · refine keeps_bind ht _ _ w ?_ fun _ _ _ => keeps_pure hr _ _
      exact keeps_bind ht _ _ w (hr _) fun _ _ _ => keeps_lift hr _ _
    · exact keeps_pure hr _ _

/-- What a content may do to the sessions: the flag of a data message, or of the one in a transcript, and what is sent
in answer. -/
def ContentKeeps (R : Send.State → Send.State → Prop) (X : Ext) (uuid : String) (c : Content) : Prop :=
  (∀ dm, c.data = some dm → dm.flags = 1 → DelKeeps R X uuid ∧ ∀ r, recID uuid = .ok r → DelKeeps R X r) ∧
  (c.data = none → ∀ sm s dm, c.sync = some sm → sm.sent = some s → s.message = some dm → dm.flags = 1 →
    DelKeeps R X s.destE164 ∧ ∀ r, recID s.destE164 = .ok r → DelKeeps R X r) ∧
  ∀ f, Clients.Answers X c f → ∀ s, R s (f s).1

theorem keeps_handleSync (hr : ∀ a, R a a) (ht : ∀ a b c, R a b → R b c → R a c) (P : Prims) (X : Ext) (ts : Nat)
    (sm : SyncMsg) (h : ∀ s dm, sm.sent = some s → s.message = some dm → dm.flags = 1 →
      DelKeeps R X s.destE164 ∧ ∀ r, recID s.destE164 = .ok r → DelKeeps R X r)
    (hq : ∀ t, sm.request = some t → ∀ s, R s (X.sendUpdate t s).1)
    (hv : ∀ v, sm.verified = some v → ∀ s, R s (X.sendVerified v s).1) (w : World) :
    KeepsAt R (handleSync P X ts sm) w := by
  unfold handleSync
  split
  · rename_i s hs
    unfold handleSyncSent
    split
    · exact keeps_lift hr _ _
    · rename_i dm hdm
      refine keeps_bind ht _ _ _ (keeps_handleFlags hr ht _ _ _ (h s dm hs hdm) _) fun _ _ _ => ?_
      refine keeps_bind ht _ _ _ (keeps_lift hr _ _) fun _ _ _ => ?_
      refine keeps_bind ht _ _ _ (keeps_lift hr _ _) fun _ _ _ => ?_
      refine keeps_bind ht _ _ _ (keeps_lift hr _ _) fun _ _ _ => ?_
      exact keeps_callback hr _ _ _
  · split
    · exact keeps_pure hr _ _
    · split
      · exact keeps_pure hr _ _
      · split
        · rename_i t hrq
          unfold handleSyncRequest
          split
          · exact keeps_bind ht _ _ _ (keeps_emit hr _ _) fun _ _ _ => keeps_answer _ (hq t hrq) _
          · exact keeps_pure hr _ _
        · split
          · unfold handleSyncRead KeepsAt
            rw [update_run]
            simp only
            split <;> exact hr _
          · split
            · exact keeps_pure hr _ _
            · split
              · rename_i v hvq
                exact keeps_bind ht _ _ _ (keeps_emit hr _ _) fun _ _ _ => keeps_answer _ (hv v hvq) _
              · exact keeps_pure hr _ _

theorem keeps_dispatch (hr : ∀ a, R a a) (ht : ∀ a b c, R a b → R b c → R a c) (P : Prims) (X : Ext)
    (src uuid : String) (ts : Nat) (c : Content) (h : ContentKeeps R X uuid c) (w : World) :
    KeepsAt R (dispatch P X src uuid ts c) w := by
  unfold dispatch
  split
  · rename_i dm hdm
    refine keeps_bind ht _ _ _ (keeps_emit hr _ _) fun _ _ _ => ?_
    unfold handleData
    refine keeps_bind ht _ _ _ (keeps_handleFlags hr ht _ _ _ (h.1 dm hdm) _) fun _ _ _ => ?_
    refine keeps_bind ht _ _ _ (keeps_lift hr _ _) fun _ _ _ => ?_
    refine keeps_bind ht _ _ _ (keeps_lift hr _ _) fun _ _ _ => ?_
    refine keeps_bind ht _ _ _ (keeps_lift hr _ _) fun _ _ _ => ?_
    exact keeps_callback hr _ _ _
  · rename_i hd
    split
    · rename_i sm hsm
      exact keeps_bind ht _ _ _ (keeps_emit hr _ _) fun _ _ _ =>
        keeps_handleSync hr ht _ _ _ _ (fun s dm => h.2.1 hd sm s dm hsm)
          (fun t ht => h.2.2 _ ⟨hd, sm, hsm, .inl ⟨t, ht, rfl⟩⟩) (fun v hv => h.2.2 _ ⟨hd, sm, hsm, .inr ⟨v, hv, rfl⟩⟩) _
    · split
      · exact keeps_bind ht _ _ _ (keeps_emit hr _ _) fun _ _ _ => keeps_callback hr _ _ _
      · split
        · refine keeps_bind ht _ _ _ (keeps_emit hr _ _) fun _ _ _ => ?_
          unfold handleReceiptMsg
          split
          · exact keeps_lift hr _ _
          · split
            · exact keeps_lift hr _ _
            · exact keeps_callback hr _ _ _
        · split
          · exact keeps_bind ht _ _ _ (keeps_emit hr _ _) fun _ _ _ => keeps_callback hr _ _ _
          · split
            · exact keeps_emit hr _ _
            · exact keeps_pure hr _ _

theorem keeps_handleMessage (hr : ∀ a, R a a) (ht : ∀ a b c, R a b → R b c → R a c) (P : Prims) (X : Ext)
    (src uuid : String) (ts : Nat) (b : Bytes) (h : ∀ c, X.parseContent b = some c → ContentKeeps R X uuid c)
    (w : World) : KeepsAt R (handleMessage P X src uuid ts b) w := by
  unfold handleMessage
  split
  · exact keeps_lift hr _ _
  · rename_i c hc
    exact keeps_dispatch hr ht _ _ _ _ _ _ (h c hc) _

theorem cipher_res (o : World → Out Bytes) (w w' : World) (r : Res Bytes) (h : cipher o w = (w', .ok r)) :
    (o w).res = r := by
  unfold cipher at h
  simp only at h
  split at h
  · simp at h
  · rename_i x hx
    exact (by injection (Prod.mk.inj h).2)

/-- Everything that a frame does to the store: the writes of decryption, and the deletion of sessions. -/
theorem keeps_process (hr : ∀ a, R a a) (ht : ∀ a b c, R a b → R b c → R a c) (P : Prims) (X : Ext) (body : Bytes)
    (w : World)
    (hw : ∀ e msg wm, Clients.Carries P X body e → e.type = some 1 → e.content = some msg → loadWhisper msg = .ok wm →
      ∀ s, R s (s.at (applyWrites s.store
          (decryptWhisper P X.env X.rnd s.store e.sourceUuid e.sourceDevice wm).writes)) ∧
        R s (s.at (applyWrites s.store
          (decryptWhisper P X.env X.rnd' s.store (legacyId e.sourceUuid) e.sourceDevice wm).writes)))
    (hp : ∀ e m, Clients.Carries P X body e → e.type = some 3 → loadPreKeyMsg (e.content.getD []) = .ok m →
      ∀ s, R s (s.at (applyWrites s.store
          (decryptPreKey P X.env X.rnd s.store e.sourceUuid e.sourceDevice m).writes)))
    (hm : ∀ uuid b c, Clients.Plain P X w.store body uuid b → X.parseContent b = some c → ContentKeeps R X uuid c) :
    KeepsAt R (process P X body) w := by
  unfold process
  split
  · exact keeps_pure hr _ _
  · split
    · exact keeps_lift hr _ _
    · exact keeps_pure hr _ _
    · rename_i pt hpt
      unfold handleReceived
      split
      · exact keeps_lift hr _ _
      · rename_i e he
        have hc : Clients.Carries P X body e := ⟨pt, hpt, he⟩
        split
        · exact keeps_lift hr _ _
        · exact keeps_callback hr _ _ _
        · rename_i hty
          unfold handleCiphertext
          split
          · exact keeps_lift hr _ _
          · rename_i msg hmsg
            refine keeps_bind ht _ _ _ (keeps_lift hr _ _) fun wm w1 hwm => ?_
            rw [lift_run] at hwm
            obtain ⟨hw1, hld⟩ := Prod.mk.inj hwm
            subst hw1
            refine keeps_bind ht _ _ _ (hw e msg wm hc hty hmsg hld _).1 fun r w2 hr2 => ?_
            have hres := cipher_res _ _ _ _ hr2
            split
            · exact keeps_lift hr _ _
            · exact keeps_pure hr _ _
            · refine keeps_bind ht _ _ _ (hw e msg wm hc hty hmsg hld _).2 fun r' _ _ => ?_
              split
              · exact keeps_pure hr _ _
              · exact keeps_lift hr _ _
            · exact keeps_lift hr _ _
            · rename_i b
              refine keeps_handleMessage hr ht _ _ _ _ _ _ (fun c h => hm _ _ c ?_ h) _
              exact ⟨e, hc, Or.inl ⟨hty, rfl, msg, wm, b, hmsg, hld, hres, rfl⟩⟩
        · rename_i hty
          unfold handlePreKey
          refine keeps_bind ht _ _ _ (keeps_lift hr _ _) fun m w1 hwm => ?_
          rw [lift_run] at hwm
          obtain ⟨hw1, hld⟩ := Prod.mk.inj hwm
          subst hw1
          refine keeps_bind ht _ _ _ (hp e m hc hty hld _) fun r w2 hr2 => ?_
          have hres := cipher_res _ _ _ _ hr2
          split
          · exact keeps_lift hr _ _
          · split
            · exact keeps_pure hr _ _
            · exact keeps_lift hr _ _
          · rename_i b
            refine keeps_handleMessage hr ht _ _ _ _ _ _ (fun c h => hm _ _ c ?_ h) _
            exact ⟨e, hc, Or.inr (Or.inl ⟨hty, rfl, m, b, hld, hres, rfl⟩)⟩
        · rename_i hty
          unfold handleSealed
          split
          · exact keeps_lift hr _ _
          · exact keeps_lift hr _ _
          · refine keeps_bind ht _ _ _ (keeps_lift hr _ _) fun r w1 hr1 => ?_
            rw [lift_run] at hr1
            obtain ⟨hw1, hcr⟩ := Prod.mk.inj hr1
            subst hw1
            obtain ⟨sender, ts, content⟩ := r
            simp only
            split
            · exact keeps_lift hr _ _
            · exact keeps_handleMessage hr ht _ _ _ _ _ _
                (fun c h => hm _ _ c ⟨e, hc, Or.inr (Or.inr ⟨hty, ts, hcr⟩)⟩ h) _
        · exact keeps_lift hr _ _

/-- A frame has no content that is handled, or one that is. -/
theorem process_cases (P : Prims) (X : Ext) (body : Bytes) (w : World) :
    (∃ d, (process P X body w).1.log = w.log ++ d ∧ ∀ x ∈ d, ∃ u dev ts, x = .onReceipt u dev ts) ∨
    ∃ src uuid ts b st', Clients.Plain P X w.store body uuid b ∧
      process P X body w = handleMessage P X src uuid ts b { w with store := st' } := by
  obtain ⟨x, hx⟩ : ∃ x, x = process P X body w := ⟨_, rfl⟩
  rw [← hx]
  have quiet : ∀ w' : World, w'.log = w.log → x.1 = w' →
      (∃ d, x.1.log = w.log ++ d ∧ ∀ y ∈ d, ∃ u dev ts, y = .onReceipt u dev ts) ∨
      ∃ src uuid ts b st', Clients.Plain P X w.store body uuid b ∧
        x = handleMessage P X src uuid ts b { w with store := st' } := by
    intro w' h1 h2
    exact Or.inl ⟨[], by simp [h2, h1], by simp⟩
  unfold process at hx
  by_cases hb : body = []
  · rw [if_pos hb] at hx; exact quiet w rfl (by rw [hx]; rfl)
  rw [if_neg hb] at hx
  rcases hpt : Files.decryptReceivedMessage P X.signalingKey body with pt | e | _
  rotate_left
  · rw [hpt] at hx; exact quiet w rfl (by rw [hx]; rfl)
  · rw [hpt] at hx; exact quiet w rfl (by rw [hx]; rfl)
  rw [hpt] at hx
  simp only at hx
  rcases he : X.parseEnvelope pt with _ | e
  · rw [he] at hx; exact quiet w rfl (by rw [hx]; rfl)
  rw [he] at hx
  have hc : Clients.Carries P X body e := ⟨pt, hpt, he⟩
  have htype : e.type = none ∨ e.type = some 5 ∨ e.type = some 1 ∨ e.type = some 3 ∨ e.type = some 6 ∨
      (e.type ≠ none ∧ e.type ≠ some 5 ∧ e.type ≠ some 1 ∧ e.type ≠ some 3 ∧ e.type ≠ some 6) := by
    by_cases h0 : e.type = none
    · exact Or.inl h0
    by_cases h1 : e.type = some 5
    · exact Or.inr (Or.inl h1)
    by_cases h2 : e.type = some 1
    · exact Or.inr (Or.inr (Or.inl h2))
    by_cases h3 : e.type = some 3
    · exact Or.inr (Or.inr (Or.inr (Or.inl h3)))
    by_cases h4 : e.type = some 6
    · exact Or.inr (Or.inr (Or.inr (Or.inr (Or.inl h4))))
    exact Or.inr (Or.inr (Or.inr (Or.inr (Or.inr ⟨h0, h1, h2, h3, h4⟩))))
  unfold handleReceived at hx
  rcases htype with hty | hty | hty | hty | hty | ⟨h0, h5, h1, h3, h6⟩
  · simp only [hty] at hx; exact quiet w rfl (by rw [hx]; rfl)
  · simp only [hty] at hx
    left
    rw [hx]
    unfold callback
    split
    · exact ⟨[_], rfl, by simp⟩
    · exact ⟨[], by simp [pure_run], by simp⟩
  · simp only [hty] at hx
    unfold handleCiphertext at hx
    rcases hmsg : e.content with _ | msg
    · rw [hmsg] at hx; exact quiet w rfl (by rw [hx]; rfl)
    rw [hmsg] at hx
    simp only at hx
    rcases hl : loadWhisper msg with wm | er | _
    rotate_left
    · rw [hl] at hx; exact quiet w rfl (by rw [hx]; rfl)
    · rw [hl] at hx; exact quiet w rfl (by rw [hx]; rfl)
    rw [hl, lift_ok_bind, bind_run] at hx
    rcases ho : decryptWhisper P X.env X.rnd w.store e.sourceUuid e.sourceDevice wm with ⟨ws, r⟩
    rcases r with b | er | _
    · right
      rw [cipher_ok _ w ws b ho] at hx
      refine ⟨e.sourceUuid, e.sourceUuid, e.serverTimestamp, _, applyWrites w.store ws, ?_, hx⟩
      exact ⟨e, hc, Or.inl ⟨hty, rfl, msg, wm, b, hmsg, hl, by rw [ho], rfl⟩⟩
    · rw [cipher_err _ w ws er ho] at hx
      simp only at hx
      by_cases h2 : er = .invalidMessage
      · subst h2
        simp only at hx
        rw [bind_run] at hx
        rcases hq : cipher (fun w => decryptWhisper P X.env X.rnd' w.store (legacyId e.sourceUuid) e.sourceDevice wm)
          { w with store := applyWrites w.store ws } with ⟨w2, r2⟩
        have hlog : w2.log = w.log := by
          have := congrArg (fun x => x.1.log) hq
          simpa [cipher] using this.symm
        rw [hq] at hx
        rcases r2 with r2 | _ | _
        · simp only at hx
          refine quiet w2 hlog ?_
          rw [hx]
          split <;> rfl
        · exact quiet w2 hlog (by rw [hx])
        · exact quiet w2 hlog (by rw [hx])
      · refine quiet { w with store := applyWrites w.store ws } rfl ?_
        rw [hx]
        cases er <;> first | rfl | exact absurd rfl h2
    · rw [cipher_panic _ w ws ho] at hx
      exact quiet { w with store := applyWrites w.store ws } rfl (by rw [hx])
  · simp only [hty] at hx
    unfold handlePreKey at hx
    rcases hl : loadPreKeyMsg (e.content.getD []) with m | er | _
    rotate_left
    · rw [hl] at hx; exact quiet w rfl (by rw [hx]; rfl)
    · rw [hl] at hx; exact quiet w rfl (by rw [hx]; rfl)
    rw [hl, lift_ok_bind, bind_run] at hx
    rcases ho : decryptPreKey P X.env X.rnd w.store e.sourceUuid e.sourceDevice m with ⟨ws, r⟩
    rcases r with b | er | _
    · right
      rw [cipher_ok _ w ws b ho] at hx
      refine ⟨e.sourceUuid, e.sourceUuid, e.serverTimestamp, _, applyWrites w.store ws, ?_, hx⟩
      exact ⟨e, hc, Or.inr (Or.inl ⟨hty, rfl, m, b, hl, by rw [ho], rfl⟩)⟩
    · rw [cipher_err _ w ws er ho] at hx
      refine quiet { w with store := applyWrites w.store ws } rfl ?_
      rw [hx]
      simp only
      split <;> rfl
    · rw [cipher_panic _ w ws ho] at hx
      exact quiet { w with store := applyWrites w.store ws } rfl (by rw [hx])
  · simp only [hty] at hx
    unfold handleSealed at hx
    rcases hk : X.signalingKey with _ | ⟨k0, ks⟩
    · rw [hk] at hx; exact quiet w rfl (by rw [hx]; rfl)
    rcases hd : e.destinationUuid with _ | du
    · rw [hk, hd] at hx; exact quiet w rfl (by rw [hx]; rfl)
    rw [hk, hd] at hx
    simp only at hx
    rcases hl : X.crayfish e with ⟨sender, ts, content⟩ | er | _
    rotate_left
    · rw [hl] at hx; exact quiet w rfl (by rw [hx]; rfl)
    · rw [hl] at hx; exact quiet w rfl (by rw [hx]; rfl)
    rw [hl, lift_ok_bind] at hx
    simp only at hx
    by_cases hne : content = []
    · rw [if_pos hne] at hx; exact quiet w rfl (by rw [hx]; rfl)
    · rw [if_neg hne] at hx
      exact Or.inr ⟨"", sender, ts, content, w.store, ⟨e, hc, Or.inr (Or.inr ⟨hty, ts, hl⟩)⟩, hx⟩
  · rcases hty : e.type with _ | ty
    · exact absurd hty h0
    · simp only [hty] at hx
      rw [hty] at h5 h1 h3 h6
      refine quiet w rfl ?_
      rw [hx]
      match ty, h5, h1, h3, h6 with
      | 0, _, _, _, _ => rfl
      | 1, _, h, _, _ => exact absurd rfl h
      | 2, _, _, _, _ => rfl
      | 3, _, _, h, _ => exact absurd rfl h
      | 4, _, _, _, _ => rfl
      | 5, h, _, _, _ => exact absurd rfl h
      | 6, _, _, _, h => exact absurd rfl h
      | n + 7, _, _, _, _ => rfl

/-- The content of a frame is handled. -/
theorem process_plain (P : Prims) (X : Ext) (body : Bytes) (w : World) (uuid : String) (b : Bytes)
    (h : Clients.Plain P X w.store body uuid b)
    (h6 : ∀ e, Clients.Carries P X body e → e.type = some 6 → e.destinationUuid ≠ none) (hb : b ≠ []) :
    ∃ src ts ws, process P X body w = handleMessage P X src uuid ts b { w with store := applyWrites w.store ws } := by
  obtain ⟨e, hc, hcase⟩ := h
  obtain ⟨pt, hpt, he⟩ := hc
  have hbody : body ≠ [] := by
    rintro rfl
    simp [Files.decryptReceivedMessage] at hpt
  have hkey : X.signalingKey ≠ [] := by
    intro h0
    rw [h0] at hpt
    unfold Files.decryptReceivedMessage at hpt
    split at hpt
    · cases hpt
    · rw [if_pos (by simp)] at hpt; cases hpt
  have hproc : process P X body w = handleReceived P X (some e) w := by
    unfold process
    rw [if_neg hbody, hpt]
    simp only [he]
  rw [hproc]
  unfold handleReceived
  rcases hcase with ⟨hty, rfl, msg, wm, p, hmsg, hl, hr, rfl⟩ | ⟨hty, rfl, m, p, hl, hr, rfl⟩ | ⟨hty, ts, hl⟩
  · simp only [hty]
    unfold handleCiphertext
    rw [hmsg]
    simp only
    rw [hl, lift_ok_bind, bind_run]
    rcases ho : decryptWhisper P X.env X.rnd w.store e.sourceUuid e.sourceDevice wm with ⟨ws, r⟩
    rw [ho] at hr
    simp only at hr
    subst hr
    rw [cipher_ok _ w ws p ho]
    exact ⟨_, _, _, rfl⟩
  · simp only [hty]
    unfold handlePreKey
    rw [hl, lift_ok_bind, bind_run]
    rcases ho : decryptPreKey P X.env X.rnd w.store e.sourceUuid e.sourceDevice m with ⟨ws, r⟩
    rw [ho] at hr
    simp only at hr
    subst hr
    rw [cipher_ok _ w ws p ho]
    exact ⟨_, _, _, rfl⟩
  · simp only [hty]
    unfold handleSealed
    rcases hk : X.signalingKey with _ | ⟨k0, ks⟩
    · exact absurd hk hkey
    rcases hd : e.destinationUuid with _ | du
    · exact absurd hd (h6 e ⟨pt, hpt, he⟩ hty)
    simp only
    rw [hl, lift_ok_bind]
    simp only
    rw [if_neg hb]
    exact ⟨_, _, [], rfl⟩

def Same (a b : Send.State) : Prop := b = a

/-- A transcript of the end of a session: all sessions with the account it names are deleted. -/
theorem sync_deletes (P : Prims) (X : Ext) (src uuid : String) (ts : Nat) (b : Bytes) (c : Content) (sm : SyncMsg)
    (s : Sent) (dm : DataMsg) (w : World) (hp : X.parseContent b = some c) (hd : c.data = none)
    (hs : c.sync = some sm) (ht : sm.sent = some s) (hm : s.message = some dm) (hf : dm.flags = 1)
    (r : String) (hr : recID s.destE164 = .ok r) :
    (handleMessage P X src uuid ts b w).1.store =
      deleteAllSessions (deleteAllSessions w.store (X.list w.store) r)
        (X.list (deleteAllSessions w.store (X.list w.store) r)) s.destE164 := by
  unfold handleMessage
  rw [hp]
  simp only
  unfold dispatch
  rw [hd]
  simp only
  rw [hs]
  simp only
  rw [bind_run, emit_run]
  simp only
  unfold handleSync
  rw [ht]
  simp only
  unfold handleSyncSent
  rw [hm]
  simp only
  unfold handleFlags
  rw [if_pos hf, hr]
  rw [bind_run, bind_run]
  simp only [lift_run, deleteAll, bind_run, update_run, pure_run]
  have hrest : ∀ (f : M Unit) (w' : World), KeepsAt Same f w' → (f w').1.store = w'.store :=
    fun f w' h => congrArg Send.State.store h
  have hr1 : ∀ a, Same a a := fun _ => rfl
  have ht1 : ∀ a b c, Same a b → Same b c → Same a c := fun a b c h1 h2 => Eq.trans h2 h1
  have key := hrest (do
      let atts ← lift (Files.handleAttachments P X.fetch AttPtr.key dm.attachments)
      let gr ← lift (X.syncGroupsV2 s.destE164 dm)
      let t ← derefTs dm
      callback X.cb.syncSent (.onSyncSent
        { source := s.destE164, sourceUuid := s.destUuid, message := dm.body, attachments := atts
          group := gr, flags := 1, expireTimer := dm.expireTimer, profileKey := dm.profileKey
          timestamp := t, quote := dm.quote, contact := none, sticker := dm.sticker
          reaction := dm.reaction } ts)) { w with
      store := deleteAllSessions (deleteAllSessions w.store (X.list w.store) r)
        (X.list (deleteAllSessions w.store (X.list w.store) r)) s.destE164
      log := w.log ++ [.enter .sync] } (by
    refine keeps_bind ht1 _ _ _ (keeps_lift hr1 _ _) fun _ _ _ => ?_
    refine keeps_bind ht1 _ _ _ (keeps_lift hr1 _ _) fun _ _ _ => ?_
    refine keeps_bind ht1 _ _ _ (keeps_lift hr1 _ _) fun _ _ _ => ?_
    exact keeps_callback hr1 _ _ _)
  simpa only [bind_run, lift_run] using key

end Verif.Receive

namespace Verif.Clients
open Verif Verif.Keys Verif.Messages Verif.Session Verif.Api Verif.Names

/-- An environment in which nothing is sent. -/
theorem answers_idle {X : Receive.Ext} {c : Receive.Content} {f : Send.State → Send.State × Res Unit}
    (h1 : ∀ t s, (X.sendUpdate t s).1 = s) (h2 : ∀ v s, (X.sendVerified v s).1 = s) (h : Answers X c f)
    (s : Send.State) : (f s).1 = s := by
  obtain ⟨_, sm, _, ⟨t, _, rfl⟩ | ⟨v, _, rfl⟩⟩ := h
  · exact h1 t s
  · exact h2 v s

theorem keeps_hear {R : Send.State → Send.State → Prop} (P : Prims) (c : Client) (X : Receive.Ext) (id : Nat)
    (body : Bytes)
    (h : Receive.KeepsAt R (Receive.process P X body) ⟨c.send.store, c.contacts, [], c.send.devices, c.send.log⟩) :
    R c.send (hear P c X id body).1.send := by
  simp only [hear, Receive.listen]
  unfold Receive.KeepsAt at h
  rcases hp : Receive.process P X body ⟨c.send.store, c.contacts, [], c.send.devices, c.send.log⟩ with ⟨w', r⟩
  rw [hp] at h
  cases r with
  | ok _ => exact h
  | err _ => exact h
  | panic => exact h

/-! ## All sessions are within a set of names -/

/-- The files of sessions are among `p`, if they were. -/
def Within (p : Name → Prop) (a b : Store) : Prop :=
  (∀ x, a.sessions x ≠ .absent → p x) → ∀ x, b.sessions x ≠ .absent → p x

theorem within_refl (p : Name → Prop) (a : Store) : Within p a a := fun h => h
theorem within_trans (p : Name → Prop) (a b c : Store) (h : Within p a b) (h' : Within p b c) : Within p a c :=
  fun x => h' (h x)

theorem within_writes (p : Name → Prop) (ws : List Write) : ∀ st : Store,
    (∀ n d r, Write.storeSession n d r ∈ ws → (∀ x, st.sessions x ≠ .absent → p x) → p (sessName n d)) →
    Within p st (applyWrites st ws) := by
  induction ws with
  | nil => intro st _; exact within_refl p st
  | cons x ws ih =>
    intro st h
    have h1 : Within p st (applyWrite st x) := by
      intro hs y hy
      cases x with
      | saveIdentity n' k' => exact hs y hy
      | removePreKey i => exact hs y hy
      | storeSession n' d' r =>
        simp only [applyWrite] at hy
        by_cases he : y = sessName n' d'
        · rw [he]; exact h n' d' r List.mem_cons_self hs
        · rw [if_neg he] at hy; exact hs y hy
    intro hs
    refine ih (applyWrite st x) ?_ (h1 hs)
    intro n d r hm _
    exact h n d r (List.mem_cons_of_mem _ hm) hs

theorem few_writes (ws : List Write) : ∀ st : Store, Few st → Few (applyWrites st ws) := by
  induction ws with
  | nil => intro st h; exact h
  | cons x ws ih =>
    intro st h
    refine ih _ ?_
    obtain ⟨l, hl⟩ := h
    cases x with
    | saveIdentity n' k' => exact ⟨l, hl⟩
    | removePreKey i => exact ⟨l, hl⟩
    | storeSession n' d' r =>
      refine ⟨sessName n' d' :: l, fun y hy => ?_⟩
      simp only [applyWrite] at hy
      by_cases he : y = sessName n' d'
      · rw [he]; exact List.mem_cons_self
      · rw [if_neg he] at hy; exact List.mem_cons_of_mem _ (hl y hy)

theorem few_delete (st : Store) (l : List Name) (rec : String) (h : Few st) : Few (deleteAllSessions st l rec) :=
  h.imp fun _ hl x hx => hl x (deleteAll_sub st l rec x hx)

theorem within_delete (p : Name → Prop) (st : Store) (l : List Name) (rec : String) :
    Within p st (deleteAllSessions st l rec) := fun h x hx => h x (deleteAll_sub st l rec x hx)

theorem within_present (p : Name → Prop) (st : Store) (n : String) (d : Nat) (sr : SRecord)
    (hl : loadSession st n d = .ok sr) (hsr : sr ≠ {}) (h : ∀ x, st.sessions x ≠ .absent → p x) : p (sessName n d) := by
  refine h _ fun ha => ?_
  simp only [loadSession, ha] at hl
  injection hl with hl
  exact hsr hl.symm

theorem within_whisper (p : Name → Prop) (P : Prims) (env : Env) (rnd : Nat → Bytes) (st : Store) (rec : String)
    (dev : Nat) (m : WhisperMsg) : Within p st (applyWrites st (decryptWhisper P env rnd st rec dev m).writes) := by
  rcases decryptWhisper_cases P env rnd st rec dev m with ⟨h, _⟩ | ⟨sr, sr', pt, hl, hd, _, h⟩
  · rw [h]; exact within_refl p st
  · rw [h]
    refine within_writes p _ st fun n d r hm hs => ?_
    obtain ⟨rfl, rfl, rfl⟩ := by simpa using hm
    refine within_present p st _ _ sr hl ?_ hs
    rintro rfl
    obtain ⟨sr2, h2⟩ := decrypt_empty P rnd m
    rw [h2] at hd
    simp at hd

theorem within_prekey (p : Name → Prop) (P : Prims) (env : Env) (rnd : Nat → Bytes) (st : Store) (rec : String)
    (dev : Nat) (m : PreKeyMsg) (h : p (sessName rec dev)) :
    Within p st (applyWrites st (decryptPreKey P env rnd st rec dev m).writes) := by
  intro hs x hx
  by_cases he : x = sessName rec dev
  · rw [he]; exact h
  · have := scope_of (P := P) (st := st) (ws := (decryptPreKey P env rnd st rec dev m).writes)
      ⟨rec, dev, env, none, .decryptP rnd m⟩ rfl rfl rfl x he
    rw [this] at hx
    exact hs x hx

/-- A frame makes no sessions but with the device that it comes from, if it is to begin one, and with those that the
client is asked to write to. -/
theorem within_hear (p : Name → Prop) (P : Prims) (c : Client) (X : Receive.Ext) (id : Nat) (body : Bytes)
    (h : ∀ e, Carries P X body e → e.type = some 3 → p (sessName e.sourceUuid e.sourceDevice))
    (ha : ∀ uuid b m f, Plain P X c.send.store body uuid b → X.parseContent b = some m → Answers X m f →
      ∀ s, Within p s.store (f s).1.store) :
    Within p c.send.store (hear P c X id body).1.send.store := by
  refine keeps_hear (R := fun a b => Within p a.store b.store) P c X id body
    (Receive.keeps_process (R := fun a b => Within p a.store b.store) (fun _ => within_refl p _)
      (fun _ _ _ => within_trans p _ _ _) P X body _ ?_ ?_ ?_)
  · exact fun e _ wm _ _ _ _ s => ⟨within_whisper p P _ _ s.store _ _ wm, within_whisper p P _ _ s.store _ _ wm⟩
  · exact fun e m hc ht _ s => within_prekey p P _ _ s.store _ _ m (h e hc ht)
  · exact fun uuid b c hp hc =>
      ⟨fun _ _ _ => ⟨fun s => within_delete p s.store _ _, fun _ _ s => within_delete p s.store _ _⟩,
        fun _ _ _ _ _ _ _ _ => ⟨fun s => within_delete p s.store _ _, fun _ _ s => within_delete p s.store _ _⟩,
        fun f hf => ha uuid b c f hp hc hf⟩

theorem few_hear (P : Prims) (c : Client) (X : Receive.Ext) (id : Nat) (body : Bytes) (h : Few c.send.store)
    (ha : ∀ uuid b m f, Plain P X c.send.store body uuid b → X.parseContent b = some m → Answers X m f →
      ∀ s, Few s.store → Few (f s).1.store) :
    Few (hear P c X id body).1.send.store := by
  refine keeps_hear (R := fun a b => Few a.store → Few b.store) P c X id body
    (Receive.keeps_process (R := fun a b => Few a.store → Few b.store) (fun _ h => h) (fun _ _ _ h h' x => h' (h x)) P X
      body _ ?_ ?_ ?_) h
  · exact fun e _ wm _ _ _ _ s => ⟨few_writes _ s.store, few_writes _ s.store⟩
  · exact fun e m hc ht _ s => few_writes _ s.store
  · exact fun uuid b c hp hc =>
      ⟨fun _ _ _ => ⟨fun s => few_delete s.store _ _, fun _ _ s => few_delete s.store _ _⟩,
        fun _ _ _ _ _ _ _ _ => ⟨fun s => few_delete s.store _ _, fun _ _ s => few_delete s.store _ _⟩,
        fun f hf => ha uuid b c f hp hc hf⟩

theorem within_encrypt (p : Name → Prop) (P : Prims) (env : Env) (st : Store) (rec : String) (dev : Nat) (pt : Bytes) :
    Within p st (applyWrites st (encryptMsg P env st rec dev pt).writes) := by
  rcases encryptMsg_cases P env st rec dev pt with ⟨h, _⟩ | ⟨sr, s', out, ty, hl, he, _, h⟩
  · rw [h]; exact within_refl p st
  · rw [h]
    refine within_writes p _ st fun n d r hm hs => ?_
    obtain ⟨rfl, rfl, rfl⟩ := by simpa using hm
    refine within_present p st _ _ sr hl ?_ hs
    rintro rfl
    simp [encryptState] at he

theorem within_ensure (p : Name → Prop) (P : Prims) (D : Send.DevExt) (st : Store) (recid : String) (d : Nat)
    (hp : ∀ d r bd b, D.prekeys d = .ok r → Send.makeBundle r = .ok (bd, b) → p (sessName recid bd)) :
    Within p st (Send.ensureSession P D st recid d).1 := by
  unfold Send.ensureSession
  split
  · exact within_refl p st
  · split
    · exact within_refl p st
    · exact within_refl p st
    · rename_i r hr
      split
      · exact within_refl p st
      · exact within_refl p st
      · rename_i bd b hb
        refine within_writes p _ st fun n d' r' hm _ => ?_
        have hn : n = recid ∧ d' = bd := by
          rcases buildSender_cases P D.env st D.rb D.rr recid bd b with ⟨hw, _⟩ | ⟨_, _, _, _, _, _, _, _, _, _, _, hw⟩
          · rw [hw] at hm; cases hm
          · rw [hw] at hm
            split at hm <;> simp at hm <;> exact ⟨hm.1, hm.2.1⟩
        rw [hn.1, hn.2]
        exact hp d r bd b hr hb

theorem within_buildOne (p : Name → Prop) (P : Prims) (D : Send.DevExt) (st : Store) (recid : String) (d : Nat)
    (pt : Bytes)
    (hp : ∀ d r bd b, D.prekeys d = .ok r → Send.makeBundle r = .ok (bd, b) → p (sessName recid bd)) :
    Within p st (Send.buildOne P D st recid d pt).1 := by
  have h1 := within_ensure p P D st recid d hp
  unfold Send.buildOne
  rcases he : Send.ensureSession P D st recid d with ⟨st1, r⟩
  rw [he] at h1
  cases r with
  | err e => exact h1
  | panic => exact h1
  | ok u =>
    have h2 := within_trans p _ _ _ h1 (within_encrypt p P D.env st1 recid d pt)
    simp only
    split
    · exact h2
    · exact h2
    · split <;> exact h2

theorem within_buildLoop (p : Name → Prop) (P : Prims) (D : Nat → Send.DevExt) (recid : String) (pt : Bytes)
    (hp : ∀ j d r bd b, (D j).prekeys d = .ok r → Send.makeBundle r = .ok (bd, b) → p (sessName recid bd))
    (devs : List Nat) : ∀ (i : Nat) (st : Store), Within p st (Send.buildLoop P D recid pt i devs st).1 := by
  induction devs with
  | nil => intro i st; exact within_refl p st
  | cons d devs ih =>
    intro i st
    have h1 := within_buildOne p P (D i) st recid d pt (hp i)
    unfold Send.buildLoop
    rcases hb : Send.buildOne P (D i) st recid d pt with ⟨st1, r⟩
    rw [hb] at h1
    cases r with
    | err e => exact h1
    | panic => exact h1
    | ok m =>
      have h2 := within_trans p _ _ _ h1 (ih (i + 1) st1)
      simp only
      rcases hl : Send.buildLoop P D recid pt (i + 1) devs st1 with ⟨st2, r2⟩
      rw [hl] at h2
      cases r2 <;> exact h2

theorem within_dropStale (p : Name → Prop) (recid : String) (l : List Nat) : ∀ st : Store,
    Within p st (Send.dropStale st recid l) := by
  induction l with
  | nil => exact fun st => within_refl p st
  | cons d l ih =>
    intro st
    refine within_trans p _ _ _ ?_ (ih (deleteSession st recid d))
    intro hs x hx
    simp only [deleteSession] at hx
    split at hx
    · exact absurd rfl hx
    · exact hs x hx

theorem within_sendLoop (p : Name → Prop) (P : Prims) (D : Nat → Nat → Send.DevExt)
    (srv : Nat → Send.Request → Send.Reply) (uuid : String) (pt : Bytes) (ts : Nat)
    (hp : ∀ i j d r bd b, (D i j).prekeys d = .ok r → Send.makeBundle r = .ok (bd, b) →
      p (sessName (Send.recidOf uuid) bd)) (fuel : Nat) : ∀ (i : Nat) (s : Send.State),
    Within p s.store (Send.sendLoop P D srv uuid pt ts fuel i s).1.store := by
  induction fuel with
  | zero => intro i s; exact within_refl p _
  | succ fuel ih =>
    intro i s
    have h1 : Within p s.store (Send.buildMessage P (D i) s.store uuid pt (s.devs uuid)).1 := by
      unfold Send.buildMessage
      rcases hr : Receive.recID uuid with recid | e | _
      · have : Send.recidOf uuid = recid := by simp [Send.recidOf, hr]
        exact within_buildLoop p P (D i) recid pt (this ▸ hp i) _ 0 s.store
      · exact within_refl p _
      · exact within_refl p _
    unfold Send.sendLoop
    rcases hb : Send.buildMessage P (D i) s.store uuid pt (s.devs uuid) with ⟨st1, r⟩
    rw [hb] at h1
    cases r with
    | err e => exact h1
    | panic => exact h1
    | ok ms =>
      simp only
      split
      · exact h1
      · exact h1
      · exact h1
      · refine within_trans p _ _ _ h1 ?_
        exact ih (i + 1) { store := st1, devices := _, log := _ }
      · rename_i l _
        refine within_trans p _ _ _ (within_trans p _ _ _ h1 (within_dropStale p (Send.recidOf uuid) l st1)) ?_
        exact ih (i + 1) { store := _, devices := _, log := _ }

/-- A send makes no sessions but with the devices whose prekeys it is given. -/
theorem within_send (p : Name → Prop) (P : Prims) (X : Send.SendExt) (fuel : Nat) (m : Send.OutMsg) (s : Send.State)
    (hp : ∀ i j d r bd b, (X.D i j).prekeys d = .ok r → Send.makeBundle r = .ok (bd, b) →
      p (sessName (Send.recidOf m.destination) bd))
    (hp' : ∀ i j d r bd b, (X.D' i j).prekeys d = .ok r → Send.makeBundle r = .ok (bd, b) →
      p (sessName (Send.recidOf X.self) bd)) :
    Within p s.store (Send.sendMessage P X fuel m s).1.store := by
  unfold Send.sendMessage
  simp only
  split
  · exact within_refl p _
  · exact within_refl p _
  · rename_i b _
    have h1 := within_sendLoop p P X.D X.srv m.destination (Files.padMessage b)
      (Send.createMessage X.now X.profileKey m).timestamp hp fuel 0 (Send.withDefault s m.destination)
    rcases hl : Send.sendLoop P X.D X.srv m.destination (Files.padMessage b)
      (Send.createMessage X.now X.profileKey m).timestamp fuel 0 (Send.withDefault s m.destination) with ⟨s', r⟩
    rw [hl] at h1
    rcases r with _ | r
    · exact h1
    · cases r with
      | err _ => exact h1
      | panic => exact h1
      | ok r =>
        simp only
        split
        · exact h1
        · have h2 : ∀ t, Within p s'.store (Send.sendSync P X fuel t s').1.store := by
            intro t
            unfold Send.sendSync
            simp only
            split
            · exact within_refl p _
            · exact within_refl p _
            · rename_i b' _
              have h3 := within_sendLoop p P X.D' X.srv' X.self (Files.padMessage b') t.timestamp hp' fuel 0
                (Send.withDefault s' X.self)
              rcases hl : Send.sendLoop P X.D' X.srv' X.self (Files.padMessage b') t.timestamp fuel 0
                (Send.withDefault s' X.self) with ⟨s2, r2⟩
              rw [hl] at h3
              rcases r2 with _ | r2
              · exact h3
              · cases r2 <;> exact h3
          generalize hq : Send.sendSync P X fuel _ s' = q
          have h5 : Within p s.store q.1.store := by
            rw [← hq]
            exact within_trans p _ _ _ h1 (h2 _)
          rcases q with ⟨s2, _ | r2⟩
          · exact h5
          · cases r2 <;> exact h5

/-! ## Acts that do not concern a conversation -/

/-- `Apart`; the signed prekeys are the same, and so is the one-time prekey `pk`. -/
def Spares (n : String) (dev : Nat) (k : Bytes) (pk : Option Nat) (a b : Store) : Prop :=
  Apart n dev k a b ∧ b.signedPreKeys = a.signedPreKeys ∧ ∀ i, pk = some i → i ≠ 0 → b.preKeys i = a.preKeys i

theorem spares_refl (n : String) (dev : Nat) (k : Bytes) (pk : Option Nat) (a : Store) : Spares n dev k pk a a :=
  ⟨⟨rfl, id, id, rfl, rfl⟩, rfl, fun _ _ _ => rfl⟩

theorem spares_trans (n : String) (dev : Nat) (k : Bytes) (pk : Option Nat) (a b c : Store)
    (h : Spares n dev k pk a b) (h' : Spares n dev k pk b c) : Spares n dev k pk a c :=
  ⟨h.1.trans h'.1, h'.2.1.trans h.2.1, fun i hi h0 => (h'.2.2 i hi h0).trans (h.2.2 i hi h0)⟩

theorem Aside.spares {n : String} {dev : Nat} {k : Bytes} {a b : Store} (h : Aside n dev k a b) (pk : Option Nat) :
    Spares n dev k pk a b := ⟨h.toApart, h.signedPreKeys, fun i _ _ => by rw [h.preKeys]⟩

theorem spares_writes (n : String) (dev : Nat) (k : Bytes) (pk : Option Nat) (ws : List Write) : ∀ st : Store,
    (∀ x ∈ ws, match x with
      | .saveIdentity n' k' => n' ≠ n ∨ k' = k
      | .removePreKey j => ∀ i, pk = some i → i ≠ 0 → j ≠ i
      | .storeSession n' d' _ => n' ≠ n ∨ d' ≠ dev) → Spares n dev k pk st (applyWrites st ws) := by
  induction ws with
  | nil => intro st _; exact spares_refl n dev k pk st
  | cons x ws ih =>
    intro st h
    refine spares_trans _ _ _ _ _ _ _ ?_ (ih (applyWrite st x) (fun y hy => h y (List.mem_cons_of_mem _ hy)))
    have hx := h x List.mem_cons_self
    cases x with
    | removePreKey j =>
      refine ⟨⟨rfl, id, id, rfl, rfl⟩, rfl, fun i hi h0 => ?_⟩
      simp only [applyWrite]
      rw [if_neg (Ne.symm (hx i hi h0))]
    | saveIdentity n' k' =>
      exact (writes_aside n dev k [.saveIdentity n' k'] st
        (by intro y hy; rw [List.mem_singleton.mp hy]; exact hx)).spares pk
    | storeSession n' d' r =>
      exact (writes_aside n dev k [.storeSession n' d' r] st
        (by intro y hy; rw [List.mem_singleton.mp hy]; exact hx)).spares pk

theorem spares_whisper (n : String) (dev : Nat) (k : Bytes) (pk : Option Nat) (P : Prims) (env : Env)
    (rnd : Nat → Bytes) (st : Store) (rec : String) (d : Nat) (m : WhisperMsg) (h : rec ≠ n ∨ d ≠ dev) :
    Spares n dev k pk st (applyWrites st (decryptWhisper P env rnd st rec d m).writes) := by
  refine spares_writes n dev k pk _ st ?_
  rcases decryptWhisper_cases P env rnd st rec d m with ⟨hw, _⟩ | ⟨_, _, _, _, _, _, hw⟩
  · rw [hw]; intro x hx; cases hx
  · rw [hw]; intro x hx; rw [List.mem_singleton.mp hx]; exact h

theorem spares_prekey (n : String) (dev : Nat) (k : Bytes) (pk : Option Nat) (P : Prims) (env : Env)
    (rnd : Nat → Bytes) (st : Store) (rec : String) (d : Nat) (m : PreKeyMsg)
    (h : rec ≠ n ∨ (d ≠ dev ∧ m.identityKey = k)) (hpk : ∀ i, pk = some i → m.preKeyId ≠ i ∨ i = 0xFFFFFF) :
    Spares n dev k pk st (applyWrites st (decryptPreKey P env rnd st rec d m).writes) := by
  refine spares_writes n dev k pk _ st ?_
  have hid : rec ≠ n ∨ m.identityKey = k := h.imp id And.right
  have hse : rec ≠ n ∨ d ≠ dev := h.imp id And.left
  rcases decryptPreKey_cases P env rnd st rec d m with
    ⟨hw | ⟨hw, _⟩, _⟩ | ⟨sr, w, sr1, pkid, sr', pt, _, hb, _, hw, _⟩
  · rw [hw]; intro x hx; cases hx
  · rw [hw]; intro x hx; rw [List.mem_singleton.mp hx]; exact hid
  · have hc := buildReceiver_cases P env st rec sr m
    rw [hb] at hc
    have hww : (w = [] ∧ pkid = 0) ∨ (w = [.saveIdentity rec m.identityKey] ∧ pkid = m.preKeyId) := by
      rcases hc with ⟨_, _, h⟩ | ⟨_, _, _, h⟩ | ⟨_, _, _, _, _, _, _, _, _, _, _, _, h⟩
      · simp at h
      · left; injection h with h1 h2; injection h2 with h2; exact ⟨h1, (Prod.mk.inj h2).2⟩
      · right; injection h with h1 h2; injection h2 with h2; exact ⟨h1, (Prod.mk.inj h2).2⟩
    intro x hx
    rw [hw] at hx
    rcases List.mem_append.mp hx with hx | hx
    · rcases List.mem_append.mp hx with hx | hx
      · rcases hww with ⟨rfl, _⟩ | ⟨rfl, _⟩
        · cases hx
        · rw [List.mem_singleton.mp hx]; exact hid
      · split at hx
        · rename_i hne
          rw [List.mem_singleton.mp hx]
          intro i hi h0 he
          rcases hww with ⟨_, hz⟩ | ⟨_, hz⟩
          · exact h0 (he ▸ hz)
          · rcases hpk i hi with h | h
            · exact h (hz ▸ he)
            · exact hne (he.trans h)
        · cases hx
    · split at hx
      · rw [List.mem_singleton.mp hx]; exact hse
      · cases hx

theorem spares_delete (n : String) (dev : Nat) (k : Bytes) (pk : Option Nat) (st : Store) (l : List Name) (rec : String)
    (h : rec ≠ n) : Spares n dev k pk st (deleteAllSessions st l rec) := by
  rw [deleteAll_rest]
  refine ⟨⟨?_, fun ht => ht, id, rfl, rfl⟩, rfl, fun _ _ _ => rfl⟩
  show (deleteAllSessions st l rec).sessions _ = _
  unfold deleteAllSessions
  rw [Props.foldl_delete, if_neg]
  rintro ⟨d, _, hd⟩
  exact h (Names.sessName_inj hd).1.symm

theorem recID_of {s c n : String} (h : Receive.recID s = .ok c) (hs : ¬ AddressOf s n) : c ≠ n := by
  rintro rfl
  unfold Receive.recID at h
  split at h
  · cases h
  · rename_i t ht
    injection h with h
    refine hs (Or.inr (String.ext ?_))
    rw [ht, ← h]
    simp
  · injection h with h
    exact hs (Or.inl h)

theorem recidOf_of {s n : String} (hs : ¬ AddressOf s n) : Send.recidOf s ≠ n := by
  unfold Send.recidOf
  split
  · rename_i r hr; exact recID_of hr hs
  · exact fun h => hs (Or.inl h)

theorem legacyId_of {s n : String} (hs : ¬ AddressOf s n) : Receive.legacyId s ≠ n := by
  unfold Receive.legacyId
  split
  · rename_i r hr; exact recID_of hr hs
  · exact fun h => hs (Or.inl h)

/-- The sessions are spared, and the list of devices. -/
def SparesD (n : String) (dev : Nat) (k : Bytes) (pk : Option Nat) (a b : Send.State) : Prop :=
  Spares n dev k pk a.store b.store ∧ b.devices n = a.devices n

theorem sparesD_refl (n : String) (dev : Nat) (k : Bytes) (pk : Option Nat) (a : Send.State) : SparesD n dev k pk a a :=
  ⟨spares_refl n dev k pk _, rfl⟩

theorem sparesD_trans (n : String) (dev : Nat) (k : Bytes) (pk : Option Nat) (a b c : Send.State)
    (h : SparesD n dev k pk a b) (h' : SparesD n dev k pk b c) : SparesD n dev k pk a c :=
  ⟨spares_trans n dev k pk _ _ _ h.1 h'.1, h'.2.trans h.2⟩

/-- Writing to another account. -/
theorem spares_answer (n : String) (dev : Nat) (k : Bytes) (pk : Option Nat) (P : Prims) (dest : String)
    (f : Send.State → Send.State × Res Unit) (hd : ¬ AddressOf dest n) (hw : Writes P dest f) (s : Send.State) :
    SparesD n dev k pk s (f s).1 := by
  rcases hw s with h | ⟨D, srv, pt, ts, fuel, h⟩
  · rw [h]; exact sparesD_refl n dev k pk s
  · rw [h]
    obtain ⟨h1, h2, _⟩ := sendLoop_aside P n dev k D srv dest pt ts (recidOf_of hd) fuel 0 (Send.withDefault s dest)
    have hn : n ≠ dest := fun h => hd (Or.inl h.symm)
    refine ⟨h1.spares pk, (h2 n hn).trans ?_⟩
    simp [Send.withDefault, hn]

/-- A frame from elsewhere. -/
theorem spares_hear (n : String) (dev : Nat) (k : Bytes) (pk : Option Nat) (P : Prims) (c : Client) (X : Receive.Ext)
    (id : Nat) (body : Bytes) (h : Elsewhere P n dev k pk X c.send.store body) :
    SparesD n dev k pk c.send (hear P c X id body).1.send := by
  refine keeps_hear P c X id body (Receive.keeps_process (sparesD_refl n dev k pk) (sparesD_trans n dev k pk) P X body _
    ?_ ?_ ?_)
  · intro e _ wm hc ht _ _ s
    have h1 := h.whisper e hc ht
    refine ⟨⟨spares_whisper _ _ _ _ P _ _ s.store _ _ wm ?_, rfl⟩, ⟨spares_whisper _ _ _ _ P _ _ s.store _ _ wm ?_, rfl⟩⟩
    · exact h1.elim Or.inr fun h => Or.inl fun he => h (Or.inl he)
    · exact h1.elim Or.inr fun h => Or.inl (legacyId_of h)
  · intro e m hc ht hm s
    obtain ⟨h1, h2⟩ := h.prekey e m hc ht hm
    exact ⟨spares_prekey _ _ _ _ P _ _ s.store _ _ m h1 h2, rfl⟩
  · intro uuid b c hp hc
    have key : ∀ peer, Ends uuid c peer → Receive.DelKeeps (SparesD n dev k pk) X peer ∧
        ∀ r, Receive.recID peer = .ok r → Receive.DelKeeps (SparesD n dev k pk) X r := by
      intro peer he
      have h1 := h.ends uuid b c peer hp hc he
      exact ⟨fun s => ⟨spares_delete _ _ _ _ s.store _ _ fun he => h1 (Or.inl he), rfl⟩,
        fun r hr s => ⟨spares_delete _ _ _ _ s.store _ _ (recID_of hr h1), rfl⟩⟩
    refine ⟨fun dm h1 h2 => key uuid (Or.inl ⟨dm, h1, h2, rfl⟩),
      fun h0 sm s dm h1 h2 h3 h4 => key _ (Or.inr ⟨h0, sm, s, dm, h1, h2, h3, h4, rfl⟩), fun f hf s => ?_⟩
    obtain ⟨dest, hd, hw⟩ := h.answers uuid b c f hp hc hf
    exact spares_answer n dev k pk P dest f hd hw s

/-- A send to another account. -/
theorem aside_send (n : String) (dev : Nat) (k : Bytes) (P : Prims) (X : Send.SendExt) (fuel : Nat) (m : Send.OutMsg)
    (s : Send.State) (hm : ¬ AddressOf m.destination n) (hx : ¬ AddressOf X.self n) :
    Aside n dev k s.store (Send.sendMessage P X fuel m s).1.store ∧
    (Send.sendMessage P X fuel m s).1.devices n = s.devices n := by
  have hn1 : n ≠ m.destination := fun h => hm (Or.inl h.symm)
  have hn2 : n ≠ X.self := fun h => hx (Or.inl h.symm)
  have hw : (Send.withDefault s m.destination).devices n = s.devices n := by
    simp [Send.withDefault, hn1]
  unfold Send.sendMessage
  simp only
  split
  · exact ⟨Aside.refl _ _ _ _, hw⟩
  · exact ⟨Aside.refl _ _ _ _, hw⟩
  · rename_i b _
    obtain ⟨h1, h2, _⟩ := sendLoop_aside P n dev k X.D X.srv m.destination (Files.padMessage b)
      (Send.createMessage X.now X.profileKey m).timestamp (recidOf_of hm) fuel 0 (Send.withDefault s m.destination)
    have h2 := (h2 n hn1).trans hw
    rcases hl : Send.sendLoop P X.D X.srv m.destination (Files.padMessage b)
      (Send.createMessage X.now X.profileKey m).timestamp fuel 0 (Send.withDefault s m.destination) with ⟨s', r⟩
    rw [hl] at h1 h2
    rcases r with _ | r
    · exact ⟨h1, h2⟩
    · cases r with
      | err _ => exact ⟨h1, h2⟩
      | panic => exact ⟨h1, h2⟩
      | ok r =>
        simp only
        split
        · exact ⟨h1, h2⟩
        · generalize hq : Send.sendSync P X fuel _ s' = q
          have h5 : Aside n dev k s.store q.1.store ∧ q.1.devices n = s.devices n := by
            rw [← hq]
            obtain ⟨h3, h4, _⟩ := sendSync_aside P n dev k X (recidOf_of hx) fuel
              ⟨if m.destination.toList.head? = some '+' then some m.destination else none,
               if m.destination.toList.head? = some '+' then none else some m.destination,
               (Send.createMessage X.now X.profileKey m).timestamp, Send.createMessage X.now X.profileKey m⟩ s'
            exact ⟨h1.trans h3, (h4 n hn2).trans h2⟩
          rcases q with ⟨s2, _ | r2⟩
          · exact h5
          · cases r2 <;> exact h5

theorem spares_act (n : String) (dev : Nat) (k : Bytes) (pk : Option Nat) (P : Prims) (c : Client) (a : Act)
    (h : a.Apart P n dev k pk c) :
    Spares n dev k pk c.send.store (a.run P c).send.store ∧ (a.run P c).send.devices n = c.send.devices n := by
  cases a with
  | send X fuel m =>
    obtain ⟨h1, h2⟩ := aside_send n dev k P X fuel m c.send h.1 h.2
    exact ⟨h1.spares pk, h2⟩
  | endSession X fuel list uuid msg =>
    obtain ⟨h1, h2⟩ := aside_send n dev k P X fuel { destination := uuid, msg := msg, flags := 1 } c.send h.1 h.2
    simp only [Act.run, Send.endSession]
    rcases hs : Send.sendMessage P X fuel { destination := uuid, msg := msg, flags := 1 } c.send with ⟨s', r⟩
    rw [hs] at h1 h2
    rcases r with _ | r
    · exact ⟨h1.spares pk, h2⟩
    · cases r with
      | err _ => exact ⟨h1.spares pk, h2⟩
      | panic => exact ⟨h1.spares pk, h2⟩
      | ok ts =>
        simp only
        rcases hr : Receive.recID uuid with clean | e | _
        · exact ⟨spares_trans _ _ _ _ _ _ _ (h1.spares pk) (spares_delete _ _ _ _ _ _ _ (recID_of hr h.1)), h2⟩
        · exact ⟨h1.spares pk, h2⟩
        · exact ⟨h1.spares pk, h2⟩
  | hear X id body => exact spares_hear n dev k pk P c X id body h

end Verif.Clients
