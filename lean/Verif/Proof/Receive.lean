import Verif.Model.Receive
import Verif.Proof.Session
/-!
# Lemmas about the receive path
-/
namespace Verif.Receive
open Verif Verif.Keys Verif.Messages Verif.Session Verif.Api Verif.Names M

/-! ## The call monad -/

theorem bind_run {α β : Type} (x : M α) (f : α → M β) (w : World) :
    (x >>= f) w = match x w with
      | (w', .ok a) => f a w'
      | (w', .err e) => (w', .err e)
      | (w', .panic) => (w', .panic) := rfl

theorem pure_run {α : Type} (a : α) (w : World) : (pure a : M α) w = (w, .ok a) := rfl
theorem emit_run (e : Ev) (w : World) : emit e w = ({ w with log := w.log ++ [e] }, .ok ()) := rfl
theorem lift_run {α : Type} (r : Res α) (w : World) : lift r w = (w, r) := rfl
theorem update_run (f : World → World) (w : World) : M.update f w = (f w, .ok ()) := rfl

theorem lift_ok_bind {α β : Type} (a : α) (f : α → M β) : (lift (.ok a) >>= f) = f a := rfl
theorem lift_err_bind {α β : Type} (e : Err) (f : α → M β) : (lift (.err e) >>= f) = lift (.err e) := rfl
theorem lift_panic_bind {α β : Type} (f : α → M β) : (lift .panic >>= f) = lift .panic := rfl

theorem cipher_ok (o : World → Out Bytes) (w : World) (ws : List Write) (pt : Bytes)
    (h : o w = ⟨ws, .ok pt⟩) :
    cipher o w = ({ w with store := applyWrites w.store ws }, .ok (.ok pt)) := by
  simp [cipher, h]

theorem cipher_err (o : World → Out Bytes) (w : World) (ws : List Write) (e : Err)
    (h : o w = ⟨ws, .err e⟩) :
    cipher o w = ({ w with store := applyWrites w.store ws }, .ok (.err e)) := by
  simp [cipher, h]

theorem cipher_panic (o : World → Out Bytes) (w : World) (ws : List Write)
    (h : o w = ⟨ws, .panic⟩) :
    cipher o w = ({ w with store := applyWrites w.store ws }, .panic) := by
  simp [cipher, h]

/-- A call only appends events satisfying `p`. -/
def Appends {α : Type} (p : Ev → Prop) (x : M α) : Prop :=
  ∀ w, ∃ d, (x w).1.log = w.log ++ d ∧ ∀ e ∈ d, p e

theorem appends_pure {α : Type} (p : Ev → Prop) (a : α) : Appends p (pure a : M α) :=
  fun w => ⟨[], by simp [pure_run], by simp⟩

theorem appends_lift {α : Type} (p : Ev → Prop) (r : Res α) : Appends p (lift r) :=
  fun w => ⟨[], by simp [lift_run], by simp⟩

theorem appends_answer (p : Ev → Prop) (f : Send.State → Send.State × Res Unit) : Appends p (answer f) :=
  fun w => ⟨[], by simp [answer], by simp⟩

theorem appends_emit (p : Ev → Prop) (e : Ev) (h : p e) : Appends p (emit e) :=
  fun w => ⟨[e], rfl, by simpa using h⟩

theorem appends_update (p : Ev → Prop) (f : World → World) (h : ∀ w, (f w).log = w.log) :
    Appends p (M.update f) :=
  fun w => ⟨[], by simp [update_run, h], by simp⟩

theorem appends_bind {α β : Type} (p : Ev → Prop) (x : M α) (f : α → M β) (hx : Appends p x)
    (hf : ∀ a, Appends p (f a)) : Appends p (x >>= f) := by
  intro w
  obtain ⟨d, hd, hp⟩ := hx w
  rw [bind_run]
  rcases h : x w with ⟨w', r⟩
  rw [h] at hd
  cases r with
  | ok a =>
    obtain ⟨d', hd', hp'⟩ := hf a w'
    refine ⟨d ++ d', ?_, ?_⟩
    · simp only at hd ⊢; rw [hd', hd, List.append_assoc]
    · intro e he
      rcases List.mem_append.mp he with he | he
      · exact hp e he
      · exact hp' e he
  | err e => exact ⟨d, hd, hp⟩
  | panic => exact ⟨d, hd, hp⟩

theorem appends_callback (p : Ev → Prop) (b : Bool) (e : Ev) (h : p e) : Appends p (callback b e) := by
  unfold callback; split
  · exact appends_emit p e h
  · exact appends_pure p ()

theorem appends_handleFlags (p : Ev → Prop) (X : Ext) (src : String) (dm : DataMsg) :
    Appends p (handleFlags X src dm) := by
  unfold handleFlags
  split
  · refine appends_bind p _ _ (appends_lift p _) fun c => ?_
    refine appends_bind p _ _ (appends_update p _ fun _ => rfl) fun _ => ?_
    exact appends_bind p _ _ (appends_update p _ fun _ => rfl) fun _ => appends_pure p _
  · split
    · refine appends_bind p _ _ ?_ fun _ => appends_pure p _
      exact appends_bind p _ _ (appends_update p _ fun _ => rfl) fun _ => appends_lift p _
    · exact appends_pure p _

theorem appends_handleData (p : Ev → Prop) (P : Prims) (X : Ext) (src uuid : String) (dm : DataMsg)
    (h : ∀ m, p (.onMessage m)) : Appends p (handleData P X src uuid dm) := by
  unfold handleData
  refine appends_bind p _ _ (appends_handleFlags p _ _ _) fun _ => ?_
  refine appends_bind p _ _ (appends_lift p _) fun _ => ?_
  refine appends_bind p _ _ (appends_lift p _) fun _ => ?_
  refine appends_bind p _ _ (appends_lift p _) fun _ => ?_
  exact appends_callback p _ _ (h _)

theorem appends_handleSync (p : Ev → Prop) (P : Prims) (X : Ext) (ts : Nat) (sm : SyncMsg)
    (h1 : ∀ m t, p (.onSyncSent m t)) (h2 : ∀ u t, p (.onSyncRead u t)) (h3 : ∀ t, p (.sendUpdate t))
    (h4 : ∀ v, p (.sendVerified v)) : Appends p (handleSync P X ts sm) := by
  unfold handleSync
  split
  · unfold handleSyncSent
    split
    · exact appends_lift p _
    · refine appends_bind p _ _ (appends_handleFlags p _ _ _) fun _ => ?_
      refine appends_bind p _ _ (appends_lift p _) fun _ => ?_
      refine appends_bind p _ _ (appends_lift p _) fun _ => ?_
      refine appends_bind p _ _ (appends_lift p _) fun _ => ?_
      exact appends_callback p _ _ (h1 _ _)
  · split
    · exact appends_pure p _
    · split
      · exact appends_pure p _
      · split
        · unfold handleSyncRequest
          split
          · exact appends_bind p _ _ (appends_emit p _ (h3 _)) fun _ => appends_answer p _
          · exact appends_pure p _
        · split
          · unfold handleSyncRead
            intro w
            by_cases hc : X.cb.syncRead = true
            · refine ⟨sm.read.map (fun r => .onSyncRead r.1 r.2), by simp [update_run, hc], ?_⟩
              intro e he
              obtain ⟨r, _, rfl⟩ := List.mem_map.mp he
              exact h2 _ _
            · exact ⟨[], by simp [update_run, hc], by simp⟩
          · split
            · exact appends_pure p _
            · split
              · exact appends_bind p _ _ (appends_emit p _ (h4 _)) fun _ => appends_answer p _
              · exact appends_pure p _

theorem appends_handleReceiptMsg (p : Ev → Prop) (X : Ext) (src uuid : String) (r : ReceiptMsg)
    (h : ∀ m, p (.onReceiptMessage m)) : Appends p (handleReceiptMsg X src uuid r) := by
  unfold handleReceiptMsg
  split
  · exact appends_lift p _
  · split
    · exact appends_lift p _
    · exact appends_callback p _ _ (h _)

/-- Everything but acknowledgements and the envelope-level receipt callback. -/
def Inner : Ev → Prop
  | .ack _ => False
  | _ => True

theorem appends_dispatch (P : Prims) (X : Ext) (src uuid : String) (ts : Nat) (c : Content) :
    Appends Inner (dispatch P X src uuid ts c) := by
  unfold dispatch
  split
  · exact appends_bind _ _ _ (appends_emit _ _ trivial) fun _ =>
      appends_handleData _ _ _ _ _ _ fun _ => trivial
  · split
    · exact appends_bind _ _ _ (appends_emit _ _ trivial) fun _ =>
        appends_handleSync _ _ _ _ _ (fun _ _ => trivial) (fun _ _ => trivial) (fun _ => trivial)
          (fun _ => trivial)
    · split
      · exact appends_bind _ _ _ (appends_emit _ _ trivial) fun _ => appends_callback _ _ _ trivial
      · split
        · exact appends_bind _ _ _ (appends_emit _ _ trivial) fun _ =>
            appends_handleReceiptMsg _ _ _ _ _ fun _ => trivial
        · split
          · exact appends_bind _ _ _ (appends_emit _ _ trivial) fun _ => appends_callback _ _ _ trivial
          · split
            · exact appends_emit _ _ trivial
            · exact appends_pure _ _

theorem appends_handleMessage (P : Prims) (X : Ext) (src uuid : String) (ts : Nat) (b : Bytes) :
    Appends Inner (handleMessage P X src uuid ts b) := by
  unfold handleMessage
  split
  · exact appends_lift _ _
  · exact appends_dispatch _ _ _ _ _ _

theorem appends_cipher (p : Ev → Prop) (o : World → Out Bytes) : Appends p (cipher o) :=
  fun w => ⟨[], by simp [cipher], by simp⟩

theorem appends_handleCiphertext (P : Prims) (X : Ext) (env : Envelope) :
    Appends Inner (handleCiphertext P X env) := by
  unfold handleCiphertext
  split
  · exact appends_lift _ _
  · refine appends_bind _ _ _ (appends_lift _ _) fun wm => ?_
    refine appends_bind _ _ _ (appends_cipher _ _) fun r => ?_
    split
    · exact appends_lift _ _
    · exact appends_pure _ _
    · refine appends_bind _ _ _ (appends_cipher _ _) fun r' => ?_
      split
      · exact appends_pure _ _
      · exact appends_lift _ _
    · exact appends_lift _ _
    · exact appends_handleMessage _ _ _ _ _ _

theorem appends_handleReceived (P : Prims) (X : Ext) (e : Option Envelope) :
    Appends Inner (handleReceived P X e) := by
  unfold handleReceived
  split
  · exact appends_lift _ _
  · split
    · exact appends_lift _ _
    · exact appends_callback _ _ _ trivial
    · exact appends_handleCiphertext _ _ _
    · unfold handlePreKey
      refine appends_bind _ _ _ (appends_lift _ _) fun m => ?_
      refine appends_bind _ _ _ (appends_cipher _ _) fun r => ?_
      split
      · exact appends_lift _ _
      · split
        · exact appends_pure _ _
        · exact appends_lift _ _
      · exact appends_handleMessage _ _ _ _ _ _
    · unfold handleSealed
      split
      · exact appends_lift _ _
      · exact appends_lift _ _
      · refine appends_bind _ _ _ (appends_lift _ _) fun r => ?_
        obtain ⟨a, b, c⟩ := r
        simp only
        split
        · exact appends_lift _ _
        · exact appends_handleMessage _ _ _ _ _ _
    · exact appends_lift _ _

theorem appends_process (P : Prims) (X : Ext) (body : Bytes) : Appends Inner (process P X body) := by
  unfold process
  split
  · exact appends_pure _ _
  · split
    · exact appends_lift _ _
    · exact appends_pure _ _
    · exact appends_handleReceived _ _ _

/-! ## Whether a message decrypts does not depend on the fresh ratchet key -/

theorem chainKey_rnd (P : Prims) (r r' : Bytes) (s : SState) (e : Bytes) :
    (∃ s1 s1' ck, getOrCreateChainKey P r s e = .ok (s1, ck) ∧ getOrCreateChainKey P r' s e = .ok (s1', ck)
      ∧ s1.recv = s1'.recv ∧ s1.remoteId = s1'.remoteId ∧ s1.localId = s1'.localId) ∨
    (getOrCreateChainKey P r s e = .panic ∧ getOrCreateChainKey P r' s e = .panic) := by
  unfold getOrCreateChainKey
  cases h : getRecv s e with
  | some rc =>
    by_cases hl : rc.ck.key.length = 32
    · left; exact ⟨s, s, rc.ck, by simp [hl], by simp [hl], rfl, rfl, rfl⟩
    · right; simp [hl]
  | none =>
    cases hs : s.sender with
    | none => right; simp
    | some sd =>
      simp only
      by_cases hc : s.rootKey.length ≠ 32 ∨ sd.priv.length ≠ 32 ∨ sd.pub.length ≠ 32 ∨ sd.ck.key.length ≠ 32
      · right; simp [hc]
      · left
        rw [if_neg hc, if_neg hc]
        exact ⟨_, _, _, rfl, rfl, by simp only [addRecv], rfl, rfl⟩

theorem messageKeys_rnd (P : Prims) (s s' : SState) (e : Bytes) (ck : ChainKey) (c : Nat)
    (h1 : s.recv = s'.recv) (h2 : s.remoteId = s'.remoteId) (h3 : s.localId = s'.localId) :
    (∃ t t' mk, getOrCreateMessageKeys P s e ck c = .ok (t, mk) ∧
      getOrCreateMessageKeys P s' e ck c = .ok (t', mk)
      ∧ t.remoteId = t'.remoteId ∧ t.localId = t'.localId) ∨
    (∃ x, getOrCreateMessageKeys P s e ck c = .err x ∧ getOrCreateMessageKeys P s' e ck c = .err x) := by
  have hg : getRecv s e = getRecv s' e := by unfold getRecv; rw [h1]
  unfold getOrCreateMessageKeys
  rw [← hg]
  split
  · cases getRecv s e with
    | none => right; exact ⟨_, rfl, rfl⟩
    | some rc =>
      simp only
      cases rc.mks.find? (fun m => m.idx = c) with
      | none => right; exact ⟨_, rfl, rfl⟩
      | some mk => left; exact ⟨_, _, mk, rfl, rfl, h2, h3⟩
  · split
    · right; exact ⟨_, rfl, rfl⟩
    · left; exact ⟨_, _, _, rfl, rfl, h2, h3⟩

theorem decryptState_rnd (P : Prims) (r r' : Bytes) (s : SState) (m : WhisperMsg) :
    (decryptState P r s m).2 = (decryptState P r' s m).2 := by
  unfold decryptState
  split
  · rfl
  · split
    · rfl
    · rcases chainKey_rnd P r r' s m.ratchetKey with ⟨s1, s1', ck, h1, h1', hr, hi, hl⟩ | ⟨h1, h1'⟩
      · rw [h1, h1']
        simp only
        rcases messageKeys_rnd P s1 s1' m.ratchetKey ck m.counter hr hi hl with
          ⟨t, t', mk, h2, h2', hi', hl'⟩ | ⟨x, h2, h2'⟩
        · rw [h2, h2']
          simp only [hi', hl']
          split
          · rfl
          · split
            · rfl
            · cases Cbc.Decrypt P mk.cipherKey (mk.iv ++ m.ciphertext) <;> rfl
        · rw [h2, h2']
      · rw [h1, h1']

/-- Shape of an outcome: the plaintext, the error, or a panic. -/
def outcome : Res (Option (SState × Bytes)) → Res (Option Bytes)
  | .ok (some x) => .ok (some x.2)
  | .ok none => .ok none
  | .err e => .err e
  | .panic => .panic

theorem tryPrev_rnd (P : Prims) (rnd rnd' : Nat → Bytes) (m : WhisperMsg) (l : List SState) :
    ∀ k, outcome (tryPrev P rnd m k l).2 = outcome (tryPrev P rnd' m k l).2 := by
  induction l with
  | nil => intro k; rfl
  | cons s l ih =>
    intro k
    unfold tryPrev
    have h := decryptState_rnd P (rnd k) (rnd' k) s m
    rcases h1 : decryptState P (rnd k) s m with ⟨t, r⟩
    rcases h2 : decryptState P (rnd' k) s m with ⟨t', r'⟩
    rw [h1, h2] at h
    simp only at h
    subst h
    cases r with
    | ok b => rfl
    | err e => exact ih (k + 1)
    | panic => rfl

theorem decryptRecord_rnd (P : Prims) (rnd rnd' : Nat → Bytes) (sr : SRecord) (m : WhisperMsg) :
    (decryptRecord P rnd sr m).2 = (decryptRecord P rnd' sr m).2 := by
  unfold decryptRecord
  have h := decryptState_rnd P (rnd 0) (rnd' 0) sr.cur m
  rcases h1 : decryptState P (rnd 0) sr.cur m with ⟨t, r⟩
  rcases h2 : decryptState P (rnd' 0) sr.cur m with ⟨t', r'⟩
  rw [h1, h2] at h
  simp only at h
  subst h
  cases r with
  | ok b => rfl
  | panic => rfl
  | err e =>
    have hp := tryPrev_rnd P rnd rnd' m sr.prev 1
    rcases h3 : tryPrev P rnd m 1 sr.prev with ⟨p, q⟩
    rcases h4 : tryPrev P rnd' m 1 sr.prev with ⟨p', q'⟩
    rw [h3, h4] at hp
    rcases q with (_ | ⟨x, y⟩) | _ | _ <;> rcases q' with (_ | ⟨x', y'⟩) | _ | _ <;>
      simp_all [outcome]

/-- A failing `SessionDecryptWhisperMessage` writes nothing. -/
theorem decryptWhisper_fail (P : Prims) (env : Env) (rnd : Nat → Bytes) (st : Store) (rec : String)
    (dev : Nat) (m : WhisperMsg) :
    (decryptWhisper P env rnd st rec dev m).res.isOk = true ∨
      (decryptWhisper P env rnd st rec dev m).writes = [] := by
  unfold decryptWhisper
  cases loadSession st rec dev with
  | err e => right; rfl
  | panic => right; rfl
  | ok sr =>
    simp only
    rcases decryptRecord P rnd sr m with ⟨sr', r⟩
    cases r with
    | err e => right; rfl
    | panic => right; rfl
    | ok pt =>
      simp only [storeSession]
      split
      · left; rfl
      · right; rfl

theorem decryptWhisper_rnd (P : Prims) (env : Env) (rnd rnd' : Nat → Bytes) (st : Store) (rec : String)
    (dev : Nat) (m : WhisperMsg) :
    (decryptWhisper P env rnd st rec dev m).res = (decryptWhisper P env rnd' st rec dev m).res := by
  unfold decryptWhisper
  cases loadSession st rec dev with
  | err e => rfl
  | panic => rfl
  | ok sr =>
    simp only
    have h := decryptRecord_rnd P rnd rnd' sr m
    rcases h1 : decryptRecord P rnd sr m with ⟨sr1, r1⟩
    rcases h2 : decryptRecord P rnd' sr m with ⟨sr2, r2⟩
    rw [h1, h2] at h
    simp only at h
    subst h
    cases r1 with
    | err e => rfl
    | panic => rfl
    | ok pt => simp only [storeSession]; split <;> rfl

end Verif.Receive
