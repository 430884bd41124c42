import Verif.Proof.Shape
import Verif.Props.Demo
import Mathlib.Data.List.Forall2
/-!
# Property C64: a late message of an older session leaves the newer one usable

`SessionCipher.decrypt` tries the current session first. A message of an older session carries a ratchet
key the current one does not know, so the attempt performs a ratchet step on it before the MAC is found
wrong, and that step is not undone: when an archived session then accepts the message, the record is
stored with the damaged session in it.
-/
namespace Verif.Props
open Verif Verif.Keys Verif.Messages Verif.Session Verif.Api Verif.Names

namespace Demo
/-- Alice, who has sent three messages in her first session, starts a second one and sends in it. -/
def s0 : Store := applyWrites a3.1
  (buildSender P {} a3.1 (List.replicate 32 161) (List.replicate 32 167) "bob" 1 (bundle 0xFFFFFF)).writes
def s1 := send s0 "bob" [20]
def s2 := send s1.1 "bob" [21]
/-- Bob has read the first message of both sessions. -/
def t1 := recvP b1.1 "alice" 173 s1.2
/-- Alice's second message of the old session arrives late. -/
def t2 := recvP t1.1 "alice" 179 a2.2
/-- The next message of the new session arrives, and Bob answers it. -/
def t3 := recvP t2.1 "alice" 181 s2.2
def t4 := send t3.1 "alice" [30]
/-- The same without the late message. -/
def u3 := recvP t1.1 "alice" 181 s2.2
def u4 := send u3.1 "alice" [30]
end Demo

/-- C64 fails: without the late message Alice can read Bob's answer, with it she cannot. All messages are
genuine, each is delivered once, and Bob accepts all of them. -/
theorem C64_late_message_breaks_newer_session :
    Demo.t1.2 = .ok [20] ∧
    Demo.u3.2 = .ok [21] ∧ (Demo.recvW Demo.s2.1 "bob" 191 Demo.u4.2).2 = .ok [30] ∧
    Demo.t2.2 = .ok [2] ∧ Demo.t3.2 = .ok [21] ∧
      (Demo.recvW Demo.s2.1 "bob" 191 Demo.t4.2).2 = .err .invalidMessage := by decide +kernel

/-! ## What holds -/

/-- What an attempt that failed may have done to a session: it is still the same session, a ratchet key
it knew has not moved its root key and sending chain, and of its receiving chains, those other than the
oldest and the one the message names are as before. -/
structure Touched (m : WhisperMsg) (s s' : SState) : Prop where
  version : s'.version = s.version
  localId : s'.localId = s.localId
  remoteId : s'.remoteId = s.remoteId
  base : s'.aliceBase = s.aliceBase
  pending : s'.pending = s.pending
  regs : s'.remoteReg = s.remoteReg ∧ s'.localReg = s.localReg
  known : (∃ rc ∈ s.recv, rc.ratchet = m.ratchetKey) → s'.rootKey = s.rootKey ∧ s'.sender = s.sender
  chains : ∀ rc ∈ s.recv.drop 1, rc.ratchet ≠ m.ratchetKey → rc ∈ s'.recv

theorem mem_updFirst_of_not {α : Type} (p : α → Bool) (f : α → α) (l : List α) (a : α) (ha : a ∈ l)
    (hp : p a = false) : a ∈ updFirst p f l := by
  induction l with
  | nil => cases ha
  | cons b l ih =>
    unfold updFirst
    rcases List.mem_cons.1 ha with h | h
    · subst h; simp [hp]
    · split
      · exact List.mem_cons_of_mem _ h
      · exact List.mem_cons_of_mem _ (ih h)

theorem Touched.refl (m : WhisperMsg) (s : SState) : Touched m s s :=
  ⟨rfl, rfl, rfl, rfl, rfl, ⟨rfl, rfl⟩, fun _ => ⟨rfl, rfl⟩, fun _ h _ => List.mem_of_mem_drop h⟩

theorem Touched.mod {m : WhisperMsg} {s s1 : SState} (h : Touched m s s1) (f : RecvChain → RecvChain) :
    Touched m s (modRecv s1 m.ratchetKey f) where
  version := h.version
  localId := h.localId
  remoteId := h.remoteId
  base := h.base
  pending := h.pending
  regs := h.regs
  known := h.known
  chains rc hrc hne := mem_updFirst_of_not _ _ _ _ (h.chains rc hrc hne) (by simpa using hne)

theorem touched_chainKey (P : Prims) (r : Bytes) (s s1 : SState) (m : WhisperMsg) (ck : ChainKey)
    (h : getOrCreateChainKey P r s m.ratchetKey = .ok (s1, ck)) : Touched m s s1 := by
  unfold getOrCreateChainKey at h
  split at h
  · split at h <;> simp at h
    rw [← h.1]
    exact Touched.refl m s
  · next hg =>
    split at h
    · cases h
    · split at h
      · cases h
      · simp only [Res.ok.injEq, Prod.mk.injEq] at h
        rw [← h.1]
        refine ⟨rfl, rfl, rfl, rfl, rfl, ⟨rfl, rfl⟩, ?_, ?_⟩
        · rintro ⟨rc, hrc, he⟩
          unfold getRecv at hg
          rw [List.find?_eq_none] at hg
          exact absurd he (by simpa using hg rc hrc)
        · intro rc hrc _
          simp only [addRecv]
          split
          · rw [List.drop_append]
            exact List.mem_append_left _ hrc
          · exact List.mem_append_left _ (List.mem_of_mem_drop hrc)

theorem touched_decrypt (P : Prims) (r : Bytes) (s s' : SState) (m : WhisperMsg) (e : Err)
    (h : decryptState P r s m = (s', .err e)) : Touched m s s' := by
  unfold decryptState at h
  split at h
  · injection h with h; rw [← h]; exact Touched.refl m s
  split at h
  · injection h with h; rw [← h]; exact Touched.refl m s
  split at h
  · injection h with h; rw [← h]; exact Touched.refl m s
  · injection h with _ h; cases h
  · next s1 ck hck =>
    have t1 := touched_chainKey P r s s1 m ck hck
    split at h
    · injection h with h; rw [← h]; exact t1
    · injection h with _ h; cases h
    · next s2 mk hmk =>
      obtain ⟨f, _, rfl⟩ := messageKeys_shape P s1 s2 _ _ _ mk hmk
      split at h
      · injection h with _ h; cases h
      split at h
      · injection h with h; rw [← h]; exact t1.mod f
      split at h
      · injection h with _ h; cases h
      · injection h with h; rw [← h]; exact t1.mod f
      · injection h with _ h; cases h

theorem tryPrev_split (P : Prims) (rnd : Nat → Bytes) (m : WhisperMsg) (l : List SState) :
    ∀ k l' s' pt, tryPrev P rnd m k l = (l', .ok (some (s', pt))) →
      ∃ before s after before', l = before ++ s :: after ∧ l' = before' ++ s' :: after ∧
        List.Forall₂ (Touched m) before before' ∧ ∃ r, decryptState P r s m = (s', .ok pt) := by
  induction l with
  | nil => intro k l' s' pt h; simp [tryPrev] at h
  | cons a l ih =>
    intro k l' s' pt h
    unfold tryPrev at h
    cases hd : decryptState P (rnd k) a m with
    | mk s1 res =>
      rw [hd] at h
      cases res with
      | ok b =>
        simp at h
        obtain ⟨h0, h1, h2⟩ := h
        subst h0 h1 h2
        exact ⟨[], a, l, [], rfl, rfl, .nil, rnd k, hd⟩
      | panic => simp at h
      | err e =>
        simp only [Prod.mk.injEq] at h
        obtain ⟨b, s, af, b', e1, e2, hf, hr⟩ := ih (k + 1) (tryPrev P rnd m (k + 1) l).1 s' pt
          (Prod.ext rfl h.2)
        refine ⟨a :: b, s, af, s1 :: b', by rw [e1]; rfl, ?_, .cons (touched_decrypt P _ a s1 m e hd) hf, hr⟩
        rw [← h.1, e2]
        rfl

theorem decryptRecord_others (P : Prims) (rnd : Nat → Bytes) (m : WhisperMsg) (r r' : SRecord) (pt : Bytes)
    (h40 : r.prev.length ≤ 40) (hd : decryptRecord P rnd r m = (r', .ok pt)) :
    (r'.prev = r.prev ∧ ∃ x, decryptState P x r.cur m = (r'.cur, .ok pt)) ∨
       ∃ before s after cur' before', r.prev = before ++ s :: after ∧
         r'.prev = (cur' :: before' ++ r'.cur :: after).take 40 ∧
         Touched m r.cur cur' ∧ List.Forall₂ (Touched m) before before' ∧
         ∃ x, decryptState P x s m = (r'.cur, .ok pt) := by
  unfold decryptRecord at hd
  cases hc : decryptState P (rnd 0) r.cur m with
  | mk s1 res =>
    simp only [hc] at hd
    cases res with
    | ok b' =>
      simp only [Prod.mk.injEq, Res.ok.injEq] at hd
      left
      rw [← hd.1, ← hd.2]
      exact ⟨rfl, _, hc⟩
    | panic => simp at hd
    | err e =>
      simp only at hd
      cases ht : tryPrev P rnd m 1 r.prev with
      | mk l res =>
        rw [ht] at hd
        cases res with
        | err e => simp at hd
        | panic => simp at hd
        | ok o =>
          cases o with
          | none => simp at hd
          | some x =>
            obtain ⟨s', b'⟩ := x
            simp only [Prod.mk.injEq, Res.ok.injEq] at hd
            obtain ⟨hd1, hd2⟩ := hd
            subst hd2
            right
            obtain ⟨b, s, af, b', e1, e2, hf, hx⟩ := tryPrev_split P rnd m r.prev 1 l s' _ ht
            refine ⟨b, s, af, s1, b', e1, ?_, touched_decrypt P _ _ _ m e hc, hf, ?_⟩
            · rw [← hd1]
              have hlen : (s1 :: (b' ++ s' :: af)).length ≤ 41 := by
                have := hf.length_eq
                simp only [e1, List.length_append, List.length_cons] at h40 ⊢
                omega
              simp only [SRecord.promote, e2, List.cons_append]
              split
              · rw [List.dropLast_eq_take]
                congr 1
                omega
              · rw [List.take_of_length_le (by omega)]
            · rw [← hd1]
              exact hx

/-- C64, what is known of the record stored after a message was accepted. `r` is the record in the file.
Either the current session accepted it and the others are untouched, or the archived session `s` did:
then `s` is the current session afterwards, the sessions archived before it are untouched, and those
tried in vain, the current one and the ones archived later, are `Touched`. Missing for C64: the sessions
tried in vain are not left alone. -/
theorem C64_other_sessions_partial (P : Prims) (env : Env) (rnd : Nat → Bytes) (st : Store) (rec : String)
    (dev : Nat) (m : WhisperMsg) (r : SRecord) (pt : Bytes)
    (hr : st.sessions (sessName rec dev) = .good r) (h40 : r.prev.length ≤ 40)
    (hok : (decryptWhisper P env rnd st rec dev m).res = .ok pt) :
    ∃ r', (applyWrites st (decryptWhisper P env rnd st rec dev m).writes).sessions (sessName rec dev) = .good r' ∧
      ((r'.prev = r.prev ∧ ∃ x, decryptState P x r.cur m = (r'.cur, .ok pt)) ∨
       ∃ before s after cur' before', r.prev = before ++ s :: after ∧
         r'.prev = (cur' :: before' ++ r'.cur :: after).take 40 ∧
         Touched m r.cur cur' ∧ List.Forall₂ (Touched m) before before' ∧
         ∃ x, decryptState P x s m = (r'.cur, .ok pt)) := by
  have hload : loadSession st rec dev = .ok { r with fresh := false } := by simp [loadSession, hr]
  simp only [decryptWhisper, hload] at hok ⊢
  cases hd : decryptRecord P rnd { r with fresh := false } m with
  | mk sr' res =>
    rw [hd] at hok
    cases res with
    | err e => cases hok
    | panic => cases hok
    | ok b =>
      simp only [storeSession] at hok ⊢
      split at hok
      rotate_left
      · cases hok
      next hs =>
      simp only [hs, if_true, Res.ok.injEq] at hok ⊢
      subst hok
      exact ⟨{ sr' with fresh := false }, by simp [applyWrites, applyWrite],
        decryptRecord_others P rnd m { r with fresh := false } sr' _ h40 hd⟩

/-- C64 for a prekey message of a session the record has: the same. -/
theorem C64_other_sessions_prekey_partial (P : Prims) (env : Env) (rnd : Nat → Bytes) (st : Store)
    (rec : String) (dev : Nat) (m : PreKeyMsg) (r : SRecord) (pt : Bytes)
    (hr : st.sessions (sessName rec dev) = .good r) (h40 : r.prev.length ≤ 40)
    (hknown : r.hasState 3 (ser m.baseKey) = true)
    (hok : (decryptPreKey P env rnd st rec dev m).res = .ok pt) :
    ∃ r', (applyWrites st (decryptPreKey P env rnd st rec dev m).writes).sessions (sessName rec dev) = .good r' ∧
      ((r'.prev = r.prev ∧ ∃ x, decryptState P x r.cur m.message = (r'.cur, .ok pt)) ∨
       ∃ before s after cur' before', r.prev = before ++ s :: after ∧
         r'.prev = (cur' :: before' ++ r'.cur :: after).take 40 ∧
         Touched m.message r.cur cur' ∧ List.Forall₂ (Touched m.message) before before' ∧
         ∃ x, decryptState P x s m.message = (r'.cur, .ok pt)) := by
  have hload : loadSession st rec dev = .ok { r with fresh := false } := by simp [loadSession, hr]
  have hk : SRecord.hasState { r with fresh := false } 3 (ser m.baseKey) = true := hknown
  simp only [decryptPreKey, hload, buildReceiver] at hok ⊢
  by_cases hv : m.version ≠ 3
  · rw [if_pos hv] at hok; cases hok
  by_cases ht : isTrusted st rec m.identityKey = false
  · rw [if_neg hv, if_pos ht] at hok; cases hok
  rw [if_neg hv, if_neg ht, if_pos hk] at hok ⊢
  cases hd : decryptRecord P rnd { r with fresh := false } m.message with
  | mk sr' res =>
    simp only [hd] at hok ⊢
    cases res with
    | err e => cases hok
    | panic => cases hok
    | ok b =>
      simp only [storeSession] at hok ⊢
      split at hok
      rotate_left
      · cases hok
      next hs =>
      simp only [hs, if_true, Res.ok.injEq] at hok ⊢
      subst hok
      exact ⟨{ sr' with fresh := false }, by simp [applyWrites, applyWrite],
        decryptRecord_others P rnd m.message { r with fresh := false } sr' _ h40 hd⟩

namespace Demo
/-- What the example asks of Bob's record. -/
def lateOk : SessFile → Bool
  | .good r => r.prev.length ≤ 40 ∧ r.hasState 3 (ser (parseP a2.2).baseKey) ∧
      r.cur.aliceBase ≠ ser (parseP a2.2).baseKey
  | _ => false
end Demo

/-- Bob's state when the late message arrives: two sessions, the message belongs to the archived one. -/
example : ∃ r, Demo.t1.1.sessions (sessName "alice" 1) = .good r ∧ r.prev.length ≤ 40 ∧
    r.hasState 3 (ser (Demo.parseP Demo.a2.2).baseKey) = true ∧
    r.cur.aliceBase ≠ ser (Demo.parseP Demo.a2.2).baseKey ∧ Demo.t2.2 = .ok [2] := by
  have h1 : Demo.lateOk (Demo.t1.1.sessions (sessName "alice" 1)) = true := by decide +kernel
  have h2 : Demo.t2.2 = .ok [2] := by decide +kernel
  cases h : Demo.t1.1.sessions (sessName "alice" 1) with
  | good r =>
    rw [h] at h1
    simp only [Demo.lateOk, decide_eq_true_eq] at h1
    exact ⟨r, rfl, h1.1, h1.2.1, h1.2.2, h2⟩
  | _ => rw [h] at h1; simp [Demo.lateOk] at h1

end Verif.Props
