import Verif.Proof.Api
/-!
# What a successful decryption does to the state
-/
namespace Verif.Session
open Verif Verif.Keys Verif.Messages

/-- How the chain of a decrypted message is updated: a stored key is used up, or the chain advances. -/
def MkStep (P : Prims) (ck : ChainKey) (c : Nat) (f : RecvChain → RecvChain) : Prop :=
  (ck.idx > c ∧ f = fun rc => { rc with mks := eraseMk c rc.mks }) ∨
  (ck.idx ≤ c ∧ f = fun rc => { rc with
      mks := rc.mks ++ (skipKeys P (c - ck.idx) ck).1
      ck := nextCK P (skipKeys P (c - ck.idx) ck).2 })

theorem MkStep.ratchet {P : Prims} {ck : ChainKey} {c : Nat} {f} (h : MkStep P ck c f) (x : RecvChain) :
    (f x).ratchet = x.ratchet := by
  rcases h with ⟨_, rfl⟩ | ⟨_, rfl⟩ <;> rfl

theorem messageKeys_shape (P : Prims) (s s2 : SState) (e : Bytes) (ck : ChainKey) (c : Nat) (mk : MsgKeys)
    (h : getOrCreateMessageKeys P s e ck c = .ok (s2, mk)) :
    ∃ f, MkStep P ck c f ∧ s2 = modRecv s e f := by
  unfold getOrCreateMessageKeys at h
  split at h
  · rename_i hgt
    split at h
    · simp at h
    · split at h <;> simp at h
      exact ⟨_, Or.inl ⟨hgt, rfl⟩, h.1.symm⟩
  · rename_i hgt
    split at h
    · simp at h
    · simp only [Res.ok.injEq, Prod.mk.injEq] at h
      exact ⟨_, Or.inr ⟨by omega, rfl⟩, h.1.symm⟩

theorem decryptState_shape (P : Prims) (r : Bytes) (s s' : SState) (m : WhisperMsg) (pt : Bytes)
    (h : decryptState P r s m = (s', .ok pt)) :
    m.version = s.getVersion ∧ ∃ sd, s.sender = some sd ∧ ∃ s1 ck f, MkStep P ck m.counter f ∧
      s' = { modRecv s1 m.ratchetKey f with pending := none } ∧
      ((∃ rc, getRecv s m.ratchetKey = some rc ∧ ck = rc.ck ∧ s1 = s) ∨
       (getRecv s m.ratchetKey = none ∧ (s1, ck) = ratchetStep P r s sd m.ratchetKey)) := by
  cases hsd : s.sender with
  | none => simp [decryptState, hsd] at h
  | some sd =>
    by_cases hv : m.version = s.getVersion
    rotate_left
    · simp [decryptState, hsd, hv] at h
    refine ⟨hv, sd, rfl, ?_⟩
    rw [decryptState_eq P r s m (by simp [hsd]) hv] at h
    cases hck : getOrCreateChainKey P r s m.ratchetKey with
    | err e => rw [hck] at h; simp at h
    | panic => rw [hck] at h; simp at h
    | ok x =>
      obtain ⟨s1, ck⟩ := x
      rw [hck] at h
      simp only at h
      have hs1 : (∃ rc, getRecv s m.ratchetKey = some rc ∧ ck = rc.ck ∧ s1 = s) ∨
          (getRecv s m.ratchetKey = none ∧ (s1, ck) = ratchetStep P r s sd m.ratchetKey) := by
        unfold getOrCreateChainKey at hck
        split at hck
        · rename_i rc hrc
          split at hck <;> simp at hck
          exact Or.inl ⟨rc, hrc, hck.2.symm, hck.1.symm⟩
        · rename_i hrc
          right
          refine ⟨hrc, ?_⟩
          rw [hsd] at hck
          simp only at hck
          split at hck
          · simp at hck
          · injection hck with hck
            exact hck.symm
      unfold afterChain at h
      cases hmk : getOrCreateMessageKeys P s1 m.ratchetKey ck m.counter with
      | err e => rw [hmk] at h; simp at h
      | panic => rw [hmk] at h; simp at h
      | ok y =>
        obtain ⟨s2, mk⟩ := y
        obtain ⟨f, hf, rfl⟩ := messageKeys_shape P _ _ _ _ _ _ hmk
        refine ⟨s1, ck, f, hf, ?_, hs1⟩
        rw [hmk] at h
        simp only at h
        split at h
        · simp at h
        split at h
        · simp at h
        split at h <;> simp at h
        exact h.1.symm

/-- The sending side after a successful decryption: unchanged, or a fresh ratchet key at position 0. -/
theorem decryptState_sender (P : Prims) (r : Bytes) (s s' : SState) (m : WhisperMsg) (pt : Bytes)
    (h : decryptState P r s m = (s', .ok pt)) :
    s'.version = s.version ∧ s'.localReg = s.localReg ∧ s'.pending = none ∧
    ((s'.sender = s.sender ∧ s'.prevCounter = s.prevCounter ∧ getRecv s m.ratchetKey ≠ none) ∨
     (∃ sd sd', s.sender = some sd ∧ s'.sender = some sd' ∧ sd'.pub = (newPair P r).pub ∧ sd'.ck.idx = 0 ∧
       s'.prevCounter = sd.ck.idx - 1)) := by
  obtain ⟨_, sd, hsd, s1, ck, f, _, rfl, hs⟩ := decryptState_shape P r s s' m pt h
  rcases hs with ⟨rc, hrc, _, rfl⟩ | ⟨_, hs⟩
  · exact ⟨rfl, rfl, rfl, Or.inl ⟨rfl, rfl, by simp [hrc]⟩⟩
  · have h1 : s1 = (ratchetStep P r s sd m.ratchetKey).1 := by rw [← hs]
    subst h1
    exact ⟨rfl, rfl, rfl, Or.inr ⟨sd, _, hsd, rfl, rfl, (createChain_lens P _ _ _).2.2, rfl⟩⟩

/-- Receiving chains after a successful decryption. -/
theorem decryptState_chains (P : Prims) (r : Bytes) (s s' : SState) (m : WhisperMsg) (pt : Bytes)
    (h : decryptState P r s m = (s', .ok pt)) :
    ∀ x' ∈ s'.recv,
      (x' ∈ s.recv) ∨
      (∃ x ∈ s.recv, getRecv s m.ratchetKey = some x ∧ ∃ f, MkStep P x.ck m.counter f ∧ x' = f x) ∨
      (getRecv s m.ratchetKey = none ∧ x'.ratchet = m.ratchetKey) := by
  obtain ⟨_, sd, hsd, s1, ck, f, hf, rfl, hs⟩ := decryptState_shape P r s s' m pt h
  have hupd : ∀ (l : List RecvChain) (x' : RecvChain),
      x' ∈ updFirst (fun c => c.ratchet == m.ratchetKey) f l →
      x' ∈ l ∨ ∃ x, l.find? (fun c => c.ratchet == m.ratchetKey) = some x ∧ x' = f x := by
    intro l
    induction l with
    | nil => intro x' hx; simp [updFirst] at hx
    | cons a l ih =>
      intro x' hx
      unfold updFirst at hx
      by_cases hp : (a.ratchet == m.ratchetKey) = true
      · rw [if_pos hp] at hx
        rcases List.mem_cons.mp hx with rfl | hx
        · exact Or.inr ⟨a, by simp [hp], rfl⟩
        · exact Or.inl (List.mem_cons_of_mem _ hx)
      · rw [if_neg hp] at hx
        rcases List.mem_cons.mp hx with rfl | hx
        · exact Or.inl List.mem_cons_self
        · rcases ih x' hx with h1 | ⟨x, h1, h2⟩
          · exact Or.inl (List.mem_cons_of_mem _ h1)
          · exact Or.inr ⟨x, by rw [List.find?_cons_of_neg (by simpa using hp)]; exact h1, h2⟩
  intro x' hx'
  rcases hs with ⟨rc, hrc, rfl, rfl⟩ | ⟨hnone, hs⟩
  · rcases hupd _ x' hx' with h1 | ⟨x, h1, rfl⟩
    · exact Or.inl h1
    · have h2 : getRecv s1 m.ratchetKey = some x := h1
      rw [h2] at hrc
      injection hrc with hrc
      subst hrc
      exact Or.inr (Or.inl ⟨x, getRecv_mem h2, h2, f, hf, rfl⟩)
  · have h1 : s1 = (ratchetStep P r s sd m.ratchetKey).1 := by rw [← hs]
    subst h1
    have hmem : ∀ y ∈ (ratchetStep P r s sd m.ratchetKey).1.recv,
        y ∈ s.recv ∨ y.ratchet = m.ratchetKey := by
      intro y hy
      have : y ∈ s.recv ++ [⟨m.ratchetKey, (createChain P s.rootKey m.ratchetKey sd.priv).2, []⟩] := by
        simp only [ratchetStep, addRecv] at hy
        split at hy
        · exact List.mem_of_mem_drop hy
        · exact hy
      rcases List.mem_append.mp this with h | h
      · exact Or.inl h
      · simp at h; right; rw [h]
    rcases hupd _ x' hx' with h1 | ⟨x, h1, rfl⟩
    · rcases hmem x' h1 with h1 | h1
      · exact Or.inl h1
      · exact Or.inr (Or.inr ⟨hnone, h1⟩)
    · right; right
      refine ⟨hnone, ?_⟩
      rw [hf.ratchet]
      simpa using List.find?_some h1

end Verif.Session

namespace Verif.Api
open Verif Verif.Keys Verif.Messages Verif.Session Verif.Names

/-- A record loaded as fresh is the empty one. -/
theorem load_fresh {st : Store} {rec : String} {dev : Nat} {sr : SRecord}
    (h : loadSession st rec dev = .ok sr) (hf : sr.fresh = true) : sr = {} := by
  unfold loadSession at h
  split at h
  · injection h with h; exact h.symm
  · injection h with h; exact h.symm
  · simp at h
  · injection h with h; rw [← h] at hf; simp at hf

/-- A new session is always built on an empty state. -/
theorem load_ready_cur {st : Store} {rec : String} {dev : Nat} {sr : SRecord}
    (h : loadSession st rec dev = .ok sr) : (if sr.fresh then sr else sr.archive).cur = {} := by
  split
  · rename_i hf; rw [load_fresh h hf]
  · rfl

theorem load_good {st : Store} {rec : String} {dev : Nat} {sr : SRecord}
    (h : loadSession st rec dev = .ok sr) :
    (sr = {} ∧ (st.sessions (sessName rec dev) = .absent ∨ st.sessions (sessName rec dev) = .unreadable)) ∨
    (∃ r, st.sessions (sessName rec dev) = .good r ∧ sr = { r with fresh := false }) := by
  unfold loadSession at h
  split at h
  · injection h with h; exact Or.inl ⟨h.symm, Or.inl ‹_›⟩
  · injection h with h; exact Or.inl ⟨h.symm, Or.inr ‹_›⟩
  · simp at h
  · rename_i r hr; injection h with h; exact Or.inr ⟨r, hr, h.symm⟩

theorem decryptRecord_cur (P : Prims) (rnd : Nat → Bytes) (sr sr' : SRecord) (m : WhisperMsg) (pt : Bytes)
    (h : decryptRecord P rnd sr m = (sr', .ok pt)) (s : SState) (pt' : Bytes)
    (hc : decryptState P (rnd 0) sr.cur m = (s, .ok pt')) : sr' = { sr with cur := s } ∧ pt = pt' := by
  unfold decryptRecord at h
  rw [hc] at h
  simp at h
  exact ⟨h.1.symm, h.2.symm⟩

/-- The session file of the event's own address after a sequence of its writes. -/
theorem applyWrites_own (st : Store) (ws : List Write) (rec : String) (dev : Nat)
    (h : ∀ w ∈ ws, ∀ a b c, w = .storeSession a b c → a = rec ∧ b = dev) :
    (applyWrites st ws).sessions (sessName rec dev) = st.sessions (sessName rec dev) ∨
    ∃ r, Write.storeSession rec dev r ∈ ws ∧
      (applyWrites st ws).sessions (sessName rec dev) = .good { r with fresh := false } := by
  induction ws generalizing st with
  | nil => exact Or.inl rfl
  | cons w ws ih =>
    rw [applyWrites_cons]
    rcases ih (applyWrite st w) (fun x hx => h x (List.mem_cons_of_mem _ hx)) with h1 | ⟨r, h1, h2⟩
    · rw [h1]
      cases w with
      | saveIdentity _ _ => exact Or.inl rfl
      | removePreKey _ => exact Or.inl rfl
      | storeSession a b c =>
        obtain ⟨rfl, rfl⟩ := h _ List.mem_cons_self a b c rfl
        exact Or.inr ⟨c, List.mem_cons_self, by simp [applyWrite]⟩
    · exact Or.inr ⟨r, List.mem_cons_of_mem _ h1, h2⟩

/-- The session stored by an event, if any: what `storeSession` writes occur. -/
theorem step_own (P : Prims) (st : Store) (e : Event) (hd : ∀ h : e.call = .delete, False) :
    (step P st e).sessions (sessName e.peer e.dev) = st.sessions (sessName e.peer e.dev) ∨
    ∃ r, Write.storeSession e.peer e.dev r ∈ e.writes P st ∧
      (step P st e).sessions (sessName e.peer e.dev) = .good { r with fresh := false } := by
  have key := applyWrites_own st (e.done P st) e.peer e.dev (by
    intro w hw a b c hc
    subst hc
    exact Event.writes_scope P st e _ (Event.done_sub P st e _ hw))
  have : step P st e = applyWrites st (e.done P st) := by
    rw [step_eq]
    split
    · rename_i h; exact (hd h).elim
    · rfl
  rw [this]
  rcases key with h | ⟨r, h1, h2⟩
  · exact Or.inl h
  · exact Or.inr ⟨r, Event.done_sub P st e _ h1, h2⟩

end Verif.Api
