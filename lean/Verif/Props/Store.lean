import Verif.Proof.Api
import Verif.Props.Demo
/-!
# Properties C05, C07, C10–C16, C19, C20: the session API over the persistent store
-/
namespace Verif.Props
open Verif Verif.Keys Verif.Messages Verif.Session Verif.Api Verif.Names

/-! ## C05 Failed decryption does not change the stored session -/

theorem applyWrites_noSession (st : Store) (ws : List Write)
    (h : ∀ w ∈ ws, ∀ a b c, w ≠ .storeSession a b c) : (applyWrites st ws).sessions = st.sessions := by
  induction ws generalizing st with
  | nil => rfl
  | cons w ws ih =>
    rw [applyWrites_cons, ih _ (fun x hx => h x (List.mem_cons_of_mem _ hx))]
    cases w with
    | saveIdentity _ _ => rfl
    | removePreKey _ => rfl
    | storeSession a b c => exact absurd rfl (h _ List.mem_cons_self a b c)

/-- Whenever the call does not return a plaintext (error or panic), no session file is changed, of this
or of any other peer device. -/
theorem C05_failed_decrypt_keeps_sessions (P : Prims) (env : Env) (rnd : Nat → Bytes) (st : Store)
    (rec : String) (dev : Nat) :
    (∀ m, (∀ pt, (decryptWhisper P env rnd st rec dev m).res ≠ .ok pt) →
      (applyWrites st (decryptWhisper P env rnd st rec dev m).writes) = st) ∧
    (∀ m, (∀ pt, (decryptPreKey P env rnd st rec dev m).res ≠ .ok pt) →
      ∀ file, (applyWrites st (decryptPreKey P env rnd st rec dev m).writes).sessions file =
        st.sessions file) := by
  constructor
  · intro m h
    rcases decryptWhisper_cases P env rnd st rec dev m with ⟨hw, _⟩ | ⟨_, _, pt, _, _, _, ho⟩
    · rw [hw]; rfl
    · exact absurd (by rw [ho]) (h pt)
  · intro m h file
    rcases decryptPreKey_cases P env rnd st rec dev m with
      ⟨hw | ⟨hw, _⟩, _⟩ | ⟨sr, w, sr1, pkid, sr', pt, _, hb, _, hw, hr⟩
    · rw [hw]; rfl
    · rw [hw]; rfl
    · have hs : env.storeOk = false := by
        cases he : env.storeOk with
        | false => rfl
        | true => exact absurd (by rw [hr, he]; rfl) (h pt)
      have hw' : w = [] ∨ w = [.saveIdentity rec m.identityKey] := by
        have hc := buildReceiver_cases P env st rec sr m
        rw [hb] at hc
        rcases hc with ⟨_, _, h⟩ | ⟨_, _, _, h⟩ | ⟨_, _, _, _, _, _, _, _, _, _, _, _, h⟩
        · simp at h
        · left; injection h
        · right; injection h
      rw [applyWrites_noSession]
      intro x hx a b c
      rw [hw, hs] at hx
      simp only [List.mem_append] at hx
      rcases hx with (hx | hx) | hx
      · rcases hw' with hw' | hw' <;> rw [hw'] at hx <;> simp at hx
        subst hx; simp
      · split at hx <;> simp at hx
        subst hx; simp
      · simp at hx

/-- A corrupted copy of Alice's second message fails at Bob, who has a session with Alice. -/
example : (Demo.recvP Demo.b1.1 "alice" 90 (Demo.a2.2.modify 130 (· + 1))).2 = .err .invalidMessage := by
  decide +kernel

/-! ## C07 Bounded session state -/

/-- At most 40 archived states, at most five receiving chains per state, one chain per ratchet key. -/
structure Bounded (sr : SRecord) : Prop where
  archived : sr.prev.length ≤ 40
  chains : ∀ s ∈ sr.cur :: sr.prev, s.recv.length ≤ 5

theorem updFirst_length {α : Type} (p : α → Bool) (f : α → α) (l : List α) :
    (updFirst p f l).length = l.length := by
  induction l with
  | nil => rfl
  | cons a l ih => unfold updFirst; split <;> simp [ih]

theorem addRecv_length (s : SState) (e : Bytes) (ck : ChainKey) (h : s.recv.length ≤ 5) :
    (addRecv s e ck).recv.length ≤ 5 := by
  unfold addRecv
  simp only
  split
  · simp; omega
  · omega

theorem chainKey_recv (P : Prims) (r : Bytes) (s s1 : SState) (e : Bytes) (ck : ChainKey)
    (h : getOrCreateChainKey P r s e = .ok (s1, ck)) (hl : s.recv.length ≤ 5) :
    s1.recv.length ≤ 5 := by
  unfold getOrCreateChainKey at h
  split at h
  · split at h <;> simp at h
    rw [← h.1]; exact hl
  · split at h
    · simp at h
    · split at h
      · simp at h
      · simp only [Res.ok.injEq, Prod.mk.injEq] at h
        rw [← h.1]
        exact addRecv_length _ _ _ hl

theorem messageKeys_recv (P : Prims) (s s2 : SState) (e : Bytes) (ck : ChainKey) (c : Nat) (mk : MsgKeys)
    (h : getOrCreateMessageKeys P s e ck c = .ok (s2, mk)) : s2.recv.length = s.recv.length := by
  unfold getOrCreateMessageKeys at h
  split at h
  · split at h
    · simp at h
    · split at h <;> simp at h
      rw [← h.1]; exact updFirst_length _ _ _
  · split at h
    · simp at h
    · simp only [Res.ok.injEq, Prod.mk.injEq] at h
      rw [← h.1]; exact updFirst_length _ _ _

theorem decryptState_recv (P : Prims) (r : Bytes) (s : SState) (m : WhisperMsg)
    (h : s.recv.length ≤ 5) : (decryptState P r s m).1.recv.length ≤ 5 := by
  unfold decryptState
  split
  · exact h
  split
  · exact h
  split
  · exact h
  · exact h
  · rename_i s1 ck hck
    have h1 := chainKey_recv P r s s1 _ ck hck h
    split
    · exact h1
    · exact h1
    · rename_i s2 mk hmk
      have h2 : s2.recv.length ≤ 5 := by rw [messageKeys_recv P _ _ _ _ _ _ hmk]; exact h1
      split
      · exact h2
      split
      · exact h2
      split <;> exact h2

theorem tryPrev_recv (P : Prims) (rnd : Nat → Bytes) (m : WhisperMsg) (l : List SState) :
    ∀ k, (∀ s ∈ l, s.recv.length ≤ 5) →
      (tryPrev P rnd m k l).1.length = l.length ∧
      (∀ s ∈ (tryPrev P rnd m k l).1, s.recv.length ≤ 5) ∧
      (∀ s pt, (tryPrev P rnd m k l).2 = .ok (some (s, pt)) → s.recv.length ≤ 5) := by
  induction l with
  | nil => intro k _; simp [tryPrev]
  | cons a l ih =>
    intro k h
    have ha := decryptState_recv P (rnd k) a m (h a List.mem_cons_self)
    obtain ⟨i1, i2, i3⟩ := ih (k + 1) (fun s hs => h s (List.mem_cons_of_mem _ hs))
    unfold tryPrev
    cases hd : decryptState P (rnd k) a m with
    | mk s' res =>
      rw [hd] at ha
      cases res with
      | ok b =>
        refine ⟨by simp, ?_, ?_⟩
        · intro s hs
          simp only [List.mem_cons] at hs
          rcases hs with rfl | hs
          · exact ha
          · exact h s (List.mem_cons_of_mem _ hs)
        · intro s pt he
          simp at he
          rw [← he.1]; exact ha
      | panic =>
        refine ⟨by simp, ?_, by simp⟩
        intro s hs
        simp only [List.mem_cons] at hs
        rcases hs with rfl | hs
        · exact ha
        · exact h s (List.mem_cons_of_mem _ hs)
      | err e =>
        refine ⟨by simp [i1], ?_, i3⟩
        intro s hs
        simp only [List.mem_cons] at hs
        rcases hs with rfl | hs
        · exact ha
        · exact i2 s hs

theorem promote_bounded (sr : SRecord) (s : SState) (h : Bounded sr) (hs : s.recv.length ≤ 5) :
    Bounded (sr.promote s) := by
  unfold SRecord.promote
  have hall : ∀ x ∈ (if (sr.cur :: sr.prev).length > 40 then (sr.cur :: sr.prev).dropLast
      else sr.cur :: sr.prev), x ∈ sr.cur :: sr.prev := by
    intro x hx
    split at hx
    · exact List.dropLast_subset _ hx
    · exact hx
  constructor
  · have := h.archived
    simp only
    split
    · simp; omega
    · rename_i hh; omega
  · intro x hx
    simp only [List.mem_cons] at hx
    rcases hx with rfl | hx
    · exact hs
    · exact h.chains x (hall x hx)

theorem decryptRecord_bounded (P : Prims) (rnd : Nat → Bytes) (sr : SRecord) (m : WhisperMsg)
    (h : Bounded sr) : Bounded (decryptRecord P rnd sr m).1 := by
  have hc := decryptState_recv P (rnd 0) sr.cur m (h.chains _ List.mem_cons_self)
  obtain ⟨t1, t2, t3⟩ := tryPrev_recv P rnd m sr.prev 1
    (fun s hs => h.chains s (List.mem_cons_of_mem _ hs))
  unfold decryptRecord
  have hcur : ∀ s, s.recv.length ≤ 5 → Bounded { sr with cur := s } := by
    intro s hs
    refine ⟨h.archived, ?_⟩
    intro x hx
    simp only [List.mem_cons] at hx
    rcases hx with rfl | hx
    · exact hs
    · exact h.chains x (List.mem_cons_of_mem _ hx)
  cases hd : decryptState P (rnd 0) sr.cur m with
  | mk s' res =>
    rw [hd] at hc
    cases res with
    | ok b => exact hcur _ hc
    | panic => exact hcur _ hc
    | err e =>
      simp only
      cases ht : tryPrev P rnd m 1 sr.prev with
      | mk p res =>
        rw [ht] at t1 t2 t3
        have hb : Bounded { sr with cur := s', prev := p } := by
          refine ⟨?_, ?_⟩
          · have := h.archived
            show p.length ≤ 40
            rw [t1]; exact this
          · intro x hx
            simp only [List.mem_cons] at hx
            rcases hx with rfl | hx
            · exact hc
            · exact t2 x hx
        cases res with
        | err e => exact hb
        | panic => exact hb
        | ok o =>
          cases o with
          | none => exact hb
          | some x =>
            obtain ⟨s2, b⟩ := x
            exact promote_bounded _ _ hb (t3 s2 b rfl)

theorem bounded_fresh : Bounded {} := ⟨by simp, by simp⟩

theorem archive_bounded (sr : SRecord) (h : Bounded sr) : Bounded sr.archive :=
  promote_bounded sr {} h (by simp)

theorem ready_bounded (sr : SRecord) (h : Bounded sr) :
    Bounded (if sr.fresh then sr else sr.archive) := by
  split
  · exact h
  · exact archive_bounded sr h

theorem replaceCur_bounded (sr : SRecord) (s : SState) (h : Bounded sr) (hs : s.recv.length ≤ 5) :
    Bounded { sr with cur := s } := by
  refine ⟨h.archived, ?_⟩
  intro x hx
  simp only [List.mem_cons] at hx
  rcases hx with rfl | hx
  · exact hs
  · exact h.chains x (List.mem_cons_of_mem _ hx)

theorem encryptState_recv (P : Prims) (s s' : SState) (pt out : Bytes) (ty : MsgType)
    (h : encryptState P s pt = .ok (s', out, ty)) : s'.recv = s.recv := by
  unfold encryptState at h
  split at h
  · simp at h
  · split at h
    · simp at h
    split at h
    · simp at h
    simp only [Res.bind_eq_ok] at h
    obtain ⟨ct, _, h⟩ := h
    split at h
    · simp at h
    split at h
    · simp at h; rw [← h.1]
    · simp only [Res.bind_eq_ok] at h
      obtain ⟨bk, _, h⟩ := h
      simp at h; rw [← h.1]

/-- All stored records are bounded. -/
def StoreBounded (st : Store) : Prop := ∀ n r, st.sessions n = .good r → Bounded r

theorem load_bounded (st : Store) (rec : String) (dev : Nat) (sr : SRecord) (h : StoreBounded st)
    (hl : loadSession st rec dev = .ok sr) : Bounded sr := by
  unfold loadSession at hl
  split at hl
  · injection hl with hl; rw [← hl]; exact bounded_fresh
  · injection hl with hl; rw [← hl]; exact bounded_fresh
  · simp at hl
  · rename_i r hr
    injection hl with hl
    rw [← hl]
    exact ⟨(h _ _ hr).archived, (h _ _ hr).chains⟩

theorem applyWrite_bounded (st : Store) (w : Write) (h : StoreBounded st)
    (hw : ∀ a b c, w = .storeSession a b c → Bounded c) : StoreBounded (applyWrite st w) := by
  cases w with
  | saveIdentity _ _ => exact h
  | removePreKey _ => exact h
  | storeSession a b c =>
    intro n r hr
    simp only [applyWrite] at hr
    split at hr
    · injection hr with hr
      have := hw a b c rfl
      rw [← hr]
      exact ⟨this.archived, this.chains⟩
    · exact h n r hr

theorem applyWrites_bounded (st : Store) (ws : List Write) (h : StoreBounded st)
    (hw : ∀ w ∈ ws, ∀ a b c, w = .storeSession a b c → Bounded c) : StoreBounded (applyWrites st ws) := by
  induction ws generalizing st with
  | nil => exact h
  | cons w ws ih =>
    exact ih _ (applyWrite_bounded st w h (hw w List.mem_cons_self))
      (fun x hx => hw x (List.mem_cons_of_mem _ hx))

theorem writes_bounded (P : Prims) (st : Store) (e : Event) (h : StoreBounded st) :
    ∀ w ∈ e.writes P st, ∀ a b c, w = .storeSession a b c → Bounded c := by
  intro w hw a b c hc
  subst hc
  unfold Event.writes at hw
  cases hcall : e.call with
  | delete => simp [hcall] at hw
  | build rb rr bd =>
    simp only [hcall] at hw
    rcases buildSender_cases P e.env st rb rr e.peer e.dev bd with
      ⟨hn, _⟩ | ⟨_, _, spk, sr, ident, reg, _, _, hl, _, _, ho⟩
    · simp [hn] at hw
    · have hb : Bounded (senderRecord P rb rr sr ident reg bd spk) := by
        have := ready_bounded sr (load_bounded st _ _ sr h hl)
        refine replaceCur_bounded _ _ this ?_
        exact addRecv_length _ _ _ (this.chains (if sr.fresh then sr else sr.archive).cur List.mem_cons_self)
      rw [ho] at hw
      split at hw <;> simp at hw
      · rw [hw.2.2]; exact hb
      · rw [hw.2.2]; exact hb
  | encrypt pt =>
    simp only [hcall] at hw
    rcases encryptMsg_cases P e.env st e.peer e.dev pt with ⟨hn, _⟩ | ⟨sr, s', out, ty, hl, he, _, ho⟩
    · simp [hn] at hw
    · rw [ho] at hw
      simp at hw
      rw [hw.2.2]
      have := load_bounded st _ _ sr h hl
      exact replaceCur_bounded _ _ this (by
        rw [encryptState_recv P _ _ _ _ _ he]; exact this.chains _ List.mem_cons_self)
  | decryptW rnd m =>
    simp only [hcall] at hw
    rcases decryptWhisper_cases P e.env rnd st e.peer e.dev m with
      ⟨hn, _⟩ | ⟨sr, sr', pt, hl, hd, _, ho⟩
    · simp [hn] at hw
    · rw [ho] at hw
      simp at hw
      rw [hw.2.2]
      have := decryptRecord_bounded P rnd sr m (load_bounded st _ _ sr h hl)
      rwa [hd] at this
  | decryptP rnd m =>
    simp only [hcall] at hw
    rcases decryptPreKey_cases P e.env rnd st e.peer e.dev m with
      ⟨hn | ⟨hn, _⟩, _⟩ | ⟨sr, w, sr1, pkid, sr', pt, hl, hb, hd, hn, _⟩
    · simp [hn] at hw
    · simp [hn] at hw
    · have hsr := load_bounded st _ _ sr h hl
      have h1 : Bounded sr1 := by
        rcases buildReceiver_cases P e.env st e.peer sr m with
          ⟨_, _, h⟩ | ⟨_, _, _, h⟩ | ⟨_, _, _, _, _, _, _, _, _, _, _, _, h⟩
        · rw [hb] at h; simp at h
        · rw [hb] at h
          injection h with _ h
          injection h with h
          injection h with h _
          rw [h]; exact hsr
        · rw [hb] at h
          injection h with _ h
          injection h with h
          injection h with h _
          rw [h]
          have := ready_bounded sr hsr
          exact replaceCur_bounded _ _ this
            (this.chains (if sr.fresh then sr else sr.archive).cur List.mem_cons_self)
      have h2 : w = [] ∨ w = [.saveIdentity e.peer m.identityKey] := by
        rcases buildReceiver_cases P e.env st e.peer sr m with
          ⟨_, _, h⟩ | ⟨_, _, _, h⟩ | ⟨_, _, _, _, _, _, _, _, _, _, _, _, h⟩
        · rw [hb] at h; simp at h
        · rw [hb] at h; left; injection h
        · rw [hb] at h; right; injection h
      rw [hn] at hw
      simp only [List.mem_append] at hw
      rcases hw with (hw | hw) | hw
      · rcases h2 with h2 | h2 <;> rw [h2] at hw <;> simp at hw
      · split at hw <;> simp at hw
      · split at hw <;> simp at hw
        rw [hw.2.2]
        have := decryptRecord_bounded P rnd sr1 m.message h1
        rwa [hd] at this

theorem step_bounded (P : Prims) (st : Store) (e : Event) (h : StoreBounded st) :
    StoreBounded (step P st e) := by
  rw [step_eq]
  have hd : StoreBounded (applyWrites st (e.done P st)) :=
    applyWrites_bounded st _ h (fun w hw => writes_bounded P st e h w (Event.done_sub P st e w hw))
  split
  · intro n r hr
    simp only [deleteSession] at hr
    split at hr
    · simp at hr
    · exact h n r hr
  · exact hd

/-- In every store reachable, by any history of builds, encryptions, decryptions (of anything),
deletions, failing writes and crashes, from a store without sessions (or with bounded ones), every
record has at most 40 archived states and every state at most five receiving chains. -/
theorem C07_bounded_state (P : Prims) (st : Store) (es : List Event)
    (h0 : ∀ n r, st.sessions n = .good r → r.prev.length ≤ 40 ∧ ∀ s ∈ r.cur :: r.prev, s.recv.length ≤ 5) :
    ∀ n r, (run P st es).sessions n = .good r →
      r.prev.length ≤ 40 ∧ ∀ s ∈ r.cur :: r.prev, s.recv.length ≤ 5 := by
  have : ∀ st, StoreBounded st → StoreBounded (run P st es) := by
    induction es with
    | nil => exact fun _ h => h
    | cons e es ih => exact fun st h => ih _ (step_bounded P st e h)
  intro n r hr
  have hb := this st (fun n r h => ⟨(h0 n r h).1, (h0 n r h).2⟩) n r hr
  exact ⟨hb.archived, hb.chains⟩

/-- The initial store satisfies the hypothesis, and a reachable one holds a session. -/
example : (∀ n r, Demo.bob0.sessions n = .good r → r.prev.length ≤ 40) ∧
    containsSession (run Demo.P Demo.bob0 [
      { peer := "alice", dev := 1, call := .decryptP (Demo.rnd 83) (Demo.parseP Demo.a1.2) }])
        "alice" 1 = true :=
  ⟨by intro n r h; simp [Demo.bob0, Demo.client] at h, by decide +kernel⟩

/-! ## C10 Sessions of different peers and devices are independent -/

/-- No history of calls (with failures and crashes) at other addresses changes what is loaded for
`(r, d)`. Recipients are arbitrary strings, devices arbitrary numbers; the session directory is indexed
by file name, so this includes that different addresses never share a file. -/
theorem C10_sessions_independent (P : Prims) (st : Store) (es : List Event) (r : String) (d : Nat)
    (h : ∀ e ∈ es, (e.peer, e.dev) ≠ (r, d)) :
    loadSession (run P st es) r d = loadSession st r d ∧
    containsSession (run P st es) r d = containsSession st r d := by
  have key : (run P st es).sessions (sessName r d) = st.sessions (sessName r d) := by
    induction es generalizing st with
    | nil => rfl
    | cons e es ih =>
      have h1 := ih (step P st e) (fun x hx => h x (List.mem_cons_of_mem _ hx))
      rw [show run P st (e :: es) = run P (step P st e) es from rfl, h1]
      apply step_sessions
      intro hn
      obtain ⟨h1, h2⟩ := sessName_inj hn
      exact h e List.mem_cons_self (by rw [h1, h2])
  unfold loadSession containsSession
  rw [key]
  exact ⟨rfl, rfl⟩

/-- Addresses that differ only by moving the underscore are different files. -/
example : sessName "a_1" 1 ≠ sessName "a" 11 ∧ sessName "a_1" 1 = "a_1_1".toList := by decide +kernel

/-! ## C11 Deleting all sessions of a peer -/

theorem foldl_delete (l : List Nat) (rec : String) : ∀ (st : Store) (n : Name),
    (l.foldl (fun st dev => deleteSession st rec dev) st).sessions n =
      if ∃ dev ∈ l, n = sessName rec dev then .absent else st.sessions n := by
  induction l with
  | nil => intro st n; simp
  | cons a l ih =>
    intro st n
    rw [List.foldl_cons, ih]
    by_cases h1 : ∃ dev ∈ l, n = sessName rec dev
    · obtain ⟨d, hd, rfl⟩ := h1
      rw [if_pos ⟨d, hd, rfl⟩, if_pos ⟨d, List.mem_cons_of_mem _ hd, rfl⟩]
    · rw [if_neg h1]
      by_cases h2 : n = sessName rec a
      · rw [if_pos ⟨a, List.mem_cons_self, h2⟩]
        simp [deleteSession, h2]
      · rw [if_neg (by
          rintro ⟨d, hd, rfl⟩
          rcases List.mem_cons.mp hd with rfl | hd
          · exact h2 rfl
          · exact h1 ⟨d, hd, rfl⟩)]
        simp [deleteSession, h2]

/-- For every content of the sessions directory: afterwards no device of the recipient has a session,
and the file of every other address is as before. -/
theorem C11_delete_all (st : Store) (names : List Name) (rec : String) (h : Listing st names) :
    (∀ dev, dev < 2 ^ 32 → containsSession (deleteAllSessions st names rec) rec dev = false) ∧
    (∀ r d, r ≠ rec → (deleteAllSessions st names rec).sessions (sessName r d) =
      st.sessions (sessName r d)) := by
  constructor
  · intro dev hdev
    unfold containsSession deleteAllSessions
    rw [foldl_delete]
    by_cases hin : ∃ d ∈ subDeviceSessions names rec, sessName rec dev = sessName rec d
    · rw [if_pos hin]; simp
    · rw [if_neg hin]
      by_cases hab : st.sessions (sessName rec dev) = .absent
      · simp [hab]
      · exact absurd ⟨dev, by
          unfold subDeviceSessions
          refine List.mem_map.mpr ⟨sessName rec dev, (h _).mpr hab, ?_⟩
          rw [sessName, afterLast_append _ _ (dec_no_underscore dev), atoi32_dec dev hdev], rfl⟩ hin
  · intro r d hr
    unfold deleteAllSessions
    rw [foldl_delete, if_neg]
    rintro ⟨d', _, he⟩
    exact hr (sessName_inj he).1

/-- A store with two recipients and its listing. -/
def twoPeers : Store :=
  { Demo.alice0 with
    sessions := fun n => if n = sessName "bob" 2 ∨ n = sessName "carol_x" 17 then .good {} else .absent }

example : Listing twoPeers [sessName "bob" 2, sessName "carol_x" 17] := by
  intro n
  simp only [twoPeers, List.mem_cons, List.not_mem_nil, or_false]
  by_cases h : n = sessName "bob" 2 ∨ n = sessName "carol_x" 17
  · simp [h]
  · simp [h]

/-! ## C12 Listing a peer's devices -/

/-- The property fails: the listing ignores the recipient. In the store above, asking for Bob's devices
also returns Carol's device 17, which has no session with Bob. -/
theorem C12_lists_other_recipients :
    ∃ st names, Listing st names ∧ 17 ∈ subDeviceSessions names "bob" ∧
      containsSession st "bob" 17 = false ∧ containsSession st "carol_x" 17 = true := by
  refine ⟨twoPeers, [sessName "bob" 2, sessName "carol_x" 17], ?_, by decide +kernel, by decide +kernel,
    by decide +kernel⟩
  intro n
  simp only [twoPeers, List.mem_cons, List.not_mem_nil, or_false]
  by_cases h : n = sessName "bob" 2 ∨ n = sessName "carol_x" 17
  · simp [h]
  · simp [h]

/-- Part that holds: every device with a stored session is listed; and if all stored sessions belong to
one recipient the listing is exact. Missing from C12: exactness with several recipients (refuted). -/
theorem C12_listing_partial (st : Store) (names : List Name) (rec : String) (h : Listing st names) :
    (∀ dev, dev < 2 ^ 32 → containsSession st rec dev = true → dev ∈ subDeviceSessions names rec) ∧
    ((∀ n ∈ names, ∃ d, d < 2 ^ 32 ∧ n = sessName rec d) →
      ∀ dev, dev ∈ subDeviceSessions names rec ↔ dev < 2 ^ 32 ∧ containsSession st rec dev = true) := by
  have h1 : ∀ dev, dev < 2 ^ 32 → containsSession st rec dev = true →
      dev ∈ subDeviceSessions names rec := by
    intro dev hdev hc
    unfold subDeviceSessions
    refine List.mem_map.mpr ⟨sessName rec dev, (h _).mpr (by simpa [containsSession] using hc), ?_⟩
    rw [sessName, afterLast_append _ _ (dec_no_underscore dev), atoi32_dec dev hdev]
  refine ⟨h1, ?_⟩
  intro hall dev
  refine ⟨?_, fun hh => h1 dev hh.1 hh.2⟩
  intro hd
  unfold subDeviceSessions at hd
  obtain ⟨n, hn, rfl⟩ := List.mem_map.mp hd
  obtain ⟨d, hd', rfl⟩ := hall n hn
  rw [sessName, afterLast_append _ _ (dec_no_underscore d), atoi32_dec d hd']
  exact ⟨hd', by simpa [containsSession] using (h _).mp hn⟩

/-! ## C13 An unreadable session is not silently replaced -/

/-- The property fails for every file that exists but cannot be read or authenticated: loading gives
the same result as for a peer without session. -/
theorem C13_unreadable_is_replaced (st : Store) (rec : String) (dev : Nat)
    (h : st.sessions (sessName rec dev) = .unreadable) :
    loadSession st rec dev = .ok {} ∧ containsSession st rec dev = true := by
  simp [loadSession, containsSession, h]

/-- Part that holds: a file that authenticates but does not parse is an error, and a good file loads as
stored; a new record is returned only if the file is missing or unreadable. -/
theorem C13_load_partial (st : Store) (rec : String) (dev : Nat) :
    (st.sessions (sessName rec dev) = .badProto → loadSession st rec dev = .err .badProto) ∧
    (∀ r, st.sessions (sessName rec dev) = .good r → loadSession st rec dev = .ok { r with fresh := false }) ∧
    (∀ r, loadSession st rec dev = .ok r → r.fresh = true → st.sessions (sessName rec dev) = .absent ∨
      st.sessions (sessName rec dev) = .unreadable) := by
  refine ⟨fun h => by simp [loadSession, h], fun r h => by simp [loadSession, h], ?_⟩
  intro r h hf
  unfold loadSession at h
  split at h
  · exact Or.inl ‹_›
  · exact Or.inr ‹_›
  · simp at h
  · injection h with h
    rw [← h] at hf; simp at hf

example : ∃ st : Store, st.sessions (sessName "bob" 1) = .unreadable :=
  ⟨{ Demo.alice0 with sessions := fun _ => .unreadable }, rfl⟩

/-! ## C14 Trust on first use is sticky -/

theorem step_identity (P : Prims) (st : Store) (e : Event) (id : String) (f : IdFile)
    (ha : st.alwaysTrust = false) (hk : st.identities id = f) (hf : f ≠ .absent) :
    (step P st e).identities id = f ∧ (step P st e).alwaysTrust = false := by
  have hw : ∀ ws : List Write, (∀ w ∈ ws, ∀ k', w = .saveIdentity id k' → .key k' = f) →
      ∀ st : Store, st.alwaysTrust = false → st.identities id = f →
        (applyWrites st ws).identities id = f ∧ (applyWrites st ws).alwaysTrust = false := by
    intro ws
    induction ws with
    | nil => intro _ st h1 h2; exact ⟨h2, h1⟩
    | cons w ws ih =>
      intro h st h1 h2
      rw [applyWrites_cons]
      apply ih (fun x hx => h x (List.mem_cons_of_mem _ hx))
      · cases w <;> exact h1
      · cases w with
        | removePreKey _ => exact h2
        | storeSession _ _ _ => exact h2
        | saveIdentity i k' =>
          simp only [applyWrite]
          split
          · rename_i hi
            subst hi
            exact h _ List.mem_cons_self k' rfl
          · exact h2
  have htr : ∀ k', isTrusted st id k' = true → .key k' = f := by
    intro k' h
    cases f with
    | absent => exact absurd rfl hf
    | unreadable => simp [isTrusted, ha, hk] at h
    | key k => simp [isTrusted, ha, hk] at h; rw [h]
  have hsub : ∀ w ∈ e.writes P st, ∀ k', w = .saveIdentity id k' → .key k' = f := by
    intro w hw' k' hwk
    subst hwk
    have hid : id = e.peer := Event.writes_scope P st e _ hw'
    unfold Event.writes at hw'
    cases hcall : e.call with
    | delete => simp [hcall] at hw'
    | encrypt pt =>
      simp only [hcall] at hw'
      rcases encryptMsg_cases P e.env st e.peer e.dev pt with ⟨hn, _⟩ | ⟨sr, s', out, ty, hl, he, _, ho⟩
      · simp [hn] at hw'
      · rw [ho] at hw'; simp at hw'
    | decryptW rnd m =>
      simp only [hcall] at hw'
      rcases decryptWhisper_cases P e.env rnd st e.peer e.dev m with
        ⟨hn, _⟩ | ⟨sr, sr', pt, hl, hd, _, ho⟩
      · simp [hn] at hw'
      · rw [ho] at hw'; simp at hw'
    | build rb rr b =>
      simp only [hcall] at hw'
      rcases buildSender_cases P e.env st rb rr e.peer e.dev b with
        ⟨hn, _⟩ | ⟨ht, _, spk, sr, ident, reg, _, _, hl, _, _, ho⟩
      · simp [hn] at hw'
      · rw [ho] at hw'
        rw [← hid] at ht
        split at hw' <;> simp at hw'
        rw [hw'.2]; exact htr _ ht
    | decryptP rnd m =>
      simp only [hcall] at hw'
      rcases decryptPreKey_cases P e.env rnd st e.peer e.dev m with
        ⟨hn | ⟨hn, ht, _⟩, _⟩ | ⟨sr, w, sr1, pkid, sr', pt, hl, hb, hd, hn, _⟩
      · simp [hn] at hw'
      · rw [hn] at hw'
        simp at hw'
        rw [← hid] at ht
        rw [hw'.2]; exact htr _ ht
      · rw [hn] at hw'
        simp only [List.mem_append] at hw'
        rcases hw' with (hw' | hw') | hw'
        · rcases buildReceiver_cases P e.env st e.peer sr m with
            ⟨_, _, h⟩ | ⟨_, _, _, h⟩ | ⟨_, ht, _, _, _, _, _, _, _, _, _, _, h⟩
          · rw [hb] at h; simp at h
          · rw [hb] at h
            injection h with h _
            simp [h] at hw'
          · rw [hb] at h
            injection h with h _
            rw [h] at hw'
            simp at hw'
            rw [← hid] at ht
            rw [hw'.2]; exact htr _ ht
        · split at hw' <;> simp at hw'
        · split at hw' <;> simp at hw'
  rw [step_eq]
  split
  · exact ⟨hk, ha⟩
  · exact hw _ (fun w h => hsub w (Event.done_sub P st e w h)) st ha hk

/-- Once a key is recorded for a peer (and the application does not ask to trust everyone): after any
history of calls the file is as it was, and a bundle or a prekey message with an identity key other than
the recorded one is refused with a not-trusted error, without any write. If the file can no longer be
read, every key is refused. (The prekey message may instead be refused because the session file does not
parse; its version is 3, the only one the parser lets through.) -/
theorem C14_trust_on_first_use (P : Prims) (st0 : Store) (es : List Event) (id : String) (f : IdFile)
    (ha : st0.alwaysTrust = false) (hk : st0.identities id = f) (hf : f ≠ .absent) :
    let st := run P st0 es
    st.identities id = f ∧
    (∀ env rb rr dev (b : Bundle), f ≠ .key b.identityKey →
      buildSender P env st rb rr id dev b = ⟨[], .err .notTrusted⟩) ∧
    (∀ env rnd dev (m : PreKeyMsg), m.version = 3 → f ≠ .key m.identityKey →
      decryptPreKey P env rnd st id dev m = ⟨[], .err .notTrusted⟩ ∨
      (st.sessions (sessName id dev) = .badProto ∧
        decryptPreKey P env rnd st id dev m = ⟨[], .err .badProto⟩)) := by
  intro st
  have hrun : st.identities id = f ∧ st.alwaysTrust = false := by
    have : ∀ (es : List Event) (s : Store), s.alwaysTrust = false → s.identities id = f →
        (run P s es).identities id = f ∧ (run P s es).alwaysTrust = false := by
      intro es
      induction es with
      | nil => intro s h1 h2; exact ⟨h2, h1⟩
      | cons e es ih =>
        intro s h1 h2
        obtain ⟨a, b⟩ := step_identity P s e id f h1 h2 hf
        exact ih _ b a
    exact this es st0 ha hk
  obtain ⟨h1, h2⟩ := hrun
  have hnt : ∀ k', f ≠ .key k' → isTrusted st id k' = false := by
    intro k' hne
    cases f with
    | absent => exact absurd rfl hf
    | unreadable => simp [isTrusted, h2, h1]
    | key k =>
      simp only [isTrusted, h2, h1, Bool.false_or, beq_eq_false_iff_ne]
      exact fun h => hne (by rw [h])
  refine ⟨h1, ?_, ?_⟩
  · intro env rb rr dev b hb
    simp [buildSender, hnt _ hb]
  · intro env rnd dev m hv hm
    cases hl : loadSession st id dev with
    | ok sr => left; simp [decryptPreKey, hl, buildReceiver, hv, hnt _ hm]
    | err e =>
      right
      have : st.sessions (sessName id dev) = .badProto ∧ e = .badProto := by
        unfold loadSession at hl
        split at hl <;> simp at hl
        rename_i hs
        exact ⟨hs, hl.symm⟩
      obtain ⟨h1, rfl⟩ := this
      exact ⟨h1, by simp [decryptPreKey, hl]⟩
    | panic =>
      unfold loadSession at hl
      split at hl <;> simp at hl

/-- After Alice's first message Bob has her key recorded. -/
example : Demo.b1.1.identities "alice" = .key Demo.aliceId.pub ∧ Demo.b1.1.alwaysTrust = false := by
  decide +kernel

/-! ## C15 Identity is pinned only by an authenticated message -/

/-- A prekey message with an arbitrary identity key and a body that no key authenticates. -/
def forged : PreKeyMsg :=
  { version := 3, regId := 1, preKeyId := 0, signedPreKeyId := 5, baseKey := List.replicate 32 3
    identityKey := List.replicate 32 66, serialized := []
    message := { version := 3, ratchetKey := List.replicate 32 4, counter := 0, prevCounter := 0
                 ciphertext := List.replicate 16 1, serialized := List.replicate 40 51 } }

/-- The property fails: the forged message is rejected, but afterwards the attacker's identity key is
the trusted one for "alice", and Alice's genuine first message is refused as not trusted. -/
theorem C15_failed_message_pins_identity :
    ∃ (P : Prims) (st : Store) (rnd : Nat → Bytes) (genuine : PreKeyMsg),
      st.identities "alice" = .absent ∧
      (decryptPreKey P {} rnd st "alice" 1 genuine).res = .ok [1] ∧
      (decryptPreKey P {} rnd st "alice" 1 forged).res = .err .invalidMessage ∧
      (let st' := applyWrites st (decryptPreKey P {} rnd st "alice" 1 forged).writes
       st'.identities "alice" = .key forged.identityKey ∧
       (decryptPreKey P {} rnd st' "alice" 1 genuine).res = .err .notTrusted) :=
  ⟨Demo.P, Demo.bob0, Demo.rnd 83, Demo.parseP Demo.a1.2, by decide +kernel⟩

/-- Part that holds: a message that does not decrypt leaves the recorded identities alone if one is
already recorded for the sender (and not every key is trusted), or if it belongs to a session already
known by its base key. Missing from C15: a first message from an unknown sender (refuted). -/
theorem C15_identity_partial (P : Prims) (env : Env) (rnd : Nat → Bytes) (st : Store) (rec : String)
    (dev : Nat) (m : PreKeyMsg) (h : ∀ pt, (decryptPreKey P env rnd st rec dev m).res ≠ .ok pt)
    (hrec : (∃ k, st.identities rec = .key k ∧ st.alwaysTrust = false) ∨
      (∃ sr, loadSession st rec dev = .ok sr ∧ sr.hasState 3 (ser m.baseKey) = true)) :
    (applyWrites st (decryptPreKey P env rnd st rec dev m).writes).identities = st.identities := by
  have hsave : ∀ k, (∃ k, st.identities rec = .key k ∧ st.alwaysTrust = false) →
      isTrusted st rec k = true → (applyWrite st (.saveIdentity rec k)).identities = st.identities := by
    rintro k' ⟨k, h1, h2⟩ ht
    simp [isTrusted, h1, h2] at ht
    funext i
    simp only [applyWrite]
    split
    · rename_i hi; rw [hi, h1, ht]
    · rfl
  rcases decryptPreKey_cases P env rnd st rec dev m with
    ⟨hw | ⟨hw, ht, sr, hl, hh⟩, _⟩ | ⟨sr, w, sr1, pkid, sr', pt, hl, hb, _, hw, hr⟩
  · rw [hw]; rfl
  · rw [hw]
    rcases hrec with hrec | ⟨sr', hl', hh'⟩
    · exact hsave _ hrec ht
    · rw [hl] at hl'; injection hl' with hl'; rw [hl'] at hh; rw [hh] at hh'; simp at hh'
  · have hs : env.storeOk = false := by
      cases he : env.storeOk with
      | false => rfl
      | true => exact absurd (by rw [hr, he]; rfl) (h pt)
    rw [hw, hs]
    have hrest : ∀ s : Store, (applyWrites s ((if pkid ≠ 0xFFFFFF then [Write.removePreKey pkid] else []) ++
        (if false = true then [Write.storeSession rec dev sr'] else []))).identities = s.identities := by
      intro s
      split <;> rfl
    rw [List.append_assoc, applyWrites_append, hrest]
    rcases buildReceiver_cases P env st rec sr m with
      ⟨_, _, h⟩ | ⟨_, _, _, h⟩ | ⟨_, ht, hh, _, _, _, _, _, _, _, _, _, h⟩
    · rw [hb] at h; simp at h
    · rw [hb] at h; injection h with h _; rw [h]; rfl
    · rw [hb] at h; injection h with h _; rw [h]
      rcases hrec with hrec | ⟨sr', hl', hh'⟩
      · exact hsave _ hrec ht
      · rw [hl] at hl'; injection hl' with hl'; rw [hl'] at hh; rw [hh] at hh'; simp at hh'

/-! ## C16 One-time prekeys are used once, the last-resort key is kept -/

/-- Two ways in which the property fails. (1) A repeated message for a known session removes prekey 0,
which it does not name. (2) If storing the session fails, the call reports an error but the named
prekey is already gone. -/
theorem C16_wrong_prekey_removed :
    (∃ (P : Prims) (st : Store) (rnd : Nat → Bytes) (m : PreKeyMsg), m.preKeyId = 7 ∧
      (decryptPreKey P {} rnd st "alice" 1 m).res = .ok [2] ∧ st.preKeys 0 ≠ none ∧
      (applyWrites st (decryptPreKey P {} rnd st "alice" 1 m).writes).preKeys 0 = none) ∧
    (∃ (P : Prims) (st : Store) (rnd : Nat → Bytes) (m : PreKeyMsg), m.preKeyId = 7 ∧
      (decryptPreKey P { storeOk := false } rnd st "alice" 1 m).res = .err .storeWrite ∧
      st.preKeys 7 ≠ none ∧
      (applyWrites st (decryptPreKey P { storeOk := false } rnd st "alice" 1 m).writes).preKeys 7 =
        none) := by
  refine ⟨⟨Demo.P, { Demo.b1.1 with preKeys := fun _ => some Demo.bobOpk }, Demo.rnd 90,
    Demo.parseP Demo.a2.2, ?_⟩, ⟨Demo.P, Demo.bob0, Demo.rnd 83, Demo.parseP Demo.a1.2, ?_⟩⟩
  · decide +kernel
  · decide +kernel

/-- Effect of a list of writes on the prekey directory. -/
def removes (n : Nat) (ws : List Write) : Bool := ws.contains (.removePreKey n)

theorem applyWrites_preKeys (ws : List Write) : ∀ (st : Store) (i : Nat),
    (applyWrites st ws).preKeys i = if removes i ws then none else st.preKeys i := by
  induction ws with
  | nil => intro st i; rfl
  | cons w ws ih =>
    intro st i
    rw [applyWrites_cons, ih]
    cases w with
    | saveIdentity a b => simp [removes, applyWrite]
    | storeSession a b c => simp [removes, applyWrite]
    | removePreKey n =>
      simp only [removes, applyWrite, List.contains_cons]
      by_cases hin : i = n
      · subst hin; simp
      · simp [hin]

/-- Part that holds: for a message that starts a new session (its base key is not known) and all writes
of which succeed. If it decrypts, exactly the prekey it names is removed — none if it names none, and
never the last-resort one; the private half existed before. If it does not decrypt nothing is removed.
After a success, another first message naming the same one-time prekey is refused without effect.
Missing from C16: repeated messages, and failing writes (both refuted above). -/
theorem C16_prekey_once_partial (P : Prims) (env : Env) (rnd : Nat → Bytes) (st : Store) (rec : String)
    (dev : Nat) (m : PreKeyMsg) (sr : SRecord) (hl : loadSession st rec dev = .ok sr)
    (hnew : sr.hasState 3 (ser m.baseKey) = false) (hst : env.storeOk = true) :
    let o := decryptPreKey P env rnd st rec dev m
    let st' := applyWrites st o.writes
    (∀ pt, o.res = .ok pt →
      (m.preKeyId ≠ 0 → st.preKeys m.preKeyId ≠ none) ∧
      (m.preKeyId ≠ 0 → m.preKeyId ≠ 0xFFFFFF → st'.preKeys m.preKeyId = none) ∧
      (∀ i, i ≠ m.preKeyId ∨ i = 0xFFFFFF → st'.preKeys i = st.preKeys i)) ∧
    ((∀ pt, o.res ≠ .ok pt) → st'.preKeys = st.preKeys) ∧
    (∀ pt, o.res = .ok pt → m.preKeyId ≠ 0 → m.preKeyId ≠ 0xFFFFFF →
      ∀ env' rnd' rec' dev' (m' : PreKeyMsg) sr', m'.preKeyId = m.preKeyId →
        loadSession st' rec' dev' = .ok sr' → sr'.hasState 3 (ser m'.baseKey) = false →
        (decryptPreKey P env' rnd' st' rec' dev' m').writes = [] ∧
        ∃ e, (decryptPreKey P env' rnd' st' rec' dev' m').res = .err e) := by
  intro o st'
  have main : (o.writes = [] ∨ o.writes = [.saveIdentity rec m.identityKey]) ∧ (∀ pt, o.res ≠ .ok pt) ∨
      ∃ opk sr' pt, (if m.preKeyId ≠ 0 then (st.preKeys m.preKeyId).map some else some none) = some opk ∧
        o.writes = [.saveIdentity rec m.identityKey] ++
          (if m.preKeyId ≠ 0xFFFFFF then [.removePreKey m.preKeyId] else []) ++
          [.storeSession rec dev sr'] ∧ o.res = .ok pt := by
    rcases decryptPreKey_cases P env rnd st rec dev m with
      ⟨hw | ⟨hw, _⟩, hr⟩ | ⟨sr0, w, sr1, pkid, sr', pt, hl', hb, _, hw, hr⟩
    · exact Or.inl ⟨Or.inl hw, hr⟩
    · exact Or.inl ⟨Or.inr hw, hr⟩
    · right
      rw [hl] at hl'
      injection hl' with hl'
      subst hl'
      rcases buildReceiver_cases P env st rec sr m with
        ⟨_, _, h⟩ | ⟨_, _, hh, h⟩ | ⟨_, ht, hh, spk, ident, opk, reg, _, _, hopk, _, _, h⟩
      · rw [hb] at h; simp at h
      · rw [hnew] at hh; simp at hh
      · rw [hb] at h
        injection h with h1 h2
        injection h2 with h2
        injection h2 with _ h3
        refine ⟨opk, sr', pt, hopk, ?_, ?_⟩
        · show (decryptPreKey P env rnd st rec dev m).writes = _
          rw [hw, h1, h3, hst]; rfl
        · show (decryptPreKey P env rnd st rec dev m).res = _
          rw [hr, hst]; rfl
  have hpk : ∀ i, st'.preKeys i = if removes i o.writes then none else st.preKeys i :=
    applyWrites_preKeys o.writes st
  refine ⟨?_, ?_, ?_⟩
  · intro pt hok
    rcases main with ⟨_, hno⟩ | ⟨opk, sr', pt', hopk, hw, hr⟩
    · exact absurd hok (hno pt)
    · refine ⟨?_, ?_, ?_⟩
      · intro h0 hnone
        rw [if_pos h0, hnone] at hopk
        simp at hopk
      · intro _ hlr
        rw [hpk, hw, if_pos hlr]
        simp [removes]
      · intro i hi
        rw [hpk, hw]
        have : removes i ([.saveIdentity rec m.identityKey] ++
          (if m.preKeyId ≠ 0xFFFFFF then [.removePreKey m.preKeyId] else []) ++
          [.storeSession rec dev sr']) = false := by
          split
          · rename_i hlr
            have : i ≠ m.preKeyId := by
              rcases hi with hi | hi
              · exact hi
              · rw [hi]; exact fun h => hlr h.symm
            simp [removes, this]
          · simp [removes]
        rw [this]; rfl
  · intro hno
    rcases main with ⟨hw, _⟩ | ⟨opk, sr', pt', hopk, hw, hr⟩
    · funext i
      rw [hpk]
      rcases hw with hw | hw <;> rw [hw] <;> simp [removes]
    · exact absurd hr (hno pt')
  · intro pt hok h0 hlr env' rnd' rec' dev' m' sr' hid hl' hn'
    have hgone : st'.preKeys m'.preKeyId = none := by
      rw [hid]
      rcases main with ⟨_, hno⟩ | ⟨opk, sr', pt', hopk, hw, hr⟩
      · exact absurd hok (hno pt)
      · rw [hpk, hw, if_pos hlr]; simp [removes]
    rcases buildReceiver_cases P env' st' rec' sr' m' with
      ⟨h1, e, h2⟩ | ⟨_, _, hh, h⟩ | ⟨_, ht, hh, spk, ident, opk, reg, _, _, hopk, _, _, h⟩
    · have : buildReceiver P env' st' rec' sr' m' = ⟨[], .err e⟩ := by
        cases hb : buildReceiver P env' st' rec' sr' m' with
        | mk a b => rw [hb] at h1 h2; simp only at h1 h2; rw [h1, h2]
      simp [decryptPreKey, hl', this]
    · rw [hn'] at hh; simp at hh
    · rw [if_pos (by rw [hid]; exact h0), hgone] at hopk
      simp at hopk

/-- Alice's first message is such a message for Bob, and succeeds. -/
example : loadSession Demo.bob0 "alice" 1 = .ok {} ∧
    SRecord.hasState {} 3 (ser (Demo.parseP Demo.a1.2).baseKey) = false ∧
    (Demo.parseP Demo.a1.2).preKeyId = 7 ∧
    (decryptPreKey Demo.P {} (Demo.rnd 83) Demo.bob0 "alice" 1 (Demo.parseP Demo.a1.2)).res = .ok [1] := by
  decide +kernel

/-! ## C19 A bundle with a bad signature has no effect -/

/-- Whatever the store: a bundle whose signature does not verify under its identity key is refused and
nothing is written. -/
theorem C19_bad_signature_no_effect (P : Prims) (env : Env) (st : Store) (rb rr : Bytes) (rec : String)
    (dev : Nat) (b : Bundle) (k : Bytes) (hk : b.signedPreKey = some k)
    (hs : P.verify b.identityKey (5 :: k) b.signature = false) :
    (buildSender P env st rb rr rec dev b).writes = [] ∧
    (buildSender P env st rb rr rec dev b).res =
      .err (if isTrusted st rec b.identityKey then .invalidSignature else .notTrusted) := by
  have hs' : P.verify b.identityKey (ser k) b.signature = false := hs
  cases ht : isTrusted st rec b.identityKey <;> simp [buildSender, ht, hk, hs']

/-- Conversely the signature is what makes a build succeed: every successful build had a valid one. -/
theorem C19_success_was_signed (P : Prims) (env : Env) (st : Store) (rb rr : Bytes) (rec : String)
    (dev : Nat) (b : Bundle) (h : (buildSender P env st rb rr rec dev b).res = .ok ()) :
    ∃ k, b.signedPreKey = some k ∧ P.verify b.identityKey (5 :: k) b.signature = true := by
  rcases buildSender_cases P env st rb rr rec dev b with
    ⟨_, hn⟩ | ⟨_, _, spk, sr, ident, reg, h1, h2, _⟩
  · exact absurd h hn
  · exact ⟨spk, h1, h2⟩

example : Demo.P.verify Demo.bobId.pub (5 :: Demo.bobSpk.pub) [1, 2, 3] = false := by decide +kernel
example : (buildSender Demo.P {} Demo.alice0 (List.replicate 32 1) (List.replicate 32 2) "bob" 1
    (Demo.bundle 7)).res = .ok () := by decide +kernel

/-! ## C20 Repeated prekey messages do not reset the session -/

/-- A prekey message whose base key belongs to a state of the stored record is decrypted with that
record exactly as an ordinary message would be: no new session, the same result and the same stored
record as decrypting the embedded message; no identity write. It removes no prekey except possibly
number 0 (see C16), so none if there is no prekey 0. -/
theorem C20_repeated_prekey_message (P : Prims) (env : Env) (rnd : Nat → Bytes) (st : Store)
    (rec : String) (dev : Nat) (m : PreKeyMsg) (sr : SRecord) (hl : loadSession st rec dev = .ok sr)
    (hv : m.version = 3) (ht : isTrusted st rec m.identityKey = true)
    (hh : ∃ s ∈ sr.cur :: sr.prev, s.version = 3 ∧ s.aliceBase = 5 :: m.baseKey) :
    (decryptPreKey P env rnd st rec dev m).res = (decryptWhisper P env rnd st rec dev m.message).res ∧
    (applyWrites st (decryptPreKey P env rnd st rec dev m).writes).sessions =
      (applyWrites st (decryptWhisper P env rnd st rec dev m.message).writes).sessions ∧
    (applyWrites st (decryptPreKey P env rnd st rec dev m).writes).identities = st.identities ∧
    (st.preKeys 0 = none →
      (applyWrites st (decryptPreKey P env rnd st rec dev m).writes).preKeys = st.preKeys) := by
  have hs : sr.hasState 3 (ser m.baseKey) = true := by
    obtain ⟨s, hs, h1, h2⟩ := hh
    unfold SRecord.hasState
    rw [List.any_eq_true]
    exact ⟨s, hs, by simp [SState.getVersion, h1, h2, ser]⟩
  have hb : buildReceiver P env st rec sr m = ⟨[], .ok (sr, 0)⟩ := by
    simp [buildReceiver, hv, ht, hs]
  cases hd : decryptRecord P rnd sr m.message with
  | mk sr' res =>
    cases res with
    | err e => simp [decryptPreKey, decryptWhisper, hl, hb, hd]
    | panic => simp [decryptPreKey, decryptWhisper, hl, hb, hd]
    | ok pt =>
      rcases storeSession_cases env rec dev sr' pt with ⟨h1, h2⟩ | ⟨h1, h2⟩
      · simp only [decryptPreKey, decryptWhisper, hl, hb, hd, h2]
        refine ⟨trivial, rfl, rfl, ?_⟩
        intro h0
        funext i
        rw [applyWrites_preKeys]
        by_cases hi : i = 0
        · subst hi; simp [h0]
        · simp [removes, hi]
      · simp only [decryptPreKey, decryptWhisper, hl, hb, hd, h2]
        refine ⟨trivial, rfl, rfl, ?_⟩
        intro h0
        funext i
        rw [applyWrites_preKeys]
        by_cases hi : i = 0
        · subst hi; simp [h0]
        · simp [removes, hi]

/-- Alice's second message repeats her base key; Bob has the state, and it decrypts. -/
example : (match loadSession Demo.b1.1 "alice" 1 with
      | .ok sr => sr.cur.version == 3 && sr.cur.aliceBase == 5 :: (Demo.parseP Demo.a2.2).baseKey
      | _ => false) = true ∧
    isTrusted Demo.b1.1 "alice" (Demo.parseP Demo.a2.2).identityKey = true ∧
    (Demo.recvP Demo.b1.1 "alice" 90 Demo.a2.2).2 = .ok [2] := by decide +kernel

end Verif.Props
