import Verif.Proof.Shape
import Verif.Props.Demo
/-!
# Properties C04 (no sending key is reused) and C06 (a message is accepted at most once)

Both fail for a session that was archived and then promoted again: the promoted state stays among the
archived ones, so a later replay is accepted by that stale copy and the session, including its sending
chain, is rolled back.
-/
namespace Verif.Props
open Verif Verif.Keys Verif.Messages Verif.Session Verif.Api Verif.Names Verif.Wire

namespace Demo
/-- Alice's bundle, as Bob might fetch it from the server. -/
def aliceBundle : Bundle :=
  { regId := 1001, preKeyId := 9, preKey := none, signedPreKeyId := 3
    signedPreKey := some (pair 91).pub, signature := toySig aliceId (ser (pair 91).pub)
    identityKey := aliceId.pub }
/-- Bob, who already has a session with Alice, builds another one (as the send path does after a
409/410 reply, or two devices writing to each other at the same time). -/
def b2 : Store := applyWrites b1.1
  (buildSender P {} b1.1 (List.replicate 32 101) (List.replicate 32 109) "alice" 1 aliceBundle).writes
/-- Alice, not knowing, goes on with the first session: her message promotes it again. -/
def b3 := recvP b2 "alice" 113 a2.2
def b4 := recvP b3.1 "alice" 131 a3.2
/-- Bob answers. -/
def b5 := send b4.1 "alice" [10]
/-- Alice's third message is delivered a second time. -/
def b6 := recvP b5.1 "alice" 151 a3.2
def b7 := send b6.1 "alice" [11]
end Demo

/-! ## Reading a sent message -/

/-- The ratchet key and counter in a sent message, read from its bytes. For a prekey message, from the
embedded message (field 4). -/
def header (out : Bytes) (ty : MsgType) : Option (Bytes × Nat) :=
  let inner := match ty with
    | .whisper => some out
    | .prekey => (decFields out.tail).bind (fun fs => getBytes fs 4)
  match inner.map loadWhisper with
  | some (.ok m) => some (m.ratchetKey, m.counter)
  | _ => none

/-- What an event puts on the wire for its address: the header of a completed encryption. -/
def Event.emits (P : Prims) (st : Store) (e : Event) : List (Option (Bytes × Nat)) :=
  match e.call, e.crash with
  | .encrypt pt, none => match (encryptMsg P e.env st e.peer e.dev pt).res with
    | .ok (out, ty) => [header out ty]
    | _ => []
  | _, _ => []

/-- Headers of all messages sent to `(rec, dev)` during a history. -/
def emitted (P : Prims) (rec : String) (dev : Nat) : Store → List Event → List (Option (Bytes × Nat))
  | _, [] => []
  | st, e :: es =>
    (if (e.peer, e.dev) = (rec, dev) then Event.emits P st e else []) ++ emitted P rec dev (step P st e) es

/-! ## The counterexample -/

/-- C06 and C04 fail. Two clients, no crash, no failing write, every byte string genuine: Bob has one
session archived by a second one and promoted again. Alice's message 3 is accepted twice, and Bob then
sends two different plaintexts under the same ratchet key and counter, that is, under the same keys. -/
theorem C06_replay_accepted_after_promotion :
    Demo.b3.2 = .ok [2] ∧ Demo.b4.2 = .ok [3] ∧ Demo.b6.2 = .ok [3] := by decide +kernel

theorem C04_key_reuse_after_replay :
    ∃ (P : Prims) (st : Store) (replay : Event),
      (∃ m, replay.call = .decryptP (Demo.rnd 151) m ∧
        (decryptPreKey P {} (Demo.rnd 131) Demo.b3.1 "alice" 1 m).res = .ok [3]) ∧
      ∃ h, emitted P "alice" 1 st
        [{ peer := "alice", dev := 1, call := .encrypt [10] }, replay,
         { peer := "alice", dev := 1, call := .encrypt [11] }] = [some h, some h] := by
  refine ⟨Demo.P, Demo.b4.1, { peer := "alice", dev := 1, call := .decryptP (Demo.rnd 151) (Demo.parseP Demo.a3.2) }, ⟨_, rfl, by decide +kernel⟩,
    ((Demo.pair 83).pub, 0), ?_⟩
  decide +kernel

/-! ## C04: what holds -/

/-- The message, if it is accepted at all, is accepted by the record's current state. -/
def ByCurrent (P : Prims) (rnd : Nat → Bytes) (sr : SRecord) (m : WhisperMsg) : Prop :=
  ∀ sr' pt, decryptRecord P rnd sr m = (sr', .ok pt) →
    ∃ s, decryptState P (rnd 0) sr.cur m = (s, .ok pt)

/-- No archived state is promoted by this event. -/
def NoPromotion (P : Prims) (st : Store) (e : Event) : Prop :=
  match e.call with
  | .decryptW rnd m => ∀ sr, loadSession st e.peer e.dev = .ok sr → ByCurrent P rnd sr m
  | .decryptP rnd m => ∀ sr w sr1 n, loadSession st e.peer e.dev = .ok sr →
      buildReceiver P e.env st e.peer sr m = ⟨w, .ok (sr1, n)⟩ → ByCurrent P rnd sr1 m.message
  | _ => True

/-- The ratchet public key an event may generate for the current session. -/
def Event.freshKeys (P : Prims) (e : Event) : List Bytes :=
  match e.call with
  | .build _ rr _ => [(newPair P rr).pub]
  | .decryptW rnd _ => [(newPair P (rnd 0)).pub]
  | .decryptP rnd _ => [(newPair P (rnd 0)).pub]
  | _ => []

/-- Go types: ids are 32-bit, lengths are below 2^60. -/
def Event.Sized (e : Event) : Prop :=
  match e.call with
  | .build _ _ b => b.preKeyId < 2 ^ 32 ∧ b.signedPreKeyId < 2 ^ 32
  | .encrypt pt => pt.length < 2 ^ 60
  | _ => True

/-- The history conditions of C04. -/
def Calm (P : Prims) (rec : String) (dev : Nat) : Store → List Event → Prop
  | _, [] => True
  | st, e :: es => ((e.peer, e.dev) = (rec, dev) → NoPromotion P st e ∧ Event.Sized e) ∧
      Calm P rec dev (step P st e) es

/-- Sending side of the current state: never used beyond its counter. -/
def SendInv (used : List Bytes) (em : List (Option (Bytes × Nat))) (n : Nat) (s : SState) : Prop :=
  ∀ sd, s.sender = some sd →
    s.version = 3 ∧ sd.ck.idx ≤ n ∧ s.prevCounter ≤ n ∧ s.localReg < 2 ^ 32 ∧
    (∀ p, s.pending = some p → p.preKeyId < 2 ^ 32 ∧ p.signedPreKeyId < 2 ^ 32) ∧
    sd.pub ∈ used ∧ ∀ k c, some (k, c) ∈ em → k = sd.pub → c < sd.ck.idx

theorem SendInv.mono {used used' em n n' s} (h : SendInv used em n s) (hu : ∀ k ∈ used, k ∈ used')
    (hn : n ≤ n') : SendInv used' em n' s := by
  intro sd hsd
  obtain ⟨a, b, c, d, e, f, g⟩ := h sd hsd
  exact ⟨a, by omega, by omega, d, e, hu _ f, g⟩

/-- What a successful encryption puts on the wire. -/
theorem header_encrypt (P : Prims) (s s' : SState) (pt out : Bytes) (ty : MsgType) (sd : SendChain)
    (n : Nat) (hn : n < 2 ^ 32) (used em) (hs : s.sender = some sd) (hi : SendInv used em n s)
    (hp : pt.length < 2 ^ 60) (h : encryptState P s pt = .ok (s', out, ty)) :
    header out ty = some (sd.pub, sd.ck.idx) ∧
    s' = { s with sender := some { sd with ck := nextCK P sd.ck } } := by
  obtain ⟨hv, hidx, hpc, hreg, hpend, _, _⟩ := hi sd hs
  unfold encryptState at h
  rw [hs] at h
  simp only at h
  split at h
  · simp at h
  split at h
  · simp at h
  rename_i hpub
  simp only [Res.bind_eq_ok] at h
  obtain ⟨ct, hct, h⟩ := h
  split at h
  · simp at h
  rename_i hids
  have hpub' : sd.pub.length = 32 := by omega
  have hlid : s.localId.length = 32 := by omega
  have hgv : s.getVersion % 256 = 3 := by simp [SState.getVersion, hv]
  have hctl : ct.length < 2 ^ 61 := by
    have := Cbc.Encrypt_length P _ _ _ _ hct
    omega
  have hload := loadWhisper_newWhisper P (msgKeys P sd.ck).macKey sd.pub sd.ck.idx s.prevCounter ct
    s.localId s.remoteId hpub' (by omega) (by omega) (by omega)
  rw [hgv] at h
  obtain ⟨wm, hwm⟩ : ∃ wm, wm = newWhisper P 3 (msgKeys P sd.ck).macKey sd.pub sd.ck.idx
    s.prevCounter ct s.localId s.remoteId := ⟨_, rfl⟩
  rw [← hwm] at h hload
  have hrk : wm.ratchetKey = sd.pub ∧ wm.counter = sd.ck.idx := by rw [hwm]; exact ⟨rfl, rfl⟩
  have hwl : wm.serialized.length < 2 ^ 64 := by
    have h1 : wm.serialized.length = (whisperBody sd.pub sd.ck.idx s.prevCounter ct).length + 1 + 8 := by
      rw [hwm]; simp [newWhisper, getMac_len]
    have h2 : (whisperBody sd.pub sd.ck.idx s.prevCounter ct).length ≤ ct.length + 200 :=
      whisperBody_length_le _ _ _ _ hpub' (by omega) (by omega) (by omega)
    omega
  cases hpd : s.pending with
  | none =>
    rw [hpd] at h
    simp at h
    obtain ⟨h1, h2, h3⟩ := h
    subst h2 h3
    refine ⟨?_, h1.symm⟩
    simp [header, hload, hrk]
  | some p =>
    rw [hpd] at h
    simp only [Res.bind_eq_ok] at h
    obtain ⟨bk, hbk, h⟩ := h
    simp at h
    obtain ⟨h1, h2, h3⟩ := h
    subst h2 h3
    refine ⟨?_, h1.symm⟩
    have hbkl : bk.length = 32 := by
      unfold deser at hbk
      split at hbk
      · simp at hbk
      · split at hbk <;> simp at hbk
        rw [← hbk]; assumption
    obtain ⟨hp1, hp2⟩ := hpend p hpd
    have hdec : decFields (newPreKeyMsg 3 s.localReg p.preKeyId p.signedPreKeyId bk s.localId wm).tail =
        some [(1, .varint p.preKeyId), (2, .len (ser bk)), (3, .len (ser s.localId)),
          (4, .len wm.serialized), (5, .varint s.localReg), (6, .varint p.signedPreKeyId)] := by
      show decFields (encFields _) = _
      apply decFields_enc
      intro f hf
      simp only [List.mem_cons, List.not_mem_nil, or_false] at hf
      rcases hf with rfl | rfl | rfl | rfl | rfl | rfl <;> simp [Field.valid, ser, hbkl, hlid] <;> omega
    unfold header
    simp only [hdec]
    simp [getBytes, hload, hrk]

structure Inv (rec : String) (dev : Nat) (st : Store) (used : List Bytes)
    (em : List (Option (Bytes × Nat))) (n : Nat) : Prop where
  cur : ∀ r, st.sessions (sessName rec dev) = .good r → SendInv used em n r.cur
  nodup : em.Nodup
  known : ∀ x ∈ em, ∃ k c, x = some (k, c) ∧ k ∈ used
  reg : ∀ g, st.regId = some g → g < 2 ^ 32

theorem Inv.load {rec dev st used em n} (h : Inv rec dev st used em n) {sr : SRecord}
    (hl : loadSession st rec dev = .ok sr) : SendInv used em n sr.cur := by
  rcases load_good hl with ⟨rfl, _⟩ | ⟨r, hr, rfl⟩
  · intro sd hsd; simp at hsd
  · exact h.cur r hr

theorem step_regId (P : Prims) (st : Store) (e : Event) : (step P st e).regId = st.regId := by
  have : ∀ (ws : List Write) (st : Store), (applyWrites st ws).regId = st.regId := by
    intro ws
    induction ws with
    | nil => exact fun _ => rfl
    | cons w ws ih => intro st; rw [applyWrites_cons, ih]; cases w <;> rfl
  rw [step_eq]
  split
  · rfl
  · exact this _ _

/-- A successful decryption by the current state keeps the sending side or starts a fresh chain. -/
theorem SendInv.decrypt {P : Prims} {used em n} {s s' : SState} {r : Bytes} {m : WhisperMsg} {pt : Bytes}
    (h : SendInv used em n s) (hd : decryptState P r s m = (s', .ok pt))
    (hf : (newPair P r).pub ∉ used) (hk : ∀ x ∈ em, ∃ k c, x = some (k, c) ∧ k ∈ used) :
    SendInv ((newPair P r).pub :: used) em n s' := by
  obtain ⟨h1, h2, h3, h4⟩ := decryptState_sender P r s s' m pt hd
  intro sd' hsd'
  rcases h4 with ⟨h4, h5, _⟩ | ⟨sd, sd2, h4, h5, h6, h7, h8⟩
  · rw [h4] at hsd'
    obtain ⟨a, b, c, d, e, f, g⟩ := h sd' hsd'
    exact ⟨by rw [h1]; exact a, b, by rw [h5]; exact c, by rw [h2]; exact d, by simp [h3],
      List.mem_cons_of_mem _ f, g⟩
  · obtain ⟨a, b, c, d, e, f, g⟩ := h sd h4
    rw [h5] at hsd'
    injection hsd' with hsd'
    subst hsd'
    refine ⟨by rw [h1]; exact a, by omega, by omega, by rw [h2]; exact d, by simp [h3], by simp [h6], ?_⟩
    intro k c hkc hk'
    obtain ⟨k2, c2, he, hu⟩ := hk _ hkc
    injection he with he
    injection he with he1 he2
    rw [h6] at hk'
    exact absurd (by rw [← hk', he1]; exact hu) hf

theorem Inv.grow {rec dev st used em n} (h : Inv rec dev st used em n) (used' : List Bytes)
    (hu : ∀ k ∈ used, k ∈ used') : Inv rec dev st used' em (n + 1) :=
  ⟨fun r hr => (h.cur r hr).mono hu (by omega), h.nodup,
    fun x hx => by
      obtain ⟨k, c, h1, h2⟩ := h.known x hx
      exact ⟨k, c, h1, hu _ h2⟩, h.reg⟩

/-- One event preserves the invariant. -/
theorem inv_step (P : Prims) (rec : String) (dev : Nat) (st : Store) (used em) (n : Nat) (e : Event)
    (h : Inv rec dev st used em n) (hn : n < 2 ^ 32 - 1)
    (hc : (e.peer, e.dev) = (rec, dev) → NoPromotion P st e ∧ Event.Sized e)
    (hf : ∀ k ∈ Event.freshKeys P e, k ∉ used) :
    Inv rec dev (step P st e) (Event.freshKeys P e ++ used)
      (em ++ (if (e.peer, e.dev) = (rec, dev) then Event.emits P st e else [])) (n + 1) := by
  by_cases ha : (e.peer, e.dev) = (rec, dev)
  rotate_left
  · rw [if_neg ha, List.append_nil]
    have hg := h.grow (Event.freshKeys P e ++ used) (fun k hk => List.mem_append_right _ hk)
    have hs : (step P st e).sessions (sessName rec dev) = st.sessions (sessName rec dev) := by
      apply step_sessions
      intro hx
      obtain ⟨h1, h2⟩ := sessName_inj hx
      exact ha (by rw [h1, h2])
    exact ⟨fun r hr => hg.cur r (by rw [← hs]; exact hr), hg.nodup, hg.known, by
      rw [step_regId]; exact hg.reg⟩
  rw [if_pos ha]
  injection ha with h1 h2
  subst h1 h2
  obtain ⟨hnp, hsz⟩ := hc rfl
  have hg := h.grow (Event.freshKeys P e ++ used) (fun k hk => List.mem_append_right _ hk)
  -- it suffices to look at the state stored, if the event emits nothing
  have quiet : (∀ r, (step P st e).sessions (sessName e.peer e.dev) = .good r →
        SendInv (Event.freshKeys P e ++ used) em (n + 1) r.cur) → Event.emits P st e = [] →
      Inv e.peer e.dev (step P st e) (Event.freshKeys P e ++ used) (em ++ Event.emits P st e) (n + 1) := by
    intro hq he
    rw [he, List.append_nil]
    exact ⟨hq, hg.nodup, hg.known, by rw [step_regId]; exact hg.reg⟩
  have own : (∀ h : e.call = .delete, False) →
      (∀ r, Write.storeSession e.peer e.dev r ∈ e.writes P st →
        SendInv (Event.freshKeys P e ++ used) em (n + 1) r.cur) →
      ∀ r, (step P st e).sessions (sessName e.peer e.dev) = .good r →
        SendInv (Event.freshKeys P e ++ used) em (n + 1) r.cur := by
    intro hd hw r hr
    rcases step_own P st e hd with h1 | ⟨r', h1, h2⟩
    · exact hg.cur r (by rw [← h1]; exact hr)
    · rw [h2] at hr
      injection hr with hr
      rw [← hr]
      exact hw r' h1
  cases hcall : e.call with
  | delete =>
    apply quiet
    · intro r hr
      rw [step_eq, hcall] at hr
      simp [deleteSession] at hr
    · simp [Event.emits, hcall]
  | build rb rr b =>
    apply quiet _ (by simp [Event.emits, hcall])
    apply own (by simp [hcall])
    intro r hr
    simp only [Event.writes, hcall] at hr
    rcases buildSender_cases P e.env st rb rr e.peer e.dev b with
      ⟨hw, _⟩ | ⟨_, _, spk, sr, ident, reg, _, _, hl, _, hreg, ho⟩
    · simp [hw] at hr
    · have hrr : r = senderRecord P rb rr sr ident reg b spk := by
        rw [ho] at hr
        split at hr <;> simpa using hr
      have hcur := load_ready_cur hl
      rw [hrr]
      intro sd hsd
      simp only [Event.Sized, hcall] at hsz
      have hfk : Event.freshKeys P e = [(newPair P rr).pub] := by simp [Event.freshKeys, hcall]
      rw [hfk] at hf ⊢
      have hpc : (senderRecord P rb rr sr ident reg b spk).cur.prevCounter = 0 := by
        show (if sr.fresh then sr else sr.archive).cur.prevCounter = 0
        rw [hcur]
      have hsd' : sd.pub = (newPair P rr).pub ∧ sd.ck.idx = 0 := by
        have : (senderRecord P rb rr sr ident reg b spk).cur.sender = some sd := hsd
        simp only [senderRecord, initSender, Option.some.injEq] at this
        rw [← this]
        exact ⟨rfl, (createChain_lens P _ _ _).2.2⟩
      refine ⟨rfl, by omega, by omega, h.reg reg hreg, ?_, by simp [hsd'.1], ?_⟩
      · intro p hp
        have : some (⟨b.preKeyId, b.signedPreKeyId, ser (newPair P rb).pub⟩ : Pending) = some p := hp
        injection this with this
        rw [← this]; exact hsz
      · intro k c hkc hk'
        obtain ⟨k2, c2, he, hu⟩ := h.known _ hkc
        injection he with he
        injection he with he1 he2
        exact absurd (by rw [← hsd'.1, ← hk', he1]; exact hu) (hf _ List.mem_cons_self)
  | decryptW rnd m =>
    apply quiet _ (by simp [Event.emits, hcall])
    apply own (by simp [hcall])
    intro r hr
    simp only [Event.writes, hcall] at hr
    rcases decryptWhisper_cases P e.env rnd st e.peer e.dev m with
      ⟨hw, _⟩ | ⟨sr, sr', pt, hl, hd, _, ho⟩
    · simp [hw] at hr
    · rw [ho] at hr
      simp at hr
      simp only [NoPromotion, hcall] at hnp
      obtain ⟨s, hs⟩ := hnp sr hl sr' pt hd
      obtain ⟨he, _⟩ := decryptRecord_cur P rnd sr sr' m pt hd s pt hs
      have hfk : Event.freshKeys P e = [(newPair P (rnd 0)).pub] := by simp [Event.freshKeys, hcall]
      rw [hfk] at hf ⊢
      rw [hr, he]
      exact ((h.load hl).decrypt hs (hf _ List.mem_cons_self) h.known).mono (fun _ h => h) (by omega)
  | decryptP rnd m =>
    apply quiet _ (by simp [Event.emits, hcall])
    apply own (by simp [hcall])
    intro r hr
    simp only [Event.writes, hcall] at hr
    rcases decryptPreKey_cases P e.env rnd st e.peer e.dev m with
      ⟨hw | ⟨hw, _⟩, _⟩ | ⟨sr, w, sr1, pkid, sr', pt, hl, hb, hd, hw, _⟩
    · simp [hw] at hr
    · simp [hw] at hr
    · simp only [NoPromotion, hcall] at hnp
      obtain ⟨s, hs⟩ := hnp sr w sr1 pkid hl hb sr' pt hd
      obtain ⟨he, _⟩ := decryptRecord_cur P rnd sr1 sr' m.message pt hd s pt hs
      have hfk : Event.freshKeys P e = [(newPair P (rnd 0)).pub] := by simp [Event.freshKeys, hcall]
      rw [hfk] at hf ⊢
      have hr' : r = sr' := by
        rw [hw] at hr
        simp only [List.mem_append] at hr
        rcases hr with (hr | hr) | hr
        · rcases buildReceiver_cases P e.env st e.peer sr m with
            ⟨_, _, h⟩ | ⟨_, _, _, h⟩ | ⟨_, _, _, _, _, _, _, _, _, _, _, _, h⟩
          · rw [hb] at h; simp at h
          · rw [hb] at h
            injection h with h
            simp [h] at hr
          · rw [hb] at h
            injection h with h
            simp [h] at hr
        · split at hr <;> simp at hr
        · split at hr <;> simp at hr
          exact hr
      rw [hr', he]
      rcases buildReceiver_cases P e.env st e.peer sr m with
        ⟨_, _, h'⟩ | ⟨_, _, _, h'⟩ | ⟨_, _, _, spk, ident, opk, reg, _, _, _, hreg, _, h'⟩
      · rw [hb] at h'; simp at h'
      · rw [hb] at h'
        injection h' with _ h'
        injection h' with h'
        injection h' with h' _
        subst h'
        exact ((h.load hl).decrypt hs (hf _ List.mem_cons_self) h.known).mono (fun _ h => h) (by omega)
      · rw [hb] at h'
        injection h' with _ h'
        injection h' with h'
        injection h' with h' _
        have hcur := load_ready_cur hl
        have hrecv : sr1.cur.recv = [] := by
          rw [h']
          show (if sr.fresh then sr else sr.archive).cur.recv = []
          rw [hcur]
        obtain ⟨g1, g2, g3, g4⟩ := decryptState_sender P (rnd 0) sr1.cur s m.message pt hs
        intro sd' hsd'
        rcases g4 with ⟨_, _, g4⟩ | ⟨sd, sd2, g4, g5, g6, g7, g8⟩
        · exact absurd (by simp [getRecv, hrecv]) g4
        · have hsd' : s.sender = some sd' := hsd'
          rw [g5] at hsd'
          injection hsd' with hsd'
          subst hsd'
          have hidx : sd.ck.idx = 0 := by
            rw [h'] at g4
            simp only [initReceiver, Option.some.injEq] at g4
            rw [← g4]
            exact (derivedKeys_lens P _).2.2
          refine ⟨?_, by omega, ?_, ?_, ?_, by simp [g6], ?_⟩
          · show s.version = 3
            rw [g1, h']; rfl
          · show s.prevCounter ≤ n + 1
            omega
          · show s.localReg < 2 ^ 32
            rw [g2, h']
            exact h.reg reg hreg
          · show ∀ p, s.pending = some p → _
            simp [g3]
          · intro k c hkc hk'
            obtain ⟨k2, c2, he, hu⟩ := h.known _ hkc
            injection he with he
            injection he with he1 he2
            exact absurd (by rw [← g6, ← hk', he1]; exact hu) (hf _ List.mem_cons_self)
  | encrypt pt =>
    have hfk : Event.freshKeys P e = [] := by simp [Event.freshKeys, hcall]
    simp only [Event.Sized, hcall] at hsz
    rw [hfk] at hf hg ⊢
    simp only [List.nil_append] at hf hg ⊢
    rcases encryptMsg_cases P e.env st e.peer e.dev pt with ⟨hw, hno⟩ | ⟨sr, s', out, ty, hl, he, _, ho⟩
    · have hs : step P st e = st := by
        rw [step_eq, hcall]
        simp only [Event.done, Event.writes, hcall, hw]
        cases e.crash <;> simp
      have hem : Event.emits P st e = [] := by
        simp only [Event.emits, hcall]
        cases e.crash with
        | some k => rfl
        | none =>
          simp only
          split
          · rename_i o t hr; exact absurd hr (hno _)
          · rfl
      rw [hem, List.append_nil, hs]
      exact hg
    · have hsend : ∃ sd, sr.cur.sender = some sd := by
        cases hx : sr.cur.sender with
        | none => simp [encryptState, hx] at he
        | some sd => exact ⟨sd, rfl⟩
      obtain ⟨sd, hsd⟩ := hsend
      have hli := h.load hl
      obtain ⟨hh, hs'⟩ := header_encrypt P sr.cur s' pt out ty sd n (by omega) used em hsd hli hsz he
      obtain ⟨i1, i2, i3, i4, i5, i6, i7⟩ := hli sd hsd
      have hnext : (nextCK P sd.ck).idx = sd.ck.idx + 1 := by
        simp only [nextCK]
        rw [Nat.mod_eq_of_lt (by unfold u32; omega)]
      have hstored : SendInv used (em ++ [some (sd.pub, sd.ck.idx)]) (n + 1) s' := by
        intro sd' hsd'
        rw [hs'] at hsd'
        injection hsd' with hsd'
        subst hsd'
        rw [hs']
        refine ⟨i1, by simp only [hnext]; omega, by show sr.cur.prevCounter ≤ n + 1; omega, i4, i5, i6, ?_⟩
        intro k c hkc hk'
        simp only [hnext]
        rcases List.mem_append.mp hkc with hkc | hkc
        · have := i7 k c hkc hk'; omega
        · simp at hkc; omega
      have hnot : some (sd.pub, sd.ck.idx) ∉ em := by
        intro hx
        have := i7 _ _ hx rfl
        omega
      cases hcr : e.crash with
      | none =>
        have hem : Event.emits P st e = [some (sd.pub, sd.ck.idx)] := by
          simp only [Event.emits, hcall, hcr, ho, hh]
        have hst : step P st e = applyWrites st [.storeSession e.peer e.dev { sr with cur := s' }] := by
          rw [step_eq, hcall]
          simp only [Event.done, hcr, Event.writes, hcall, ho]
        rw [hem, hst]
        refine ⟨?_, ?_, ?_, hg.reg⟩
        · intro r hr
          simp [applyWrite] at hr
          rw [← hr]
          exact hstored
        · rw [List.nodup_append]
          refine ⟨h.nodup, by simp, ?_⟩
          intro a ha b hb
          simp at hb
          subst hb
          intro hab
          subst hab
          exact hnot ha
        · intro x hx
          rcases List.mem_append.mp hx with hx | hx
          · exact h.known x hx
          · simp at hx
            exact ⟨_, _, hx, i6⟩
      | some k =>
        have hem : Event.emits P st e = [] := by
          simp only [Event.emits, hcall, hcr]
        rw [hem, List.append_nil]
        refine ⟨?_, hg.nodup, hg.known, by rw [step_regId]; exact hg.reg⟩
        have := own (by simp [hcall]) (by
          intro r hr
          rw [hfk]
          simp only [Event.writes, hcall, ho, List.mem_singleton, Write.storeSession.injEq, true_and] at hr
          rw [hr]
          intro sd' hsd'
          obtain ⟨a, b, c, d, e', f, g⟩ := hstored sd' hsd'
          exact ⟨a, b, c, d, e', f, fun k c hkc => g k c (List.mem_append_left _ hkc)⟩)
        rw [hfk] at this
        exact this

/-- C04 except across promotions of an archived session (refuted above). For every history of fewer than
2^32 - 1 calls starting without a session for `(rec, dev)`: builds, encryptions, decryptions of arbitrary
messages, deletions, failing writes and crashes, in which no archived state is promoted and the random
ratchet keys drawn are distinct — no two messages sent to `(rec, dev)` carry the same ratchet key and
counter. (Nor is any of them unreadable: all listed headers are different.) -/
theorem C04_no_send_key_reuse_partial (P : Prims) (rec : String) (dev : Nat) (st : Store)
    (es : List Event) (h0 : st.sessions (sessName rec dev) = .absent)
    (hreg : ∀ g, st.regId = some g → g < 2 ^ 32) (hlen : es.length < 2 ^ 32 - 1)
    (hfresh : (es.flatMap (Event.freshKeys P)).Nodup) (hcalm : Calm P rec dev st es) :
    (emitted P rec dev st es).Nodup ∧ none ∉ emitted P rec dev st es := by
  have gen : ∀ (es : List Event) (st : Store) (used em) (n : Nat), Inv rec dev st used em n →
      n + es.length < 2 ^ 32 - 1 → (es.flatMap (Event.freshKeys P)).Nodup →
      (∀ k ∈ es.flatMap (Event.freshKeys P), k ∉ used) → Calm P rec dev st es →
      (em ++ emitted P rec dev st es).Nodup ∧ none ∉ em ++ emitted P rec dev st es := by
    intro es
    induction es with
    | nil =>
      intro st used em n hi _ _ _ _
      simp only [emitted, List.append_nil]
      refine ⟨hi.nodup, ?_⟩
      intro hx
      obtain ⟨k, c, h, _⟩ := hi.known _ hx
      simp at h
    | cons e es ih =>
      intro st used em n hi hl hnd hdis hc
      simp only [List.flatMap_cons, List.nodup_append] at hnd
      simp only [List.flatMap_cons, List.mem_append] at hdis
      simp only [List.length_cons] at hl
      have hs := inv_step P rec dev st used em n e hi (by omega) hc.1 (fun k hk => hdis k (Or.inl hk))
      have := ih (step P st e) _ _ (n + 1) hs (by omega) hnd.2.1 (by
        intro k hk hku
        rcases List.mem_append.mp hku with hku | hku
        · exact hnd.2.2 k hku k hk rfl
        · exact hdis k (Or.inr hk) hku) hc.2
      simpa only [emitted, List.append_assoc] using this
  have := gen es st [] [] 0 ⟨by simp [h0], by simp, by simp, hreg⟩ (by simpa using hlen) hfresh
    (by simp) hcalm
  simpa using this

/-- The hypotheses are met by a history that builds a session, sends, receives a reply (which changes
the ratchet key) and sends again; three different headers are emitted. -/
def c04History : List Event :=
  [{ peer := "bob", dev := 1, call := .build (List.replicate 32 59) (List.replicate 32 70) (Demo.bundle 7) },
   { peer := "bob", dev := 1, call := .encrypt [1] },
   { peer := "bob", dev := 1, crash := some 1, call := .encrypt [2] },
   { peer := "bob", dev := 1, call := .encrypt [2] },
   { peer := "bob", dev := 1, call := .decryptW (Demo.rnd 200) (Demo.parseW (Demo.send Demo.b1.1 "alice" [9]).2) },
   { peer := "bob", dev := 1, call := .encrypt [3] }]

example : (c04History.flatMap (Event.freshKeys Demo.P)).Nodup ∧
    (emitted Demo.P "bob" 1 Demo.alice0 c04History).length = 3 := by decide +kernel

theorem byCurrent_noPrev (P : Prims) (rnd : Nat → Bytes) (sr : SRecord) (m : WhisperMsg)
    (h : sr.prev = []) : ByCurrent P rnd sr m := by
  intro sr' pt hd
  unfold decryptRecord at hd
  cases hc : decryptState P (rnd 0) sr.cur m with
  | mk s res =>
    rw [hc] at hd
    cases res with
    | ok b => simp at hd; exact ⟨s, by rw [hd.2]⟩
    | panic => simp at hd
    | err e => simp [h, tryPrev] at hd

set_option maxRecDepth 4000 in
/-- Its only decryption meets a record without archived states. -/
example : Calm Demo.P "bob" 1 Demo.alice0 c04History := by
  refine ⟨fun _ => ⟨trivial, by simp [Event.Sized, Demo.bundle]⟩, fun _ => ⟨trivial, by simp [Event.Sized]⟩,
    fun _ => ⟨trivial, by simp [Event.Sized]⟩, fun _ => ⟨trivial, by simp [Event.Sized]⟩,
    fun _ => ⟨?_, trivial⟩, fun _ => ⟨trivial, by simp [Event.Sized]⟩, trivial⟩
  intro sr hl
  apply byCurrent_noPrev
  have : (match loadSession (run Demo.P Demo.alice0 (c04History.take 4)) "bob" 1 with
    | .ok sr => sr.prev.isEmpty | _ => false) = true := by decide +kernel
  have hl' : loadSession (run Demo.P Demo.alice0 (c04History.take 4)) "bob" 1 = .ok sr := hl
  rw [hl'] at this
  simpa using this

/-! ## C06: what holds -/

/-- In state `s` the key for message `(e, c)` is gone: every chain for ratchet key `e` is past `c` and
does not hold the key for `c`. -/
def Spent (s : SState) (e : Bytes) (c : Nat) : Prop :=
  ∀ rc ∈ s.recv, rc.ratchet = e → rc.ck.idx > c ∧ ∀ mk ∈ rc.mks, mk.idx ≠ c

/-- The chain for ratchet key `e` has not been evicted (five are kept). -/
def Retained (s : SState) (e : Bytes) : Prop := ∃ rc ∈ s.recv, rc.ratchet = e

theorem skipKeys_idx (P : Prims) (n : Nat) (ck : ChainKey) (h : ck.idx + n < u32) :
    (∀ mk ∈ (skipKeys P n ck).1, ck.idx ≤ mk.idx ∧ mk.idx < ck.idx + n) ∧
      (skipKeys P n ck).2.idx = ck.idx + n := by
  induction n generalizing ck with
  | zero => simp [skipKeys]
  | succ n ih =>
    have hn : (nextCK P ck).idx = ck.idx + 1 := by
      simp only [nextCK]; rw [Nat.mod_eq_of_lt (by omega)]
    obtain ⟨h1, h2⟩ := ih (nextCK P ck) (by omega)
    rw [hn] at h1 h2
    simp only [skipKeys]
    refine ⟨?_, by rw [h2]; omega⟩
    intro mk hmk
    rcases List.mem_cons.mp hmk with rfl | hmk
    · rw [msgKeys_idx]; omega
    · have := h1 mk hmk; omega

theorem MkStep.spent {P : Prims} {x : RecvChain} {c' : Nat} {f} (h : MkStep P x.ck c' f)
    (hc' : c' + 1 < u32) (c : Nat) (hs : x.ck.idx > c ∧ ∀ mk ∈ x.mks, mk.idx ≠ c) :
    (f x).ck.idx > c ∧ ∀ mk ∈ (f x).mks, mk.idx ≠ c := by
  rcases h with ⟨_, rfl⟩ | ⟨hle, rfl⟩
  · exact ⟨hs.1, fun mk hmk => hs.2 mk ((eraseMk_sublist _ _).mem hmk)⟩
  · obtain ⟨h1, h2⟩ := skipKeys_idx P (c' - x.ck.idx) x.ck (by omega)
    constructor
    · simp only [nextCK, h2]
      rw [Nat.mod_eq_of_lt (by omega)]
      omega
    · intro mk hmk
      rcases List.mem_append.mp hmk with hmk | hmk
      · exact hs.2 mk hmk
      · have := h1 mk hmk; omega

/-- Any further successful decryption leaves a spent key spent, while the chain is kept. -/
theorem Spent.decrypt {P : Prims} {r : Bytes} {s s' : SState} {m : WhisperMsg} {pt e : Bytes} {c : Nat}
    (h : Spent s e c) (hret : Retained s e) (hd : decryptState P r s m = (s', .ok pt))
    (hm : m.counter + 1 < u32) : Spent s' e c := by
  intro rc hrc hre
  rcases decryptState_chains P r s s' m pt hd rc hrc with h1 | ⟨x, hx, _, f, hf, rfl⟩ | ⟨hn, hr⟩
  · exact h rc h1 hre
  · exact MkStep.spent hf hm c (h x hx (by rw [← hre, hf.ratchet]))
  · obtain ⟨rc', h1, h2⟩ := hret
    unfold getRecv at hn
    rw [List.find?_eq_none] at hn
    exact absurd (by rw [h2, ← hre, hr]; simp) (hn rc' h1)

/-- A spent key is not accepted. -/
theorem Spent.refuse {P : Prims} {r : Bytes} {s s' : SState} {m : WhisperMsg} {pt : Bytes}
    (h : Spent s m.ratchetKey m.counter) (hret : Retained s m.ratchetKey) :
    decryptState P r s m ≠ (s', .ok pt) := by
  intro hd
  obtain ⟨rc, h1, h2⟩ := hret
  have hsome : ∃ x, getRecv s m.ratchetKey = some x := by
    cases hg : getRecv s m.ratchetKey with
    | some x => exact ⟨x, rfl⟩
    | none =>
      unfold getRecv at hg
      rw [List.find?_eq_none] at hg
      exact absurd (by rw [h2]; simp) (hg rc h1)
  obtain ⟨x, hx⟩ := hsome
  obtain ⟨hi, hk⟩ := h x (getRecv_mem hx) (getRecv_ratchet hx)
  have hd2 : (decryptState P r s m).2 = .ok pt := by rw [hd]
  unfold decryptState at hd2
  split at hd2
  · simp at hd2
  split at hd2
  · simp at hd2
  unfold getOrCreateChainKey at hd2
  rw [hx] at hd2
  simp only at hd2
  split at hd2
  · simp at hd2
  · simp at hd2
  · rename_i s1 ck heq
    split at heq <;> simp at heq
    obtain ⟨rfl, rfl⟩ := heq
    have hnone : x.mks.find? (fun k => k.idx = m.counter) = none := by
      rw [List.find?_eq_none]
      intro k hk'
      simpa using hk k hk'
    have : getOrCreateMessageKeys P s m.ratchetKey x.ck m.counter = .err .duplicate := by
      unfold getOrCreateMessageKeys
      rw [if_pos hi, hx]
      simp only [hnone]
    rw [this] at hd2
    simp at hd2

/-- Decrypting a message spends its key. Needs the invariant that stored keys of a chain have distinct
indices below the chain's position (it holds from the start, see `Tidy`). -/
def Tidy (s : SState) : Prop :=
  (s.recv.map RecvChain.ratchet).Nodup ∧
  ∀ rc ∈ s.recv, (rc.mks.map MsgKeys.idx).Nodup ∧ ∀ mk ∈ rc.mks, mk.idx < rc.ck.idx

theorem MkStep.tidy {P : Prims} {x : RecvChain} {c : Nat} {f} (h : MkStep P x.ck c f)
    (hc : c + 1 < u32) (ht : (x.mks.map MsgKeys.idx).Nodup ∧ ∀ mk ∈ x.mks, mk.idx < x.ck.idx) :
    ((f x).mks.map MsgKeys.idx).Nodup ∧ (∀ mk ∈ (f x).mks, mk.idx < (f x).ck.idx) ∧
      (f x).ck.idx > c ∧ ∀ mk ∈ (f x).mks, mk.idx ≠ c := by
  rcases h with ⟨hgt, rfl⟩ | ⟨hle, rfl⟩
  · refine ⟨(List.Sublist.map _ (eraseMk_sublist _ _)).nodup ht.1, ?_, hgt, ?_⟩
    · exact fun mk hmk => ht.2 mk ((eraseMk_sublist _ _).mem hmk)
    · exact fun mk hmk => ((mem_eraseMk _ _ ht.1 mk).mp hmk).2
  · have hsk : skipKeys P (c - x.ck.idx) x.ck =
        ((List.range (c - x.ck.idx)).map (fun i => msgKeys P (ckAt P x.ck (0 + i))),
          ckAt P x.ck (0 + (c - x.ck.idx))) := skipKeys_eq P x.ck (c - x.ck.idx) 0
    obtain ⟨h1, h2⟩ := skipKeys_idx P (c - x.ck.idx) x.ck (by omega)
    have hidx : (nextCK P (skipKeys P (c - x.ck.idx) x.ck).2).idx = c + 1 := by
      simp only [nextCK, h2]
      rw [Nat.mod_eq_of_lt (by omega)]; omega
    refine ⟨?_, ?_, by simp only [hidx]; omega, ?_⟩
    · simp only [List.map_append]
      rw [List.nodup_append]
      refine ⟨ht.1, ?_, ?_⟩
      · rw [hsk]
        simp only [List.map_map]
        rw [List.nodup_iff_pairwise_ne, List.pairwise_map]
        apply List.Pairwise.imp_of_mem (R := fun a b => a < b) _ List.pairwise_lt_range
        intro a b ha hb hab
        simp only [List.mem_range] at ha hb
        simp only [Function.comp, msgKeys_idx]
        rw [ckAt_idx _ _ _ (by omega), ckAt_idx _ _ _ (by omega)]
        omega
      · intro a ha b hb
        obtain ⟨mk, hmk, rfl⟩ := List.mem_map.mp ha
        obtain ⟨mk', hmk', rfl⟩ := List.mem_map.mp hb
        have := ht.2 mk hmk
        have := h1 mk' hmk'
        omega
    · intro mk hmk
      simp only [hidx]
      rcases List.mem_append.mp hmk with hmk | hmk
      · have := ht.2 mk hmk; omega
      · have := h1 mk hmk; omega
    · intro mk hmk
      rcases List.mem_append.mp hmk with hmk | hmk
      · have := ht.2 mk hmk; omega
      · have := h1 mk hmk; omega

theorem updFirst_map {α β : Type} (p : α → Bool) (f : α → α) (g : α → β) (hg : ∀ a, g (f a) = g a)
    (l : List α) : (updFirst p f l).map g = l.map g := by
  induction l with
  | nil => rfl
  | cons a l ih =>
    unfold updFirst
    split
    · simp [hg]
    · simp [ih]

theorem nodup_map_inj {α β : Type} {f : α → β} {l : List α} (h : (l.map f).Nodup) {a b : α}
    (ha : a ∈ l) (hb : b ∈ l) (he : f a = f b) : a = b := by
  induction l with
  | nil => simp at ha
  | cons x l ih =>
    simp only [List.map_cons, List.nodup_cons] at h
    rcases List.mem_cons.mp ha with h1 | h1 <;> rcases List.mem_cons.mp hb with h2 | h2
    · rw [h1, h2]
    · exact absurd (by rw [← h1, he]; exact List.mem_map_of_mem h2) h.1
    · exact absurd (by rw [← h2, ← he]; exact List.mem_map_of_mem h1) h.1
    · exact ih h.2 h1 h2

/-- A successful decryption keeps the state tidy and spends the key of the message. -/
theorem Tidy.decrypt {P : Prims} {r : Bytes} {s s' : SState} {m : WhisperMsg} {pt : Bytes}
    (h : Tidy s) (hd : decryptState P r s m = (s', .ok pt)) (hm : m.counter + 1 < u32) :
    Tidy s' ∧ Spent s' m.ratchetKey m.counter ∧ Retained s' m.ratchetKey := by
  obtain ⟨_, sd, hsd, s1, ck, f, hf, hs', hs⟩ := decryptState_shape P r s s' m pt hd
  -- tidiness of the state in which the chain exists, and the chain
  have h1 : Tidy s1 ∧ ∃ x, getRecv s1 m.ratchetKey = some x ∧ ck = x.ck := by
    rcases hs with ⟨rc, hrc, rfl, rfl⟩ | ⟨hn, hs⟩
    · exact ⟨h, rc, hrc, rfl⟩
    · have hg := getRecv_ratchetStep P r s sd m.ratchetKey hn
      rw [← hs] at hg
      refine ⟨?_, _, hg, rfl⟩
      have e1 : s1 = (ratchetStep P r s sd m.ratchetKey).1 := by rw [← hs]
      have hall : Tidy { s with recv := s.recv ++ [⟨m.ratchetKey,
          (createChain P s.rootKey m.ratchetKey sd.priv).2, []⟩] } := by
        constructor
        · simp only [List.map_append, List.map_cons, List.map_nil]
          rw [List.nodup_append]
          refine ⟨h.1, by simp, ?_⟩
          intro a ha b hb
          simp at hb
          subst hb
          obtain ⟨x, hx, rfl⟩ := List.mem_map.mp ha
          intro he
          unfold getRecv at hn
          rw [List.find?_eq_none] at hn
          exact hn x hx (by simp [he])
        · intro rc hrc
          rcases List.mem_append.mp hrc with hrc | hrc
          · exact h.2 rc hrc
          · simp at hrc; subst hrc; simp
      rw [e1]
      have hsub : List.Sublist (ratchetStep P r s sd m.ratchetKey).1.recv
          (s.recv ++ [⟨m.ratchetKey, (createChain P s.rootKey m.ratchetKey sd.priv).2, []⟩]) := by
        simp only [ratchetStep, addRecv]
        split
        · exact List.drop_sublist _ _
        · exact List.Sublist.refl _
      exact ⟨(hsub.map _).nodup hall.1, fun rc hrc => hall.2 rc (hsub.mem hrc)⟩
  obtain ⟨ht, x, hx, rfl⟩ := h1
  have hxt := MkStep.tidy hf hm (ht.2 x (getRecv_mem hx))
  have hnd : (s'.recv.map RecvChain.ratchet).Nodup := by
    rw [hs']
    show ((updFirst _ f s1.recv).map RecvChain.ratchet).Nodup
    rw [updFirst_map _ _ _ hf.ratchet]
    exact ht.1
  have hx' : getRecv s' m.ratchetKey = some (f x) := by
    have := getRecv_modRecv s1 m.ratchetKey f x hf.ratchet hx
    rw [hs']; exact this
  have hmem : ∀ rc ∈ s'.recv, rc ∈ s1.recv ∨ rc = f x := by
    intro rc hrc
    rw [hs'] at hrc
    have hrc : rc ∈ updFirst (fun c => c.ratchet == m.ratchetKey) f s1.recv := hrc
    have hgen : ∀ (l : List RecvChain), l.find? (fun c => c.ratchet == m.ratchetKey) = some x →
        rc ∈ updFirst (fun c => c.ratchet == m.ratchetKey) f l → rc ∈ l ∨ rc = f x := by
      intro l
      induction l with
      | nil => intro h; simp at h
      | cons a l ih =>
        intro hfi hin
        unfold updFirst at hin
        by_cases hp : (a.ratchet == m.ratchetKey) = true
        · rw [if_pos hp] at hin
          simp [hp] at hfi
          subst hfi
          rcases List.mem_cons.mp hin with rfl | hin
          · exact Or.inr rfl
          · exact Or.inl (List.mem_cons_of_mem _ hin)
        · rw [if_neg hp] at hin
          rw [List.find?_cons_of_neg (by simpa using hp)] at hfi
          rcases List.mem_cons.mp hin with rfl | hin
          · exact Or.inl List.mem_cons_self
          · rcases ih hfi hin with h | h
            · exact Or.inl (List.mem_cons_of_mem _ h)
            · exact Or.inr h
    exact hgen s1.recv hx hrc
  have hfx : f x ∈ s'.recv := getRecv_mem hx'
  have hfr : (f x).ratchet = m.ratchetKey := getRecv_ratchet hx'
  refine ⟨⟨hnd, ?_⟩, ?_, ⟨f x, hfx, hfr⟩⟩
  · intro rc hrc
    rcases hmem rc hrc with h1 | rfl
    · exact ht.2 rc h1
    · exact ⟨hxt.1, hxt.2.1⟩
  · intro rc hrc hre
    have : rc = f x := by
      exact nodup_map_inj hnd hrc hfx (by rw [hre, hfr])
    rw [this]
    exact ⟨hxt.2.2.1, hxt.2.2.2⟩

/-- The current state of the session `(rec, dev)`. -/
def curState (st : Store) (rec : String) (dev : Nat) : Option SRecord :=
  match loadSession st rec dev with
  | .ok sr => some sr
  | _ => none

/-- Events at `(rec, dev)` after which the session is still the same one: encryptions, and decryptions
(of ordinary messages, or prekey messages repeating a known base key) that do not promote an archived
state. Anything may happen at other addresses. After every event the chain for `eph` is still kept. -/
def SameSession (P : Prims) (rec : String) (dev : Nat) (eph : Bytes) : Store → List Event → Prop
  | _, [] => True
  | st, e :: es =>
    ((e.peer, e.dev) = (rec, dev) → NoPromotion P st e ∧
      match e.call with
      | .encrypt _ => True
      | .decryptW _ m => m.counter + 1 < u32
      | .decryptP _ m => m.message.counter + 1 < u32 ∧
          ∀ sr, loadSession st rec dev = .ok sr → sr.hasState 3 (ser m.baseKey) = true
      | _ => False) ∧
    (∀ sr, curState (step P st e) rec dev = some sr → Retained sr.cur eph) ∧
    SameSession P rec dev eph (step P st e) es

theorem encryptState_recv' (P : Prims) (s s' : SState) (pt out : Bytes) (ty : MsgType)
    (h : encryptState P s pt = .ok (s', out, ty)) : s'.recv = s.recv := by
  unfold encryptState at h
  split at h
  · simp at h
  · split at h
    · simp at h
    split at h
    · simp at h
    simp only [Res.bind_eq_ok] at h
    obtain ⟨ct, _, h⟩ := h
    split at h
    · simp at h
    split at h
    · simp at h; rw [← h.1]
    · simp only [Res.bind_eq_ok] at h
      obtain ⟨bk, _, h⟩ := h
      simp at h; rw [← h.1]

/-- A stored record whose current state has spent `(e, c)`. -/
structure SpentAt (st : Store) (rec : String) (dev : Nat) (e : Bytes) (c : Nat) (prev : List SState) :
    Prop where
  ex : ∃ r, st.sessions (sessName rec dev) = .good r ∧ Spent r.cur e c ∧ Retained r.cur e ∧ r.prev = prev

theorem spentAt_step (P : Prims) (rec : String) (dev : Nat) (e : Bytes) (c : Nat) (prev : List SState)
    (st : Store) (ev : Event) (h : SpentAt st rec dev e c prev)
    (hs : SameSession P rec dev e st [ev]) : SpentAt (step P st ev) rec dev e c prev := by
  obtain ⟨r, hr, hsp, hret, hpr⟩ := h.ex
  obtain ⟨h1, h2, _⟩ := hs
  have hl : loadSession st rec dev = .ok { r with fresh := false } := by simp [loadSession, hr]
  by_cases ha : (ev.peer, ev.dev) = (rec, dev)
  rotate_left
  · have : (step P st ev).sessions (sessName rec dev) = st.sessions (sessName rec dev) := by
      apply step_sessions
      intro hx
      obtain ⟨h1, h2⟩ := sessName_inj hx
      exact ha (by rw [h1, h2])
    exact ⟨r, by rw [this]; exact hr, hsp, hret, hpr⟩
  obtain ⟨hnp, hcl⟩ := h1 ha
  injection ha with e1 e2
  subst e1 e2
  have hdel : ∀ h : ev.call = .delete, False := by
    intro h; simp [h] at hcl
  -- what a stored record can be
  have hw : ∀ r', Write.storeSession ev.peer ev.dev r' ∈ ev.writes P st →
      Spent r'.cur e c ∧ r'.prev = prev := by
    intro r' hr'
    cases hcall : ev.call with
    | delete => exact (hdel hcall).elim
    | build _ _ _ => simp [hcall] at hcl
    | encrypt pt =>
      simp only [Event.writes, hcall] at hr'
      rcases encryptMsg_cases P ev.env st ev.peer ev.dev pt with ⟨hw, _⟩ | ⟨sr, s', out, ty, hl', he, _, ho⟩
      · simp [hw] at hr'
      · rw [ho] at hr'
        simp at hr'
        rw [hl] at hl'
        injection hl' with hl'
        subst hl'
        rw [hr']
        refine ⟨?_, hpr⟩
        intro rc hrc
        rw [show ({ r with fresh := false, cur := s' } : SRecord).cur.recv = s'.recv from rfl,
          encryptState_recv' P _ _ _ _ _ he] at hrc
        exact hsp rc hrc
    | decryptW rnd m =>
      simp only [hcall] at hcl
      simp only [Event.writes, hcall] at hr'
      rcases decryptWhisper_cases P ev.env rnd st ev.peer ev.dev m with
        ⟨hw, _⟩ | ⟨sr, sr', pt, hl', hd, _, ho⟩
      · simp [hw] at hr'
      · rw [ho] at hr'
        simp at hr'
        simp only [NoPromotion, hcall] at hnp
        obtain ⟨s, hs⟩ := hnp sr hl' sr' pt hd
        obtain ⟨he, _⟩ := decryptRecord_cur P rnd sr sr' m pt hd s pt hs
        rw [hl] at hl'
        injection hl' with hl'
        subst hl'
        rw [hr', he]
        exact ⟨hsp.decrypt hret hs hcl, hpr⟩
    | decryptP rnd m =>
      simp only [hcall] at hcl
      simp only [Event.writes, hcall] at hr'
      rcases decryptPreKey_cases P ev.env rnd st ev.peer ev.dev m with
        ⟨hw | ⟨hw, _⟩, _⟩ | ⟨sr, w, sr1, pkid, sr', pt, hl', hb, hd, hw, _⟩
      · simp [hw] at hr'
      · simp [hw] at hr'
      · simp only [NoPromotion, hcall] at hnp
        obtain ⟨s, hs⟩ := hnp sr w sr1 pkid hl' hb sr' pt hd
        obtain ⟨he, _⟩ := decryptRecord_cur P rnd sr1 sr' m.message pt hd s pt hs
        have hh := hcl.2 sr hl'
        rcases buildReceiver_cases P ev.env st ev.peer sr m with
          ⟨_, _, h'⟩ | ⟨_, _, _, h'⟩ | ⟨_, _, hh', _⟩
        · rw [hb] at h'; simp at h'
        · rw [hb] at h'
          injection h' with hw' h'
          injection h' with h'
          injection h' with h' _
          have hr'' : r' = sr' := by
            rw [hw, hw'] at hr'
            simp only [List.nil_append, List.mem_append] at hr'
            rcases hr' with hr' | hr'
            · split at hr' <;> simp at hr'
            · split at hr' <;> simp at hr'
              exact hr'
          subst h'
          rw [hl] at hl'
          injection hl' with hl'
          subst hl'
          rw [hr'', he]
          exact ⟨hsp.decrypt hret hs hcl.1, hpr⟩
        · rw [hh] at hh'; simp at hh'
  rcases step_own P st ev hdel with h3 | ⟨r', h3, h4⟩
  · exact ⟨r, by rw [h3]; exact hr, hsp, hret, hpr⟩
  · obtain ⟨h5, h6⟩ := hw r' h3
    refine ⟨{ r' with fresh := false }, h4, h5, ?_, h6⟩
    exact h2 _ (by simp [curState, loadSession, h4])

/-- C06 except across promotions of an archived session (refuted above). Suppose the current state `s`
of the session accepts message `m` and the resulting record is stored. After any later history within the same
session (encryptions, decryptions, failures, crashes; anything at other addresses) while the chain of
`m` is among the five kept, the current state does not accept `m` again; and if the record has no
archived states, both calls refuse `m` and write nothing. `Tidy` holds of every state this code creates
(`tidy_new`, `Tidy.decrypt`). -/
theorem C06_at_most_once_partial (P : Prims) (rec : String) (dev : Nat) (st : Store) (r0 : SRecord)
    (m : WhisperMsg) (rnd : Bytes) (s' : SState) (pt : Bytes) (es : List Event)
    (htidy : Tidy r0.cur) (hm : m.counter + 1 < u32)
    (hacc : decryptState P rnd r0.cur m = (s', .ok pt))
    (hst : st.sessions (sessName rec dev) = .good { r0 with cur := s', fresh := false })
    (hes : SameSession P rec dev m.ratchetKey st es) :
    ∃ r, (run P st es).sessions (sessName rec dev) = .good r ∧
      (∀ rnd' s'' pt', decryptState P rnd' r.cur m ≠ (s'', .ok pt')) ∧
      (r0.prev = [] → ∀ env rnd', (decryptWhisper P env rnd' (run P st es) rec dev m).writes = [] ∧
        ∀ pt', (decryptWhisper P env rnd' (run P st es) rec dev m).res ≠ .ok pt') ∧
      (r0.prev = [] → ∀ env rnd' (pm : PreKeyMsg), pm.message = m →
        r.hasState 3 (ser pm.baseKey) = true →
        (decryptPreKey P env rnd' (run P st es) rec dev pm).writes = [] ∧
        ∀ pt', (decryptPreKey P env rnd' (run P st es) rec dev pm).res ≠ .ok pt') := by
  have h0 : SpentAt st rec dev m.ratchetKey m.counter r0.prev := by
    obtain ⟨_, h2, h3⟩ := htidy.decrypt hacc hm
    exact ⟨_, hst, h2, h3, rfl⟩
  have hrun : SpentAt (run P st es) rec dev m.ratchetKey m.counter r0.prev := by
    clear hst hacc
    induction es generalizing st with
    | nil => exact h0
    | cons e es ih =>
      exact ih (step P st e) hes.2.2
        (spentAt_step P rec dev _ _ _ st e h0 ⟨hes.1, hes.2.1, trivial⟩)
  obtain ⟨r, hr, hsp, hret, hpr⟩ := hrun.ex
  have hl : loadSession (run P st es) rec dev = .ok { r with fresh := false } := by
    simp [loadSession, hr]
  have hno : ∀ rnd' s'' pt', decryptState P rnd' r.cur m ≠ (s'', .ok pt') :=
    fun rnd' s'' pt' => Spent.refuse hsp hret
  have hrec : r0.prev = [] → ∀ rnd' sr' pt',
      decryptRecord P rnd' { r with fresh := false } m ≠ (sr', .ok pt') := by
    intro hp rnd' sr' pt' hd
    obtain ⟨s, hs⟩ := byCurrent_noPrev P rnd' { r with fresh := false } m (by rw [← hp, ← hpr]) sr' pt' hd
    exact hno _ _ _ hs
  refine ⟨r, hr, hno, ?_, ?_⟩
  · intro hp env rnd'
    rcases decryptWhisper_cases P env rnd' (run P st es) rec dev m with h | ⟨sr, sr', pt', hl', hd, _⟩
    · exact h
    · rw [hl] at hl'
      injection hl' with hl'
      subst hl'
      exact absurd hd (hrec hp _ _ _)
  · intro hp env rnd' pm hpm hhas
    rcases decryptPreKey_cases P env rnd' (run P st es) rec dev pm with
      ⟨h | ⟨_, _, sr, hl', hh⟩, h2⟩ | ⟨sr, w, sr1, pkid, sr', pt', hl', hb, hd, _⟩
    · exact ⟨h, h2⟩
    · rw [hl] at hl'
      injection hl' with hl'
      subst hl'
      rw [show SRecord.hasState { r with fresh := false } 3 (ser pm.baseKey) =
        r.hasState 3 (ser pm.baseKey) from rfl, hhas] at hh
      simp at hh
    · rw [hl] at hl'
      injection hl' with hl'
      subst hl'
      rcases buildReceiver_cases P env (run P st es) rec { r with fresh := false } pm with
        ⟨_, _, h'⟩ | ⟨_, _, _, h'⟩ | ⟨_, _, hh', _⟩
      · rw [hb] at h'; simp at h'
      · rw [hb] at h'
        injection h' with _ h'
        injection h' with h'
        injection h' with h' _
        subst h'
        rw [hpm] at hd
        exact absurd hd (hrec hp _ _ _)
      · rw [show SRecord.hasState { r with fresh := false } 3 (ser pm.baseKey) =
          r.hasState 3 (ser pm.baseKey) from rfl, hhas] at hh'
        simp at hh'

/-- States made by this code are tidy: a state without receiving chains, or the initial sender state. -/
theorem tidy_new (s : SState) (h : s.recv.length ≤ 1) (hk : ∀ rc ∈ s.recv, rc.mks = []) : Tidy s := by
  constructor
  · match hs : s.recv with
    | [] => simp
    | [_] => simp
    | _ :: _ :: _ => rw [hs] at h; simp at h
  · intro rc hrc
    rw [hk rc hrc]; simp

/-- Bob's session after Alice's first message: its record has no archived state, and the hypotheses of
the theorem are met by the message and by a later history with an encryption and another message. -/
example : (Demo.recvP Demo.b1.1 "alice" 90 Demo.a1.2).2 = .err .invalidMessage ∧
    (Demo.recvP (Demo.recvP (Demo.send Demo.b1.1 "alice" [9]).1 "alice" 91 Demo.a2.2).1 "alice" 92
      Demo.a1.2).2 = .err .invalidMessage := by decide +kernel

/-- Bob's record before Alice's second message, that message, and the store after it: all hypotheses of
`C06_at_most_once_partial` hold, with a later encryption as history. -/
def c06Record : SRecord := match loadSession Demo.b1.1 "alice" 1 with | .ok sr => sr | _ => {}
def c06Msg : WhisperMsg := (Demo.parseP Demo.a2.2).message
def c06Store : Store := (Demo.recvP Demo.b1.1 "alice" 90 Demo.a2.2).1
def c06Later : List Event := [{ peer := "alice", dev := 1, call := .encrypt [9] }]

example : Tidy c06Record.cur ∧ c06Msg.counter + 1 < u32 ∧ c06Record.prev = [] ∧
    (∃ s', decryptState Demo.P (Demo.rnd 90 0) c06Record.cur c06Msg = (s', .ok [2]) ∧
      c06Store.sessions (sessName "alice" 1) = .good { c06Record with cur := s', fresh := false }) ∧
    SameSession Demo.P "alice" 1 c06Msg.ratchetKey c06Store c06Later := by
  refine ⟨tidy_new _ (by decide +kernel) (by decide +kernel), by decide +kernel, by decide +kernel,
    ⟨(decryptState Demo.P (Demo.rnd 90 0) c06Record.cur c06Msg).1, by decide +kernel, by decide +kernel⟩,
    fun _ => ⟨trivial, trivial⟩, ?_, trivial⟩
  intro sr hsr
  have h : (match curState (step Demo.P c06Store { peer := "alice", dev := 1, call := .encrypt [9] })
      "alice" 1 with
    | some sr => sr.cur.recv.any (fun rc => rc.ratchet == c06Msg.ratchetKey)
    | none => false) = true := by decide +kernel
  rw [hsr] at h
  simp only [List.any_eq_true, beq_iff_eq] at h
  exact h

end Verif.Props
