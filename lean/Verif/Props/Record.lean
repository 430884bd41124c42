import Verif.Proof.Record
import Verif.Proof.Invariant
import Verif.Model.Files
import Verif.Props.Symmetric
import Verif.Props.Demo
/-!
# C26: stored session records
-/
namespace Verif.Props
open Verif Verif.Keys Verif.Messages Verif.Session Verif.Names Verif.Api Verif.Record Verif.Files

/-! ## Everything stored has 32-bit numbers -/

theorem nextCK_lt (P : Prims) (c : ChainKey) : (nextCK P c).idx < u32 := Nat.mod_lt _ (by decide)

theorem skipKeys_lt (P : Prims) (n : Nat) : ∀ c : ChainKey, c.idx < u32 →
    (∀ m ∈ (skipKeys P n c).1, m.idx < u32) ∧ (skipKeys P n c).2.idx < u32 := by
  induction n with
  | zero => intro c h; simp [skipKeys, h]
  | succ n ih =>
    intro c h
    obtain ⟨i1, i2⟩ := ih (nextCK P c) (nextCK_lt P c)
    simp only [skipKeys]
    refine ⟨?_, i2⟩
    intro m hm
    rcases List.mem_cons.mp hm with rfl | hm
    · exact h
    · exact i1 m hm

def ChainOk (c : RecvChain) : Prop := c.ck.idx < u32 ∧ ∀ m ∈ c.mks, m.idx < u32

theorem updFirst_all {α : Type} {Q : α → Prop} (p : α → Bool) (f : α → α) (hf : ∀ a, Q a → Q (f a)) :
    ∀ l : List α, (∀ a ∈ l, Q a) → ∀ a ∈ updFirst p f l, Q a := by
  intro l
  induction l with
  | nil => intro _ a ha; simp [updFirst] at ha
  | cons x l ih =>
    intro h a ha
    unfold updFirst at ha
    split at ha
    · rcases List.mem_cons.mp ha with rfl | ha
      · exact hf x (h x List.mem_cons_self)
      · exact h a (List.mem_cons_of_mem _ ha)
    · rcases List.mem_cons.mp ha with rfl | ha
      · exact h _ List.mem_cons_self
      · exact ih (fun b hb => h b (List.mem_cons_of_mem _ hb)) a ha

theorem eraseMk_sub (c : Nat) (l : List MsgKeys) : ∀ m ∈ eraseMk c l, m ∈ l := by
  induction l with
  | nil => simp [eraseMk]
  | cons x l ih =>
    intro m hm
    unfold eraseMk at hm
    split at hm
    · exact List.mem_cons_of_mem _ hm
    · rcases List.mem_cons.mp hm with rfl | hm
      · exact List.mem_cons_self
      · exact List.mem_cons_of_mem _ (ih m hm)

theorem chainOk_addRecv {s : SState} {e : Bytes} {ck : ChainKey} (h : ∀ c ∈ s.recv, ChainOk c)
    (hck : ck.idx < u32) : ∀ c ∈ (addRecv s e ck).recv, ChainOk c := by
  intro c hc
  have : c ∈ s.recv ++ [⟨e, ck, []⟩] := by
    simp only [addRecv] at hc
    split at hc
    · exact List.mem_of_mem_drop hc
    · exact hc
  rcases List.mem_append.mp this with h1 | h1
  · exact h c h1
  · simp at h1; subst h1; exact ⟨hck, by simp⟩

theorem chainKey_ok {P : Prims} {r : Bytes} {s s1 : SState} {e : Bytes} {ck : ChainKey} (h : StateOk s)
    (hc : getOrCreateChainKey P r s e = .ok (s1, ck)) : StateOk s1 ∧ ck.idx < u32 := by
  unfold getOrCreateChainKey at hc
  split at hc
  · rename_i rc hrc
    split at hc <;> simp at hc
    rw [← hc.1, ← hc.2]
    exact ⟨h, (h.recv rc (List.mem_of_find?_eq_some hrc)).1⟩
  · split at hc
    · simp at hc
    · rename_i sd hsd
      split at hc
      · simp at hc
      · simp only [Res.ok.injEq, Prod.mk.injEq] at hc
        have h0 : (createChain P s.rootKey e sd.priv).2.idx < u32 := by
          show (0 : Nat) < u32; decide
        rw [← hc.1, ← hc.2]
        refine ⟨?_, h0⟩
        have hs := h.sender sd hsd
        exact ⟨h.version, by show sd.ck.idx - 1 < u32; omega, h.remoteReg, h.localReg,
          by intro c hc; injection hc with hc; rw [← hc]; show (0 : Nat) < u32; decide,
          chainOk_addRecv (s := { s with rootKey := _ }) h.recv h0, h.pending⟩

theorem messageKeys_ok {P : Prims} {s s2 : SState} {e : Bytes} {ck : ChainKey} {n : Nat} {mk : MsgKeys}
    (h : StateOk s) (hk : ck.idx < u32)
    (hc : getOrCreateMessageKeys P s e ck n = .ok (s2, mk)) : StateOk s2 := by
  obtain ⟨f, hf, rfl⟩ := messageKeys_shape P _ _ _ _ _ _ hc
  refine ⟨h.version, h.prevCounter, h.remoteReg, h.localReg, h.sender, ?_, h.pending⟩
  refine updFirst_all (Q := ChainOk) _ f ?_ s.recv h.recv
  intro c hok
  rcases hf with ⟨_, rfl⟩ | ⟨_, rfl⟩
  · exact ⟨hok.1, fun m hm => hok.2 m (eraseMk_sub _ _ m hm)⟩
  · refine ⟨nextCK_lt P _, ?_⟩
    intro m hm
    rcases List.mem_append.mp hm with hm | hm
    · exact hok.2 m hm
    · exact (skipKeys_lt P _ ck hk).1 m hm

theorem decryptState_ok (P : Prims) (r : Bytes) (s : SState) (m : WhisperMsg) (h : StateOk s) :
    StateOk (decryptState P r s m).1 := by
  unfold decryptState
  split
  · exact h
  split
  · exact h
  split
  · exact h
  · exact h
  · rename_i s1 ck hck
    have h1 := chainKey_ok h hck
    split
    · exact h1.1
    · exact h1.1
    · rename_i s2 mk hmk
      have h2 := messageKeys_ok h1.1 h1.2 hmk
      split
      · exact h2
      split
      · exact h2
      split
      · exact ⟨h2.version, h2.prevCounter, h2.remoteReg, h2.localReg, h2.sender, h2.recv, by simp⟩
      · exact h2
      · exact h2

theorem encryptState_ok (P : Prims) (s : SState) (pt : Bytes) (s' : SState) (out : Bytes) (ty : MsgType)
    (h : StateOk s) (he : encryptState P s pt = .ok (s', out, ty)) : StateOk s' := by
  have key : ∀ sd, s.sender = some sd →
      StateOk { s with sender := some { sd with ck := nextCK P sd.ck } } := fun sd _ =>
    ⟨h.version, h.prevCounter, h.remoteReg, h.localReg,
      by intro c hc; injection hc with hc; rw [← hc]; exact nextCK_lt P _, h.recv, h.pending⟩
  unfold encryptState at he
  split at he
  · simp at he
  · rename_i sd hsd
    split at he
    · simp at he
    split at he
    · simp at he
    simp only [Res.bind_eq_ok] at he
    obtain ⟨ct, _, he⟩ := he
    split at he
    · simp at he
    split at he
    · simp at he; rw [← he.1]; exact key sd hsd
    · simp only [Res.bind_eq_ok] at he
      obtain ⟨bk, _, he⟩ := he
      simp at he; rw [← he.1]; exact key sd hsd

/-- The numbers of a bundle are `uint32`/`int32` values. -/
def BundleOk (b : Bundle) : Prop := b.regId < u32 ∧ b.preKeyId < u32 ∧ b.signedPreKeyId < u32

theorem stateOk_inv (P : Prims) :
    StateInv P StateOk BundleOk (fun m => m.regId < u32) (fun n => n < u32) where
  empty := ⟨by decide, by decide, by decide, by decide, by simp, by simp, by simp⟩
  dec := decryptState_ok P
  enc := encryptState_ok P
  snd := by
    intro ident base rat b spk reg hb hr
    refine ⟨by show (3 : Nat) < u32; decide, by show (0 : Nat) < u32; decide, hb.1, hr, ?_, ?_, ?_⟩
    · intro c hc; injection hc with hc; rw [← hc]; show (0 : Nat) < u32; decide
    · exact chainOk_addRecv (s := { version := 3, localId := ident.pub, remoteId := b.identityKey })
        (by simp) (by show (0 : Nat) < u32; decide)
    · intro p hp; injection hp with hp; rw [← hp]; exact ⟨hb.2.1, hb.2.2⟩
  rcv := by
    intro ident spk opk m reg hm hr
    refine ⟨by show (3 : Nat) < u32; decide, by show (0 : Nat) < u32; decide, hm, hr, ?_, ?_, ?_⟩
    · intro c hc; injection hc with hc; rw [← hc]; show (0 : Nat) < u32; decide
    · simp [initReceiver]
    · simp [initReceiver]

/-! ## C26 -/

/-- What a session file's bytes mean: `readFile` then `LoadSessionRecord` (store.go:418-430). -/
def readSession (P : Prims) (keys : StoreKeys) : Option Bytes → SessFile
  | none => .absent
  | some f =>
    match storeDecrypt P keys f with
    | .ok b => match loadRecord b with
      | .ok r => .good r
      | _ => .badProto
    | _ => .unreadable

/-- Decoding an encoded record gives back every field of every state. -/
theorem C26_record_round_trip (r : SRecord) (h : RecordOk r) (hl : (serialize r).length < 2 ^ 64) :
    loadRecord (serialize r) = .ok { r with fresh := false } := load_serialize r h hl

/-- Distinct records have distinct encodings. -/
theorem C26_injective (r r' : SRecord) (h : RecordOk r) (h' : RecordOk r')
    (hl : (serialize r).length < 2 ^ 64) (he : serialize r = serialize r') :
    r.cur = r'.cur ∧ r.prev = r'.prev := by
  have h1 := load_serialize r h hl
  rw [he, load_serialize r' h' (by rw [← he]; exact hl)] at h1
  injection h1 with h1
  injection h1 with h1 h2
  exact ⟨h1.symm, h2.symm⟩

/-- After any history of calls (with failing writes and crashes) that started with records of 32-bit
numbers, every session of the store is one that, written to its file (encrypted or not) and read back
after a restart, is the same session. The arguments of the calls are 32-bit as their Go types demand. -/
theorem C26_restart (P : Prims) (st : Store) (es : List Event)
    (h0 : ∀ n r, st.sessions n = .good r → RecordOk r) (hreg : ∀ n, st.regId = some n → n < u32)
    (hes : ∀ e ∈ es, (∀ rb rr b, e.call = .build rb rr b → BundleOk b) ∧
      (∀ rnd m, e.call = .decryptP rnd m → m.regId < u32))
    (keys : StoreKeys) (hk : keys.unencrypted = true ∨ keys.aesKey.length = 16)
    (iv : Bytes) (hiv : iv.length = 16) :
    ∀ n r, (run P st es).sessions n = .good r → (serialize r).length < 2 ^ 64 →
      ∃ f, storeEncrypt P keys iv (serialize r) = .ok f ∧
        readSession P keys (some f) = .good { r with fresh := false } := by
  intro n r hr hl
  have hall := run_all (stateOk_inv P) es st (fun n r h => ⟨(h0 n r h).cur, (h0 n r h).prev⟩) hes hreg n r hr
  obtain ⟨f, h1, h2⟩ := C30_store_round_trip P keys iv (serialize r) hk hiv
  refine ⟨f, h1, ?_⟩
  simp only [readSession, h2, load_serialize r ⟨hall.1, hall.2⟩ hl]

/-- The registration id of a parsed prekey message is a 32-bit number, so the hypothesis of `C26_restart`
on received messages is always met. -/
theorem C26_parsed_regId (b : Bytes) (m : PreKeyMsg) (h : loadPreKeyMsg b = .ok m) : m.regId < u32 := by
  have hu : ∀ (fs : List Wire.Field) (n : Nat), (Wire.getU32 fs n).getD 0 < u32 := by
    intro fs n
    induction fs using List.reverseRecOn with
    | nil => show (0 : Nat) < u32; decide
    | append_singleton fs f ih =>
      obtain ⟨k, v⟩ := f
      rw [getU32_snoc]
      cases v <;> simp only <;> try exact ih
      split
      · exact Nat.mod_lt _ (by decide)
      · exact ih
  unfold loadPreKeyMsg at h
  split at h
  · simp at h
  split at h
  · simp at h
  split at h
  · simp at h
  split at h
  · split at h
    · simp at h
    · simp only [Res.bind_eq_ok] at h
      obtain ⟨_, _, _, _, _, _, h⟩ := h
      injection h with h
      rw [← h]
      exact hu _ _
  · simp at h

section Examples
open Demo

/-- Alice's session after three messages, and Bob's after the first. -/
def aliceRecord : SRecord :=
  match a3.1.sessions (sessName "bob" 1) with
  | .good r => r
  | _ => {}
def bobRecord : SRecord :=
  match b1.1.sessions (sessName "alice" 1) with
  | .good r => r
  | _ => {}

example : aliceRecord.cur.pending ≠ none ∧ aliceRecord.cur.recv.length = 1 ∧
    (aliceRecord.cur.sender.map (·.ck.idx)) = some 3 := by decide +kernel
example : loadRecord (serialize aliceRecord) = .ok { aliceRecord with fresh := false } := by decide +kernel
example : loadRecord (serialize bobRecord) = .ok { bobRecord with fresh := false } := by decide +kernel
/-- A zero counter, a negative signed prekey id and a skipped key survive. -/
def odd : SRecord :=
  { cur := { version := 3, recv := [⟨[1], ⟨[], 0⟩, [⟨[2], [], [3], 0⟩]⟩], pending := some ⟨0, 0xFFFFFFFF, []⟩ }
    prev := [{}, { prevCounter := 300 }], fresh := true }
example : RecordOk odd :=
  ⟨⟨by decide, by decide, by decide, by decide, by decide, by decide, by decide⟩, by
    intro s hs
    have hs' : s = {} ∨ s = { prevCounter := 300 } := by simpa [odd] using hs
    rcases hs' with rfl | rfl <;>
      exact ⟨by decide, by decide, by decide, by decide, by decide, by decide, by decide⟩⟩
example : loadRecord (serialize odd) = .ok { odd with fresh := false } := by decide +kernel

end Examples
end Verif.Props
