import Verif.Proof.Messages
/-!
# Properties C23–C25: wire format of encrypted messages
-/
namespace Verif.Props
open Verif Verif.Messages Verif.Keys

/-! ## C23 Message wire round trip -/

/-- Parsing the bytes of a message gives the same version, ratchet key, counters and ciphertext, and
the parsed message's MAC verifies under the key and identities it was made with. -/
theorem C23_whisper_round_trip (P : Prims) (macKey rk : Bytes) (counter prev : Nat)
    (ct sid rid : Bytes) (hrk : rk.length = 32) (hc : counter < 2 ^ 32) (hp : prev < 2 ^ 32)
    (hct : ct.length < 2 ^ 64) :
    ∃ m, loadWhisper (newWhisper P 3 macKey rk counter prev ct sid rid).serialized = .ok m ∧
      m.version = 3 ∧ m.ratchetKey = rk ∧ m.counter = counter ∧ m.prevCounter = prev ∧
      m.ciphertext = ct ∧ verifyMac P m sid rid macKey = true :=
  ⟨_, loadWhisper_newWhisper P macKey rk counter prev ct sid rid hrk hc hp hct, rfl, rfl, rfl, rfl,
    rfl, verifyMac_newWhisper P 3 macKey rk counter prev ct sid rid⟩

/-- The bytes on the wire: version byte 0x33, a body independent of the MAC key and identities, and
the first eight bytes of HMAC(macKey, 5‖sender ‖ 5‖receiver ‖ 0x33 ‖ body). -/
theorem C23_whisper_layout (P : Prims) (macKey rk : Bytes) (counter prev : Nat) (ct sid rid : Bytes) :
    ∃ body, (∀ macKey' sid' rid', ∃ mac',
        (newWhisper P 3 macKey' rk counter prev ct sid' rid').serialized = 0x33 :: body ++ mac') ∧
      (newWhisper P 3 macKey rk counter prev ct sid rid).serialized = 0x33 :: body ++
        (P.hmac macKey (5 :: sid ++ 5 :: rid ++ 0x33 :: body)).take 8 := by
  refine ⟨whisperBody rk counter prev ct, fun mk s r => ⟨_, rfl⟩, ?_⟩
  simp [newWhisper, getMac, Cbc.truncMAC, macLength, ser, versionByte]

/-- Different contents give different bytes: the encoding is injective. -/
theorem C23_whisper_injective (P : Prims) (k k' rk rk' : Bytes) (c c' p p' : Nat)
    (ct ct' s s' r r' : Bytes)
    (h1 : rk.length = 32) (h2 : c < 2 ^ 32) (h3 : p < 2 ^ 32) (h4 : ct.length < 2 ^ 64)
    (h1' : rk'.length = 32) (h2' : c' < 2 ^ 32) (h3' : p' < 2 ^ 32) (h4' : ct'.length < 2 ^ 64)
    (h : (newWhisper P 3 k rk c p ct s r).serialized =
      (newWhisper P 3 k' rk' c' p' ct' s' r').serialized) :
    rk = rk' ∧ c = c' ∧ p = p' ∧ ct = ct' := by
  have a := loadWhisper_newWhisper P k rk c p ct s r h1 h2 h3 h4
  have b := loadWhisper_newWhisper P k' rk' c' p' ct' s' r' h1' h2' h3' h4'
  rw [h, b] at a
  injection a with a
  simp only [newWhisper, WhisperMsg.mk.injEq] at a
  obtain ⟨_, h1, h2, h3, h4, _⟩ := a
  exact ⟨h1.symm, h2.symm, h3.symm, h4.symm⟩

example : ∃ m, loadWhisper (newWhisper Prims.toy 3 [1] (List.replicate 32 9) 300 4294967295 [1, 2]
    (List.replicate 32 1) (List.replicate 32 2)).serialized = .ok m ∧ m.counter = 300 :=
  ⟨_, loadWhisper_newWhisper _ _ _ _ _ _ _ _ (by simp) (by decide) (by decide) (by decide), rfl⟩

/-! ## C24 Prekey message wire round trip -/

theorem C24_prekey_round_trip (P : Prims) (macKey rk : Bytes) (counter prev : Nat)
    (ct sid rid : Bytes) (reg pk spk : Nat) (bk ik : Bytes)
    (hrk : rk.length = 32) (hc : counter < 2 ^ 32) (hp : prev < 2 ^ 32) (hct : ct.length < 2 ^ 60)
    (hreg : reg < 2 ^ 32) (hpk : pk < 2 ^ 32) (hspk : spk < 2 ^ 32) (hspk0 : spk ≠ 0)
    (hbk : bk.length = 32) (hik : ik.length = 32) :
    let inner := newWhisper P 3 macKey rk counter prev ct sid rid
    ∃ m, loadPreKeyMsg (newPreKeyMsg 3 reg pk spk bk ik inner) = .ok m ∧
      m.version = 3 ∧ m.regId = reg ∧ m.preKeyId = pk ∧ m.signedPreKeyId = spk ∧ m.baseKey = bk ∧
      m.identityKey = ik ∧ m.message.serialized = inner.serialized ∧ m.message.ratchetKey = rk ∧
      m.message.counter = counter ∧ m.message.prevCounter = prev ∧ m.message.ciphertext = ct := by
  intro inner
  have hw := loadWhisper_newWhisper P macKey rk counter prev ct sid rid hrk hc hp (by omega)
  have hvl : ∀ n, n < 2 ^ 64 → (Wire.encVarint n).length ≤ 10 := by
    intro n hn
    have key : ∀ k n, n < 128 ^ (k + 1) → (Wire.encVarint n).length ≤ k + 1 := by
      intro k
      induction k with
      | zero => intro n hn; unfold Wire.encVarint; simp at hn; simp [hn]
      | succ k ih =>
        intro n hn
        unfold Wire.encVarint
        split
        · simp
        · have := ih (n / 128) (by
            rw [Nat.pow_succ] at hn
            exact Nat.div_lt_of_lt_mul (by rw [Nat.mul_comm]; exact hn))
          simp; omega
    exact key 9 n (by
      have : (2:Nat) ^ 64 < 128 ^ (9 + 1) := by decide
      omega)
  have hlen : inner.serialized.length < 2 ^ 64 := by
    have hm := getMac_len P 3 sid rid macKey (versionByte 3 :: whisperBody rk counter prev ct)
    have a1 := hvl (1 * 8 + 2) (by decide)
    have a2 := hvl (2 * 8 + 0) (by decide)
    have a3 := hvl (3 * 8 + 0) (by decide)
    have a4 := hvl (4 * 8 + 2) (by decide)
    have a5 := hvl counter (by omega)
    have a6 := hvl prev (by omega)
    have a7 := hvl ct.length (by omega)
    have a8 := hvl (ser rk).length (by simp [ser, hrk])
    have hb : (whisperBody rk counter prev ct).length ≤ 80 + 33 + ct.length := by
      simp only [whisperBody, Wire.encFields, List.map, Wire.encField, Wire.encTag, List.flatten_cons,
        List.flatten_nil, List.append_nil, List.length_append]
      simp only [ser, List.length_cons, hrk] at a8 ⊢
      omega
    have hs : inner.serialized = (versionByte 3 :: whisperBody rk counter prev ct) ++
      getMac P 3 sid rid macKey (versionByte 3 :: whisperBody rk counter prev ct) := rfl
    rw [hs, List.length_append, hm, List.length_cons]
    omega
  refine ⟨_, loadPreKeyMsg_new inner reg pk spk bk ik hw hreg hpk hspk hspk0 hbk hik hlen, ?_⟩
  exact ⟨rfl, rfl, rfl, rfl, rfl, rfl, rfl, rfl, rfl, rfl, rfl⟩

example : ∃ m, loadPreKeyMsg (newPreKeyMsg 3 7 16777215 1 (List.replicate 32 3) (List.replicate 32 4)
    (newWhisper Prims.toy 3 [1] (List.replicate 32 9) 0 0 [1, 2] (List.replicate 32 1)
      (List.replicate 32 2))) = .ok m ∧ m.preKeyId = 16777215 := by
  obtain ⟨m, h, h1, h2, h3, _⟩ := C24_prekey_round_trip Prims.toy [1] (List.replicate 32 9) 0 0 [1, 2]
    (List.replicate 32 1) (List.replicate 32 2) 7 16777215 1 (List.replicate 32 3)
    (List.replicate 32 4) (by simp) (by decide) (by decide) (by decide) (by decide) (by decide)
    (by decide) (by decide) (by simp) (by simp)
  exact ⟨m, h, h3⟩

/-! ## C25 Hostile bytes never crash the message parsers

False of the code as written. -/

/-- A well-formed protobuf whose ratchet key has the wrong length crashes `LoadWhisperMessage`. -/
def hostileWhisper : Bytes :=
  [0x33, 0x0A, 2, 5, 7, 0x22, 1, 0] ++ List.replicate 8 0

/-- The negation of C25: an empty prekey message and a message with a short ratchet key crash. -/
theorem C25_parsers_can_panic :
    loadPreKeyMsg [] = .panic ∧ loadWhisper hostileWhisper = .panic := by
  refine ⟨rfl, by decide +kernel⟩

/-- Every key field (number in `nums`) of a parsed body is 33 bytes long. -/
def keyFieldsOk (nums : List Nat) (body : Bytes) : Prop :=
  ∀ fs, Wire.decFields body = some fs → ∀ n ∈ nums, ∀ b, Wire.getBytes fs n = some b → b.length = 33

theorem deser_panic_iff (b : Bytes) : deser b = .panic ↔ b.length ≠ 33 := by
  cases b with
  | nil => simp [deser]
  | cons x xs => simp [deser]

/-- Missing from C25: bodies whose key fields do not have 33 bytes, and the empty prekey message, which
do crash. Every other byte string is parsed or refused with an error; in particular every string that is
not a well-formed body. -/
theorem C25_whisper_parser_total_partial (s : Bytes)
    (h : keyFieldsOk [1] ((s.drop 1).take (s.length - 9))) : loadWhisper s ≠ .panic := by
  intro hp
  unfold loadWhisper at hp
  split at hp
  · simp at hp
  rename_i v rest
  split at hp
  · simp at hp
  split at hp
  · simp at hp
  have e : (rest.take (rest.length - macLength)) =
      (((v :: rest).drop 1).take ((v :: rest).length - 9)) := by
    simp [macLength]
  rw [e] at hp
  split at hp
  · simp at hp
  rename_i fs hfs
  split at hp
  · rename_i ct rk hct hrk
    have := h fs hfs 1 (by simp) rk hrk
    cases hd : deser rk with
    | ok k => simp [hd] at hp
    | err e => simp [hd] at hp
    | panic => exact (deser_panic_iff rk).mp hd this
  · simp at hp

theorem C25_prekey_parser_total_partial (s : Bytes) (hne : s ≠ [])
    (h : keyFieldsOk [2, 3] (s.drop 1))
    (hm : ∀ fs m, Wire.decFields (s.drop 1) = some fs → Wire.getBytes fs 4 = some m →
      keyFieldsOk [1] ((m.drop 1).take (m.length - 9))) : loadPreKeyMsg s ≠ .panic := by
  intro hp
  unfold loadPreKeyMsg at hp
  split at hp
  · exact hne rfl
  rename_i v rest
  split at hp
  · simp at hp
  split at hp
  · simp at hp
  rename_i fs hfs
  split at hp
  · rename_i bk ik m hbk hik hmm
    split at hp
    · simp at hp
    have hw := C25_whisper_parser_total_partial m (hm fs m hfs hmm)
    have h2 := h fs hfs 2 (by simp) bk hbk
    have h3 := h fs hfs 3 (by simp) ik hik
    cases hl : loadWhisper m with
    | panic => exact hw hl
    | err e => simp [hl] at hp
    | ok wm =>
      cases hd : deser bk with
      | panic => exact (deser_panic_iff bk).mp hd h2
      | err e => simp [hl, hd] at hp
      | ok k =>
        cases hd' : deser ik with
        | panic => exact (deser_panic_iff ik).mp hd' h3
        | err e => simp [hl, hd, hd'] at hp
        | ok k => simp [hl, hd, hd'] at hp
  · simp at hp

/-- Garbage that is not a protobuf body meets the hypotheses, and so does a correct message. -/
example : keyFieldsOk [1] (([0x33, 0xff, 0xff] ++ List.replicate 9 (0xff : UInt8)).drop 1) ∧
    keyFieldsOk [1] (whisperBody (List.replicate 32 1) 0 0 [1]) := by
  constructor
  · intro fs h
    have : Wire.decFields (([0x33, 0xff, 0xff] ++ List.replicate 9 (0xff : UInt8)).drop 1) = none := by
      decide +kernel
    rw [this] at h; cases h
  · intro fs h n hn b hb
    have e : Wire.decFields (whisperBody (List.replicate 32 1) 0 0 [1]) = some _ :=
      Wire.decFields_enc _ (by
        intro f hf
        simp only [List.mem_cons, List.not_mem_nil, or_false] at hf
        rcases hf with rfl | rfl | rfl | rfl <;> simp [Wire.Field.valid, ser])
    rw [e] at h
    injection h with h
    subst h
    simp at hn
    subst hn
    simp [Wire.getBytes] at hb
    rw [← hb]; simp [ser]

end Verif.Props
