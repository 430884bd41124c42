import Verif.Model.Messages
import Verif.Proof.Wire
/-! Lemmas about message parsing. -/
namespace Verif.Messages
open Verif Verif.Wire Verif.Keys

theorem highBits_versionByte : highBits (versionByte 3) = 3 := by decide

theorem getMac_len (P : Prims) (v : Nat) (a b k d : Bytes) : (getMac P v a b k d).length = 8 := by
  simp [getMac, Cbc.truncMAC, macLength, P.hmac_len]

theorem newWhisper_split (P : Prims) (v : Nat) (mk rk : Bytes) (c p : Nat) (ct a b : Bytes) :
    let m := newWhisper P v mk rk c p ct a b
    m.serialized.length - 8 = (versionByte v :: whisperBody rk c p ct).length ∧
    m.serialized.take (m.serialized.length - 8) = versionByte v :: whisperBody rk c p ct ∧
    m.serialized.drop (m.serialized.length - 8) =
      getMac P v a b mk (versionByte v :: whisperBody rk c p ct) := by
  intro m
  have h : m.serialized = (versionByte v :: whisperBody rk c p ct) ++
    getMac P v a b mk (versionByte v :: whisperBody rk c p ct) := rfl
  have hl := getMac_len P v a b mk (versionByte v :: whisperBody rk c p ct)
  obtain ⟨d, hd⟩ : ∃ d, d = versionByte v :: whisperBody rk c p ct := ⟨_, rfl⟩
  rw [← hd] at h hl ⊢
  have e : m.serialized.length - 8 = d.length := by rw [h, List.length_append, hl]; omega
  refine ⟨e, ?_, ?_⟩
  · rw [e, h, List.take_left']; rfl
  · rw [e, h, List.drop_left']; rfl

theorem verifyMac_newWhisper (P : Prims) (v : Nat) (mk rk : Bytes) (c p : Nat) (ct a b : Bytes) :
    verifyMac P (newWhisper P v mk rk c p ct a b) a b mk = true := by
  obtain ⟨_, h2, h3⟩ := newWhisper_split P v mk rk c p ct a b
  unfold verifyMac macLength
  simp only
  rw [h2, h3]
  simp [newWhisper]

theorem loadWhisper_newWhisper (P : Prims) (mk rk : Bytes) (c p : Nat) (ct a b : Bytes)
    (hrk : rk.length = 32) (hc : c < 2 ^ 32) (hp : p < 2 ^ 32) (hct : ct.length < 2 ^ 64) :
    loadWhisper (newWhisper P 3 mk rk c p ct a b).serialized =
      .ok (newWhisper P 3 mk rk c p ct a b) := by
  have hml := getMac_len P 3 a b mk (versionByte 3 :: whisperBody rk c p ct)
  have hs : (newWhisper P 3 mk rk c p ct a b).serialized = versionByte 3 ::
    (whisperBody rk c p ct ++ getMac P 3 a b mk (versionByte 3 :: whisperBody rk c p ct)) := rfl
  obtain ⟨mac, hmac⟩ : ∃ m, m = getMac P 3 a b mk (versionByte 3 :: whisperBody rk c p ct) := ⟨_, rfl⟩
  rw [← hmac] at hs hml
  have htake : (whisperBody rk c p ct ++ mac).take
      ((whisperBody rk c p ct ++ mac).length - macLength) = whisperBody rk c p ct := by
    rw [List.length_append, hml]; simp [macLength]
  have hdec : decFields (whisperBody rk c p ct) = some [(1, .len (ser rk)), (2, .varint c),
      (3, .varint p), (4, .len ct)] := by
    apply decFields_enc
    intro f hf
    simp only [List.mem_cons, List.not_mem_nil, or_false] at hf
    rcases hf with rfl | rfl | rfl | rfl <;> simp [Field.valid, ser, hrk] <;> omega
  rw [hs]
  unfold loadWhisper
  simp only [highBits_versionByte, htake, hdec]
  rw [if_neg (by simp [hml]), if_neg (by simp)]
  simp only [getBytes, getU32, List.foldl]
  simp only [if_true, if_neg (show ¬ (4:Nat) = 1 by decide), if_neg (show ¬ (1:Nat) = 4 by decide),
    if_neg (show ¬ (2:Nat) = 3 by decide), if_neg (show ¬ (3:Nat) = 2 by decide)]
  rw [deser_ser _ hrk]
  simp only [Res.ok_bind, Option.getD_some, u32, Nat.mod_eq_of_lt hc, Nat.mod_eq_of_lt hp]
  rw [← hs]
  rfl

theorem loadPreKeyMsg_new (wm : WhisperMsg) (reg pk spk : Nat) (bk ik : Bytes)
    (hw : loadWhisper wm.serialized = .ok wm)
    (hreg : reg < 2 ^ 32) (hpk : pk < 2 ^ 32) (hspk : spk < 2 ^ 32) (hspk0 : spk ≠ 0)
    (hbk : bk.length = 32) (hik : ik.length = 32) (hlen : wm.serialized.length < 2 ^ 64) :
    loadPreKeyMsg (newPreKeyMsg 3 reg pk spk bk ik wm) = .ok
      { version := 3, regId := reg, preKeyId := pk, signedPreKeyId := spk, baseKey := bk
        identityKey := ik, message := wm, serialized := newPreKeyMsg 3 reg pk spk bk ik wm } := by
  unfold loadPreKeyMsg
  unfold newPreKeyMsg
  simp only [highBits_versionByte]
  rw [if_neg (by simp), decFields_enc]
  · simp only [getBytes, getU32, List.foldl]
    simp only [if_true, if_neg (show ¬ (2:Nat) = 3 by decide), if_neg (show ¬ (3:Nat) = 2 by decide),
      if_neg (show ¬ (2:Nat) = 4 by decide), if_neg (show ¬ (3:Nat) = 4 by decide),
      if_neg (show ¬ (4:Nat) = 2 by decide), if_neg (show ¬ (4:Nat) = 3 by decide),
      if_neg (show ¬ (1:Nat) = 6 by decide), if_neg (show ¬ (5:Nat) = 6 by decide),
      if_neg (show ¬ (6:Nat) = 1 by decide), if_neg (show ¬ (5:Nat) = 1 by decide),
      if_neg (show ¬ (1:Nat) = 5 by decide), if_neg (show ¬ (6:Nat) = 5 by decide),
      Option.getD_some, u32, Nat.mod_eq_of_lt hreg, Nat.mod_eq_of_lt hpk, Nat.mod_eq_of_lt hspk,
      hspk0, if_false, hw, Res.ok_bind, deser_ser _ hbk, deser_ser _ hik]
  · intro f hf
    simp only [List.mem_cons, List.not_mem_nil, or_false] at hf
    rcases hf with rfl | rfl | rfl | rfl | rfl | rfl <;> simp [Field.valid, ser, hbk, hik] <;> omega

theorem encVarint_length_le (n k : Nat) (hk : 0 < k) (h : n < 2 ^ (7 * k)) :
    (encVarint n).length ≤ k := by
  induction k generalizing n with
  | zero => omega
  | succ k ih =>
    unfold encVarint
    split
    · simp
    · rename_i hn
      have hk' : 0 < k := by
        rcases Nat.eq_zero_or_pos k with rfl | hk
        · simp at h; omega
        · exact hk
      have := ih (n / 128) hk' (by
        rw [show 7 * (k + 1) = 7 * k + 7 by omega, Nat.pow_add] at h
        omega)
      simp; omega

theorem whisperBody_length_le (rk : Bytes) (c p : Nat) (ct : Bytes) (hrk : rk.length = 32)
    (hc : c < 2 ^ 64) (hp : p < 2 ^ 64) (hct : ct.length < 2 ^ 64) :
    (whisperBody rk c p ct).length ≤ ct.length + 200 := by
  have hv : ∀ n, n < 2 ^ 64 → (encVarint n).length ≤ 10 :=
    fun n h => encVarint_length_le n 10 (by omega) (by omega)
  have h1 := hv c hc
  have h2 := hv p hp
  have h3 := hv ct.length hct
  have h4 := hv (32 + 1) (by omega)
  have t1 := hv (1 * 8 + 2) (by omega)
  have t2 := hv (2 * 8 + 0) (by omega)
  have t3 := hv (3 * 8 + 0) (by omega)
  have t4 := hv (4 * 8 + 2) (by omega)
  simp only [whisperBody, encFields, List.map_cons, List.map_nil, List.flatten_cons, List.flatten_nil,
    encField, encTag, List.length_append, ser, List.length_cons, hrk, List.length_nil]
  omega

end Verif.Messages
