import Verif.Proof.Files
import Mathlib.Data.List.Forall2
import Mathlib.Tactic.Tauto
/-!
# Properties C27–C34: symmetric encryption, stored files, attachments, provisioning, transport
-/
namespace Verif.Props
open Verif Verif.Cbc Verif.Files

/-! ## C27 Symmetric encryption round trip -/

/-- For every AES key size, every IV and every plaintext (any length), encryption succeeds and
decrypting IV ‖ ciphertext gives the plaintext: message bodies (axolotl `Encrypt`/`Decrypt`, used as in
`axolotl/session.go:549, 648`) and the root package's `aesEncrypt`/`aesDecrypt`. -/
theorem C27_symmetric_round_trip (P : Prims) (key iv pt : Bytes)
    (hk : key.length = 16 ∨ key.length = 24 ∨ key.length = 32) (hiv : iv.length = 16) :
    (∃ c, Encrypt P key iv pt = .ok c ∧ Decrypt P key (iv ++ c) = .ok pt ∧
      c.length = 16 * (pt.length / 16 + 1)) ∧
    (∃ c, aesEncrypt P key iv pt = .ok c ∧ aesDecrypt P key c = .ok pt) := by
  have hv : validKey key = true := by simpa [validKey, or_assoc] using hk
  constructor
  · refine ⟨_, Encrypt_ok P key iv pt hv hiv, Decrypt_Encrypt P key iv pt _
      (Encrypt_ok P key iv pt hv hiv), ?_⟩
    rw [Encrypt_length P key iv pt _ (Encrypt_ok P key iv pt hv hiv)]
    omega
  · obtain ⟨c, hc⟩ := aesEncrypt_ok P key iv pt hv hiv
    exact ⟨c, hc, aesDecrypt_aesEncrypt P key iv pt c hc⟩

example : (List.replicate 32 (7 : UInt8)).length = 32 ∧
    ∃ c, aesEncrypt Prims.toy (List.replicate 32 7) (List.replicate 16 9) [1, 2, 3] = .ok c ∧
      c.length = 32 := by
  refine ⟨by simp, _, rfl, by decide +kernel⟩

/-! ## C28 Symmetric decryption never crashes

False of the code as written: see `C28_decrypt_can_panic`. What holds is the exact description of
all outcomes. -/

/-- The negation of C28: both an empty input and a lone IV block can crash the program. -/
theorem C28_decrypt_can_panic :
    (∀ (P : Prims) (key : Bytes), key.length = 32 → aesDecrypt P key [] = .panic) ∧
    (∃ (P : Prims) (key ct : Bytes), key.length = 32 ∧ ct.length = 16 ∧
      aesDecrypt P key ct = .panic) := by
  constructor
  · intro P key hk
    simp [aesDecrypt, Decrypt, validKey, hk, blocks_nil, cbcDec, unpad]
  · exact ⟨Prims.toy, List.replicate 32 11, List.replicate 16 5, by simp, by simp,
      by decide +kernel⟩

/-- Missing from C28: the two panicking cases, which are described exactly. For every key and every
byte string, decryption panics iff the key is usable and the input is empty, or is a single block whose
decryption ends in a byte between 1 and 16. Otherwise it returns plaintext or an error; an input whose
length is not a multiple of 16, or (from two blocks on) whose decrypted last byte exceeds 16, is
refused, and every other input of at least two blocks is decrypted. -/
theorem C28_decrypt_outcomes_partial (P : Prims) (key ct : Bytes)
    (hk : key.length = 16 ∨ key.length = 24 ∨ key.length = 32) :
    (aesDecrypt P key ct = .panic ↔ ct = [] ∨
      (ct.length = 16 ∧ ∃ p, (List.zipWith (· ^^^ ·) (P.aesDec key ct) ct).getLast? = some p ∧
        1 ≤ p.toNat ∧ p.toNat ≤ 16)) ∧
    (ct.length % 16 ≠ 0 → ∃ e, aesDecrypt P key ct = .err e) ∧
    (∀ pre prev last : Bytes, ct = pre ++ prev ++ last → pre.length % 16 = 0 → prev.length = 16 →
      last.length = 16 → ∃ p, (List.zipWith (· ^^^ ·) (P.aesDec key last) prev).getLast? = some p ∧
        (p.toNat > 16 → aesDecrypt P key ct = .err .badPad) ∧
        (p.toNat ≤ 16 → ∃ pt, aesDecrypt P key ct = .ok pt ∧
          pt.length = ct.length - 16 - p.toNat)) := by
  have hv : validKey key = true := by simpa [validKey, or_assoc] using hk
  refine ⟨?_, ?_, ?_⟩
  · unfold aesDecrypt Decrypt blockSize
    rw [if_neg (by simp [hv])]
    by_cases hm : ct.length % 16 = 0
    · rw [if_neg (not_not_intro hm), unpad_panic_iff]
      have htot := cbcDec_total P key ct hm
      by_cases hnil : ct = []
      · subst hnil; simp [blocks_nil, cbcDec]
      · have hlen : 16 ≤ ct.length := by
          have : ct.length ≠ 0 := by simpa using hnil
          omega
        have hne : (cbcDec P key (ct.take 16) (blocks ct)).flatten ≠ [] := by
          intro h; rw [h] at htot; simp at htot; omega
        simp only [hne, hnil, false_or, htot]
        by_cases h16 : ct.length = 16
        · have hb : blocks ct = [ct] := by
            have := blocks_append ct [] h16
            simpa [blocks_nil] using this
          have ht : ct.take 16 = ct := List.take_of_length_le (by omega)
          rw [hb, ht]
          simp only [cbcDec, List.flatten_cons, List.flatten_nil, List.append_nil, xorB, h16]
          constructor
          · rintro ⟨p, h1, h2, h3⟩; exact ⟨trivial, p, h1, by omega, h2⟩
          · rintro ⟨_, p, h1, h2, h3⟩; exact ⟨p, h1, h3, by omega⟩
        · constructor
          · rintro ⟨p, h1, h2, h3⟩; omega
          · rintro ⟨h, _⟩; exact absurd h h16
    · rw [if_pos hm]
      constructor
      · intro h; simp at h
      · rintro (h | h)
        · subst h; simp at hm
        · omega
  · intro hm
    unfold aesDecrypt Decrypt blockSize
    rw [if_neg (by simp [hv]), if_pos hm]
    exact ⟨_, rfl⟩
  · intro pre prev last hct hpre hprev hlast
    have hm : ct.length % 16 = 0 := by subst hct; simp; omega
    have hxl : (List.zipWith (· ^^^ ·) (P.aesDec key last) prev).length = 16 := by
      simp [P.aesDec_len _ _ hlast, hprev]
    have hsome : ∃ p, (List.zipWith (· ^^^ ·) (P.aesDec key last) prev).getLast? = some p := by
      cases hg : (List.zipWith (· ^^^ ·) (P.aesDec key last) prev).getLast? with
      | none =>
        rw [List.getLast?_eq_none_iff] at hg
        rw [hg] at hxl; simp at hxl
      | some p => exact ⟨p, rfl⟩
    obtain ⟨p, hp⟩ := hsome
    have htot := cbcDec_total P key ct hm
    have hlen : 32 ≤ ct.length := by subst hct; simp; omega
    have hlast : (cbcDec P key (ct.take 16) (blocks ct)).flatten.getLast? = some p := by
      have hb : blocks ct = blocks pre ++ [prev, last] := by
        rw [hct, blocks_snoc _ _ (by simp; omega) hlast, blocks_snoc _ _ hpre hprev]
        simp
      rw [hb, cbcDec_snoc, List.flatten_append, List.getLast?_append]
      simp [xorB, hp]
    refine ⟨p, hp, ?_, ?_⟩
    · intro hbig
      unfold aesDecrypt Decrypt blockSize
      rw [if_neg (by simp [hv]), if_neg (not_not_intro hm)]
      simp [unpad, hlast, blockSize, hbig]
    · intro hsmall
      refine ⟨((cbcDec P key (ct.take 16) (blocks ct)).flatten.take (ct.length - p.toNat)).drop 16,
        ?_, ?_⟩
      · unfold aesDecrypt Decrypt blockSize
        rw [if_neg (by simp [hv]), if_neg (not_not_intro hm)]
        unfold unpad
        rw [hlast]
        simp only [blockSize, htot]
        rw [if_neg (by omega), if_neg (by omega)]
      · simp only [List.length_drop, List.length_take, htot]; omega

/-- The two-block case is inhabited. -/
example : ∃ pre prev last : Bytes, List.replicate 48 (3 : UInt8) = pre ++ prev ++ last ∧
    pre.length % 16 = 0 ∧ prev.length = 16 ∧ last.length = 16 :=
  ⟨List.replicate 16 3, List.replicate 16 3, List.replicate 16 3, by decide, by simp⟩

/-! ## C29 Traffic padding -/

/-- Spec of the padded length, from the message length only: the next multiple of 160 above it. -/
def paddedLen (n : Nat) : Nat := 160 * (n / 160 + 1)

theorem C29_padding_round_trip (m : Bytes) : stripPadding (padMessage m) = m :=
  stripPadding_padMessage m

/-- The padded message starts with the message and its length is a positive multiple of 160, larger
than the message by at most 160, equal for two messages exactly when they fall in the same 160-byte
bucket. -/
theorem C29_padding_hides_length (m m' : Bytes) :
    (padMessage m).take m.length = m ∧
    (padMessage m).length = paddedLen m.length ∧
    m.length < (padMessage m).length ∧ (padMessage m).length ≤ m.length + 160 ∧
    (padMessage m).length % 160 = 0 ∧
    ((padMessage m).length = (padMessage m').length ↔ m.length / 160 = m'.length / 160) := by
  have h := padMessage_length m
  have h' := padMessage_length m'
  refine ⟨?_, h, by omega, by omega, by omega, ?_⟩
  · simp [padMessage]
  · rw [h, h']; omega

example : stripPadding (padMessage [1, 0x80, 0, 0x80]) = [1, 0x80, 0, 0x80] ∧
    stripPadding (padMessage []) = [] := by decide +kernel

/-! ## C30 Encrypted store round trip and tamper detection -/

/-- A file written by the store (with or without a password) reads back as the same bytes. -/
theorem C30_store_round_trip (P : Prims) (s : StoreKeys) (iv pt : Bytes)
    (hk : s.unencrypted = true ∨ s.aesKey.length = 16) (hiv : iv.length = 16) :
    ∃ f, storeEncrypt P s iv pt = .ok f ∧ storeDecrypt P s f = .ok pt := by
  by_cases hu : s.unencrypted = true
  · exact ⟨pt, by simp [storeEncrypt, hu], by simp [storeDecrypt, hu]⟩
  · have hk' : s.aesKey.length = 16 := by tauto
    obtain ⟨e, he⟩ := aesEncrypt_ok P s.aesKey iv pt (by simp [validKey, hk']) hiv
    refine ⟨appendMAC P s.macKey e, by simp [storeEncrypt, hu, he], ?_⟩
    obtain ⟨h1, h2, h3⟩ := mac_split P s.macKey e
    unfold storeDecrypt
    rw [if_neg hu, if_neg (by omega)]
    simp only
    rw [h2, h3, if_neg (by simp [verifyMAC])]
    exact aesDecrypt_aesEncrypt P _ _ _ _ he

/-- Keys derived from a password by `genKeys` (36 derived bytes) meet the hypothesis above. -/
theorem C30_store_round_trip_password (P : Prims) (derived iv pt : Bytes)
    (hd : derived.length = 36) (hiv : iv.length = 16) :
    ∃ f, storeEncrypt P (genKeys derived) iv pt = .ok f ∧
      storeDecrypt P (genKeys derived) f = .ok pt :=
  C30_store_round_trip P _ iv pt (Or.inr (by simp [genKeys, hd])) hiv

/-- Whatever the file holds: a successful read of an encrypted store means the file is
`body ‖ HMAC(macKey, body)` and the result is the decryption of `body`. -/
theorem C30_read_implies_mac (P : Prims) (s : StoreKeys) (f pt : Bytes)
    (hu : s.unencrypted = false) (h : storeDecrypt P s f = .ok pt) :
    ∃ body, f = body ++ P.hmac s.macKey body ∧ aesDecrypt P s.aesKey body = .ok pt := by
  unfold storeDecrypt at h
  rw [if_neg (by simp [hu])] at h
  split at h
  · simp at h
  · simp only at h
    split at h
    · simp at h
    · rename_i hm
      refine ⟨f.take (f.length - 32), ?_, h⟩
      simp [verifyMAC] at hm
      rw [hm, List.take_append_drop]

/-- A file of at least 32 bytes whose last 32 bytes are not the MAC of the rest is refused. -/
theorem C30_bad_mac_refused (P : Prims) (s : StoreKeys) (body mac : Bytes)
    (hu : s.unencrypted = false) (hlen : mac.length = 32) (hbad : mac ≠ P.hmac s.macKey body) :
    storeDecrypt P s (body ++ mac) = .err .storeBadMac := by
  unfold storeDecrypt
  rw [if_neg (by simp [hu]), if_neg (by simp; omega)]
  have e : (body ++ mac).length - 32 = body.length := by simp [hlen]
  simp only [e, List.take_left', List.drop_left']
  rw [if_pos]
  simp [verifyMAC]
  exact fun h => hbad h.symm

example : storeDecrypt Prims.toy (genKeys (List.replicate 36 1)) ([1,2,3] ++ List.replicate 32 0)
    = .err .storeBadMac := by decide +kernel

/-! ## C31 Reading a truncated store file

False of the code as written: a file cut to fewer than 32 bytes crashes the program. -/

theorem C31_truncated_file_panics (P : Prims) (s : StoreKeys) (f : Bytes) (n : Nat)
    (hu : s.unencrypted = false) (hn : n < 32) :
    storeDecrypt P s (f.take n) = .panic := by
  unfold storeDecrypt
  rw [if_neg (by simp [hu]), if_pos (by simp; omega)]

/-- Missing from C31: truncations to fewer than 32 bytes (which panic, above), and truncations whose
last 32 bytes happen to be the HMAC of what precedes them (possible only for a MAC collision). Every
other truncation of a file is refused with an error. -/
theorem C31_truncated_file_refused_partial (P : Prims) (s : StoreKeys) (f : Bytes) (n : Nat)
    (hu : s.unencrypted = false) (hn : 32 ≤ n) (hnf : n ≤ f.length)
    (hmac : (f.take n).drop (n - 32) ≠ P.hmac s.macKey (f.take (n - 32))) :
    storeDecrypt P s (f.take n) = .err .storeBadMac := by
  have : f.take n = f.take (n - 32) ++ (f.take n).drop (n - 32) := by
    conv => lhs; rw [← List.take_append_drop (n - 32) (f.take n)]
    rw [List.take_take]; congr 2; omega
  rw [this]
  exact C30_bad_mac_refused P s _ _ hu (by simp; omega) hmac

example : ∃ f, storeEncrypt Prims.toy (genKeys (List.replicate 36 1)) (List.replicate 16 2)
      [1, 2, 3] = .ok f ∧ f.length = 64 ∧
    (f.take 48).drop 16 ≠ Prims.toy.hmac (List.replicate 20 1) (f.take 16) :=
  ⟨_, rfl, by decide +kernel⟩

/-! ## C32 Attachment round trip and integrity -/

/-- Uploading succeeds, puts the SHA-256 of the uploaded blob and the plaintext size in the pointer,
and downloading the blob with the pointer's key returns the original bytes. -/
theorem C32_attachment_round_trip (P : Prims) (keys iv b : Bytes) (hk : keys.length = 64)
    (hiv : iv.length = 16) :
    ∃ u, uploadAttachment P keys iv b = .ok u ∧ u.digest = P.sha256 u.blob ∧
      u.size = b.length % 2 ^ 32 ∧ handleSingleAttachment P u.keys u.blob = .ok b := by
  obtain ⟨e, he⟩ := aesEncrypt_ok P (keys.take 32) iv b (by simp [validKey, hk]) hiv
  refine ⟨_, by simp [uploadAttachment, he]; rfl, rfl, by simp [u32], ?_⟩
  obtain ⟨h1, h2, h3⟩ := mac_split P (keys.drop 32) e
  unfold handleSingleAttachment
  simp only
  rw [if_neg (by omega), if_neg (by omega), h2, h3, if_neg (by simp [verifyMAC])]
  exact aesDecrypt_aesEncrypt P _ _ _ _ he

/-- Any blob that is accepted under a key is `body ‖ HMAC(key[32:], body)`, and the attachment is the
decryption of `body` under `key[:32]`. -/
theorem C32_attachment_accepted_implies_mac (P : Prims) (key blob pt : Bytes)
    (h : handleSingleAttachment P key blob = .ok pt) :
    ∃ body, blob = body ++ P.hmac (key.drop 32) body ∧
      aesDecrypt P (key.take 32) body = .ok pt := by
  unfold handleSingleAttachment at h
  split at h
  · simp at h
  split at h
  · simp at h
  simp only at h
  split at h
  · simp at h
  rename_i hm
  refine ⟨blob.take (blob.length - 32), ?_, h⟩
  simp [verifyMAC] at hm
  rw [hm, List.take_append_drop]

/-- An altered blob (32-byte trailer not the MAC of the rest) is refused. -/
theorem C32_altered_attachment_refused (P : Prims) (key body mac : Bytes) (hk : 32 ≤ key.length)
    (hlen : mac.length = 32) (hbad : mac ≠ P.hmac (key.drop 32) body) :
    handleSingleAttachment P key (body ++ mac) = .err .badMac := by
  unfold handleSingleAttachment
  rw [if_neg (by simp; omega), if_neg (by omega)]
  have e : (body ++ mac).length - 32 = body.length := by simp [hlen]
  simp only [e, List.take_left', List.drop_left']
  rw [if_pos]
  simp [verifyMAC]
  exact fun h => hbad h.symm

/-- All attachments of a message are delivered, in order, or none. -/
theorem C32_attachments_all_or_nothing (P : Prims) {α : Type} (fetch : α → Res Bytes)
    (keyOf : α → Bytes) (as : List α) (ps : List Bytes)
    (h : handleAttachments P fetch keyOf as = .ok ps) :
    List.Forall₂ (fun a p => ∃ b, fetch a = .ok b ∧ handleSingleAttachment P (keyOf a) b = .ok p)
      as ps := by
  induction as generalizing ps with
  | nil => simp [handleAttachments] at h; subst h; exact .nil
  | cons a as ih =>
    simp only [handleAttachments, Res.bind_eq_ok] at h
    obtain ⟨b, hb, p, hp, ps', hps, h⟩ := h
    injection h with h
    subst h
    exact .cons ⟨b, hb, hp⟩ (ih _ hps)

example : ∃ u, uploadAttachment Prims.toy (List.replicate 64 1) (List.replicate 16 2) [5, 6] = .ok u ∧
    handleSingleAttachment Prims.toy u.keys (u.blob.modify 3 (· + 1)) = .err .badMac :=
  ⟨_, rfl, by decide +kernel⟩

/-- Related defect (attachments.go:145): a downloaded profile avatar is never accepted, because its
16-byte trailer is compared with a 32-byte HMAC. -/
theorem C32_profile_avatar_never_accepted (P : Prims) (key b : Bytes) :
    ∀ pt, handleProfileAvatar P key b ≠ .ok pt := by
  intro pt h
  unfold handleProfileAvatar at h
  split at h
  · simp at h
  split at h
  · simp at h
  simp only at h
  split at h
  · simp at h
  rename_i hm
  simp [verifyMAC] at hm
  have := congrArg List.length hm
  rw [P.hmac_len] at this
  simp at this
  omega

/-! ## C33 Provisioning -/

/-- Spec (the new device, not part of this code base): open a provisioning envelope with the device's
private key: X25519, HKDF, version byte 1, 32-byte HMAC over version ‖ ciphertext, AES-CBC. -/
def openProvisioning (P : Prims) (priv envelope : Bytes) : Option Bytes := do
  let fs ← Wire.decFields envelope
  let pub ← Wire.getBytes fs 1
  let body ← Wire.getBytes fs 2
  let derived := P.hkdf (P.dh priv (pub.drop 1)) [] (Keys.ascii "TextSecure Provisioning Message") 64
  if body.length < 33 then none
  else
    let data := body.take (body.length - 32)
    if body.drop (body.length - 32) ≠ P.hmac (derived.drop 32) data then none
    else if data.take 1 ≠ [1] then none
    else match aesDecrypt P (derived.take 32) (data.drop 1) with
      | .ok m => some m
      | _ => none

/-- For every ephemeral randomness, IV, message (shorter than 2^60 bytes) and device key pair. -/
theorem C33_provisioning_round_trip (P : Prims) (r iv message : Bytes) (dev : Keys.KeyPair)
    (hr : r.length = 32) (hiv : iv.length = 16) (hm : message.length < 2 ^ 60)
    (hdev : dev.Valid P) :
    ∃ env, provisioningCipher P r iv message dev.pub = .ok env ∧
      openProvisioning P dev.priv env = some message := by
  have hour := Keys.newPair_valid P r hr
  obtain ⟨our, hourEq⟩ : ∃ our, our = Keys.newPair P r := ⟨_, rfl⟩
  rw [← hourEq] at hour
  have hdh : P.dh our.priv dev.pub = P.dh dev.priv our.pub := by
    rw [hdev.2, hour.2]; exact P.dh_comm _ _ hour.1 hdev.1
  obtain ⟨derived, hd⟩ : ∃ d, d = P.hkdf (P.dh our.priv dev.pub) []
    (Keys.ascii "TextSecure Provisioning Message") 64 := ⟨_, rfl⟩
  have hdl : derived.length = 64 := by rw [hd]; exact P.hkdf_len _ _ _ _
  obtain ⟨e, he⟩ := aesEncrypt_ok P (derived.take 32) iv message (by simp [validKey, hdl]) hiv
  have hel : e.length < 2 ^ 61 := by
    unfold aesEncrypt at he
    rw [Res.bind_eq_ok] at he
    obtain ⟨c, hc, he⟩ := he
    injection he with he
    have := Encrypt_length _ _ _ _ _ hc
    rw [← he]; simp [hiv, this]; omega
  refine ⟨_, by simp only [provisioningCipher, ← hourEq, ← hd, he, Res.ok_bind]; rfl, ?_⟩
  unfold openProvisioning
  have hml := P.hmac_len (derived.drop 32) (1 :: e)
  rw [Wire.decFields_enc]
  · simp only [Wire.getBytes, List.foldl, Option.bind_eq_bind, Option.bind_some]
    simp only [if_true, if_neg (show ¬ (2:Nat) = 1 by decide), Option.bind_some, Keys.ser,
      List.drop_succ_cons, List.drop_zero]
    rw [← hdh, ← hd]
    obtain ⟨body, hb⟩ : ∃ b, b = 1 :: e ++ P.hmac (derived.drop 32) (1 :: e) := ⟨_, rfl⟩
    rw [← hb]
    have hbl : body.length = (1 :: e).length + 32 := by rw [hb]; simp [hml]
    have e1 : body.length - 32 = (1 :: e).length := by omega
    have e2 : body.take (1 :: e).length = 1 :: e := by rw [hb, List.take_left']; rfl
    have e3 : body.drop (1 :: e).length = P.hmac (derived.drop 32) (1 :: e) := by
      rw [hb, List.drop_left']; rfl
    rw [if_neg (by simp at hbl; omega), e1, e2, e3]
    simp only [ne_eq, not_true_eq_false, if_false, List.take_succ_cons, List.take_zero,
      List.drop_succ_cons, List.drop_zero, aesDecrypt_aesEncrypt P _ _ _ _ he]
  · intro f hf
    simp only [List.mem_cons, List.not_mem_nil, or_false] at hf
    rcases hf with rfl | rfl
    · simp [Wire.Field.valid, Keys.ser, hour.pub_len]
    · simp only [Wire.Field.valid, List.length_append, List.length_cons, hml]; omega

example : (Keys.newPair Prims.toy (List.replicate 32 8)).Valid Prims.toy :=
  Keys.newPair_valid _ _ (by simp)

/-! ## C34 Transport decryption authenticity

False of the code as written: bytes that fail authentication are handed on as they are. -/

/-- The negation of C34: for every signaling key, every received byte string of at least ten bytes
whose MAC does not verify is passed on unchanged. -/
theorem C34_unauthenticated_bytes_processed (P : Prims) (sk body mac : Bytes)
    (hk : 32 ≤ sk.length) (hm : mac.length = 10) (hbad : (P.hmac (sk.drop 32) body).take 10 ≠ mac) :
    decryptReceivedMessage P sk (body ++ mac) = .ok (body ++ mac) := by
  unfold decryptReceivedMessage
  rw [if_neg (by simp; omega), if_neg (by omega)]
  have e : (body ++ mac).length - 10 = body.length := by simp [hm]
  simp only [e, List.take_left', List.drop_left']
  rw [if_pos]
  simp [validTruncMAC, truncMAC, hm]
  exact hbad

/-- Missing from C34: the second disjunct should be an error. What is handed on is either the decryption
of a body whose 10-byte MAC verified, or the received bytes themselves when the MAC did not verify; and
an authentic body is decrypted, never passed on raw. -/
theorem C34_transport_outcomes_partial (P : Prims) (sk msg out : Bytes)
    (h : decryptReceivedMessage P sk msg = .ok out) :
    ∃ body mac, msg = body ++ mac ∧ mac.length = 10 ∧
      (((P.hmac (sk.drop 32) body).take 10 = mac ∧ Decrypt P (sk.take 32) (body.drop 1) = .ok out) ∨
       ((P.hmac (sk.drop 32) body).take 10 ≠ mac ∧ out = msg)) := by
  unfold decryptReceivedMessage at h
  split at h
  · simp at h
  rename_i hl
  split at h
  · simp at h
  simp only at h
  refine ⟨msg.take (msg.length - 10), msg.drop (msg.length - 10), by simp, by simp; omega, ?_⟩
  have hdl : (msg.drop (msg.length - 10)).length = 10 := by simp; omega
  split at h
  · rename_i hm
    right
    simp only [validTruncMAC, truncMAC, hdl] at hm
    refine ⟨by simpa using hm, ?_⟩
    injection h with h; exact h.symm
  · rename_i hm
    split at h
    · simp at h
    left
    simp only [validTruncMAC, truncMAC, hdl] at hm
    exact ⟨by simpa using hm, h⟩

/-- The authenticated path works: what a server sealing with the signaling key sends is opened. -/
theorem C34_transport_round_trip (P : Prims) (sk iv pt e : Bytes) (v : UInt8)
    (hk : 32 ≤ sk.length) (he : aesEncrypt P (sk.take 32) iv pt = .ok e) :
    decryptReceivedMessage P sk ((v :: e) ++ (P.hmac (sk.drop 32) (v :: e)).take 10) = .ok pt := by
  obtain ⟨body, hb⟩ : ∃ b, b = v :: e := ⟨_, rfl⟩
  rw [← hb]
  have hml : ((P.hmac (sk.drop 32) body).take 10).length = 10 := by simp [P.hmac_len]
  unfold decryptReceivedMessage
  rw [if_neg (by simp [P.hmac_len]), if_neg (by omega)]
  have e' : (body ++ (P.hmac (sk.drop 32) body).take 10).length - 10 = body.length := by
    rw [List.length_append, hml]; omega
  simp only [e', List.take_left', List.drop_left']
  rw [if_neg (by simp [validTruncMAC, truncMAC, hml]), if_neg (by simp [hb])]
  rw [hb]
  exact aesDecrypt_aesEncrypt P _ _ _ _ he

example : (Prims.toy.hmac ((List.replicate 52 (1 : UInt8)).drop 32) [1, 2]).take 10 ≠
    List.replicate 10 0 := by decide +kernel

end Verif.Props
