import Verif.Proof.Encoding
/-!
# Text forms: C41, C42
-/
namespace Verif.Props.Encoding
open Verif Verif.Encoding

/-! ## C41 -/

/-- **C41**, keys: the text form of a 32-byte key decodes to that key. -/
theorem C41_key_round_trip (k : Bytes) (h : k.length = 32) : decodeKey (encodeKey k) = .ok k := by
  simp [decodeKey, encodeKey, b64_round_trip, h]

/-- **C41**, signatures (prekeys.go:67 encodes, prekeys.go:195 decodes). -/
theorem C41_signature_round_trip (s : Bytes) (h : s.length = 64) :
    decodeSignature (b64EncodeNoPad s) = .ok s := by
  simp [decodeSignature, b64_round_trip, h]

/-- **C41**, refusal: whatever the text, a decoded key has 32 bytes and the text was base64 (padding
optional) for the type byte 5 followed by exactly that key. -/
theorem C41_key_refusal (s k : Bytes) (h : decodeKey s = .ok k) :
    k.length = 32 ∧ b64DecodeNoPad s = .ok (5 :: k) := by
  simp only [decodeKey, Res.bind_eq_ok] at h
  obtain ⟨b, hb, h⟩ := h
  split at h
  · cases h
  · rename_i hc
    injection h with h
    rw [not_or, Decidable.not_not, Decidable.not_not] at hc
    match b, hc with
    | x :: b, ⟨h1, h2⟩ =>
      simp at h1 h2
      simp at h
      subst h h2
      exact ⟨h1, hb⟩

/-- **C41**, wrong length or type byte: text forms of anything but a typed 32-byte key are errors. -/
theorem C41_key_wrong_shape (b : Bytes) (h : b.length ≠ 33 ∨ b[0]? ≠ some 5) :
    decodeKey (b64EncodeNoPad b) = .err .other := by
  rw [decodeKey, b64_round_trip]
  simp only [Res.ok_bind]
  rw [if_pos h]

theorem C41_signature_refusal (s x : Bytes) (h : decodeSignature s = .ok x) :
    x.length = 64 ∧ b64DecodeNoPad s = .ok x := by
  simp only [decodeSignature, Res.bind_eq_ok] at h
  obtain ⟨b, hb, h⟩ := h
  split at h
  · cases h
  · rename_i hc
    injection h with h
    rw [Decidable.not_not] at hc
    subst h
    exact ⟨hc, hb⟩

/-- The characters of standard base64, and the line breaks that are passed over. -/
def textual (c : UInt8) : Prop :=
  (65 ≤ c.toNat ∧ c.toNat ≤ 90) ∨ (97 ≤ c.toNat ∧ c.toNat ≤ 122) ∨ (48 ≤ c.toNat ∧ c.toNat ≤ 57) ∨
    c = 43 ∨ c = 47 ∨ c = 61 ∨ c = 10 ∨ c = 13

theorem dec64_textual (c : UInt8) (x : Nat) (h : dec64 c = some x) : textual c := by
  unfold dec64 at h
  simp only at h
  unfold textual
  by_cases h1 : 65 ≤ c.toNat ∧ c.toNat ≤ 90
  · exact Or.inl h1
  by_cases h2 : 97 ≤ c.toNat ∧ c.toNat ≤ 122
  · exact Or.inr (Or.inl h2)
  by_cases h3 : 48 ≤ c.toNat ∧ c.toNat ≤ 57
  · exact Or.inr (Or.inr (Or.inl h3))
  rw [if_neg h1, if_neg h2, if_neg h3] at h
  by_cases h4 : c.toNat = 43
  · exact Or.inr (Or.inr (Or.inr (Or.inl (UInt8.toNat_inj.1 h4))))
  by_cases h5 : c.toNat = 47
  · exact Or.inr (Or.inr (Or.inr (Or.inr (Or.inl (UInt8.toNat_inj.1 h5)))))
  rw [if_neg h4, if_neg h5] at h
  cases h

theorem quanta_textual : ∀ (s : Bytes) (b : Bytes), b64Quanta s = some b → ∀ c ∈ s, textual c
  | [], _, _ => by simp
  | [_], _, h => by simp [b64Quanta] at h
  | [_, _], _, h => by simp [b64Quanta] at h
  | [_, _, _], _, h => by simp [b64Quanta] at h
  | a :: b :: c :: d :: rest, r, h => by
      have h61 : textual 61 := by simp [textual]
      unfold b64Quanta at h
      split at h
      · rename_i hd
        obtain ⟨hr, hd⟩ := hd
        subst hr hd
        split at h
        · rename_i hc
          subst hc
          split at h
          · rename_i x y hx hy
            intro e he
            simp only [List.mem_cons, List.not_mem_nil, or_false] at he
            rcases he with rfl | rfl | rfl | rfl
            · exact dec64_textual _ _ hx
            · exact dec64_textual _ _ hy
            · exact h61
            · exact h61
          · cases h
        · split at h
          · rename_i x y z hx hy hz
            intro e he
            simp only [List.mem_cons, List.not_mem_nil, or_false] at he
            rcases he with rfl | rfl | rfl | rfl
            · exact dec64_textual _ _ hx
            · exact dec64_textual _ _ hy
            · exact dec64_textual _ _ hz
            · exact h61
          · cases h
      · split at h
        · rename_i x y z w q hx hy hz hw hq
          intro e he
          simp only [List.mem_cons] at he
          rcases he with rfl | rfl | rfl | rfl | he
          · exact dec64_textual _ _ hx
          · exact dec64_textual _ _ hy
          · exact dec64_textual _ _ hz
          · exact dec64_textual _ _ hw
          · exact quanta_textual rest q hq e he
        · cases h

theorem decode_textual (s b : Bytes) (h : b64DecodeNoPad s = .ok b) : ∀ c ∈ s, textual c := by
  intro c hc
  by_cases h10 : c = 10
  · simp [textual, h10]
  by_cases h13 : c = 13
  · simp [textual, h13]
  unfold b64DecodeNoPad at h
  simp only at h
  split at h
  · rename_i x hx
    unfold b64Decode at hx
    refine quanta_textual _ _ hx c (List.mem_filter.2 ⟨?_, by simp [h10, h13]⟩)
    split
    · exact List.mem_append_left _ hc
    · exact hc
  · cases h

/-- **C41**, refusal: a key or a signature is read only from text in the standard alphabet, with line breaks. -/
theorem C41_alphabet (s x : Bytes) (h : decodeKey s = .ok x ∨ decodeSignature s = .ok x) : ∀ c ∈ s, textual c := by
  rcases h with h | h
  · obtain ⟨b, hb, _⟩ := Res.bind_eq_ok.1 h
    exact decode_textual s b hb
  · obtain ⟨b, hb, _⟩ := Res.bind_eq_ok.1 h
    exact decode_textual s b hb

example : ¬ textual 45 ∧ ¬ textual 95 ∧ (∃ s k, decodeKey s = .ok k ∧ (43 : UInt8) ∈ s) :=
  ⟨by simp [textual], by simp [textual], encodeKey (List.replicate 32 0xfb), List.replicate 32 0xfb, by decide +kernel, by decide +kernel⟩

/-- **C41**: decoding never crashes. -/
theorem C41_decoding_never_panics (s : Bytes) : decodeKey s ≠ .panic ∧ decodeSignature s ≠ .panic := by
  have hn : b64DecodeNoPad s ≠ .panic := by
    simp only [b64DecodeNoPad]
    split <;> simp
  constructor
  · unfold decodeKey
    cases h : b64DecodeNoPad s with
    | panic => exact absurd h hn
    | err e => simp
    | ok b => simp only [Res.ok_bind]; split <;> simp
  · unfold decodeSignature
    cases h : b64DecodeNoPad s with
    | panic => exact absurd h hn
    | err e => simp
    | ok b => simp only [Res.ok_bind]; split <;> simp

/-- **C41**: different keys have different text forms. -/
theorem C41_injective (a b : Bytes) (h : encodeKey a = encodeKey b) : a = b := by
  have := congrArg b64DecodeNoPad h
  simp only [encodeKey, b64_round_trip, Res.ok.injEq, List.cons.injEq, true_and] at this
  exact this

/-! Concrete: the text of a real-looking key, its decoding, and refusals. -/
example : b64EncodeNoPad [77, 97, 110] = "TWFu".toUTF8.toList ∧
    b64EncodeNoPad [77, 97] = "TWE".toUTF8.toList ∧
    b64EncodeNoPad [77] = "TQ".toUTF8.toList := by decide +kernel

example : decodeKey (encodeKey (List.replicate 32 200)) = .ok (List.replicate 32 200) :=
  C41_key_round_trip _ (by decide)

example : decodeKey "TWFu".toUTF8.toList = .err .other ∧ decodeKey "T=Fu".toUTF8.toList = .err .badEncoding := by
  decide +kernel

/-! ## C42 -/

/-- Reading the text back: drop the dashes, combine pairs of hex digits. -/
def readHex : Bytes → Bytes
  | a :: b :: r => UInt8.ofNat (unhexDigit a * 16 + unhexDigit b) :: readHex r
  | _ => []

def readUUID (t : Bytes) : Bytes := readHex (t.filter (· != 45))

theorem readHex_hexEncode (b : Bytes) : readHex (hexEncode b) = b := by
  induction b with
  | nil => rfl
  | cons x b ih =>
    have := x.toNat_lt
    simp only [hexEncode, readHex, ih, unhex_hex _ (show x.toNat / 16 < 16 by omega),
      unhex_hex _ (show x.toNat % 16 < 16 by omega)]
    rw [byte_eq (a := x) (by omega)]

theorem filter_plain {l : Bytes} (h : ∀ c ∈ l, c ≠ 45) : l.filter (· != 45) = l := by
  rw [List.filter_eq_self]
  intro c hc
  simpa using h c hc

theorem filter_dashed (m l : Bytes) (hm : ∀ c ∈ m, c ≠ 45) (hl : ∀ c ∈ l, c ≠ 45) :
    (dashed m l).filter (· != 45) = m ++ l := by
  have t : ∀ n, ∀ c ∈ m.take n, c ≠ 45 := fun n c hc => hm c (List.mem_of_mem_take hc)
  have d : ∀ n, ∀ c ∈ m.drop n, c ≠ 45 := fun n c hc => hm c (List.mem_of_mem_drop hc)
  simp only [dashed, List.filter_append, List.filter_cons]
  simp only [bne_self_eq_false, Bool.false_eq_true, if_false]
  rw [filter_plain (t 8), filter_plain (d 12),
    filter_plain (fun c hc => d 8 c (List.mem_of_mem_take hc)),
    filter_plain (fun c hc => hl c (List.mem_of_mem_take hc)),
    filter_plain (fun c hc => hl c (List.mem_of_mem_drop hc)), List.take_append_drop]
  rw [← List.append_assoc, ← List.append_assoc]
  congr 1
  have e1 := List.take_append_drop 8 m
  have e2 := List.take_append_drop 4 (m.drop 8)
  rw [List.drop_drop] at e2
  rw [List.append_assoc, e2, e1]

/-- **C42**: formatting a 16-byte id succeeds, has the layout 8-4-4-4-12, and reading the text back gives
the id. -/
theorem C42_uuid_reversible (id : Bytes) (h : id.length = 16) :
    ∃ t, idToHexUUID id = .ok t ∧ readUUID t = id ∧ t.length = 36 ∧
      t[8]? = some 45 ∧ t[13]? = some 45 ∧ t[18]? = some 45 ∧ t[23]? = some 45 := by
  have hl : (hexEncode (id.drop 8)).length = 16 := by rw [hexEncode_length]; simp [h]
  have hm : (hexEncode (id.take 8)).length = 16 := by rw [hexEncode_length]; simp [h]
  refine ⟨dashed (hexEncode (id.take 8)) (hexEncode (id.drop 8)), ?_, ?_, ?_⟩
  · rw [idToHexUUID, if_neg (by omega), if_neg (by omega)]
  · rw [readUUID, filter_dashed _ _ (hexEncode_no_dash _) (hexEncode_no_dash _), ← hexEncode_append,
      List.take_append_drop, readHex_hexEncode]
  · obtain ⟨m, em⟩ : ∃ m, m = hexEncode (id.take 8) := ⟨_, rfl⟩
    obtain ⟨l, el⟩ : ∃ l, l = hexEncode (id.drop 8) := ⟨_, rfl⟩
    rw [← em] at hm ⊢
    rw [← el] at hl ⊢
    have h8 : (m.take 8).length = 8 := by simp [hm]
    have h4 : ((m.drop 8).take 4).length = 4 := by simp [hm]
    have h12 : (m.drop 12).length = 4 := by simp [hm]
    have hl4 : (l.take 4).length = 4 := by simp [hl]
    refine ⟨by simp [dashed, hm, hl], ?_, ?_, ?_, ?_⟩
    · rw [dashed, List.getElem?_append_right (by omega), h8]; rfl
    · rw [dashed, List.getElem?_append_right (by omega), h8]
      change ((m.drop 8).take 4 ++ _)[4]? = _
      rw [List.getElem?_append_right (by omega), h4]; rfl
    · rw [dashed, List.getElem?_append_right (by omega), h8]
      change ((m.drop 8).take 4 ++ _)[9]? = _
      rw [List.getElem?_append_right (by omega), h4]
      change (m.drop 12 ++ _)[4]? = _
      rw [List.getElem?_append_right (by omega), h12]; rfl
    · rw [dashed, List.getElem?_append_right (by omega), h8]
      change ((m.drop 8).take 4 ++ _)[14]? = _
      rw [List.getElem?_append_right (by omega), h4]
      change (m.drop 12 ++ _)[9]? = _
      rw [List.getElem?_append_right (by omega), h12]
      change (l.take 4 ++ _)[4]? = _
      rw [List.getElem?_append_right (by omega), hl4]; rfl

/-- **C42**: different ids have different UUID texts. -/
theorem C42_uuid_injective (a b t : Bytes) (ha : a.length = 16) (hb : b.length = 16)
    (h : idToHexUUID a = .ok t) (h' : idToHexUUID b = .ok t) : a = b := by
  obtain ⟨t1, e1, r1, _⟩ := C42_uuid_reversible a ha
  obtain ⟨t2, e2, r2, _⟩ := C42_uuid_reversible b hb
  rw [h] at e1
  rw [h'] at e2
  injection e1 with e1
  injection e2 with e2
  rw [← r1, ← r2, ← e1, ← e2]

/-- **C42**: the two ways of producing UUID text agree. -/
theorem C42_uuid_forms_agree (id : Bytes) (h : id.length = 16) :
    idToHexUUID id = .ok (hexToUUID (hexEncode id)) := by
  have hl : (hexEncode (id.drop 8)).length = 16 := by rw [hexEncode_length]; simp [h]
  rw [idToHexUUID, if_neg (by omega), if_neg (by omega), hexToUUID,
    if_neg (by rw [hexEncode_length]; omega), hexEncode_take, hexEncode_drop]

/-- **C42**: hex group ids identify groups uniquely — for ids of any length. -/
theorem C42_hex_injective (a b : Bytes) (h : hexEncode a = hexEncode b) : a = b := by
  rw [← readHex_hexEncode a, ← readHex_hexEncode b, h]

/-- **C42**: `HexToUUID` is injective on 32-character hex texts. -/
theorem C42_hexToUUID_injective (a b : Bytes) (ha : a.length = 16) (hb : b.length = 16)
    (h : hexToUUID (hexEncode a) = hexToUUID (hexEncode b)) : a = b :=
  C42_uuid_injective a b _ ha hb (C42_uuid_forms_agree a ha) (by rw [C42_uuid_forms_agree b hb, h])

example : idToHexUUID [0x12, 0x3e, 0x45, 0x67, 0xe8, 0x9b, 0x12, 0xd3, 0xa4, 0x56, 0x42, 0x66, 0x14, 0x17,
    0x40, 0xff] = .ok "123e4567-e89b-12d3-a456-4266141740ff".toUTF8.toList := by decide +kernel

/-- Ids that are not 16 bytes are not refused: short ones crash, long ones are formatted. -/
example : idToHexUUID [1, 2, 3] = .panic ∧ (idToHexUUID (List.replicate 20 7)).isOk = true := by
  decide +kernel

end Verif.Props.Encoding
