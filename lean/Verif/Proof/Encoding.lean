import Verif.Model.Encoding
import Verif.Proof.Wire
/-!
# Lemmas about text encodings
-/
namespace Verif.Encoding
open Verif

theorem enc64_toNat (n : Nat) (h : n < 64) : (enc64 n).toNat =
    if n < 26 then 65 + n else if n < 52 then 71 + n else if n < 62 then n - 4
    else if n = 62 then 43 else 47 := by
  unfold enc64
  split
  · exact Wire.toNat_ofNat_lt _ (by omega)
  split
  · exact Wire.toNat_ofNat_lt _ (by omega)
  split
  · exact Wire.toNat_ofNat_lt _ (by omega)
  split <;> rfl

theorem dec64_enc64 (n : Nat) (h : n < 64) : dec64 (enc64 n) = some n := by
  have e := enc64_toNat n h
  unfold dec64
  simp only [e]
  by_cases h1 : n < 26
  · simp only [h1, if_true]; rw [if_pos (by omega)]; congr 1; omega
  by_cases h2 : n < 52
  · simp only [h1, h2, if_true, if_false]; rw [if_neg (by omega), if_pos (by omega)]; congr 1; omega
  by_cases h3 : n < 62
  · simp only [h1, h2, h3, if_true, if_false]
    rw [if_neg (by omega), if_neg (by omega), if_pos (by omega)]; congr 1; omega
  by_cases h4 : n = 62
  · subst h4; decide
  · have : n = 63 := by omega
    subst this; decide

/-- Not padding, not a line break. -/
def Plain (c : UInt8) : Prop := c ≠ 61 ∧ c ≠ 10 ∧ c ≠ 13

theorem enc64_plain (n : Nat) (h : n < 64) : Plain (enc64 n) := by
  have e := enc64_toNat n h
  have key : ∀ k : UInt8, enc64 n = k → (enc64 n).toNat = k.toNat := fun k hk => by rw [hk]
  refine ⟨fun hk => ?_, fun hk => ?_, fun hk => ?_⟩ <;>
  · have := key _ hk
    rw [e] at this
    simp at this
    split at this
    · omega
    split at this
    · omega
    split at this
    · omega
    split at this <;> omega

theorem byte_eq {a : UInt8} {n : Nat} (h : n = a.toNat) : UInt8.ofNat n = a := by
  subst h; exact UInt8.ofNat_toNat

theorem quanta_three (a b c : UInt8) (rest r : Bytes) (hr : b64Quanta rest = some r) :
    b64Quanta (enc64 ((a.toNat * 65536 + b.toNat * 256 + c.toNat) / 262144)
      :: enc64 ((a.toNat * 65536 + b.toNat * 256 + c.toNat) / 4096 % 64)
      :: enc64 ((a.toNat * 65536 + b.toNat * 256 + c.toNat) / 64 % 64)
      :: enc64 ((a.toNat * 65536 + b.toNat * 256 + c.toNat) % 64) :: rest) = some (a :: b :: c :: r) := by
  have ha := a.toNat_lt; have hb := b.toNat_lt; have hc := c.toNat_lt
  unfold b64Quanta
  rw [if_neg (fun h => (enc64_plain _ (Nat.mod_lt _ (by decide))).1 h.2),
    dec64_enc64 _ (by omega), dec64_enc64 _ (by omega), dec64_enc64 _ (by omega),
    dec64_enc64 _ (by omega), hr]
  simp only [Option.some.injEq, List.cons.injEq, and_true]
  exact ⟨byte_eq (by omega), byte_eq (by omega), byte_eq (by omega)⟩

theorem b64_induct {motive : Bytes → Prop} (h0 : motive []) (h1 : ∀ a, motive [a])
    (h2 : ∀ a b, motive [a, b]) (h3 : ∀ a b c r, motive r → motive (a :: b :: c :: r)) :
    ∀ l, motive l
  | [] => h0
  | [a] => h1 a
  | [a, b] => h2 a b
  | a :: b :: c :: r => h3 a b c r (b64_induct h0 h1 h2 h3 r)

theorem quanta_encode (l : Bytes) : b64Quanta (b64Encode l) = some l := by
  induction l using b64_induct with
  | h0 => rfl
  | h1 a =>
    have ha := a.toNat_lt
    simp only [b64Encode]
    unfold b64Quanta
    rw [if_pos ⟨rfl, rfl⟩, if_pos rfl, dec64_enc64 _ (by omega), dec64_enc64 _ (by omega)]
    simp only [Option.some.injEq, List.cons.injEq, and_true]
    exact byte_eq (by omega)
  | h2 a b =>
    have ha := a.toNat_lt; have hb := b.toNat_lt
    simp only [b64Encode]
    unfold b64Quanta
    rw [if_pos ⟨rfl, rfl⟩, if_neg (enc64_plain _ (by omega)).1, dec64_enc64 _ (by omega),
      dec64_enc64 _ (by omega), dec64_enc64 _ (by omega)]
    simp only [Option.some.injEq, List.cons.injEq, and_true]
    exact ⟨byte_eq (by omega), byte_eq (by omega)⟩
  | h3 a b c r ih =>
    simp only [b64Encode]
    exact quanta_three a b c _ _ ih

theorem trimEq_append (p : Bytes) (k : Nat) (h : ∀ c ∈ p, c ≠ 61) :
    trimEq (p ++ List.replicate k 61) = p := by
  unfold trimEq
  rw [List.reverse_append, List.reverse_replicate]
  have : ∀ k : Nat, (List.replicate k (61 : UInt8) ++ p.reverse).dropWhile (· == 61) = p.reverse := by
    intro k
    induction k with
    | zero =>
      cases hp : p.reverse with
      | nil => rfl
      | cons c q =>
        have : c ≠ 61 := h c (List.mem_reverse.mp (by rw [hp]; exact List.mem_cons_self))
        simp [List.dropWhile, this]
    | succ k ih => simpa [List.replicate_succ, List.dropWhile] using ih
  rw [this, List.reverse_reverse]

/-- Encoded text is plain characters followed by the padding that makes its length a multiple of 4. -/
theorem encode_shape (l : Bytes) : ∃ p : Bytes, ∃ k, b64Encode l = p ++ List.replicate k 61 ∧
    (∀ c ∈ p, Plain c) ∧ k < 3 ∧ (p.length + k) % 4 = 0 := by
  induction l using b64_induct with
  | h0 => exact ⟨[], 0, rfl, by simp, by omega, rfl⟩
  | h1 a =>
    have ha := a.toNat_lt
    refine ⟨[_, _], 2, rfl, ?_, by omega, by simp⟩
    intro c hc
    simp only [List.mem_cons, List.not_mem_nil, or_false] at hc
    rcases hc with rfl | rfl
    · exact enc64_plain _ (by omega)
    · exact enc64_plain _ (by omega)
  | h2 a b =>
    have ha := a.toNat_lt; have hb := b.toNat_lt
    refine ⟨[_, _, _], 1, rfl, ?_, by omega, by simp⟩
    intro c hc
    simp only [List.mem_cons, List.not_mem_nil, or_false] at hc
    rcases hc with rfl | rfl | rfl
    · exact enc64_plain _ (by omega)
    · exact enc64_plain _ (by omega)
    · exact enc64_plain _ (by omega)
  | h3 a b c r ih =>
    have ha := a.toNat_lt; have hb := b.toNat_lt; have hc := c.toNat_lt
    obtain ⟨p, k, e, hp, hk, hm⟩ := ih
    refine ⟨_ :: _ :: _ :: _ :: p, k, by simp only [b64Encode, e, List.cons_append]; rfl, ?_, hk, ?_⟩
    · intro x hx
      simp only [List.mem_cons] at hx
      rcases hx with rfl | rfl | rfl | rfl | hx
      · exact enc64_plain _ (by omega)
      · exact enc64_plain _ (by omega)
      · exact enc64_plain _ (by omega)
      · exact enc64_plain _ (by omega)
      · exact hp x hx
    · simp only [List.length_cons]; omega

theorem b64_round_trip (b : Bytes) : b64DecodeNoPad (b64EncodeNoPad b) = .ok b := by
  obtain ⟨p, k, e, hp, hk, hm⟩ := encode_shape b
  have ht : b64EncodeNoPad b = p := by
    rw [b64EncodeNoPad, e]; exact trimEq_append p k (fun c hc => (hp c hc).1)
  have hpad : (if p.length % 4 ≠ 0 then p ++ List.replicate (4 - p.length % 4) 61 else p) = b64Encode b := by
    rw [e]
    split
    · congr 2; omega
    · have : k = 0 := by omega
      subst this; simp
  have hf : (b64Encode b).filter (fun c => c ≠ 10 ∧ c ≠ 13) = b64Encode b := by
    rw [List.filter_eq_self]
    intro c hc
    rw [e, List.mem_append] at hc
    rcases hc with hc | hc
    · have := hp c hc
      simp only [this.2.1, this.2.2, ne_eq, not_false_eq_true, and_self, decide_true]
    · rw [(List.mem_replicate.mp hc).2]; decide
  rw [ht, b64DecodeNoPad]
  simp only [hpad, b64Decode, hf, quanta_encode]

/-- The padding may be left in place. -/
theorem b64_padded (b : Bytes) : b64DecodeNoPad (b64Encode b) = .ok b := by
  obtain ⟨p, k, e, hp, hk, hm⟩ := encode_shape b
  have hf : (b64Encode b).filter (fun c => c ≠ 10 ∧ c ≠ 13) = b64Encode b := by
    rw [List.filter_eq_self]
    intro c hc
    rw [e, List.mem_append] at hc
    rcases hc with hc | hc
    · have := hp c hc
      simp only [this.2.1, this.2.2, ne_eq, not_false_eq_true, and_self, decide_true]
    · rw [(List.mem_replicate.mp hc).2]; decide
  have hl : (b64Encode b).length % 4 = 0 := by
    rw [e, List.length_append, List.length_replicate]; omega
  rw [b64DecodeNoPad]
  simp only [hl, ne_eq, not_true_eq_false, if_false, b64Decode, hf, quanta_encode]

/-! ## Hex -/

/-- Value of a lower-case hex digit. -/
def unhexDigit (c : UInt8) : Nat := if c.toNat < 58 then c.toNat - 48 else c.toNat - 87

theorem unhex_hex (n : Nat) (h : n < 16) : unhexDigit (hexDigit n) = n := by
  unfold hexDigit
  split
  · have := Wire.toNat_ofNat_lt (48 + n) (by omega)
    rw [unhexDigit, this, if_pos (by omega)]; omega
  · have := Wire.toNat_ofNat_lt (87 + n) (by omega)
    rw [unhexDigit, this, if_neg (by omega)]; omega

theorem hexDigit_ne_dash (n : Nat) (h : n < 16) : hexDigit n ≠ 45 := by
  intro e
  unfold hexDigit at e
  split at e
  · have := congrArg UInt8.toNat e
    rw [Wire.toNat_ofNat_lt _ (by omega)] at this
    simp at this
    omega
  · have := congrArg UInt8.toNat e
    rw [Wire.toNat_ofNat_lt _ (by omega)] at this
    simp at this
    omega

theorem hexEncode_length (b : Bytes) : (hexEncode b).length = 2 * b.length := by
  induction b with
  | nil => rfl
  | cons a b ih => simp [hexEncode, ih]; omega

theorem hexEncode_append (a b : Bytes) : hexEncode (a ++ b) = hexEncode a ++ hexEncode b := by
  induction a with
  | nil => rfl
  | cons x a ih => simp [hexEncode, ih]

theorem hexEncode_take (b : Bytes) (n : Nat) : hexEncode (b.take n) = (hexEncode b).take (2 * n) := by
  induction n generalizing b with
  | zero => simp [hexEncode]
  | succ n ih =>
    cases b with
    | nil => simp [hexEncode]
    | cons x b => simp [hexEncode, ih, Nat.mul_succ]

theorem hexEncode_drop (b : Bytes) (n : Nat) : hexEncode (b.drop n) = (hexEncode b).drop (2 * n) := by
  induction n generalizing b with
  | zero => simp
  | succ n ih =>
    cases b with
    | nil => simp [hexEncode]
    | cons x b => simp [hexEncode, ih, Nat.mul_succ]

theorem hexEncode_no_dash (b : Bytes) : ∀ c ∈ hexEncode b, c ≠ 45 := by
  induction b with
  | nil => simp [hexEncode]
  | cons x b ih =>
    have := x.toNat_lt
    intro c hc
    simp only [hexEncode, List.mem_cons] at hc
    rcases hc with rfl | rfl | hc
    · exact hexDigit_ne_dash _ (by omega)
    · exact hexDigit_ne_dash _ (by omega)
    · exact ih c hc

end Verif.Encoding
