import Verif.Model.Wire
/-! Lemmas about the protobuf wire model: parsing what was written gives it back. -/
namespace Verif.Wire
open Verif

theorem toNat_ofNat_lt (n : Nat) (h : n < 256) : (UInt8.ofNat n).toNat = n := by
  rw [UInt8.toNat_ofNat']; omega

theorem decVarintAux_enc (n : Nat) (i : Nat) (rest : Bytes) (hi : i ≤ 9)
    (h : n < 2 ^ (64 - 7 * i)) : decVarintAux i (encVarint n ++ rest) = some (n, rest) := by
  fun_induction encVarint n generalizing i with
  | case1 n hn =>
    simp only [List.cons_append, List.nil_append, decVarintAux]
    rw [toNat_ofNat_lt _ (by omega)]
    by_cases h9 : i = 9
    · subst h9; simp at h; simp; omega
    · simp [h9, hn]
  | case2 n hn ih =>
    simp only [List.cons_append, decVarintAux]
    rw [toNat_ofNat_lt _ (by omega)]
    have h9 : i ≠ 9 := by
      rintro rfl; simp at h; omega
    have hlt : i < 9 := by omega
    have hih := ih (i + 1) (by omega) (by
      have : 64 - 7 * i = (64 - 7 * (i + 1)) + 7 := by omega
      rw [this, Nat.pow_add] at h
      have h7 : (2:Nat)^7 = 128 := rfl
      rw [h7] at h
      exact Nat.div_lt_of_lt_mul (by rw [Nat.mul_comm]; exact h))
    rw [hih]
    have h128 : ¬ (n % 128 + 128 < 128) := by omega
    simp only [h9, if_false, h128, hlt, if_true]
    congr 2
    omega

theorem decVarint_enc (n : Nat) (rest : Bytes) (h : n < 2 ^ 64) :
    decVarint (encVarint n ++ rest) = some (n, rest) :=
  decVarintAux_enc n 0 rest (by omega) (by simpa using h)

theorem encVarint_pos (n : Nat) : 0 < (encVarint n).length := by
  unfold encVarint; split <;> simp

theorem decLen_enc (b rest : Bytes) (h : b.length < 2 ^ 64) :
    decLen (encVarint b.length ++ b ++ rest) = some (b, rest) := by
  unfold decLen
  rw [List.append_assoc, decVarint_enc _ _ h]
  simp

theorem encField_pos (f : Field) (h : f.valid) : 0 < (encField f).length := by
  obtain ⟨n, v⟩ := f
  cases v <;> simp_all [encField, Field.valid, encTag] <;>
    first | (have := encVarint_pos; grind)

theorem decFieldsAux_enc (fs : List Field) (h : ∀ f ∈ fs, f.valid) :
    ∀ fuel, fs.length < fuel → decFieldsAux fuel none (encFields fs) = some (fs, []) := by
  induction fs with
  | nil =>
    intro fuel hf
    cases fuel with
    | zero => omega
    | succ n => simp [encFields, decFieldsAux]
  | cons f fs ih =>
    intro fuel hf
    rw [List.forall_mem_cons] at h
    cases fuel with
    | zero => omega
    | succ fuel =>
      have ih' := ih h.2 fuel (by simp at hf; omega)
      have hpos := encField_pos f h.1
      have hcons : encFields (f :: fs) = encField f ++ encFields fs := by simp [encFields]
      have hne : ∃ x xs, encFields (f :: fs) = x :: xs := by
        rw [hcons]
        cases he : encField f with
        | nil => simp [he] at hpos
        | cons x xs => exact ⟨x, _, rfl⟩
      obtain ⟨x, xs, hx⟩ := hne
      unfold decFieldsAux
      rw [hx]
      simp only
      rw [← hx, hcons]
      obtain ⟨num, v⟩ := f
      have hv := h.1
      cases v with
      | varint n =>
        simp only [Field.valid] at hv
        simp only [encField, encTag, List.append_assoc]
        rw [decVarint_enc _ _ (by omega)]
        have e1 : (num * 8 + 0) / 8 = num := by omega
        have e2 : (num * 8 + 0) % 8 = 0 := by omega
        simp only [e1, e2]
        rw [if_neg (by omega), decVarint_enc _ _ hv.2.2]
        simp [ih']
      | fixed64 b =>
        simp only [Field.valid] at hv
        simp only [encField, encTag, List.append_assoc]
        rw [decVarint_enc _ _ (by omega)]
        have e1 : (num * 8 + 1) / 8 = num := by omega
        have e2 : (num * 8 + 1) % 8 = 1 := by omega
        simp only [e1, e2]
        rw [if_neg (by omega), if_neg (by simp; omega)]
        simp [hv.2.2, ih']
      | len b =>
        simp only [Field.valid] at hv
        simp only [encField, encTag, List.append_assoc]
        rw [decVarint_enc _ _ (by omega)]
        have e1 : (num * 8 + 2) / 8 = num := by omega
        have e2 : (num * 8 + 2) % 8 = 2 := by omega
        simp only [e1, e2]
        rw [if_neg (by omega), ← List.append_assoc, decLen_enc _ _ hv.2.2]
        simp [ih']
      | group => simp [Field.valid] at hv
      | fixed32 b =>
        simp only [Field.valid] at hv
        simp only [encField, encTag, List.append_assoc]
        rw [decVarint_enc _ _ (by omega)]
        have e1 : (num * 8 + 5) / 8 = num := by omega
        have e2 : (num * 8 + 5) % 8 = 5 := by omega
        simp only [e1, e2]
        rw [if_neg (by omega), if_neg (by simp; omega)]
        simp [hv.2.2, ih']

theorem encFields_length (fs : List Field) (h : ∀ f ∈ fs, f.valid) :
    fs.length ≤ (encFields fs).length := by
  induction fs with
  | nil => simp
  | cons f fs ih =>
    rw [List.forall_mem_cons] at h
    have := encField_pos f h.1
    have := ih h.2
    simp [encFields] at *
    omega

/-- Parsing what `proto.Marshal` wrote gives back the fields. -/
theorem decFields_enc (fs : List Field) (h : ∀ f ∈ fs, f.valid) :
    decFields (encFields fs) = some fs := by
  unfold decFields
  rw [decFieldsAux_enc fs h _ (by have := encFields_length fs h; omega)]
  rfl

end Verif.Wire
