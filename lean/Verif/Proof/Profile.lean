import Verif.Model.Profile
import Verif.Proof.Encoding
import Verif.Proof.Contacts
import Mathlib.Data.List.Induction
/-!
# Lemmas about profiles
-/
namespace Verif.Profile
open Verif Verif.Contacts Verif.Encoding

theorem b64Decode_encode (b : Bytes) : b64Decode (b64Encode b) = some b := by
  obtain ⟨p, k, e, hp, hk, hm⟩ := encode_shape b
  have hf : (b64Encode b).filter (fun c => c ≠ 10 ∧ c ≠ 13) = b64Encode b := by
    rw [List.filter_eq_self]
    intro c hc
    rw [e, List.mem_append] at hc
    rcases hc with hc | hc
    · have := hp c hc
      simp only [this.2.1, this.2.2, ne_eq, not_false_eq_true, and_self, decide_true]
    · rw [(List.mem_replicate.mp hc).2]; decide
  simp only [b64Decode, hf, quanta_encode]

theorem b64Encode_length (b : Bytes) : (b64Encode b).length = (b.length + 2) / 3 * 4 := by
  induction b using b64_induct with
  | h0 => rfl
  | h1 a => simp [b64Encode]
  | h2 a b => simp [b64Encode]
  | h3 a b c r ih => simp only [b64Encode, List.length_cons, ih]; omega

theorem b64Encode_ne_nil {b : Bytes} (h : b ≠ []) : b64Encode b ≠ [] := by
  intro h1
  have := b64Encode_length b
  rw [h1] at this
  have hb : 0 < b.length := List.length_pos_iff.2 h
  simp only [List.length_nil] at this
  omega

theorem draw_len (R : Nat → UInt8) (used n : Nat) : (draw R used n).1.length = n := by simp [draw]

theorem nameLength_append_zeros (r : Bytes) (k : Nat) : nameLength (r ++ List.replicate k 0) (r.length + k) = nameLength r r.length := by
  induction k with
  | zero => simp
  | succ k ih =>
    rw [← Nat.add_assoc, nameLength]
    have h1 : (r ++ List.replicate (k + 1) 0)[r.length + k]? = some (0 : UInt8) := by
      rw [List.getElem?_append_right (by omega)]
      simp
    rw [h1]
    simp only [ne_eq, not_true_eq_false, if_false]
    rw [← ih, List.replicate_succ']
    have : ∀ i, i ≤ r.length + k → nameLength (r ++ (List.replicate k 0 ++ [0])) i = nameLength (r ++ List.replicate k 0) i := by
      intro i
      induction i with
      | zero => intro _; rfl
      | succ i ih =>
        intro h
        simp only [nameLength]
        rw [ih (by omega), ← List.append_assoc, List.getElem?_append_left (by simp; omega)]
    exact this _ (Nat.le_refl _)

theorem nameLength_last {r : Bytes} (h : r.getLast? ≠ some 0) : nameLength r r.length = r.length := by
  cases hr : r.length with
  | zero => rfl
  | succ i =>
    rw [nameLength]
    rw [List.getLast?_eq_getElem?, hr] at h
    simp only [Nat.add_sub_cancel] at h
    rw [if_pos h]

/-- Every byte string is one that does not end in zero followed by zeros. -/
theorem exists_trim (p : Bytes) : ∃ r k, p = r ++ List.replicate k 0 ∧ r.getLast? ≠ some 0 := by
  induction p using List.reverseRecOn with
  | nil => exact ⟨[], 0, rfl, by simp⟩
  | append_singleton l a ih =>
    by_cases ha : a = 0
    · obtain ⟨r, k, h1, h2⟩ := ih
      refine ⟨r, k + 1, ?_, h2⟩
      rw [List.replicate_succ', ← List.append_assoc, ← h1, ha]
    · exact ⟨l ++ [a], 0, by simp, by simp [ha]⟩

theorem nameLength_le (p : Bytes) (i : Nat) : nameLength p i ≤ i := by
  induction i with
  | zero => simp [nameLength]
  | succ i ih => rw [nameLength]; split <;> omega

/-- What the loop keeps. -/
theorem take_nameLength {p r : Bytes} {k : Nat} (h : p = r ++ List.replicate k 0) (hr : r.getLast? ≠ some 0) :
    p.take (nameLength p p.length) = r := by
  subst h
  rw [List.length_append, List.length_replicate, nameLength_append_zeros, nameLength_last hr]
  simp

theorem decryptName_lock (g : Gcm) (key nonce p : Bytes) (hk : aesKeyOk key = true) (hn : nonce.length = 12)
    (hp : p ≠ []) : decryptName g key (nonce ++ g.lock key nonce p []) = .ok (p.take (nameLength p p.length)) := by
  have hp' : 0 < p.length := List.length_pos_iff.2 hp
  simp only [decryptName]
  rw [if_neg (by simp [g.lock_len]; omega)]
  have h1 : (nonce ++ g.lock key nonce p []).take 12 = nonce := by rw [← hn]; simp
  have h2 : (nonce ++ g.lock key nonce p []).drop 12 = g.lock key nonce p [] := by rw [← hn]; simp
  rw [h1, h2]
  simp only [aesgcmDecrypt, hk, List.append_nil, g.unlock_lock]
  rfl

end Verif.Profile
