import Verif.Model.Fingerprint
import Verif.Proof.Wire
import Mathlib.Data.List.Perm.Basic
/-!
# Lemmas about safety numbers
-/
namespace Verif.Fingerprint
open Verif

/-! ## Order on byte strings and sorting -/

theorem bytesLe_total (a b : Bytes) : bytesLe a b = true ∨ bytesLe b a = true := by
  induction a generalizing b with
  | nil => exact .inl (by simp [bytesLe])
  | cons x a ih =>
    cases b with
    | nil => exact .inr (by simp [bytesLe])
    | cons y b =>
      simp only [bytesLe]
      by_cases h1 : x < y
      · simp [h1]
      · by_cases h2 : y < x
        · simp [h2]
        · simp [h1, h2, ih b]

theorem bytesLe_antisymm {a b : Bytes} (h : bytesLe a b = true) (h' : bytesLe b a = true) : a = b := by
  induction a generalizing b with
  | nil => cases b with
    | nil => rfl
    | cons y b => simp [bytesLe] at h'
  | cons x a ih =>
    cases b with
    | nil => simp [bytesLe] at h
    | cons y b =>
      simp only [bytesLe] at h h'
      by_cases h1 : x < y
      · have : ¬ y < x := by rw [UInt8.lt_iff_toNat_lt] at *; omega
        simp [h1, this] at h'
      · by_cases h2 : y < x
        · simp [h1, h2] at h
        · simp only [h1, h2, if_false] at h h'
          have : x = y := by
            rw [UInt8.lt_iff_toNat_lt] at *
            exact UInt8.toNat_inj.mp (by omega)
          rw [this, ih h h']

theorem bytesLe_trans {a b c : Bytes} (h : bytesLe a b = true) (h' : bytesLe b c = true) :
    bytesLe a c = true := by
  induction a generalizing b c with
  | nil => simp [bytesLe]
  | cons x a ih =>
    cases b with
    | nil => simp [bytesLe] at h
    | cons y b =>
      cases c with
      | nil => simp [bytesLe] at h'
      | cons z c =>
        simp only [bytesLe, UInt8.lt_iff_toNat_lt] at h h' ⊢
        by_cases h1 : x.toNat < z.toNat
        · simp [h1]
        · by_cases h2 : x.toNat < y.toNat
          · have : ¬ y.toNat < z.toNat := by omega
            have h3 : z.toNat < y.toNat := by omega
            simp [this, h3] at h'
          · by_cases h3 : y.toNat < x.toNat
            · simp [h2, h3] at h
            · simp only [h2, h3, if_false] at h
              by_cases h4 : y.toNat < z.toNat
              · omega
              · by_cases h5 : z.toNat < y.toNat
                · simp [h4, h5] at h'
                · simp only [h4, h5, if_false] at h'
                  have h6 : ¬ z.toNat < x.toNat := by omega
                  simp only [h1, h6, if_false]
                  exact ih h h'

/-- Sorted by serialized form. -/
def Sorted (l : List Bytes) : Prop := l.Pairwise (fun a b => bytesLe (Keys.ser a) (Keys.ser b) = true)

theorem insertKey_perm (k : Bytes) (l : List Bytes) : (insertKey k l).Perm (k :: l) := by
  induction l with
  | nil => exact .refl _
  | cons x l ih =>
    unfold insertKey
    split
    · exact .refl _
    · exact (ih.cons x).trans (.swap k x l)

theorem insertKey_sorted (k : Bytes) (l : List Bytes) (h : Sorted l) : Sorted (insertKey k l) := by
  induction l with
  | nil => simp [insertKey, Sorted]
  | cons x l ih =>
    unfold insertKey
    have hx := List.pairwise_cons.mp h
    split
    · rename_i hk
      refine List.pairwise_cons.mpr ⟨?_, h⟩
      intro y hy
      rcases List.mem_cons.mp hy with hy | hy
      · rw [hy]; exact hk
      · exact bytesLe_trans hk (hx.1 y hy)
    · rename_i hk
      refine List.pairwise_cons.mpr ⟨?_, ih hx.2⟩
      intro y hy
      rcases List.mem_cons.mp ((insertKey_perm k l).subset hy) with hy | hy
      · rw [hy]
        rcases bytesLe_total (Keys.ser k) (Keys.ser x) with h' | h'
        · exact absurd h' hk
        · exact h'
      · exact hx.1 y hy

theorem sortKeys_perm (l : List Bytes) : (sortKeys l).Perm l := by
  induction l with
  | nil => exact .refl _
  | cons x l ih => exact (insertKey_perm x _).trans (ih.cons x)

theorem sortKeys_sorted (l : List Bytes) : Sorted (sortKeys l) := by
  induction l with
  | nil => simp [sortKeys, Sorted]
  | cons x l ih => exact insertKey_sorted x _ ih

/-- There is only one sorted arrangement, whatever algorithm found it. -/
theorem sorted_unique {l m : List Bytes} (hl : Sorted l) (hm : Sorted m) (hp : l.Perm m) : l = m := by
  refine List.Perm.eq_of_pairwise (fun a b _ _ h h' => ?_) hl hm hp
  have := bytesLe_antisymm h h'
  simpa [Keys.ser] using this

theorem sortKeys_congr {l m : List Bytes} (hp : l.Perm m) : sortKeys l = sortKeys m :=
  sorted_unique (sortKeys_sorted l) (sortKeys_sorted m)
    ((sortKeys_perm l).trans (hp.trans (sortKeys_perm m).symm))

/-! ## Comparison of blocks -/

theorem strCompare_self (a : List Char) : strCompare a a = 0 := by
  induction a with
  | nil => rfl
  | cons c a ih => simp [strCompare, ih]

theorem strCompare_zero {a b : List Char} (h : strCompare a b = 0) : a = b := by
  induction a generalizing b with
  | nil => cases b with
    | nil => rfl
    | cons y b => simp [strCompare] at h
  | cons x a ih =>
    cases b with
    | nil => simp [strCompare] at h
    | cons y b =>
      simp only [strCompare] at h
      by_cases h1 : x.toNat < y.toNat
      · simp [h1] at h
      · by_cases h2 : y.toNat < x.toNat
        · simp [h1, h2] at h
        · simp only [h1, h2, if_false] at h
          rw [ih h, Char.toNat_inj.mp (by omega : x.toNat = y.toNat)]

theorem strCompare_swap (a b : List Char) : strCompare b a = - strCompare a b := by
  induction a generalizing b with
  | nil => cases b <;> rfl
  | cons x a ih =>
    cases b with
    | nil => rfl
    | cons y b =>
      simp only [strCompare]
      by_cases h1 : x.toNat < y.toNat
      · have : ¬ y.toNat < x.toNat := by omega
        simp [h1, this]
      · by_cases h2 : y.toNat < x.toNat
        · simp [h1, h2]
        · simp [h1, h2, ih b]

theorem compareBlocks_self (l : List (List Char)) : compareBlocks l l = .panic := by
  induction l with
  | nil => rfl
  | cons a l ih => simp [compareBlocks, strCompare_self, ih]

theorem compareBlocks_swap {l r : List (List Char)} (hlen : l.length = r.length) (hne : l ≠ r) :
    ∃ c : Int, c ≠ 0 ∧ compareBlocks l r = .ok c ∧ compareBlocks r l = .ok (-c) := by
  induction l generalizing r with
  | nil => cases r with
    | nil => exact absurd rfl hne
    | cons => simp at hlen
  | cons a l ih =>
    cases r with
    | nil => simp at hlen
    | cons b r =>
      have hl : l.length = r.length := by simpa using hlen
      simp only [compareBlocks, hl, ne_eq, not_true_eq_false, if_false, strCompare_swap a b]
      by_cases h : strCompare a b = 0
      · have hab := strCompare_zero h
        have : l ≠ r := fun e => hne (by rw [e, hab])
        simpa [h] using ih hl this
      · exact ⟨strCompare a b, h, by simp [h], by simp [h]⟩

/-! ## Chunks -/

/-- Big-endian value of a byte string. -/
def beNat (b : Bytes) : Nat := b.foldl (fun a x => a * 256 + x.toNat) 0

theorem byteArray5_eq {b : Bytes} {o : Nat} (h : o + 5 ≤ b.length) :
    byteArray5ToLong b o = .ok (beNat ((b.drop o).take 5)) := by
  obtain ⟨d, hd⟩ : ∃ d, d = b.drop o := ⟨_, rfl⟩
  have hl : 5 ≤ d.length := by rw [hd, List.length_drop]; omega
  unfold byteArray5ToLong
  rw [← hd]
  match d, hl with
  | b0 :: b1 :: b2 :: b3 :: b4 :: _, _ =>
    simp only [beNat, List.take_succ_cons, List.take_zero, List.foldl_cons, List.foldl_nil]
    have h0 := b0.toNat_lt; have h1 := b1.toNat_lt; have h2 := b2.toNat_lt
    have h3 := b3.toNat_lt; have h4 := b4.toNat_lt
    congr 1
    rw [Nat.or_assoc, Nat.or_assoc, Nat.or_assoc]
    rw [← Nat.shiftLeft_add_eq_or_of_lt (i := 8) (b := b4.toNat) (by omega),
      ← Nat.shiftLeft_add_eq_or_of_lt (i := 16) (by rw [Nat.shiftLeft_eq]; omega),
      ← Nat.shiftLeft_add_eq_or_of_lt (i := 24) (by simp only [Nat.shiftLeft_eq]; omega),
      ← Nat.shiftLeft_add_eq_or_of_lt (i := 32) (by simp only [Nat.shiftLeft_eq]; omega)]
    simp only [Nat.shiftLeft_eq]
    omega

theorem byteArray5_panic {b : Bytes} {o : Nat} (h : b.length < o + 5) :
    byteArray5ToLong b o = .panic := by
  obtain ⟨d, hd⟩ : ∃ d, d = b.drop o := ⟨_, rfl⟩
  have hl : d.length < 5 := by rw [hd, List.length_drop]; omega
  unfold byteArray5ToLong
  rw [← hd]
  match d, hl with
  | [], _ => rfl
  | [_], _ => rfl
  | [_, _], _ => rfl
  | [_, _, _], _ => rfl
  | [_, _, _, _], _ => rfl

/-- The printed form of chunk `i`. -/
def chunkText (b : Bytes) (o : Nat) : List Char := Names.decPad 5 (beNat ((b.drop o).take 5) % 100000)

theorem numbersFor_eq {b : Bytes} (h : 30 ≤ b.length) :
    numbersFor b = .ok [chunkText b 0, chunkText b 5, chunkText b 10, chunkText b 15, chunkText b 20,
      chunkText b 25] := by
  simp only [numbersFor, getEncodedChunk]
  rw [byteArray5_eq (by omega), byteArray5_eq (by omega), byteArray5_eq (by omega),
    byteArray5_eq (by omega), byteArray5_eq (by omega), byteArray5_eq (by omega)]
  rfl

theorem numbersFor_panic {b : Bytes} (h : b.length < 30) : numbersFor b = .panic := by
  have key : ∀ o, getEncodedChunk b o = .panic ∨ ∃ s, getEncodedChunk b o = .ok s := by
    intro o
    by_cases ho : o + 5 ≤ b.length
    · exact .inr ⟨_, by rw [getEncodedChunk, byteArray5_eq ho]; rfl⟩
    · exact .inl (by rw [getEncodedChunk, byteArray5_panic (by omega)]; rfl)
  have last : getEncodedChunk b 25 = .panic := by
    rw [getEncodedChunk, byteArray5_panic (by omega)]; rfl
  simp only [numbersFor, last]
  rcases key 0 with h0 | ⟨_, h0⟩ <;> simp only [h0, Res.panic_bind, Res.ok_bind]
  rcases key 5 with h0 | ⟨_, h0⟩ <;> simp only [h0, Res.panic_bind, Res.ok_bind]
  rcases key 10 with h0 | ⟨_, h0⟩ <;> simp only [h0, Res.panic_bind, Res.ok_bind]
  rcases key 15 with h0 | ⟨_, h0⟩ <;> simp only [h0, Res.panic_bind, Res.ok_bind]
  rcases key 20 with h0 | ⟨_, h0⟩ <;> simp only [h0, Res.panic_bind, Res.ok_bind]

theorem numbersFor_length {b : Bytes} {n : List (List Char)} (h : numbersFor b = .ok n) :
    30 ≤ b.length ∧ n.length = 6 := by
  by_cases hb : 30 ≤ b.length
  · rw [numbersFor_eq hb] at h
    injection h with h
    subst h
    exact ⟨hb, rfl⟩
  · rw [numbersFor_panic (by omega)] at h
    cases h

theorem getFingerprint_length (P : Prims) (n : Nat) (ident : Bytes) (ks : List Bytes) (hn : 0 < n) :
    (getFingerprint P n ident ks).length = 64 := by
  obtain ⟨m, rfl⟩ : ∃ m, n = m + 1 := ⟨n - 1, by omega⟩
  simp [getFingerprint, repeatedHashing, P.sha512_len]

end Verif.Fingerprint
