import Verif.Model.Cbc
/-! Lemmas about the CBC model. -/
namespace Verif.Cbc
open Verif

theorem xorB_len (a b : Bytes) (h : a.length = b.length) : (xorB a b).length = a.length := by
  simp [xorB, h]

theorem xorB_cancel (a b : Bytes) (h : a.length = b.length) : xorB (xorB a b) b = a := by
  unfold xorB
  induction a generalizing b with
  | nil => simp
  | cons x xs ih =>
    cases b with
    | nil => simp at h
    | cons y ys =>
      simp at h
      simp [ih ys h, UInt8.xor_assoc]

theorem blocks_nil : blocks [] = [] := by unfold blocks; simp

theorem blocks_cons (b : Bytes) (h : b ≠ []) : blocks b = b.take 16 :: blocks (b.drop 16) := by
  rw [blocks]; simp [h]

theorem flatten_blocks (b : Bytes) : (blocks b).flatten = b := by
  fun_induction blocks b with
  | case1 b h => simp at h; simp [h]
  | case2 b h ih => simp [ih]

theorem blocks_append (x y : Bytes) (h : x.length = 16) : blocks (x ++ y) = x :: blocks y := by
  rw [blocks_cons]
  · simp [List.take_append, List.drop_append, h]
  · intro hh; simp at hh; simp [hh.1] at h

/-- All blocks are 16 bytes when the length is a multiple of 16. -/
theorem blocks_len (b : Bytes) (h : b.length % 16 = 0) : ∀ x ∈ blocks b, x.length = 16 := by
  fun_induction blocks b with
  | case1 b h => simp
  | case2 b hne ih =>
    intro x hx
    simp at hx
    rcases hx with rfl | hx
    · simp; omega
    · apply ih _ x hx; simp; omega

theorem blocks_flatten (l : List Bytes) (h : ∀ x ∈ l, x.length = 16) : blocks l.flatten = l := by
  induction l with
  | nil => simp [blocks_nil]
  | cons a l ih =>
    simp at h
    rw [List.flatten_cons, blocks_append a _ h.1, ih h.2]

theorem cbcEnc_len (P : Prims) (key iv : Bytes) (l : List Bytes) (hiv : iv.length = 16)
    (h : ∀ x ∈ l, x.length = 16) : ∀ x ∈ cbcEnc P key iv l, x.length = 16 := by
  induction l generalizing iv with
  | nil => simp [cbcEnc]
  | cons b bs ih =>
    simp at h
    have hc : (P.aesEnc key (xorB b iv)).length = 16 := by
      apply P.aesEnc_len; rw [xorB_len] <;> omega
    intro x hx
    simp [cbcEnc] at hx
    rcases hx with rfl | hx
    · exact hc
    · exact ih _ hc h.2 x hx

theorem cbcDec_len (P : Prims) (key iv : Bytes) (l : List Bytes) (hiv : iv.length = 16)
    (h : ∀ x ∈ l, x.length = 16) : ∀ x ∈ cbcDec P key iv l, x.length = 16 := by
  induction l generalizing iv with
  | nil => simp [cbcDec]
  | cons b bs ih =>
    simp at h
    have hc : (P.aesDec key b).length = 16 := P.aesDec_len _ _ h.1
    intro x hx
    simp [cbcDec] at hx
    rcases hx with rfl | hx
    · rw [xorB_len] <;> omega
    · exact ih _ h.1 h.2 x hx

theorem cbcDec_length (P : Prims) (key iv : Bytes) (l : List Bytes) :
    (cbcDec P key iv l).length = l.length := by
  induction l generalizing iv with
  | nil => rfl
  | cons b bs ih => simp [cbcDec, ih]

theorem cbcEnc_length (P : Prims) (key iv : Bytes) (l : List Bytes) :
    (cbcEnc P key iv l).length = l.length := by
  induction l generalizing iv with
  | nil => rfl
  | cons b bs ih => simp [cbcEnc, ih]

theorem cbcDec_enc (P : Prims) (key iv : Bytes) (l : List Bytes) (hiv : iv.length = 16)
    (h : ∀ x ∈ l, x.length = 16) : cbcDec P key iv (cbcEnc P key iv l) = l := by
  induction l generalizing iv with
  | nil => rfl
  | cons b bs ih =>
    simp at h
    have hx : (xorB b iv).length = 16 := by rw [xorB_len] <;> omega
    have hc : (P.aesEnc key (xorB b iv)).length = 16 := P.aesEnc_len _ _ hx
    simp only [cbcEnc, cbcDec]
    rw [P.aesDec_enc _ _ hx, xorB_cancel _ _ (by omega), ih _ hc h.2]

theorem flatten_len (l : List Bytes) (h : ∀ x ∈ l, x.length = 16) :
    l.flatten.length = 16 * l.length := by
  induction l with
  | nil => rfl
  | cons a l ih => simp at h; simp [ih h.2, h.1]; omega

theorem pad_len (pt : Bytes) : (pad pt).length % 16 = 0 := by
  simp [pad, blockSize]; omega

theorem pad_length (pt : Bytes) : (pad pt).length = pt.length + (16 - pt.length % 16) := by
  simp [pad, blockSize]

theorem pad_getLast (pt : Bytes) :
    (pad pt).getLast? = some (UInt8.ofNat (16 - pt.length % 16)) := by
  unfold pad blockSize
  rw [List.getLast?_append]
  have : 16 - pt.length % 16 ≠ 0 := by omega
  simp [List.getLast?_replicate, this]

theorem padByte (n : Nat) : (UInt8.ofNat (16 - n % 16)).toNat = 16 - n % 16 := by
  rw [UInt8.toNat_ofNat']; omega

/-- The decrypted text has the length of the input. -/
theorem cbcDec_total (P : Prims) (key ct : Bytes) (h : ct.length % 16 = 0) :
    (cbcDec P key (ct.take 16) (blocks ct)).flatten.length = ct.length := by
  by_cases hc : ct = []
  · subst hc; simp [blocks_nil, cbcDec]
  · have h16 : 16 ≤ ct.length := by
      have : ct.length ≠ 0 := by simpa using hc
      omega
    rw [flatten_len _ (cbcDec_len _ _ _ _ (by simp; omega) (blocks_len ct h)), cbcDec_length,
      ← flatten_len _ (blocks_len ct h), flatten_blocks]

theorem Encrypt_ok (P : Prims) (key iv pt : Bytes) (hk : validKey key = true)
    (hiv : iv.length = 16) :
    Encrypt P key iv pt = .ok (cbcEnc P key iv (blocks (pad pt))).flatten := by
  simp [Encrypt, hk, hiv, blockSize]

theorem Encrypt_length (P : Prims) (key iv pt c : Bytes) (h : Encrypt P key iv pt = .ok c) :
    c.length = pt.length + (16 - pt.length % 16) := by
  unfold Encrypt at h
  split at h
  · simp at h
  · split at h
    · simp at h
    · rename_i hiv
      simp [blockSize] at hiv
      injection h with h
      rw [← h, flatten_len _ (cbcEnc_len _ _ _ _ hiv (blocks_len _ (pad_len pt))), cbcEnc_length,
        ← flatten_len _ (blocks_len _ (pad_len pt)), flatten_blocks, pad_length]

theorem unpad_pad (f pt : Bytes) (hf : f.length = 16) : unpad (f ++ pad pt) = .ok pt := by
  unfold unpad
  have hl : (f ++ pad pt).getLast? = some (UInt8.ofNat (16 - pt.length % 16)) := by
    rw [List.getLast?_append, pad_getLast]; rfl
  rw [hl]
  simp only [padByte, List.length_append, hf, pad_length, blockSize]
  have h1 : ¬ (16 - pt.length % 16 > 16) := by omega
  have h2 : 16 + (pt.length + (16 - pt.length % 16)) - (16 - pt.length % 16) = 16 + pt.length := by
    omega
  rw [if_neg h1, h2, if_neg (by omega)]
  congr 1
  simp [List.take_append, List.drop_append, hf, pad]

theorem Decrypt_Encrypt (P : Prims) (key iv pt c : Bytes)
    (h : Encrypt P key iv pt = .ok c) : Decrypt P key (iv ++ c) = .ok pt := by
  have hlen := Encrypt_length P key iv pt c h
  unfold Encrypt at h
  split at h
  · simp at h
  · rename_i hk
    split at h
    · simp at h
    rename_i hiv
    simp [blockSize] at hiv
    injection h with h
    have hb := blocks_len _ (pad_len pt)
    have he := cbcEnc_len P key iv _ hiv hb
    have hmod : (iv ++ c).length % 16 = 0 := by
      simp [hlen, hiv]; omega
    have htake : (iv ++ c).take 16 = iv := by
      simp [hiv]
    have hfirst : (xorB (P.aesDec key iv) iv).length = 16 := by
      rw [xorB_len] <;> simp [P.aesDec_len _ _ hiv, hiv]
    unfold Decrypt blockSize
    rw [if_neg hk, if_neg (not_not_intro hmod), htake, blocks_append iv c hiv, ← h, blocks_flatten _ he]
    simp only [cbcDec]
    rw [cbcDec_enc P key iv _ hiv hb, List.flatten_cons, flatten_blocks, unpad_pad _ _ hfirst]

/-- Outcome of `unpad` on non-empty input. -/
theorem unpad_panic_iff (pt : Bytes) : unpad pt = .panic ↔
    pt = [] ∨ ∃ p, pt.getLast? = some p ∧ p.toNat ≤ 16 ∧ pt.length < 16 + p.toNat := by
  unfold unpad blockSize
  cases h : pt.getLast? with
  | none => simp at h; simp [h]
  | some p =>
    have : pt ≠ [] := by rintro rfl; simp at h
    simp only [this, false_or]
    by_cases h1 : p.toNat > 16
    · simp [h1]; omega
    · have hl : 0 < pt.length := List.length_pos_iff.mpr this
      rw [if_neg h1]
      by_cases h2 : pt.length - p.toNat < 16
      · simp [h2]; omega
      · simp [h2]; omega

end Verif.Cbc
