import Verif.Model.Files
import Verif.Proof.Cbc
import Verif.Proof.Wire
/-! Lemmas about stored files, attachments, provisioning and padding. -/
namespace Verif.Files
open Verif Verif.Cbc

theorem aesDecrypt_aesEncrypt (P : Prims) (key iv pt c : Bytes)
    (h : aesEncrypt P key iv pt = .ok c) : aesDecrypt P key c = .ok pt := by
  unfold aesEncrypt at h
  rw [Res.bind_eq_ok] at h
  obtain ⟨e, he, hc⟩ := h
  injection hc with hc
  rw [← hc]
  exact Decrypt_Encrypt P key iv pt e he

theorem aesEncrypt_ok (P : Prims) (key iv pt : Bytes) (hk : validKey key = true)
    (hiv : iv.length = 16) : ∃ c, aesEncrypt P key iv pt = .ok c := by
  unfold aesEncrypt
  rw [Encrypt_ok P key iv pt hk hiv]
  exact ⟨_, rfl⟩

theorem mac_split (P : Prims) (k e : Bytes) :
    (appendMAC P k e).length = e.length + 32 ∧
    (appendMAC P k e).take ((appendMAC P k e).length - 32) = e ∧
    (appendMAC P k e).drop ((appendMAC P k e).length - 32) = P.hmac k e := by
  have h : (appendMAC P k e).length = e.length + 32 := by simp [appendMAC, P.hmac_len]
  refine ⟨h, ?_, ?_⟩ <;> rw [h] <;> simp [appendMAC]

/-- Last block of a CBC decryption of at least two blocks. -/
theorem cbcDec_snoc (P : Prims) (key iv : Bytes) (l : List Bytes) (p q : Bytes) :
    cbcDec P key iv (l ++ [p, q]) = cbcDec P key iv (l ++ [p]) ++ [xorB (P.aesDec key q) p] := by
  induction l generalizing iv with
  | nil => simp [cbcDec]
  | cons a l ih => simp [cbcDec, ih]

theorem blocks_snoc (pre q : Bytes) (hp : pre.length % 16 = 0) (hq : q.length = 16) :
    blocks (pre ++ q) = blocks pre ++ [q] := by
  have h1 := blocks_len pre hp
  rw [← blocks_flatten (blocks pre ++ [q])]
  · simp [flatten_blocks]
  · intro x hx
    simp at hx
    rcases hx with hx | rfl
    · exact h1 x hx
    · exact hq

theorem stripFrom_eq (msg : Bytes) (n i : Nat) (hi : msg[i]? = some 0x80)
    (hz : ∀ j, i < j → msg[j]? ≠ some 0x80) (hn : i < n) : stripFrom msg n = msg.take i := by
  induction n with
  | zero => omega
  | succ n ih =>
    unfold stripFrom
    by_cases h : n = i
    · subst h; simp [hi]
    · rw [if_neg (hz n (by omega)), ih (by omega)]

theorem padMessage_length (m : Bytes) : (padMessage m).length = 160 * (m.length / 160 + 1) := by
  simp [padMessage]; omega

theorem stripPadding_padMessage (m : Bytes) : stripPadding (padMessage m) = m := by
  have hl := padMessage_length m
  have hlt : m.length < (padMessage m).length := by omega
  have hi : (padMessage m)[m.length]? = some 0x80 := by
    simp only [padMessage]
    rw [List.getElem?_set_self]
    simp; omega
  have hz : ∀ j, m.length < j → (padMessage m)[j]? ≠ some 0x80 := by
    intro j hj
    simp only [padMessage]
    rw [List.getElem?_set_ne (by omega), List.getElem?_append_right (by omega),
      List.getElem?_replicate]
    split <;> simp
  unfold stripPadding
  rw [stripFrom_eq _ _ _ hi hz hlt]
  simp [padMessage]

end Verif.Files
