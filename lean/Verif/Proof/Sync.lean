import Verif.Model.Sync
import Verif.Proof.Wire
import Verif.Proof.Regex
/-! # Facts about the sync stream -/
namespace Verif.Sync
open Verif Verif.Regex

/-- Length of a base-128 numeral. -/
theorem encVarint_len (k n : Nat) (h : n < 128 ^ (k + 1)) : (Wire.encVarint n).length ≤ k + 1 := by
  induction k generalizing n with
  | zero => rw [Wire.encVarint]; simp only [Nat.zero_add, Nat.pow_one] at h; simp [h]
  | succ k ih =>
    rw [Wire.encVarint]
    split
    · simp
    · simp only [List.length_cons]
      have : n / 128 < 128 ^ (k + 1) := by
        rw [Nat.div_lt_iff_lt_mul (by decide)]
        rw [Nat.pow_succ] at h
        exact h
      have := ih _ this
      omega

theorem encVarint_long (k n : Nat) (h : 128 ^ k ≤ n) : k + 1 ≤ (Wire.encVarint n).length := by
  induction k generalizing n with
  | zero => have := Wire.encVarint_pos n; omega
  | succ k ih =>
    rw [Wire.encVarint]
    have h1 : 1 ≤ 128 ^ k := Nat.one_le_pow _ _ (by decide)
    rw [Nat.pow_succ] at h
    rw [if_neg (by omega)]
    simp only [List.length_cons]
    have : 128 ^ k ≤ n / 128 := (Nat.le_div_iff_mul_le (by decide)).2 h
    have := ih _ this
    omega

end Verif.Sync
