import Verif.Bytes
import Verif.Model.Contacts
import Mathlib.Data.Nat.Digits.Defs
/-!
# What contact discovery should do

Decimal numerals, 64-bit words and the list of numbers asked about, stated without the code's helpers.
-/
namespace Verif.Discovery.Spec
open Verif Verif.Contacts

/-- Value of digits in a base, most significant first. -/
def value (base : Nat) (ds : List Nat) : Nat := Nat.ofDigits base ds.reverse

/-- `s` is a decimal numeral (optionally signed) of value `v`; digits most significant first. -/
def Decimal (s : Bytes) (v : Int) : Prop :=
  ∃ ds : List Nat, ds ≠ [] ∧ (∀ d ∈ ds, d < 10) ∧
    ((s = ds.map (fun d => UInt8.ofNat (48 + d)) ∧ v = (value 10 ds : Int)) ∨
     (s = 43 :: ds.map (fun d => UInt8.ofNat (48 + d)) ∧ v = (value 10 ds : Int)) ∨
     (s = 45 :: ds.map (fun d => UInt8.ofNat (48 + d)) ∧ v = -(value 10 ds : Int)))

/-- Numbers that fit into a signed 64-bit word. -/
def Fits (v : Int) : Prop := -(2 ^ 63) ≤ v ∧ v < 2 ^ 63

/-- The signed number a big-endian word stands for. -/
def word (b : Bytes) : Int :=
  let n := value 256 (b.map (fun c => c.toNat))
  if n < 2 ^ 63 then n else (n : Int) - 2 ^ 64

/-- `ts` are the numbers to ask about: the usable numbers of the address book, each once, in its order. -/
structure Asked (usable : Bytes → Prop) (cs : List Contact) (ts : List Bytes) : Prop where
  once : ts.Nodup
  order : List.Sublist ts (cs.map (·.tel))
  all : ∀ t, t ∈ ts ↔ t ≠ [] ∧ usable t ∧ ∃ c ∈ cs, c.tel = t

/-- `k` is the position of the first contact with number `t`. -/
def First (cs : List Contact) (t : Bytes) (k : Nat) : Prop :=
  (∃ c, cs[k]? = some c ∧ c.tel = t) ∧ ∀ j c, j < k → cs[j]? = some c → c.tel ≠ t

end Verif.Discovery.Spec
