import Verif.Model.Keys
import Mathlib.Algebra.Group.Basic
/-!
# Signatures with Curve25519 keys (curve25519sign/curve25519sign.go)

The arithmetic of `github.com/signal-golang/ed25519` is a parameter: an abelian group with a base point of
order `L`, its 32-byte encoding, and the conversion of a Montgomery x-coordinate to an Edwards
y-coordinate. `ed25519.Verify` is modelled from its published source (agl/ed25519), which is not part of
the repository.
-/
namespace Verif.Sign
open Verif

/-- Little-endian value (`edwards25519` scalars). Code: curve25519sign/curve25519sign.go:16-67. -/
def leNat : Bytes → Nat
  | [] => 0
  | b :: r => b.toNat + 256 * leNat r

/-- `n` as `k` little-endian bytes. Code: curve25519sign/curve25519sign.go:16-67. -/
def leBytes : Nat → Nat → Bytes
  | 0, _ => []
  | k + 1, n => UInt8.ofNat (n % 256) :: leBytes k (n / 256)

/-- `x[31] &= 0x7F`. Code: curve25519sign/curve25519sign.go:70-100. -/
def clearTop (b : Bytes) : Bytes := b.modify 31 (· &&& 0x7F)

/-- What RFC 7748 asks of a Curve25519 private key: 32 bytes, a multiple of 8, between 2^254 and 2^255.
`C90_private_keys` shows that `NewECKeyPair` (axolotl/keys.go:72-88) makes only such keys. -/
def Clamped (a : Bytes) : Prop :=
  a.length = 32 ∧ (a.getD 0 0).toNat % 8 = 0 ∧ 64 ≤ (a.getD 31 0).toNat ∧ (a.getD 31 0).toNat < 128

/-- Whether the top bits are clear can be computed. Code: curve25519sign/curve25519sign.go:70-100. -/
instance (a : Bytes) : Decidable (Clamped a) := by unfold Clamped; infer_instance

/-- Assumed arithmetic of the Edwards curve. Code: curve25519sign/curve25519sign.go:16-67, 70-100. -/
structure Ed (P : Prims) where
  G : Type
  [grp : AddCommGroup G]
  /-- base point -/
  B : G
  /-- order of the base point -/
  L : Nat
  /-- `ToBytes` -/
  enc : G → Bytes
  /-- `FromBytes` -/
  dec : Bytes → Option G
  /-- `FeToBytes ((x - 1) / (x + 1))` (curve25519sign/curve25519sign.go:87-95) -/
  toEd : Bytes → Bytes
  L_pos : 0 < L
  L_le : L ≤ 2 ^ 253
  order : L • B = 0
  enc_len : ∀ g, (enc g).length = 32
  dec_enc : ∀ g, dec (enc g) = some g
  /-- The Edwards y-coordinate of a key pair's public key is that of `a • B`: its encoding without the
  sign bit. -/
  toEd_pub : ∀ a, Clamped a → toEd (clearTop (P.pubOf a)) = clearTop (enc (leNat a • B))

attribute [instance] Ed.grp

variable {P : Prims}

/-- The diversifier (curve25519sign/curve25519sign.go:25-29). -/
def diversifier : Bytes := 0xFE :: List.replicate 31 0xFF

/-- `ScReduce` of a digest. Code: curve25519sign/curve25519sign.go:16-67. -/
def reduce (E : Ed P) (d : Bytes) : Nat := leNat d % E.L

/-- `Sign` (curve25519sign/curve25519sign.go:15-66). -/
def sign (E : Ed P) (priv msg random : Bytes) : Bytes :=
  let pk := E.enc (leNat priv • E.B)
  let r := reduce E (P.sha512 (diversifier ++ priv ++ msg ++ random))
  let encR := E.enc (r • E.B)
  let h := reduce E (P.sha512 (encR ++ pk ++ msg))
  let s := (h * leNat priv + r) % E.L
  (encR ++ leBytes 32 s).modify 63 (· ||| (pk.getD 31 0 &&& 0x80))

/-- `ed25519.Verify`: the top three bits of the signature must be clear, and `R = s•B - h•A`.
Code: curve25519sign/curve25519sign.go:70-100. -/
def edVerify (E : Ed P) (pk msg sig : Bytes) : Bool :=
  if sig.getD 63 0 &&& 224 ≠ 0 then false
  else match E.dec pk with
    | none => false
    | some A =>
      let h := reduce E (P.sha512 (sig.take 32 ++ pk ++ msg))
      sig.take 32 = E.enc (h • (-A) + leNat (sig.drop 32) • E.B)

/-- `Verify` (curve25519sign/curve25519sign.go:69-101): the second component is the content of the caller's signature
array afterwards, whose last byte is masked in place (line 99). -/
def verify (E : Ed P) (pub msg sig : Bytes) : Bool × Bytes :=
  let aed := E.toEd (clearTop pub)
  let aed := aed.modify 31 (· ||| (sig.getD 63 0 &&& 0x80))
  let sig := sig.modify 63 (· &&& 0x7F)
  (edVerify E aed msg sig, sig)

end Verif.Sign
