import Verif.Bytes
/-!
# Cryptographic primitives as parameters

The Go code calls the standard library and `golang.org/x/crypto`. Those calls are parameters of the
model, with the laws listed here (and only these) assumed. `Prims.toy` is a concrete instance, so the
laws are consistent and theorems quantified over `Prims` are not vacuous.
-/
namespace Verif

structure Prims where
  /-- HMAC-SHA256 `key msg` (axolotl/ratchet.go:93-97, axolotl/crypto.go:66-70, crypto.go). -/
  hmac : Bytes → Bytes → Bytes
  /-- HKDF-SHA256 `ikm salt info size` (axolotl/ratchet.go:139-151). Never fails for the sizes used. -/
  hkdf : Bytes → Bytes → Bytes → Nat → Bytes
  /-- AES block encryption `key block`. -/
  aesEnc : Bytes → Bytes → Bytes
  /-- AES block decryption `key block`. -/
  aesDec : Bytes → Bytes → Bytes
  /-- X25519 base point multiplication (axolotl/keys.go:81). -/
  pubOf : Bytes → Bytes
  /-- X25519 `ourPriv theirPub` (axolotl/ratchet.go:159-161). -/
  dh : Bytes → Bytes → Bytes
  /-- `curve25519sign.Verify pub msg sig` as a relation on values (see `Verif/Sign.lean`). -/
  verify : Bytes → Bytes → Bytes → Bool
  sha256 : Bytes → Bytes
  sha512 : Bytes → Bytes
  hmac_len : ∀ k m, (hmac k m).length = 32
  hkdf_len : ∀ i s t n, (hkdf i s t n).length = n
  aesEnc_len : ∀ k b, b.length = 16 → (aesEnc k b).length = 16
  aesDec_len : ∀ k b, b.length = 16 → (aesDec k b).length = 16
  aesDec_enc : ∀ k b, b.length = 16 → aesDec k (aesEnc k b) = b
  pubOf_len : ∀ a, a.length = 32 → (pubOf a).length = 32
  dh_len : ∀ a p, a.length = 32 → p.length = 32 → (dh a p).length = 32
  dh_comm : ∀ a b, a.length = 32 → b.length = 32 → dh a (pubOf b) = dh b (pubOf a)
  sha256_len : ∀ m, (sha256 m).length = 32
  sha512_len : ∀ m, (sha512 m).length = 64

namespace Prims

/-- Checksum used by the toy instance. -/
def toyHash (b : Bytes) : Nat := b.foldl (fun a x => (a * 16777619 + x.toNat + 7) % 4294967291) 2166136261

def toySum (b : Bytes) : UInt8 := UInt8.ofNat (toyHash b)

def toyExpand (b : Bytes) (n : Nat) : Bytes :=
  (List.range n).map (fun i => UInt8.ofNat (toyHash b * (2 * i + 40503) / 256))

/-- A concrete, insecure instance satisfying every law: the assumptions of `Prims` are consistent. -/
def toy : Prims where
  hmac k m := toyExpand (k ++ 77 :: m) 32
  hkdf i s t n := toyExpand (i ++ 1 :: s ++ 2 :: t) n
  aesEnc k b := b.map (fun x => x ^^^ toySum k)
  aesDec k b := b.map (fun x => x ^^^ toySum k)
  pubOf a := a
  dh a p := List.zipWith (· ^^^ ·) a p
  verify p m s := s == toyExpand (p ++ m) 64
  sha256 m := toyExpand (3 :: m) 32
  sha512 m := toyExpand (4 :: m) 64
  hmac_len := by simp [toyExpand]
  hkdf_len := by simp [toyExpand]
  aesEnc_len := by simp
  aesDec_len := by simp
  aesDec_enc := by
    intro k b _
    rw [List.map_map]
    conv => rhs; rw [← List.map_id b]
    apply List.map_congr_left
    intro x _
    simp [UInt8.xor_assoc]
  pubOf_len := by intro a h; exact h
  dh_len := by intro a p h1 h2; simp [h1, h2]
  dh_comm := by
    intro a b _ _
    rw [List.zipWith_comm]
    simp [UInt8.xor_comm]
  sha256_len := by simp [toyExpand]
  sha512_len := by simp [toyExpand]

end Prims
end Verif
