import Verif.Prims
/-!
# Keys

Models `axolotl/keys.go`. A Go `ECPublicKey`/`ECPrivateKey` holds a `[32]byte`; here a key is a
`Bytes`, of length 32 wherever the Go type guarantees it.
-/
namespace Verif.Keys
open Verif

/-- Bytes of an ASCII string literal. Code: axolotl/ratchet.go:49, 108, 126. -/
def ascii (s : String) : Bytes := s.toList.map (fun c => UInt8.ofNat c.toNat)

/-- `ECPublicKey.Serialize` (axolotl/keys.go:62-66). -/
def ser (k : Bytes) : Bytes := 5 :: k

/-- `NewECPublicKey(b[1:])` / `NewIdentityKey(b[1:])` as used by the parsers
(axolotl/keys.go:28-32, 48-53, 103-108): slicing an empty input panics, and `ensureKeyLength` panics
unless 32 bytes remain. The type byte is not looked at. -/
def deser (b : Bytes) : Res Bytes :=
  match b with
  | [] => .panic
  | _ :: k => if k.length = 32 then .ok k else .panic

/-- `ensureKeyLength` + copy (axolotl/keys.go:28-40, 48-53). -/
def newKey (b : Bytes) : Res Bytes := if b.length = 32 then .ok b else .panic

/-- Clamping of a fresh private key (axolotl/keys.go:76-78). -/
def clamp (r : Bytes) : Bytes :=
  (r.modify 0 (· &&& 248)).modify 31 (fun x => (x &&& 63) ||| 64)

/-- `ECKeyPair`. Code: axolotl/keys.go:67-70. -/
structure KeyPair where
  priv : Bytes
  pub : Bytes
  deriving DecidableEq, Repr

/-- `NewECKeyPair` (axolotl/keys.go:72-88); `r` is the 32 bytes read from `crypto/rand`. -/
def newPair (P : Prims) (r : Bytes) : KeyPair := ⟨clamp r, P.pubOf (clamp r)⟩

theorem clamp_len (r : Bytes) : (clamp r).length = r.length := by simp [clamp]

/-- A key pair whose public half belongs to its private half, both of the Go length. Code:
axolotl/keys.go:73-88. -/
def KeyPair.Valid (P : Prims) (k : KeyPair) : Prop :=
  k.priv.length = 32 ∧ k.pub = P.pubOf k.priv

theorem newPair_valid (P : Prims) (r : Bytes) (h : r.length = 32) : (newPair P r).Valid P := by
  simp [newPair, KeyPair.Valid, clamp_len, h]

theorem KeyPair.Valid.pub_len {P : Prims} {k : KeyPair} (h : k.Valid P) : k.pub.length = 32 := by
  rw [h.2]; exact P.pubOf_len _ h.1

theorem deser_ser (k : Bytes) (h : k.length = 32) : deser (ser k) = .ok k := by
  simp [deser, ser, h]

end Verif.Keys
