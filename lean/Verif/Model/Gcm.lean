import Verif.Prims
/-!
# AES-GCM as a parameter

`crypto/cipher`'s GCM with a 16 byte tag. Only the laws below are assumed; `Gcm.toy` satisfies them.
-/
namespace Verif

/-- AES-GCM for keys `aes.NewCipher` accepts and 12 byte nonces (`Seal`, `Open`).
Arguments: key, nonce, data, additional data. Code: profiles/profile.go:104-117, 119-138;
contactDiscoveryCrypto/contactDiscoveryCrypto.go:141-147;
unidentifiedAccess/unidentifiedAccess.go:17-33. -/
structure Gcm where
  lock : Bytes → Bytes → Bytes → Bytes → Bytes
  unlock : Bytes → Bytes → Bytes → Bytes → Option Bytes
  lock_len : ∀ k n p a, (lock k n p a).length = p.length + 16
  unlock_lock : ∀ k n p a, unlock k n (lock k n p a) a = some p
  unlock_len : ∀ k n c a p, unlock k n c a = some p → c.length = p.length + 16

namespace Gcm

/-- Tag of the toy instance. Code: profiles/profile.go:104-117. -/
def toyTag (k n p a : Bytes) : Bytes := Prims.toyExpand (k ++ 1 :: n ++ 2 :: p ++ 3 :: a) 16

/-- A concrete, insecure instance satisfying every law. Code: profiles/profile.go:104-117. -/
def toy : Gcm where
  lock k n p a := p ++ toyTag k n p a
  unlock k n c a :=
    if 16 ≤ c.length ∧ c.drop (c.length - 16) = toyTag k n (c.take (c.length - 16)) a then
      some (c.take (c.length - 16)) else none
  lock_len := by simp [toyTag, Prims.toyExpand]
  unlock_lock := by
    intro k n p a
    have h : (toyTag k n p a).length = 16 := by simp [toyTag, Prims.toyExpand]
    simp [h]
  unlock_len := by
    intro k n c a p h
    split at h
    · next h1 =>
      injection h with h
      subst h
      simp
      omega
    · cases h

end Gcm

/-- Key lengths `aes.NewCipher` accepts. Code: profiles/profile.go:104-117;
unidentifiedAccess/unidentifiedAccess.go:17-33. -/
def aesKeyOk (k : Bytes) : Bool := k.length == 16 || k.length == 24 || k.length == 32

end Verif
