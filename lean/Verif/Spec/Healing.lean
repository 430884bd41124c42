import Verif.Spec.Theft
/-!
# Where the keys of a conversation come from

The private keys that were drawn in a conversation, in order, and the key schedule that follows from them: each change
of direction mixes the secret shared by the key drawn for it and the key before it into the root key.
-/
namespace Verif.Theft
open Verif Verif.Keys Verif.Messages Verif.Session Verif.Conv

/-- The latest epoch anyone sends in. -/
def top (a : Abs) : Nat := max a.lvI a.lvR

/-- What was drawn by the deliveries that changed the direction, in order. -/
def turned : Abs → List Ev → List Bytes
  | _, [] => []
  | a, .send who pt :: evs => turned (a.step (.send who pt)) evs
  | a, .deliver i rnd :: evs =>
    if top a < top (a.step (.deliver i rnd)) then rnd 0 :: turned (a.step (.deliver i rnd)) evs
    else turned (a.step (.deliver i rnd)) evs

/-- The key pairs of the epochs: the signed prekey, the key the initiator drew first, and those drawn at the changes
of direction. -/
def pairs (P : Prims) (S : Setup) (evs : List Ev) : List KeyPair :=
  S.spk :: newPair P S.rr :: (turned {} evs).map (newPair P)

/-- The root keys that follow from a first root key and a list of key pairs. -/
def rootOf (P : Prims) (root : Bytes) (ks : List KeyPair) : Nat → Bytes
  | 0 => root
  | e + 1 => match ks[e]?, ks[e + 1]? with
    | some k, some k' => (P.hkdf (P.dh k'.priv k.pub) (rootOf P root ks e) (ascii "WhisperRatchet") 64).take 32
    | _, _ => []

/-- The first chain key of epoch `e + 1`: it takes the private key of that epoch, the public key of the epoch before
and the root key of the epoch before. -/
def chainOf (P : Prims) (root : Bytes) (ks : List KeyPair) : Nat → Bytes
  | 0 => []
  | e + 1 => match ks[e]?, ks[e + 1]? with
    | some k, some k' => turn P (rootOf P root ks e) k'.priv k.pub
    | _, _ => []

end Verif.Theft
