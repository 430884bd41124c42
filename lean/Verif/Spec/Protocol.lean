import Verif.Spec.Theft
/-!
# The published protocol

The messages of a conversation as the public documents prescribe them ("The X3DH Key Agreement Protocol", "The Double
Ratchet Algorithm", and the protobuf definitions), as a function of the parties' keys, the order in which messages were
sent and read, and the plaintexts. Nothing of the model is used but the primitives and the generation of key pairs. The
key schedule within a chain is that of `Verif.Theft`.
-/
namespace Verif.Protocol
open Verif Verif.Keys Verif.Session Verif.Conv Verif.Theft

/-- Numbers in base 128, least significant digit first, all but the last marked by the top bit. -/
def base128 (n : Nat) : Bytes :=
  if n < 128 then [UInt8.ofNat n] else UInt8.ofNat (128 + n % 128) :: base128 (n / 128)
termination_by n
decreasing_by omega

/-- A field with a number. -/
def number (field v : Nat) : Bytes := UInt8.ofNat (8 * field) :: base128 v

/-- A field with bytes. -/
def bytes (field : Nat) (b : Bytes) : Bytes := UInt8.ofNat (8 * field + 2) :: (base128 b.length ++ b)

/-- A public key as it is transmitted: its type, 5 for Curve25519, and its 32 bytes. -/
def point (k : Bytes) : Bytes := 5 :: k

/-- Padding to a whole number of blocks of 16 bytes (PKCS #7). -/
def padded (pt : Bytes) : Bytes :=
  let n := 16 - pt.length % 16
  pt ++ List.replicate n (UInt8.ofNat n)

/-- Encryption of whole blocks in CBC mode. -/
def cbc (P : Prims) (key : Bytes) (iv b : Bytes) : Bytes :=
  if b.length = 0 then []
  else
    let c := P.aesEnc key (List.zipWith (· ^^^ ·) (b.take 16) iv)
    c ++ cbc P key c (b.drop 16)
termination_by b.length
decreasing_by simp; omega

/-- The secret both parties agree on, from the view of who begins: 32 bytes 0xFF, then the agreements of their identity
key with the signed prekey, and of their base key with the identity key, the signed prekey and the one-time prekey. -/
def secret (P : Prims) (S : Setup) : Bytes :=
  let base := (newPair P S.rb).priv
  List.replicate 32 0xFF ++ P.dh S.idI.priv S.spk.pub ++ P.dh base S.idR.pub ++ P.dh base S.spk.pub ++
    (match S.opk with
      | some k => P.dh base k.pub
      | none => [])

/-- The first root key. -/
def root0 (P : Prims) (S : Setup) : Bytes := (P.hkdf (secret P S) [] (ascii "WhisperText") 64).take 32

/-- The ratchet key pairs that were taken into use by reading messages, in this order. Who reads the first message of a
new ratchet key of the other party generates a key pair. -/
def turns (P : Prims) : Abs → List Ev → List KeyPair
  | _, [] => []
  | a, .send who pt :: evs => turns P (a.step (.send who pt)) evs
  | a, .deliver i rnd :: evs =>
    (match a.log[i]? with
      | none => []
      | some m => if a.expect m = .accept ∧ m.epoch = a.recvLevel m.epoch + 1 then [newPair P (rnd 0)] else []) ++
    turns P (a.step (.deliver i rnd)) evs

/-- The chain keys with which the chains of the ratchet key pairs `ks` begin, after the pair `last`. -/
def chains (P : Prims) (root : Bytes) (last : KeyPair) : List KeyPair → List Bytes
  | [] => []
  | k :: ks =>
    let okm := P.hkdf (P.dh k.priv last.pub) root (ascii "WhisperRatchet") 64
    okm.drop 32 :: chains P (okm.take 32) k ks

/-- Message number `ctr` of the chain that begins with the chain key `ck`. -/
def message (P : Prims) (ck ratchet : Bytes) (ctr prev : Nat) (sender receiver pt : Bytes) : Bytes :=
  let K := keyOf P ck ctr
  let body := 0x33 :: (bytes 1 (point ratchet) ++ number 2 ctr ++ number 3 prev ++
    bytes 4 (cbc P K.cipher K.iv (padded pt)))
  body ++ (P.hmac K.mac (point sender ++ point receiver ++ body)).take 8

/-- The envelope of the first messages. The one-time prekey is named if there is one. -/
def envelope (P : Prims) (S : Setup) (m : Bytes) : Bytes :=
  0x33 :: ((match S.opk with
      | some _ => number 1 S.pkId
      | none => []) ++
    bytes 2 (point (newPair P S.rb).pub) ++ bytes 3 (point S.idI.pub) ++ bytes 4 m ++ number 5 S.regI ++
    number 6 S.spkId)

/-- The number of the last message of the previous chain of who sends in epoch `e`, or 0 if there is none. (Signal's
implementations transmit this; the document has the number of messages of the chain instead. Nobody looks at it.) -/
def previous (log : List AMsg) (e : Nat) : Nat := (log.filter (fun m => m.epoch + 2 = e)).length - 1

/-- What is transmitted for the message `m` of a conversation with the messages `log` and the ratchet key pairs `ks`. -/
def Transmitted (P : Prims) (S : Setup) (log : List AMsg) (ks : List KeyPair) (m : AMsg) (x : Bool × Bytes × MsgType) :
    Prop :=
  ∃ k ck prev, prev = previous log m.epoch ∧ (S.spk :: ks)[m.epoch]? = some k ∧
    ([] :: chains P (root0 P S) S.spk ks)[m.epoch]? = some ck ∧
    (m.epoch % 2 = 0 → x = (true, message P ck k.pub m.ctr prev S.idR.pub S.idI.pub m.pt, .whisper)) ∧
    (m.epoch % 2 = 1 ∧ m.epoch ≠ 1 → x = (false, message P ck k.pub m.ctr prev S.idI.pub S.idR.pub m.pt, .whisper)) ∧
    (m.epoch = 1 → x = (false, envelope P S (message P ck k.pub m.ctr prev S.idI.pub S.idR.pub m.pt), .prekey))

end Verif.Protocol
