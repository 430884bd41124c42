import Verif.Spec.Conversation
/-!
# What whoever copies a session file can open

The keys that can be computed from a stored session record, with the key schedule written out anew: message keys that
are kept, the keys of every later message of a chain whose chain key is kept, and the keys of the chain that begins
with another ratchet key of the correspondent. Nothing is said about what cannot be computed otherwise: that HMAC and
HKDF are not inverted is not a law of `Prims`.
-/
namespace Verif.Theft
open Verif Verif.Keys Verif.Messages Verif.Session Verif.Conv

/-- The keys of one message. -/
structure MKey where
  cipher : Bytes
  mac : Bytes
  iv : Bytes
  deriving DecidableEq, Repr

/-- The chain key `n` messages later: repeated HMAC with the constant 2. -/
def later (P : Prims) (k : Bytes) : Nat → Bytes
  | 0 => k
  | n + 1 => P.hmac (later P k n) [2]

/-- Keys of message number `n` of the chain that begins with the chain key `k`. -/
def keyOf (P : Prims) (k : Bytes) (n : Nat) : MKey :=
  let okm := P.hkdf (P.hmac (later P k n) [1]) [] (ascii "WhisperMessageKeys") 80
  ⟨okm.take 32, (okm.drop 32).take 32, okm.drop 64⟩

/-- The chain key that follows a root key when a ratchet key `theirs` is met with the private key `ours`. -/
def turn (P : Prims) (root ours theirs : Bytes) : Bytes :=
  (P.hkdf (P.dh ours theirs) root (ascii "WhisperRatchet") 64).drop 32

/-- The keys that can be computed from a stored record. -/
inductive Has (P : Prims) (r : SRecord) : MKey → Prop
  /-- Keys kept for a message that has been skipped. -/
  | kept (s : SState) (c : RecvChain) (k : MsgKeys) : s ∈ r.cur :: r.prev → c ∈ s.recv → k ∈ c.mks →
      Has P r ⟨k.cipherKey, k.macKey, k.iv⟩
  /-- A receiving chain, from its present key onwards. -/
  | receiving (s : SState) (c : RecvChain) (n : Nat) : s ∈ r.cur :: r.prev → c ∈ s.recv →
      Has P r (keyOf P c.ck.key n)
  /-- The sending chain, from its present key onwards. -/
  | sending (s : SState) (c : SendChain) (n : Nat) : s ∈ r.cur :: r.prev → s.sender = some c →
      Has P r (keyOf P c.ck.key n)
  /-- The chain that begins with another ratchet key of the correspondent. -/
  | turning (s : SState) (c : SendChain) (x : Bytes) (n : Nat) : s ∈ r.cur :: r.prev → s.sender = some c →
      Has P r (keyOf P (turn P s.rootKey c.priv x) n)

/-- The message in bytes that were sent. -/
def inside (b : Bytes) : MsgType → Option WhisperMsg
  | .whisper => match loadWhisper b with
    | .ok m => some m
    | _ => none
  | .prekey => match loadPreKeyMsg b with
    | .ok m => some m.message
    | _ => none

/-- What the keys `K` make of the bytes `b`. -/
def opened (P : Prims) (K : MKey) (b : Bytes) (ty : MsgType) : Option (Res Bytes) :=
  (inside b ty).map (fun m => Cbc.Decrypt P K.cipher (K.iv ++ m.ciphertext))

/-- The keys `K` open the bytes `b` to `pt`. -/
def OpensTo (P : Prims) (K : MKey) (b : Bytes) (ty : MsgType) (pt : Bytes) : Prop :=
  opened P K b ty = some (.ok pt)

/-- Whoever has the record `r` can read the bytes `b`. -/
def CanRead (P : Prims) (r : SRecord) (b : Bytes) (ty : MsgType) (pt : Bytes) : Prop :=
  ∃ K, Has P r K ∧ OpensTo P K b ty pt

/-- What a stored session may give away, for a party that sends in epoch `n`: the keys of messages of that epoch not
yet sent, the keys of messages not yet read of the epochs it can receive, and those of the epoch after. -/
inductive Future (P : Prims) (C : Nat → Bytes) (a : Abs) (n : Nat) (root priv : Bytes) : MKey → Prop
  | unsent (j : Nat) : count a.log n ≤ j → Future P C a n root priv (keyOf P (C n) j)
  | unread (e j : Nat) : e ∈ ret n → e ≠ 0 → (e, j) ∉ a.acc → Future P C a n root priv (keyOf P (C e) j)
  | next (x : Bytes) (j : Nat) : Future P C a n root priv (keyOf P (turn P root priv x) j)

end Verif.Theft
