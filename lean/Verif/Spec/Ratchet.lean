import Verif.Spec.Protocol
/-!
# The Double Ratchet as published

The algorithm of "The Double Ratchet Algorithm" (sections 3.1 to 3.5), function by function and with the names of the
document: the state variables `DHs`, `DHr`, `RK`, `CKs`, `CKr`, `Ns`, `Nr`, `PN` and `MKSKIPPED`, the functions
`RatchetInitAlice`, `RatchetInitBob`, `RatchetEncrypt`, `RatchetDecrypt`, `TrySkippedMessageKeys`, `SkipMessageKeys` and
`DHRatchet`. The key derivation functions are those Signal uses. It is an implementation quite unlike that of the client:
one receiving chain and one store of skipped keys, instead of up to five receiving chains with their own skipped keys.

`Mixed` is a conversation between a modelled client and a peer that runs this algorithm. Parsing of messages (`inside`)
and CBC decryption are those of the model, whose correctness are other properties (C23, C24, C12).
-/
namespace Verif.Ratchet
open Verif Verif.Keys Verif.Messages Verif.Session Verif.Api Verif.Conv Verif.Theft Verif.Protocol

/-- State variables (section 3.2). -/
structure State where
  DHs : KeyPair
  DHr : Option Bytes
  RK : Bytes
  CKs : Option Bytes
  CKr : Option Bytes
  Ns : Nat
  Nr : Nat
  PN : Nat
  MKSKIPPED : List ((Bytes × Nat) × MKey)

/-- `KDF_RK`. -/
def kdfRK (P : Prims) (rk dh : Bytes) : Bytes × Bytes :=
  let okm := P.hkdf dh rk (ascii "WhisperRatchet") 64
  (okm.take 32, okm.drop 32)

/-- `KDF_CK`: the next chain key and the keys of the message. -/
def kdfCK (P : Prims) (ck : Bytes) : Bytes × MKey := (P.hmac ck [2], keyOf P ck 0)

/-- `RatchetInitAlice`. -/
def initAlice (P : Prims) (sk bob : Bytes) (pair : KeyPair) : State :=
  let x := kdfRK P sk (P.dh pair.priv bob)
  { DHs := pair, DHr := some bob, RK := x.1, CKs := some x.2, CKr := none, Ns := 0, Nr := 0, PN := 0, MKSKIPPED := [] }

/-- `RatchetInitBob`. -/
def initBob (sk : Bytes) (pair : KeyPair) : State :=
  { DHs := pair, DHr := none, RK := sk, CKs := none, CKr := none, Ns := 0, Nr := 0, PN := 0, MKSKIPPED := [] }

/-- How the length of the previous chain is written into a header, and read from it. -/
structure Numbering where
  write : Nat → Nat
  read : Nat → Nat

/-- As in the document: the number of messages. -/
def document : Numbering := ⟨fun n => n, fun n => n⟩

/-- As Signal's implementations write it: the number of the last message (0 if there is none). -/
def customary : Numbering := ⟨fun n => n - 1, fun n => n + 1⟩

/-- The bytes of a message with the keys `K`. -/
def sealed (P : Prims) (K : MKey) (ratchet : Bytes) (n pn : Nat) (sender receiver pt : Bytes) : Bytes :=
  let body := 0x33 :: (bytes 1 (point ratchet) ++ number 2 n ++ number 3 pn ++
    bytes 4 (cbc P K.cipher K.iv (padded pt)))
  body ++ (P.hmac K.mac (point sender ++ point receiver ++ body)).take 8

/-- Authenticated decryption of a message with the keys `K`. -/
def openWith (P : Prims) (K : MKey) (sender receiver : Bytes) (m : WhisperMsg) : Option Bytes :=
  let body := m.serialized.take (m.serialized.length - 8)
  if (P.hmac K.mac (point sender ++ point receiver ++ body)).take 8 = m.serialized.drop (m.serialized.length - 8) then
    match Cbc.Decrypt P K.cipher (K.iv ++ m.ciphertext) with
    | .ok pt => some pt
    | _ => none
  else none

/-- `RatchetEncrypt`. -/
def encrypt (P : Prims) (N : Numbering) (me them : Bytes) (s : State) (pt : Bytes) : Option (Bytes × State) :=
  match s.CKs with
  | none => none
  | some ck =>
    let x := kdfCK P ck
    some (sealed P x.2 s.DHs.pub s.Ns (N.write s.PN) me them pt, { s with CKs := some x.1, Ns := s.Ns + 1 })

/-- The loop of `SkipMessageKeys`, `n` times. -/
def skipLoop (P : Prims) : Nat → State → State
  | 0, s => s
  | n + 1, s => match s.CKr, s.DHr with
    | some ck, some d =>
      let x := kdfCK P ck
      skipLoop P n { s with CKr := some x.1, Nr := s.Nr + 1, MKSKIPPED := ((d, s.Nr), x.2) :: s.MKSKIPPED }
    | _, _ => s

/-- `SkipMessageKeys`, with `MAX_SKIP` as 2000. -/
def skipKeys (P : Prims) (s : State) (till : Nat) : Option State :=
  if s.Nr + 2000 < till then none
  else if s.CKr = none then some s
  else some (skipLoop P (till - s.Nr) s)

/-- `DHRatchet`. -/
def dhRatchet (P : Prims) (s : State) (d : Bytes) (fresh : KeyPair) : State :=
  let x := kdfRK P s.RK (P.dh s.DHs.priv d)
  let y := kdfRK P x.1 (P.dh fresh.priv d)
  { s with PN := s.Ns, Ns := 0, Nr := 0, DHr := some d, CKr := some x.2, DHs := fresh, RK := y.1, CKs := some y.2 }

/-- The last steps of `RatchetDecrypt`: skip to the message, and open it. -/
def inChain (P : Prims) (me them : Bytes) (m : WhisperMsg) (s : State) : Option (Bytes × State) :=
  (skipKeys P s m.counter).bind fun s => match s.CKr with
    | none => none
    | some ck =>
      let x := kdfCK P ck
      (openWith P x.2 them me m).map fun pt => (pt, { s with CKr := some x.1, Nr := s.Nr + 1 })

/-- `RatchetDecrypt`; the state is left alone when there is no result. -/
def decrypt (P : Prims) (N : Numbering) (me them : Bytes) (fresh : KeyPair) (s : State) (m : WhisperMsg) :
    Option (Bytes × State) :=
  match s.MKSKIPPED.find? (fun x => decide (x.1 = (m.ratchetKey, m.counter))) with
  | some x => (openWith P x.2 them me m).map fun pt =>
      (pt, { s with MKSKIPPED := s.MKSKIPPED.filter (fun x => decide (x.1 ≠ (m.ratchetKey, m.counter))) })
  | none =>
    if s.DHr = some m.ratchetKey then inChain P me them m s
    else (skipKeys P s (N.read m.prevCounter)).bind fun s => inChain P me them m (dhRatchet P s m.ratchetKey fresh)

/-! ## A client and such a peer -/

/-- The client's store, the peer's state, and the bytes sent so far: sent by the responder?, bytes, type. -/
structure Mixed where
  client : Store
  peer : State
  wire : List (Bool × Bytes × MsgType)

/-- The peer's identity key and the client's. -/
def Setup.me (S : Setup) (peer : Bool) : Bytes := if peer then S.idR.pub else S.idI.pub
def Setup.them (S : Setup) (peer : Bool) : Bytes := if peer then S.idI.pub else S.idR.pub

/-- The address under which the client knows the peer. -/
def Setup.name (S : Setup) (peer : Bool) : String := if peer then S.nameR else S.nameI
def Setup.dev (S : Setup) (peer : Bool) : Nat := if peer then S.devR else S.devI

/-- At the beginning. The peer is the responder (`true`) or the initiator (`false`). -/
def Mixed.init (P : Prims) (S : Setup) (peer : Bool) : Mixed :=
  { client := if peer then (World.init P S).I else S.responder
    peer := if peer then initBob (root0 P S) S.spk else initAlice P (root0 P S) S.spk.pub (newPair P S.rr)
    wire := [] }

/-- What the peer transmits for a message: an initiator that has read nothing yet puts it into an envelope. -/
def Mixed.transmit (P : Prims) (S : Setup) (peer : Bool) (s : State) (m : Bytes) : Bool × Bytes × MsgType :=
  if peer = false ∧ s.CKr = none then (peer, envelope P S m, .prekey) else (peer, m, .whisper)

/-- One event. -/
def Mixed.step (P : Prims) (S : Setup) (N : Numbering) (peer : Bool) (w : Mixed) : Ev → Mixed × Got
  | .send who pt =>
    if who = peer then
      match encrypt P N (Setup.me S peer) (Setup.them S peer) w.peer pt with
      | none => (w, .sendFailed)
      | some (m, s) => ({ w with peer := s, wire := w.wire ++ [Mixed.transmit P S peer s m] }, .sent)
    else
      let o := encryptMsg P {} w.client (Setup.name S peer) (Setup.dev S peer) pt
      match o.res with
      | .ok (b, ty) => ({ w with client := applyWrites w.client o.writes, wire := w.wire ++ [(who, b, ty)] }, .sent)
      | _ => ({ w with client := applyWrites w.client o.writes }, .sendFailed)
  | .deliver i rnd => match w.wire[i]? with
    | none => (w, .nothing)
    | some (who, b, ty) =>
      if who = peer then
        let o := receive P rnd w.client (Setup.name S peer) (Setup.dev S peer) b ty
        ({ w with client := applyWrites w.client o.writes }, .received o.res)
      else
        match inside b ty with
        | none => (w, .received (.err .invalidMessage))
        | some m => match decrypt P N (Setup.me S peer) (Setup.them S peer) (newPair P (rnd 0)) w.peer m with
          | none => (w, .received (.err .invalidMessage))
          | some (pt, s) => ({ w with peer := s }, .received (.ok pt))

def Mixed.gots (P : Prims) (S : Setup) (N : Numbering) (peer : Bool) : Mixed → List Ev → List Got
  | _, [] => []
  | w, ev :: evs => (w.step P S N peer ev).2 :: Mixed.gots P S N peer (w.step P S N peer ev).1 evs

def Mixed.run (P : Prims) (S : Setup) (N : Numbering) (peer : Bool) (w : Mixed) (evs : List Ev) : Mixed :=
  evs.foldl (fun w ev => (w.step P S N peer ev).1) w

/-- Is the message one to the peer? -/
def toPeer (peer : Bool) (m : AMsg) : Prop := m.epoch % 2 = if peer then 1 else 0

/-- Schedules in which the peer's store of skipped keys and the client's five chains amount to the same: no message to
the peer is older than a client would remember, and of no chain more than 2000 messages are missing when the next one
begins. -/
def Within (peer : Bool) : Abs → List Ev → Prop
  | _, [] => True
  | a, ev :: evs =>
    (∀ i rnd m, ev = .deliver i rnd → a.log[i]? = some m → toPeer peer m → a.expect m ≠ .stale ∧
      (m.epoch = a.recvLevel m.epoch + 1 → previous a.log m.epoch + 1 ≤ pos a.acc (m.epoch - 2) + 2000)) ∧
    Within peer (a.step ev) evs

/-- No message the peer has read before happens to authenticate under another key (the cryptographic assumption; nothing
about the primitives in `Prims` implies it). -/
def NoReplay (P : Prims) (S : Setup) (N : Numbering) (peer : Bool) : Abs → Mixed → List Ev → Prop
  | _, _, [] => True
  | a, w, ev :: evs =>
    (∀ i rnd m, ev = .deliver i rnd → a.log[i]? = some m → toPeer peer m → (m.epoch, m.ctr) ∈ a.acc →
      ∀ pt, (w.step P S N peer ev).2 ≠ .received (.ok pt)) ∧
    NoReplay P S N peer (a.step ev) (w.step P S N peer ev).1 evs

end Verif.Ratchet
