import Verif.Model.Messages
/-!
# The double ratchet: session states and records

Models `axolotl/ratchet.go` and the in-memory part of `axolotl/session.go`. Randomness is explicit:
functions that call `NewECKeyPair` take the 32 random bytes. `DeriveSecrets` (HKDF) never fails for the
sizes used (at most 80 bytes), so its error branches are not modelled.
-/
namespace Verif.Session
open Verif Verif.Keys Verif.Messages

/-- `chainKey` (axolotl/ratchet.go:60-63). -/
structure ChainKey where
  key : Bytes
  idx : Nat
  deriving DecidableEq, Repr

/-- `messageKeys` (axolotl/ratchet.go:72-77). -/
structure MsgKeys where
  cipherKey : Bytes
  macKey : Bytes
  iv : Bytes
  idx : Nat
  deriving DecidableEq, Repr

/-- A receiver chain: `SessionStructure_Chain` (ratchet public key, chain key, stored message keys).
The chain key is always present in chains made by this code; a stored chain without one is treated as
unreadable by the record decoder. Code: axolotl/protobuf/LocalStorageProtocol.proto:12-31. -/
structure RecvChain where
  ratchet : Bytes
  ck : ChainKey
  mks : List MsgKeys
  deriving DecidableEq, Repr

/-- The sender chain: ratchet key pair and chain key. Code:
axolotl/protobuf/LocalStorageProtocol.proto:12-31. -/
structure SendChain where
  pub : Bytes
  priv : Bytes
  ck : ChainKey
  deriving DecidableEq, Repr

/-- `SessionStructure_PendingPreKey`; `baseKey` is the 33-byte serialized key
(axolotl/session.go:236-245). `signedPreKeyId` is the 32-bit pattern of the Go `int32`. -/
structure Pending where
  preKeyId : Nat
  signedPreKeyId : Nat
  baseKey : Bytes
  deriving DecidableEq, Repr

/-- `sessionState` / `SessionStructure`. Code: axolotl/protobuf/LocalStorageProtocol.proto:11-57;
axolotl/session.go:18-20. -/
structure SState where
  version : Nat := 0
  localId : Bytes := []
  remoteId : Bytes := []
  rootKey : Bytes := []
  prevCounter : Nat := 0
  sender : Option SendChain := none
  recv : List RecvChain := []
  pending : Option Pending := none
  remoteReg : Nat := 0
  localReg : Nat := 0
  aliceBase : Bytes := []
  deriving DecidableEq, Repr

/-- `getSessionVersion` (axolotl/session.go:38-44). -/
def SState.getVersion (s : SState) : Nat := if s.version = 0 then 2 else s.version

/-! ## Chain keys (axolotl/ratchet.go) -/

/-- `getNextChainKey` (axolotl/ratchet.go:99-104); the index is a `uint32`. -/
def nextCK (P : Prims) (c : ChainKey) : ChainKey := ⟨P.hmac c.key [2], (c.idx + 1) % u32⟩

/-- `getMessageKeys` (axolotl/ratchet.go:106-118). -/
def msgKeys (P : Prims) (c : ChainKey) : MsgKeys :=
  let okm := P.hkdf (P.hmac c.key [1]) [] (ascii "WhisperMessageKeys") 80
  ⟨okm.take 32, (okm.drop 32).take 32, okm.drop 64, c.idx⟩

/-- `createChain` (axolotl/ratchet.go:46-58): new root key and chain key. -/
def createChain (P : Prims) (root theirPub ourPriv : Bytes) : Bytes × ChainKey :=
  let b := P.hkdf (P.dh ourPriv theirPub) root (ascii "WhisperRatchet") 64
  (b.take 32, ⟨b.drop 32, 0⟩)

/-- `calculateDerivedKeys` (axolotl/ratchet.go:125-135). -/
def derivedKeys (P : Prims) (km : Bytes) : Bytes × ChainKey :=
  let b := P.hkdf km [] (ascii "WhisperText") 64
  (b.take 32, ⟨b.drop 32, 0⟩)

/-- `diversifier` (axolotl/ratchet.go:153-157). -/
def diversifier : Bytes := List.replicate 32 0xFF

/-! ## Receiver chains (axolotl/session.go:108-213) -/

/-- Apply `f` to the first element satisfying `p` (the Go code finds the first chain with a given
ratchet key and mutates it through the pointer). Code: axolotl/session.go:113-120. -/
def updFirst {α : Type} (p : α → Bool) (f : α → α) : List α → List α
  | [] => []
  | a :: as => if p a then f a :: as else a :: updFirst p f as

/-- `getReceiverChain` (axolotl/session.go:113-120). -/
def getRecv (s : SState) (eph : Bytes) : Option RecvChain := s.recv.find? (fun c => c.ratchet == eph)

/-- Change the chain of a ratchet key. Code: axolotl/session.go:131-137. -/
def modRecv (s : SState) (eph : Bytes) (f : RecvChain → RecvChain) : SState :=
  { s with recv := updFirst (fun c => c.ratchet == eph) f s.recv }

/-- `addReceiverChain` (axolotl/session.go:139-151): at most five chains, the oldest is dropped. -/
def addRecv (s : SState) (eph : Bytes) (ck : ChainKey) : SState :=
  let l := s.recv ++ [⟨eph, ck, []⟩]
  { s with recv := if l.length > 5 then l.drop 1 else l }

/-- Remove the first stored key with this index (axolotl/session.go:196-201). -/
def eraseMk (counter : Nat) : List MsgKeys → List MsgKeys
  | [] => []
  | m :: ms => if m.idx = counter then ms else m :: eraseMk counter ms

/-! ## Session initialisation (axolotl/ratchet.go:168-235), version 3 at both call sites. -/

/-- `initializeSenderSession`: `rat` the fresh ratchet key pair. The receiver chain registered for the
peer's signed prekey is given the *sending* chain key (line 201). Code:
axolotl/ratchet.go:168-206. -/
def initSender (P : Prims) (s : SState) (ourId ourBase rat : KeyPair)
    (theirId theirSpk : Bytes) (theirOpk : Option Bytes) : SState :=
  let km := diversifier ++ P.dh ourId.priv theirSpk ++ P.dh ourBase.priv theirId
    ++ P.dh ourBase.priv theirSpk ++ (match theirOpk with
      | some k => P.dh ourBase.priv k
      | none => [])
  let dk := derivedKeys P km
  let ch := createChain P dk.1 theirSpk rat.priv
  let s := { s with version := 3, localId := ourId.pub, remoteId := theirId }
  let s := addRecv s theirSpk ch.2
  { s with sender := some ⟨rat.pub, rat.priv, ch.2⟩, rootKey := ch.1 }

/-- `initializeReceiverSession`; `OurRatchetKey` is the signed prekey pair (axolotl/session.go:401). -/
def initReceiver (P : Prims) (s : SState) (ourId ourSpk : KeyPair) (ourOpk : Option KeyPair)
    (theirId theirBase : Bytes) : SState :=
  let km := diversifier ++ P.dh ourSpk.priv theirId ++ P.dh ourId.priv theirBase
    ++ P.dh ourSpk.priv theirBase ++ (match ourOpk with
      | some k => P.dh k.priv theirBase
      | none => [])
  let dk := derivedKeys P km
  { s with version := 3, localId := ourId.pub, remoteId := theirId
           sender := some ⟨ourSpk.pub, ourSpk.priv, dk.2⟩, rootKey := dk.1 }

/-! ## Decryption -/

/-- `getOrCreateChainKey` (axolotl/session.go:703-730); `r` the random bytes of the new ratchet key.
`newRootKey`, `MakeECKeyPair`, `newChainKey` panic on keys of the wrong length. -/
def getOrCreateChainKey (P : Prims) (r : Bytes) (s : SState) (eph : Bytes) :
    Res (SState × ChainKey) :=
  match getRecv s eph with
  | some rc => if rc.ck.key.length = 32 then .ok (s, rc.ck) else .panic
  | none =>
    match s.sender with
    | none => .panic
    | some sd =>
      if s.rootKey.length ≠ 32 ∨ sd.priv.length ≠ 32 ∨ sd.pub.length ≠ 32 ∨ sd.ck.key.length ≠ 32 then
        .panic
      else
        let rc := createChain P s.rootKey eph sd.priv
        let our := newPair P r
        let sc := createChain P rc.1 eph our.priv
        let s := addRecv { s with rootKey := sc.1 } eph rc.2
        .ok ({ s with prevCounter := sd.ck.idx - 1
                      sender := some ⟨our.pub, our.priv, sc.2⟩ }, rc.2)

/-- The loop of `getOrCreateMessageKeys` (axolotl/session.go:752-759): the keys skipped in `n` steps and
the chain key reached. -/
def skipKeys (P : Prims) : Nat → ChainKey → List MsgKeys × ChainKey
  | 0, c => ([], c)
  | n + 1, c =>
    let (l, c') := skipKeys P n (nextCK P c)
    (msgKeys P c :: l, c')

/-- `getOrCreateMessageKeys` (axolotl/session.go:742-763). -/
def getOrCreateMessageKeys (P : Prims) (s : SState) (eph : Bytes) (ck : ChainKey) (counter : Nat) :
    Res (SState × MsgKeys) :=
  if ck.idx > counter then
    match getRecv s eph with
    | none => .err .duplicate
    | some rc =>
      match rc.mks.find? (fun m => m.idx = counter) with
      | some mk => .ok (modRecv s eph (fun c => { c with mks := eraseMk counter c.mks }), mk)
      | none => .err .duplicate
  else if counter - ck.idx > 2000 then .err .tooFarAhead
  else
    let (skipped, c) := skipKeys P (counter - ck.idx) ck
    .ok (modRecv s eph (fun rc => { rc with mks := rc.mks ++ skipped, ck := nextCK P c }), msgKeys P c)

/-- `sessionState.decrypt` (axolotl/session.go:625-655). The state is mutated in place, also when an
error is returned, so the mutated state is part of the result. -/
def decryptState (P : Prims) (r : Bytes) (s : SState) (m : WhisperMsg) : SState × Res Bytes :=
  if s.sender.isNone then (s, .err .uninitialized)
  else if m.version ≠ s.getVersion then (s, .err .mismatchedVersion)
  else match getOrCreateChainKey P r s m.ratchetKey with
  | .err e => (s, .err e)
  | .panic => (s, .panic)
  | .ok (s1, ck) =>
    match getOrCreateMessageKeys P s1 m.ratchetKey ck m.counter with
    | .err e => (s1, .err e)
    | .panic => (s1, .panic)
    | .ok (s2, mk) =>
      if s2.remoteId.length ≠ 32 ∨ s2.localId.length ≠ 32 then (s2, .panic)
      else if verifyMac P m s2.remoteId s2.localId mk.macKey = false then (s2, .err .invalidMac)
      else match Cbc.Decrypt P mk.cipherKey (mk.iv ++ m.ciphertext) with
        | .ok pt => ({ s2 with pending := none }, .ok pt)
        | .err e => (s2, .err e)
        | .panic => (s2, .panic)

/-! ## Session records (axolotl/session.go:251-320) -/

/-- `SessionRecord`. Code: axolotl/session.go:252-256. -/
structure SRecord where
  cur : SState := {}
  prev : List SState := []
  fresh : Bool := true
  deriving DecidableEq, Repr

/-- `hasSessionState` (axolotl/session.go:296-308). -/
def SRecord.hasState (sr : SRecord) (version : Nat) (key : Bytes) : Bool :=
  (sr.cur :: sr.prev).any (fun s => s.getVersion = version ∧ s.aliceBase = key)

/-- `promoteState` (axolotl/session.go:310-316): the current state goes to the front of the previous
states, of which at most 40 are kept; the promoted state is *not* removed from them. In memory it is the
same pointer, but nothing mutates it between promotion and storing, so a copy models it. -/
def SRecord.promote (sr : SRecord) (s : SState) : SRecord :=
  let p := sr.cur :: sr.prev
  { sr with prev := if p.length > 40 then p.dropLast else p, cur := s }

/-- `archiveCurrentState` (axolotl/session.go:318-320). -/
def SRecord.archive (sr : SRecord) : SRecord := sr.promote {}

/-- The loop over previous states in `SessionCipher.decrypt` (axolotl/session.go:615-621). Each state
tried is mutated in place. `rnd k` is the randomness available to the `k`-th attempt. -/
def tryPrev (P : Prims) (rnd : Nat → Bytes) (m : WhisperMsg) :
    Nat → List SState → List SState × Res (Option (SState × Bytes))
  | _, [] => ([], .ok none)
  | k, s :: rest =>
    match decryptState P (rnd k) s m with
    | (s', .ok b) => (s' :: rest, .ok (some (s', b)))
    | (s', .panic) => (s' :: rest, .panic)
    | (s', .err _) =>
      let q := tryPrev P rnd m (k + 1) rest
      (s' :: q.1, q.2)

/-- `SessionCipher.decrypt` (axolotl/session.go:609-623). -/
def decryptRecord (P : Prims) (rnd : Nat → Bytes) (sr : SRecord) (m : WhisperMsg) :
    SRecord × Res Bytes :=
  match decryptState P (rnd 0) sr.cur m with
  | (s, .ok b) => ({ sr with cur := s }, .ok b)
  | (s, .panic) => ({ sr with cur := s }, .panic)
  | (s, .err _) =>
    match tryPrev P rnd m 1 sr.prev with
    | (p, .ok none) => ({ sr with cur := s, prev := p }, .err .invalidMessage)
    | (p, .ok (some (s', b))) => (SRecord.promote { sr with cur := s, prev := p } s', .ok b)
    | (p, .err e) => ({ sr with cur := s, prev := p }, .err e)
    | (p, .panic) => ({ sr with cur := s, prev := p }, .panic)

/-! ## Encryption -/

/-- `Envelope_CIPHERTEXT` / `Envelope_PREKEY_BUNDLE`. Code: protobuf/SignalService.proto:14-40. -/
inductive MsgType where
  | whisper
  | prekey
  deriving DecidableEq, Repr

/-- `SessionEncryptMessage` between load and store (axolotl/session.go:531-566): the new state and the
bytes to send. `byte(version)` is `version % 256`. -/
def encryptState (P : Prims) (s : SState) (pt : Bytes) : Res (SState × Bytes × MsgType) :=
  match s.sender with
  | none => .panic
  | some sd => do
    if sd.ck.key.length ≠ 32 then .panic
    else if sd.pub.length ≠ 32 then .panic
    else
    let mk := msgKeys P sd.ck
    let ct ← Cbc.Encrypt P mk.cipherKey mk.iv pt
    if s.localId.length ≠ 32 ∨ s.remoteId.length ≠ 32 then .panic
    else
    let v := s.getVersion % 256
    let wm := newWhisper P v mk.macKey sd.pub sd.ck.idx s.prevCounter ct s.localId s.remoteId
    let s' := { s with sender := some { sd with ck := nextCK P sd.ck } }
    match s.pending with
    | none => .ok (s', wm.serialized, .whisper)
    | some p => do
      let bk ← deser p.baseKey
      .ok (s', newPreKeyMsg v s.localReg p.preKeyId p.signedPreKeyId bk s.localId wm, .prekey)

end Verif.Session
