import Verif.Model.Api
/-!
# Specification of a two-party conversation

What two clients that talk to each other over a lossy, reordering, duplicating network should observe,
independently of how keys are derived (`Abs`), and the composition of two modelled clients with such a
network (`World`). The schedule is a list of events: either party sends a plaintext, or the network
delivers any message sent so far, any number of times, in any order, or never.
-/
namespace Verif.Conv
open Verif Verif.Keys Verif.Messages Verif.Session Verif.Api

/-- An event of the schedule. -/
inductive Ev where
  /-- The initiator (`false`) or the responder (`true`) sends. -/
  | send (responder : Bool) (pt : Bytes)
  /-- The network delivers message number `i` (in order of sending); `rnd` is the randomness the
  receiver would draw. -/
  | deliver (i : Nat) (rnd : Nat → Bytes)

/-! ## The abstract machine -/

/-- A sent message: its epoch says who sent it (odd: the initiator) and with how many changes of
direction before it; `ctr` is its number within the epoch. -/
structure AMsg where
  epoch : Nat
  ctr : Nat
  pt : Bytes
  deriving DecidableEq, Repr

/-- Both parties' sending epochs, everything sent, and what has been accepted. The initiator starts
sending in epoch 1, the responder has no session yet (0). -/
structure Abs where
  lvI : Nat := 1
  lvR : Nat := 0
  log : List AMsg := []
  acc : List (Nat × Nat) := []
  deriving DecidableEq, Repr

/-- Number of messages sent in epoch `e`. -/
def count (log : List AMsg) (e : Nat) : Nat := (log.filter (fun m => m.epoch = e)).length

/-- One more than the largest message number accepted in epoch `e`. -/
def pos : List (Nat × Nat) → Nat → Nat
  | [], _ => 0
  | (e', c) :: l, e => if e' = e then max (pos l e) (c + 1) else pos l e

/-- Keep the last five. -/
def last5 (l : List Nat) : List Nat := l.drop (l.length - 5)

/-- Epochs a party sending in epoch `n` can still receive out of order: the last five it has received
(the initiator counts epoch 0, the responder's published key). -/
def ret : Nat → List Nat
  | 0 => []
  | 1 => [0]
  | n + 2 => last5 (ret n ++ [n + 1])

inductive Outcome where
  /-- The plaintext is returned. -/
  | accept
  /-- An error is returned. -/
  | refuse
  /-- The epoch is older than the receiver remembers. -/
  | stale
  deriving DecidableEq, Repr

/-- Sending epoch of the receiver of a message of epoch `e`. -/
def Abs.recvLevel (a : Abs) (e : Nat) : Nat := if e % 2 = 1 then a.lvR else a.lvI

/-- What must happen when `m` is delivered. -/
def Abs.expect (a : Abs) (m : AMsg) : Outcome :=
  let n := a.recvLevel m.epoch
  if m.epoch = n + 1 then (if m.ctr > 2000 then .refuse else .accept)
  else if m.epoch ∈ ret n then
    if (m.epoch, m.ctr) ∈ a.acc then .refuse
    else if m.ctr > pos a.acc m.epoch + 2000 then .refuse
    else .accept
  else .stale

def Abs.accept (a : Abs) (m : AMsg) : Abs :=
  let n := a.recvLevel m.epoch
  let a := { a with acc := (m.epoch, m.ctr) :: a.acc }
  if m.epoch = n + 1 then
    (if m.epoch % 2 = 1 then { a with lvR := n + 2 } else { a with lvI := n + 2 })
  else a

def Abs.sendLevel (a : Abs) (responder : Bool) : Nat := if responder then a.lvR else a.lvI

/-- One event. -/
def Abs.step (a : Abs) : Ev → Abs
  | .send who pt =>
    let e := a.sendLevel who
    { a with log := a.log ++ [⟨e, count a.log e, pt⟩] }
  | .deliver i _ => match a.log[i]? with
    | none => a
    | some m => match a.expect m with
      | .accept => a.accept m
      | _ => a

/-- What an event is expected to yield. -/
inductive Want where
  | sent
  | nothing
  | got (pt : Bytes)
  | refused
  | stale
  deriving DecidableEq, Repr

def Abs.want (a : Abs) : Ev → Want
  | .send _ _ => .sent
  | .deliver i _ => match a.log[i]? with
    | none => .nothing
    | some m => match a.expect m with
      | .accept => .got m.pt
      | .refuse => .refused
      | .stale => .stale

def wants : Abs → List Ev → List Want
  | _, [] => []
  | a, ev :: evs => a.want ev :: wants (a.step ev) evs

/-- Schedules considered: the responder sends only once it has a session (before, the send path builds
one from a bundle instead), plaintexts are shorter than 2^60 bytes, random draws are 32 bytes. -/
def Ev.Legal (a : Abs) : Ev → Prop
  | .send who pt => (who = true → a.lvR ≠ 0) ∧ pt.length < 2 ^ 60
  | .deliver _ rnd => (rnd 0).length = 32

def Legal : Abs → List Ev → Prop
  | _, [] => True
  | a, ev :: evs => ev.Legal a ∧ Legal (a.step ev) evs

/-! ## Two modelled clients and the network -/

/-- Everything fixed before the conversation starts. -/
structure Setup where
  idI : KeyPair
  idR : KeyPair
  spk : KeyPair
  opk : Option KeyPair
  rb : Bytes
  rr : Bytes
  spkId : Nat
  pkId : Nat
  regI : Nat
  regR : Nat
  /-- The initiator's address as the responder sees it, and the other way round. -/
  nameI : String
  devI : Nat
  nameR : String
  devR : Nat
  initiator : Store
  responder : Store
  bundle : Bundle

/-- The responder published a bundle with a signed prekey (and possibly a one-time prekey) it holds; the
parties have no session with each other; each accepts the other's identity key. -/
structure Setup.Ok (P : Prims) (S : Setup) : Prop where
  idI : S.idI.Valid P
  idR : S.idR.Valid P
  spk : S.spk.Valid P
  opk : ∀ k, S.opk = some k → k.Valid P
  rb : S.rb.length = 32
  rr : S.rr.length = 32
  spkId : S.spkId ≠ 0 ∧ S.spkId < 2 ^ 32
  pkId : S.pkId < 2 ^ 32 ∧ (S.pkId = 0 ↔ S.opk = none)
  regI : S.regI < 2 ^ 32
  regR : S.regR < 2 ^ 32
  bundleId : S.bundle.identityKey = S.idR.pub
  bundleSpk : S.bundle.signedPreKey = some S.spk.pub ∧ S.bundle.signedPreKeyId = S.spkId
  bundleOpk : S.bundle.preKey = S.opk.map KeyPair.pub ∧ S.bundle.preKeyId = S.pkId
  bundleSig : P.verify S.idR.pub (5 :: S.spk.pub) S.bundle.signature = true
  iIdent : S.initiator.identity = some S.idI
  iReg : S.initiator.regId = some S.regI
  iTrust : isTrusted S.initiator S.nameR S.idR.pub = true
  iNone : S.initiator.sessions (Names.sessName S.nameR S.devR) = .absent
  rIdent : S.responder.identity = some S.idR
  rReg : S.responder.regId = some S.regR
  rTrust : isTrusted S.responder S.nameI S.idI.pub = true
  rNone : S.responder.sessions (Names.sessName S.nameI S.devI) = .absent
  rSpk : S.responder.signedPreKeys S.spkId = some S.spk
  rOpk : ∀ k, S.opk = some k → S.responder.preKeys S.pkId = some k

/-- The two stores and the bytes sent so far: sent by the responder?, bytes, type. -/
structure World where
  I : Store
  R : Store
  wire : List (Bool × Bytes × MsgType)

/-- The initiator builds a session from the bundle. -/
def World.init (P : Prims) (S : Setup) : World :=
  { I := applyWrites S.initiator
      (buildSender P {} S.initiator S.rb S.rr S.nameR S.devR S.bundle).writes
    R := S.responder
    wire := [] }

/-- Decryption of a received byte string of the given type: parse, then decrypt. -/
def receive (P : Prims) (rnd : Nat → Bytes) (st : Store) (rec : String) (dev : Nat) (b : Bytes)
    (ty : MsgType) : Out Bytes :=
  match ty with
  | .whisper => match loadWhisper b with
    | .ok m => decryptWhisper P {} rnd st rec dev m
    | .err e => ⟨[], .err e⟩
    | .panic => ⟨[], .panic⟩
  | .prekey => match loadPreKeyMsg b with
    | .ok m => decryptPreKey P {} rnd st rec dev m
    | .err e => ⟨[], .err e⟩
    | .panic => ⟨[], .panic⟩

/-- What the event yields. -/
inductive Got where
  | sent
  | sendFailed
  | nothing
  | received (r : Res Bytes)
  deriving DecidableEq, Repr

/-- One event in the composed system. -/
def World.step (P : Prims) (S : Setup) (w : World) : Ev → World × Got
  | .send false pt =>
    let o := encryptMsg P {} w.I S.nameR S.devR pt
    match o.res with
    | .ok (b, ty) => ({ w with I := applyWrites w.I o.writes, wire := w.wire ++ [(false, b, ty)] }, .sent)
    | _ => ({ w with I := applyWrites w.I o.writes }, .sendFailed)
  | .send true pt =>
    let o := encryptMsg P {} w.R S.nameI S.devI pt
    match o.res with
    | .ok (b, ty) => ({ w with R := applyWrites w.R o.writes, wire := w.wire ++ [(true, b, ty)] }, .sent)
    | _ => ({ w with R := applyWrites w.R o.writes }, .sendFailed)
  | .deliver i rnd => match w.wire[i]? with
    | none => (w, .nothing)
    | some (false, b, ty) =>
      let o := receive P rnd w.R S.nameI S.devI b ty
      ({ w with R := applyWrites w.R o.writes }, .received o.res)
    | some (true, b, ty) =>
      let o := receive P rnd w.I S.nameR S.devR b ty
      ({ w with I := applyWrites w.I o.writes }, .received o.res)

def World.gots (P : Prims) (S : Setup) : World → List Ev → List Got
  | _, [] => []
  | w, ev :: evs => (w.step P S ev).2 :: World.gots P S (w.step P S ev).1 evs

/-- The composed system does what the abstract machine wants. Nothing is promised about stale messages. -/
def Agree : Want → Got → Prop
  | .sent, .sent => True
  | .nothing, .nothing => True
  | .got pt, .received (.ok pt') => pt' = pt
  | .refused, .received (.err _) => True
  | .stale, .received r => ∀ pt, r ≠ .ok pt
  | _, _ => False

/-- No stale message happens to authenticate under the unrelated key the receiver derives for it (the
cryptographic assumption; nothing about the primitives in `Prims` implies it). -/
def NoForgery (P : Prims) (S : Setup) : Abs → World → List Ev → Prop
  | _, _, [] => True
  | a, w, ev :: evs =>
    (a.want ev = .stale → ∀ pt, (w.step P S ev).2 ≠ .received (.ok pt)) ∧
    NoForgery P S (a.step ev) (w.step P S ev).1 evs

/-- The ratchet keys: the signed prekey, the initiator's first, and those drawn on delivery. -/
def ratchetKeys (P : Prims) (S : Setup) (evs : List Ev) : List Bytes :=
  S.spk.pub :: (newPair P S.rr).pub ::
    evs.filterMap (fun ev => match ev with
      | .deliver _ rnd => some (newPair P (rnd 0)).pub
      | .send _ _ => none)

end Verif.Conv
