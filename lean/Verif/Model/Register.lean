import Verif.Model.PreKeys
import Verif.Model.Sign
import Verif.Model.Api
/-!
# Registration (textsecure.go:262-318, 400-470; prekeys.go; store.go)

The part of `Setup` that registers a new installation or loads the data of an old one. The disk holds
plaintexts: encryption of store files is modelled in `Verif/Model/Files.lean` (reading a written file gives
back its content). File writes do not fail, except that of the signed prekey, whose error the code drops.
The configuration file and the profile key are modelled in `Verif/Model/Start.lean`.
-/
namespace Verif.Register
open Verif Verif.Names Verif.PreKeys

/-- `SignedPreKeyRecordStructure` (axolotl/protobuf/LocalStorageProtocol.pb.go:288-298); the timestamp is
eight little-endian bytes. -/
structure SRec where
  id : Nat
  pub : Bytes
  priv : Bytes
  sig : Bytes
  time : Bytes
  deriving DecidableEq, Repr

/-- `SignedPreKeyRecord.Serialize` (axolotl/prekeys.go:103-109): proto3, zero values are left out. -/
def serSRec (r : SRec) : Bytes :=
  Wire.encFields ((if r.id = 0 then [] else [(1, .varint r.id)])
    ++ (if r.pub = [] then [] else [(2, .len r.pub)])
    ++ (if r.priv = [] then [] else [(3, .len r.priv)])
    ++ (if r.sig = [] then [] else [(4, .len r.sig)])
    ++ (if r.time = List.replicate 8 0 then [] else [(5, .fixed64 r.time)]))

/-- `LoadSignedPreKeyRecord` (axolotl/prekeys.go:93-100). -/
def loadSRec (b : Bytes) : Res SRec :=
  match Wire.decFields b with
  | none => .err .badProto
  | some fs => .ok ⟨(Wire.getU32 fs 1).getD 0, (Wire.getBytes fs 2).getD [], (Wire.getBytes fs 3).getD [],
      (Wire.getBytes fs 4).getD [], (Wire.getFixed64 fs 5).getD (List.replicate 8 0)⟩

/-- `LoadSignedPreKey` (store.go:308-320). -/
def loadSigned (d : Dir) (id : Nat) : Res SRec :=
  match PreKeys.read d (idToFilename id) with
  | none => .err .storeRead
  | some b => loadSRec b

/-- Files of the identity directory written at registration (store.go:174-207, 370-393). -/
inductive IdFile where
  | regid
  | password
  | signalingKey
  | identityKey
  deriving DecidableEq, Repr

/-- The store directory (store.go:30-46). -/
structure Disk where
  ident : IdFile → Option Bytes := fun _ => none
  preKeys : Dir := []
  signed : Dir := []

/-- The disk, and the prekeys the server has for this account. Code: textsecure.go:398-468;
store.go:461-482. -/
structure World where
  disk : Disk := {}
  server : Option State := none

/-- One step that leaves a trace: a file write, or the accepted `PUT /v2/keys`. Code:
textsecure.go:398-468; server.go:551-565. -/
inductive Eff where
  | ident (f : IdFile) (b : Bytes)
  /-- `generatePreKey` (prekeys.go:73-78) with the randomness of the key pair. -/
  | preKey (id : Nat) (r : Bytes)
  | signed (r : SRec)
  | publish (st : State)

/-- One such step. Code: textsecure.go:398-468; server.go:551-565. -/
def applyEff (P : Prims) (w : World) : Eff → World
  | .ident f b => { w with disk := { w.disk with ident := fun g => if g = f then some b else w.disk.ident g } }
  | .preKey id r => { w with disk := { w.disk with preKeys := generatePreKey P w.disk.preKeys id r } }
  | .signed r => { w with disk := { w.disk with signed := write w.disk.signed (idToFilename r.id) (serSRec r) } }
  | .publish st => { w with server := some st }

/-- Several, in order. Code: textsecure.go:398-468; server.go:551-565. -/
def applyEffs (P : Prims) (w : World) (es : List Eff) : World := es.foldl (applyEff P) w

/-- Randomness and surroundings of one start of the program. Code: textsecure.go:263-376, 398-468. -/
structure Env where
  regWord : Nat
  password : Bytes
  signalingKey : Bytes
  ident : Bytes
  startWord : Nat
  keys : Nat → Bytes
  spk : Bytes
  spkWord : Nat
  random : Bytes
  /-- `time.Now().UnixNano()*1000` as stored. -/
  time : Bytes
  /-- `RegisterWithCrayfish`, the verification code and `saveConfig` (textsecure.go:413-438). -/
  backend : Res Unit := .ok ()
  /-- whether the signed prekey can be written (prekeys.go:120 drops the error). -/
  signedOk : Bool := true
  /-- whether the server accepts the prekeys (`registerPreKeys`, server.go:551-565). -/
  putOk : Bool := true

/-- `strconv.Itoa` as bytes (store.go:116-119). -/
def numBytes (n : Nat) : Bytes := (dec n).map (fun c => UInt8.ofNat c.toNat)

/-- `readNumFromFile` after reading (store.go:108-113): `strconv.Atoi`, then truncation to 32 bits. -/
def readNum (b : Bytes) : Res Nat :=
  let s := b.map (fun x => Char.ofNat x.toNat)
  let neg := s.head? = some '-'
  let d := if neg ∨ s.head? = some '+' then s.drop 1 else s
  if d = [] ∨ ¬ (∀ c ∈ d, isDigit c = true) then .err .other
  else if neg then (if undec d ≤ 2 ^ 63 then .ok ((u32 - undec d % u32) % u32) else .err .other)
  else if undec d < 2 ^ 63 then .ok (undec d % u32) else .err .other

/-- `generateRegistrationID` (textsecure.go:43-45). -/
def registrationId (r : Nat) : Nat := r &&& 0x3fff

/-- `generateSignalingKey` (textsecure.go:49-55), from 52 random bytes. -/
def signalingKey (r : Bytes) : Bytes := r.set 0 1

/-- `generatePassword` (textsecure.go:36-40), from 16 random bytes. -/
def password (r : Bytes) : Bytes := Encoding.b64EncodeNoPad r

/-- textsecure.go:283-296: the files written before `registerDevice`. -/
def identEffs (P : Prims) (e : Env) : List Eff :=
  [.ident .regid (numBytes (registrationId e.regWord)),
   .ident .password (password e.password),
   .ident .signalingKey (signalingKey e.signalingKey),
   .ident .identityKey ((Keys.newPair P e.ident).pub ++ (Keys.newPair P e.ident).priv)]

/-- The one-time prekeys (prekeys.go:93-99). -/
def batchEffs (e : Env) : List Eff :=
  (List.range batchSize).map (fun i => .preKey ((randID e.startWord + i) % u32) (e.keys i))

/-- `generateSignedPreKey` (prekeys.go:112-122). -/
def signedRec {P : Prims} (E : Sign.Ed P) (e : Env) : SRec :=
  let kp := Keys.newPair P e.spk
  ⟨randID e.spkWord, kp.pub, kp.priv,
    Sign.sign E (Keys.newPair P e.ident).priv (Keys.ser kp.pub) e.random, e.time⟩

/-- `generateSignedPreKeyEntity` (prekeys.go:62-68). -/
def signedEntity (r : SRec) : SignedEntity := ⟨r.id, Encoding.encodeKey r.pub, Encoding.b64EncodeNoPad r.sig⟩

/-- The registration of a new installation (textsecure.go:278-300, 411-459): everything that leaves a
trace, in order, and the result. -/
def registration {P : Prims} (E : Sign.Ed P) (e : Env) (w : World) : List Eff × Res Unit :=
  match e.backend with
  | .err x => (identEffs P e, .err x)
  | .panic => (identEffs P e, .panic)
  | .ok _ =>
    let effs := identEffs P e ++ batchEffs e ++ [.preKey lastResortID (e.keys batchSize)]
      ++ (if e.signedOk then [.signed (signedRec E e)] else [])
    match generatePreKeyState (applyEffs P w effs).disk.preKeys (Keys.newPair P e.ident).pub
        (signedEntity (signedRec E e)) with
    | .err x => (effs, .err x)
    | .panic => (effs, .panic)
    | .ok st => if e.putOk then (effs ++ [.publish st], .ok ()) else (effs, .err .other)

/-- `needsRegistration` (textsecure.go:87-89, store.go:349-355). -/
def registered (d : Disk) : Bool := (PreKeys.read d.preKeys (idToFilename lastResortID)).isSome

/-- What a start works with afterwards. Code: textsecure.go:263-376. -/
structure Loaded where
  regId : Nat
  password : Bytes
  signalingKey : Bytes
  identity : Option Keys.KeyPair
  deriving DecidableEq, Repr

/-- `GetIdentityKeyPair` (store.go:192-202). -/
def identityOf (d : Disk) : Option Keys.KeyPair :=
  match d.ident .identityKey with
  | none => none
  | some b => if b.length = 64 then some ⟨b.drop 32, b.take 32⟩ else none

/-- textsecure.go:302-313 and 322: the error for the identity key is not looked at. -/
def load (d : Disk) : Res Loaded :=
  match d.ident .regid with
  | none => .err .storeRead
  | some b => do
    let n ← readNum b
    match d.ident .password, d.ident .signalingKey with
    | some p, some k => .ok ⟨n, p, k, identityOf d⟩
    | _, _ => .err .storeRead

/-- The registration part of `Setup` (textsecure.go:262-322). -/
def start {P : Prims} (E : Sign.Ed P) (e : Env) (w : World) : List Eff × Res Loaded :=
  if registered w.disk then ([], load w.disk)
  else match registration E e w with
    | (effs, .ok _) => (effs, load (applyEffs P w effs).disk)
    | (effs, .err x) => (effs, .err x)
    | (effs, .panic) => (effs, .panic)

/-- A history of starts; the process may die after any number of steps (`some k`). Code:
textsecure.go:263-376. -/
def history {P : Prims} (E : Sign.Ed P) (w : World) : List (Env × Option Nat) → World
  | [] => w
  | (e, none) :: l => history E (applyEffs P w (start E e w).1) l
  | (e, some k) :: l => history E (applyEffs P w ((start E e w).1.take k)) l

/-- The session code's view of the disk (`LoadPreKey`, `LoadSignedPreKey`, `GetIdentityKeyPair`,
`GetLocalRegistrationID`): records of the wrong length, which `MakeECKeyPair` would panic on, are left
out. Code: store.go:294-306, 308-320, 192-202. -/
def keyPair (pub priv : Bytes) : Option Keys.KeyPair :=
  if pub.length = 32 ∧ priv.length = 32 then some ⟨priv, pub⟩ else none

/-- The store of the session code, from the disk. Code: store.go:294-306, 308-320, 192-202,
182-185. -/
def storeOf (d : Disk) (alwaysTrust : Bool) : Api.Store where
  sessions := fun _ => .absent
  identities := fun _ => .absent
  preKeys := fun i => match loadPreKey d.preKeys i with | .ok r => keyPair r.pub r.priv | _ => none
  signedPreKeys := fun i => match loadSigned d.signed i with | .ok r => keyPair r.pub r.priv | _ => none
  identity := identityOf d
  regId := match d.ident .regid with
    | some b => (match readNum b with | .ok n => some n | _ => none)
    | none => none
  alwaysTrust := alwaysTrust

end Verif.Register
