import Verif.Model.Keys
import Verif.Model.Names
import Verif.Model.Wire
import Verif.Model.Encoding
/-!
# Prekey files and the published prekey state (prekeys.go, store.go, axolotl/prekeys.go)

The prekey directory is a list of files, name and content. Contents are the plaintexts: encryption of
store files is modelled in `Verif/Model/Files.lean` (reading a written file gives back its content).
A file write is atomic and does not fail.
-/
namespace Verif.PreKeys
open Verif Verif.Names

/-- `idToFilename` (store.go:95-97). -/
def idToFilename (id : Nat) : Name := decPad 9 id

/-- White space skipped by `fmt.Sscanf` in front of a number: every space of Unicode but the end of the line, on which
`Sscanf` fails (also after a carriage return). Code: store.go:99-106. -/
def isSpace (c : Char) : Bool :=
  let n := c.toNat
  n == 9 || (11 ≤ n && n ≤ 13) || n == 32 || n == 0x85 || n == 0xA0 || n == 0x1680 || (0x2000 ≤ n && n ≤ 0x200A)
    || n == 0x2028 || n == 0x2029 || n == 0x202F || n == 0x205F || n == 0x3000

/-- `filenameToID` (store.go:99-106): `fmt.Sscanf(fname, "%d", &id)` into a `uint32` reads the leading run
of digits, ignores what follows, and fails without digits or on overflow. -/
def filenameToID (fname : Name) : Res Nat :=
  let d := (fname.dropWhile isSpace).takeWhile isDigit
  if d = [] then .err .other
  else if undec d < u32 then .ok (undec d) else .err .other

/-- `PreKeyRecordStructure` (axolotl/protobuf/LocalStorageProtocol.pb.go:225-233). -/
structure Rec where
  id : Nat
  pub : Bytes
  priv : Bytes
  deriving DecidableEq, Repr

/-- `PreKeyRecord.Serialize` (axolotl/prekeys.go:42-48): proto3, so zero values are left out. -/
def serRec (r : Rec) : Bytes :=
  Wire.encFields ((if r.id = 0 then [] else [(1, .varint r.id)])
    ++ (if r.pub = [] then [] else [(2, .len r.pub)])
    ++ (if r.priv = [] then [] else [(3, .len r.priv)]))

/-- `LoadPreKeyRecord` (axolotl/prekeys.go:32-39). -/
def loadRec (b : Bytes) : Res Rec :=
  match Wire.decFields b with
  | none => .err .badProto
  | some fs => .ok ⟨(Wire.getU32 fs 1).getD 0, (Wire.getBytes fs 2).getD [], (Wire.getBytes fs 3).getD []⟩

/-- A directory of files. Code: store.go:286-288. -/
abbrev Dir := List (Name × Bytes)

/-- Content of a file. Code: store.go:163-170. -/
def read (d : Dir) (n : Name) : Option Bytes := (d.find? (fun f => f.1 = n)).map Prod.snd

/-- Create or overwrite a file. Code: store.go:172-178. -/
def write (d : Dir) (n : Name) (c : Bytes) : Dir :=
  if d.any (fun f => f.1 = n) then d.map (fun f => if f.1 = n then (n, c) else f) else d ++ [(n, c)]

/-- `StorePreKey` (store.go:326-332). -/
def storePreKey (d : Dir) (id : Nat) (r : Rec) : Dir := write d (idToFilename id) (serRec r)

/-- `LoadPreKey` (store.go:294-306). -/
def loadPreKey (d : Dir) (id : Nat) : Res Rec :=
  match read d (idToFilename id) with
  | none => .err .storeRead
  | some b => loadRec b

/-- `RemovePreKey` (store.go:361-363). -/
def removePreKey (d : Dir) (id : Nat) : Dir := d.filter (fun f => f.1 ≠ idToFilename id)

/-- Order of file names: `filepath.Walk` visits them in lexical order. Code: prekeys.go:84-86. -/
def nameLe : Name → Name → Bool
  | [], _ => true
  | _ :: _, [] => false
  | a :: as, b :: bs =>
    if a.toNat < b.toNat then true else if b.toNat < a.toNat then false else nameLe as bs

/-- Insert into the list of files, by name. Code: prekeys.go:84-86. -/
def insertFile (f : Name × Bytes) : Dir → Dir
  | [] => [f]
  | x :: xs => if nameLe f.1 x.1 then f :: x :: xs else x :: insertFile f xs

/-- The files in the order `filepath.Walk` reports them (sub-directories do not occur). Code:
prekeys.go:84-86. -/
def walk (d : Dir) : Dir := d.foldr insertFile []

/-- `loadPreKeys` (prekeys.go:141-159): an unreadable name stops the walk with an error; an unreadable
record leaves a nil entry (`none`). -/
def loadPreKeys (d : Dir) : Res (List (Option Rec)) :=
  (walk d).foldr (fun f acc =>
    match filenameToID f.1 with
    | .ok id => do
      let rest ← acc
      .ok ((match loadPreKey d id with | .ok r => some r | _ => none) :: rest)
    | .err e => .err e
    | .panic => .panic) (.ok [])

/-- `preKeyEntity` (prekeys.go:20-23). -/
structure Entity where
  id : Nat
  publicKey : Bytes
  deriving DecidableEq, Repr

/-- `signedPreKeyEntity` (prekeys.go:25-29). -/
structure SignedEntity where
  id : Nat
  publicKey : Bytes
  signature : Bytes
  deriving DecidableEq, Repr

/-- `generatepreKeyEntity` (prekeys.go:55-60): a nil record is dereferenced. -/
def entity : Option Rec → Res Entity
  | none => .panic
  | some r => .ok ⟨r.id, Encoding.encodeKey r.pub⟩

/-- `preKeyState` (prekeys.go:31-37). -/
structure State where
  identityKey : Bytes
  preKeys : List Entity
  lastResort : Entity
  signed : SignedEntity
  deriving DecidableEq, Repr

/-- The prekeys as sent. Code: prekeys.go:124-139. -/
def entities : List (Option Rec) → Res (List Entity)
  | [] => .ok []
  | r :: rs => do
    let e ← entity r
    let es ← entities rs
    .ok (e :: es)

/-- `generatePreKeyState` (prekeys.go:124-139): the last record in directory order is taken for the
last-resort key; with no record `make([]*preKeyEntity, -1)` panics. -/
def generatePreKeyState (d : Dir) (identityPub : Bytes) (signed : SignedEntity) : Res State := do
  let rs ← loadPreKeys d
  if rs = [] then .panic
  else do
    let es ← entities rs.dropLast
    let l ← entity (rs.getLast?.getD none)
    .ok ⟨Encoding.b64EncodeNoPad (Keys.ser identityPub), es, l, signed⟩

/-- `generatePreKey` (prekeys.go:73-78); `r` is the randomness of the new key pair. -/
def generatePreKey (P : Prims) (d : Dir) (id : Nat) (r : Bytes) : Dir :=
  let kp := Keys.newPair P r
  storePreKey d id ⟨id, kp.pub, kp.priv⟩

/-- `lastResortPreKeyID` (store.go:41). -/
def lastResortID : Nat := 0xFFFFFF

/-- `preKeyBatchSize` (prekeys.go:82). -/
def batchSize : Nat := 100

/-- The loop of `generatePreKeys` (prekeys.go:93-99), `n` keys from `start`, `rnd i` the randomness of the
i-th key; ids are `uint32`. -/
def generateBatch (P : Prims) (d : Dir) (start : Nat) (rnd : Nat → Bytes) : Nat → Dir
  | 0 => d
  | n + 1 => generatePreKey P (generateBatch P d start rnd n) ((start + n) % u32) (rnd n)

/-- `randID` (prekeys.go:51-53). -/
def randID (r : Nat) : Nat := r &&& 0xffffff

/-- `generatePreKeys` (prekeys.go:88-106) without the signed prekey, which is stored in another
directory; `r` is the random 32-bit word behind `startID`. -/
def generatePreKeys (P : Prims) (d : Dir) (r : Nat) (rnd : Nat → Bytes) : Dir :=
  generatePreKey P (generateBatch P d (randID r) rnd batchSize) lastResortID (rnd batchSize)

end Verif.PreKeys
