import Verif.Model.Files
/-!
# The storage directory over several runs (store.go)

The files of the store as raw bytes. Directories are not modelled (a file is known by its path), nor are errors of the
file system other than being cut short.
-/
namespace Verif.AtRest
open Verif Verif.Files

/-- What `setupStore` looks at (config/config.go:12-13); `ask` is what `GetStoragePassword` returns, `none` if the
application left it nil. -/
structure Config where
  unencryptedStorage : Bool
  storagePassword : Bytes
  ask : Option Bytes
  deriving DecidableEq, Repr

/-- The password chosen by `setupStore` (store.go:461-471). -/
def choosePassword (c : Config) : Res Bytes :=
  if c.unencryptedStorage then .ok []
  else if c.storagePassword = [] then
    match c.ask with
    | none => .panic
    | some p => .ok p
  else .ok c.storagePassword

/-- The storage directory: the file `salt` and the files of the store. Code: store.go:43-91. -/
structure Disk where
  salt : Option Bytes := none
  files : String → Option Bytes := fun _ => none

/-- `newStore` (store.go:43-91); `kdf` is PBKDF2 with SHA-1, 1024 rounds and 36 bytes, `fresh` the random bytes that
are drawn if there is no salt yet. The password is not checked against anything. -/
def newStore (kdf : Bytes → Bytes → Bytes) (password fresh : Bytes) (d : Disk) : StoreKeys × Disk :=
  if password = [] then (⟨true, [], []⟩, d)
  else match d.salt with
    | none => (genKeys (kdf password fresh), { d with salt := some fresh })
    | some s => (genKeys (kdf password s), d)

/-- `readFile` (store.go:163-170). -/
def readFile (P : Prims) (s : StoreKeys) (d : Disk) (path : String) : Res Bytes :=
  match d.files path with
  | none => .err .storeRead
  | some b => storeDecrypt P s b

/-- `writeFile` (store.go:172-178), of which `n` bytes get to the disk (all if `none`): `ioutil.WriteFile` truncates
the file, then writes. -/
def writeFile (P : Prims) (s : StoreKeys) (iv : Bytes) (path : String) (content : Bytes) (n : Option Nat) (d : Disk) :
    Disk :=
  match storeEncrypt P s iv content with
  | .ok b =>
    let b := match n with
      | none => b
      | some n => b.take n
    { d with files := fun q => if q = path then some b else d.files q }
  | _ => d

/-- A write: path, content, the random IV, and how many bytes get to the disk if it is cut short.
Code: store.go:172-178. -/
structure Op where
  path : String
  content : Bytes
  iv : Bytes
  torn : Option Nat := none
  deriving DecidableEq, Repr

/-- One run of the program: the password, the salt it would draw, whether it ends while writing the salt (after how
many bytes), and what it writes. Code: store.go:43-91. -/
structure Run where
  password : Bytes
  fresh : Bytes
  tornSalt : Option Nat := none
  ops : List Op
  deriving DecidableEq, Repr

/-- The writes of a run, in order. Code: store.go:172-178. -/
def writeAll (P : Prims) (s : StoreKeys) (ops : List Op) (d : Disk) : Disk :=
  ops.foldl (fun d o => writeFile P s o.iv o.path o.content o.torn d) d

/-- A run: `setupStore`, then the writes (store.go:43-91, 172-178). -/
def run (P : Prims) (kdf : Bytes → Bytes → Bytes) (r : Run) (d : Disk) : Disk :=
  match r.tornSalt with
  | some n => if r.password ≠ [] ∧ d.salt = none then { d with salt := some (r.fresh.take n) } else d
  | none =>
    let x := newStore kdf r.password r.fresh d
    writeAll P x.1 r.ops x.2

/-- Runs of the program, one after the other. Code: store.go:43-91. -/
def history (P : Prims) (kdf : Bytes → Bytes → Bytes) (rs : List Run) (d : Disk) : Disk :=
  rs.foldl (fun d r => run P kdf r d) d

/-- What a run with this password reads. Code: store.go:163-170. -/
def readBack (P : Prims) (kdf : Bytes → Bytes → Bytes) (password fresh : Bytes) (d : Disk) (path : String) : Res Bytes :=
  let x := newStore kdf password fresh d
  readFile P x.1 x.2 path

end Verif.AtRest
