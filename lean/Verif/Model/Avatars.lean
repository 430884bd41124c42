import Verif.Model.Paths
/-!
# The pictures of contacts on disk (profiles/avatars.go:41-118)

What of a downloaded picture is decrypted and passed on is in `Model/Profile.lean`; here is what becomes of the files.
-/
namespace Verif.Avatars
open Verif Verif.Paths

/-- The state. `cached` is the storage directory `avatarsPath` was made from, none while that variable is empty
(profiles/avatars.go:21-23, 111-118); `dirs` are the storage directories with a directory `avatars` in them. -/
structure State where
  root : List Char                     -- `config.ConfigFile.StorageDir`
  cached : Option (List Char) := none
  dirs : List (List Char) := []
  files : Path → Option Bytes := fun _ => none

/-- What the disk does when a picture is written (profiles/avatars.go:97-105): all is well, the file cannot be created, or writing
ends after `n` bytes. -/
inductive Disk where
  | whole
  | nothing
  | part (n : Nat)
  deriving DecidableEq, Repr

/-- A call: `Setup` with a configuration (textsecure.go:263-273), `SaveAvatar` (profiles/avatars.go:73-109) or
`GetLocalAvatar` (54-71). `mk` is whether a directory can be made, if it comes to that. -/
inductive Op where
  | setup (root : List Char)
  | save (uuid : List Char) (pic : Bytes) (mk : Bool) (disk : Disk)
  | load (uuid : List Char) (mk : Bool)
  deriving DecidableEq, Repr

/-- The check before `setupAvatarsPath` and that function (profiles/avatars.go:59-64, 91-96, 111-118): the variable is set
before the directory is made, and stays set if that fails. A directory that exists is made without an error. -/
def ensure (s : State) (mk : Bool) : State × Bool :=
  match s.cached with
  | some _ => (s, true)
  | none =>
    if s.root ∈ s.dirs then ({ s with cached := some s.root }, true)
    else if mk then ({ s with cached := some s.root, dirs := s.root :: s.dirs }, true)
    else ({ s with cached := some s.root }, false)

/-- The file of a contact (profiles/avatars.go:65, 97); the two joins are done at once. -/
def file (s : State) (uuid : List Char) : Path := join [s.cached.getD s.root, "avatars".toList, uuid]

/-- A file written (profiles/avatars.go:99-105). -/
def write (s : State) (p : Path) (b : Bytes) : State :=
  { s with files := fun q => if q = p then some b else s.files q }

/-- `SaveAvatar` (profiles/avatars.go:73-109): the state, and whether nil is returned. `os.Create` empties the file before
anything is written, and fails without the directory. -/
def save (s : State) (uuid : List Char) (pic : Bytes) (mk : Bool) (disk : Disk) : State × Bool :=
  if uuid = [] ∨ pic = [] then (s, false)
  else
    let (s, ok) := ensure s mk
    if ok = false then (s, false)
    else if s.cached.getD s.root ∉ s.dirs then (s, false)
    else match disk with
      | .nothing => (s, false)
      | .whole => (write s (file s uuid) pic, true)
      | .part n => if n < pic.length then (write s (file s uuid) (pic.take n), false) else (write s (file s uuid) pic, true)

/-- `GetLocalAvatar` (profiles/avatars.go:54-71): the state, and the picture if there is one. -/
def load (s : State) (uuid : List Char) (mk : Bool) : State × Option Bytes :=
  if uuid = [] then (s, none)
  else
    let (s, ok) := ensure s mk
    if ok = false then (s, none) else (s, s.files (file s uuid))

/-- A call: the state, and whether it was a success. Code: profiles/avatars.go:54-109; textsecure.go:263-273. -/
def step (s : State) : Op → State × Bool
  | .setup root => ({ s with root := root }, true)
  | .save uuid pic mk disk => save s uuid pic mk disk
  | .load uuid mk => let r := load s uuid mk; (r.1, r.2.isSome)

/-- Calls one after the other, with what was reported. Code: profiles/avatars.go:54-109; textsecure.go:263-273. -/
def run : State → List Op → State × List (Op × Bool)
  | s, [] => (s, [])
  | s, o :: os =>
    let r := step s o
    let t := run r.1 os
    (t.1, (o, r.2) :: t.2)

end Verif.Avatars
