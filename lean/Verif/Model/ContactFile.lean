import Verif.Model.Contacts
/-!
# The file of contacts over several starts (contacts/contacts.go:54-107, 163-178)

The variables `Contacts` and `filePath` of a running program, and the file on disk. YAML is taken to be faithful.
-/
namespace Verif.ContactFile
open Verif Verif.Contacts

/-- What the file holds: nothing (there is none), a text that is not the YAML of a list of contacts, or a list.
Code: contacts/contacts.go:68-84. -/
inductive Disk where
  | absent
  | damaged
  | list (cs : List Contact)
  deriving DecidableEq, Repr

/-- `Contacts`, whether `filePath` has been set, and the file. Code: contacts/contacts.go:48-51, 65. -/
structure State where
  book : Book := []
  path : Bool := false
  disk : Disk := .absent
  deriving DecidableEq, Repr

/-- `ReadContacts` (contacts/contacts.go:68-84). `readable`: whether `os.ReadFile` succeeds on a file that is
there; if not, the error is taken for the absence of the file. -/
def readContacts (readable : Bool) (s : State) : State × Res (List Contact) :=
  match (if readable then s.disk else .absent) with
  | .absent => ({ s with path := true }, .ok [])
  | .damaged => ({ s with path := true }, .err .other)
  | .list cs => ({ s with path := true, book := loadContacts s.book cs }, .ok cs)

/-- The order in which Go goes through the map. Code: contacts/contacts.go:108-114. -/
structure Order where
  run : List Contact → List Contact
  perm : ∀ l, (run l).Perm l

/-- How writing the file goes: it is done; it fails, leaving the file as it was (`none`) or something else; the
program dies, leaving something. `ioutil.WriteFile` first empties the file. Code: contacts/contacts.go:99-107. -/
inductive Fate where
  | done (o : Order)
  | fails (left : Option Disk)
  | dies (left : Disk)

/-- `WriteContactsToPath` (contacts/contacts.go:99-107). As long as `filePath` is empty, writing fails. A program
that has died is started again with nothing in memory. -/
def writeContacts (f : Fate) (s : State) : State × Res Unit :=
  match f with
  | .dies left => (if s.path then ⟨[], false, left⟩ else ⟨[], false, s.disk⟩, .panic)
  | .fails left => (if s.path then { s with disk := left.getD s.disk } else s, .err .other)
  | .done o => if s.path then ({ s with disk := .list (o.run (fileOf s.book)) }, .ok ()) else (s, .err .other)

/-- `UpdateProfileKey` (contacts/contacts.go:163-178). -/
def updateKey (src key : Bytes) (f : Fate) (s : State) : State × Res Unit :=
  writeContacts f { s with book := updateProfileKey s.book src key }

/-- What happens to the list: the application asks for the contacts, someone announces a profile key, the program is
started again. Code: contacts/contacts.go:68-84, 163-178. -/
inductive Op where
  | read (readable : Bool)
  | key (src key : Bytes) (f : Fate)
  | restart

/-- One of these. Code: contacts/contacts.go:68-84, 163-178. -/
def step (s : State) : Op → State
  | .read r => (readContacts r s).1
  | .key src k f => (updateKey src k f s).1
  | .restart => ⟨[], false, s.disk⟩

/-- Several. Code: contacts/contacts.go:68-84, 163-178. -/
def run (s : State) (ops : List Op) : State := ops.foldl step s

end Verif.ContactFile
