import Verif.Bytes
/-!
# The contact list (contacts/contacts.go)

The global map `contacts.Contacts` is a list of key/value pairs; `put` replaces. Go iterates over a map
in an unspecified order, so the order of the list is never relied on: what is written to the file is
some permutation of it.
-/
namespace Verif.Contacts
open Verif

/-- `Contact` (contacts/contacts.go:17-38). `HasAvatar` and `AvatarImg` are one
field; the fields no modelled code looks at (certificate, colours …) are kept together in `other`. -/
structure Contact where
  uuid : Bytes
  tel : Bytes
  name : Bytes
  profileKey : Bytes := []
  registered : Bool := false
  username : Bytes := []
  about : Bytes := []
  aboutEmoji : Bytes := []
  avatar : Option Bytes := none
  other : Bytes := []
  deriving DecidableEq, Repr

/-- `map[string]Contact` (contacts/contacts.go:50). -/
abbrev Book := List (Bytes × Contact)

/-- `Contacts[k]`, `none` when absent. Code: contacts/contacts.go:180-182. -/
def get (m : Book) (k : Bytes) : Option Contact := (m.find? (fun e => e.1 == k)).map (·.2)

/-- `Contacts[k] = c`. Code: contacts/contacts.go:116-148. -/
def put (m : Book) (k : Bytes) (c : Contact) : Book := (k, c) :: m.filter (fun e => e.1 != k)

/-- The condition of `LoadContacts` (contacts/contacts.go:56): `c.UUID[0] != 0` compares with the byte 0,
not with the digit. The indexing cannot go out of range because the text is not empty. -/
def hasUuid (u : Bytes) : Bool :=
  u != [] && u != [48] && (u.head? != some 0 || u.getLast? != some 0)

/-- Key under which `LoadContacts` files a contact (contacts/contacts.go:56-61). -/
def loadKey (c : Contact) : Bytes := if hasUuid c.uuid then c.uuid else c.tel

/-- `LoadContacts` (contacts/contacts.go:54-63) on the current map. -/
def loadContacts (m : Book) (file : List Contact) : Book :=
  file.foldl (fun m c => put m (loadKey c) c) m

/-- `contactsToYaml` (contacts/contacts.go:108-114) in the order of the list; the file written by
`WriteContactsToPath` (contacts/contacts.go:99-107) holds a permutation of this. YAML encoding and
decoding are taken to be faithful. -/
def fileOf (m : Book) : List Contact := m.map (·.2)

/-- `UpdateProfileKey` (contacts/contacts.go:163-178), the map afterwards. -/
def updateProfileKey (m : Book) (src key : Bytes) : Book :=
  match get m src with
  | some c => put m src { c with profileKey := key }
  | none => put m src { uuid := src, tel := [], name := src, profileKey := key }

end Verif.Contacts
