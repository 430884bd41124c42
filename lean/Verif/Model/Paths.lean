import Verif.Model.Names
import Verif.Model.GroupsV1
/-!
# Where files are put (store.go, profiles/avatars.go)

`filepath.Join` and `filepath.Clean` of the Go library on Unix, and the paths built from names that come from others. Paths
are lists of characters, one for each byte.
-/
namespace Verif.Paths
open Verif Verif.Names

/-- The parts between slashes. Code: store.go:400-402. -/
def parts : List Char → List Name
  | [] => [[]]
  | c :: l =>
    if c = '/' then [] :: parts l
    else match parts l with
      | [] => [[c]]
      | p :: ps => (c :: p) :: ps

/-- One step of `filepath.Clean`; the parts kept so far are in reverse order. Empty parts and `.` are dropped, `..`
removes the part before it, or stays if there is none and the path is relative. Code:
store.go:400-402. -/
def cleanStep (rooted : Bool) (kept : List Name) (p : Name) : List Name :=
  if p = [] ∨ p = ['.'] then kept
  else if p = ['.', '.'] then
    match kept with
    | [] => if rooted then [] else [['.', '.']]
    | k :: r => if k = ['.', '.'] then ['.', '.'] :: kept else r
  else p :: kept

/-- A cleaned path: whether it begins with a slash, and its parts. The path `.` has none. Code:
store.go:400-402. -/
structure Path where
  rooted : Bool
  parts : List Name
  deriving DecidableEq, Repr

/-- `filepath.Clean` (Go library). Code: store.go:400-402. -/
def clean (s : List Char) : Path :=
  let rooted := s.head? = some '/'
  ⟨rooted, ((parts s).foldl (cleanStep rooted) []).reverse⟩

/-- `filepath.Join` (Go library): empty arguments are left out, the others are joined with slashes and cleaned.
Code: store.go:400-402, 286-288. -/
def join (es : List (List Char)) : Path := clean (List.intercalate ['/'] (es.filter (· ≠ [])))

/-- `newStore` (store.go:44-50) and `sessionFilePath` (400-402). `filepath.Join(path, "sessions")` is cleaned
once more when the name is joined, which changes nothing: the three are joined at once. -/
def sessionPath (root : List Char) (id : List Char) (dev : Nat) : Path :=
  join [root, "sessions".toList, id ++ '_' :: dec dev]

/-- The file of `SaveIdentity` and `IsTrustedIdentity` (store.go:212-226), joined as above. -/
def remotePath (root id : List Char) : Path := join [root, "identity".toList, "remote_".toList ++ id]

/-- The file of the own keys (store.go:192-194, 204-206). -/
def identityPath (root : List Char) : Path := join [root, "identity".toList, "identity_key".toList]

/-- The file of `saveLocalAvatar`, `GetLocalAvatar` and `GetLocalAvatarPath` (profiles/avatars.go:41-109,
`setupAvatarsPath` 111-118); an empty id is refused before. -/
def avatarPath (root uuid : List Char) : Option Path :=
  if uuid = [] then none else some (join [root, "avatars".toList, uuid])

/-- The file of a group: `idToPath` of `idToHex` (groups.go:42-51), in the directory `setupGroups` makes
(groups.go:94-99); the two joins are done at once, and the bytes of the name are characters here. -/
def groupPath (root : List Char) (id : Bytes) : Path :=
  join [root, "groups".toList, (GroupsV1.idToHex id).map (fun c => Char.ofNat c.toNat)]

/-- `strings.Contains` (Go library). Code: groups.go:102. -/
def contains (t : List Char) : List Char → Bool
  | [] => t.isPrefixOf []
  | c :: n => t.isPrefixOf (c :: n) || contains t n

/-- The names for which `setupGroups` (groups.go:100-108) reads a file, of those in the directory: the check is on the whole
path, storage directory included. The text looked for has no slash, so it is in the path if it is in one of its parts. -/
def walked (root : List Char) (names : List Bytes) : List Bytes :=
  names.filter fun h =>
    !(join [root, "groups".toList, h.map (fun c => Char.ofNat c.toNat)]).parts.any (contains "avatar".toList)

end Verif.Paths
