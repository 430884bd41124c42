import Verif.Model.Paths
/-!
# The list of groups the gateway gives (cmd/textsecure/main.go:311-350)

The answer is the map before it is encoded: `json.Encoder` is not modelled. A file is what YAML makes of it, `none` if
it cannot be read or is no YAML for a group. Only regular files are in a directory of the model.
-/
namespace Verif.Listing
open Verif Verif.GroupsV1 Verif.Paths

/-- The directories: for a path, the files in it in the order of `filepath.Walk` (by name), or `none` if there is no
such directory. Code: cmd/textsecure/main.go:333-348. -/
abbrev Disk := Path → Option (List (Bytes × Option Group))

/-- What the client of the gateway gets: the map from ids to names, or a connection closed without an answer: `info` is nil
if the directory is missing, and `net/http` recovers the panic. Code: cmd/textsecure/main.go:333-349. -/
inductive Answer where
  | map (m : List (Bytes × Bytes))
  | closed
  deriving DecidableEq, Repr

/-- An entry of `data`. Code: cmd/textsecure/main.go:331, 345. -/
def setEntry (m : List (Bytes × Bytes)) (k v : Bytes) : List (Bytes × Bytes) :=
  m.filter (fun e => e.1 ≠ k) ++ [(k, v)]

/-- The function given to `filepath.Walk`, over the files of the directory: an error ends the walk, and is dropped by
the caller. The entry is made from what the file says. Code: cmd/textsecure/main.go:333-348. -/
def walk (m : List (Bytes × Bytes)) : List (Bytes × Option Group) → List (Bytes × Bytes)
  | [] => m
  | (_, none) :: _ => m
  | (_, some g) :: r => walk (setEntry m g.hexid g.name) r

/-- `GroupsHandler` (cmd/textsecure/main.go:328-350): the directory is fixed. -/
def groupsHandler (d : Disk) : Answer :=
  match d (clean ".storage/groups".toList) with
  | none => .closed
  | some files => .map (walk [] files)

/-- The directory of legacy groups (`setupGroups`, groups.go:94-99). -/
def groupDir (root : List Char) : Path := join [root, "groups".toList]

/-- The directory of new groups (`SetupGroups`, groupsv2/groupsv2.go:122-128). -/
def newGroupDir (root : List Char) : Path := join [root, "groupsv2".toList]

end Verif.Listing
