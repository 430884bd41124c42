import Verif.Model.Send
/-!
# Legacy groups (groups.go)

The map `groups`, the files under `groups/`, and the messages handed to `sendMessage`. The outcome of each
`sendMessage` is a parameter (its behaviour is modelled in `Model/Send`). A file holds the group itself:
the YAML encoding is taken to be faithful. Slices are values: `append(members[:i], …)` in `removeMember` and
`append(members, Tel)` may also write to the caller's array, which is left out.
-/
namespace Verif.GroupsV1
open Verif Verif.Send

/-- `Group` (groups.go:28-35). -/
structure Group where
  id : Bytes
  hexid : Bytes
  flags : Nat := 0
  name : Bytes := []
  members : List String := []
  avatar : Bytes := []
  deriving DecidableEq, Repr

/-- `groups`, the directory `groups/` (`some none`: a file that is not readable YAML), and the messages
handed to `sendMessage`, in order. Code: groups.go:57-64, 67-81. -/
structure World where
  groups : Bytes → Option Group
  files : Bytes → Option (Option Group)
  sent : List OutMsg

/-- `config.ConfigFile.Tel`, the outcome of each `sendMessage` (by the number of earlier ones), the UUID
field of `GetContactForTel` (groups.go:197-204), whether files can be written and removed, the file names
`filepath.Walk` lists (without avatars), the fallback to new groups, and the clock. -/
structure Ext where
  tel : String
  net : Nat → OutMsg → Res Nat
  contactUuid : String → Option String
  writeOk : Bool := true
  removeOk : Bool := true
  list : (Bytes → Option (Option Group)) → List Bytes
  v2 : Res Nat := .err .other
  now : Nat := 0

/-- `idToHex` (groups.go:44-46). -/
def idToHex (id : Bytes) : Bytes := Encoding.hexEncode id

/-- An entry of a map. Code: groups.go:57-64. -/
def put (f : Bytes → Option α) (k : Bytes) (v : Option α) : Bytes → Option α :=
  fun x => if x = k then v else f x

/-- `saveGroup` (groups.go:57-64). -/
def saveGroup (X : Ext) (hexid : Bytes) (w : World) : World × Res Unit :=
  if X.writeOk then ({ w with files := put w.files hexid (some (w.groups hexid)) }, .ok ())
  else (w, .err .storeWrite)

/-- `loadGroup` (groups.go:67-80): errors leave the map alone; `setupGroups` ignores them. -/
def loadGroup (hexid : Bytes) (w : World) : World :=
  match w.files hexid with
  | some (some g) => { w with groups := put w.groups hexid (some g) }
  | _ => w

/-- `setupGroups` (groups.go:94-110): every listed file is loaded into the map; nothing is removed from
it. -/
def setupGroups (X : Ext) (w : World) : World := (X.list w.files).foldl (fun w h => loadGroup h w) w

/-- `RemoveGroupKey` (groups.go:84-91) and `removeGroup` (groups.go:457-464): delete the file; removing one
that does not exist is an error too. -/
def removeFile (X : Ext) (hexid : Bytes) (w : World) : World × Res Unit :=
  if X.removeOk = false ∨ w.files hexid = none then (w, .err .storeWrite)
  else ({ w with files := put w.files hexid none }, .ok ())

/-- `removeMember` (groups.go:113-121): removes the first occurrence. -/
def removeMember (tel : String) : List String → List String
  | [] => []
  | m :: ms => if m = tel then ms else m :: removeMember tel ms

/-- An incoming legacy group context. `avatar`: none, or the outcome of fetching it. Code:
protobuf/SignalService.proto:628-648. -/
structure GroupCtx where
  id : Bytes
  name : Bytes
  members : List String
  avatar : Option (Res Bytes)

/-- `updateGroup` (groups.go:124-150). Not called from anywhere in the repository. -/
def updateGroup (X : Ext) (gr : GroupCtx) (w : World) : World × Res Unit :=
  let hexid := idToHex gr.id
  let go (av : Bytes) : World × Res Unit :=
    let g : Group := { id := gr.id, hexid := hexid, name := gr.name, members := gr.members, avatar := av }
    saveGroup X hexid { w with groups := put w.groups hexid (some g) }
  match gr.avatar with
  | none => go []
  | some (.ok b) => go b
  | some (.err e) => (w, .err e)
  | some .panic => (w, .panic)

/-- `quitGroup` (groups.go:160-169). Not called from anywhere in the repository. -/
def quitGroup (X : Ext) (src : String) (hexid : Bytes) (w : World) : World × Res Unit :=
  match w.groups hexid with
  | none => (w, .err .other)
  | some g => saveGroup X hexid
      { w with groups := put w.groups hexid (some { g with members := removeMember src g.members }) }

/-- What an incoming data message with a legacy group context does to the groups: nothing. The receive
path (handler.go, sync.go:104, groups.go:178-188) looks at the new-style context only. -/
def incoming (_ : Ext) (_ : Option GroupCtx) (w : World) : World := w

/-- One call of `sendMessage`. Code: sender.go:13-64. -/
def sendOne (X : Ext) (m : OutMsg) (w : World) : World × Res Nat :=
  ({ w with sent := w.sent ++ [m] }, X.net w.sent.length m)

/-- The loop `for _, m := range g.Members { if m != Tel { …; _, err := sendMessage(omsg); if err … } }`
shared by `sendUpdate` (366-384), `RequestGroupInfo` (406-420), `LeaveGroup` (482-495) and
`sendGroupHelper` (275-303); returns the last timestamp. Code: groups.go:366-385, 404-435,
476-499, 253-305. -/
def sendLoop (X : Ext) (mk : String → OutMsg) : List String → Nat → World → World × Res Nat
  | [], ts, w => (w, .ok ts)
  | m :: ms, ts, w =>
    if m = X.tel then sendLoop X mk ms ts w
    else match sendOne X (mk m) w with
      | (w, .ok t) => sendLoop X mk ms t w
      | (w, .err e) => (w, .err e)
      | (w, .panic) => (w, .panic)

/-- Drop the value. Code: groups.go:366-385. -/
def unit : World × Res Nat → World × Res Unit
  | (w, .ok _) => (w, .ok ())
  | (w, .err e) => (w, .err e)
  | (w, .panic) => (w, .panic)

/-- `sendUpdate` (groups.go:366-384). -/
def sendUpdate (X : Ext) (g : Group) (w : World) : World × Res Unit :=
  unit (Verif.GroupsV1.sendLoop X (fun m => { destination := m, group := some ⟨g.id, g.name, g.members, 1⟩ })
    g.members 0 w)

/-- `NewGroup` (groups.go:439-445) with `newGroup` (386-401); `id` is the random id. -/
def newGroup (X : Ext) (id : Bytes) (name : Bytes) (members : List String) (w : World) : World × Res Unit :=
  let g : Group := { id := id, hexid := idToHex id, name := name, members := members ++ [X.tel] }
  match saveGroup X g.hexid { w with groups := put w.groups g.hexid (some g) } with
  | (w, .ok _) => sendUpdate X g w
  | r => r

/-- `UpdateGroup` (groups.go:449-455) with `changeGroup` (353-364), which ignores the error of saving. -/
def changeGroup (X : Ext) (hexid : Bytes) (name : Bytes) (members : List String) (w : World) :
    World × Res Unit :=
  match w.groups hexid with
  | none => (w, .err .other)
  | some g =>
    let g' := { g with name := name, members := members ++ [X.tel] }
    sendUpdate X g' (saveGroup X hexid { w with groups := put w.groups hexid (some g') }).1

/-- `RequestGroupInfo` (groups.go:404-435). -/
def requestInfo (X : Ext) (g : Group) (w : World) : World × Res Unit :=
  let msg (m : String) : OutMsg := { destination := m, group := some { id := g.id, type := 4 } }
  match Verif.GroupsV1.sendLoop X msg g.members 0 w with
  | (w, .ok t) => if g.members = [] then unit (sendOne X (msg X.tel) w) else unit (w, .ok t)
  | r => unit r

/-- The destination for a member (groups.go:277-280): the UUID of the contact with that number, if it is
set (not empty, not "0", not with both a leading and a trailing zero byte). -/
def destination (X : Ext) (m : String) : String :=
  match X.contactUuid m with
  | none => m
  | some u =>
    if u ≠ "" ∧ u ≠ "0" ∧ (u.toList.head? ≠ some '\x00' ∨ u.toList.getLast? ≠ some '\x00') then u else m

/-- `sendGroupHelper` (groups.go:253-305). `setupGroups` also reloads the new-style groups, which is left out. -/
def sendGroup (X : Ext) (hexid : Bytes) (msg : Bytes) (att : Option OutAtt) (timer : Nat) (w : World) :
    World × Res Nat :=
  match w.groups hexid with
  | none => (w, match X.v2 with | .ok t => .ok t | .err _ => .err .other | .panic => .panic)
  | some g =>
    if g.members = [] then
      let w := (removeFile X hexid w).1
      let w := setupGroups X w
      match requestInfo X g w with
      | (w, .panic) => (w, .panic)
      | (w, _) => (w, .err .other)
    else
      Verif.GroupsV1.sendLoop X (fun m =>
        { destination := destination X m, msg := msg, attachment := att, expireTimer := timer
          timestamp := some X.now, group := some { id := g.id, type := 2 } }) g.members 0 w

/-- `GetGroupById` (groups.go:467-473). -/
def getGroup (hexid : Bytes) (w : World) : Res Group :=
  match w.groups hexid with
  | none => .err .other
  | some g => .ok g

/-- `LeaveGroup` (groups.go:476-499): the error of removing the file is ignored, and the map is left as it
is. -/
def leaveGroup (X : Ext) (hexid : Bytes) (w : World) : World × Res Unit :=
  match w.groups hexid with
  | none => (w, .err .other)
  | some g =>
    match Verif.GroupsV1.sendLoop X (fun m => { destination := m, group := some { id := g.id, type := 3 } })
        g.members 0 w with
    | (w, .ok _) => ((removeFile X (idToHex g.id) w).1, .ok ())
    | (w, .err e) => (w, .err e)
    | (w, .panic) => (w, .panic)

/-- A restart: the map is empty and `setupGroups` reads the files. Code: groups.go:94-110. -/
def restart (X : Ext) (w : World) : World := setupGroups X { w with groups := fun _ => none }

end Verif.GroupsV1
