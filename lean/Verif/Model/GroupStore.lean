import Verif.Model.Encoding
/-!
# New groups: the client's copies (groupsv2/groupsv2.go, decrypt.go, helpers.go, createGroupChange.go,
groupActions.go, credentials.go; groups.go:205-250, 501-512)

The map `groupsV2` holds pointers. Every object in it is reached through its key only (`loadGroupV2` and
`HandleGroupsV2` make a new object and put it in the map at once), so the map is one from keys to values
here, and a method of an object changes the value under its key. A pointer an application got from an
earlier message is not modelled. A file holds the group itself: the YAML encoding is taken to be faithful.
The cipher is determined by the master key, so the cached `cipher` is left out.
-/
namespace Verif.GroupStore
open Verif Verif.Encoding

/-- zkgroup, as far as it is used. The first argument is the group's master key. Code:
groupsv2/decrypt.go:23-62, 64-111; groupsv2/groupsv2.go:239-318. -/
structure Zk where
  /-- `NewGroupSecretParams` succeeds. -/
  secret : Bytes → Bool
  /-- `DecryptUUID` -/
  uuid : Bytes → Bytes → Option Bytes
  /-- `DecryptBlob` -/
  blob : Bytes → Bytes → Option Bytes
  /-- `DecryptProfileKey` with the member's uuid -/
  profileKey : Bytes → Bytes → Bytes → Option Bytes
  /-- `NewAuthCredentialPresentation`, `UUIDCiphertext`, `ProfileKeyCiphertext` -/
  presentation : Bytes → Option (Bytes × Bytes)
  /-- the title without characters that are not graphic (groupsv2/decrypt.go:47-53) -/
  clean : Bytes → Bytes
  /-- `VerifySignature` of the server -/
  verify : Bytes → Bytes → Bool
  uuid_len : ∀ mk c u, uuid mk c = some u → u.length = 16

/-- `Member` (protobuf/Groups.pb.go:232-242). -/
structure Member where
  userId : Bytes := []
  role : Nat := 0
  profileKey : Bytes := []
  presentation : Bytes := []
  joinedAt : Nat := 0
  deriving DecidableEq, Repr

/-- `Group` as the server stores it (protobuf/Groups.pb.go:563-580), the fields that are read; a pending member may
lack its `Member`. -/
structure EncGroup where
  title : Bytes := []
  avatar : Bytes := []
  revision : Nat := 0
  members : List Member := []
  pending : List (Option Member) := []
  deriving DecidableEq, Repr

/-- `DecryptedMember`. Code: protobuf/DecryptGroups.proto:16-22. -/
structure DMember where
  uuid : Bytes
  role : Nat
  profileKey : Bytes
  joinedAt : Nat
  deriving DecidableEq, Repr

/-- `DecryptedGroup`, the fields `decryptGroup` fills; access rules are copied and left out. Code:
protobuf/DecryptGroups.proto:60-73. -/
structure DGroup where
  title : Bytes
  revision : Nat
  avatar : Bytes
  members : List DMember
  deriving DecidableEq, Repr

/-- `DecryptedGroupChange`; of new pending members, uuid and who added them (empty if they do not decrypt); of
promoted ones, uuid and role. Fields of access rules, requesting and banned members, the description, the
avatar, the timer and profile keys are left out: `decryptGroupChangeActions` never fills them. Code:
protobuf/DecryptGroups.proto:77-102. -/
structure DChange where
  revision : Nat
  newMembers : List DMember
  deleted : List Bytes
  roles : List (Bytes × Nat)
  newPending : List (Bytes × Bytes)
  editor : Bytes := []
  deletePending : List Bytes := []
  promotePending : List (Bytes × Nat) := []
  newTitle : Option Bytes := none
  deriving DecidableEq, Repr

/-- `GroupV2JoinsStatus…` (groupsv2/groupsv2.go:29-34). -/
def statusMember : Nat := 0
/-- `GroupV2JoinsStatusInvite`. Code: groupsv2/groupsv2.go:26-43. -/
def statusInvite : Nat := 1

/-- `GroupV2` (groupsv2/groupsv2.go:44-54). -/
structure G where
  masterKey : Bytes
  context : EncGroup := {}
  decrypted : Option DGroup := none
  action : Option DChange := none
  status : Nat := 0
  revision : Nat := 0
  deriving DecidableEq, Repr

/-- `idToHex` (groupsv2/groupsv2.go:58-60). -/
def hexid (mk : Bytes) : Bytes := hexEncode mk

/-- The map `groupsV2` and the directory `groupsv2/`; a key of the map may hold nil, which is the same as
being absent except for `len`. A file that cannot be read or parsed counts as absent: `loadGroupV2` fails
either way. Code: groupsv2/groupsv2.go:347-354, 357-371. -/
structure World where
  mem : List (Bytes × G) := []
  files : Bytes → Option G := fun _ => none

/-- Looking up in the map. Code: groupsv2/groupsv2.go:103-113. -/
def get (m : List (Bytes × G)) (k : Bytes) : Option G := (m.find? (fun e => e.1 = k)).map (·.2)

/-- Storing in the map. Code: groupsv2/groupsv2.go:357-371. -/
def put (m : List (Bytes × G)) (k : Bytes) (g : G) : List (Bytes × G) :=
  (k, g) :: m.filter (fun e => e.1 ≠ k)

/-- Storing in the map `groupsV2`. Code: groupsv2/groupsv2.go:357-371. -/
def World.set (w : World) (k : Bytes) (g : G) : World := { w with mem := put w.mem k g }

/-- `saveGroupV2` (groupsv2/groupsv2.go:346-353); the empty file name is the directory itself, which cannot be
written. `ok`: whether the write succeeds otherwise; a write that fails leaves the old file (the real one may
leave a shorter file, which then counts as absent). -/
def save (ok : Bool) (k : Bytes) (w : World) : World :=
  if ok ∧ k ≠ [] then { w with files := fun x => if x = k then get w.mem k else w.files x } else w

/-- `loadGroupV2` (groupsv2/groupsv2.go:356-371). -/
def load (k : Bytes) (w : World) : World × Option G :=
  match w.files k with
  | some g => (w.set k g, some g)
  | none => (w, none)

/-- `FindGroup` (groupsv2/groupsv2.go:103-113). -/
def find (k : Bytes) (w : World) : World × Option G :=
  if w.mem.length = 0 then load k w else (w, get w.mem k)

/-- `decryptMember` (groupsv2/decrypt.go:63-104); in the first branch the error of the profile key is dropped. -/
def decryptMember (Z : Zk) (mk : Bytes) (m : Member) : Option DMember :=
  if Z.secret mk = false then none
  else if m.presentation = [] then
    (Z.uuid mk m.userId).map (fun u => ⟨u, m.role, (Z.profileKey mk m.profileKey u).getD [], m.joinedAt⟩)
  else do
    let p ← Z.presentation m.presentation
    let u ← Z.uuid mk p.1
    let k ← Z.profileKey mk p.2 u
    pure ⟨u, m.role, k, m.joinedAt⟩

/-- `decryptGroup` (groupsv2/decrypt.go:24-61). -/
def decryptGroup (Z : Zk) (mk : Bytes) (e : EncGroup) : Option DGroup :=
  if Z.secret mk = false then none
  else (Z.blob mk e.title).map (fun t => ⟨Z.clean t, e.revision, e.avatar, e.members.filterMap (decryptMember Z mk)⟩)

/-- The loop of `CheckJoinStatus` over encrypted members (groupsv2/helpers.go:21-29): `none` on an error. -/
def foundEnc (Z : Zk) (me mk : Bytes) : List Member → Option Bool
  | [] => some false
  | m :: ms =>
    if Z.secret mk = false then none
    else match Z.uuid mk m.userId with
      | none => none
      | some u => (foundEnc Z me mk ms).map (fun r => decide (hexToUUID (hexEncode u) = me) || r)

/-- `CheckJoinStatus` (groupsv2/helpers.go:11-39); `me` is `config.ConfigFile.UUID`. -/
def checkJoin (Z : Zk) (me : Bytes) (g : G) : G :=
  let found : Option Bool := match g.decrypted with
    | some d => some (d.members.any (fun m => decide (hexToUUID (hexEncode m.uuid) = me)))
    | none => foundEnc Z me g.masterKey g.context.members
  match found with
  | none => g
  | some true => { g with status := statusMember }
  | some false => { g with status := statusInvite }

/-- `decryptGroupFromServer` (groupsv2/decrypt.go:12-22): the group is changed whether or not it succeeds. -/
def decryptFromServer (Z : Zk) (me : Bytes) (g : G) (e : EncGroup) : G × Bool :=
  let d := decryptGroup Z g.masterKey e
  (checkJoin Z me { g with context := e, decrypted := d }, d.isSome)

/-- The environment of a call: the configured UUID, the outcome of each query for the group
(`queryGroupChangeFromServer`, groupsv2/groupsv2.go:158-190, with the authorisation it needs), the answers to the
patch and to the authorisation for it, and whether files can be written. -/
structure Env where
  me : Bytes
  query : Nat → Res EncGroup
  patch : Res Unit := .ok ()
  auth : Res Unit := .ok ()
  writeOk : Bool := true
  /-- `CreateProfileKeyCredentialPresentation` with the stored credential -/
  credential : Bool := true

/-- `UpdateGroupFromServer` (groupsv2/groupsv2.go:198-226) on the object with master key `mk`; `n`: which query of the
call it makes. Invalid secret params are among the failing queries. -/
def update (Z : Zk) (E : Env) (n : Nat) (mk : Bytes) (w : World) : World × Res Unit :=
  let k := hexid mk
  let inMap := get w.mem k
  let group : G := inMap.getD { masterKey := mk }
  match E.query n with
  | .err x => (w, .err x)
  | .panic => (w, .panic)
  | .ok e =>
    match decryptFromServer Z E.me group e with
    | (g, true) => (save E.writeOk k (w.set k g), .ok ())
    | (g, false) => (if inMap.isSome then w.set k g else w, .err .other)

/-- `GroupChange_Actions`: the fields that are read, and of those that are only logged who made the change,
invitations withdrawn and accepted, and the title; `Added` may be missing. Of an added pending member: its
user id and who added it. Code: protobuf/Groups.proto:86-210. -/
structure Actions where
  revision : Nat := 0
  add : List (Option Member) := []
  delete : List Bytes := []
  roles : List (Bytes × Nat) := []
  addPending : List (Bytes × Bytes) := []
  source : Bytes := []
  deletePending : List Bytes := []
  promotePending : List Bytes := []
  title : Option Bytes := none
  deriving DecidableEq, Repr

/-- `decryptGroupChangeActions` (groupsv2/groupActions.go:38-135): what does not decrypt is left out, except pending
members, which stay with an empty id. Who made the change, titles, invitations withdrawn and accepted, timers
and the rest of a change are logged and not put into the result. -/
def decryptActions (Z : Zk) (mk : Bytes) (a : Actions) : Option DChange :=
  if Z.secret mk = false then none
  else some
    { revision := a.revision
      newMembers := a.add.filterMap (fun m => decryptMember Z mk (m.getD {}))
      deleted := a.delete.filterMap (Z.uuid mk)
      roles := a.roles.filterMap (fun r => (Z.uuid mk r.1).map (fun u => (u, r.2)))
      newPending := a.addPending.map (fun p => ((Z.uuid mk p.1).getD [], (Z.uuid mk p.2).getD [])) }

/-- A `GroupContextV2`: master key, revision, and the bytes of a change, read as a `GroupChange` (whatever
`Unmarshal` got out of them: its errors are only logged). Code:
protobuf/SignalService.proto:650-654. -/
structure Ctx where
  masterKey : Bytes
  revision : Nat := 0
  change : Option (Bytes × Bytes) := none
  deriving DecidableEq, Repr

/-- The part of `HandleGroupsV2` before the change (groupsv2/groupsv2.go:244-270). -/
def handleStart (Z : Zk) (E : Env) (c : Ctx) (w : World) : World :=
  let k := hexid c.masterKey
  match load k w with
  | (w, some g) => if g.context.title = [] then (update Z E 0 g.masterKey w).1 else w
  | (w, none) =>
    let w := save E.writeOk k (w.set k { masterKey := c.masterKey, revision := c.revision })
    (update Z E 0 c.masterKey w).1

/-- `HandleGroupsV2` (groupsv2/groupsv2.go:239-318). `parse` is `proto.Unmarshal` of the actions, errors logged only.
The server's public parameters are a constant that is taken to be valid. The group is read through the
map: it is the object under the key. The sender `src` is passed and not used. -/
def handle (Z : Zk) (parse : Bytes → Actions) (E : Env) (_src : Bytes) (c : Ctx) (w : World) : World × Res G :=
  let k := hexid c.masterKey
  let w := handleStart Z E c w
  match get w.mem k with
  | none => (w, .panic)
  | some g =>
    match c.change with
    | some (actions, sig) =>
      if actions ≠ [] ∧ Z.verify actions sig = false then (w, .err .other)
      else
        let d := decryptActions Z g.masterKey (parse actions)
        let w := (update Z E 1 g.masterKey w).1
        let g := (get w.mem k).getD g
        let g := { g with action := d }
        (w.set k g, .ok g)
    | none =>
      match g.decrypted with
      | none => (w, .panic)
      | some d =>
        if d.revision ≠ c.revision then
          let w := (update Z E 1 g.masterKey w).1
          (w, .ok ((get w.mem k).getD g))
        else (w, .ok g)

/-- A start of the program: the map is empty. Code: groupsv2/groupsv2.go:122-128. -/
def restart (w : World) : World := { w with mem := [] }

/-- `GetGroupV2MembersForGroup` (groupsv2/groupsv2.go:222-233). -/
def members (Z : Zk) (E : Env) (k : Bytes) (w : World) : World × Res (List DMember) :=
  match find k w with
  | (w, none) => (w, .err .other)
  | (w, some g) =>
    let w := (update Z E 0 g.masterKey w).1
    match ((get w.mem k).getD g).decrypted with
    | none => (w, .panic)
    | some d => (w, .ok d.members)

/-- `findMemberByUuid` (groupsv2/createGroupChange.go:119-137): `ok true` if there, `panic` on a pending member
without `Member`. -/
def findPending (Z : Zk) (me mk : Bytes) : List (Option Member) → Res Unit
  | [] => .err .other
  | none :: _ => .panic
  | some m :: ms =>
    if Z.secret mk = false then .err .other
    else match Z.uuid mk m.userId with
      | none => .err .other
      | some u => if hexToUUID (hexEncode u) = me then .ok () else findPending Z me mk ms

/-- `AddPendingMembers` (groupsv2/createGroupChange.go:55-109) on the object under `k`: the error of the patch is
dropped. The group's decrypted form is dereferenced for the revision. -/
def addPending (Z : Zk) (E : Env) (n : Nat) (k : Bytes) (g : G) (w : World) : World × Res Unit :=
  match findPending Z E.me g.masterKey g.context.pending with
  | .err x => (w, .err x)
  | .panic => (w, .panic)
  | .ok _ =>
    if Z.secret g.masterKey = false ∨ E.credential = false then (w, .err .other)
    else match g.decrypted with
      | none => (w, .panic)
      | some _ =>
        match E.auth with
        | .err x => (w, .err x)
        | .panic => (w, .panic)
        | .ok _ =>
          match E.patch with
          | .panic => (w, .panic)
          | .err _ | .ok _ =>
            let w := w.set k { g with status := statusMember }
            let w := (update Z E n g.masterKey w).1
            (w, .ok ())

/-- `JoinGroup` (groups.go:501-512, groupsv2/groupsv2.go:328-340). -/
def join (Z : Zk) (E : Env) (k : Bytes) (w : World) : World × Res Unit :=
  match find k w with
  | (w, none) => (w, .err .other)
  | (w, some g) =>
    match update Z E 0 g.masterKey w with
    | (w, .err x) => (w, .err x)
    | (w, .panic) => (w, .panic)
    | (w, .ok _) => addPending Z E 1 k ((get w.mem k).getD g) w

/-- What `sendGroupV2Helper` hands to `sendMessage`. Code: groups.go:205-251. -/
structure Out where
  destination : Bytes
  msg : Bytes
  timer : Nat
  timestamp : Nat
  masterKey : Bytes
  revision : Nat
  deriving DecidableEq, Repr

/-- The loop of `sendGroupV2Helper` (groups.go:231-247); `net` is the outcome of each `sendMessage`. -/
def sendLoop (net : Nat → Res Nat) (mk : Bytes → Out) : List DMember → Nat → Nat → List Out → List Out × Res Nat
  | [], _, ts, out => (out, .ok ts)
  | m :: ms, n, _, out =>
    match idToHexUUID m.uuid with
    | .err x => (out, .err x)
    | .panic => (out, .panic)
    | .ok dest =>
      match net n with
      | .ok t => sendLoop net mk ms (n + 1) t (out ++ [mk dest])
      | .err x => (out ++ [mk dest], .err x)
      | .panic => (out ++ [mk dest], .panic)

/-- `sendGroupV2Helper` (groups.go:205-250). -/
def send (Z : Zk) (E : Env) (net : Nat → Res Nat) (now : Nat) (k msg : Bytes) (timer : Nat) (w : World) :
    World × List Out × Res Nat :=
  match find k w with
  | (w, none) => (w, [], .err .other)
  | (w, some g) =>
    let g := checkJoin Z E.me g
    let w := w.set k g
    if g.status ≠ statusMember then (w, [], .err .other)
    else
      let r := if g.decrypted.isNone then update Z E 0 g.masterKey w else (w, .ok ())
      match r with
      | (w, .err x) => (w, [], .err x)
      | (w, .panic) => (w, [], .panic)
      | (w, .ok _) =>
        match ((get w.mem k).getD g).decrypted with
        | none => (w, [], .panic)
        | some d =>
          if d.members = [] then (w, [], .err .other)
          else
            let o := sendLoop net (fun dest => ⟨dest, msg, timer, now, g.masterKey, d.revision⟩) d.members 0 0 []
            (w, o.1, o.2)

/-! ## Credentials (credentials.go) -/

/-- The cached `Credentials`: the days they are for. Code: groupsv2/credentials.go:21-23. -/
abbrev Creds := Option (List Nat)

/-- `GetCredentialForRedemption` (groupsv2/credentials.go:39-54) for today, as `NewGroupsV2Authorization` calls it
(groupsv2/groupsv2api.go:29-31); `fetch` is the server's answer for the days from today on: an error, or the
credentials read from it (none if the JSON does not decode: the error is dropped, groupsv2/credentials.go:73-75). -/
def credential (today : Nat) (fetch : Res (List Nat)) (c : Creds) : Creds × Res Unit :=
  let r : Creds × Res Unit := match c with
    | some l => (some l, .ok ())
    | none => match fetch with
      | .ok l => (some l, .ok ())
      | .err x => (none, .err x)
      | .panic => (none, .panic)
  match r with
  | (c, .err x) => (c, .err x)
  | (c, .panic) => (c, .panic)
  | (c, .ok _) => (c, if today ∈ c.getD [] then .ok () else .err .other)

/-- A series of requests on the given days. Code: groupsv2/credentials.go:39-54. -/
def credentials : List (Nat × Res (List Nat)) → Creds → Creds × List (Res Unit)
  | [], c => (c, [])
  | (d, f) :: l, c =>
    let r := credential d f c
    let rs := credentials l r.1
    (rs.1, r.2 :: rs.2)

end Verif.GroupStore
