import Verif.Model.Encoding
import Mathlib.Data.List.Dedup
/-!
# New groups: changing a group (groupsv2/groupAuth.go, groupChange.go, groupModify.go, groupValidator.go)

`DecryptedGroup` is never nil here; its access rules may be (every read of a nil one is a panic). Action
lists hold no nil pointers, but the message inside an action may be missing. Members are values: two
entries of a list never share a pointer. Maps keyed by the base64 text of an id (`getKey`,
groupsv2/groupChange.go:14-16) are keyed by the id itself. Enumerations are open, as in the generated Go code: any
integer can occur.
-/
namespace Verif.GroupsV2
open Verif

/-- `Member_Role` (protobuf/Groups.proto:23-27). -/
abbrev Role := Int
/-- `Member_UNKNOWN`. Code: protobuf/Groups.proto:22-34. -/
def roleUnknown : Role := 0
/-- `Member_DEFAULT`. Code: protobuf/Groups.proto:22-34. -/
def roleDefault : Role := 1
/-- `Member_ADMINISTRATOR`. Code: protobuf/Groups.proto:22-34. -/
def roleAdmin : Role := 2

/-- `AccessControl_AccessRequired` (protobuf/Groups.proto:55-61). -/
abbrev Access := Int
/-- `AccessControl_UNKNOWN`. Code: protobuf/Groups.proto:54-66. -/
def accUnknown : Access := 0
/-- `AccessControl_ANY`. Code: protobuf/Groups.proto:54-66. -/
def accAny : Access := 1
/-- `AccessControl_MEMBER`. Code: protobuf/Groups.proto:54-66. -/
def accMember : Access := 2
/-- `AccessControl_ADMINISTRATOR`. Code: protobuf/Groups.proto:54-66. -/
def accAdmin : Access := 3
/-- `AccessControl_UNSATISFIABLE`. Code: protobuf/Groups.proto:54-66. -/
def accUnsat : Access := 4

/-- `DecryptedMember`: the fields the package uses. Code: protobuf/DecryptGroups.proto:16-22. -/
structure Member where
  uuid : Bytes
  role : Role := 0
  profileKey : Bytes := []
  joinedAt : Nat := 0
  deriving DecidableEq, Repr

/-- `DecryptedPendingMember`: someone invited. Code: protobuf/DecryptGroups.proto:24-30. -/
structure Pending where
  uuid : Bytes
  role : Role := 0
  addedBy : Bytes := []
  timestamp : Nat := 0
  deriving DecidableEq, Repr

/-- `DecryptedRequestingMember`: someone who asked to join. Code:
protobuf/DecryptGroups.proto:32-36. -/
structure Requesting where
  uuid : Bytes
  profileKey : Bytes := []
  deriving DecidableEq, Repr

/-- `AccessControl` (protobuf/Groups.proto:63-65). -/
structure Rules where
  attributes : Access := 0
  members : Access := 0
  link : Access := 0
  deriving DecidableEq, Repr

/-- `Member` (protobuf/Groups.proto:29-33) as it travels in a change. -/
structure WireMember where
  userId : Bytes := []
  role : Role := 0
  profileKey : Bytes := []
  presentation : Bytes := []
  joinedAt : Nat := 0
  deriving DecidableEq, Repr

/-- `RequestingMember` of Groups.proto. Code: protobuf/Groups.proto:42-47. -/
structure WireRequesting where
  userId : Bytes := []
  profileKey : Bytes := []
  presentation : Bytes := []
  timestamp : Nat := 0
  deriving DecidableEq, Repr

/-- `PendingMember` of Groups.proto. Code: protobuf/Groups.proto:36-40. -/
structure WirePending where
  member : Option WireMember := none
  addedBy : Bytes := []
  timestamp : Nat := 0
  deriving DecidableEq, Repr

/-- `GroupV2` (groupsv2/groupsv2.go:43-53) with the fields of its `DecryptedGroup` laid out beside it;
`ctxPending` and `ctxRequesting` are the lists of `GroupContext`, still encrypted. Fields not read or
written by a change are left out. -/
structure Group where
  masterKey : Bytes
  revision : Nat := 0
  announcementsOnly : Bool := false
  title : Bytes := []
  avatar : Bytes := []
  description : Bytes := []
  password : Bytes := []
  rules : Option Rules := some {}
  members : List Member := []
  pending : List Pending := []
  requesting : List Requesting := []
  ctxPending : List WireMember := []
  ctxRequesting : List WireRequesting := []
  deriving DecidableEq, Repr

/-- `entities.GroupUser` (entities/groupUser.go:7-13): the fields that are read. -/
structure User where
  cipher : Bytes
  groupKey : Bytes
  deriving DecidableEq, Repr

/-- `GroupUser.IsMember` (entities/groupUser.go:15-20). -/
def User.is (u : User) (uuid key : Bytes) : Bool := decide (u.groupKey = key) && decide (u.cipher = uuid)

/-- How a step ends: `Status(403, …)`, `Status(400, …)`, `Status(500, …)`, a plain error, a panic.
Code: entities/status.go:27-37; groupsv2/groupModify.go:25-251. -/
inductive Out where
  | ok
  | forbidden
  | badRequest
  | internal
  | plain
  | panic
  deriving DecidableEq, Repr

/-- The zero-knowledge group library (not in the repository): parsing a presentation, the encrypted id and
profile key inside it, checking it against a group, and `serverSecretParams.Sign` (groupsv2/groupModify.go:215-230,
with the marshalling before it). -/
structure Zk where
  parse : Bytes → Option Bytes
  uuidOf : Bytes → Option Bytes
  keyOf : Bytes → Option Bytes
  check : Bytes → Bytes → Bool
  signs : Bool := true

/-- `GroupValidator` (groupsv2/groupValidator.go:20-25); `hasOps` is `profileOperations != nil`. -/
structure Validator where
  hasOps : Bool
  maxSize : Nat
  maxTitle : Nat
  maxDescription : Nat
  deriving DecidableEq, Repr

/-- The limits of a configuration (config/config.go: `Group`). Code: config/config.go:25-29. -/
structure Limits where
  maxSize : Nat
  maxTitle : Nat
  maxDescription : Nat

/-- `NewGroupValidator` (groupsv2/groupValidator.go:27-34): the description limit is copied from the title's. -/
def newValidator (ops : Bool) (c : Limits) : Validator :=
  { hasOps := ops, maxSize := c.maxSize, maxTitle := c.maxTitle, maxDescription := c.maxTitle }

/-! ## Who may do what (groupAuth.go) -/

/-- `GetSourceMember` (groupsv2/groupAuth.go:155-162). -/
def sourceMember (u : User) (g : Group) : Option Member := g.members.find? (fun m => u.is m.uuid g.masterKey)

/-- `isAdminstrator` (groupsv2/groupAuth.go:76-83): the first entry of the user decides. -/
def isAdmin (u : User) (g : Group) : Bool :=
  match sourceMember u g with
  | some m => decide (m.role = roleAdmin)
  | none => false

/-- `isModifyAttributesAllowed` (groupsv2/groupAuth.go:39-55); `none` is the panic on nil access rules. -/
def mayAttributes (u : User) (g : Group) : Option Bool :=
  match sourceMember u g with
  | none => some false
  | some m =>
    match g.rules with
    | none => none
    | some a =>
      if a.attributes = accAny then some true
      else if a.attributes = accMember then some true
      else if a.attributes = accAdmin then some (decide (m.role = roleAdmin))
      else some false

/-- The test shared by `isDeleteMemberAllowed` (groupsv2/groupAuth.go:85-93),
`isDeleteMembersPendingProfileKeyAllowed` (56-62) and `isDeleteMembersPendingAdminApprovalAllowed` (15-19):
an administrator, or someone naming only themselves. -/
def mayDelete (u : User) (g : Group) (ids : List Bytes) : Bool :=
  isAdmin u g || (match ids with
    | [x] => u.is x g.masterKey
    | _ => false)

/-- `isAddMembersPendingProfileKeyAllowed` (groupsv2/groupAuth.go:63-74). -/
def mayInvite (u : User) (g : Group) : Option Bool :=
  match sourceMember u g with
  | none => some false
  | some m =>
    if m.role = roleAdmin then some true
    else match g.rules with
      | none => none
      | some a => some (decide (a.members = accMember) || decide (a.members = accAny))

/-- `isAddMemberAllowed` (groupsv2/groupAuth.go:94-118); the ids are those in the actions. -/
def mayAdd (u : User) (pw : Bytes) (g : Group) (ids : List Bytes) : Option Bool :=
  match sourceMember u g with
  | some m =>
    if m.role = roleAdmin then some true
    else if m.role = roleDefault then
      match g.rules with
      | none => none
      | some a => some (decide (a.members = accMember) || decide (a.members = accAny))
    else some false
  | none =>
    match g.rules with
    | none => none
    | some a => some ((decide (a.members = accAny) ||
        (decide (a.link = accAny) && decide (g.password = pw))) &&
        (match ids with
          | [x] => u.is x g.masterKey
          | _ => false))

/-- `isAddMembersPendingAdminApprovalAllowed` (groupsv2/groupAuth.go:21-24). -/
def mayRequest (pw : Bytes) (g : Group) : Option Bool :=
  g.rules.map (fun a => decide (a.link = accAdmin) && decide (g.password = pw))

/-! ## Applying the parts of a change (groupChange.go)

Each function returns the group as it leaves it, also when it fails. `g` is the argument `group`, `im` is
`groupImmut`. -/

/-- `GroupChange_Actions` (protobuf/Groups.proto:85-220): the parts a change can have. -/
structure Actions where
  revision : Nat := 0
  addMembers : List (Option WireMember) := []
  deleteMembers : List Bytes := []
  modifyRoles : List (Bytes × Role) := []
  modifyProfileKeys : List Bytes := []
  addPending : List (Option WirePending) := []
  deletePending : List Bytes := []
  promotePending : List Bytes := []
  title : Option Bytes := none
  avatar : Option Bytes := none
  timer : Option Bytes := none
  attributesAccess : Option Access := none
  membersAccess : Option Access := none
  linkAccess : Option Access := none
  addRequesting : List (Option WireRequesting) := []
  deleteRequesting : List Bytes := []
  promoteRequesting : List (Bytes × Role) := []
  newPassword : Option Bytes := none
  description : Option Bytes := none
  announcements : Option Bool := none
  deriving DecidableEq, Repr

/-- The loop of `ApplyAddMembers` (groupsv2/groupChange.go:685-731) over actions whose members are present; `ids`
are all ids of the request, `b` is `isAdminstrator`. -/
def addLoop (b : Bool) (ids : List Bytes) : List WireMember → Group → Group × Out
  | [], g => (g, .ok)
  | w :: ws, g =>
    if w.role = roleAdmin ∧ b = false then (g, .forbidden)
    else if w.userId = [] then (g, .badRequest)
    else if w.profileKey = [] then (g, .badRequest)
    else if w.role = roleUnknown then (g, .badRequest)
    else addLoop b ids ws { g with
      members := g.members ++ [⟨w.userId, w.role, w.profileKey, (g.revision + 1) % u32⟩]
      pending := g.pending.filter (fun p => decide (p.uuid ∉ ids))
      requesting := g.requesting.filter (fun r => decide (r.uuid ∉ ids)) }

/-- `ApplyAddMembers` (groupsv2/groupChange.go:652-732). Simplified: a missing member anywhere in the list panics
at once (in the code, at the first of `isAddMemberAllowed`'s or the first loop's reads; nothing has changed
by then). -/
def applyAddMembers (u : User) (pw : Bytes) (im : Group) (as : List (Option WireMember)) (g : Group) :
    Group × Out :=
  if as = [] then (g, .ok)
  else
    let ws := as.filterMap id
    if ws.length ≠ as.length then (g, .panic)
    else
      let ids := ws.map (·.userId)
      match mayAdd u pw im ids with
      | none => (g, .panic)
      | some false => (g, .forbidden)
      | some true =>
        if ¬ ids.Nodup then (g, .badRequest)
        else if ∃ i ∈ ids, i ∈ im.members.map (·.uuid) then (g, .badRequest)
        else addLoop (isAdmin u im) ids ws g

/-- `ApplyDeleteMembers` (groupsv2/groupChange.go:610-650). -/
def applyDeleteMembers (u : User) (im : Group) (ids : List Bytes) (g : Group) : Group × Out :=
  if ids = [] then (g, .ok)
  else if mayDelete u im ids = false then (g, .plain)
  else if ¬ ids.Nodup then (g, .plain)
  else if ∃ i ∈ ids, i ∉ g.members.map (·.uuid) then (g, .plain)
  else ({ g with members := g.members.filter (fun m => decide (m.uuid ∉ ids)) }, .ok)

/-- The validation loop of `ApplyModifyMemberRoles` (groupsv2/groupChange.go:571-593); `seen` are the ids so far. -/
def roleChecks (g : Group) : List Bytes → List (Bytes × Role) → Out
  | _, [] => .ok
  | seen, (i, r) :: rest =>
    if i = [] then .badRequest
    else if r = roleUnknown then .badRequest
    else if i ∈ seen then .badRequest
    else if i ∉ g.members.map (·.uuid) then .badRequest
    else roleChecks g (i :: seen) rest

/-- `member.Role = item.Role` through `mapUserId` (groupsv2/groupChange.go:564-567, 595-599): the last member with
the id is the one in the map. -/
def setRole (i : Bytes) (r : Role) : List Member → List Member
  | [] => []
  | m :: ms =>
    if i ∈ ms.map (·.uuid) then m :: setRole i r ms
    else if m.uuid = i then { m with role := r } :: ms
    else m :: ms

/-- `ApplyModifyMemberRoles` (groupsv2/groupChange.go:551-608). -/
def applyRoles (u : User) (im : Group) (as : List (Bytes × Role)) (g : Group) : Group × Out :=
  if as = [] then (g, .ok)
  else if isAdmin u im = false then (g, .badRequest)
  else match roleChecks g [] as with
    | .ok => ({ g with members := as.foldl (fun ms a => setRole a.1 a.2 ms) g.members }, .ok)
    | e => (g, e)

/-- `ValidatePresentationUpdate` (groupsv2/groupValidator.go:36-65). A nil validator or nil `profileOperations` is
used at line 59 only; calling a method of the library on a nil pointer is taken to panic. -/
def validatePresentation (Z : Zk) (v : Option Validator) (u : User) (im : Group) (p : Bytes) :
    Out × Bytes × Bytes :=
  if p = [] then (.plain, [], [])
  else match Z.parse p with
    | none => (.plain, [], [])
    | some q =>
      match Z.uuidOf q with
      | none => (.plain, [], [])
      | some i =>
        match Z.keyOf q with
        | none => (.plain, [], [])
        | some k =>
          if u.is i im.masterKey = false then (.plain, [], [])
          else match v with
            | none => (.panic, [], [])
            | some v =>
              if v.hasOps = false then (.panic, [], [])
              else if Z.check im.masterKey q then (.ok, i, k)
              else (.plain, [], [])

/-- The validation loops at groupsv2/groupChange.go:522-529 and 369-375: stop at the first failure. -/
def presentations (Z : Zk) (v : Option Validator) (u : User) (im : Group) :
    List Bytes → Out × List (Bytes × Bytes)
  | [] => (.ok, [])
  | p :: ps =>
    match validatePresentation Z v u im p with
    | (.ok, i, k) =>
      let r := presentations Z v u im ps
      (r.1, (i, k) :: r.2)
    | (e, _) => (e, [])

/-- `ApplyModifyMemberProfileKeys` (groupsv2/groupChange.go:515-549). -/
def applyProfileKeys (Z : Zk) (v : Option Validator) (u : User) (im : Group) (ps : List Bytes) (g : Group) :
    Group × Out :=
  if ps = [] then (g, .ok)
  else match presentations Z v u im ps with
    | (.ok, l) =>
      if ¬ (l.map (·.1)).Nodup then (g, .plain)
      else ({ g with members := g.members.map (fun m =>
        match l.find? (fun x => decide (x.1 = m.uuid)) with
        | some x => { m with profileKey := x.2 }
        | none => m) }, .ok)
    | (e, _) => (g, e)

/-- The validation loop of `ApplyAddMembersPendingProfileKeys` (groupsv2/groupChange.go:462-486). Note lines 469 and
472: an invitation must carry a profile key and a presentation. -/
def inviteChecks (admin : Bool) : List Bytes → List (Option WirePending) → Out
  | _, [] => .ok
  | _, none :: _ => .panic
  | seen, some p :: rest =>
    match p.member with
    | none => .badRequest
    | some w =>
      if w.userId = [] then .badRequest
      else if w.profileKey = [] then .badRequest
      else if w.presentation = [] then .badRequest
      else if w.role = roleUnknown then .badRequest
      else if w.role = roleAdmin ∧ admin = false then .forbidden
      else if w.userId ∈ seen then .badRequest
      else inviteChecks admin (w.userId :: seen) rest

/-- The members named by invitations. Code: groupsv2/groupChange.go:450. -/
def invited (as : List (Option WirePending)) : List WireMember := as.filterMap (fun a => a.bind (·.member))

/-- `ApplyAddMembersPendingProfileKeys` (groupsv2/groupChange.go:450-513). The list of people who asked to join is
not looked at. -/
def applyInvite (now : Nat) (u : User) (im : Group) (as : List (Option WirePending)) (g : Group) :
    Group × Out :=
  if as = [] then (g, .ok)
  else match mayInvite u im with
    | none => (g, .panic)
    | some false => (g, .forbidden)
    | some true =>
      match inviteChecks (isAdmin u im) [] as with
      | .ok =>
        if ∃ w ∈ invited as, w.userId ∈ g.members.map (·.uuid) ∨ w.userId ∈ g.pending.map (·.uuid) then
          (g, .badRequest)
        else
          match sourceMember u g with
          | none => (g, .panic)
          | some m =>
            let new := (invited as).map (fun w => (⟨w.userId, w.role, m.uuid, now⟩ : Pending))
            ({ g with pending := g.pending ++ new }, .ok)
      | e => (g, e)

/-- `ApplyDeleteMembersPendingProfileKey` (groupsv2/groupChange.go:407-448). -/
def applyDeletePending (u : User) (im : Group) (ids : List Bytes) (g : Group) : Group × Out :=
  if ids = [] then (g, .ok)
  else if mayDelete u im ids = false then (g, .forbidden)
  else if ¬ ids.Nodup then (g, .badRequest)
  else if ∃ i ∈ ids, i ∉ g.pending.map (·.uuid) then (g, .badRequest)
  else ({ g with pending := g.pending.filter (fun p => decide (p.uuid ∉ ids)) }, .ok)

/-- `ApplyPromoteMembersPendingProfileKey` (groupsv2/groupChange.go:361-405). It edits the encrypted list only. -/
def applyPromotePending (Z : Zk) (v : Option Validator) (u : User) (im : Group) (ps : List Bytes)
    (g : Group) : Group × Out :=
  if ps = [] then (g, .ok)
  else match presentations Z v u im ps with
    | (.ok, l) =>
      if ¬ (l.map (·.1)).Nodup then (g, .badRequest)
      else if ∃ i ∈ l.map (·.1), i ∉ g.pending.map (·.uuid) then (g, .badRequest)
      else ({ g with ctxPending := g.ctxPending.map (fun m =>
        match l.find? (fun x => decide (x.1 = m.userId)) with
        | some x => { m with presentation := [], profileKey := x.2, joinedAt := (g.revision + 1) % u32 }
        | none => m) }, .ok)
    | (.panic, _) => (g, .panic)
    | (_, _) => (g, .internal)

/-- Runs `f` if attributes may be changed (the check of `ApplyModifyTitle`, `ApplyModifyAvatar`,
`ApplyModifyDisappearingMessageTimer` and `ApplyModifyDescription`). Code:
groupsv2/groupChange.go:342, 317, 300, 41. -/
def ifAttributes (u : User) (im g : Group) (f : Group) : Group × Out :=
  match mayAttributes u im with
  | none => (g, .panic)
  | some false => (g, .forbidden)
  | some true => (f, .ok)

/-- `ApplyModifyTitle` (groupsv2/groupChange.go:342-359). -/
def applyTitle (u : User) (im : Group) (a : Option Bytes) (g : Group) : Group × Out :=
  match a with
  | none => (g, .ok)
  | some t => if t = [] then (g, .badRequest) else ifAttributes u im g { g with title := t }

/-- `ApplyModifyAvatar` (groupsv2/groupChange.go:317-340); `IsValidAvatarUrl` (groupsv2/groupValidator.go:379-380) accepts
everything. -/
def applyAvatar (u : User) (im : Group) (a : Option Bytes) (g : Group) : Group × Out :=
  match a with
  | none => (g, .ok)
  | some x => ifAttributes u im g { g with avatar := x }

/-- `ApplyModifyDisappearingMessageTimer` (groupsv2/groupChange.go:300-315): allowed or not, nothing changes. -/
def applyTimer (u : User) (im : Group) (a : Option Bytes) (g : Group) : Group × Out :=
  match a with
  | none => (g, .ok)
  | some _ => ifAttributes u im g g

/-- Writing a field of the access rules; a nil pointer panics. Code: groupsv2/groupChange.go:258,
279. -/
def setRules (g : Group) (f : Rules → Rules) : Group × Out :=
  match g.rules with
  | none => (g, .panic)
  | some a => ({ g with rules := some (f a) }, .ok)

/-- `ApplyModifyAttributesAccess` (groupsv2/groupChange.go:279-298). -/
def applyAttributesAccess (u : User) (im : Group) (a : Option Access) (g : Group) : Group × Out :=
  match a with
  | none => (g, .ok)
  | some x =>
    if x ≠ accAdmin ∧ x ≠ accMember then (g, .badRequest)
    else if isAdmin u im = false then (g, .forbidden)
    else setRules g (fun r => { r with attributes := x })

/-- `ApplyModifyMembersAccess` (groupsv2/groupChange.go:258-277). -/
def applyMembersAccess (u : User) (im : Group) (a : Option Access) (g : Group) : Group × Out :=
  match a with
  | none => (g, .ok)
  | some x =>
    if x ≠ accAdmin ∧ x ≠ accMember then (g, .badRequest)
    else if isAdmin u im = false then (g, .forbidden)
    else setRules g (fun r => { r with members := x })

/-- `ApplyModifyAddFromInviteLinkAccess` (groupsv2/groupChange.go:235-256). -/
def applyLinkAccess (u : User) (im : Group) (a : Option Access) (g : Group) : Group × Out :=
  match a with
  | none => (g, .ok)
  | some x =>
    if isAdmin u im = false then (g, .forbidden)
    else if x ≠ accAdmin ∧ x ≠ accUnsat ∧ x ≠ accAny then (g, .badRequest)
    else setRules g (fun r => { r with link := x })

/-- `ApplyAddMembersPendingAdminApproval` (groupsv2/groupChange.go:174-233): the request is appended to the
encrypted list of `GroupContext`, not to the decrypted one. A missing `Added` panics. -/
def applyRequest (u : User) (pw : Bytes) (im : Group) (as : List (Option WireRequesting)) (g : Group) :
    Group × Out :=
  if as = [] then (g, .ok)
  else match mayRequest pw im with
    | none => (g, .panic)
    | some false => (g, .forbidden)
    | some true =>
      let ws := as.filterMap id
      let ids := ws.map (·.userId)
      if ws.length ≠ as.length then (g, .panic)
      else if ¬ ids.Nodup then (g, .badRequest)
      else if ∃ i ∈ ids, i ∈ g.members.map (·.uuid) ∨ i ∈ g.pending.map (·.uuid) ∨
          i ∈ g.requesting.map (·.uuid) then (g, .badRequest)
      else match ws with
        | [w] =>
          if u.is w.userId g.masterKey then ({ g with ctxRequesting := g.ctxRequesting ++ [w] }, .ok)
          else (g, .badRequest)
        | _ => (g, .badRequest)

/-- `ApplyDeleteMembersPendingAdminApproval` (groupsv2/groupChange.go:129-172). -/
def applyDeleteRequesting (u : User) (im : Group) (ids : List Bytes) (g : Group) : Group × Out :=
  if ids = [] then (g, .ok)
  else if mayDelete u im ids = false then (g, .forbidden)
  else if ¬ ids.Nodup then (g, .badRequest)
  else if ∃ i ∈ ids, i ∉ g.requesting.map (·.uuid) then (g, .badRequest)
  else ({ g with requesting := g.requesting.filter (fun r => decide (r.uuid ∉ ids)) }, .ok)

/-- The last profile key recorded for an id (`mapPendingAdminProvalUserId`, groupsv2/groupChange.go:79-82). -/
def requestKey (rs : List Requesting) (i : Bytes) : Option Bytes :=
  (rs.reverse.find? (fun r => decide (r.uuid = i))).map (·.profileKey)

/-- The loop of `ApplyPromotePendingAdminApproval` (groupsv2/groupChange.go:89-117): members are appended while the
list is still being checked; `mem` are the ids of the members at the start, `seen` the ids so far. -/
def approveLoop (mem : List Bytes) : List Bytes → List (Bytes × Role) → Group → Group × Out
  | _, [], g => (g, .ok)
  | seen, (i, r) :: rest, g =>
    if i ∈ seen then (g, .badRequest)
    else if i ∈ mem then (g, .badRequest)
    else match requestKey g.requesting i with
      | none => (g, .badRequest)
      | some k => approveLoop mem (i :: seen) rest
          { g with members := g.members ++ [⟨i, r, k, (g.revision + 1) % u32⟩] }

/-- `ApplyPromotePendingAdminApproval` (groupsv2/groupChange.go:67-127). -/
def applyApprove (u : User) (im : Group) (as : List (Bytes × Role)) (g : Group) : Group × Out :=
  if as = [] then (g, .ok)
  else if isAdmin u im = false then (g, .forbidden)
  else
    let r := approveLoop (g.members.map (·.uuid)) [] as g
    match r.2 with
    | .ok => ({ r.1 with
        requesting := r.1.requesting.filter (fun q => decide (q.uuid ∉ as.map (·.1))) }, .ok)
    | _ => r

/-- `ApplyModifyInviteLinkPassword` (groupsv2/groupChange.go:55-65). -/
def applyPassword (u : User) (im : Group) (a : Option Bytes) (g : Group) : Group × Out :=
  match a with
  | none => (g, .ok)
  | some x => if isAdmin u im = false then (g, .forbidden) else ({ g with password := x }, .ok)

/-- `ApplyModifyDescription` (groupsv2/groupChange.go:41-53). -/
def applyDescription (u : User) (im : Group) (a : Option Bytes) (g : Group) : Group × Out :=
  match a with
  | none => (g, .ok)
  | some x => ifAttributes u im g { g with description := x }

/-- `ApplyModifyAnnouncementsOnly` (groupsv2/groupChange.go:28-39). -/
def applyAnnouncements (u : User) (im : Group) (a : Option Bool) (g : Group) : Group × Out :=
  match a with
  | none => (g, .ok)
  | some x => if isAdmin u im = false then (g, .forbidden) else ({ g with announcementsOnly := x }, .ok)

/-! ## Checking a change and the group it leads to (groupValidator.go) -/

/-- `uuid.FromBytes(b)` and `String()` (utils/utils.go `UUIDStr`): sixteen bytes only. Code:
utils/utils.go:14-20. -/
def uuidText (b : Bytes) : Option Bytes :=
  if b.length = 16 then some (Encoding.hexToUUID (Encoding.hexEncode b)) else none

/-- `ValidateMember` (groupsv2/groupValidator.go:335-377). -/
def validateMember (Z : Zk) (v : Validator) (g : Group) (w : WireMember) : Out × WireMember :=
  if w.role = roleUnknown then (.plain, w)
  else if w.presentation = [] then (.plain, w)
  else match Z.parse w.presentation with
    | none => (.plain, w)
    | some q =>
      if v.hasOps = false then (.panic, w)
      else if Z.check g.masterKey q = false then (.plain, w)
      else match Z.keyOf q, Z.uuidOf q with
        | some k, some i =>
          match uuidText i with
          | none => (.plain, w)
          | some t => (.ok, ⟨t, w.role, k, [], g.revision⟩)
        | _, _ => (.plain, w)

/-- `ValidateAddMember` (groupsv2/groupValidator.go:304-333). `JoinFromInviteLink` is left out: it is neither read
nor kept. Nil access rules, which line 324 may read for someone adding themselves, panic later, in
`applyAddMembers`. -/
def validateAdd (Z : Zk) (v : Validator) (g : Group) : List (Option WireMember) → Out × List (Option WireMember)
  | [] => (.ok, [])
  | none :: _ => (.plain, [])
  | some w :: ws =>
    if w.presentation = [] then (.plain, [])
    else match validateMember Z v g w with
      | (.ok, w') =>
        let r := validateAdd Z v g ws
        (r.1, some w' :: r.2)
      | (e, _) => (e, [])

/-- `ValidateMemberPendingProfileKey` (groupsv2/groupValidator.go:249-277): an invitation must carry no profile key
and no presentation. -/
def validatePendingMember (now : Nat) (g : Group) (by_ : Member) (p : WirePending) : Option WirePending :=
  match p.member with
  | none => none
  | some w =>
    if w.userId = [] then none
    else if w.role = roleUnknown then none
    else if w.presentation ≠ [] then none
    else if w.profileKey ≠ [] then none
    else some { member := some { w with profileKey := [], presentation := [], joinedAt := g.revision },
                addedBy := by_.uuid, timestamp := now }

/-- The loop of `ValidateAddMembersPendingProfileKey` (groupsv2/groupValidator.go:289-298). -/
def validateInviteLoop (now : Nat) (g : Group) (by_ : Member) :
    List (Option WirePending) → Out × List (Option WirePending)
  | [] => (.ok, [])
  | none :: _ => (.plain, [])
  | some p :: ps =>
    match validatePendingMember now g by_ p with
    | none => (.plain, [])
    | some q =>
      let r := validateInviteLoop now g by_ ps
      (r.1, some q :: r.2)

/-- `ValidateAddMembersPendingProfileKey` (groupsv2/groupValidator.go:279-302). -/
def validateInvite (now : Nat) (u : User) (g : Group) (as : List (Option WirePending)) :
    Out × List (Option WirePending) :=
  if as = [] then (.ok, [])
  else match sourceMember u g with
    | none => (.plain, [])
    | some m => validateInviteLoop now g m as

/-- `ValidateMemberPendingAdminApproval` (groupsv2/groupValidator.go:198-247). -/
def validateRequester (Z : Zk) (v : Validator) (now : Nat) (u : User) (g : Group) (w : WireRequesting) :
    Out × WireRequesting :=
  if w.userId ≠ [] then (.plain, w)
  else if w.profileKey ≠ [] then (.plain, w)
  else if w.presentation = [] then (.plain, w)
  else if w.timestamp ≠ 0 then (.plain, w)
  else match Z.parse w.presentation with
    | none => (.plain, w)
    | some q =>
      if v.hasOps = false then (.panic, w)
      else if Z.check g.masterKey q = false then (.plain, w)
      else match Z.uuidOf q with
        | none => (.plain, w)
        | some i =>
          if u.is i g.masterKey = false then (.plain, w)
          else match Z.keyOf q with
            | none => (.plain, w)
            | some k => (.ok, { w with profileKey := k, userId := i, timestamp := now })

/-- The loop of `ValidateAddMembersPendingAdminApproval` (groupsv2/groupValidator.go:184-193). -/
def validateRequestLoop (Z : Zk) (v : Validator) (now : Nat) (u : User) (g : Group) :
    List (Option WireRequesting) → Out × List (Option WireRequesting)
  | [] => (.ok, [])
  | none :: _ => (.plain, [])
  | some w :: ws =>
    match validateRequester Z v now u g w with
    | (.ok, w') =>
      let r := validateRequestLoop Z v now u g ws
      (r.1, some w' :: r.2)
    | (e, _) => (e, [])

/-- `ValidateAddMembersPendingAdminApproval` (groupsv2/groupValidator.go:176-196). -/
def validateRequest (Z : Zk) (v : Validator) (now : Nat) (u : User) (pw : Bytes) (g : Group)
    (as : List (Option WireRequesting)) : Out × List (Option WireRequesting) :=
  if as = [] then (.ok, [])
  else if pw ≠ g.password then (.plain, [])
  else validateRequestLoop Z v now u g as

/-- `ValidateRoles` (groupsv2/groupValidator.go:85-99). -/
def rolesOk (g : Group) : Bool :=
  g.members.all (fun m => decide (m.role = roleDefault ∨ m.role = roleAdmin)) &&
  g.pending.all (fun m => decide (m.role = roleDefault ∨ m.role = roleAdmin))

/-- `ValidateAccessControl` (groupsv2/groupValidator.go:66-83). -/
def rulesOk (g : Group) : Out :=
  match g.rules with
  | none => .panic
  | some a =>
    let list := [accMember, accUnknown, accAdmin]
    if a.attributes ∉ list then .plain
    else if a.members ∉ list then .plain
    else if a.link ∉ list ++ [accAny, accUnsat] then .plain
    else .ok

/-- The number of keys of the map built from a list of ids. Code:
groupsv2/groupValidator.go:101-174. -/
def distinct (ids : List Bytes) : Nat := ids.dedup.length

/-- `group.GetAccessControl().GetAddFromInviteLink()`: the getters accept nil. Code:
groupsv2/groupModify.go:25-251. -/
def linkOf (g : Group) : Access :=
  match g.rules with
  | some a => a.link
  | none => accUnknown

/-- `ValidateFinalGroupState` (groupsv2/groupValidator.go:101-174). -/
def validateFinal (v : Validator) (g : Group) : Out :=
  let link := linkOf g
  let ms := g.members.map (·.uuid)
  let ps := g.pending.map (·.uuid)
  let rs := g.requesting.map (·.uuid)
  if g.title.length = 0 then .plain
  else if g.title.length > v.maxTitle then .plain
  else if g.description.length > v.maxDescription then .plain
  else if g.password.length = 0 ∧ link ≠ accUnsat ∧ link ≠ accUnknown then .plain
  else if g.pending.length + g.members.length > v.maxSize then .plain
  else if g.requesting.length > v.maxSize then .plain
  else if distinct ms ≠ ms.length ∨ distinct ps ≠ ps.length ∨ distinct rs ≠ rs.length then .plain
  else if ∃ k ∈ ms, k ∈ ps ∨ k ∈ rs then .plain
  else if ∃ k ∈ rs, k ∈ ps then .plain
  else if rolesOk g = false then .plain
  else rulesOk g

/-! ## The whole change (groupModify.go) -/

/-- One part of a change: reads `groupImmut`, changes the group. Code:
groupsv2/groupModify.go:25-251. -/
abbrev Step := Group → Group → Group × Out

/-- The parts in the order `ModifyGroup` applies them (groupsv2/groupModify.go:61-206). The applicator's validator
`av` is the nil pointer there. `ApplyAddMembers` and `ApplyDeleteMembers` errors come back as `Status(500)`,
as do those of `ApplyModifyMemberProfileKeys`; which error it is plays no further part. -/
def steps (Z : Zk) (av : Option Validator) (now : Nat) (u : User) (pw : Bytes) (a : Actions) : List Step :=
  [fun im g => applyAddMembers u pw im a.addMembers g,
   fun im g => applyDeleteMembers u im a.deleteMembers g,
   fun im g => applyRoles u im a.modifyRoles g,
   fun im g => applyProfileKeys Z av u im a.modifyProfileKeys g,
   fun im g => applyInvite now u im a.addPending g,
   fun im g => applyDeletePending u im a.deletePending g,
   fun im g => applyPromotePending Z av u im a.promotePending g,
   fun im g => applyTitle u im a.title g,
   fun im g => applyAvatar u im a.avatar g,
   fun im g => applyTimer u im a.timer g,
   fun im g => applyAttributesAccess u im a.attributesAccess g,
   fun im g => applyMembersAccess u im a.membersAccess g,
   fun im g => applyLinkAccess u im a.linkAccess g,
   fun im g => applyRequest u pw im a.addRequesting g,
   fun im g => applyDeleteRequesting u im a.deleteRequesting g,
   fun im g => applyApprove u im a.promoteRequesting g,
   fun im g => applyPassword u im a.newPassword g,
   fun im g => applyDescription u im a.description g,
   fun im g => applyAnnouncements u im a.announcements g]

/-- Runs the parts until one fails. `groupImmut := g` (groupsv2/groupModify.go:59) copies a pointer, so each part
reads the group as the parts before left it. -/
def runSteps : List Step → Group → Group × Out
  | [], g => (g, .ok)
  | s :: ss, g =>
    let r := s g g
    match r.2 with
    | .ok => runSteps ss r.1
    | _ => r

/-- `getSourceUuid` (groupsv2/groupModify.go:253-294): with `groupImmut` the same object, the first non-empty id
found among the members, the invited, the requesting. -/
def sourceUuid (u : User) (g : Group) : Bytes :=
  let m := match sourceMember u g with
    | some m => m.uuid
    | none => []
  if m ≠ [] then m
  else
    let p := match g.pending.find? (fun m => u.is m.uuid g.masterKey) with
      | some m => m.uuid
      | none => []
    if p ≠ [] then p
    else match g.requesting.find? (fun m => u.is m.uuid g.masterKey) with
      | some m => m.uuid
      | none => []

/-- `utils.Max` over the epochs of the parts present (groupsv2/groupModify.go:143-206). -/
def changeEpoch (a : Actions) : Nat :=
  max (if a.linkAccess.isSome ∨ a.addRequesting ≠ [] ∨ a.deleteRequesting ≠ [] ∨ a.promoteRequesting ≠ [] ∨
        a.newPassword.isSome then 1 else 0)
    (max (if a.description.isSome then 2 else 0) (if a.announcements.isSome then 3 else 0))

/-- The three checks of a change before it is applied (groupsv2/groupModify.go:42-57), giving the change with the
fields the checks fill in. -/
def precheck (Z : Zk) (v : Validator) (now : Nat) (u : User) (pw : Bytes) (a : Actions) (g : Group) :
    Out × Actions :=
  match validateAdd Z v g a.addMembers with
  | (.ok, am) =>
    match validateInvite now u g a.addPending with
    | (.ok, ap) =>
      match validateRequest Z v now u pw g a.addRequesting with
      | (.ok, ar) => (.ok, { a with addMembers := am, addPending := ap, addRequesting := ar })
      | (.panic, _) => (.panic, a)
      | (_, _) => (.badRequest, a)
    | (_, _) => (.badRequest, a)
  | (.panic, _) => (.panic, a)
  | (_, _) => (.badRequest, a)

/-- From `getSourceUuid` to the end of `ModifyGroup` (groupsv2/groupModify.go:208-250): the group, the outcome, and
whether the group was saved. -/
def finish (Z : Zk) (v : Validator) (u : User) (a : Actions) (g : Group) : Group × Out × Bool :=
  if sourceUuid u g = [] then (g, .forbidden, false)
  else if Z.signs = false then (g, .internal, false)
  else
    let g' := { g with revision := a.revision }
    match validateFinal v g' with
    | .ok => (g', .ok, true)
    | .panic => (g', .panic, false)
    | _ => (g', .badRequest, false)

/-- `ModifyGroup` (groupsv2/groupModify.go:25-251) for given validators; `pw` is the decoded password parameter
(`none`: it does not decode). -/
def modifyWith (Z : Zk) (v : Validator) (av : Option Validator) (now : Nat) (u : User) (pw : Option Bytes)
    (a : Actions) (g : Group) : Group × Out × Bool :=
  match pw with
  | none => (g, .internal, false)
  | some pw =>
    match precheck Z v now u pw a g with
    | (.ok, a') =>
      let r := runSteps (steps Z av now u pw a') g
      match r.2 with
      | .ok => finish Z v u a' r.1
      | e => (r.1, e, false)
    | (e, _) => (g, e, false)

/-- The zero value `GroupValidator{}` (groupsv2/groupModify.go:27). -/
def zeroValidator : Validator := ⟨false, 0, 0, 0⟩

/-- `ModifyGroup` as it is: `GroupValidator{}` and `GroupChangeApplicator{}` (groupsv2/groupModify.go:26-27). -/
def modifyGroup (Z : Zk) (now : Nat) (u : User) (pw : Option Bytes) (a : Actions) (g : Group) :
    Group × Out × Bool :=
  modifyWith Z zeroValidator none now u pw a g

end Verif.GroupsV2
