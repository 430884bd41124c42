import Verif.Model.GroupsV2
/-!
# What group changes should do, stated without the code's own checks
-/
namespace Verif.GroupsV2
open Verif

/-- The requester `u` of group `g` is the user with this id. -/
def Self (u : User) (g : Group) (id : Bytes) : Prop := u.groupKey = g.masterKey ∧ u.cipher = id

/-- The requester is an administrator member of the group. -/
def Admin (u : User) (g : Group) : Prop := ∃ m ∈ g.members, Self u g m.uuid ∧ m.role = 2

/-- The requester may change title, picture and description. -/
def MayEdit (u : User) (g : Group) : Prop :=
  ∃ m ∈ g.members, Self u g m.uuid ∧ ∃ a, g.rules = some a ∧
    (a.attributes = 1 ∨ a.attributes = 2 ∨ (a.attributes = 3 ∧ m.role = 2))

/-- Nobody is listed twice: as member, as invited, or as asking to join. -/
def OneEach (g : Group) : Prop :=
  (g.members.map (·.uuid) ++ g.pending.map (·.uuid) ++ g.requesting.map (·.uuid)).Nodup

/-- What a user who is no administrator can do to a group `g₀` by a change that adds the users `ids`: the
access rules, the invite password and the announcement mode stay; other members stay with their role; a
member of the new group is an old one with the same role, or one of `ids`, not an administrator; other
people's invitations and requests stay, unless they are among `ids`; no administrator is invited. -/
structure Harmless (u : User) (ids : List Bytes) (g₀ g : Group) : Prop where
  key : g.masterKey = g₀.masterKey
  rules : g.rules = g₀.rules
  password : g.password = g₀.password
  announcements : g.announcementsOnly = g₀.announcementsOnly
  others : ∀ m ∈ g₀.members, ¬ Self u g₀ m.uuid → m ∈ g.members
  members : ∀ m ∈ g.members,
    (∃ m₀ ∈ g₀.members, m₀.uuid = m.uuid ∧ m₀.role = m.role) ∨
    (m.uuid ∈ ids ∧ m.role ≠ 2 ∧ ∀ m₀ ∈ g₀.members, m₀.uuid ≠ m.uuid)
  invitations : ∀ p ∈ g₀.pending, ¬ Self u g₀ p.uuid → p ∈ g.pending ∨ p.uuid ∈ ids
  requests : ∀ r ∈ g₀.requesting, ¬ Self u g₀ r.uuid → r ∈ g.requesting ∨ r.uuid ∈ ids
  invited : ∀ p ∈ g.pending, p ∈ g₀.pending ∨ p.role ≠ 2

/-- Some part of the change is for administrators only. -/
def NeedsAdmin (u : User) (g : Group) (a : Actions) : Prop :=
  a.modifyRoles ≠ [] ∨ a.attributesAccess ≠ none ∨ a.membersAccess ≠ none ∨ a.linkAccess ≠ none ∨
  a.newPassword ≠ none ∨ a.announcements ≠ none ∨ a.promoteRequesting ≠ [] ∨
  (∃ i ∈ a.deleteMembers, ¬ Self u g i) ∨ (∃ i ∈ a.deletePending, ¬ Self u g i) ∨
  (∃ i ∈ a.deleteRequesting, ¬ Self u g i)

/-- The requester, giving the password `pw`, may put `i` on the member list: as an administrator, as a member
if the rules let members add people, or for themselves if the rules let anyone in, or let in whoever has the
password of the invite link. -/
def MayBring (u : User) (pw : Bytes) (g : Group) (i : Bytes) : Prop :=
  Admin u g ∨ ∃ r, g.rules = some r ∧
    (((∃ m ∈ g.members, Self u g m.uuid) ∧ (r.members = 1 ∨ r.members = 2)) ∨
     ((∀ m ∈ g.members, ¬ Self u g m.uuid) ∧ Self u g i ∧
       (r.members = 1 ∨ (r.link = 1 ∧ g.password = pw))))

/-- A group in order, under the given limits. -/
structure Valid (v : Validator) (g : Group) : Prop where
  title : g.title ≠ [] ∧ g.title.length ≤ v.maxTitle
  description : g.description.length ≤ v.maxDescription
  size : g.members.length + g.pending.length ≤ v.maxSize ∧ g.requesting.length ≤ v.maxSize
  once : OneEach g
  roles : (∀ m ∈ g.members, m.role = 1 ∨ m.role = 2) ∧ ∀ p ∈ g.pending, p.role = 1 ∨ p.role = 2
  access : ∃ a, g.rules = some a ∧ a.attributes ∈ ([0, 2, 3] : List Int) ∧ a.members ∈ ([0, 2, 3] : List Int) ∧
    a.link ∈ ([0, 1, 2, 3, 4] : List Int) ∧ (g.password = [] → a.link = 0 ∨ a.link = 4)

/-- What a change `a` asks the new members to be, at the revision of `g`. -/
def newMembers (a : Actions) (g : Group) : List Member :=
  (a.addMembers.filterMap id).map (fun w => ⟨w.userId, w.role, w.profileKey, (g.revision + 1) % u32⟩)

/-- The ids of the people the change adds as members. -/
def addedIds (a : Actions) : List Bytes := (a.addMembers.filterMap id).map (·.userId)

/-- A member with the role the change gives them, if it gives them one. -/
def withRole (a : Actions) (m : Member) : Member :=
  match a.modifyRoles.find? (fun x => decide (x.1 = m.uuid)) with
  | some x => { m with role := x.2 }
  | none => m

/-- A member with the profile key `k`, if it is the one with id `i`. -/
def withKey (i k : Bytes) (m : Member) : Member := if m.uuid = i then { m with profileKey := k } else m

/-- The presentation `p` proves to group `g` that the requester `u` has the profile key `k`. -/
def Shows (Z : Zk) (u : User) (g : Group) (p k : Bytes) : Prop :=
  p ≠ [] ∧ ∃ q i, Z.parse p = some q ∧ Z.uuidOf q = some i ∧ Self u g i ∧ Z.keyOf q = some k ∧
    Z.check g.masterKey q = true

/-- The member `w'` is the added member `w` with the id and key that its checked presentation proves. -/
def MemberProved (Z : Zk) (g : Group) (w w' : WireMember) : Prop :=
  w.role ≠ 0 ∧ w'.role = w.role ∧ ∃ q i, Z.parse w.presentation = some q ∧ Z.check g.masterKey q = true ∧
    Z.uuidOf q = some i ∧ i.length = 16 ∧ w'.userId = Encoding.hexToUUID (Encoding.hexEncode i) ∧
    Z.keyOf q = some w'.profileKey

/-- The invitation `p'` is the invitation `p`, which names a person and proves nothing, signed by the inviter. -/
def InviteSigned (u : User) (now : Nat) (p p' : WirePending) : Prop :=
  ∃ w w', p.member = some w ∧ p'.member = some w' ∧ w.userId ≠ [] ∧ w.role ≠ 0 ∧ w.presentation = [] ∧
    w.profileKey = [] ∧ w'.userId = w.userId ∧ w'.role = w.role ∧ p'.addedBy = u.cipher ∧ p'.timestamp = now

/-- The request `w'` is the request `w` with the requester's id and the key their checked presentation proves. -/
def RequestProved (Z : Zk) (u : User) (g : Group) (now : Nat) (w w' : WireRequesting) : Prop :=
  w.userId = [] ∧ w.profileKey = [] ∧ w'.userId = u.cipher ∧ w'.timestamp = now ∧
    Shows Z u g w.presentation w'.profileKey

/-- The change `a` of `u` to the group `g` led to `g'` and did what it says, all of it and nothing else. The
members are the old ones and the added ones, without the removed ones, with the new roles and the requester's
new profile key, and then the people whose requests were approved, with the keys they asked with. -/
structure Carried (Z : Zk) (u : User) (a : Actions) (g g' : Group) : Prop where
  key : g'.masterKey = g.masterKey
  revision : g'.revision = g.revision
  title : g'.title = a.title.getD g.title
  avatar : g'.avatar = a.avatar.getD g.avatar
  description : g'.description = a.description.getD g.description
  password : g'.password = a.newPassword.getD g.password
  announcements : g'.announcementsOnly = a.announcements.getD g.announcementsOnly
  rules : g'.rules = g.rules.map (fun r => ⟨a.attributesAccess.getD r.attributes,
    a.membersAccess.getD r.members, a.linkAccess.getD r.link⟩)
  members : ∃ own approved, g'.members =
      (((g.members ++ newMembers a g).filter (fun m => decide (m.uuid ∉ a.deleteMembers))).map
        (withRole a)).map own ++ approved ∧
    ((a.modifyProfileKeys = [] ∧ own = id) ∨
      ∃ p k, a.modifyProfileKeys = [p] ∧ Shows Z u g p k ∧ own = withKey u.cipher k) ∧
    approved.map (fun m => (m.uuid, m.role)) = a.promoteRequesting ∧
    ∀ m ∈ approved, ⟨m.uuid, m.profileKey⟩ ∈ g.requesting ∧ m.joinedAt = (g.revision + 1) % u32
  pending : ∃ new, g'.pending = (g.pending.filter (fun p => decide (p.uuid ∉ addedIds a)) ++ new).filter
      (fun p => decide (p.uuid ∉ a.deletePending)) ∧
    new.map (fun p => (p.uuid, p.role)) = (a.addPending.filterMap (fun x => x.bind (·.member))).map
      (fun w => (w.userId, w.role))
  accepted : a.promotePending = [] ∨ ∃ p k, a.promotePending = [p] ∧ Shows Z u g p k ∧
    u.cipher ∈ g'.pending.map (·.uuid)
  asked : g'.ctxRequesting = g.ctxRequesting ++ a.addRequesting.filterMap id ∧
    (a.addRequesting = [] ∨ ∃ w, a.addRequesting = [some w] ∧ Self u g w.userId)
  requesting : g'.requesting = ((g.requesting.filter (fun r => decide (r.uuid ∉ addedIds a))).filter
      (fun r => decide (r.uuid ∉ a.deleteRequesting))).filter
      (fun r => decide (r.uuid ∉ a.promoteRequesting.map (·.1)))

/-- The change `a` is one that makes sense for the group `g`: nobody is named twice in one part, those to be
removed are there, those to be added are not, roles are known ones and access rules are from the list. -/
structure Sound (a : Actions) (g : Group) : Prop where
  add : (addedIds a).Nodup ∧ ∀ i ∈ addedIds a, i ≠ [] ∧ i ∉ g.members.map (·.uuid)
  addRole : ∀ m ∈ newMembers a g, m.role ≠ 0 ∧ m.profileKey ≠ []
  delete : a.deleteMembers.Nodup ∧ ∀ i ∈ a.deleteMembers, i ∈ g.members.map (·.uuid) ∨ i ∈ addedIds a
  roles : (a.modifyRoles.map (·.1)).Nodup ∧ ∀ x ∈ a.modifyRoles, x.1 ≠ [] ∧ x.2 ≠ 0 ∧ x.1 ∉ a.deleteMembers ∧
    (x.1 ∈ g.members.map (·.uuid) ∨ x.1 ∈ addedIds a)
  invite : ∀ x ∈ a.addPending, ∃ p w, x = some p ∧ p.member = some w ∧ w.userId ≠ [] ∧ w.role ≠ 0 ∧
    (w.userId ∈ g.members.map (·.uuid) → w.userId ∈ a.deleteMembers) ∧
    (w.userId ∈ addedIds a → w.userId ∈ a.deleteMembers) ∧
    (w.userId ∈ g.pending.map (·.uuid) → w.userId ∈ addedIds a)
  inviteOnce : ((a.addPending.filterMap (fun x => x.bind (·.member))).map (·.userId)).Nodup
  deletePending : a.deletePending.Nodup ∧ ∀ i ∈ a.deletePending,
    (i ∈ g.pending.map (·.uuid) ∧ i ∉ addedIds a) ∨
      i ∈ (a.addPending.filterMap (fun x => x.bind (·.member))).map (·.userId)
  deleteRequesting : a.deleteRequesting.Nodup ∧ ∀ i ∈ a.deleteRequesting,
    i ∈ g.requesting.map (·.uuid) ∧ i ∉ addedIds a
  approve : (a.promoteRequesting.map (·.1)).Nodup ∧ ∀ i ∈ a.promoteRequesting.map (·.1),
    i ∈ g.requesting.map (·.uuid) ∧ i ∉ a.deleteRequesting ∧ i ∉ addedIds a ∧
    (i ∈ g.members.map (·.uuid) → i ∈ a.deleteMembers)
  title : a.title ≠ some []
  attributesAccess : ∀ x ∈ a.attributesAccess, x = 2 ∨ x = 3
  membersAccess : ∀ x ∈ a.membersAccess, x = 2 ∨ x = 3
  linkAccess : ∀ x ∈ a.linkAccess, x = 1 ∨ x = 3 ∨ x = 4

end Verif.GroupsV2
