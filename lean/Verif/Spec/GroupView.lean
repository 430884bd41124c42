import Verif.Model.GroupStore
/-!
# A group as its members see it, and what a change does to it

Written from the meaning of the fields of `GroupChange.Actions` (protobuf/Groups.proto:86-210), not from the
client: the client never applies a change, it asks the server for the group.
-/
namespace Verif.GroupView
open Verif Verif.GroupStore

/-- A group as its members see it: its title, who belongs to it in which role, and who is invited. -/
structure View where
  title : Bytes
  members : List (Bytes × Nat)
  invited : List Bytes
  deriving DecidableEq, Repr

/-- A change in plain: who made it and what it does. -/
structure Change where
  revision : Nat := 0
  editor : Bytes := []
  joins : List (Bytes × Nat) := []
  leaves : List Bytes := []
  roles : List (Bytes × Nat) := []
  invites : List Bytes := []
  withdraws : List Bytes := []
  accepts : List (Bytes × Nat) := []
  title : Option Bytes := none
  deriving DecidableEq, Repr

/-- The role somebody has after a change of roles. -/
def newRole (roles : List (Bytes × Nat)) (m : Bytes × Nat) : Bytes × Nat :=
  match roles.find? (fun r => r.1 = m.1) with
  | some r => (m.1, r.2)
  | none => m

/-- What a change makes of a group. -/
def apply (v : View) (c : Change) : View where
  title := c.title.getD v.title
  members := (v.members.filter (fun m => !c.leaves.contains m.1)).map (newRole c.roles) ++ c.joins ++ c.accepts
  invited := v.invited.filter (fun u => !(c.withdraws ++ c.accepts.map (·.1)).contains u) ++ c.invites

/-- Everything the change `c` says stands in the actions `a`, encrypted for the group with master key `mk`. An
accepted invitation names who accepts; the role is that of the invitation. -/
structure Carries (Z : Zk) (mk : Bytes) (a : Actions) (c : Change) : Prop where
  revision : a.revision = c.revision
  editor : Z.uuid mk a.source = some c.editor
  joins : ∃ l : List Member, a.add = l.map some ∧ (∀ m ∈ l, m.presentation = []) ∧
    l.map (fun m => (Z.uuid mk m.userId, m.role)) = c.joins.map (fun p => (some p.1, p.2))
  leaves : a.delete.map (Z.uuid mk) = c.leaves.map some
  roles : a.roles.map (fun r => (Z.uuid mk r.1, r.2)) = c.roles.map (fun p => (some p.1, p.2))
  invites : a.addPending.map (fun p => Z.uuid mk p.1) = c.invites.map some
  withdraws : a.deletePending.map (Z.uuid mk) = c.withdraws.map some
  accepts : a.promotePending.map (Z.uuid mk) = c.accepts.map (fun p => some p.1)
  title : a.title.map (Z.blob mk) = c.title.map some

/-- What an application reads from the report of a change. -/
def told (d : DChange) : Change where
  revision := d.revision
  editor := d.editor
  joins := d.newMembers.map (fun m => (m.uuid, m.role))
  leaves := d.deleted
  roles := d.roles
  invites := d.newPending.map (·.1)
  withdraws := d.deletePending
  accepts := d.promotePending
  title := d.newTitle

end Verif.GroupView
