import Verif.Spec.GroupView
import Verif.Props.GroupStore
/-!
# What a reported change of a group says (C164)
-/
namespace Verif.Props.GroupView
open Verif Verif.Encoding Verif.GroupStore Verif.GroupView Verif.Props.GroupStore

/-- Decrypting a list whose entries all decrypt. -/
theorem filterMap_of_map {α β : Type} (f : α → Option β) : ∀ (l : List α) (l' : List β),
    l.map f = l'.map some → l.filterMap f = l'
  | [], [], _ => rfl
  | [], _ :: _, h => by simp at h
  | _ :: _, [], h => by simp at h
  | a :: l, b :: l', h => by
    simp only [List.map_cons, List.cons.injEq] at h
    rw [List.filterMap_cons_some h.1, filterMap_of_map f l l' h.2]

/-- The same, with a role beside each entry. -/
theorem filterMap_of_map₂ {α : Type} (f : α → Option Bytes) (g : α → Nat) : ∀ (l : List α) (l' : List (Bytes × Nat)),
    l.map (fun a => (f a, g a)) = l'.map (fun p => (some p.1, p.2)) →
    l.filterMap (fun a => (f a).map (fun u => (u, g a))) = l'
  | [], [], _ => rfl
  | [], _ :: _, h => by simp at h
  | _ :: _, [], h => by simp at h
  | a :: l, b :: l', h => by
    simp only [List.map_cons, List.cons.injEq, Prod.mk.injEq] at h
    rw [List.filterMap_cons_some (b := b) (by rw [h.1.1, ← h.1.2.symm]; rfl), filterMap_of_map₂ f g l l' h.2]

theorem getD_of_map {α : Type} (f : α → Option Bytes) : ∀ (l : List α) (l' : List Bytes),
    l.map f = l'.map some → l.map (fun a => (f a).getD []) = l'
  | [], [], _ => rfl
  | [], _ :: _, h => by simp at h
  | _ :: _, [], h => by simp at h
  | a :: l, b :: l', h => by
    simp only [List.map_cons, List.cons.injEq] at h
    simp only [List.map_cons, h.1, Option.getD_some, getD_of_map f l l' h.2]

theorem joins_told (Z : Zk) (mk : Bytes) (hs : Z.secret mk = true) : ∀ (l : List Member) (js : List (Bytes × Nat)),
    (∀ m ∈ l, m.presentation = []) →
    l.map (fun m => (Z.uuid mk m.userId, m.role)) = js.map (fun p => (some p.1, p.2)) →
    ((l.map some).filterMap (fun m => decryptMember Z mk (m.getD {}))).map (fun m => (m.uuid, m.role)) = js
  | [], [], _, _ => rfl
  | [], _ :: _, _, h => by simp at h
  | _ :: _, [], _, h => by simp at h
  | m :: l, j :: js, hp, h => by
    simp only [List.map_cons, List.cons.injEq, Prod.mk.injEq] at h
    have hm : decryptMember Z mk ((some m).getD {}) =
        some ⟨j.1, m.role, (Z.profileKey mk m.profileKey j.1).getD [], m.joinedAt⟩ := by
      simp only [Option.getD_some, decryptMember, hs, hp m (List.mem_cons_self ..), h.1.1]
      rfl
    rw [List.map_cons, List.filterMap_cons_some (f := fun m : Option Member => decryptMember Z mk (m.getD {})) (a := some m) hm, List.map_cons,
      joins_told Z mk hs l js (fun x hx => hp x (List.mem_cons_of_mem _ hx)) h.2]
    simp only [h.1.2]

/-- What is read from the report of a change, in terms of the change. -/
theorem told_eq (Z : Zk) (mk : Bytes) (hs : Z.secret mk = true) (a : Actions) (c : Change) (h : Carries Z mk a c)
    (d : DChange) (hd : decryptActions Z mk a = some d) :
    told d = { revision := c.revision, joins := c.joins, leaves := c.leaves, roles := c.roles, invites := c.invites } := by
  simp only [decryptActions, hs] at hd
  rw [if_neg (by simp)] at hd
  rw [← Option.some.inj hd]
  obtain ⟨l, hl, hp, hj⟩ := h.joins
  simp only [told, h.revision, filterMap_of_map _ _ _ h.leaves, filterMap_of_map₂ _ _ _ _ h.roles, List.map_map,
    Function.comp_def, getD_of_map _ _ _ h.invites, hl, joins_told Z mk hs l c.joins hp hj]

/-! ## C164: the report of a change says what the change did -/

/-- Part of **C164**: when a message brings a change the server signed for the group, who joins, leaves, gets a
new role or is invited is reported exactly; so applying the report to any earlier view of the group gives what
the change gives if, and only if, the change withdraws and accepts no invitation and leaves the title alone.
Missing: those three, and who made the change. -/
theorem C164_report_partial (Z : Zk) (parse : Bytes → Actions) (E : Env) (src : Bytes) (c : Ctx) (w : World)
    (a s : Bytes) (ch : Change) (hw : Named w) (hc : c.change = some (a, s)) (hs : Z.secret c.masterKey = true)
    (hv : Z.verify a s = true) (hca : Carries Z c.masterKey (parse a) ch) :
    ∃ g d, (handle Z parse E src c w).2 = .ok g ∧ g.action = some d ∧
      (told d).revision = ch.revision ∧ (told d).joins = ch.joins ∧ (told d).leaves = ch.leaves ∧
      (told d).roles = ch.roles ∧ (told d).invites = ch.invites ∧
      ((∀ v, GroupView.apply v (told d) = GroupView.apply v ch) ↔ ch.withdraws = [] ∧ ch.accepts = [] ∧ ch.title = none) := by
  obtain ⟨g0, hg0, hmk, -⟩ := handleStart_mem Z E c w (hw c.masterKey)
  rw [handle_eq Z parse E src c w g0 hg0]
  simp only [rest, hc]
  rw [if_neg (fun h => by rw [hv] at h; cases h.2)]
  have hsec : ¬ Z.secret g0.masterKey = false := by rw [hmk, hs]; simp
  obtain ⟨d, hd⟩ : ∃ d, decryptActions Z g0.masterKey (parse a) = some d := by
    simp only [decryptActions, hsec, if_false]; exact ⟨_, rfl⟩
  have ht := told_eq Z c.masterKey hs (parse a) ch hca d (by rw [← hmk]; exact hd)
  refine ⟨_, d, rfl, hd, ?_⟩
  rw [ht]
  refine ⟨rfl, rfl, rfl, rfl, rfl, ?_⟩
  constructor
  · intro h
    have hacc : ch.accepts = [] := by
      have := congrArg (fun v => v.members.length) (h ⟨[], [], []⟩)
      simp only [GroupView.apply, List.filter_nil, List.map_nil, List.nil_append, List.append_nil, List.length_append] at this
      exact List.length_eq_zero_iff.mp (by omega)
    refine ⟨?_, hacc, ?_⟩
    · have := congrArg (fun v => v.invited.length) (h ⟨[], [], ch.withdraws⟩)
      simp only [GroupView.apply, hacc, List.map_nil, List.append_nil, List.length_append] at this
      have hz : (ch.withdraws.filter (fun u => !ch.withdraws.contains u)) = [] := by
        rw [List.filter_eq_nil_iff]; intro x hx; simp [hx]
      have hf : (ch.withdraws.filter (fun u => !([] : List Bytes).contains u)) = ch.withdraws := by
        rw [List.filter_eq_self]; intro x _; rfl
      rw [hz, hf] at this
      exact List.length_eq_zero_iff.mp (by simp only [List.length_nil] at this; omega)
    · cases htl : ch.title with
      | none => rfl
      | some t =>
        have := congrArg View.title (h ⟨0 :: t, [], []⟩)
        simp only [GroupView.apply, htl, Option.getD_none, Option.getD_some] at this
        exact absurd (congrArg List.length this) (by simp)
  · rintro ⟨h1, h2, h3⟩ v
    simp only [GroupView.apply, h1, h2, h3, List.map_nil, List.append_nil]

/-- Against **C164**: whoever made a change, the report does not say. -/
theorem C164_no_editor (Z : Zk) (parse : Bytes → Actions) (E : Env) (src : Bytes) (c : Ctx) (w : World)
    (a s : Bytes) (hw : Named w) (hc : c.change = some (a, s)) (g : G) (d : DChange)
    (h : (handle Z parse E src c w).2 = .ok g) (hd : g.action = some d) : d.editor = [] := by
  obtain ⟨g0, hg0, hmk, -⟩ := handleStart_mem Z E c w (hw c.masterKey)
  rw [handle_eq Z parse E src c w g0 hg0] at h
  simp only [rest, hc] at h
  split at h
  · cases h
  · rw [← Res.ok.inj h] at hd
    simp only [decryptActions] at hd
    split at hd
    · cases hd
    · rw [← Option.some.inj hd]

namespace Demo
open Verif.Props.GroupStore.Demo

/-- The actions of two changes: `id2` is made administrator, `id3` is invited and `id1` leaves; `id3` accepts
and the group gets another title. -/
def parse (b : Bytes) : Actions :=
  if b = [1] then
    { revision := 6, source := 1 :: id1, roles := [(1 :: id2, 2)], addPending := [(1 :: id3, 1 :: id1)], delete := [1 :: id1] }
  else { revision := 7, source := 1 :: id3, promotePending := [1 :: id3], title := some [1, 79, 104] }

def first : Change := { revision := 6, editor := id1, roles := [(id2, 2)], invites := [id3], leaves := [id1] }
def second : Change := { revision := 7, editor := id3, accepts := [(id3, 1)], title := some [79, 104] }

theorem first_carried : Carries toyZ mk (parse [1]) first where
  revision := rfl
  editor := by decide +kernel
  joins := ⟨[], rfl, by simp, rfl⟩
  leaves := by decide +kernel
  roles := by decide +kernel
  invites := by decide +kernel
  withdraws := rfl
  accepts := rfl
  title := rfl

theorem second_carried : Carries toyZ mk (parse [2]) second where
  revision := rfl
  editor := by decide +kernel
  joins := ⟨[], rfl, by simp, rfl⟩
  leaves := rfl
  roles := rfl
  invites := rfl
  withdraws := rfl
  accepts := by decide +kernel
  title := by decide +kernel

def before : View := ⟨[72, 105], [(id1, 1), (id2, 1)], []⟩

end Demo
open Demo Verif.Props.GroupStore.Demo

/-- The first change is reported so that an application can follow it; of the second nothing is reported but the
revision: the new member and the new title are not seen. -/
example :
    let w := (update toyZ env 0 mk {}).1
    let one := handle toyZ Demo.parse env me { masterKey := mk, revision := 6, change := some ([1], [1, 7]) } w
    let two := handle toyZ Demo.parse env me { masterKey := mk, revision := 7, change := some ([2], [2, 7]) } one.1
    (∃ g d, one.2 = .ok g ∧ g.action = some d ∧
      GroupView.apply before (told d) = ⟨[72, 105], [(id2, 2)], [id3]⟩ ∧
      GroupView.apply before first = ⟨[72, 105], [(id2, 2)], [id3]⟩) ∧
    (∃ g d, two.2 = .ok g ∧ g.action = some d ∧ told d = { revision := 7 } ∧
      GroupView.apply ⟨[72, 105], [(id2, 2)], [id3]⟩ second = ⟨[79, 104], [(id2, 2), (id3, 1)], []⟩) := by
  refine ⟨⟨_, _, rfl, rfl, ?_, ?_⟩, ⟨_, _, rfl, rfl, ?_, ?_⟩⟩ <;> decide +kernel

end Verif.Props.GroupView
