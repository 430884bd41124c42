import Verif.Model.Listing
import Verif.Props.GroupFiles
/-!
# C165: the gateway lists the groups
-/
namespace Verif.Props.Listing
open Verif Verif.GroupsV1 Verif.Paths Verif.Listing Verif.Props.Paths Verif.Props.GroupFiles

/-! ## Histories of a client -/

/-- What an application does with its groups, and restarts; each with the outside of the moment. -/
inductive Step where
  | create (X : Ext) (id name : Bytes) (members : List String)
  | change (X : Ext) (hexid name : Bytes) (members : List String)
  | leave (X : Ext) (hexid : Bytes)
  | write (X : Ext) (hexid msg : Bytes) (att : Option Send.OutAtt) (timer : Nat)
  | restart (X : Ext)

def Step.run (w : World) : Step → World
  | .create X id name ms => (newGroup X id name ms w).1
  | .change X h name ms => (changeGroup X h name ms w).1
  | .leave X h => (leaveGroup X h w).1
  | .write X h msg att t => (sendGroup X h msg att t w).1
  | .restart X => GroupsV1.restart X w

/-- The groups after a history that began with an empty directory. -/
def history (steps : List Step) : World := steps.foldl Step.run ⟨fun _ => none, fun _ => none, []⟩

/-- Files and map are those of the groups they are filed under. -/
structure Own (w : World) : Prop where
  files : ∀ h f, w.files h = some f → ∃ g, f = some g ∧ g.hexid = h
  map : ∀ h g, w.groups h = some g → g.hexid = h

theorem Own.keep {w w' : World} (h : Own w) (hf : w'.files = w.files) (hg : w'.groups = w.groups) : Own w' :=
  ⟨by rw [hf]; exact h.files, by rw [hg]; exact h.map⟩

theorem loop_keeps (X : Ext) (mk : String → Send.OutMsg) : ∀ (l : List String) (t : Nat) (w : World),
    (GroupsV1.sendLoop X mk l t w).1.files = w.files ∧ (GroupsV1.sendLoop X mk l t w).1.groups = w.groups
  | [], _, _ => ⟨rfl, rfl⟩
  | m :: ms, t, w => by
    unfold GroupsV1.sendLoop
    split
    · exact loop_keeps X mk ms t w
    · unfold sendOne
      split
      · next w1 t1 h1 => obtain ⟨rfl, -⟩ := Prod.mk.inj h1; exact loop_keeps X mk ms t1 _
      · next w1 t1 h1 => obtain ⟨rfl, -⟩ := Prod.mk.inj h1; exact ⟨rfl, rfl⟩
      · next w1 h1 => obtain ⟨rfl, -⟩ := Prod.mk.inj h1; exact ⟨rfl, rfl⟩

theorem unit_fst (p : World × Res Nat) : (unit p).1 = p.1 := by
  obtain ⟨w, r⟩ := p
  cases r <;> rfl

theorem update_keeps (X : Ext) (g : Group) (w : World) :
    (sendUpdate X g w).1.files = w.files ∧ (sendUpdate X g w).1.groups = w.groups := by
  unfold sendUpdate
  rw [unit_fst]
  exact loop_keeps X _ _ _ _

theorem info_keeps (X : Ext) (g : Group) (w : World) :
    (requestInfo X g w).1.files = w.files ∧ (requestInfo X g w).1.groups = w.groups := by
  have hl := loop_keeps X (fun m : String => ({ destination := m, group := some { id := g.id, type := 4 } } : Send.OutMsg))
    g.members 0 w
  simp only [requestInfo]
  generalize hp : GroupsV1.sendLoop X (fun m : String => ({ destination := m, group := some { id := g.id, type := 4 } } : Send.OutMsg))
    g.members 0 w = p at hl
  obtain ⟨w1, r⟩ := p
  cases r with
  | ok t =>
    simp only
    by_cases hm : g.members = []
    · rw [if_pos hm, unit_fst]; exact hl
    · rw [if_neg hm, unit_fst]; exact hl
  | err e => exact hl
  | panic => exact hl

theorem own_put {w : World} (h : Own w) (X : Ext) (k : Bytes) (g : Group) (hk : g.hexid = k) :
    Own (saveGroup X k { w with groups := put w.groups k (some g) }).1 := by
  have hm : ∀ x g', put w.groups k (some g) x = some g' → g'.hexid = x := by
    intro x g' hx
    unfold put at hx
    split at hx
    · next e => rw [← Option.some.inj hx, hk, e]
    · exact h.map x g' hx
  unfold saveGroup
  split
  · refine ⟨?_, hm⟩
    intro x f hx
    simp only [put] at hx
    split at hx
    · next e =>
      exact ⟨g, by simpa using hx.symm, by rw [hk, e]⟩
    · exact h.files x f hx
  · exact ⟨h.files, hm⟩

theorem own_remove {w : World} (h : Own w) (X : Ext) (k : Bytes) : Own (removeFile X k w).1 := by
  unfold removeFile
  split
  · exact h
  · refine ⟨?_, h.map⟩
    intro x f hx
    simp only [put] at hx
    split at hx
    · cases hx
    · exact h.files x f hx

theorem own_setup {w : World} (h : Own w) (X : Ext) : Own (setupGroups X w) := by
  obtain ⟨h1, h2⟩ := load_all (X.list w.files) w
  refine ⟨by unfold setupGroups; rw [h1]; exact h.files, ?_⟩
  intro x g hx
  unfold setupGroups at hx
  rw [h2] at hx
  split at hx
  · cases hf : w.files x with
    | none => rw [hf] at hx; exact h.map x g (by simpa using hx)
    | some f =>
      obtain ⟨g', rfl, hg'⟩ := h.files x f hf
      rw [hf] at hx
      have : g' = g := by simpa using hx
      rw [← this, hg']
  · exact h.map x g hx

theorem own_step (w : World) (h : Own w) (s : Step) : Own (s.run w) := by
  cases s with
  | create X id name ms =>
    obtain ⟨g, hg⟩ : ∃ g : Group, g = { id := id, hexid := idToHex id, name := name, members := ms ++ [X.tel] } := ⟨_, rfl⟩
    have ho := own_put h X (idToHex id) g (by rw [hg])
    rw [hg] at ho
    simp only [Step.run, newGroup]
    split
    · next w1 u h1 =>
      rw [h1] at ho
      exact ho.keep (update_keeps X _ _).1 (update_keeps X _ _).2
    · exact ho
  | change X k name ms =>
    simp only [Step.run, changeGroup]
    split
    · exact h
    · next g hg =>
      exact (own_put h X k { g with name := name, members := ms ++ [X.tel] } (h.map k g hg)).keep
        (update_keeps X _ _).1 (update_keeps X _ _).2
  | leave X k =>
    simp only [Step.run, leaveGroup]
    split
    · exact h
    · next g hg =>
      have hl := loop_keeps X (fun m : String => ({ destination := m, group := some { id := g.id, type := 3 } } : Send.OutMsg))
        g.members 0 w
      split
      · next w1 t h1 => rw [h1] at hl; exact own_remove (h.keep hl.1 hl.2) X _
      · next w1 t h1 => rw [h1] at hl; exact h.keep hl.1 hl.2
      · next w1 h1 => rw [h1] at hl; exact h.keep hl.1 hl.2
  | write X k msg att t =>
    simp only [Step.run, sendGroup]
    split
    · exact h
    · next g hg =>
      split
      · have hs := own_setup (own_remove h X k) X
        have hi := info_keeps X g (setupGroups X (removeFile X k w).1)
        split
        · next w1 h1 => rw [h1] at hi; exact hs.keep hi.1 hi.2
        · next w1 r _ h1 => rw [h1] at hi; exact hs.keep hi.1 hi.2
      · exact h.keep (loop_keeps X _ _ _ _).1 (loop_keeps X _ _ _ _).2
  | restart X =>
    exact own_setup (w := { w with groups := fun _ => none }) ⟨h.files, (fun x g hx => nomatch hx)⟩ X

theorem own_history (steps : List Step) : Own (history steps) := by
  unfold history
  have : ∀ (l : List Step) (w : World), Own w → Own (l.foldl Step.run w) := by
    intro l
    induction l with
    | nil => intro w h; exact h
    | cons s l ih => intro w h; exact ih _ (own_step w h s)
  exact this steps _ ⟨(fun h f hf => nomatch hf), (fun h g hg => nomatch hg)⟩

/-- What is on disk or in the map is in `K`. -/
def In (K : Bytes → Prop) (w : World) : Prop := ∀ h, w.files h ≠ none ∨ w.groups h ≠ none → K h

theorem In.keep {K : Bytes → Prop} {w w' : World} (h : In K w) (hf : w'.files = w.files) (hg : w'.groups = w.groups) : In K w' := by
  unfold In; rw [hf, hg]; exact h

theorem in_put {K : Bytes → Prop} {w : World} (h : In K w) (X : Ext) (k : Bytes) (g : Group) (hk : K k) :
    In K (saveGroup X k { w with groups := put w.groups k (some g) }).1 := by
  intro x hx
  by_cases e : x = k
  · rw [e]; exact hk
  · apply h
    unfold saveGroup at hx
    split at hx <;> simpa [put, e] using hx

theorem in_remove {K : Bytes → Prop} {w : World} (h : In K w) (X : Ext) (k : Bytes) : In K (removeFile X k w).1 := by
  unfold removeFile
  split
  · exact h
  · intro x hx
    simp only [put] at hx
    split at hx
    · exact h x (hx.imp (fun a => absurd rfl a) id)
    · exact h x hx

theorem in_setup {K : Bytes → Prop} {w : World} (h : In K w) (X : Ext) : In K (setupGroups X w) := by
  obtain ⟨h1, h2⟩ := load_all (X.list w.files) w
  intro x hx
  unfold setupGroups at hx
  rw [h1, h2] at hx
  apply h
  rcases hx with hx | hx
  · exact Or.inl hx
  · split at hx
    · cases hf : w.files x with
      | none => right; rw [hf] at hx; simpa using hx
      | some f => left; simp
    · exact Or.inr hx

/-- The ids of groups made in a history. -/
def Made (steps : List Step) (h : Bytes) : Prop := ∃ X id name ms, Step.create X id name ms ∈ steps ∧ h = idToHex id

theorem in_step {K : Bytes → Prop} (w : World) (h : In K w) (s : Step) (hs : ∀ X id name ms, s = .create X id name ms → K (idToHex id)) :
    In K (s.run w) := by
  cases s with
  | create X id name ms =>
    obtain ⟨g, hg⟩ : ∃ g : Group, g = { id := id, hexid := idToHex id, name := name, members := ms ++ [X.tel] } := ⟨_, rfl⟩
    have ho := in_put h X (idToHex id) g (hs X id name ms rfl)
    rw [hg] at ho
    simp only [Step.run, newGroup]
    split
    · next w1 u h1 =>
      rw [h1] at ho
      exact ho.keep (update_keeps X _ _).1 (update_keeps X _ _).2
    · exact ho
  | change X k name ms =>
    simp only [Step.run, changeGroup]
    split
    · exact h
    · next g hg =>
      exact (in_put h X k { g with name := name, members := ms ++ [X.tel] } (h k (Or.inr (by rw [hg]; simp)))).keep
        (update_keeps X _ _).1 (update_keeps X _ _).2
  | leave X k =>
    simp only [Step.run, leaveGroup]
    split
    · exact h
    · next g hg =>
      have hl := loop_keeps X (fun m : String => ({ destination := m, group := some { id := g.id, type := 3 } } : Send.OutMsg))
        g.members 0 w
      split
      · next w1 t h1 => rw [h1] at hl; exact in_remove (h.keep hl.1 hl.2) X _
      · next w1 t h1 => rw [h1] at hl; exact h.keep hl.1 hl.2
      · next w1 h1 => rw [h1] at hl; exact h.keep hl.1 hl.2
  | write X k msg att t =>
    simp only [Step.run, sendGroup]
    split
    · exact h
    · next g hg =>
      split
      · have hs := in_setup (in_remove h X k) X
        have hi := info_keeps X g (setupGroups X (removeFile X k w).1)
        split
        · next w1 h1 => rw [h1] at hi; exact hs.keep hi.1 hi.2
        · next w1 r _ h1 => rw [h1] at hi; exact hs.keep hi.1 hi.2
      · exact h.keep (loop_keeps X _ _ _ _).1 (loop_keeps X _ _ _ _).2
  | restart X =>
    exact in_setup (w := { w with groups := fun _ => none })
      (fun x hx => h x (Or.inl (hx.resolve_right (fun hn => hn rfl)))) X

theorem made_history (steps : List Step) (h : Bytes) (hf : (history steps).files h ≠ none) : Made steps h := by
  have : ∀ (l : List Step) (w : World), (∀ s ∈ l, s ∈ steps) → In (Made steps) w → In (Made steps) (l.foldl Step.run w) := by
    intro l
    induction l with
    | nil => intro w _ h; exact h
    | cons s l ih =>
      intro w hs h
      refine ih _ (fun x hx => hs x (List.mem_cons_of_mem _ hx)) (in_step w h s ?_)
      rintro X id name ms rfl
      exact ⟨X, id, name, ms, hs _ (List.mem_cons_self ..), rfl⟩
  exact this steps _ (fun s hs => hs) (fun x hx => hx.elim (fun a => absurd rfl a) (fun a => absurd rfl a)) h (Or.inl hf)

/-! ## The walk -/

theorem setEntry_mem (m : List (Bytes × Bytes)) (k v : Bytes) (e : Bytes × Bytes) :
    e ∈ setEntry m k v ↔ (e ∈ m ∧ e.1 ≠ k) ∨ e = (k, v) := by
  simp [setEntry]

/-- The walk over readable files of different groups. -/
theorem walk_mem : ∀ (l : List (Bytes × Option Group)) (m : List (Bytes × Bytes)),
    (∀ e ∈ l, ∃ g, e.2 = some g ∧ g.hexid = e.1) → (l.map (·.1)).Nodup → (∀ e ∈ l, ∀ x ∈ m, x.1 ≠ e.1) →
    ∀ x, x ∈ walk m l ↔ x ∈ m ∨ ∃ h g, (h, some g) ∈ l ∧ x = (h, g.name)
  | [], m, _, _, _, x => by simp [walk]
  | (h, f) :: l, m, hr, hn, hd, x => by
    obtain ⟨g, hg, hh⟩ := hr (h, f) (List.mem_cons_self ..)
    simp only at hg hh
    subst hg
    simp only [List.map_cons, List.nodup_cons] at hn
    have hfil : ∀ y, y ∈ setEntry m g.hexid g.name ↔ y ∈ m ∨ y = (h, g.name) := by
      intro y
      rw [setEntry_mem, hh]
      constructor
      · rintro (⟨a, _⟩ | a)
        · exact Or.inl a
        · exact Or.inr a
      · rintro (a | a)
        · exact Or.inl ⟨a, hd _ (List.mem_cons_self ..) y a⟩
        · exact Or.inr a
    unfold walk
    rw [walk_mem l _ (fun e he => hr e (List.mem_cons_of_mem _ he)) hn.2 ?_ x, hfil]
    · constructor
      · rintro ((a | a) | ⟨h', g', a, b⟩)
        · exact Or.inl a
        · exact Or.inr ⟨h, g, List.mem_cons_self .., a⟩
        · exact Or.inr ⟨h', g', List.mem_cons_of_mem _ a, b⟩
      · rintro (a | ⟨h', g', a, b⟩)
        · exact Or.inl (Or.inl a)
        · rcases List.mem_cons.mp a with a | a
          · simp only [Prod.mk.injEq, Option.some.injEq] at a
            obtain ⟨rfl, rfl⟩ := a
            exact Or.inl (Or.inr b)
          · exact Or.inr ⟨h', g', a, b⟩
    · intro e he y hy
      rcases (hfil y).mp hy with a | a
      · exact hd e (List.mem_cons_of_mem _ he) y a
      · rw [a]
        intro hc
        exact hn.1 (by rw [show h = e.1 from hc]; exact List.mem_map_of_mem he)

/-- The directory at `p` holds exactly the files of the groups. -/
structure Holds (d : Disk) (p : Path) (w : World) : Prop where
  dir : ∃ l, d p = some l ∧ (l.map (·.1)).Nodup ∧ ∀ h f, (h, f) ∈ l ↔ w.files h = some f

/-! ## C165 -/

/-- Part of **C165**: with the default storage directory, after every history of a client the gateway lists exactly the
legacy groups on disk, each under its id with its present name, and all of them were made by the application. Missing: other storage directories
(`C165_other_directory`), new groups (`C165_new_groups_missing`), and directories with a file that cannot be read
(`C165_one_bad_file`). -/
theorem C165_list_partial (steps : List Step) (root : List Char) (d : Disk)
    (hroot : groupDir root = clean ".storage/groups".toList) (hd : Holds d (groupDir root) (history steps)) :
    ∃ m, groupsHandler d = .map m ∧
      (∀ h name, (h, name) ∈ m ↔ ∃ g, (history steps).files h = some (some g) ∧ g.name = name) ∧
      ∀ h name, (h, name) ∈ m → Made steps h := by
  obtain ⟨l, hl, hn, hf⟩ := hd.dir
  have ho := own_history steps
  rw [hroot] at hl
  suffices hm : ∀ h name, (h, name) ∈ walk [] l ↔ ∃ g, (history steps).files h = some (some g) ∧ g.name = name by
    refine ⟨walk [] l, by simp only [groupsHandler, hl], hm, fun h name hx => ?_⟩
    obtain ⟨g, hg, -⟩ := (hm h name).mp hx
    exact made_history steps h (by rw [hg]; simp)
  intro h name
  rw [walk_mem l [] ?_ hn (by simp)]
  · constructor
    · rintro (a | ⟨h', g, a, b⟩)
      · cases a
      · obtain ⟨rfl, rfl⟩ := Prod.mk.inj b
        exact ⟨g, (hf _ _).mp a, rfl⟩
    · rintro ⟨g, hg, rfl⟩
      exact Or.inr ⟨h, g, (hf _ _).mpr hg, rfl⟩
  · rintro ⟨h', f⟩ he
    exact ho.files h' f ((hf _ _).mp he)

/-- The default directory, however it is written. -/
example : groupDir ".storage".toList = clean ".storage/groups".toList ∧
    groupDir "./.storage/".toList = clean ".storage/groups".toList := by decide +kernel

/-- Against **C165**: with any other storage directory the answer says nothing about the groups: it is the same whatever
files there are, and if there is no directory of the default name there is no answer at all. -/
theorem C165_other_directory (root : List Char) (hroot : groupDir root ≠ clean ".storage/groups".toList) (d : Disk)
    (files : Option (List (Bytes × Option Group))) :
    groupsHandler (fun p => if p = groupDir root then files else d p) = groupsHandler d ∧
    (d (clean ".storage/groups".toList) = none → groupsHandler d = .closed) := by
  constructor
  · simp only [groupsHandler]
    rw [if_neg (fun h => hroot h.symm)]
  · intro h
    simp only [groupsHandler, h]

example : groupDir "/home/ann/signal".toList ≠ clean ".storage/groups".toList := by decide +kernel

/-- The directories of the two kinds of groups are different ones. -/
theorem join_two (root d : List Char) (hr : root ≠ []) (hd : Plain d) :
    (join [root, d]).parts = (clean root).parts ++ [d] := by
  have hne : d ≠ [] := hd.ne
  have e : List.intercalate ['/'] ([root, d].filter (· ≠ [])) = root ++ '/' :: d := by
    simp [List.filter, hr, hne, List.intercalate, List.intersperse]
  have hh : (root ++ '/' :: d).head? = root.head? := by
    cases root with
    | nil => exact absurd rfl hr
    | cons c r => rfl
  simp only [join, e, clean, hh, parts_append, parts_plain hd.noSlash, List.foldl_append, List.foldl_cons,
    List.foldl_nil, step_plain hd, List.reverse_cons]

/-- Against **C165**: the new groups of the account are not listed: the answer is the same whatever files there are
for them. -/
theorem C165_new_groups_missing (root : List Char) (hr : root ≠ []) (d : Disk)
    (files : Option (List (Bytes × Option Group))) :
    groupsHandler (fun p => if p = newGroupDir root then files else d p) = groupsHandler d := by
  have hne : clean ".storage/groups".toList ≠ newGroupDir root := by
    intro h
    have h1 := congrArg Path.parts h
    rw [newGroupDir, join_two root _ hr (by decide)] at h1
    have h2 := congrArg List.getLast? h1
    rw [List.getLast?_append, List.getLast?_singleton, Option.some_or] at h2
    exact absurd h2 (by decide +kernel)
  simp only [groupsHandler]
  rw [if_neg hne]

/-- Against **C165**: one file that cannot be read hides every group whose id comes after it. -/
theorem C165_one_bad_file (d : Disk) (a b : List (Bytes × Option Group)) (n : Bytes)
    (h : d (clean ".storage/groups".toList) = some (a ++ (n, none) :: b)) :
    groupsHandler d = .map (walk [] a) := by
  have : ∀ (a : List (Bytes × Option Group)) (m : List (Bytes × Bytes)), walk m (a ++ (n, none) :: b) = walk m a := by
    intro a
    induction a with
    | nil => intro m; rfl
    | cons e a ih =>
      intro m
      obtain ⟨k, f⟩ := e
      cases f with
      | none => rfl
      | some g => simp only [List.cons_append, walk]; exact ih _
  simp only [groupsHandler, h, this]

namespace Demo

def env : Ext := { tel := "+1", net := fun _ _ => .ok 1, contactUuid := fun _ => none, list := fun _ => [] }

/-- Two groups are made, one is renamed, a third is made and left. -/
def steps : List Step :=
  [.create env [1] [65] ["+2"], .create env [2] [66] ["+3"], .change env (idToHex [1]) [67] ["+2"],
   .create env [3] [68] [], .leave env (idToHex [3])]

def disk : Disk := fun p =>
  if p = clean ".storage/groups".toList then
    some ([idToHex [1], idToHex [2]].map (fun h => (h, ((history steps).files h).getD none)))
  else none

end Demo
open Demo

/-- Two groups are listed, with their names of now; with a bad file between them only the first. -/
example : groupsHandler disk = .map [(idToHex [1], [67]), (idToHex [2], [66])] ∧
    groupsHandler (fun p => if p = clean ".storage/groups".toList then
      some [(idToHex [1], ((history steps).files (idToHex [1])).getD none), ([48, 49, 126], none),
        (idToHex [2], ((history steps).files (idToHex [2])).getD none)] else none) = .map [(idToHex [1], [67])] ∧
    groupsHandler (fun _ => none) = .closed := by decide +kernel

theorem Demo.holds : Holds disk (groupDir ".storage".toList) (history steps) := by
  refine ⟨[idToHex [1], idToHex [2]].map (fun h => (h, ((history steps).files h).getD none)), ?_, by decide +kernel, ?_⟩
  · have : groupDir ".storage".toList = clean ".storage/groups".toList := by decide +kernel
    rw [this]
    simp [disk]
  · intro h f
    have h1 : (history steps).files (idToHex [1]) = some (((history steps).files (idToHex [1])).getD none) := by decide +kernel
    have h2 : (history steps).files (idToHex [2]) = some (((history steps).files (idToHex [2])).getD none) := by decide +kernel
    have h3 : (history steps).files (idToHex [3]) = none := by decide +kernel
    simp only [List.map_cons, List.map_nil, List.mem_cons, Prod.mk.injEq, List.not_mem_nil, or_false]
    constructor
    · rintro (⟨rfl, rfl⟩ | ⟨rfl, rfl⟩)
      · exact h1
      · exact h2
    · intro hf
      obtain ⟨X, id, name, ms, hm, rfl⟩ := made_history steps h (by rw [hf]; simp)
      simp only [steps, List.mem_cons, List.not_mem_nil, or_false, Step.create.injEq, reduceCtorEq, false_or] at hm
      rcases hm with ⟨-, rfl, -⟩ | ⟨-, rfl, -⟩ | ⟨-, rfl, -⟩
      · exact Or.inl ⟨rfl, by rw [hf]; rfl⟩
      · exact Or.inr ⟨rfl, by rw [hf]; rfl⟩
      · rw [h3] at hf; cases hf

end Verif.Props.Listing
