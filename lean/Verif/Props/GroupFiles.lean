import Verif.Props.Paths
import Verif.Props.GroupsV1
import Verif.Proof.Gateway
/-!
# C86 (files of groups); C160: legacy groups after a restart
-/
namespace Verif.Props.GroupFiles
open Verif Verif.Names Verif.Paths Verif.GroupsV1 Verif.Props.Paths

theorem hex_char (c : UInt8) (h : Gateway.lowerHex c = true) :
    (Char.ofNat c.toNat).toNat = c.toNat ∧ (Char.ofNat c.toNat).toNat ≤ 102 ∧ 48 ≤ (Char.ofNat c.toNat).toNat := by
  have : ∀ n : Fin 256, Gateway.lowerHex (UInt8.ofNat n) = true →
      (Char.ofNat n).toNat = n.val ∧ (Char.ofNat n).toNat ≤ 102 ∧ 48 ≤ (Char.ofNat n).toNat := by decide +kernel
  exact this ⟨c.toNat, c.toNat_lt⟩ (by simpa using h)

theorem hex_chars (id : Bytes) : ∀ c ∈ chars (idToHex id), 48 ≤ c.toNat ∧ c.toNat ≤ 102 := by
  intro c hc
  obtain ⟨b, hb, rfl⟩ := List.mem_map.1 hc
  have := hex_char b (Gateway.hexEncode_lower id b hb)
  exact ⟨this.2.2, this.2.1⟩

theorem hex_plain (id : Bytes) (h : id ≠ []) : Plain (chars (idToHex id)) := by
  have hc := hex_chars id
  refine ⟨?_, ?_, ?_, ?_⟩
  · cases id with
    | nil => exact absurd rfl h
    | cons a r => simp [chars, idToHex, Encoding.hexEncode]
  · intro hm
    exact absurd (hc _ hm).1 (by decide)
  · intro e
    exact absurd (hc '.' (by rw [e]; simp)).1 (by decide)
  · intro e
    exact absurd (hc '.' (by rw [e]; simp)).1 (by decide)

theorem chars_inj (a b : Bytes) (h : chars (idToHex a) = chars (idToHex b)) : a = b := by
  apply Encoding.C42_hex_injective
  have key : ∀ (x y : Bytes), (∀ c ∈ x, Gateway.lowerHex c = true) → (∀ c ∈ y, Gateway.lowerHex c = true) →
      chars x = chars y → x = y := by
    intro x
    induction x with
    | nil =>
      intro y _ _ h
      cases y with
      | nil => rfl
      | cons d y => simp [chars] at h
    | cons c x ih =>
      intro y hx hy h
      cases y with
      | nil => simp [chars] at h
      | cons d y =>
        simp only [chars, List.map_cons, List.cons.injEq] at h
        have h1 := (hex_char c (hx c (by simp))).1
        have h2 := (hex_char d (hy d (by simp))).1
        rw [h.1, h2] at h1
        rw [UInt8.toNat_inj.1 h1, ih y (fun z hz => hx z (by simp [hz])) (fun z hz => hy z (by simp [hz])) h.2]
  exact key _ _ (Gateway.hexEncode_lower a) (Gateway.hexEncode_lower b) h

theorem groups_plain : Plain "groups".toList := by decide

/-- **C86, files of groups**: whatever bytes a group id from a peer has, its file is in the directory for groups, and is
that of no other group. -/
theorem C86_groups (root : List Char) (hr : root ≠ []) (id : Bytes) (h : id ≠ []) :
    (∃ n, Is root "groups".toList n (groupPath root id)) ∧
    ∀ id', id' ≠ [] → groupPath root id' = groupPath root id → id' = id := by
  have h1 := join_plain root _ _ hr groups_plain (hex_plain id h)
  refine ⟨⟨_, h1⟩, fun id' h' he => ?_⟩
  have h2 := join_plain root _ _ hr groups_plain (hex_plain id' h')
  have he' : join [root, "groups".toList, chars (idToHex id')] = join [root, "groups".toList, chars (idToHex id)] := he
  rw [Is] at h1 h2
  rw [h1, h2] at he'
  simp only [Path.mk.injEq, List.append_cancel_left_eq, List.cons.injEq, and_true, true_and] at he'
  exact chars_inj _ _ he'

example : "/s".toList ≠ [] ∧ groupPath "/s".toList [46, 46, 47, 97] = ⟨true, ["s".toList, "groups".toList, "2e2e2f61".toList]⟩ := by
  decide +kernel

/-! ## C160 -/

/-- `t` occurs in `n`. -/
def Occurs (t n : List Char) : Prop := ∃ a b, n = a ++ t ++ b

theorem contains_iff (t n : List Char) : contains t n = true ↔ Occurs t n := by
  induction n with
  | nil =>
    simp only [contains, List.isPrefixOf_iff_prefix]
    constructor
    · rintro ⟨b, h⟩; exact ⟨[], b, by simpa using h.symm⟩
    · rintro ⟨a, b, h⟩
      have h := h.symm
      simp only [List.append_eq_nil_iff] at h
      exact ⟨[], by simp [h.1.2]⟩
  | cons c n ih =>
    simp only [contains, Bool.or_eq_true, List.isPrefixOf_iff_prefix, ih]
    constructor
    · rintro (⟨b, h⟩ | ⟨a, b, h⟩)
      · exact ⟨[], b, by simpa using h.symm⟩
      · exact ⟨c :: a, b, by simp [h]⟩
    · rintro ⟨a, b, h⟩
      cases a with
      | nil => exact Or.inl ⟨b, by simpa using h.symm⟩
      | cons d a =>
        simp only [List.cons_append, List.cons.injEq] at h
        exact Or.inr ⟨a, b, h.2⟩

/-- What `setupGroups` is given: the directory lists exactly the files there are, and the names that pass the check
are loaded. -/
structure Listed (X : Ext) (root : List Char) (w : World) : Prop where
  list : ∃ dir : List Bytes, (∀ h, h ∈ dir ↔ w.files h ≠ none) ∧ X.list w.files = walked root dir

theorem load_one (h : Bytes) (w : World) : (loadGroup h w).files = w.files ∧ (loadGroup h w).sent = w.sent ∧
    ∀ x, (loadGroup h w).groups x = (if x = h then ((w.files h).bind id).orElse (fun _ => w.groups x) else w.groups x) := by
  unfold loadGroup
  split
  · next g hg =>
    refine ⟨rfl, rfl, fun x => ?_⟩
    simp only [put, hg]
    split <;> rfl
  · next hn =>
    refine ⟨rfl, rfl, fun x => ?_⟩
    split
    · next e =>
      cases hf : w.files h with
      | none => simp
      | some o =>
        cases o with
        | none => simp
        | some g => exact absurd hf (hn g)
    · rfl

theorem load_all : ∀ (l : List Bytes) (w : World), (l.foldl (fun w h => loadGroup h w) w).files = w.files ∧
    ∀ x, (l.foldl (fun w h => loadGroup h w) w).groups x =
      if x ∈ l then ((w.files x).bind id).orElse (fun _ => w.groups x) else w.groups x := by
  intro l
  induction l with
  | nil => intro w; exact ⟨rfl, fun x => by simp⟩
  | cons h l ih =>
    intro w
    obtain ⟨a, _, c⟩ := load_one h w
    obtain ⟨a', c'⟩ := ih (loadGroup h w)
    refine ⟨a'.trans a, fun x => ?_⟩
    simp only [List.foldl_cons, c', a, c]
    by_cases hx : x = h
    · subst hx
      simp only [if_true, List.mem_cons, true_or]
      split
      · cases (w.files x).bind id <;> simp
      · rfl
    · simp [hx]

theorem restart_groups (X : Ext) (w : World) (x : Bytes) :
    (restart X w).groups x = if x ∈ X.list w.files then (w.files x).bind id else none := by
  have := (load_all (X.list w.files) { w with groups := fun _ => none }).2 x
  simp only [restart, setupGroups]
  rw [this]
  split <;> simp

/-- **C160 (part).** If the path of the storage directory does not contain `avatar`: after a restart, the groups known
are exactly those whose files were written, each as written. Missing: storage directories with `avatar` in their path,
`C160_all_groups_forgotten`. -/
theorem C160_groups_survive_partial (X : Ext) (root : List Char) (hr : root ≠ []) (w : World) (hl : Listed X root w)
    (hroot : ∀ p ∈ (clean root).parts, ¬ Occurs "avatar".toList p) (id : Bytes) (hid : id ≠ []) :
    (∀ g, w.files (idToHex id) = some (some g) → getGroup (idToHex id) (restart X w) = .ok g) ∧
    (w.files (idToHex id) = none → getGroup (idToHex id) (restart X w) = .err .other) := by
  obtain ⟨dir, hd, hlist⟩ := hl.list
  have hm : idToHex id ∈ X.list w.files ↔ w.files (idToHex id) ≠ none := by
    rw [hlist, walked, List.mem_filter, hd]
    have hno : (join [root, "groups".toList, chars (idToHex id)]).parts.any (contains "avatar".toList) = false := by
      have h1 := join_plain root _ _ hr groups_plain (hex_plain id hid)
      rw [Is] at h1
      rw [h1]
      apply Bool.eq_false_iff.2
      intro h
      obtain ⟨p, hp, hc⟩ := List.any_eq_true.1 h
      rw [contains_iff] at hc
      simp only [List.mem_append, List.mem_cons, List.not_mem_nil, or_false] at hp
      rcases hp with hp | rfl | rfl
      · exact hroot p hp hc
      · rw [← contains_iff] at hc
        exact absurd hc (by decide)
      · obtain ⟨a, b, e⟩ := hc
        exact absurd (hex_chars id 'v' (by rw [e]; simp)).2 (by decide)
    have hno' : (!(join [root, "groups".toList, (idToHex id).map (fun c => Char.ofNat c.toNat)]).parts.any
        (contains "avatar".toList)) = true := by
      have : (join [root, "groups".toList, (idToHex id).map (fun c => Char.ofNat c.toNat)]).parts.any
        (contains "avatar".toList) = false := hno
      rw [this]; rfl
    simp only [hno', and_true]
  constructor
  · intro g hg
    simp only [getGroup, restart_groups, if_pos (hm.2 (by rw [hg]; simp)), hg]
    rfl
  · intro hn
    simp only [getGroup, restart_groups]
    rw [if_neg (fun h => hm.1 h hn)]

/-- An update that was taken in is still there after the restart. -/
theorem C160_update_survives_partial (X Y : Ext) (root : List Char) (hr : root ≠ []) (gr : GroupCtx) (w w' : World)
    (hid : gr.id ≠ []) (h : updateGroup X gr w = (w', .ok ())) (hl : Listed Y root w')
    (hroot : ∀ p ∈ (clean root).parts, ¬ Occurs "avatar".toList p) :
    ∃ g, getGroup (idToHex gr.id) (restart Y w') = .ok g ∧ g.members = gr.members ∧ g.name = gr.name := by
  obtain ⟨⟨g, _, h2, h3, _, h5⟩, _⟩ := Verif.Props.GroupsV1.C52_update X gr w w' h
  exact ⟨g, (C160_groups_survive_partial Y root hr w' hl hroot gr.id hid).1 g h5, h2, h3⟩

/-- **C160 refuted**, for all groups: if `avatar` is anywhere in the path of the storage directory, for example because
the user is called so, no group is known after a restart. -/
theorem C160_all_groups_forgotten (X : Ext) (root : List Char) (hr : root ≠ []) (w : World) (hl : Listed X root w)
    (p : Name) (hp : p ∈ (clean root).parts) (ho : Occurs "avatar".toList p) (id : Bytes) (hid : id ≠ []) :
    getGroup (idToHex id) (restart X w) = .err .other := by
  obtain ⟨dir, hd, hlist⟩ := hl.list
  have hm : idToHex id ∉ X.list w.files := by
    rw [hlist, walked, List.mem_filter]
    rintro ⟨_, h⟩
    have h1 := join_plain root _ _ hr groups_plain (hex_plain id hid)
    rw [Is] at h1
    have h2 : (join [root, "groups".toList, chars (idToHex id)]).parts.any (contains "avatar".toList) = true := by
      rw [h1]
      exact List.any_eq_true.2 ⟨p, by simp [hp], (contains_iff _ _).2 ho⟩
    have h3 : (join [root, "groups".toList, (idToHex id).map (fun c => Char.ofNat c.toNat)]).parts.any
        (contains "avatar".toList) = true := h2
    rw [h3] at h
    exact absurd h (by decide)
  simp only [getGroup, restart_groups, if_neg hm]

/-- A group in a file, and two storage directories. -/
example : ∃ (X Y : Ext) (w : World) (g : Group), w.files (idToHex [7]) = some (some g) ∧
    Listed X "/home/ann/.storage".toList w ∧ Listed Y "/home/avatar/.storage".toList w ∧
    getGroup (idToHex [7]) (restart X w) = .ok g ∧ getGroup (idToHex [7]) (restart Y w) = .err .other := by
  obtain ⟨g, hg⟩ : ∃ g : Group, g = { id := [7], hexid := idToHex [7], name := [65], members := ["+1"] } := ⟨_, rfl⟩
  obtain ⟨w, hw⟩ : ∃ w : World, w = ⟨fun _ => none, put (fun _ => none) (idToHex [7]) (some (some g)), []⟩ := ⟨_, rfl⟩
  have hdir : ∀ h, h ∈ [idToHex [7]] ↔ w.files h ≠ none := by
    intro h
    simp only [hw, put, List.mem_singleton]
    split <;> simp_all
  refine ⟨⟨"+0", fun _ _ => .ok 0, fun _ => none, true, true, fun _ => walked "/home/ann/.storage".toList [idToHex [7]], .err .other, 0⟩,
    ⟨"+0", fun _ _ => .ok 0, fun _ => none, true, true, fun _ => walked "/home/avatar/.storage".toList [idToHex [7]], .err .other, 0⟩,
    w, g, by simp [hw, put], ⟨⟨_, hdir, rfl⟩⟩, ⟨⟨_, hdir, rfl⟩⟩, ?_, ?_⟩
  · refine (C160_groups_survive_partial _ "/home/ann/.storage".toList (by decide) w ⟨⟨_, hdir, rfl⟩⟩ ?_ [7] (by decide)).1 g
      (by simp [hw, put])
    intro p hp h
    rw [← contains_iff] at h
    revert p
    decide +kernel
  · exact C160_all_groups_forgotten _ "/home/avatar/.storage".toList (by decide) w ⟨⟨_, hdir, rfl⟩⟩ "avatar".toList
      (by decide +kernel) ⟨[], [], by simp⟩ [7] (by decide)

end Verif.Props.GroupFiles
