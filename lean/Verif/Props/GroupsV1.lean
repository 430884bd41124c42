import Verif.Model.GroupsV1
import Verif.Props.Encoding
/-!
# Properties of legacy groups (C52, C53, C69, C70, C103)
-/
namespace Verif.Props.GroupsV1
open Verif Verif.Send Verif.GroupsV1

/-! ## C52 Group membership updates -/

/-- For all groups and updates: after a successful update the group found under the id has exactly the
members and the name of the update, in memory and in the file, and every other group is as before. -/
theorem C52_update (X : Ext) (gr : GroupCtx) (w w' : World) (h : updateGroup X gr w = (w', .ok ())) :
    (∃ g, w'.groups (idToHex gr.id) = some g ∧ g.members = gr.members ∧ g.name = gr.name ∧ g.id = gr.id ∧
      w'.files (idToHex gr.id) = some (some g)) ∧
    ∀ x, x ≠ idToHex gr.id → w'.groups x = w.groups x ∧ w'.files x = w.files x := by
  have key : ∀ av, saveGroup X (idToHex gr.id) ⟨put w.groups (idToHex gr.id)
      (some (⟨gr.id, idToHex gr.id, 0, gr.name, gr.members, av⟩ : Group)), w.files, w.sent⟩ = (w', .ok ()) →
      (∃ g, w'.groups (idToHex gr.id) = some g ∧ g.members = gr.members ∧ g.name = gr.name ∧ g.id = gr.id ∧
      w'.files (idToHex gr.id) = some (some g)) ∧
      ∀ x, x ≠ idToHex gr.id → w'.groups x = w.groups x ∧ w'.files x = w.files x := by
    intro av h
    unfold saveGroup at h
    split at h
    · simp only [Prod.mk.injEq] at h
      rw [← h.1]
      refine ⟨⟨⟨gr.id, idToHex gr.id, 0, gr.name, gr.members, av⟩, by simp [put], rfl, rfl, rfl, by simp [put]⟩, ?_⟩
      intro x hx
      simp [put, hx]
    · simp at h
  unfold updateGroup at h
  rcases hav : gr.avatar with _ | (b | e | _)
  · rw [hav] at h; exact key _ h
  · rw [hav] at h; exact key _ h
  · rw [hav] at h; simp at h
  · rw [hav] at h; simp at h

theorem removeMember_eq (tel : String) (ms : List String) (h : ms.Nodup) :
    removeMember tel ms = ms.filter (· ≠ tel) := by
  induction ms with
  | nil => rfl
  | cons m ms ih =>
    rw [List.nodup_cons] at h
    unfold removeMember
    split
    · rename_i hm
      subst hm
      rw [List.filter_cons_of_neg (by simp)]
      symm
      rw [List.filter_eq_self]
      intro x hx
      simp only [ne_eq, decide_not, Bool.not_eq_true', decide_eq_false_iff_not]
      intro he
      exact h.1 (he ▸ hx)
    · rename_i hm
      rw [List.filter_cons_of_pos (by simpa using hm), ih h.2]

/-- For all groups and members: after a quit of a known group the quitting member is gone and the others
are there in the same order, in memory and in the file; every other group is as before. Required: no
member is listed twice (see `C52_duplicate_stays`). -/
theorem C52_quit_partial (X : Ext) (src : String) (hexid : Bytes) (w w' : World) (g : Group)
    (hg : w.groups hexid = some g) (hn : g.members.Nodup) (h : quitGroup X src hexid w = (w', .ok ())) :
    (∃ g', w'.groups hexid = some g' ∧ g'.members = g.members.filter (· ≠ src) ∧ src ∉ g'.members ∧
      (∀ m, m ≠ src → (m ∈ g'.members ↔ m ∈ g.members)) ∧ g'.name = g.name ∧
      w'.files hexid = some (some g')) ∧
    ∀ x, x ≠ hexid → w'.groups x = w.groups x ∧ w'.files x = w.files x := by
  unfold quitGroup at h
  rw [hg] at h
  simp only [saveGroup] at h
  split at h
  · simp only [Prod.mk.injEq] at h
    rw [← h.1]
    refine ⟨⟨{ g with members := removeMember src g.members }, by simp [put], removeMember_eq src _ hn, ?_, ?_,
      rfl, by simp [put]⟩, ?_⟩
    · rw [removeMember_eq src _ hn]; simp
    · intro m hm; rw [removeMember_eq src _ hn]; simp [hm]
    · intro x hx; simp [put, hx]
  · simp at h

example : removeMember "+2" ["+1", "+2", "+3"] = ["+1", "+3"] := by decide

/-- **C52 refuted**, first part: a member listed twice, as an update from a peer may do, is still a member
after quitting. -/
theorem C52_duplicate_stays : ∃ (X : Ext) (gr : GroupCtx) (w w1 w2 : World) (src : String) (g : Group),
    updateGroup X gr w = (w1, .ok ()) ∧ quitGroup X src (idToHex gr.id) w1 = (w2, .ok ()) ∧
    w2.groups (idToHex gr.id) = some g ∧ src ∈ g.members := by
  refine ⟨⟨"+0", fun _ _ => .ok 0, fun _ => none, true, true, fun _ => [], .err .other, 0⟩,
    ⟨[1], [], ["+1", "+1"], none⟩, ⟨fun _ => none, fun _ => none, []⟩, _, _, "+1", _, rfl, rfl, rfl, ?_⟩
  decide

/-- **C52 refuted**, second part: `updateGroup` and `quitGroup` are not reached from a received message. An
incoming update or quit leaves the member list as it was, whatever it says. -/
theorem C52_incoming_ignored (X : Ext) (gr : Option GroupCtx) (w : World) (hexid : Bytes) :
    getGroup hexid (incoming X gr w) = getGroup hexid w := rfl

/-! ## The send loop -/

theorem sendLoop_ok (X : Ext) (mk : String → OutMsg) (ms : List String) (ts : Nat) (w w' : World) (t : Nat)
    (h : Verif.GroupsV1.sendLoop X mk ms ts w = (w', .ok t)) :
    w'.groups = w.groups ∧ w'.files = w.files ∧
    w'.sent = w.sent ++ (ms.filter (· ≠ X.tel)).map mk := by
  induction ms generalizing ts w with
  | nil => simp [Verif.GroupsV1.sendLoop] at h; rw [h.1]; simp
  | cons m ms ih =>
    unfold Verif.GroupsV1.sendLoop at h
    split at h
    · rename_i hm
      obtain ⟨h1, h2, h3⟩ := ih _ _ h
      refine ⟨h1, h2, ?_⟩
      rw [h3, List.filter_cons_of_neg (by simpa using hm)]
    · rename_i hm
      simp only [sendOne] at h
      cases hx : X.net w.sent.length (mk m) with
      | ok t' =>
        rw [hx] at h
        obtain ⟨h1, h2, h3⟩ := ih _ _ h
        refine ⟨h1, h2, ?_⟩
        rw [h3, List.filter_cons_of_pos (by simpa using hm)]
        simp
      | err e => rw [hx] at h; simp at h
      | panic => rw [hx] at h; simp at h

/-- Whatever happens, a prefix of the members was written to, and groups and files are as before. -/
theorem sendLoop_prefix (X : Ext) (mk : String → OutMsg) (ms : List String) (ts : Nat) (w : World) :
    ∃ k, (Verif.GroupsV1.sendLoop X mk ms ts w).1.sent = w.sent ++ ((ms.filter (· ≠ X.tel)).take k).map mk ∧
      (Verif.GroupsV1.sendLoop X mk ms ts w).1.groups = w.groups ∧
      (Verif.GroupsV1.sendLoop X mk ms ts w).1.files = w.files := by
  induction ms generalizing ts w with
  | nil => exact ⟨0, by simp [Verif.GroupsV1.sendLoop]⟩
  | cons m ms ih =>
    unfold Verif.GroupsV1.sendLoop
    split
    · rename_i hm
      obtain ⟨k, hk⟩ := ih ts w
      exact ⟨k, by rw [List.filter_cons_of_neg (by simpa using hm)]; exact hk⟩
    · rename_i hm
      simp only [sendOne]
      rw [List.filter_cons_of_pos (by simpa using hm)]
      cases hx : X.net w.sent.length (mk m) with
      | ok t' =>
        obtain ⟨k, h1, h2, h3⟩ := ih t' { w with sent := w.sent ++ [mk m] }
        exact ⟨k + 1, by rw [h1]; simp, h2, h3⟩
      | err e => exact ⟨1, by simp⟩
      | panic => exact ⟨1, by simp⟩

/-! ## C53 Leaving a group -/

/-- What holds: after leaving successfully every other member has been sent a quit, in order, and if the
group's file existed and could be removed, the group is not found after a restart. Missing: until the
restart it is still found and written to, see `C53_still_there`; and the quit sent is an empty message,
see `C51_legacy_group_dropped`. -/
theorem C53_leave_partial (X : Ext) (hexid : Bytes) (w w' : World) (g : Group)
    (hg : w.groups hexid = some g) (hid : hexid = idToHex g.id) (h : leaveGroup X hexid w = (w', .ok ())) :
    w'.sent = w.sent ++ (g.members.filter (· ≠ X.tel)).map
      (fun m => { destination := m, group := some { id := g.id, type := 3 } }) ∧
    (X.removeOk = true → getGroup hexid (restart X w') = .err .other) := by
  unfold leaveGroup at h
  rw [hg] at h
  simp only at h
  rcases hl : Verif.GroupsV1.sendLoop X
    (fun m => { destination := m, group := some { id := g.id, type := 3 } }) g.members 0 w with ⟨w1, r⟩
  rw [hl] at h
  cases r with
  | err e => simp at h
  | panic => simp at h
  | ok t =>
    simp only [Prod.mk.injEq, and_true] at h
    obtain ⟨h1, h2, h3⟩ := sendLoop_ok X _ _ _ _ _ _ hl
    have hs : w'.sent = w1.sent := by rw [← h]; unfold removeFile; split <;> rfl
    refine ⟨by rw [hs, h3], ?_⟩
    intro hr
    have hf : w'.files hexid = none := by
      rw [← h, ← hid]
      unfold removeFile
      split
      · rename_i hx
        rcases hx with hx | hx
        · rw [hr] at hx; simp at hx
        · exact hx
      · simp [put]
    have key : ∀ (l : List Bytes) (v : World), v.files hexid = none → v.groups hexid = none →
        (l.foldl (fun w h => loadGroup h w) v).groups hexid = none := by
      intro l
      induction l with
      | nil => intro v _ h; exact h
      | cons a l ih =>
        intro v h1 h2
        rw [List.foldl_cons]
        have hff : (loadGroup a v).files = v.files := by unfold loadGroup; split <;> rfl
        apply ih
        · rw [hff, h1]
        · unfold loadGroup
          split
          · rename_i g' hg'
            simp only [put]
            split
            · rename_i he
              rw [← he, h1] at hg'
              cases hg'
            · exact h2
          · exact h2
    unfold getGroup restart setupGroups
    rw [key _ _ (by exact hf) rfl]

/-- **C53 refuted**, for every group: after leaving successfully the group is still found, with all its
members, and a message to it is still sent to every other member. -/
theorem C53_still_there (X : Ext) (hexid : Bytes) (w w' : World) (g : Group) (hg : w.groups hexid = some g)
    (h : leaveGroup X hexid w = (w', .ok ())) :
    getGroup hexid w' = .ok g ∧
    (g.members ≠ [] → (∀ n m, ∃ t, X.net n m = .ok t) → ∀ msg timer,
      ∃ w'' t, sendGroup X hexid msg none timer w' = (w'', .ok t) ∧
        w''.sent.length = w'.sent.length + (g.members.filter (· ≠ X.tel)).length) := by
  have hgr : w'.groups = w.groups := by
    unfold leaveGroup at h
    rw [hg] at h
    simp only at h
    rcases hl : Verif.GroupsV1.sendLoop X
      (fun m => { destination := m, group := some { id := g.id, type := 3 } }) g.members 0 w with ⟨w1, r⟩
    rw [hl] at h
    cases r with
    | err e => simp at h
    | panic => simp at h
    | ok t =>
      simp only [Prod.mk.injEq, and_true] at h
      rw [← h]
      have := (sendLoop_ok X _ _ _ _ _ _ hl).1
      unfold removeFile
      split <;> exact this
  refine ⟨by unfold getGroup; rw [hgr, hg], ?_⟩
  intro hm hnet msg timer
  have total : ∀ (mk : String → OutMsg) (ms : List String) (ts : Nat) (v : World),
      ∃ v' t, Verif.GroupsV1.sendLoop X mk ms ts v = (v', .ok t) := by
    intro mk ms
    induction ms with
    | nil => intro ts v; exact ⟨v, ts, rfl⟩
    | cons m ms ih =>
      intro ts v
      unfold Verif.GroupsV1.sendLoop
      split
      · exact ih _ _
      · simp only [sendOne]
        obtain ⟨t, ht⟩ := hnet v.sent.length (mk m)
        rw [ht]
        exact ih _ _
  unfold sendGroup
  rw [hgr, hg]
  simp only
  rw [if_neg hm]
  obtain ⟨v', t, hv⟩ := total (fun m =>
        { destination := destination X m, msg := msg, attachment := none, expireTimer := timer
          timestamp := some X.now, group := some { id := g.id, type := 2 } }) g.members 0 w'
  refine ⟨v', t, hv, ?_⟩
  rw [(sendLoop_ok X _ _ _ _ _ _ hv).2.2]
  simp

/-- A group of three, us being "+0". -/
def ext : Ext := ⟨"+0", fun n _ => .ok n, fun _ => none, true, true, fun _ => [], .err .other, 0⟩
def group : Group := { id := [1], hexid := idToHex [1], members := ["+1", "+0", "+2"] }
def world : World :=
  ⟨fun h => if h = idToHex [1] then some group else none,
   fun h => if h = idToHex [1] then some (some group) else none, []⟩

example : (leaveGroup ext (idToHex [1]) world).2 = .ok () ∧
    (leaveGroup ext (idToHex [1]) world).1.sent.map (·.destination) = ["+1", "+2"] ∧
    (leaveGroup ext (idToHex [1]) world).1.groups (idToHex [1]) = some group := by decide

/-! ## C69 Who a group message goes to -/

/-- The message for one member. -/
def groupMsg (X : Ext) (g : Group) (msg : Bytes) (att : Option OutAtt) (timer : Nat) (m : String) : OutMsg :=
  { destination := destination X m, msg := msg, attachment := att, expireTimer := timer
    timestamp := some X.now, group := some { id := g.id, type := 2 } }

/-- For all groups, members and outcomes of the individual sends: a group message is handed to a prefix of
the other members, in order, one message each with the same body, attachment, expiry and timestamp, and
to all of them if the call succeeds; never to the user's own number; and no group changes. -/
theorem C69_recipients (X : Ext) (hexid : Bytes) (w : World) (g : Group) (hg : w.groups hexid = some g)
    (hm : g.members ≠ []) (msg : Bytes) (att : Option OutAtt) (timer : Nat) :
    (∃ k, (sendGroup X hexid msg att timer w).1.sent
      = w.sent ++ ((g.members.filter (· ≠ X.tel)).take k).map (groupMsg X g msg att timer)) ∧
    (∀ t, (sendGroup X hexid msg att timer w).2 = .ok t → (sendGroup X hexid msg att timer w).1.sent
      = w.sent ++ (g.members.filter (· ≠ X.tel)).map (groupMsg X g msg att timer)) ∧
    (sendGroup X hexid msg att timer w).1.groups = w.groups ∧
    (sendGroup X hexid msg att timer w).1.files = w.files := by
  have he : sendGroup X hexid msg att timer w
      = Verif.GroupsV1.sendLoop X (groupMsg X g msg att timer) g.members 0 w := by
    unfold sendGroup
    rw [hg]
    simp only
    rw [if_neg hm]
    rfl
  rw [he]
  obtain ⟨k, h1, h2, h3⟩ := sendLoop_prefix X (groupMsg X g msg att timer) g.members 0 w
  refine ⟨⟨k, h1⟩, ?_, h2, h3⟩
  intro t ht
  exact (sendLoop_ok X _ _ _ _ _ t (Prod.ext rfl ht)).2.2

example : ((sendGroup ext (idToHex [1]) [7] none 0 world).1.sent.map (·.destination),
    (sendGroup ext (idToHex [1]) [7] none 0 world).2) = (["+1", "+2"], .ok 1) := by decide

/-- The second send fails: the first member has the message, the caller gets an error. -/
example : ((sendGroup { ext with net := fun n _ => if n = 1 then .err .http else .ok n } (idToHex [1]) [7] none 0
      world).1.sent.map (·.destination),
    (sendGroup { ext with net := fun n _ => if n = 1 then .err .http else .ok n } (idToHex [1]) [7] none 0 world).2)
    = (["+1", "+2"], .err .http) := by decide

/-- An account id that can be written to. -/
def Proper (u : String) : Prop := u ≠ "" ∧ u ≠ "0" ∧ ¬ (u.toList.head? = some '\x00' ∧ u.toList.getLast? = some '\x00')

/-- C69, under which name: a member with a proper account id in the address book is written to under that id, any other
under the number. -/
theorem C69_addressed (X : Ext) (hexid : Bytes) (w : World) (g : Group) (hg : w.groups hexid = some g)
    (hm : g.members ≠ []) (msg : Bytes) (att : Option OutAtt) (timer t : Nat)
    (h : (sendGroup X hexid msg att timer w).2 = .ok t) :
    ∃ f : String → OutMsg, (sendGroup X hexid msg att timer w).1.sent = w.sent ++ (g.members.filter (· ≠ X.tel)).map f ∧
      ∀ m, (∀ u, X.contactUuid m = some u → Proper u → (f m).destination = u) ∧
        ((∀ u, X.contactUuid m = some u → ¬ Proper u) → (f m).destination = m) := by
  refine ⟨_, (C69_recipients X hexid w g hg hm msg att timer).2.1 t h, ?_⟩
  · intro m
    refine ⟨?_, ?_⟩
    · intro u hu hp
      have : u ≠ "" ∧ u ≠ "0" ∧ (u.toList.head? ≠ some '\x00' ∨ u.toList.getLast? ≠ some '\x00') := by
        refine ⟨hp.1, hp.2.1, ?_⟩
        by_cases e : u.toList.head? = some '\x00'
        · exact .inr fun e2 => hp.2.2 ⟨e, e2⟩
        · exact .inl e
      simp only [groupMsg, destination, hu]
      rw [if_pos this]
    · intro hn
      simp only [groupMsg, destination]
      split
      · rfl
      · rename_i u hu
        rw [if_neg]
        rintro ⟨a, b, c⟩
        refine hn u hu ⟨a, b, ?_⟩
        rintro ⟨d, e⟩
        rcases c with c | c
        · exact c d
        · exact c e

example : ((sendGroup { ext with contactUuid := fun m => if m = "+1" then some "4f" else some "0" } (idToHex [1]) [7] none 0
    world).1.sent.map (·.destination)) = ["4f", "+2"] := by decide

/-- C69, a group without members: nothing of the message is sent and the call fails; all that goes out is a request for
information about the group, to the user's own number. -/
theorem C69_empty_group (X : Ext) (hexid : Bytes) (w : World) (g : Group) (hg : w.groups hexid = some g)
    (hm : g.members = []) (msg : Bytes) (att : Option OutAtt) (timer : Nat) :
    (sendGroup X hexid msg att timer w).1.sent =
      w.sent ++ [{ destination := X.tel, group := some { id := g.id, type := 4 } }] ∧
    ∀ t, (sendGroup X hexid msg att timer w).2 ≠ .ok t := by
  have hs : ∀ v, (setupGroups X v).sent = v.sent := by
    intro v
    unfold setupGroups
    generalize X.list _ = l
    induction l generalizing v with
    | nil => rfl
    | cons a l ih =>
      rw [List.foldl_cons, ih]
      unfold loadGroup
      split <;> rfl
  have hr : (removeFile X hexid w).1.sent = w.sent := by
    unfold removeFile
    split <;> rfl
  unfold sendGroup
  rw [hg]
  simp only [hm, if_true, requestInfo, Verif.GroupsV1.sendLoop, sendOne, hs, hr]
  cases X.net w.sent.length { destination := X.tel, group := some { id := g.id, type := 4 } } <;>
    simp [unit, hs, hr]

example : (sendGroup ext (idToHex [1]) [7] none 0 { world with groups := fun _ => some { group with members := [] } }).1.sent =
    [{ destination := "+0", group := some { id := [1], type := 4 } }] := by decide

/-! ## C70 Creating and changing groups -/

theorem newGroup_ok (X : Ext) (id name : Bytes) (members : List String) (w w' : World)
    (h : newGroup X id name members w = (w', .ok ())) :
    (∃ g, getGroup (idToHex id) w' = .ok g ∧ w'.files (idToHex id) = some (some g) ∧ g.name = name ∧
      g.members = members ++ [X.tel]) ∧
    w'.sent = w.sent ++ ((members ++ [X.tel]).filter (· ≠ X.tel)).map
      (fun m => { destination := m, group := some ⟨id, name, members ++ [X.tel], 1⟩ }) := by
  obtain ⟨g, hgd⟩ : ∃ g : Group, g = { id := id, hexid := idToHex id, name := name, members := members ++ [X.tel] } :=
    ⟨_, rfl⟩
  unfold newGroup at h
  simp only [← hgd] at h
  unfold saveGroup at h
  by_cases hw : X.writeOk = true
  · rw [if_pos hw] at h
    simp only [sendUpdate] at h
    obtain ⟨w1, hw1⟩ : ∃ w1 : World, w1 = ⟨put w.groups (idToHex id) (some g),
      put w.files (idToHex id) (some (put w.groups (idToHex id) (some g) (idToHex id))), w.sent⟩ := ⟨_, rfl⟩
    rw [← hw1] at h
    rcases hl : Verif.GroupsV1.sendLoop X
      (fun m => { destination := m, group := some ⟨g.id, g.name, g.members, 1⟩ }) g.members 0 w1 with ⟨w2, r⟩
    rw [hl] at h
    cases r with
    | err e => simp [unit] at h
    | panic => simp [unit] at h
    | ok t =>
      simp only [unit, Prod.mk.injEq, and_true] at h
      subst h
      obtain ⟨h1, h2, h3⟩ := sendLoop_ok X _ _ _ _ _ _ hl
      refine ⟨⟨g, ?_, ?_, by rw [hgd], by rw [hgd]⟩, ?_⟩
      · unfold getGroup; rw [h1, hw1]; simp [put]
      · rw [h2, hw1]; simp [put]
      · rw [h3, hw1, hgd]
  · rw [if_neg hw] at h
    simp at h

/-- For all names and members: after creating a group successfully it is found under its id with the given
name, the given members and the user's own number, in memory and in the file; and every given member
other than the user has been sent one update naming all of them. Required: the user's own number is
not among the given ones (it would be listed twice, see `C70_own_number_twice`). -/
theorem C70_create_partial (X : Ext) (id name : Bytes) (members : List String) (w w' : World)
    (hown : X.tel ∉ members) (h : newGroup X id name members w = (w', .ok ())) :
    (∃ g, getGroup (idToHex id) w' = .ok g ∧ w'.files (idToHex id) = some (some g) ∧ g.name = name ∧
      g.members = members ++ [X.tel] ∧ (members.Nodup → g.members.Nodup)) ∧
    w'.sent = w.sent ++ members.map
      (fun m => { destination := m, group := some ⟨id, name, members ++ [X.tel], 1⟩ }) := by
  have hfil : (members ++ [X.tel]).filter (· ≠ X.tel) = members := by
    rw [List.filter_append, List.filter_cons_of_neg (by simp), List.filter_nil, List.append_nil,
      List.filter_eq_self]
    intro m hm
    simp only [ne_eq, decide_not, Bool.not_eq_true', decide_eq_false_iff_not]
    intro he
    exact hown (he ▸ hm)
  obtain ⟨⟨g, h1, h2, h3, h4⟩, h5⟩ := newGroup_ok X id name members w w' h
  refine ⟨⟨g, h1, h2, h3, h4, ?_⟩, by rw [h5, hfil]⟩
  intro hn
  rw [h4, List.nodup_append]
  exact ⟨hn, by simp, by intro a ha b hb; simp at hb; subst hb; intro he; exact hown (he ▸ ha)⟩

example : (newGroup ext [9] [65] ["+1", "+2"] world).2 = .ok () ∧
    (newGroup ext [9] [65] ["+1", "+2"] world).1.sent.map (·.destination) = ["+1", "+2"] := by decide

/-- **C70 refuted**, for all groups and members: naming oneself when creating a group puts one's number in
it twice. -/
theorem C70_own_number_twice (X : Ext) (id name : Bytes) (members : List String) (w w' : World)
    (hown : X.tel ∈ members) (h : newGroup X id name members w = (w', .ok ())) :
    ∃ g, getGroup (idToHex id) w' = .ok g ∧ 2 ≤ g.members.count X.tel := by
  obtain ⟨⟨g, h1, h2, h3, h4⟩, h5⟩ := newGroup_ok X id name members w w' h
  refine ⟨g, h1, ?_⟩
  have := List.count_pos_iff.mpr hown
  rw [h4]
  simp only [List.count_append, List.count_cons_self, List.count_nil]
  omega

example : (newGroup ext [9] [65] ["+1", "+0"] world).2 = .ok () := by decide

/-! ## C103 Changing a group -/

theorem changeGroup_ok (X : Ext) (hexid name : Bytes) (members : List String) (w w' : World)
    (h : changeGroup X hexid name members w = (w', .ok ())) :
    ∃ g g', w.groups hexid = some g ∧ g' = { g with name := name, members := members ++ [X.tel] } ∧
      w'.groups = put w.groups hexid (some g') ∧
      w'.files = (if X.writeOk then put w.files hexid (some (some g')) else w.files) ∧
      w'.sent = w.sent ++ ((members ++ [X.tel]).filter (· ≠ X.tel)).map
        (fun m => { destination := m, group := some ⟨g.id, name, members ++ [X.tel], 1⟩ }) := by
  unfold changeGroup at h
  split at h
  · simp at h
  · next g hg =>
    obtain ⟨g', hg'⟩ : ∃ g' : Group, g' = { g with name := name, members := members ++ [X.tel] } := ⟨_, rfl⟩
    simp only [← hg', sendUpdate] at h
    obtain ⟨w1, hw1⟩ : ∃ w1 : World, w1 = (saveGroup X hexid { w with groups := put w.groups hexid (some g') }).1 := ⟨_, rfl⟩
    rw [← hw1] at h
    rcases hl : Verif.GroupsV1.sendLoop X
      (fun m => { destination := m, group := some ⟨g.id, name, members ++ [X.tel], 1⟩ }) (members ++ [X.tel]) 0 w1
      with ⟨w2, r⟩
    rw [hl] at h
    cases r with
    | err e => simp [unit] at h
    | panic => simp [unit] at h
    | ok t =>
      simp only [unit, Prod.mk.injEq, and_true] at h
      subst h
      obtain ⟨h1, h2, h3⟩ := sendLoop_ok X _ _ _ _ _ _ hl
      refine ⟨g, g', hg, hg', ?_, ?_, ?_⟩
      · rw [h1, hw1]; unfold saveGroup; split <;> rfl
      · rw [h2, hw1]; unfold saveGroup; split <;> simp [put]
      · rw [h3, hw1]; unfold saveGroup; split <;> rfl

/-- **C103 (part).** For all groups, names and members: after a successful change the group found under the
id is the one that was found there before with the given name and exactly the given members and the user, every other
group is as before, and each given member has been sent one update naming all of them. If the file could be
written, it holds this group. Missing: files that cannot be written (`C103_not_saved`), members who are no
longer in the group (`C103_removed_not_told`), the user's own number among the given ones. -/
theorem C103_change_partial (X : Ext) (hexid name : Bytes) (members : List String) (w w' : World)
    (hown : X.tel ∉ members) (h : changeGroup X hexid name members w = (w', .ok ())) :
    (∃ g g', getGroup hexid w = .ok g ∧ getGroup hexid w' = .ok g' ∧ g'.name = name ∧
      g'.members = members ++ [X.tel] ∧ g'.id = g.id ∧ g'.avatar = g.avatar ∧
      (X.writeOk = true → w'.files hexid = some (some g')) ∧
      w'.sent = w.sent ++ members.map
        (fun m => { destination := m, group := some ⟨g.id, name, members ++ [X.tel], 1⟩ })) ∧
    ∀ x, x ≠ hexid → w'.groups x = w.groups x ∧ w'.files x = w.files x := by
  have hfil : (members ++ [X.tel]).filter (· ≠ X.tel) = members := by
    rw [List.filter_append, List.filter_cons_of_neg (by simp), List.filter_nil, List.append_nil,
      List.filter_eq_self]
    intro m hm
    simp only [ne_eq, decide_not, Bool.not_eq_true', decide_eq_false_iff_not]
    intro he
    exact hown (he ▸ hm)
  obtain ⟨g, g', hg, hg', h1, h2, h3⟩ := changeGroup_ok X hexid name members w w' h
  refine ⟨⟨g, g', by unfold getGroup; rw [hg], by unfold getGroup; rw [h1]; simp [put], by rw [hg'], by rw [hg'],
    by rw [hg'], by rw [hg'], ?_, by rw [h3, hfil]⟩, ?_⟩
  · intro hw
    rw [h2, if_pos hw]
    simp [put]
  · intro x hx
    rw [h1, h2]
    refine ⟨by simp [put, hx], ?_⟩
    split <;> simp [put, hx]

example : (changeGroup ext (idToHex [1]) [66] ["+2", "+3"] world).2 = .ok () ∧
    (changeGroup ext (idToHex [1]) [66] ["+2", "+3"] world).1.sent.map (·.destination) = ["+2", "+3"] := by decide

/-- An id without a group is refused, and nothing is sent. -/
theorem C103_unknown (X : Ext) (hexid name : Bytes) (members : List String) (w : World)
    (h : getGroup hexid w = .err .other) : changeGroup X hexid name members w = (w, .err .other) := by
  unfold getGroup at h
  split at h
  · next hg => unfold changeGroup; rw [hg]
  · cases h

example : getGroup [7] world = .err .other := by decide

/-- **C103 refuted**, for all groups: if the file cannot be written, the change is still reported as done and
announced; the file keeps the old group, which is what a later start reads. -/
theorem C103_not_saved (X : Ext) (hexid name : Bytes) (members : List String) (w : World)
    (hg : ∃ g, w.groups hexid = some g) (hw : X.writeOk = false) (hnet : ∀ n m, ∃ t, X.net n m = .ok t) :
    ∃ w', changeGroup X hexid name members w = (w', .ok ()) ∧ w'.files = w.files ∧
      restart X w' = { restart X w with sent := w'.sent } := by
  have hloop : ∀ (mk : String → OutMsg) (ms : List String) (ts : Nat) (w : World),
      ∃ w' t, Verif.GroupsV1.sendLoop X mk ms ts w = (w', .ok t) := by
    intro mk ms
    induction ms with
    | nil => exact fun ts w => ⟨w, ts, rfl⟩
    | cons m ms ih =>
      intro ts w
      unfold Verif.GroupsV1.sendLoop
      split
      · exact ih ts w
      · obtain ⟨t, ht⟩ := hnet w.sent.length (mk m)
        simp only [sendOne, ht]
        exact ih t _
  obtain ⟨g, hg⟩ := hg
  have hex : ∃ w', changeGroup X hexid name members w = (w', .ok ()) := by
    unfold changeGroup
    rw [hg]
    simp only [sendUpdate]
    obtain ⟨w', t, h⟩ := hloop (fun m => { destination := m, group := some ⟨g.id, name, members ++ [X.tel], 1⟩ })
      (members ++ [X.tel]) 0 (saveGroup X hexid { w with groups := put w.groups hexid (some { g with name := name, members := members ++ [X.tel] }) }).1
    exact ⟨w', by rw [h]; rfl⟩
  obtain ⟨w', h⟩ := hex
  obtain ⟨_, _, _, _, _, h2, _⟩ := changeGroup_ok X hexid name members w w' h
  rw [hw] at h2
  simp only [Bool.false_eq_true, if_false] at h2
  refine ⟨w', h, h2, ?_⟩
  have hload : ∀ (l : List Bytes) (a b : World), a.files = b.files → a.groups = b.groups →
      (l.foldl (fun w h => loadGroup h w) a).files = b.files ∧
      (l.foldl (fun w h => loadGroup h w) a).groups = (l.foldl (fun w h => loadGroup h w) b).groups ∧
      (l.foldl (fun w h => loadGroup h w) b).files = b.files ∧
      (l.foldl (fun w h => loadGroup h w) a).sent = a.sent := by
    intro l
    induction l with
    | nil => exact fun a b h1 h2 => ⟨h1, h2, rfl, rfl⟩
    | cons x l ih =>
      intro a b h1 h2
      have ha : (loadGroup x a).files = (loadGroup x b).files ∧ (loadGroup x a).groups = (loadGroup x b).groups ∧
          (loadGroup x b).files = b.files ∧ (loadGroup x a).sent = a.sent := by
        unfold loadGroup
        rw [h1]
        split
        · exact ⟨rfl, by rw [h2], rfl, rfl⟩
        · exact ⟨h1, h2, rfl, rfl⟩
      obtain ⟨i1, i2, i3, i4⟩ := ih _ _ ha.1 ha.2.1
      exact ⟨i1.trans ha.2.2.1, i2, i3.trans ha.2.2.1, i4.trans ha.2.2.2⟩
  unfold restart setupGroups
  simp only [h2]
  obtain ⟨i1, i2, i3, i4⟩ := hload (X.list w.files) { w' with groups := fun _ => none } { w with groups := fun _ => none } h2 rfl
  rcases hA : (X.list w.files).foldl (fun w h => loadGroup h w) { w' with groups := fun _ => none } with ⟨a1, a2, a3⟩
  rw [show ({ w' with groups := fun _ => none } : World) = ⟨fun _ => none, w'.files, w'.sent⟩ from rfl, h2] at hA i1 i2 i4
  rw [hA] at i1 i2 i4 ⊢
  simp only [World.mk.injEq]
  exact ⟨i2, i1.trans i3.symm, i4⟩

example : (∃ g, world.groups (idToHex [1]) = some g) ∧ ∀ n m, ∃ t, { ext with writeOk := false }.net n m = .ok t :=
  ⟨⟨group, by decide⟩, fun n _ => ⟨n, rfl⟩⟩

/-- **C103 refuted**, for all groups: nothing is sent to a member who is not among the new ones. -/
theorem C103_removed_not_told (X : Ext) (hexid name : Bytes) (members : List String) (w w' : World) (m : String)
    (hm : m ∉ members) (h : changeGroup X hexid name members w = (w', .ok ())) :
    ∃ new, w'.sent = w.sent ++ new ∧ ∀ o ∈ new, o.destination ≠ m := by
  obtain ⟨g, g', _, _, _, _, h3⟩ := changeGroup_ok X hexid name members w w' h
  refine ⟨_, h3, fun o ho => ?_⟩
  simp only [List.mem_map, List.mem_filter, List.mem_append, List.mem_singleton] at ho
  obtain ⟨x, ⟨hx, hne⟩, rfl⟩ := ho
  simp only [ne_eq, decide_not, Bool.not_eq_true', decide_eq_false_iff_not] at hne
  rcases hx with hx | hx
  · exact fun he => hm (he ▸ hx)
  · exact absurd hx hne

example : "+1" ∈ group.members ∧ "+1" ∉ ["+2", "+3"] ∧
    (changeGroup ext (idToHex [1]) [66] ["+2", "+3"] world).2 = .ok () := by decide

end Verif.Props.GroupsV1
