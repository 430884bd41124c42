import Verif.Proof.GroupParts
import Verif.Props.GroupsV2
/-!
# Property theorems about whole group changes: C124, C125
-/
namespace Verif.GroupsV2
open Verif

/-- **C124.** A change whose parts all go through made sense for the group, and did all it says and nothing
else. -/
theorem C124_carried_out {Z : Zk} {av : Option Validator} {now : Nat} {u : User} {pw : Bytes} {a : Actions}
    {g : Group} (hone : OneEach g) (hok : (runSteps (steps Z av now u pw a) g).2 = .ok) :
    Sound a g ∧ Carried Z u a g (runSteps (steps Z av now u pw a) g).1 := by
  obtain ⟨g', hg'⟩ : ∃ g', g' = (runSteps (steps Z av now u pw a) g).1 := ⟨_, rfl⟩
  rw [← hg']
  unfold steps at hok hg'
  obtain ⟨o1, hok, e1⟩ := runSteps_ok_cons hok
  rw [e1] at hg'
  clear e1
  have hA := applyAdd_does o1
  obtain ⟨x1, hx1⟩ : ∃ x, x = (applyAddMembers u pw g a.addMembers g).1 := ⟨_, rfl⟩
  simp only [← hx1] at hok hg' hA
  clear hx1 o1
  obtain ⟨o2, hok, e2⟩ := runSteps_ok_cons hok
  rw [e2] at hg'
  clear e2
  have hD := applyDelete_does o2
  obtain ⟨x2, hx2⟩ : ∃ x, x = (applyDeleteMembers u x1 a.deleteMembers x1).1 := ⟨_, rfl⟩
  simp only [← hx2] at hok hg' hD
  clear hx2 o2
  obtain ⟨o3, hok, e3⟩ := runSteps_ok_cons hok
  rw [e3] at hg'
  clear e3
  have hn3 : (x2.members.map (·.uuid)).Nodup := by
    rw [hD.2.2, hA.2.2]
    refine List.Nodup.sublist (List.Sublist.map _ List.filter_sublist) ?_
    rw [List.map_append, List.map_map]
    refine List.Nodup.append (List.nodup_append.1 (List.nodup_append.1 hone).1).1 hA.1 ?_
    intro i h1 h2
    obtain ⟨w, hw, rfl⟩ := List.mem_map.1 h2
    exact (hA.2.1 w hw).2.2.2 h1
  have hR := applyRoles_does hn3 o3
  obtain ⟨x3, hx3⟩ : ∃ x, x = (applyRoles u x2 a.modifyRoles x2).1 := ⟨_, rfl⟩
  simp only [← hx3] at hok hg' hR
  clear hx3 o3
  obtain ⟨o4, hok, e4⟩ := runSteps_ok_cons hok
  rw [e4] at hg'
  clear e4
  have hK := applyKeys_does o4
  obtain ⟨x4, hx4⟩ : ∃ x, x = (applyProfileKeys Z av u x3 a.modifyProfileKeys x3).1 := ⟨_, rfl⟩
  simp only [← hx4] at hok hg' hK
  clear hx4 o4
  obtain ⟨o5, hok, e5⟩ := runSteps_ok_cons hok
  rw [e5] at hg'
  clear e5
  have hI := applyInvite_does o5
  obtain ⟨x5, hx5⟩ : ∃ x, x = (applyInvite now u x4 a.addPending x4).1 := ⟨_, rfl⟩
  simp only [← hx5] at hok hg' hI
  clear hx5 o5
  obtain ⟨o6, hok, e6⟩ := runSteps_ok_cons hok
  rw [e6] at hg'
  clear e6
  have hDP := applyDeletePending_does o6
  obtain ⟨x6, hx6⟩ : ∃ x, x = (applyDeletePending u x5 a.deletePending x5).1 := ⟨_, rfl⟩
  simp only [← hx6] at hok hg' hDP
  clear hx6 o6
  obtain ⟨o7, hok, e7⟩ := runSteps_ok_cons hok
  rw [e7] at hg'
  clear e7
  have hP := applyPromote_does o7
  obtain ⟨x7, hx7⟩ : ∃ x, x = (applyPromotePending Z av u x6 a.promotePending x6).1 := ⟨_, rfl⟩
  simp only [← hx7] at hok hg' hP
  clear hx7 o7
  obtain ⟨o8, hok, e8⟩ := runSteps_ok_cons hok
  rw [e8] at hg'
  clear e8
  have hT := applyTitle_does o8
  obtain ⟨x8, hx8⟩ : ∃ x, x = (applyTitle u x7 a.title x7).1 := ⟨_, rfl⟩
  simp only [← hx8] at hok hg' hT
  clear hx8 o8
  obtain ⟨o9, hok, e9⟩ := runSteps_ok_cons hok
  rw [e9] at hg'
  clear e9
  have hAv := applyAvatar_does o9
  obtain ⟨x9, hx9⟩ : ∃ x, x = (applyAvatar u x8 a.avatar x8).1 := ⟨_, rfl⟩
  simp only [← hx9] at hok hg' hAv
  clear hx9 o9
  obtain ⟨o10, hok, e10⟩ := runSteps_ok_cons hok
  rw [e10] at hg'
  clear e10
  have hTi := applyTimer_does o10
  obtain ⟨x10, hx10⟩ : ∃ x, x = (applyTimer u x9 a.timer x9).1 := ⟨_, rfl⟩
  simp only [← hx10] at hok hg' hTi
  clear hx10 o10
  obtain ⟨o11, hok, e11⟩ := runSteps_ok_cons hok
  rw [e11] at hg'
  clear e11
  have hAA := applyAttributesAccess_does o11
  obtain ⟨x11, hx11⟩ : ∃ x, x = (applyAttributesAccess u x10 a.attributesAccess x10).1 := ⟨_, rfl⟩
  simp only [← hx11] at hok hg' hAA
  clear hx11 o11
  obtain ⟨o12, hok, e12⟩ := runSteps_ok_cons hok
  rw [e12] at hg'
  clear e12
  have hMA := applyMembersAccess_does o12
  obtain ⟨x12, hx12⟩ : ∃ x, x = (applyMembersAccess u x11 a.membersAccess x11).1 := ⟨_, rfl⟩
  simp only [← hx12] at hok hg' hMA
  clear hx12 o12
  obtain ⟨o13, hok, e13⟩ := runSteps_ok_cons hok
  rw [e13] at hg'
  clear e13
  have hLA := applyLinkAccess_does o13
  obtain ⟨x13, hx13⟩ : ∃ x, x = (applyLinkAccess u x12 a.linkAccess x12).1 := ⟨_, rfl⟩
  simp only [← hx13] at hok hg' hLA
  clear hx13 o13
  obtain ⟨o14, hok, e14⟩ := runSteps_ok_cons hok
  rw [e14] at hg'
  clear e14
  have hQ := applyRequest_does o14
  obtain ⟨x14, hx14⟩ : ∃ x, x = (applyRequest u pw x13 a.addRequesting x13).1 := ⟨_, rfl⟩
  simp only [← hx14] at hok hg' hQ
  clear hx14 o14
  obtain ⟨o15, hok, e15⟩ := runSteps_ok_cons hok
  rw [e15] at hg'
  clear e15
  have hDR := applyDeleteRequesting_does o15
  obtain ⟨x15, hx15⟩ : ∃ x, x = (applyDeleteRequesting u x14 a.deleteRequesting x14).1 := ⟨_, rfl⟩
  simp only [← hx15] at hok hg' hDR
  clear hx15 o15
  obtain ⟨o16, hok, e16⟩ := runSteps_ok_cons hok
  rw [e16] at hg'
  clear e16
  have hAp := applyApprove_does o16
  obtain ⟨x16, hx16⟩ : ∃ x, x = (applyApprove u x15 a.promoteRequesting x15).1 := ⟨_, rfl⟩
  simp only [← hx16] at hok hg' hAp
  clear hx16 o16
  obtain ⟨o17, hok, e17⟩ := runSteps_ok_cons hok
  rw [e17] at hg'
  clear e17
  have hPw := applyPassword_does o17
  obtain ⟨x17, hx17⟩ : ∃ x, x = (applyPassword u x16 a.newPassword x16).1 := ⟨_, rfl⟩
  simp only [← hx17] at hok hg' hPw
  clear hx17 o17
  obtain ⟨o18, hok, e18⟩ := runSteps_ok_cons hok
  rw [e18] at hg'
  clear e18
  have hDe := applyDescription_does o18
  obtain ⟨x18, hx18⟩ : ∃ x, x = (applyDescription u x17 a.description x17).1 := ⟨_, rfl⟩
  simp only [← hx18] at hok hg' hDe
  clear hx18 o18
  obtain ⟨o19, hok, e19⟩ := runSteps_ok_cons hok
  rw [e19] at hg'
  clear e19
  have hAn := applyAnnouncements_does o19
  obtain ⟨x19, hx19⟩ : ∃ x, x = (applyAnnouncements u x18 a.announcements x18).1 := ⟨_, rfl⟩
  simp only [← hx19] at hok hg' hAn
  clear hx19 o19
  simp only [runSteps] at hg'
  obtain ⟨hA1, hA2, rfl⟩ := hA
  obtain ⟨hD1, hD2, rfl⟩ := hD
  obtain ⟨hR1, hR2, rfl⟩ := hR
  obtain ⟨own, hK1, rfl⟩ := hK
  obtain ⟨hI1, hI2, new, hI3, rfl⟩ := hI
  obtain ⟨hDP1, hDP2, rfl⟩ := hDP
  obtain ⟨hP1, ctx, rfl⟩ := hP
  obtain ⟨hT1, rfl⟩ := hT
  subst hAv
  subst hTi
  obtain ⟨hAA1, rfl⟩ := hAA
  obtain ⟨hMA1, rfl⟩ := hMA
  obtain ⟨hLA1, rfl⟩ := hLA
  obtain ⟨hQ1, rfl⟩ := hQ
  obtain ⟨hDR1, hDR2, rfl⟩ := hDR
  obtain ⟨hAp1, hAp2, appr, hAp3, hAp4, rfl⟩ := hAp
  subst hPw
  subst hDe
  subst hAn
  subst hg'
  clear hok
  have mem2 : ∀ i, i ∈ ((g.members ++ newMembers a g).filter (fun m => decide (m.uuid ∉ a.deleteMembers))).map
      (·.uuid) ↔ (i ∈ g.members.map (·.uuid) ∨ i ∈ addedIds a) ∧ i ∉ a.deleteMembers := by
    intro i
    constructor
    · intro h
      obtain ⟨m, hm, rfl⟩ := List.mem_map.1 h
      obtain ⟨h1, h2⟩ := List.mem_filter.1 hm
      refine ⟨?_, of_decide_eq_true h2⟩
      rcases List.mem_append.1 h1 with h1 | h1
      · exact Or.inl (List.mem_map.2 ⟨m, h1, rfl⟩)
      · obtain ⟨w, hw, rfl⟩ := List.mem_map.1 h1
        exact Or.inr (List.mem_map.2 ⟨w, hw, rfl⟩)
    · rintro ⟨h1 | h1, h2⟩
      · obtain ⟨m, hm, rfl⟩ := List.mem_map.1 h1
        exact List.mem_map.2 ⟨m, List.mem_filter.2 ⟨List.mem_append.2 (Or.inl hm), decide_eq_true h2⟩, rfl⟩
      · obtain ⟨w, hw, rfl⟩ := List.mem_map.1 h1
        exact List.mem_map.2 ⟨_, List.mem_filter.2 ⟨List.mem_append.2 (Or.inr (List.mem_map.2 ⟨w, hw, rfl⟩)),
          decide_eq_true h2⟩, rfl⟩
  have role_uuid : ∀ ms : List Member, (ms.map (withRole a)).map (·.uuid) = ms.map (·.uuid) := by
    intro ms
    rw [List.map_map]
    apply List.map_congr_left
    intro m _
    simp only [Function.comp, withRole]
    split <;> rfl
  have own_uuid : ∀ ms : List Member, (ms.map own).map (·.uuid) = ms.map (·.uuid) := by
    intro ms
    rcases hK1 with ⟨_, rfl⟩ | ⟨p, k, _, _, rfl⟩
    · simp
    · rw [List.map_map]
      apply List.map_congr_left
      intro m _
      simp only [Function.comp, withKey]
      split <;> rfl
  have del1 : ∀ (l : List Requesting) (is : List Bytes) i,
      i ∈ (l.filter (fun r => decide (r.uuid ∉ is))).map (·.uuid) ↔ i ∈ l.map (·.uuid) ∧ i ∉ is := by
    intro l is i
    simp only [List.mem_map, List.mem_filter, decide_eq_true_eq]
    constructor
    · rintro ⟨r, ⟨h1, h2⟩, rfl⟩; exact ⟨⟨r, h1, rfl⟩, h2⟩
    · rintro ⟨⟨r, h1, rfl⟩, h2⟩; exact ⟨r, ⟨h1, h2⟩, rfl⟩
  have del2 : ∀ (l : List Pending) (is : List Bytes) i,
      i ∈ (l.filter (fun r => decide (r.uuid ∉ is))).map (·.uuid) ↔ i ∈ l.map (·.uuid) ∧ i ∉ is := by
    intro l is i
    simp only [List.mem_map, List.mem_filter, decide_eq_true_eq]
    constructor
    · rintro ⟨r, ⟨h1, h2⟩, rfl⟩; exact ⟨⟨r, h1, rfl⟩, h2⟩
    · rintro ⟨⟨r, h1, rfl⟩, h2⟩; exact ⟨r, ⟨h1, h2⟩, rfl⟩
  have mem5 : ∀ i, i ∈ ((((g.members ++ newMembers a g).filter (fun m => decide (m.uuid ∉ a.deleteMembers))).map
      (withRole a)).map own).map (·.uuid) ↔ (i ∈ g.members.map (·.uuid) ∨ i ∈ addedIds a) ∧ i ∉ a.deleteMembers := by
    intro i
    rw [own_uuid, role_uuid]
    exact mem2 i
  have hnew : new.map (·.uuid) = (a.addPending.filterMap (fun x => x.bind (·.member))).map (·.userId) := by
    have := congrArg (List.map Prod.fst) hI3
    rw [List.map_map, List.map_map] at this
    exact this
  constructor
  · exact {
      add := ⟨hA1, fun i hi => by
        obtain ⟨w, hw, rfl⟩ := List.mem_map.1 hi
        exact ⟨(hA2 w hw).1, (hA2 w hw).2.2.2⟩⟩
      addRole := fun m hm => by
        obtain ⟨w, hw, rfl⟩ := List.mem_map.1 hm
        exact ⟨(hA2 w hw).2.2.1, (hA2 w hw).2.1⟩
      delete := ⟨hD1, fun i hi => by
        have h1 := hD2 i hi
        rw [List.map_append] at h1
        rcases List.mem_append.1 h1 with h1 | h1
        · exact Or.inl h1
        · rw [List.map_map] at h1
          exact Or.inr h1⟩
      roles := ⟨hR1, fun x hx => ⟨(hR2 x hx).1, (hR2 x hx).2.1, ((mem2 x.1).1 (hR2 x hx).2.2).2,
        ((mem2 x.1).1 (hR2 x hx).2.2).1⟩⟩
      invite := fun x hx => by
        obtain ⟨p, w, h1, h2, h3, h4, h5, h6⟩ := hI2 x hx
        have h5' := fun h => h5 ((mem5 w.userId).2 h)
        have h6' := fun h => h6 ((del2 _ _ w.userId).2 h)
        exact ⟨p, w, h1, h2, h3, h4, fun h => not_not.1 fun hn => h5' ⟨Or.inl h, hn⟩,
          fun h => not_not.1 fun hn => h5' ⟨Or.inr h, hn⟩, fun h => not_not.1 fun hn => h6' ⟨h, hn⟩⟩
      inviteOnce := hI1
      deletePending := ⟨hDP1, fun i hi => by
        have h1 := hDP2 i hi
        rw [List.map_append, hnew] at h1
        rcases List.mem_append.1 h1 with h1 | h1
        · exact Or.inl ((del2 _ _ i).1 h1)
        · exact Or.inr h1⟩
      deleteRequesting := ⟨hDR1, fun i hi => (del1 _ _ i).1 (hDR2 i hi)⟩
      approve := ⟨hAp1, fun i hi => by
        obtain ⟨h1, h2⟩ := hAp2 i hi
        have h3 := (del1 _ _ i).1 h2
        have h4 := (del1 _ _ i).1 h3.1
        have h5 := fun h => h1 ((mem5 i).2 h)
        exact ⟨h4.1, h3.2, h4.2, fun h => not_not.1 fun hn => h5 ⟨Or.inl h, hn⟩⟩⟩
      title := hT1
      attributesAccess := hAA1
      membersAccess := hMA1
      linkAccess := hLA1 }
  · exact {
      key := rfl
      revision := rfl
      title := rfl
      avatar := rfl
      description := rfl
      password := rfl
      announcements := rfl
      rules := by
        show ((g.rules.map _).map _).map _ = _
        rw [Option.map_map, Option.map_map]
        rfl
      members := ⟨own, appr, rfl, hK1, hAp3, fun m hm => ⟨(List.mem_filter.1 (List.mem_filter.1
        (hAp4 m hm).1).1).1, (hAp4 m hm).2⟩⟩
      pending := ⟨new, rfl, hI3⟩
      accepted := hP1
      asked := ⟨rfl, hQ1⟩
      requesting := rfl }

theorem goes_last {u : User} {a : Actions} {x16 : Group} {r' : Rules} (b16 : Boss u x16)
    (r16 : x16.rules = some r') (ra : r'.attributes = 1 ∨ r'.attributes = 2 ∨ r'.attributes = 3) :
    (runSteps
  [fun im g => applyPassword u im a.newPassword g,
   fun im g => applyDescription u im a.description g,
   fun im g => applyAnnouncements u im a.announcements g] x16).2 = .ok := by
  -- password, description, announcements
  have o17 : (applyPassword u x16 a.newPassword x16).2 = .ok := by
    rw [password_ok b16.admin]
  refine runSteps_goes o17 ?_
  rw [applyPassword_does o17]
  generalize hx17 : ({ x16 with password := a.newPassword.getD x16.password } : Group) = x17
  have b17 : Boss u x17 := b16.congr (congrArg Group.masterKey hx17).symm
    (congrArg Group.members hx17).symm
  have r17 : x17.rules = some r' := (congrArg Group.rules hx17).symm.trans r16
  clear hx17 o17
  have o18 : (applyDescription u x17 a.description x17).2 = .ok := by
    unfold applyDescription
    cases a.description with
    | none => rfl
    | some t =>
      simp only []
      rw [b17.attributes r17 ra]
  refine runSteps_goes o18 ?_
  rw [applyDescription_does o18]
  generalize hx18 : ({ x17 with description := a.description.getD x17.description } : Group) = x18
  have b18 : Boss u x18 := b17.congr (congrArg Group.masterKey hx18).symm
    (congrArg Group.members hx18).symm
  clear hx18 o18
  refine runSteps_goes ?_ rfl
  rw [announcements_ok b18.admin]

theorem goes_requests {u : User} {pw : Bytes} {a : Actions} {g : Group} {x13 : Group} {r' : Rules} (hs : Sound a g)
    (hq : a.addRequesting = []) (b13 : Boss u x13)
    (r13 : x13.rules = some r') (ra : r'.attributes = 1 ∨ r'.attributes = 2 ∨ r'.attributes = 3)
    (hmem : ∀ i ∈ a.promoteRequesting.map (·.1), i ∉ x13.members.map (·.uuid))
    (q13 : x13.requesting = g.requesting.filter (fun r => decide (r.uuid ∉ addedIds a))) :
    (runSteps
  [fun im g => applyRequest u pw im a.addRequesting g,
   fun im g => applyDeleteRequesting u im a.deleteRequesting g,
   fun im g => applyApprove u im a.promoteRequesting g,
   fun im g => applyPassword u im a.newPassword g,
   fun im g => applyDescription u im a.description g,
   fun im g => applyAnnouncements u im a.announcements g] x13).2 = .ok := by
  -- asking to join
  refine runSteps_goes (by rw [hq]; rfl) ?_
  simp only [hq, applyRequest, if_true]
  have o15 : (applyDeleteRequesting u x13 a.deleteRequesting x13).2 = .ok :=
    applyDeleteRequesting_goes b13 hs.deleteRequesting.1 (fun i hii => by
      rw [q13]
      obtain ⟨h1, h2⟩ := hs.deleteRequesting.2 i hii
      obtain ⟨p, hpp, rfl⟩ := List.mem_map.1 h1
      exact List.mem_map.2 ⟨p, List.mem_filter.2 ⟨hpp, decide_eq_true h2⟩, rfl⟩)
  refine runSteps_goes o15 ?_
  rw [(applyDeleteRequesting_does o15).2.2]
  generalize hx15 : ({ x13 with requesting := x13.requesting.filter (fun m =>
    decide (m.uuid ∉ a.deleteRequesting)) } : Group) = x15
  have b15 : Boss u x15 := b13.congr (congrArg Group.masterKey hx15).symm
    (congrArg Group.members hx15).symm
  have m15 : x15.members = x13.members := (congrArg Group.members hx15).symm
  have q15 : x15.requesting = x13.requesting.filter (fun m => decide (m.uuid ∉ a.deleteRequesting)) := by
    rw [← hx15]
  have r15 : x15.rules = some r' := (congrArg Group.rules hx15).symm.trans r13
  clear hx15 o15
  have o16 : (applyApprove u x15 a.promoteRequesting x15).2 = .ok :=
    applyApprove_goes b15 hs.approve.1 (fun i hii => by
      obtain ⟨h1, h2, h3, h4⟩ := hs.approve.2 i hii
      rw [m15, q15, q13]
      refine ⟨hmem i hii, ?_⟩
      · obtain ⟨p, hpp, rfl⟩ := List.mem_map.1 h1
        exact List.mem_map.2 ⟨p, List.mem_filter.2 ⟨List.mem_filter.2 ⟨hpp, decide_eq_true h3⟩,
          decide_eq_true h2⟩, rfl⟩)
  refine runSteps_goes o16 ?_
  obtain ⟨ap1, ap2, new, n1, n2, e16⟩ := applyApprove_does o16
  rw [e16]
  generalize hx16 : ({ x15 with
    members := x15.members ++ new
    requesting := x15.requesting.filter (fun q => decide (q.uuid ∉ a.promoteRequesting.map (·.1))) } : Group) = x16
  have b16 : Boss u x16 := by
    obtain ⟨hk, hn, m, hm, hu, hr⟩ := b15
    rw [← hx16]
    refine ⟨hk, ?_, m, List.mem_append.2 (Or.inl hm), hu, hr⟩
    show ((x15.members ++ new).map (·.uuid)).Nodup
    have hnew : new.map (·.uuid) = a.promoteRequesting.map (·.1) := by
      rw [← n1, List.map_map]
      rfl
    rw [List.map_append, hnew]
    refine List.Nodup.append hn ap1 ?_
    intro i h1 h2
    exact (ap2 i h2).1 h1
  have r16 : x16.rules = some r' := (congrArg Group.rules hx16).symm.trans r15
  clear hx16 o16
  exact goes_last b16 r16 ra

theorem goes_rules {u : User} {pw : Bytes} {a : Actions} {g : Group} {x9 : Group} {r : Rules} (hs : Sound a g)
    (hq : a.addRequesting = []) (b9 : Boss u x9)
    (r9 : x9.rules = some r) (ra : r.attributes = 1 ∨ r.attributes = 2 ∨ r.attributes = 3)
    (hmem : ∀ i ∈ a.promoteRequesting.map (·.1), i ∉ x9.members.map (·.uuid))
    (q9 : x9.requesting = g.requesting.filter (fun r => decide (r.uuid ∉ addedIds a))) :
    (runSteps
  [fun im g => applyAttributesAccess u im a.attributesAccess g,
   fun im g => applyMembersAccess u im a.membersAccess g,
   fun im g => applyLinkAccess u im a.linkAccess g,
   fun im g => applyRequest u pw im a.addRequesting g,
   fun im g => applyDeleteRequesting u im a.deleteRequesting g,
   fun im g => applyApprove u im a.promoteRequesting g,
   fun im g => applyPassword u im a.newPassword g,
   fun im g => applyDescription u im a.description g,
   fun im g => applyAnnouncements u im a.announcements g] x9).2 = .ok := by
  have e11 := attributesAccess_ok b9.admin r9 (fun x hx => (hs.attributesAccess x hx).symm)
  rw [runSteps_cons_ok e11]
  have b11 := b9.congr (g' := { x9 with rules := some { r with attributes := a.attributesAccess.getD r.attributes } })
    rfl rfl
  have e12 := membersAccess_ok b11.admin rfl (fun x hx => (hs.membersAccess x hx).symm)
  rw [runSteps_cons_ok e12]
  have b12 := b11.congr (g' := { x9 with rules := some ⟨a.attributesAccess.getD r.attributes,
    a.membersAccess.getD r.members, r.link⟩ }) rfl rfl
  have e13 := linkAccess_ok b12.admin rfl
    (fun x (hx : a.linkAccess = some x) => by rcases hs.linkAccess x hx with h | h | h <;> simp [h])
  rw [runSteps_cons_ok e13]
  refine goes_requests (r' := ⟨a.attributesAccess.getD r.attributes, a.membersAccess.getD r.members,
    a.linkAccess.getD r.link⟩) hs hq (b12.congr rfl rfl) rfl ?_ hmem q9
  show a.attributesAccess.getD r.attributes = 1 ∨ a.attributesAccess.getD r.attributes = 2 ∨
    a.attributesAccess.getD r.attributes = 3
  cases ht : a.attributesAccess with
  | none => exact ra
  | some y => exact Or.inr (hs.attributesAccess y ht)

theorem goes_texts {u : User} {pw : Bytes} {a : Actions} {g : Group} {x6 : Group} {r : Rules} (hs : Sound a g)
    (hq : a.addRequesting = []) (b6 : Boss u x6)
    (r6 : x6.rules = some r) (hra : r.attributes = 1 ∨ r.attributes = 2 ∨ r.attributes = 3)
    (hmem : ∀ i ∈ a.promoteRequesting.map (·.1), i ∉ x6.members.map (·.uuid))
    (q6 : x6.requesting = g.requesting.filter (fun r => decide (r.uuid ∉ addedIds a))) :
    (runSteps
  [fun im g => applyTitle u im a.title g,
   fun im g => applyAvatar u im a.avatar g,
   fun im g => applyTimer u im a.timer g,
   fun im g => applyAttributesAccess u im a.attributesAccess g,
   fun im g => applyMembersAccess u im a.membersAccess g,
   fun im g => applyLinkAccess u im a.linkAccess g,
   fun im g => applyRequest u pw im a.addRequesting g,
   fun im g => applyDeleteRequesting u im a.deleteRequesting g,
   fun im g => applyApprove u im a.promoteRequesting g,
   fun im g => applyPassword u im a.newPassword g,
   fun im g => applyDescription u im a.description g,
   fun im g => applyAnnouncements u im a.announcements g] x6).2 = .ok := by
  -- title, picture, timer
  have o8 : (applyTitle u x6 a.title x6).2 = .ok := by
    unfold applyTitle
    cases ht : a.title with
    | none => rfl
    | some t =>
      simp only []
      rw [if_neg (fun h : t = [] => hs.title (by rw [ht, h])), b6.attributes r6 hra]
  refine runSteps_goes o8 ?_
  rw [(applyTitle_does o8).2]
  generalize hx8 : ({ x6 with title := a.title.getD x6.title } : Group) = x8
  have b8 : Boss u x8 := b6.congr (congrArg Group.masterKey hx8).symm
    (congrArg Group.members hx8).symm
  have m8 : x8.members = x6.members := (congrArg Group.members hx8).symm
  have q8 : x8.requesting = g.requesting.filter (fun r => decide (r.uuid ∉ addedIds a)) :=
    (congrArg Group.requesting hx8).symm.trans q6
  have r8 : x8.rules = some r := (congrArg Group.rules hx8).symm.trans r6
  clear hx8 o8
  have o9 : (applyAvatar u x8 a.avatar x8).2 = .ok := by
    unfold applyAvatar
    cases a.avatar with
    | none => rfl
    | some t => simp only []; rw [b8.attributes r8 hra]
  refine runSteps_goes o9 ?_
  rw [applyAvatar_does o9]
  generalize hx9 : ({ x8 with avatar := a.avatar.getD x8.avatar } : Group) = x9
  have b9 : Boss u x9 := b8.congr (congrArg Group.masterKey hx9).symm
    (congrArg Group.members hx9).symm
  have m9 : x9.members = x6.members := (congrArg Group.members hx9).symm.trans m8
  have q9 : x9.requesting = g.requesting.filter (fun r => decide (r.uuid ∉ addedIds a)) :=
    (congrArg Group.requesting hx9).symm.trans q8
  have r9 : x9.rules = some r := (congrArg Group.rules hx9).symm.trans r8
  clear hx9 o9
  have o10 : (applyTimer u x9 a.timer x9).2 = .ok := by
    unfold applyTimer
    cases a.timer with
    | none => rfl
    | some t => simp only []; rw [b9.attributes r9 hra]
  refine runSteps_goes o10 ?_
  rw [applyTimer_does o10]
  clear o10
  exact goes_rules hs hq b9 r9 hra (by rw [m9]; exact hmem) q9

/-- Conversely: every change of an administrator that makes sense for the group goes through, if it keeps
them administrator, the group's attributes are open to someone, and it has no parts the code refuses
altogether (invitations, C71) or that are not for administrators (presentations, asking to join). -/
theorem C124_goes_through {Z : Zk} {av : Option Validator} {now : Nat} {u : User} {pw : Bytes} {a : Actions}
    {g : Group} {r : Rules} (hone : OneEach g) (hadm : Admin u g) (hs : Sound a g) (hr : g.rules = some r)
    (hra : r.attributes = 1 ∨ r.attributes = 2 ∨ r.attributes = 3)
    (hsome : ∀ x ∈ a.addMembers, x ≠ none) (hdel : u.cipher ∉ a.deleteMembers)
    (hrole : ∀ x ∈ a.modifyRoles, x.1 = u.cipher → x.2 = 2)
    (hk : a.modifyProfileKeys = []) (hi : a.addPending = []) (hp : a.promotePending = [])
    (hq : a.addRequesting = []) : (runSteps (steps Z av now u pw a) g).2 = .ok := by
  have hn0 : (g.members.map (·.uuid)).Nodup := (List.nodup_append.1 (List.nodup_append.1 hone).1).1
  have b0 : Boss u g := by
    obtain ⟨m, hm, hself, hr⟩ := hadm
    exact ⟨hself.1, hn0, m, hm, hself.2.symm, hr⟩
  unfold steps
  -- adding
  have o1 : (applyAddMembers u pw g a.addMembers g).2 = .ok := by
    refine applyAdd_goes b0 hsome hs.add.1 (fun w hw => ?_) (fun w hw => ?_)
    · have h1 := hs.addRole _ (List.mem_map.2 ⟨w, hw, rfl⟩)
      exact ⟨(hs.add.2 w.userId (List.mem_map.2 ⟨w, hw, rfl⟩)).1, h1.2, h1.1⟩
    · exact (hs.add.2 w.userId (List.mem_map.2 ⟨w, hw, rfl⟩)).2
  refine runSteps_goes o1 ?_
  obtain ⟨hA1, hA2, e1⟩ := applyAdd_does o1
  clear o1
  obtain ⟨x1, hx1⟩ : ∃ x, x = ({ g with
      members := g.members ++ newMembers a g
      pending := g.pending.filter (fun p => decide (p.uuid ∉ addedIds a))
      requesting := g.requesting.filter (fun r => decide (r.uuid ∉ addedIds a)) } : Group) := ⟨_, rfl⟩
  have b1 : Boss u x1 := by
    obtain ⟨hk, _, m, hm, hu, hr⟩ := b0
    rw [hx1]
    refine ⟨hk, ?_, m, List.mem_append.2 (Or.inl hm), hu, hr⟩
    show ((g.members ++ newMembers a g).map (·.uuid)).Nodup
    rw [List.map_append]
    unfold newMembers
    rw [List.map_map]
    refine List.Nodup.append hn0 hA1 ?_
    intro i h1 h2
    obtain ⟨w, hw, rfl⟩ := List.mem_map.1 h2
    exact (hA2 w hw).2.2.2 h1
  have m1 : x1.members.map (·.uuid) = g.members.map (·.uuid) ++ addedIds a := by
    rw [hx1]
    show (g.members ++ newMembers a g).map (·.uuid) = _
    rw [List.map_append]
    unfold newMembers addedIds
    rw [List.map_map]
    rfl
  have p1 : x1.pending = g.pending.filter (fun p => decide (p.uuid ∉ addedIds a)) := by rw [hx1]
  have q1 : x1.requesting = g.requesting.filter (fun r => decide (r.uuid ∉ addedIds a)) := by rw [hx1]
  have r1 : x1.rules = some r := by rw [hx1]; exact hr
  replace e1 : (applyAddMembers u pw g a.addMembers g).1 = x1 := by rw [hx1]; exact e1
  rw [e1]
  clear e1 hx1 hA1 hA2
  -- removing
  have o2 : (applyDeleteMembers u x1 a.deleteMembers x1).2 = .ok :=
    applyDelete_goes b1 hs.delete.1 (fun i hi => by
      rw [m1]
      exact List.mem_append.2 (hs.delete.2 i hi))
  refine runSteps_goes o2 ?_
  obtain ⟨-, -, e2⟩ := applyDelete_does o2
  simp only [e2]
  clear e2 o2
  obtain ⟨x2, hx2⟩ : ∃ x, x = ({ x1 with
      members := x1.members.filter (fun m => decide (m.uuid ∉ a.deleteMembers)) } : Group) := ⟨_, rfl⟩
  rw [← hx2]
  have b2 : Boss u x2 := by
    obtain ⟨hk, hn, m, hm, hu, hr⟩ := b1
    rw [hx2]
    refine ⟨hk, hn.sublist (List.Sublist.map _ List.filter_sublist), m, List.mem_filter.2 ⟨hm, ?_⟩, hu, hr⟩
    exact decide_eq_true (hu ▸ hdel)
  have m2 : ∀ i, i ∈ x2.members.map (·.uuid) ↔
      (i ∈ g.members.map (·.uuid) ∨ i ∈ addedIds a) ∧ i ∉ a.deleteMembers := by
    intro i
    rw [hx2, ← List.mem_append, ← m1]
    simp only [List.mem_map, List.mem_filter, decide_eq_true_eq]
    constructor
    · rintro ⟨r, ⟨h1, h2⟩, rfl⟩; exact ⟨⟨r, h1, rfl⟩, h2⟩
    · rintro ⟨⟨r, h1, rfl⟩, h2⟩; exact ⟨r, ⟨h1, h2⟩, rfl⟩
  replace p1 : x2.pending = g.pending.filter (fun p => decide (p.uuid ∉ addedIds a)) := by rw [hx2]; exact p1
  replace q1 : x2.requesting = g.requesting.filter (fun r => decide (r.uuid ∉ addedIds a)) := by rw [hx2]; exact q1
  replace r1 : x2.rules = some r := by rw [hx2]; exact r1
  clear hx2 m1 b1
  -- roles
  have o3 : (applyRoles u x2 a.modifyRoles x2).2 = .ok :=
    applyRoles_goes b2 hs.roles.1 (fun x hx => by
      obtain ⟨h1, h2, h3, h4⟩ := hs.roles.2 x hx
      exact ⟨h1, h2, (m2 x.1).2 ⟨h4, h3⟩⟩)
  refine runSteps_goes o3 ?_
  obtain ⟨-, -, e3⟩ := applyRoles_does b2.2.1 o3
  clear o3
  obtain ⟨x3, hx3⟩ : ∃ x, x = ({ x2 with members := x2.members.map (withRole a) } : Group) := ⟨_, rfl⟩
  have role_uuid : (x2.members.map (withRole a)).map (·.uuid) = x2.members.map (·.uuid) := by
    rw [List.map_map]
    apply List.map_congr_left
    intro m _
    simp only [Function.comp, withRole]
    split <;> rfl
  have b3 : Boss u x3 := by
    obtain ⟨hk, hn, m, hm, hu, hr⟩ := b2
    rw [hx3]
    refine ⟨hk, by rw [role_uuid]; exact hn, withRole a m, List.mem_map.2 ⟨m, hm, rfl⟩, ?_⟩
    unfold withRole
    split
    · rename_i x hf
      have h6 := List.find?_some hf
      exact ⟨hu, hrole x (List.mem_of_find?_eq_some hf) ((of_decide_eq_true h6).trans hu)⟩
    · exact ⟨hu, hr⟩
  have m3 : x3.members.map (·.uuid) = x2.members.map (·.uuid) := by rw [hx3]; exact role_uuid
  have q3 : x3.requesting = g.requesting.filter (fun r => decide (r.uuid ∉ addedIds a)) := by rw [hx3]; exact q1
  have p3 : x3.pending = g.pending.filter (fun p => decide (p.uuid ∉ addedIds a)) := by rw [hx3]; exact p1
  have r3 : x3.rules = some r := by rw [hx3]; exact r1
  replace e3 : (applyRoles u x2 a.modifyRoles x2).1 = x3 := by rw [hx3]; exact e3
  rw [e3]
  clear e3 hx3 role_uuid p1 q1 r1
  -- profile keys, invitations
  refine runSteps_goes (by rw [hk]; rfl) ?_
  simp only [hk, applyProfileKeys, if_true]
  refine runSteps_goes (by rw [hi]; rfl) ?_
  simp only [hi, applyInvite, if_true]
  have o6 : (applyDeletePending u x3 a.deletePending x3).2 = .ok :=
    applyDeletePending_goes b3 hs.deletePending.1 (fun i hii => by
      rw [p3]
      rcases hs.deletePending.2 i hii with ⟨h1, h2⟩ | h1
      · obtain ⟨p, hpp, rfl⟩ := List.mem_map.1 h1
        exact List.mem_map.2 ⟨p, List.mem_filter.2 ⟨hpp, decide_eq_true h2⟩, rfl⟩
      · rw [hi] at h1
        simp at h1)
  refine runSteps_goes o6 ?_
  obtain ⟨-, -, e6⟩ := applyDeletePending_does o6
  simp only [e6]
  clear e6 o6 p3
  -- promotion of invited people
  refine runSteps_goes (by rw [hp]; rfl) ?_
  simp only [hp, applyPromotePending, if_true]
  generalize hx6 : ({ x3 with pending := x3.pending.filter (fun m => decide (m.uuid ∉ a.deletePending)) } : Group) = x6
  have b6 : Boss u x6 := b3.congr (congrArg Group.masterKey hx6).symm
    (congrArg Group.members hx6).symm
  have m6 : x6.members = x3.members := by rw [← hx6]
  have q6 : x6.requesting = x3.requesting := by rw [← hx6]
  have r6 : x6.rules = x3.rules := by rw [← hx6]
  rw [q3] at q6
  rw [r3] at r6
  clear hx6
  refine goes_texts hs hq b6 r6 hra (fun i hii h => ?_) q6
  rw [m6, m3] at h
  obtain ⟨h1, h2, h3, h4⟩ := hs.approve.2 i hii
  obtain ⟨h5 | h5, h6⟩ := (m2 i).1 h
  · exact h6 (h4 h5)
  · exact h3 h5

/-- **C124, for whole requests.** An accepted change made sense, and the group saved is the old one changed as
asked, at the revision asked for. `a'` is the change with the ids and keys the first checks read from the
presentations. -/
theorem C124_accepted {Z : Zk} {v : Validator} {av : Option Validator} {now : Nat} {u : User} {pw : Option Bytes}
    {a : Actions} {g : Group} (hone : OneEach g) (hok : (modifyWith Z v av now u pw a g).2.1 = .ok) :
    ∃ p a', pw = some p ∧ precheck Z v now u p a g = (.ok, a') ∧ Sound a' g ∧
      Carried Z u a' g { (modifyWith Z v av now u pw a g).1 with revision := g.revision } ∧
      (modifyWith Z v av now u pw a g).1.revision = a.revision ∧ (modifyWith Z v av now u pw a g).2.2 = true := by
  obtain ⟨p, a', rfl, hpre, hrun, hsrc⟩ := accepted_parts hok
  obtain ⟨hs, hc⟩ := C124_carried_out hone hrun
  obtain ⟨g', hg'⟩ : ∃ g', g' = (runSteps (steps Z av now u p a') g).1 := ⟨_, rfl⟩
  have hrev : a'.revision = a.revision := by
    rw [(precheck_fields hpre).2.2.2]
  have hm : modifyWith Z v av now u (some p) a g = finish Z v u a' g' := by
    unfold modifyWith
    simp only [hpre, hrun, hg']
  rw [hm] at hok ⊢
  rw [← hg'] at hc hsrc
  refine ⟨p, a', rfl, hpre, hs, ?_⟩
  unfold finish at hok ⊢
  rw [if_neg hsrc] at hok ⊢
  split at hok
  · simp at hok
  rename_i hsig
  rw [if_neg hsig]
  simp only [] at hok ⊢
  cases hv : validateFinal v { g' with revision := a'.revision } <;> rw [hv] at hok <;> simp only [reduceCtorEq] at hok
  refine ⟨?_, hrev, rfl⟩
  have : ({ g' with revision := g.revision } : Group) = g' := by
    rw [← hc.revision]
  simp only []
  rw [this]
  exact hc

/-- And conversely: an administrator's change of roles, texts, rules and lists that makes sense for the group is
accepted and saved, if the group it leads to is in order under the limits. -/
theorem C124_administrators_change {Z : Zk} {v : Validator} {av : Option Validator} {now : Nat} {u : User}
    {pw : Bytes} {a : Actions} {g : Group} {r : Rules} (hZ : Z.signs = true) (hu : u.cipher ≠ [])
    (hone : OneEach g) (hadm : Admin u g) (hs : Sound a g) (hr : g.rules = some r)
    (hra : r.attributes = 1 ∨ r.attributes = 2 ∨ r.attributes = 3)
    (ha : a.addMembers = []) (hdel : u.cipher ∉ a.deleteMembers)
    (hrole : ∀ x ∈ a.modifyRoles, x.1 = u.cipher → x.2 = 2)
    (hk : a.modifyProfileKeys = []) (hi : a.addPending = []) (hp : a.promotePending = [])
    (hq : a.addRequesting = []) :
    ∃ g', Carried Z u a g g' ∧ (Valid v { g' with revision := a.revision } →
      modifyWith Z v av now u (some pw) a g = ({ g' with revision := a.revision }, .ok, true)) := by
  have hgo : (runSteps (steps Z av now u pw a) g).2 = .ok :=
    C124_goes_through hone hadm hs hr hra (by simp [ha]) hdel hrole hk hi hp hq
  obtain ⟨-, hc⟩ := C124_carried_out hone hgo
  refine ⟨_, hc, fun hv => ?_⟩
  obtain ⟨g', hg'⟩ : ∃ g', g' = (runSteps (steps Z av now u pw a) g).1 := ⟨_, rfl⟩
  rw [← hg'] at hc hv ⊢
  have hpre : precheck Z v now u pw a g = (.ok, a) := by
    unfold precheck
    rw [ha, hi, hq]
    simp only [validateAdd, validateInvite, validateRequest, if_true]
    cases a
    simp_all
  have hm : modifyWith Z v av now u (some pw) a g = finish Z v u a g' := by
    unfold modifyWith
    simp only [hpre, hgo, hg']
  have hsrc : sourceUuid u g' ≠ [] := by
    obtain ⟨m, hm, hself, hrm⟩ := hadm
    obtain ⟨own, appr, hmem, hown, -, -⟩ := hc.members
    have hin : own (withRole a m) ∈ g'.members := by
      rw [hmem]
      refine List.mem_append.2 (Or.inl (List.mem_map.2 ⟨_, List.mem_map.2 ⟨m, List.mem_filter.2
        ⟨List.mem_append.2 (Or.inl hm), decide_eq_true ?_⟩, rfl⟩, rfl⟩))
      rw [← hself.2]
      exact hdel
    have hid : (own (withRole a m)).uuid = u.cipher := by
      rcases hown with ⟨_, rfl⟩ | ⟨p, k, h1, _⟩
      · simp only [id, withRole]
        split <;> exact hself.2.symm
      · rw [hk] at h1
        simp at h1
    have hkey : u.groupKey = g'.masterKey := hself.1.trans hc.key.symm
    unfold sourceUuid
    cases hf : sourceMember u g' with
    | none => exact absurd (is_iff.2 ⟨hkey, hid.symm⟩) (by simpa using List.find?_eq_none.1 hf _ hin)
    | some m' =>
      have h0 := List.find?_some hf
      have h3 := is_iff.1 h0
      simp only []
      rw [if_pos (by rw [← h3.2]; exact hu), ← h3.2]
      exact hu
  rw [hm]
  unfold finish
  rw [if_neg hsrc, hZ, if_neg (by simp)]
  simp only []
  rw [validateFinal_iff.2 hv]

/-- The claim is false: accepting an invitation has no effect on who is a member: whoever accepts is still on the list of invited
people afterwards, and a member only if they were one already or the same change adds or approves them. -/
theorem C125_accepting_changes_nothing {Z : Zk} {av : Option Validator} {now : Nat} {u : User} {pw : Bytes}
    {a : Actions} {g : Group} (hone : OneEach g) (hok : (runSteps (steps Z av now u pw a) g).2 = .ok)
    (hp : a.promotePending ≠ []) :
    u.cipher ∈ (runSteps (steps Z av now u pw a) g).1.pending.map (·.uuid) ∧
    (u.cipher ∈ (runSteps (steps Z av now u pw a) g).1.members.map (·.uuid) →
      u.cipher ∈ g.members.map (·.uuid) ∨ u.cipher ∈ addedIds a ∨ u.cipher ∈ a.promoteRequesting.map (·.1)) := by
  obtain ⟨-, hc⟩ := C124_carried_out hone hok
  obtain ⟨g', hg'⟩ : ∃ g', g' = (runSteps (steps Z av now u pw a) g).1 := ⟨_, rfl⟩
  rw [← hg'] at hc ⊢
  refine ⟨?_, fun h => ?_⟩
  · rcases hc.accepted with h | ⟨p, k, _, _, h⟩
    · exact absurd h hp
    · exact h
  · obtain ⟨own, appr, hmem, hown, happ, -⟩ := hc.members
    rw [hmem, List.map_append] at h
    rcases List.mem_append.1 h with h | h
    · obtain ⟨m, hm, hid⟩ := List.mem_map.1 h
      obtain ⟨m1, hm1, rfl⟩ := List.mem_map.1 hm
      obtain ⟨m2, hm2, rfl⟩ := List.mem_map.1 hm1
      have e1 : (own (withRole a m2)).uuid = m2.uuid := by
        have e2 : (withRole a m2).uuid = m2.uuid := by unfold withRole; split <;> rfl
        rcases hown with ⟨_, rfl⟩ | ⟨p, k, _, _, rfl⟩
        · exact e2
        · unfold withKey; split <;> exact e2
      rw [e1] at hid
      rcases List.mem_append.1 (List.mem_filter.1 hm2).1 with h1 | h1
      · exact Or.inl (List.mem_map.2 ⟨m2, h1, hid⟩)
      · obtain ⟨w, hw, rfl⟩ := List.mem_map.1 h1
        exact Or.inr (Or.inl (List.mem_map.2 ⟨w, hw, hid⟩))
    · refine Or.inr (Or.inr ?_)
      rw [← happ, List.map_map]
      exact h

/-- What holds of the claim: an acceptance goes through only for someone who is invited and whose profile key is
proved by a presentation of their own, checked against the group. Missing: it has no effect. -/
theorem C125_accepting_needs_proof_partial {Z : Zk} {av : Option Validator} {now : Nat} {u : User} {pw : Bytes}
    {a : Actions} {g : Group} (hone : OneEach g) (hok : (runSteps (steps Z av now u pw a) g).2 = .ok)
    (hp : a.promotePending ≠ []) (hi : a.addPending = []) :
    u.cipher ∈ g.pending.map (·.uuid) ∧ ∃ p k, a.promotePending = [p] ∧ Shows Z u g p k := by
  obtain ⟨-, hc⟩ := C124_carried_out hone hok
  rcases hc.accepted with h | ⟨p, k, h1, h2, h3⟩
  · exact absurd h hp
  refine ⟨?_, p, k, h1, h2⟩
  obtain ⟨new, h4, h5⟩ := hc.pending
  rw [hi] at h5
  simp only [List.filterMap_nil, List.map_nil, List.map_eq_nil_iff] at h5
  rw [h4, h5, List.append_nil] at h3
  obtain ⟨q, hq, he⟩ := List.mem_map.1 h3
  exact List.mem_map.2 ⟨q, (List.mem_filter.1 (List.mem_filter.1 hq).1).1, he⟩

theorem validateAdd_proved {Z : Zk} {v : Validator} {g : Group} : ∀ (as bs : List (Option WireMember)),
    validateAdd Z v g as = (.ok, bs) →
    List.Forall₂ (fun x y => ∃ w w', x = some w ∧ y = some w' ∧ MemberProved Z g w w') as bs
  | [], bs, h => by
    simp only [validateAdd, Prod.mk.injEq, true_and] at h
    subst h
    exact .nil
  | none :: _, bs, h => by simp [validateAdd] at h
  | some w :: ws, bs, h => by
    rw [validateAdd] at h
    split at h
    · simp at h
    cases hv : validateMember Z v g w with
    | mk e w' =>
      rw [hv] at h
      cases e <;> simp only [Prod.mk.injEq, reduceCtorEq, false_and] at h
      obtain ⟨h1, rfl⟩ := h
      refine .cons ⟨w, w', rfl, rfl, ?_⟩ (validateAdd_proved ws _ (Prod.ext h1 rfl))
      unfold validateMember at hv
      split at hv
      · simp at hv
      rename_i hrole
      cases hq : Z.parse w.presentation with
      | none => rw [hq] at hv; simp at hv
      | some q =>
        rw [hq] at hv
        simp only [] at hv
        split at hv
        · simp at hv
        split at hv
        · simp at hv
        rename_i hc
        cases hk : Z.keyOf q with
        | none => rw [hk] at hv; simp at hv
        | some k =>
          cases hi : Z.uuidOf q with
          | none => rw [hk, hi] at hv; simp at hv
          | some i =>
            rw [hk, hi] at hv
            simp only [] at hv
            cases ht : uuidText i with
            | none => rw [ht] at hv; simp at hv
            | some t =>
              rw [ht] at hv
              simp only [Prod.mk.injEq, true_and] at hv
              subst hv
              unfold uuidText at ht
              split at ht
              · rename_i hl
                exact ⟨hrole, rfl, q, i, hq, by simpa using hc, hi, hl, (Option.some.inj ht).symm, hk⟩
              · simp at ht

theorem validateInvite_signed {now : Nat} {u : User} {g : Group} {m : Member} (hm : m.uuid = u.cipher) :
    ∀ (as bs : List (Option WirePending)), validateInviteLoop now g m as = (.ok, bs) →
    List.Forall₂ (fun x y => ∃ w w', x = some w ∧ y = some w' ∧ InviteSigned u now w w') as bs
  | [], bs, h => by
    simp only [validateInviteLoop, Prod.mk.injEq, true_and] at h
    subst h
    exact .nil
  | none :: _, bs, h => by simp [validateInviteLoop] at h
  | some p :: ps, bs, h => by
    rw [validateInviteLoop] at h
    cases hv : validatePendingMember now g m p with
    | none => rw [hv] at h; simp at h
    | some p' =>
      rw [hv] at h
      simp only [Prod.mk.injEq] at h
      obtain ⟨h1, rfl⟩ := h
      refine .cons ⟨p, p', rfl, rfl, ?_⟩ (validateInvite_signed hm ps _ (Prod.ext h1 rfl))
      unfold validatePendingMember at hv
      cases hw : p.member with
      | none => rw [hw] at hv; simp at hv
      | some w =>
        rw [hw] at hv
        simp only [] at hv
        split at hv
        · simp at hv
        split at hv
        · simp at hv
        split at hv
        · simp at hv
        split at hv
        · simp at hv
        rename_i a1 a2 a3 a4
        obtain rfl := Option.some.inj hv
        exact ⟨w, _, hw, rfl, a1, a2, not_not.1 a3, not_not.1 a4, rfl, rfl, hm, rfl⟩

theorem validateRequest_proved {Z : Zk} {v : Validator} {now : Nat} {u : User} {g : Group} :
    ∀ (as bs : List (Option WireRequesting)), validateRequestLoop Z v now u g as = (.ok, bs) →
    List.Forall₂ (fun x y => ∃ w w', x = some w ∧ y = some w' ∧ RequestProved Z u g now w w') as bs
  | [], bs, h => by
    simp only [validateRequestLoop, Prod.mk.injEq, true_and] at h
    subst h
    exact .nil
  | none :: _, bs, h => by simp [validateRequestLoop] at h
  | some w :: ws, bs, h => by
    rw [validateRequestLoop] at h
    cases hv : validateRequester Z v now u g w with
    | mk e w' =>
      rw [hv] at h
      cases e <;> simp only [Prod.mk.injEq, reduceCtorEq, false_and] at h
      obtain ⟨h1, rfl⟩ := h
      refine .cons ⟨w, w', rfl, rfl, ?_⟩ (validateRequest_proved ws _ (Prod.ext h1 rfl))
      unfold validateRequester at hv
      split at hv
      · simp at hv
      split at hv
      · simp at hv
      split at hv
      · simp at hv
      split at hv
      · simp at hv
      rename_i a1 a2 a3 a4
      cases hq : Z.parse w.presentation with
      | none => rw [hq] at hv; simp at hv
      | some q =>
        rw [hq] at hv
        simp only [] at hv
        split at hv
        · simp at hv
        split at hv
        · simp at hv
        rename_i hc
        cases hi : Z.uuidOf q with
        | none => rw [hi] at hv; simp at hv
        | some i =>
          rw [hi] at hv
          simp only [] at hv
          split at hv
          · simp at hv
          rename_i hself
          cases hk : Z.keyOf q with
          | none => rw [hk] at hv; simp at hv
          | some k =>
            rw [hk] at hv
            simp only [Prod.mk.injEq, true_and] at hv
            subst hv
            have hs := is_iff.1 (by simpa using hself)
            exact ⟨not_not.1 a1, not_not.1 a2, hs.2.symm, rfl, a3, q, i, hq, hi, hs, hk, by simpa using hc⟩

/-- **C124, proofs.** A change gets past the first checks only if the ids and keys of the people it adds, and
of those who ask to join, are proved by presentations that were checked against the group, if requests are the
requester's own and come with the link password, and if invitations carry no key; these are the only things
the checks fill in. -/
theorem C124_proofs_checked {Z : Zk} {v : Validator} {now : Nat} {u : User} {pw : Bytes} {a a' : Actions}
    {g : Group} (h : precheck Z v now u pw a g = (.ok, a')) :
    List.Forall₂ (fun x y => ∃ w w', x = some w ∧ y = some w' ∧ MemberProved Z g w w')
      a.addMembers a'.addMembers ∧
    List.Forall₂ (fun x y => ∃ w w', x = some w ∧ y = some w' ∧ InviteSigned u now w w')
      a.addPending a'.addPending ∧
    List.Forall₂ (fun x y => ∃ w w', x = some w ∧ y = some w' ∧ RequestProved Z u g now w w')
      a.addRequesting a'.addRequesting ∧
    (a.addRequesting ≠ [] → pw = g.password) ∧
    a' = { a with addMembers := a'.addMembers, addPending := a'.addPending, addRequesting := a'.addRequesting } := by
  obtain ⟨h1, h2, h3, h4⟩ := precheck_fields h
  refine ⟨validateAdd_proved _ _ h1, ?_, ?_, ?_, h4⟩
  · unfold validateInvite at h2
    split at h2
    · rename_i h0
      simp only [Prod.mk.injEq, true_and] at h2
      rw [h0, ← h2]
      exact .nil
    · cases hf : sourceMember u g with
      | none => rw [hf] at h2; simp at h2
      | some m =>
        rw [hf] at h2
        have h0 := List.find?_some hf
        exact validateInvite_signed (is_iff.1 h0).2.symm _ _ h2
  · unfold validateRequest at h3
    split at h3
    · rename_i h0
      simp only [Prod.mk.injEq, true_and] at h3
      rw [h0, ← h3]
      exact .nil
    · split at h3
      · simp at h3
      · exact validateRequest_proved _ _ h3
  · intro hne
    unfold validateRequest at h3
    rw [if_neg hne] at h3
    split at h3
    · simp at h3
    · rename_i hp
      exact not_not.1 hp

open Ex in
example : (precheck zk lim 5 uAnn [5, 5]
    { addMembers := [some { presentation := Ex.danId, role := 1 }], addPending := [some { member := some ⟨[8], 1, [], [], 0⟩ }],
      addRequesting := [some { presentation := ann }] } grp).1 = .ok := by decide +kernel

/-- **C124, epochs.** The epoch a change is marked with is high enough for each of its parts, and no higher. -/
theorem C124_epoch (a : Actions) :
    (changeEpoch a ≤ 3) ∧ (changeEpoch a = 3 ↔ a.announcements ≠ none) ∧
    (2 ≤ changeEpoch a ↔ a.announcements ≠ none ∨ a.description ≠ none) ∧
    (1 ≤ changeEpoch a ↔ a.announcements ≠ none ∨ a.description ≠ none ∨ a.linkAccess ≠ none ∨
      a.addRequesting ≠ [] ∨ a.deleteRequesting ≠ [] ∨ a.promoteRequesting ≠ [] ∨ a.newPassword ≠ none) := by
  unfold changeEpoch
  simp only [ne_eq, ← Option.isSome_iff_ne_none]
  by_cases h1 : a.announcements.isSome <;> by_cases h2 : a.description.isSome <;>
    by_cases h3 : a.linkAccess.isSome ∨ ¬ a.addRequesting = [] ∨ ¬ a.deleteRequesting = [] ∨
      ¬ a.promoteRequesting = [] ∨ a.newPassword.isSome <;> simp [h1, h2, h3]

open Ex in
/-- A change of Ann's with several parts: Bob becomes administrator, Cat's
request is approved, the invitation is withdrawn, title and rules change. -/
def Ex.several : Actions :=
  { revision := 8, modifyRoles := [(bob, 2)], deletePending := [[7]], title := some [66],
    membersAccess := some 3, promoteRequesting := [(cat, 1)] }

open Ex in
example : Sound several grp ∧ OneEach grp ∧ Admin uAnn grp ∧
    (modifyWith zk lim none 0 uAnn (some []) several grp).2 = (.ok, true) ∧
    (modifyWith zk lim none 0 uAnn (some []) several grp).1.members.map (fun m => (m.uuid, m.role)) =
      [(ann, 2), (bob, 2), (cat, 1)] := by
  have h1 : OneEach grp := by unfold OneEach; decide +kernel
  refine ⟨(C124_carried_out (Z := zk) (av := none) (now := 0) (u := uAnn) (pw := []) h1 (by decide +kernel)).1, h1,
    ⟨⟨ann, 2, [1], 0⟩, by decide, ⟨rfl, rfl⟩, rfl⟩, by decide +kernel, by decide +kernel⟩

open Ex in
/-- With a validator that can check presentations: someone invited accepts, with a proof of their key, and
stays on the list of the invited. -/
example : (runSteps (steps zk (some lim) 0 ⟨[7], key⟩ [] { promotePending := [[7]] }) grp).2 = .ok ∧
    (runSteps (steps zk (some lim) 0 ⟨[7], key⟩ [] { promotePending := [[7]] }) grp).1.members = grp.members := by
  decide +kernel

end Verif.GroupsV2
