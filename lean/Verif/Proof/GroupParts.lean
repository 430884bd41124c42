import Verif.Spec.GroupsV2
import Verif.Proof.GroupsV2
/-!
# What each part of a group change does when it goes through
-/
namespace Verif.GroupsV2
open Verif

variable {Z : Zk} {av : Option Validator} {u : User} {g im : Group}

theorem filter_true {α : Type} {l : List α} {p : α → Bool} (h : ∀ x ∈ l, p x = true) : l.filter p = l :=
  List.filter_eq_self.2 h

theorem addLoop_does {b : Bool} {ids : List Bytes} : ∀ (ws : List WireMember) (g : Group),
    (addLoop b ids ws g).2 = .ok →
    (∀ w ∈ ws, w.userId ≠ [] ∧ w.profileKey ≠ [] ∧ w.role ≠ 0) ∧
    (addLoop b ids ws g).1 = { g with
      members := g.members ++ ws.map (fun w => ⟨w.userId, w.role, w.profileKey, (g.revision + 1) % u32⟩)
      pending := if ws = [] then g.pending else g.pending.filter (fun p => decide (p.uuid ∉ ids))
      requesting := if ws = [] then g.requesting else g.requesting.filter (fun r => decide (r.uuid ∉ ids)) }
  | [], g, _ => ⟨by simp, by simp [addLoop]⟩
  | w :: ws, g, h => by
    rw [addLoop] at h ⊢
    split at h
    · simp at h
    split at h
    · simp at h
    split at h
    · simp at h
    split at h
    · simp at h
    rename_i h1 h2 h3 h4
    rw [if_neg h1, if_neg h2, if_neg h3, if_neg h4]
    obtain ⟨k1, k2⟩ := addLoop_does ws _ h
    refine ⟨?_, ?_⟩
    · intro x hx
      rcases List.mem_cons.1 hx with rfl | hx
      · exact ⟨h2, h3, h4⟩
      · exact k1 x hx
    · rw [k2]
      by_cases hw : ws = []
      · subst hw; simp
      · simp [hw, List.filter_filter]

theorem applyAdd_does {pw : Bytes} {as : List (Option WireMember)}
    (h : (applyAddMembers u pw im as g).2 = .ok) :
    ((as.filterMap id).map (·.userId)).Nodup ∧
    (∀ w ∈ as.filterMap id, w.userId ≠ [] ∧ w.profileKey ≠ [] ∧ w.role ≠ 0 ∧ w.userId ∉ im.members.map (·.uuid)) ∧
    (applyAddMembers u pw im as g).1 = { g with
      members := g.members ++
        (as.filterMap id).map (fun w => ⟨w.userId, w.role, w.profileKey, (g.revision + 1) % u32⟩)
      pending := g.pending.filter (fun p => decide (p.uuid ∉ (as.filterMap id).map (·.userId)))
      requesting := g.requesting.filter (fun r => decide (r.uuid ∉ (as.filterMap id).map (·.userId))) } := by
  unfold applyAddMembers at h ⊢
  by_cases ha : as = []
  · subst ha
    refine ⟨by simp, by simp, ?_⟩
    simp
  rw [if_neg ha] at h ⊢
  simp only [] at h ⊢
  split at h
  · simp at h
  rename_i hl
  rw [if_neg hl]
  cases hm : mayAdd u pw im ((as.filterMap id).map (·.userId)) with
  | none => rw [hm] at h; simp at h
  | some b =>
    cases b
    · rw [hm] at h; simp at h
    · rw [hm] at h
      simp only [] at h ⊢
      split at h
      · simp at h
      rename_i hn
      split at h
      · simp at h
      rename_i hx
      rw [if_neg hn, if_neg hx]
      obtain ⟨k1, k2⟩ := addLoop_does _ _ h
      refine ⟨not_not.1 hn, fun w hw => ⟨(k1 w hw).1, (k1 w hw).2.1, (k1 w hw).2.2, fun hin => hx ?_⟩, ?_⟩
      · exact ⟨w.userId, List.mem_map.2 ⟨w, hw, rfl⟩, hin⟩
      · rw [k2]
        have hne : as.filterMap id ≠ [] := by
          intro h0
          rw [h0] at hl
          exact ha (List.length_eq_zero_iff.1 (not_not.1 hl).symm)
        simp only [if_neg hne]

theorem applyDelete_does {ids : List Bytes} (h : (applyDeleteMembers u im ids g).2 = .ok) :
    ids.Nodup ∧ (∀ i ∈ ids, i ∈ g.members.map (·.uuid)) ∧
    (applyDeleteMembers u im ids g).1 =
      { g with members := g.members.filter (fun m => decide (m.uuid ∉ ids)) } := by
  unfold applyDeleteMembers at h ⊢
  split at h
  · rename_i h0
    subst h0
    simp
  split at h
  · simp at h
  split at h
  · simp at h
  split at h
  · simp at h
  rename_i h1 h2 h3 h4
  rw [if_neg h1, if_neg h2, if_neg h3, if_neg h4]
  refine ⟨not_not.1 h3, fun i hi => ?_, rfl⟩
  by_contra hno
  exact h4 ⟨i, hi, hno⟩

theorem roleChecks_ok : ∀ (as : List (Bytes × Role)) (seen : List Bytes), roleChecks g seen as = .ok →
    (as.map (·.1)).Nodup ∧
    ∀ x ∈ as, x.1 ≠ [] ∧ x.2 ≠ 0 ∧ x.1 ∉ seen ∧ x.1 ∈ g.members.map (·.uuid)
  | [], _, _ => by simp
  | (i, r) :: rest, seen, h => by
    rw [roleChecks] at h
    split at h
    · simp at h
    split at h
    · simp at h
    split at h
    · simp at h
    split at h
    · simp at h
    rename_i h1 h2 h3 h4
    obtain ⟨k1, k2⟩ := roleChecks_ok rest _ h
    refine ⟨?_, ?_⟩
    · rw [List.map_cons, List.nodup_cons]
      refine ⟨fun hin => ?_, k1⟩
      obtain ⟨x, hx, he⟩ := List.mem_map.1 hin
      exact (k2 x hx).2.2.1 (he ▸ List.mem_cons_self ..)
    · intro x hx
      rcases List.mem_cons.1 hx with rfl | hx
      · exact ⟨h1, h2, h3, not_not.1 h4⟩
      · obtain ⟨a1, a2, a3, a4⟩ := k2 x hx
        exact ⟨a1, a2, fun hs => a3 (List.mem_cons_of_mem _ hs), a4⟩

theorem setRole_map (i : Bytes) (r : Role) : ∀ ms : List Member, (ms.map (·.uuid)).Nodup →
    setRole i r ms = ms.map (fun m => if m.uuid = i then { m with role := r } else m)
  | [], _ => rfl
  | m :: ms, h => by
    rw [List.map_cons, List.nodup_cons] at h
    rw [setRole, List.map_cons]
    split
    · rename_i hi
      have hne : m.uuid ≠ i := fun he => h.1 (he ▸ hi)
      rw [if_neg hne, setRole_map i r ms h.2]
    · rename_i hi
      have hid : ms.map (fun m => if m.uuid = i then { m with role := r } else m) = ms := by
        conv_rhs => rw [← List.map_id ms]
        apply List.map_congr_left
        intro x hx
        have : x.uuid ≠ i := fun he => hi (List.mem_map.2 ⟨x, hx, he⟩)
        simp [this]
      rw [hid]
      split <;> rfl

theorem setRoles_map : ∀ (as : List (Bytes × Role)) (ms : List Member), (ms.map (·.uuid)).Nodup →
    (as.map (·.1)).Nodup →
    as.foldl (fun ms a => setRole a.1 a.2 ms) ms = ms.map (fun m =>
      match as.find? (fun x => decide (x.1 = m.uuid)) with
      | some x => { m with role := x.2 }
      | none => m)
  | [], ms, _, _ => by simp
  | (i, r) :: as, ms, h, hn => by
    rw [List.map_cons, List.nodup_cons] at hn
    rw [List.foldl_cons, setRoles_map as _ (by rw [setRole_uuid]; exact h) hn.2, setRole_map i r ms h,
      List.map_map]
    apply List.map_congr_left
    intro m _
    simp only [Function.comp, List.find?_cons]
    by_cases hm : m.uuid = i
    · have hno : as.find? (fun x => decide (x.1 = i)) = none := by
        rw [List.find?_eq_none]
        intro x hx he
        exact hn.1 (List.mem_map.2 ⟨x, hx, of_decide_eq_true he⟩)
      simp [hm, hno]
    · have hm' : ¬ i = m.uuid := fun he => hm he.symm
      simp [hm, hm']

theorem applyRoles_does {as : List (Bytes × Role)} (hn : (g.members.map (·.uuid)).Nodup)
    (h : (applyRoles u im as g).2 = .ok) :
    (as.map (·.1)).Nodup ∧ (∀ x ∈ as, x.1 ≠ [] ∧ x.2 ≠ 0 ∧ x.1 ∈ g.members.map (·.uuid)) ∧
    (applyRoles u im as g).1 = { g with members := g.members.map (fun m =>
      match as.find? (fun x => decide (x.1 = m.uuid)) with
      | some x => { m with role := x.2 }
      | none => m) } := by
  unfold applyRoles at h ⊢
  by_cases ha : as = []
  · subst ha; simp
  rw [if_neg ha] at h ⊢
  split at h
  · simp at h
  rename_i hadm
  rw [if_neg hadm]
  cases hr : roleChecks g [] as <;> rw [hr] at h <;> simp only [reduceCtorEq] at h
  obtain ⟨k1, k2⟩ := roleChecks_ok as [] hr
  refine ⟨k1, fun x hx => ⟨(k2 x hx).1, (k2 x hx).2.1, (k2 x hx).2.2.2⟩, ?_⟩
  simp only []
  rw [setRoles_map as _ hn k1]

theorem validatePresentation_ok {p i k : Bytes} (h : validatePresentation Z av u im p = (.ok, i, k)) :
    i = u.cipher ∧ Shows Z u im p k := by
  unfold validatePresentation at h
  split at h
  · simp at h
  rename_i hp
  cases hq : Z.parse p with
  | none => rw [hq] at h; simp at h
  | some q =>
    rw [hq] at h; simp only [] at h
    cases hi : Z.uuidOf q with
    | none => rw [hi] at h; simp at h
    | some i' =>
      rw [hi] at h; simp only [] at h
      cases hk : Z.keyOf q with
      | none => rw [hk] at h; simp at h
      | some k' =>
        rw [hk] at h; simp only [] at h
        split at h
        · simp at h
        rename_i hself
        cases av with
        | none => simp at h
        | some v =>
          simp only [] at h
          split at h
          · simp at h
          split at h
          · rename_i hc
            simp only [Prod.mk.injEq, true_and] at h
            obtain ⟨rfl, rfl⟩ := h
            have hs := is_iff.1 (by simpa using hself)
            exact ⟨hs.2.symm, hp, q, _, hq, hi, hs, hk, hc⟩
          · simp at h

theorem presentations_ok : ∀ (ps : List Bytes) (l : List (Bytes × Bytes)),
    presentations Z av u im ps = (.ok, l) → (l.map (·.1)).Nodup →
    (ps = [] ∧ l = []) ∨ ∃ p k, ps = [p] ∧ l = [(u.cipher, k)] ∧ Shows Z u im p k
  | [], l, h, _ => by
    simp only [presentations, Prod.mk.injEq, true_and] at h
    exact Or.inl ⟨rfl, h.symm⟩
  | p :: ps, l, h, hn => by
    rw [presentations] at h
    cases hv : validatePresentation Z av u im p with
    | mk e ik =>
    obtain ⟨i, k⟩ := ik
    rw [hv] at h
    cases e <;> simp only [Prod.mk.injEq, reduceCtorEq, false_and] at h
    obtain ⟨h1, h2⟩ := h
    subst h2
    obtain ⟨rfl, hs⟩ := validatePresentation_ok hv
    rw [List.map_cons, List.nodup_cons] at hn
    obtain ⟨l', hl'⟩ : ∃ l', l' = (presentations Z av u im ps).snd := ⟨_, rfl⟩
    rw [← hl'] at hn ⊢
    rcases presentations_ok ps l' (Prod.ext h1 hl'.symm) hn.2 with ⟨rfl, h3⟩ | ⟨p', k', rfl, h3, _⟩
    · exact Or.inr ⟨p, k, rfl, by rw [h3], hs⟩
    · rw [h3] at hn
      exact absurd (by simp) hn.1

theorem applyKeys_does {ps : List Bytes} (h : (applyProfileKeys Z av u im ps g).2 = .ok) :
    ∃ own, ((ps = [] ∧ own = id) ∨ ∃ p k, ps = [p] ∧ Shows Z u im p k ∧ own = withKey u.cipher k) ∧
      (applyProfileKeys Z av u im ps g).1 = { g with members := g.members.map own } := by
  unfold applyProfileKeys at h ⊢
  by_cases ha : ps = []
  · exact ⟨id, Or.inl ⟨ha, rfl⟩, by simp [ha]⟩
  rw [if_neg ha] at h ⊢
  cases hp : presentations Z av u im ps with
  | mk e l =>
    rw [hp] at h
    cases e <;> simp only [reduceCtorEq] at h
    simp only []
    split at h
    · simp at h
    rename_i hn
    rw [if_neg hn]
    rcases presentations_ok ps l hp (not_not.1 hn) with ⟨h0, _⟩ | ⟨p, k, h1, h2, h3⟩
    · exact absurd h0 ha
    · refine ⟨withKey u.cipher k, Or.inr ⟨p, k, h1, h3, rfl⟩, ?_⟩
      subst h2
      congr 1
      apply congrArg (fun ms => ({ g with members := ms } : Group))
      apply List.map_congr_left
      intro m _
      unfold withKey
      by_cases hm : m.uuid = u.cipher
      · simp [hm]
      · have : ¬ u.cipher = m.uuid := fun he => hm he.symm
        simp [hm, this]

theorem inviteChecks_ok {b : Bool} : ∀ (as : List (Option WirePending)) (seen : List Bytes),
    inviteChecks b seen as = .ok →
    ((invited as).map (·.userId)).Nodup ∧
    (∀ x ∈ as, ∃ p w, x = some p ∧ p.member = some w ∧ w.userId ≠ [] ∧ w.role ≠ 0 ∧ w.userId ∉ seen ∧
      w ∈ invited as) ∧
    ∀ w ∈ invited as, w.userId ∉ seen
  | [], _, _ => by simp [invited]
  | none :: rest, seen, h => by simp [inviteChecks] at h
  | some p :: rest, seen, h => by
    rw [inviteChecks] at h
    cases hm : p.member with
    | none => rw [hm] at h; simp at h
    | some w =>
      rw [hm] at h
      simp only [] at h
      split at h
      · simp at h
      split at h
      · simp at h
      split at h
      · simp at h
      split at h
      · simp at h
      split at h
      · simp at h
      split at h
      · simp at h
      rename_i h1 h2 h3 h4 h5 h6
      obtain ⟨k1, k2, k3⟩ := inviteChecks_ok rest _ h
      have hinv : invited (some p :: rest) = w :: invited rest := by
        unfold invited
        simp [hm]
      rw [hinv]
      refine ⟨?_, ?_, ?_⟩
      · rw [List.map_cons, List.nodup_cons]
        refine ⟨fun hin => ?_, k1⟩
        obtain ⟨x, hx, he⟩ := List.mem_map.1 hin
        exact k3 x hx (he ▸ List.mem_cons_self ..)
      · intro x hx
        rcases List.mem_cons.1 hx with rfl | hx
        · exact ⟨p, w, rfl, hm, h1, h4, h6, List.mem_cons_self ..⟩
        · obtain ⟨p', w', a1, a2, a3, a4, a5, a6⟩ := k2 x hx
          exact ⟨p', w', a1, a2, a3, a4, fun hs => a5 (List.mem_cons_of_mem _ hs), List.mem_cons_of_mem _ a6⟩
      · intro x hx
        rcases List.mem_cons.1 hx with rfl | hx
        · exact h6
        · exact fun hs => k3 x hx (List.mem_cons_of_mem _ hs)

theorem applyInvite_does {now : Nat} {as : List (Option WirePending)} (h : (applyInvite now u im as g).2 = .ok) :
    ((invited as).map (·.userId)).Nodup ∧
    (∀ x ∈ as, ∃ p w, x = some p ∧ p.member = some w ∧ w.userId ≠ [] ∧ w.role ≠ 0 ∧
      w.userId ∉ g.members.map (·.uuid) ∧ w.userId ∉ g.pending.map (·.uuid)) ∧
    ∃ new : List Pending, new.map (fun p => (p.uuid, p.role)) = (invited as).map (fun w => (w.userId, w.role)) ∧
      (applyInvite now u im as g).1 = { g with pending := g.pending ++ new } := by
  unfold applyInvite at h ⊢
  by_cases ha : as = []
  · subst ha
    refine ⟨by simp [invited], by simp, [], by simp [invited], by simp⟩
  rw [if_neg ha] at h ⊢
  cases hm : mayInvite u im with
  | none => rw [hm] at h; simp at h
  | some b =>
    rw [hm] at h
    cases b <;> simp only [reduceCtorEq] at h
    simp only []
    cases hc : inviteChecks (isAdmin u im) [] as <;> rw [hc] at h <;> simp only [reduceCtorEq] at h
    simp only []
    split at h
    · simp at h
    rename_i hx
    rw [if_neg hx]
    cases hs : sourceMember u g with
    | none => rw [hs] at h; simp at h
    | some m =>
      obtain ⟨k1, k2, _⟩ := inviteChecks_ok as [] hc
      refine ⟨k1, ?_, _, ?_, rfl⟩
      · intro x hxx
        obtain ⟨p, w, a1, a2, a3, a4, _, a6⟩ := k2 x hxx
        exact ⟨p, w, a1, a2, a3, a4, fun hh => hx ⟨w, a6, Or.inl hh⟩, fun hh => hx ⟨w, a6, Or.inr hh⟩⟩
      · simp [List.map_map, Function.comp]

theorem applyDeletePending_does {ids : List Bytes} (h : (applyDeletePending u im ids g).2 = .ok) :
    ids.Nodup ∧ (∀ i ∈ ids, i ∈ g.pending.map (·.uuid)) ∧
    (applyDeletePending u im ids g).1 =
      { g with pending := g.pending.filter (fun m => decide (m.uuid ∉ ids)) } := by
  unfold applyDeletePending at h ⊢
  split at h
  · rename_i h0
    subst h0
    simp
  split at h
  · simp at h
  split at h
  · simp at h
  split at h
  · simp at h
  rename_i h1 h2 h3 h4
  rw [if_neg h1, if_neg h2, if_neg h3, if_neg h4]
  refine ⟨not_not.1 h3, fun i hi => ?_, rfl⟩
  by_contra hno
  exact h4 ⟨i, hi, hno⟩

theorem applyDeleteRequesting_does {ids : List Bytes} (h : (applyDeleteRequesting u im ids g).2 = .ok) :
    ids.Nodup ∧ (∀ i ∈ ids, i ∈ g.requesting.map (·.uuid)) ∧
    (applyDeleteRequesting u im ids g).1 =
      { g with requesting := g.requesting.filter (fun m => decide (m.uuid ∉ ids)) } := by
  unfold applyDeleteRequesting at h ⊢
  split at h
  · rename_i h0
    subst h0
    simp
  split at h
  · simp at h
  split at h
  · simp at h
  split at h
  · simp at h
  rename_i h1 h2 h3 h4
  rw [if_neg h1, if_neg h2, if_neg h3, if_neg h4]
  refine ⟨not_not.1 h3, fun i hi => ?_, rfl⟩
  by_contra hno
  exact h4 ⟨i, hi, hno⟩

theorem applyPromote_does {ps : List Bytes} (h : (applyPromotePending Z av u im ps g).2 = .ok) :
    (ps = [] ∨ ∃ p k, ps = [p] ∧ Shows Z u im p k ∧ u.cipher ∈ g.pending.map (·.uuid)) ∧
      ∃ ctx, (applyPromotePending Z av u im ps g).1 = { g with ctxPending := ctx } := by
  unfold applyPromotePending at h ⊢
  by_cases ha : ps = []
  · exact ⟨Or.inl ha, g.ctxPending, by simp [ha]⟩
  rw [if_neg ha] at h ⊢
  cases hp : presentations Z av u im ps with
  | mk e l =>
    rw [hp] at h
    cases e <;> simp only [reduceCtorEq] at h
    simp only []
    split at h
    · simp at h
    split at h
    · simp at h
    rename_i hn hx
    rw [if_neg hn, if_neg hx]
    rcases presentations_ok ps l hp (not_not.1 hn) with ⟨h0, _⟩ | ⟨p, k, h1, h2, h3⟩
    · exact absurd h0 ha
    · refine ⟨Or.inr ⟨p, k, h1, h3, ?_⟩, _, rfl⟩
      by_contra hno
      exact hx ⟨u.cipher, by rw [h2]; simp, hno⟩

theorem ifAttributes_does {f : Group} (h : (ifAttributes u im g f).2 = .ok) : (ifAttributes u im g f).1 = f := by
  unfold ifAttributes at h ⊢
  cases hm : mayAttributes u im with
  | none => rw [hm] at h; simp at h
  | some b => rw [hm] at h; cases b <;> simp at h ⊢

theorem applyTitle_does {a : Option Bytes} (h : (applyTitle u im a g).2 = .ok) :
    a ≠ some [] ∧ (applyTitle u im a g).1 = { g with title := a.getD g.title } := by
  cases a with
  | none => exact ⟨by simp, rfl⟩
  | some t =>
    simp only [applyTitle] at h ⊢
    split at h
    · simp at h
    rename_i ht
    rw [if_neg ht, ifAttributes_does h]
    exact ⟨by simpa using ht, rfl⟩

theorem applyAvatar_does {a : Option Bytes} (h : (applyAvatar u im a g).2 = .ok) :
    (applyAvatar u im a g).1 = { g with avatar := a.getD g.avatar } := by
  cases a with
  | none => rfl
  | some t => simp only [applyAvatar] at h ⊢; rw [ifAttributes_does h]; rfl

theorem applyTimer_does {a : Option Bytes} (h : (applyTimer u im a g).2 = .ok) : (applyTimer u im a g).1 = g := by
  cases a with
  | none => rfl
  | some t => simp only [applyTimer] at h ⊢; rw [ifAttributes_does h]

theorem applyDescription_does {a : Option Bytes} (h : (applyDescription u im a g).2 = .ok) :
    (applyDescription u im a g).1 = { g with description := a.getD g.description } := by
  cases a with
  | none => rfl
  | some t => simp only [applyDescription] at h ⊢; rw [ifAttributes_does h]; rfl

theorem applyPassword_does {a : Option Bytes} (h : (applyPassword u im a g).2 = .ok) :
    (applyPassword u im a g).1 = { g with password := a.getD g.password } := by
  cases a with
  | none => rfl
  | some t =>
    simp only [applyPassword] at h ⊢
    split at h
    · simp at h
    · rename_i hx; rw [if_neg hx]; rfl

theorem applyAnnouncements_does {a : Option Bool} (h : (applyAnnouncements u im a g).2 = .ok) :
    (applyAnnouncements u im a g).1 = { g with announcementsOnly := a.getD g.announcementsOnly } := by
  cases a with
  | none => rfl
  | some t =>
    simp only [applyAnnouncements] at h ⊢
    split at h
    · simp at h
    · rename_i hx; rw [if_neg hx]; rfl

theorem setRules_does {f : Rules → Rules} (h : (setRules g f).2 = .ok) :
    (setRules g f).1 = { g with rules := g.rules.map f } := by
  unfold setRules at h ⊢
  cases hr : g.rules with
  | none => rw [hr] at h; simp at h
  | some r => rfl

theorem rules_same : ({ g with rules := g.rules.map (fun r => r) } : Group) = g := by
  cases g; simp

theorem applyAttributesAccess_does {a : Option Access} (h : (applyAttributesAccess u im a g).2 = .ok) :
    (∀ x ∈ a, x = 2 ∨ x = 3) ∧ (applyAttributesAccess u im a g).1 =
      { g with rules := g.rules.map (fun r => { r with attributes := a.getD r.attributes }) } := by
  cases a with
  | none => exact ⟨by simp, rules_same.symm⟩
  | some t =>
    simp only [applyAttributesAccess] at h ⊢
    split at h
    · simp at h
    split at h
    · simp at h
    rename_i h1 h2
    rw [if_neg h1, if_neg h2, setRules_does h]
    refine ⟨fun x hx => ?_, rfl⟩
    obtain rfl : t = x := Option.some.inj hx
    by_contra hno
    exact h1 ⟨fun h => hno (Or.inr h), fun h => hno (Or.inl h)⟩

theorem applyMembersAccess_does {a : Option Access} (h : (applyMembersAccess u im a g).2 = .ok) :
    (∀ x ∈ a, x = 2 ∨ x = 3) ∧ (applyMembersAccess u im a g).1 =
      { g with rules := g.rules.map (fun r => { r with members := a.getD r.members }) } := by
  cases a with
  | none => exact ⟨by simp, rules_same.symm⟩
  | some t =>
    simp only [applyMembersAccess] at h ⊢
    split at h
    · simp at h
    split at h
    · simp at h
    rename_i h1 h2
    rw [if_neg h1, if_neg h2, setRules_does h]
    refine ⟨fun x hx => ?_, rfl⟩
    obtain rfl : t = x := Option.some.inj hx
    by_contra hno
    exact h1 ⟨fun h => hno (Or.inr h), fun h => hno (Or.inl h)⟩

theorem applyLinkAccess_does {a : Option Access} (h : (applyLinkAccess u im a g).2 = .ok) :
    (∀ x ∈ a, x = 1 ∨ x = 3 ∨ x = 4) ∧ (applyLinkAccess u im a g).1 =
      { g with rules := g.rules.map (fun r => { r with link := a.getD r.link }) } := by
  cases a with
  | none => exact ⟨by simp, rules_same.symm⟩
  | some t =>
    simp only [applyLinkAccess] at h ⊢
    split at h
    · simp at h
    split at h
    · simp at h
    rename_i h1 h2
    rw [if_neg h1, if_neg h2, setRules_does h]
    refine ⟨fun x hx => ?_, rfl⟩
    obtain rfl : t = x := Option.some.inj hx
    by_contra hno
    exact h2 ⟨fun h => hno (Or.inr (Or.inl h)), fun h => hno (Or.inr (Or.inr h)), fun h => hno (Or.inl h)⟩

theorem applyRequest_does {pw : Bytes} {as : List (Option WireRequesting)}
    (h : (applyRequest u pw im as g).2 = .ok) :
    (as = [] ∨ ∃ w, as = [some w] ∧ Self u g w.userId) ∧
    (applyRequest u pw im as g).1 = { g with ctxRequesting := g.ctxRequesting ++ as.filterMap id } := by
  unfold applyRequest at h ⊢
  by_cases ha : as = []
  · subst ha
    exact ⟨Or.inl rfl, by simp⟩
  rw [if_neg ha] at h ⊢
  cases hm : mayRequest pw im with
  | none => rw [hm] at h; simp at h
  | some b =>
    rw [hm] at h
    cases b <;> simp only [reduceCtorEq] at h
    simp only []
    split at h
    · simp at h
    split at h
    · simp at h
    split at h
    · simp at h
    rename_i h1 h2 h3
    rw [if_neg h1, if_neg h2, if_neg h3]
    match as, ha, h, h1 with
    | [some w], _, h, h1 =>
      simp only [List.filterMap_cons, id, List.filterMap_nil] at h ⊢
      split at h
      · rename_i hs
        rw [if_pos hs]
        exact ⟨Or.inr ⟨w, rfl, is_iff.1 hs⟩, rfl⟩
      · simp at h
    | [none], _, h, h1 => simp at h1
    | none :: b :: r, _, h, h1 =>
      have := List.length_filterMap_le (id : Option WireRequesting → _) (b :: r)
      simp only [List.filterMap_cons, id, List.length_cons, ne_eq, not_not] at h1 this
      omega
    | some a :: none :: r, _, h, h1 =>
      have := List.length_filterMap_le (id : Option WireRequesting → _) r
      simp only [List.filterMap_cons, id, List.length_cons, ne_eq, not_not] at h1 this
      omega
    | some a :: some b :: r, _, h, h1 =>
      simp at h

theorem approveLoop_does {mem : List Bytes} : ∀ (as : List (Bytes × Role)) (seen : List Bytes) (g : Group),
    (approveLoop mem seen as g).2 = .ok →
    ∃ new : List Member, new.map (fun m => (m.uuid, m.role)) = as ∧
      (∀ m ∈ new, ⟨m.uuid, m.profileKey⟩ ∈ g.requesting ∧ m.joinedAt = (g.revision + 1) % u32) ∧
      (approveLoop mem seen as g).1 = { g with members := g.members ++ new }
  | [], _, g, _ => ⟨[], rfl, by simp, by simp [approveLoop]⟩
  | (i, r) :: rest, seen, g, hok => by
    rw [approveLoop] at hok ⊢
    split at hok
    · simp at hok
    split at hok
    · simp at hok
    rename_i hs hm
    rw [if_neg hs, if_neg hm]
    cases hk : requestKey g.requesting i with
    | none => rw [hk] at hok; simp at hok
    | some k =>
      rw [hk] at hok
      simp only [] at hok ⊢
      obtain ⟨new, h1, h2, h3⟩ := approveLoop_does rest (i :: seen) _ hok
      refine ⟨⟨i, r, k, (g.revision + 1) % u32⟩ :: new, by simp [h1], ?_, ?_⟩
      · intro m hm
        rcases List.mem_cons.1 hm with rfl | hm
        · refine ⟨?_, rfl⟩
          unfold requestKey at hk
          cases hf : g.requesting.reverse.find? (fun r => decide (r.uuid = i)) with
          | none => rw [hf] at hk; simp at hk
          | some q =>
            rw [hf] at hk
            have h5 := List.mem_of_find?_eq_some hf
            have h6' := List.find?_some hf
            have h6 : q.uuid = i := of_decide_eq_true h6'
            have h7 : q.profileKey = k := by simpa using hk
            have : (⟨i, k⟩ : Requesting) = q := by cases q; simp_all
            rw [this]
            exact List.mem_reverse.1 h5
        · exact h2 m hm
      · rw [h3]; simp

theorem applyApprove_does {as : List (Bytes × Role)} (h : (applyApprove u im as g).2 = .ok) :
    (as.map (·.1)).Nodup ∧
    (∀ i ∈ as.map (·.1), i ∉ g.members.map (·.uuid) ∧ i ∈ g.requesting.map (·.uuid)) ∧
    ∃ new : List Member, new.map (fun m => (m.uuid, m.role)) = as ∧
      (∀ m ∈ new, ⟨m.uuid, m.profileKey⟩ ∈ g.requesting ∧ m.joinedAt = (g.revision + 1) % u32) ∧
      (applyApprove u im as g).1 = { g with
        members := g.members ++ new
        requesting := g.requesting.filter (fun q => decide (q.uuid ∉ as.map (·.1))) } := by
  unfold applyApprove at h ⊢
  by_cases ha : as = []
  · subst ha
    exact ⟨by simp, by simp, [], rfl, by simp, by simp⟩
  rw [if_neg ha] at h ⊢
  split at h
  · simp at h
  rename_i hadm
  rw [if_neg hadm]
  simp only [] at h ⊢
  cases hr : (approveLoop (g.members.map (·.uuid)) [] as g).2 <;> rw [hr] at h <;>
    simp only [hr, reduceCtorEq] at h
  obtain ⟨a1, a2, _⟩ := approveLoop_ok as [] g hr
  obtain ⟨new, b1, b2, b3⟩ := approveLoop_does as [] g hr
  refine ⟨a1, fun i hi => ⟨(a2 i hi).2.1, (a2 i hi).2.2⟩, new, b1, b2, ?_⟩
  rw [b3]

theorem runSteps_ok_cons {s : Step} {ss : List Step} (h : (runSteps (s :: ss) g).2 = .ok) :
    (s g g).2 = .ok ∧ (runSteps ss (s g g).1).2 = .ok ∧ (runSteps (s :: ss) g).1 = (runSteps ss (s g g).1).1 := by
  rw [runSteps] at h ⊢
  cases hs : (s g g).2 <;> rw [hs] at h <;> simp only [hs, reduceCtorEq] at h
  exact ⟨rfl, h, rfl⟩

/-! ## Changes of an administrator that go through -/

/-- The requester is an administrator of a group that lists nobody twice as a member. -/
def Boss (u : User) (g : Group) : Prop :=
  u.groupKey = g.masterKey ∧ (g.members.map (·.uuid)).Nodup ∧ ∃ m ∈ g.members, m.uuid = u.cipher ∧ m.role = 2

theorem Boss.source (h : Boss u g) : ∃ m, sourceMember u g = some m ∧ m.role = 2 := by
  obtain ⟨hk, hn, m, hm, hu, hr⟩ := h
  cases hf : sourceMember u g with
  | none => exact absurd (is_iff.2 ⟨hk, hu.symm⟩) (by simpa using List.find?_eq_none.1 hf m hm)
  | some m' =>
    have h2 := List.mem_of_find?_eq_some hf
    have h0 := List.find?_some hf
    have h3 := is_iff.1 h0
    have he : m' = m := List.inj_on_of_nodup_map hn h2 hm (h3.2.symm.trans hu.symm)
    exact ⟨m', rfl, he ▸ hr⟩

theorem Boss.admin (h : Boss u g) : isAdmin u g = true := by
  obtain ⟨m, hm, hr⟩ := h.source
  unfold isAdmin
  rw [hm]
  exact decide_eq_true hr

theorem Boss.congr {g' : Group} (h : Boss u g) (hk : g'.masterKey = g.masterKey) (hm : g'.members = g.members) :
    Boss u g' := by
  obtain ⟨h1, h2, h3⟩ := h
  exact ⟨h1.trans hk.symm, hm ▸ h2, hm ▸ h3⟩

theorem runSteps_goes {s : Step} {ss : List Step} (h : (s g g).2 = .ok) (h' : (runSteps ss (s g g).1).2 = .ok) :
    (runSteps (s :: ss) g).2 = .ok := by
  rw [runSteps]
  simp only [h]
  exact h'

theorem addLoop_goes {ids : List Bytes} : ∀ (ws : List WireMember) (g : Group),
    (∀ w ∈ ws, w.userId ≠ [] ∧ w.profileKey ≠ [] ∧ w.role ≠ 0) → (addLoop true ids ws g).2 = .ok
  | [], g, _ => rfl
  | w :: ws, g, h => by
    obtain ⟨h1, h2, h3⟩ := h w (List.mem_cons_self ..)
    have h3' : ¬ w.role = roleUnknown := h3
    rw [addLoop, if_neg (by simp), if_neg h1, if_neg h2, if_neg h3']
    exact addLoop_goes ws _ (fun x hx => h x (List.mem_cons_of_mem _ hx))

theorem applyAdd_goes {pw : Bytes} {as : List (Option WireMember)} (hb : Boss u g)
    (hall : ∀ x ∈ as, x ≠ none) (hn : ((as.filterMap id).map (·.userId)).Nodup)
    (hw : ∀ w ∈ as.filterMap id, w.userId ≠ [] ∧ w.profileKey ≠ [] ∧ w.role ≠ 0)
    (hd : ∀ w ∈ as.filterMap id, w.userId ∉ g.members.map (·.uuid)) :
    (applyAddMembers u pw g as g).2 = .ok := by
  unfold applyAddMembers
  split
  · rfl
  have hl : ¬ (as.filterMap id).length ≠ as.length := by
    have : ∀ as : List (Option WireMember), (∀ x ∈ as, x ≠ none) → (as.filterMap id).length = as.length := by
      intro as
      induction as with
      | nil => simp
      | cons x xs ih =>
        intro h
        cases x with
        | none => exact absurd rfl (h none (List.mem_cons_self ..))
        | some w => simpa using ih (fun x hx => h x (List.mem_cons_of_mem _ hx))
    exact fun h => h (this as hall)
  simp only []
  rw [if_neg hl]
  have hm : mayAdd u pw g ((as.filterMap id).map (·.userId)) = some true := by
    obtain ⟨m, hm, hr⟩ := hb.source
    unfold mayAdd
    rw [hm]
    exact if_pos hr
  rw [hm]
  simp only []
  rw [if_neg (not_not.2 hn), if_neg, hb.admin]
  · exact addLoop_goes _ _ hw
  · rintro ⟨i, hi, hin⟩
    obtain ⟨w, hww, rfl⟩ := List.mem_map.1 hi
    exact hd w hww hin

theorem mayDelete_boss {ids : List Bytes} (hb : Boss u g) : ¬ mayDelete u g ids = false := by
  unfold mayDelete
  rw [hb.admin]
  simp

theorem applyDelete_goes {ids : List Bytes} (hb : Boss u g) (hn : ids.Nodup)
    (hin : ∀ i ∈ ids, i ∈ g.members.map (·.uuid)) : (applyDeleteMembers u g ids g).2 = .ok := by
  unfold applyDeleteMembers
  by_cases h0 : ids = []
  · rw [if_pos h0]
  rw [if_neg h0, if_neg (mayDelete_boss hb), if_neg (not_not.2 hn), if_neg]
  rintro ⟨i, hi, hno⟩
  exact hno (hin i hi)

theorem roleChecks_goes : ∀ (as : List (Bytes × Role)) (seen : List Bytes), (as.map (·.1)).Nodup →
    (∀ x ∈ as, x.1 ≠ [] ∧ x.2 ≠ 0 ∧ x.1 ∈ g.members.map (·.uuid) ∧ x.1 ∉ seen) → roleChecks g seen as = .ok
  | [], _, _, _ => rfl
  | (i, r) :: rest, seen, hn, h => by
    obtain ⟨h1, h2, h3, h4⟩ := h (i, r) (List.mem_cons_self ..)
    have h2' : ¬ r = roleUnknown := h2
    rw [List.map_cons, List.nodup_cons] at hn
    rw [roleChecks, if_neg h1, if_neg h2', if_neg h4, if_neg (not_not.2 h3)]
    refine roleChecks_goes rest _ hn.2 (fun x hx => ?_)
    obtain ⟨k1, k2, k3, k4⟩ := h x (List.mem_cons_of_mem _ hx)
    refine ⟨k1, k2, k3, fun hs => ?_⟩
    rcases List.mem_cons.1 hs with he | hs
    · exact hn.1 (List.mem_map.2 ⟨x, hx, he⟩)
    · exact k4 hs

theorem applyRoles_goes {as : List (Bytes × Role)} (hb : Boss u g) (hn : (as.map (·.1)).Nodup)
    (h : ∀ x ∈ as, x.1 ≠ [] ∧ x.2 ≠ 0 ∧ x.1 ∈ g.members.map (·.uuid)) : (applyRoles u g as g).2 = .ok := by
  unfold applyRoles
  split
  · rfl
  rw [hb.admin, roleChecks_goes as [] hn (fun x hx => ⟨(h x hx).1, (h x hx).2.1, (h x hx).2.2, by simp⟩)]
  rfl

theorem applyDeletePending_goes {ids : List Bytes} (hb : Boss u g) (hn : ids.Nodup)
    (hin : ∀ i ∈ ids, i ∈ g.pending.map (·.uuid)) : (applyDeletePending u g ids g).2 = .ok := by
  unfold applyDeletePending
  by_cases h0 : ids = []
  · rw [if_pos h0]
  rw [if_neg h0, if_neg (mayDelete_boss hb), if_neg (not_not.2 hn), if_neg]
  rintro ⟨i, hi, hno⟩
  exact hno (hin i hi)

theorem applyDeleteRequesting_goes {ids : List Bytes} (hb : Boss u g) (hn : ids.Nodup)
    (hin : ∀ i ∈ ids, i ∈ g.requesting.map (·.uuid)) : (applyDeleteRequesting u g ids g).2 = .ok := by
  unfold applyDeleteRequesting
  by_cases h0 : ids = []
  · rw [if_pos h0]
  rw [if_neg h0, if_neg (mayDelete_boss hb), if_neg (not_not.2 hn), if_neg]
  rintro ⟨i, hi, hno⟩
  exact hno (hin i hi)

theorem approveLoop_goes {mem : List Bytes} : ∀ (as : List (Bytes × Role)) (seen : List Bytes) (g : Group),
    (as.map (·.1)).Nodup →
    (∀ i ∈ as.map (·.1), i ∉ seen ∧ i ∉ mem ∧ i ∈ g.requesting.map (·.uuid)) →
    (approveLoop mem seen as g).2 = .ok
  | [], _, _, _, _ => rfl
  | (i, r) :: rest, seen, g, hn, h => by
    obtain ⟨h1, h2, h3⟩ := h i (by simp)
    rw [List.map_cons, List.nodup_cons] at hn
    rw [approveLoop, if_neg h1, if_neg h2]
    have hk : ∃ k, requestKey g.requesting i = some k := by
      unfold requestKey
      cases hf : g.requesting.reverse.find? (fun r => decide (r.uuid = i)) with
      | some q => exact ⟨_, rfl⟩
      | none =>
        exfalso
        rw [List.find?_eq_none] at hf
        obtain ⟨q, hq, he⟩ := List.mem_map.1 h3
        exact hf q (List.mem_reverse.2 hq) (decide_eq_true he)
    obtain ⟨k, hk⟩ := hk
    rw [hk]
    refine approveLoop_goes rest _ _ hn.2 (fun j hj => ?_)
    obtain ⟨k1, k2, k3⟩ := h j (List.mem_cons_of_mem _ hj)
    refine ⟨fun hs => ?_, k2, k3⟩
    rcases List.mem_cons.1 hs with rfl | hs
    · exact hn.1 hj
    · exact k1 hs

theorem applyApprove_goes {as : List (Bytes × Role)} (hb : Boss u g) (hn : (as.map (·.1)).Nodup)
    (h : ∀ i ∈ as.map (·.1), i ∉ g.members.map (·.uuid) ∧ i ∈ g.requesting.map (·.uuid)) :
    (applyApprove u g as g).2 = .ok := by
  unfold applyApprove
  split
  · rfl
  have hr := approveLoop_goes (mem := g.members.map (·.uuid)) as [] g hn
    (fun i hi => ⟨by simp, (h i hi).1, (h i hi).2⟩)
  rw [hb.admin]
  simp only [hr]
  rfl

theorem Boss.attributes {r : Rules} (hb : Boss u g) (hr : g.rules = some r)
    (ha : r.attributes = 1 ∨ r.attributes = 2 ∨ r.attributes = 3) (f : Group) :
    ifAttributes u g g f = (f, .ok) := by
  have h : mayAttributes u g = some true := by
    obtain ⟨m, hm, hrole⟩ := hb.source
    unfold mayAttributes
    rw [hm]
    simp only [hr]
    rcases ha with ha | ha | ha <;> rw [ha] <;> simp [accAny, accMember, accAdmin, roleAdmin, hrole]
  unfold ifAttributes
  rw [h]

end Verif.GroupsV2
