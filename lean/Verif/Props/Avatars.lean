import Verif.Model.Avatars
import Verif.Props.Paths
import Verif.Proof.Contacts
/-!
# The picture of a contact (C181)
-/
namespace Verif.Props.Avatars
open Verif Verif.Paths Verif.Avatars Verif.Props.Paths

/-- The picture shown for a contact. -/
def shown (s : State) (u : List Char) : Option Bytes := (load s u true).2

/-- The last picture whose saving was reported as a success. -/
def latest (u : List Char) : List (Op × Bool) → Option Bytes
  | [] => none
  | (.save v pic _ _, ok) :: t => (latest u t).or (if v = u ∧ ok = true then some pic else none)
  | _ :: t => latest u t

/-- Calls without another `Setup`, without files left half written, and with names that are one part of a path. -/
def Calm : Op → Prop
  | .setup _ => False
  | .save u _ _ d => Plain u ∧ ∀ n, d ≠ .part n
  | .load u _ => Plain u

/-! ## Lemmas -/

/-- The directory in use. -/
def base (s : State) : List Char := s.cached.getD s.root

theorem ensure_base (s : State) (mk : Bool) : base (ensure s mk).1 = base s ∧ (ensure s mk).1.files = s.files := by
  unfold ensure base
  cases h : s.cached with
  | some r => simp [h]
  | none => simp only [Option.getD_none]; (repeat' split) <;> simp

theorem shown_eq (s : State) (u : List Char) (hu : u ≠ []) :
    shown s u = s.files (join [base s, "avatars".toList, u]) := by
  obtain ⟨hb, hf⟩ := ensure_base s true
  have ok : (ensure s true).2 = true := by
    unfold ensure
    cases s.cached with
    | some r => rfl
    | none => simp only []; split <;> rfl
  unfold shown load
  rw [if_neg hu]
  simp only [ok, Bool.true_eq_false, if_false, file]
  rw [hf]
  unfold base at hb
  rw [hb]
  rfl

/-- What saving does, if no file is left half written. -/
theorem save_cases (s : State) (u : List Char) (pic : Bytes) (mk : Bool) (d : Disk) (hd : ∀ n, d ≠ .part n) :
    base (save s u pic mk d).1 = base s ∧
      (((save s u pic mk d).2 = false ∧ (save s u pic mk d).1.files = s.files) ∨
        ((save s u pic mk d).2 = true ∧ (save s u pic mk d).1.files = fun q =>
          if q = join [base s, "avatars".toList, u] then some pic else s.files q)) := by
  obtain ⟨hb, hf⟩ := ensure_base s mk
  unfold save
  by_cases h : u = [] ∨ pic = []
  · rw [if_pos h]; exact ⟨rfl, .inl ⟨rfl, rfl⟩⟩
  · rw [if_neg h]
    obtain ⟨⟨s', ok⟩, hs'⟩ : ∃ x, x = ensure s mk := ⟨_, rfl⟩
    rw [← hs'] at hb hf ⊢
    simp only [] at hb hf ⊢
    by_cases h1 : ok = false
    · rw [if_pos h1]; exact ⟨hb, .inl ⟨rfl, hf⟩⟩
    · rw [if_neg h1]
      by_cases h2 : s'.cached.getD s'.root ∉ s'.dirs
      · rw [if_pos h2]; exact ⟨hb, .inl ⟨rfl, hf⟩⟩
      · rw [if_neg h2]
        cases d with
        | part n => exact absurd rfl (hd n)
        | nothing => exact ⟨hb, .inl ⟨rfl, hf⟩⟩
        | whole =>
          refine ⟨hb, .inr ⟨rfl, ?_⟩⟩
          unfold base at hb ⊢
          simp only [write, file, hb, hf]

theorem plain_ne {u : List Char} (h : Plain u) : u ≠ [] := h.1

/-! ## The property -/

/-- C181 for calls that are calm, whatever directories and files can be made: a contact is shown the last picture of theirs whose
saving was reported as a success, or else the one from before, whatever is saved for others. Missing from the property:
`C181_lost`, `C181_removed_stays`, `C181_other_account`, `C181_never_made`. -/
theorem C181_latest_partial (u : List Char) (hu : Plain u) : ∀ (os : List Op) (s : State), s.cached.getD s.root ≠ [] →
    (∀ o ∈ os, Calm o) → shown (run s os).1 u = (latest u (run s os).2).or (shown s u)
  | [], s, _, _ => by simp [run, latest]
  | o :: os, s, hr, h => by
    have ho := h o (List.mem_cons_self ..)
    have hos : ∀ o ∈ os, Calm o := fun o ho => h o (List.mem_cons_of_mem _ ho)
    cases o with
    | setup r => exact ho.elim
    | load v mk =>
      have hs : base (load s v mk).1 = base s ∧ (load s v mk).1.files = s.files := by
        unfold load
        by_cases hv : v = []
        · rw [if_pos hv]; exact ⟨rfl, rfl⟩
        · rw [if_neg hv]
          simp only []
          split <;> exact ensure_base s mk
      have ih := C181_latest_partial u hu os (load s v mk).1 (fun e => hr (hs.1.symm.trans e)) hos
      simp only [run, step, latest]
      rw [ih, shown_eq _ _ (plain_ne hu), shown_eq _ _ (plain_ne hu), hs.1, hs.2]
    | save v pic mk d =>
      obtain ⟨hb, hc⟩ := save_cases s v pic mk d ho.2
      have ih := C181_latest_partial u hu os (save s v pic mk d).1 (fun e => hr (hb.symm.trans e)) hos
      simp only [run, step, latest]
      rw [ih, shown_eq _ _ (plain_ne hu), shown_eq _ _ (plain_ne hu), hb]
      rcases hc with ⟨h2, hf⟩ | ⟨h2, hf⟩
      · simp [h2, hf]
      · rw [hf, h2]
        have hj : join [base s, "avatars".toList, u] = join [base s, "avatars".toList, v] ↔ v = u := by
          have hr' : base s ≠ [] := hr
          rw [show join [base s, _, u] = _ from join_plain _ _ _ hr' avatars_plain hu,
            show join [base s, _, v] = _ from join_plain _ _ _ hr' avatars_plain ho.1]
          constructor
          · intro e
            simp only [Path.mk.injEq, true_and] at e
            have := List.append_cancel_left e
            simp at this
            exact this.symm
          · rintro rfl; rfl
        by_cases e : v = u
        · simp [e, Option.or_assoc]
        · simp only [hj, e, if_false, false_and, Option.or_none]

/-- C181, saving succeeds: with a working disk and a directory that is there or can be made, it is reported and the picture is
shown. -/
theorem C181_saved (s : State) (u : List Char) (pic : Bytes) (hu : u ≠ []) (hp : pic ≠ [])
    (hd : s.cached = none ∨ s.cached.getD s.root ∈ s.dirs) :
    (save s u pic true .whole).2 = true ∧ shown (save s u pic true .whole).1 u = some pic := by
  have h2 : (save s u pic true .whole).2 = true := by
    unfold save
    rw [if_neg (by simp [hu, hp])]
    unfold ensure
    cases h : s.cached with
    | some r =>
      have : r ∈ s.dirs := by rcases hd with hd | hd <;> simp_all
      simp [h, this]
    | none => by_cases g : s.root ∈ s.dirs <;> simp [g]
  refine ⟨h2, ?_⟩
  obtain ⟨hb, hc⟩ := save_cases s u pic true .whole (by intro n; simp)
  rcases hc with ⟨h, -⟩ | ⟨-, hf⟩
  · rw [h2] at h; cases h
  · rw [shown_eq _ _ hu, hb, hf]; simp

/-- Refuted: when writing a new picture fails, the one from before is lost; what is left is the beginning of the new one. -/
theorem C181_lost (s : State) (u : List Char) (pic : Bytes) (n : Nat) (hu : u ≠ []) (hn : n < pic.length)
    (hd : s.cached = none ∨ s.cached.getD s.root ∈ s.dirs) :
    (save s u pic true (.part n)).2 = false ∧ shown (save s u pic true (.part n)).1 u = some (pic.take n) := by
  have hp : pic ≠ [] := by intro e; subst e; simp at hn
  rw [shown_eq _ _ hu]
  unfold save
  rw [if_neg (by simp [hu, hp])]
  unfold ensure
  cases h : s.cached with
  | some r =>
    have : r ∈ s.dirs := by rcases hd with hd | hd <;> simp_all
    simp [h, this, hn, write, file, base]
  | none => by_cases g : s.root ∈ s.dirs <;> simp [g, hn, write, file, base]

/-- Refuted: a contact without a picture any more goes on being shown with the old one, for no picture cannot be saved. -/
theorem C181_removed_stays (s : State) (u v : List Char) (mk : Bool) (d : Disk) :
    (save s u [] mk d).2 = false ∧ shown (save s u [] mk d).1 v = shown s v := by
  simp [save]

/-- And nobody tries: when the profile of a contact comes without a picture, no file is written, and the picture in the list of
contacts stays what it was. -/
theorem C181_removal_unnoticed (g : Gcm) (z : Profile.Zk) (plain cred : Bytes → Res Profile.Reply) (cdn : Bytes → Res Bytes)
    (m : Contacts.Book) (uuid : Bytes) (p : Profile.Prof)
    (hp : Profile.fetchProfile g z plain cred (Profile.contactOf m uuid) uuid = .ok p) (ha : p.avatar = []) :
    ∃ m', Profile.getProfileUUID g z plain cred cdn m uuid = .ok (p, m', none) ∧
      (Profile.contactOf m' p.uuid).avatar = (Profile.contactOf m uuid).avatar := by
  refine ⟨Contacts.put m p.uuid (Profile.updateContact (Profile.contactOf m uuid) p none), ?_, ?_⟩
  · simp [Profile.getProfileUUID, hp, Profile.fetchAvatar, ha]
  · rw [Profile.contactOf, Contacts.get_put, if_pos rfl]
    simp [Profile.updateContact, ha]

/-- Without those calls of `Setup`. -/
def unset (os : List Op) : List Op := os.filter fun | .setup _ => false | _ => true

/-- Refuted: once a picture has been looked at or saved, another storage directory is not taken up: whatever `Setup` is called
with, the pictures are those of the first account. -/
theorem C181_other_account (u : List Char) (hu : u ≠ []) : ∀ (os : List Op) (s t : State), s.cached ≠ none → s.cached = t.cached →
    s.dirs = t.dirs → s.files = t.files → shown (run s os).1 u = shown (run t (unset os)).1 u
  | [], s, t, hc, h1, h2, h3 => by
    have hb : base s = base t := by
      unfold base
      cases h : s.cached with
      | none => exact absurd h hc
      | some r => rw [← h1, h]; rfl
    show shown s u = shown t u
    rw [shown_eq _ _ hu, shown_eq _ _ hu, hb, h3]
  | o :: os, s, t, hc, h1, h2, h3 => by
    obtain ⟨r, hr⟩ := Option.ne_none_iff_exists'.mp hc
    have ht : t.cached = some r := by rw [← h1, hr]
    cases o with
    | setup r' =>
      have ih := C181_other_account u hu os { s with root := r' } t hc h1 h2 h3
      simpa [unset, run, step] using ih
    | load v mk =>
      have e : ∀ x : State, x.cached = some r → (load x v mk).1 = x := by
        intro x hx
        unfold load ensure
        by_cases hv : v = [] <;> simp [hv, hx]
      have ih := C181_other_account u hu os s t hc h1 h2 h3
      simpa [unset, run, step, e s hr, e t ht] using ih
    | save v pic mk d =>
      have key : (save s v pic mk d).1.cached = some r ∧ (save t v pic mk d).1.cached = some r ∧
          (save s v pic mk d).1.dirs = (save t v pic mk d).1.dirs ∧
          (save s v pic mk d).1.files = (save t v pic mk d).1.files := by
        unfold save ensure
        simp only [hr, ht, Option.getD_some, h2, file, write, Bool.true_eq_false, if_false]
        (repeat' split) <;> simp [hr, ht, h2, h3]
      obtain ⟨k1, k2, k3, k4⟩ := key
      have ih := C181_other_account u hu os _ _ (by rw [k1]; simp) (k1.trans k2.symm) k3 k4
      simpa [unset, run, step] using ih

/-- Refuted: if the directory cannot be made the first time, it is never made: every later saving fails until the program is
started again, whatever the disk does by then. -/
theorem C181_never_made : ∀ (os : List Op) (s : State), (∃ r, s.cached = some r ∧ r ∉ s.dirs) →
    ∀ x ∈ (run s os).2, ∀ u pic mk d, x = (.save u pic mk d, x.2) → x.2 = false
  | [], _, _, x, hx, _, _, _, _, _ => by cases hx
  | o :: os, s, ⟨r, hr, hd⟩, x, hx, u, pic, mk, d, e => by
    have stays : ∃ r', (step s o).1.cached = some r' ∧ r' ∉ (step s o).1.dirs := by
      cases o with
      | setup r' => exact ⟨r, hr, hd⟩
      | load v mk =>
        refine ⟨r, ?_⟩
        unfold step load ensure
        by_cases hv : v = [] <;> simp [hv, hr, hd]
      | save v pic mk d =>
        refine ⟨r, ?_⟩
        unfold step save ensure
        by_cases hv : v = [] ∨ pic = [] <;> simp [hv, hr, hd]
    simp only [run, List.mem_cons] at hx
    rcases hx with rfl | hx
    · simp only [Prod.mk.injEq, and_true] at e
      subst e
      show (save s u pic mk d).2 = false
      unfold save ensure
      by_cases hv : u = [] ∨ pic = [] <;> simp [hv, hr, hd]
    · exact C181_never_made os _ stays x hx u pic mk d e

/-- The hypothesis of `C181_never_made` is met after the first call, if the directory is neither there nor can be made. -/
theorem C181_not_made (root u : List Char) (pic : Bytes) (d : Disk) (hu : u ≠ []) (hp : pic ≠ []) :
    (save { root := root } u pic false d).1.cached = some root ∧ root ∉ (save { root := root } u pic false d).1.dirs := by
  simp [save, ensure, hu, hp]

/-! ## Concrete cases -/

/-- Two contacts, one of them twice; the second file for them cannot be created. -/
example : let os : List Op := [.save "bob".toList [1] true .whole, .save "eve".toList [2] true .whole,
      .save "bob".toList [3] true .nothing, .load "bob".toList true]
    (∀ o ∈ os, Calm o) ∧ shown (run { root := "/home".toList } os).1 "bob".toList = some [1] ∧
      shown (run { root := "/home".toList } os).1 "eve".toList = some [2] := by
  refine ⟨?_, by decide +kernel, by decide +kernel⟩
  intro o ho
  simp only [List.mem_cons, List.not_mem_nil, or_false] at ho
  rcases ho with rfl | rfl | rfl | rfl
  · exact ⟨by decide, by simp⟩
  · exact ⟨by decide, by simp⟩
  · exact ⟨by decide, by simp⟩
  · show Plain _; decide

/-- The second account is shown the picture of the first. -/
example : shown (run { root := "/a".toList } [.save "bob".toList [1] true .whole, .setup "/b".toList]).1 "bob".toList = some [1] := by
  decide +kernel

/-- Anna's profile comes without a picture; the list of contacts goes on with the picture `[7]`. -/
example (g : Gcm) (z : Profile.Zk) (cred : Bytes → Res Profile.Reply) (cdn : Bytes → Res Bytes) :
    ∃ p m', Profile.getProfileUUID g z (fun _ => .ok ⟨200, some { uuid := some [97], name := some [65] }⟩) cred cdn
        [([97], { uuid := [97], tel := [49], name := [65], avatar := some [7] })] [97] = .ok (p, m', none) ∧
      (Profile.contactOf m' p.uuid).avatar = some [7] := by
  obtain ⟨m', h, e⟩ := C181_removal_unnoticed g z (fun _ => .ok ⟨200, some { uuid := some [97], name := some [65] }⟩) cred cdn
    [([97], { uuid := [97], tel := [49], name := [65], avatar := some [7] })] [97] { uuid := [97], name := [65] } rfl rfl
  exact ⟨_, m', h, e⟩

/-- A full disk. -/
example : shown (run { root := "/a".toList } [.save "bob".toList [1, 2] true .whole, .save "bob".toList [3, 4] true (.part 0)]).1
    "bob".toList = some [] := by
  decide +kernel

end Verif.Props.Avatars
