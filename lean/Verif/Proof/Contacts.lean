import Verif.Model.Contacts
import Mathlib.Data.List.Perm.Basic
/-! # Facts about the contact map -/
namespace Verif.Contacts
open Verif

theorem get_put (m : Book) (k k' : Bytes) (c : Contact) :
    get (put m k c) k' = if k = k' then some c else get m k' := by
  simp only [get, put, List.find?_cons]
  by_cases h : k = k'
  · simp [h]
  · simp only [beq_iff_eq, h, if_false]
    have : (k == k') = false := by simp [h]
    simp only [this]
    congr 1
    induction m with
    | nil => rfl
    | cons e r ih =>
      simp only [List.filter_cons]
      by_cases he : e.1 = k
      · have h1 : (e.1 != k) = false := by simp [he]
        have h2 : (e.1 == k') = false := by simp [he, h]
        rw [if_neg (by simp [h1]), ih, List.find?_cons, h2]
      · have h1 : (e.1 != k) = true := by simp [he]
        rw [if_pos h1, List.find?_cons, List.find?_cons, ih]

theorem get_mem {m : Book} {k : Bytes} {c : Contact} (h : get m k = some c) : (k, c) ∈ m := by
  simp only [get, Option.map_eq_some_iff] at h
  obtain ⟨⟨k', c'⟩, h1, rfl⟩ := h
  have h2 := List.find?_some h1
  simp only [beq_iff_eq] at h2
  subst h2
  exact List.mem_of_find?_eq_some h1

theorem mem_put {m : Book} {k : Bytes} {c : Contact} {e : Bytes × Contact} :
    e ∈ put m k c ↔ e = (k, c) ∨ (e ∈ m ∧ e.1 ≠ k) := by
  simp [put]

/-- Keys occur once. -/
def Keyed (m : Book) : Prop := (m.map (·.1)).Nodup

theorem keyed_put {m : Book} (h : Keyed m) (k : Bytes) (c : Contact) : Keyed (put m k c) := by
  simp only [Keyed, put, List.map_cons, List.nodup_cons] at *
  refine ⟨by simp, ?_⟩
  exact h.sublist ((List.filter_sublist (l := m)).map _)

theorem get_of_mem {m : Book} (hk : Keyed m) {k : Bytes} {c : Contact} (h : (k, c) ∈ m) : get m k = some c := by
  induction m with
  | nil => simp at h
  | cons e r ih =>
    simp only [Keyed, List.map_cons, List.nodup_cons] at hk
    simp only [get, List.find?_cons]
    rcases List.mem_cons.1 h with rfl | h1
    · simp
    · have : e.1 ≠ k := by
        rintro rfl
        exact hk.1 (List.mem_map.2 ⟨_, h1, rfl⟩)
      have h2 : (e.1 == k) = false := by simp [this]
      rw [h2]
      exact ih hk.2 h1

/-- Loading: an entry comes from the file (filed under its load key) or was there before. -/
theorem mem_load {m : Book} {f : List Contact} {e : Bytes × Contact} (h : e ∈ loadContacts m f) :
    e ∈ m ∨ (e.2 ∈ f ∧ e.1 = loadKey e.2) := by
  induction f generalizing m with
  | nil => exact Or.inl h
  | cons c r ih =>
    simp only [loadContacts, List.foldl_cons] at h
    rcases ih h with h1 | ⟨h1, h2⟩
    · rcases mem_put.1 h1 with rfl | ⟨h2, _⟩
      · exact Or.inr ⟨by simp, rfl⟩
      · exact Or.inl h2
    · exact Or.inr ⟨by simp [h1], h2⟩

theorem keyed_load {m : Book} (hm : Keyed m) (f : List Contact) : Keyed (loadContacts m f) := by
  induction f generalizing m with
  | nil => exact hm
  | cons c r ih => exact ih (keyed_put hm _ _)

theorem get_load_other {m : Book} {f : List Contact} {k : Bytes} (h : ∀ c ∈ f, loadKey c ≠ k) :
    get (loadContacts m f) k = get m k := by
  induction f generalizing m with
  | nil => rfl
  | cons c r ih =>
    simp only [loadContacts, List.foldl_cons]
    have := ih (m := put m (loadKey c) c) (fun d hd => h d (by simp [hd]))
    rw [loadContacts] at this
    rw [this, get_put, if_neg (h c (by simp))]

/-- A contact that is the only one in the file with its key is found under it. -/
theorem get_load {m : Book} {f : List Contact} {c : Contact} (hc : c ∈ f)
    (hu : ∀ d ∈ f, loadKey d = loadKey c → d = c) : get (loadContacts m f) (loadKey c) = some c := by
  induction f generalizing m with
  | nil => simp at hc
  | cons d r ih =>
    simp only [loadContacts, List.foldl_cons]
    by_cases h : c ∈ r
    · exact ih h (fun x hx => hu x (by simp [hx]))
    · have hd : c = d := by rcases List.mem_cons.1 hc with h1 | h1; exact h1; exact absurd h1 h
      subst hd
      have h1 : ∀ x ∈ r, loadKey x ≠ loadKey c := by
        intro x hx hk
        rw [hu x (by simp [hx]) hk] at hx
        exact h hx
      have := get_load_other (m := put m (loadKey c) c) h1
      rw [loadContacts] at this
      rw [this, get_put, if_pos rfl]

end Verif.Contacts
