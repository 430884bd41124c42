import Verif.Proof.Content

/-! Embedded messages sent in several pieces (for C107). -/

namespace Verif.Content
open Verif.Wire Verif.Record

theorem encFields_two (g h : List Field) : encFields (g ++ h) = encFields g ++ encFields h := by
  simp [encFields]

theorem flatten_snoc (bs : List Bytes) (x y : Bytes) : (bs ++ [x, y]).flatten = (bs ++ [x ++ y]).flatten := by simp

theorem rawOne_pieces (fs g h : List Field) (n : Nat) (hg : ∀ f ∈ g, Field.valid f) (hh : ∀ f ∈ h, Field.valid f) :
    rawOne (fs ++ [sub n g, sub n h]) n = rawOne (fs ++ [sub n (g ++ h)]) n := by
  have e1 : getAll (fs ++ [sub n g, sub n h]) n = getAll fs n ++ [encFields g, encFields h] := by
    rw [getAll_append]; simp [getAll, sub]
  have e2 : getAll (fs ++ [sub n (g ++ h)]) n = getAll fs n ++ [encFields g ++ encFields h] := by
    rw [getAll_append, getAll_sub, encFields_two]
  have d : decFields (encFields g ++ encFields h) = some (g ++ h) := by
    rw [← encFields_two]
    exact decFields_enc _ (fun f hf => (List.mem_append.mp hf).elim (hg f) (hh f))
  unfold rawOne
  rw [e1, e2]
  cases getAll fs n with
  | nil => simp [decFields_enc _ hg, decFields_enc _ hh, d]
  | cons a l => simp [decFields_enc _ hg, decFields_enc _ hh, d]

theorem subOne_pieces (fs g h : List Field) (n : Nat) (hg : ∀ f ∈ g, Field.valid f) (hh : ∀ f ∈ h, Field.valid f) :
    subOne (fs ++ [sub n g, sub n h]) n = subOne (fs ++ [sub n (g ++ h)]) n := by
  have e1 : getAll (fs ++ [sub n g, sub n h]) n = getAll fs n ++ [encFields g, encFields h] := by
    rw [getAll_append]; simp [getAll, sub]
  have e2 : getAll (fs ++ [sub n (g ++ h)]) n = getAll fs n ++ [encFields (g ++ h)] := by
    rw [getAll_append, getAll_sub]
  have d := decFields_enc (g ++ h) (fun f hf => (List.mem_append.mp hf).elim (hg f) (hh f))
  unfold subOne subs
  rw [e1, e2, List.mapM_append, List.mapM_append]
  cases hm : (getAll fs n).mapM decFields with
  | none => simp
  | some l => cases l <;> simp [decFields_enc _ hg, decFields_enc _ hh, d]

theorem getAll_pieces_ne (fs g h : List Field) {n m : Nat} (hn : n ≠ m) :
    getAll (fs ++ [sub n g, sub n h]) m = getAll (fs ++ [sub n (g ++ h)]) m := by
  rw [getAll_append, getAll_append]; simp [getAll, sub, hn]

theorem getBytes_pieces_ne (fs g h : List Field) {n m : Nat} (hn : n ≠ m) :
    getBytes (fs ++ [sub n g, sub n h]) m = getBytes (fs ++ [sub n (g ++ h)]) m := by
  rw [getBytes_append, getBytes_append]; simp [getBytes, sub, hn]

theorem getU32_pieces (fs g h : List Field) (n m : Nat) :
    getU32 (fs ++ [sub n g, sub n h]) m = getU32 (fs ++ [sub n (g ++ h)]) m := by
  rw [getU32_append, getU32_append]; rfl

theorem getU64_pieces (fs g h : List Field) (n m : Nat) :
    getU64 (fs ++ [sub n g, sub n h]) m = getU64 (fs ++ [sub n (g ++ h)]) m := by
  rw [getU64_append, getU64_append]; rfl

theorem rawOne_pieces' (fs g h : List Field) (n m : Nat) (hg : ∀ f ∈ g, Field.valid f)
    (hh : ∀ f ∈ h, Field.valid f) : rawOne (fs ++ [sub n g, sub n h]) m = rawOne (fs ++ [sub n (g ++ h)]) m := by
  rcases Nat.decEq n m with hn | rfl
  · unfold rawOne; rw [getAll_pieces_ne fs g h hn]
  · exact rawOne_pieces fs g h n hg hh

theorem subOne_pieces' (fs g h : List Field) (n m : Nat) (hg : ∀ f ∈ g, Field.valid f)
    (hh : ∀ f ∈ h, Field.valid f) : subOne (fs ++ [sub n g, sub n h]) m = subOne (fs ++ [sub n (g ++ h)]) m := by
  rcases Nat.decEq n m with hn | rfl
  · unfold subOne subs; rw [getAll_pieces_ne fs g h hn]
  · exact subOne_pieces fs g h n hg hh

theorem checked_pieces (fs g h : List Field) (n : Nat) (l : List Nat) (hg : ∀ f ∈ g, Field.valid f)
    (hh : ∀ f ∈ h, Field.valid f) : checked (fs ++ [sub n g, sub n h]) l = checked (fs ++ [sub n (g ++ h)]) l := by
  unfold checked; simp only [rawOne_pieces' fs g h n _ hg hh]

theorem dataMsg_pieces (fs g h : List Field) (n : Nat) (hn : n ∈ [8, 11, 15, 16]) (hg : ∀ f ∈ g, Field.valid f)
    (hh : ∀ f ∈ h, Field.valid f) : dataMsg (fs ++ [sub n g, sub n h]) = dataMsg (fs ++ [sub n (g ++ h)]) := by
  have a : ∀ m ∈ [1, 2, 6, 9], n ≠ m := by
    simp only [List.mem_cons, List.not_mem_nil, or_false] at hn ⊢; omega
  unfold dataMsg subs rawMany bytesOr numOr
  simp only [rawOne_pieces' fs g h n _ hg hh, checked_pieces fs g h n _ hg hh, getU32_pieces, getU64_pieces,
    getAll_pieces_ne fs g h (a 2 (by simp)), getAll_pieces_ne fs g h (a 9 (by simp)),
    getBytes_pieces_ne fs g h (a 1 (by simp)), getBytes_pieces_ne fs g h (a 6 (by simp))]

theorem parse_pieces (fs g h : List Field) (n : Nat) (hn : 1 ≤ n ∧ n ≤ 100) (hf : ∀ f ∈ fs, NumOk f)
    (hg : ∀ f ∈ g, Field.valid f) (hh : ∀ f ∈ h, Field.valid f)
    (h1 : (encFields (fs ++ [sub n g, sub n h])).length < 2 ^ 64)
    (h2 : (encFields (fs ++ [sub n (g ++ h)])).length < 2 ^ 64) :
    parseContent (encFields (fs ++ [sub n g, sub n h])) = parseContent (encFields (fs ++ [sub n (g ++ h)])) := by
  have v1 : ∀ f ∈ fs ++ [sub n g, sub n h], Field.valid f := by
    refine valid_of (numOk_append hf ?_) h1
    intro f hf; simp at hf; rcases hf with rfl | rfl <;> exact ⟨hn.1, hn.2⟩
  have v2 : ∀ f ∈ fs ++ [sub n (g ++ h)], Field.valid f :=
    valid_of (numOk_append hf (numOk_one (numOk_sub hn.1 hn.2))) h2
  unfold parseContent
  rw [decFields_enc _ v1, decFields_enc _ v2]
  simp only [Option.bind_eq_bind, Option.bind_some, subOne_pieces' fs g h n _ hg hh, checked_pieces fs g h n _ hg hh]

end Verif.Content
