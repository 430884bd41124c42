import Verif.Model.PreKeys
import Verif.Proof.Wire
import Mathlib.Data.List.Perm.Basic
import Mathlib.Data.List.Induction
/-!
# Lemmas about prekey files
-/
namespace Verif.PreKeys
open Verif Verif.Names

theorem isSpace_of_digit {c : Char} (h : isDigit c = true) : isSpace c = false := by
  simp only [isDigit, Bool.and_eq_true, decide_eq_true_eq] at h
  simp only [isSpace, Bool.or_eq_false_iff, Bool.and_eq_false_iff, beq_eq_false_iff_ne, decide_eq_false_iff_not]
  omega

theorem takeWhile_all {p : Char → Bool} {l : List Char} (h : ∀ c ∈ l, p c = true) : l.takeWhile p = l := by
  induction l with
  | nil => rfl
  | cons c l ih =>
    rw [List.takeWhile_cons, if_pos (h c List.mem_cons_self), ih (fun x hx => h x (List.mem_cons_of_mem _ hx))]

theorem filenameToID_id (id : Nat) (h : id < u32) : filenameToID (idToFilename id) = .ok id := by
  have hd := decPad_digits 9 id
  have hne : decPad 9 id ≠ [] := by
    intro e
    have := dec_ne id
    simp [decPad] at e
    exact this e.2
  have hdrop : (idToFilename id).dropWhile isSpace = idToFilename id := by
    unfold idToFilename
    cases hp : decPad 9 id with
    | nil => rfl
    | cons c l =>
      have : isSpace c = false := isSpace_of_digit (hd c (by rw [hp]; exact List.mem_cons_self))
      rw [List.dropWhile_cons, this]; rfl
  unfold filenameToID
  simp only [hdrop]
  have ht : (idToFilename id).takeWhile isDigit = idToFilename id := takeWhile_all hd
  rw [ht]
  rw [if_neg (by exact hne), idToFilename, undec_decPad, if_pos h]

theorem idToFilename_inj {a b : Nat} (h : idToFilename a = idToFilename b) : a = b := by
  have := congrArg undec h
  rwa [idToFilename, idToFilename, undec_decPad, undec_decPad] at this

/-! ## Order of names -/

theorem undec_lt {l : List Char} (h : ∀ c ∈ l, isDigit c = true) : undec l < 10 ^ l.length := by
  induction l using List.reverseRecOn with
  | nil => simp [undec]
  | append_singleton l c ih =>
    rw [undec_snoc, List.length_append, List.length_singleton, Nat.pow_succ]
    have h1 := ih (fun x hx => h x (List.mem_append_left _ hx))
    have h2 : isDigit c = true := h c (by simp)
    simp only [isDigit, Bool.and_eq_true, decide_eq_true_eq] at h2
    omega

theorem undec_cons (c : Char) (l : List Char) : undec (c :: l) = (c.toNat - 48) * 10 ^ l.length + undec l := by
  induction l using List.reverseRecOn with
  | nil => simp [undec]
  | append_singleton l d ih =>
    rw [← List.cons_append, undec_snoc, undec_snoc, ih, List.length_append, List.length_singleton,
      Nat.pow_succ]
    rw [Nat.add_mul, Nat.mul_assoc]
    omega

theorem nameLe_undec {a b : List Char} (hl : a.length = b.length) (ha : ∀ c ∈ a, isDigit c = true)
    (hb : ∀ c ∈ b, isDigit c = true) : nameLe a b = true ↔ undec a ≤ undec b := by
  induction a generalizing b with
  | nil => cases b with
    | nil => simp [nameLe]
    | cons => simp at hl
  | cons x a ih =>
    cases b with
    | nil => simp at hl
    | cons y b =>
      have hl' : a.length = b.length := by simpa using hl
      have hx := ha x List.mem_cons_self
      have hy := hb y List.mem_cons_self
      simp only [isDigit, Bool.and_eq_true, decide_eq_true_eq] at hx hy
      have ha' : ∀ c ∈ a, isDigit c = true := fun c hc => ha c (List.mem_cons_of_mem _ hc)
      have hb' : ∀ c ∈ b, isDigit c = true := fun c hc => hb c (List.mem_cons_of_mem _ hc)
      have h1 := undec_lt ha'
      have h2 := undec_lt hb'
      rw [undec_cons, undec_cons, ← hl']
      rw [← hl'] at h2
      simp only [nameLe]
      by_cases c1 : x.toNat < y.toNat
      · simp only [c1, if_true, true_iff]
        have : (x.toNat - 48) * 10 ^ a.length + 10 ^ a.length ≤ (y.toNat - 48) * 10 ^ a.length := by
          rw [← Nat.succ_mul]; exact Nat.mul_le_mul_right _ (by omega)
        omega
      · by_cases c2 : y.toNat < x.toNat
        · simp only [c1, c2, if_true, if_false]
          have : (y.toNat - 48) * 10 ^ a.length + 10 ^ a.length ≤ (x.toNat - 48) * 10 ^ a.length := by
            rw [← Nat.succ_mul]; exact Nat.mul_le_mul_right _ (by omega)
          simp only [Bool.false_eq_true, false_iff]
          omega
        · simp only [c1, c2, if_false]
          rw [ih hl' ha' hb']
          have : x.toNat = y.toNat := by omega
          rw [this]; omega

theorem nameLe_id {a b : Nat} (ha : a < 10 ^ 9) (hb : b < 10 ^ 9) :
    nameLe (idToFilename a) (idToFilename b) = true ↔ a ≤ b := by
  have := nameLe_undec (a := idToFilename a) (b := idToFilename b)
    ((decPad_length (by decide) ha).trans (decPad_length (by decide) hb).symm)
    (decPad_digits 9 a) (decPad_digits 9 b)
  simpa only [idToFilename, undec_decPad] using this

theorem nameLe_total (a b : Name) : nameLe a b = true ∨ nameLe b a = true := by
  induction a generalizing b with
  | nil => exact .inl (by simp [nameLe])
  | cons x a ih =>
    cases b with
    | nil => exact .inr (by simp [nameLe])
    | cons y b =>
      simp only [nameLe]
      by_cases h1 : x.toNat < y.toNat
      · simp [h1]
      · by_cases h2 : y.toNat < x.toNat
        · simp [h2]
        · simp [h1, h2, ih b]

theorem nameLe_antisymm {a b : Name} (h : nameLe a b = true) (h' : nameLe b a = true) : a = b := by
  induction a generalizing b with
  | nil => cases b with
    | nil => rfl
    | cons y b => simp [nameLe] at h'
  | cons x a ih =>
    cases b with
    | nil => simp [nameLe] at h
    | cons y b =>
      simp only [nameLe] at h h'
      by_cases h1 : x.toNat < y.toNat
      · have : ¬ y.toNat < x.toNat := by omega
        simp [h1, this] at h'
      · by_cases h2 : y.toNat < x.toNat
        · simp [h1, h2] at h
        · simp only [h1, h2, if_false] at h h'
          rw [ih h h', Char.toNat_inj.mp (by omega : x.toNat = y.toNat)]

theorem nameLe_trans {a b c : Name} (h : nameLe a b = true) (h' : nameLe b c = true) :
    nameLe a c = true := by
  induction a generalizing b c with
  | nil => simp [nameLe]
  | cons x a ih =>
    cases b with
    | nil => simp [nameLe] at h
    | cons y b =>
      cases c with
      | nil => simp [nameLe] at h'
      | cons z c =>
        simp only [nameLe] at h h' ⊢
        by_cases h1 : x.toNat < z.toNat
        · simp [h1]
        · by_cases h2 : x.toNat < y.toNat
          · have : ¬ y.toNat < z.toNat := by omega
            have h3 : z.toNat < y.toNat := by omega
            simp [this, h3] at h'
          · by_cases h3 : y.toNat < x.toNat
            · simp [h2, h3] at h
            · simp only [h2, h3, if_false] at h
              by_cases h4 : y.toNat < z.toNat
              · omega
              · by_cases h5 : z.toNat < y.toNat
                · simp [h4, h5] at h'
                · simp only [h4, h5, if_false] at h'
                  have h6 : ¬ z.toNat < x.toNat := by omega
                  simp only [h1, h6, if_false]
                  exact ih h h'

/-! ## Walking a directory -/

def SortedDir (d : Dir) : Prop := d.Pairwise (fun f g => nameLe f.1 g.1 = true)

theorem insertFile_perm (f : Name × Bytes) (l : Dir) : (insertFile f l).Perm (f :: l) := by
  induction l with
  | nil => exact .refl _
  | cons x l ih =>
    unfold insertFile
    split
    · exact .refl _
    · exact (ih.cons x).trans (.swap f x l)

theorem insertFile_sorted (f : Name × Bytes) (l : Dir) (h : SortedDir l) : SortedDir (insertFile f l) := by
  induction l with
  | nil => simp [insertFile, SortedDir]
  | cons x l ih =>
    unfold insertFile
    have hx := List.pairwise_cons.mp h
    split
    · rename_i hk
      refine List.pairwise_cons.mpr ⟨?_, h⟩
      intro y hy
      rcases List.mem_cons.mp hy with hy | hy
      · rw [hy]; exact hk
      · exact nameLe_trans hk (hx.1 y hy)
    · rename_i hk
      refine List.pairwise_cons.mpr ⟨?_, ih hx.2⟩
      intro y hy
      rcases List.mem_cons.mp ((insertFile_perm f l).subset hy) with hy | hy
      · rw [hy]
        rcases nameLe_total f.1 x.1 with h' | h'
        · exact absurd h' hk
        · exact h'
      · exact hx.1 y hy

theorem walk_perm (d : Dir) : (walk d).Perm d := by
  induction d with
  | nil => exact .refl _
  | cons x l ih => exact (insertFile_perm x _).trans (ih.cons x)

theorem walk_sorted (d : Dir) : SortedDir (walk d) := by
  induction d with
  | nil => simp [walk, SortedDir]
  | cons x l ih => exact insertFile_sorted x _ ih

/-- Walking a directory whose files are already in order lists them as they are. -/
theorem walk_of_sorted {d : Dir} (h : SortedDir d) : walk d = d := by
  induction d with
  | nil => rfl
  | cons x l ih =>
    have hx := List.pairwise_cons.mp h
    change insertFile x (walk l) = x :: l
    rw [ih hx.2]
    cases l with
    | nil => rfl
    | cons y l => rw [insertFile, if_pos (hx.1 y List.mem_cons_self)]

/-! ## Records -/

theorem loadRec_serRec (r : Rec) (h : r.id < u32) (h1 : r.pub.length < 2 ^ 64)
    (h2 : r.priv.length < 2 ^ 64) : loadRec (serRec r) = .ok r := by
  obtain ⟨id, pub, priv⟩ := r
  simp only at h h1 h2
  unfold loadRec serRec
  rw [Wire.decFields_enc]
  · by_cases hi : id = 0 <;> by_cases hp : pub = [] <;> by_cases hq : priv = [] <;>
      simp [hi, hp, hq, Wire.getU32, Wire.getBytes, Nat.mod_eq_of_lt h]
  · intro f hf
    simp only [List.mem_append] at hf
    rcases hf with (hf | hf) | hf
    · split at hf
      · simp at hf
      · simp at hf; subst hf; refine ⟨by decide, by decide, ?_⟩; simp only [u32] at h; omega
    · split at hf
      · simp at hf
      · simp at hf; subst hf; exact ⟨by decide, by decide, h1⟩
    · split at hf
      · simp at hf
      · simp at hf; subst hf; exact ⟨by decide, by decide, h2⟩

/-! ## Reading and writing files -/

theorem read_write_same (d : Dir) (n : Name) (c : Bytes) : read (write d n c) n = some c := by
  unfold write read
  split
  · rename_i h
    induction d with
    | nil => simp at h
    | cons f d ih =>
      by_cases hf : f.1 = n
      · simp [hf]
      · have h' : d.any (fun f => decide (f.1 = n)) = true := by simpa [hf] using h
        simpa [hf] using ih h'
  · rename_i h
    rw [Bool.not_eq_true, List.any_eq_false] at h
    rw [List.find?_append, List.find?_eq_none.mpr (by simpa using h)]
    simp

theorem read_write_other (d : Dir) {n m : Name} (c : Bytes) (hne : m ≠ n) :
    read (write d n c) m = read d m := by
  unfold write read
  split
  · rename_i h
    clear h
    induction d with
    | nil => rfl
    | cons f d ih =>
      by_cases hf : f.1 = n
      · have : ¬ n = m := fun e => hne e.symm
        simp [hf, this] at ih ⊢
        simpa using ih
      · by_cases hm : f.1 = m
        · subst hm; simp [hf]
        · simpa [hf, hm] using ih
  · rw [List.find?_append]
    have : ¬ n = m := fun e => hne e.symm
    cases d.find? (fun f => decide (f.1 = m)) <;> simp [this]

theorem write_fresh {d : Dir} {n : Name} (c : Bytes) (h : ∀ f ∈ d, f.1 ≠ n) :
    write d n c = d ++ [(n, c)] := by
  unfold write
  rw [if_neg]
  rw [Bool.not_eq_true, List.any_eq_false]
  simpa using h

end Verif.PreKeys
