import Verif.Model.Regex
import Mathlib.Data.List.Forall2
/-! # The matcher decides the language of an expression -/
namespace Verif.Regex
open Verif

/-- The language of a regular expression. -/
inductive Lang : Re → Bytes → Prop
  | eps : Lang .eps []
  | cls {p : UInt8 → Bool} {c : UInt8} (h : p c = true) : Lang (.cls p) [c]
  | altL {a b : Re} {s : Bytes} (h : Lang a s) : Lang (.alt a b) s
  | altR {a b : Re} {s : Bytes} (h : Lang b s) : Lang (.alt a b) s
  | seq {a b : Re} {s t : Bytes} (h : Lang a s) (h' : Lang b t) : Lang (.seq a b) (s ++ t)
  | starNil {a : Re} : Lang (.star a) []
  | starCons {a : Re} {s t : Bytes} (h : Lang a s) (h' : Lang (.star a) t) : Lang (.star a) (s ++ t)

namespace Lang

theorem none_iff {s : Bytes} : Lang .none s ↔ False := by constructor <;> intro h <;> cases h
theorem eps_iff {s : Bytes} : Lang .eps s ↔ s = [] := by
  constructor
  · intro h; cases h; rfl
  · rintro rfl; exact .eps
theorem cls_iff {p : UInt8 → Bool} {s : Bytes} : Lang (.cls p) s ↔ ∃ c, s = [c] ∧ p c = true := by
  constructor
  · intro h; cases h with | cls h => exact ⟨_, rfl, h⟩
  · rintro ⟨c, rfl, h⟩; exact .cls h
theorem alt_iff {a b : Re} {s : Bytes} : Lang (.alt a b) s ↔ Lang a s ∨ Lang b s := by
  constructor
  · intro h
    cases h with
    | altL h => exact Or.inl h
    | altR h => exact Or.inr h
  · rintro (h | h)
    · exact .altL h
    · exact .altR h
theorem seq_iff {a b : Re} {s : Bytes} : Lang (.seq a b) s ↔ ∃ x y, s = x ++ y ∧ Lang a x ∧ Lang b y := by
  constructor
  · intro h; cases h with | seq h h' => exact ⟨_, _, rfl, h, h'⟩
  · rintro ⟨x, y, rfl, h, h'⟩; exact .seq h h'

/-- A non-empty word of `a*` begins with a non-empty word of `a`. -/
theorem star_cons {r : Re} {w : Bytes} (h : Lang r w) : ∀ a, r = .star a → ∀ c s, w = c :: s →
    ∃ x y, s = x ++ y ∧ Lang a (c :: x) ∧ Lang (.star a) y := by
  induction h with
  | starNil => intro a _ c s h; cases h
  | @starCons a u t h h' _ ih =>
    intro b hb c s hw
    injection hb with hb
    subst hb
    cases u with
    | nil => exact ih _ rfl c s hw
    | cons d u =>
      simp only [List.cons_append, List.cons.injEq] at hw
      obtain ⟨rfl, rfl⟩ := hw
      exact ⟨u, t, rfl, h, h'⟩
  | eps => intro a h; cases h
  | cls _ => intro a h; cases h
  | altL _ _ => intro a h; cases h
  | altR _ _ => intro a h; cases h
  | seq _ _ _ _ => intro a h; cases h

theorem nullable_iff (r : Re) : r.nullable = true ↔ Lang r [] := by
  induction r with
  | none => simp [Re.nullable, none_iff]
  | eps => simp [Re.nullable, eps_iff]
  | cls p => simp [Re.nullable, cls_iff]
  | alt a b iha ihb => simp [Re.nullable, alt_iff, iha, ihb]
  | seq a b iha ihb =>
    simp only [Re.nullable, Bool.and_eq_true, iha, ihb, seq_iff]
    constructor
    · rintro ⟨h, h'⟩; exact ⟨[], [], rfl, h, h'⟩
    · rintro ⟨x, y, h, h1, h2⟩
      obtain ⟨rfl, rfl⟩ := List.append_eq_nil_iff.1 h.symm
      exact ⟨h1, h2⟩
  | star a _ => simp [Re.nullable, Lang.starNil]

theorem deriv_iff (r : Re) (c : UInt8) : ∀ s, Lang (r.deriv c) s ↔ Lang r (c :: s) := by
  induction r with
  | none => intro s; simp [Re.deriv, none_iff]
  | eps => intro s; simp [Re.deriv, none_iff, eps_iff]
  | cls p =>
    intro s
    simp only [Re.deriv, cls_iff]
    split
    · next h =>
      rw [eps_iff]
      constructor
      · rintro rfl; exact ⟨c, rfl, h⟩
      · rintro ⟨d, hd, _⟩
        simp only [List.cons.injEq] at hd
        exact hd.2
    · next h =>
      rw [none_iff]
      constructor
      · exact False.elim
      · rintro ⟨d, hd, hp⟩
        simp only [List.cons.injEq] at hd
        rw [hd.1] at h
        exact h hp
  | alt a b iha ihb => intro s; simp [Re.deriv, alt_iff, iha, ihb]
  | seq a b iha ihb =>
    intro s
    have key : Lang (.seq a b) (c :: s) ↔
        (∃ x y, s = x ++ y ∧ Lang a (c :: x) ∧ Lang b y) ∨ (Lang a [] ∧ Lang b (c :: s)) := by
      rw [seq_iff]
      constructor
      · rintro ⟨x, y, h, h1, h2⟩
        cases x with
        | nil => simp only [List.nil_append] at h; subst h; exact Or.inr ⟨h1, h2⟩
        | cons d x =>
          simp only [List.cons_append, List.cons.injEq] at h
          obtain ⟨rfl, rfl⟩ := h
          exact Or.inl ⟨x, y, rfl, h1, h2⟩
      · rintro (⟨x, y, rfl, h1, h2⟩ | ⟨h1, h2⟩)
        · exact ⟨c :: x, y, rfl, h1, h2⟩
        · exact ⟨[], c :: s, rfl, h1, h2⟩
    rw [key]
    simp only [Re.deriv]
    split
    · next h =>
      rw [nullable_iff] at h
      rw [alt_iff, seq_iff, ihb]
      simp only [iha, h, true_and]
    · next h =>
      rw [nullable_iff] at h
      rw [seq_iff]
      simp only [iha, h, false_and, or_false]
  | star a iha =>
    intro s
    simp only [Re.deriv, seq_iff, iha]
    constructor
    · rintro ⟨x, y, rfl, h1, h2⟩; exact Lang.starCons h1 h2
    · intro h; exact star_cons h a rfl c s rfl

end Lang

theorem matches_iff (r : Re) (s : Bytes) : r.matches' s = true ↔ Lang r s := by
  induction s generalizing r with
  | nil => exact Lang.nullable_iff r
  | cons c s ih => rw [Re.matches', ih, Lang.deriv_iff]

/-- A class followed by anything. -/
theorem lang_cls_seq {p : UInt8 → Bool} {r : Re} {s : Bytes} :
    Lang (.seq (.cls p) r) s ↔ ∃ c t, s = c :: t ∧ p c = true ∧ Lang r t := by
  rw [Lang.seq_iff]
  constructor
  · rintro ⟨x, y, rfl, h1, h2⟩
    obtain ⟨c, rfl, hc⟩ := Lang.cls_iff.1 h1
    exact ⟨c, y, rfl, hc, h2⟩
  · rintro ⟨c, t, rfl, hc, h⟩
    exact ⟨[c], t, rfl, .cls hc, h⟩

/-- One class per position. -/
def Chain (ps : List (UInt8 → Bool)) (s : Bytes) : Prop := List.Forall₂ (fun p c => p c = true) ps s

theorem chain_cls {p : UInt8 → Bool} {r : Re} {ps : List (UInt8 → Bool)}
    (h : ∀ s, Lang r s ↔ Chain ps s) (s : Bytes) : Lang (.seq (.cls p) r) s ↔ Chain (p :: ps) s := by
  rw [lang_cls_seq]
  constructor
  · rintro ⟨c, t, rfl, hc, ht⟩
    exact List.Forall₂.cons hc ((h t).1 ht)
  · intro hs
    cases hs with
    | cons hc ht => exact ⟨_, _, rfl, hc, (h _).2 ht⟩

theorem lang_seq_assoc {a b c : Re} {s : Bytes} :
    Lang (.seq (.seq a b) c) s ↔ Lang (.seq a (.seq b c)) s := by
  simp only [Lang.seq_iff]
  constructor
  · rintro ⟨x, y, rfl, ⟨u, v, rfl, hu, hv⟩, hy⟩
    exact ⟨u, v ++ y, by simp, hu, v, y, rfl, hv, hy⟩
  · rintro ⟨u, w, rfl, hu, v, y, rfl, hv, hy⟩
    exact ⟨u ++ v, y, by simp, ⟨u, v, rfl, hu, hv⟩, hy⟩

theorem lang_eps_seq {c : Re} {s : Bytes} : Lang (.seq .eps c) s ↔ Lang c s := by
  rw [Lang.seq_iff]
  constructor
  · rintro ⟨x, y, rfl, hx, hy⟩
    rw [Lang.eps_iff.1 hx]
    exact hy
  · intro h; exact ⟨[], s, rfl, .eps, h⟩

theorem chain_times {p : UInt8 → Bool} {r : Re} {ps : List (UInt8 → Bool)}
    (h : ∀ s, Lang r s ↔ Chain ps s) (n : Nat) (s : Bytes) :
    Lang (.seq ((Re.cls p).times n) r) s ↔ Chain (List.replicate n p ++ ps) s := by
  induction n generalizing s with
  | zero => rw [Re.times, lang_eps_seq, h]; rfl
  | succ n ih =>
    rw [Re.times, lang_seq_assoc]
    exact chain_cls (fun s => ih s) s

theorem chain_times_end {p : UInt8 → Bool} (n : Nat) (s : Bytes) :
    Lang ((Re.cls p).times n) s ↔ Chain (List.replicate n p) s := by
  induction n generalizing s with
  | zero =>
    rw [Re.times, Lang.eps_iff]
    constructor
    · rintro rfl; exact List.Forall₂.nil
    · intro h; cases h; rfl
  | succ n ih => exact chain_cls (fun s => ih s) s

end Verif.Regex
