import Verif.Model.Discovery
import Verif.Spec.Discovery
import Verif.Proof.Contacts
import Verif.Proof.Encoding
import Verif.Proof.Wire
import Mathlib.Tactic.Ring
import Mathlib.Tactic.ByContra
import Mathlib.Data.List.Induction
import Mathlib.Tactic.Linarith
import Mathlib.Tactic.Positivity
/-! # Facts about contact discovery -/
namespace Verif.Discovery
open Verif Verif.Contacts Verif.Discovery.Spec

/-! ## Numbers -/

theorem digitsVal_spec (s : Bytes) (acc n : Nat) : digitsVal acc s = some n ↔
    ∃ ds : List Nat, (∀ d ∈ ds, d < 10) ∧ s = ds.map (fun d => UInt8.ofNat (48 + d)) ∧
      n = acc * 10 ^ ds.length + Nat.ofDigits 10 ds.reverse := by
  induction s generalizing acc with
  | nil =>
    simp only [digitsVal, Option.some.injEq]
    constructor
    · rintro rfl; exact ⟨[], by simp, rfl, by simp [Nat.ofDigits]⟩
    · rintro ⟨ds, _, h, rfl⟩
      have : ds = [] := by simpa using h.symm
      subst this
      simp [Nat.ofDigits]
  | cons c r ih =>
    simp only [digitsVal]
    split
    · next hc =>
      rw [ih]
      constructor
      · rintro ⟨ds, h1, rfl, rfl⟩
        refine ⟨(c.toNat - 48) :: ds, ?_, ?_, ?_⟩
        · intro d hd
          rcases List.mem_cons.1 hd with rfl | hd
          · omega
          · exact h1 d hd
        · simp only [List.map_cons, List.cons.injEq, and_true]
          have : 48 + (c.toNat - 48) = c.toNat := by omega
          rw [this]
          simp
        · rw [List.reverse_cons, Nat.ofDigits_append]
          simp only [List.length_cons, List.length_reverse, Nat.ofDigits_singleton, pow_succ]
          ring
      · rintro ⟨ds, h1, h2, rfl⟩
        cases ds with
        | nil => simp at h2
        | cons d ds =>
          simp only [List.map_cons, List.cons.injEq] at h2
          obtain ⟨rfl, rfl⟩ := h2
          have hd : d < 10 := h1 d (by simp)
          have : (UInt8.ofNat (48 + d)).toNat = 48 + d := Wire.toNat_ofNat_lt _ (by omega)
          refine ⟨ds, fun x hx => h1 x (by simp [hx]), rfl, ?_⟩
          rw [this, List.reverse_cons, Nat.ofDigits_append]
          simp only [List.length_cons, List.length_reverse, Nat.ofDigits_singleton, pow_succ]
          have : 48 + d - 48 = d := by omega
          rw [this]
          ring
    · next hc =>
      constructor
      · intro h; cases h
      · rintro ⟨ds, h1, h2, rfl⟩
        cases ds with
        | nil => simp at h2
        | cons d ds =>
          simp only [List.map_cons, List.cons.injEq] at h2
          obtain ⟨rfl, rfl⟩ := h2
          have hd : d < 10 := h1 d (by simp)
          have : (UInt8.ofNat (48 + d)).toNat = 48 + d := Wire.toNat_ofNat_lt _ (by omega)
          omega

theorem digit_ne (d : Nat) (h : d < 10) : UInt8.ofNat (48 + d) ≠ 43 ∧ UInt8.ofNat (48 + d) ≠ 45 := by
  have : (UInt8.ofNat (48 + d)).toNat = 48 + d := Wire.toNat_ofNat_lt _ (by omega)
  constructor <;> (intro h'; rw [h'] at this; simp at this; omega)

theorem signed_digits (ds : List Nat) (h : ∀ d ∈ ds, d < 10) :
    signed (ds.map (fun d => UInt8.ofNat (48 + d))) = (false, ds.map (fun d => UInt8.ofNat (48 + d))) := by
  cases ds with
  | nil => rfl
  | cons d ds =>
    obtain ⟨h1, h2⟩ := digit_ne d (h d (by simp))
    simp only [List.map_cons]
    unfold signed
    split
    · next heq => simp only [List.cons.injEq] at heq; exact absurd heq.1 h1
    · next heq => simp only [List.cons.injEq] at heq; exact absurd heq.1 h2
    · rfl

theorem signed_cases (s : Bytes) : (signed s = (false, s)) ∨ (∃ r, s = 43 :: r ∧ signed s = (false, r)) ∨
    (∃ r, s = 45 :: r ∧ signed s = (true, r)) := by
  unfold signed
  split
  · exact Or.inr (Or.inl ⟨_, rfl, rfl⟩)
  · exact Or.inr (Or.inr ⟨_, rfl, rfl⟩)
  · exact Or.inl rfl

/-- `parse` reads exactly the decimal numerals that fit. -/
theorem parse_iff (s : Bytes) (v : Int) : parse s = .ok v ↔ Decimal s v ∧ Fits v := by
  rw [parse]
  constructor
  · intro h
    split at h
    · cases h
    · next hne =>
      split at h
      · cases h
      · next n hn =>
        obtain ⟨ds, h1, h2, h3⟩ := (digitsVal_spec _ _ _).1 hn
        have hds : ds ≠ [] := by rintro rfl; exact hne (by simpa using h2)
        have hn' : n = value 10 ds := by simpa [value] using h3
        rcases signed_cases s with hs | ⟨r, rfl, hs⟩ | ⟨r, rfl, hs⟩
        · rw [hs] at h h2
          simp only [Bool.false_eq_true, if_false] at h
          split at h
          · injection h with h
            subst h
            refine ⟨⟨ds, hds, h1, Or.inl ⟨h2, by rw [hn']⟩⟩, ?_⟩
            constructor
            · omega
            · omega
          · cases h
        · rw [hs] at h h2
          simp only [Bool.false_eq_true, if_false] at h
          split at h
          · injection h with h
            subst h
            refine ⟨⟨ds, hds, h1, Or.inr (Or.inl ⟨by rw [← h2], by rw [hn']⟩)⟩, ?_⟩
            constructor
            · omega
            · omega
          · cases h
        · rw [hs] at h h2
          simp only [if_true] at h
          split at h
          · injection h with h
            subst h
            refine ⟨⟨ds, hds, h1, Or.inr (Or.inr ⟨by rw [← h2], by rw [hn']⟩)⟩, ?_⟩
            constructor
            · omega
            · omega
          · cases h
  · rintro ⟨⟨ds, hds, h1, h⟩, hlo, hhi⟩
    have key := (digitsVal_spec (ds.map (fun d => UInt8.ofNat (48 + d))) 0 (value 10 ds)).2
      ⟨ds, h1, rfl, by simp [value]⟩
    have hne : ds.map (fun d => UInt8.ofNat (48 + d)) ≠ [] := by simpa using hds
    rcases h with ⟨rfl, rfl⟩ | ⟨rfl, rfl⟩ | ⟨rfl, rfl⟩
    · rw [signed_digits ds h1]
      simp only [if_neg hne, key, Bool.false_eq_true, if_false]
      rw [if_pos (by omega)]
    · have : signed (43 :: ds.map (fun d => UInt8.ofNat (48 + d))) =
        (false, ds.map (fun d => UInt8.ofNat (48 + d))) := rfl
      rw [this]
      simp only [if_neg hne, key, Bool.false_eq_true, if_false]
      rw [if_pos (by omega)]
    · have : signed (45 :: ds.map (fun d => UInt8.ofNat (48 + d))) =
        (true, ds.map (fun d => UInt8.ofNat (48 + d))) := rfl
      rw [this]
      simp only [if_neg hne, key, if_true]
      rw [if_pos (by omega)]

theorem parse_cases (s : Bytes) : (∃ v, parse s = .ok v) ∨ parse s = .err .badEncoding := by
  rw [parse]
  split
  · exact Or.inr rfl
  · split
    · exact Or.inr rfl
    · split <;> split
      · exact Or.inl ⟨_, rfl⟩
      · exact Or.inr rfl
      · exact Or.inl ⟨_, rfl⟩
      · exact Or.inr rfl

theorem beBytes_length (k n : Nat) : (beBytes k n).length = k := by
  induction k generalizing n with
  | zero => rfl
  | succ k ih => simp [beBytes, ih]

theorem beBytes_value (k n : Nat) (h : n < 256 ^ k) :
    value 256 ((beBytes k n).map (fun c => c.toNat)) = n := by
  rw [value, ← List.map_reverse]
  induction k generalizing n with
  | zero => simp only [pow_zero] at h; simp [beBytes, Nat.ofDigits]; omega
  | succ k ih =>
    simp only [beBytes, List.reverse_cons, List.map_append, List.map_cons, List.map_nil]
    rw [Nat.ofDigits_append, ih _ (Nat.mod_lt _ (by positivity))]
    have h1 : n / 256 ^ k < 256 := by
      rw [Nat.div_lt_iff_lt_mul (by positivity)]
      rw [pow_succ] at h
      linarith
    simp only [List.length_map, List.length_reverse, beBytes_length, Nat.ofDigits_singleton,
      Wire.toNat_ofNat_lt _ h1]
    have := Nat.mod_add_div n (256 ^ k)
    exact this

theorem word_toByteArray (v : Int) (h : Fits v) : word (toByteArray v) = v := by
  obtain ⟨h1, h2⟩ := h
  have h0 : 0 ≤ v % 2 ^ 64 := Int.emod_nonneg _ (by decide)
  have h3 : v % 2 ^ 64 < 2 ^ 64 := Int.emod_lt_of_pos _ (by decide)
  have h4 : (v % 2 ^ 64).toNat < 256 ^ 8 := by omega
  have h5 : value 256 ((toByteArray v).map (fun c => c.toNat)) = (v % 2 ^ 64).toNat := beBytes_value 8 _ h4
  simp only [word, h5]
  by_cases hv : 0 ≤ v
  · have : v % 2 ^ 64 = v := Int.emod_eq_of_lt hv (by omega)
    rw [this, if_pos (by omega)]
    omega
  · have : v % 2 ^ 64 = v + 2 ^ 64 := by
      rw [← Int.add_emod_right]
      exact Int.emod_eq_of_lt (by omega) (by omega)
    rw [this, if_neg (by omega)]
    omega

theorem queryNumbers_ok {book : List Bytes} {d : Bytes} (h : queryNumbers book = .ok d) :
    d.length = 8 * book.length ∧ ∀ i s, book[i]? = some s →
      ∃ v, Decimal s v ∧ Fits v ∧ word ((d.drop (8 * i)).take 8) = v := by
  induction book generalizing d with
  | nil =>
    simp only [queryNumbers, Res.ok.injEq] at h
    subst h
    simp
  | cons a r ih =>
    simp only [queryNumbers, Res.bind_eq_ok, Res.ok.injEq] at h
    obtain ⟨v, hv, rest, hrest, rfl⟩ := h
    obtain ⟨h1, h2⟩ := ih hrest
    obtain ⟨hd, hf⟩ := (parse_iff a v).1 hv
    have hl : (toByteArray v).length = 8 := beBytes_length _ _
    refine ⟨by simp [hl, h1]; omega, fun i s hs => ?_⟩
    cases i with
    | zero =>
      simp only [List.getElem?_cons_zero, Option.some.injEq] at hs
      subst hs
      refine ⟨v, hd, hf, ?_⟩
      simp only [Nat.mul_zero, List.drop_zero]
      rw [List.take_append_of_le_length (by omega), List.take_of_length_le (by omega)]
      exact word_toByteArray v hf
    | succ i =>
      simp only [List.getElem?_cons_succ] at hs
      obtain ⟨w, hw1, hw2, hw3⟩ := h2 i s hs
      refine ⟨w, hw1, hw2, ?_⟩
      have : 8 * (i + 1) = (toByteArray v).length + 8 * i := by omega
      rw [this, List.drop_length_add_append]
      exact hw3

theorem queryNumbers_exists {book : List Bytes} (h : ∀ s ∈ book, ∃ v, Decimal s v ∧ Fits v) :
    ∃ d, queryNumbers book = .ok d := by
  induction book with
  | nil => exact ⟨[], rfl⟩
  | cons a r ih =>
    obtain ⟨d, hd⟩ := ih (fun s hs => h s (by simp [hs]))
    obtain ⟨v, hv⟩ := h a (by simp)
    exact ⟨toByteArray v ++ d, by simp [queryNumbers, (parse_iff a v).2 hv, hd]⟩

theorem queryNumbers_fails {book : List Bytes} (h : ∃ s ∈ book, ¬ ∃ v, Decimal s v ∧ Fits v) :
    queryNumbers book = .err .badEncoding := by
  induction book with
  | nil => simp at h
  | cons a r ih =>
    simp only [queryNumbers]
    rcases parse_cases a with ⟨v, hv⟩ | hv
    · rw [hv]
      obtain ⟨s, hs, hn⟩ := h
      have hr : ∃ s ∈ r, ¬ ∃ v, Decimal s v ∧ Fits v := by
        rcases List.mem_cons.1 hs with rfl | hs
        · exact absurd ⟨v, (parse_iff s v).1 hv⟩ hn
        · exact ⟨s, hs, hn⟩
      simp [ih hr]
    · rw [hv]; rfl

/-! ## The numbers asked about -/

theorem tokensOf_append (cs : List Contact) (c : Contact) : tokensOf (cs ++ [c]) =
    if c.tel != [] && validTel c.tel && !(tokensOf cs).contains c.tel then tokensOf cs ++ [c.tel]
    else tokensOf cs := by
  rw [tokensOf, List.foldl_append]
  rfl

theorem tokensOf_asked (cs : List Contact) : Asked (fun t => validTel t = true) cs (tokensOf cs) := by
  induction cs using List.reverseRecOn with
  | nil => exact ⟨by simp [tokensOf], by simp [tokensOf], by simp [tokensOf]⟩
  | append_singleton cs c ih =>
    obtain ⟨h1, h2, h3⟩ := ih
    rw [tokensOf_append]
    split
    · next h =>
      simp only [Bool.and_eq_true, bne_iff_ne, ne_eq, Bool.not_eq_true', List.contains_eq_mem,
        decide_eq_false_iff_not] at h
      obtain ⟨⟨ha, hb⟩, hc⟩ := h
      refine ⟨?_, ?_, ?_⟩
      · rw [List.nodup_append]
        refine ⟨h1, by simp, ?_⟩
        intro a ha' b hb' hab
        simp only [List.mem_singleton] at hb'
        subst hb'
        subst hab
        exact hc ha'
      · rw [List.map_append]
        exact h2.append (List.Sublist.refl _)
      · intro t
        simp only [List.mem_append, List.mem_singleton, h3]
        constructor
        · rintro (⟨p, q, d, hd, rfl⟩ | rfl)
          · exact ⟨p, q, d, Or.inl hd, rfl⟩
          · exact ⟨ha, hb, c, Or.inr rfl, rfl⟩
        · rintro ⟨p, q, d, hd | rfl, rfl⟩
          · exact Or.inl ⟨p, q, d, hd, rfl⟩
          · exact Or.inr rfl
    · next h =>
      refine ⟨h1, ?_, ?_⟩
      · rw [List.map_append]
        exact h2.trans (List.sublist_append_left _ _)
      · intro t
        simp only [List.mem_append, List.mem_singleton, h3]
        constructor
        · rintro ⟨p, q, d, hd, rfl⟩
          exact ⟨p, q, d, Or.inl hd, rfl⟩
        · rintro ⟨p, q, d, hd | rfl, rfl⟩
          · exact ⟨p, q, d, hd, rfl⟩
          · have h4 : d.tel ∈ tokensOf cs := by
              by_contra h5
              apply h
              simp [p, q, h5]
            obtain ⟨_, _, x, hx, hx'⟩ := (h3 _).1 h4
            exact ⟨p, q, x, hx, hx'⟩

theorem indexOf_first {t : Bytes} {cs : List Contact} {k : Nat} (h : indexOf t cs = some k) : First cs t k := by
  induction cs generalizing k with
  | nil => simp [indexOf] at h
  | cons c r ih =>
    simp only [indexOf] at h
    split at h
    · next hc =>
      simp only [Option.some.injEq] at h
      subst h
      exact ⟨⟨c, rfl, hc⟩, fun j _ hj => by omega⟩
    · next hc =>
      simp only [Option.map_eq_some_iff] at h
      obtain ⟨k', hk', rfl⟩ := h
      obtain ⟨⟨d, hd, hd'⟩, h2⟩ := ih hk'
      refine ⟨⟨d, by simpa using hd, hd'⟩, fun j x hj hx => ?_⟩
      cases j with
      | zero => simp only [List.getElem?_cons_zero, Option.some.injEq] at hx; subst hx; exact hc
      | succ j => exact h2 j x (by omega) (by simpa using hx)

theorem indexOf_none {t : Bytes} {cs : List Contact} (h : indexOf t cs = none) : ∀ c ∈ cs, c.tel ≠ t := by
  induction cs with
  | nil => simp
  | cons c r ih =>
    simp only [indexOf] at h
    split at h
    · cases h
    · next hc =>
      simp only [Option.map_eq_none_iff] at h
      intro d hd
      rcases List.mem_cons.1 hd with rfl | hd
      · exact hc
      · exact ih h d hd

theorem first_unique {cs : List Contact} {t : Bytes} {j k : Nat} (hj : First cs t j) (hk : First cs t k) : j = k := by
  obtain ⟨⟨c, hc, hc'⟩, h1⟩ := hj
  obtain ⟨⟨d, hd, hd'⟩, h2⟩ := hk
  rcases Nat.lt_trichotomy j k with h | h | h
  · exact absurd hc' (h2 j c h hc)
  · exact h
  · exact absurd hd' (h1 k d h hd)

/-- Replacing a contact by one with the same number does not move first positions. -/
theorem first_set {cs : List Contact} {t : Bytes} {j k : Nat} {c c' : Contact} (hc : cs[k]? = some c)
    (ht : c'.tel = c.tel) : First (cs.set k c') t j ↔ First cs t j := by
  have hk : k < cs.length := (List.getElem?_eq_some_iff.1 hc).1
  have key : ∀ i : Nat, (∃ x : Contact, (cs.set k c')[i]? = some x ∧ x.tel = t) ↔ (∃ x : Contact, cs[i]? = some x ∧ x.tel = t) := by
    intro i
    by_cases hi : k = i
    · subst hi
      rw [List.getElem?_set_self hk, hc]
      simp [ht]
    · rw [List.getElem?_set_ne hi]
  constructor
  · rintro ⟨h1, h2⟩
    refine ⟨(key j).1 h1, fun i x hi hx hxt => ?_⟩
    obtain ⟨y, hy, hy'⟩ := (key i).2 ⟨x, hx, hxt⟩
    exact h2 i y hi hy hy'
  · rintro ⟨h1, h2⟩
    refine ⟨(key j).2 h1, fun i x hi hx hxt => ?_⟩
    obtain ⟨y, hy, hy'⟩ := (key i).1 ⟨x, hx, hxt⟩
    exact h2 i y hi hy hy'

/-- Bytes of the reply at position `i`. -/
def chunk (data : Bytes) (i : Nat) : Bytes := (data.drop (i * 16)).take 16

/-- What the loop over the numbers does. -/
theorem assign_ok (decode : Bytes → Option Bytes) (data : Bytes) (ts : List Bytes) :
    ∀ (ind : Nat) (cs : List Contact) (m : Book) (cs' : List Contact) (m' : Book), ts.Nodup →
    assign decode data ind ts (cs, m) = .ok (cs', m') →
    (∀ i t, ts[i]? = some t → (ind + i + 1) * 16 ≤ data.length ∧ ∃ k c u, First cs t k ∧ cs[k]? = some c ∧
      Encoding.idToHexUUID (chunk data (ind + i)) = .ok u ∧ cs'[k]? = some (answered decode u c)) ∧
    (∀ k, (∀ t ∈ ts, ¬ First cs t k) → cs'[k]? = cs[k]?) ∧
    (∃ as : List Contact, as.length = ts.length ∧
      (∀ (i : Nat) (a : Contact), as[i]? = some a → ∃ t k, ts[i]? = some t ∧ First cs t k ∧ cs'[k]? = some a) ∧
      m' = as.foldl (fun m c => put m (fileKey c) c) m) := by
  induction ts with
  | nil =>
    intro ind cs m cs' m' _ h
    simp only [assign, Res.ok.injEq, Prod.mk.injEq] at h
    obtain ⟨rfl, rfl⟩ := h
    exact ⟨by simp, fun _ _ => rfl, [], rfl, by simp, rfl⟩
  | cons phone r ih =>
    intro ind cs m cs' m' hnd h
    simp only [assign] at h
    split at h
    · cases h
    · next hlen =>
      simp only [Res.bind_eq_ok] at h
      obtain ⟨u, hu, h⟩ := h
      split at h
      · cases h
      · next k hk =>
        split at h
        · cases h
        · next c hc =>
          obtain ⟨hnot, hnd'⟩ := List.nodup_cons.1 hnd
          have hf := indexOf_first hk
          have htel : (answered decode u c).tel = c.tel := rfl
          obtain ⟨h1, h2, as, h3, h4, h5⟩ := ih _ _ _ _ _ hnd' h
          have hk' : k < cs.length := (List.getElem?_eq_some_iff.1 hc).1
          have hcphone : c.tel = phone := by
            obtain ⟨⟨d, hd, hd'⟩, _⟩ := hf
            rw [hc] at hd
            injection hd with hd
            rw [hd]; exact hd'
          have hself : cs'[k]? = some (answered decode u c) := by
            rw [h2 k, List.getElem?_set_self hk']
            intro t ht hft
            rw [first_set hc htel] at hft
            obtain ⟨⟨d, hd, hd'⟩, _⟩ := hft
            rw [hc] at hd
            injection hd with hd
            subst hd
            rw [← hd', hcphone] at ht
            exact hnot ht
          refine ⟨?_, ?_, answered decode u c :: as, by simp [h3], ?_, ?_⟩
          · intro i t hi
            cases i with
            | zero =>
              simp only [List.getElem?_cons_zero, Option.some.injEq] at hi
              subst hi
              exact ⟨by omega, k, c, u, hf, hc, hu, hself⟩
            | succ i =>
              simp only [List.getElem?_cons_succ] at hi
              obtain ⟨ha, k', c', u', hb, hc', hd, he⟩ := h1 i t hi
              have hne : k ≠ k' := by
                rintro rfl
                rw [first_set hc htel] at hb
                obtain ⟨⟨d, hd, hd'⟩, _⟩ := hb
                rw [hc] at hd
                injection hd with hd
                subst hd
                rw [hcphone] at hd'
                subst hd'
                exact hnot (List.mem_of_getElem? hi)
              rw [List.getElem?_set_ne hne] at hc'
              have hb' := (first_set hc htel).1 hb
              have he' : ind + 1 + i = ind + (i + 1) := by omega
              rw [he'] at ha hd
              exact ⟨ha, k', c', u', hb', hc', hd, he⟩
          · intro j hj
            have hne : k ≠ j := by rintro rfl; exact hj phone (by simp) hf
            rw [h2 j, List.getElem?_set_ne hne]
            intro t ht hft
            exact hj t (by simp [ht]) ((first_set hc htel).1 hft)
          · intro i a hi
            cases i with
            | zero =>
              simp only [List.getElem?_cons_zero, Option.some.injEq] at hi
              subst hi
              exact ⟨phone, k, rfl, hf, hself⟩
            | succ i =>
              simp only [List.getElem?_cons_succ] at hi
              obtain ⟨t, k', ht, hft, hk'⟩ := h4 i a hi
              exact ⟨t, k', by simpa using ht, (first_set hc htel).1 hft, hk'⟩
          · rw [h5]; rfl

theorem mem_filed {as : List Contact} {m : Book} {e : Bytes × Contact}
    (h : e ∈ as.foldl (fun m c => put m (fileKey c) c) m) : e ∈ m ∨ (e.2 ∈ as ∧ e.1 = fileKey e.2) := by
  induction as generalizing m with
  | nil => exact Or.inl h
  | cons c r ih =>
    simp only [List.foldl_cons] at h
    rcases ih h with h1 | ⟨h1, h2⟩
    · rcases mem_put.1 h1 with rfl | ⟨h2, _⟩
      · exact Or.inr ⟨by simp, rfl⟩
      · exact Or.inl h2
    · exact Or.inr ⟨by simp [h1], h2⟩

theorem keyed_filed {as : List Contact} {m : Book} (h : Keyed m) :
    Keyed (as.foldl (fun m c => put m (fileKey c) c) m) := by
  induction as generalizing m with
  | nil => exact h
  | cons c r ih => exact ih (keyed_put h _ _)

theorem get_filed_other {as : List Contact} {m : Book} {k : Bytes} (h : ∀ c ∈ as, fileKey c ≠ k) :
    get (as.foldl (fun m c => put m (fileKey c) c) m) k = get m k := by
  induction as generalizing m with
  | nil => rfl
  | cons c r ih =>
    simp only [List.foldl_cons]
    rw [ih (fun d hd => h d (by simp [hd])), get_put, if_neg (h c (by simp))]

theorem get_filed {as : List Contact} {m : Book} {c : Contact} (hc : c ∈ as)
    (hu : ∀ d ∈ as, fileKey d = fileKey c → d = c) :
    get (as.foldl (fun m c => put m (fileKey c) c) m) (fileKey c) = some c := by
  induction as generalizing m with
  | nil => simp at hc
  | cons d r ih =>
    simp only [List.foldl_cons]
    by_cases h : c ∈ r
    · exact ih h (fun x hx => hu x (by simp [hx]))
    · have hd : c = d := by rcases List.mem_cons.1 hc with h1 | h1; exact h1; exact absurd h1 h
      subst hd
      have h1 : ∀ x ∈ r, fileKey x ≠ fileKey c := by
        intro x hx hk
        rw [hu x (by simp [hx]) hk] at hx
        exact h hx
      rw [get_filed_other h1, get_put, if_pos rfl]

/-- A UUID text has 36 characters. -/
theorem uuid_length {b u : Bytes} (hb : b.length = 16) (h : Encoding.idToHexUUID b = .ok u) : u.length = 36 := by
  simp only [Encoding.idToHexUUID] at h
  split at h
  · cases h
  · split at h
    · cases h
    · injection h with h
      subst h
      have h1 : (Encoding.hexEncode (b.take 8)).length = 16 := by rw [Encoding.hexEncode_length]; simp [hb]
      have h2 : (Encoding.hexEncode (b.drop 8)).length = 16 := by rw [Encoding.hexEncode_length]; simp [hb]
      simp [Encoding.dashed, h1, h2]

end Verif.Discovery
