import Verif.Proof.Sync
import Mathlib.Tactic.ByContra
import Mathlib.Order.Basic
/-!
# C60: contact sync framing; C72: which contacts are sent

The specification says what it means for a stream to be a sequence of length-prefixed records, without
mentioning the encoder.
-/
namespace Verif.Props.Sync
open Verif Verif.Sync Verif.Regex Verif.Contacts

/-- `b` is the base-128 numeral of `n`: every byte but the last has its top bit set. -/
inductive Numeral : Bytes → Nat → Prop
  | last {b : UInt8} (h : b.toNat < 128) : Numeral [b] b.toNat
  | more {b : UInt8} {r : Bytes} {n : Nat} (h : 128 ≤ b.toNat) (hr : Numeral r n) :
      Numeral (b :: r) (b.toNat - 128 + 128 * n)

/-- The stream `s` consists of the records `rs`, each preceded by its length. -/
inductive Splits : Bytes → List Bytes → Prop
  | nil : Splits [] []
  | cons {p r s : Bytes} {rs : List Bytes} (hp : Numeral p r.length) (hs : Splits s rs) :
      Splits (p ++ r ++ s) (r :: rs)

theorem encVarint_numeral (n : Nat) : Numeral (Wire.encVarint n) n := by
  induction n using Nat.strongRecOn with
  | ind n ih =>
    rw [Wire.encVarint]
    split
    · next h =>
      have h1 : (UInt8.ofNat n).toNat = n := Wire.toNat_ofNat_lt n (by omega)
      have := @Numeral.last (UInt8.ofNat n) (by omega)
      rwa [h1] at this
    · next h =>
      have h1 : (UInt8.ofNat (n % 128 + 128)).toNat = n % 128 + 128 := Wire.toNat_ofNat_lt _ (by omega)
      have := @Numeral.more (UInt8.ofNat (n % 128 + 128)) _ _ (by omega) (ih (n / 128) (by omega))
      rw [h1] at this
      have h2 : n % 128 + 128 - 128 + 128 * (n / 128) = n := by omega
      rwa [h2] at this

theorem numeral_ne_nil {p : Bytes} {n : Nat} (h : Numeral p n) : p ≠ [] := by
  cases h <;> simp

theorem numeral_prefix {p q x y : Bytes} {n m : Nat} (hp : Numeral p n) (hq : Numeral q m)
    (h : p ++ x = q ++ y) : p = q ∧ n = m ∧ x = y := by
  induction hp generalizing q m with
  | last hb =>
    cases hq with
    | last hc =>
      simp only [List.cons_append, List.nil_append, List.cons.injEq] at h
      obtain ⟨rfl, rfl⟩ := h
      exact ⟨rfl, rfl, rfl⟩
    | more hc hr =>
      simp only [List.cons_append, List.nil_append, List.cons.injEq] at h
      obtain ⟨rfl, _⟩ := h
      omega
  | more hb hr ih =>
    cases hq with
    | last hc =>
      simp only [List.cons_append, List.nil_append, List.cons.injEq] at h
      obtain ⟨rfl, _⟩ := h
      omega
    | more hc hr' =>
      simp only [List.cons_append, List.cons.injEq] at h
      obtain ⟨rfl, h⟩ := h
      obtain ⟨rfl, rfl, rfl⟩ := ih hr' h
      exact ⟨rfl, rfl, rfl⟩

/-- **C60 (unambiguous).** A stream can be split into records in at most one way. -/
theorem C60_one_reading {s : Bytes} {a b : List Bytes} (ha : Splits s a) (hb : Splits s b) : a = b := by
  induction ha generalizing b with
  | nil =>
    generalize hs : ([] : Bytes) = s at hb
    cases hb with
    | nil => rfl
    | cons hp _ =>
      have := numeral_ne_nil hp
      simp_all
  | @cons p r s rs hp _ ih =>
    generalize hs : p ++ r ++ s = w at hb
    cases hb with
    | nil =>
      have := numeral_ne_nil hp
      simp_all
    | @cons p' r' s' rs' hp' hb' =>
      simp only [List.append_assoc] at hs
      obtain ⟨_, hl, hrest⟩ := numeral_prefix hp hp' hs
      obtain ⟨rfl, rfl⟩ := List.append_inj hrest hl
      rw [ih hb']

/-- **C60.** Whatever `proto.Marshal` does, the stream written is split by a reader into exactly the
records of the items that could be encoded, in order — and (`C60_one_reading`) into nothing else. -/
theorem C60_stream_splits {α : Type} (marshal : α → Option Bytes) (items : List α) (s : Bytes)
    (h : frames marshal items = .ok s) : Splits s (items.filterMap marshal) := by
  induction items generalizing s with
  | nil => simp only [frames, Res.ok.injEq] at h; subst h; exact .nil
  | cons a r ih =>
    simp only [frames] at h
    cases hm : marshal a with
    | none =>
      rw [hm] at h
      rw [List.filterMap_cons_none hm]
      exact ih s h
    | some b =>
      rw [hm] at h
      rw [List.filterMap_cons_some hm]
      simp only [Res.bind_eq_ok, Res.ok.injEq] at h
      obtain ⟨p, hp, rest, hrest, rfl⟩ := h
      simp only [varint32] at hp
      split at hp
      · injection hp with hp
        subst hp
        exact .cons (encVarint_numeral _) (ih _ hrest)
      · cases hp

/-- **C60 (always written).** With records below 2^35 bytes — so certainly below 2^32 — the stream is
produced; the five byte buffer of the length prefix never overflows. -/
theorem C60_written {α : Type} (marshal : α → Option Bytes) (items : List α)
    (hlen : ∀ a ∈ items, ∀ b, marshal a = some b → b.length < 2 ^ 35) :
    ∃ s, frames marshal items = .ok s := by
  induction items with
  | nil => exact ⟨[], rfl⟩
  | cons a r ih =>
    obtain ⟨s, hs⟩ := ih (fun x hx => hlen x (by simp [hx]))
    simp only [frames]
    cases hm : marshal a with
    | none => exact ⟨s, hs⟩
    | some b =>
      have h1 := encVarint_len 4 b.length (lt_of_lt_of_eq (hlen a (by simp) b hm) (by decide))
      refine ⟨Wire.encVarint b.length ++ b ++ s, ?_⟩
      simp only [varint32, h1, if_true, hs, Res.ok_bind]

/-- The bound is the exact one: a longer record makes the call panic. -/
theorem C60_too_long {α : Type} (marshal : α → Option Bytes) (a : α) (r : List α) (b : Bytes)
    (hm : marshal a = some b) (hb : 2 ^ 35 ≤ b.length) : frames marshal (a :: r) = .panic := by
  have h1 := encVarint_long 5 b.length (le_of_eq_of_le (by decide) hb)
  simp only [frames, hm, varint32]
  rw [if_neg (by omega)]
  rfl

/-- **C60 (contacts).** The uploaded contact stream is read back as the records of the contacts whose
UUID text passes the check, in the order of the contact list. -/
theorem C60_contact_stream (marshal : Contact → Option Bytes) (lc : List Contact)
    (hlen : ∀ c ∈ lc, ∀ b, marshal c = some b → b.length < 2 ^ 32) :
    ∃ s, contactStream marshal lc = .ok s ∧
      ∀ rs, Splits s rs ↔ rs = (lc.filter (fun c => isValidUUID c.uuid)).filterMap marshal := by
  obtain ⟨s, hs⟩ := C60_written marshal (lc.filter (fun c => isValidUUID c.uuid))
    (fun a ha b hb => Nat.lt_trans (hlen a (List.mem_of_mem_filter ha) b hb) (by decide))
  have h2 := C60_stream_splits _ _ _ hs
  refine ⟨s, hs, fun rs => ⟨fun h => C60_one_reading h h2, ?_⟩⟩
  rintro rfl
  exact h2

/-- Three records, one of 200 bytes (two byte prefix) and one empty. -/
example : ∃ s, frames (fun b : Bytes => some b) [[1, 2, 3], List.replicate 200 7, []] = .ok s ∧
    s.length = 207 ∧ Splits s [[1, 2, 3], List.replicate 200 7, []] := by
  obtain ⟨s, hs⟩ := C60_written (fun b : Bytes => some b) [[1, 2, 3], List.replicate 200 7, []] (by
    intro a ha b hb
    injection hb with hb
    subst hb
    simp only [List.mem_cons, List.not_mem_nil, or_false] at ha
    rcases ha with rfl | rfl | rfl <;> decide +kernel)
  refine ⟨s, hs, ?_, C60_stream_splits _ _ s hs⟩
  have h2 : frames (fun b : Bytes => some b) [[1, 2, 3], List.replicate 200 7, []] =
      .ok (3 :: 1 :: 2 :: 3 :: 200 :: 1 :: (List.replicate 200 7 ++ [0])) := by decide +kernel
  rw [h2] at hs
  injection hs with hs
  subst hs
  decide +kernel

/-! ## C72: the UUID check -/

def IsHex (c : UInt8) : Prop :=
  (48 ≤ c.toNat ∧ c.toNat ≤ 57) ∨ (65 ≤ c.toNat ∧ c.toNat ≤ 70) ∨ (97 ≤ c.toNat ∧ c.toNat ≤ 102)

/-- What stands at position `i` of the text of a random (version 4) UUID. -/
def At (i : Nat) (c : UInt8) : Prop :=
  if i = 8 ∨ i = 13 ∨ i = 18 ∨ i = 23 then c.toNat = 45            -- '-'
  else if i = 14 then c.toNat = 52                                  -- '4'
  else if i = 19 then c.toNat ∈ [56, 57, 97, 98, 65, 66]            -- 8 9 a b A B
  else IsHex c

/-- Text of a version 4 UUID (RFC 4122, section 4.4 and 3). -/
def V4 (s : Bytes) : Prop := s.length = 36 ∧ ∀ i c, s[i]? = some c → At i c

theorem hexClass_iff (c : UInt8) : hexClass c = true ↔ IsHex c := by
  simp only [hexClass, IsHex, Bool.or_eq_true, Bool.and_eq_true, decide_eq_true_eq, UInt8.le_iff_toNat_le]
  simp
  omega

theorem variantClass_iff (c : UInt8) :
    variantClass c = true ↔ c.toNat ∈ [56, 57, 97, 98, 65, 66] ∨ c.toNat = 124 := by
  rcases c with ⟨c⟩; revert c; decide +kernel

/-- The classes of the pattern, position by position. -/
def classes : List (UInt8 → Bool) :=
  List.replicate 8 hexClass ++ (· == 45) :: (List.replicate 4 hexClass ++ (· == 45) :: (· == 52) ::
    (List.replicate 3 hexClass ++ (· == 45) :: variantClass :: (List.replicate 3 hexClass ++ (· == 45) ::
      List.replicate 12 hexClass)))

theorem uuid_chain (s : Bytes) : isValidUUID s = true ↔ Chain classes s := by
  rw [isValidUUID, matches_iff]
  refine chain_times ?_ 8 s; intro s
  refine chain_cls ?_ s; intro s
  refine chain_times ?_ 4 s; intro s
  refine chain_cls ?_ s; intro s
  refine chain_cls ?_ s; intro s
  refine chain_times ?_ 3 s; intro s
  refine chain_cls ?_ s; intro s
  refine chain_cls ?_ s; intro s
  refine chain_times ?_ 3 s; intro s
  refine chain_cls ?_ s; intro s
  exact chain_times_end 12 s

instance (i : Nat) (c : UInt8) : Decidable (At i c) := by unfold At IsHex; infer_instance

theorem classes_at : ∀ i : Fin 36, ∀ c : Fin 256, (classes.get i) ⟨⟨c⟩⟩ = true ↔
    At i ⟨⟨c⟩⟩ ∨ (i.val = 19 ∧ (⟨⟨c⟩⟩ : UInt8).toNat = 124) := by decide +kernel

/-- What the check accepts at each position: the same, but `|` at the variant digit as well. -/
theorem uuid_positions (s : Bytes) : isValidUUID s = true ↔
    s.length = 36 ∧ ∀ i c, s[i]? = some c → At i c ∨ (i = 19 ∧ c.toNat = 124) := by
  rw [uuid_chain, Chain, List.forall₂_iff_get]
  constructor
  · rintro ⟨h1, h2⟩
    have h1 : 36 = s.length := h1
    refine ⟨h1.symm, fun i c hc => ?_⟩
    obtain ⟨hi, rfl⟩ := List.getElem?_eq_some_iff.1 hc
    have h4 : i < 36 := by omega
    have h3 := h2 i h4 hi
    exact (classes_at ⟨i, h4⟩ _).1 h3
  · rintro ⟨h1, h2⟩
    refine ⟨h1.symm, fun i hi hi' => ?_⟩
    exact (classes_at ⟨i, hi⟩ _).2 (h2 i _ (List.getElem?_eq_getElem hi'))

/-- **C72 (part).** Every version 4 UUID text is accepted, and an accepted text is one except that the
variant digit may be the character `|`. Missing: that character should be refused (`C72_bar_accepted`). -/
theorem C72_uuid_check_partial (s : Bytes) :
    (V4 s → isValidUUID s = true) ∧
    (isValidUUID s = true → s.length = 36 ∧ ∀ i c, s[i]? = some c → At i c ∨ (i = 19 ∧ c.toNat = 124)) := by
  refine ⟨fun h => (uuid_positions s).2 ⟨h.1, fun i c hc => Or.inl (h.2 i c hc)⟩, fun h => (uuid_positions s).1 h⟩

/-- **C72 refuted.** The check accepts a text that is no UUID. -/
theorem C72_bar_accepted : ∃ s, isValidUUID s = true ∧ ¬ V4 s := by
  refine ⟨"01234567-89ab-4cde-|123-456789abcdef".toList.map (fun c => UInt8.ofNat c.toNat), by decide +kernel, ?_⟩
  intro h
  have := h.2 19 124 (by decide +kernel)
  revert this
  decide +kernel

/-- A contact without a registered account (all-zero UUID) is never in the stream, nor is any UUID
that is not version 4. -/
theorem C72_others_left_out (s : Bytes) (h : s[14]? ≠ some 52) : isValidUUID s = false := by
  by_contra h1
  simp only [Bool.not_eq_false] at h1
  obtain ⟨h2, h3⟩ := (uuid_positions s).1 h1
  have h4 : 14 < s.length := by omega
  have h5 := h3 14 _ (List.getElem?_eq_getElem h4)
  simp only [At] at h5
  simp at h5
  apply h
  rw [List.getElem?_eq_getElem h4]
  congr 1
  exact UInt8.toNat.inj (by simpa using h5)

/-- A real UUID passes; the all-zero one does not. -/
example : V4 ("01234567-89ab-4cde-b123-456789abcdef".toList.map (fun c => UInt8.ofNat c.toNat)) ∧
    isValidUUID ("00000000-0000-0000-0000-000000000000".toList.map (fun c => UInt8.ofNat c.toNat)) = false := by
  refine ⟨?_, by decide +kernel⟩
  obtain ⟨s, hs⟩ : ∃ s, s = "01234567-89ab-4cde-b123-456789abcdef".toList.map (fun c => UInt8.ofNat c.toNat) :=
    ⟨_, rfl⟩
  have h1 : isValidUUID s = true := by rw [hs]; decide +kernel
  have h2 : s[19]? = some 98 := by rw [hs]; decide +kernel
  rw [← hs]
  obtain ⟨h3, h4⟩ := (uuid_positions s).1 h1
  refine ⟨h3, fun i c hc => ?_⟩
  rcases h4 i c hc with h | ⟨rfl, h⟩
  · exact h
  · rw [h2] at hc
    injection hc with hc
    subst hc
    simp at h

end Verif.Props.Sync
