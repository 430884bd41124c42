import Verif.Spec.Companion
/-!
# Lemmas on the reader of the companion's messages
-/
namespace Verif.Proof.Companion
open Verif Verif.Dialogue Verif.Companion Verif.Spec.Companion

theorem filter_name {l : List (String × Json)} (h : (l.map (·.1)).Nodup) {k : String} {v : Json} (hm : (k, v) ∈ l) :
    l.filter (fun x => decide (x.1 = k)) = [(k, v)] := by
  induction l with
  | nil => simp at hm
  | cons x l ih =>
    simp only [List.map_cons, List.nodup_cons] at h
    rcases List.mem_cons.1 hm with e | hm'
    · subst e
      rw [List.filter_cons_of_pos (by simp)]
      have : l.filter (fun x => decide (x.1 = k)) = [] := by
        rw [List.filter_eq_nil_iff]
        intro y hy
        simp only [decide_eq_true_eq]
        intro e
        exact h.1 (List.mem_map.2 ⟨y, hy, e⟩)
      rw [this]
    · have hx : x.1 ≠ k := fun e => h.1 (List.mem_map.2 ⟨(k, v), hm', e.symm⟩)
      rw [List.filter_cons_of_neg (by simpa using hx)]
      exact ih h.2 hm'

theorem field_some {l : List (String × Json)} (h : (l.map (·.1)).Nodup) {k : String} {v : Json} :
    field l k = some v ↔ (k, v) ∈ l := by
  constructor
  · intro e
    unfold field at e
    simp only [Option.map_eq_some_iff] at e
    obtain ⟨⟨k', v'⟩, e1, e2⟩ := e
    have hm := List.mem_of_getLast? e1
    simp only [List.mem_filter, decide_eq_true_eq] at hm
    obtain ⟨h1, h2⟩ := hm
    simp only at h2 e2
    subst h2; subst e2
    exact h1
  · intro hm
    unfold field
    rw [filter_name h hm]
    rfl

theorem field_none {l : List (String × Json)} (h : (l.map (·.1)).Nodup) {k : String} :
    field l k = none ↔ ∀ v, (k, v) ∉ l := by
  constructor
  · intro e v hv
    rw [(field_some h).2 hv] at e
    cases e
  · intro hn
    cases e : field l k with
    | none => rfl
    | some v => exact absurd ((field_some h).1 e) (hn v)

theorem at_obj {l : List (String × Json)} {k : String} {v : Json} : At (.obj l) k v ↔ (k, v) ∈ l := by
  constructor
  · rintro ⟨l', e, h⟩
    injection e with e
    subst e
    exact h
  · intro h
    exact ⟨l, rfl, h⟩

theorem at_null {k : String} {v : Json} : ¬ At .null k v := by
  rintro ⟨l, e, _⟩
  cases e

theorem intoType_some {v : Json} {t : Option Int} (h : intoType (some v) = some t) :
    TypeText v ∧ ∀ n, t = some n ↔ v = .num (some n) := by
  cases v with
  | null => simp [intoType] at h; subst h; exact ⟨.inl rfl, by simp⟩
  | num x =>
    cases x with
    | none => simp [intoType] at h
    | some n =>
      simp only [intoType] at h
      split at h
      · rename_i hr
        simp only [Option.some.injEq] at h
        subst h
        refine ⟨.inr ⟨n, rfl, ?_, ?_⟩, by simp⟩ <;> omega
      · cases h
  | _ => simp [intoType] at h

theorem intoType_text {v : Json} (h : TypeText v) : ∃ t, intoType (some v) = some t := by
  rcases h with rfl | ⟨n, rfl, h1, h2⟩
  · exact ⟨none, rfl⟩
  · exact ⟨some n, by simp only [intoType]; rw [if_pos ⟨by omega, by omega⟩]⟩

/-- The type of an object. -/
theorem type_iff {l : List (String × Json)} (h : (l.map (·.1)).Nodup) :
    ((∃ t, intoType (field l "type") = some t) ↔ ∀ t, At (.obj l) "type" t → TypeText t) ∧
    ∀ t n, intoType (field l "type") = some t → (t = some n ↔ At (.obj l) "type" (.num (some n))) := by
  cases e : field l "type" with
  | none =>
    have hn := (field_none h).1 e
    refine ⟨⟨fun _ t ht => absurd (at_obj.1 ht) (hn t), fun _ => ⟨none, rfl⟩⟩, ?_⟩
    intro t n ht
    simp only [intoType, Option.some.injEq] at ht
    subst ht
    exact ⟨fun e => by simp at e, fun ha => absurd (at_obj.1 ha) (hn _)⟩
  | some v =>
    have hv := (field_some h).1 e
    have one : ∀ w, At (.obj l) "type" w → w = v := by
      intro w hw
      have := (field_some h).2 (at_obj.1 hw)
      rw [e] at this
      exact (Option.some.inj this).symm
    refine ⟨⟨?_, ?_⟩, ?_⟩
    · rintro ⟨t, ht⟩ w hw
      rw [one w hw]
      exact (intoType_some ht).1
    · intro hw
      exact intoType_text (hw v (at_obj.2 hv))
    · intro t n ht
      rw [(intoType_some ht).2 n]
      constructor
      · intro e2
        rw [← e2]
        exact at_obj.2 hv
      · intro ha
        exact (one _ ha).symm

/-- A part of an object. -/
theorem part_iff {l : List (String × Json)} (h : (l.map (·.1)).Nodup) (k : String)
    (hd : ∀ v, At (.obj l) k v → Distinct v) :
    ((∃ p, intoPart (field l k) = some p) ↔ ∀ v, At (.obj l) k v → PartText v) ∧
    ∀ p, intoPart (field l k) = some p →
      ∀ n, (∃ m, p = some (some n, m)) ↔ ∃ v, At (.obj l) k v ∧ At v "type" (.num (some n)) := by
  cases e : field l k with
  | none =>
    have hn := (field_none h).1 e
    refine ⟨⟨fun _ t ht => absurd (at_obj.1 ht) (hn t), fun _ => ⟨none, rfl⟩⟩, ?_⟩
    intro p hp n
    simp only [intoPart, Option.some.injEq] at hp
    subst hp
    exact ⟨fun ⟨m, e⟩ => by simp at e, fun ⟨v, ha, _⟩ => absurd (at_obj.1 ha) (hn _)⟩
  | some v =>
    have hv := at_obj.2 ((field_some h).1 e)
    have one : ∀ w, At (.obj l) k w → w = v := by
      intro w hw
      have := (field_some h).2 (at_obj.1 hw)
      rw [e] at this
      exact (Option.some.inj this).symm
    cases v with
    | null =>
      refine ⟨⟨fun _ w hw => by rw [one w hw]; exact .inl rfl, fun _ => ⟨none, rfl⟩⟩, ?_⟩
      intro p hp n
      simp only [intoPart, Option.some.injEq] at hp
      subst hp
      refine ⟨fun ⟨m, e⟩ => by simp at e, fun ⟨w, hw, ha⟩ => ?_⟩
      rw [one w hw] at ha
      exact absurd ha at_null
    | obj l' =>
      have hl' := hd _ hv l' rfl
      obtain ⟨t1, t2⟩ := type_iff hl'
      refine ⟨⟨?_, ?_⟩, ?_⟩
      · rintro ⟨p, hp⟩ w hw
        rw [one w hw]
        refine .inr ⟨⟨l', rfl⟩, t1.1 ?_⟩
        simp only [intoPart, Option.map_eq_some_iff] at hp
        obtain ⟨t, ht, _⟩ := hp
        exact ⟨t, ht⟩
      · intro hw
        rcases hw _ hv with e' | ⟨_, ht⟩
        · cases e'
        · obtain ⟨t, ht⟩ := t1.2 ht
          exact ⟨some (t, (field l' "message").getD .null), by simp only [intoPart, ht, Option.map_some]⟩
      · intro p hp n
        simp only [intoPart, Option.map_eq_some_iff] at hp
        obtain ⟨t, ht, rfl⟩ := hp
        constructor
        · rintro ⟨m, e'⟩
          simp only [Option.some.injEq, Prod.mk.injEq] at e'
          exact ⟨_, hv, (t2 t n ht).1 e'.1⟩
        · rintro ⟨w, hw, ha⟩
          rw [one w hw] at ha
          exact ⟨_, by rw [(t2 t n ht).2 ha]⟩
    | _ =>
      refine ⟨⟨fun ⟨p, hp⟩ => by simp [intoPart] at hp, fun hw => ?_⟩, fun p hp => by simp [intoPart] at hp⟩
      rcases hw _ hv with e' | ⟨⟨l', e'⟩, _⟩ <;> cases e'

/-- The message of a part. -/
theorem part_message {l : List (String × Json)} (h : (l.map (·.1)).Nodup) {k : String} {v : Json} {n : Int} {m m' : Json}
    (hv : At (.obj l) k v) (hd : Distinct v) (hm : Body v m)
    (hp : intoPart (field l k) = some (some (some n, m'))) : m' = m := by
  rw [(field_some h).2 (at_obj.1 hv)] at hp
  cases v with
  | obj l' =>
    simp only [intoPart, Option.map_eq_some_iff] at hp
    obtain ⟨t, _, e⟩ := hp
    simp only [Option.some.injEq, Prod.mk.injEq] at e
    rcases hm with hm | ⟨rfl, hm⟩
    · rw [← e.2, (field_some (hd l' rfl)).2 (at_obj.1 hm)]
      rfl
    · rw [← e.2, (field_none (hd l' rfl)).2 (fun v hv => hm v (at_obj.2 hv))]
      rfl
  | _ => simp [intoPart] at hp

theorem parse_iff {j : Json} (hc : Clear j) : (∃ f, parse j = some f) ↔ Readable j := by
  cases j with
  | null => exact ⟨fun _ => .inl rfl, fun _ => ⟨_, rfl⟩⟩
  | obj l =>
    have hl := hc.1 l rfl
    obtain ⟨t1, -⟩ := type_iff hl
    obtain ⟨q1, -⟩ := part_iff hl "request" (hc.2 "request")
    obtain ⟨r1, -⟩ := part_iff hl "response" (hc.2 "response")
    constructor
    · rintro ⟨f, hf⟩
      simp only [parse] at hf
      split at hf
      · rename_i t q r ht hq hr
        exact .inr ⟨⟨l, rfl⟩, t1.1 ⟨t, ht⟩, q1.1 ⟨q, hq⟩, r1.1 ⟨r, hr⟩⟩
      · cases hf
    · rintro (e | ⟨_, a, b, c⟩)
      · cases e
      · obtain ⟨t, ht⟩ := t1.2 a
        obtain ⟨q, hq⟩ := q1.2 b
        obtain ⟨r, hr⟩ := r1.2 c
        exact ⟨⟨t, q, r⟩, by simp only [parse, ht, hq, hr]⟩
  | _ =>
    refine ⟨fun ⟨f, hf⟩ => by simp [parse] at hf, ?_⟩
    rintro (e | ⟨⟨l, e⟩, _⟩) <;> cases e

/-- What is read, in terms of the text. -/
theorem parse_says {j : Json} (hc : Clear j) {f : Frame} (hf : parse j = some f) :
    (∀ n, f.type = some n ↔ At j "type" (.num (some n))) ∧
    (∀ n, (∃ m, f.request = some (some n, m)) ↔ ∃ v, At j "request" v ∧ At v "type" (.num (some n))) ∧
    (∀ n, (∃ m, f.response = some (some n, m)) ↔ ∃ v, At j "response" v ∧ At v "type" (.num (some n))) ∧
    ∀ v n m m', At j "response" v → Body v m → f.response = some (some n, m') → m' = m := by
  cases j with
  | null =>
    simp only [parse, Option.some.injEq] at hf
    subst hf
    refine ⟨fun n => ⟨fun e => by simp at e, fun h => absurd h at_null⟩,
      fun n => ⟨fun ⟨m, e⟩ => by simp at e, fun ⟨v, h, _⟩ => absurd h at_null⟩,
      fun n => ⟨fun ⟨m, e⟩ => by simp at e, fun ⟨v, h, _⟩ => absurd h at_null⟩,
      fun v n m m' h => absurd h at_null⟩
  | obj l =>
    have hl := hc.1 l rfl
    simp only [parse] at hf
    split at hf
    · rename_i t q r ht hq hr
      simp only [Option.some.injEq] at hf
      subst hf
      refine ⟨fun n => (type_iff hl).2 t n ht, fun n => (part_iff hl "request" (hc.2 "request")).2 q hq n,
        fun n => (part_iff hl "response" (hc.2 "response")).2 r hr n, ?_⟩
      intro v n m m' hv hm e
      simp only at e
      subst e
      exact part_message hl hv (hc.2 _ _ hv) hm hr
    · cases hf
  | _ => simp [parse] at hf

end Verif.Proof.Companion
