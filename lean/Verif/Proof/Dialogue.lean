import Verif.Spec.Dialogue
/-!
# Lemmas about the registration dialogue
-/
namespace Verif.Proof.Dialogue
open Verif Verif.Dialogue Verif.Spec.Dialogue

/-- What `m` does is the beginning of `s`; if it succeeds it is all of `s`, with a result as described. -/
def Runs {α : Type} (m : M α) (s : List Ev) (Q : α → Prop) : Prop :=
  m.1 <+: s ∧ ∀ a, m.2 = .ok a → m.1 = s ∧ Q a

theorem Runs.andThen {α β : Type} {m : M α} {k : α → M β} {s s' : List Ev} {Q : α → Prop} {Q' : β → Prop}
    (h : Runs m s Q) (hk : ∀ a, Q a → Runs (k a) s' Q') : Runs (m.andThen k) (s ++ s') Q' := by
  obtain ⟨tr, o⟩ := m
  obtain ⟨h1, h2⟩ := h
  cases o with
  | ok a =>
    obtain ⟨e, q⟩ := h2 a rfl
    obtain ⟨k1, k2⟩ := hk a q
    simp only at e
    subst e
    refine ⟨?_, ?_⟩
    · exact (List.prefix_append_right_inj _).2 k1
    · intro b hb
      obtain ⟨e', q'⟩ := k2 b hb
      exact ⟨by show tr ++ (k a).1 = _; rw [e'], q'⟩
  | err => exact ⟨h1.trans (List.prefix_append _ _), fun b hb => by simp [M.andThen] at hb⟩
  | panic => exact ⟨h1.trans (List.prefix_append _ _), fun b hb => by simp [M.andThen] at hb⟩
  | waits => exact ⟨h1.trans (List.prefix_append _ _), fun b hb => by simp [M.andThen] at hb⟩

theorem Runs.weaken {α : Type} {m : M α} {s : List Ev} {Q Q' : α → Prop} (h : Runs m s Q) (hq : ∀ a, Q a → Q' a) :
    Runs m s Q' := ⟨h.1, fun a ha => ⟨(h.2 a ha).1, hq a (h.2 a ha).2⟩⟩

theorem runs_ask (w : World) (c : Callback) : Runs (ask w c) [.call c] (fun _ => w.given c = true) := by
  unfold ask Runs
  split
  · rename_i h
    exact ⟨List.prefix_rfl, fun _ _ => ⟨rfl, h⟩⟩
  · exact ⟨List.nil_prefix, fun a ha => by simp at ha⟩

theorem runs_step {α : Type} (r : Out α) : Runs (step r) [] (fun a => r = .ok a) :=
  ⟨List.prefix_rfl, fun _ h => ⟨rfl, h⟩⟩

theorem runs_made (e : Ev) (r : Out Unit) : Runs (made e r) [e] (fun _ => r = .ok ()) := by
  cases r with
  | ok a => exact ⟨List.prefix_rfl, fun _ _ => ⟨rfl, rfl⟩⟩
  | err => exact ⟨List.nil_prefix, fun a ha => by simp [made] at ha⟩
  | panic => exact ⟨List.nil_prefix, fun a ha => by simp [made] at ha⟩
  | waits => exact ⟨List.nil_prefix, fun a ha => by simp [made] at ha⟩

theorem runs_pure {α : Type} (tr : List Ev) (a : α) : Runs (tr, .ok a) tr (fun b => b = a) :=
  ⟨List.prefix_rfl, fun b h => ⟨rfl, by simpa using h.symm⟩⟩

/-- A failing step, and whatever might have come after it. -/
theorem runs_fail {α : Type} (o : Out α) (h : ∀ a, o ≠ .ok a) : Runs (([] : List Ev), o) [] (fun _ => False) :=
  ⟨List.prefix_rfl, fun a ha => absurd ha (h a)⟩

theorem Runs.cut {α β : Type} {m : M α} {k : α → M β} {s : List Ev} (h : Runs m s (fun _ => False)) :
    Runs (m.andThen k) s (fun _ => False) := by
  have := Runs.andThen (k := k) (s' := []) (Q' := fun _ => False) h (fun a ha => ha.elim)
  simpa using this

/-- The questions, up to the one for the code. -/
def opening (w : World) : List Ev :=
  [.call .config, .call .config, .call .phone, .call .captcha, .call .name, .request w.phone w.captcha, .call .code]

/-- What follows an account made. -/
def closing (w : World) (uuid : Bytes) : List Ev :=
  [.save w.phone uuid w.name, .keys, .publish, .call .done, .call .done]

theorem runs_tell (w : World) : Runs (tellDone w) [.call .done, .call .done] (fun _ => w.given .done = true) := by
  unfold tellDone
  refine Runs.andThen (runs_ask w .done) (s' := [.call .done]) fun _ h => ?_
  rw [if_pos h]
  exact runs_ask w .done

/-- The account made, if one is. -/
def madeOf (w : World) : Option Bytes :=
  match w.replies.filter (kept true) with
  | [] => none
  | r :: _ => (verified r.message).map uuidText

theorem await_eq (w : World) : awaitReply w = match w.replies.filter (kept true) with
    | [] => .waits
    | r :: _ => .ok r := by
  have h : w.early.filter (kept false) = [] := by
    rw [List.filter_eq_nil_iff]
    intro r _
    simp [kept]
  unfold awaitReply
  rw [h, List.nil_append]
  rfl

theorem runs_code_none (w : World) (h : parseCode w.code = none) :
    Runs (registerWithCode w) [] (fun _ => False) := by
  unfold registerWithCode
  rw [h]
  exact runs_fail _ (by simp)

theorem runs_code_some (w : World) (c : Nat) (h : parseCode w.code = some c) :
    Runs (registerWithCode w) [.confirm w.phone c w.name] (fun a => a.1 = w.phone ∧ madeOf w = some a.2) := by
  unfold registerWithCode madeOf
  rw [h]
  simp only [await_eq]
  cases hr : w.replies.filter (kept true) with
  | nil => exact ⟨List.prefix_rfl, fun a ha => by simp [M.andThen] at ha⟩
  | cons r rs =>
    simp only [M.andThen]
    cases hv : verified r.message with
    | none => exact ⟨by simp, fun a ha => by simp at ha⟩
    | some b =>
      refine ⟨by simp, fun a ha => ?_⟩
      simp only [Out.ok.injEq] at ha
      subst ha
      exact ⟨by simp, rfl, rfl⟩

theorem runs_opening {β : Type} (w : World) (k : Unit → M β) (s : List Ev) (Q : β → Prop)
    (h : Runs (k ()) s Q) :
    Runs ((ask w .config).andThen fun _ => (step w.again).andThen fun _ => (ask w .config).andThen fun _ =>
      (ask w .phone).andThen fun _ => (ask w .captcha).andThen fun _ => (ask w .name).andThen fun _ =>
      (register w).andThen fun _ => (ask w .code).andThen k) (opening w ++ s) Q := by
  have e : opening w ++ s = [.call .config] ++ ([] ++ ([.call .config] ++ ([.call .phone] ++ ([.call .captcha] ++
    ([.call .name] ++ ([.request w.phone w.captcha] ++ ([.call .code] ++ s))))))) := by simp [opening]
  rw [e]
  refine (runs_ask w .config).andThen fun _ _ => (runs_step w.again).andThen fun _ _ =>
    (runs_ask w .config).andThen fun _ _ => (runs_ask w .phone).andThen fun _ _ =>
    (runs_ask w .captcha).andThen fun _ _ => (runs_ask w .name).andThen fun _ _ =>
    (runs_pure [.request w.phone w.captcha] ()).andThen fun _ _ => (runs_ask w .code).andThen fun _ _ => h

theorem runs_register_none (w : World) (h : parseCode w.code = none) :
    Runs (registerDevice w) (opening w) (fun _ => False) := by
  have := runs_opening w (fun _ => (registerWithCode w).andThen fun a =>
    (made (.save a.1 a.2 w.name) w.save).andThen fun _ => (made .keys w.keys).andThen fun _ =>
    (made .publish w.publish).andThen fun _ => (tellDone w).andThen fun _ => ([], .ok w.name)) []
    (fun _ => False) (Runs.cut (runs_code_none w h))
  rw [List.append_nil] at this
  exact this

theorem runs_register_lost (w : World) (c : Nat) (h : parseCode w.code = some c) (hm : madeOf w = none) :
    Runs (registerDevice w) (opening w ++ [.confirm w.phone c w.name]) (fun _ => False) :=
  runs_opening w (fun _ => (registerWithCode w).andThen fun a =>
    (made (.save a.1 a.2 w.name) w.save).andThen fun _ => (made .keys w.keys).andThen fun _ =>
    (made .publish w.publish).andThen fun _ => (tellDone w).andThen fun _ => ([], .ok w.name)) _
    (fun _ => False) (Runs.cut ((runs_code_some w c h).weaken (fun a ha => by simp [hm] at ha)))

theorem runs_register (w : World) (c : Nat) (u : Bytes) (h : parseCode w.code = some c) (hm : madeOf w = some u) :
    Runs (registerDevice w) (opening w ++ ([.confirm w.phone c w.name] ++ closing w u))
      (fun n => n = w.name ∧ w.given .done = true) := by
  refine runs_opening w _ _ _ ?_
  refine Runs.andThen (runs_code_some w c h) fun a ha => ?_
  obtain ⟨h1, h2⟩ := ha
  rw [hm, Option.some.injEq] at h2
  have e : closing w u = [.save a.1 a.2 w.name] ++ ([.keys] ++ ([.publish] ++ ([.call .done, .call .done] ++ []))) := by
    simp [closing, h1, h2]
  rw [e]
  refine (runs_made _ w.save).andThen fun _ _ => (runs_made _ w.keys).andThen fun _ _ =>
    (runs_made _ w.publish).andThen fun _ _ => (runs_tell w).andThen fun _ hd => ?_
  exact (runs_pure [] w.name).weaken (fun n hn => ⟨hn, hd⟩)

/-- How registering ends: nothing is said about the questions before the code, which are as in `opening`. -/
inductive Ending (w : World) : List Ev → Prop
  | code : parseCode w.code = none → Ending w []
  | lost (c : Nat) : parseCode w.code = some c → madeOf w = none → Ending w [.confirm w.phone c w.name]
  | made (c : Nat) (u : Bytes) : parseCode w.code = some c → madeOf w = some u →
      Ending w ([.confirm w.phone c w.name] ++ closing w u)

/-- The name used after the account is there. -/
def finalName (w : World) (name : String) : List Ev :=
  if name = "" then [.call .name, .profile w.name] else [.profile name]

theorem runs_finish (w : World) (name : String) : Runs (finish w name) (finalName w name) (fun _ => True) := by
  unfold finish finalName
  by_cases h : name = ""
  · rw [if_pos h, if_pos h]
    have e : [Ev.call .name, .profile w.name] = ([.call .name] ++ []) ++ ([.profile w.name] ++ []) := rfl
    rw [e]
    refine Runs.andThen (Q := fun n => n = w.name) ?_ fun n hn => ?_
    · exact Runs.andThen (runs_ask w .name) fun _ _ => runs_pure [] w.name
    · subst hn
      exact Runs.andThen (runs_pure _ ()) fun _ _ => (runs_step w.rest).weaken (fun _ _ => trivial)
  · rw [if_neg h, if_neg h]
    have e : [Ev.profile name] = [] ++ ([.profile name] ++ []) := rfl
    rw [e]
    refine Runs.andThen (runs_pure [] name) fun n hn => ?_
    subst hn
    exact Runs.andThen (runs_pure _ ()) fun _ _ => (runs_step w.rest).weaken (fun _ _ => trivial)

/-- The end of `Setup`. -/
theorem runs_end (w : World) (name : String) :
    Runs ((step w.reload).andThen fun _ => (ask w .done).andThen fun _ => finish w name)
      (.call .done :: finalName w name) (fun _ => w.given .done = true) := by
  have e : Ev.call .done :: finalName w name = [] ++ ([.call .done] ++ finalName w name) := rfl
  rw [e]
  exact (runs_step w.reload).andThen fun _ _ => (runs_ask w .done).andThen fun _ h =>
    (runs_finish w name).weaken fun _ _ => h

/-- What a client does that is not registered. -/
theorem setup_new (w : World) (hn : w.registered = false) :
    (∃ tail, Ending w tail ∧ (setup w).1 <+: .call .config :: (opening w ++ tail) ∧ (setup w).2 ≠ .ok () ∧
      madeOf w = none) ∨
    (∃ tail, Ending w tail ∧ (setup w).1 <+: .call .config :: (opening w ++ tail) ∧ (setup w).2 ≠ .ok () ∧
      parseCode w.code = none) ∨
    (∃ c u, parseCode w.code = some c ∧ madeOf w = some u ∧
      Runs (setup w) (.call .config :: (opening w ++ ([.confirm w.phone c w.name] ++ closing w u) ++
        .call .done :: finalName w w.name)) (fun _ => w.given .done = true)) := by
  have hacc : ∀ old, account w old = (step w.identity).andThen fun _ => registerDevice w := by
    intro old
    unfold account
    rw [hn]
    rfl
  have cutAll : ∀ s, Runs (registerDevice w) s (fun _ => False) →
      Runs (setup w) (.call .config :: s) (fun _ => False) := by
    intro s h
    have e : Ev.call .config :: s = [.call .config] ++ ([] ++ ([] ++ ([] ++ s))) := rfl
    unfold setup
    rw [e]
    refine (runs_ask w .config).andThen fun _ _ => (runs_step w.config).andThen fun old _ =>
      (runs_step w.store).andThen fun _ _ => ?_
    refine Runs.cut ?_
    rw [hacc]
    exact (runs_step w.identity).andThen fun _ _ => h
  cases hp : parseCode w.code with
  | none =>
    refine Or.inr (Or.inl ⟨[], .code hp, ?_, ?_, rfl⟩)
    · have := cutAll _ (runs_register_none w hp)
      simpa using this.1
    · intro h
      exact (((cutAll _ (runs_register_none w hp)).2 () h).2)
  | some c =>
    cases hm : madeOf w with
    | none =>
      refine Or.inl ⟨_, .lost c hp hm, (cutAll _ (runs_register_lost w c hp hm)).1, ?_, rfl⟩
      intro h
      exact (((cutAll _ (runs_register_lost w c hp hm)).2 () h).2)
    | some u =>
      refine Or.inr (Or.inr ⟨c, u, rfl, rfl, ?_⟩)
      have e : Ev.call .config :: (opening w ++ ([.confirm w.phone c w.name] ++ closing w u) ++
          .call .done :: finalName w w.name) = [.call .config] ++ ([] ++ ([] ++
          (([] ++ (opening w ++ ([.confirm w.phone c w.name] ++ closing w u))) ++
            .call .done :: finalName w w.name))) := by simp
      unfold setup
      rw [e]
      refine (runs_ask w .config).andThen fun _ _ => (runs_step w.config).andThen fun old _ =>
        (runs_step w.store).andThen fun _ _ => ?_
      rw [hacc]
      refine Runs.andThen ((runs_step w.identity).andThen fun _ _ => runs_register w c u hp hm) fun n hn => ?_
      rw [hn.1]
      exact (runs_end w w.name).weaken (fun _ _ => hn.2)

/-- What a registered client does. -/
theorem setup_old (w : World) (hr : w.registered = true) :
    ∃ name, (∀ old, w.config = .ok old → name = old) ∧
      Runs (setup w) (.call .config :: .call .done :: finalName w name) (fun _ => w.given .done = true) := by
  have hacc : ∀ old, account w old = ([], .ok old) := by
    intro old
    unfold account
    rw [hr]
    rfl
  have key : ∀ old, (w.config = .ok old ∨ ∀ a, w.config ≠ .ok a) →
      Runs (setup w) (.call .config :: .call .done :: finalName w old) (fun _ => w.given .done = true) := by
    intro old ho
    have e : Ev.call .config :: .call .done :: finalName w old = [.call .config] ++ ([] ++ ([] ++ ([] ++
      .call .done :: finalName w old))) := rfl
    unfold setup
    rw [e]
    refine (runs_ask w .config).andThen fun _ _ => (runs_step w.config).andThen fun old' h' =>
      (runs_step w.store).andThen fun _ _ => ?_
    rcases ho with ho | ho
    · rw [ho] at h'
      simp only [Out.ok.injEq] at h'
      subst h'
      rw [hacc]
      refine Runs.andThen (runs_pure [] old) fun n hn => ?_
      rw [hn]
      exact runs_end w old
    · exact absurd h' (ho old')
  cases hc : w.config with
  | ok old => exact ⟨old, fun o ho => by simpa using ho, key old (Or.inl hc)⟩
  | err => exact ⟨"", fun o ho => by simp at ho, key "" (Or.inr (by simp [hc]))⟩
  | panic => exact ⟨"", fun o ho => by simp at ho, key "" (Or.inr (by simp [hc]))⟩
  | waits => exact ⟨"", fun o ho => by simp at ho, key "" (Or.inr (by simp [hc]))⟩

/-! ## Orders on prefixes -/

/-- The order, checked along the list. -/
def afterFrom (p q : Ev → Prop) : Prop → List Ev → Prop
  | _, [] => True
  | seen, e :: l => (q e → seen) ∧ afterFrom p q (seen ∨ p e) l

theorem after_of_from {p q : Ev → Prop} : ∀ {l : List Ev} {seen : Prop}, afterFrom p q seen l →
    ∀ pre e post, l = pre ++ e :: post → q e → seen ∨ ∃ d ∈ pre, p d
  | [], _, _, pre, e, post, h, _ => by simp at h
  | x :: l, seen, h, [], e, post, he, hq => by
      simp only [List.nil_append, List.cons.injEq] at he
      exact Or.inl (h.1 (he.1 ▸ hq))
  | x :: l, seen, h, y :: pre, e, post, he, hq => by
      simp only [List.cons_append, List.cons.injEq] at he
      rcases after_of_from h.2 pre e post he.2 hq with (h' | h') | ⟨d, hd, hp⟩
      · exact Or.inl h'
      · exact Or.inr ⟨x, by simp [he.1], h'⟩
      · exact Or.inr ⟨d, List.mem_cons_of_mem _ hd, hp⟩

theorem after_prefix {p q : Ev → Prop} {l l' : List Ev} (h : l' <+: l) (ha : afterFrom p q False l) : After p q l' := by
  obtain ⟨r, rfl⟩ := h
  intro pre e post he hq
  rcases after_of_from ha pre e (post ++ r) (by rw [he]; simp) hq with h | h
  · exact h.elim
  · exact h

theorem once_prefix {e : Ev} {l l' : List Ev} (h : l' <+: l) (ho : l.count e ≤ 1) : Once e l' :=
  Nat.le_trans (List.Sublist.count_le e h.sublist) ho

end Verif.Proof.Dialogue
