import Verif.Proof.Companion
/-!
# C157: the companion process cannot bring the client down
-/
namespace Verif.Props
open Verif Verif.Dialogue Verif.Companion Verif.Spec.Companion Verif.Proof.Companion

/-- C157, exactly when the client crashes: on a message of the right form that says it is a request or an answer and has
none, or one without a type. -/
theorem C157_crash_iff (chan : Option Chan) {j : Json} (hc : Clear j) :
    round chan (some j) = .crash ↔ Readable j ∧ ¬ Whole j := by
  rw [← parse_iff hc]
  cases hf : parse j with
  | none => simp [round, hf]
  | some f =>
    obtain ⟨ht, hq, hr, -⟩ := parse_says hc hf
    simp only [round, hf]
    have key : Whole j ↔ (f.type = some 1 → ∃ n m, f.request = some (some n, m)) ∧
        (f.type = some 2 → ∃ n m, f.response = some (some n, m)) := by
      unfold Whole HasPart
      rw [ht 1, ht 2]
      constructor
      · rintro ⟨a, b⟩
        refine ⟨fun h => ?_, fun h => ?_⟩
        · obtain ⟨v, n, h1, h2⟩ := a h
          exact ⟨n, (hq n).2 ⟨v, h1, h2⟩⟩
        · obtain ⟨v, n, h1, h2⟩ := b h
          exact ⟨n, (hr n).2 ⟨v, h1, h2⟩⟩
      · rintro ⟨a, b⟩
        refine ⟨fun h => ?_, fun h => ?_⟩
        · obtain ⟨n, h1⟩ := a h
          obtain ⟨v, h2, h3⟩ := (hq n).1 h1
          exact ⟨v, n, h2, h3⟩
        · obtain ⟨n, h1⟩ := b h
          obtain ⟨v, h2, h3⟩ := (hr n).1 h1
          exact ⟨v, n, h2, h3⟩
    rw [key]
    obtain ⟨t, q, r⟩ := f
    simp only [Option.some.injEq, exists_eq', true_and]
    cases t with
    | none => simp
    | some t =>
      simp only
      by_cases h1 : t = 1
      · subst h1
        rcases q with _ | ⟨_ | n, m⟩ <;> simp [handleRequest]
      · by_cases h2 : t = 2
        · subst h2
          rcases r with _ | ⟨_ | n, m⟩
          · simp [handleResponse]
          · simp [handleResponse]
          · simp only [handleResponse]
            rcases chan with _ | c
            · simp
            · simp only
              by_cases h3 : n > 1
              · by_cases h4 : c.waiting = true
                · simp [h3, h4]
                · by_cases h5 : c.buffer.isEmpty = true <;> simp [h3, h4, h5]
              · simp [h3]
        · simp [h1, h2]

/-- A message that is not an answer changes nothing. -/
theorem round_other (chan : Option Chan) {j : Json} (hc : Clear j) (hw : Whole j) (h : ¬ Readable j ∨ ¬ IsAnswer j) :
    round chan (some j) = .again ∨ round chan (some j) = .on chan none := by
  cases hf : parse j with
  | none => exact .inl (by simp [round, hf])
  | some f =>
    have hrd : Readable j := (parse_iff hc).1 ⟨f, hf⟩
    have hna : ¬ IsAnswer j := by
      rcases h with h | h
      · exact absurd hrd h
      · exact h
    have hnc : round chan (some j) ≠ .crash := fun e => ((C157_crash_iff chan hc).1 e).2 hw
    obtain ⟨ht, hq, hr, -⟩ := parse_says hc hf
    right
    simp only [round, hf] at hnc ⊢
    cases e : f.type with
    | none => rfl
    | some t =>
      simp only [e] at hnc
      simp only
      by_cases h1 : t = 1
      · simp only [h1, if_true] at hnc ⊢
        generalize f.request = q at hnc
        rcases q with _ | ⟨_ | n, m⟩ <;> simp_all [handleRequest]
      · by_cases h2 : t = 2
        · subst h2
          simp only [h1, if_false, if_true] at hnc ⊢
          cases e2 : f.response with
          | none => simp [e2, handleResponse] at hnc
          | some p =>
            obtain ⟨_ | n, m⟩ := p
            · simp [e2, handleResponse] at hnc
            · have hn : ¬ n > 1 := by
                intro hn
                obtain ⟨v, h3, h4⟩ := (hr n).1 ⟨m, e2⟩
                exact hna ⟨(ht 2).1 e, v, n, h3, h4, hn⟩
              cases chan <;> simp [handleResponse, hn]
        · simp [h1, h2]

/-- What an answer does. -/
theorem round_answer (c : Chan) {j m : Json} (hc : Clear j) (hrd : Readable j) (ha : IsAnswer j) (hm : Carries j m) :
    round (some c) (some j) =
      if c.waiting then .on (some ⟨c.buffer, false⟩) (some m)
      else if c.buffer.isEmpty then .on (some ⟨[m], false⟩) none else .stuck := by
  obtain ⟨f, hf⟩ := (parse_iff hc).2 hrd
  obtain ⟨ht, hq, hr, hb⟩ := parse_says hc hf
  obtain ⟨h2, v, n, hv, hn, h1⟩ := ha
  obtain ⟨m', e⟩ := (hr n).2 ⟨v, hv, hn⟩
  obtain ⟨v', hv', hb'⟩ := hm
  have : m' = m := hb v' n m m' hv' hb' e
  subst this
  simp [round, hf, (ht 2).2 h2, e, handleResponse, h1]

/-- C157, the part that holds: as long as every request and answer that arrives is whole and answers come only to a
waiting call, the client goes on listening whatever else arrives, and the calls get the answers as they were sent.
Missing: messages that are not whole, and answers nobody waits for. -/
theorem C157_companion_partial (chan : Option Chan) {w : Bool} {l : List Event} {ms : List Json}
    (hw : w = true → ∃ c, chan = some c ∧ c.waiting = true) (h : Dialog w l ms) :
    ∃ c, run chan l = (ms, .listening c) := by
  induction h generalizing chan with
  | done w => exact ⟨chan, rfl⟩
  | call w _ ih => exact ih (some ⟨[], true⟩) (fun _ => ⟨_, rfl, rfl⟩)
  | garbage _ ih => exact ih chan hw
  | @other w j l ms hc hwh hn _ ih =>
    obtain ⟨c, e⟩ := ih chan hw
    refine ⟨c, ?_⟩
    rcases round_other chan hc hwh hn with h | h <;> simp [run, h, e]
  | @answer j m l ms hc hrd ha hm _ ih =>
    obtain ⟨c, rfl, hc'⟩ := hw rfl
    obtain ⟨c', e⟩ := ih (some ⟨c.buffer, false⟩) (fun h => by cases h)
    exact ⟨c', by simp [run, round_answer c hc hrd ha hm, hc', e]⟩

/-- C157, a message whose text is not JSON, or not of the form of a message, ends the connection and nothing else. -/
theorem C157_unreadable_survived (chan : Option Chan) (x : Option Json) (l : List Event)
    (h : ∀ j, x = some j → Clear j ∧ ¬ Readable j) : run chan (.arrives x :: l) = run chan l := by
  cases x with
  | none => rfl
  | some j =>
    obtain ⟨hc, hn⟩ := h j rfl
    cases hf : parse j with
    | none => simp [run, round, hf]
    | some f => exact absurd ((parse_iff hc).1 ⟨f, hf⟩) hn

/-- C157 is refuted: a message that says it is a request or an answer and is not whole crashes the client, at any time. -/
theorem C157_not_whole_crashes (chan : Option Chan) {j : Json} (hc : Clear j) (hr : Readable j) (hw : ¬ Whole j)
    (l : List Event) : run chan (.arrives (some j) :: l) = ([], .crashed) := by
  have := (C157_crash_iff chan hc).2 ⟨hr, hw⟩
  simp [run, this]

/-- C157 is refuted: once a call has its answer, two more answers make the client deaf. No call after that gets one,
whatever the companion sends. -/
theorem C157_unasked_answers_deafen (b : List Json) {j₁ j₂ m₁ m₂ : Json} (h₁ : Clear j₁ ∧ Readable j₁ ∧ IsAnswer j₁)
    (h₂ : Clear j₂ ∧ Readable j₂ ∧ IsAnswer j₂) (c₁ : Carries j₁ m₁) (c₂ : Carries j₂ m₂) (l : List Event) :
    run (some ⟨b, false⟩) (.arrives (some j₁) :: .arrives (some j₂) :: l) = ([], .deaf) := by
  cases b with
  | nil =>
    simp [run, round_answer _ h₁.1 h₁.2.1 h₁.2.2 c₁, round_answer _ h₂.1 h₂.2.1 h₂.2.2 c₂]
  | cons x b => simp [run, round_answer _ h₁.1 h₁.2.1 h₁.2.2 c₁]

namespace Demo.Companion

/-- `{"type":2,"response":{"type":3,"message":"hello"}}`. -/
def hello : Json :=
  .obj [("type", .num (some 2)), ("response", .obj [("type", .num (some 3)), ("message", .str "hello")])]

/-- `{"type":2,"response":{}}`. -/
def empty : Json := .obj [("type", .num (some 2)), ("response", .obj [])]

/-- `{"type":1}`. -/
def bare : Json := .obj [("type", .num (some 1))]

/-- `{"type":2,"response":{"type":1}}`: an acknowledgement. -/
def ack : Json := .obj [("type", .num (some 2)), ("response", .obj [("type", .num (some 1))])]

theorem clear_obj {l : List (String × Json)} (h : (l.map (·.1)).Nodup) (h2 : ∀ x ∈ l, Distinct x.2) : Clear (.obj l) := by
  refine ⟨?_, fun k v hv => h2 _ (at_obj.1 hv)⟩
  intro l' e
  injection e with e
  subst e
  exact h

theorem distinct_num (n : Option Int) : Distinct (.num n) := fun _ e => by cases e

theorem distinct_obj {l : List (String × Json)} (h : (l.map (·.1)).Nodup) : Distinct (.obj l) := by
  intro l' e
  injection e with e
  subst e
  exact h

theorem hello_clear : Clear hello :=
  clear_obj (by decide) (by
    intro x hx
    simp only [List.mem_cons, List.not_mem_nil, or_false] at hx
    rcases hx with rfl | rfl
    · exact distinct_num _
    · exact distinct_obj (by decide))

theorem empty_clear : Clear empty :=
  clear_obj (by decide) (by
    intro x hx
    simp only [List.mem_cons, List.not_mem_nil, or_false] at hx
    rcases hx with rfl | rfl
    · exact distinct_num _
    · exact distinct_obj (by decide))

theorem ack_clear : Clear ack :=
  clear_obj (by decide) (by
    intro x hx
    simp only [List.mem_cons, List.not_mem_nil, or_false] at hx
    rcases hx with rfl | rfl
    · exact distinct_num _
    · exact distinct_obj (by decide))

theorem bare_clear : Clear bare :=
  clear_obj (by decide) (by
    intro x hx
    simp only [List.mem_cons, List.not_mem_nil, or_false] at hx
    subst hx
    exact distinct_num _)

theorem hello_answer : Readable hello ∧ IsAnswer hello ∧ Carries hello (.str "hello") :=
  ⟨(parse_iff hello_clear).1 ⟨_, rfl⟩,
    ⟨at_obj.2 (by simp), _, 3, at_obj.2 (List.mem_cons_of_mem _ (List.mem_singleton.2 rfl)), at_obj.2 (by simp), by decide⟩,
    _, at_obj.2 (List.mem_cons_of_mem _ (List.mem_singleton.2 rfl)), .inl (at_obj.2 (by simp))⟩

theorem ack_other : Whole ack ∧ ¬ IsAnswer ack := by
  refine ⟨⟨fun h => ?_, fun _ => ⟨_, 1, at_obj.2 (List.mem_cons_of_mem _ (List.mem_singleton.2 rfl)), at_obj.2 (by simp)⟩⟩, ?_⟩
  · have := at_obj.1 h
    simp at this
  · rintro ⟨_, v, n, hv, hn, h1⟩
    have := at_obj.1 hv
    simp at this
    subst this
    have := at_obj.1 hn
    simp at this
    omega

/-- Garbage, an acknowledgement, and two calls with their answers. -/
example : ∃ c, run none [.arrives none, .call, .arrives (some ack), .arrives (some hello), .arrives (some ack), .call,
    .arrives none, .arrives (some hello)] = ([.str "hello", .str "hello"], .listening c) :=
  C157_companion_partial none (w := false) (fun h => by cases h)
    (.garbage (.call _ (.other ack_clear ack_other.1 (.inr ack_other.2)
      (.answer hello_clear hello_answer.1 hello_answer.2.1 hello_answer.2.2
        (.other ack_clear ack_other.1 (.inr ack_other.2)
          (.call _ (.garbage (.answer hello_clear hello_answer.1 hello_answer.2.1 hello_answer.2.2 (.done _)))))))))

/-- An empty answer and a bare request. -/
example (chan : Option Chan) (l : List Event) : run chan (.arrives (some empty) :: l) = ([], .crashed) :=
  C157_not_whole_crashes chan empty_clear ((parse_iff empty_clear).1 ⟨_, rfl⟩) (by
    rintro ⟨-, h⟩
    obtain ⟨v, n, hv, hn⟩ := h (at_obj.2 (by simp))
    have := at_obj.1 hv
    simp at this
    subst this
    exact absurd (at_obj.1 hn) (by simp)) l

example (chan : Option Chan) (l : List Event) : run chan (.arrives (some bare) :: l) = ([], .crashed) :=
  C157_not_whole_crashes chan bare_clear ((parse_iff bare_clear).1 ⟨_, rfl⟩) (by
    rintro ⟨h, -⟩
    obtain ⟨v, n, hv, hn⟩ := h (at_obj.2 (by simp))
    have := at_obj.1 hv
    simp at this) l

/-- Three answers to one call: the second call never gets any. -/
example (l : List Event) : run none (.call :: .arrives (some hello) :: .arrives (some hello) :: .arrives (some hello) ::
    .call :: .arrives (some hello) :: l) = ([.str "hello"], .deaf) := by
  have h := C157_unasked_answers_deafen [] ⟨hello_clear, hello_answer.1, hello_answer.2.1⟩
    ⟨hello_clear, hello_answer.1, hello_answer.2.1⟩ hello_answer.2.2 hello_answer.2.2 (.call :: .arrives (some hello) :: l)
  have h2 := round_answer ⟨[], true⟩ hello_clear hello_answer.1 hello_answer.2.1 hello_answer.2.2
  rw [run, run, h2]
  simp only [if_true, h]
  rfl

/-- A list, which is no message. -/
example (chan : Option Chan) (l : List Event) : run chan (.arrives (some (.arr [])) :: l) = run chan l :=
  C157_unreadable_survived chan _ l (by
    intro j e
    cases e
    refine ⟨⟨(fun _ e => by cases e), (fun k v ⟨_, e, _⟩ => by cases e)⟩, ?_⟩
    rintro (e | ⟨⟨_, e⟩, _⟩) <;> cases e)

end Demo.Companion
end Verif.Props
