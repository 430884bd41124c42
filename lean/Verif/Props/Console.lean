import Verif.Model.Console
/-!
# C167: every line typed at the console is sent, as it was typed

What was typed is a list of lines, each ended by a line feed.
-/
namespace Verif.Props.Console
open Verif Verif.Console

/-- What comes from the keyboard for some lines. -/
def typed (ls : List Bytes) : Bytes := ls.flatMap (· ++ [10])

/-- A line as a person types it: no line feed within, no carriage return at the end, and it fits a terminal's line. -/
def Typable (l : Bytes) : Prop := 10 ∉ l ∧ l.getLast? ≠ some 13 ∧ l.length < 4096

/-- The input is a terminal in its usual mode: no call of `read` goes beyond the end of a line. A line may come in
several pieces. -/
def Terminal (inp : List Bytes) : Prop := ∀ c ∈ inp, 10 ∉ c.dropLast

theorem takeWhile_line (l t : Bytes) (h : 10 ∉ l) : (l ++ 10 :: t).takeWhile (· ≠ 10) = l := by
  induction l with
  | nil => simp
  | cons a l ih =>
    simp only [List.mem_cons, not_or] at h
    have ha : a ≠ 10 := fun e => h.1 e.symm
    have := ih h.2
    simp only [List.cons_append, List.takeWhile_cons, ha, ne_eq, not_false_eq_true, decide_true, if_true, this]

theorem firstLine_eq (l t : Bytes) (h : 10 ∉ l) (hc : l.getLast? ≠ some 13) : firstLine (l ++ 10 :: t) = l := by
  rw [firstLine, takeWhile_line l t h, dropCR, if_neg hc]

theorem readFrom_found (l t : Bytes) (r : List Bytes) (h : 10 ∉ l) (hc : l.getLast? ≠ some 13) :
    readFrom (l ++ 10 :: t) r = .text l r := by
  have hm : (10 : UInt8) ∈ l ++ 10 :: t := by simp
  cases r with
  | nil => simp only [readFrom, hm, if_true, firstLine_eq l t h hc]
  | cons c r => simp only [readFrom, hm, if_true, firstLine_eq l t h hc]

theorem ends_with (c : Bytes) (hm : 10 ∈ c) (hd : 10 ∉ c.dropLast) : ∃ d, c = d ++ [10] ∧ 10 ∉ d := by
  have hne : c ≠ [] := fun e => by rw [e] at hm; cases hm
  refine ⟨c.dropLast, ?_, hd⟩
  have hc := List.dropLast_concat_getLast hne
  rw [← hc] at hm
  rcases List.mem_append.mp hm with h | h
  · exact absurd h hd
  · have : (10 : UInt8) = c.getLast hne := by simpa using h
    rw [this]; exact hc.symm

/-- Two ways to see the first line feed. -/
theorem first_unique : ∀ (a b s t : Bytes), 10 ∉ a → 10 ∉ b → a ++ 10 :: s = b ++ 10 :: t → a = b ∧ s = t := by
  intro a
  induction a with
  | nil =>
    intro b s t _ hb h
    cases b with
    | nil => simpa using h
    | cons x b =>
      simp only [List.nil_append, List.cons_append, List.cons.injEq] at h
      exact absurd (by simp [h.1]) hb
  | cons x a ih =>
    intro b s t ha hb h
    cases b with
    | nil =>
      simp only [List.nil_append, List.cons_append, List.cons.injEq] at h
      exact absurd (by simp [h.1]) ha
    | cons y b =>
      simp only [List.cons_append, List.cons.injEq] at h
      simp only [List.mem_cons, not_or] at ha hb
      obtain ⟨h1, h2⟩ := ih b s t ha.2 hb.2 h.2
      exact ⟨by rw [h.1, h1], h2⟩

/-- A part without a line feed lies within the line. -/
theorem within : ∀ (a s l t : Bytes), 10 ∉ a → a ++ s = l ++ 10 :: t → a.length ≤ l.length := by
  intro a
  induction a with
  | nil => intro s l t _ _; simp
  | cons x a ih =>
    intro s l t ha h
    simp only [List.mem_cons, not_or] at ha
    cases l with
    | nil =>
      simp only [List.nil_append, List.cons_append, List.cons.injEq] at h
      exact absurd h.1.symm ha.1
    | cons y l =>
      simp only [List.cons_append, List.cons.injEq] at h
      have := ih s l t ha.2 h.2
      simp only [List.length_cons]; omega

theorem readFrom_terminal (l t : Bytes) (hl : Typable l) : ∀ (inp : List Bytes) (buf : Bytes), Terminal inp → 10 ∉ buf →
    buf ++ inp.flatten = l ++ 10 :: t → ∃ rest, readFrom buf inp = .text l rest ∧ rest.flatten = t ∧ Terminal rest := by
  obtain ⟨h1, h2, h3⟩ := hl
  intro inp
  induction inp with
  | nil =>
    intro buf _ hb h
    simp only [List.flatten_nil, List.append_nil] at h
    exact absurd (by rw [h]; simp) hb
  | cons c r ih =>
    intro buf ht hb h
    have hr : Terminal r := fun x hx => ht x (List.mem_cons_of_mem _ hx)
    have hlen := within buf _ l t hb h
    simp only [List.flatten_cons] at h
    rw [← List.append_assoc] at h
    have hnf : ¬ bufSize ≤ buf.length := by simp only [bufSize]; omega
    by_cases hm : 10 ∈ c
    · obtain ⟨d, rfl, hd⟩ := ends_with c hm (ht c (by simp))
      have h' : (buf ++ d) ++ 10 :: r.flatten = l ++ 10 :: t := by rw [← h]; simp
      have hbd : 10 ∉ buf ++ d := by simp [hb, hd]
      obtain ⟨e1, e2⟩ := first_unique _ _ _ _ hbd h1 h'
      have hfit : buf.length + (d ++ [10]).length ≤ bufSize := by
        have := congrArg List.length e1
        simp only [List.length_append, List.length_cons, List.length_nil, bufSize] at this ⊢
        omega
      refine ⟨r, ?_, e2, hr⟩
      simp only [readFrom, hb, hnf, hfit, if_true, if_false]
      rw [← List.append_assoc, e1]
      exact readFrom_found l [] r h1 h2
    · have hbc : 10 ∉ buf ++ c := by simp [hb, hm]
      have hfit : buf.length + c.length ≤ bufSize := by
        have := within (buf ++ c) _ l t hbc h
        simp only [List.length_append, bufSize] at this ⊢
        omega
      obtain ⟨rest, e1, e2, e3⟩ := ih (buf ++ c) hr hbc h
      exact ⟨rest, by simp only [readFrom, hb, hnf, hfit, if_true, if_false]; exact e1, e2, e3⟩

theorem readFrom_end : ∀ inp : List Bytes, inp.flatten = [] → readFrom [] inp = .fatal := by
  intro inp
  induction inp with
  | nil => intro _; simp [readFrom, bufSize]
  | cons c r ih =>
    intro h
    simp only [List.flatten_cons, List.append_eq_nil_iff] at h
    simp only [readFrom, h.1, bufSize]
    simpa using ih h.2

/-- **C167** (first part, partial): questions put on a terminal get the lines typed, each its own, in order; the process ends
when a question is put after the last line. Missing: any other input, and lines of 4096 bytes or more, for which it is
false (`C167_pipe_loses`, `C167_long_line`). -/
theorem C167_answers_partial (ls : List Bytes) (hls : ∀ l ∈ ls, Typable l) :
    ∀ (n : Nat) (inp : List Bytes), Terminal inp → inp.flatten = typed ls →
      ask n inp = (ls.take n, decide (ls.length < n)) := by
  induction ls with
  | nil =>
    intro n inp _ hi
    cases n with
    | zero => rfl
    | succ n => simp only [ask, readLine, readFrom_end inp hi]; simp
  | cons l ls ih =>
    intro n inp ht hi
    cases n with
    | zero => rfl
    | succ n =>
      obtain ⟨rest, e1, e2, e3⟩ := readFrom_terminal l (typed ls) (hls l (by simp)) inp [] ht (by simp)
        (by rw [List.nil_append, hi]; simp [typed])
      simp only [ask, readLine, e1]
      rw [ih (fun x hx => hls x (List.mem_cons_of_mem _ hx)) n rest e3 e2]
      simp

/-- The loop sends what it would be answered, except empty lines. -/
theorem loop_ask (group : Bool) (dest : Bytes) : ∀ (n : Nat) (inp : List Bytes),
    loop group dest n inp =
      (((ask n inp).1.filter (· ≠ [])).map (fun l => ⟨group, dest, l, none⟩), (ask n inp).2) := by
  intro n
  induction n with
  | zero => intro inp; rfl
  | succ n ih =>
    intro inp
    simp only [loop, ask]
    cases readLine inp with
    | fatal => rfl
    | text l rest =>
      simp only [ih]
      by_cases h : l = []
      · simp [h]
      · simp [h]

/-- **C167** (partial): of what is typed on a terminal each line that is not empty is sent to the addressee, once, unchanged
and in order, and nothing else is; at the end of the input the process ends. Missing: any other input, and lines of 4096
bytes or more, for which it is false (`C167_pipe_loses`, `C167_long_line`). -/
theorem C167_console_partial (group : Bool) (dest : Bytes) (ls : List Bytes) (hls : ∀ l ∈ ls, Typable l) (n : Nat)
    (inp : List Bytes) (ht : Terminal inp) (hi : inp.flatten = typed ls) :
    loop group dest n inp =
      (((ls.take n).filter (· ≠ [])).map (fun l => ⟨group, dest, l, none⟩), decide (ls.length < n)) := by
  rw [loop_ask, C167_answers_partial ls hls n inp ht hi]

/-- Two lines with an empty one between, the second in two pieces. -/
example : (∀ l ∈ [[104, 105], [], [111, 107]], Typable l) ∧ Terminal [[104, 105, 10], [10], [111], [107, 10]] ∧
    [[104, 105, 10], [10], [111], [107, 10]].flatten = typed [[104, 105], [], [111, 107]] ∧
    loop false [43, 49] 4 [[104, 105, 10], [10], [111], [107, 10]] =
      ([⟨false, [43, 49], [104, 105], none⟩, ⟨false, [43, 49], [111, 107], none⟩], true) := by
  refine ⟨?_, ?_, by decide +kernel, by decide +kernel⟩
  · intro l hl; simp only [List.mem_cons, List.not_mem_nil, or_false] at hl
    rcases hl with rfl | rfl | rfl <;> exact ⟨by decide, by decide, by decide⟩
  · intro c hc; simp only [List.mem_cons, List.not_mem_nil, or_false] at hc
    rcases hc with rfl | rfl | rfl | rfl <;> decide

/-- Against **C167**: of what one call of `read` gets, all that follows the first line is lost: the answers to all
questions and the messages sent are the same whatever it was. With a pipe that is every line that was written before the
first was read. -/
theorem C167_pipe_loses (l b : Bytes) (r : List Bytes) (hl : 10 ∉ l) (hc : l.getLast? ≠ some 13)
    (hb : l.length + 1 + b.length ≤ 4096) :
    readLine ((l ++ 10 :: b) :: r) = .text l r ∧
    (∀ n, ask (n + 1) ((l ++ 10 :: b) :: r) = (l :: (ask n r).1, (ask n r).2)) ∧
    ∀ group dest n, loop group dest n ((l ++ 10 :: b) :: r) = loop group dest n ((l ++ [10]) :: r) := by
  have key : ∀ b : Bytes, l.length + 1 + b.length ≤ 4096 → readLine ((l ++ 10 :: b) :: r) = .text l r := by
    intro b hb
    have hfit : ([] : Bytes).length + (l ++ 10 :: b).length ≤ bufSize := by
      simp only [List.length_append, List.length_cons, List.length_nil, bufSize]; omega
    have hz : ¬ bufSize ≤ ([] : Bytes).length := by simp [bufSize]
    simp only [readLine, readFrom, hfit, hz, List.not_mem_nil, if_true, if_false, List.nil_append]
    exact readFrom_found l b r hl hc
  refine ⟨key b hb, fun n => by simp only [ask, key b hb], fun group dest n => ?_⟩
  have h0 := key [] (by simp only [List.length_nil]; omega)
  cases n with
  | zero => rfl
  | succ n => simp only [loop, key b hb, h0]

/-- Two lines from a pipe, of which the second is lost. -/
example : loop true [97] 5 [[104, 105, 10, 111, 107, 10]] = ([⟨true, [97], [104, 105], none⟩], true) := by decide +kernel

/-- Against **C167**: a longer line, in one piece, is not sent as it is: the first message has its first 4096
bytes. -/
theorem C167_long_line (l : Bytes) (hl : 10 ∉ l) (hc : 13 ∉ l) (hlong : 4096 < l.length) (group : Bool) (dest : Bytes)
    (n : Nat) (r : List Bytes) :
    (loop group dest (n + 1) ((l ++ [10]) :: r)).1.head? = some ⟨group, dest, l.take 4096, none⟩ ∧ l.take 4096 ≠ l := by
  have hz : ¬ bufSize ≤ ([] : Bytes).length := by simp [bufSize]
  have hfit : ¬ ([] : Bytes).length + (l ++ [10]).length ≤ bufSize := by
    simp only [List.length_append, List.length_cons, List.length_nil, bufSize]; omega
  have htake : (l ++ [10]).take 4096 = l.take 4096 := by rw [List.take_append_of_le_length (by omega)]
  have hn : (10 : UInt8) ∉ l.take 4096 := fun h => hl (List.mem_of_mem_take h)
  have hcr : (l.take 4096).getLast? ≠ some 13 := fun h => hc (List.mem_of_mem_take (List.mem_of_getLast? h))
  have hlen : (l.take 4096).length = 4096 := by rw [List.length_take]; omega
  have hne : l.take 4096 ≠ [] := fun h => by rw [h] at hlen; cases hlen
  constructor
  · have hread : readLine ((l ++ [10]) :: r) = .text (l.take 4096) ((l ++ [10]).drop 4096 :: r) := by
      rw [readLine, readFrom, if_neg (by simp), if_neg hz, if_neg hfit]
      show Line.text (if 10 ∈ ((l ++ [10]).take 4096) then firstLine ((l ++ [10]).take 4096)
        else dropCR ((l ++ [10]).take 4096)) ((l ++ [10]).drop 4096 :: r) = _
      rw [htake, if_neg hn, dropCR, if_neg hcr]
    simp only [loop, hread, hne, if_false, List.head?_cons]
  · intro h
    rw [h] at hlen; omega

example : (10 : UInt8) ∉ List.replicate 5000 (97 : UInt8) ∧ (13 : UInt8) ∉ List.replicate 5000 (97 : UInt8) ∧
    4096 < (List.replicate 5000 (97 : UInt8)).length :=
  ⟨fun h => absurd (List.mem_replicate.mp h).2 (by decide), fun h => absurd (List.mem_replicate.mp h).2 (by decide),
    by rw [List.length_replicate]; omega⟩

end Verif.Props.Console
