import Verif.Spec.Reader
/-!
# Lemmas for C149
-/
namespace Verif.Reader
open Verif

@[simp] theorem bytes_nil : bytes [] = [] := rfl
@[simp] theorem bytes_data (b : Bytes) (r : Reader) : bytes (.data b :: r) = b ++ bytes r := rfl
@[simp] theorem bytes_fail (r : Reader) : bytes (.fail :: r) = bytes r := rfl
theorem bytes_append (a b : Reader) : bytes (a ++ b) = bytes a ++ bytes b := by simp [bytes]

theorem sound_tail {e : Ev} {r : Reader} (h : Sound (e :: r)) : Sound r := fun h' => h (List.mem_cons_of_mem _ h')
theorem sound_head {r : Reader} (h : Sound (.fail :: r)) : False := h List.mem_cons_self

theorem readAll_sound (r : Reader) (h : Sound r) : readAll r = some (bytes r) := by
  induction r with
  | nil => rfl
  | cons e r ih =>
    cases e with
    | fail => exact (sound_head h).elim
    | data b => simp [readAll, ih (sound_tail h)]

theorem readAll_fail (pre post : Reader) : readAll (pre ++ .fail :: post) = none := by
  induction pre with
  | nil => rfl
  | cons e pre ih =>
    cases e with
    | fail => rfl
    | data b => simp [readAll, ih]

/-- Enough data: what follows is not looked at. -/
theorem copyN_full : ∀ (pre : Reader) (n : Nat) (rest : Reader), Sound pre → n ≤ (bytes pre).length →
    ∃ pre', copyN n (pre ++ rest) = ((bytes pre).take n, pre' ++ rest) ∧ Sound pre' ∧ bytes pre' = (bytes pre).drop n
  | pre, 0, rest, h, _ => ⟨pre, by simp [copyN], h, by simp⟩
  | [], n + 1, rest, _, hn => by simp at hn
  | .fail :: pre, n + 1, rest, h, _ => (sound_head h).elim
  | .data b :: pre, n + 1, rest, h, hn => by
    by_cases hb : b.length ≤ n + 1
    · obtain ⟨pre', h1, h2, h3⟩ := copyN_full pre (n + 1 - b.length) rest (sound_tail h) (by
        simp only [bytes_data, List.length_append] at hn; omega)
      refine ⟨pre', ?_, h2, ?_⟩
      · simp only [List.cons_append, copyN, if_pos hb, h1, bytes_data]
        rw [List.take_append, List.take_of_length_le hb]
      · rw [h3, bytes_data, List.drop_append, List.drop_of_length_le hb, List.nil_append]
    · refine ⟨.data (b.drop (n + 1)) :: pre, ?_, ?_, ?_⟩
      · simp only [List.cons_append, copyN, if_neg hb, bytes_data]
        rw [List.take_append_of_le_length (by omega)]
      · intro hm
        simp only [List.mem_cons, reduceCtorEq, false_or] at hm
        exact sound_tail h hm
      · rw [bytes_data, bytes_data, List.drop_append_of_le_length (by omega)]

/-- Less than `n` bytes before the end. -/
theorem copyN_short : ∀ (pre : Reader) (n : Nat), Sound pre → (bytes pre).length < n →
    copyN n pre = (bytes pre, [])
  | _, 0, _, hn => by omega
  | [], n + 1, _, _ => rfl
  | .fail :: pre, n + 1, h, _ => (sound_head h).elim
  | .data b :: pre, n + 1, h, hn => by
    simp only [bytes_data, List.length_append] at hn
    simp only [copyN, if_pos (show b.length ≤ n + 1 by omega), bytes_data,
      copyN_short pre (n + 1 - b.length) (sound_tail h) (by omega)]

/-- Less than `n` bytes before a failure. -/
theorem copyN_skip : ∀ (pre post : Reader) (n : Nat), Sound pre → (bytes pre).length < n →
    copyN n (pre ++ .fail :: post) = (bytes pre, post)
  | _, _, 0, _, hn => by omega
  | [], post, n + 1, _, _ => rfl
  | .fail :: pre, post, n + 1, h, _ => (sound_head h).elim
  | .data b :: pre, post, n + 1, h, hn => by
    simp only [bytes_data, List.length_append] at hn
    simp only [List.cons_append, copyN, if_pos (show b.length ≤ n + 1 by omega), bytes_data,
      copyN_skip pre post (n + 1 - b.length) (sound_tail h) (by omega)]

theorem mimeType_sound (magic : Bytes → Bytes) (r : Reader) (h : Sound r) :
    (mimeType magic r).1 = magic ((bytes r).take 1024) ∧ readAll (mimeType magic r).2 = some (bytes r) := by
  by_cases hn : 1024 ≤ (bytes r).length
  · obtain ⟨r', h1, h2, h3⟩ := copyN_full r 1024 [] h hn
    rw [List.append_nil, List.append_nil] at h1
    simp only [mimeType, h1, true_and]
    simp [readAll, readAll_sound r' h2, h3]
  · rw [mimeType, copyN_short r 1024 h (by omega)]
    simp [readAll, List.take_of_length_le (show (bytes r).length ≤ 1024 by omega)]

theorem mimeType_late (magic : Bytes → Bytes) (pre post : Reader) (h : Sound pre) (hn : 1024 ≤ (bytes pre).length) :
    readAll (mimeType magic (pre ++ .fail :: post)).2 = none := by
  obtain ⟨r', h1, -, -⟩ := copyN_full pre 1024 (.fail :: post) h hn
  simp only [mimeType, h1]
  simp [readAll, readAll_fail]

theorem mimeType_skip (magic : Bytes → Bytes) (pre post : Reader) (h : Sound pre) (hn : (bytes pre).length < 1024) :
    mimeType magic (pre ++ .fail :: post) = (magic (bytes pre), .data (bytes pre) :: post) := by
  simp only [mimeType, copyN_skip pre post 1024 h hn]

end Verif.Reader
