import Verif.Model.Deadline
/-!
# How long a connection is kept (C179)
-/
namespace Verif.Props.Deadline
open Verif.Deadline

/-- When the last pong was read, `z` if none was. -/
def lastPong (z : Nat) : List (Nat × Frame) → Nat
  | [] => z
  | (n, f) :: r => lastPong (if f.work = none then n else z) r

theorem got_prefix (t d : Nat) (fs : List Frame) : (serve t d fs).got.map (·.2) <+: fs := by
  induction fs generalizing t d with
  | nil => simp [serve]
  | cons f fs ih =>
    simp only [serve]
    split
    · split
      · simpa using ih _ _
      · simpa using ih _ _
    · simp

theorem upTo_bounds (H : Nat) (t z : Nat) (fs : List Frame) (ht : t ≤ z + pongWait + H)
    (hw : ∀ f ∈ fs, ∀ w, f.work = some w → w ≤ H) :
    lastPong z (serve t (z + pongWait) fs).got + pongWait ≤ (serve t (z + pongWait) fs).upTo ∧
      (serve t (z + pongWait) fs).upTo ≤ lastPong z (serve t (z + pongWait) fs).got + pongWait + H := by
  induction fs generalizing t z with
  | nil => simp only [serve, lastPong]; omega
  | cons f fs ih =>
    have hw' : ∀ f ∈ fs, ∀ w, f.work = some w → w ≤ H := fun g hg => hw g (List.mem_cons_of_mem _ hg)
    simp only [serve]
    split
    · rename_i hlt
      split
      · rename_i hf
        simp only [lastPong, hf, if_true]
        exact ih _ _ (by omega) hw'
      · rename_i w hf
        have := hw f List.mem_cons_self w hf
        simp only [lastPong, hf, reduceCtorEq, if_false]
        exact ih _ _ (by omega) hw'
    · simp only [lastPong]
      omega

/-- C179: frames are read in order; a connection is not given up within the minute after the last pong was read, and it is given up after that
minute, or, if a message is just being handled, after it. -/
theorem C179_given_up (H : Nat) (fs : List Frame) (hw : ∀ f ∈ fs, ∀ w, f.work = some w → w ≤ H) :
    (connection fs).got.map (·.2) <+: fs ∧ lastPong 0 (connection fs).got + 60000 ≤ (connection fs).upTo ∧
      (connection fs).upTo ≤ lastPong 0 (connection fs).got + 60000 + H := by
  refine ⟨got_prefix 0 pongWait fs, ?_⟩
  have := upTo_bounds H 0 0 fs (by omega) hw
  simpa [connection, pongWait] using this

/-- The messages that come between two pongs, when each arrives and how long it takes; and how long after its ping the
pong arrives that ends the round. -/
structure Round where
  msgs : List (Nat × Nat)
  delay : Nat

/-- What arrives: in round `k` (from 1) the messages, then the answer to the `k`th ping. -/
def frames (k : Nat) : List Round → List Frame
  | [] => []
  | r :: rs => r.msgs.map (fun m => ⟨m.1, some m.2⟩) ++ ⟨ping k + r.delay, none⟩ :: frames (k + 1) rs

/-- Rounds of an other side that answers each ping within `r` milliseconds, with messages that take no more than `b`
milliseconds together from one pong to the next. -/
def Prompt (r b k : Nat) : List Round → Prop
  | [] => True
  | x :: xs => x.delay ≤ r ∧ (x.msgs.map (·.2)).sum ≤ b ∧ (∀ m ∈ x.msgs, m.1 ≤ ping k + x.delay) ∧ Prompt r b (k + 1) xs

/-- Messages as frames. -/
def plain (ms : List (Nat × Nat)) : List Frame := ms.map (fun m => ⟨m.1, some m.2⟩)

theorem msgs_served (ms : List (Nat × Nat)) (t d e b u : Nat) (rest : List Frame) (h1 : ∀ m ∈ ms, m.1 ≤ e)
    (h2 : u + (ms.map (·.2)).sum ≤ b) (ht : t ≤ e + u) (hd : e + b < d) :
    ∃ t', t' ≤ e + b ∧ (serve t d (plain ms ++ rest)).got.map (·.2) = plain ms ++ (serve t' d rest).got.map (·.2) ∧
      (serve t d (plain ms ++ rest)).upTo = (serve t' d rest).upTo := by
  induction ms generalizing t u with
  | nil => exact ⟨t, by simp at h2; omega, rfl, rfl⟩
  | cons m ms ih =>
    simp only [List.map_cons, List.sum_cons] at h2
    have hm := h1 m List.mem_cons_self
    obtain ⟨t', g1, g2, g3⟩ := ih (max t m.1 + m.2) (u + m.2) (fun x hx => h1 x (List.mem_cons_of_mem _ hx)) (by omega)
      (by omega)
    refine ⟨t', g1, ?_, ?_⟩
    · simp only [plain, List.map_cons, List.cons_append, serve]
      rw [if_pos (by omega)]
      simp only [List.map_cons, List.cons.injEq, true_and]
      exact g2
    · simp only [plain, List.map_cons, List.cons_append, serve]
      rw [if_pos (by omega)]
      exact g3

theorem ping_eq (k : Nat) : ping k = 54000 * k := rfl

theorem rounds_served (rs : List Round) (r b k t d : Nat) (h : Prompt r b (k + 1) rs) (hb : r + b < 6000)
    (ht : t ≤ 54000 * k + r + b) (hd : 54000 * k + 60000 ≤ d) :
    (serve t d (frames (k + 1) rs)).got.map (·.2) = frames (k + 1) rs ∧
      54000 * (k + rs.length) + 60000 ≤ (serve t d (frames (k + 1) rs)).upTo := by
  induction rs generalizing k t d with
  | nil => simp only [frames, serve, List.map_nil, List.length_nil]; exact ⟨trivial, by omega⟩
  | cons x xs ih =>
    obtain ⟨h1, h2, h3, h4⟩ := h
    rw [ping_eq] at h3
    obtain ⟨t', g1, g2, g3⟩ := msgs_served x.msgs t d (54000 * (k + 1) + x.delay) b 0
      (⟨54000 * (k + 1) + x.delay, none⟩ :: frames (k + 1 + 1) xs) h3 (by omega) (by omega) (by omega)
    obtain ⟨i1, i2⟩ := ih (k + 1) (max t' (54000 * (k + 1) + x.delay)) (max t' (54000 * (k + 1) + x.delay) + pongWait) h4
      (by omega) (by simp only [pongWait]; omega)
    have e : frames (k + 1) (x :: xs) =
        plain x.msgs ++ ⟨54000 * (k + 1) + x.delay, none⟩ :: frames (k + 1 + 1) xs := rfl
    have hlt : max t' (54000 * (k + 1) + x.delay) < d := by omega
    rw [e]
    refine ⟨?_, ?_⟩
    · rw [g2]
      simp only [serve, hlt, if_true, List.map_cons, i1]
    · rw [g3]
      simp only [serve, hlt, if_true, List.length_cons]
      omega

/-- C179 for messages that are handled quickly: with an other side that answers pings within `r` milliseconds and messages that
take `b` milliseconds or less in all from one pong to the next, `r + b` less than six seconds, everything that arrives is
read, however long it goes on, and the connection is kept for a minute beyond the last ping answered. Missing from the
property: `C179_backlog`. -/
theorem C179_kept_partial (rs : List Round) (r b : Nat) (h : Prompt r b 1 rs) (hb : r + b < 6000) :
    (connection (frames 1 rs)).got.map (·.2) = frames 1 rs ∧
      54000 * rs.length + 60000 ≤ (connection (frames 1 rs)).upTo := by
  have := rounds_served rs r b 0 0 pongWait h hb (by omega) (by simp [pongWait])
  simpa [connection] using this

/-- The bound is sharp: for all `r` and `b` that make six seconds or more there is an other side as in
`C179_kept_partial` whose very first answer is not read. -/
theorem C179_kept_sharp (r b : Nat) (hb : 6000 ≤ r + b) :
    ∃ rs, Prompt r b 1 rs ∧ (connection (frames 1 rs)).got.map (·.2) ≠ frames 1 rs ∧
      lastPong 0 (connection (frames 1 rs)).got = 0 := by
  refine ⟨[⟨[(54000 + r, b)], r⟩], ?_, ?_⟩
  · simp [Prompt, ping_eq]
  · simp only [connection, frames, List.map_cons, List.map_nil, List.cons_append, List.nil_append, serve, pongWait, ping_eq]
    split
    · rw [if_neg (by omega)]
      simp [lastPong]
    · simp [lastPong]

theorem backlog (ms : List (Nat × Nat)) (t d : Nat) (rest : List Frame) (h : d ≤ t + (ms.map (·.2)).sum) :
    (serve t d (plain ms ++ rest)).got.map (·.2) <+: plain ms := by
  induction ms generalizing t with
  | nil =>
    simp only [List.map_nil, List.sum_nil] at h
    cases rest with
    | nil => simp [plain, serve]
    | cons f fs =>
      simp only [plain, List.map_nil, List.nil_append, serve]
      rw [if_neg (by omega)]
      simp
  | cons m ms ih =>
    simp only [List.map_cons, List.sum_cons] at h
    simp only [plain, List.map_cons, List.cons_append, serve]
    split
    · simp only [List.map_cons, List.cons_prefix_cons, true_and]
      exact ih _ (by omega)
    · simp

/-- Refuted: whenever messages that wait take a minute or more together, and no pong stands between them, the connection is
given up and nothing behind them is read, although the pongs may have arrived long ago. -/
theorem C179_backlog (pre : List Frame) (p : Nat) (ms : List (Nat × Nat)) (rest : List Frame)
    (h : 60000 ≤ (ms.map (·.2)).sum) :
    (connection (plain ms ++ rest)).got.map (·.2) <+: plain ms ∧
      (connection (pre ++ ⟨p, none⟩ :: (plain ms ++ rest))).got.map (·.2) <+: pre ++ ⟨p, none⟩ :: plain ms := by
  refine ⟨backlog ms 0 pongWait rest (by simp only [pongWait]; omega), ?_⟩
  have key : ∀ t d, (serve t d (pre ++ ⟨p, none⟩ :: (plain ms ++ rest))).got.map (·.2) <+: pre ++ ⟨p, none⟩ :: plain ms := by
    induction pre with
    | nil =>
      intro t d
      simp only [List.nil_append, serve]
      split
      · simp only [List.map_cons, List.cons_prefix_cons, true_and]
        exact backlog ms _ _ rest (by simp only [pongWait]; omega)
      · simp
    | cons f fs ih =>
      intro t d
      simp only [List.cons_append, serve]
      split
      · split
        · simp only [List.map_cons, List.cons_prefix_cons, true_and]
          exact ih _ _
        · simp only [List.map_cons, List.cons_prefix_cons, true_and]
          exact ih _ _
      · simp
  exact key 0 pongWait

theorem progress (ms : List (Nat × Nat)) (H t d : Nat) (rest : List Frame) (h0 : ∀ m ∈ ms, m.1 = 0)
    (hw : ∀ m ∈ ms, m.2 ≤ H) (n : Nat) (hn : n < ms.length) (hd : t + n * H < d) :
    n < (serve t d (plain ms ++ rest)).got.length := by
  induction ms generalizing t n with
  | nil => simp at hn
  | cons m ms ih =>
    have e0 := h0 m List.mem_cons_self
    have e1 := hw m List.mem_cons_self
    have hlt : max t m.1 < d := by rw [e0]; omega
    simp only [plain, List.map_cons, List.cons_append, serve, hlt, if_true, List.length_cons]
    cases n with
    | zero => omega
    | succ n =>
      have := ih (max t m.1 + m.2) (fun x hx => h0 x (List.mem_cons_of_mem _ hx))
        (fun x hx => hw x (List.mem_cons_of_mem _ hx)) n (by simpa using hn) (by rw [Nat.add_mul] at hd; omega)
      exact Nat.succ_lt_succ this

/-- C179: of messages that wait when the connection is made, each taking `H` milliseconds or less, as many are read as fit
into the minute, one at least, whatever comes behind them. -/
theorem C179_progress (ms : List (Nat × Nat)) (H : Nat) (rest : List Frame) (h0 : ∀ m ∈ ms, m.1 = 0)
    (hw : ∀ m ∈ ms, m.2 ≤ H) (n : Nat) (hn : n < ms.length) (hd : n * H < 60000) :
    n < (connection (plain ms ++ rest)).got.length :=
  progress ms H 0 pongWait rest h0 hw n hn (by simp only [pongWait]; omega)

/-! ## Concrete cases -/

/-- Three rounds with messages are read in full; then the other side is silent. -/
example :
    let rs : List Round := [⟨[(0, 900), (10, 2000), (53999, 1000)], 100⟩, ⟨[], 2000⟩, ⟨[(162000, 3999)], 0⟩]
    Prompt 2000 3999 1 rs ∧ (connection (frames 1 rs)).got.map (·.1) = [0, 900, 53999, 54999, 110000, 162000, 165999] ∧
      (connection (frames 1 rs)).upTo = 225999 := by
  refine ⟨?_, by decide, by decide⟩
  simp only [Prompt]
  decide

/-- A hundred messages that wait when the connection is made, each taking a second; every ping is answered at once. The
connection is given up after a minute, with forty messages unread. -/
example : (connection (plain (List.replicate 100 (0, 1000)) ++ [⟨54000, none⟩, ⟨108000, none⟩])).got.length = 60 ∧
    (connection (plain (List.replicate 100 (0, 1000)) ++ [⟨54000, none⟩, ⟨108000, none⟩])).upTo = 60000 ∧
    60000 ≤ ((List.replicate 100 ((0 : Nat), 1000)).map (·.2)).sum := by
  decide +kernel

end Verif.Props.Deadline
