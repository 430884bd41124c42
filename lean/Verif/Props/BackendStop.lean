import Verif.Model.BackendStop
/-!
# Stopping the companion process (C178)
-/
namespace Verif.Props.BackendStop
open Verif.BackendStop

/-- The listener is not on the way to a connection. -/
def Settled (s : State) : Prop := s.pc ≠ .making ∧ s.pc ≠ .dialing

theorem run_append (s : State) (as bs : List Act) :
    run s (as ++ bs) = ((run (run s as).1 bs).1, (run s as).2 ++ (run (run s as).1 bs).2) := by
  induction as generalizing s with
  | nil => rfl
  | cons a as ih => simp only [List.cons_append, run, ih, List.append_assoc]

/-- With the flag set and no connection under way there will be none. -/
theorem still_step (s : State) (a : Act) (h1 : s.stopping = true) (h2 : Settled s) :
    (step s a).1.stopping = true ∧ Settled (step s a).1 ∧ Event.connected ∉ (step s a).2 := by
  obtain ⟨pc, st, cn, bf, al, cl⟩ := s
  obtain ⟨h2, h3⟩ := h2
  simp only at h1 h2 h3
  subst h1
  cases a <;> simp only [step] <;> (repeat' split) <;> simp_all [Settled]

theorem still (s : State) (as : List Act) (h1 : s.stopping = true) (h2 : Settled s) :
    (run s as).1.stopping = true ∧ Settled (run s as).1 ∧ Event.connected ∉ (run s as).2 := by
  induction as generalizing s with
  | nil => exact ⟨h1, h2, by simp [run]⟩
  | cons a as ih =>
    obtain ⟨g1, g2, g3⟩ := still_step s a h1 h2
    obtain ⟨i1, i2, i3⟩ := ih _ g1 g2
    exact ⟨i1, i2, by simp only [run, List.mem_append]; exact fun h => h.elim g3 i3⟩

/-- Nothing is read from a closed connection but what had arrived. -/
def Shut (s : State) : Prop := s.stopping = true ∧ Settled s ∧ s.conn ≠ .link true

theorem shut_step (s : State) (a : Act) (h : Shut s) :
    Shut (step s a).1 ∧ (step s a).1.buf + (step s a).2.count .received ≤ s.buf := by
  obtain ⟨pc, st, cn, bf, al, cl⟩ := s
  obtain ⟨h1, ⟨h2, h3⟩, h4⟩ := h
  simp only at h1 h2 h3 h4
  subst h1
  cases a <;> simp only [step] <;> (repeat' split) <;> simp_all [Shut, Settled] <;> omega

theorem shut (s : State) (as : List Act) (h : Shut s) :
    Shut (run s as).1 ∧ (run s as).1.buf + (run s as).2.count .received ≤ s.buf := by
  induction as generalizing s with
  | nil => exact ⟨h, by simp [run]⟩
  | cons a as ih =>
    obtain ⟨g1, g2⟩ := shut_step s a h
    obtain ⟨i1, i2⟩ := ih _ g1
    refine ⟨i1, ?_⟩
    simp only [run, List.count_append]
    omega

/-- C178 for calls while the listener is not on the way to a connection: whatever happens before, during and after the call,
from the call on no connection is made, and once `StopListening` is through, nothing is read but the messages that had arrived
by then. Missing from the property: `C178_goes_on` and `C178_too_early`. -/
theorem C178_quiet_partial (pre mid post : List Act) (h0 : (run {} pre).1.caller = 0) (h : Settled (run {} pre).1)
    (hm : (run {} (pre ++ .stop1 :: mid)).1.caller = 1) :
    ∃ seen, (run {} (pre ++ .stop1 :: (mid ++ .stop2 :: post))).2 = (run {} (pre ++ .stop1 :: mid)).2 ++ seen ∧
      Event.connected ∉ (run (run {} pre).1 (.stop1 :: (mid ++ .stop2 :: post))).2 ∧
      seen.count .received ≤ (run {} (pre ++ .stop1 :: mid)).1.buf := by
  have e : pre ++ Act.stop1 :: (mid ++ .stop2 :: post) = (pre ++ .stop1 :: mid) ++ .stop2 :: post := by simp
  obtain ⟨s, hs⟩ : ∃ s, s = (run {} pre).1 := ⟨_, rfl⟩
  obtain ⟨m, hmid⟩ : ∃ m, m = (run {} (pre ++ .stop1 :: mid)).1 := ⟨_, rfl⟩
  rw [← hs] at h0 h
  have h1 : (step s .stop1).1.stopping = true ∧ Settled (step s .stop1).1 ∧ (step s .stop1).2 = [] := by
    simp only [step, h0, if_true]
    exact ⟨trivial, h, trivial⟩
  have hst := still _ mid h1.1 h1.2.1
  have hm' : m = (run (step s .stop1).1 mid).1 := by rw [hmid, run_append, ← hs]; rfl
  refine ⟨(run m (.stop2 :: post)).2, ?_, ?_, ?_⟩
  · rw [e, run_append, ← hmid]
  · rw [← hs]
    have := (still _ (mid ++ .stop2 :: post) h1.1 h1.2.1).2.2
    simpa only [run, h1.2.2, List.nil_append] using this
  · rw [← hmid] at hm ⊢
    rw [← hm'] at hst
    have g : Shut (step m .stop2).1 ∧ (step m .stop2).1.buf = m.buf ∧ (step m .stop2).2.count .received = 0 := by
      obtain ⟨pc, st, cn, bf, al, cl⟩ := m
      obtain ⟨i1, i2, -⟩ := hst
      simp only at hm i1
      subst hm i1
      cases cn <;> simp_all [step, Shut, Settled]
    have := (shut _ post g.1).2
    simp only [run, List.count_append]
    omega

/-- The steps of the listener. -/
def own : Act → Bool
  | .wake | .test | .make | .dial _ | .drop | .again => true
  | _ => false

/-- How far the listener is from its end, once the flag is set. -/
def rank : Pc → Nat
  | .over => 0 | .head => 1 | .back => 2 | .start => 2 | .reading => 3 | .dialing => 4 | .making => 5

/-- Whether an action is a step the listener can make now. -/
def can (s : State) (a : Act) : Bool := own a && decide (step s a ≠ (s, []))

theorem rank_step (s : State) (a : Act) (h : s.stopping = true) :
    (step s a).1.stopping = true ∧ rank (step s a).1.pc ≤ rank s.pc ∧
      (can s a = true → rank (step s a).1.pc < rank s.pc) := by
  obtain ⟨pc, st, cn, bf, al, cl⟩ := s
  simp only at h
  subst h
  cases a <;> cases pc <;> simp [step, rank, can, own] <;> (repeat' split) <;> simp_all

/-- How many steps the listener makes in a schedule. -/
def moves (s : State) : List Act → Nat
  | [] => 0
  | a :: as => (if can s a then 1 else 0) + moves (step s a).1 as

/-- C178: with the flag set, however long things go on, the listener makes at most five more steps; and as long as it is
not over there is a step it can make (if it reads, the end of the connection, which `StopListening` has brought about). -/
theorem C178_listener_ends (s : State) (as : List Act) (h : s.stopping = true) :
    moves s as ≤ 5 ∧ ((run s as).1.pc ≠ .over → ∃ a, can (run s as).1 a = true) := by
  have key : (run s as).1.stopping = true ∧ moves s as + rank (run s as).1.pc ≤ rank s.pc := by
    induction as generalizing s with
    | nil => exact ⟨h, by simp [moves, run]⟩
    | cons a as ih =>
      obtain ⟨g1, g2, g3⟩ := rank_step s a h
      obtain ⟨i1, i2⟩ := ih _ g1
      refine ⟨i1, ?_⟩
      simp only [moves, run]
      split
      · have := g3 (by assumption)
        omega
      · omega
  refine ⟨?_, ?_⟩
  · have : rank s.pc ≤ 5 := by cases s.pc <;> decide
    omega
  · intro hp
    obtain ⟨t, ht⟩ : ∃ t, t = (run s as).1 := ⟨_, rfl⟩
    rw [← ht] at hp key ⊢
    obtain ⟨pc, st, cn, bf, al, cl⟩ := t
    cases pc
    · exact ⟨.wake, by simp [can, own, step]⟩
    · exact ⟨.test, by have := key.1; simp only at this; subst this; simp [can, own, step]⟩
    · exact ⟨.make, by simp [can, own, step]⟩
    · exact ⟨.dial false, by simp [can, own, step]⟩
    · exact ⟨.drop, by simp [can, own, step]⟩
    · exact ⟨.again, by simp [can, own, step]⟩
    · exact absurd rfl hp

/-- C178: `Stop` reports success exactly as often as the companion is interrupted. -/
theorem C178_told (as : List Act) :
    (run {} as).2.count .interrupted = (run {} as).2.count (.returned true) := by
  obtain ⟨s, hs⟩ : ∃ s : State, s = {} := ⟨_, rfl⟩
  rw [← hs]
  clear hs
  induction as generalizing s with
  | nil => rfl
  | cons a as ih =>
    simp only [run, List.count_append, ih]
    congr 1
    cases a <;> simp only [step] <;> (repeat' split) <;> rfl

/-- Neither an interrupt nor success. -/
def Futile (es : List Event) : Prop := Event.interrupted ∉ es ∧ Event.returned true ∉ es

theorem futile_append {as bs : List Event} (h1 : Futile as) (h2 : Futile bs) : Futile (as ++ bs) :=
  ⟨fun h => (List.mem_append.mp h).elim h1.1 h2.1, fun h => (List.mem_append.mp h).elim h1.2 h2.2⟩

/-- What holds as long as there was no attempt to connect. -/
def Early (s : State) : Prop :=
  s.conn = .none → s.pc ≠ .dialing ∧ s.pc ≠ .reading ∧ s.pc ≠ .back ∧ s.caller ≠ 2

theorem early_step (s : State) (a : Act) (h : Early s) :
    Early (step s a).1 ∧ ((step s a).1.conn = .none → s.conn = .none ∧ Futile (step s a).2) := by
  obtain ⟨pc, st, cn, bf, al, cl⟩ := s
  cases a <;> cases cn <;> simp only [step] <;> (repeat' split) <;> simp_all [Early, Futile]

theorem early (s : State) (as : List Act) (h : Early s) :
    Early (run s as).1 ∧ ((run s as).1.conn = .none → s.conn = .none ∧ Futile (run s as).2) := by
  induction as generalizing s with
  | nil => exact ⟨h, fun g => ⟨g, by simp [run, Futile]⟩⟩
  | cons a as ih =>
    obtain ⟨g1, g2⟩ := early_step s a h
    obtain ⟨i1, i2⟩ := ih _ g1
    refine ⟨i1, fun g => ?_⟩
    obtain ⟨j1, j2⟩ := i2 g
    exact ⟨(g2 j1).1, futile_append (g2 j1).2 j2⟩

/-- The flag is set and there will be no attempt to connect. -/
def Lost (s : State) : Prop :=
  s.stopping = true ∧ s.conn = .none ∧ (s.pc = .start ∨ s.pc = .head ∨ s.pc = .over) ∧ s.caller ≠ 2

theorem lost_step (s : State) (a : Act) (h : Lost s) : Lost (step s a).1 ∧ Futile (step s a).2 := by
  obtain ⟨pc, st, cn, bf, al, cl⟩ := s
  obtain ⟨h1, h2, h3, h4⟩ := h
  simp only at h1 h2 h3 h4
  subst h1 h2
  rcases h3 with rfl | rfl | rfl <;> cases a <;> simp only [step] <;> (repeat' split) <;> simp_all [Lost, Futile]

theorem lost (s : State) (as : List Act) (h : Lost s) : Lost (run s as).1 ∧ Futile (run s as).2 := by
  induction as generalizing s with
  | nil => exact ⟨h, by simp [run, Futile]⟩
  | cons a as ih =>
    obtain ⟨g1, g2⟩ := lost_step s a h
    obtain ⟨i1, i2⟩ := ih _ g1
    exact ⟨i1, futile_append g2 i2⟩

/-- Refuted: after a call before the first attempt to connect, every call fails and the companion is never interrupted,
whatever happens and however often `Stop` is called. -/
theorem C178_too_early (pre post : List Act) (hc : (run {} pre).1.caller = 0) (hn : (run {} pre).1.conn = .none)
    (hp : (run {} pre).1.pc ≠ .making) :
    Event.interrupted ∉ (run {} (pre ++ .stop1 :: post)).2 ∧
      Event.returned true ∉ (run {} (pre ++ .stop1 :: post)).2 := by
  obtain ⟨g1, g2⟩ := early {} pre (by simp [Early])
  obtain ⟨-, g2⟩ := g2 hn
  rw [run_append]
  obtain ⟨s, hs⟩ : ∃ s, s = (run {} pre).1 := ⟨_, rfl⟩
  rw [← hs] at hc hn hp g1 ⊢
  have hl : Lost (step s .stop1).1 ∧ (step s .stop1).2 = [] := by
    obtain ⟨k1, k2, k3, -⟩ := g1 hn
    obtain ⟨pc, st, cn, bf, al, cl⟩ := s
    cases pc <;> simp_all [step, Lost]
  refine futile_append g2 ?_
  simp only [run, hl.2, List.nil_append]
  exact (lost _ post hl.1).2

/-- Refuted: a call during an attempt to connect reports success, and afterwards the connection is made and any number of
messages is read. -/
theorem C178_goes_on (n : Nat) :
    ∃ pre, (run {} pre).2 = [.interrupted, .returned true] ∧
      ∃ post, (run (run {} pre).1 post).2 = .connected :: List.replicate n .received := by
  refine ⟨[.wake, .test, .make, .stop1, .stop2, .stop3], rfl,
    .dial true :: (List.replicate n [Act.arrive, .read]).flatten, ?_⟩
  have : ∀ n (s : State), s.pc = .reading → s.conn = .link true → s.alive = true → s.buf = 0 →
      (run s (List.replicate n [Act.arrive, .read]).flatten).2 = List.replicate n .received := by
    intro n
    induction n with
    | zero => intros; rfl
    | succ n ih =>
      intro s h1 h2 h3 h4
      obtain ⟨pc, st, cn, bf, al, cl⟩ := s
      simp only at h1 h2 h3 h4
      subst h1 h2 h3 h4
      have := ih ⟨.reading, st, .link true, 0, true, cl⟩ rfl rfl rfl rfl
      simp [List.replicate_succ, run, step, this]
  have := this n ⟨.reading, true, .link true, 0, true, 0⟩ rfl rfl rfl rfl
  simp [run, step, this]

/-! ## Concrete cases -/

/-- A call while the listener reads: two messages had arrived, the third comes too late and neither it nor a new connection is
seen; the companion is interrupted and the listener ends. -/
example :
    let pre : List Act := [.wake, .test, .make, .dial true, .arrive, .read, .arrive, .arrive]
    let mid : List Act := [.read, .arrive]
    let post : List Act := [.arrive, .read, .stop3, .read, .read, .drop, .again, .test, .make, .dial true]
    (run {} pre).1.caller = 0 ∧ (run {} pre).1.pc = .reading ∧ (run {} (pre ++ .stop1 :: mid)).1.caller = 1 ∧
      (run {} (pre ++ .stop1 :: (mid ++ .stop2 :: post))).2 =
        [.connected, .received, .received, .received, .interrupted, .returned true, .received] ∧
      (run {} (pre ++ .stop1 :: (mid ++ .stop2 :: post))).1.pc = .over := by
  decide

/-- A call in the first second, and another one later. -/
example : (run {} [.stop1, .stop2, .wake, .test, .make, .dial true, .stop1, .stop2, .stop3]).2 =
      [.returned false, .returned false] ∧
    (run {} [.stop1, .stop2, .wake, .test, .make, .dial true, .stop1, .stop2, .stop3]).1.alive = true := by
  decide

/-- Five steps of the listener after the flag is set, with an attempt that succeeds. -/
example : moves (run {} [.wake, .test, .stop1]).1 [.make, .dial true, .stop2, .drop, .again, .test, .test, .wake] = 5 ∧
    (run {} [.wake, .test, .stop1, .make, .dial true, .stop2, .drop, .again, .test]).1.pc = .over := by
  decide

end Verif.Props.BackendStop
