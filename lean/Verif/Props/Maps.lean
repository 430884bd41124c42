import Verif.Proof.Maps
/-!
# C156: several goroutines at once
-/
namespace Verif.Props
open Verif.Maps Verif.Spec.Maps Verif.Proof.Maps

/-- **C156** (in part). Any number of goroutines send messages to people whose devices are known, to whatever effect
except that the server names other devices, while goroutine 0 receives texts and profile keys from anyone: whatever
the schedule, no goroutine gets into the way of another. Missing: everything below. -/
theorem C156_apart_partial (self : String) (known : Map → String → Bool) (ts : Nat → List Call)
    (h0 : ∀ c ∈ ts 0, Received c) (h : ∀ i, i ≠ 0 → ∀ c ∈ ts i, Easy self known c) : Safe (start self known ts) := by
  refine safe_of_calm self known ts (fun i m => m = .devices ∨ i = 0 ∧ m = .contacts)
    (fun i m => i = 0 ∧ m = .contacts) (fun m => m ≠ .contacts) ?_ ?_ ?_
  · rintro i m ⟨_, rfl⟩ h
    exact h rfl
  · rintro i j m ⟨rfl, rfl⟩ hij
    refine ⟨?_, fun h => hij h.1.symm⟩
    rintro (h | ⟨h, _⟩)
    · cases h
    · exact hij h.symm
  · intro i
    by_cases hi : i = 0
    · subst hi
      exact calm_received (Or.inr ⟨rfl, rfl⟩) ⟨rfl, rfl⟩ (by simp) _ h0
    · exact calm_easy (Or.inl rfl) (by simp) _ (h i hi)

/-- **C156** (in part). Any number of goroutines send messages to people and to groups of people whose devices are known, and
receive texts and requests of the own devices for the groups: whatever the schedule, no goroutine gets into the way of
another. Missing: everything below. -/
theorem C156_groups_apart_partial (self : String) (known : Map → String → Bool) (ts : Nat → List Call)
    (h : ∀ i, ∀ c ∈ ts i, Known self known c) : Safe (start self known ts) :=
  safe_of_calm self known ts (fun _ _ => True) (fun _ _ => False) (fun _ => True) (fun _ _ h => h.elim)
    (fun _ _ _ h => h.elim) (fun i => calm_known (fun _ => trivial) (fun _ => trivial) _ (h i))

/-- **C156**: a program with one goroutine is safe whatever it calls. -/
theorem C156_alone (self : String) (known : Map → String → Bool) (ts : Nat → List Call) (i : Nat)
    (h : ∀ j, j ≠ i → ts j = []) : Safe (start self known ts) := by
  refine safe_of_calm self known ts (fun j _ => j = i) (fun j _ => j = i) (fun _ => False) (fun _ _ _ h => h) ?_ ?_
  · intro j k m hj hjk
    exact ⟨fun hk => hjk (hj.trans hk.symm), fun hk => hjk (hj.trans hk.symm)⟩
  · intro j
    by_cases hj : j = i
    · have := calm_any known (calls self (ts j))
      have e : (fun _ : Map => j = i) = fun _ => True := by funext; simp [hj]
      rw [e]
      exact this
    · rw [h j hj]
      trivial

/-- The state after `n` steps of goroutine `i` followed by one of goroutine `j`. -/
theorem clash_of {s : State} {i j : Nat} {m : Map} {n : Nat} (hij : i ≠ j)
    (hi : ((run s (List.replicate n i)).threads i).inside = some (m, true))
    (hj : (stepThread (run s (List.replicate n i)).known ((run s (List.replicate n i)).threads j)).2.inside
      = some (m, true) ∨
      (stepThread (run s (List.replicate n i)).known ((run s (List.replicate n i)).threads j)).2.inside
      = some (m, false)) : ¬ Safe s := by
  intro hs
  refine hs (List.replicate n i ++ [j]) ?_
  have e : run s (List.replicate n i ++ [j]) = step (run s (List.replicate n i)) j := by simp [run]
  rw [e]
  rcases hj with hj | hj
  · exact ⟨i, j, m, true, hij, by simp [step, hij, hi], by simp [step, hj]⟩
  · exact ⟨i, j, m, false, hij, by simp [step, hij, hi], by simp [step, hj]⟩

/-- Steps of one goroutine leave the others as they are. -/
theorem run_others (s : State) (i j : Nat) (hij : i ≠ j) : ∀ n, (run s (List.replicate n i)).threads j = s.threads j
  | 0 => rfl
  | n + 1 => by
      have e : run s (List.replicate (n + 1) i) = step (run s (List.replicate n i)) i := by
        simp [run, List.replicate_succ']
      have hji : j ≠ i := fun h => hij h.symm
      rw [e]
      simp [step, hji, run_others s i j hij n]

/-- A message is being sent: the first thing is to look up the devices. -/
theorem send_first (self : String) (known known' : Map → String → Bool) (ts : Nat → List Call) (j : Nat) (v : String)
    (l : List Answer) (y : Option (List Answer)) (cs : List Call) (h : ts j = .send v l y :: cs) :
    (stepThread known' ((start self known ts).threads j)).2.inside = some (.devices, false) := by
  simp [start, h, calls, prog, sendMessage, deliver, stepThread]

/-- Missing, and false of the code: *messages can be sent from several goroutines*. Whatever two goroutines send next, if
one of them writes to someone for the first time, they can get into each other's way. -/
theorem C156_first_message_clashes (self : String) (known : Map → String → Bool) (ts : Nat → List Call) (i j : Nat)
    (hij : i ≠ j) (u v : String) (l l' : List Answer) (y y' : Option (List Answer)) (cs cs' : List Call)
    (hi : ts i = .send u l y :: cs) (hj : ts j = .send v l' y' :: cs') (hu : known .devices u = false) :
    ¬ Safe (start self known ts) := by
  refine clash_of (m := .devices) (n := 3) hij ?_ (Or.inr ?_)
  · simp [run, List.replicate, step, start, hi, calls, prog, sendMessage, deliver, stepThread, hu]
  · rw [run_others _ _ _ hij]
    exact send_first self known _ ts j v l' y' cs' hj

/-- Missing, and false of the code: … also if everybody's devices are known, but the server names other devices. -/
theorem C156_changed_devices_clash (self : String) (known : Map → String → Bool) (ts : Nat → List Call) (i j : Nat)
    (hij : i ≠ j) (u v : String) (l l' : List Answer) (y y' : Option (List Answer)) (cs cs' : List Call)
    (hi : ts i = .send u (.mismatched :: l) y :: cs) (hj : ts j = .send v l' y' :: cs') (hu : known .devices u = true) :
    ¬ Safe (start self known ts) := by
  refine clash_of (m := .devices) (n := 7) hij ?_ (Or.inr ?_)
  · simp [run, List.replicate, step, start, hi, calls, prog, sendMessage, deliver, attempts, stepThread, hu]
  · rw [run_others _ _ _ hij]
    exact send_first self known _ ts j v l' y' cs' hj

/-- Missing, and false of the code: *an application that uses one goroutine can send while it listens*. If another own
device asks for the groups before anything was sent to the own devices, answering it can get into the way of a message
being sent. -/
theorem C156_answer_clashes (self : String) (known : Map → String → Bool) (ts : Nat → List Call) (i j : Nat)
    (hij : i ≠ j) (v : String) (l l' : List Answer) (y' : Option (List Answer)) (cs cs' : List Call)
    (hi : ts i = .gotGroupsRequest l :: cs) (hj : ts j = .send v l' y' :: cs') (hu : known .devices self = false) :
    ¬ Safe (start self known ts) := by
  refine clash_of (m := .devices) (n := 5) hij ?_ (Or.inr ?_)
  · simp [run, List.replicate, step, start, hi, calls, prog, deliver, stepThread, hu]
  · rw [run_others _ _ _ hij]
    exact send_first self known _ ts j v l' y' cs' hj

/-- Missing, and false of the code: *the contacts can be refreshed while listening*. Whoever sends a new profile key at that
moment can bring the program down. -/
theorem C156_refresh_clashes (self : String) (known : Map → String → Bool) (ts : Nat → List Call) (i j : Nat)
    (hij : i ≠ j) (src : String) (keys : List String) (cs cs' : List Call)
    (hi : ts i = .gotProfileKey src :: cs) (hj : ts j = .refresh keys :: cs') : ¬ Safe (start self known ts) := by
  refine clash_of (m := .contacts) (n := 3) hij ?_ (Or.inl ?_)
  · simp [run, List.replicate, step, start, hi, calls, prog, stepThread]
  · rw [run_others _ _ _ hij]
    simp [start, hj, calls, prog, refresh, stepThread]

/-- Missing, and false of the code: *groups can be written to while listening*, for the same reason. -/
theorem C156_group_message_clashes (self : String) (known : Map → String → Bool) (ts : Nat → List Call) (i j : Nat)
    (hij : i ≠ j) (src g u : String) (l : List Answer) (y : Option (List Answer))
    (ms : List (String × List Answer × Option (List Answer))) (cs cs' : List Call)
    (hi : ts i = .gotProfileKey src :: cs) (hj : ts j = .sendGroup g ((u, l, y) :: ms) :: cs')
    (hg : known .groups g = true) : ¬ Safe (start self known ts) := by
  intro hs
  refine hs [j, j, i, i, i, j] ⟨i, j, .contacts, false, hij, ?_, ?_⟩
  · have hji : j ≠ i := fun h => hij h.symm
    simp [run, step, start, hi, hj, calls, prog, stepThread, hij, hji, sendAll, hg]
  · have hji : j ≠ i := fun h => hij h.symm
    simp [run, step, start, hi, hj, calls, prog, stepThread, hij, hji, sendAll, hg]

/-- Missing, and false of the code: *groups can be made while listening*. -/
theorem C156_new_group_clashes (self : String) (known : Map → String → Bool) (ts : Nat → List Call) (i j : Nat)
    (hij : i ≠ j) (g : String) (l : List Answer) (ms : List (String × List Answer × Option (List Answer)))
    (cs cs' : List Call) (hi : ts i = .newGroup g ms :: cs) (hj : ts j = .gotGroupsRequest l :: cs') :
    ¬ Safe (start self known ts) := by
  refine clash_of (m := .groups) (n := 1) hij ?_ (Or.inr ?_)
  · simp [run, List.replicate, step, start, hi, calls, prog, stepThread]
  · rw [run_others _ _ _ hij]
    simp [start, hj, calls, prog, stepThread]

namespace Demo.Maps

/-- Bob and Carol have been written to before, the own devices too. -/
def known : Map → String → Bool
  | .devices, u => u = "bob" ∨ u = "carol" ∨ u = "me"
  | _, _ => false

/-- Goroutine 0 listens, 1 writes to Bob and is asked for a transcript, 2 writes to Carol, 3 to somebody new. -/
def calls : Nat → List Call
  | 0 => [.gotText, .gotProfileKey "dave"]
  | 1 => [.send "bob" [.stale, .accepted] (some [.accepted]), .send "bob" [.accepted] none]
  | 2 => [.send "carol" [.refused] none]
  | _ => []

example : (∀ c ∈ calls 0, Received c) ∧ (∀ i, i ≠ 0 → ∀ c ∈ calls i, Easy "me" known c) := by
  refine ⟨by simp [calls, Received], ?_⟩
  intro i hi c hc
  match i, hi, hc with
  | 1, _, hc =>
    simp only [calls, List.mem_cons, List.not_mem_nil, or_false] at hc
    rcases hc with rfl | rfl <;> simp [Easy, known, Smooth]
  | 2, _, hc =>
    simp only [calls, List.mem_cons, List.not_mem_nil, or_false] at hc
    subst hc
    simp [Easy, known, Smooth]
  | n + 3, _, hc => simp [calls] at hc

/-- The accesses do take place: the profile key is stored, and the schedule comes to an end. -/
example : (run (start "me" known calls) ([0, 0, 1, 2, 0, 1, 0, 2, 0, 0] ++ List.replicate 20 1 ++ List.replicate 4 2)).known
    .contacts "dave" = true := by decide +kernel

/-- As before, and the group is known. -/
def known2 : Map → String → Bool
  | .devices, u => u = "bob" ∨ u = "carol" ∨ u = "me"
  | .groups, g => g = "aa"
  | _, _ => false

/-- Goroutine 0 answers a request for the groups, 1 and 2 write to the group. -/
def calls2 : Nat → List Call
  | 0 => [.gotText, .gotGroupsRequest [.accepted]]
  | 1 => [.sendGroup "aa" [("bob", [.stale, .accepted], none), ("carol", [.accepted], some [.accepted])]]
  | 2 => [.sendGroup "aa" [("carol", [.refused], none)], .send "bob" [.accepted] none]
  | _ => []

example : ∀ i, ∀ c ∈ calls2 i, Known "me" known2 c := by
  intro i c hc
  match i, hc with
  | 0, hc =>
    simp only [calls2, List.mem_cons, List.not_mem_nil, or_false] at hc
    rcases hc with rfl | rfl <;> simp [Known, known2, Smooth]
  | 1, hc =>
    simp only [calls2, List.mem_cons, List.not_mem_nil, or_false] at hc
    subst hc
    simp [Known, Easy, known2, Smooth]
  | 2, hc =>
    simp only [calls2, List.mem_cons, List.not_mem_nil, or_false] at hc
    rcases hc with rfl | rfl <;> simp [Known, Easy, known2, Smooth]
  | n + 3, hc => simp [calls2] at hc

/-- Two goroutines are inside the map of devices at once, reading. -/
example : ((run (start "me" known2 calls2) [1, 1, 2, 2, 1, 1, 2, 2, 1, 2]).threads 1).inside = some (.devices, false) ∧
    ((run (start "me" known2 calls2) [1, 1, 2, 2, 1, 1, 2, 2, 1, 2]).threads 2).inside = some (.devices, false) := by
  decide +kernel

end Demo.Maps

end Verif.Props
