import Verif.Proof.Concurrent
import Verif.Props.Replay
import Mathlib.Tactic.ByContra
/-!
# C21 (cipher calls serialise) and C22 (building a session is not protected)
-/
namespace Verif.Props
open Verif Verif.Keys Verif.Messages Verif.Session Verif.Names Verif.Api Verif.Conc

/-! ## C21 -/

/-- `order` explains the state `s`: the calls of the finished goroutines, executed one after the other in
this order by the sequential API, give the store and the results, and the other goroutines have not
started. -/
structure Serial (P : Prims) (calls : Nat → Event) (st0 : Store) (s : Sys) (order : List Nat) : Prop where
  nodup : order.Nodup
  store : s.store = run P st0 (order.map calls)
  done : ∀ a i b, order = a ++ i :: b →
    s.threads i = .done (result P (run P st0 (a.map calls)) (calls i))
  idle : ∀ i, i ∉ order → s.threads i = .idle

/-- The same while one goroutine is inside the lock. -/
structure Inside (P : Prims) (calls : Nat → Event) (st0 : Store) (s : Sys) (order : List Nat) (h : Nat) :
    Prop where
  nodup : (order ++ [h]).Nodup
  prog : ∃ p, s.threads h = .running p ∧
    p.exec s.store = (step P (run P st0 (order.map calls)) (calls h),
      result P (run P st0 (order.map calls)) (calls h))
  done : ∀ a i b, order = a ++ i :: b →
    s.threads i = .done (result P (run P st0 (a.map calls)) (calls i))
  idle : ∀ i, i ∉ order ++ [h] → s.threads i = .idle

/-- Either form. -/
def Explained (P : Prims) (calls : Nat → Event) (st0 : Store) (s : Sys) (order : List Nat) : Prop :=
  (s.lock = none ∧ Serial P calls st0 s order) ∨ ∃ h, s.lock = some h ∧ Inside P calls st0 s order h

theorem run_snoc (P : Prims) (st : Store) (es : List Event) (e : Event) :
    run P st (es ++ [e]) = step P (run P st es) e := by simp [run, List.foldl_append]

theorem explained_step (P : Prims) (calls : Nat → Event) (st0 : Store)
    (hl : ∀ i, locked (calls i) = true) (hc : ∀ i, (calls i).crash = none)
    {s t : Sys} {order : List Nat} (h : Explained P calls st0 s order) (hs : Step P calls s t) :
    ∃ order', order <+: order' ∧ Explained P calls st0 t order' := by
  have hd : ∀ i, (calls i).call ≠ .delete := by
    intro i hi
    have := hl i
    simp [locked, hi] at this
  -- a running goroutine is the one inside the lock
  have holder : ∀ i p, s.threads i = .running p → ∃ h, s.lock = some h ∧ Inside P calls st0 s order h ∧ i = h := by
    intro i p hp
    rcases h with ⟨_, hser⟩ | ⟨h, hk, hin⟩
    · by_cases hi : i ∈ order
      · obtain ⟨a, b, hab⟩ := List.append_of_mem hi
        rw [hser.done a i b hab] at hp; cases hp
      · rw [hser.idle i hi] at hp; cases hp
    · refine ⟨h, hk, hin, ?_⟩
      by_cases hi : i ∈ order
      · obtain ⟨a, b, hab⟩ := List.append_of_mem hi
        rw [hin.done a i b hab] at hp; cases hp
      · by_contra hne
        rw [hin.idle i (by simp [hi, hne])] at hp; cases hp
  cases hs with
  | start i h1 _ => rw [hl i] at h1; cases h1
  | finish i r h1 _ => rw [hl i] at h1; cases h1
  | lock i _ hidle hfree =>
    rcases h with ⟨_, hser⟩ | ⟨h, hk, _⟩
    · refine ⟨order, List.prefix_rfl, Or.inr ⟨i, rfl, ?_⟩⟩
      have hni : i ∉ order := by
        intro hi
        obtain ⟨a, b, hab⟩ := List.append_of_mem hi
        rw [hser.done a i b hab] at hidle; cases hidle
      refine ⟨?_, ⟨prog P (calls i), by simp [Sys.set], ?_⟩, ?_, ?_⟩
      · rw [List.nodup_append]
        exact ⟨hser.nodup, by simp, by intro a ha b hb; simp at hb; subst hb; rintro rfl; exact hni ha⟩
      · show (prog P (calls i)).exec s.store = _
        rw [hser.store]
        exact prog_exec P _ _ (hd i) (hc i)
      · intro a j b hab
        have hj : j ≠ i := by rintro rfl; exact hni (by rw [hab]; simp)
        simpa [Sys.set, hj] using hser.done a j b hab
      · intro j hj
        simp only [List.mem_append, List.mem_singleton, not_or] at hj
        simpa [Sys.set, hj.2] using hser.idle j hj.1
    · rw [hk] at hfree; cases hfree
  | read i k hrun =>
    obtain ⟨h', hk, hin, rfl⟩ := holder i _ hrun
    refine ⟨order, List.prefix_rfl, Or.inr ⟨i, hk, ?_⟩⟩
    obtain ⟨p, hp, hex⟩ := hin.prog
    rw [hrun] at hp
    injection hp with hp
    have hni : i ∉ order := by
      intro hi
      have := hin.nodup
      rw [List.nodup_append] at this
      exact this.2.2 i hi i (by simp) rfl
    refine ⟨hin.nodup, ⟨k s.store, by simp [Sys.set], ?_⟩, ?_, ?_⟩
    · rw [← hp] at hex; exact hex
    · intro a j b hab
      have hj : j ≠ i := by rintro rfl; exact hni (by rw [hab]; simp)
      simpa [Sys.set, hj] using hin.done a j b hab
    · intro j hj
      have hj' : j ≠ i := by rintro rfl; exact hj (by simp)
      simpa [Sys.set, hj'] using hin.idle j hj
  | write i w k hrun =>
    obtain ⟨h', hk, hin, rfl⟩ := holder i _ hrun
    refine ⟨order, List.prefix_rfl, Or.inr ⟨i, hk, ?_⟩⟩
    obtain ⟨p, hp, hex⟩ := hin.prog
    rw [hrun] at hp
    injection hp with hp
    have hni : i ∉ order := by
      intro hi
      have := hin.nodup
      rw [List.nodup_append] at this
      exact this.2.2 i hi i (by simp) rfl
    refine ⟨hin.nodup, ⟨k, by simp [Sys.set], ?_⟩, ?_, ?_⟩
    · rw [← hp] at hex; exact hex
    · intro a j b hab
      have hj : j ≠ i := by rintro rfl; exact hni (by rw [hab]; simp)
      simpa [Sys.set, hj] using hin.done a j b hab
    · intro j hj
      have hj' : j ≠ i := by rintro rfl; exact hj (by simp)
      simpa [Sys.set, hj'] using hin.idle j hj
  | unlock i r _ hrun =>
    obtain ⟨h', hk, hin, rfl⟩ := holder i _ hrun
    refine ⟨order ++ [i], List.prefix_append _ _, Or.inl ⟨rfl, ?_⟩⟩
    obtain ⟨p, hp, hex⟩ := hin.prog
    rw [hrun] at hp
    injection hp with hp
    rw [← hp] at hex
    have hst := congrArg Prod.fst hex
    have hre := congrArg Prod.snd hex
    simp only [Prog.exec] at hst hre
    have hni : i ∉ order := by
      intro hi
      have := hin.nodup
      rw [List.nodup_append] at this
      exact this.2.2 i hi i (by simp) rfl
    refine ⟨hin.nodup, ?_, ?_, ?_⟩
    · show s.store = _
      rw [List.map_append, List.map_singleton, run_snoc, hst]
    · intro a j b hab
      by_cases hj : j = i
      · subst hj
        have ha : order = a := by
          have h1 : a ++ j :: b = a ++ [j] ++ b := by simp
          rw [h1] at hab
          rcases List.eq_nil_or_concat b with rfl | ⟨b', x, rfl⟩
          · simpa using hab
          · exfalso
            have : order = a ++ [j] ++ b' := by
              have h2 : a ++ [j] ++ b'.concat x = (a ++ [j] ++ b') ++ [x] := by simp
              rw [h2] at hab
              exact (List.append_inj' hab rfl).1
            exact hni (by rw [this]; simp)
        rw [← ha]
        simp [Sys.set, hre]
      · have : ∃ b', order = a ++ j :: b' := by
          rcases List.eq_nil_or_concat b with rfl | ⟨b', x, rfl⟩
          · exfalso
            have : order ++ [i] = a ++ [j] := hab
            have := (List.append_inj' this rfl).2
            simp at this
            exact hj this.symm
          · refine ⟨b', ?_⟩
            have h2 : a ++ j :: b'.concat x = (a ++ j :: b') ++ [x] := by simp
            rw [h2] at hab
            exact (List.append_inj' hab rfl).1
        obtain ⟨b', hb'⟩ := this
        simpa [Sys.set, hj] using hin.done a j b' hb'
    · intro j hj
      have hj' : j ≠ i := by rintro rfl; exact hj (by simp)
      simpa [Sys.set, hj'] using hin.idle j hj

theorem explained_steps (P : Prims) (calls : Nat → Event) (st0 : Store)
    (hl : ∀ i, locked (calls i) = true) (hc : ∀ i, (calls i).crash = none)
    {s t : Sys} {order : List Nat} (h : Explained P calls st0 s order) (hs : Steps P calls s t) :
    ∃ order', order <+: order' ∧ Explained P calls st0 t order' := by
  induction hs with
  | refl => exact ⟨order, List.prefix_rfl, h⟩
  | tail _ hst ih =>
    obtain ⟨o1, h1, e1⟩ := ih
    obtain ⟨o2, h2, e2⟩ := explained_step P calls st0 hl hc e1 hst
    exact ⟨o2, h1.trans h2, e2⟩

theorem explained_init (P : Prims) (calls : Nat → Event) (st0 : Store) :
    Explained P calls st0 { store := st0 } [] :=
  Or.inl ⟨rfl, ⟨List.nodup_nil, rfl, by intro a i b h; simp at h, fun _ _ => rfl⟩⟩

/-- Any number of goroutines making cipher calls (encrypt, decrypt), on the same or different sessions,
interleaved arbitrarily at every single file access: whenever nobody is inside the lock, the store and all
results so far are those of executing the calls one after another. What has finished by an earlier moment
`s` comes first in the order that explains the later moment `t`. -/
theorem C21_calls_serialise (P : Prims) (calls : Nat → Event) (st0 : Store)
    (hl : ∀ i, (∃ pt, (calls i).call = .encrypt pt) ∨ (∃ rnd m, (calls i).call = .decryptW rnd m) ∨
      (∃ rnd m, (calls i).call = .decryptP rnd m))
    (hc : ∀ i, (calls i).crash = none) (s t : Sys)
    (hs : Steps P calls { store := st0 } s) (hst : Steps P calls s t)
    (fs : s.lock = none) (ft : t.lock = none) :
    ∃ o o', Serial P calls st0 s o ∧ Serial P calls st0 t (o ++ o') := by
  have hl' : ∀ i, locked (calls i) = true := by
    intro i
    rcases hl i with ⟨_, h⟩ | ⟨_, _, h⟩ | ⟨_, _, h⟩ <;> simp [locked, h]
  obtain ⟨o, _, e⟩ := explained_steps P calls st0 hl' hc (explained_init P calls st0) hs
  obtain ⟨o2, ⟨o', rfl⟩, e'⟩ := explained_steps P calls st0 hl' hc e hst
  refine ⟨o, o', ?_, ?_⟩
  · rcases e with ⟨_, h⟩ | ⟨h, hk, _⟩
    · exact h
    · rw [fs] at hk; cases hk
  · rcases e' with ⟨_, h⟩ | ⟨h, hk, _⟩
    · exact h
    · rw [ft] at hk; cases hk

/-- No deadlock: in every reachable state, if some goroutine has not returned, some goroutine can move. -/
theorem C21_no_deadlock (P : Prims) (calls : Nat → Event) (st0 : Store)
    (hl : ∀ i, locked (calls i) = true) (hc : ∀ i, (calls i).crash = none) (s : Sys)
    (hs : Steps P calls { store := st0 } s) (i : Nat) (hi : ∀ r, s.threads i ≠ .done r) :
    ∃ t, Step P calls s t := by
  have run : ∀ j p, s.threads j = .running p → ∃ t, Step P calls s t := by
    intro j p hp
    cases p with
    | ret r => exact ⟨_, .unlock s j r (hl j) hp⟩
    | read k => exact ⟨_, .read s j k hp⟩
    | write w k => exact ⟨_, .write s j w k hp⟩
  obtain ⟨o, _, e⟩ := explained_steps P calls st0 hl hc (explained_init P calls st0) hs
  rcases e with ⟨hk, _⟩ | ⟨h, hk, hin⟩
  · cases ht : s.threads i with
    | idle => exact ⟨_, .lock s i (hl i) ht hk⟩
    | running p => exact run i p ht
    | done r => exact (hi r ht).elim
  · obtain ⟨p, hp, _⟩ := hin.prog
    exact run h p hp

/-- Headers of the messages that finished goroutines returned, in the given order. -/
def sentBy (s : Sys) : List Nat → List (Option (Bytes × Nat))
  | [] => []
  | i :: is => (match s.threads i with
    | .done (.ok (.sent out ty)) => [header out ty]
    | _ => []) ++ sentBy s is

theorem emitted_append (P : Prims) (rec : String) (dev : Nat) (es fs : List Event) : ∀ st : Store,
    emitted P rec dev st (es ++ fs) = emitted P rec dev st es ++ emitted P rec dev (run P st es) fs := by
  induction es with
  | nil => intro st; rfl
  | cons e es ih =>
    intro st
    simp only [List.cons_append, emitted, List.append_assoc]
    rw [ih]
    rfl

theorem calm_append (P : Prims) (rec : String) (dev : Nat) (es fs : List Event) : ∀ st : Store,
    Calm P rec dev st es → Calm P rec dev (run P st es) fs → Calm P rec dev st (es ++ fs) := by
  induction es with
  | nil => intro st _ h; exact h
  | cons e es ih => intro st h h'; exact ⟨h.1, ih _ h.2 h'⟩

/-- Concurrent encryptions never issue a ratchet key and counter twice: after any earlier history free of
promotions (see C04), goroutines encrypting to `(rec, dev)` at the same time send messages whose headers
all differ from each other and from those sent before. -/
theorem C21_concurrent_encryptions_distinct (P : Prims) (rec : String) (dev : Nat) (st : Store)
    (es : List Event) (calls : Nat → Event) (s : Sys)
    (h0 : st.sessions (sessName rec dev) = .absent)
    (hreg : ∀ g, st.regId = some g → g < 2 ^ 32)
    (hfresh : (es.flatMap (Event.freshKeys P)).Nodup) (hcalm : Calm P rec dev st es)
    (hcalls : ∀ i, ∃ pt env, pt.length < 2 ^ 60 ∧ calls i = { peer := rec, dev := dev, env := env, call := .encrypt pt })
    (hs : Steps P calls { store := run P st es } s) (hk : s.lock = none) :
    ∃ order : List Nat, order.Nodup ∧ (∀ i, i ∈ order ↔ ∃ r, s.threads i = .done r) ∧
      (es.length + order.length < 2 ^ 32 - 1 →
        (emitted P rec dev st es ++ sentBy s order).Nodup) := by
  have hl : ∀ i, locked (calls i) = true := by
    intro i; obtain ⟨pt, env, _, h⟩ := hcalls i; simp [locked, h]
  have hc : ∀ i, (calls i).crash = none := by
    intro i; obtain ⟨pt, env, _, h⟩ := hcalls i; simp [h]
  obtain ⟨o, _, e⟩ := explained_steps P calls (run P st es) hl hc (explained_init P calls _) hs
  have hser : Serial P calls (run P st es) s o := by
    rcases e with ⟨_, h⟩ | ⟨h, hk', _⟩
    · exact h
    · rw [hk] at hk'; cases hk'
  refine ⟨o, hser.nodup, ?_, ?_⟩
  · intro i
    constructor
    · intro hi
      obtain ⟨a, b, hab⟩ := List.append_of_mem hi
      exact ⟨_, hser.done a i b hab⟩
    · rintro ⟨r, hr⟩
      by_contra hi
      rw [hser.idle i hi] at hr; cases hr
  · intro hlen
    have key : ∀ a b : List Nat, o = a ++ b →
        sentBy s b = emitted P rec dev (run P (run P st es) (a.map calls)) (b.map calls) := by
      intro a b
      induction b generalizing a with
      | nil => intro _; rfl
      | cons i b ih =>
        intro hab
        have h1 := hser.done a i b hab
        have h2 := ih (a ++ [i]) (by rw [hab]; simp)
        obtain ⟨pt, env, _, hi⟩ := hcalls i
        rw [List.map_append, List.map_singleton, run_snoc] at h2
        simp only [sentBy, List.map_cons, emitted, h2]
        congr 1
        rw [h1]
        simp only [hi, result, if_true, Event.emits]
        cases (encryptMsg P env (run P (run P st es) (a.map calls)) rec dev pt).res <;> rfl
    have hcalm2 : ∀ (b : List Nat) (st' : Store), Calm P rec dev st' (b.map calls) := by
      intro b
      induction b with
      | nil => intro _; trivial
      | cons i b ih =>
        intro st'
        obtain ⟨pt, env, hp, hi⟩ := hcalls i
        refine ⟨?_, ih _⟩
        intro _
        rw [hi]
        exact ⟨trivial, hp⟩
    have hnofresh : ((o.map calls).flatMap (Event.freshKeys P)) = [] := by
      rw [List.flatMap_eq_nil_iff]
      intro e he
      obtain ⟨i, _, rfl⟩ := List.mem_map.mp he
      obtain ⟨pt, env, _, hi⟩ := hcalls i
      rw [hi]; rfl
    have := (C04_no_send_key_reuse_partial P rec dev st (es ++ o.map calls) h0 hreg
      (by simp only [List.length_append, List.length_map]; omega)
      (by rw [List.flatMap_append, hnofresh]; simpa using hfresh)
      (calm_append P rec dev es _ st hcalm (hcalm2 o _))).1
    rw [emitted_append] at this
    rw [key [] o rfl]
    exact this

/-! ## An executable scheduler, to exhibit interleavings -/

/-- Goroutine `i` makes one step, if it can. -/
def stepThread (P : Prims) (calls : Nat → Event) (s : Sys) (i : Nat) : Option Sys :=
  match s.threads i with
  | .idle =>
    if locked (calls i) then
      (if s.lock = none then some { s.set i (.running (prog P (calls i))) with lock := some i } else none)
    else some (s.set i (.running (prog P (calls i))))
  | .running (.read k) => some (s.set i (.running (k s.store)))
  | .running (.write w k) => some { s.set i (.running k) with store := applyWrite s.store w }
  | .running (.ret r) =>
    if locked (calls i) then some { s.set i (.done r) with lock := none } else some (s.set i (.done r))
  | .done _ => none

theorem stepThread_sound (P : Prims) (calls : Nat → Event) (s t : Sys) (i : Nat)
    (h : stepThread P calls s i = some t) : Step P calls s t := by
  unfold stepThread at h
  split at h
  · rename_i hi
    split at h
    · rename_i hl
      split at h
      · injection h with h; subst h; exact .lock s i hl hi ‹_›
      · cases h
    · injection h with h; subst h; exact .start s i (Bool.eq_false_iff.mpr ‹_›) hi
  · injection h with h; subst h; exact .read s i _ ‹_›
  · injection h with h; subst h; exact .write s i _ _ ‹_›
  · split at h
    · injection h with h; subst h; exact .unlock s i _ ‹_› ‹_›
    · injection h with h; subst h; exact .finish s i _ (Bool.eq_false_iff.mpr ‹_›) ‹_›
  · cases h

/-- Follow a schedule (a list of goroutine numbers). -/
def sched (P : Prims) (calls : Nat → Event) : List Nat → Sys → Option Sys
  | [], s => some s
  | i :: is, s => (stepThread P calls s i).bind (sched P calls is)

theorem sched_sound (P : Prims) (calls : Nat → Event) (is : List Nat) : ∀ s0 s t : Sys,
    Steps P calls s0 s → sched P calls is s = some t → Steps P calls s0 t := by
  induction is with
  | nil => intro s0 s t h h1; simp [sched] at h1; subst h1; exact h
  | cons i is ih =>
    intro s0 s t h h1
    simp only [sched, Option.bind_eq_some_iff] at h1
    obtain ⟨u, h2, h3⟩ := h1
    exact ih s0 u t (h.tail (stepThread_sound P calls s u i h2)) h3

/-! ## Non-vacuity of C21, and C22 -/

namespace Demo

/-- Alice, with a session to Bob, encrypts twice at the same time. -/
def twoSends : Nat → Event := fun i => { peer := "bob", dev := 1, call := .encrypt [UInt8.ofNat i] }

/-- Goroutine 1 is first; goroutine 0 finishes second. -/
def sentBoth : Option Sys := sched P twoSends [1, 1, 1, 1, 0, 0, 0, 0] { store := a1.1 }

def headerOf (s : Option Sys) (i : Nat) : Option (Bytes × Nat) :=
  match s with
  | some s => match s.threads i with
    | .done (.ok (.sent out ty)) => header out ty
    | _ => none
  | none => none

example : (headerOf sentBoth 1).map (·.2) = some 1 ∧ (headerOf sentBoth 0).map (·.2) = some 2 ∧
    (sentBoth.map (·.lock)) = some none := by decide +kernel
/-- While goroutine 1 is inside the lock, goroutine 0 cannot start. -/
example : (sched P twoSends [1, 1, 0] { store := a1.1 }).isNone = true := by decide +kernel

/-- Goroutine 0 rebuilds Alice's session with Bob, goroutine 1 encrypts (or decrypts). -/
def buildAndSend : Nat → Event := fun i =>
  if i = 0 then { peer := "bob", dev := 1, call := .build (List.replicate 32 11) (List.replicate 32 12) (bundle 7) }
  else { peer := "bob", dev := 1, call := .encrypt [2] }

def sessionOf (s : Option Sys) : Option SRecord :=
  match s with
  | some s => match s.store.sessions (sessName "bob" 1) with
    | .good r => some r
    | _ => none
  | none => none

def doneOk (s : Option Sys) (i : Nat) : Bool :=
  match s with
  | some s => match s.threads i with
    | .done (.ok _) => true
    | _ => false
  | none => false

/-- The build loads the session, the encryption runs, the build stores. -/
def lostSend : Option Sys := sched P buildAndSend [0, 0, 0, 1, 1, 1, 1, 0, 0, 0, 0, 0] { store := a1.1 }
/-- The encryption loads the session, the build runs, the encryption stores. -/
def lostBuild : Option Sys := sched P buildAndSend [1, 1, 0, 0, 0, 0, 0, 0, 0, 0, 1, 1] { store := a1.1 }

end Demo

/-- C22 fails, first way: both calls succeed, yet the archived old session is as it was before the
message was sent — its counter 1 has been used on the wire and is not recorded as used. -/
theorem C22_concurrent_build_loses_encryption :
    ∃ s, Steps Demo.P Demo.buildAndSend { store := Demo.a1.1 } s ∧
      Demo.doneOk (some s) 0 = true ∧ Demo.doneOk (some s) 1 = true ∧
      Demo.headerOf (some s) 1 = some ((Demo.pair 70).pub, 1) ∧
      ∃ r old, Demo.sessionOf (some s) = some r ∧ r.prev = [old] ∧
        old.sender.map (fun sd => (sd.pub, sd.ck.idx)) = some ((Demo.pair 70).pub, 1) := by
  have h : ∃ s, Demo.lostSend = some s := Option.isSome_iff_exists.mp (by decide +kernel)
  obtain ⟨s, hs⟩ := h
  refine ⟨s, sched_sound _ _ _ _ _ _ (.refl _) hs, ?_⟩
  rw [← hs]
  refine ⟨by decide +kernel, by decide +kernel, by decide +kernel, ?_⟩
  have h : ∃ r, Demo.sessionOf Demo.lostSend = some r := Option.isSome_iff_exists.mp (by decide +kernel)
  obtain ⟨r, hr⟩ := h
  have e : ∀ x : Option SRecord, x = some r → (x.map (fun r => r.prev.map
      (fun o => o.sender.map (fun sd => (sd.pub, sd.ck.idx))))) = some [some ((Demo.pair 70).pub, 1)] →
      ∃ old, r.prev = [old] ∧ old.sender.map (fun sd => (sd.pub, sd.ck.idx)) = some ((Demo.pair 70).pub, 1) := by
    rintro x rfl hx
    simp only [Option.map_some, Option.some.injEq] at hx
    obtain ⟨o, l, ho, h1, h2⟩ := List.map_eq_cons_iff.mp hx
    rw [List.map_eq_nil_iff] at h2
    subst h2
    exact ⟨o, ho, h1⟩
  obtain ⟨old, h1, h2⟩ := e _ hr (by decide +kernel)
  exact ⟨r, old, hr, h1, h2⟩

/-- C22 fails, second way: both calls succeed, yet the store is exactly as if the session had not been
built. -/
theorem C22_concurrent_encryption_loses_build :
    ∃ s, Steps Demo.P Demo.buildAndSend { store := Demo.a1.1 } s ∧
      Demo.doneOk (some s) 0 = true ∧ Demo.doneOk (some s) 1 = true ∧
      Demo.sessionOf (some s) =
        Demo.sessionOf (some { store := step Demo.P Demo.a1.1 (Demo.buildAndSend 1) }) := by
  have h : ∃ s, Demo.lostBuild = some s := Option.isSome_iff_exists.mp (by decide +kernel)
  obtain ⟨s, hs⟩ := h
  refine ⟨s, sched_sound _ _ _ _ _ _ (.refl _) hs, ?_⟩
  rw [← hs]
  exact ⟨by decide +kernel, by decide +kernel, by decide +kernel⟩

/-! ### What holds: a build of another peer's session -/

/-- The part of the store a call reads or writes. Only locked calls use the prekey files. -/
structure SameView (e : Event) (st st' : Store) : Prop where
  session : st.sessions (sessName e.peer e.dev) = st'.sessions (sessName e.peer e.dev)
  ident : st.identities e.peer = st'.identities e.peer
  pre : locked e = true → st.preKeys = st'.preKeys
  signed : st.signedPreKeys = st'.signedPreKeys
  own : st.identity = st'.identity
  reg : st.regId = st'.regId
  trust : st.alwaysTrust = st'.alwaysTrust

/-- The writes a call may make. -/
def Foot (e : Event) : Write → Prop
  | .saveIdentity id _ => id = e.peer
  | .removePreKey _ => locked e = true
  | .storeSession a b _ => a = e.peer ∧ b = e.dev

/-- A program that only looks at and writes the files of its own call. -/
inductive Own (e : Event) : Prog → Prop
  | ret (r) : Own e (.ret r)
  | read (k) : (∀ st, Own e (k st)) → (∀ st st', SameView e st st' → k st = k st') → Own e (.read k)
  | write (w k) : Foot e w → Own e k → Own e (.write w k)

theorem SameView.refl (e : Event) (st : Store) : SameView e st st :=
  ⟨rfl, rfl, fun _ => rfl, rfl, rfl, rfl, rfl⟩
theorem SameView.symm {e : Event} {a b : Store} (h : SameView e a b) : SameView e b a :=
  ⟨h.session.symm, h.ident.symm, fun x => (h.pre x).symm, h.signed.symm, h.own.symm, h.reg.symm, h.trust.symm⟩
theorem SameView.trans {e : Event} {a b c : Store} (h : SameView e a b) (h' : SameView e b c) : SameView e a c :=
  ⟨h.session.trans h'.session, h.ident.trans h'.ident, fun x => (h.pre x).trans (h'.pre x),
   h.signed.trans h'.signed, h.own.trans h'.own, h.reg.trans h'.reg, h.trust.trans h'.trust⟩

theorem SameView.load {e : Event} {a b : Store} (h : SameView e a b) :
    loadSession a e.peer e.dev = loadSession b e.peer e.dev := by
  unfold loadSession; rw [h.session]
theorem SameView.trusted {e : Event} {a b : Store} (h : SameView e a b) (k : Bytes) :
    isTrusted a e.peer k = isTrusted b e.peer k := by
  unfold isTrusted; rw [h.ident, h.trust]

theorem SameView.write {e : Event} {a b : Store} (h : SameView e a b) (w : Write) :
    SameView e (applyWrite a w) (applyWrite b w) := by
  cases w with
  | saveIdentity id k =>
    exact ⟨h.session, by simp only [applyWrite]; split; rfl; exact h.ident, h.pre, h.signed, h.own, h.reg, h.trust⟩
  | removePreKey n =>
    exact ⟨h.session, h.ident, fun x => by simp only [applyWrite]; rw [h.pre x], h.signed, h.own, h.reg, h.trust⟩
  | storeSession r d c =>
    exact ⟨by simp only [applyWrite]; split; rfl; exact h.session, h.ident, h.pre, h.signed, h.own, h.reg, h.trust⟩

/-- Locality: what a call does and returns depends only on its view. -/
theorem own_exec {e : Event} {p : Prog} (h : Own e p) : ∀ {a b : Store}, SameView e a b →
    (p.exec a).2 = (p.exec b).2 ∧ SameView e (p.exec a).1 (p.exec b).1 := by
  induction h with
  | ret r => intro a b hv; exact ⟨rfl, hv⟩
  | read k _ hk ih =>
    intro a b hv
    simp only [Prog.exec]
    rw [hk a b hv]
    exact ih b hv
  | write w k _ _ ih => intro a b hv; exact ih (hv.write w)

/-- Two calls that share no files. -/
def Apart (e f : Event) : Prop :=
  e.peer ≠ f.peer ∧ sessName e.peer e.dev ≠ sessName f.peer f.dev ∧ (locked e && locked f) = false

theorem foot_other {e f : Event} {w : Write} (ha : Apart e f) (hw : Foot f w) (st : Store) :
    SameView e (applyWrite st w) st := by
  cases w with
  | saveIdentity id k =>
    have : id = f.peer := hw
    exact ⟨rfl, by simp only [applyWrite]; rw [if_neg (by rw [this]; exact ha.1)], fun _ => rfl, rfl, rfl, rfl, rfl⟩
  | removePreKey n =>
    have hf : locked f = true := hw
    refine ⟨rfl, rfl, ?_, rfl, rfl, rfl, rfl⟩
    intro he
    have := ha.2.2
    rw [he, hf] at this
    cases this
  | storeSession r d c =>
    obtain ⟨rfl, rfl⟩ : r = f.peer ∧ d = f.dev := hw
    exact ⟨by simp only [applyWrite]; rw [if_neg ha.2.1], rfl, fun _ => rfl, rfl, rfl, rfl, rfl⟩

theorem own_exec_other {e f : Event} {p : Prog} (ha : Apart e f) (h : Own f p) : ∀ st : Store,
    SameView e (p.exec st).1 st := by
  induction h with
  | ret r => exact fun st => .refl e st
  | read k _ _ ih => exact fun st => ih st st
  | write w k hw _ ih => exact fun st => (ih _).trans (foot_other ha hw st)

theorem own_store {e : Event} (env : Env) (sr : SRecord) (a : Reply) :
    Own e (storeProg env e.peer e.dev sr a) := by
  unfold storeProg
  split
  · exact .write _ _ ⟨rfl, rfl⟩ (.ret _)
  · exact .ret _

theorem own_prog (P : Prims) (e : Event) : Own e (prog P e) := by
  unfold prog
  cases h : e.call with
  | delete => exact .ret _
  | encrypt pt =>
    refine .read _ ?_ ?_
    · intro st
      cases loadSession st e.peer e.dev with
      | err x => exact .ret _
      | panic => exact .ret _
      | ok sr =>
        simp only
        cases encryptState P sr.cur pt with
        | err x => exact .ret _
        | panic => exact .ret _
        | ok x => exact own_store _ _ _
    · intro st st' hv; simp only [hv.load]
  | decryptW rnd m =>
    refine .read _ ?_ ?_
    · intro st
      cases loadSession st e.peer e.dev with
      | err x => exact .ret _
      | panic => exact .ret _
      | ok sr =>
        simp only
        cases decryptRecord P rnd sr m with
        | mk sr' res =>
          cases res with
          | err x => exact .ret _
          | panic => exact .ret _
          | ok x => exact own_store _ _ _
    · intro st st' hv; simp only [hv.load]
  | decryptP rnd m =>
    have hlk : locked e = true := by simp [locked, h]
    have fin : ∀ sr1 n, Own e (finishPreKey P e.env rnd e.peer e.dev m sr1 n) := by
      intro sr1 n
      unfold finishPreKey
      cases decryptRecord P rnd sr1 m.message with
      | mk sr' res =>
        cases res with
        | err x => exact .ret _
        | panic => exact .ret _
        | ok x =>
          simp only
          split
          · exact .write _ _ hlk (own_store _ _ _)
          · exact own_store _ _ _
    refine .read _ ?_ ?_
    · intro st
      cases loadSession st e.peer e.dev with
      | err x => exact .ret _
      | panic => exact .ret _
      | ok sr =>
        simp only
        unfold buildReceiverProg
        split
        · exact .ret _
        refine .read _ ?_ (by intro a b hv; simp only [hv.trusted])
        intro st
        split
        · exact .ret _
        split
        · exact fin _ _
        refine .read _ ?_ (by intro a b hv; simp only [hv.signed])
        intro st
        cases st.signedPreKeys m.signedPreKeyId with
        | none => exact .ret _
        | some spk =>
          refine .read _ ?_ (by intro a b hv; simp only [hv.own])
          intro st
          cases st.identity with
          | none => exact .ret _
          | some ident =>
            refine .read _ ?_ (by intro a b hv; simp only [hv.pre hlk])
            intro st
            cases (if m.preKeyId ≠ 0 then (st.preKeys m.preKeyId).map some else some none) with
            | none => exact .ret _
            | some opk =>
              refine .read _ ?_ (by intro a b hv; simp only [hv.reg])
              intro st
              cases st.regId with
              | none => exact .ret _
              | some reg =>
                simp only
                split
                · exact .write _ _ rfl (fin _ _)
                · exact .ret _
    · intro st st' hv; simp only [hv.load]
  | build rb rr b =>
    refine .read _ ?_ (by intro a b hv; simp only [hv.trusted])
    intro st
    simp only
    by_cases hx : isTrusted st e.peer b.identityKey = false
    · rw [if_pos hx]; exact .ret _
    rw [if_neg hx]
    have ite_own : ∀ (c : Bool) (p q : Prog), Own e p → Own e q → Own e (if c = true then p else q) := by
      intro c p q hp hq
      cases c
      · exact hq
      · exact hp
    apply ite_own _ _ _ (.ret _)
    refine .read _ ?_ (by intro a b hv; simp only [hv.load])
    intro st
    cases loadSession st e.peer e.dev with
    | err x => exact .ret _
    | panic => exact .ret _
    | ok sr =>
      refine .read _ ?_ (by intro a b hv; simp only [hv.own])
      intro st
      cases st.identity with
      | none => exact .ret _
      | some ident =>
        simp only
        cases b.signedPreKey with
        | none => exact .ret _
        | some spk =>
          refine .read _ ?_ (by intro a b hv; simp only [hv.reg])
          intro st
          cases st.regId with
          | none => exact .ret _
          | some reg =>
            simp only
            split
            · exact .ret _
            · refine .write _ _ ⟨rfl, rfl⟩ ?_
              split
              · exact .ret _
              · exact .write _ _ rfl (.ret _)

/-- `order` lists the finished goroutines; `run … order` is the sequential store. -/
structure Mixed (P : Prims) (calls : Nat → Event) (st0 : Store) (s : Sys) (order : List Nat) : Prop where
  nodup : order.Nodup
  sess : ∀ n, (∀ i p, s.threads i = .running p → n ≠ sessName (calls i).peer (calls i).dev) →
    s.store.sessions n = (run P st0 (order.map calls)).sessions n
  ids : ∀ n, (∀ i p, s.threads i = .running p → n ≠ (calls i).peer) →
    s.store.identities n = (run P st0 (order.map calls)).identities n
  pre : (∀ i p, s.threads i = .running p → locked (calls i) = false) →
    s.store.preKeys = (run P st0 (order.map calls)).preKeys
  signed : s.store.signedPreKeys = (run P st0 (order.map calls)).signedPreKeys
  own : s.store.identity = (run P st0 (order.map calls)).identity
  reg : s.store.regId = (run P st0 (order.map calls)).regId
  trust : s.store.alwaysTrust = (run P st0 (order.map calls)).alwaysTrust
  running : ∀ i p, s.threads i = .running p → Own (calls i) p ∧
    (p.exec s.store).2 = result P (run P st0 (order.map calls)) (calls i) ∧
    SameView (calls i) (p.exec s.store).1 (step P (run P st0 (order.map calls)) (calls i))
  lockd : ∀ i p, s.threads i = .running p → locked (calls i) = true → s.lock = some i
  done : ∀ a i b, order = a ++ i :: b →
    s.threads i = .done (result P (run P st0 (a.map calls)) (calls i))
  idle : ∀ i, i ∉ order → s.threads i = .idle ∨ ∃ p, s.threads i = .running p

theorem applyWrite_signed (st : Store) (w : Write) : (applyWrite st w).signedPreKeys = st.signedPreKeys := by
  cases w <;> rfl
theorem applyWrite_own (st : Store) (w : Write) : (applyWrite st w).identity = st.identity := by
  cases w <;> rfl
theorem applyWrite_reg (st : Store) (w : Write) : (applyWrite st w).regId = st.regId := by
  cases w <;> rfl
theorem applyWrite_trust (st : Store) (w : Write) : (applyWrite st w).alwaysTrust = st.alwaysTrust := by
  cases w <;> rfl

/-- Effect of a whole call outside its own files. -/
theorem exec_frame {e : Event} {p : Prog} (h : Own e p) : ∀ st : Store,
    (∀ n, n ≠ sessName e.peer e.dev → (p.exec st).1.sessions n = st.sessions n) ∧
    (∀ n, n ≠ e.peer → (p.exec st).1.identities n = st.identities n) ∧
    (locked e = false → (p.exec st).1.preKeys = st.preKeys) ∧
    (p.exec st).1.signedPreKeys = st.signedPreKeys ∧ (p.exec st).1.identity = st.identity ∧
    (p.exec st).1.regId = st.regId ∧ (p.exec st).1.alwaysTrust = st.alwaysTrust := by
  induction h with
  | ret r => intro st; simp [Prog.exec]
  | read k _ _ ih => exact fun st => ih st st
  | write w k hw _ ih =>
    intro st
    obtain ⟨h1, h2, h3, h4, h5, h6, h7⟩ := ih (applyWrite st w)
    refine ⟨?_, ?_, ?_, h4.trans (applyWrite_signed st w), h5.trans (applyWrite_own st w),
      h6.trans (applyWrite_reg st w), h7.trans (applyWrite_trust st w)⟩
    · intro n hn
      refine (h1 n hn).trans ?_
      cases w with
      | saveIdentity _ _ => rfl
      | removePreKey _ => rfl
      | storeSession a b c =>
        obtain ⟨rfl, rfl⟩ : a = e.peer ∧ b = e.dev := hw
        simp only [applyWrite]; rw [if_neg hn]
    · intro n hn
      refine (h2 n hn).trans ?_
      cases w with
      | saveIdentity a b =>
        have : a = e.peer := hw
        simp only [applyWrite]; rw [if_neg (by rw [this]; exact hn)]
      | removePreKey _ => rfl
      | storeSession a b c => rfl
    · intro hl
      refine (h3 hl).trans ?_
      cases w with
      | saveIdentity _ _ => rfl
      | removePreKey _ => have : locked e = true := hw; rw [hl] at this; cases this
      | storeSession a b c => rfl

theorem mixed_step (P : Prims) (calls : Nat → Event) (st0 : Store)
    (hcall : ∀ i, (calls i).call ≠ .delete) (hc : ∀ i, (calls i).crash = none)
    (hap : ∀ i j, i ≠ j → (locked (calls i) && locked (calls j)) = false → Apart (calls i) (calls j))
    {s t : Sys} {order : List Nat} (h : Mixed P calls st0 s order) (hs : Step P calls s t) :
    ∃ order', Mixed P calls st0 t order' := by
  -- two goroutines running at the same time share no files
  have apart : ∀ i j p q, i ≠ j → s.threads i = .running p → s.threads j = .running q →
      Apart (calls i) (calls j) := by
    intro i j p q hij hp hq
    apply hap i j hij
    cases hi : locked (calls i)
    · rfl
    · cases hj : locked (calls j)
      · rfl
      · have h1 := h.lockd i p hp hi
        have h2 := h.lockd j q hq hj
        rw [h1] at h2
        injection h2 with h2
        exact (hij h2).elim
  have notin : ∀ i p, s.threads i = .running p → i ∉ order := by
    intro i p hp hi
    obtain ⟨a, b, hab⟩ := List.append_of_mem hi
    rw [h.done a i b hab] at hp; cases hp
  have starting : ∀ i, s.threads i = .idle → (locked (calls i) = true → s.lock = none) →
      i ∉ order ∧ SameView (calls i) s.store (run P st0 (order.map calls)) := by
    intro i hi hlk
    have hap' : ∀ j p, s.threads j = .running p → Apart (calls i) (calls j) := by
      intro j p hj
      apply hap i j (by rintro rfl; rw [hi] at hj; cases hj)
      cases h1 : locked (calls i)
      · rfl
      · cases h2 : locked (calls j)
        · rfl
        · have := h.lockd j p hj h2
          rw [hlk h1] at this; cases this
    refine ⟨?_, ⟨?_, ?_, ?_, h.signed, h.own, h.reg, h.trust⟩⟩
    · intro hi'
      obtain ⟨a, b, hab⟩ := List.append_of_mem hi'
      rw [h.done a i b hab] at hi; cases hi
    · exact h.sess _ (fun j p hj => (hap' j p hj).2.1)
    · exact h.ids _ (fun j p hj => (hap' j p hj).1)
    · intro hl
      apply h.pre
      intro j p hj
      have := (hap' j p hj).2.2
      rw [hl] at this
      simpa using this
  -- starting a goroutine
  have start : ∀ (i : Nat) (lk : Option Nat), s.threads i = .idle →
      (locked (calls i) = true → s.lock = none ∧ lk = some i) → (locked (calls i) = false → lk = s.lock) →
      Mixed P calls st0 { s.set i (.running (prog P (calls i))) with lock := lk } order := by
    intro i lk hi hl1 hl2
    obtain ⟨hni, hv⟩ := starting i hi (fun x => (hl1 x).1)
    have hold : ∀ j p, s.threads j = .running p → (s.set i (.running (prog P (calls i)))).threads j = .running p := by
      intro j p hj
      have : j ≠ i := by rintro rfl; rw [hi] at hj; cases hj
      simpa [Sys.set, this] using hj
    refine ⟨h.nodup, ?_, ?_, ?_, h.signed, h.own, h.reg, h.trust, ?_, ?_, ?_, ?_⟩
    · intro n hn; exact h.sess n (fun j p hj => hn j p (hold j p hj))
    · intro n hn; exact h.ids n (fun j p hj => hn j p (hold j p hj))
    · intro hn; exact h.pre (fun j p hj => hn j p (hold j p hj))
    · intro j p hj
      by_cases hji : j = i
      · subst hji
        have : p = prog P (calls j) := by simpa [Sys.set] using hj.symm
        subst this
        have hex := prog_exec P (run P st0 (order.map calls)) (calls j) (hcall j) (hc j)
        obtain ⟨e1, e2⟩ := own_exec (own_prog P (calls j)) hv
        rw [hex] at e1 e2
        exact ⟨own_prog P _, e1, e2⟩
      · exact h.running j p (by simpa [Sys.set, hji] using hj)
    · intro j p hj hlj
      by_cases hji : j = i
      · subst hji; exact (hl1 hlj).2
      · have hj' : s.threads j = .running p := by simpa [Sys.set, hji] using hj
        have hsl := h.lockd j p hj' hlj
        cases hli : locked (calls i)
        · rw [show ({ s.set i (.running (prog P (calls i))) with lock := lk } : Sys).lock = lk from rfl, hl2 hli]
          exact hsl
        · rw [(hl1 hli).1] at hsl; cases hsl
    · intro a j b hab
      have hj : j ≠ i := by rintro rfl; exact hni (by rw [hab]; simp)
      simpa [Sys.set, hj] using h.done a j b hab
    · intro j hj
      by_cases hji : j = i
      · subst hji; exact Or.inr ⟨_, by simp [Sys.set]; rfl⟩
      · simpa [Sys.set, hji] using h.idle j hj
  -- one file access of a running goroutine
  have access : ∀ (i : Nat) (p q : Prog) (st' : Store), s.threads i = .running p →
      Own (calls i) q → q.exec st' = p.exec s.store →
      (∀ n, n ≠ sessName (calls i).peer (calls i).dev → st'.sessions n = s.store.sessions n) →
      (∀ n, n ≠ (calls i).peer → st'.identities n = s.store.identities n) →
      (locked (calls i) = false → st'.preKeys = s.store.preKeys) →
      st'.signedPreKeys = s.store.signedPreKeys → st'.identity = s.store.identity →
      st'.regId = s.store.regId → st'.alwaysTrust = s.store.alwaysTrust →
      (∀ j r, j ≠ i → s.threads j = .running r → SameView (calls j) st' s.store) →
      Mixed P calls st0 { s.set i (.running q) with store := st' } order := by
    intro i p q st' hi hown hex f1 f2 f3 f4 f5 f6 f7 hoth
    have hni := notin i p hi
    have hold : ∀ j r, s.threads j = .running r → ∃ r', (s.set i (.running q)).threads j = .running r' := by
      intro j r hj
      by_cases hji : j = i
      · subst hji; exact ⟨q, by simp [Sys.set]⟩
      · exact ⟨r, by simpa [Sys.set, hji] using hj⟩
    refine ⟨h.nodup, ?_, ?_, ?_, f4.trans h.signed, f5.trans h.own, f6.trans h.reg, f7.trans h.trust, ?_, ?_, ?_, ?_⟩
    · intro n hn
      have : n ≠ sessName (calls i).peer (calls i).dev := by
        obtain ⟨r', hr'⟩ := hold i p hi; exact hn i r' hr'
      refine (f1 n this).trans (h.sess n ?_)
      intro j r hj; obtain ⟨r', hr'⟩ := hold j r hj; exact hn j r' hr'
    · intro n hn
      have : n ≠ (calls i).peer := by
        obtain ⟨r', hr'⟩ := hold i p hi; exact hn i r' hr'
      refine (f2 n this).trans (h.ids n ?_)
      intro j r hj; obtain ⟨r', hr'⟩ := hold j r hj; exact hn j r' hr'
    · intro hn
      have : locked (calls i) = false := by
        obtain ⟨r', hr'⟩ := hold i p hi; exact hn i r' hr'
      refine (f3 this).trans (h.pre ?_)
      intro j r hj; obtain ⟨r', hr'⟩ := hold j r hj; exact hn j r' hr'
    · intro j r hj
      by_cases hji : j = i
      · subst hji
        have : r = q := by simpa [Sys.set] using hj.symm
        subst this
        obtain ⟨_, e1, e2⟩ := h.running j p hi
        show Own (calls j) r ∧ (r.exec st').2 = _ ∧ SameView (calls j) (r.exec st').1 _
        rw [hex]
        exact ⟨hown, e1, e2⟩
      · have hj' : s.threads j = .running r := by simpa [Sys.set, hji] using hj
        obtain ⟨o, e1, e2⟩ := h.running j r hj'
        obtain ⟨g1, g2⟩ := own_exec o (hoth j r hji hj')
        exact ⟨o, g1.trans e1, g2.trans e2⟩
    · intro j r hj hlj
      by_cases hji : j = i
      · subst hji; exact h.lockd j p hi hlj
      · exact h.lockd j r (by simpa [Sys.set, hji] using hj) hlj
    · intro a j b hab
      have hj : j ≠ i := by rintro rfl; exact hni (by rw [hab]; simp)
      simpa [Sys.set, hj] using h.done a j b hab
    · intro j hj
      by_cases hji : j = i
      · subst hji; exact Or.inr ⟨q, by simp [Sys.set]⟩
      · simpa [Sys.set, hji] using h.idle j hj
  -- returning
  have finish : ∀ (i : Nat) (r : Res Reply) (lk : Option Nat), s.threads i = .running (.ret r) →
      (locked (calls i) = false → lk = s.lock) →
      Mixed P calls st0 { s.set i (.done r) with lock := lk } (order ++ [i]) := by
    intro i r lk hi hlk
    have hni := notin i _ hi
    obtain ⟨_, e1, e2⟩ := h.running i _ hi
    simp only [Prog.exec] at e1 e2
    have hex := prog_exec P (run P st0 (order.map calls)) (calls i) (hcall i) (hc i)
    have hG : run P st0 ((order ++ [i]).map calls) = step P (run P st0 (order.map calls)) (calls i) := by
      rw [List.map_append, List.map_singleton, run_snoc]
    obtain ⟨f1, f2, f3, f4, f5, f6, f7⟩ := exec_frame (own_prog P (calls i)) (run P st0 (order.map calls))
    rw [hex] at f1 f2 f3 f4 f5 f6 f7
    have hnew : ∀ j q, (s.set i (.done r)).threads j = .running q → j ≠ i ∧ s.threads j = .running q := by
      intro j q hj
      by_cases hji : j = i
      · subst hji; simp [Sys.set] at hj
      · exact ⟨hji, by simpa [Sys.set, hji] using hj⟩
    refine ⟨?_, ?_, ?_, ?_, ?_, ?_, ?_, ?_, ?_, ?_, ?_, ?_⟩
    · rw [List.nodup_append]
      exact ⟨h.nodup, by simp, by intro a ha b hb; simp at hb; subst hb; rintro rfl; exact hni ha⟩
    · intro n hn
      rw [hG]
      show s.store.sessions n = _
      by_cases hni' : n = sessName (calls i).peer (calls i).dev
      · rw [hni']; exact e2.session
      · rw [f1 n hni']
        apply h.sess
        intro j q hj
        by_cases hji : j = i
        · subst hji; exact hni'
        · exact hn j q (by simpa [Sys.set, hji] using hj)
    · intro n hn
      rw [hG]
      show s.store.identities n = _
      by_cases hni' : n = (calls i).peer
      · rw [hni']; exact e2.ident
      · rw [f2 n hni']
        apply h.ids
        intro j q hj
        by_cases hji : j = i
        · subst hji; exact hni'
        · exact hn j q (by simpa [Sys.set, hji] using hj)
    · intro hn
      rw [hG]
      show s.store.preKeys = _
      cases hl : locked (calls i)
      · rw [f3 hl]
        apply h.pre
        intro j q hj
        by_cases hji : j = i
        · subst hji; exact hl
        · exact hn j q (by simpa [Sys.set, hji] using hj)
      · exact e2.pre hl
    · rw [hG]; exact e2.signed
    · rw [hG]; exact e2.own
    · rw [hG]; exact e2.reg
    · rw [hG]; exact e2.trust
    · intro j q hj
      obtain ⟨hji, hj'⟩ := hnew j q hj
      obtain ⟨o, g1, g2⟩ := h.running j q hj'
      have hview : SameView (calls j) (step P (run P st0 (order.map calls)) (calls i)) (run P st0 (order.map calls)) := by
        have := own_exec_other (apart j i q _ hji hj' hi) (own_prog P (calls i)) (run P st0 (order.map calls))
        rwa [hex] at this
      have hexj := prog_exec P (run P st0 (order.map calls)) (calls j) (hcall j) (hc j)
      have hexj' := prog_exec P (step P (run P st0 (order.map calls)) (calls i)) (calls j) (hcall j) (hc j)
      obtain ⟨k1, k2⟩ := own_exec (own_prog P (calls j)) hview
      rw [hexj, hexj'] at k1 k2
      rw [hG]
      exact ⟨o, g1.trans k1.symm, g2.trans k2.symm⟩
    · intro j q hj hlj
      obtain ⟨hji, hj'⟩ := hnew j q hj
      have h1 := h.lockd j q hj' hlj
      cases hli : locked (calls i)
      · show lk = some j
        rw [hlk hli]; exact h1
      · have h2 := h.lockd i _ hi hli
        rw [h1] at h2
        injection h2 with h2
        exact (hji h2).elim
    · intro a j b hab
      by_cases hj : j = i
      · subst hj
        have ha : order = a := by
          rcases List.eq_nil_or_concat b with rfl | ⟨b', x, rfl⟩
          · exact (List.append_inj' hab rfl).1
          · exfalso
            have h2 : a ++ j :: b'.concat x = (a ++ j :: b') ++ [x] := by simp
            rw [h2] at hab
            exact hni (by rw [(List.append_inj' hab rfl).1]; simp)
        rw [← ha]
        simp [Sys.set, e1]
      · have : ∃ b', order = a ++ j :: b' := by
          rcases List.eq_nil_or_concat b with rfl | ⟨b', x, rfl⟩
          · exfalso
            have := (List.append_inj' hab rfl).2
            simp at this
            exact hj this.symm
          · refine ⟨b', ?_⟩
            have h2 : a ++ j :: b'.concat x = (a ++ j :: b') ++ [x] := by simp
            rw [h2] at hab
            exact (List.append_inj' hab rfl).1
        obtain ⟨b', hb'⟩ := this
        simpa [Sys.set, hj] using h.done a j b' hb'
    · intro j hj
      have hj' : j ≠ i := by rintro rfl; exact hj (by simp)
      have hjo : j ∉ order := fun x => hj (by simp [x])
      simpa [Sys.set, hj'] using h.idle j hjo
  cases hs with
  | lock i hl hi hfree => exact ⟨order, start i (some i) hi (fun _ => ⟨hfree, rfl⟩) (by rw [hl]; intro x; cases x)⟩
  | start i hl hi => exact ⟨order, start i s.lock hi (by rw [hl]; intro x; cases x) (fun _ => rfl)⟩
  | read i k hi =>
    obtain ⟨o, _, _⟩ := h.running i _ hi
    cases o with
    | read _ hk _ =>
      exact ⟨order, access i _ (k s.store) s.store hi (hk s.store) rfl (fun _ _ => rfl) (fun _ _ => rfl)
        (fun _ => rfl) rfl rfl rfl rfl (fun j r _ _ => .refl _ _)⟩
  | write i w k hi =>
    obtain ⟨o, _, _⟩ := h.running i _ hi
    cases o with
    | write _ _ hw hk =>
      obtain ⟨f1, f2, f3, f4, f5, f6, f7⟩ := exec_frame (Own.write w (.ret .panic) hw (.ret .panic)) s.store
      exact ⟨order, access i _ k _ hi hk rfl f1 f2 f3 f4 f5 f6 f7
        (fun j r hji hj => foot_other (apart j i r _ hji hj hi) hw s.store)⟩
  | unlock i r hl hi => exact ⟨_, finish i r none hi (by rw [hl]; intro x; cases x)⟩
  | finish i r hl hi => exact ⟨_, finish i r s.lock hi (fun _ => rfl)⟩

/-- C22 when no other call concerns the peer whose session is built (its missing part: another call for
the same peer, refuted above). Any number of builds and cipher calls, interleaved arbitrarily, each build
for a peer and session file no other call uses: when all goroutines that started have returned, the store
and the results are those of a sequential execution. -/
theorem C22_builds_of_other_peers_partial (P : Prims) (calls : Nat → Event) (st0 : Store)
    (hcall : ∀ i, (calls i).call ≠ .delete) (hc : ∀ i, (calls i).crash = none)
    (hap : ∀ i j rb rr b, i ≠ j → (calls i).call = .build rb rr b → (calls i).peer ≠ (calls j).peer ∧
      sessName (calls i).peer (calls i).dev ≠ sessName (calls j).peer (calls j).dev)
    (s : Sys) (hs : Steps P calls { store := st0 } s) (hq : ∀ i p, s.threads i ≠ .running p) :
    ∃ order, Serial P calls st0 s order := by
  have hap' : ∀ i j, i ≠ j → (locked (calls i) && locked (calls j)) = false → Apart (calls i) (calls j) := by
    intro i j hij hl
    have hb : ∀ i, locked (calls i) = false → ∃ rb rr b, (calls i).call = .build rb rr b := by
      intro i hi
      cases h : (calls i).call with
      | delete => exact (hcall i h).elim
      | build rb rr b => exact ⟨rb, rr, b, rfl⟩
      | encrypt _ => simp [locked, h] at hi
      | decryptW _ _ => simp [locked, h] at hi
      | decryptP _ _ => simp [locked, h] at hi
    cases hi : locked (calls i)
    · obtain ⟨rb, rr, b, h⟩ := hb i hi
      obtain ⟨h1, h2⟩ := hap i j rb rr b hij h
      exact ⟨h1, h2, hl⟩
    · have hj : locked (calls j) = false := by rw [hi] at hl; simpa using hl
      obtain ⟨rb, rr, b, h⟩ := hb j hj
      obtain ⟨h1, h2⟩ := hap j i rb rr b (Ne.symm hij) h
      exact ⟨Ne.symm h1, Ne.symm h2, hl⟩
  have init : Mixed P calls st0 { store := st0 } [] :=
    ⟨List.nodup_nil, fun _ _ => rfl, fun _ _ => rfl, fun _ => rfl, rfl, rfl, rfl, rfl,
      by intro i p h; simp at h, by intro i p h; simp at h,
      by intro a i b h; simp at h, fun _ _ => Or.inl rfl⟩
  have hm : ∃ order, Mixed P calls st0 s order := by
    clear hq
    induction hs with
    | refl => exact ⟨[], init⟩
    | tail _ hst ih =>
      obtain ⟨o, ho⟩ := ih
      exact mixed_step P calls st0 hcall hc hap' ho hst
  obtain ⟨o, h⟩ := hm
  refine ⟨o, h.nodup, ?_, h.done, ?_⟩
  · have h1 : s.store.sessions = (run P st0 (o.map calls)).sessions :=
      funext fun n => h.sess n (fun i p hp => (hq i p hp).elim)
    have h2 : s.store.identities = (run P st0 (o.map calls)).identities :=
      funext fun n => h.ids n (fun i p hp => (hq i p hp).elim)
    have h3 := h.pre (fun i p hp => (hq i p hp).elim)
    have h4 := h.signed
    have h5 := h.own
    have h6 := h.reg
    have h7 := h.trust
    revert h1 h2 h3 h4 h5 h6 h7
    cases s.store
    cases run P st0 (o.map calls)
    simp only
    rintro rfl rfl rfl rfl rfl rfl rfl
    rfl
  · intro i hi
    rcases h.idle i hi with h1 | ⟨p, h1⟩
    · exact h1
    · exact (hq i p h1).elim

/-- An instance: Alice builds a session with Carol while sending to Bob, interleaved. -/
def Demo.buildCarol : Nat → Event := fun i =>
  if i = 0 then { peer := "carol", dev := 1, call := .build (List.replicate 32 11) (List.replicate 32 12) (Demo.bundle 7) }
  else { peer := "bob", dev := 1, call := .encrypt [2] }

example : (∀ j rb rr b, 0 ≠ j → (Demo.buildCarol 0).call = .build rb rr b →
      (Demo.buildCarol 0).peer ≠ (Demo.buildCarol j).peer) ∧
    Demo.doneOk (sched Demo.P Demo.buildCarol [0, 0, 0, 1, 1, 1, 1, 0, 0, 0, 0, 0] { store := Demo.a1.1 }) 0 = true ∧
    Demo.doneOk (sched Demo.P Demo.buildCarol [0, 0, 0, 1, 1, 1, 1, 0, 0, 0, 0, 0] { store := Demo.a1.1 }) 1 = true := by
  refine ⟨?_, by decide +kernel, by decide +kernel⟩
  intro j _ _ _ hj _
  simp [Demo.buildCarol, Ne.symm hj]

end Verif.Props
