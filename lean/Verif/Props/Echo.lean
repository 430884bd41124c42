import Verif.Model.Echo
import Mathlib.Data.List.Perm.Basic
/-!
# Property C171: a program that answers by itself comes to rest
-/
namespace Verif.Props.Echo
open Verif Verif.Keys Verif.Echo
open Verif.Gateway hiding run

/-- An account that runs the program in echo mode. -/
def Answering (n : Net) (a : Bytes) : Prop := ∃ p, n.progs a = some p ∧ p.flags.echo = true

instance (n : Net) (a : Bytes) : Decidable (Answering n a) :=
  match h : n.progs a with
  | none => .isFalse (by rintro ⟨p, hp, _⟩; rw [h] at hp; cases hp)
  | some p =>
    if he : p.flags.echo = true then .isTrue ⟨p, h, he⟩
    else .isFalse (by rintro ⟨q, hq, hqe⟩; rw [h] at hq; cases hq; exact he hqe)

/-- The answer to a message: its text, back to its sender. -/
def answer (f : Flight) : Flight := ⟨f.msg.source, ⟨f.dest, none, none, f.msg.text⟩⟩

/-- All that is still to be delivered, if each message is answered once by those who answer, and no answer is answered. -/
def expected (n : Net) : List Flight := n.wire ++ (n.wire.filter (fun f => Answering n f.dest)).map answer

/-- Each delivery is one of a message on its way. -/
def Legal : List Nat → Net → Prop
  | [], _ => True
  | i :: is, n => i < n.wire.length ∧ Legal is (deliver i n)

instance decLegal : (is : List Nat) → (n : Net) → Decidable (Legal is n)
  | [], _ => .isTrue trivial
  | i :: is, n => by
    unfold Legal
    exact @instDecidableAnd _ _ _ (decLegal is (deliver i n))

/-- The messages delivered, in order. -/
def delivered : List Nat → Net → List Flight
  | [], _ => []
  | i :: is, n => n.wire[i]?.toList ++ delivered is (deliver i n)

/-- Messages outside groups of the old kind, as the library hands them over. -/
def Private (n : Net) : Prop := ∀ f ∈ n.wire, f.msg.group = none

/-- Nobody who answers by themselves has written to somebody who does. -/
def Apart (n : Net) : Prop := ∀ f ∈ n.wire, Answering n f.dest → ¬ Answering n f.msg.source

theorem answering_deliver (i : Nat) (n : Net) (a : Bytes) : Answering (deliver i n) a ↔ Answering n a := by
  unfold deliver
  cases n.wire[i]? with
  | none => rfl
  | some f =>
    dsimp only
    cases hp : n.progs f.dest with
    | none => rfl
    | some p =>
      dsimp only
      unfold Answering
      dsimp only
      by_cases h : a = f.dest
      · subst h
        simp [hp]
      · simp [h]

/-- What a delivery does, by whether the addressee answers. -/
theorem deliver_wire (i : Nat) (n : Net) (f : Flight) (hf : n.wire[i]? = some f) (hg : f.msg.group = none) :
    (deliver i n).wire = n.wire.eraseIdx i ++ (if Answering n f.dest then [answer f] else []) := by
  unfold deliver
  rw [hf]
  dsimp only
  cases hp : n.progs f.dest with
  | none =>
    have : ¬ Answering n f.dest := by rintro ⟨p, h, _⟩; rw [hp] at h; cases h
    simp [this]
  | some p =>
    dsimp only
    by_cases he : p.flags.echo = true
    · have : Answering n f.dest := ⟨p, hp, he⟩
      rw [if_pos this]
      simp [messageHandler, he, hg, sent, answer]
    · have : ¬ Answering n f.dest := by rintro ⟨q, h, hq⟩; rw [hp] at h; cases h; exact he hq
      rw [if_neg this]
      congr 1
      unfold messageHandler
      rw [if_neg he]
      dsimp only
      by_cases ht : f.msg.text = [] <;> by_cases hq : p.peer = [] <;> cases p.flags.hook <;> cases p.flags.raw <;>
        cases p.flags.redis <;> simp [ht, hq, sent]

theorem step_expected (i : Nat) (n : Net) (hi : i < n.wire.length) (hp : Private n) (ha : Apart n) :
    ∃ f, n.wire[i]? = some f ∧ (f :: expected (deliver i n)).Perm (expected n) ∧ Private (deliver i n) ∧
      Apart (deliver i n) := by
  obtain ⟨f, hf⟩ : ∃ f, n.wire[i]? = some f := ⟨_, List.getElem?_eq_getElem hi⟩
  have hm : f ∈ n.wire := List.mem_of_getElem? hf
  have hw := deliver_wire i n f hf (hp f hm)
  have hperm : (f :: n.wire.eraseIdx i).Perm n.wire := by
    have := List.getElem_cons_eraseIdx_perm hi
    rwa [show n.wire[i] = f by rw [List.getElem?_eq_getElem hi] at hf; exact Option.some.inj hf] at this
  have hfil : ∀ l : List Flight, l.filter (fun g => decide (Answering (deliver i n) g.dest)) =
      l.filter (fun g => decide (Answering n g.dest)) := by
    intro l
    apply List.filter_congr
    intro g _
    simp only [answering_deliver]
  refine ⟨f, hf, ?_, ?_, ?_⟩
  · unfold expected
    rw [hfil, hw]
    by_cases he : Answering n f.dest
    · rw [if_pos he]
      have hsrc : ¬ Answering n (answer f).dest := ha f hm he
      have h2 := (hperm.filter (fun g => decide (Answering n g.dest))).map answer
      rw [List.filter_cons_of_pos (by simpa using he), List.map_cons] at h2
      rw [List.filter_append, List.filter_cons_of_neg (by simpa using hsrc), List.filter_nil, List.append_nil]
      refine List.Perm.trans ?_ (hperm.append h2)
      simp only [List.cons_append, List.append_assoc, List.nil_append]
      exact List.Perm.refl _
    · rw [if_neg he, List.append_nil]
      have h2 := (hperm.filter (fun g => decide (Answering n g.dest))).map answer
      rw [List.filter_cons_of_neg (by simpa using he)] at h2
      exact hperm.append h2
  · intro g hg
    rw [hw] at hg
    rcases List.mem_append.mp hg with hg | hg
    · exact hp g (List.mem_of_mem_eraseIdx hg)
    · split at hg
      · rw [List.mem_singleton.mp hg]; rfl
      · cases hg
  · intro g hg
    rw [answering_deliver, answering_deliver]
    rw [hw] at hg
    rcases List.mem_append.mp hg with hg | hg
    · exact ha g (List.mem_of_mem_eraseIdx hg)
    · split at hg
      · rename_i he
        rw [List.mem_singleton.mp hg]
        intro h
        exact absurd h (ha f hm he)
      · cases hg

/-- **C171**, without messages between two who answer by themselves: in whatever order things are delivered, what was
delivered and what is still to come are together the messages and one answer, to its sender with its text, for each
that went to somebody who answers. -/
theorem C171_answers_partial (is : List Nat) (n : Net) (hl : Legal is n) (hp : Private n) (ha : Apart n) :
    (delivered is n ++ expected (run is n)).Perm (expected n) := by
  induction is generalizing n with
  | nil => exact List.Perm.refl _
  | cons i is ih =>
    obtain ⟨hi, hl⟩ := hl
    obtain ⟨f, hf, hperm, hp', ha'⟩ := step_expected i n hi hp ha
    have := ih (deliver i n) hl hp' ha'
    simp only [delivered, run, hf, Option.toList_some, List.cons_append, List.nil_append]
    exact (this.cons f).trans hperm

theorem delivered_length (is : List Nat) (n : Net) (hl : Legal is n) : (delivered is n).length = is.length := by
  induction is generalizing n with
  | nil => rfl
  | cons i is ih =>
    obtain ⟨hi, hl⟩ := hl
    simp only [delivered, List.getElem?_eq_getElem hi, Option.toList_some, List.length_append, List.length_cons,
      List.length_nil, ih _ hl]
    omega

/-- So it comes to rest: there are never more deliveries than messages and answers, and when nothing is on its way any
more, each was delivered exactly once. -/
theorem C171_rest_partial (is : List Nat) (n : Net) (hl : Legal is n) (hp : Private n) (ha : Apart n) :
    is.length ≤ n.wire.length + (n.wire.filter (fun f => Answering n f.dest)).length ∧
      ((run is n).wire = [] → (delivered is n).Perm (expected n) ∧
        is.length = n.wire.length + (n.wire.filter (fun f => Answering n f.dest)).length) := by
  have h := C171_answers_partial is n hl hp ha
  have hlen := h.length_eq
  rw [List.length_append, delivered_length is n hl] at hlen
  have he : (expected n).length = n.wire.length + (n.wire.filter (fun f => Answering n f.dest)).length := by
    simp [expected]
  refine ⟨by omega, fun h0 => ?_⟩
  have h1 : expected (run is n) = [] := by simp [expected, h0]
  rw [h1] at hlen h
  rw [List.append_nil] at h
  exact ⟨h, by simpa [he] using hlen⟩

/-- Whoever does not answer by themselves never sends anything because something arrived. -/
theorem C171_silent (is : List Nat) (n : Net) (hl : Legal is n) (hp : Private n) (hn : ∀ a, ¬ Answering n a) :
    (delivered is n ++ (run is n).wire).Perm n.wire := by
  have h := C171_answers_partial is n hl hp (fun f _ h => absurd h (hn _))
  have hr : ∀ a, ¬ Answering (run is n) a := by
    clear h hl hp
    induction is generalizing n with
    | nil => exact hn
    | cons i is ih => exact ih (deliver i n) (fun a => by rw [answering_deliver]; exact hn a)
  have e1 : ∀ m : Net, (∀ a, ¬ Answering m a) → expected m = m.wire := by
    intro m hm
    simp [expected, hm]
  rwa [e1 _ hr, e1 _ hn] at h

/-- A message between two who answer by themselves. -/
def Between (n : Net) (t : Bytes) (f : Flight) : Prop :=
  Answering n f.dest ∧ Answering n f.msg.source ∧ f.msg.group = none ∧ f.msg.text = t

theorem between_step (i : Nat) (n : Net) (t : Bytes) (f : Flight) (hi : i < n.wire.length)
    (hf : f ∈ n.wire) (hb : Between n t f) : ∃ g ∈ (deliver i n).wire, Between (deliver i n) t g := by
  obtain ⟨e, he⟩ : ∃ e, n.wire[i]? = some e := ⟨_, List.getElem?_eq_getElem hi⟩
  have hei : n.wire[i] = e := by rw [List.getElem?_eq_getElem hi] at he; exact Option.some.inj he
  obtain ⟨h1, h2, h3, h4⟩ := hb
  by_cases hfe : f = e
  · subst hfe
    refine ⟨answer f, ?_, ?_⟩
    · rw [deliver_wire i n f he h3, if_pos h1]
      simp
    · unfold Between
      rw [answering_deliver, answering_deliver]
      exact ⟨h2, h1, rfl, h4⟩
  · refine ⟨f, ?_, ?_⟩
    · have hmem : f ∈ n.wire.eraseIdx i := by
        have := (List.getElem_cons_eraseIdx_perm hi).mem_iff (a := f)
        rw [hei] at this
        exact (List.mem_cons.mp (this.mpr hf)).resolve_left hfe
      unfold deliver
      rw [he]
      dsimp only
      cases n.progs e.dest with
      | none => exact hmem
      | some p => exact List.mem_append_left _ hmem
    · unfold Between
      rw [answering_deliver, answering_deliver]
      exact ⟨h1, h2, h3, h4⟩

/-- Refuted: one message between two who answer by themselves is answered for ever, whatever its text, whoever else
there is and in whatever order things are delivered. -/
theorem C171_for_ever (is : List Nat) (n : Net) (t : Bytes) (f : Flight) (hl : Legal is n) (hf : f ∈ n.wire)
    (hb : Between n t f) : ∃ g ∈ (run is n).wire, Between (run is n) t g := by
  induction is generalizing n f with
  | nil => exact ⟨f, hf, hb⟩
  | cons i is ih =>
    obtain ⟨hi, hl⟩ := hl
    obtain ⟨g, hg, hbg⟩ := between_step i n t f hi hf hb
    exact ih (deliver i n) g hl hg hbg

theorem legal_append (is : List Nat) (n : Net) (i : Nat) (h : Legal is n) (hi : i < (run is n).wire.length) :
    Legal (is ++ [i]) n := by
  induction is generalizing n with
  | nil => exact ⟨hi, trivial⟩
  | cons j is ih => exact ⟨h.1, ih _ h.2 hi⟩

/-- In particular there are runs with any number of deliveries, each beginning with what was delivered so far. -/
theorem C171_no_bound (is : List Nat) (n : Net) (t : Bytes) (f : Flight) (hl : Legal is n) (hf : f ∈ n.wire)
    (hb : Between n t f) (k : Nat) : ∃ more, Legal (is ++ more) n ∧ more.length = k := by
  induction k with
  | zero => exact ⟨[], by simpa using hl, rfl⟩
  | succ k ih =>
    obtain ⟨more, hm, hk⟩ := ih
    obtain ⟨g, hg, _⟩ := C171_for_ever _ n t f hm hf hb
    refine ⟨more ++ [0], ?_, by simp [hk]⟩
    rw [← List.append_assoc]
    exact legal_append _ n 0 hm (List.length_pos_of_mem hg)

/-! Two robots and a person. -/
namespace Demo

/-- `r` and `s` answer by themselves, `p` reads. -/
def progs (a : Bytes) : Option Prog :=
  if a = ascii "r" ∨ a = ascii "s" then some ⟨{ echo := true }, []⟩
  else if a = ascii "p" then some ⟨{ raw := true }, []⟩ else none

/-- The person and somebody with another program have written to the robots. -/
def calm : Net := ⟨progs, [⟨ascii "r", ⟨ascii "p", none, none, ascii "hi"⟩⟩, ⟨ascii "s", ⟨ascii "q", none, none, []⟩⟩,
  ⟨ascii "p", ⟨ascii "q", none, none, ascii "ho"⟩⟩]⟩

/-- One robot has written to the other. -/
def storm : Net := ⟨progs, [⟨ascii "r", ⟨ascii "s", none, none, ascii "hi"⟩⟩]⟩

end Demo

open Demo in
/-- Also the empty message, say a change of the timer, is answered. -/
example : Legal [2, 0, 0, 1, 0] calm ∧ Private calm ∧ Apart calm ∧ (run [2, 0, 0, 1, 0] calm).wire = [] ∧
    delivered [2, 0, 0, 1, 0] calm = [⟨ascii "p", ⟨ascii "q", none, none, ascii "ho"⟩⟩,
      ⟨ascii "r", ⟨ascii "p", none, none, ascii "hi"⟩⟩, ⟨ascii "s", ⟨ascii "q", none, none, []⟩⟩,
      ⟨ascii "q", ⟨ascii "s", none, none, []⟩⟩, ⟨ascii "p", ⟨ascii "r", none, none, ascii "hi"⟩⟩] := by
  unfold Private Apart
  decide +kernel

open Demo in
example : Between storm (ascii "hi") ⟨ascii "r", ⟨ascii "s", none, none, ascii "hi"⟩⟩ ∧ Legal [0, 0, 0, 0] storm := by
  unfold Between
  decide +kernel

end Verif.Props.Echo
