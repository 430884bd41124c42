import Verif.Model.Crayfish
import Mathlib.Tactic.Tauto
/-!
# C63: every backend request gets its reply
-/
namespace Verif.Props.Crayfish
open Verif Verif.Crayfish

/-- The state before anything happened. -/
def start : State := {}

/-! ## Refutations -/

/-- Call `n` of goroutine 0 can get no reply any more. -/
structure Lost (n : Nat) (s : State) : Prop where
  waits : (s.callers 0).calls = n ∧ ((s.callers 0).pc = .sent ∨ (s.callers 0).pc = .made ∨ ∃ ch, (s.callers 0).pc = .waiting ch)
  others : ∀ i, i ≠ 0 → (s.callers i).pc = .idle
  queue : s.queue = []
  wire : ∀ m ∈ s.wire, m = .ack
  reader : s.reader = .idle
  empty : ∀ b ∈ s.chans, b = []

/-- Actions of goroutine 0, the companion and the reader. -/
def Alone : Action → Prop
  | .send i => i = 0
  | .mk i => i = 0
  | .eval i => i = 0
  | .recv i => i = 0
  | _ => True

theorem lost_step {n : Nat} {s s' : State} {a : Action} (hL : Lost n s) (ha : Alone a) (h : step s a = some s') :
    Lost n s' ∧ s'.log = s.log := by
  obtain ⟨⟨hn, hw⟩, ho, hq, hwire, hr, he⟩ := hL
  cases a with
  | send i =>
    simp only [Alone] at ha
    subst ha
    simp only [step] at h
    split at h
    · next hp => rw [hp] at hw; simp at hw
    · cases h
  | mk i =>
    simp only [Alone] at ha
    subst ha
    simp only [step] at h
    split at h
    · injection h with h
      subst h
      refine ⟨⟨⟨by simp [setPc, hn], by simp [setPc]⟩, fun i hi => by simp [setPc, hi, ho i hi], hq, hwire, hr, ?_⟩, rfl⟩
      intro b hb
      rcases List.mem_append.1 hb with hb | hb
      · exact he b hb
      · simpa using hb
    · cases h
  | eval i =>
    simp only [Alone] at ha
    subst ha
    simp only [step] at h
    split at h
    · split at h
      · injection h with h
        subst h
        exact ⟨⟨⟨by simp [setPc, hn], by simp [setPc]⟩, fun i hi => by simp [setPc, hi, ho i hi], hq, hwire, hr, he⟩, rfl⟩
      · cases h
    · cases h
  | recv i =>
    simp only [step] at h
    split at h
    · split at h
      · next hb => have := he _ (List.mem_of_getElem? hb); cases this
      · cases h
    · cases h
  | answer => simp only [step, hq] at h; cases h
  | ack =>
    simp only [step] at h
    injection h with h
    subst h
    refine ⟨⟨⟨hn, hw⟩, ho, hq, ?_, hr, he⟩, rfl⟩
    intro m hm
    rcases List.mem_append.1 hm with hm | hm
    · exact hwire m hm
    · simpa using hm
  | take =>
    simp only [step] at h
    split at h
    · next w _ hw' =>
      injection h with h
      subst h
      exact ⟨⟨⟨hn, hw⟩, ho, hq, fun m hm => hwire m (by rw [hw']; simp [show m ∈ w from hm]), hr, he⟩, rfl⟩
    · next r w _ hw' => have := hwire (.reply r) (by rw [hw']; simp); cases this
    · cases h
  | readerEval => simp only [step, hr] at h; cases h
  | push => simp only [step, hr] at h; cases h

/-- **C63 refuted (reply lost).** If the reply to the first request is handled between sending the request and
storing the channel, it is dropped, and the call never returns — whatever happens afterwards, short of
another goroutine making a request. -/
theorem C63_reply_lost : ∃ s, exec start [.send 0, .answer, .take] = some s ∧
    ∀ as s', (∀ a ∈ as, Alone a) → exec s as = some s' → s'.log = [] ∧ (s'.callers 0).pc ≠ .idle := by
  refine ⟨{ callers := fun j => if j = 0 then ⟨.sent, 1⟩ else {} }, rfl, ?_⟩
  have key : ∀ (as : List Action) (s s' : State), Lost 1 s → s.log = [] → (∀ a ∈ as, Alone a) → exec s as = some s' →
      s'.log = [] ∧ (s'.callers 0).pc ≠ .idle := by
    intro as
    induction as with
    | nil =>
      intro s s' hL hl _ h
      simp only [exec, Option.some.injEq] at h
      subst h
      refine ⟨hl, ?_⟩
      rcases hL.waits.2 with h | h | ⟨ch, h⟩ <;> rw [h] <;> simp
    | cons a as ih =>
      intro s s' hL hl ha h
      simp only [exec, Option.bind_eq_some_iff] at h
      obtain ⟨s1, h1, h2⟩ := h
      obtain ⟨hL', hl'⟩ := lost_step hL (ha a (by simp)) h1
      exact ih s1 s' hL' (hl'.trans hl) (fun x hx => ha x (by simp [hx])) h2
  intro as s' ha h
  exact key as _ s' ⟨by simp, fun i hi => by simp [hi], rfl, by simp, rfl, by simp⟩ rfl ha h

/-- **C63 refuted (later call).** The same for a later call: its reply goes into the channel of the call
before. Here after one call that went well. -/
theorem C63_later_reply_lost :
    ∃ s, exec start [.send 0, .mk 0, .eval 0, .answer, .take, .readerEval, .push, .recv 0,
      .send 0, .answer, .take, .readerEval, .push, .mk 0, .eval 0] = some s ∧
      s.log = [(⟨0, 1⟩, ⟨0, 1⟩)] ∧
      ∀ a, Alone a → a ≠ .ack → step s a = none := by
  refine ⟨_, rfl, by decide, ?_⟩
  intro a ha hne
  cases a with
  | ack => exact absurd rfl hne
  | send i => simp only [Alone] at ha; subst ha; rfl
  | mk i => simp only [Alone] at ha; subst ha; rfl
  | eval i => simp only [Alone] at ha; subst ha; rfl
  | recv i => simp only [Alone] at ha; subst ha; rfl
  | answer => rfl
  | take => rfl
  | readerEval => rfl
  | push => rfl

/-- **C63 refuted (replies swapped).** Two goroutines asking at the same time can get each other's reply, for
instance an avatar instead of a message. -/
theorem C63_replies_swapped :
    ∃ s, exec start [.send 0, .send 1, .mk 0, .mk 1, .eval 0, .eval 1, .answer, .answer,
      .take, .readerEval, .push, .recv 1, .take, .readerEval, .push, .recv 0] = some s ∧
      s.log = [(⟨1, 1⟩, ⟨0, 1⟩), (⟨0, 1⟩, ⟨1, 1⟩)] :=
  ⟨_, rfl, by decide⟩

/-! ## What holds for one goroutine -/

/-- One calling goroutine, and no reply is handled between its send and its storing of the channel. -/
def Allowed (s : State) (a : Action) : Prop :=
  Alone a ∧ (a = .take → (s.callers 0).pc = .sent → ∃ w, s.wire = .ack :: w)

/-- States reached by allowed schedules. -/
inductive Reach : State → Prop
  | start : Reach start
  | step {s s' : State} {a : Action} (hs : Reach s) (ha : Allowed s a) (h : step s a = some s') : Reach s'

/-- The replies under way. -/
def replies : List Msg → List Req
  | [] => []
  | .ack :: w => replies w
  | .reply r :: w => r :: replies w

theorem replies_append (a b : List Msg) : replies (a ++ b) = replies a ++ replies b := by
  induction a with
  | nil => rfl
  | cons m a ih => cases m <;> simp [replies, ih]

def held : Reader → List Req
  | .idle => []
  | .checked r => [r]
  | .pushing _ r => [r]

def buffer (s : State) : List Req :=
  match s.field with
  | some ch => s.chans[ch]?.getD []
  | none => []

structure Inv (s : State) : Prop where
  push : ∀ ch r, s.reader = .pushing ch r → s.field = some ch
  fieldOk : ∀ ch, s.field = some ch → ch < s.chans.length
  good : ∀ e ∈ s.log, e.1 = e.2
  onIdle : (s.callers 0).pc = .idle → s.queue ++ replies s.wire ++ held s.reader ++ buffer s = []
  onSent : (s.callers 0).pc = .sent → s.reader = .idle ∧ buffer s = [] ∧ s.queue ++ replies s.wire = [⟨0, (s.callers 0).calls⟩]
  onMade : (s.callers 0).pc = .made → (∃ ch, s.field = some ch) ∧
    s.queue ++ replies s.wire ++ held s.reader ++ buffer s = [⟨0, (s.callers 0).calls⟩]
  onWait : ∀ ch, (s.callers 0).pc = .waiting ch → s.field = some ch ∧
    s.queue ++ replies s.wire ++ held s.reader ++ buffer s = [⟨0, (s.callers 0).calls⟩]

theorem inv_start : Inv start := by
  constructor <;> intros <;> simp_all [start, replies, held, buffer]

/-- What is in transit, in the order it arrives at the caller. -/
def transit (s : State) : List Req := s.queue ++ replies s.wire ++ held s.reader ++ buffer s

theorem inv_step {s s' : State} {a : Action} (hI : Inv s) (ha : Allowed s a) (h : step s a = some s') : Inv s' := by
  obtain ⟨ha, htake⟩ := ha
  cases a with
  | send i =>
    simp only [Alone] at ha
    subst ha
    simp only [step] at h
    split at h
    · next hp =>
      injection h with h
      subst h
      have h0 := hI.onIdle hp
      simp only [List.append_eq_nil_iff] at h0
      obtain ⟨⟨⟨h1, h2⟩, h3⟩, h4⟩ := h0
      have hr : s.reader = .idle := by
        cases hr : s.reader <;> rw [hr] at h3 <;> simp_all [held]
      refine ⟨hI.push, hI.fieldOk, hI.good, by simp, fun _ => ⟨hr, h4, by simp [h1, h2]⟩, by simp, by simp⟩
    · cases h
  | mk i =>
    simp only [Alone] at ha
    subst ha
    simp only [step] at h
    split at h
    · next hp =>
      injection h with h
      subst h
      obtain ⟨hr, hb, hq⟩ := hI.onSent hp
      refine ⟨?_, ?_, hI.good, ?_, ?_, ?_, ?_⟩
      · intro ch r h; simp [hr] at h
      · intro ch h
        injection h with h
        subst h
        simp
      · simp [setPc]
      · simp [setPc]
      · intro _
        refine ⟨⟨_, rfl⟩, ?_⟩
        simp [hr, held, buffer, hq, setPc]
      · simp [setPc]
    · cases h
  | eval i =>
    simp only [Alone] at ha
    subst ha
    simp only [step] at h
    split at h
    · next hp =>
      split at h
      · next ch hf =>
        injection h with h
        subst h
        obtain ⟨_, hq⟩ := hI.onMade hp
        refine ⟨hI.push, hI.fieldOk, hI.good, by simp [setPc], by simp [setPc], by simp [setPc], ?_⟩
        intro ch' h
        simp only [setPc, if_true, Pc.waiting.injEq] at h
        subst h
        exact ⟨hf, by simpa [setPc, buffer] using hq⟩
      · cases h
    · cases h
  | recv i =>
    simp only [Alone] at ha
    subst ha
    simp only [step] at h
    split at h
    · next ch hp =>
      split at h
      · next r rest hb =>
        injection h with h
        subst h
        obtain ⟨hf, hq⟩ := hI.onWait ch hp
        have hbuf : buffer s = r :: rest := by simp [buffer, hf, hb]
        rw [hbuf] at hq
        have hlen := congrArg List.length hq
        simp only [List.length_append, List.length_cons, List.length_nil] at hlen
        have h1 : s.queue = [] := List.length_eq_zero_iff.1 (by omega)
        have h2 : replies s.wire = [] := List.length_eq_zero_iff.1 (by omega)
        have h3 : held s.reader = [] := List.length_eq_zero_iff.1 (by omega)
        have h4 : rest = [] := List.length_eq_zero_iff.1 (by omega)
        have hchl := hI.fieldOk ch hf
        rw [h1, h2, h3, h4] at hq
        simp only [List.nil_append, List.cons.injEq, and_true] at hq
        refine ⟨hI.push, ?_, ?_, ?_, ?_, ?_, ?_⟩
        · intro c hc
          simp only [List.length_set]
          exact hI.fieldOk c hc
        · intro e he
          rcases List.mem_append.1 he with he | he
          · exact hI.good e he
          · simp only [List.mem_singleton] at he
            subst he
            exact hq.symm
        · intro _
          simp [h1, h2, h3, buffer, hf, h4, List.getElem?_set_self hchl]
        · simp [setPc]
        · simp [setPc]
        · simp [setPc]
      · cases h
    · cases h
  | answer =>
    simp only [step] at h
    split at h
    · next r q hq =>
      injection h with h
      subst h
      refine ⟨hI.push, hI.fieldOk, hI.good, ?_, ?_, ?_, ?_⟩
      · intro hp
        have := hI.onIdle hp
        simp [hq] at this
      · intro hp
        obtain ⟨h1, h2, h3⟩ := hI.onSent hp
        refine ⟨h1, h2, ?_⟩
        rw [hq] at h3
        simp only [List.cons_append, List.cons.injEq, List.append_eq_nil_iff] at h3
        obtain ⟨h4, h5, h6⟩ := h3
        simp [replies_append, replies, h4, h5, h6]
      · intro hp
        obtain ⟨h1, h3⟩ := hI.onMade hp
        refine ⟨h1, ?_⟩
        rw [hq] at h3
        simp only [List.cons_append, List.cons.injEq, List.append_eq_nil_iff] at h3
        obtain ⟨h4, ⟨⟨h5, h6⟩, h7⟩, h8⟩ := h3
        have : buffer { s with queue := q, wire := s.wire ++ [.reply r] } = buffer s := rfl
        simp only [replies_append, this]
        simp [replies, h4, h5, h6, h7, h8]
      · intro ch hp
        obtain ⟨h1, h3⟩ := hI.onWait ch hp
        refine ⟨h1, ?_⟩
        rw [hq] at h3
        simp only [List.cons_append, List.cons.injEq, List.append_eq_nil_iff] at h3
        obtain ⟨h4, ⟨⟨h5, h6⟩, h7⟩, h8⟩ := h3
        have : buffer { s with queue := q, wire := s.wire ++ [.reply r] } = buffer s := rfl
        simp only [replies_append, this]
        simp [replies, h4, h5, h6, h7, h8]
    · cases h
  | ack =>
    simp only [step] at h
    injection h with h
    subst h
    have e1 : replies (s.wire ++ [.ack]) = replies s.wire := by simp [replies_append, replies]
    have e2 : buffer { s with wire := s.wire ++ [.ack] } = buffer s := rfl
    exact ⟨hI.push, hI.fieldOk, hI.good, by simp only [e1, e2]; exact hI.onIdle, by simp only [e1, e2]; exact hI.onSent,
      by simp only [e1, e2]; exact hI.onMade, by simp only [e1, e2]; exact hI.onWait⟩
  | take =>
    simp only [step] at h
    split at h
    · next w hr hw =>
      injection h with h
      subst h
      have e1 : replies s.wire = replies w := by rw [hw]; rfl
      have e2 : buffer { s with wire := w } = buffer s := rfl
      refine ⟨hI.push, hI.fieldOk, hI.good, ?_, ?_, ?_, ?_⟩
      · simp only [← e1, e2]; exact hI.onIdle
      · simp only [← e1, e2]; exact hI.onSent
      · simp only [← e1, e2]; exact hI.onMade
      · simp only [← e1, e2]; exact hI.onWait
    · next r w hr hw =>
      have hns : (s.callers 0).pc ≠ .sent := by
        intro hp
        obtain ⟨w', hw'⟩ := htake rfl hp
        rw [hw] at hw'
        cases hw'
      have hni : (s.callers 0).pc ≠ .idle := by
        intro hp
        have := hI.onIdle hp
        simp [hw, replies] at this
      have hfield : ∃ ch, s.field = some ch := by
        cases hp : (s.callers 0).pc with
        | idle => exact absurd hp hni
        | sent => exact absurd hp hns
        | made => exact (hI.onMade hp).1
        | waiting ch => exact ⟨ch, (hI.onWait ch hp).1⟩
      obtain ⟨ch, hf⟩ := hfield
      have h : some { s with wire := w, reader := .checked r } = some s' := by
        have h' := h
        simp only [hf] at h'
        rw [← hf] at h'
        exact h'
      injection h with h
      subst h
      have move : ∀ x : Req, s.queue ++ replies s.wire ++ held s.reader ++ buffer s = [x] →
          s.queue ++ replies w ++ held (.checked r) ++ buffer s = [x] := by
        intro x hx
        have hlen := congrArg List.length hx
        rw [hw] at hx hlen
        simp only [replies, List.length_append, List.length_cons, List.length_nil, hr, held] at hlen
        have h1 : s.queue = [] := List.length_eq_zero_iff.1 (by omega)
        have h2 : replies w = [] := List.length_eq_zero_iff.1 (by omega)
        have h4 : buffer s = [] := List.length_eq_zero_iff.1 (by omega)
        simp only [replies, hr, held, h1, h2, h4, List.nil_append, List.append_nil] at hx ⊢
        exact hx
      refine ⟨by simp, ?_, hI.good, fun hp => absurd hp hni, fun hp => absurd hp hns, ?_, ?_⟩
      · intro c hc; exact hI.fieldOk c hc
      · intro hp
        obtain ⟨_, h3⟩ := hI.onMade hp
        refine ⟨⟨ch, hf⟩, ?_⟩
        simp only
        rw [show buffer { s with wire := w, reader := .checked r } = buffer s from rfl]
        exact move _ h3
      · intro c hp
        obtain ⟨h1, h3⟩ := hI.onWait c hp
        refine ⟨h1, ?_⟩
        simp only
        rw [show buffer { s with wire := w, reader := .checked r } = buffer s from rfl]
        exact move _ h3
    · cases h
  | readerEval =>
    simp only [step] at h
    split at h
    · next r ch hr hf =>
      injection h with h
      subst h
      have e2 : buffer { s with reader := .pushing ch r } = buffer s := rfl
      have e3 : held s.reader = held (.pushing ch r) := by rw [hr]; rfl
      refine ⟨?_, hI.fieldOk, hI.good, ?_, ?_, ?_, ?_⟩
      · intro c x hx
        simp only [Reader.pushing.injEq] at hx
        rw [← hx.1]; exact hf
      · simp only [← e3, e2]; exact hI.onIdle
      · intro hp
        have := (hI.onSent hp).1
        rw [hr] at this
        cases this
      · simp only [← e3, e2]; exact hI.onMade
      · simp only [← e3, e2]; exact hI.onWait
    · cases h
  | push =>
    simp only [step] at h
    split at h
    · next ch r hr =>
      split at h
      · next hb =>
        injection h with h
        subst h
        have hf := hI.push ch r hr
        have hchl := hI.fieldOk ch hf
        have hbuf : buffer s = [] := by simp [buffer, hf, hb]
        have e2 : buffer { s with reader := .idle, chans := s.chans.set ch [r] } = [r] := by
          simp [buffer, hf, List.getElem?_set_self hchl]
        have e3 : held s.reader = [r] := by rw [hr]; rfl
        refine ⟨by simp, ?_, hI.good, ?_, ?_, ?_, ?_⟩
        · intro c hc
          simp only [List.length_set]
          exact hI.fieldOk c hc
        · intro hp
          have := hI.onIdle hp
          rw [e3] at this
          simp at this
        · intro hp
          have := (hI.onSent hp).1
          rw [hr] at this
          cases this
        · intro hp
          obtain ⟨h1, h3⟩ := hI.onMade hp
          refine ⟨h1, ?_⟩
          rw [e2]
          rw [e3, hbuf] at h3
          simpa [held] using h3
        · intro c hp
          obtain ⟨h1, h3⟩ := hI.onWait c hp
          refine ⟨h1, ?_⟩
          rw [e2]
          rw [e3, hbuf] at h3
          simpa [held] using h3
      · cases h
    · cases h

theorem reach_inv {s : State} (h : Reach s) : Inv s := by
  induction h with
  | start => exact inv_start
  | step _ ha h ih => exact inv_step ih ha h

/-- **C63 (part).** With one calling goroutine, if no reply is handled between its send and its storing of the
channel: every call that returns got the reply to its own request, over any number of calls. Missing: the
other schedules, see the refutations. -/
theorem C63_own_reply_partial (s : State) (h : Reach s) : ∀ e ∈ s.log, e.1 = e.2 := (reach_inv h).good

/-- Steps still to be made until the call returns. -/
def left (s : State) : Nat :=
  4 * s.queue.length + (s.wire.map (fun m => match m with | .ack => 1 | .reply _ => 3)).sum +
  (match s.reader with | .idle => 0 | .checked _ => 2 | .pushing _ _ => 1) +
  (match (s.callers 0).pc with | .idle => 0 | .sent => 3 | .made => 2 | .waiting _ => 1)

/-- **C63 (part, no waiting).** Under the same conditions a call that has not returned is never stuck: some
action other than a new call is possible, and every such action but an acknowledgement brings the return
closer (`left` gets smaller), so the call returns. -/
theorem C63_returns_partial (s : State) (h : Reach s) (hp : (s.callers 0).pc ≠ .idle) :
    (∃ a s', a ≠ .ack ∧ Allowed s a ∧ step s a = some s') ∧
    (∀ a s', a ≠ .ack → Alone a → step s a = some s' → left s' < left s) := by
  have hI := reach_inv h
  constructor
  · suffices hs : ∃ a, a ≠ .ack ∧ Allowed s a ∧ (step s a).isSome = true by
      obtain ⟨a, h1, h2, h3⟩ := hs
      obtain ⟨s', hs'⟩ := Option.isSome_iff_exists.1 h3
      exact ⟨a, s', h1, h2, hs'⟩
    have move : ∀ ch, (s.callers 0).pc = .waiting ch → ∃ a, a ≠ .ack ∧ Allowed s a ∧ (step s a).isSome = true := by
      intro ch hw
      obtain ⟨hf, hq⟩ := hI.onWait ch hw
      have hns : (s.callers 0).pc ≠ .sent := by rw [hw]; simp
      cases hqq : s.queue with
      | cons r q => exact ⟨.answer, by simp, ⟨trivial, by simp⟩, by simp [step, hqq]⟩
      | nil =>
        cases hrr : s.reader with
        | checked r => exact ⟨.readerEval, by simp, ⟨trivial, by simp⟩, by simp [step, hrr, hf]⟩
        | pushing c r =>
          have hc := hI.push c r hrr
          have hcl := hI.fieldOk c hc
          rw [hrr, hqq] at hq
          have hlen := congrArg List.length hq
          simp only [held, List.length_append, List.length_cons, List.length_nil] at hlen
          have h4 : buffer s = [] := List.length_eq_zero_iff.1 (by omega)
          have h5 : s.chans[c]? = some [] := by
            rw [List.getElem?_eq_getElem hcl]
            simp only [buffer, hc, List.getElem?_eq_getElem hcl, Option.getD_some] at h4
            rw [h4]
          exact ⟨.push, by simp, ⟨trivial, by simp⟩, by simp [step, hrr, h5]⟩
        | idle =>
          cases hww : s.wire with
          | cons m w =>
            cases m with
            | ack => exact ⟨.take, by simp, ⟨trivial, fun _ h => absurd h hns⟩, by simp [step, hrr, hww]⟩
            | reply r =>
              exact ⟨.take, by simp, ⟨trivial, fun _ h => absurd h hns⟩,
                by simp [step, hrr, hww, hf]⟩
          | nil =>
            rw [hqq, hrr, hww] at hq
            simp only [held, replies, List.nil_append, buffer, hf] at hq
            have hcl := hI.fieldOk ch hf
            rw [List.getElem?_eq_getElem hcl, Option.getD_some] at hq
            have h5 : s.chans[ch]? = some [⟨0, (s.callers 0).calls⟩] := by rw [List.getElem?_eq_getElem hcl, hq]
            exact ⟨.recv 0, by simp, ⟨rfl, by simp⟩, by simp [step, hw, h5]⟩
    cases hpc : (s.callers 0).pc with
    | idle => exact absurd hpc hp
    | sent => exact ⟨.mk 0, by simp, ⟨rfl, by simp⟩, by simp [step, hpc, if_true]⟩
    | made =>
      obtain ⟨⟨ch, hf⟩, _⟩ := hI.onMade hpc
      exact ⟨.eval 0, by simp, ⟨rfl, by simp⟩, by simp [step, hpc, if_true, hf]⟩
    | waiting ch => exact move ch hpc
  · intro a s' hna ha hs
    cases a with
    | send i =>
      simp only [Alone] at ha; subst ha
      simp only [step] at hs
      rw [if_neg hp] at hs
      cases hs
    | mk i =>
      simp only [Alone] at ha; subst ha
      simp only [step] at hs
      split at hs
      · next h1 => injection hs with hs; subst hs; simp [left, setPc, h1]
      · cases hs
    | eval i =>
      simp only [Alone] at ha; subst ha
      simp only [step] at hs
      split at hs
      · next h1 =>
        split at hs
        · injection hs with hs; subst hs; simp [left, setPc, h1]
        · cases hs
      · cases hs
    | recv i =>
      simp only [Alone] at ha; subst ha
      simp only [step] at hs
      split at hs
      · next ch h1 =>
        split at hs
        · injection hs with hs; subst hs; simp [left, setPc, h1]
        · cases hs
      · cases hs
    | answer =>
      simp only [step] at hs
      split at hs
      · next r q hq => injection hs with hs; subst hs; simp [left, hq]; omega
      · cases hs
    | ack => exact absurd rfl hna
    | take =>
      simp only [step] at hs
      split at hs
      · next w hr hw => injection hs with hs; subst hs; simp [left, hw, hr]
      · next r w hr hw =>
        split at hs
        · injection hs with hs; subst hs; simp [left, hw, hr]
        · injection hs with hs; subst hs; simp [left, hw, hr]; omega
      · cases hs
    | readerEval =>
      simp only [step] at hs
      split at hs
      · next r ch hr hf => injection hs with hs; subst hs; simp [left, hr]
      · cases hs
    | push =>
      simp only [step] at hs
      split at hs
      · next ch r hr =>
        split at hs
        · injection hs with hs; subst hs; simp [left, hr]
        · cases hs
      · cases hs

/-- Two calls in a row, with an acknowledgement before the reply. -/
example : (exec start [.send 0, .ack, .take, .answer, .mk 0, .take, .eval 0, .readerEval, .push, .recv 0,
    .send 0, .mk 0, .answer, .eval 0, .take, .readerEval, .push, .recv 0]).map (·.log) =
    some [(⟨0, 1⟩, ⟨0, 1⟩), (⟨0, 2⟩, ⟨0, 2⟩)] := by decide

end Verif.Props.Crayfish
