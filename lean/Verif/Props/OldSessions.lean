import Verif.Proof.OldSessions
import Verif.Props.StartOver
/-!
# Properties C153 and C154: messages to be refused, with older sessions about
-/
namespace Verif.Props
open Verif Verif.Keys Verif.Messages Verif.Session Verif.Api Verif.Names Verif.Conv Verif.Crossing Verif.StartOver
  Verif.OldSessions

/-- C154, in part, for every schedule: messages may come twice, out of order, too far ahead or from forgotten epochs.
Two clients who begin a session anew agree with the abstract machine of C02, so what is to be read is read and what is
to be refused is refused with nothing lost, whatever sessions they have from before. Assumed, as in C02, that no message
of a forgotten epoch authenticates by chance, and that no older session opens a message that is to be refused; nothing
is assumed of the messages that are to be read. Missing: messages of the older sessions that arrive late
(`C154_late_message_breaks_new_session`). -/
theorem C154_refusals_partial (P : Prims) (S : Setup) (h : Again P S) (evs : List Ev) (hl : Legal {} evs)
    (hk : (ratchetKeys P S evs).Nodup) (hn : evs.length < 2 ^ 32 - 1)
    (hf : NoForgery P (strangers S) {} (World.init P (strangers S)) evs)
    (ho : AllShut P S {} (World.init P S) evs) :
    List.Forall₂ Agree (wants {} evs) (World.gots P S (World.init P S) evs) := by
  rw [← gots_strangers]
  exact behind_run_all h.ok evs {} _ _ (set_init h.ok hl hk hn hf) (behind_init h) (allShut_strangers P S evs _ _ ho)

/-- When nothing is to be refused nothing is assumed: `C154_start_over_partial` is a case of it. -/
theorem allShut_of_allRead (P : Prims) (S : Setup) (evs : List Ev) : ∀ a w, AllRead a evs → AllShut P S a w evs := by
  induction evs with
  | nil => intros; trivial
  | cons ev evs ih =>
    intro a w h
    have h1 := h (a.want ev) (by simp [wants])
    exact ⟨fun hx => by rcases hx with hx | hx; exacts [absurd hx h1.1, absurd hx h1.2],
      ih _ _ (fun x hx => h x (by simp only [wants]; exact List.mem_cons_of_mem _ hx))⟩

/-- C153, in part, for every schedule: after their first messages have crossed and Bob has read Alice's second, the two
agree with the abstract machine of C02, also on messages that come twice, too far ahead or from forgotten epochs.
Assumed, as in C02, that no message of a forgotten epoch authenticates by chance; that the session Bob made the current
one by reading Alice's first message does not open the second; and that the session that was given up opens no message
that is to be refused. Missing: Bob sending before they have read it (`C153_second_messages_cross`). -/
theorem C153_refusals_partial (P : Prims) (S S' : Setup) (hM : Mirror S S') (hS : S.Ok P) (hS' : S'.Ok P)
    (hbase : (newPair P S.rb).pub ≠ (newPair P S'.rb).pub) (ptA ptB ptA2 : Bytes) (rA rB rB2 : Nat → Bytes)
    (hpA : ptA.length < 2 ^ 60) (hrB : (rB 0).length = 32) (hkA : (ratchetKeys P S [.deliver 0 rB]).Nodup)
    (post evs : List Ev)
    (hevs : evs = .send false ptB :: .deliver 0 rA :: .send true ptA2 :: .deliver 1 (fun k => rB2 (k + 1)) :: post)
    (hl : Legal {} evs) (hk : (ratchetKeys P S' evs).Nodup) (hn : evs.length < 2 ^ 32 - 1)
    (hf : NoForgery P S' {} (World.init P S') evs)
    (href : Refuses P S' (rB2 0) ((meet P S S' ptA ptB rA rB).1.step P S' (.send true ptA2)).1 1)
    (ho : AllShut P S' (absRun [.send false ptB, .deliver 0 rA, .send true ptA2, .deliver 1 rB2])
      (((meet P S S' ptA ptB rA rB).1.step P S' (.send true ptA2)).1.step P S' (.deliver 1 rB2)).1 post) :
    List.Forall₂ Agree (wants (absRun [.send false ptB, .deliver 0 rA]) (.send true ptA2 :: .deliver 1 rB2 :: post))
      (World.gots P S' (meet P S S' ptA ptB rA rB).1 (.send true ptA2 :: .deliver 1 rB2 :: post)) := by
  subst hevs
  have hA : Ready P S {} (World.init P S) [.send false ptA, .deliver 0 rB] := by
    refine ready_init hS ⟨⟨by simp, hpA⟩, hrB, trivial⟩ hkA (by simp) ?_
    intro x hx
    simp [wants, Abs.want, Abs.step, Abs.expect, Abs.recvLevel, Abs.sendLevel, count] at hx
    rcases hx with rfl | rfl <;> simp
  have hB : Ready P S' {} (World.init P S')
      [.send false ptB, .deliver 0 rA, .send true ptA2, .deliver 1 (fun k => rB2 (k + 1))] := by
    refine ready_init hS' ⟨hl.1, hl.2.1, hl.2.2.1, hl.2.2.2.1, trivial⟩ (hk.sublist ?_) (by simp) ?_
    · simp [ratchetKeys]
    · intro x hx
      simp [wants, Abs.want, Abs.step, Abs.expect, Abs.accept, Abs.recvLevel, Abs.sendLevel, count] at hx
      rcases hx with rfl | rfl | rfl | rfl <;> simp
  obtain ⟨_, h2, h3⟩ := cross_over hM hS hS' hbase ptA ptB ptA2 rA rB rB2 hA [] hB href
  obtain ⟨_, hB1⟩ := set_step hS' (set_init hS' hl hk hn hf)
  obtain ⟨_, hB2⟩ := set_step hS' hB1
  obtain ⟨_, hB3⟩ := set_step hS' hB2
  obtain ⟨_, hB4⟩ := set_step hS' hB3
  have h0 : (absRun [.send false ptB, .deliver 0 rA, .send true ptA2, .deliver 1 rB2]).lvR ≠ 0 := by
    simp [absRun, Abs.step, Abs.expect, Abs.accept, Abs.recvLevel, Abs.sendLevel, count]
  change List.Forall₂ Agree (wants (absRun [.send false ptB, .deliver 0 rA]) _) _ at h2
  simp only [wants, World.gots] at h2 ⊢
  cases h2 with
  | cons g1 h2 => cases h2 with
    | cons g2 _ =>
      exact List.Forall₂.cons g1 (List.Forall₂.cons g2 (behind_run_all hS' post _ _ _ hB4
        ⟨h3.wire, h3.I, fun _ => h3.R, fun hh => absurd hh h0, h3.trustI, h3.trustR⟩ ho))

/-! ## Messages that come twice -/

namespace Demo.Over

def one (b : UInt8) : Nat → Bytes := fun _ => List.replicate 32 b

/-- Alice's and Bob's messages in the new session come twice; the first of them three times. -/
def twice : List Ev := [.send false [4], .deliver 0 (one 131), .deliver 0 (one 132), .send true [5], .deliver 1 (one 142),
  .deliver 1 (one 143), .deliver 0 (one 133), .send false [6], .deliver 2 (one 154), .deliver 2 (one 155)]

/-- A client's older sessions refuse a message, as a computation. -/
def shut (S : Setup) (a : Abs) (w : World) : Ev → Bool
  | .send _ _ => true
  | .deliver i rnd => match w.wire[i]? with
    | none => true
    | some (who, b, ty) => match inner b ty with
      | .ok m => (if who then older true w.I S.nameR S.devR else older (decide (a.lvR ≠ 0)) w.R S.nameI S.devI).all
        (fun s => match (decryptState P (rnd 0) s m).2 with | .err _ => true | _ => false)
      | _ => true

def allShut (S : Setup) : Abs → World → List Ev → Bool
  | _, _, [] => true
  | a, w, ev :: evs => (decide (a.want ev ≠ .refused ∧ a.want ev ≠ .stale) || shut S a w ev) &&
    allShut S (a.step ev) (w.step P S ev).1 evs

theorem allShut_of (S : Setup) (evs : List Ev) : ∀ a w, (∀ i rnd, .deliver i rnd ∈ evs → ∀ k, rnd k = rnd 0) →
    allShut S a w evs = true → AllShut P S a w evs := by
  induction evs with
  | nil => intros; trivial
  | cons ev evs ih =>
    intro a w hc h
    simp only [allShut, Bool.and_eq_true, Bool.or_eq_true, decide_eq_true_eq] at h
    refine ⟨?_, ih _ _ (fun i rnd hm => hc i rnd (List.mem_cons_of_mem _ hm)) h.2⟩
    intro hx
    have h1 : shut S a w ev = true := by
      rcases h.1 with h1 | h1
      · rcases hx with hx | hx
        · exact absurd hx h1.1
        · exact absurd hx h1.2
      · exact h1
    cases ev with
    | send who pt => trivial
    | deliver i rnd =>
      intro who b ty m hw hi s hs k
      simp only [shut, hw, hi, List.all_eq_true] at h1
      have := h1 s hs
      rw [hc i rnd List.mem_cons_self k]
      rcases hd : (decryptState P (rnd 0) s m).2 with x | e | _
      · rw [hd] at this; cases this
      · exact ⟨e, rfl⟩
      · rw [hd] at this; cases this

/-- Nothing is assumed of primitives when no message is of a forgotten epoch. -/
theorem noForgery_of (S : Setup) (evs : List Ev) : ∀ a w, (∀ x ∈ wants a evs, x ≠ .stale) → NoForgery P S a w evs := by
  induction evs with
  | nil => intros; trivial
  | cons ev evs ih =>
    intro a w h
    exact ⟨fun hx => absurd hx (h _ (by simp [wants])),
      ih _ _ (fun x hx => h x (by simp only [wants]; exact List.mem_cons_of_mem _ hx))⟩

end Demo.Over

/-- The hypotheses of `C154_refusals_partial` hold with an old session on both sides and messages that come twice; the
second copies are to be refused. -/
example : Again Demo.P Demo.Over.setupBoth ∧ Legal {} Demo.Over.twice ∧
    (ratchetKeys Demo.P Demo.Over.setupBoth Demo.Over.twice).Nodup ∧
    NoForgery Demo.P (strangers Demo.Over.setupBoth) {} (World.init Demo.P (strangers Demo.Over.setupBoth)) Demo.Over.twice ∧
    AllShut Demo.P Demo.Over.setupBoth {} (World.init Demo.P Demo.Over.setupBoth) Demo.Over.twice ∧
    wants {} Demo.Over.twice = [.sent, .got [4], .refused, .sent, .got [5], .refused, .refused, .sent, .got [6], .refused] ∧
    World.gots Demo.P Demo.Over.setupBoth (World.init Demo.P Demo.Over.setupBoth) Demo.Over.twice =
      [.sent, .received (.ok [4]), .received (.err .invalidMessage), .sent, .received (.ok [5]),
       .received (.err .invalidMessage), .received (.err .invalidMessage), .sent, .received (.ok [6]),
       .received (.err .invalidMessage)] := by
  have hw : wants {} Demo.Over.twice =
      [.sent, .got [4], .refused, .sent, .got [5], .refused, .refused, .sent, .got [6], .refused] := by decide +kernel
  refine ⟨⟨Demo.Over.strangers_ok, ⟨Demo.Over.loaded Demo.Over.before.I "bob", by decide +kernel⟩,
    ⟨Demo.Over.loaded Demo.Over.before.R "alice", by decide +kernel, by decide +kernel⟩⟩, ?_, by decide +kernel, ?_,
    Demo.Over.allShut_of _ _ _ _ ?_ (by decide +kernel), hw, by decide +kernel⟩
  · simp [Demo.Over.twice, Legal, Ev.Legal, Demo.Over.one, Abs.step, Abs.expect, Abs.recvLevel, Abs.accept,
      Abs.sendLevel, count, ret, last5, pos]
  · refine Demo.Over.noForgery_of _ _ _ _ ?_
    rw [hw]
    decide
  · intro i rnd hm k
    simp only [Demo.Over.twice, List.mem_cons, List.not_mem_nil, or_false, reduceCtorEq, false_or, Ev.deliver.injEq] at hm
    rcases hm with ⟨_, rfl⟩ | ⟨_, rfl⟩ | ⟨_, rfl⟩ | ⟨_, rfl⟩ | ⟨_, rfl⟩ | ⟨_, rfl⟩ | ⟨_, rfl⟩ <;> rfl

namespace Demo.Cross

/-- Bob answers Alice's second message; that and the answer come twice, and Bob's first comes once more at the end. -/
def again : List Ev := [.deliver 1 (Over.one 115), .send false [102], .deliver 2 (Over.one 120), .deliver 2 (Over.one 121),
  .send true [3], .deliver 3 (Over.one 131), .deliver 0 (Over.one 133)]

/-- The whole schedule in the session Bob began. -/
def againSchedule : List Ev :=
  .send false [101] :: .deliver 0 (rnd 83) :: .send true [2] :: .deliver 1 (fun k => rnd 86 (k + 1)) :: again

end Demo.Cross

/-- The hypotheses of `C153_refusals_partial` hold when messages come twice. -/
example : Legal {} Demo.Cross.againSchedule ∧
    (ratchetKeys Demo.P Demo.Cross.setupB Demo.Cross.againSchedule).Nodup ∧
    NoForgery Demo.P Demo.Cross.setupB {} (World.init Demo.P Demo.Cross.setupB) Demo.Cross.againSchedule ∧
    AllShut Demo.P Demo.Cross.setupB
      (absRun [.send false [101], .deliver 0 (Demo.rnd 83), .send true [2], .deliver 1 (Demo.rnd 86)])
      ((Demo.Cross.met.step Demo.P Demo.Cross.setupB (.send true [2])).1.step Demo.P Demo.Cross.setupB
        (.deliver 1 (Demo.rnd 86))).1 Demo.Cross.again ∧
    World.gots Demo.P Demo.Cross.setupB Demo.Cross.met (.send true [2] :: .deliver 1 (Demo.rnd 86) :: Demo.Cross.again) =
      [.sent, .received (.ok [2]), .received (.err .invalidMessage), .sent, .received (.ok [102]),
       .received (.err .invalidMessage), .sent, .received (.ok [3]), .received (.err .invalidMessage)] := by
  refine ⟨?_, by decide +kernel, ?_, Demo.Over.allShut_of _ _ _ _ ?_ (by decide +kernel), by decide +kernel⟩
  · simp [Demo.Cross.againSchedule, Demo.Cross.again, Legal, Ev.Legal, Demo.rnd, Demo.Over.one, Abs.step, Abs.expect,
      Abs.recvLevel, Abs.accept, Abs.sendLevel, count, ret, last5, pos]
  · refine Demo.Over.noForgery_of _ _ _ _ ?_
    have h : ∀ x ∈ wants {} Demo.Cross.againSchedule, x ≠ .stale := by decide +kernel
    exact h
  · intro i rnd hm k
    simp only [Demo.Cross.again, List.mem_cons, List.not_mem_nil, or_false, reduceCtorEq, false_or, Ev.deliver.injEq] at hm
    rcases hm with ⟨_, rfl⟩ | ⟨_, rfl⟩ | ⟨_, rfl⟩ | ⟨_, rfl⟩ | ⟨_, rfl⟩ <;> rfl

/-- What `C153_refusals_partial` assumes of the sessions that were given up can fail in an ordinary run. The session Bob
went back to stays among the archived ones as well (axolotl/session.go:310-316), as it was then; so a later message of
Alice's that comes twice, number 3 here, is read twice. -/
theorem C153_read_twice :
    World.gots Demo.P Demo.Cross.setupB Demo.Cross.met
      [.send true [2], .deliver 1 (Demo.rnd 86), .send false [102], .deliver 2 (Demo.Over.one 120), .send true [3],
       .deliver 3 (Demo.Over.one 131), .deliver 3 (Demo.Over.one 132)] =
      [.sent, .received (.ok [2]), .sent, .received (.ok [102]), .sent, .received (.ok [3]), .received (.ok [3])] ∧
    wants (absRun [.send false [101], .deliver 0 (Demo.rnd 83)])
      [.send true [2], .deliver 1 (Demo.rnd 86), .send false [102], .deliver 2 (Demo.Over.one 120), .send true [3],
       .deliver 3 (Demo.Over.one 131), .deliver 3 (Demo.Over.one 132)] =
      [.sent, .got [2], .sent, .got [102], .sent, .got [3], .refused] := by
  constructor <;> decide +kernel

end Verif.Props
