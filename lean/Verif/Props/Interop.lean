import Verif.Proof.Interop
import Verif.Props.Protocol
/-!
# C163: a peer that runs the published algorithm

Full claim: any implementation of the Double Ratchet document can take the place of either of two clients; each reads what
the other has written.
-/
namespace Verif.Props
open Verif Verif.Keys Verif.Messages Verif.Session Verif.Api Verif.Names Verif.Conv Verif.Protocol Verif.Ratchet

/-- C163, in part: in every schedule, a peer that runs the algorithm of the document takes the place of the responder or of
the initiator. Each message is read as it would be between two clients, the bytes on the wire are the same, and the
client's store is the same. Missing: the length of the previous chain is written and read as Signal's implementations do
(`customary`), see `C163_document_loses_last`; schedules with messages older than five chains or with gaps of more than
2000 messages at the end of a chain (`Within`), where the document's store of skipped keys and the client's chains differ;
an initiator without one-time prekey (`C159_absent_prekey_named`). -/
theorem C163_takes_the_place_partial (P : Prims) (S : Setup) (evs : List Ev) (peer : Bool) (h : Scheduled P S evs)
    (hw : Within peer {} evs) (hr : NoReplay P S customary peer {} (Mixed.init P S peer) evs)
    (ho : peer = false → S.opk ≠ none) :
    List.Forall₂ Agree (wants {} evs) (Mixed.gots P S customary peer (Mixed.init P S peer) evs) ∧
    (Mixed.run P S customary peer (Mixed.init P S peer) evs).wire = (worldRun P S (World.init P S) evs).wire ∧
    (Mixed.run P S customary peer (Mixed.init P S peer) evs).client =
      (if peer then (worldRun P S (World.init P S) evs).I else (worldRun P S (World.init P S) evs).R) := by
  have hne : S.spk.pub ≠ (newPair P S.rr).pub := by
    have hk := h.keys
    unfold ratchetKeys at hk
    rw [List.nodup_cons] at hk
    intro h
    exact hk.1 (by rw [h]; exact List.mem_cons_self)
  have hs : 0 + evs.length + 1 < u32 := by
    have := h.short
    unfold u32
    omega
  obtain ⟨h1, G, h2⟩ := mixed_simulate h.setup peer ho evs (initG P S) {} (World.init P S) (Mixed.init P S peer)
    (mixed_init h.setup hne peer) h.legal h.keys hs h.noForgery hw hr
  exact ⟨h1, h2.wire, h2.client⟩

namespace Demo
/-- `Within` and `NoReplay` as a computation, for the examples. -/
def check (peer : Bool) : Abs → Mixed → List Ev → Bool
  | _, _, [] => true
  | a, w, ev :: evs =>
    (match ev with
      | .send _ _ => true
      | .deliver i rnd => match a.log[i]? with
        | none => true
        | some m => !(decide (m.epoch % 2 = if peer then 1 else 0)) ||
          (decide (a.expect m ≠ .stale) &&
          decide (previous a.log m.epoch + 1 ≤ pos a.acc (m.epoch - 2) + 2000) &&
          (!(decide ((m.epoch, m.ctr) ∈ a.acc)) || (match (w.step P setup customary peer (.deliver i rnd)).2 with
            | .received (.ok _) => false
            | _ => true)))) &&
    check peer (a.step ev) (w.step P setup customary peer ev).1 evs

theorem check_ok (peer : Bool) : ∀ (evs : List Ev) (a : Abs) (w : Mixed), check peer a w evs = true →
    Within peer a evs ∧ NoReplay P setup customary peer a w evs
  | [], _, _, _ => ⟨trivial, trivial⟩
  | ev :: evs, a, w, h => by
    unfold check at h
    rw [Bool.and_eq_true] at h
    obtain ⟨h1, h2⟩ := h
    obtain ⟨r1, r2⟩ := check_ok peer evs _ _ h2
    refine ⟨⟨?_, r1⟩, ?_, r2⟩
    · rintro i rnd m rfl hm ht
      unfold toPeer at ht
      simp only [hm, ht, decide_true, Bool.not_true, Bool.false_or, Bool.and_eq_true, decide_eq_true_eq] at h1
      exact ⟨h1.1.1, fun _ => h1.1.2⟩
    · rintro i rnd m rfl hm ht ha pt hp
      unfold toPeer at ht
      simp only [hm, ht, ha, hp, decide_true, Bool.not_true, Bool.false_or, Bool.and_false, Bool.false_eq_true] at h1

theorem scheduled : Scheduled P setup schedule := by
  refine ⟨setup_ok, ?_, by decide +kernel, by decide, ?_⟩
  · simp [schedule, Legal, Ev.Legal, rnd, Abs.step, Abs.expect, Abs.recvLevel, Abs.accept,
      Abs.sendLevel, count, ret, last5, pos]
  · simp only [schedule, NoForgery]
    simp [Abs.want, Abs.step, Abs.expect, Abs.recvLevel, Abs.accept,
      Abs.sendLevel, count, ret, last5, pos]
end Demo

/-- The hypotheses are met by the schedule of C02, with the peer on either side: three first messages out of order and
twice, an answer, a message in the third epoch, and then the third message of the first epoch. -/
example : Scheduled Demo.P Demo.setup Demo.schedule ∧ Demo.setup.opk ≠ none ∧
    (∀ peer, Within peer {} Demo.schedule ∧
      NoReplay Demo.P Demo.setup customary peer {} (Mixed.init Demo.P Demo.setup peer) Demo.schedule) ∧
    (Mixed.run Demo.P Demo.setup customary true (Mixed.init Demo.P Demo.setup true) Demo.schedule).wire.length = 5 := by
  refine ⟨Demo.scheduled, by decide, fun peer => Demo.check_ok peer _ _ _ ?_, by decide +kernel⟩
  cases peer <;> decide +kernel

/-- C163 fails for a peer that takes the length of the previous chain as the document has it, as the number of messages.
The client writes one less (axolotl/session.go:723-727: the number of the last message). Such a peer keeps one
key too few when the client's next chain begins: in the schedule of C02, where the third and last message of the client's
first chain arrives after the first message of the next, two clients read that message, and so does a peer with the
customary numbering, but this peer does not. All else is read. -/
theorem C163_document_loses_last :
    Scheduled Demo.P Demo.setup Demo.schedule ∧ Within true {} Demo.schedule ∧
    (wants {} Demo.schedule)[10]? = some (.got [3]) ∧
    (Mixed.gots Demo.P Demo.setup customary true (Mixed.init Demo.P Demo.setup true) Demo.schedule)[10]? =
      some (.received (.ok [3])) ∧
    Mixed.gots Demo.P Demo.setup document true (Mixed.init Demo.P Demo.setup true) Demo.schedule =
      (Mixed.gots Demo.P Demo.setup customary true (Mixed.init Demo.P Demo.setup true) Demo.schedule).set 10
        (.received (.err .invalidMessage)) :=
  ⟨Demo.scheduled, (Demo.check_ok true _ _ (Mixed.init Demo.P Demo.setup true) (by decide +kernel)).1, by decide +kernel,
    by decide +kernel, by decide +kernel⟩

end Verif.Props
