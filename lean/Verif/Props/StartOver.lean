import Verif.Proof.StartOver
import Verif.Props.Crossing
/-!
# Property C154: a session begun anew works, whatever sessions there were before
-/
namespace Verif.Props
open Verif Verif.Keys Verif.Messages Verif.Session Verif.Api Verif.Names Verif.Conv Verif.Crossing Verif.StartOver

/-- C154, in part: two clients begin a session from a published bundle. Whatever sessions with each other they have
from before, current and archived, or if those files cannot be read, they agree with the abstract machine of C02 on
every schedule in which nothing is one to be refused: every message is read as it was sent. Nothing is assumed of the
older sessions but that their files parse and none came from the same base key. Missing: messages of the older sessions
that arrive late (`C154_late_message_breaks_new_session`); for schedules with messages to be refused see `C154_refusals_partial`. -/
theorem C154_start_over_partial (P : Prims) (S : Setup) (h : Again P S) (evs : List Ev) (hl : Legal {} evs)
    (hk : (ratchetKeys P S evs).Nodup) (hn : evs.length < 2 ^ 32 - 1) (hr : AllRead {} evs) :
    (buildSender P {} S.initiator S.rb S.rr S.nameR S.devR S.bundle).res = .ok () ∧
    List.Forall₂ Agree (wants {} evs) (World.gots P S (World.init P S) evs) := by
  constructor
  · obtain ⟨si, hsi⟩ := h.iLoads
    have e := build_over h.ok S.initiator h.ok.iIdent h.ok.iReg h.ok.iTrust si hsi
    rw [show buildSender P {} S.initiator S.rb S.rr S.nameR S.devR S.bundle = _ from e]
  · rw [← gots_strangers]
    exact behind_run h.ok evs {} _ _ (ready_init h.ok hl hk hn hr) (behind_init h)

/-! ## A late message -/

namespace Demo.Over

/-- Alice and Bob have talked; Alice's second message, number 2, is still under way. -/
def before : World := worldRun P setup (World.init P setup)
  [.send false [1], .deliver 0 (rnd 83), .send true [2], .deliver 1 (rnd 84), .send false [3]]

/-- The bytes under way. -/
def late : List (Bool × Bytes × MsgType) := before.wire.drop 2

/-- Alice has lost the session (a new installation, or Bob's device was reported stale and the session was deleted) and
begins again, from a bundle without one-time prekey. -/
def setupNew : Setup :=
  { setup with rb := List.replicate 32 151, rr := List.replicate 32 163, opk := none, pkId := 0
               initiator := deleteSession before.I "bob" 1, responder := before.R
               bundle := { bundle 7 with preKeyId := 0, preKey := none } }

/-- Both still have the old session, and Alice begins again. -/
def setupBoth : Setup := { setupNew with initiator := before.I }

def goOn : List Ev := [.send false [4], .deliver 0 (rnd 131), .send true [5], .deliver 1 (rnd 142), .send false [6],
  .deliver 2 (rnd 154)]

theorem strangers_ok : (strangers setupBoth).Ok P where
  idI := pair_valid _
  idR := pair_valid _
  spk := pair_valid _
  opk := by intro k hk; cases hk
  rb := by decide
  rr := by decide
  spkId := by decide
  pkId := ⟨by decide, by simp [strangers, setupBoth, setupNew]⟩
  regI := by decide
  regR := by decide
  bundleId := rfl
  bundleSpk := ⟨rfl, rfl⟩
  bundleOpk := ⟨rfl, rfl⟩
  bundleSig := by decide +kernel
  iIdent := by decide +kernel
  iReg := by decide +kernel
  iTrust := by decide +kernel
  iNone := rfl
  rIdent := by decide +kernel
  rReg := by decide +kernel
  rTrust := by decide +kernel
  rNone := rfl
  rSpk := by decide +kernel
  rOpk := by intro k hk; cases hk

/-- The record a client loads. -/
def loaded (st : Store) (rec : String) : SRecord := match loadSession st rec 1 with | .ok r => r | _ => {}

end Demo.Over

/-- The hypotheses of `C154_start_over_partial` hold with old sessions on both sides. -/
example : Again Demo.P Demo.Over.setupBoth ∧ Legal {} Demo.Over.goOn ∧
    (ratchetKeys Demo.P Demo.Over.setupBoth Demo.Over.goOn).Nodup ∧ AllRead {} Demo.Over.goOn ∧
    (∃ r, Demo.Over.setupBoth.initiator.sessions (sessName "bob" 1) = .good r) ∧
    (∃ r, Demo.Over.setupBoth.responder.sessions (sessName "alice" 1) = .good r) := by
  have h : ∀ x ∈ wants {} Demo.Over.goOn, x ≠ .refused ∧ x ≠ .stale := by decide +kernel
  refine ⟨⟨Demo.Over.strangers_ok, ⟨Demo.Over.loaded Demo.Over.before.I "bob", by decide +kernel⟩,
    ⟨Demo.Over.loaded Demo.Over.before.R "alice", by decide +kernel, by decide +kernel⟩⟩, ?_, by decide +kernel, h,
    ⟨Demo.Over.loaded Demo.Over.before.I "bob", by decide +kernel⟩,
    ⟨Demo.Over.loaded Demo.Over.before.R "alice", by decide +kernel⟩⟩
  simp [Demo.Over.goOn, Legal, Ev.Legal, Demo.rnd, Abs.step, Abs.expect, Abs.recvLevel, Abs.accept,
    Abs.sendLevel, count, ret, last5, pos]

/-- C154 fails when a message of the older session comes after the first of the new one. Bob reads it, with the archived
session; the attempt on the new session has moved its ratchet on by then, and it is stored so
(axolotl/session.go:611-625, 703-730). Bob's answers, whether sent in the older session or, after a further message
of Alice, in the new one, cannot be read by Alice any more. Without the late message everything is read. -/
theorem C154_late_message_breaks_new_session :
    World.gots Demo.P Demo.Over.setupNew
        { World.init Demo.P Demo.Over.setupNew with wire := Demo.Over.late }
      [.send false [4], .deliver 1 (Demo.rnd 131), .deliver 0 (Demo.rnd 142), .send true [5], .deliver 2 (Demo.rnd 154),
       .send false [6], .deliver 3 (Demo.rnd 165), .send true [7], .deliver 4 (Demo.rnd 176)] =
      [.sent, .received (.ok [4]), .received (.ok [3]), .sent, .received (.err .invalidMessage),
       .sent, .received (.ok [6]), .sent, .received (.err .invalidMessage)] ∧
    World.gots Demo.P Demo.Over.setupNew
        { World.init Demo.P Demo.Over.setupNew with wire := Demo.Over.late }
      [.send false [4], .deliver 1 (Demo.rnd 131), .send true [5], .deliver 2 (Demo.rnd 154),
       .send false [6], .deliver 3 (Demo.rnd 165), .send true [7], .deliver 4 (Demo.rnd 176)] =
      [.sent, .received (.ok [4]), .sent, .received (.ok [5]),
       .sent, .received (.ok [6]), .sent, .received (.ok [7])] := by
  constructor <;> decide +kernel

end Verif.Props
