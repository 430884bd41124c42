import Verif.Proof.Crossing
import Verif.Props.Conversation
/-!
# Property C153: two people who write to each other at the same moment can talk afterwards
-/
namespace Verif.Props
open Verif Verif.Keys Verif.Messages Verif.Session Verif.Api Verif.Names Verif.Conv Verif.Crossing

/-- C153, the first messages: each of two clients that have both begun a session with the other reads the other's
first message. -/
theorem C153_first_messages (P : Prims) (S S' : Setup) (hM : Mirror S S') (hS : S.Ok P) (hS' : S'.Ok P)
    (hbase : (newPair P S.rb).pub ≠ (newPair P S'.rb).pub) (ptA ptB : Bytes) (rA rB : Nat → Bytes)
    (hpA : ptA.length < 2 ^ 60) (hpB : ptB.length < 2 ^ 60) (hrA : (rA 0).length = 32) (hrB : (rB 0).length = 32)
    (hkA : (ratchetKeys P S [.deliver 0 rB]).Nodup) (hkB : (ratchetKeys P S' [.deliver 0 rA]).Nodup) :
    (meet P S S' ptA ptB rA rB).2 = (.received (.ok ptB), .received (.ok ptA)) := by
  have ready : ∀ (T : Setup) (pt : Bytes) (r : Nat → Bytes), T.Ok P → pt.length < 2 ^ 60 → (r 0).length = 32 →
      (ratchetKeys P T [.deliver 0 r]).Nodup →
      Ready P T {} (World.init P T) [.send false pt, .deliver 0 r] ∧
        Ready P T {} (World.init P T) [.send false pt] := by
    intro T pt r hT hp hr hk
    have hk1 : (ratchetKeys P T [.send false pt]).Nodup :=
      hk.sublist (by simp [ratchetKeys])
    refine ⟨ready_init hT ⟨⟨by simp, hp⟩, hr, trivial⟩ hk (by simp) ?_,
      ready_init hT ⟨⟨by simp, hp⟩, trivial⟩ hk1 (by simp) ?_⟩
    · intro x hx
      simp [wants, Abs.want, Abs.step, Abs.expect, Abs.recvLevel, Abs.sendLevel, count] at hx
      rcases hx with rfl | rfl <;> simp
    · intro x hx
      simp [wants, Abs.want] at hx
      subst hx
      simp
  obtain ⟨a2, a1⟩ := ready S ptA rB hS hpA hrB hkA
  obtain ⟨b2, b1⟩ := ready S' ptB rA hS' hpB hrA hkB
  obtain ⟨_, _, _, _, _, _, _, _, _, _, c8⟩ := cross_read hM hS hS' hbase ptA ptB rA a1 b2
  obtain ⟨_, _, _, _, _, _, _, _, _, _, d8⟩ := cross_read hM.symm hS' hS (fun h => hbase h.symm) ptB ptA rB b1 a2
  unfold meet
  simp only [c8, d8]

/-- C153, in part: after their first messages have crossed, Alice sends a second message, which belongs to the session
Bob began, and Bob reads it before they send one. From then on the two agree with the abstract machine of C02 on every
schedule in that session in which no message is one to be refused. Assumed: the session Bob made the current one by
reading Alice's first message does not open the second. Missing: Bob sending before they have read it
(`C153_second_messages_cross`). -/
theorem C153_crossing_partial (P : Prims) (S S' : Setup) (hM : Mirror S S') (hS : S.Ok P) (hS' : S'.Ok P)
    (hbase : (newPair P S.rb).pub ≠ (newPair P S'.rb).pub) (ptA ptB ptA2 : Bytes) (rA rB rB2 : Nat → Bytes)
    (hpA : ptA.length < 2 ^ 60) (hrB : (rB 0).length = 32) (hkA : (ratchetKeys P S [.deliver 0 rB]).Nodup)
    (post evs : List Ev)
    (hevs : evs = .send false ptB :: .deliver 0 rA :: .send true ptA2 :: .deliver 1 (fun k => rB2 (k + 1)) :: post)
    (hl : Legal {} evs) (hk : (ratchetKeys P S' evs).Nodup) (hn : evs.length < 2 ^ 32 - 1) (hr : AllRead {} evs)
    (href : Refuses P S' (rB2 0) ((meet P S S' ptA ptB rA rB).1.step P S' (.send true ptA2)).1 1) :
    (meet P S S' ptA ptB rA rB).2 = (.received (.ok ptB), .received (.ok ptA)) ∧
    List.Forall₂ Agree (wants (absRun [.send false ptB, .deliver 0 rA]) (.send true ptA2 :: .deliver 1 rB2 :: post))
      (World.gots P S' (meet P S S' ptA ptB rA rB).1 (.send true ptA2 :: .deliver 1 rB2 :: post)) := by
  subst hevs
  refine cross_on hM hS hS' hbase ptA ptB ptA2 rA rB rB2 ?_ post (ready_init hS' hl hk hn hr) href
  refine ready_init hS ⟨⟨by simp, hpA⟩, hrB, trivial⟩ hkA (by simp) ?_
  intro x hx
  simp [wants, Abs.want, Abs.step, Abs.expect, Abs.recvLevel, Abs.sendLevel, count] at hx
  rcases hx with rfl | rfl <;> simp

/-! ## Alice and Bob -/

namespace Demo.Cross

def aliceSpk : KeyPair := pair 91
def aliceOpk : KeyPair := pair 67

/-- Alice, who has published a bundle as well. -/
def aliceB : Store :=
  { alice0 with signedPreKeys := fun i => if i = 3 then some aliceSpk else none
                preKeys := fun i => if i = 9 then some aliceOpk else none }

def aliceBundle : Bundle :=
  { regId := 1001, preKeyId := 9, preKey := some aliceOpk.pub, signedPreKeyId := 3, signedPreKey := some aliceSpk.pub
    signature := toySig aliceId (ser aliceSpk.pub), identityKey := aliceId.pub }

/-- Alice begins. -/
def setupA : Setup := { setup with initiator := aliceB }

/-- Bob begins. -/
def setupB : Setup :=
  { idI := bobId, idR := aliceId, spk := aliceSpk, opk := some aliceOpk, rb := List.replicate 32 101
    rr := List.replicate 32 109, spkId := 3, pkId := 9, regI := 1002, regR := 1001, nameI := "bob", devI := 1
    nameR := "alice", devR := 1, initiator := bob0, responder := aliceB, bundle := aliceBundle }

theorem setupA_ok : setupA.Ok P where
  idI := pair_valid _
  idR := pair_valid _
  spk := pair_valid _
  opk := by intro k hk; injection hk with hk; subst hk; exact pair_valid _
  rb := by decide
  rr := by decide
  spkId := by decide
  pkId := ⟨by decide, by simp [setupA, setup]⟩
  regI := by decide
  regR := by decide
  bundleId := rfl
  bundleSpk := ⟨rfl, rfl⟩
  bundleOpk := ⟨rfl, rfl⟩
  bundleSig := by decide +kernel
  iIdent := rfl
  iReg := rfl
  iTrust := by decide
  iNone := rfl
  rIdent := rfl
  rReg := rfl
  rTrust := by decide
  rNone := rfl
  rSpk := rfl
  rOpk := by intro k hk; injection hk with hk; subst hk; rfl

theorem setupB_ok : setupB.Ok P where
  idI := pair_valid _
  idR := pair_valid _
  spk := pair_valid _
  opk := by intro k hk; injection hk with hk; subst hk; exact pair_valid _
  rb := by decide
  rr := by decide
  spkId := by decide
  pkId := ⟨by decide, by simp [setupB]⟩
  regI := by decide
  regR := by decide
  bundleId := rfl
  bundleSpk := ⟨rfl, rfl⟩
  bundleOpk := ⟨rfl, rfl⟩
  bundleSig := by decide +kernel
  iIdent := rfl
  iReg := rfl
  iTrust := by decide
  iNone := rfl
  rIdent := rfl
  rReg := rfl
  rTrust := by decide
  rNone := rfl
  rSpk := rfl
  rOpk := by intro k hk; injection hk with hk; subst hk; rfl

theorem mirror : Mirror setupA setupB := ⟨rfl, rfl, rfl, rfl, rfl, rfl⟩

/-- After the first messages crossed. -/
def met : World := (meet P setupA setupB [1] [101] (rnd 83) (rnd 84)).1

/-- Bob answers Alice's second message, Alice answers that. -/
def goOn : List Ev := [.send false [102], .deliver 2 (rnd 120), .send true [3], .send true [4], .deliver 4 (rnd 131),
  .deliver 3 (rnd 132)]

/-- The whole schedule in the session Bob began. -/
def crossSchedule : List Ev :=
  .send false [101] :: .deliver 0 (rnd 83) :: .send true [2] :: .deliver 1 (fun k => rnd 86 (k + 1)) :: goOn

/-- Bob's newer session refuses message `i`, as a computation. -/
def refuses (r : Bytes) (w : World) (i : Nat) : Bool :=
  match w.I.sessions (sessName "alice" 1), w.wire[i]? with
  | .good sr, some (_, b, _) => match loadWhisper b with
    | .ok m => match (decryptState P r sr.cur m).2 with
      | .err _ => true
      | _ => false
    | _ => true
  | _, _ => true

theorem refuses_of {r : Bytes} {w : World} {i : Nat} (h : refuses r w i = true) : Refuses P setupB r w i := by
  intro sr who b ty m h1 h2 h3
  unfold refuses at h
  rw [show sessName setupB.nameR setupB.devR = sessName "alice" 1 from rfl] at h1
  rw [h1, h2] at h
  simp only [h3] at h
  rcases hd : (decryptState P r sr.cur m).2 with x | e | _
  · rw [hd] at h; cases h
  · exact ⟨e, rfl⟩
  · rw [hd] at h; cases h

end Demo.Cross

/-- The hypotheses of `C153_crossing_partial` hold when Bob waits for Alice's second message; what is read is what the
theorem says. -/
example : Mirror Demo.Cross.setupA Demo.Cross.setupB ∧ Demo.Cross.setupA.Ok Demo.P ∧ Demo.Cross.setupB.Ok Demo.P ∧
    (newPair Demo.P Demo.Cross.setupA.rb).pub ≠ (newPair Demo.P Demo.Cross.setupB.rb).pub ∧
    (ratchetKeys Demo.P Demo.Cross.setupA [.deliver 0 (Demo.rnd 84)]).Nodup ∧
    Legal {} Demo.Cross.crossSchedule ∧ (ratchetKeys Demo.P Demo.Cross.setupB Demo.Cross.crossSchedule).Nodup ∧
    AllRead {} Demo.Cross.crossSchedule ∧
    Refuses Demo.P Demo.Cross.setupB (Demo.rnd 86 0) (Demo.Cross.met.step Demo.P Demo.Cross.setupB (.send true [2])).1 1 ∧
    World.gots Demo.P Demo.Cross.setupB Demo.Cross.met (.send true [2] :: .deliver 1 (Demo.rnd 86) :: Demo.Cross.goOn) =
      [.sent, .received (.ok [2]), .sent, .received (.ok [102]), .sent, .sent, .received (.ok [4]),
        .received (.ok [3])] := by
  refine ⟨Demo.Cross.mirror, Demo.Cross.setupA_ok, Demo.Cross.setupB_ok, by decide +kernel, by decide +kernel, ?_, by decide +kernel,
    ?_, Demo.Cross.refuses_of (by decide +kernel), by decide +kernel⟩
  · simp [Demo.Cross.crossSchedule, Demo.Cross.goOn, Legal, Ev.Legal, Demo.rnd, Abs.step, Abs.expect, Abs.recvLevel, Abs.accept,
      Abs.sendLevel, count, ret, last5, pos]
  · have h : ∀ x ∈ wants {} Demo.Cross.crossSchedule, x ≠ .refused ∧ x ≠ .stale := by decide +kernel
    exact h

/-- C153 fails when the second messages cross as well. Both are read, each with the session its sender had made the
current one and its reader had archived. But before the reader comes to the archived one the attempt on the current
session has already moved that one's ratchet on (axolotl/session.go:703-730, called before the message
authentication), and it is stored that way when the archived session is promoted (lines 612-621). So both sessions are
out of step, and nothing either of the two sends from then on can be read by the other; no session is begun anew, since
both still have one. -/
theorem C153_second_messages_cross :
    (meet Demo.P Demo.Cross.setupA Demo.Cross.setupB [1] [101] (Demo.rnd 83) (Demo.rnd 84)).2 =
      (.received (.ok [101]), .received (.ok [1])) ∧
    World.gots Demo.P Demo.Cross.setupB Demo.Cross.met
      [.send true [2], .send false [102], .deliver 1 (Demo.rnd 86), .deliver 2 (Demo.rnd 85),
       .send true [3], .deliver 3 (Demo.rnd 88), .send false [103], .deliver 4 (Demo.rnd 87),
       .send true [4], .deliver 5 (Demo.rnd 90), .send false [104], .deliver 6 (Demo.rnd 89)] =
      [.sent, .sent, .received (.ok [2]), .received (.ok [102]),
       .sent, .received (.err .invalidMessage), .sent, .received (.err .invalidMessage),
       .sent, .received (.err .invalidMessage), .sent, .received (.err .invalidMessage)] := by
  constructor <;> decide +kernel

end Verif.Props
