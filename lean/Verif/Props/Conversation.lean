import Verif.Proof.Conversation
import Verif.Props.Demo
/-!
# Properties C01 (first contact), C02 (conversations), C17 (published prekeys), C18 (crash in first contact)
-/
namespace Verif.Props
open Verif Verif.Keys Verif.Messages Verif.Session Verif.Api Verif.Names Verif.Conv

/-! ## C02 -/

/-- C02. For every schedule of sends and deliveries (loss, duplication and reordering included), two
clients that start from a published bundle observe exactly what the abstract machine of
`Spec/Conversation.lean` prescribes: every send succeeds, a first delivery within the limits returns
the plaintext that was sent, a duplicate or a message too far ahead is refused. Assumed: the ratchet keys
drawn are pairwise distinct, fewer than 2^32 - 1 events, and no message of a forgotten epoch authenticates
under an unrelated key (`NoForgery`). That a refused message does not change the session is C05. -/
theorem C02_conversation (P : Prims) (S : Setup) (hS : S.Ok P) (evs : List Ev) (hl : Legal {} evs)
    (hk : (ratchetKeys P S evs).Nodup) (hn : evs.length < 2 ^ 32 - 1)
    (hf : NoForgery P S {} (World.init P S) evs) :
    List.Forall₂ Agree (wants {} evs) (World.gots P S (World.init P S) evs) := by
  have hne : S.spk.pub ≠ (newPair P S.rr).pub := by
    unfold ratchetKeys at hk
    rw [List.nodup_cons] at hk
    intro h
    exact hk.1 (by rw [h]; exact List.mem_cons_self)
  refine simulate hS evs (initG P S) {} (World.init P S) (init_rel hS hne).2 hl ?_ ?_ hf
  · exact hk
  · show 0 + evs.length + 1 < u32
    unfold u32
    omega

/-- State of the abstract machine after a schedule. -/
def absRun (evs : List Ev) : Abs := evs.foldl Abs.step {}

/-- Reachable states: messages accepted belong to epochs the receiver has entered. -/
theorem absRun_acc (evs : List Ev) :
    (absRun evs).lvI % 2 = 1 ∧ (absRun evs).lvR % 2 = 0 ∧
    ∀ x ∈ (absRun evs).acc, x.1 < (absRun evs).recvLevel x.1 := by
  unfold absRun
  have : ∀ a : Abs, (a.lvI % 2 = 1 ∧ a.lvR % 2 = 0 ∧ ∀ x ∈ a.acc, x.1 < a.recvLevel x.1) →
      (evs.foldl Abs.step a).lvI % 2 = 1 ∧ (evs.foldl Abs.step a).lvR % 2 = 0 ∧
      ∀ x ∈ (evs.foldl Abs.step a).acc, x.1 < (evs.foldl Abs.step a).recvLevel x.1 := by
    induction evs with
    | nil => exact fun a h => h
    | cons ev evs ih =>
      intro a h
      apply ih
      obtain ⟨h1, h2, h3⟩ := h
      cases ev with
      | send who pt => exact ⟨h1, h2, h3⟩
      | deliver i rnd =>
        simp only [Abs.step]
        split
        · exact ⟨h1, h2, h3⟩
        · rename_i m _
          split
          · rename_i hacc
            unfold Abs.accept
            simp only
            split
            · rename_i hnew
              split
              · rename_i hodd
                have hrl : a.recvLevel m.epoch = a.lvR := by simp [Abs.recvLevel, hodd]
                rw [hrl] at hnew ⊢
                refine ⟨h1, by simp only; omega, ?_⟩
                intro x hx
                rcases List.mem_cons.mp hx with hx | hx
                · subst hx; simp only [Abs.recvLevel, hodd, if_true]; omega
                · have := h3 x hx
                  simp only [Abs.recvLevel] at this ⊢
                  split at this <;> split <;> omega
              · rename_i hodd
                have hrl : a.recvLevel m.epoch = a.lvI := by simp [Abs.recvLevel, hodd]
                rw [hrl] at hnew ⊢
                refine ⟨by simp only; omega, h2, ?_⟩
                intro x hx
                rcases List.mem_cons.mp hx with hx | hx
                · subst hx; simp only [Abs.recvLevel, hodd, if_false]; omega
                · have := h3 x hx
                  simp only [Abs.recvLevel] at this ⊢
                  split at this <;> split <;> omega
            · rename_i hnew
              refine ⟨h1, h2, ?_⟩
              intro x hx
              rcases List.mem_cons.mp hx with hx | hx
              · subst hx
                unfold Abs.expect at hacc
                simp only at hacc
                rw [if_neg hnew] at hacc
                split at hacc
                · rename_i hin
                  exact (ret_lt _ _ hin).1
                · simp at hacc
              · exact h3 x hx
          · exact ⟨h1, h2, h3⟩
  exact this {} ⟨rfl, rfl, by simp⟩

/-- What the specification used in C02 says about a delivery, in terms of what was accepted before: the
message is of the next epoch or one of the last five received, it was not accepted before and it is at
most 2000 ahead of the newest accepted one of its epoch — then and only then is it accepted. -/
theorem C02_spec_accepts (evs : List Ev) (m : AMsg) :
    (absRun evs).expect m = .accept ↔
      (m.epoch = (absRun evs).recvLevel m.epoch + 1 ∨ m.epoch ∈ ret ((absRun evs).recvLevel m.epoch)) ∧
      (m.epoch, m.ctr) ∉ (absRun evs).acc ∧ m.ctr ≤ pos (absRun evs).acc m.epoch + 2000 := by
  obtain ⟨_, _, hacc⟩ := absRun_acc evs
  generalize absRun evs = a at *
  by_cases hn : m.epoch = a.recvLevel m.epoch + 1
  · have hnot : ∀ x ∈ a.acc, x.1 ≠ m.epoch := by
      intro x hx he
      have := hacc x hx
      rw [he] at this
      omega
    have hp : pos a.acc m.epoch = 0 := pos_zero _ _ hnot
    obtain ⟨h1, h2⟩ := expect_new a m hn
    rw [hp]
    constructor
    · intro h
      refine ⟨Or.inl hn, fun hx => hnot _ hx rfl, ?_⟩
      by_contra hc
      rw [h1 (by omega)] at h
      simp at h
    · rintro ⟨_, _, h⟩
      exact h2 (by omega)
  · by_cases hin : m.epoch ∈ ret (a.recvLevel m.epoch)
    · obtain ⟨h1, h2⟩ := expect_known a m hn hin
      constructor
      · intro h
        refine ⟨Or.inr hin, fun hx => ?_, ?_⟩
        · rw [h1 (Or.inl hx)] at h; simp at h
        · by_contra hc
          rw [h1 (Or.inr (by omega))] at h
          simp at h
      · rintro ⟨_, ha, hb⟩
        exact h2 ha hb
    · rw [expect_stale a m hn hin]
      simp [hn, hin]

/-! ## C01 -/

/-- The two events of first contact. -/
def firstContact (pt : Bytes) (rnd : Nat → Bytes) : List Ev := [.send false pt, .deliver 0 rnd]

/-- World after a schedule. -/
def worldRun (P : Prims) (S : Setup) (w : World) (evs : List Ev) : World :=
  evs.foldl (fun w ev => (w.step P S ev).1) w

/-- C01. The initiator's build succeeds, its first message is sent and the responder reads exactly that
plaintext. Afterwards the responder's receiving chain for the initiator's ratchet key holds the
initiator's sending chain key, and the responder's root key and sending chain are what the initiator
derives from its own root key on seeing the responder's ratchet key. -/
theorem C01_first_contact (P : Prims) (S : Setup) (hS : S.Ok P) (pt : Bytes) (hpt : pt.length < 2 ^ 60)
    (rnd : Nat → Bytes) (hr : (rnd 0).length = 32)
    (hk : (ratchetKeys P S (firstContact pt rnd)).Nodup) :
    (buildSender P {} S.initiator S.rb S.rr S.nameR S.devR S.bundle).res = .ok () ∧
    World.gots P S (World.init P S) (firstContact pt rnd) = [.sent, .received (.ok pt)] ∧
    ∃ rI rR sI sR c,
      (worldRun P S (World.init P S) (firstContact pt rnd)).I.sessions (sessName S.nameR S.devR) = .good rI ∧
      (worldRun P S (World.init P S) (firstContact pt rnd)).R.sessions (sessName S.nameI S.devI) = .good rR ∧
      rI.cur.sender = some sI ∧ rR.cur.sender = some sR ∧
      getRecv rR.cur sI.pub = some c ∧ c.ck = sI.ck ∧
      createChain P rI.cur.rootKey sR.pub sI.priv = (rR.cur.rootKey, sR.ck) := by
  have hne : S.spk.pub ≠ (newPair P S.rr).pub := by
    unfold ratchetKeys at hk
    rw [List.nodup_cons] at hk
    intro h
    exact hk.1 (by rw [h]; exact List.mem_cons_self)
  obtain ⟨hb, hrel⟩ := init_rel hS hne
  have hl : Legal {} (firstContact pt rnd) := ⟨⟨by simp, hpt⟩, hr, trivial⟩
  have hnf : NoForgery P S {} (World.init P S) (firstContact pt rnd) := by
    refine ⟨by simp [Abs.want], ?_, trivial⟩
    intro hw
    exact absurd hw (by simp [Abs.want, Abs.step, Abs.expect, Abs.recvLevel, Abs.sendLevel, count])
  have hag := C02_conversation P S hS (firstContact pt rnd) hl hk (by simp [firstContact]) hnf
  have hwants : wants {} (firstContact pt rnd) = [.sent, .got pt] := by
    simp [firstContact, wants, Abs.want, Abs.step, Abs.expect, Abs.recvLevel, Abs.sendLevel, count]
  refine ⟨hb, ?_, ?_⟩
  · rw [hwants] at hag
    simp only [firstContact, World.gots] at hag ⊢
    cases hag with
    | cons h1 ht =>
      cases ht with
      | cons h2 _ =>
        revert h1 h2
        generalize (World.step P S (World.init P S) (Ev.send false pt)).2 = q1
        generalize (World.step P S (World.step P S (World.init P S) (Ev.send false pt)).1
          (Ev.deliver 0 rnd)).2 = q2
        intro h1 h2
        cases q1 <;> simp only [Agree] at h1
        cases q2 <;> simp only [Agree] at h2
        rename_i q
        cases q <;> first | (exact h2.elim) | (rw [show _ = pt from h2])
  · obtain ⟨_, G1, hrel1, hG1⟩ := step_send hS hrel false pt hl.1 (by show 0 + 2 < u32; decide)
    have hG1' : G1 = initG P S := by
      rcases hG1 with h | ⟨_, _, _, h, _⟩
      · exact h
      · simp at h
    subst hG1'
    have hfresh : ∀ x ∈ initG P S, x.kp.pub ≠ (newPair P (rnd 0)).pub := by
      intro x hx he
      have hk' := hk
      simp only [ratchetKeys, firstContact, List.filterMap_cons, List.filterMap_nil] at hk'
      simp only [initG, List.mem_cons, List.not_mem_nil, or_false] at hx
      simp only [List.nodup_cons, List.mem_cons, List.not_mem_nil, or_false, not_or] at hk'
      rcases hx with rfl | rfl
      · exact hk'.1.2 he
      · exact hk'.2.1 he
    obtain ⟨_, G2, hrel2, hG2⟩ := step_deliver hS hrel1 0 rnd hr hfresh
      (by show 1 + 1 < u32; decide) hnf.2.1
    have ha2 : (Abs.step (Abs.step {} (.send false pt)) (.deliver 0 rnd)) =
        { lvI := 1, lvR := 2, log := [⟨1, 0, pt⟩], acc := [(1, 0)] } := by
      simp [Abs.step, Abs.expect, Abs.accept, Abs.recvLevel, Abs.sendLevel, count]
    rw [ha2] at hrel2
    obtain ⟨rI, hrI, hatI⟩ := hrel2.sessI
    obtain ⟨rR, hrR, hatR⟩ := hrel2.sessR (by simp)
    obtain ⟨g1, hg1, hroot1, hs1⟩ := hatI.party.key
    obtain ⟨g2, hg2, hroot2, hs2⟩ := hatR.party.key
    have hv1 := hrel2.chain.valid g1 (List.mem_of_getElem? hg1)
    have hv2 := hrel2.chain.valid g2 (List.mem_of_getElem? hg2)
    obtain ⟨c, hc, g1', hg1', hrat, htr⟩ := (forall₂_find hrel2.chain 1 g1 hg1 _ _ hatR.party.recv).1
      (by simp [ret, last5])
    rw [hg1] at hg1'
    injection hg1' with hg1'
    subst hg1'
    refine ⟨rI, rR, _, _, c, hrI, hrR, hs1, hs2, hc, ?_, ?_⟩
    · rw [(htr.1 (by simp)).ck]
      simp [pos, count]
    · have hlk := hrel2.chain.link 1 g1 g2 hg1 hg2
      rw [hroot1, hroot2]
      have hc0 : count [(⟨1, 0, pt⟩ : AMsg)] 2 = 0 := by simp [count]
      simp only [hc0]
      show _ = (g2.root, g2.ck)
      rw [← hlk]
      unfold createChain
      rw [dh_swap hv1.1 hv2.1]

/-! ## The hypotheses are met -/

namespace Demo

def setup : Setup :=
  { idI := aliceId, idR := bobId, spk := bobSpk, opk := some bobOpk, rb := List.replicate 32 59
    rr := List.replicate 32 70, spkId := 5, pkId := 7, regI := 1001, regR := 1002, nameI := "alice", devI := 1
    nameR := "bob", devR := 1, initiator := alice0, responder := bob0, bundle := bundle 7 }

theorem pair_valid (b : UInt8) : (pair b).Valid P := newPair_valid P _ (by simp)

theorem setup_ok : setup.Ok P where
  idI := pair_valid _
  idR := pair_valid _
  spk := pair_valid _
  opk := by intro k hk; injection hk with hk; subst hk; exact pair_valid _
  rb := by decide
  rr := by decide
  spkId := by decide
  pkId := ⟨by decide, by simp [setup]⟩
  regI := by decide
  regR := by decide
  bundleId := rfl
  bundleSpk := ⟨rfl, rfl⟩
  bundleOpk := ⟨rfl, rfl⟩
  bundleSig := by decide +kernel
  iIdent := rfl
  iReg := rfl
  iTrust := by decide
  iNone := rfl
  rIdent := rfl
  rReg := rfl
  rTrust := by decide
  rNone := rfl
  rSpk := rfl
  rOpk := by intro k hk; injection hk with hk; subst hk; rfl

/-- Two messages, delivered in the wrong order, one of them twice; an answer; a further message in
the new direction; a late one of the first epoch. -/
def schedule : List Ev :=
  [.send false [1], .send false [2], .send false [3], .deliver 1 (rnd 83), .deliver 1 (rnd 84),
   .deliver 0 (rnd 85), .send true [4], .deliver 3 (rnd 86), .send false [5], .deliver 4 (rnd 87),
   .deliver 2 (rnd 88), .deliver 2 (rnd 89), .deliver 9 (rnd 90)]

end Demo

example : wants {} Demo.schedule =
    [.sent, .sent, .sent, .got [2], .refused, .got [1], .sent, .got [4], .sent, .got [5], .got [3],
     .refused, .nothing] := by decide +kernel

/-- The hypotheses of `C02_conversation` hold for this schedule. -/
example : Demo.setup.Ok Demo.P ∧ Legal {} Demo.schedule ∧
    (ratchetKeys Demo.P Demo.setup Demo.schedule).Nodup ∧ Demo.schedule.length < 2 ^ 32 - 1 ∧
    NoForgery Demo.P Demo.setup {} (World.init Demo.P Demo.setup) Demo.schedule := by
  refine ⟨Demo.setup_ok, ?_, by decide +kernel, by decide, ?_⟩
  · simp [Demo.schedule, Legal, Ev.Legal, Demo.rnd, Abs.step, Abs.expect, Abs.recvLevel, Abs.accept,
      Abs.sendLevel, count, ret, last5, pos]
  · simp only [Demo.schedule, NoForgery]
    simp [Abs.want, Abs.step, Abs.expect, Abs.recvLevel, Abs.accept,
      Abs.sendLevel, count, ret, last5, pos]

/-! ## C17: every published prekey is usable

False in general. `generatePreKeys` and `generateSignedPreKey` (prekeys.go:49-122) draw ids from 0 to
0xFFFFFF inclusive, but id 0 means "no one-time prekey" to the receiver and "no signed prekey" to the
parser. -/

namespace Demo
/-- As `setup`, but Bob's one-time prekey has id 0. -/
def setupPk0 : Setup :=
  { setup with
    pkId := 0
    responder := { bob0 with preKeys := fun i => if i = 0 then some bobOpk else none }
    bundle := bundle 0 }
/-- As `setup`, but Bob's signed prekey has id 0. -/
def setupSpk0 : Setup :=
  { setup with
    spkId := 0
    responder := { bob0 with signedPreKeys := fun i => if i = 0 then some bobSpk else none }
    bundle := { bundle 7 with signedPreKeyId := 0 } }
end Demo

/-- C17 refuted: with a one-time prekey of id 0 the build and the send succeed, and the first message
cannot be decrypted by the holder of the prekey. -/
theorem C17_prekey_zero_unusable :
    (buildSender Demo.P {} Demo.setupPk0.initiator Demo.setupPk0.rb Demo.setupPk0.rr "bob" 1
      Demo.setupPk0.bundle).res = .ok () ∧
    Demo.setupPk0.responder.preKeys 0 = some Demo.bobOpk ∧
    World.gots Demo.P Demo.setupPk0 (World.init Demo.P Demo.setupPk0) (firstContact [1] (Demo.rnd 83)) =
      [.sent, .received (.err .invalidMessage)] := by
  decide +kernel

/-- C17 refuted: with a signed prekey of id 0 the first message is refused as incomplete. -/
theorem C17_signed_prekey_zero_unusable :
    (buildSender Demo.P {} Demo.setupSpk0.initiator Demo.setupSpk0.rb Demo.setupSpk0.rr "bob" 1
      Demo.setupSpk0.bundle).res = .ok () ∧
    Demo.setupSpk0.responder.signedPreKeys 0 = some Demo.bobSpk ∧
    World.gots Demo.P Demo.setupSpk0 (World.init Demo.P Demo.setupSpk0) (firstContact [1] (Demo.rnd 83)) =
      [.sent, .received (.err .incompletePreKeyWhisper)] := by
  decide +kernel

/-- C17, for nonzero ids: whatever the ids of the signed and (if any) one-time prekey in the bundle, if
they are nonzero, the first message made from it is understood. -/
theorem C17_published_prekey_usable_partial (P : Prims) (S : Setup) (hS : S.Ok P) (pt : Bytes)
    (hpt : pt.length < 2 ^ 60) (rnd : Nat → Bytes) (hr : (rnd 0).length = 32)
    (hk : (ratchetKeys P S (firstContact pt rnd)).Nodup) :
    World.gots P S (World.init P S) (firstContact pt rnd) = [.sent, .received (.ok pt)] :=
  (C01_first_contact P S hS pt hpt rnd hr hk).2.1

/-! ## C18: a crash while handling the first message -/

/-- The responder's writes on receiving the bytes, cut after `k`. -/
def crashed (P : Prims) (S : Setup) (st : Store) (rnd : Nat → Bytes) (b : Bytes) (ty : MsgType)
    (k : Nat) : Store :=
  applyWrites st ((receive P rnd st S.nameI S.devI b ty).writes.take k)

/-- C18 refuted: the process dies after the one-time prekey was removed and before the session was
stored; the redelivered message cannot be decrypted and was never handed over. -/
theorem C18_crash_loses_first_message :
    (receive Demo.P (Demo.rnd 83) Demo.bob0 "alice" 1 Demo.a1.2 .prekey).res = .ok [1] ∧
    (receive Demo.P (Demo.rnd 83) Demo.bob0 "alice" 1 Demo.a1.2 .prekey).writes.length = 3 ∧
    (receive Demo.P (Demo.rnd 84)
      (crashed Demo.P Demo.setup Demo.bob0 (Demo.rnd 83) Demo.a1.2 .prekey 2) "alice" 1 Demo.a1.2
      .prekey).res = .err .preKeyNotFound := by
  decide +kernel

/-- C18 refuted a second way: the process dies after all writes but before the call returns; the
message is then refused as a duplicate although the application never saw it. -/
theorem C18_crash_after_store_loses_message :
    (receive Demo.P (Demo.rnd 84)
      (crashed Demo.P Demo.setup Demo.bob0 (Demo.rnd 83) Demo.a1.2 .prekey 3) "alice" 1 Demo.a1.2
      .prekey).res = .err .invalidMessage := by
  decide +kernel

/-- C18, for crash points before the prekey is removed; and, if the message uses no one-time prekey or
the last-resort prekey, for every crash point before the session is stored: redelivery is decrypted.
Missing: the two crash points above. -/
theorem C18_crash_atomic_partial (P : Prims) (S : Setup) (hS : S.Ok P) (pt : Bytes)
    (hpt : pt.length < 2 ^ 60) (rnd rnd' : Nat → Bytes) (hr : (rnd 0).length = 32)
    (hr' : (rnd' 0).length = 32)
    (hk : (ratchetKeys P S (firstContact pt rnd)).Nodup)
    (hk' : (ratchetKeys P S (firstContact pt rnd')).Nodup) (k : Nat) (b : Bytes) (ty : MsgType)
    (hsent : (worldRun P S (World.init P S) [.send false pt]).wire = [(false, b, ty)])
    (hcut : k < (receive P rnd S.responder S.nameI S.devI b ty).writes.length)
    (hcase : k ≤ 1 ∨ S.opk = none ∨ S.pkId = 0xFFFFFF) :
    (receive P rnd' (crashed P S S.responder rnd b ty k) S.nameI S.devI b ty).res = .ok pt := by
  have hne : S.spk.pub ≠ (newPair P S.rr).pub := by
    unfold ratchetKeys at hk
    rw [List.nodup_cons] at hk
    intro h
    exact hk.1 (by rw [h]; exact List.mem_cons_self)
  obtain ⟨_, hrel⟩ := init_rel hS hne
  have hl : Ev.Legal {} (.send false pt) := ⟨by simp, hpt⟩
  obtain ⟨_, G1, hrel1, hG1⟩ := step_send hS hrel false pt hl (by show 0 + 2 < u32; decide)
  have hG1' : G1 = initG P S := by
    rcases hG1 with h | ⟨_, _, _, h, _⟩
    · exact h
    · simp at h
  subst hG1'
  have hw1 : (World.step P S (World.init P S) (.send false pt)).1.wire = [(false, b, ty)] := hsent
  have hR : (World.step P S (World.init P S) (.send false pt)).1.R = S.responder := by
    simp only [World.step]
    split <;> rfl
  have hfresh : ∀ r : Nat → Bytes, (ratchetKeys P S (firstContact pt r)).Nodup →
      ∀ x ∈ initG P S, x.kp.pub ≠ (newPair P (r 0)).pub := by
    intro r hkr x hx he
    simp only [ratchetKeys, firstContact, List.filterMap_cons, List.filterMap_nil] at hkr
    simp only [initG, List.mem_cons, List.not_mem_nil, or_false] at hx
    simp only [List.nodup_cons, List.mem_cons, List.not_mem_nil, or_false, not_or] at hkr
    rcases hx with rfl | rfl
    · exact hkr.1.2 he
    · exact hkr.2.1 he
  have hst1 : Abs.step {} (.send false pt) = { log := [⟨1, 0, pt⟩] } := by
    simp [Abs.step, Abs.sendLevel, count]
  rw [hst1] at hrel1
  -- what the message is
  obtain ⟨x, hx, g, wm, hg, hx1, hm, hwp⟩ := (forall₂_get hrel1.log 0).2 ⟨1, 0, pt⟩ rfl
  rw [hw1] at hx
  simp only [List.getElem?_cons_zero, Option.some.injEq] at hx
  subst hx
  obtain ⟨hty, pm, q1, q2, q3, q4, q5, q6, q7, q8⟩ := hwp.2 rfl
  simp only at hty q1 hm
  subst hty
  have hstill := hrel1.still
  obtain ⟨f1, f2⟩ := hrel1.freshR rfl
  rw [hR] at hstill f1 f2
  have hidI := hS.idI.pub_len
  have hidR := hS.idR.pub_len
  have hfirst : ∀ r : Nat → Bytes, (r 0).length = 32 → (ratchetKeys P S (firstContact pt r)).Nodup →
      ∃ s', decryptState P (r 0) (firstState P S) wm = (s', .ok pt) := by
    intro r hr hkr
    obtain ⟨_, d2⟩ := deliver_new hrel1.chain
      (firstState_party hrel1.g0 [⟨1, 0, pt⟩] [] (by simp [count])) hidR hidI
      rfl 0 g hg (by decide) (by simp) (by simp [count, u32]) (by simp [count]) pt wm hm (r 0) hr
      (hfresh r hkr)
    obtain ⟨s', g', hd, _⟩ := d2 (by omega)
    exact ⟨s', hd⟩
  obtain ⟨s1, hd1⟩ := hfirst rnd hr hk
  obtain ⟨s2, hd2⟩ := hfirst rnd' hr' hk'
  obtain ⟨_, p2⟩ := receive_first P S hS.pkId.2 rnd S.responder hstill f1 f2 b pm q1 q2 q4 q5 q6 q7 q3
  rw [q8] at p2
  have hout := p2 s1 pt hd1
  have hcr : StillR S (crashed P S S.responder rnd b .prekey k) ∧
      (crashed P S S.responder rnd b .prekey k).sessions (sessName S.nameI S.devI) = .absent ∧
      ∀ q, S.opk = some q → (crashed P S S.responder rnd b .prekey k).preKeys S.pkId = some q := by
    unfold crashed
    rw [hout] at hcut ⊢
    simp only at hcut ⊢
    by_cases hlast : S.pkId = 0xFFFFFF
    · rw [if_neg (by simpa using hlast)] at hcut ⊢
      simp at hcut
      have : k = 0 ∨ k = 1 := by omega
      rcases this with rfl | rfl
      · exact ⟨hstill, f1, f2⟩
      · refine ⟨⟨?_, hstill.ident, hstill.reg, hstill.spk⟩, f1, f2⟩
        simp [applyWrites, applyWrite, isTrusted]
    · rw [if_pos (by simpa using hlast)] at hcut ⊢
      simp at hcut
      have : k = 0 ∨ k = 1 ∨ k = 2 := by omega
      rcases this with rfl | rfl | rfl
      · exact ⟨hstill, f1, f2⟩
      · refine ⟨⟨?_, hstill.ident, hstill.reg, hstill.spk⟩, f1, f2⟩
        simp [applyWrites, applyWrite, isTrusted]
      · refine ⟨⟨?_, hstill.ident, hstill.reg, hstill.spk⟩, f1, ?_⟩
        · simp [applyWrites, applyWrite, isTrusted]
        · intro q hq
          rcases hcase with h | h | h
          · omega
          · rw [h] at hq; simp at hq
          · exact absurd h hlast
  obtain ⟨_, p3⟩ := receive_first P S hS.pkId.2 rnd' _ hcr.1 hcr.2.1 hcr.2.2 b pm q1 q2 q4 q5 q6 q7 q3
  rw [q8] at p3
  rw [p3 s2 pt hd2]

/-- The hypotheses of `C18_crash_atomic_partial` are met. -/
example : (ratchetKeys Demo.P Demo.setup (firstContact [1] (Demo.rnd 83))).Nodup ∧
    (worldRun Demo.P Demo.setup (World.init Demo.P Demo.setup) [.send false [1]]).wire =
      [(false, Demo.a1.2, .prekey)] ∧
    1 < (receive Demo.P (Demo.rnd 83) Demo.setup.responder "alice" 1 Demo.a1.2 .prekey).writes.length := by
  decide +kernel

end Verif.Props
