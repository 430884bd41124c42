import Verif.Proof.Theft
import Verif.Props.Conversation
import Verif.Props.Replay
/-!
# Property C152: what was sent or read cannot be opened with the session that is stored afterwards
-/
namespace Verif.Props
open Verif Verif.Keys Verif.Messages Verif.Session Verif.Api Verif.Names Verif.Conv Verif.Theft

/-- What the C152 theorems assume of a schedule: what C02 assumes. -/
structure Scheduled (P : Prims) (S : Setup) (evs : List Ev) : Prop where
  setup : S.Ok P
  legal : Legal {} evs
  keys : (ratchetKeys P S evs).Nodup
  short : evs.length < 2 ^ 32 - 1
  noForgery : NoForgery P S {} (World.init P S) evs

theorem Scheduled.rel {P : Prims} {S : Setup} {evs : List Ev} (h : Scheduled P S evs) :
    ∃ G, Rel P S G (absRun evs) (worldRun P S (World.init P S) evs) := by
  have hne : S.spk.pub ≠ (newPair P S.rr).pub := by
    have hk := h.keys
    unfold ratchetKeys at hk
    rw [List.nodup_cons] at hk
    intro h
    exact hk.1 (by rw [h]; exact List.mem_cons_self)
  refine simulate_rel h.setup evs (initG P S) {} (World.init P S) (init_rel h.setup hne).2 h.legal h.keys ?_
    h.noForgery
  have := h.short
  show 0 + evs.length + 1 < u32
  unfold u32
  omega

/-- C152, in part: after every schedule of sends and deliveries of two clients that start from a published bundle,
there is a chain key for each epoch such that the bytes of every message sent open with the keys that belong to its
epoch and number, and the keys that can be computed from a stored session are keys of messages not yet sent, not yet
read, or of a ratchet key not yet met. The exception is the session of who began the conversation: until their fifth
turn (epoch 11) it also gives the keys of epoch 1. Missing: that exception
(`C152_first_messages_stay_readable`), and sessions that are archived and promoted
(`C152_read_message_stays_readable`). -/
theorem C152_stored_keys_partial (P : Prims) (S : Setup) (evs : List Ev) (h : Scheduled P S evs) :
    ∃ C : Nat → Bytes,
      List.Forall₂ (fun m x => OpensTo P (keyOf P (C m.epoch) m.ctr) x.2.1 x.2.2 m.pt)
        (absRun evs).log (worldRun P S (World.init P S) evs).wire ∧
      (∀ r K, (worldRun P S (World.init P S) evs).R.sessions (sessName S.nameI S.devI) = .good r → Has P r K →
        ∃ sd, r.cur.sender = some sd ∧
          Future P C (absRun evs) (absRun evs).lvR r.cur.rootKey sd.priv K) ∧
      (∀ r K, (worldRun P S (World.init P S) evs).I.sessions (sessName S.nameR S.devR) = .good r → Has P r K →
        ∃ sd, r.cur.sender = some sd ∧
          (Future P C (absRun evs) (absRun evs).lvI r.cur.rootKey sd.priv K ∨
            (absRun evs).lvI < 11 ∧ ∃ j, K = keyOf P (C 1) j)) := by
  obtain ⟨G, hr⟩ := h.rel
  refine ⟨firstKey G, hr.log.imp (fun _ _ hx => opens_msg hx), ?_, ?_⟩
  · intro r K hs hK
    by_cases h0 : (absRun evs).lvR = 0
    · rw [(hr.freshR h0).1] at hs
      cases hs
    · obtain ⟨r', hr', hat⟩ := hr.sessR h0
      rw [hr'] at hs
      injection hs with hs
      subst hs
      obtain ⟨sd, h1, h2⟩ := has_future hat K hK
      refine ⟨sd, h1, ?_⟩
      rcases h2 with h2 | ⟨hz, _⟩
      · exact h2
      · have := ret_lt _ _ hz
        have := hr.parR
        omega
  · intro r K hs hK
    obtain ⟨r', hr', hat⟩ := hr.sessI
    rw [hr'] at hs
    injection hs with hs
    subst hs
    obtain ⟨sd, h1, h2⟩ := has_future hat K hK
    refine ⟨sd, h1, ?_⟩
    rcases h2 with h2 | ⟨hz, hj⟩
    · exact Or.inl h2
    · exact Or.inr ⟨(zero_mem_ret _ hr.parI).mp hz, hj⟩

/-- C152 fails for who begins a conversation: `initializeSenderSession` (axolotl/ratchet.go:201) stores the first
sending chain key a second time, as a receiving chain for the signed prekey, where nothing advances it. After every
schedule, as long as that chain is among the five that are kept (fewer than eleven epochs), the session stored by the
initiator opens every message they sent before the first answer, whether or not it has been delivered. -/
theorem C152_first_messages_stay_readable (P : Prims) (S : Setup) (evs : List Ev) (h : Scheduled P S evs)
    (hl : (absRun evs).lvI < 11) :
    ∃ r, (worldRun P S (World.init P S) evs).I.sessions (sessName S.nameR S.devR) = .good r ∧
      ∀ (i : Nat) m x, (absRun evs).log[i]? = some m → (worldRun P S (World.init P S) evs).wire[i]? = some x →
        m.epoch = 1 → CanRead P r x.2.1 x.2.2 m.pt := by
  obtain ⟨G, hr⟩ := h.rel
  obtain ⟨r, hs, hat⟩ := hr.sessI
  refine ⟨r, hs, ?_⟩
  intro i m x hm hx he
  obtain ⟨x', hx', hok⟩ := (forall₂_get hr.log i).2 m hm
  rw [hx'] at hx
  injection hx with hx
  subst hx
  have hop := opens_msg hok
  obtain ⟨c, hc, g, hg, _, _, h0⟩ := forall₂_left hat.party.recv 0 ((zero_mem_ret _ hr.parI).mpr hl)
  obtain ⟨_, g1, hg1, hck⟩ := h0 rfl
  refine ⟨_, ?_, hop⟩
  rw [he, firstKey_of hg1, ← hck]
  exact Has.receiving r.cur c m.ctr List.mem_cons_self hc

/-- The hypotheses are met by the schedule of C02, in which the initiator sends three messages before the first
answer, all of which are read; the messages are in the log and the initiator is in epoch 3. -/
example : Scheduled Demo.P Demo.setup Demo.schedule ∧ (absRun Demo.schedule).lvI = 3 ∧
    ((absRun Demo.schedule).log.filter (fun m => m.epoch = 1)).map (fun m => m.pt) = [[1], [2], [3]] ∧
    (∀ c, c < 3 → (1, c) ∈ (absRun Demo.schedule).acc) := by
  refine ⟨⟨Demo.setup_ok, ?_, by decide +kernel, by decide, ?_⟩, by decide +kernel, by decide +kernel,
    by decide +kernel⟩
  · simp [Demo.schedule, Legal, Ev.Legal, Demo.rnd, Abs.step, Abs.expect, Abs.recvLevel, Abs.accept,
      Abs.sendLevel, count, ret, last5, pos]
  · simp only [Demo.schedule, NoForgery]
    simp [Abs.want, Abs.step, Abs.expect, Abs.recvLevel, Abs.accept,
      Abs.sendLevel, count, ret, last5, pos]

/-! ## The stale copy of a promoted session -/

namespace Demo
/-- The session Bob has stored after reading Alice's third message. -/
def b4Record : SRecord := match b4.1.sessions (sessName "alice" 1) with | .good r => r | _ => {}
end Demo

/-- C152 fails for a session that was archived and promoted again (axolotl/session.go:310-316, 612-621): the copy among the
archived ones is not advanced, and opens a message that has been read. -/
theorem C152_read_message_stays_readable :
    Demo.b4.2 = .ok [3] ∧
    ∃ r, Demo.b4.1.sessions (sessName "alice" 1) = .good r ∧ CanRead Demo.P r Demo.a3.2 .prekey [3] := by
  refine ⟨by decide +kernel, Demo.b4Record, by decide +kernel, ?_⟩
  have h : ∃ s ∈ Demo.b4Record.prev, ∃ c ∈ s.recv, ∃ n ∈ [0, 1, 2],
      opened Demo.P (keyOf Demo.P c.ck.key n) Demo.a3.2 .prekey = some (.ok [3]) := by decide +kernel
  obtain ⟨s, hs, c, hc, n, _, ho⟩ := h
  exact ⟨_, Has.receiving s c n (List.mem_cons_of_mem _ hs) hc, ho⟩

end Verif.Props
