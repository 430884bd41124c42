import Verif.Proof.Protocol
import Verif.Props.Theft
/-!
# C159: the messages are those of the published protocol

Full claim: what two clients send to each other in a conversation is, byte for byte, what the public documents
prescribe, so that other implementations can take the place of either.
-/
namespace Verif.Props
open Verif Verif.Keys Verif.Messages Verif.Session Verif.Api Verif.Names Verif.Conv Verif.Protocol

theorem Scheduled.sent {P : Prims} {S : Setup} {evs : List Ev} (h : Scheduled P S evs) :
    ∃ G, Rel P S G (absRun evs) (worldRun P S (World.init P S) evs) ∧
      G.map Epoch.kp = S.spk :: newPair P S.rr :: turns P {} evs ∧
      List.Forall₂ (Sent P S G (absRun evs).log) (absRun evs).log (worldRun P S (World.init P S) evs).wire := by
  have hne : S.spk.pub ≠ (newPair P S.rr).pub := by
    have hk := h.keys
    unfold ratchetKeys at hk
    rw [List.nodup_cons] at hk
    intro h
    exact hk.1 (by rw [h]; exact List.mem_cons_self)
  refine simulate_wire h.setup evs (initG P S) {} (World.init P S) (init_rel h.setup hne).2 .nil h.legal h.keys ?_
    h.noForgery
  have := h.short
  show 0 + evs.length + 1 < u32
  unfold u32
  omega

theorem sent_transmitted {P : Prims} {S : Setup} (hS : S.Ok P) {G : List Epoch} {a : Abs} {w : World} {ks : List KeyPair}
    (hr : Rel P S G a w) (hk : G.map Epoch.kp = S.spk :: ks) {m : AMsg} {x : Bool × Bytes × MsgType}
    {log : List AMsg} (h : Sent P S G log m x) (hm : 1 ≤ m.epoch) (ho : m.epoch = 1 → S.opk ≠ none) : Transmitted P S log ks m x := by
  obtain ⟨g, prev, hp, hg, h1, h2, h3⟩ := h
  have hG : ∃ T, G = epoch0 P S :: T := by
    have := hr.g0
    cases G with
    | nil => simp at this
    | cons a T => simp only [List.getElem?_cons_zero, Option.some.injEq] at this; exact ⟨T, by rw [this]⟩
  obtain ⟨T, rfl⟩ := hG
  have hT : T.map Epoch.kp = ks := by
    simp only [List.map_cons, List.cons.injEq] at hk
    exact hk.2
  have hroot : (epoch0 P S).root = root0 P S := by
    have := keyMaterial_sender hS
    show ((P.hkdf (keyMaterial P S) [] (ascii "WhisperText") 64)).take 32 = _
    unfold root0 secret
    rw [← this]
    cases S.opk <;> rfl
  have hch := chains_eq P T (epoch0 P S) hr.chain.link
  rw [hroot, hT] at hch
  obtain ⟨e, he⟩ : ∃ e, m.epoch = e + 1 := ⟨m.epoch - 1, by omega⟩
  have hge : T[e]? = some g := by rw [he] at hg; simpa using hg
  refine ⟨g.kp, g.ck.key, prev, by rw [previous_eq]; exact hp, ?_, ?_, h1, h2, fun h0 => ?_⟩
  · rw [he, ← hT]
    simp [hge]
  · rw [he]
    show (chains P (root0 P S) S.spk ks)[e]? = _
    have : chains P (root0 P S) S.spk ks = T.map (fun g => g.ck.key) := hch
    rw [this]
    simp [hge]
  · rw [h3 h0]
    have hn := ho h0
    unfold envelopeC envelope
    cases hopk : S.opk with
    | none => exact absurd hopk hn
    | some k => rfl

/-- C159, in part: in every schedule of sends and deliveries of two clients that start from a published bundle, each
message is transmitted exactly as the protocol prescribes. Missing: the first messages if the bundle has no one-time
prekey (`C159_absent_prekey_named`). -/
theorem C159_as_prescribed_partial (P : Prims) (S : Setup) (evs : List Ev) (h : Scheduled P S evs) :
    List.Forall₂ (fun m x => (m.epoch = 1 → S.opk ≠ none) →
        Transmitted P S (absRun evs).log (newPair P S.rr :: turns P {} evs) m x)
      (absRun evs).log (worldRun P S (World.init P S) evs).wire := by
  obtain ⟨G, hr, hk, hs⟩ := h.sent
  refine (List.forall₂_iff_get.mpr ⟨hs.length_eq, fun i hi hj => ?_⟩)
  intro ho
  exact sent_transmitted h.setup hr hk (hs.get hi hj)
    (hr.logE _ (List.get_mem _ _)).1 ho

/-- The hypotheses are met by the schedule of C02: three first messages, an answer and a message in the third epoch, with
one-time prekey; three ratchet key pairs are taken into use by reading. -/
example : Scheduled Demo.P Demo.setup Demo.schedule ∧ Demo.setup.opk ≠ none ∧
    (absRun Demo.schedule).log.map AMsg.epoch = [1, 1, 1, 2, 3] ∧ (turns Demo.P {} Demo.schedule).length = 3 ∧
    (absRun Demo.schedule).log.map (fun m => previous (absRun Demo.schedule).log m.epoch) = [0, 0, 0, 0, 2] := by
  refine ⟨⟨Demo.setup_ok, ?_, by decide +kernel, by decide, ?_⟩, by decide, by decide +kernel, by decide +kernel,
    by decide +kernel⟩
  · simp [Demo.schedule, Legal, Ev.Legal, Demo.rnd, Abs.step, Abs.expect, Abs.recvLevel, Abs.accept,
      Abs.sendLevel, count, ret, last5, pos]
  · simp only [Demo.schedule, NoForgery]
    simp [Abs.want, Abs.step, Abs.expect, Abs.recvLevel, Abs.accept,
      Abs.sendLevel, count, ret, last5, pos]

/-- C159 fails without a one-time prekey: the first messages name a one-time prekey, number 0, instead of none
(axolotl/messages.go:188-195 sets the field in any case). An implementation that follows the protocol looks for that
prekey. -/
theorem C159_absent_prekey_named (P : Prims) (S : Setup) (evs : List Ev) (h : Scheduled P S evs) (hn : S.opk = none) :
    List.Forall₂ (fun m x => m.epoch = 1 →
        (∃ rest, x.2.1 = 0x33 :: (number 1 0 ++ rest)) ∧ ∀ ks, ¬ Transmitted P S (absRun evs).log ks m x)
      (absRun evs).log (worldRun P S (World.init P S) evs).wire := by
  obtain ⟨G, hr, hk, hs⟩ := h.sent
  refine hs.imp (fun m x hx he => ?_)
  obtain ⟨g, prev, hp, hg, h1, h2, h3⟩ := hx
  have hid : S.pkId = 0 := h.setup.pkId.2.mpr hn
  rw [h3 he]
  refine ⟨⟨_, by simp only [envelopeC, hid, List.append_assoc]; rfl⟩, fun ks ht => ?_⟩
  obtain ⟨_, _, _, _, _, _, _, _, h6⟩ := ht
  have := h6 he
  simp only [envelopeC, envelope, hn, Prod.mk.injEq, and_true, true_and, List.cons.injEq, number, bytes,
    List.nil_append, List.cons_append, List.append_assoc] at this
  have h8 : (UInt8.ofNat (8 * 1)) = UInt8.ofNat (8 * 2 + 2) := this.1
  exact absurd h8 (by decide)

namespace Demo
/-- The same parties, if the server has no one-time prekey left. -/
def setupBare : Setup :=
  { setup with opk := none, pkId := 0, bundle := { bundle 7 with preKeyId := 0, preKey := none } }

theorem setupBare_ok : setupBare.Ok P where
  idI := pair_valid _
  idR := pair_valid _
  spk := pair_valid _
  opk := by intro k hk; cases hk
  rb := by decide
  rr := by decide
  spkId := by decide
  pkId := ⟨by decide, by simp [setupBare]⟩
  regI := by decide
  regR := by decide
  bundleId := rfl
  bundleSpk := ⟨rfl, rfl⟩
  bundleOpk := ⟨rfl, rfl⟩
  bundleSig := by decide +kernel
  iIdent := rfl
  iReg := rfl
  iTrust := by decide
  iNone := rfl
  rIdent := rfl
  rReg := rfl
  rTrust := by decide
  rNone := rfl
  rSpk := rfl
  rOpk := by intro k hk; cases hk
end Demo

/-- The hypotheses are met by a single message. -/
example : Scheduled Demo.P Demo.setupBare [.send false [1]] ∧ Demo.setupBare.opk = none ∧
    (absRun [.send false [1]]).log.map AMsg.epoch = [1] := by
  refine ⟨⟨Demo.setupBare_ok, ?_, by decide +kernel, by decide, ?_⟩, rfl, by decide +kernel⟩
  · simp [Legal, Ev.Legal]
  · simp [NoForgery, Abs.want]

end Verif.Props
