import Verif.Proof.Network
import Verif.Props.Others
/-!
# C146: any number of clients and conversations

The statements are in `Spec/Network`.
-/
namespace Verif.Props
open Verif Verif.Keys Verif.Messages Verif.Session Verif.Api Verif.Names Verif.Conv Verif.Clients

/-- C146. Any number of clients, each of which talks with any number of others at the same time, and does other things
besides: in every conversation what one says is what the other is shown, once (C106), as if there were no others. All
those who write first to the same client are served: each has a one-time prekey of its own, or the last one, which is
never used up. -/
theorem C146_everyone {K C : Type} [DecidableEq K] [DecidableEq C] (P : Prims) (T : Plan K C) (hT : T.Ok)
    (hS : ∀ c, (T.S c).Ok P) (hA : ∀ c, Addresses (T.S c)) (n : Net K C) (hn : ∀ c, Peers (T.S c) (n.pair T c))
    (evs : List (NEv K C)) (hr : NEv.AllReal P T (fun _ => {}) n evs)
    (hk : ∀ c, ((T.S c).spk.pub :: (newPair P (T.S c).rr).pub :: keysOf P (NEv.of c evs)).Nodup)
    (hl : ∀ c, (NEv.of c evs).length < 2 ^ 32 - 1) :
    List.Forall₂ CAgree (NEv.wants T (fun _ => {}) evs) (Net.outs P T n evs) := by
  have hne : ∀ c, (T.S c).spk.pub ≠ (newPair P (T.S c).rr).pub := by
    intro c h
    have := hk c
    rw [List.nodup_cons] at this
    exact this.1 (by rw [h]; exact List.mem_cons_self)
  refine net_run hT hS hA hne evs _ n ?_ hr
  intro c
  refine ⟨(by intro d hd; cases hd), ?_, initG P (T.S c), World.init P (T.S c), begin_rel (hS c) (hne c) (hn c), hk c⟩
  show 0 + (NEv.of c evs).length + 1 < u32
  have := hl c
  unfold u32
  omega

/-! Alice and Carol write to Bob, who answers both; in between Alice writes to Dave. Carol's prekey is the last one. -/
namespace Demo

def carol0 : Store := { alice0 with identity := some (pair 33) }

def setupC : Setup :=
  { setup with idI := pair 33, nameI := "carol", rb := List.replicate 32 61, rr := List.replicate 32 72
               pkId := 0xFFFFFF, initiator := carol0, bundle := bundle 0xFFFFFF }

/-- Alice is 0, Bob 1, Carol 2; of the conversations, `false` is Alice's with Bob and `true` Carol's with Bob. -/
def plan : Plan (Fin 3) Bool :=
  { name := fun k => if k = 0 then "alice" else if k = 1 then "bob" else "carol"
    ini := fun c => if c then 2 else 0
    res := fun _ => 1
    S := fun c => if c then setupC else setup }

def net0 : Net (Fin 3) Bool :=
  { cl := fun k => if k = 0 then pair0.I else if k = 1 then pair0.R else ⟨⟨carol0, fun _ => none, []⟩, fun _ => none⟩
    wire := fun _ => [] }

def ask : Send.OutMsg := { destination := "bob", msg := ascii "ping" }
def reply2 : Send.OutMsg := { destination := "carol", msg := ascii "pong" }

def toDave : Send.OutMsg := { destination := "dave", msg := ascii "hey" }

def x1 : NEv (Fin 3) Bool := .talk false (.send false { sendExt with self := "alice" } hello)
def m1 : Net (Fin 3) Bool := (net0.step P plan x1).1
def x2 : NEv (Fin 3) Bool := .talk true (.send false { sendWith 0xFFFFFF with self := "carol" } ask)
def m2 : Net (Fin 3) Bool := (m1.step P plan x2).1
def x3 : NEv (Fin 3) Bool := .talk true (.deliver 0 (hearExt 83) 100 (envOf (m2.pair plan true) 0 "carol") [] none)
def m3 : Net (Fin 3) Bool := (m2.step P plan x3).1
def x4 : NEv (Fin 3) Bool := .does 0 (.send sendExt 2 toDave)
def m4 : Net (Fin 3) Bool := (m3.step P plan x4).1
def x5 : NEv (Fin 3) Bool := .talk false (.deliver 0 (hearExt 84) 101 (envOf (m4.pair plan false) 0 "alice") [[42, 43]] none)
def m5 : Net (Fin 3) Bool := (m4.step P plan x5).1
def x6 : NEv (Fin 3) Bool := .talk true (.send true { sendExt with self := "bob" } reply2)
def m6 : Net (Fin 3) Bool := (m5.step P plan x6).1
def x7 : NEv (Fin 3) Bool := .talk true (.deliver 1 (hearExt 85) 102 (envOf (m6.pair plan true) 1 "bob") [] none)
def m7 : Net (Fin 3) Bool := (m6.step P plan x7).1
def x8 : NEv (Fin 3) Bool := .talk false (.send true { sendExt with self := "bob" } answer)

def party : List (NEv (Fin 3) Bool) := [x1, x2, x3, x4, x5, x6, x7, x8]

def toldOrSent : COut → List Receive.Ev × Bool
  | .told evs .waiting => (evs, false)
  | .sent (some (.ok _)) => ([], true)
  | _ => ([], false)

end Demo

open Demo in
/-- What happens in it. -/
example : (Net.outs P plan net0 party).map toldOrSent =
    [([], true), ([], true),
     ([.enter .data, .onMessage { helloShown with source := "carol", sourceUuid := "carol", message := ascii "ping"
                                                  attachments := [] }, .ack 100], false),
     ([], false),
     ([.enter .data, .onMessage helloShown, .ack 101], false),
     ([], true),
     ([.enter .data, .onMessage { helloShown with source := "bob", sourceUuid := "bob", message := ascii "pong"
                                                  attachments := [] }, .ack 102], false),
     ([], true)] := by
  decide +kernel

namespace Demo

theorem setupC_ok : setupC.Ok P where
  idI := pair_valid _
  idR := pair_valid _
  spk := pair_valid _
  opk := by intro k hk; injection hk with hk; subst hk; exact pair_valid _
  rb := by decide
  rr := by decide
  spkId := by decide
  pkId := ⟨by decide, by simp [setupC, setup]⟩
  regI := by decide
  regR := by decide
  bundleId := rfl
  bundleSpk := ⟨rfl, rfl⟩
  bundleOpk := ⟨rfl, rfl⟩
  bundleSig := by decide +kernel
  iIdent := rfl
  iReg := rfl
  iTrust := by decide
  iNone := rfl
  rIdent := rfl
  rReg := rfl
  rTrust := by decide
  rNone := rfl
  rSpk := rfl
  rOpk := by intro k hk; injection hk with hk; subst hk; rfl

theorem plan_ok : plan.Ok where
  own := by decide
  plain := by decide
  nameI := by intro c; cases c <;> rfl
  nameR := by intro c; cases c <;> rfl
  two := by decide
  once := by decide
  keys := by
    intro c c' h _ _
    cases c <;> cases c'
    · exact absurd rfl h
    · left; decide
    · right; rfl
    · exact absurd rfl h

theorem addressesC : Addresses setupC where
  nameI := by unfold Content.OneByte; decide
  nameR := by unfold Content.OneByte; decide
  devI := by decide
  devR := by decide

theorem net_peers (c : Bool) : Peers (plan.S c) (net0.pair plan c) := by
  cases c
  · exact ⟨by decide, by decide, rfl, rfl, ⟨by decide, by decide⟩, ⟨by decide, by decide⟩, rfl, rfl, rfl⟩
  · exact ⟨by decide, by decide, rfl, rfl, ⟨by decide, by decide⟩, ⟨by decide, by decide⟩, rfl, rfl, rfl⟩

theorem bundle_of_last : Send.makeBundle (replyWith 0xFFFFFF) = .ok (1, bundle 0xFFFFFF) := by
  have h1 : Encoding.decodeKey (Encoding.encodeKey Demo.bobOpk.pub) = .ok Demo.bobOpk.pub :=
    Encoding.C41_key_round_trip _ (by decide +kernel)
  have h2 : Encoding.decodeKey (Encoding.encodeKey Demo.bobSpk.pub) = .ok Demo.bobSpk.pub :=
    Encoding.C41_key_round_trip _ (by decide +kernel)
  have h3 : Encoding.decodeKey (Encoding.encodeKey Demo.bobId.pub) = .ok Demo.bobId.pub :=
    Encoding.C41_key_round_trip _ (by decide +kernel)
  have h4 : Encoding.decodeSignature (Encoding.b64EncodeNoPad (Demo.toySig Demo.bobId (ser Demo.bobSpk.pub)))
      = .ok (Demo.toySig Demo.bobId (ser Demo.bobSpk.pub)) := by
    exact Encoding.C41_signature_round_trip _ (by decide +kernel)
  simp [Send.makeBundle, replyWith, Send.reply, Send.decodePreKey, h1, h2, h3, h4, Demo.bundle]

/-- `deliverReal` for any conversation between first devices. -/
theorem deliverAny (S : Setup) (h1 : S.devI = 1) (h2 : S.devR = 1) (r : UInt8) (s : Sight) (w : Pair) (i : Nat) (who : Bool)
    (j : Send.JMsg) (atts : List Bytes) (d : Send.WireData × Bytes) (hw : w.wire[i]? = some (who, j))
    (hb : (envOf w i (senderName S who)).length < 2 ^ 64)
    (hc : (Encoding.b64Quanta j.content).isSome) (ht : j.type < u32)
    (hd : Files.decryptReceivedMessage P (List.replicate 52 1) (envOf w i (senderName S who)) =
      .ok (envOf w i (senderName S who)))
    (hs : s.said[i]? = some d) (hf : d.1.flags ≠ 1)
    (ha : List.Forall₂ (Stored P (hearExt r)) (Content.seen d.1).attachments atts) :
    DeliverReal P S s w i (hearExt r) (envOf w i (senderName S who)) atts none ∧ s.GoesOn i := by
  refine ⟨?_, by intro d' h; rw [hs] at h; cases h; exact hf⟩
  obtain ⟨c, hc⟩ := Option.isSome_iff_exists.mp hc
  have he : envOf w i (senderName S who) =
      envelopeBytes j.type (senderDev S who) 5 6 (senderName S who) c := by
    have : senderDev S who = 1 := by cases who; exact h1; exact h2
    rw [this]
    simp [envOf, hw, hc]
  refine { env := rfl, rnd := ⟨by simp [hearExt, rnd], by simp [hearExt, rnd]⟩, cb := rfl, contacts := rfl
           parseEnvelope := rfl, parseContent := rfl, carried := ?_, stored := ?_, group := ?_ }
  · intro who' j' h
    rw [hw] at h
    cases h
    refine ⟨?_, 5, 6, c, hc, ht, by decide, by decide, ?_, ?_⟩
    · intro h0
      rw [h0] at hd
      cases hd
    · rw [← he]; exact hb
    · rw [← he]; exact hd
  · intro d' h
    rw [hs] at h
    cases h
    exact ha
  · intro d' _ src
    rfl

theorem fits_ask : Content.Fits (Send.createMessage 1000 [1, 2, 3] ask) where
  timestamp := by decide
  flags := by decide
  expireTimer := by decide
  atts := by intro a ha; cases ha
  group := by intro g hg; cases hg
  size := by decide +kernel

theorem fits_reply2 : Content.Fits (Send.createMessage 1000 [1, 2, 3] reply2) where
  timestamp := by decide
  flags := by decide
  expireTimer := by decide
  atts := by intro a ha; cases ha
  group := by intro g hg; cases hg
  size := by decide +kernel

def v0 : Bool → Sight := fun _ => {}
def v1 : Bool → Sight := x1.sight v0
def v2 : Bool → Sight := x2.sight v1
def v3 : Bool → Sight := x3.sight v2
def v5 : Bool → Sight := x5.sight v3
def v6 : Bool → Sight := x6.sight v5
def v7 : Bool → Sight := x7.sight v6

def jAsk : Send.JMsg := (((m2.wire true)[0]?).map Prod.snd).getD ⟨0, 0, 0, []⟩
def jHello : Send.JMsg := (((m4.wire false)[0]?).map Prod.snd).getD ⟨0, 0, 0, []⟩
def jPong : Send.JMsg := (((m6.wire true)[1]?).map Prod.snd).getD ⟨0, 0, 0, []⟩
def dAsk : Send.WireData := Send.createMessage 1000 [1, 2, 3] ask
def dPong : Send.WireData := Send.createMessage 1000 [1, 2, 3] reply2

theorem real1 : x1.Real P plan v0 net0 := by
  refine ⟨?_, trivial, rfl⟩
  exact { dest := rfl, marshal := rfl, fits := fits_hello, env := fun _ => rfl, srv := fun _ => ⟨false, rfl⟩
          first := fun _ _ _ => ⟨rfl, rfl, _, rfl, bundle_of_reply⟩, session := by intro h; cases h
          others := only_one rfl, self := by decide, reaches := Or.inl ⟨rfl, fun _ => rfl⟩ }

set_option maxRecDepth 100000 in
theorem real2 : x2.Real P plan v1 m1 := by
  have h1 : ((m1.pair plan true).client false).devs ask.destination = [1] := by decide +kernel
  refine ⟨?_, trivial, rfl⟩
  exact { dest := rfl, marshal := rfl, fits := fits_ask, env := fun _ => rfl, srv := fun _ => ⟨false, rfl⟩
          first := fun _ _ _ => ⟨rfl, rfl, _, rfl, bundle_of_last⟩, session := by intro h; cases h
          others := only_one h1, self := by decide, reaches := Or.inl ⟨h1, fun _ => rfl⟩ }

set_option maxRecDepth 100000 in
theorem real3 : x3.Real P plan v2 m2 := by
  refine ⟨?_, ?_, trivial⟩
  · exact deliverAny setupC rfl rfl 83 (v2 true) (m2.pair plan true) 0 false jAsk [] (dAsk, Content.marshalData dAsk)
      (by decide +kernel) (by decide +kernel) (by decide +kernel) (by decide +kernel) (by decide +kernel) rfl (by decide)
      List.Forall₂.nil
  · intro h
    exact absurd h (by decide +kernel)

theorem real4 : x4.Real P plan v3 m3 := by
  intro c who hk
  cases c
  · cases who
    · show ¬ AddressOf "dave" "bob" ∧ ¬ AddressOf "self" "bob"
      unfold AddressOf
      decide
    · cases hk
  · cases who
    · cases hk
    · cases hk

set_option maxRecDepth 100000 in
theorem real5 : x5.Real P plan v3 m4 := by
  refine ⟨?_, ?_, trivial⟩
  · exact deliverAny setup rfl rfl 84 (v3 false) (m4.pair plan false) 0 false jHello [[42, 43]] (d0, Content.marshalData d0)
      (by decide +kernel) (by decide +kernel) (by decide +kernel) (by decide +kernel) (by decide +kernel) rfl (by decide)
      (stored_hello _)
  · intro h
    exact absurd h (by decide +kernel)

set_option maxRecDepth 100000 in
theorem real6 : x6.Real P plan v5 m5 := by
  have h1 : ((m5.pair plan true).client true).devs reply2.destination = [1] := by decide +kernel
  have h2 : (v5 true).abs.lvR ≠ 0 := by decide +kernel
  refine ⟨?_, trivial, rfl⟩
  exact { dest := rfl, marshal := rfl, fits := fits_reply2, env := fun _ => rfl, srv := fun _ => ⟨false, rfl⟩
          first := (fun h => by cases h), session := fun _ => h2
          others := only_one h1, self := by decide, reaches := Or.inl ⟨h1, fun _ => rfl⟩ }

set_option maxRecDepth 100000 in
theorem real7 : x7.Real P plan v6 m6 := by
  refine ⟨?_, ?_, trivial⟩
  · exact deliverAny setupC rfl rfl 85 (v6 true) (m6.pair plan true) 1 true jPong [] (dPong, Content.marshalData dPong)
      (by decide +kernel) (by decide +kernel) (by decide +kernel) (by decide +kernel) (by decide +kernel) rfl (by decide)
      List.Forall₂.nil
  · intro h
    exact absurd h (by decide +kernel)

set_option maxRecDepth 100000 in
theorem real8 : x8.Real P plan v7 m7 := by
  have h1 : ((m7.pair plan false).client true).devs answer.destination = [1] := by decide +kernel
  have h2 : (v7 false).abs.lvR ≠ 0 := by decide +kernel
  refine ⟨?_, trivial, rfl⟩
  exact { dest := rfl, marshal := rfl, fits := fits_answer, env := fun _ => rfl, srv := fun _ => ⟨false, rfl⟩
          first := (fun h => by cases h), session := fun _ => h2
          others := only_one h1, self := by decide, reaches := Or.inl ⟨h1, fun _ => rfl⟩ }

end Demo

/-- The hypotheses of C146 hold of it. -/
example : List.Forall₂ CAgree (NEv.wants Demo.plan Demo.v0 Demo.party) (Net.outs Demo.P Demo.plan Demo.net0 Demo.party) :=
  C146_everyone Demo.P Demo.plan Demo.plan_ok
    (fun c => match c with | false => Demo.setup_ok | true => Demo.setupC_ok)
    (fun c => match c with | false => Demo.addresses | true => Demo.addressesC) Demo.net0 Demo.net_peers Demo.party
    ⟨Demo.real1, Demo.real2, Demo.real3, Demo.real4, Demo.real5, Demo.real6, Demo.real7, Demo.real8, trivial⟩
    (by decide +kernel) (by decide +kernel)

/-! If Alice and Carol are given the same one-time prekey (here 7), the second message to arrive cannot be read: the
prekey is gone. -/
namespace Demo

def y2 : NEv (Fin 3) Bool := .talk true (.send false { sendWith 7 with self := "carol" } ask)
def q2 : Net (Fin 3) Bool := (m1.step P plan y2).1
def y3 : NEv (Fin 3) Bool := .talk true (.deliver 0 (hearExt 83) 100 (envOf (q2.pair plan true) 0 "carol") [] none)
def q3 : Net (Fin 3) Bool := (q2.step P plan y3).1
def y4 : NEv (Fin 3) Bool := .talk false (.deliver 0 (hearExt 84) 101 (envOf (q3.pair plan false) 0 "alice") [[42, 43]] none)

end Demo

open Demo in
/-- Why `Plan.Ok.keys` is needed. -/
theorem C146_shared_prekey : (Net.outs P plan net0 [x1, y2, y3, y4]).map toldOrSent =
    [([], true), ([], true),
     ([.enter .data, .onMessage { helloShown with source := "carol", sourceUuid := "carol", message := ascii "ping"
                                                  attachments := [] }, .ack 100], false),
     ([.ack 101], false)] := by
  decide +kernel

end Verif.Props
