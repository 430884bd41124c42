import Verif.Props.Reset
/-!
# C120, C121: a conversation among others

Two clients talk (C106) while each of them also sends to others, ends sessions with others, and receives messages of
others. The statements are in `Spec/Clients`: `FEv` (schedules with such acts), `Elsewhere`, `Act.Apart`.
-/
namespace Verif.Props
open Verif Verif.Keys Verif.Messages Verif.Session Verif.Api Verif.Names Verif.Conv Verif.Clients

/-! ## C120 -/

/-- One act with others: of the conversation nothing changes. -/
theorem C120_one_act (P : Prims) (S : Setup) (hS : S.Ok P) (w : Pair) (who : Bool) (a : Act)
    (hk : senderDev S (!who) ∈ (w.client who).devs (senderName S (!who)) ∧
      ((w.client who).devs (senderName S (!who))).Nodup)
    (ha : a.Apart P (senderName S (!who)) (senderDev S (!who)) (senderKey S (!who))
      (if who then some S.pkId else none) (w.client who)) :
    OtherOk S w who (a.run P (w.client who)) := by
  obtain ⟨⟨h1, h2, h3⟩, h4⟩ := spares_act _ _ _ _ P (w.client who) a ha
  refine ⟨h1, ?_, ?_⟩
  · simp only [Client.devs, h4]
    exact hk
  · rintro rfl
    refine ⟨fun k hk => h3 S.pkId rfl ?_, congrFun h2 _⟩
    intro h0
    rw [hS.pkId.2.mp h0] at hk
    cases hk

/-- The acts as events of `Spec/Clients`. -/
def plainEv (P : Prims) (w : Pair) : FEv → CEv
  | .talk ev => ev
  | .does who a => .other who (a.run P (w.client who))

def plainEvs (P : Prims) : Pair → List FEv → List CEv
  | _, [] => []
  | w, ev :: evs => plainEv P w ev :: plainEvs P (ev.step P w).1 evs

theorem plain_step (P : Prims) (w : Pair) (ev : FEv) : ev.step P w = w.step P (plainEv P w ev) := by
  cases ev with
  | talk ev => rfl
  | does who a => cases who <;> rfl

theorem plain_sight (P : Prims) (w : Pair) (s : Sight) (ev : FEv) : s.step (plainEv P w ev) = ev.sight s := by
  cases ev <;> rfl

theorem plain_outs (P : Prims) (evs : List FEv) : ∀ w, Pair.outs P w (plainEvs P w evs) = FEv.outs P w evs := by
  induction evs with
  | nil => intro w; rfl
  | cons ev evs ih =>
    intro w
    simp only [plainEvs, Pair.outs, FEv.outs]
    rw [← plain_step, ih]

theorem plain_wants (P : Prims) (S : Setup) (evs : List FEv) : ∀ s w,
    Clients.wants S s (plainEvs P w evs) = FEv.wants S s evs := by
  induction evs with
  | nil => intro s w; rfl
  | cons ev evs ih =>
    intro s w
    simp only [plainEvs, Clients.wants, plain_sight, ih]
    cases ev <;> rfl

theorem plain_length (P : Prims) (evs : List FEv) : ∀ w, (plainEvs P w evs).length = evs.length := by
  induction evs with
  | nil => intro w; rfl
  | cons ev evs ih => intro w; simp only [plainEvs, List.length_cons, ih]

theorem plain_keys (P : Prims) (evs : List FEv) : ∀ w, Clients.keysOf P (plainEvs P w evs) = FEv.keysOf P evs := by
  induction evs with
  | nil => intro w; rfl
  | cons ev evs ih =>
    intro w
    have h : ∀ e l, Clients.keysOf P (e :: l) = Clients.keysOf P [e] ++ Clients.keysOf P l := by
      intro e l; simp [Clients.keysOf]
    simp only [plainEvs]
    rw [h, ih]
    cases ev with
    | talk ev => rfl
    | does who a => rfl

theorem plain_real (P : Prims) (S : Setup) (hS : S.Ok P) (hA : Addresses S) (hN : Named S)
    (hne : S.spk.pub ≠ (newPair P S.rr).pub) (evs : List FEv) : ∀ (G : List Epoch) (s : Sight) (w : Pair)
    (cw : Conv.World), CRel P S G s w cw → AllFit s → FEv.Real P S s w evs →
    (G.map (fun g => g.kp.pub) ++ FEv.keysOf P evs).Nodup → s.abs.log.length + evs.length + 1 < u32 →
    Real P S s w (plainEvs P w evs) := by
  induction evs with
  | nil => intros; trivial
  | cons ev evs ih =>
    intro G s w cw hrel hfit hreal hnd hlen
    have h1 : (plainEv P w ev).Real P S s w ∧ (plainEv P w ev).NoForgery P S s w ∧
        FEv.Real P S (ev.sight s) (ev.step P w).1 evs := by
      cases ev with
      | talk ev => exact hreal
      | does who a =>
        refine ⟨C120_one_act P S hS w who a ?_ hreal.1, trivial, hreal.2⟩
        cases who with
        | false => exact hrel.devR
        | true => exact hrel.devI
    have hone : Real P S s w [plainEv P w ev] := ⟨h1.1, h1.2.1, trivial⟩
    have hkeys : Clients.keysOf P [plainEv P w ev] ++ FEv.keysOf P evs = FEv.keysOf P (ev :: evs) := by
      cases ev <;> rfl
    obtain ⟨hok, hfit'⟩ := real_ok P S hA [plainEv P w ev] s w hfit hone
    obtain ⟨_, G', cw', hrel', hnd', hlen'⟩ := csimulate hS hN hne (FEv.keysOf P evs) [plainEv P w ev] G s w cw hrel hok
      (by rw [List.append_assoc, hkeys]; exact hnd) (by simp only [List.length_cons, List.length_nil] at hlen ⊢; omega)
    have hs : s.run [plainEv P w ev] = ev.sight s := plain_sight P w s ev
    have hw : w.run P [plainEv P w ev] = (ev.step P w).1 := by rw [plain_step]; rfl
    rw [hs] at hfit' hrel' hlen'
    rw [hw] at hrel'
    have h2 := ih G' _ _ cw' hrel' hfit' h1.2.2 hnd'
      (by simp only [List.length_cons, List.length_nil] at hlen hlen'; omega)
    refine ⟨h1.1, h1.2.1, ?_⟩
    rw [plain_sight, ← plain_step]
    exact h2

/-- C120. Two clients that talk, each of which also sends to others, ends sessions with others, and receives whatever
does not concern the conversation (`Elsewhere`), in any order: what is said in the conversation is shown as it was
sent, once, as if there were no others (C106). -/
theorem C120_conversation_partial (P : Prims) (S : Setup) (hS : S.Ok P) (hA : Addresses S) (w : Pair) (hw : Peers S w)
    (evs : List FEv) (hl : FEv.Real P S {} w evs)
    (hk : (S.spk.pub :: (newPair P S.rr).pub :: FEv.keysOf P evs).Nodup) (hn : evs.length < 2 ^ 32 - 1) :
    List.Forall₂ CAgree (FEv.wants S {} evs) (FEv.outs P w evs) := by
  have hne : S.spk.pub ≠ (newPair P S.rr).pub := by
    rw [List.nodup_cons] at hk
    intro h
    exact hk.1 (by rw [h]; exact List.mem_cons_self)
  have hN : Named S := ⟨recID_self hw.nameI.1 hw.nameI.2, recID_self hw.nameR.1 hw.nameR.2⟩
  have hr := plain_real P S hS hA hN hne evs (initG P S) {} w (World.init P S) (begin_rel hS hne hw)
    (by intro d hd; cases hd) hl hk (by show 0 + evs.length + 1 < u32; unfold u32; omega)
  rw [← plain_wants P S evs {} w, ← plain_outs]
  refine C106_end_to_end P S hS hA w hw _ hr ?_ ?_
  · rw [plain_keys]; exact hk
  · rw [plain_length]; exact hn

/-! The talk of C106 among others: Alice also writes to Carol; Bob receives a message of Carol (with the prekey that is
never used up) before the first one of Alice, and later ends the session with Carol. -/
namespace Demo

def toCarol : Send.OutMsg := { destination := "carol", msg := ascii "hey" }

/-- Carol, who has another identity key. -/
def pairC : Pair :=
  ⟨⟨⟨{ alice0 with identity := some (pair 33) }, fun _ => none, []⟩, fun _ => none⟩, pair0.R, [], 1, 1⟩

def c1 : Pair := (pairC.step P (.send false (sendWith 0xFFFFFF) hello)).1
def carolFrame : Bytes := envOf c1 0 "carol"

def f2 : FEv := .does false (.send sendExt 2 toCarol)
def f3 : FEv := .does true (.hear (hearExt 90) 200 carolFrame)
def f6 : FEv := .does true (.endSession sendExt 2 (fun _ => [sessName "alice" 1, sessName "carol" 1]) "carol" (ascii "bye"))

def among : List FEv := [.talk ev1, f2, f3, .talk ev2, .talk ev3, f6, .talk ev4, .talk ev5]

def am2 : Pair := (f2.step P w1).1
def am3 : Pair := (f3.step P am2).1
def am4 : Pair := (am3.step P ev2).1
def am5 : Pair := (am4.step P ev3).1
def am6 : Pair := (f6.step P am5).1
def am7 : Pair := (am6.step P ev4).1

end Demo

open Demo in
/-- What happens in it: the others are heard as well. -/
example : (FEv.outs P pair0 among).map told =
      [[], [], [], [.enter .data, .onMessage helloShown, .ack 100], [], [],
       [.enter .data, .onMessage { source := "bob", sourceUuid := "bob", message := ascii "hi", timestamp := 1000
                                   attachments := [], group := none, flags := 0, expireTimer := 0
                                   profileKey := [1, 2, 3] }, .ack 101], [.ack 102]] ∧
    told (hear P am2.R (hearExt 90) 200 carolFrame).2 =
      [.enter .data, .onMessage { helloShown with source := "carol", sourceUuid := "carol" }, .ack 200] ∧
    containsSession am2.I.send.store "carol" 1 = true ∧ containsSession am5.R.send.store "carol" 1 = true ∧
    containsSession am6.R.send.store "carol" 1 = false ∧ containsSession am6.R.send.store "alice" 1 = true := by
  decide +kernel

namespace Demo

theorem carol_env : (Content.parseEnvelope carolFrame).map (fun e => (e.type, e.sourceUuid)) =
    some (some 3, "carol") ∧
    (Content.parseEnvelope carolFrame).map (fun e => match Messages.loadPreKeyMsg (e.content.getD []) with
      | .ok m => some (m.preKeyId, (match (decryptPreKey P {} (rnd 90) am2.R.send.store "carol" e.sourceDevice m).res with
        | .ok p => (Content.parseContent (Files.stripPadding p)).map (fun c => c.data.isSome)
        | _ => none))
      | _ => none) = some (some (0xFFFFFF, some true)) := by
  decide +kernel

theorem carol_elsewhere : Elsewhere P "alice" 1 (senderKey setup false) (some 7) (hearExt 90) am2.R.send.store
    carolFrame := by
  have hdec : Files.decryptReceivedMessage P (List.replicate 52 1) carolFrame = .ok carolFrame := by decide +kernel
  have hc : ∀ e, Carries P (hearExt 90) carolFrame e →
      Content.parseEnvelope carolFrame = some e ∧ e.type = some 3 ∧ e.sourceUuid = "carol" := by
    rintro e ⟨pt, h1, h2⟩
    have h1 : Files.decryptReceivedMessage P (List.replicate 52 1) carolFrame = .ok pt := h1
    have h1 := Res.ok.inj (hdec.symm.trans h1)
    have h2 : Content.parseEnvelope pt = some e := h2
    rw [← h1] at h2
    have h3 := carol_env.1
    rw [h2] at h3
    simp only [Option.map_some, Option.some.injEq, Prod.mk.injEq] at h3
    exact ⟨h2, h3⟩
  have hne : ¬ AddressOf "carol" "alice" := by unfold AddressOf; decide
  refine ⟨?_, ?_, ?_, ?_⟩
  · intro e he ht
    rw [(hc e he).2.1] at ht
    cases ht
  · intro e m he ht hm
    obtain ⟨h1, _, h2⟩ := hc e he
    refine ⟨Or.inl (by rw [h2]; decide), ?_⟩
    intro i hi
    cases hi
    have h3 := carol_env.2
    rw [h1] at h3
    simp only [Option.map_some, hm, Option.some.injEq, Prod.mk.injEq] at h3
    left
    rw [h3.1]
    decide
  · rintro uuid b c peer ⟨e, he, hcase⟩ hp hends
    obtain ⟨h1, ht, h2⟩ := hc e he
    rcases hcase with ⟨h, _⟩ | ⟨_, hu, m, p, hm, hd, hb⟩ | ⟨h, _⟩
    · rw [ht] at h; cases h
    · have h3 := carol_env.2
      rw [h1] at h3
      rw [h2] at hd
      have hd : (decryptPreKey P {} (rnd 90) am2.R.send.store "carol" e.sourceDevice m).res = .ok p := hd
      rw [hb] at hp
      have hp : Content.parseContent (Files.stripPadding p) = some c := hp
      simp only [Option.map_some, hm, hd, hp, Option.some.injEq, Prod.mk.injEq] at h3
      rcases hends with ⟨_, _, _, hpe⟩ | ⟨hn, _⟩
      · rw [hpe, hu, h2]; exact hne
      · rw [hn] at h3; cases h3.2
    · rw [ht] at h; cases h
  · intro uuid b c f _ _ hf
    exact ⟨"carol", hne, fun s => Or.inl (answers_idle (fun _ _ => rfl) (fun _ _ => rfl) hf s)⟩

def si1 : Sight := ({} : Sight).step ev1
def si4 : Sight := si1.step ev2
def si5 : Sight := si4.step ev3
def si7 : Sight := si5.step ev4

set_option maxRecDepth 100000 in
theorem among8 : (CEv.Real P setup si7 am7 ev5 ∧ CEv.NoForgery P setup si7 am7 ev5) := by
  refine ⟨?_, ?_⟩
  · have h : envOf w1 0 "alice" = envOf am7 0 (senderName setup false) := by decide +kernel
    show DeliverReal P setup si7 am7 0 (hearExt 85) (envOf w1 0 "alice") [[42, 43]] none ∧ si7.GoesOn 0
    rw [h]
    exact deliverReal 85 si7 am7 0 false j0 [[42, 43]] (d0, Content.marshalData d0) (by decide +kernel) (by decide +kernel)
      (by decide +kernel) (by decide +kernel) (by decide +kernel) rfl (by decide) (stored_hello _)
  · intro h
    exact absurd h (by decide +kernel)

set_option maxRecDepth 100000 in
theorem among7 : (CEv.Real P setup si5 am6 ev4 ∧ CEv.NoForgery P setup si5 am6 ev4) := by
  refine ⟨?_, ?_⟩
  · have h : envOf w3 1 "bob" = envOf am6 1 (senderName setup true) := by decide +kernel
    show DeliverReal P setup si5 am6 1 (hearExt 84) (envOf w3 1 "bob") [] none ∧ si5.GoesOn 1
    rw [h]
    exact deliverReal 84 si5 am6 1 true j1 [] (d1, Content.marshalData d1) (by decide +kernel) (by decide +kernel)
      (by decide +kernel) (by decide +kernel) (by decide +kernel) rfl (by decide) List.Forall₂.nil
  · intro h
    exact absurd h (by decide +kernel)

set_option maxRecDepth 100000 in
theorem among5 : CEv.Real P setup si4 am4 ev3 := by
  have h1 : (am4.client true).devs answer.destination = [1] := by decide +kernel
  have h2 : si4.abs.lvR ≠ 0 := by decide +kernel
  show SendReal P setup si4 am4 true sendExt answer
  exact { dest := rfl, marshal := rfl, fits := fits_answer, env := fun _ => rfl, srv := fun _ => ⟨false, rfl⟩
          first := (fun h => by cases h), session := fun _ => h2
          others := only_one h1, self := by decide
          reaches := Or.inl ⟨by decide +kernel, fun _ => rfl⟩ }

set_option maxRecDepth 100000 in
theorem among4 : (CEv.Real P setup si1 am3 ev2 ∧ CEv.NoForgery P setup si1 am3 ev2) := by
  refine ⟨?_, ?_⟩
  · have h : envOf w1 0 "alice" = envOf am3 0 (senderName setup false) := by decide +kernel
    show DeliverReal P setup si1 am3 0 (hearExt 83) (envOf w1 0 "alice") [[42, 43]] none ∧ si1.GoesOn 0
    rw [h]
    exact deliverReal 83 si1 am3 0 false j0 [[42, 43]] (d0, Content.marshalData d0) (by decide +kernel) (by decide +kernel)
      (by decide +kernel) (by decide +kernel) (by decide +kernel) rfl (by decide) (stored_hello _)
  · intro h
    exact absurd h (by decide +kernel)

set_option maxRecDepth 100000 in
theorem among_real : FEv.Real P setup {} pair0 among := by
  have h1 : SendReal P setup {} pair0 false sendExt hello :=
    { dest := rfl, marshal := rfl, fits := fits_hello, env := fun _ => rfl, srv := fun _ => ⟨false, rfl⟩
      first := fun _ _ _ => ⟨rfl, rfl, _, rfl, bundle_of_reply⟩, session := by intro h; cases h
      others := only_one rfl, self := by decide, reaches := Or.inl ⟨rfl, fun _ => rfl⟩ }
  have h2 : ¬ AddressOf "carol" "bob" ∧ ¬ AddressOf sendExt.self "bob" := by unfold AddressOf; decide
  have h6 : ¬ AddressOf "carol" "alice" ∧ ¬ AddressOf sendExt.self "alice" := by unfold AddressOf; decide
  exact ⟨h1, trivial, h2, carol_elsewhere, among4.1, among4.2, among5, trivial, h6, among7.1, among7.2, among8.1,
    among8.2, trivial⟩

end Demo

/-- The hypotheses of C120 hold of it. -/
example : List.Forall₂ CAgree (FEv.wants Demo.setup {} Demo.among) (FEv.outs Demo.P Demo.pair0 Demo.among) :=
  C120_conversation_partial Demo.P Demo.setup Demo.setup_ok Demo.addresses Demo.pair0 Demo.peers0 Demo.among
    Demo.among_real Demo.talk_keys (by decide)

/-- The theorem on one act, applied to the message of Carol. -/
example : OtherOk Demo.setup Demo.am2 true ((Act.hear (Demo.hearExt 90) 200 Demo.carolFrame).run Demo.P Demo.am2.R) :=
  C120_one_act Demo.P Demo.setup Demo.setup_ok Demo.am2 true _ (by decide +kernel) Demo.carol_elsewhere

/-! C106 with a peer of whom two devices are known: Alice writes to both devices of Bob; the first one in her list is
not the one that the conversation is with. -/
namespace Demo

def pair2 : Pair :=
  ⟨⟨⟨alice0, fun n => if n = "bob" then some [2, 1] else none, []⟩, fun _ => none⟩, pair0.R, [], 1, 1⟩

def sendBoth : Send.SendExt :=
  { sendExt with D := fun _ i => { prekeys := fun d => .ok (Send.reply d (1001 + d))
                                   rb := List.replicate 32 (if i = 1 then 59 else 61)
                                   rr := List.replicate 32 (if i = 1 then 70 else 72) } }

def g1 : CEv := .send false sendBoth hello
def b1' : Pair := (pair2.step P g1).1
def g2 : CEv := .deliver 0 (hearExt 83) 100 (envOf b1' 0 "alice") [[42, 43]] none
def jb : Send.JMsg := ((b1'.wire[0]?).map Prod.snd).getD ⟨0, 0, 0, []⟩

set_option maxRecDepth 100000 in
theorem bundle_of_second : Send.makeBundle (Send.reply 2 1003) = .ok (2, { bundle 7 with regId := 1003 }) := by
  have h1 : Encoding.decodeKey (Encoding.encodeKey Demo.bobOpk.pub) = .ok Demo.bobOpk.pub :=
    Encoding.C41_key_round_trip _ (by decide +kernel)
  have h2 : Encoding.decodeKey (Encoding.encodeKey Demo.bobSpk.pub) = .ok Demo.bobSpk.pub :=
    Encoding.C41_key_round_trip _ (by decide +kernel)
  have h3 : Encoding.decodeKey (Encoding.encodeKey Demo.bobId.pub) = .ok Demo.bobId.pub :=
    Encoding.C41_key_round_trip _ (by decide +kernel)
  have h4 : Encoding.decodeSignature (Encoding.b64EncodeNoPad (Demo.toySig Demo.bobId (ser Demo.bobSpk.pub)))
      = .ok (Demo.toySig Demo.bobId (ser Demo.bobSpk.pub)) := by
    exact Encoding.C41_signature_round_trip _ (by decide +kernel)
  simp [Send.makeBundle, Send.reply, Send.decodePreKey, h1, h2, h3, h4, Demo.bundle]

set_option maxRecDepth 100000 in
theorem both_real : Real P setup {} pair2 [g1, g2] := by
  refine ⟨?_, trivial, ?_, ?_, trivial⟩
  · have hl : (pair2.client false).devs hello.destination = [2, 1] := rfl
    refine { dest := rfl, marshal := rfl, fits := fits_hello, env := fun _ => rfl, srv := fun _ => ⟨false, rfl⟩
             first := ?_, session := (by intro h; cases h), others := ?_, self := by decide
             reaches := Or.inr ⟨1000, by decide +kernel⟩ }
    · intro _ i hi
      rw [hl] at hi
      match i with
      | 0 => cases hi
      | 1 => exact ⟨rfl, rfl, _, rfl, bundle_of_reply⟩
      | i + 2 => cases hi
    · intro i d hi hd r bd b hr hm
      rw [hl] at hi
      have hd2 : d = 2 := by
        match i with
        | 0 => cases hi; rfl
        | 1 => cases hi; exact absurd rfl hd
        | i + 2 => cases hi
      subst hd2
      have hr : Res.ok (Send.reply 2 1003) = .ok r := hr
      rw [← Res.ok.inj hr] at hm
      rw [bundle_of_second] at hm
      cases hm
      exact ⟨rfl, rfl⟩
  · exact deliverReal 83 _ b1' 0 false jb _ (d0, Content.marshalData d0) (by decide +kernel) (by decide +kernel)
      (by decide +kernel) (by decide +kernel) (by decide +kernel) rfl (by decide) (stored_hello _)
  · intro h
    exact absurd h (by decide +kernel)

end Demo

open Demo in
example : List.Forall₂ CAgree (Clients.wants setup {} [g1, g2]) (Pair.outs P pair2 [g1, g2]) ∧
    b1'.I.send.log.map (fun r => r.msgs.map (fun j => j.dev)) = [[2, 1]] ∧
    (Pair.outs P pair2 [g1, g2]).map told = [[], [.enter .data, .onMessage helloShown, .ack 100]] :=
  ⟨C106_end_to_end P setup setup_ok addresses pair2
    ⟨by decide, by decide, rfl, rfl, ⟨by decide, by decide⟩, ⟨by decide, by decide⟩, rfl, rfl, rfl⟩ [g1, g2] both_real
    (by decide +kernel) (by decide), by decide +kernel, by decide +kernel⟩

/-! ## C121 -/

/-- What only the user's own devices should be able to cause: entries of sent and read messages, and the sending of
contacts, groups and verifications. -/
def OfOwn : Receive.Ev → Prop
  | .enter .sync => True
  | .onSyncSent _ _ => True
  | .onSyncRead _ _ => True
  | .sendUpdate _ => True
  | .sendVerified _ => True
  | _ => False

theorem appends_not_own (P : Prims) (X : Receive.Ext) (src uuid : String) (ts : Nat) (b : Bytes)
    (h : ∀ c, X.parseContent b = some c → c.data = none → c.sync = none) :
    Receive.Appends (fun e => ¬ OfOwn e) (Receive.handleMessage P X src uuid ts b) := by
  unfold Receive.handleMessage
  cases hp : X.parseContent b with
  | none => exact Receive.appends_lift _ _
  | some c =>
    simp only
    unfold Receive.dispatch
    cases hd : c.data with
    | some dm =>
      exact Receive.appends_bind _ _ _ (Receive.appends_emit _ _ (fun h => h)) fun _ =>
        Receive.appends_handleData _ _ _ _ _ _ fun _ h => h
    | none =>
      rw [h c hp hd]
      simp only
      split
      · exact Receive.appends_bind _ _ _ (Receive.appends_emit _ _ (fun h => h)) fun _ =>
          Receive.appends_callback _ _ _ (fun h => h)
      · split
        · exact Receive.appends_bind _ _ _ (Receive.appends_emit _ _ (fun h => h)) fun _ =>
            Receive.appends_handleReceiptMsg _ _ _ _ _ fun _ h => h
        · split
          · exact Receive.appends_bind _ _ _ (Receive.appends_emit _ _ (fun h => h)) fun _ =>
              Receive.appends_callback _ _ _ (fun h => h)
          · split
            · exact Receive.appends_emit _ _ (fun h => h)
            · exact Receive.appends_pure _ _

/-- What the property asks, as far as it holds: nothing of the kind is done for a frame unless its content, decrypted
and authenticated, has a sync part (and no data part). What is missing: that it comes from the user's own account. -/
theorem C121_needs_sync_part_partial (P : Prims) (X : Receive.Ext) (c : Client) (id : Nat) (body : Bytes)
    (h : ∀ uuid b k, Plain P X c.send.store body uuid b → X.parseContent b = some k → k.data = none → k.sync = none) :
    ∀ evs r, (hear P c X id body).2 = .told evs r → ∀ e ∈ evs, ¬ OfOwn e := by
  intro evs r ho e he
  have key : ∃ d, (Receive.process P X body ⟨c.send.store, c.contacts, [], c.send.devices, c.send.log⟩).1.log = d ∧ ∀ e ∈ d, ¬ OfOwn e := by
    rcases Receive.process_cases P X body ⟨c.send.store, c.contacts, [], c.send.devices, c.send.log⟩ with ⟨d, hd, hr⟩ | ⟨src, uuid, ts, b, st', hpl, hm⟩
    · refine ⟨d, by simpa using hd, ?_⟩
      intro e he
      obtain ⟨_, _, _, rfl⟩ := hr e he
      exact fun h => h
    · rw [hm]
      obtain ⟨d, hd, hp⟩ := appends_not_own P X src uuid ts b (fun k hk => h uuid b k hpl hk) ⟨st', c.contacts, [], c.send.devices, c.send.log⟩
      exact ⟨d, by simpa using hd, hp⟩
  obtain ⟨d, hd, hp⟩ := key
  simp only [hear, Receive.listen] at ho
  rcases hq : Receive.process P X body ⟨c.send.store, c.contacts, [], c.send.devices, c.send.log⟩ with ⟨w', q⟩
  rw [hq] at hd ho
  have hd : w'.log = d := hd
  cases q with
  | ok _ =>
    simp only [COut.told.injEq] at ho
    rw [← ho.1, hd] at he
    simp only [List.mem_append, List.mem_singleton] at he
    rcases he with he | rfl
    · exact hp e he
    · exact fun h => h
  | err _ =>
    simp only [COut.told.injEq] at ho
    rw [← ho.1, hd] at he
    simp only [List.mem_append, List.mem_singleton] at he
    rcases he with he | rfl
    · exact hp e he
    · exact fun h => h
  | panic =>
    simp only [COut.told.injEq] at ho
    rw [← ho.1, hd] at he
    exact hp e he

/-- The code refutes the property: a sync part is treated alike whoever sent it. -/
theorem C121_sender_ignored (P : Prims) (X : Receive.Ext) (src uuid src' uuid' : String) (ts : Nat) (b : Bytes)
    (k : Receive.Content) (hp : X.parseContent b = some k) (hd : k.data = none) (hs : k.sync ≠ none) (w : Receive.World) :
    Receive.handleMessage P X src uuid ts b w = Receive.handleMessage P X src' uuid' ts b w := by
  obtain ⟨sm, hs⟩ := Option.ne_none_iff_exists'.mp hs
  simp only [Receive.handleMessage, hp, Receive.dispatch, hd, hs]

/-- Any correspondent, by a transcript, ends the sessions of this client with any account: none of its devices has a
session any more. -/
theorem C121_stranger_ends_sessions (P : Prims) (X : Receive.Ext) (c : Client) (id : Nat) (body : Bytes)
    (stranger : String) (b : Bytes) (k : Receive.Content) (sm : Receive.SyncMsg) (s : Receive.Sent)
    (dm : Receive.DataMsg) (victim : String) (hl : Lister X.list) (hfew : Few c.send.store)
    (hpl : Plain P X c.send.store body stranger b)
    (h6 : ∀ e, Carries P X body e → e.type = some 6 → e.destinationUuid ≠ none) (hb : b ≠ [])
    (hp : X.parseContent b = some k) (hd : k.data = none) (hs : k.sync = some sm) (ht : sm.sent = some s)
    (hm : s.message = some dm) (hf : dm.flags = 1) (hv : s.destE164 = victim) (hr : ∃ r, Receive.recID victim = .ok r) :
    ∀ dev, dev < 2 ^ 32 → containsSession (hear P c X id body).1.send.store victim dev = false := by
  obtain ⟨r, hr⟩ := hr
  obtain ⟨src, ts, ws, hproc⟩ := Receive.process_plain P X body ⟨c.send.store, c.contacts, [], c.send.devices, c.send.log⟩ stranger b hpl h6 hb
  have hdel := Receive.sync_deletes P X src stranger ts b k sm s dm
    ⟨applyWrites c.send.store ws, c.contacts, [], c.send.devices, c.send.log⟩ hp hd hs ht hm hf r
    (by rw [hv]; exact hr)
  rw [← hproc, hv] at hdel
  refine keeps_hear (R := fun _ st => ∀ dev, dev < 2 ^ 32 → containsSession st.store victim dev = false) P c X id body ?_
  unfold Receive.KeepsAt
  simp only [Receive.World.out]
  rw [hdel]
  exact (C11_delete_all _ _ victim (hl _ (few_delete _ _ _ (few_writes ws _ hfew)))).1

/-! Carol, whose first message Bob has received (`am3`), sends him a "transcript" of a message to Alice: his session
with Alice is gone, and what Alice then sends is lost. -/
namespace Demo

def forge : Send.SendExt :=
  { sendExt with marshal := fun d => .ok (Content.marshalSync ⟨some "alice", none, 1000, d⟩) }

def c2 : Pair := (c1.step P (.send false forge { destination := "bob", msg := ascii "x", flags := 1 })).1
def forgedFrame : Bytes := envOf c2 1 "carol"
def names : List Name := [sessName "alice" 1, sessName "carol" 1]
def hearIn (r : UInt8) : Receive.Ext := { hearExt r with list := listIn names }

/-- The talk up to Alice's having received the answer. -/
def fg : Pair := (am5.step P ev4).1
def fg1 : Pair := (FEv.step P fg (.does true (.hear (hearIn 91) 201 forgedFrame))).1
def fg2 : Pair := (fg1.step P (.send false sendExt hello)).1

end Demo

open Demo in
theorem C121_forged_transcript :
    containsSession fg.R.send.store "alice" 1 = true ∧
    told (hear P fg.R (hearIn 91) 201 forgedFrame).2 =
      [.enter .sync, .onSyncSent { source := "alice", sourceUuid := "", message := ascii "x", timestamp := 1000
                                   group := none, flags := 1, expireTimer := 0, profileKey := [1, 2, 3] } 6, .ack 201] ∧
    containsSession fg1.R.send.store "alice" 1 = false ∧ containsSession fg1.R.send.store "carol" 1 = true ∧
    (fg2.wire.length = 3 ∧ told (hear P fg.R (hearIn 92) 202 (envOf fg2 2 "alice")).2 =
      [.enter .data, .onMessage helloShown, .ack 202] ∧
     told (hear P fg1.R (hearIn 92) 202 (envOf fg2 2 "alice")).2 = [.ack 202]) := by
  decide +kernel

namespace Demo

/-- Bob, who has sessions with Alice and with Carol. -/
def bobAC : Client := (hear P (hear P pair0.R (hearExt 83) 100 (envOf w1 0 "alice")).1 (hearExt 90) 200 carolFrame).1

open Classical in
/-- A listing of any directory. -/
noncomputable def listAny (st : Store) : List Name := if h : ∃ l, Listing st l then h.choose else []

theorem lister : Lister listAny := by
  classical
  rintro st ⟨l, hl⟩
  have h : ∃ l, Listing st l := ⟨l.filter (fun n => decide (st.sessions n ≠ .absent)), fun n => by
    simp only [List.mem_filter, decide_eq_true_eq]
    exact ⟨fun h => h.2, fun h => ⟨hl n h, h⟩⟩⟩
  unfold listAny
  rw [dif_pos h]
  exact h.choose_spec

/-- The type, the sender, and the transcript of the forged message. -/
def forgedView : Option (Option Nat × String × Bool × Bool × Option (String × Option Nat)) :=
  (Content.parseEnvelope forgedFrame).bind (fun e => match Messages.loadPreKeyMsg (e.content.getD []) with
    | .ok m => (match (decryptPreKey P {} (rnd 91) bobAC.send.store e.sourceUuid e.sourceDevice m).res with
      | .ok p => (Content.parseContent (Files.stripPadding p)).map (fun c =>
        (e.type, e.sourceUuid, c.data.isNone, Files.stripPadding p == [],
         (c.sync.bind (fun s => s.sent)).map (fun s => (s.destE164, s.message.map (fun m => m.flags)))))
      | _ => none)
    | _ => none)

set_option synthInstance.maxSize 1000 in
theorem forged_env : forgedView = some (some 3, "carol", true, false, some ("alice", some 1)) ∧
    containsSession bobAC.send.store "alice" 1 = true := by
  decide +kernel

end Demo

open Demo in
/-- The hypotheses of the theorem hold of it. -/
example : containsSession (hear P bobAC { hearExt 91 with list := listAny } 201 forgedFrame).1.send.store "alice" 1 =
    false := by
  have hdec : Files.decryptReceivedMessage P (List.replicate 52 1) forgedFrame = .ok forgedFrame := by decide +kernel
  obtain ⟨e, he, h⟩ := Option.bind_eq_some_iff.mp forged_env.1
  rcases hm : Messages.loadPreKeyMsg (e.content.getD []) with m | _ | _
  rotate_left
  · rw [hm] at h; cases h
  · rw [hm] at h; cases h
  rw [hm] at h
  simp only at h
  rcases hr : (decryptPreKey P {} (rnd 91) bobAC.send.store e.sourceUuid e.sourceDevice m).res with p | _ | _
  rotate_left
  · rw [hr] at h; cases h
  · rw [hr] at h; cases h
  rw [hr] at h
  simp only [Option.map_eq_some_iff, Prod.mk.injEq] at h
  obtain ⟨k, hk, ht, hu, hd, hb, s, hs, hv, hf⟩ := h
  obtain ⟨sm, hsm, hst⟩ := Option.bind_eq_some_iff.mp hs
  obtain ⟨dm, hdm, hfl⟩ := hf
  have hca : ∀ e', Carries P { hearExt 91 with list := listAny } forgedFrame e' → e' = e := by
    rintro e' ⟨pt, h1, h2⟩
    have h1 := Res.ok.inj (hdec.symm.trans h1)
    have h2 : Content.parseEnvelope pt = some e' := h2
    rw [← h1, he] at h2
    exact (Option.some.inj h2).symm
  refine C121_stranger_ends_sessions P { hearExt 91 with list := listAny } bobAC 201 forgedFrame e.sourceUuid
    (Files.stripPadding p) k sm s dm "alice" lister ?_ ⟨e, ⟨forgedFrame, hdec, he⟩, Or.inr (Or.inl ⟨ht, rfl, m, p, hm, hr, rfl⟩)⟩
    ?_ ?_ hk (Option.isNone_iff_eq_none.mp hd) hsm hst hdm hfl hv ⟨"alice", rfl⟩ 1 (by decide)
  · have idle : ∀ (X : Receive.Ext) (m : Receive.Content) (f : Send.State → Send.State × Res Unit),
        (∀ t s, (X.sendUpdate t s).1 = s) → (∀ v s, (X.sendVerified v s).1 = s) → Answers X m f →
        ∀ s, Few s.store → Few (f s).1.store := by
      intro X m f h1 h2 hf s hs
      rw [answers_idle h1 h2 hf]; exact hs
    exact few_hear _ _ _ _ _ (few_hear _ _ _ _ _ ⟨[], fun n hn => absurd rfl hn⟩
      fun _ _ m f _ _ hf => idle _ m f (fun _ _ => rfl) (fun _ _ => rfl) hf)
      fun _ _ m f _ _ hf => idle _ m f (fun _ _ => rfl) (fun _ _ => rfl) hf
  · intro e' h1 h2
    rw [hca e' h1, ht] at h2
    cases h2
  · intro h0
    rw [h0] at hb
    cases hb

end Verif.Props
