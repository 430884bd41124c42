import Verif.Proof.Apart
import Verif.Props.Clients
import Verif.Props.Receive
/-!
# Properties C118 (after a session was ended both can talk again), C119 (what was sent before has no effect)
-/
namespace Verif.Props
open Verif Verif.Keys Verif.Messages Verif.Session Verif.Api Verif.Names Verif.Conv Verif.Clients

/-! ## C118 -/

/-- `who` forgets its sessions with the peer. -/
def forget (w : Pair) (who : Bool) (list : Store → List Name) (peer : String) : Pair :=
  let f := fun (c : Client) =>
    { c with send := { c.send with store := deleteAllSessions c.send.store (list c.send.store) peer } }
  if who then { w with R := f w.R } else { w with I := f w.I }

theorem reset_eq (P : Prims) (w : Pair) (who : Bool) (X : Send.SendExt) (list : Store → List Name) (peer : String)
    (msg : Bytes) (ts : Nat) (hn : Receive.recID peer = .ok peer)
    (h : (w.step P (.send who X { destination := peer, msg := msg, flags := 1 })).2 = .sent (some (.ok ts))) :
    w.reset P who X list peer msg =
      (forget (w.step P (.send who X { destination := peer, msg := msg, flags := 1 })).1 who list peer,
       some (.ok ts)) := by
  cases who with
  | false =>
    simp only [Pair.step, COut.sent.injEq] at h
    obtain ⟨s', hs'⟩ : ∃ s', Send.sendMessage P X 2 { destination := peer, msg := msg, flags := 1 } w.I.send =
        (s', some (.ok ts)) := ⟨_, Prod.ext rfl h⟩
    simp only [Pair.reset, Send.endSession, Pair.step, hs', hn, forget, Bool.false_eq_true, if_false]
  | true =>
    simp only [Pair.step, COut.sent.injEq] at h
    obtain ⟨s', hs'⟩ : ∃ s', Send.sendMessage P X 2 { destination := peer, msg := msg, flags := 1 } w.R.send =
        (s', some (.ok ts)) := ⟨_, Prod.ext rfl h⟩
    simp only [Pair.reset, Send.endSession, Pair.step, hs', hn, forget, if_true]

/-- A store after all sessions with `n` were deleted, once or twice. -/
theorem deleted {st : Store} {n : String} (list : Store → List Name) (hl : Listing st (list st))
    (hl' : let st1 := deleteAllSessions st (list st) n; Listing st1 (list st1)) :
    (∀ dev, dev < 2 ^ 32 → containsSession (deleteAllSessions st (list st) n) n dev = false) ∧
    (∀ dev, dev < 2 ^ 32 → containsSession
      (let st1 := deleteAllSessions st (list st) n; deleteAllSessions st1 (list st1) n) n dev = false) :=
  ⟨(C11_delete_all st _ n hl).1, (C11_delete_all _ _ n hl').1⟩

theorem absent_of {st : Store} {n : String} {dev : Nat} (h : containsSession st n dev = false) :
    st.sessions (sessName n dev) = .absent := by
  simpa [containsSession] using h

/-- C118. Two clients talk for a while under any schedule (as in C106); then one of them calls `EndSession` and
the other receives the message. The call succeeds; the other application is shown the message, marked as the end of
the session; neither client has a session with any device of the other. With any prekeys published by either of
them they are as two clients that have never talked: what C106 asks for at the beginning holds again. -/
theorem C118_fresh_start_partial (P : Prims) (S : Setup) (hS : S.Ok P) (hA : Addresses S) (w : Pair) (hw : Peers S w)
    (evs : List CEv) (hl : Real P S {} w evs) (e : Ending) (he : e.Ok P S (Sight.run {} evs) (w.run P evs))
    (hk : (S.spk.pub :: (newPair P S.rr).pub :: keysOf P (evs ++ [e.delivery (w.run P evs)])).Nodup)
    (hn : evs.length + 2 < 2 ^ 32 - 1) :
    let out := e.run P S (w.run P evs)
    let d := Send.createMessage e.X.now e.X.profileKey (e.message S)
    out.2.1 = some (.ok d.timestamp) ∧
    out.2.2 = .told [.enter .data, .onMessage { shown (senderName S e.who) d e.atts e.g with flags := 1 },
      .ack e.id] .waiting ∧
    (∀ dev, dev < 2 ^ 32 → containsSession out.1.I.send.store S.nameR dev = false ∧
      containsSession out.1.R.send.store S.nameI dev = false) ∧
    ∀ swap o, o.Ok P (if swap then S.idI else S.idR) (if swap then out.1.I else out.1.R).send.store →
      (next S swap out.1 o).Ok P ∧ Addresses (next S swap out.1 o) ∧
      Peers (next S swap out.1 o) (out.1.turn swap) := by
  have hne : S.spk.pub ≠ (newPair P S.rr).pub := by
    rw [List.nodup_cons] at hk
    intro h
    exact hk.1 (by rw [h]; exact List.mem_cons_self)
  have hN : Named S := ⟨recID_self hw.nameI.1 hw.nameI.2, recID_self hw.nameR.1 hw.nameR.2⟩
  obtain ⟨hok, hfit⟩ := real_ok P S hA evs {} w (by intro d hd; cases hd) hl
  have hk' : ((initG P S).map (fun g => g.kp.pub) ++ keysOf P evs ++
      keysOf P [e.delivery (w.run P evs)]).Nodup := by
    rw [List.append_assoc]
    have : keysOf P (evs ++ [e.delivery (w.run P evs)]) = keysOf P evs ++ keysOf P [e.delivery (w.run P evs)] := by
      simp [Clients.keysOf]
    rw [this] at hk
    exact hk
  obtain ⟨_, G, cw, hrel, hnd, hlen⟩ := csimulate hS hN hne _ evs (initG P S) {} w (World.init P S)
    (begin_rel hS hne hw) hok hk' (by show 0 + evs.length + 1 < u32; unfold u32; omega)
  have hlen : (Sight.run {} evs).abs.log.length ≤ evs.length := by
    simpa using hlen
  obtain ⟨wN, hwN⟩ : ∃ wN, wN = w.run P evs := ⟨_, rfl⟩
  obtain ⟨sN, hsN⟩ : ∃ sN : Sight, sN = Sight.run {} evs := ⟨_, rfl⟩
  rw [← hwN, ← hsN] at he hrel
  rw [← hwN] at hnd
  rw [← hsN] at hlen hfit
  rw [← hwN]
  -- the message is sent
  obtain ⟨hag, G1, cw1, hrel1, hG1⟩ := cstep_send hS hN hne hrel e.who e.X (e.message S) (send_real_ok he.send)
    (by unfold u32; omega)
  have hG1 : G1 = G := by
    rcases hG1 with h | ⟨g, _, hg⟩
    · exact h
    · cases hg
  subst hG1
  have hrec : Receive.recID (senderName S (!e.who)) = .ok (senderName S (!e.who)) := by
    cases e.who
    · exact hN.nameR
    · exact hN.nameI
  obtain ⟨w1, hw1⟩ : ∃ w1, w1 = (wN.step P (.send e.who e.X (e.message S))).1 := ⟨_, rfl⟩
  obtain ⟨d, hd⟩ : ∃ d, d = Send.createMessage e.X.now e.X.profileKey (e.message S) := ⟨_, rfl⟩
  have hs2 : (wN.step P (.send e.who e.X (e.message S))).2 = .sent (some (.ok d.timestamp)) := by
    simp only [Sight.want] at hag
    rw [← hd] at hag
    cases hx : (wN.step P (.send e.who e.X (e.message S))).2 with
    | sent r => rw [hx] at hag; rw [show r = _ from hag]
    | nothing => rw [hx] at hag; exact hag.elim
    | told _ _ => rw [hx] at hag; exact hag.elim
  have hreset := reset_eq P wN e.who e.X e.list (senderName S (!e.who)) e.msg d.timestamp hrec hs2
  rw [show ({ destination := senderName S (!e.who), msg := e.msg, flags := 1 } : Send.OutMsg) = e.message S from rfl,
    ← hw1] at hreset
  obtain ⟨s1, hs1⟩ : ∃ s1, s1 = sN.step (.send e.who e.X (e.message S)) := ⟨_, rfl⟩
  have hs1' : sN.step (e.sending S) = s1 := hs1.symm
  rw [← hs1, ← hw1] at hrel1
  have hdel := he.deliver
  rw [hreset, hs1'] at hdel
  have hfwire : (forget w1 e.who e.list (senderName S (!e.who))).wire = w1.wire := by
    simp only [forget]
    split <;> rfl
  have hdel' : DeliverReal P S s1 w1 wN.wire.length e.Y e.body e.atts e.g :=
    { env := hdel.env, rnd := hdel.rnd, cb := hdel.cb, contacts := hdel.contacts
      parseEnvelope := hdel.parseEnvelope, parseContent := hdel.parseContent
      carried := by have := hdel.carried; rw [hfwire] at this; exact this
      stored := hdel.stored, group := hdel.group }
  have hdok := deliver_real_ok hA (by rw [hs1]; exact fit_send he.send hfit) hdel'
  -- it is the last one of the log
  have hwl : wN.wire.length = sN.abs.log.length := by
    rw [← hrel.wire.length_eq, ← hrel.rel.log.length_eq]
  have hsl : sN.said.length = sN.abs.log.length := hrel.said.length_eq.symm
  have hlog : s1.abs.log = sN.abs.log ++ [⟨sN.abs.sendLevel e.who, count sN.abs.log (sN.abs.sendLevel e.who),
      Files.padMessage (encoded e.X d)⟩] := by
    rw [hs1, hd]; rfl
  have hsaid : s1.said = sN.said ++ [(d, encoded e.X d)] := by
    rw [hs1, hd]; rfl
  obtain ⟨m, hm⟩ : ∃ m : AMsg, m = ⟨sN.abs.sendLevel e.who, count sN.abs.log (sN.abs.sendLevel e.who),
      Files.padMessage (encoded e.X d)⟩ := ⟨_, rfl⟩
  rw [← hm] at hlog
  have hmi : s1.abs.log[wN.wire.length]? = some m := by
    rw [hlog, hwl]; simp
  have hsi : s1.said[wN.wire.length]? = some (d, encoded e.X d) := by
    rw [hsaid, hwl, ← hsl]; simp
  have hexp : s1.abs.expect m = .accept := by
    have := he.due m
    rw [hs1'] at this
    exact this hmi
  have hwhom : decide (m.epoch % 2 = 0) = e.who := by
    rw [hm]
    cases hwho : e.who with
    | false =>
      have := hrel.rel.parI
      simp only [Abs.sendLevel, Bool.false_eq_true, if_false, decide_eq_false_iff_not]
      omega
    | true =>
      have := hrel.rel.parR
      simp only [Abs.sendLevel, if_true, decide_eq_true_eq]
      exact this
  have hfr : ∀ x ∈ G1, x.kp.pub ≠ (newPair P (e.Y.rnd 0)).pub := by
    intro x hx
    rw [List.nodup_append] at hnd
    exact hnd.2.2 x.kp.pub (List.mem_map.mpr ⟨x, hx, rfl⟩) _ (by simp [Clients.keysOf, Ending.delivery])
  obtain ⟨who, d', j, st1, G2, a2, hwho, hd', hj, hrel2, _, hid, hreg, hI1, hel2, hparse, hatts, hgrp, ts, hhear⟩ :=
    cstep_accept hS hN hrel1 wN.wire.length e.Y e.id e.body e.atts e.g hdok hfr
      (by rw [hlog]; simp only [List.length_append, List.length_singleton]; unfold u32; omega) m hmi hexp
  rw [hwhom] at hwho
  subst hwho
  rw [hsi] at hd'
  cases hd'
  have hflag : d.flags = 1 := by rw [hd]; rfl
  have hrec' : Receive.recID (senderName S e.who) = .ok (senderName S e.who) := by
    cases e.who
    · exact hN.nameI
    · exact hN.nameR
  have hmsg := handle_reset P e.Y codeLoc (senderName S e.who) ts d (Files.stripPadding m.pt) e.atts e.g
    ⟨st1, (getC w1 e.who).contacts, [], (getC w1 e.who).send.devices, (getC w1 e.who).send.log⟩ hdel.cb hflag hrec' hparse hatts hgrp
  have hh := hhear _ hmsg
  simp only [List.nil_append, List.cons_append] at hh
  obtain ⟨wF, hwF⟩ : ∃ wF, wF = forget w1 e.who e.list (senderName S (!e.who)) := ⟨_, rfl⟩
  have hgetF : getC wF e.who = getC w1 e.who := by
    rw [hwF]
    cases e.who <;> rfl
  have hjF : wF.wire[wN.wire.length]? = some (e.who, j) := by
    rw [hwF, hfwire]; exact hj
  have hstepF := pair_deliver P wF wN.wire.length e.Y e.id e.body e.atts e.g e.who j hjF
  rw [hgetF, hh] at hstepF
  obtain ⟨stR, hstR⟩ : ∃ stR, stR = (let x := deleteAllSessions st1 (e.Y.list st1) (senderName S e.who)
      deleteAllSessions x (e.Y.list x) (senderName S e.who)) := ⟨_, rfl⟩
  obtain ⟨cS, hcS⟩ : ∃ cS, cS = getC wF (!e.who) := ⟨_, rfl⟩
  have hrun : e.run P S wN = (putC wF e.who ⟨{ (getC w1 e.who).send with store := stR }, (getC w1 e.who).contacts⟩,
      some (.ok d.timestamp),
      .told [.enter .data, .onMessage (shown (senderName S e.who) d e.atts e.g), .ack e.id] .waiting) := by
    simp only [Ending.run, Ending.delivery, hreset, ← hwF, hstepF, hstR]
  -- the stores
  have hlS : Listing (getC w1 (!e.who)).send.store (e.list (getC w1 (!e.who)).send.store) := by
    have hc : w1.client e.who = getC w1 (!e.who) := by cases e.who <;> rfl
    have := he.list
    simp only [Ending.sending, ← hw1, hc] at this
    exact this
  have hother : getC w1 e.who = wN.client (!e.who) := by
    rw [hw1]
    cases e.who <;> rfl
  have hlR : ∀ st', (∀ n, st'.sessions n ≠ .absent → st1.sessions n ≠ .absent) → Listing st' (e.Y.list st') := by
    intro st' h'
    refine he.lists _ fun n hn => ?_
    by_cases hx : n = sessName (senderName S e.who) (senderDev S e.who)
    · exact Or.inr hx
    · refine Or.inl ?_
      have := h' n hn
      rw [hel2 n hx, hother] at this
      exact this
  have hR := (deleted (n := senderName S e.who) e.Y.list (hlR st1 fun _ h => h)
    (hlR _ fun n hn => deleteAll_sub _ _ _ n hn)).2
  rw [← hstR] at hR
  have hRrest : ∃ f, stR = { st1 with sessions := f } := by
    rw [hstR]
    have h1 := deleteAll_rest st1 (e.Y.list st1) (senderName S e.who)
    obtain ⟨x, hx⟩ : ∃ x, x = deleteAllSessions st1 (e.Y.list st1) (senderName S e.who) := ⟨_, rfl⟩
    simp only [← hx] at h1 ⊢
    have h2 := deleteAll_rest x (e.Y.list x) (senderName S e.who)
    refine ⟨(deleteAllSessions x (e.Y.list x) (senderName S e.who)).sessions, h2.trans ?_⟩
    rw [h1]
  obtain ⟨fR, hRrest⟩ := hRrest
  have hS' := (C11_delete_all _ _ (senderName S (!e.who)) hlS).1
  have hcs : cS.send.store = deleteAllSessions (getC w1 (!e.who)).send.store
      (e.list (getC w1 (!e.who)).send.store) (senderName S (!e.who)) := by
    rw [hcS, hwF]
    cases e.who <;> rfl
  rw [← hcs] at hS'
  obtain ⟨fS, hfS⟩ : ∃ f, cS.send.store = { (getC w1 (!e.who)).send.store with sessions := f } :=
    ⟨_, hcs.trans (deleteAll_rest _ _ _)⟩
  intro out d0
  have hout : out = e.run P S wN := rfl
  rw [hrun] at hout
  have hd0 : d0 = d := hd.symm
  refine ⟨by rw [hout, hd0], ?_, ?_, ?_⟩
  · rw [hout, hd0]
    simp only [shown, hflag, true_or, if_true]
  · intro dev hdev
    have h1 := hR dev hdev
    have h2 := hS' dev hdev
    rw [hout]
    cases hwho : e.who with
    | false =>
      rw [hwho] at h1 h2 hcS
      rw [hcS] at h2
      exact ⟨h2, h1⟩
    | true =>
      rw [hwho] at h1 h2 hcS
      rw [hcS] at h2
      exact ⟨h1, h2⟩
  · have hdevI : S.devI < 2 ^ 32 := hA.devI
    have hdevR : S.devR < 2 ^ 32 := hA.devR
    -- what is left of the stores
    have key : (out.1.I.send.store.identity = some S.idI ∧ out.1.I.send.store.regId = some S.regI ∧
        isTrusted out.1.I.send.store S.nameR S.idR.pub = true ∧
        out.1.I.send.store.sessions (sessName S.nameR S.devR) = .absent) ∧
        (out.1.R.send.store.identity = some S.idR ∧ out.1.R.send.store.regId = some S.regR ∧
        isTrusted out.1.R.send.store S.nameI S.idI.pub = true ∧
        out.1.R.send.store.sessions (sessName S.nameI S.devI) = .absent) ∧
        (S.devR ∈ out.1.I.devs S.nameR ∧ (out.1.I.devs S.nameR).Nodup) ∧
        (S.devI ∈ out.1.R.devs S.nameI ∧ (out.1.R.devs S.nameI).Nodup) ∧ out.1.devI = S.devI ∧ out.1.devR = S.devR := by
      rw [hout]
      cases hwho : e.who with
      | false =>
        rw [hwho] at hcS hfS hR hS' hid hreg hrel2 hwF
        have eI : (putC wF false ⟨{ (getC w1 false).send with store := stR }, (getC w1 false).contacts⟩).I = cS := by
          rw [hcS]; rfl
        have eR : (putC wF false ⟨{ (getC w1 false).send with store := stR }, (getC w1 false).contacts⟩).R =
          ⟨{ w1.R.send with store := stR }, w1.R.contacts⟩ := rfl
        have hI2 : (put cw1 false st1).I = w1.I.send.store := hI1.symm
        have hti := hrel2.trustI
        rw [hI2] at hti
        have hcd : cS.send.devices = w1.I.send.devices := by rw [hcS, hwF]; rfl
        simp only [eI, eR]
        refine ⟨⟨?_, ?_, ?_, absent_of (hS' _ hdevR)⟩, ⟨?_, ?_, ?_, absent_of (hR _ hdevI)⟩, ?_, hrel1.devI, ?_⟩
        · rw [hfS]; exact hrel1.identI.1
        · rw [hfS]; exact hrel1.identI.2
        · rw [hfS]; exact hti
        · rw [hRrest]; exact hrel2.identR
        · rw [hRrest]; exact hrel2.regR
        · rw [hRrest]; exact hrel2.trustR
        · simp only [Client.devs, hcd]; exact hrel1.devR
        · rw [hwF]; exact ⟨hrel1.numI, hrel1.numR⟩
      | true =>
        rw [hwho] at hcS hfS hR hS' hid hreg hrel2 hwF
        have eR : (putC wF true ⟨{ (getC w1 true).send with store := stR }, (getC w1 true).contacts⟩).R = cS := by
          rw [hcS]; rfl
        have eI : (putC wF true ⟨{ (getC w1 true).send with store := stR }, (getC w1 true).contacts⟩).I =
          ⟨{ w1.I.send with store := stR }, w1.I.contacts⟩ := rfl
        have hR2 : (put cw1 true st1).R = w1.R.send.store := hrel1.R.symm
        have htr := hrel2.trustR
        have hir := hrel2.identR
        have hrr := hrel2.regR
        rw [hR2] at htr hir hrr
        have hcd : cS.send.devices = w1.R.send.devices := by rw [hcS, hwF]; rfl
        simp only [eI, eR]
        refine ⟨⟨?_, ?_, ?_, absent_of (hR _ hdevR)⟩, ⟨?_, ?_, ?_, absent_of (hS' _ hdevI)⟩, hrel1.devR, ?_, ?_⟩
        · rw [hRrest]
          exact hid.trans hrel1.identI.1
        · rw [hRrest]
          exact hreg.trans hrel1.identI.2
        · rw [hRrest]; exact hrel2.trustI
        · rw [hfS]; exact hir
        · rw [hfS]; exact hrr
        · rw [hfS]; exact htr
        · simp only [Client.devs, hcd]; exact hrel1.devI
        · rw [hwF]; exact ⟨hrel1.numI, hrel1.numR⟩
    obtain ⟨⟨i1, i2, i3, i4⟩, ⟨r1, r2, r3, r4⟩, v1, v2, v3, v4⟩ := key
    intro swap o ho
    cases swap with
    | false =>
      have ho : o.Ok P S.idR out.1.R.send.store := ho
      refine ⟨?_, ⟨hA.nameI, hA.nameR, hA.devI, hA.devR⟩, ⟨hw.nameI, hw.nameR, rfl, rfl, v1, v2, rfl, v3, v4⟩⟩
      exact { idI := hS.idI, idR := hS.idR, spk := ho.spk, opk := ho.opk, rb := ho.rb, rr := ho.rr
              spkId := ho.spkId, pkId := ho.pkId, regI := hS.regI, regR := hS.regR, bundleId := ho.bundleId
              bundleSpk := ho.bundleSpk, bundleOpk := ho.bundleOpk, bundleSig := ho.bundleSig
              iIdent := i1, iReg := i2, iTrust := i3, iNone := i4, rIdent := r1, rReg := r2, rTrust := r3
              rNone := r4, rSpk := ho.rSpk, rOpk := ho.rOpk }
    | true =>
      have ho : o.Ok P S.idI out.1.I.send.store := ho
      refine ⟨?_, ⟨hA.nameR, hA.nameI, hA.devR, hA.devI⟩, ⟨hw.nameR, hw.nameI, rfl, rfl, v2, v1, rfl, v4, v3⟩⟩
      exact { idI := hS.idR, idR := hS.idI, spk := ho.spk, opk := ho.opk, rb := ho.rb, rr := ho.rr
              spkId := ho.spkId, pkId := ho.pkId, regI := hS.regR, regR := hS.regI, bundleId := ho.bundleId
              bundleSpk := ho.bundleSpk, bundleOpk := ho.bundleOpk, bundleSig := ho.bundleSig
              iIdent := r1, iReg := r2, iTrust := r3, iNone := r4, rIdent := i1, rReg := i2, rTrust := i3
              rNone := i4, rSpk := ho.rSpk, rOpk := ho.rOpk }

/-- C118. So they can talk again: whichever of them begins, under any schedule of messages sent since, every message
is shown as it was sent, once (C106). -/
theorem C118_talk_again_partial (P : Prims) (S : Setup) (hS : S.Ok P) (hA : Addresses S) (w : Pair) (hw : Peers S w)
    (evs : List CEv) (hl : Real P S {} w evs) (e : Ending) (he : e.Ok P S (Sight.run {} evs) (w.run P evs))
    (hk : (S.spk.pub :: (newPair P S.rr).pub :: keysOf P (evs ++ [e.delivery (w.run P evs)])).Nodup)
    (hn : evs.length + 2 < 2 ^ 32 - 1) (swap : Bool) (o : Offer) (evs' : List CEv) :
    let w' := (e.run P S (w.run P evs)).1
    o.Ok P (if swap then S.idI else S.idR) (if swap then w'.I else w'.R).send.store →
    Real P (next S swap w' o) {} (w'.turn swap) evs' →
    (o.spk.pub :: (newPair P o.rr).pub :: keysOf P evs').Nodup → evs'.length < 2 ^ 32 - 1 →
    List.Forall₂ CAgree (wants (next S swap w' o) {} evs') (Pair.outs P (w'.turn swap) evs') := by
  intro w' ho hl' hk' hn'
  obtain ⟨h1, h2, h3⟩ := (C118_fresh_start_partial P S hS hA w hw evs hl e he hk hn).2.2.2 swap o ho
  refine C106_end_to_end P _ h1 h2 _ h3 evs' hl' ?_ hn'
  have e1 : (next S swap w' o).spk = o.spk := by cases swap <;> rfl
  have e2 : (next S swap w' o).rr = o.rr := by cases swap <;> rfl
  rw [e1, e2]
  exact hk'

/-! A conversation that is ended and begun again: after the talk of C106 Alice ends the session and Bob receives
that; then Alice writes again, with Bob's last prekey, and Bob answers. -/
namespace Demo

/-- The files of a directory that has at most these. -/
def listIn (names : List Name) : Store → List Name :=
  fun st => names.filter (fun n => decide (st.sessions n ≠ .absent))

theorem listing_in (st : Store) (n : Name) (h : ∀ x, st.sessions x ≠ .absent → x = n) : Listing st (listIn [n] st) := by
  intro x
  simp only [listIn, List.mem_filter, List.mem_singleton, decide_eq_true_eq]
  exact ⟨fun h => h.2, fun hx => ⟨h x hx, hx⟩⟩

theorem lists_in (st : Store) (n : Name) (h : ∀ x, st.sessions x ≠ .absent → x = n) : Lists (listIn [n]) st n :=
  fun st' h' => listing_in st' n fun x hx => (h' x hx).elim (h x) id

def w5 : Pair := pair0.run P talk

/-- What the message would be at. -/
def w6 : Pair := (w5.reset P false sendExt (listIn [sessName "bob" 1]) "bob" (ascii "bye")).1

def bye : Ending :=
  { who := false, X := sendExt, list := listIn [sessName "bob" 1], msg := ascii "bye"
    Y := { hearExt 86 with list := listIn [sessName "alice" 1] }, id := 103, body := envOf w6 2 "alice"
    atts := [], g := none }

def s5 : Sight := Sight.run {} talk
def d6 : Send.WireData := Send.createMessage 1000 [1, 2, 3] (bye.message setup)
def j6 : Send.JMsg := ((w6.wire[2]?).map Prod.snd).getD ⟨0, 0, 0, []⟩

theorem fits_bye : Content.Fits d6 where
  timestamp := by decide
  flags := by decide
  expireTimer := by decide
  atts := by intro a ha; cases ha
  group := by intro g hg; cases hg
  size := by decide +kernel

theorem sends (n : String) (hn : Send.recidOf n = n) (st : Send.State) (m : Send.OutMsg) (hm : m.destination = n) :
    Within (· = sessName n 1) st.store (Send.sendMessage P sendExt 2 m st).1.store := by
  refine within_send _ P sendExt 2 m st ?_ ?_
  · intro i j d r bd b h1 h2
    have h1 : Res.ok (Send.reply 1 1002) = .ok r := h1
    injection h1 with h1
    rw [← h1, bundle_of_reply] at h2
    injection h2 with h2
    rw [hm, hn, ← (Prod.mk.inj h2).1]
  · intro i j d r bd b h1 h2
    cases h1

theorem hears (n : String) (c : Client) (r : UInt8) (id : Nat) (body : Bytes)
    (hd : Files.decryptReceivedMessage P (List.replicate 52 1) body = .ok body)
    (he : (Content.parseEnvelope body).map (fun e => (e.sourceUuid, e.sourceDevice)) = some (n, 1)) :
    Within (· = sessName n 1) c.send.store (hear P c (hearExt r) id body).1.send.store := by
  refine within_hear _ P c _ id body ?_ (fun uuid b m f _ _ hf s => by
    rw [answers_idle (fun _ _ => rfl) (fun _ _ => rfl) hf]; exact within_refl _ _)
  rintro e ⟨pt, h1, h2⟩ _
  have h1 : Files.decryptReceivedMessage P (List.replicate 52 1) body = .ok pt := h1
  rw [hd] at h1
  injection h1 with h1
  have h2 : Content.parseEnvelope pt = some e := h2
  rw [h1, h2] at he
  injection he with he
  obtain ⟨ha, hb⟩ := Prod.mk.inj he
  rw [ha, hb]

/-- Which client a step changes, and how. -/
theorem step_to (w : Pair) (i : Nat) (X : Receive.Ext) (id : Nat) (body : Bytes) (atts : List Bytes) (g : Option Bytes)
    (who : Bool) (j : Send.JMsg) (h : w.wire[i]? = some (who, j)) :
    (who = false → (w.step P (.deliver i X id body atts g)).1.I = w.I ∧
      (w.step P (.deliver i X id body atts g)).1.R = (hear P w.R X id body).1) ∧
    (who = true → (w.step P (.deliver i X id body atts g)).1.R = w.R ∧
      (w.step P (.deliver i X id body atts g)).1.I = (hear P w.I X id body).1) := by
  rw [pair_deliver P w i X id body atts g who j h]
  constructor <;> rintro rfl <;> exact ⟨rfl, rfl⟩

theorem step_from (w : Pair) (X : Send.SendExt) (m : Send.OutMsg) :
    (w.step P (.send false X m)).1.I.send = (Send.sendMessage P X 2 m w.I.send).1 ∧
    (w.step P (.send true X m)).1.I = w.I ∧
    (w.step P (.send true X m)).1.R.send = (Send.sendMessage P X 2 m w.R.send).1 ∧
    (w.step P (.send false X m)).1.R = w.R := ⟨rfl, rfl, rfl, rfl⟩

theorem at1 : w1.wire[0]? = some (false, j0) := by decide +kernel
theorem at3 : w3.wire[1]? = some (true, j1) := by decide +kernel
theorem at4 : w4.wire[0]? = some (false, j0) := by decide +kernel

theorem w5_eq : w5 = (w4.step P ev5).1 := by
  simp only [w5, talk, Pair.run, List.foldl, w4, w3, w2, w1]

/-- The sessions of the two clients after the talk. -/
theorem alice_sessions : ∀ x, w5.I.send.store.sessions x ≠ .absent → x = sessName "bob" 1 := by
  have e5 : w5.I = w4.I := by
    rw [w5_eq]; unfold ev5
    exact ((step_to w4 0 (hearExt 85) 102 (envOf w1 0 "alice") [[42, 43]] none false j0 at4).1 rfl).1
  have e4 : w4.I = (hear P w3.I (hearExt 84) 101 (envOf w3 1 "bob")).1 := by
    unfold w4 ev4
    exact ((step_to w3 1 (hearExt 84) 101 (envOf w3 1 "bob") [] none true j1 at3).2 rfl).2
  have e3 : w3.I = w2.I := (step_from w2 sendExt answer).2.1
  have e2 : w2.I = w1.I := by
    unfold w2 ev2
    exact ((step_to w1 0 (hearExt 83) 100 (envOf w1 0 "alice") [[42, 43]] none false j0 at1).1 rfl).1
  have e1 : w1.I.send = (Send.sendMessage P sendExt 2 hello pair0.I.send).1 := (step_from pair0 sendExt hello).1
  have h1 := sends "bob" (by decide) pair0.I.send hello rfl
  have h4 := hears "bob" w3.I 84 101 (envOf w3 1 "bob") (by decide +kernel) (by decide +kernel)
  rw [e5, e4]
  refine h4 ?_
  rw [e3, e2, e1]
  exact h1 fun x hx => absurd rfl hx

theorem bob_sessions : ∀ x, w5.R.send.store.sessions x ≠ .absent → x = sessName "alice" 1 := by
  have e5 : w5.R = (hear P w4.R (hearExt 85) 102 (envOf w1 0 "alice")).1 := by
    rw [w5_eq]; unfold ev5
    exact ((step_to w4 0 (hearExt 85) 102 (envOf w1 0 "alice") [[42, 43]] none false j0 at4).1 rfl).2
  have e4 : w4.R = w3.R := by
    unfold w4 ev4
    exact ((step_to w3 1 (hearExt 84) 101 (envOf w3 1 "bob") [] none true j1 at3).2 rfl).1
  have e3 : w3.R.send = (Send.sendMessage P sendExt 2 answer w2.R.send).1 := (step_from w2 sendExt answer).2.2.1
  have e2 : w2.R = (hear P w1.R (hearExt 83) 100 (envOf w1 0 "alice")).1 := by
    unfold w2 ev2
    exact ((step_to w1 0 (hearExt 83) 100 (envOf w1 0 "alice") [[42, 43]] none false j0 at1).1 rfl).2
  have e1 : w1.R = pair0.R := (step_from pair0 sendExt hello).2.2.2
  have h2 := hears "alice" w1.R 83 100 (envOf w1 0 "alice") (by decide +kernel) (by decide +kernel)
  have h3 := sends "alice" (by decide) w2.R.send answer rfl
  have h5 := hears "alice" w4.R 85 102 (envOf w1 0 "alice") (by decide +kernel) (by decide +kernel)
  rw [e5]
  refine h5 ?_
  rw [e4, e3]
  refine h3 ?_
  rw [e2]
  refine h2 ?_
  rw [e1]
  exact fun x hx => absurd rfl hx

set_option maxRecDepth 100000 in
theorem bye_ok : bye.Ok P setup s5 w5 where
  send := { dest := rfl, marshal := rfl, fits := fits_bye, env := fun _ => rfl, srv := fun _ => ⟨false, rfl⟩
            first := by
              intro h
              exact absurd h (by decide +kernel)
            session := by intro h; cases h
            others := only_one (by decide +kernel), self := by decide
            reaches := Or.inl ⟨by decide +kernel, fun _ => rfl⟩ }
  deliver := by
    have hl : w5.wire.length = 2 := by decide +kernel
    have hb : bye.body = envOf w6 2 (senderName setup false) := rfl
    rw [hl, hb]
    have h := deliverReal_core 86 (s5.step (bye.sending setup)) w6 2 false j6 [] (d6, Content.marshalData d6)
      (by decide +kernel) (by decide +kernel) (by decide +kernel) (by decide +kernel) (by decide +kernel)
      (by decide +kernel) List.Forall₂.nil
    exact { env := h.env, rnd := h.rnd, cb := h.cb, contacts := h.contacts, parseEnvelope := h.parseEnvelope
            parseContent := h.parseContent, carried := h.carried
            stored := h.stored, group := h.group }
  list := listing_in _ _ (sends "bob" (by decide) w5.I.send (bye.message setup) rfl alice_sessions)
  lists := lists_in _ _ bob_sessions
  due := by
    intro m hm
    have hl : w5.wire.length = 2 := by decide +kernel
    have hx : (s5.step (bye.sending setup)).abs.log[2]? = some m := by rw [← hl]; exact hm
    have hy : ((s5.step (bye.sending setup)).abs.log[2]?).map (s5.step (bye.sending setup)).abs.expect =
        some .accept := by decide +kernel
    rw [hx] at hy
    simpa using hy

end Demo

open Demo in
/-- The conversation and its end meet the hypotheses of C118. -/
example : setup.Ok P ∧ Addresses setup ∧ Peers setup pair0 ∧ Real P setup {} pair0 talk ∧ bye.Ok P setup s5 w5 ∧
    (setup.spk.pub :: (newPair P setup.rr).pub :: Clients.keysOf P (talk ++ [bye.delivery w5])).Nodup :=
  ⟨setup_ok, addresses, peers0, talk_real, bye_ok, by decide +kernel⟩

namespace Demo

/-- Bob's reply with another prekey. -/
def replyWith (pk : Nat) : Send.PkReply :=
  { Send.reply 1 1002 with devices := (Send.reply 1 1002).devices.map fun d =>
      { d with preKey := some ⟨pk, Encoding.encodeKey bobOpk.pub⟩ } }

def sendWith (pk : Nat) : Send.SendExt :=
  { sendExt with D := fun _ _ => { prekeys := fun _ => .ok (replyWith pk), rb := List.replicate 32 61
                                   rr := List.replicate 32 72 } }

def w7 : Pair := (bye.run P setup w5).1

/-- Bob's prekeys after the end of the session. -/
def offer : Offer :=
  { spk := bobSpk, opk := some bobOpk, rb := List.replicate 32 61, rr := List.replicate 32 72, spkId := 5
    pkId := 0xFFFFFF, bundle := bundle 0xFFFFFF }

set_option maxRecDepth 100000 in
theorem offer_ok : offer.Ok P setup.idR w7.R.send.store where
  spk := pair_valid _
  opk := by intro k hk; injection hk with hk; subst hk; exact pair_valid _
  rb := by decide
  rr := by decide
  spkId := by decide
  pkId := ⟨by decide, by simp [offer]⟩
  bundleId := rfl
  bundleSpk := ⟨rfl, rfl⟩
  bundleOpk := ⟨rfl, rfl⟩
  bundleSig := by decide +kernel
  rSpk := by decide +kernel
  rOpk := by intro k hk; injection hk with hk; subst hk; decide +kernel

def ev8 : CEv := .send false (sendWith 0xFFFFFF) hello
def w8 : Pair := ((w7.turn false).step P ev8).1
def ev9 : CEv := .deliver 0 (hearExt 87) 104 (envOf w8 0 "alice") [[42, 43]] none
def w9 : Pair := (w8.step P ev9).1
def ev10 : CEv := .send true sendExt answer
def w10 : Pair := (w9.step P ev10).1
def ev11 : CEv := .deliver 1 (hearExt 88) 105 (envOf w10 1 "bob") [] none

/-- What the application is told. -/
def told : COut → List Receive.Ev
  | .told evs .waiting => evs
  | _ => []

def helloShown : Receive.AppMsg :=
  { source := "alice", sourceUuid := "alice", message := ascii "hello", timestamp := 1000
    attachments := [[42, 43]], group := none, flags := 0, expireTimer := 0, profileKey := [1, 2, 3] }

def byeShown : Receive.AppMsg :=
  { source := "alice", sourceUuid := "alice", message := ascii "bye", timestamp := 1000
    attachments := [], group := none, flags := 1, expireTimer := 0, profileKey := [1, 2, 3] }

end Demo

open Demo in
/-- What happens in it: Bob sees the end of the session, and both go on talking. -/
example : (bye.run P setup w5).2.1 = some (.ok 1000) ∧
    told (bye.run P setup w5).2.2 = [.enter .data, .onMessage byeShown, .ack 103] ∧
    (Pair.outs P (w7.turn false) [ev8, ev9, ev10, ev11]).map told =
      [[], [.enter .data, .onMessage helloShown, .ack 104], [],
       [.enter .data, .onMessage { source := "bob", sourceUuid := "bob", message := ascii "hi", timestamp := 1000
                                   attachments := [], group := none, flags := 0, expireTimer := 0
                                   profileKey := [1, 2, 3] }, .ack 105]] := by decide +kernel

/-- `EndSession` for any peer and any state. If its message is sent, no device of the peer keeps a session, and the
file of every other address is as the sending left it; if not, the sessions are as the attempt to send left them, and
the error is returned. -/
theorem C118_end_session (P : Prims) (X : Send.SendExt) (fuel : Nat) (list : Store → List Name)
    (uuid : String) (msg : Bytes) (s : Send.State) (hu : uuid ≠ "") :
    let r := Send.sendMessage P X fuel { destination := uuid, msg := msg, flags := 1 } s
    let q := Send.endSession P X fuel list uuid msg s
    let peer := Receive.withoutPlus uuid
    (∀ ts, r.2 = some (.ok ts) → Listing r.1.store (list r.1.store) → q.2 = some (.ok ts) ∧
      (∀ dev, dev < 2 ^ 32 → containsSession q.1.store peer dev = false) ∧
      (∀ n dev, n ≠ peer → q.1.store.sessions (sessName n dev) = r.1.store.sessions (sessName n dev)) ∧
      q.1.devices = r.1.devices ∧ q.1.log = r.1.log) ∧
    ((∀ ts, r.2 ≠ some (.ok ts)) → q = r) := by
  intro r q peer
  obtain ⟨r', hr⟩ : ∃ r', r' = Send.sendMessage P X fuel { destination := uuid, msg := msg, flags := 1 } s := ⟨_, rfl⟩
  have e1 : r = r' := hr.symm
  have e2 : q = Send.endSession P X fuel list uuid msg s := rfl
  rw [e1, e2]
  simp only [Send.endSession, ← hr]
  obtain ⟨s', r''⟩ := r'
  constructor
  · intro ts hts hls
    simp only at hts hls
    subst hts
    simp only [Receive.recID_eq uuid hu]
    obtain ⟨h1, h2⟩ := C11_delete_all s'.store _ peer hls
    exact ⟨trivial, h1, h2, trivial, trivial⟩
  · intro h
    rcases r'' with _ | ⟨t | _ | _⟩
    · rfl
    · exact absurd rfl (h t)
    · rfl
    · rfl

/-! The full statement is refuted: the message that ends a session may be overtaken. -/
namespace Demo

/-- Bob with one more one-time prekey. -/
def bobB : Store := { bob0 with preKeys := fun i => if i = 7 ∨ i = 8 ∨ i = 0xFFFFFF then some bobOpk else none }

def pairB : Pair := ⟨pair0.I, ⟨⟨bobB, fun _ => none, []⟩, fun _ => none⟩, [], 1, 1⟩

def hearB (r : UInt8) : Receive.Ext := { hearExt r with list := listIn [sessName "alice" 1] }

def o1 : Pair := (pairB.step P (.send false sendExt hello)).1
def o2 : Pair × COut := o1.step P (.deliver 0 (hearB 83) 1 (envOf o1 0 "alice") [] none)
def o3 : Pair × Option (Res Nat) := o2.1.reset P false sendExt (listIn [sessName "bob" 1]) "bob" (ascii "bye")
def o4 : Pair × COut := o3.1.step P (.send false (sendWith 8) hello)
def o5 : Pair × COut := o4.1.step P (.deliver 2 (hearB 84) 2 (envOf o4.1 2 "alice") [] none)
def o6 : Pair × COut := o5.1.step P (.deliver 1 (hearB 85) 3 (envOf o4.1 1 "alice") [] none)
def o7 : Pair × COut := o6.1.step P (.send false (sendWith 8) hello)
def o8 : Pair × COut := o7.1.step P (.deliver 3 (hearB 86) 4 (envOf o7.1 3 "alice") [] none)

def wasSent : COut → Bool
  | .sent (some (.ok _)) => true
  | _ => false

end Demo

open Demo in
/-- C118 refuted for any order of arrival: Alice says hello, ends the session, and says hello again. The server
delivers the second hello before the end of the session: Bob sees it, in the new session. When the end of the old
session arrives, Bob's client deletes the new one too. What Alice sends then, successfully, Bob never sees. -/
theorem C118_overtaken_end_loses : told o2.2 = [.enter .data, .onMessage helloShown, .ack 1] ∧
    o3.2 = some (.ok 1000) ∧ wasSent o4.2 = true ∧ told o5.2 = [.enter .data, .onMessage helloShown, .ack 2] ∧
    told o6.2 = [.enter .data, .onMessage byeShown, .ack 3] ∧
    wasSent o7.2 = true ∧ told o8.2 = [.ack 4] := by decide +kernel

/-! ## C119 -/

/-- A client without a session with the sender, and a message that needs one or that names a one-time prekey that is
gone: nothing is shown and the client is as before. -/
theorem C119_without_session_partial (P : Prims) (S : Setup) (X : Receive.Ext) (who : Bool) (b : Bytes) (ty : MsgType)
    (id : Nat) (body : Bytes) (c : Client) (h : Heard P S X who b ty body)
    (hno : c.send.store.sessions (sessName (senderName S who) (senderDev S who)) = .absent)
    (hty : ty = .whisper ∨
      ∃ pm, loadPreKeyMsg b = .ok pm ∧ pm.preKeyId ≠ 0 ∧ c.send.store.preKeys pm.preKeyId = none) :
    ∃ evs e, hear P c X id body = (c, .told evs e) ∧ ∀ x ∈ evs, x = .ack id := by
  obtain ⟨hw1, hr1⟩ := receive_none P X.rnd c.send.store _ _ b ty hno hty
  obtain ⟨hw2, hr2⟩ := receive_none P X.rnd' c.send.store _ _ b ty hno hty
  obtain ⟨_, _, h3⟩ := hear_eq P S X who b ty id body c h
  simp only [hw1, Api.applyWrites_nil, hw2] at h3
  obtain ⟨evs, e, hh, hev⟩ := h3 hr1
  exact ⟨evs, e, hh.elim (fun h => h) (fun h => h), hev⟩

/-- C119. After the end of a session (C118), messages of that session that arrive late are not shown and change
nothing: all but those that would begin a session, and of these those whose one-time prekey is used up. -/
theorem C119_late_messages_partial (P : Prims) (S : Setup) (hS : S.Ok P) (hA : Addresses S) (w : Pair) (hw : Peers S w)
    (evs : List CEv) (hl : Real P S {} w evs) (e : Ending) (he : e.Ok P S (Sight.run {} evs) (w.run P evs))
    (hk : (S.spk.pub :: (newPair P S.rr).pub :: Clients.keysOf P (evs ++ [e.delivery (w.run P evs)])).Nodup)
    (hn : evs.length + 2 < 2 ^ 32 - 1) (X : Receive.Ext) (who : Bool) (b : Bytes) (ty : MsgType)
    (id : Nat) (body : Bytes) (h : Heard P S X who b ty body) :
    let c := if who then (e.run P S (w.run P evs)).1.I else (e.run P S (w.run P evs)).1.R
    (ty = .whisper ∨ ∃ pm, loadPreKeyMsg b = .ok pm ∧ pm.preKeyId ≠ 0 ∧ c.send.store.preKeys pm.preKeyId = none) →
    ∃ evs e, hear P c X id body = (c, .told evs e) ∧ ∀ x ∈ evs, x = .ack id := by
  intro c hty
  have h3 := (C118_fresh_start_partial P S hS hA w hw evs hl e he hk hn).2.2.1
  refine C119_without_session_partial P S X who b ty id body c h (absent_of ?_) hty
  cases who with
  | false => exact (h3 S.devI hA.devI).2
  | true => exact (h3 S.devR hA.devR).1

open Demo in
/-- Bob is sent Alice's first message, which names a prekey that is used up, once more after the end of the session: it is
acknowledged and not shown. So is, to Alice, Bob's answer of that session. -/
example : Heard P setup (hearExt 89) false ((Encoding.b64Quanta j0.content).getD []) .prekey (envOf w1 0 "alice") ∧
    (loadPreKeyMsg ((Encoding.b64Quanta j0.content).getD [])).isOk = true ∧
    (match hear P w7.R (hearExt 89) 110 (envOf w1 0 "alice"), hear P w7.I (hearExt 90) 111 (envOf w3 1 "bob") with
      | (_, .told a _), (_, .told b _) => (a, b)
      | _, _ => ([], [])) = ([.ack 110], [.ack 111]) := by
  refine ⟨⟨rfl, by decide +kernel, by decide +kernel, ?_⟩, by decide +kernel, by decide +kernel⟩
  have h : (match Files.decryptReceivedMessage P (hearExt 89).signalingKey (envOf w1 0 "alice") with
      | .ok pt => (match (hearExt 89).parseEnvelope pt with
        | some e => decide (e.type = some (Send.typeNum .prekey) ∧ e.sourceUuid = senderName setup false ∧
            e.sourceDevice = senderDev setup false ∧ e.content = some ((Encoding.b64Quanta j0.content).getD []))
        | none => false)
      | _ => false) = true := by decide +kernel
  split at h
  · next pt hpt =>
    split at h
    · next e he => exact ⟨pt, e, hpt, he, of_decide_eq_true h⟩
    · cases h
  · cases h

/-! Refutation: messages that begin a session with the prekey that is never used up. -/
namespace Demo

def p1 : Pair := (pair0.step P (.send false (sendWith 0xFFFFFF) hello)).1
def p2 : Pair × COut := p1.step P (.deliver 0 (hearB 83) 1 (envOf p1 0 "alice") [] none)
def p3 : Pair × Option (Res Nat) := p2.1.reset P false sendExt (listIn [sessName "bob" 1]) "bob" (ascii "bye")
def p4 : Pair × COut := p3.1.step P (.deliver 1 (hearB 84) 2 (envOf p3.1 1 "alice") [] none)
def p5 : Pair × COut := p4.1.step P (.deliver 0 (hearB 85) 3 (envOf p1 0 "alice") [] none)
def p6 : Pair × COut := p5.1.step P (.send true sendExt answer)
def p7 : Pair × COut := p6.1.step P (.deliver 2 (hearExt 86) 4 (envOf p6.1 2 "bob") [] none)

end Demo

open Demo in
/-- C119 refuted: Alice says hello (with Bob's last prekey) and ends the session; Bob has received both. The server
delivers the hello a second time: Bob is shown it again. Bob's answer is sent in the session that this has brought
back; Alice, who has forgotten it, never sees the answer. -/
theorem C119_shown_again : told p2.2 = [.enter .data, .onMessage helloShown, .ack 1] ∧ p3.2 = some (.ok 1000) ∧
    told p4.2 = [.enter .data, .onMessage byeShown, .ack 2] ∧
    told p5.2 = [.enter .data, .onMessage helloShown, .ack 3] ∧ wasSent p6.2 = true ∧
    told p7.2 = [.ack 4] := by decide +kernel

end Verif.Props
