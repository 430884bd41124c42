import Verif.Proof.Clients
import Verif.Spec.Linked
/-!
# Proofs about two devices of one account
-/
namespace Verif.Linked
open Verif Verif.Keys Verif.Messages Verif.Session Verif.Api Verif.Conv Verif.Clients

/-- Sending to the devices of an account, when for one of them the session (possibly after building it) encrypts. -/
theorem sendLoop_many (P : Prims) (D : Nat → Nat → Send.DevExt) (srv : Nat → Send.Request → Send.Reply) (n : String)
    (pt : Bytes) (ts fuel : Nat) (s : Send.State) (dev : Nat) (k : Bytes)
    (hn : Receive.recID n = .ok n) (henv : ∀ i, (D 0 i).env = {}) (hs : ∀ r, ∃ linked, srv 0 r = .ok linked)
    (hdev : dev ∈ s.devs n ∧ (s.devs n).Nodup)
    (hoth : ∀ i d, (s.devs n)[i]? = some d → d ≠ dev →
      ∀ r bd b, (D 0 i).prekeys d = .ok r → Send.makeBundle r = .ok (bd, b) → bd = d ∧ b.identityKey = k)
    (hr : ∃ r, (Send.sendLoop P D srv n pt ts (fuel + 1) 0 s).2 = some (.ok r))
    (hready : ∀ i st1, (s.devs n)[i]? = some dev → Aside n dev k s.store st1 → ∃ st2 ct ty rr,
      Send.ensureSession P (D 0 i) st1 n dev = (st2, .ok ()) ∧
      (encryptMsg P {} st2 n dev pt).res = .ok (ct, ty) ∧
      remoteRegId (applyWrites st2 (encryptMsg P {} st2 n dev pt).writes) n dev = .ok rr) :
    ∃ i st1 st2 ct ty rr, (s.devs n)[i]? = some dev ∧ Aside n dev k s.store st1 ∧
      Send.ensureSession P (D 0 i) st1 n dev = (st2, .ok ()) ∧
      (encryptMsg P {} st2 n dev pt).res = .ok (ct, ty) ∧
      Aside n dev k (applyWrites st2 (encryptMsg P {} st2 n dev pt).writes)
        (Send.sendLoop P D srv n pt ts (fuel + 1) 0 s).1.store ∧
      newMsgs n dev s.log (Send.sendLoop P D srv n pt ts (fuel + 1) 0 s).1.log =
        [⟨Send.typeNum ty, dev, rr, Encoding.b64Encode ct⟩] ∧
      (Send.sendLoop P D srv n pt ts (fuel + 1) 0 s).1.devices = s.devices := by
  obtain ⟨L, hL⟩ : ∃ L, L = s.devs n := ⟨_, rfl⟩
  rw [← hL] at hdev hoth hready ⊢
  obtain ⟨pre, post, hsplit⟩ := List.append_of_mem hdev.1
  have hat : L[pre.length]? = some dev := by rw [hsplit]; simp
  have hnd : dev ∉ pre ∧ dev ∉ post := by
    have h0 := hdev.2
    rw [hsplit, List.nodup_append, List.nodup_cons] at h0
    exact ⟨fun h => h0.2.2 dev h dev List.mem_cons_self rfl, h0.2.1.1⟩
  have hpre : Aside n dev k s.store (Send.buildLoop P (D 0) n pt 0 pre s.store).1 := by
    refine buildLoop_aside P n dev k (D 0) n pt pre 0 s.store ?_
    intro j d hj
    have hlt := (List.getElem?_eq_some_iff.mp hj).1
    have hne : d ≠ dev := fun he => hnd.1 (he ▸ List.mem_of_getElem? hj)
    refine Or.inr ⟨hne, ?_⟩
    rw [Nat.zero_add]
    refine hoth j d ?_ hne
    rw [hsplit, List.getElem?_append_left hlt]; exact hj
  have hbm : Send.buildMessage P (D 0) s.store n pt (s.devs n) =
      Send.buildLoop P (D 0) n pt 0 (pre ++ dev :: post) s.store := by
    unfold Send.buildMessage
    rw [hn, ← hL, hsplit]
  rw [buildLoop_append] at hbm
  rcases hp : Send.buildLoop P (D 0) n pt 0 pre s.store with ⟨st1, r1⟩
  rw [hp] at hpre hbm
  obtain ⟨st2, ct, ty, rr, hens, hres, hrr⟩ := hready pre.length st1 hat hpre
  have hone : Send.buildOne P (D 0 pre.length) st1 n dev pt =
      (applyWrites st2 (encryptMsg P {} st2 n dev pt).writes, .ok ⟨Send.typeNum ty, dev, rr, Encoding.b64Encode ct⟩) := by
    simp only [Send.buildOne, hens, henv, hres, hrr]
  obtain ⟨st3, hst3⟩ : ∃ st3, st3 = applyWrites st2 (encryptMsg P {} st2 n dev pt).writes := ⟨_, rfl⟩
  rw [← hst3] at hone
  have hpost : Aside n dev k st3 (Send.buildLoop P (D 0) n pt (pre.length + 1) post st3).1 := by
    refine buildLoop_aside P n dev k (D 0) n pt post _ st3 ?_
    intro j d hj
    have hne : d ≠ dev := fun he => hnd.2 (he ▸ List.mem_of_getElem? hj)
    refine Or.inr ⟨hne, hoth _ d ?_ hne⟩
    rw [hsplit, List.getElem?_append_right (by omega), show pre.length + 1 + j - pre.length = j + 1 by omega]
    simpa using hj
  rcases hq : Send.buildLoop P (D 0) n pt (pre.length + 1) post st3 with ⟨st4, r4⟩
  rw [hq] at hpost
  have hmid : Send.buildLoop P (D 0) n pt (0 + pre.length) (dev :: post) st1 = match (st4, r4) with
      | (st2, .ok ms) => (st2, .ok (⟨Send.typeNum ty, dev, rr, Encoding.b64Encode ct⟩ :: ms))
      | r => r := by
    simp only [Send.buildLoop, Nat.zero_add, hone, hq]
    cases r4 <;> rfl
  obtain ⟨ms1, ms4, e1, e4⟩ : ∃ ms1 ms4, r1 = .ok ms1 ∧ r4 = .ok ms4 := by
    obtain ⟨r, hr⟩ := hr
    simp only [Send.sendLoop, hbm] at hr
    cases r1 with
    | err e => simp at hr
    | panic => simp at hr
    | ok ms1 =>
      simp only [hmid] at hr
      cases r4 with
      | err e => simp at hr
      | panic => simp at hr
      | ok ms4 => exact ⟨ms1, ms4, rfl, rfl⟩
  subst e1 e4
  simp only [hmid] at hbm
  have hf : (ms1 ++ (⟨Send.typeNum ty, dev, rr, Encoding.b64Encode ct⟩ :: ms4)).filter (fun j => j.dev = dev) =
      [⟨Send.typeNum ty, dev, rr, Encoding.b64Encode ct⟩] := by
    rw [List.filter_append, filter_dev_none ms1 dev (by rw [buildLoop_devs P _ n pt pre _ _ _ _ hp]; exact hnd.1),
      List.filter_cons_of_pos (by simp),
      filter_dev_none ms4 dev (by rw [buildLoop_devs P _ n pt post _ _ _ _ hq]; exact hnd.2)]
    rfl
  obtain ⟨ms, hms⟩ : ∃ ms, ms = ms1 ++ (⟨Send.typeNum ty, dev, rr, Encoding.b64Encode ct⟩ :: ms4) := ⟨_, rfl⟩
  rw [← hms] at hf hbm
  obtain ⟨linked, hlk⟩ := hs ⟨n, ts, ms⟩
  obtain ⟨s', hs'⟩ : ∃ s' : Send.State, s' = { s with store := st4, log := s.log ++ [⟨n, ts, ms⟩] } := ⟨_, rfl⟩
  have hloop : Send.sendLoop P D srv n pt ts (fuel + 1) 0 s = (s', some (.ok ⟨linked, ts⟩)) := by
    unfold Send.sendLoop
    rw [hbm]
    simp only [hlk, hs']
  refine ⟨pre.length, st1, st2, ct, ty, rr, hat, hpre, hens, hres, ?_, ?_, ?_⟩
  · rw [hloop, ← hst3, hs']; exact hpost
  · rw [hloop, hs']
    simp [newMsgs, hf]
  · rw [hloop, hs']

/-- A call that succeeded was accepted by the server, which said so. -/
theorem sendLoop_reply (P : Prims) (D : Nat → Nat → Send.DevExt) (srv : Nat → Send.Request → Send.Reply) (n : String)
    (pt : Bytes) (ts fuel : Nat) : ∀ (k : Nat) (s : Send.State) (r : Send.Response),
    (Send.sendLoop P D srv n pt ts fuel k s).2 = some (.ok r) →
    r.ts = ts ∧ ∃ k' q, srv k' q = .ok r.needsSync := by
  induction fuel with
  | zero => intro k s r h; simp [Send.sendLoop] at h
  | succ fuel ih =>
    intro k s r h
    unfold Send.sendLoop at h
    rcases hb : Send.buildMessage P (D k) s.store n pt (s.devs n) with ⟨st1, rb⟩
    rw [hb] at h
    cases rb with
    | err e => simp at h
    | panic => simp at h
    | ok ms =>
      simp only at h
      rcases hq : srv k ⟨n, ts, ms⟩ with _ | _ | ns | ⟨a, b⟩ | l
      all_goals rw [hq] at h
      all_goals simp only at h
      all_goals first
        | exact ih _ _ _ h
        | (simp only [Option.some.injEq, Res.ok.injEq] at h
           subst h
           exact ⟨rfl, k, _, hq⟩)
        | simp at h

theorem newMsgs_append (n : String) (dev : Nat) (a b c l : List Send.Request) (h : b = a ++ l)
    (hl : ∀ r ∈ l, r.dest ≠ n) (hc : ∃ l', c = b ++ l') : newMsgs n dev a c = newMsgs n dev b c := by
  obtain ⟨l', rfl⟩ := hc
  subst h
  unfold newMsgs
  rw [List.drop_left, List.append_assoc, List.drop_left, List.flatMap_append]
  have : l.flatMap (fun r => if r.dest = n then r.msgs.filter (fun j => j.dev = dev) else []) = [] := by
    rw [List.flatMap_eq_nil_iff]
    intro r hr
    rw [if_neg (hl r hr)]
  rw [this, List.nil_append]

/-- The log only grows. -/
theorem sendLoop_log (P : Prims) (D : Nat → Nat → Send.DevExt) (srv : Nat → Send.Request → Send.Reply) (n : String)
    (pt : Bytes) (ts fuel : Nat) : ∀ (k : Nat) (s : Send.State),
    ∃ l, (Send.sendLoop P D srv n pt ts fuel k s).1.log = s.log ++ l := by
  induction fuel with
  | zero => intro k s; exact ⟨[], by simp [Send.sendLoop]⟩
  | succ fuel ih =>
    intro k s
    unfold Send.sendLoop
    rcases hb : Send.buildMessage P (D k) s.store n pt (s.devs n) with ⟨st1, rb⟩
    cases rb with
    | err e => exact ⟨[], by simp⟩
    | panic => exact ⟨[], by simp⟩
    | ok ms =>
      simp only
      split
      · exact ⟨_, rfl⟩
      · exact ⟨_, rfl⟩
      · exact ⟨_, rfl⟩
      · obtain ⟨l, hl⟩ := ih (k + 1) _
        exact ⟨_, by rw [hl, List.append_assoc]⟩
      · obtain ⟨l, hl⟩ := ih (k + 1) _
        exact ⟨_, by rw [hl, List.append_assoc]⟩

/-- A successful call whose message the server accepted with the remark that there are linked devices: the message
for the other device. -/
theorem sendMessage_linked (P : Prims) (X : Send.SendExt) (m : Send.OutMsg) (fuel : Nat) (s : Send.State) (n : String)
    (dev : Nat) (k : Bytes) (b : Bytes)
    (hself : X.self = n) (hn : Receive.recID n = .ok n) (hdst : Send.recidOf m.destination ≠ n)
    (hm : X.marshalSync (Wrote.transcript ⟨m, X.now, X.profileKey⟩) = .ok b)
    (hlink : ∀ k r l, X.srv k r = .ok l → l = true)
    (henv : ∀ i, (X.D' 0 i).env = {}) (hs : ∀ r, ∃ l, X.srv' 0 r = .ok l)
    (hdev : dev ∈ (s.devices n).getD [1] ∧ ((s.devices n).getD [1]).Nodup)
    (hoth : ∀ i d, ((s.devices n).getD [1])[i]? = some d → d ≠ dev →
      ∀ r bd b, (X.D' 0 i).prekeys d = .ok r → Send.makeBundle r = .ok (bd, b) → bd = d ∧ b.identityKey = k)
    (hr : ∃ ts, (Send.sendMessage P X fuel m s).2 = some (.ok ts))
    (hready : ∀ i st1, ((s.devices n).getD [1])[i]? = some dev → Aside n dev k s.store st1 → ∃ st2 ct ty rr,
      Send.ensureSession P (X.D' 0 i) st1 n dev = (st2, .ok ()) ∧
      (encryptMsg P {} st2 n dev (Files.padMessage b)).res = .ok (ct, ty) ∧
      remoteRegId (applyWrites st2 (encryptMsg P {} st2 n dev (Files.padMessage b)).writes) n dev = .ok rr) :
    ∃ i st1 st2 ct ty rr, ((s.devices n).getD [1])[i]? = some dev ∧ Aside n dev k s.store st1 ∧
      Send.ensureSession P (X.D' 0 i) st1 n dev = (st2, .ok ()) ∧
      (encryptMsg P {} st2 n dev (Files.padMessage b)).res = .ok (ct, ty) ∧
      Aside n dev k (applyWrites st2 (encryptMsg P {} st2 n dev (Files.padMessage b)).writes)
        (Send.sendMessage P X fuel m s).1.store ∧
      (Send.sendMessage P X fuel m s).2 = some (.ok (m.timestamp.getD X.now)) ∧
      newMsgs n dev s.log (Send.sendMessage P X fuel m s).1.log =
        [⟨Send.typeNum ty, dev, rr, Encoding.b64Encode ct⟩] ∧
      (Send.sendMessage P X fuel m s).1.devices n = some ((s.devices n).getD [1]) := by
  have hne : n ≠ m.destination := by
    intro he
    rw [← he] at hdst
    exact hdst (by simp [Send.recidOf, hn])
  obtain ⟨ts, hr⟩ := hr
  rcases hb : X.marshal (Send.createMessage X.now X.profileKey m) with b0 | e | _
  · obtain ⟨ha, hdv, l, hlog, hl⟩ := sendLoop_aside P n dev k X.D X.srv m.destination (Files.padMessage b0)
      (Send.createMessage X.now X.profileKey m).timestamp hdst fuel 0 (Send.withDefault s m.destination)
    have hrep := sendLoop_reply P X.D X.srv m.destination (Files.padMessage b0)
      (Send.createMessage X.now X.profileKey m).timestamp fuel 0 (Send.withDefault s m.destination)
    rcases hq : Send.sendLoop P X.D X.srv m.destination (Files.padMessage b0)
      (Send.createMessage X.now X.profileKey m).timestamp fuel 0 (Send.withDefault s m.destination) with ⟨s', q⟩
    rw [hq] at ha hdv hlog hrep
    simp only at ha hdv hlog hrep
    have ha : Aside n dev k s.store s'.store := ha
    have hdv : s'.devices n = s.devices n := by
      rw [hdv n hne]
      simp [Send.withDefault, hne]
    have hlog : s'.log = s.log ++ l := hlog
    rcases q with _ | (r | e | _)
    · simp [Send.sendMessage, hb, hq] at hr
    · obtain ⟨hts, k', q', hk'⟩ := hrep r rfl
      have hneeds : r.needsSync = true := hlink _ _ _ hk'
      have hsm : Send.sendMessage P X fuel m s =
          match Send.sendSync P X fuel (Wrote.transcript ⟨m, X.now, X.profileKey⟩) s' with
          | (s'', none) => (s'', none)
          | (s'', some .panic) => (s'', some .panic)
          | (s'', some _) => (s'', some (.ok r.ts)) := by
        simp only [Send.sendMessage, hb, hq, hneeds, Bool.true_eq_false, if_false]
        have ht : (⟨if m.destination.toList.head? = some '+' then some m.destination else none,
            if m.destination.toList.head? = some '+' then none else some m.destination,
            (Send.createMessage X.now X.profileKey m).timestamp, Send.createMessage X.now X.profileKey m⟩ :
            Send.Transcript) = Wrote.transcript ⟨m, X.now, X.profileKey⟩ := rfl
        rw [ht]
        generalize Send.sendSync P X fuel _ s' = q
        rcases q with ⟨s'', _ | (_ | _ | _)⟩ <;> rfl
      obtain ⟨s1, hs1⟩ : ∃ s1, s1 = Send.withDefault s' n := ⟨_, rfl⟩
      have hdevs : s1.devs n = (s.devices n).getD [1] := by
        rw [hs1]
        simp [Send.State.devs, Send.withDefault, hdv]
      obtain ⟨tr, htr⟩ : ∃ tr, tr = Wrote.transcript ⟨m, X.now, X.profileKey⟩ := ⟨_, rfl⟩
      rw [← htr] at hm hsm
      have hsy : Send.sendSync P X fuel tr s' =
          match Send.sendLoop P X.D' X.srv' n (Files.padMessage b) tr.timestamp fuel 0 s1 with
          | (s', none) => (s', none)
          | (s', some (.ok r)) => (s', some (.ok r.ts))
          | (s', some (.err _)) => (s', some .panic)
          | (s', some .panic) => (s', some .panic) := by
        simp only [Send.sendSync, hm, hself, hs1]
        generalize Send.sendLoop P X.D' X.srv' n _ _ fuel 0 _ = q
        rcases q with ⟨s'', _ | (_ | _ | _)⟩ <;> rfl
      rcases fuel with _ | fuel
      · rw [hsy] at hsm
        rw [hsm] at hr
        simp [Send.sendLoop] at hr
      have hmany := sendLoop_many P X.D' X.srv' n (Files.padMessage b) tr.timestamp fuel s1 dev k hn henv hs
        (by rw [hdevs]; exact hdev) (by rw [hdevs]; exact hoth)
      have hgrow := sendLoop_log P X.D' X.srv' n (Files.padMessage b) tr.timestamp (fuel + 1) 0 s1
      rcases hz : Send.sendLoop P X.D' X.srv' n (Files.padMessage b) tr.timestamp (fuel + 1) 0 s1 with ⟨s2, z⟩
      rw [hz] at hmany hsy hgrow
      have hlog1 : s1.log = s'.log := by rw [hs1]; rfl
      have hst1 : s1.store = s'.store := by rw [hs1]; rfl
      rcases z with _ | (z | e | _)
      · rw [hsm, hsy] at hr; simp at hr
      · obtain ⟨i, st1, st2, ct, ty, rr, g1, g2, g3, g4, g5, g6, g7⟩ := hmany ⟨z, rfl⟩ (by
          intro i st1 hi hst
          rw [hdevs] at hi
          rw [hst1] at hst
          exact hready i st1 hi (ha.trans hst))
        rw [hdevs] at g1
        rw [hst1] at g2
        simp only at g5 g6 g7 hgrow
        have hfin : Send.sendMessage P X (fuel + 1) m s = (s2, some (.ok r.ts)) := by rw [hsm, hsy]
        refine ⟨i, st1, st2, ct, ty, rr, g1, ha.trans g2, g3, g4, ?_⟩
        rw [hfin]
        refine ⟨g5, ?_, ?_, ?_⟩
        · rw [hts]; rfl
        · rw [← g6, hlog1]
          rw [hlog1] at hgrow
          refine newMsgs_append n dev s.log s'.log s2.log l hlog ?_ hgrow
          intro r hr
          rw [hl r hr]
          exact fun h => hne h.symm
        · show s2.devices n = _
          rw [g7, hs1]
          simp [Send.withDefault, hdv]
      · rw [hsm, hsy] at hr; simp at hr
      · rw [hsm, hsy] at hr; simp at hr
    · simp [Send.sendMessage, hb, hq] at hr
    · simp [Send.sendMessage, hb, hq] at hr
  · simp [Send.sendMessage, hb] at hr
  · simp [Send.sendMessage, hb] at hr

/-! ## The relation -/

/-- As a conversation: the transcripts are the messages. -/
def Sight.plain (s : Sight) : Clients.Sight :=
  ⟨s.abs, s.said.map (fun x => (x.transcript.message, x.bytes))⟩

/-- One step: the outcome agrees and the relation of two clients is kept. -/
def StepOk (P : Prims) (S : Setup) (G : List Epoch) (s : Sight) (w : Pair) (ev : LEv) : Prop :=
  Agree (s.want ev) (step P w ev).2 ∧ ∃ G' cw', CRel P S G' (s.step ev).plain (step P w ev).1 cw' ∧
    (G' = G ∨ ∃ g, G' = G ++ [g] ∧ g.kp.pub ∈ keysOf P [ev])

theorem step_other {P : Prims} {S : Setup} {G : List Epoch} {s : Sight} {w : Pair} {cw : Conv.World}
    (h : CRel P S G s.plain w cw) (who : Bool) (c : Client) (hl : OtherOk S w who c) :
    StepOk P S G s w (.other who c) := by
  obtain ⟨_, G', cw', h1, h2⟩ := cstep_other h who c hl
  have he : (step P w (.other who c)).1 = (w.step P (.other who c)).1 := by cases who <;> rfl
  refine ⟨?_, G', cw', ?_, ?_⟩
  · cases who <;> trivial
  · rw [he]
    exact h1
  · rcases h2 with h2 | ⟨g, _, h2⟩
    · exact Or.inl h2
    · simp [Clients.keysOf] at h2

theorem said_nil {s : Sight} (h : s.plain.said = []) : s.said = [] := by
  simpa [Sight.plain] using h

theorem step_send {P : Prims} {S : Setup} {G : List Epoch} {s : Sight} {w : Pair} {cw : Conv.World}
    (hU : S.nameI = S.nameR) (hS : S.Ok P) (hN : Named S) (hne : S.spk.pub ≠ (newPair P S.rr).pub)
    (h : CRel P S G s.plain w cw)
    (who : Bool) (X : Send.SendExt) (fuel : Nat) (m : Send.OutMsg)
    (hl : SendReal P S s w who X fuel m) (hb : s.abs.log.length + 2 < u32) : StepOk P S G s w (.send who X fuel m) := by
  obtain ⟨x, hx⟩ : ∃ x : Wrote, x = ⟨m, X.now, X.profileKey⟩ := ⟨_, rfl⟩
  obtain ⟨b, hbx⟩ : ∃ b, b = x.bytes := ⟨_, rfl⟩
  have hm : X.marshalSync (Wrote.transcript ⟨m, X.now, X.profileKey⟩) = .ok b := by
    rw [hl.marshal, hbx, hx]; rfl
  have hlen : b.length < 2 ^ 59 := by rw [hbx, hx]; exact hl.fits.size
  obtain ⟨pt, hpt⟩ : ∃ pt, pt = Files.padMessage b := ⟨_, rfl⟩
  have hptl : pt.length < 2 ^ 60 := by rw [hpt]; exact pad_len b hlen
  have hboth : senderName S who = senderName S (!who) := by
    cases who
    · exact hU
    · exact hU.symm
  have hself : X.self = senderName S (!who) := hl.self.trans hboth
  have hdst : Send.recidOf m.destination ≠ senderName S (!who) := by rw [← hboth]; exact hl.elsewhere
  have hname : Receive.recID (senderName S (!who)) = .ok (senderName S (!who)) := by
    cases who
    · exact hN.nameR
    · exact hN.nameI
  have habs : s.plain.abs = s.abs := rfl
  -- what encrypting does
  have enc : ∀ st2, Rel P S G s.abs (put cw (!who) st2) → ∃ ct ty rr,
      (encryptMsg P {} st2 (senderName S (!who)) (senderDev S (!who)) pt).res = .ok (ct, ty) ∧
      remoteRegId (applyWrites st2 (encryptMsg P {} st2 (senderName S (!who)) (senderDev S (!who)) pt).writes)
        (senderName S (!who)) (senderDev S (!who)) = .ok rr ∧
      Rel P S G (s.abs.step (.send who pt)) { put cw (!who) (applyWrites st2
        (encryptMsg P {} st2 (senderName S (!who)) (senderDev S (!who)) pt).writes) with
        wire := cw.wire ++ [(who, ct, ty)] } := by
    intro st2 hr
    have hst := Conv.step_send hS hr who pt ⟨hl.session, hptl⟩ hb
    obtain ⟨ct, ty, hres⟩ := sent_ok hst
    have hg : (if who then (put cw (!who) st2).R else (put cw (!who) st2).I) = st2 := by cases who <;> rfl
    rw [hg] at hres
    obtain ⟨_, G', hrel, hG⟩ := hst
    have hG' : G' = G := by
      rcases hG with h | ⟨g, i, rnd, h, _⟩
      · exact h
      · cases h
    subst hG'
    rw [conv_send P S _ who pt ct ty st2 (get_put cw (!who) st2) hres, put_put, put_wire] at hrel
    refine ⟨ct, ty, ?_⟩
    obtain ⟨st3, hst3⟩ : ∃ st3, st3 = applyWrites st2
      (encryptMsg P {} st2 (senderName S (!who)) (senderDev S (!who)) pt).writes := ⟨_, rfl⟩
    rw [← hst3] at hrel ⊢
    have hgood : ∃ r, st3.sessions (Names.sessName (senderName S (!who)) (senderDev S (!who))) = .good r := by
      cases who with
      | false =>
        obtain ⟨r, hr, _⟩ := hrel.sessI
        exact ⟨r, hr⟩
      | true =>
        obtain ⟨r, hr, _⟩ := hrel.sessR (hl.session rfl)
        exact ⟨r, hr⟩
    obtain ⟨r, hr⟩ := hgood
    obtain ⟨rr, hrr⟩ := remoteReg_good hr
    exact ⟨rr, hres, hrr, hrel⟩
  have hrdy := ready hS hne h who
  have hdev : senderDev S (!who) ∈ ((w.client who).send.devices (senderName S (!who))).getD [1] ∧
      (((w.client who).send.devices (senderName S (!who))).getD [1]).Nodup := by
    cases who
    · exact h.devR
    · exact h.devI
  have hfst : ∀ i, (((w.client who).send.devices (senderName S (!who))).getD [1])[i]? = some (senderDev S (!who)) →
      who = false → s.plain.said = [] → (X.D' 0 i).rb = S.rb ∧ (X.D' 0 i).rr = S.rr ∧
      ∃ r, (X.D' 0 i).prekeys S.devR = .ok r ∧ Send.makeBundle r = .ok (S.devR, S.bundle) := by
    intro i hi hw h0
    subst hw
    refine hl.first (said_nil h0) i ?_
    rw [hself]
    exact hi
  have hoth := hl.others
  simp only [Client.devs, hself] at hoth
  obtain ⟨i, st1, st2, ct, ty, rr, hi, ha1, hens, hres, ha3, hout, hnew, hdv⟩ :=
    sendMessage_linked P X m fuel (w.client who).send (senderName S (!who)) (senderDev S (!who)) (senderKey S (!who)) b
      hself hname hdst hm hl.linked hl.env hl.srv hdev hoth hl.succeeds (by
        intro i st1 hi ha
        obtain ⟨st2, e1, e2, _⟩ := hrdy (X.D' 0 i) st1 (hl.env i) hl.session (hfst i hi) ha
        obtain ⟨ct, ty, rr, e3, e4, _⟩ := enc st2 e2
        rw [hpt] at e3 e4
        exact ⟨st2, ct, ty, rr, e1, e3, e4⟩)
  rw [← hpt] at hres ha3
  obtain ⟨st2', e1, e2, e3, e4⟩ := hrdy (X.D' 0 i) st1 (hl.env i) hl.session (hfst i hi) ha1
  rw [hens] at e1
  cases e1
  obtain ⟨ct', ty', rr', g1, g2, g3⟩ := enc st2 e2
  rw [hres] at g1
  cases g1
  obtain ⟨st3, hst3⟩ : ∃ st3, st3 = applyWrites st2
      (encryptMsg P {} st2 (senderName S (!who)) (senderDev S (!who)) pt).writes := ⟨_, rfl⟩
  have hown3 : st3.identity = st2.identity ∧ st3.regId = st2.regId := by rw [hst3]; exact applyWrites_own _ st2
  rw [← hst3] at ha3 g3
  obtain ⟨s', hs'⟩ : ∃ s', s' = (Send.sendMessage P X fuel m (w.client who).send).1 := ⟨_, rfl⟩
  rw [← hs'] at ha3 hnew hdv
  have hfin := rel_apart g3 (!who) s'.store (by
      rw [show get { put cw (!who) st3 with wire := cw.wire ++ [(who, ct, ty)] } (!who) = st3 by cases who <;> rfl]
      exact ha3.toApart)
    (by
      intro hw
      have hw : who = true := by cases who; cases hw; rfl
      subst hw
      exact ⟨fun _ _ => congrFun ha3.preKeys _, congrFun ha3.signedPreKeys _⟩)
  rw [show put { put cw (!who) st3 with wire := cw.wire ++ [(who, ct, ty)] } (!who) s'.store =
    { put cw (!who) s'.store with wire := cw.wire ++ [(who, ct, ty)] } by cases who <;> rfl] at hfin
  have hsa : (s.step (.send who X fuel m)).abs = s.abs.step (.send who pt) := by
    simp only [Sight.step, ← hx, ← hbx, hpt]
  have hss : (s.step (.send who X fuel m)).plain.said = s.plain.said ++ [(x.transcript.message, b)] := by
    simp only [Sight.step, Sight.plain, ← hx, hbx, List.map_append, List.map_cons, List.map_nil]
  have hsaid : List.Forall₂ Said (s.step (.send who X fuel m)).plain.abs.log (s.step (.send who X fuel m)).plain.said := by
    rw [hss]
    show List.Forall₂ Said (s.step (.send who X fuel m)).abs.log _
    rw [hsa]
    simp only [Abs.step]
    exact List.rel_append h.said (List.Forall₂.cons hpt List.Forall₂.nil)
  have hown : s'.store.identity = (w.client who).send.store.identity ∧
      s'.store.regId = (w.client who).send.store.regId :=
    ⟨(ha3.identity.trans hown3.1).trans (e3.trans ha1.identity), (ha3.regId.trans hown3.2).trans (e4.trans ha1.regId)⟩
  have hknown : ∀ c : Client, c.send = s' → senderDev S (!who) ∈ c.devs (senderName S (!who)) ∧
      (c.devs (senderName S (!who))).Nodup := by
    intro c hc
    unfold Client.devs
    rw [hc, hdv]
    exact hdev
  have hstep : step P w (.send who X fuel m) = ({ putC w (!who) { (w.client who) with send := s' } with
      wire := w.wire ++ [(who, ⟨Send.typeNum ty, senderDev S (!who), rr, Encoding.b64Encode ct⟩)] },
      .sent (some (.ok (m.timestamp.getD X.now)))) := by
    have hnum : (if who then w.devI else w.devR) = senderDev S (!who) := by
      cases who
      · exact h.numR
      · exact h.numI
    rw [← hself] at hnew
    rw [← hnum] at hnew ⊢
    cases who with
    | false =>
      have hs'' : (Send.sendMessage P X fuel m w.I.send).1 = s' := hs'.symm
      have hout' : (Send.sendMessage P X fuel m w.I.send).2 = some (.ok (m.timestamp.getD X.now)) := hout
      have hnew' : newMsgs X.self w.devR w.I.send.log s'.log = _ := hnew
      simp only [step, hs'', hout', hnew']
      rfl
    | true =>
      have hs'' : (Send.sendMessage P X fuel m w.R.send).1 = s' := hs'.symm
      have hout' : (Send.sendMessage P X fuel m w.R.send).2 = some (.ok (m.timestamp.getD X.now)) := hout
      have hnew' : newMsgs X.self w.devI w.R.send.log s'.log = _ := hnew
      simp only [step, hs'', hout', hnew']
      rfl
  refine ⟨?_, G, { put cw (!who) s'.store with wire := cw.wire ++ [(who, ct, ty)] }, ?_, Or.inl rfl⟩
  · rw [hstep]
    simp only [Sight.want, Agree]
  · rw [hstep]
    rw [← hsa] at hfin
    have hwire := List.rel_append h.wire (List.Forall₂.cons
      (⟨rfl, rfl, rfl⟩ : OnWire (who, ct, ty) (who, ⟨Send.typeNum ty, senderDev S (!who), rr, Encoding.b64Encode ct⟩))
      List.Forall₂.nil)
    cases who with
    | false =>
      exact { rel := hfin, I := Or.inl rfl, R := h.R, wire := hwire, said := hsaid, devR := hknown _ rfl
              devI := h.devI, numI := h.numI, numR := h.numR
              identI := ⟨hown.1.trans h.identI.1, hown.2.trans h.identI.2⟩ }
    | true =>
      have hne0 : s.abs ≠ {} := fun hx => hl.session rfl (by rw [hx])
      exact { rel := hfin, I := Or.inl (h.I.resolve_right (fun hx => hne0 hx.1)), R := rfl, wire := hwire
              said := hsaid, devR := h.devR, devI := hknown _ rfl, numI := h.numI, numR := h.numR
              identI := h.identI }

/-! ## Delivery -/

theorem handle_sent (P : Prims) (X : Receive.Ext) (n : String) (ts : Nat)
    (x : Wrote) (b : Bytes) (atts : List Bytes) (g : Option Bytes) (w : Receive.World)
    (hcb : X.cb.syncSent = true) (hf : x.m.flags ≠ 1) (hc : X.contactsOk = true)
    (hp : X.parseContent b = some { sync := some { sent := some (Content.seenSent x.transcript) } })
    (ha : Files.handleAttachments P X.fetch Receive.AttPtr.key (Content.seen x.transcript.message).attachments = .ok atts)
    (hg : ∀ src, X.syncGroupsV2 src (Content.seen x.transcript.message) = .ok g) :
    ∃ cts, Receive.handleMessage P X n n ts b w =
      (⟨w.store, cts, w.log ++ [.enter .sync, .onSyncSent (x.shown atts g) ts], w.devices, w.sent⟩, .ok ()) := by
  unfold Receive.handleMessage
  rw [hp]
  have h1 : (Content.seen x.transcript.message).flags = x.m.flags := rfl
  have h3 : ∀ ev, Receive.callback X.cb.syncSent ev = Receive.M.emit ev := by
    intro ev
    simp [Receive.callback, hcb]
  have hts : (Content.seen x.transcript.message).timestamp = some (x.m.timestamp.getD x.now) := rfl
  have hbody : (Content.seen x.transcript.message).body = x.m.msg := by
    show (if x.m.msg = [] then none else some x.m.msg).getD [] = x.m.msg
    split
    · rename_i h; rw [h]; rfl
    · rfl
  have hE : (Content.seenSent x.transcript).destE164 = if isNumber x.m.destination then x.m.destination else "" := by
    show (if isNumber x.m.destination then some x.m.destination else none).getD "" = _
    split <;> rfl
  have hU : (Content.seenSent x.transcript).destUuid = if isNumber x.m.destination then "" else x.m.destination := by
    show (if isNumber x.m.destination then none else some x.m.destination).getD "" = _
    split <;> rfl
  have hmsg : (Content.seenSent x.transcript).message = some (Content.seen x.transcript.message) := rfl
  obtain ⟨sn, hsn⟩ : ∃ sn, sn = Content.seenSent x.transcript := ⟨_, rfl⟩
  obtain ⟨dm, hdm⟩ : ∃ dm, dm = Content.seen x.transcript.message := ⟨_, rfl⟩
  have hfin : ∀ fl, fl = (if x.m.flags = 4 then 4 else 0) →
      (⟨sn.destE164, sn.destUuid, dm.body, dm.timestamp.getD 0, atts, g, fl, dm.expireTimer, dm.profileKey,
        dm.quote, none, dm.sticker, dm.reaction⟩ : Receive.AppMsg) = x.shown atts g := by
    intro fl hfl
    rw [hsn, hdm, hE, hU, hbody, hts, hfl]
    rfl
  rw [← hsn] at hE hU hmsg
  rw [← hdm] at h1 hts hbody hmsg ha hg
  simp only [← hsn]
  by_cases h4 : x.m.flags = 4
  · have hF : ∀ src, Receive.handleFlags X src dm = (Receive.updateProfileKey X src dm.profileKey >>= fun _ => pure 4) := by
      intro src
      simp [Receive.handleFlags, h1, h4]
    simp only [Receive.dispatch, Receive.handleSync, Receive.handleSyncSent, hmsg, hF, bind, Receive.M.emit,
      Receive.updateProfileKey, Receive.M.update, hc, if_true, pure, Receive.M.lift,
      ha, Receive.derefTs, hts, hg, h3]
    refine ⟨fun s => if s = sn.destE164 then some dm.profileKey else w.contacts s, ?_⟩
    have := hfin 4 (by rw [if_pos h4])
    rw [← this]
    simp [hts]
  · have hF : ∀ src, Receive.handleFlags X src dm = pure 0 := by
      intro src
      simp [Receive.handleFlags, h1, h4, hf]
    simp only [Receive.dispatch, Receive.handleSync, Receive.handleSyncSent, hmsg, hF, bind, Receive.M.emit,
      pure, Receive.M.lift, ha, Receive.derefTs, hts, hg, h3]
    refine ⟨w.contacts, ?_⟩
    have := hfin 0 (by rw [if_neg h4])
    rw [← this]
    simp [hts]

theorem link_deliver (P : Prims) (w : Pair) (i : Nat) (X : Receive.Ext) (id : Nat) (body : Bytes) (sts : Nat)
    (atts : List Bytes) (g : Option Bytes) (who : Bool) (j : Send.JMsg) (h : w.wire[i]? = some (who, j)) :
    step P w (.deliver i X id body sts atts g) =
      (putC w who (hear P (getC w who) X id body).1, (hear P (getC w who) X id body).2) := by
  cases who <;> simp [step, h, putC, getC]

/-- Attachments that can be fetched. -/
abbrev Fetched (P : Prims) (X : Receive.Ext) (as : List Receive.AttPtr) (ps : List Bytes) : Prop :=
  Files.handleAttachments P X.fetch Receive.AttPtr.key as = .ok ps

/-- What a delivery rests on, with what the encodings come to. -/
structure DeliverOk (P : Prims) (S : Setup) (s : Sight) (w : Pair) (i : Nat)
    (X : Receive.Ext) (body : Bytes) (sts : Nat) (atts : List Bytes) (g : Option Bytes) : Prop where
  env : X.env = {}
  rnd : (X.rnd 0).length = 32 ∧ (X.rnd' 0).length = 32
  cb : X.cb.syncSent = true
  contacts : X.contactsOk = true
  carried : ∀ who j, w.wire[i]? = some (who, j) → body ≠ [] ∧ ∃ pt e,
    Files.decryptReceivedMessage P X.signalingKey body = .ok pt ∧ X.parseEnvelope pt = some e ∧
    e.type = some j.type ∧ e.sourceUuid = senderName S who ∧ e.sourceDevice = senderDev S who ∧
    e.content = Encoding.b64Quanta j.content ∧ e.serverTimestamp = sts
  parsed : ∀ x, s.said[i]? = some x →
    X.parseContent x.bytes = some { sync := some { sent := some (Content.seenSent x.transcript) } } ∧
    Fetched P X (Content.seen x.transcript.message).attachments atts ∧
    (∀ src, X.syncGroupsV2 src (Content.seen x.transcript.message) = .ok g) ∧ x.m.flags ≠ 1

theorem step_deliver {P : Prims} {S : Setup} {G : List Epoch} {s : Sight} {w : Pair} {cw : Conv.World}
    (hS : S.Ok P) (hN : Named S) (h : CRel P S G s.plain w cw)
    (i : Nat) (X : Receive.Ext) (id : Nat) (body : Bytes) (sts : Nat) (atts : List Bytes) (g : Option Bytes)
    (hl : DeliverOk P S s w i X body sts atts g)
    (hnf : (LEv.deliver i X id body sts atts g).NoForgery P S s w)
    (hfr : ∀ x ∈ G, x.kp.pub ≠ (newPair P (X.rnd 0)).pub ∧ x.kp.pub ≠ (newPair P (X.rnd' 0)).pub)
    (hb : s.abs.log.length + 1 < u32) : StepOk P S G s w (.deliver i X id body sts atts g) := by
  have hrel0 : Rel P S G s.abs cw := h.rel
  have hsaid0 : List.Forall₂ Said s.abs.log s.plain.said := h.said
  cases hm : s.abs.log[i]? with
  | none =>
    have h1 := (forall₂_get hrel0.log i).1 hm
    have h2 := (forall₂_get h.wire i).1 h1
    have hs1 : s.step (.deliver i X id body sts atts g) = s := by
      simp only [Sight.step, Abs.step, hm]
    refine ⟨?_, G, cw, ?_, Or.inl rfl⟩
    · simp [Sight.want, hm, step, h2, Agree]
    · rw [hs1]
      simp only [step, h2]
      exact h
  | some m =>
    obtain ⟨x, hx, hmx⟩ := (forall₂_get hrel0.log i).2 m hm
    obtain ⟨jj, hj, how⟩ := (forall₂_get h.wire i).2 x hx
    obtain ⟨d, hd, hpt⟩ := (forall₂_get hsaid0 i).2 m hm
    obtain ⟨y, hy, hyd⟩ : ∃ y, s.said[i]? = some y ∧ (y.transcript.message, y.bytes) = d := by
      simpa [Sight.plain] using hd
    obtain ⟨who, b, ty⟩ := x
    obtain ⟨who', j⟩ := jj
    obtain ⟨how1, how2, how3⟩ := how
    simp only at how1 how2 how3
    subst how1
    have hwho : who' = decide (m.epoch % 2 = 0) := by
      obtain ⟨_, _, _, hh, _⟩ := hmx
      exact hh
    have hane : s.plain.abs ≠ {} := by
      intro hx
      have hx : s.abs = {} := hx
      rw [hx] at hm
      simp at hm
    have hI : w.I.send.store = cw.I := h.I.resolve_right (fun hx => hane hx.1)
    have hst : (getC w who').send.store = get cw who' := by
      cases who'
      · exact h.R
      · exact hI
    have hdec : Encoding.b64Quanta j.content = some b := by rw [how3]; exact Encoding.quanta_encode b
    have hname : Receive.recID (senderName S who') = .ok (senderName S who') := by
      cases who'
      · exact hN.nameI
      · exact hN.nameR
    obtain ⟨h1, pt, e, h2, h3, h4, h5, h6, h7, h8⟩ := hl.carried who' j hj
    have hheard : Heard P S X who' b ty body :=
      ⟨hl.env, hname, h1, pt, e, h2, h3, by rw [h4, how2], h5, h6, by rw [h7, hdec]⟩
    obtain ⟨hok, herr, hstale⟩ := hear_eq P S X who' b ty id body (getC w who') hheard
    rw [hst] at hok herr hstale
    obtain ⟨o, ho⟩ : ∃ o, o = receive P X.rnd (get cw who') (senderName S who') (senderDev S who') b ty := ⟨_, rfl⟩
    rw [← ho] at hok herr hstale
    obtain ⟨st1, hst1⟩ : ∃ st1, st1 = applyWrites (get cw who') o.writes := ⟨_, rfl⟩
    rw [← hst1] at hok herr hstale
    obtain ⟨o', ho'⟩ : ∃ o', o' = receive P X.rnd' st1 (senderName S who') (senderDev S who') b ty := ⟨_, rfl⟩
    rw [← ho'] at herr hstale
    have hown1 : st1.identity = (get cw who').identity ∧ st1.regId = (get cw who').regId := by
      rw [hst1]
      exact applyWrites_own _ _
    have hown2 : (applyWrites st1 o'.writes).identity = (get cw who').identity ∧
        (applyWrites st1 o'.writes).regId = (get cw who').regId := by
      obtain ⟨h1, h2⟩ := applyWrites_own o'.writes st1
      exact ⟨h1.trans hown1.1, h2.trans hown1.2⟩
    have hcd : cw.step P S (.deliver i X.rnd) = (put cw who' st1, .received o.res) := by
      rw [conv_deliver P S cw i X.rnd who' b ty hx, ← ho, ← hst1]
    have hcd' : (put cw who' st1).step P S (.deliver i X.rnd') =
        (put cw who' (applyWrites st1 o'.writes), .received o'.res) := by
      rw [conv_deliver P S (put cw who' st1) i X.rnd' who' b ty (by rw [put_wire]; exact hx), get_put, put_put,
        ← ho']
    have hgs : (if who' = true then w.I else w.R) = getC w who' := rfl
    have hnf' : s.abs.want (.deliver i X.rnd) = .stale →
        (∀ pt, o.res ≠ .ok pt) ∧ ∀ pt, o'.res ≠ .ok pt := by
      intro hs
      have := hnf hs who' j b ty hj hdec how2
      simp only [hgs, hst, ← ho, ← hst1, ← ho'] at this
      exact this
    have hS1 : Conv.StepOk P S G s.abs cw (.deliver i X.rnd) := by
      refine Conv.step_deliver hS hrel0 i X.rnd hl.rnd.1 (fun x hx => (hfr x hx).1) hb ?_
      intro hs pt
      rw [hcd]
      intro he
      exact (hnf' hs).1 pt (by simpa using he)
    obtain ⟨hag, G', hrel, hG⟩ := hS1
    rw [hcd] at hag hrel
    have hlog : (s.abs.step (.deliver i X.rnd)).log = s.plain.abs.log := step_log s.abs i X.rnd
    have hpd := link_deliver P w i X id body sts atts g who' j hj
    cases hexp : s.abs.expect m with
    | accept =>
      have hwant : s.abs.want (.deliver i X.rnd) = .got m.pt := by simp [Abs.want, hm, hexp]
      rw [hwant] at hag
      have hres : o.res = .ok m.pt := by
        cases hr : o.res with
        | ok pt => rw [hr] at hag; rw [show pt = m.pt from hag]
        | err e => rw [hr] at hag; exact hag.elim
        | panic => rw [hr] at hag; exact hag.elim
      obtain ⟨hp1, hp2, hp3, hp4⟩ := hl.parsed y hy
      obtain ⟨ts, hts, hok⟩ := hok m.pt hres
      have hts : ts = sts := (hts pt e h2 h3).trans h8
      subst hts
      have hpt : m.pt = Files.padMessage y.bytes := by
        have hpt : m.pt = Files.padMessage d.2 := hpt
        rw [hpt, ← hyd]
      obtain ⟨cts, hmsg⟩ := handle_sent P X (senderName S who') ts y (Files.stripPadding m.pt) atts g
        ⟨st1, (getC w who').contacts, [], (getC w who').send.devices, (getC w who').send.log⟩ hl.cb hp4 hl.contacts
        (by rw [hpt, Props.C29_padding_round_trip]; exact hp1) hp2 hp3
      have := hok _ hmsg
      simp only [List.nil_append, List.cons_append] at this
      rw [this] at hpd
      refine ⟨?_, G', put cw who' st1, ?_, ?_⟩
      · rw [hpd]
        simp only [Sight.want, hm, hy, hexp, Agree, and_self]
      · rw [hpd]
        exact crel_put h hane who' st1 _ hrel hlog hown1 _
      · rcases hG with hG | ⟨ge, i', rnd', he, hG, hk⟩
        · exact Or.inl hG
        · cases he
          exact Or.inr ⟨ge, hG, by simp [keysOf, hk]⟩
    | refuse =>
      have hwant : ∀ rnd, s.abs.want (.deliver i rnd) = .refused := by intro rnd; simp [Abs.want, hm, hexp]
      have hsame : ∀ rnd, s.abs.step (.deliver i rnd) = s.abs := by intro rnd; simp [Abs.step, hm, hexp]
      rw [hwant] at hag
      rw [hsame] at hrel
      have hG1 := same_G hrel0 hrel hG
      subst hG1
      have hS2 := Conv.step_deliver hS hrel i X.rnd' hl.rnd.2 (fun x hx => (hfr x hx).2) hb
        (by rw [hwant]; intro hx; cases hx)
      obtain ⟨hag2, G2, hrel2, hG2⟩ := hS2
      rw [hcd', hwant] at hag2
      rw [hcd', hsame] at hrel2
      have hG2 := same_G hrel hrel2 hG2
      subst hG2
      have e1 : ∃ e, o.res = .err e := by
        cases hr : o.res with
        | ok pt => rw [hr] at hag; exact hag.elim
        | err e => exact ⟨e, rfl⟩
        | panic => rw [hr] at hag; exact hag.elim
      have e2 : ∃ e, o'.res = .err e := by
        cases hr : o'.res with
        | ok pt => rw [hr] at hag2; exact hag2.elim
        | err e => exact ⟨e, rfl⟩
        | panic => rw [hr] at hag2; exact hag2.elim
      have hab : (s.step (.deliver i X id body sts atts g)).plain = ⟨s.abs, s.plain.said⟩ := by
        simp only [Sight.step, hsame, Sight.plain]
      rw [StepOk, hab, hpd]
      rcases herr e1 e2 with hh | hh
      · rw [hh]
        exact ⟨by simp only [Sight.want, hm, hy, hexp, Agree, and_self], G2, put cw who' st1,
          crel_put h hane who' st1 _ hrel rfl hown1 _, Or.inl rfl⟩
      · rw [hh]
        exact ⟨by simp only [Sight.want, hm, hy, hexp, Agree, and_self], G2,
          put cw who' (applyWrites st1 o'.writes), crel_put h hane who' _ _ hrel2 rfl hown2 _, Or.inl rfl⟩
    | stale =>
      have hwant : ∀ rnd, s.abs.want (.deliver i rnd) = .stale := by intro rnd; simp [Abs.want, hm, hexp]
      have hsame : ∀ rnd, s.abs.step (.deliver i rnd) = s.abs := by intro rnd; simp [Abs.step, hm, hexp]
      obtain ⟨hn1, hn2⟩ := hnf' (hwant _)
      rw [hsame] at hrel
      have hG1 := same_G hrel0 hrel hG
      subst hG1
      have hS2 := Conv.step_deliver hS hrel i X.rnd' hl.rnd.2 (fun x hx => (hfr x hx).2) hb
        (by
          intro _ pt
          rw [hcd']
          intro he
          exact hn2 pt (by simpa using he))
      obtain ⟨hag2, G2, hrel2, hG2⟩ := hS2
      rw [hcd', hsame] at hrel2
      have hG2 := same_G hrel hrel2 hG2
      subst hG2
      have hab : (s.step (.deliver i X id body sts atts g)).plain = ⟨s.abs, s.plain.said⟩ := by
        simp only [Sight.step, hsame, Sight.plain]
      rw [StepOk, hab, hpd]
      obtain ⟨evs, e, hh, hev⟩ := hstale hn1
      have hag3 : Agree (s.want (.deliver i X id body sts atts g)) (.told evs e) := by
        simp only [Sight.want, hm, hy, hexp]
        exact hev
      rcases hh with hh | hh
      · rw [hh]
        exact ⟨hag3, G2, put cw who' st1, crel_put h hane who' st1 _ hrel rfl hown1 _, Or.inl rfl⟩
      · rw [hh]
        exact ⟨hag3, G2, put cw who' (applyWrites st1 o'.writes), crel_put h hane who' _ _ hrel2 rfl hown2 _,
          Or.inl rfl⟩

/-! ## Whole schedules -/

/-- What was written fits its types. -/
def AllFit (s : Sight) : Prop := ∀ x ∈ s.said, Content.FitsT x.transcript

theorem simulate {P : Prims} {S : Setup} (hU : S.nameI = S.nameR) (hS : S.Ok P) (hN : Named S)
    (hne : S.spk.pub ≠ (newPair P S.rr).pub)
    (hdel : ∀ s w i X body sts atts g, AllFit s → DeliverReal P S s w i X body sts atts g →
      DeliverOk P S s w i X body sts atts g) :
    ∀ (evs : List LEv) (G : List Epoch) (s : Sight)
    (w : Pair) (cw : Conv.World), CRel P S G s.plain w cw → AllFit s → Real P S s w evs →
    (G.map (fun g => g.kp.pub) ++ keysOf P evs).Nodup → s.abs.log.length + evs.length + 1 < u32 →
    List.Forall₂ Agree (wants s evs) (outs P w evs) := by
  intro evs
  induction evs with
  | nil =>
    intro G s w cw _ _ _ _ _
    exact List.Forall₂.nil
  | cons ev evs ih =>
    intro G s w cw h hf hl hn hb
    simp only [List.length_cons] at hb
    have hsplit : keysOf P (ev :: evs) = keysOf P [ev] ++ keysOf P evs := by
      simp [keysOf]
    rw [hsplit] at hn
    have hstep : StepOk P S G s w ev := by
      cases ev with
      | send who X fuel m => exact step_send hU hS hN hne h who X fuel m hl.1 (by omega)
      | deliver i X id body sts atts g =>
        refine step_deliver hS hN h i X id body sts atts g (hdel _ _ _ _ _ _ _ _ hf hl.1) hl.2.1 ?_ (by omega)
        intro x hx
        rw [List.nodup_append] at hn
        have hh := hn.2.2 x.kp.pub (List.mem_map.mpr ⟨x, hx, rfl⟩)
        exact ⟨hh _ (by simp [keysOf]), hh _ (by simp [keysOf])⟩
      | other who c => exact step_other h who c hl.1
    obtain ⟨hag, G', cw', hrel, hG⟩ := hstep
    have hll : (s.step ev).abs.log.length ≤ s.abs.log.length + 1 := by
      cases ev with
      | send who X fuel m => simp [Sight.step, Abs.step]
      | deliver i X id body sts atts g => simp [Sight.step, step_log]
      | other who c => simp [Sight.step]
    have hn' : (G'.map (fun g => g.kp.pub) ++ keysOf P evs).Nodup := by
      rcases hG with rfl | ⟨ge, rfl, hk⟩
      · exact hn.sublist (List.Sublist.append (List.Sublist.refl _) (List.sublist_append_right _ _))
      · refine hn.sublist ?_
        rw [List.map_append, List.append_assoc]
        refine List.Sublist.append (List.Sublist.refl _) ?_
        refine List.Sublist.append ?_ (List.Sublist.refl _)
        simpa using hk
    have hf' : AllFit (s.step ev) := by
      cases ev with
      | send who X fuel m =>
        intro x hx
        simp only [Sight.step, List.mem_append, List.mem_singleton] at hx
        rcases hx with hx | rfl
        · exact hf x hx
        · exact hl.1.fits
      | deliver i X id body sts atts g => exact hf
      | other who c => exact hf
    exact List.Forall₂.cons hag (ih G' _ _ cw' hrel hf' hl.2.2 hn' (by omega))

end Verif.Linked
