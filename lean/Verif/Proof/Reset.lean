import Verif.Proof.Clients
import Verif.Proof.Content
import Verif.Props.Store
/-!
# Lemmas on the end of a session
-/
namespace Verif.Clients
open Verif Verif.Keys Verif.Messages Verif.Session Verif.Api Verif.Names Verif.Conv

/-! ## The store -/

theorem deleteAll_rest (st : Store) (names : List Name) (rec : String) :
    deleteAllSessions st names rec = { st with sessions := (deleteAllSessions st names rec).sessions } := by
  unfold deleteAllSessions
  generalize subDeviceSessions names rec = l
  induction l generalizing st with
  | nil => rfl
  | cons d l ih => rw [List.foldl_cons, ih]; rfl

theorem deleteAll_sub (st : Store) (names : List Name) (rec : String) (n : Name)
    (h : (deleteAllSessions st names rec).sessions n ≠ .absent) : st.sessions n ≠ .absent := by
  unfold deleteAllSessions at h
  rw [Props.foldl_delete] at h
  split at h
  · exact absurd rfl h
  · exact h

theorem isTrusted_sessions (st : Store) (f : Name → SessFile) (id : String) (k : Bytes) :
    isTrusted { st with sessions := f } id k = isTrusted st id k := rfl

/-! ## The message that ends the session -/

theorem handle_reset (P : Prims) (X : Receive.Ext) (loc : Send.WireAtt → Bytes) (n : String) (ts : Nat)
    (d : Send.WireData) (b : Bytes) (atts : List Bytes) (g : Option Bytes) (w : Receive.World)
    (hcb : X.cb.message = true) (hf : d.flags = 1) (hn : Receive.recID n = .ok n)
    (hp : X.parseContent b = some { data := some (view loc d) })
    (ha : Files.handleAttachments P X.fetch Receive.AttPtr.key (view loc d).attachments = .ok atts)
    (hg : ∀ src, X.groupsV2 src (view loc d) = .ok g) :
    Receive.handleMessage P X n n ts b w =
      (⟨let st1 := deleteAllSessions w.store (X.list w.store) n; deleteAllSessions st1 (X.list st1) n, w.contacts,
        w.log ++ [.enter .data, .onMessage (shown n d atts g)], w.devices, w.sent⟩, .ok ()) := by
  unfold Receive.handleMessage
  rw [hp]
  have h1 : (view loc d).flags = d.flags := rfl
  have h3 : ∀ ev, Receive.callback X.cb.message ev = Receive.M.emit ev := by
    intro ev
    simp [Receive.callback, hcb]
  simp only [Receive.dispatch, Receive.handleData, Receive.handleFlags, h1, hf, bind, Receive.M.emit,
    Receive.deleteAll, Receive.M.update, hn, if_true, pure, Receive.M.lift, ha, Receive.derefTs, hg, h3]
  simp [view, shown, hf]

/-- Decryption of a message that is to be accepted, before it is looked at. -/
theorem cstep_accept {P : Prims} {S : Setup} {G : List Epoch} {s : Sight} {w : Pair} {cw : Conv.World}
    {loc : Send.WireAtt → Bytes}
    (hS : S.Ok P) (hN : Named S) (h : CRel P S G s w cw)
    (i : Nat) (X : Receive.Ext) (id : Nat) (body : Bytes) (atts : List Bytes) (g : Option Bytes)
    (hl : DeliverOk P S loc s w i X body atts g)
    (hfr : ∀ x ∈ G, x.kp.pub ≠ (newPair P (X.rnd 0)).pub)
    (hb : s.abs.log.length + 1 < u32) (m : AMsg) (hm : s.abs.log[i]? = some m)
    (hexp : s.abs.expect m = .accept) :
    ∃ who d j st1 G' a', who = decide (m.epoch % 2 = 0) ∧ s.said[i]? = some d ∧ w.wire[i]? = some (who, j) ∧
      Rel P S G' a' (put cw who st1) ∧ (who = true → a'.lvI ≠ 0) ∧
      st1.identity = (getC w who).send.store.identity ∧ st1.regId = (getC w who).send.store.regId ∧
      (w.I.send.store = cw.I) ∧
      (∀ n, n ≠ sessName (senderName S who) (senderDev S who) → st1.sessions n = (getC w who).send.store.sessions n) ∧
      X.parseContent (Files.stripPadding m.pt) = some { data := some (view loc d.1) } ∧
      Files.handleAttachments P X.fetch Receive.AttPtr.key (view loc d.1).attachments = .ok atts ∧
      (∀ src, X.groupsV2 src (view loc d.1) = .ok g) ∧
      ∃ ts, ∀ w', Receive.handleMessage P X (senderName S who) (senderName S who) ts
          (Files.stripPadding m.pt) ⟨st1, (getC w who).contacts, [], (getC w who).send.devices, (getC w who).send.log⟩ = (w', .ok ()) →
        hear P (getC w who) X id body = (⟨⟨w'.store, w'.devices, w'.sent⟩, w'.contacts⟩,
          .told (w'.log ++ [.ack id]) .waiting) := by
  obtain ⟨x, hx, hmx⟩ := (forall₂_get h.rel.log i).2 m hm
  obtain ⟨jj, hj, how⟩ := (forall₂_get h.wire i).2 x hx
  obtain ⟨d, hd, hpt⟩ := (forall₂_get h.said i).2 m hm
  obtain ⟨who, b, ty⟩ := x
  obtain ⟨who', j⟩ := jj
  obtain ⟨how1, how2, how3⟩ := how
  simp only at how1 how2 how3
  subst how1
  have hwho : who' = decide (m.epoch % 2 = 0) := by
    obtain ⟨_, _, _, hh, _⟩ := hmx
    exact hh
  have hane : s.abs ≠ {} := by
    intro hx
    rw [hx] at hm
    simp at hm
  have hI : w.I.send.store = cw.I := h.I.resolve_right (fun hx => hane hx.1)
  have hst : (getC w who').send.store = get cw who' := by
    cases who'
    · exact h.R
    · exact hI
  have hdec : Encoding.b64Quanta j.content = some b := by rw [how3]; exact Encoding.quanta_encode b
  have hname : Receive.recID (senderName S who') = .ok (senderName S who') := by
    cases who'
    · exact hN.nameI
    · exact hN.nameR
  have hheard : Heard P S X who' b ty body := by
    refine ⟨hl.env, hname, ?_⟩
    obtain ⟨h1, pt, e, h2, h3, h4, h5, h6, h7⟩ := hl.carried who' j hj
    exact ⟨h1, pt, e, h2, h3, by rw [h4, how2], h5, h6, by rw [h7, hdec]⟩
  obtain ⟨hok, _, _⟩ := hear_eq P S X who' b ty id body (getC w who') hheard
  rw [hst] at hok
  obtain ⟨o, ho⟩ : ∃ o, o = receive P X.rnd (get cw who') (senderName S who') (senderDev S who') b ty := ⟨_, rfl⟩
  rw [← ho] at hok
  obtain ⟨st1, hst1⟩ : ∃ st1, st1 = applyWrites (get cw who') o.writes := ⟨_, rfl⟩
  rw [← hst1] at hok
  have hcd : cw.step P S (.deliver i X.rnd) = (put cw who' st1, .received o.res) := by
    rw [conv_deliver P S cw i X.rnd who' b ty hx, ← ho, ← hst1]
  have hwant : s.abs.want (.deliver i X.rnd) = .got m.pt := by simp [Abs.want, hm, hexp]
  have hS1 : StepOk P S G s.abs cw (.deliver i X.rnd) := by
    refine step_deliver hS h.rel i X.rnd hl.rnd.1 hfr hb ?_
    rw [hwant]
    intro hx
    cases hx
  obtain ⟨hag, G', hrel, hG⟩ := hS1
  rw [hcd] at hag hrel
  rw [hwant] at hag
  have hres : o.res = .ok m.pt := by
    cases hr : o.res with
    | ok pt => rw [hr] at hag; rw [show pt = m.pt from hag]
    | err e => rw [hr] at hag; exact hag.elim
    | panic => rw [hr] at hag; exact hag.elim
  obtain ⟨hp1, hp2, hp3⟩ := hl.parsed d hd
  obtain ⟨ts, _, hok⟩ := hok m.pt hres
  obtain ⟨o1, o2⟩ := applyWrites_own o.writes (get cw who')
  refine ⟨who', d, j, st1, G', _, hwho, hd, hj, hrel, ?_, ?_, ?_, hI, ?_, ?_, hp2, hp3, ts, hok⟩
  · intro _ h0
    have := hrel.parI
    omega
  · rw [hst1, hst]; exact o1
  · rw [hst1, hst]; exact o2
  · intro n hn
    rw [hst1, hst]
    rw [ho]
    exact receive_scope P X.rnd _ _ _ b ty n hn
  · rw [hpt, Props.C29_padding_round_trip]; exact hp1

/-! ## Messages without a session -/

theorem decrypt_empty (P : Prims) (rnd : Nat → Bytes) (m : WhisperMsg) :
    ∃ sr, decryptRecord P rnd {} m = (sr, .err .invalidMessage) := by
  exact ⟨_, rfl⟩

theorem receive_none (P : Prims) (rnd : Nat → Bytes) (st : Store) (rec : String) (dev : Nat) (b : Bytes) (ty : MsgType)
    (hno : st.sessions (sessName rec dev) = .absent)
    (hty : ty = .whisper ∨ ∃ pm, loadPreKeyMsg b = .ok pm ∧ pm.preKeyId ≠ 0 ∧ st.preKeys pm.preKeyId = none) :
    (receive P rnd st rec dev b ty).writes = [] ∧ ∀ pt, (receive P rnd st rec dev b ty).res ≠ .ok pt := by
  have hload : loadSession st rec dev = .ok {} := by simp [loadSession, hno]
  cases ty with
  | whisper =>
    simp only [receive]
    rcases loadWhisper b with m | _ | _
    · obtain ⟨sr, hsr⟩ := decrypt_empty P rnd m
      simp only [decryptWhisper, hload, hsr]
      exact ⟨trivial, fun pt h => by cases h⟩
    · exact ⟨rfl, fun pt h => by cases h⟩
    · exact ⟨rfl, fun pt h => by cases h⟩
  | prekey =>
    rcases hty with h | ⟨pm, hpm, h0, hnone⟩
    · cases h
    · simp only [receive, hpm, decryptPreKey, hload]
      obtain ⟨sr, hsr⟩ := decrypt_empty P rnd pm.message
      rcases buildReceiver_cases P {} st rec {} pm with ⟨hw, e, he⟩ | ⟨_, _, _, h⟩ |
        ⟨_, _, _, _, _, opk, _, _, _, hopk, _⟩
      · obtain ⟨o, ho⟩ : ∃ o, o = buildReceiver P {} st rec {} pm := ⟨_, rfl⟩
        rw [← ho] at hw he ⊢
        obtain ⟨ws, rs⟩ := o
        simp only at hw he
        subst hw he
        exact ⟨rfl, fun pt h => by cases h⟩
      · rw [h]
        simp only [hsr]
        exact ⟨trivial, fun pt h => by cases h⟩
      · rw [if_pos h0, hnone] at hopk
        cases hopk

end Verif.Clients
