import Verif.Spec.StartOver
import Verif.Proof.Crossing
/-!
# Lemmas for C154
-/
namespace Verif.StartOver
open Verif Verif.Keys Verif.Messages Verif.Session Verif.Api Verif.Names Verif.Conv Verif.Crossing

theorem load_archive {st : Store} {rec : String} {dev : Nat} {sr : SRecord} (h : loadSession st rec dev = .ok sr) :
    (if sr.fresh then sr else sr.archive).cur = {} := by
  unfold loadSession at h
  split at h
  · injection h with h; subst h; rfl
  · injection h with h; subst h; rfl
  · cases h
  · injection h with h; subst h; rfl

/-- `w'` is `w` but for sessions from before. -/
structure Behind (P : Prims) (S : Setup) (a : Abs) (w w' : World) : Prop where
  wire : w'.wire = w.wire
  I : ∃ r r', w.I.sessions (sessName S.nameR S.devR) = .good r ∧
    w'.I.sessions (sessName S.nameR S.devR) = .good r' ∧ r'.cur = r.cur
  R : a.lvR ≠ 0 → ∃ r r', w.R.sessions (sessName S.nameI S.devI) = .good r ∧
    w'.R.sessions (sessName S.nameI S.devI) = .good r' ∧ r'.cur = r.cur
  fresh : a.lvR = 0 → StillR S w'.R ∧ (∀ k, S.opk = some k → w'.R.preKeys S.pkId = some k) ∧
    ∃ sr, loadSession w'.R S.nameI S.devI = .ok sr ∧ sr.hasState 3 (ser (newPair P S.rb).pub) = false
  trustI : isTrusted w'.I S.nameR S.idR.pub = true
  trustR : isTrusted w'.R S.nameI S.idI.pub = true

theorem behind_step {P : Prims} {S : Setup} (hS : S.Ok P) {G : List Epoch} {a : Abs} {w w' : World}
    (h : Rel P S G a w) (ho : Behind P S a w w') (ev : Ev) (hl : ev.Legal a) (hr1 : a.want ev ≠ .refused)
    (hr2 : a.want ev ≠ .stale) (hg : Good (w.step P S ev).2) :
    (w'.step P S ev).2 = (w.step P S ev).2 ∧ Behind P S (a.step ev) (w.step P S ev).1 (w'.step P S ev).1 := by
  by_cases h0 : a.lvR = 0
  · have hlv : a.lvI = 1 := by have := h.adj; omega
    obtain ⟨hst, hopk, sr, hload, hno⟩ := ho.fresh h0
    obtain ⟨rI, rI', hI, hI', hcI⟩ := ho.I
    cases ev with
    | send who pt =>
      cases who with
      | true => exact absurd h0 (hl.1 rfl)
      | false =>
        simp only [World.step] at hg ⊢
        rcases he : (encryptMsg P {} w.I S.nameR S.devR pt).res with ⟨b, ty⟩ | e | _
        · obtain ⟨u1, ⟨r1, r2, u2, u3, u4⟩, u5⟩ := over_encrypt P w.I w'.I S.nameR S.devR pt rI rI' hI hI' hcI b ty he
          rw [u1]
          refine ⟨rfl, ⟨?_, ⟨r1, r2, u2, u3, u4⟩, ho.R, ho.fresh, ?_, ho.trustR⟩⟩
          · simp only [ho.wire]
          · simp only; rw [isTrusted_same u5]; exact ho.trustI
        · rw [he] at hg; exact hg.elim
        · rw [he] at hg; exact hg.elim
    | deliver i rnd =>
      cases hm : a.log[i]? with
      | none =>
        have hx := (forall₂_get h.log i).1 hm
        have hs : a.step (.deliver i rnd) = a := by simp only [Abs.step, hm]
        simp only [World.step, ho.wire, hx, hs]
        exact ⟨trivial, ho⟩
      | some m =>
        obtain ⟨x, hx, hok⟩ := (forall₂_get h.log i).2 m hm
        obtain ⟨who, b, ty⟩ := x
        obtain ⟨g, wm, hg', hw, hmm, hwire⟩ := hok
        have hE := h.logE m (List.mem_of_getElem? hm)
        have hep : m.epoch = 1 := by
          have h2 := hE.2.1
          have h1 := hE.1
          by_cases hpar : m.epoch % 2 = 0
          · simp [Abs.sendLevel, hpar, h0] at h2
            omega
          · simp [Abs.sendLevel, hpar, hlv] at h2
            omega
        have hw : who = false := by rw [show who = decide (m.epoch % 2 = 0) from hw, hep]; rfl
        subst hw
        obtain ⟨hty, pm, hlp, hv, hreg, hpid, hsid, hbk, hik, hin⟩ := hwire.2 hep
        simp only at hty hlp
        subst hty
        have hacc : a.step (.deliver i rnd) = { a with acc := (m.epoch, m.ctr) :: a.acc, lvR := 2 } := by
          have hexp : a.expect m = .accept := by
            simp only [Abs.want, hm] at hr1 hr2
            cases he : a.expect m with
            | accept => rfl
            | refuse => rw [he] at hr1; exact absurd rfl hr1
            | stale => rw [he] at hr2; exact absurd rfl hr2
          simp only [Abs.step, hm, hexp]
          simp [Abs.accept, Abs.recvLevel, hep, h0]
        have hstep : ∀ v : World, v.wire = w.wire → v.step P S (.deliver i rnd) =
            ({ v with R := applyWrites v.R (receive P rnd v.R S.nameI S.devI b .prekey).writes },
              .received (receive P rnd v.R S.nameI S.devI b .prekey).res) := by
          intro v hv
          simp only [World.step, hv, hx]
        have hfr := h.freshR h0
        rw [hstep w rfl] at hg
        obtain ⟨pt, hpt⟩ : ∃ pt, (receive P rnd w.R S.nameI S.devI b .prekey).res = .ok pt := by
          rcases hq : (receive P rnd w.R S.nameI S.devI b .prekey).res with pt | e | _
          · exact ⟨pt, rfl⟩
          · rw [hq] at hg; exact hg.elim
          · rw [hq] at hg; exact hg.elim
        obtain ⟨n1, n2⟩ := receive_build P S hS.pkId.2 rnd w.R h.still hfr.2 b pm hlp hv hpid hsid hbk hik hreg {}
          (by simp [loadSession, hfr.1]) (by simp [SRecord.hasState, SState.getVersion]) {} rfl rfl pt
        obtain ⟨sr1, hsr1⟩ : ∃ sr1, (if sr.fresh then sr else sr.archive) = sr1 := ⟨_, rfl⟩
        obtain ⟨m1, _⟩ := receive_build P S hS.pkId.2 rnd w'.R hst hopk b pm hlp hv hpid hsid hbk hik hreg sr hload
          hno sr1 hsr1 (by rw [← hsr1]; exact load_archive hload) pt
        obtain ⟨s', hd⟩ := n2 rfl hpt
        rw [hstep w rfl, hstep w' ho.wire, hacc]
        simp only [n1 s' hd, m1 s' hd]
        refine ⟨trivial, ⟨ho.wire, ho.I, ?_, fun hh => absurd hh (by simp), ho.trustI, ?_⟩⟩
        · intro _
          refine ⟨{ cur := s', prev := [], fresh := false }, { sr1 with cur := s', fresh := false }, ?_, ?_, rfl⟩
          · simp only [applyWrites, List.foldl_append, List.foldl_cons, List.foldl_nil, applyWrite, if_true]
          · simp only [applyWrites, List.foldl_append, List.foldl_cons, List.foldl_nil, applyWrite, if_true]
        · by_cases hp : S.pkId ≠ 0xFFFFFF
          · rw [if_pos hp]
            simp [applyWrites, applyWrite, isTrusted]
          · rw [if_neg hp]
            simp [applyWrites, applyWrite, isTrusted]
  · obtain ⟨h1, h2⟩ := over_step h h0 ⟨ho.wire, ho.I, ho.R h0, ho.trustI, ho.trustR⟩ ev hg
    exact ⟨h1, h2.wire, h2.I, fun _ => h2.R, fun hh => absurd hh (lvR_step a ev h0), h2.trustI, h2.trustR⟩

theorem behind_run {P : Prims} {S : Setup} (hS : S.Ok P) : ∀ (evs : List Ev) (a : Abs) (w w' : World),
    Ready P S a w evs → Behind P S a w w' → List.Forall₂ Agree (wants a evs) (World.gots P S w' evs) := by
  intro evs
  induction evs with
  | nil => intros; exact List.Forall₂.nil
  | cons ev evs ih =>
    intro a w w' h ho
    obtain ⟨h1, h2, h3⟩ := ready_step hS h
    obtain ⟨G, hr, hl, _, _, hall⟩ := h
    have hw := hall (a.want ev) (by simp [wants])
    obtain ⟨h4, h5⟩ := behind_step hS hr ho ev hl.1 hw.1 hw.2 h2
    refine List.Forall₂.cons (by rw [h4]; exact h1) (ih _ _ _ h3 h5)

/-- Building a session over an older one. -/
theorem build_over {P : Prims} {S : Setup} (hS : S.Ok P) (st : Store) (hid : st.identity = some S.idI)
    (hreg : st.regId = some S.regI) (ht : isTrusted st S.nameR S.idR.pub = true) (sr : SRecord)
    (hload : loadSession st S.nameR S.devR = .ok sr) :
    buildSender P {} st S.rb S.rr S.nameR S.devR S.bundle =
      ⟨[.storeSession S.nameR S.devR (senderRecord P S.rb S.rr sr S.idI S.regI S.bundle S.spk.pub),
        .saveIdentity S.nameR S.idR.pub], .ok ()⟩ := by
  unfold buildSender
  rw [hS.bundleId, if_neg (by simp [ht]), hS.bundleSpk.1]
  simp only
  rw [if_neg (by
    have := hS.bundleSig
    simp only [ser]
    simp [this])]
  rw [hload, hid, hreg]
  simp

theorem senderRecord_cur (P : Prims) (rb rr : Bytes) (sr sr2 : SRecord) (ident : KeyPair) (reg : Nat) (b : Bundle)
    (spk : Bytes) (h : (if sr.fresh then sr else sr.archive).cur = (if sr2.fresh then sr2 else sr2.archive).cur) :
    (senderRecord P rb rr sr ident reg b spk).cur = (senderRecord P rb rr sr2 ident reg b spk).cur := by
  unfold senderRecord
  simp only [h]

theorem gots_strangers (P : Prims) (S : Setup) (evs : List Ev) : ∀ w, World.gots P (strangers S) w evs = World.gots P S w evs := by
  induction evs with
  | nil => intro w; rfl
  | cons ev evs ih =>
    intro w
    have : World.step P (strangers S) w ev = World.step P S w ev := by
      cases ev with
      | send who pt => cases who <;> rfl
      | deliver i rnd => rfl
    simp only [World.gots, this, ih]

theorem behind_init {P : Prims} {S : Setup} (h : Again P S) :
    Behind P (strangers S) {} (World.init P (strangers S)) (World.init P S) := by
  have hS := h.ok
  obtain ⟨si, hsi⟩ := h.iLoads
  obtain ⟨sr, hsr, hno⟩ := h.rLoads
  have e1 := build_over hS (strangers S).initiator hS.iIdent hS.iReg hS.iTrust {} (by simp [loadSession, hS.iNone])
  have e2 := build_over hS S.initiator hS.iIdent hS.iReg hS.iTrust si hsi
  unfold World.init
  rw [show buildSender P {} S.initiator S.rb S.rr S.nameR S.devR S.bundle = _ from e2, e1]
  have hcur := senderRecord_cur P (strangers S).rb (strangers S).rr si {} (strangers S).idI (strangers S).regI
    (strangers S).bundle (strangers S).spk.pub (by rw [load_archive hsi]; rfl)
  refine ⟨rfl, ⟨{ senderRecord P S.rb S.rr {} S.idI S.regI S.bundle S.spk.pub with fresh := false },
    { senderRecord P S.rb S.rr si S.idI S.regI S.bundle S.spk.pub with fresh := false }, ?_, ?_, hcur⟩,
    (fun hh => absurd rfl hh), (fun _ => ⟨⟨hS.rTrust, hS.rIdent, hS.rReg, hS.rSpk⟩, hS.rOpk, sr, hsr, hno⟩),
    ?_, hS.rTrust⟩
  · simp [applyWrites, applyWrite, strangers]
  · simp [applyWrites, applyWrite, strangers]
  · simp [applyWrites, applyWrite, isTrusted]

end Verif.StartOver
