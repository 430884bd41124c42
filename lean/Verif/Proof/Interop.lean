import Verif.Proof.Ratchet
/-!
# Lemmas for C163: a client and a peer that follows the document
-/
namespace Verif.Ratchet
open Verif Verif.Keys Verif.Messages Verif.Session Verif.Api Verif.Names Verif.Conv Verif.Theft Verif.Protocol

/-! ## One step of two clients -/

/-- `simulate_wire`, one step. -/
theorem step_wire {P : Prims} {S : Setup} (hS : S.Ok P) (ev : Ev) (evs : List Ev) (G : List Epoch) (a : Abs) (w : World)
    (h : Rel P S G a w) (hw : List.Forall₂ (Sent P S G a.log) a.log w.wire) (hl : ev.Legal a)
    (hn : (G.map (fun g => g.kp.pub) ++ keysOf P (ev :: evs)).Nodup) (hb : a.log.length + 2 < u32)
    (hnf : a.want ev = .stale → ∀ pt, (w.step P S ev).2 ≠ .received (.ok pt)) :
    ∃ G', Agree (a.want ev) (w.step P S ev).2 ∧ Rel P S G' (a.step ev) (w.step P S ev).1 ∧
      (G' = G ∨ ∃ g i rnd, ev = .deliver i rnd ∧ G' = G ++ [g] ∧ g.kp = newPair P (rnd 0)) ∧
      (G'.map (fun g => g.kp.pub) ++ keysOf P evs).Nodup ∧
      List.Forall₂ (Sent P S G' (a.step ev).log) (a.step ev).log (w.step P S ev).1.wire := by
  have hstep : StepOk P S G a w ev := by
    cases ev with
    | send who pt => exact step_send hS h who pt hl (by omega)
    | deliver i rnd =>
      refine step_deliver hS h i rnd hl ?_ (by omega) hnf
      intro x hx he
      rw [List.nodup_append] at hn
      exact hn.2.2 x.kp.pub (List.mem_map.mpr ⟨x, hx, rfl⟩) (newPair P (rnd 0)).pub
        (by simp [keysOf]) he
  obtain ⟨hag, G', hrel, hG⟩ := hstep
  have hnod : (G'.map (fun g => g.kp.pub) ++ keysOf P evs).Nodup := by
    rcases hG with rfl | ⟨g, i, rnd, rfl, rfl, hk⟩
    · refine hn.sublist ?_
      refine List.Sublist.append (List.Sublist.refl _) ?_
      unfold keysOf
      cases ev <;> simp
    · have he : keysOf P (.deliver i rnd :: evs) = (newPair P (rnd 0)).pub :: keysOf P evs := by
        simp [keysOf]
      rw [he] at hn
      rw [List.map_append, List.append_assoc]
      simpa [hk] using hn
  refine ⟨G', hag, hrel, hG, hnod, ?_⟩
  cases ev with
  | send who pt =>
    have hGG : G' = G := by
      rcases hG with h1 | ⟨g, i, rnd, h1, _⟩
      · exact h1
      · cases h1
    subst hGG
    obtain ⟨m, x, h1, h2, h3, h4⟩ := send_wire hS h who pt hl (by omega)
    have hpi := h.parI
    have hpr := h.parR
    have hw2 : List.Forall₂ (Sent P S G' (a.log ++ [m])) a.log w.wire := by
      refine List.forall₂_iff_get.mpr ⟨hw.length_eq, fun i hi hj => (hw.get hi hj).log m (fun h2 => ?_)⟩
      have hle := (h.logE _ (List.get_mem a.log ⟨i, hi⟩)).2.1
      unfold Abs.sendLevel at hle h4
      rw [h4]
      generalize a.log.get ⟨i, hi⟩ = m0 at hle h2 ⊢
      by_cases hz : m0.epoch % 2 = 0
      · simp only [hz, decide_true, if_true] at hle
        cases who <;> simp <;> omega
      · simp only [hz, decide_false, Bool.false_eq_true, if_false] at hle
        cases who <;> simp <;> omega
    rw [h1, h2]
    exact List.rel_append hw2 (.cons (h3.log m (fun h2 => by omega)) .nil)
  | deliver i rnd =>
    rw [deliver_log, deliver_wire]
    rcases hG with rfl | ⟨g, i', rnd', h1, rfl, hk⟩
    · exact hw
    · exact hw.imp (fun _ _ hx => hx.extend _)

/-! ## Numbers -/

/-- Messages are numbered within their epochs. -/
structure Tidy (a : Abs) : Prop where
  ctr : ∀ m ∈ a.log, m.ctr < count a.log m.epoch ∧ m.pt.length < 2 ^ 60
  acc : ∀ e, pos a.acc e ≤ count a.log e

theorem Tidy.accept {a : Abs} (h : Tidy a) (m : AMsg) (hm : m ∈ a.log) : Tidy (a.accept m) := by
  have h1 : (a.accept m).log = a.log := by
    unfold Abs.accept
    simp only
    split
    · split <;> rfl
    · rfl
  have h2 : (a.accept m).acc = (m.epoch, m.ctr) :: a.acc := by
    unfold Abs.accept
    simp only
    split
    · split <;> rfl
    · rfl
  refine ⟨by rw [h1]; exact h.ctr, fun e => ?_⟩
  rw [h1, h2]
  have := h.acc e
  by_cases he : m.epoch = e
  · subst he
    rw [pos_cons_eq]
    have := (h.ctr m hm).1
    omega
  · rw [pos_cons_ne _ _ _ _ he]
    exact this

theorem Tidy.step {a : Abs} (h : Tidy a) (ev : Ev) (hl : ev.Legal a) : Tidy (a.step ev) := by
  cases ev with
  | send who pt =>
    have hc : ∀ e, count a.log e ≤ count (a.log ++ [⟨a.sendLevel who, count a.log (a.sendLevel who), pt⟩]) e := fun e => by
      rw [count_append]; omega
    refine ⟨fun m hm => ?_, fun e => Nat.le_trans (h.acc e) (hc e)⟩
    simp only [Abs.step] at hm ⊢
    rcases List.mem_append.mp hm with hm | hm
    · exact ⟨Nat.lt_of_lt_of_le (h.ctr m hm).1 (hc _), (h.ctr m hm).2⟩
    · rw [List.mem_singleton] at hm
      subst hm
      rw [count_append, if_pos rfl]
      exact ⟨by simp only; omega, hl.2⟩
  | deliver i rnd =>
    cases hm : a.log[i]? with
    | none => simp only [Abs.step, hm]; exact h
    | some m =>
      simp only [Abs.step, hm]
      cases a.expect m
      · exact h.accept m (List.mem_of_getElem? hm)
      · exact h
      · exact h

/-! ## Headers -/

/-- What is found in the bytes of a message. -/
theorem header {P : Prims} {S : Setup} {G : List Epoch} {log : List AMsg} {m : AMsg} {x : Bool × Bytes × MsgType}
    (hS : S.Ok P) (hC : Chain P G) (h1 : Sent P S G log m x) (h2 : MsgOk P S G m x) (hc : m.ctr < u32)
    (hlog : log.length < u32) (hpt : m.pt.length < 2 ^ 60) :
    ∃ g wm, G[m.epoch]? = some g ∧ x.1 = decide (m.epoch % 2 = 0) ∧ inside x.2.1 x.2.2 = some wm ∧
      IsMsg P g m.ctr (if m.epoch % 2 = 0 then S.idR.pub else S.idI.pub)
        (if m.epoch % 2 = 0 then S.idI.pub else S.idR.pub) m.pt wm ∧ wm.prevCounter = prevOf log m.epoch := by
  obtain ⟨g, wm, hg, hx1, hm, hw⟩ := h2
  obtain ⟨g', prev, hp, hg', s1, s2, s3⟩ := h1
  rw [hg] at hg'
  injection hg' with hg'
  subst hg'
  have hgv := hC.valid g (List.mem_of_getElem? hg)
  have hlens := msgKeys_lens P (ckAt P g.ck m.ctr)
  have hpl : prev < 2 ^ 32 := by
    rw [hp]
    unfold prevOf
    unfold u32 at hlog
    have := count_le log (m.epoch - 2)
    split <;> omega
  have key : ∀ me them : Bytes, ∃ wm0 : WhisperMsg, wm0.serialized = message P g.ck.key g.kp.pub m.ctr prev me them m.pt ∧
      loadWhisper wm0.serialized = .ok wm0 ∧ wm0.prevCounter = prev ∧ wm0.serialized.length < 2 ^ 64 := by
    intro me them
    obtain ⟨ct, hct⟩ : ∃ ct, Cbc.Encrypt P (msgKeys P (ckAt P g.ck m.ctr)).cipherKey (msgKeys P (ckAt P g.ck m.ctr)).iv m.pt = .ok ct :=
      ⟨_, Cbc.Encrypt_ok P _ _ m.pt (by simp [Cbc.validKey, hlens.1]) hlens.2.2⟩
    have hctl : ct.length < 2 ^ 61 := by
      have := Cbc.Encrypt_length P _ _ _ _ hct
      omega
    refine ⟨newWhisper P 3 (msgKeys P (ckAt P g.ck m.ctr)).macKey g.kp.pub m.ctr prev ct me them,
      message_eq P g.ck g.kp.pub me them m.pt ct m.ctr prev hct,
      loadWhisper_newWhisper P _ _ _ _ _ _ _ hgv.1.pub_len hc hpl (by omega), rfl, ?_⟩
    have e1 : (newWhisper P 3 (msgKeys P (ckAt P g.ck m.ctr)).macKey g.kp.pub m.ctr prev ct me them).serialized.length =
        (whisperBody g.kp.pub m.ctr prev ct).length + 1 + 8 := by
      simp [newWhisper, getMac_len]
    have e2 : (whisperBody g.kp.pub m.ctr prev ct).length ≤ ct.length + 200 :=
      whisperBody_length_le _ _ _ _ hgv.1.pub_len (by unfold u32 at hc; omega) (by omega) (by omega)
    omega
  by_cases he1 : m.epoch = 1
  · obtain ⟨hty, pm, q1, q2, q3, q4, q5, q6, q7, q8⟩ := hw.2 he1
    have hx := s3 he1
    obtain ⟨wm0, k1, k2, k3, k4⟩ := key S.idI.pub S.idR.pub
    have hload := loadPreKeyMsg_new wm0 S.regI S.pkId S.spkId (newPair P S.rb).pub S.idI.pub k2 hS.regI hS.pkId.1
      hS.spkId.2 hS.spkId.1 (newPair_valid P _ hS.rb).pub_len hS.idI.pub_len k4
    rw [envelope_eq, k1] at hload
    rw [hx] at q1
    simp only at q1
    rw [hload] at q1
    injection q1 with q1
    have hwm : wm0 = wm := by rw [← q8, ← q1]
    refine ⟨g, wm, hg, hx1, ?_, hm, by rw [← hwm, k3, hp]⟩
    rw [hx]
    simp only [inside, hload, hwm]
  · obtain ⟨hty, q1⟩ := hw.1 he1
    obtain ⟨me, them, hx⟩ : ∃ me them, x.2.1 = message P g.ck.key g.kp.pub m.ctr prev me them m.pt := by
      by_cases hz : m.epoch % 2 = 0
      · exact ⟨_, _, by rw [s1 hz]⟩
      · exact ⟨_, _, by rw [s2 ⟨by omega, he1⟩]⟩
    obtain ⟨wm0, k1, k2, k3, k4⟩ := key me them
    rw [← hx] at k1
    rw [k1, q1] at k2
    injection k2 with k2
    refine ⟨g, wm, hg, hx1, ?_, hm, by rw [k2, k3, hp]⟩
    simp only [inside, hty, q1]

/-! ## The simulation -/

/-- The conversation with the peer is in step with that of two clients. -/
structure MRel (P : Prims) (S : Setup) (peer : Bool) (G : List Epoch) (a : Abs) (w : World) (mw : Mixed) : Prop where
  rel : Rel P S G a w
  sent : List.Forall₂ (Sent P S G a.log) a.log w.wire
  tidy : Tidy a
  client : mw.client = if peer then w.I else w.R
  wire : mw.wire = w.wire
  state : At P G a.log a.acc (a.sendLevel peer) mw.peer

theorem level_par {P S G a w} (h : Rel P S G a w) (peer : Bool) : a.sendLevel peer % 2 = if peer then 0 else 1 := by
  have := h.parI
  have := h.parR
  cases peer <;> simp [Abs.sendLevel] <;> assumption

theorem count_log0 {P S G a w} (h : Rel P S G a w) : count a.log 0 = 0 := by
  apply count_zero
  intro m hm he
  have := (h.logE m hm).1
  omega

/-- The peer sends. -/
theorem peer_sends {P : Prims} {S : Setup} {peer : Bool} {G : List Epoch} {a : Abs} {w : World} {mw : Mixed} (hS : S.Ok P)
    (h : MRel P S peer G a w mw) (ho : peer = false → S.opk ≠ none) (pt : Bytes) (hl : Ev.Legal a (.send peer pt))
    (hb : a.log.length + 2 < u32) :
    (mw.step P S customary peer (.send peer pt)).2 = .sent ∧
    (mw.step P S customary peer (.send peer pt)).1.wire = (w.step P S (.send peer pt)).1.wire ∧
    (mw.step P S customary peer (.send peer pt)).1.client = mw.client ∧
    At P G (a.step (.send peer pt)).log a.acc (a.sendLevel peer) (mw.step P S customary peer (.send peer pt)).1.peer := by
  obtain ⟨m, x, h1, h2, ⟨g, prev, hp, hg, s1, s2, s3⟩, h4⟩ := send_wire hS h.rel peer pt hl hb
  have hm : m = ⟨a.sendLevel peer, count a.log (a.sendLevel peer), pt⟩ := by
    have : a.log ++ [⟨a.sendLevel peer, count a.log (a.sendLevel peer), pt⟩] = a.log ++ [m] := h1
    exact (List.cons.inj (List.append_cancel_left this)).1.symm
  have hpar := level_par h.rel peer
  have h0 : a.sendLevel peer ≠ 0 := by
    cases peer with
    | true => exact hl.1 rfl
    | false => simp only [Bool.false_eq_true, if_false] at hpar; omega
  rw [h4] at hg hp
  obtain ⟨s', r1, r2, r3⟩ := h.state.send h0 customary (Setup.me S peer) (Setup.them S peer) pt g hg
  have hpw : customary.write (if a.sendLevel peer < 2 then 0 else count a.log (a.sendLevel peer - 2)) = prev := by
    rw [hp]
    unfold prevOf
    show (if a.sendLevel peer < 2 then 0 else count a.log (a.sendLevel peer - 2)) - 1 = _
    split <;> rfl
  rw [hpw] at r1
  have hstep : mw.step P S customary peer (.send peer pt) =
      ({ mw with peer := s', wire := mw.wire ++ [Mixed.transmit P S peer s' (message P g.ck.key g.kp.pub
        (count a.log (a.sendLevel peer)) prev (Setup.me S peer) (Setup.them S peer) pt)] }, .sent) := by
    simp only [Mixed.step, if_true, r1]
  rw [hstep]
  refine ⟨rfl, ?_, rfl, r2⟩
  simp only
  rw [h.wire, h2]
  congr 2
  rw [hm] at s1 s2 s3
  simp only at s1 s2 s3
  unfold Mixed.transmit
  cases peer with
  | true =>
    simp only [if_true] at hpar
    rw [if_neg (by simp), s1 hpar]
    rfl
  | false =>
    simp only [Bool.false_eq_true, if_false] at hpar
    by_cases he : a.sendLevel false = 1
    · rw [s3 he, if_pos ⟨rfl, by rw [r3]; exact (h.state.start (by omega)).1⟩]
      have hn := ho rfl
      unfold envelopeC envelope
      cases hopk : S.opk with
      | none => exact absurd hopk hn
      | some k => rfl
    · have hck : s'.CKr ≠ none := by
        rw [r3]
        obtain ⟨_, _, _, q, _⟩ := h.state.recv (by omega)
        simp [q]
      rw [s2 ⟨hpar, he⟩, if_neg (fun hh => hck hh.2)]
      rfl

/-- The client sends. -/
theorem client_sends {P : Prims} {S : Setup} {peer : Bool} {G : List Epoch} {a : Abs} {w : World} {mw : Mixed}
    (h : MRel P S peer G a w mw) (N : Numbering) (who : Bool) (hne : who ≠ peer) (pt : Bytes) :
    (mw.step P S N peer (.send who pt)).2 = (w.step P S (.send who pt)).2 ∧
    (mw.step P S N peer (.send who pt)).1.wire = (w.step P S (.send who pt)).1.wire ∧
    (mw.step P S N peer (.send who pt)).1.client =
      (if peer then (w.step P S (.send who pt)).1.I else (w.step P S (.send who pt)).1.R) ∧
    (mw.step P S N peer (.send who pt)).1.peer = mw.peer := by
  have hcl := h.client
  have hw := h.wire
  cases peer with
  | true =>
    have : who = false := by cases who <;> simp_all
    subst this
    simp only [if_true] at hcl
    simp only [Mixed.step, World.step, hcl, hw, Setup.name, Setup.dev, Bool.false_eq_true, if_false, if_true]
    cases (encryptMsg P {} w.I S.nameR S.devR pt).res <;> exact ⟨rfl, rfl, rfl, rfl⟩
  | false =>
    have : who = true := by cases who <;> simp_all
    subst this
    simp only [Bool.false_eq_true, if_false] at hcl
    simp only [Mixed.step, World.step, hcl, hw, Setup.name, Setup.dev, Bool.false_eq_true, if_false, Bool.true_eq_false]
    cases (encryptMsg P {} w.R S.nameI S.devI pt).res <;> exact ⟨rfl, rfl, rfl, rfl⟩

/-- A message is delivered to the client. -/
theorem client_reads {P : Prims} {S : Setup} {peer : Bool} {G : List Epoch} {a : Abs} {w : World} {mw : Mixed}
    (h : MRel P S peer G a w mw) (N : Numbering) (i : Nat) (rnd : Nat → Bytes) (b : Bytes) (ty : MsgType)
    (hx : w.wire[i]? = some (peer, b, ty)) :
    (mw.step P S N peer (.deliver i rnd)).2 = (w.step P S (.deliver i rnd)).2 ∧
    (mw.step P S N peer (.deliver i rnd)).1.wire = (w.step P S (.deliver i rnd)).1.wire ∧
    (mw.step P S N peer (.deliver i rnd)).1.client =
      (if peer then (w.step P S (.deliver i rnd)).1.I else (w.step P S (.deliver i rnd)).1.R) ∧
    (mw.step P S N peer (.deliver i rnd)).1.peer = mw.peer := by
  have hcl := h.client
  have hw := h.wire
  cases peer with
  | true =>
    simp only [if_true] at hcl
    simp only [Mixed.step, World.step, hcl, hw, hx, Setup.name, Setup.dev, if_true]
    exact ⟨trivial, trivial, trivial, trivial⟩
  | false =>
    simp only [Bool.false_eq_true, if_false] at hcl
    simp only [Mixed.step, World.step, hcl, hw, hx, Setup.name, Setup.dev, Bool.false_eq_true, if_false, if_true]
    exact ⟨trivial, trivial, trivial, trivial⟩

/-- A message is delivered to the peer. -/
theorem peer_step (P : Prims) (S : Setup) (N : Numbering) (peer : Bool) (mw : Mixed) (i : Nat) (rnd : Nat → Bytes) (b : Bytes)
    (ty : MsgType) (who : Bool) (hne : who ≠ peer) (hx : mw.wire[i]? = some (who, b, ty)) (wm : WhisperMsg)
    (hin : inside b ty = some wm) :
    (decrypt P N (Setup.me S peer) (Setup.them S peer) (newPair P (rnd 0)) mw.peer wm = none →
      mw.step P S N peer (.deliver i rnd) = (mw, .received (.err .invalidMessage))) ∧
    (∀ pt s, decrypt P N (Setup.me S peer) (Setup.them S peer) (newPair P (rnd 0)) mw.peer wm = some (pt, s) →
      mw.step P S N peer (.deliver i rnd) = ({ mw with peer := s }, .received (.ok pt))) := by
  constructor
  · intro hd
    simp only [Mixed.step, hx, hin, if_neg hne, hd]
  · intro pt s hd
    simp only [Mixed.step, hx, hin, if_neg hne, hd]

/-- What the client of the conversation of two is left with when the other reads. -/
theorem other_reads (P : Prims) (S : Setup) (peer who : Bool) (hne : who ≠ peer) (w : World) (i : Nat) (rnd : Nat → Bytes)
    (b : Bytes) (ty : MsgType) (hx : w.wire[i]? = some (who, b, ty)) :
    (if peer then (w.step P S (.deliver i rnd)).1.I else (w.step P S (.deliver i rnd)).1.R) =
      (if peer then w.I else w.R) := by
  cases peer <;> cases who <;> first
    | exact absurd rfl hne
    | simp only [World.step, hx]; rfl

theorem accept_fields (a : Abs) (m : AMsg) : (a.accept m).log = a.log ∧ (a.accept m).acc = (m.epoch, m.ctr) :: a.acc := by
  unfold Abs.accept
  simp only
  split
  · split <;> exact ⟨rfl, rfl⟩
  · exact ⟨rfl, rfl⟩

theorem accept_levels (a : Abs) (m : AMsg) :
    (a.accept m).lvI = (if m.epoch = a.recvLevel m.epoch + 1 ∧ m.epoch % 2 ≠ 1 then a.recvLevel m.epoch + 2 else a.lvI) ∧
    (a.accept m).lvR = (if m.epoch = a.recvLevel m.epoch + 1 ∧ m.epoch % 2 = 1 then a.recvLevel m.epoch + 2 else a.lvR) := by
  unfold Abs.accept
  simp only
  by_cases h1 : m.epoch = a.recvLevel m.epoch + 1
  · by_cases h2 : m.epoch % 2 = 1
    · rw [if_pos h1, if_pos h2, if_neg (fun h => h.2 h2), if_pos ⟨h1, h2⟩]
      exact ⟨rfl, rfl⟩
    · rw [if_pos h1, if_neg h2, if_pos ⟨h1, h2⟩, if_neg (fun h => h2 h.2)]
      exact ⟨rfl, rfl⟩
  · rw [if_neg h1, if_neg (fun h => h1 h.1), if_neg (fun h => h1 h.1)]
    exact ⟨rfl, rfl⟩

/-- One event. -/
theorem mixed_step {P : Prims} {S : Setup} (hS : S.Ok P) (peer : Bool) (ho : peer = false → S.opk ≠ none) (ev : Ev)
    (evs : List Ev) (G : List Epoch) (a : Abs) (w : World) (mw : Mixed) (h : MRel P S peer G a w mw) (hl : ev.Legal a)
    (hn : (G.map (fun g => g.kp.pub) ++ keysOf P (ev :: evs)).Nodup) (hb : a.log.length + 2 < u32)
    (hnf : a.want ev = .stale → ∀ pt, (w.step P S ev).2 ≠ .received (.ok pt))
    (hwi : ∀ i rnd m, ev = .deliver i rnd → a.log[i]? = some m → toPeer peer m → a.expect m ≠ .stale ∧
      (m.epoch = a.recvLevel m.epoch + 1 → previous a.log m.epoch + 1 ≤ pos a.acc (m.epoch - 2) + 2000))
    (hnr : ∀ i rnd m, ev = .deliver i rnd → a.log[i]? = some m → toPeer peer m → (m.epoch, m.ctr) ∈ a.acc →
      ∀ pt, (mw.step P S customary peer ev).2 ≠ .received (.ok pt)) :
    ∃ G', Agree (a.want ev) (mw.step P S customary peer ev).2 ∧
      MRel P S peer G' (a.step ev) (w.step P S ev).1 (mw.step P S customary peer ev).1 ∧
      (G'.map (fun g => g.kp.pub) ++ keysOf P evs).Nodup := by
  obtain ⟨G', hag, hrel, hG, hnod, hsent⟩ := step_wire hS ev evs G a w h.rel h.sent hl hn hb hnf
  have htidy := h.tidy.step ev hl
  have hpar := level_par h.rel peer
  have hpi := h.rel.parI
  have hpr := h.rel.parR
  have hadj := h.rel.adj
  cases ev with
  | send who pt =>
    have hGG : G' = G := by
      rcases hG with h1 | ⟨g, i, rnd, h1, _⟩
      · exact h1
      · cases h1
    subst hGG
    by_cases hwho : who = peer
    · subst hwho
      obtain ⟨q1, q2, q3, q4⟩ := peer_sends hS h ho pt hl hb
      refine ⟨G', by rw [q1]; exact trivial, ⟨hrel, hsent, htidy, ?_, q2, q4⟩, hnod⟩
      rw [q3, h.client]
      cases who
      · simp only [World.step, Bool.false_eq_true, if_false]
        cases (encryptMsg P {} w.I S.nameR S.devR pt).res <;> rfl
      · simp only [World.step, if_true]
        cases (encryptMsg P {} w.R S.nameI S.devI pt).res <;> rfl
    · obtain ⟨q1, q2, q3, q4⟩ := client_sends h customary who hwho pt
      refine ⟨G', by rw [q1]; exact hag, ⟨hrel, hsent, htidy, q3, q2, ?_⟩, hnod⟩
      rw [q4]
      have hlv : a.sendLevel who % 2 ≠ a.sendLevel peer % 2 ∧ a.sendLevel peer ≤ a.sendLevel who + 1 := by
        unfold Abs.sendLevel
        cases peer <;> cases who <;> first
          | exact absurd rfl hwho
          | (simp only [Bool.false_eq_true, if_false, if_true]; omega)
      exact h.state.log ⟨a.sendLevel who, count a.log (a.sendLevel who), pt⟩ hlv.1 hlv.2
  | deliver i rnd =>
    cases hi : a.log[i]? with
    | none =>
      have hwn := (forall₂_get h.sent i).1 hi
      have e1 : a.want (.deliver i rnd) = .nothing := by simp [Abs.want, hi]
      have e2 : a.step (.deliver i rnd) = a := by simp [Abs.step, hi]
      have e3 : w.step P S (.deliver i rnd) = (w, .nothing) := by simp [World.step, hwn]
      have e4 : mw.step P S customary peer (.deliver i rnd) = (mw, .nothing) := by simp [Mixed.step, h.wire, hwn]
      rw [e2, e3] at hrel hsent
      rw [e2] at htidy
      rw [e1, e2, e3, e4]
      refine ⟨G', trivial, ⟨hrel, hsent, htidy, h.client, h.wire, ?_⟩, hnod⟩
      rcases hG with rfl | ⟨g, _, _, _, rfl, _⟩
      · exact h.state
      · exact h.state.extend _
    | some m =>
      have hmem := List.mem_of_getElem? hi
      obtain ⟨x, hx, hsx⟩ := (forall₂_get h.sent i).2 m hi
      obtain ⟨x', hx', hmx⟩ := (forall₂_get h.rel.log i).2 m hi
      rw [hx] at hx'
      injection hx' with hx'
      subst hx'
      obtain ⟨l1, l2, l3⟩ := h.rel.logE m hmem
      obtain ⟨g, wm, hg, hx1, hin, hm, hprev⟩ := header hS h.rel.chain hsx hmx (by omega) (by omega) (h.tidy.ctr m hmem).2
      obtain ⟨who, b, ty⟩ := x
      simp only at hx1 hin
      obtain ⟨da, dr, ds⟩ := deliver_abs a i rnd m hi
      obtain ⟨f1, f2⟩ := accept_fields a m
      by_cases hwho : who = peer
      · -- to the client
        subst hwho
        obtain ⟨q1, q2, q3, q4⟩ := client_reads h customary i rnd b ty hx
        refine ⟨G', by rw [q1]; exact hag, ⟨hrel, hsent, htidy, q3, q2, ?_⟩, hnod⟩
        rw [q4]
        have hep : m.epoch % 2 = a.sendLevel who % 2 := by
          rw [hpar, hx1]
          by_cases hz : m.epoch % 2 = 0
          · simp [hz]
          · simp [hz]; omega
        have hst : At P G (a.step (.deliver i rnd)).log (a.step (.deliver i rnd)).acc
            ((a.step (.deliver i rnd)).sendLevel who) mw.peer := by
          cases he : a.expect m with
          | refuse => rw [(dr he).2]; exact h.state
          | stale => rw [(ds he).2]; exact h.state
          | accept =>
            rw [(da he).2, f1, f2]
            have hlv : (a.accept m).sendLevel who = a.sendLevel who := by
              obtain ⟨v1, v2⟩ := accept_levels a m
              unfold Abs.sendLevel
              by_cases hz : m.epoch % 2 = 0
              · have : who = true := by rw [hx1]; simp [hz]
                subst this
                simp only [if_true]
                rw [v2, if_neg (fun hh => by omega)]
              · have : who = false := by rw [hx1]; simp [hz]
                subst this
                simp only [Bool.false_eq_true, if_false]
                rw [v1, if_neg (fun hh => by omega)]
            rw [hlv]
            exact h.state.acc _ _ hep
        rcases hG with rfl | ⟨g, _, _, _, rfl, _⟩
        · exact hst
        · exact hst.extend _
      · -- to the peer
        have htp : toPeer peer m := by
          unfold toPeer
          by_cases hz : m.epoch % 2 = 0
          · have : who = true := by rw [hx1]; simp [hz]
            subst this
            cases peer
            · exact hz
            · exact absurd rfl hwho
          · have : who = false := by rw [hx1]; simp [hz]
            subst this
            cases peer
            · exact absurd rfl hwho
            · simp only [if_true]; omega
        obtain ⟨hns, hgap⟩ := hwi i rnd m rfl hi htp
        have hnr' := hnr i rnd m rfl hi htp
        have hrl : a.recvLevel m.epoch = a.sendLevel peer := by
          unfold toPeer at htp
          unfold Abs.recvLevel Abs.sendLevel
          cases peer with
          | true => simp only [if_true] at htp ⊢; rw [if_pos htp]
          | false => simp only [Bool.false_eq_true, if_false] at htp ⊢; rw [if_neg (by omega)]
        have hep : m.epoch % 2 ≠ a.sendLevel peer % 2 := by
          rw [hpar]
          unfold toPeer at htp
          cases peer <;> simp at htp ⊢ <;> omega
        have hm' : IsMsg P g m.ctr (Setup.them S peer) (Setup.me S peer) m.pt wm := by
          unfold toPeer at htp
          cases peer with
          | true => simp only [if_true] at htp; rw [if_neg (by omega), if_neg (by omega)] at hm; exact hm
          | false => simp only [Bool.false_eq_true, if_false] at htp; rw [if_pos htp, if_pos htp] at hm; exact hm
        obtain ⟨p1, p2⟩ := peer_step P S customary peer mw i rnd b ty who hwho (by rw [h.wire]; exact hx) wm hin
        have hcl := other_reads P S peer who hwho w i rnd b ty hx
        have hwire : (w.step P S (.deliver i rnd)).1.wire = w.wire := deliver_wire P S w i rnd
        obtain ⟨n, hnn⟩ : ∃ n, n = a.sendLevel peer := ⟨_, rfl⟩
        rw [← hnn] at hrl hep
        have hst := h.state
        rw [← hnn] at hst
        -- finishing, given what the peer makes of the message
        have refuse : a.expect m = .refuse →
            decrypt P customary (Setup.me S peer) (Setup.them S peer) (newPair P (rnd 0)) mw.peer wm = none →
            Agree (a.want (.deliver i rnd)) (mw.step P S customary peer (.deliver i rnd)).2 ∧
            MRel P S peer G' (a.step (.deliver i rnd)) (w.step P S (.deliver i rnd)).1
              (mw.step P S customary peer (.deliver i rnd)).1 := by
          intro he hd
          have hst' : At P G (a.step (.deliver i rnd)).log (a.step (.deliver i rnd)).acc
              ((a.step (.deliver i rnd)).sendLevel peer) mw.peer := by rw [(dr he).2]; exact h.state
          rw [p1 hd, (dr he).1]
          refine ⟨trivial, hrel, hsent, htidy, by rw [hcl]; exact h.client, by rw [hwire]; exact h.wire, ?_⟩
          rcases hG with rfl | ⟨g, _, _, _, rfl, _⟩
          · exact hst'
          · exact hst'.extend _
        have accept : ∀ s', a.expect m = .accept →
            decrypt P customary (Setup.me S peer) (Setup.them S peer) (newPair P (rnd 0)) mw.peer wm = some (m.pt, s') →
            At P G' (a.accept m).log (a.accept m).acc ((a.accept m).sendLevel peer) s' →
            Agree (a.want (.deliver i rnd)) (mw.step P S customary peer (.deliver i rnd)).2 ∧
            MRel P S peer G' (a.step (.deliver i rnd)) (w.step P S (.deliver i rnd)).1
              (mw.step P S customary peer (.deliver i rnd)).1 := by
          intro s' he hd hat
          rw [← (da he).2] at hat
          rw [p2 _ _ hd, (da he).1]
          exact ⟨rfl, hrel, hsent, htidy, by rw [hcl]; exact h.client, by rw [hwire]; exact h.wire, hat⟩
        suffices hgoal : Agree (a.want (.deliver i rnd)) (mw.step P S customary peer (.deliver i rnd)).2 ∧
            MRel P S peer G' (a.step (.deliver i rnd)) (w.step P S (.deliver i rnd)).1
              (mw.step P S customary peer (.deliver i rnd)).1 from ⟨G', hgoal.1, hgoal.2, hnod⟩
        have hexp : a.expect m = if m.epoch = n + 1 then (if m.ctr > 2000 then .refuse else .accept)
            else if m.epoch ∈ ret n then
              if (m.epoch, m.ctr) ∈ a.acc then .refuse
              else if m.ctr > pos a.acc m.epoch + 2000 then .refuse
              else .accept
            else .stale := by rw [← hrl]; rfl
        have hacc := h.tidy.acc
        by_cases hne : m.epoch = n + 1
        · -- the first of a new chain
          rw [if_pos hne] at hexp
          have hlen := h.rel.len
          have hother : ∀ e, e % 2 ≠ n % 2 → a.recvLevel e = n := by
            intro e he
            rw [← hrl]
            unfold Abs.recvLevel
            by_cases hz : e % 2 = 1
            · rw [if_pos hz, if_pos (by omega)]
            · rw [if_neg hz, if_neg (by omega)]
          have hnew : ∀ x ∈ a.acc, x.1 ≠ n + 1 := by
            intro x hx' he
            have := (h.rel.acc x hx').1
            rw [hother x.1 (by omega)] at this
            omega
          have hsl : n + 1 ≤ a.sendLevel (!peer) := by
            rw [← hne]
            have hd : (decide (m.epoch % 2 = 0)) = !peer := by
              rw [← hx1]
              cases who <;> cases peer <;> first
                | exact absurd rfl hwho
                | rfl
            rw [← hd]
            exact l2
          have hglen : G.length = n + 2 := by
            rw [hlen]
            cases peer <;> simp only [Abs.sendLevel, Bool.not_true, Bool.not_false, Bool.false_eq_true, if_false, if_true] at hnn hsl <;> omega
          have hc2 : count a.log (n + 2) = 0 := by
            apply count_zero
            intro m' hm' he
            have hle := (h.rel.logE m' hm').2.1
            have hd : (decide (m'.epoch % 2 = 0)) = peer := by
              have hnp : n % 2 = if peer then 0 else 1 := by rw [hnn]; exact hpar
              rw [he]
              cases peer
              · simp only [Bool.false_eq_true, if_false] at hnp
                exact decide_eq_false (by omega)
              · simp only [if_true] at hnp
                exact decide_eq_true (by omega)
            rw [hd, ← hnn, he] at hle
            omega
          have hgp := hgap (by rw [hrl]; exact hne)
          rw [previous_eq, hne, show n + 1 - 2 = n - 1 by omega] at hgp
          by_cases hgt : m.ctr > 2000
          · rw [if_pos hgt] at hexp
            refine refuse hexp ?_
            rw [hne] at hg hprev
            exact (read_far h.rel.chain hst (Setup.me S peer) (Setup.them S peer) m.pt (newPair P (rnd 0)) m.ctr g hg wm
              hm' hgt)
          · rw [if_neg hgt] at hexp
            have hlv : (a.accept m).sendLevel peer = n + 2 := by
              obtain ⟨v1, v2⟩ := accept_levels a m
              unfold toPeer at htp
              unfold Abs.sendLevel
              cases peer with
              | true =>
                simp only [if_true] at htp ⊢
                rw [v2, hrl, if_pos ⟨hne, htp⟩]
              | false =>
                simp only [Bool.false_eq_true, if_false] at htp ⊢
                rw [v1, hrl, if_pos ⟨hne, by omega⟩]
            have hG' : ∃ g', G' = G ++ [g'] ∧ g'.kp = newPair P (rnd 0) := by
              rcases hG with rfl | ⟨g', i', rnd', he, rfl, hk⟩
              · exfalso
                have := hrel.len
                rw [(da hexp).2] at this
                have h3 : n + 2 ≤ max (a.accept m).lvI (a.accept m).lvR := by
                  rw [← hlv]
                  unfold Abs.sendLevel
                  split <;> omega
                omega
              · injection he with h1 h2
                subst h1
                subst h2
                exact ⟨g', rfl, hk⟩
            obtain ⟨g', rfl, hk⟩ := hG'
            rw [hne] at hg hprev
            obtain ⟨s', r1, r2⟩ := (read_new h.rel.chain hst (Setup.me S peer) (Setup.them S peer) m.pt (newPair P (rnd 0))
              m.ctr g g' hg hglen wm hm' hprev (count_log0 h.rel) hrel.chain hk hnew hc2 hacc hgp).2 hgt
            refine accept s' hexp r1 ?_
            rw [f1, f2, hlv, hne]
            exact r2
        · rw [if_neg hne] at hexp
          by_cases hret : m.epoch ∈ ret n
          · rw [if_pos hret] at hexp
            obtain ⟨hlt, _⟩ := ret_lt n _ hret
            have hlv : (a.accept m).sendLevel peer = n := by
              obtain ⟨v1, v2⟩ := accept_levels a m
              rw [hrl, if_neg (fun hh => hne hh.1)] at v1 v2
              rw [hnn]
              unfold Abs.sendLevel
              rw [v1, v2]
            have ext : ∀ {acc s'}, At P G a.log acc n s' → At P G' a.log acc n s' := by
              intro acc s' hat
              rcases hG with rfl | ⟨g, _, _, _, rfl, _⟩
              · exact hat
              · exact hat.extend _
            by_cases hd : (m.epoch, m.ctr) ∈ a.acc
            · rw [if_pos hd] at hexp
              cases hdec : decrypt P customary (Setup.me S peer) (Setup.them S peer) (newPair P (rnd 0)) mw.peer wm with
              | none => exact refuse hexp hdec
              | some y =>
                obtain ⟨pt, s'⟩ := y
                exact absurd (by rw [p2 _ _ hdec]) (hnr' hd pt)
            · rw [if_neg hd] at hexp
              by_cases hk : m.ctr < bound a.log a.acc n m.epoch
              · obtain ⟨s', r1, r2⟩ := read_kept h.rel.chain hst customary (Setup.me S peer) (Setup.them S peer) m.pt
                  (newPair P (rnd 0)) m.epoch m.ctr g hg wm hm' ⟨by omega, hlt, hep, hd, hk⟩
                have hle : ¬ m.ctr > pos a.acc m.epoch + 2000 := by
                  by_cases hlast : m.epoch + 1 = n
                  · unfold bound at hk
                    rw [if_pos hlast] at hk
                    omega
                  · have := hst.gap m.epoch (by omega) (by omega) hep
                    have := (h.tidy.ctr m hmem).1
                    omega
                rw [if_neg hle] at hexp
                refine accept s' hexp r1 ?_
                rw [f1, f2, hlv]
                exact ext r2
              · have hlast : m.epoch + 1 = n := by
                  by_cases hlast : m.epoch + 1 = n
                  · exact hlast
                  · unfold bound at hk
                    rw [if_neg hlast] at hk
                    have := (h.tidy.ctr m hmem).1
                    omega
                have he1 : m.epoch = n - 1 := by omega
                unfold bound at hk
                rw [if_pos hlast] at hk
                rw [he1] at hg hk hexp
                obtain ⟨r1, r2⟩ := read_present h.rel.chain hst customary (Setup.me S peer) (Setup.them S peer) m.pt
                  (newPair P (rnd 0)) m.ctr (by omega) g hg wm hm' (by omega) (fun j hj => pos_mem _ _ _ hj)
                by_cases hgt : m.ctr > pos a.acc (n - 1) + 2000
                · rw [if_pos hgt] at hexp
                  exact refuse hexp (r1 hgt)
                · rw [if_neg hgt] at hexp
                  obtain ⟨s', r3, r4⟩ := r2 hgt
                  refine accept s' hexp r3 ?_
                  rw [f1, f2, hlv, he1]
                  exact ext r4
          · rw [if_neg hret] at hexp
            exact absurd hexp hns

theorem epoch0_root {P : Prims} {S : Setup} (hS : S.Ok P) : (epoch0 P S).root = root0 P S := by
  have := keyMaterial_sender hS
  show ((P.hkdf (keyMaterial P S) [] (ascii "WhisperText") 64)).take 32 = _
  unfold root0 secret
  rw [← this]
  cases S.opk <;> rfl

theorem mixed_init {P : Prims} {S : Setup} (hS : S.Ok P) (hne : S.spk.pub ≠ (newPair P S.rr).pub) (peer : Bool) :
    MRel P S peer (initG P S) {} (World.init P S) (Mixed.init P S peer) := by
  have hroot := epoch0_root hS
  refine ⟨(init_rel hS hne).2, .nil, ⟨by simp, fun e => by simp [pos]⟩, ?_, rfl, ?_⟩
  · cases peer <;> rfl
  · cases peer with
    | true =>
      refine ⟨⟨epoch0 P S, rfl, rfl, hroot.symm, fun h => absurd rfl h⟩, rfl, rfl, fun _ => ⟨rfl, rfl, ?_⟩, ?_, ?_, ?_⟩
      · intro d hd; cases hd
      · intro h; simp [Abs.sendLevel] at h
      · intro x
        constructor
        · intro h; cases h
        · rintro ⟨e, g, j, _, _, _, h, _⟩; simp [Abs.sendLevel] at h
      · intro e _ h; simp [Abs.sendLevel] at h
    | false =>
      refine ⟨⟨_, rfl, rfl, ?_, fun _ => ?_⟩, rfl, rfl, fun _ => ⟨rfl, rfl, ?_⟩, ?_, ?_, ?_⟩
      · rw [hroot]; rfl
      · rw [hroot]; rfl
      · intro d hd
        injection hd with hd
        exact ⟨epoch0 P S, rfl, hd.symm⟩
      · intro h; simp [Abs.sendLevel] at h
      · intro x
        constructor
        · intro h; cases h
        · rintro ⟨e, g, j, _, _, h0, h, _⟩; simp [Abs.sendLevel] at h; exact absurd h h0
      · intro e _ h; simp [Abs.sendLevel] at h

/-- Whole schedules. -/
theorem mixed_simulate {P : Prims} {S : Setup} (hS : S.Ok P) (peer : Bool) (ho : peer = false → S.opk ≠ none) :
    ∀ (evs : List Ev) (G : List Epoch) (a : Abs) (w : World) (mw : Mixed), MRel P S peer G a w mw → Legal a evs →
    (G.map (fun g => g.kp.pub) ++ keysOf P evs).Nodup → a.log.length + evs.length + 1 < u32 → NoForgery P S a w evs →
    Within peer a evs → NoReplay P S customary peer a mw evs →
    List.Forall₂ Agree (wants a evs) (Mixed.gots P S customary peer mw evs) ∧
    ∃ G', MRel P S peer G' (evs.foldl Abs.step a) (evs.foldl (fun w ev => (w.step P S ev).1) w)
      (Mixed.run P S customary peer mw evs) := by
  intro evs
  induction evs with
  | nil => intro G a w mw h _ _ _ _ _ _; exact ⟨.nil, G, h⟩
  | cons ev evs ih =>
    intro G a w mw h hl hn hb hnf hwi hnr
    simp only [List.length_cons] at hb
    obtain ⟨G', h1, h2, h3⟩ := mixed_step hS peer ho ev evs G a w mw h hl.1 hn (by omega) hnf.1 hwi.1 hnr.1
    have hll : (a.step ev).log.length ≤ a.log.length + 1 := by
      cases ev with
      | send who pt => simp [Abs.step]
      | deliver i rnd => rw [deliver_log]; omega
    obtain ⟨r1, G2, r2⟩ := ih G' _ _ _ h2 hl.2 h3 (by omega) hnf.2 hwi.2 hnr.2
    exact ⟨.cons h1 r1, G2, r2⟩

end Verif.Ratchet
