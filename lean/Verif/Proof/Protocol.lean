import Verif.Spec.Protocol
import Verif.Proof.Theft
/-!
# Lemmas for C159
-/
namespace Verif.Protocol
open Verif Verif.Keys Verif.Messages Verif.Session Verif.Api Verif.Names Verif.Conv Verif.Theft

/-! ## Bytes -/

theorem base128_eq (n : Nat) : base128 n = Wire.encVarint n := by
  induction n using Nat.strongRecOn with
  | ind n ih =>
    unfold base128 Wire.encVarint
    split
    · rfl
    · rw [ih _ (by omega), Nat.add_comm]

theorem number_eq (f v : Nat) (hf : f < 16) : Wire.encField (f, .varint v) = number f v := by
  show Wire.encVarint (f * 8 + 0) ++ Wire.encVarint v = _
  unfold number
  rw [base128_eq]
  have : Wire.encVarint (f * 8 + 0) = [UInt8.ofNat (8 * f)] := by
    unfold Wire.encVarint
    rw [if_pos (by omega), show f * 8 + 0 = 8 * f by omega]
  rw [this]
  rfl

theorem bytes_eq (f : Nat) (b : Bytes) (hf : f < 15) : Wire.encField (f, .len b) = bytes f b := by
  show Wire.encVarint (f * 8 + 2) ++ (Wire.encVarint b.length ++ b) = _
  unfold bytes
  rw [base128_eq]
  have : Wire.encVarint (f * 8 + 2) = [UInt8.ofNat (8 * f + 2)] := by
    unfold Wire.encVarint
    rw [if_pos (by omega), show f * 8 + 2 = 8 * f + 2 by omega]
  rw [this]
  rfl

theorem padded_eq (pt : Bytes) : padded pt = Cbc.pad pt := rfl

theorem cbc_eq (P : Prims) (key : Bytes) : ∀ (n : Nat) (b iv : Bytes), b.length ≤ n →
    cbc P key iv b = (Cbc.cbcEnc P key iv (Cbc.blocks b)).flatten := by
  intro n
  induction n with
  | zero =>
    intro b iv h
    have : b.length = 0 := by omega
    unfold cbc Cbc.blocks
    simp [this, Cbc.cbcEnc]
  | succ n ih =>
    intro b iv h
    unfold cbc Cbc.blocks
    by_cases hb : b.length = 0
    · simp [hb, Cbc.cbcEnc]
    · simp only [hb, if_false, Cbc.cbcEnc, List.flatten_cons]
      rw [ih (b.drop 16) _ (by simp; omega)]
      rfl

theorem message_eq (P : Prims) (C : ChainKey) (pub me them pt ct : Bytes) (c prev : Nat)
    (hct : Cbc.Encrypt P (msgKeys P (ckAt P C c)).cipherKey (msgKeys P (ckAt P C c)).iv pt = .ok ct) :
    (newWhisper P 3 (msgKeys P (ckAt P C c)).macKey pub c prev ct me them).serialized =
      message P C.key pub c prev me them pt := by
  have hk := keyOf_msgKeys P C c
  have hlens := msgKeys_lens P (ckAt P C c)
  rw [Cbc.Encrypt_ok P _ _ pt (by simp [Cbc.validKey, hlens.1]) hlens.2.2] at hct
  injection hct with hct
  unfold message
  rw [← hk]
  simp only
  rw [cbc_eq P _ _ _ _ (Nat.le_refl _), padded_eq, hct]
  have hb : whisperBody pub c prev ct = bytes 1 (point pub) ++ number 2 c ++ number 3 prev ++ bytes 4 ct := by
    unfold whisperBody Wire.encFields
    simp only [List.map_cons, List.map_nil, List.flatten_cons, List.flatten_nil, List.append_nil]
    rw [bytes_eq _ _ (by omega), number_eq _ _ (by omega), number_eq _ _ (by omega), bytes_eq _ _ (by omega)]
    simp only [List.append_assoc]
    rfl
  simp only [newWhisper, hb, getMac, Cbc.truncMAC, macLength]
  rfl

/-- The envelope the code writes. -/
def envelopeC (P : Prims) (S : Setup) (m : Bytes) : Bytes :=
  0x33 :: (number 1 S.pkId ++ bytes 2 (point (newPair P S.rb).pub) ++ bytes 3 (point S.idI.pub) ++ bytes 4 m ++
    number 5 S.regI ++ number 6 S.spkId)

theorem envelope_eq (P : Prims) (S : Setup) (wm : WhisperMsg) :
    newPreKeyMsg 3 S.regI S.pkId S.spkId (newPair P S.rb).pub S.idI.pub wm = envelopeC P S wm.serialized := by
  unfold newPreKeyMsg envelopeC Wire.encFields
  simp only [List.map_cons, List.map_nil, List.flatten_cons, List.flatten_nil, List.append_nil]
  rw [bytes_eq _ _ (by omega), bytes_eq _ _ (by omega), bytes_eq _ _ (by omega), number_eq _ _ (by omega),
    number_eq _ _ (by omega), number_eq _ _ (by omega)]
  simp only [List.append_assoc]
  rfl

/-! ## One message -/

theorem encrypt_bytes {P : Prims} {G log acc n me them s} (hC : Chain P G)
    (h : PartyAt P G log acc n me them s) (hme : me.length = 32) (hth : them.length = 32) (pt : Bytes)
    (hcnt : count log n + 1 < u32) (g : Epoch) (hg : G[n]? = some g) (s' : SState) (b : Bytes) (ty : MsgType)
    (he : encryptState P s pt = .ok (s', b, ty)) :
    ∃ wm : WhisperMsg, wm.serialized = message P g.ck.key g.kp.pub (count log n) s.prevCounter me them pt ∧
      (s.pending = none → b = wm.serialized ∧ ty = .whisper) ∧
      (∀ p bk, s.pending = some p → deser p.baseKey = .ok bk →
        b = newPreKeyMsg 3 s.localReg p.preKeyId p.signedPreKeyId bk me wm ∧ ty = .prekey) := by
  obtain ⟨gn, hgn, hroot, hsd⟩ := h.key
  rw [hg] at hgn
  injection hgn with hgn
  subst hgn
  have hgv := hC.valid g (List.mem_of_getElem? hg)
  have hckl : (ckAt P g.ck (count log n)).key.length = 32 := ckAt_len _ _ _ hgv.2.2.1
  have hidx : (ckAt P g.ck (count log n)).idx = count log n := by
    rw [ckAt_idx _ _ _ (by rw [hgv.2.2.2]; omega), hgv.2.2.2]; omega
  have hlens := msgKeys_lens P (ckAt P g.ck (count log n))
  obtain ⟨ct, hct⟩ : ∃ ct, Cbc.Encrypt P (msgKeys P (ckAt P g.ck (count log n))).cipherKey
      (msgKeys P (ckAt P g.ck (count log n))).iv pt = .ok ct :=
    ⟨_, Cbc.Encrypt_ok P _ _ pt (by simp [Cbc.validKey, hlens.1]) hlens.2.2⟩
  have hpubl := hgv.1.pub_len
  have hgv3 : s.getVersion % 256 = 3 := by simp [SState.getVersion, h.version]
  have hmsg := message_eq P g.ck g.kp.pub me them pt ct (count log n) s.prevCounter hct
  refine ⟨_, hmsg, ?_, ?_⟩
  · intro hq
    unfold encryptState at he
    rw [hsd] at he
    simp only at he
    rw [if_neg (by simpa using hckl), if_neg (by simpa using hpubl), hct] at he
    simp only [Res.ok_bind] at he
    rw [if_neg (by rw [h.localId, h.remoteId]; omega), hgv3, h.localId, h.remoteId, hq, hidx] at he
    simp only [Res.ok.injEq, Prod.mk.injEq] at he
    exact ⟨he.2.1.symm, he.2.2.symm⟩
  · intro p bk hq hbk
    unfold encryptState at he
    rw [hsd] at he
    simp only at he
    rw [if_neg (by simpa using hckl), if_neg (by simpa using hpubl), hct] at he
    simp only [Res.ok_bind] at he
    rw [if_neg (by rw [h.localId, h.remoteId]; omega), hgv3, h.localId, h.remoteId, hq, hidx] at he
    simp only [hbk, Res.ok_bind, Res.ok.injEq, Prod.mk.injEq] at he
    exact ⟨he.2.1.symm, he.2.2.symm⟩

/-! ## Schedules -/

/-- The bytes of a message, with the epochs of the simulation. -/
def Sent (P : Prims) (S : Setup) (G : List Epoch) (log : List AMsg) (m : AMsg) (x : Bool × Bytes × MsgType) : Prop :=
  ∃ g prev, prev = prevOf log m.epoch ∧ G[m.epoch]? = some g ∧
    (m.epoch % 2 = 0 → x = (true, message P g.ck.key g.kp.pub m.ctr prev S.idR.pub S.idI.pub m.pt, .whisper)) ∧
    (m.epoch % 2 = 1 ∧ m.epoch ≠ 1 →
      x = (false, message P g.ck.key g.kp.pub m.ctr prev S.idI.pub S.idR.pub m.pt, .whisper)) ∧
    (m.epoch = 1 →
      x = (false, envelopeC P S (message P g.ck.key g.kp.pub m.ctr prev S.idI.pub S.idR.pub m.pt), .prekey))

theorem previous_eq (log : List AMsg) (e : Nat) : previous log e = prevOf log e := by
  unfold previous prevOf count
  split
  · rw [List.filter_eq_nil_iff.mpr (by intro m _; simp; omega)]
    rfl
  · have : (fun m : AMsg => decide (m.epoch + 2 = e)) = (fun m => decide (m.epoch = e - 2)) := by
      funext m
      congr 1
      rw [eq_iff_iff]
      omega
    rw [this]

theorem Sent.log {P S G log m x} (h : Sent P S G log m x) (m' : AMsg) (hne : 2 ≤ m.epoch → m'.epoch ≠ m.epoch - 2) :
    Sent P S G (log ++ [m']) m x := by
  obtain ⟨g, prev, h0, h1⟩ := h
  exact ⟨g, prev, by rw [prevOf_other _ _ _ hne]; exact h0, h1⟩

theorem Sent.extend {P S G log m x} (h : Sent P S G log m x) (l : List Epoch) : Sent P S (G ++ l) log m x := by
  obtain ⟨g, prev, h0, h1, h2⟩ := h
  exact ⟨g, prev, h0, by rw [List.getElem?_append_left (List.getElem?_eq_some_iff.mp h1).1]; exact h1, h2⟩

theorem send_wire {P : Prims} {S : Setup} {G : List Epoch} {a : Abs} {w : World} (hS : S.Ok P)
    (h : Rel P S G a w) (who : Bool) (pt : Bytes) (hl : Ev.Legal a (.send who pt))
    (hb : a.log.length + 2 < u32) :
    ∃ m x, (a.step (.send who pt)).log = a.log ++ [m] ∧ (w.step P S (.send who pt)).1.wire = w.wire ++ [x] ∧
      Sent P S G a.log m x ∧ m.epoch = a.sendLevel who := by
  have hidI := hS.idI.pub_len
  have hidR := hS.idR.pub_len
  have hlen := h.len
  have hpi := h.parI
  have hpr := h.parR
  have hadj := h.adj
  have hcl := count_le a.log
  cases who with
  | false =>
    obtain ⟨r, hr, hat⟩ := h.sessI
    obtain ⟨g, hg⟩ : ∃ g, G[a.lvI]? = some g := ⟨G[a.lvI]'(by omega), List.getElem?_eq_getElem (by omega)⟩
    have hc : count a.log a.lvI + 1 < u32 := by have := hcl a.lvI; omega
    obtain ⟨s', wm0, hm, hlw, hwl, hparty, e1, e2, e3, e4, e5⟩ := encrypt_party h.chain hat.party hidI hidR
      pt hl.2 (fun e => by have := hcl e; omega) g hg
    have hbk : deser (ser (newPair P S.rb).pub) = .ok (newPair P S.rb).pub :=
      deser_ser _ (newPair_valid P _ hS.rb).pub_len
    obtain ⟨b, ty, henc⟩ : ∃ b ty, encryptState P r.cur pt = .ok (s', b, ty) := by
      by_cases h1 : a.lvI = 1
      · have hp : r.cur.pending = some ⟨S.pkId, S.spkId, ser (newPair P S.rb).pub⟩ := by
          rw [hat.pending, pendI, if_pos h1]
        exact ⟨_, _, e5 _ _ hp hbk⟩
      · have hp : r.cur.pending = none := by rw [hat.pending, pendI, if_neg h1]
        exact ⟨_, _, e4 hp⟩
    obtain ⟨wm, hwm, w1, w2⟩ := encrypt_bytes h.chain hat.party hidI hidR pt hc g hg s' b ty henc
    obtain ⟨t1, t2, t3, t4⟩ := send_existing P w.I S.nameR S.devR pt r hr s' b ty henc
    refine ⟨⟨a.lvI, count a.log a.lvI, pt⟩, (false, b, ty), rfl, by simp only [World.step, t1], ?_, rfl⟩
    refine ⟨g, r.cur.prevCounter, hat.party.prevCounter, hg, fun h0 => ?_, fun h0 => ?_, fun h0 => ?_⟩
    · simp only at h0; omega
    · have hp : r.cur.pending = none := by rw [hat.pending, pendI, if_neg h0.2]
      obtain ⟨x1, x2⟩ := w1 hp
      rw [x1, x2, hwm]
    · have hp : r.cur.pending = some ⟨S.pkId, S.spkId, ser (newPair P S.rb).pub⟩ := by
        rw [hat.pending, pendI, if_pos h0]
      obtain ⟨x1, x2⟩ := w2 _ _ hp hbk
      rw [x1, x2, hat.reg, envelope_eq, hwm]
  | true =>
    have h0 : a.lvR ≠ 0 := hl.1 rfl
    obtain ⟨r, hr, hat⟩ := h.sessR h0
    obtain ⟨g, hg⟩ : ∃ g, G[a.lvR]? = some g := ⟨G[a.lvR]'(by omega), List.getElem?_eq_getElem (by omega)⟩
    have hc : count a.log a.lvR + 1 < u32 := by have := hcl a.lvR; omega
    obtain ⟨s', wm0, hm, hlw, hwl, hparty, e1, e2, e3, e4, e5⟩ := encrypt_party h.chain hat.party hidR hidI
      pt hl.2 (fun e => by have := hcl e; omega) g hg
    obtain ⟨b, ty, henc⟩ : ∃ b ty, encryptState P r.cur pt = .ok (s', b, ty) := ⟨_, _, e4 hat.pending⟩
    obtain ⟨wm, hwm, w1, w2⟩ := encrypt_bytes h.chain hat.party hidR hidI pt hc g hg s' b ty henc
    obtain ⟨t1, t2, t3, t4⟩ := send_existing P w.R S.nameI S.devI pt r hr s' b ty henc
    refine ⟨⟨a.lvR, count a.log a.lvR, pt⟩, (true, b, ty), rfl, by simp only [World.step, t1], ?_, rfl⟩
    refine ⟨g, r.cur.prevCounter, hat.party.prevCounter, hg, fun _ => ?_, fun h1 => ?_, fun h1 => ?_⟩
    · obtain ⟨x1, x2⟩ := w1 hat.pending
      rw [x1, x2, hwm]
    · simp only at h1; omega
    · simp only at h1; omega

theorem deliver_wire (P : Prims) (S : Setup) (w : World) (i : Nat) (rnd : Nat → Bytes) :
    (w.step P S (.deliver i rnd)).1.wire = w.wire := by
  simp only [World.step]
  cases hw : w.wire[i]? with
  | none => rfl
  | some x =>
    obtain ⟨who, b, ty⟩ := x
    cases who <;> rfl

theorem deliver_log (a : Abs) (i : Nat) (rnd : Nat → Bytes) : (a.step (.deliver i rnd)).log = a.log := by
  simp only [Abs.step]
  split
  · rfl
  · split
    · unfold Abs.accept
      simp only
      split
      · split <;> rfl
      · rfl
    · rfl

/-- Does the highest epoch grow with a delivery? -/
theorem deliver_level (a : Abs) (i : Nat) (rnd : Nat → Bytes) (hpi : a.lvI % 2 = 1) (hpr : a.lvR % 2 = 0)
    (hadj : a.lvI = a.lvR + 1 ∨ a.lvR = a.lvI + 1)
    (hE : ∀ m ∈ a.log, m.epoch ≤ a.sendLevel (decide (m.epoch % 2 = 0))) :
    max (a.step (.deliver i rnd)).lvI (a.step (.deliver i rnd)).lvR =
      max a.lvI a.lvR + (match a.log[i]? with
        | none => 0
        | some m => if a.expect m = .accept ∧ m.epoch = a.recvLevel m.epoch + 1 then 1 else 0) := by
  simp only [Abs.step]
  cases hm : a.log[i]? with
  | none => rfl
  | some m =>
    simp only
    have hle := hE m (List.mem_of_getElem? hm)
    cases he : a.expect m with
    | refuse => simp
    | stale => simp
    | accept =>
      simp only [true_and]
      unfold Abs.accept
      by_cases hn : m.epoch = a.recvLevel m.epoch + 1
      · simp only [hn.symm, if_true]
        unfold Abs.recvLevel at hn ⊢
        unfold Abs.sendLevel at hle
        by_cases ho : m.epoch % 2 = 1
        · have hz : ¬ m.epoch % 2 = 0 := by omega
          simp only [ho, if_true] at hn ⊢
          simp only [hz, decide_false, Bool.false_eq_true, if_false] at hle
          omega
        · have hz : m.epoch % 2 = 0 := by omega
          simp only [ho, if_false] at hn ⊢
          simp only [hz, decide_true, if_true] at hle
          omega
      · simp [hn]

theorem simulate_wire {P : Prims} {S : Setup} (hS : S.Ok P) (evs : List Ev) : ∀ (G : List Epoch) (a : Abs) (w : World),
    Rel P S G a w → List.Forall₂ (Sent P S G a.log) a.log w.wire → Legal a evs →
    (G.map (fun g => g.kp.pub) ++ keysOf P evs).Nodup → a.log.length + evs.length + 1 < u32 → NoForgery P S a w evs →
    ∃ G', Rel P S G' (evs.foldl Abs.step a) (evs.foldl (fun w ev => (w.step P S ev).1) w) ∧
      G'.map Epoch.kp = G.map Epoch.kp ++ turns P a evs ∧
      List.Forall₂ (Sent P S G' (evs.foldl Abs.step a).log) (evs.foldl Abs.step a).log (evs.foldl (fun w ev => (w.step P S ev).1) w).wire := by
  induction evs with
  | nil => intro G a w h hw _ _ _ _; exact ⟨G, h, by simp [turns], hw⟩
  | cons ev evs ih =>
    intro G a w h hw hl hn hb hnf
    simp only [List.length_cons] at hb
    have hstep : StepOk P S G a w ev := by
      cases ev with
      | send who pt => exact step_send hS h who pt hl.1 (by omega)
      | deliver i rnd =>
        refine step_deliver hS h i rnd hl.1 ?_ (by omega) hnf.1
        intro x hx he
        rw [List.nodup_append] at hn
        exact hn.2.2 x.kp.pub (List.mem_map.mpr ⟨x, hx, rfl⟩) (newPair P (rnd 0)).pub
          (by simp [keysOf]) he
    obtain ⟨hag, G', hrel, hG⟩ := hstep
    have hnod : (G'.map (fun g => g.kp.pub) ++ keysOf P evs).Nodup := by
      rcases hG with rfl | ⟨g, i, rnd, rfl, rfl, hk⟩
      · refine hn.sublist ?_
        refine List.Sublist.append (List.Sublist.refl _) ?_
        unfold keysOf
        cases ev <;> simp
      · have he : keysOf P (.deliver i rnd :: evs) = (newPair P (rnd 0)).pub :: keysOf P evs := by
          simp [keysOf]
        rw [he] at hn
        rw [List.map_append, List.append_assoc]
        simpa [hk] using hn
    cases ev with
    | send who pt =>
      have hGG : G' = G := by
        rcases hG with h1 | ⟨g, i, rnd, h1, _⟩
        · exact h1
        · cases h1
      subst hGG
      obtain ⟨m, x, h1, h2, h3, h4⟩ := send_wire hS h who pt hl.1 (by omega)
      have hpi := h.parI
      have hpr := h.parR
      have hw2 : List.Forall₂ (Sent P S G' (a.log ++ [m])) a.log w.wire := by
        refine List.forall₂_iff_get.mpr ⟨hw.length_eq, fun i hi hj => (hw.get hi hj).log m (fun h2 => ?_)⟩
        have hle := (h.logE _ (List.get_mem a.log ⟨i, hi⟩)).2.1
        unfold Abs.sendLevel at hle h4
        rw [h4]
        generalize a.log.get ⟨i, hi⟩ = m0 at hle h2 ⊢
        by_cases hz : m0.epoch % 2 = 0
        · simp only [hz, decide_true, if_true] at hle
          cases who <;> simp <;> omega
        · simp only [hz, decide_false, Bool.false_eq_true, if_false] at hle
          cases who <;> simp <;> omega
      obtain ⟨G2, r1, r2, r3⟩ := ih G' _ _ hrel (by rw [h1, h2]; exact List.rel_append hw2 (.cons (h3.log m (fun h2 => by omega)) .nil)) hl.2 hnod
        (by rw [h1]; simp only [List.length_append, List.length_singleton]; omega) hnf.2
      exact ⟨G2, r1, r2, r3⟩
    | deliver i rnd =>
      have hlog := deliver_log a i rnd
      have hwire := deliver_wire P S w i rnd
      have hlev := deliver_level a i rnd h.parI h.parR h.adj (fun m hm => (h.logE m hm).2.1)
      have hl1 := h.len
      have hl2 := hrel.len
      have hkp : G'.map Epoch.kp = G.map Epoch.kp ++ (match a.log[i]? with
          | none => []
          | some m => if a.expect m = .accept ∧ m.epoch = a.recvLevel m.epoch + 1 then [newPair P (rnd 0)] else []) := by
        rcases hG with rfl | ⟨g, i', rnd', h1, rfl, hk⟩
        · rw [hlev] at hl2
          cases hm : a.log[i]? with
          | none => simp
          | some m =>
            rw [hm] at hl2
            simp only at hl2 ⊢
            split at hl2
            · omega
            · rename_i hc; rw [if_neg hc]; simp
        · injection h1 with h1 h1'
          subst h1
          subst h1'
          rw [hlev] at hl2
          simp only [List.length_append, List.length_singleton] at hl2
          cases hm : a.log[i]? with
          | none => rw [hm] at hl2; simp only at hl2; omega
          | some m =>
            rw [hm] at hl2
            simp only at hl2 ⊢
            split at hl2
            · rename_i hc; rw [if_pos hc]; simp [hk]
            · omega
      have hw' : List.Forall₂ (Sent P S G' (a.step (.deliver i rnd)).log) (a.step (.deliver i rnd)).log (w.step P S (.deliver i rnd)).1.wire := by
        rw [hlog, hwire]
        rcases hG with rfl | ⟨g, i', rnd', h1, rfl, hk⟩
        · exact hw
        · exact hw.imp (fun _ _ hx => hx.extend _)
      obtain ⟨G2, r1, r2, r3⟩ := ih G' _ _ hrel hw' hl.2 hnod (by rw [hlog]; omega) hnf.2
      refine ⟨G2, r1, ?_, r3⟩
      rw [r2, hkp, List.append_assoc]
      rfl

theorem chains_eq (P : Prims) : ∀ (G : List Epoch) (g0 : Epoch),
    (∀ (i : Nat) a b, (g0 :: G)[i]? = some a → (g0 :: G)[i + 1]? = some b →
      createChain P a.root a.kp.pub b.kp.priv = (b.root, b.ck)) →
    chains P g0.root g0.kp (G.map Epoch.kp) = G.map (fun g => g.ck.key)
  | [], _, _ => rfl
  | g :: G, g0, h => by
    have h1 := h 0 g0 g rfl rfl
    unfold createChain at h1
    simp only [Prod.mk.injEq] at h1
    simp only [List.map_cons, chains]
    rw [h1.1, ← h1.2]
    congr 1
    exact chains_eq P G g (fun i a b ha hb => h (i + 1) a b ha hb)

end Verif.Protocol
