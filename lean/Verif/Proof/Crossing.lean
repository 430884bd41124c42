import Verif.Spec.Crossing
import Verif.Proof.Conversation
/-!
# Lemmas for C153
-/
namespace Verif.Crossing
open Verif Verif.Keys Verif.Messages Verif.Session Verif.Api Verif.Names Verif.Conv

/-! ## Records with archived sessions -/

/-- `w'` is `w` but for archived sessions and for what neither sending nor reading in a session needs. -/
structure Over (S : Setup) (w w' : World) : Prop where
  wire : w'.wire = w.wire
  I : ∃ r r', w.I.sessions (sessName S.nameR S.devR) = .good r ∧
    w'.I.sessions (sessName S.nameR S.devR) = .good r' ∧ r'.cur = r.cur
  R : ∃ r r', w.R.sessions (sessName S.nameI S.devI) = .good r ∧
    w'.R.sessions (sessName S.nameI S.devI) = .good r' ∧ r'.cur = r.cur
  trustI : isTrusted w'.I S.nameR S.idR.pub = true
  trustR : isTrusted w'.R S.nameI S.idI.pub = true

theorem decryptRecord_cur (P : Prims) (rnd : Nat → Bytes) (sr : SRecord) (m : WhisperMsg) (s' : SState) (pt : Bytes)
    (h : decryptState P (rnd 0) sr.cur m = (s', .ok pt)) : decryptRecord P rnd sr m = ({ sr with cur := s' }, .ok pt) := by
  unfold decryptRecord
  rw [h]

theorem decryptRecord_only (P : Prims) (rnd : Nat → Bytes) (sr sr' : SRecord) (m : WhisperMsg) (pt : Bytes)
    (hp : sr.prev = []) (h : decryptRecord P rnd sr m = (sr', .ok pt)) :
    ∃ s', decryptState P (rnd 0) sr.cur m = (s', .ok pt) := by
  obtain ⟨d1, d2, _⟩ := decryptRecord_single P rnd sr m hp
  rcases hd : decryptState P (rnd 0) sr.cur m with ⟨s', q⟩
  cases q with
  | ok b =>
    rw [decryptRecord_cur P rnd sr m s' b hd] at h
    injection h with _ h
    injection h with h
    subst h
    exact ⟨s', rfl⟩
  | err e =>
    obtain ⟨x, hx⟩ := d1 s' e hd
    rw [hx] at h
    simp at h
  | panic =>
    obtain ⟨x, hx⟩ := d2 s' hd
    rw [hx] at h
    simp at h

/-- Receiving with an existing session. -/
theorem receive_known (P : Prims) (rnd : Nat → Bytes) (st : Store) (rec : String) (dev : Nat)
    (b : Bytes) (ty : MsgType) (base ik : Bytes) (wm : WhisperMsg) (r : SRecord)
    (hs : st.sessions (sessName rec dev) = .good r) (hv : r.cur.version = 3)
    (hb : r.cur.aliceBase = ser base) (ht : isTrusted st rec ik = true)
    (ha : Arrives b ty base ik wm) :
    (∀ sr' pt, decryptRecord P rnd { r with fresh := false } wm = (sr', .ok pt) →
      (receive P rnd st rec dev b ty).res = .ok pt ∧
      (applyWrites st (receive P rnd st rec dev b ty).writes).sessions (sessName rec dev) = .good { sr' with fresh := false } ∧
      SameRest st (applyWrites st (receive P rnd st rec dev b ty).writes)) ∧
    (∀ pt, (receive P rnd st rec dev b ty).res = .ok pt →
      ∃ sr', decryptRecord P rnd { r with fresh := false } wm = (sr', .ok pt)) := by
  have hload : loadSession st rec dev = .ok { r with fresh := false } := by simp [loadSession, hs]
  rcases ha with ⟨rfl, hl⟩ | ⟨rfl, pm, hl, hpv, hpb, hpi, hpm⟩
  · have hrec : receive P rnd st rec dev b .whisper = decryptWhisper P {} rnd st rec dev wm := by
      unfold receive; simp only [hl]
    rw [hrec]
    unfold decryptWhisper
    rw [hload]
    simp only
    constructor
    · intro sr' pt hd
      rw [hd]
      simp only [storeSession, if_true]
      refine ⟨trivial, ?_, ⟨rfl, rfl, rfl, rfl, rfl⟩⟩
      simp [applyWrites, applyWrite]
    · intro pt hok
      rcases hh : decryptRecord P rnd { r with fresh := false } wm with ⟨sr', q⟩
      rw [hh] at hok
      cases q with
      | ok b =>
        simp only [storeSession, if_true] at hok
        injection hok with hok
        subst hok
        exact ⟨sr', rfl⟩
      | err e => simp at hok
      | panic => simp at hok
  · have hrec : receive P rnd st rec dev b .prekey = decryptPreKey P {} rnd st rec dev pm := by
      unfold receive; simp only [hl]
    have hbr : buildReceiver P {} st rec { r with fresh := false } pm =
        ⟨[], .ok ({ r with fresh := false }, 0)⟩ := by
      unfold buildReceiver
      rw [if_neg (by simp [hpv]), hpi, if_neg (by simp [ht]), if_pos]
      unfold SRecord.hasState
      simp [SState.getVersion, hv, hb, hpb]
    rw [hrec]
    unfold decryptPreKey
    rw [hload]
    simp only
    rw [hbr, hpm]
    simp only
    constructor
    · intro sr' pt hd
      rw [hd]
      simp only [storeSession, if_true]
      refine ⟨trivial, ?_, ⟨rfl, rfl, rfl, rfl, rfl⟩⟩
      simp [applyWrites, applyWrite]
    · intro pt hok
      rcases hh : decryptRecord P rnd { r with fresh := false } wm with ⟨sr', q⟩
      rw [hh] at hok
      cases q with
      | ok b =>
        simp only [storeSession, if_true] at hok
        injection hok with hok
        subst hok
        exact ⟨sr', rfl⟩
      | err e => simp at hok
      | panic => simp at hok

/-- The bytes of a message sent arrive. -/
theorem MsgOk.arrives {P : Prims} {S : Setup} {G : List Epoch} {m : AMsg} {who : Bool} {b : Bytes} {ty : MsgType}
    (h : MsgOk P S G m (who, b, ty)) :
    ∃ wm, Arrives b ty (newPair P S.rb).pub (if who then S.idR.pub else S.idI.pub) wm := by
  obtain ⟨g, wm, hg, hw, hm, hwire⟩ := h
  refine ⟨wm, ?_⟩
  by_cases h1 : m.epoch = 1
  · obtain ⟨hty, pm, hl, hv, _, _, _, hb, hi, hin⟩ := hwire.2 h1
    have : who = false := by rw [show who = decide (m.epoch % 2 = 0) from hw, h1]; rfl
    subst this
    exact Or.inr ⟨hty, pm, hl, hv, hb, hi, hin⟩
  · exact Or.inl (hwire.1 h1)

/-- A result that is not a failure. -/
def Good : Got → Prop
  | .sent => True
  | .nothing => True
  | .received (.ok _) => True
  | _ => False

/-- One party reads in a session. -/
theorem over_receive (P : Prims) (rnd : Nat → Bytes) (st st' : Store) (rec : String) (dev : Nat)
    (b : Bytes) (ty : MsgType) (base ik : Bytes) (wm : WhisperMsg) (r r' : SRecord)
    (hs : st.sessions (sessName rec dev) = .good r) (hs' : st'.sessions (sessName rec dev) = .good r')
    (hc : r'.cur = r.cur) (hp : r.prev = []) (hv : r.cur.version = 3) (hb : r.cur.aliceBase = ser base)
    (ht : isTrusted st rec ik = true) (ht' : isTrusted st' rec ik = true) (ha : Arrives b ty base ik wm) (pt : Bytes)
    (hok : (receive P rnd st rec dev b ty).res = .ok pt) :
    (receive P rnd st' rec dev b ty).res = .ok pt ∧
    (∃ r1 r2, (applyWrites st (receive P rnd st rec dev b ty).writes).sessions (sessName rec dev) = .good r1 ∧
      (applyWrites st' (receive P rnd st' rec dev b ty).writes).sessions (sessName rec dev) = .good r2 ∧
      r2.cur = r1.cur) ∧
    SameRest st' (applyWrites st' (receive P rnd st' rec dev b ty).writes) := by
  obtain ⟨k1, k2⟩ := receive_known P rnd st rec dev b ty base ik wm r hs hv hb ht ha
  obtain ⟨k3, _⟩ := receive_known P rnd st' rec dev b ty base ik wm r' hs' (by rw [hc]; exact hv)
    (by rw [hc]; exact hb) ht' ha
  obtain ⟨sr, hsr⟩ := k2 pt hok
  obtain ⟨s', hd⟩ := decryptRecord_only P rnd _ _ _ _ (show (SRecord.mk r.cur r.prev false).prev = [] from hp) hsr
  have e1 := decryptRecord_cur P rnd { r with fresh := false } wm s' pt hd
  have e2 := decryptRecord_cur P rnd { r' with fresh := false } wm s' pt (by
    show decryptState P (rnd 0) r'.cur wm = _
    rw [hc]; exact hd)
  obtain ⟨_, y2, _⟩ := k1 _ pt e1
  obtain ⟨z1, z2, z3⟩ := k3 _ pt e2
  exact ⟨z1, ⟨_, _, y2, z2, rfl⟩, z3⟩

/-- One party sends in a session. -/
theorem over_encrypt (P : Prims) (st st' : Store) (rec : String) (dev : Nat) (pt : Bytes) (r r' : SRecord)
    (hs : st.sessions (sessName rec dev) = .good r) (hs' : st'.sessions (sessName rec dev) = .good r')
    (hc : r'.cur = r.cur) (b : Bytes) (ty : MsgType) (hok : (encryptMsg P {} st rec dev pt).res = .ok (b, ty)) :
    (encryptMsg P {} st' rec dev pt).res = .ok (b, ty) ∧
    (∃ r1 r2, (applyWrites st (encryptMsg P {} st rec dev pt).writes).sessions (sessName rec dev) = .good r1 ∧
      (applyWrites st' (encryptMsg P {} st' rec dev pt).writes).sessions (sessName rec dev) = .good r2 ∧
      r2.cur = r1.cur) ∧
    SameRest st' (applyWrites st' (encryptMsg P {} st' rec dev pt).writes) := by
  have hload : loadSession st rec dev = .ok { r with fresh := false } := by simp [loadSession, hs]
  rcases he : encryptState P r.cur pt with ⟨s', b2, ty2⟩ | e | _
  · obtain ⟨t1, t2, _, _⟩ := send_existing P st rec dev pt r hs s' b2 ty2 he
    obtain ⟨u1, u2, _, u4⟩ := send_existing P st' rec dev pt r' hs' s' b2 ty2 (by rw [hc]; exact he)
    rw [t1] at hok
    rw [hok] at t1
    injection hok with hok
    rw [u1, hok]
    exact ⟨rfl, ⟨_, _, t2, u2, rfl⟩, u4⟩
  · unfold encryptMsg at hok
    rw [hload] at hok
    simp only at hok
    rw [he] at hok
    simp at hok
  · unfold encryptMsg at hok
    rw [hload] at hok
    simp only at hok
    rw [he] at hok
    simp at hok

theorem over_step {P : Prims} {S : Setup} {G : List Epoch} {a : Abs} {w w' : World} (h : Rel P S G a w)
    (h0 : a.lvR ≠ 0) (ho : Over S w w') (ev : Ev) (hg : Good (w.step P S ev).2) :
    (w'.step P S ev).2 = (w.step P S ev).2 ∧ Over S (w.step P S ev).1 (w'.step P S ev).1 := by
  obtain ⟨rI, rI', hI, hI', hcI⟩ := ho.I
  obtain ⟨rR, rR', hR, hR', hcR⟩ := ho.R
  cases ev with
  | send who pt =>
    cases who with
    | false =>
      simp only [World.step] at hg ⊢
      rcases he : (encryptMsg P {} w.I S.nameR S.devR pt).res with ⟨b, ty⟩ | e | _
      · obtain ⟨u1, ⟨r1, r2, u2, u3, u4⟩, u5⟩ := over_encrypt P w.I w'.I S.nameR S.devR pt rI rI' hI hI' hcI b ty he
        rw [u1]
        refine ⟨rfl, ⟨?_, ⟨r1, r2, u2, u3, u4⟩, ho.R, ?_, ho.trustR⟩⟩
        · simp only [ho.wire]
        · simp only; rw [isTrusted_same u5]; exact ho.trustI
      · rw [he] at hg; exact hg.elim
      · rw [he] at hg; exact hg.elim
    | true =>
      simp only [World.step] at hg ⊢
      rcases he : (encryptMsg P {} w.R S.nameI S.devI pt).res with ⟨b, ty⟩ | e | _
      · obtain ⟨u1, ⟨r1, r2, u2, u3, u4⟩, u5⟩ := over_encrypt P w.R w'.R S.nameI S.devI pt rR rR' hR hR' hcR b ty he
        rw [u1]
        refine ⟨rfl, ⟨?_, ho.I, ⟨r1, r2, u2, u3, u4⟩, ho.trustI, ?_⟩⟩
        · simp only [ho.wire]
        · simp only; rw [isTrusted_same u5]; exact ho.trustR
      · rw [he] at hg; exact hg.elim
      · rw [he] at hg; exact hg.elim
  | deliver i rnd =>
    simp only [World.step, ho.wire] at hg ⊢
    cases hx : w.wire[i]? with
    | none =>
      rw [hx] at hg
      exact ⟨rfl, ho⟩
    | some x =>
      obtain ⟨who, b, ty⟩ := x
      rw [hx] at hg
      obtain ⟨m, hm⟩ : ∃ m, a.log[i]? = some m := by
        cases hm : a.log[i]? with
        | none =>
          rw [(forall₂_get h.log i).1 hm] at hx
          simp at hx
        | some m => exact ⟨m, rfl⟩
      obtain ⟨x', hx', hok⟩ := (forall₂_get h.log i).2 m hm
      rw [hx] at hx'
      injection hx' with hx'
      subst hx'
      obtain ⟨wm, harr⟩ := MsgOk.arrives hok
      cases who with
      | false =>
        simp only at hg ⊢
        obtain ⟨r0, hr0, hat⟩ := h.sessR h0
        rw [hR] at hr0
        injection hr0 with hr0
        subst hr0
        rcases he : (receive P rnd w.R S.nameI S.devI b ty).res with pt | e | _
        · obtain ⟨u1, u2, u3⟩ := over_receive P rnd w.R w'.R S.nameI S.devI b ty _ _ wm rR rR' hR hR' hcR hat.prev
            hat.party.version hat.base h.trustR ho.trustR harr pt he
          rw [u1]
          exact ⟨rfl, ⟨rfl, ho.I, u2, ho.trustI, by simp only; rw [isTrusted_same u3]; exact ho.trustR⟩⟩
        · rw [he] at hg; exact hg.elim
        · rw [he] at hg; exact hg.elim
      | true =>
        simp only at hg ⊢
        obtain ⟨r0, hr0, hat⟩ := h.sessI
        rw [hI] at hr0
        injection hr0 with hr0
        subst hr0
        rcases he : (receive P rnd w.I S.nameR S.devR b ty).res with pt | e | _
        · obtain ⟨u1, u2, u3⟩ := over_receive P rnd w.I w'.I S.nameR S.devR b ty _ _ wm rI rI' hI hI' hcI hat.prev
            hat.party.version hat.base h.trustI ho.trustI harr pt he
          rw [u1]
          exact ⟨rfl, ⟨rfl, u2, ho.R, by simp only; rw [isTrusted_same u3]; exact ho.trustI, ho.trustR⟩⟩
        · rw [he] at hg; exact hg.elim
        · rw [he] at hg; exact hg.elim

/-! ## Schedules in which nothing is refused -/

theorem lvR_step (a : Abs) (ev : Ev) (h : a.lvR ≠ 0) : (a.step ev).lvR ≠ 0 := by
  cases ev with
  | send who pt => exact h
  | deliver i rnd =>
    simp only [Abs.step]
    split
    · exact h
    · split
      · unfold Abs.accept
        simp only
        split
        · split
          · simp
          · exact h
        · exact h
      · exact h

theorem good_of_agree {x : Want} {g : Got} (h : Agree x g) (h1 : x ≠ .refused) (h2 : x ≠ .stale) : Good g := by
  cases x with
  | refused => exact absurd rfl h1
  | stale => exact absurd rfl h2
  | sent => cases g <;> first | exact trivial | exact h.elim
  | nothing => cases g <;> first | exact trivial | exact h.elim
  | got pt =>
    cases g with
    | received r => cases r <;> first | exact trivial | exact h.elim
    | sent => exact h.elim
    | nothing => exact h.elim
    | sendFailed => exact h.elim

/-- The clients of `w` are in step with `a`, and the schedule can be run. -/
def Ready (P : Prims) (S : Setup) (a : Abs) (w : World) (evs : List Ev) : Prop :=
  ∃ G, Rel P S G a w ∧ Legal a evs ∧ (G.map (fun g => g.kp.pub) ++ keysOf P evs).Nodup ∧
    a.log.length + evs.length + 1 < u32 ∧ AllRead a evs

theorem ready_step {P : Prims} {S : Setup} (hS : S.Ok P) {a : Abs} {w : World} {ev : Ev} {evs : List Ev}
    (h : Ready P S a w (ev :: evs)) :
    Agree (a.want ev) (w.step P S ev).2 ∧ Good (w.step P S ev).2 ∧ Ready P S (a.step ev) (w.step P S ev).1 evs := by
  obtain ⟨G, h, hl, hn, hb, hr⟩ := h
  simp only [List.length_cons] at hb
  have hr1 := hr (a.want ev) (by simp [wants])
  have hstep : StepOk P S G a w ev := by
    cases ev with
    | send who pt => exact step_send hS h who pt hl.1 (by omega)
    | deliver i rnd =>
      refine step_deliver hS h i rnd hl.1 ?_ (by omega) (fun hs => absurd hs hr1.2)
      intro x hx he
      rw [List.nodup_append] at hn
      exact hn.2.2 x.kp.pub (List.mem_map.mpr ⟨x, hx, rfl⟩) (newPair P (rnd 0)).pub
        (by simp [keysOf]) he
  obtain ⟨hag, G', hrel, hG⟩ := hstep
  have hll : (a.step ev).log.length ≤ a.log.length + 1 := by
    cases ev with
    | send who pt => simp [Abs.step]
    | deliver i rnd =>
      simp only [Abs.step]
      split
      · omega
      · split
        · unfold Abs.accept
          simp only
          split
          · split <;> simp
          · simp
        · omega
  refine ⟨hag, good_of_agree hag hr1.1 hr1.2, G', hrel, hl.2, ?_, by omega, ?_⟩
  · rcases hG with rfl | ⟨g, i, rnd, rfl, rfl, hk⟩
    · refine hn.sublist ?_
      refine List.Sublist.append (List.Sublist.refl _) ?_
      unfold keysOf
      cases ev <;> simp
    · have he : keysOf P (.deliver i rnd :: evs) = (newPair P (rnd 0)).pub :: keysOf P evs := by
        simp [keysOf]
      rw [he] at hn
      rw [List.map_append, List.append_assoc]
      simpa [hk] using hn
  · intro x hx
    exact hr x (by simp only [wants]; exact List.mem_cons_of_mem _ hx)

theorem over_run {P : Prims} {S : Setup} (hS : S.Ok P) : ∀ (evs : List Ev) (a : Abs) (w w' : World),
    Ready P S a w evs → a.lvR ≠ 0 → Over S w w' → List.Forall₂ Agree (wants a evs) (World.gots P S w' evs) := by
  intro evs
  induction evs with
  | nil => intros; exact List.Forall₂.nil
  | cons ev evs ih =>
    intro a w w' h h0 ho
    obtain ⟨h1, h2, h3⟩ := ready_step hS h
    obtain ⟨G, hr, _⟩ := h
    obtain ⟨h4, h5⟩ := over_step hr h0 ho ev h2
    refine List.Forall₂.cons (by rw [h4]; exact h1) (ih _ _ _ h3 (lvR_step a ev h0) h5)

/-- The start. -/
theorem ready_init {P : Prims} {S : Setup} {evs : List Ev} (hS : S.Ok P) (hl : Legal {} evs)
    (hk : (ratchetKeys P S evs).Nodup) (hb : evs.length < 2 ^ 32 - 1) (hr : AllRead {} evs) :
    Ready P S {} (World.init P S) evs := by
  have hne : S.spk.pub ≠ (newPair P S.rr).pub := by
    have hk := hk
    unfold ratchetKeys at hk
    rw [List.nodup_cons] at hk
    intro h
    exact hk.1 (by rw [h]; exact List.mem_cons_self)
  refine ⟨initG P S, (init_rel hS hne).2, hl, hk, ?_, hr⟩
  show 0 + evs.length + 1 < u32
  unfold u32
  omega

/-! ## Reading a first message with a session already there -/

theorem receive_build (P : Prims) (S : Setup) (hpk : S.pkId = 0 ↔ S.opk = none)
    (rnd : Nat → Bytes) (st : Store) (hr : StillR S st)
    (hopk : ∀ k, S.opk = some k → st.preKeys S.pkId = some k)
    (b : Bytes) (pm : PreKeyMsg) (hl : loadPreKeyMsg b = .ok pm) (hv : pm.version = 3)
    (hpid : pm.preKeyId = S.pkId) (hsid : pm.signedPreKeyId = S.spkId)
    (hbk : pm.baseKey = (newPair P S.rb).pub) (hik : pm.identityKey = S.idI.pub)
    (hreg : pm.regId = S.regI) (sr : SRecord) (hload : loadSession st S.nameI S.devI = .ok sr)
    (hno : sr.hasState 3 (ser (newPair P S.rb).pub) = false) (sr1 : SRecord)
    (hsr : (if sr.fresh then sr else sr.archive) = sr1) (hcur : sr1.cur = {}) (pt : Bytes) :
    (∀ s', decryptState P (rnd 0) (firstState P S) pm.message = (s', .ok pt) →
      receive P rnd st S.nameI S.devI b .prekey =
        ⟨[.saveIdentity S.nameI S.idI.pub] ++
          (if S.pkId ≠ 0xFFFFFF then [.removePreKey S.pkId] else []) ++
          [.storeSession S.nameI S.devI { sr1 with cur := s' }], .ok pt⟩) ∧
    (sr1.prev = [] → (receive P rnd st S.nameI S.devI b .prekey).res = .ok pt →
      ∃ s', decryptState P (rnd 0) (firstState P S) pm.message = (s', .ok pt)) := by
  have hbr : buildReceiver P {} st S.nameI sr pm =
      ⟨[.saveIdentity S.nameI S.idI.pub], .ok ({ sr1 with cur := firstState P S }, S.pkId)⟩ := by
    unfold buildReceiver
    rw [if_neg (by simp [hv]), hik, if_neg (by simp [hr.trust]), hbk,
      if_neg (by simp [hno]), hsid, hr.spk, hr.ident, hpid]
    have hsel : (if S.pkId ≠ 0 then (st.preKeys S.pkId).map some else some none) = some S.opk := by
      cases ho : S.opk with
      | none => rw [if_neg (by simpa using hpk.mpr ho)]
      | some k =>
        have : S.pkId ≠ 0 := by intro h; rw [hpk.mp h] at ho; simp at ho
        rw [if_pos this, hopk k ho]; rfl
    rw [hsel, hr.reg]
    simp only [hreg, if_true, hsr, hcur]
    rfl
  have hrec : receive P rnd st S.nameI S.devI b .prekey = decryptPreKey P {} rnd st S.nameI S.devI pm := by
    unfold receive; simp only [hl]
  rw [hrec]
  unfold decryptPreKey
  rw [hload]
  simp only
  rw [hbr]
  simp only
  constructor
  · intro s' hd
    rw [decryptRecord_cur P rnd { sr1 with cur := firstState P S } pm.message s' pt hd]
    simp only [storeSession, if_true]
  · intro hp hok
    rcases hh : decryptRecord P rnd { sr1 with cur := firstState P S } pm.message with ⟨sr', q⟩
    rw [hh] at hok
    cases q with
    | ok b =>
      simp only [storeSession, if_true] at hok
      injection hok with hok
      subst hok
      exact decryptRecord_only P rnd { sr1 with cur := firstState P S } sr' pm.message b hp hh
    | err e => simp at hok
    | panic => simp at hok

theorem ser_inj {a b : Bytes} (h : ser a = ser b) : a = b := by
  unfold ser at h
  injection h

/-- What no write changes. -/
theorem applyWrites_own (st : Store) (ws : List Write) : (applyWrites st ws).identity = st.identity ∧
    (applyWrites st ws).regId = st.regId ∧ (applyWrites st ws).signedPreKeys = st.signedPreKeys := by
  induction ws generalizing st with
  | nil => exact ⟨rfl, rfl, rfl⟩
  | cons w ws ih =>
    have := ih (applyWrite st w)
    rw [show applyWrites st (w :: ws) = applyWrites (applyWrite st w) ws from rfl, this.1, this.2.1, this.2.2]
    cases w <;> exact ⟨rfl, rfl, rfl⟩

theorem applyWrites_preKeys (st : Store) (ws : List Write) (h : ∀ w ∈ ws, ∀ n, w ≠ .removePreKey n) :
    (applyWrites st ws).preKeys = st.preKeys := by
  induction ws generalizing st with
  | nil => rfl
  | cons w ws ih =>
    rw [show applyWrites st (w :: ws) = applyWrites (applyWrite st w) ws from rfl,
      ih _ (fun v hv => h v (List.mem_cons_of_mem _ hv))]
    cases w with
    | removePreKey n => exact absurd rfl (h _ List.mem_cons_self n)
    | saveIdentity id k => rfl
    | storeSession r d s => rfl

theorem encryptMsg_keeps (P : Prims) (st : Store) (rec : String) (dev : Nat) (pt : Bytes) :
    ∀ w ∈ (encryptMsg P {} st rec dev pt).writes, ∀ n, w ≠ .removePreKey n := by
  unfold encryptMsg storeSession
  intro w hw n
  repeat' split at hw
  all_goals simp at hw
  all_goals subst hw
  all_goals simp

theorem buildSender_keeps (P : Prims) (st : Store) (rb rr : Bytes) (rec : String) (dev : Nat) (b : Bundle) :
    ∀ w ∈ (buildSender P {} st rb rr rec dev b).writes, ∀ n, w ≠ .removePreKey n := by
  unfold buildSender
  intro w hw n
  simp only at hw
  repeat' split at hw
  all_goals simp at hw
  all_goals rcases hw with rfl | rfl
  all_goals simp

theorem begun_I (P : Prims) (S : Setup) (pt : Bytes) : (begun P S pt).I.identity = S.initiator.identity ∧
    (begun P S pt).I.regId = S.initiator.regId ∧ (begun P S pt).I.signedPreKeys = S.initiator.signedPreKeys ∧
    (begun P S pt).I.preKeys = S.initiator.preKeys := by
  have h : (begun P S pt).I = applyWrites (World.init P S).I
      (encryptMsg P {} (World.init P S).I S.nameR S.devR pt).writes := by
    unfold begun
    simp only [World.step]
    split <;> rfl
  rw [h, applyWrites_preKeys _ _ (encryptMsg_keeps P _ _ _ _)]
  obtain ⟨h1, h2, h3⟩ := applyWrites_own (World.init P S).I (encryptMsg P {} (World.init P S).I S.nameR S.devR pt).writes
  rw [h1, h2, h3]
  unfold World.init
  simp only
  rw [applyWrites_preKeys _ _ (buildSender_keeps P _ _ _ _ _ _)]
  obtain ⟨h1, h2, h3⟩ := applyWrites_own S.initiator (buildSender P {} S.initiator S.rb S.rr S.nameR S.devR S.bundle).writes
  exact ⟨h1, h2, h3, rfl⟩

theorem Mirror.symm {S S' : Setup} (h : Mirror S S') : Mirror S' S :=
  ⟨h.nameR.symm, h.devR.symm, h.nameI.symm, h.devI.symm, h.responder.symm, h.initiator.symm⟩

theorem Mirror.ids {P : Prims} {S S' : Setup} (h : Mirror S S') (hS : S.Ok P) (hS' : S'.Ok P) :
    S'.idI = S.idR ∧ S'.idR = S.idI ∧ S'.regI = S.regR ∧ S'.regR = S.regI := by
  have e1 := hS'.iIdent
  have e2 := hS'.rIdent
  have e3 := hS'.iReg
  have e4 := hS'.rReg
  rw [h.initiator, hS.rIdent] at e1
  rw [h.responder, hS.iIdent] at e2
  rw [h.initiator, hS.rReg] at e3
  rw [h.responder, hS.iReg] at e4
  injection e1 with e1
  injection e2 with e2
  injection e3 with e3
  injection e4 with e4
  exact ⟨e1.symm, e2.symm, e3.symm, e4.symm⟩

/-- Alice, who has begun a session of their own, reads Bob's first message as they would have without it, and
archives their own session. -/
theorem cross_read {P : Prims} {S S' : Setup} (hM : Mirror S S') (hS : S.Ok P) (hS' : S'.Ok P)
    (hbase : (newPair P S.rb).pub ≠ (newPair P S'.rb).pub) (ptA ptB : Bytes) (rA : Nat → Bytes)
    (hA : Ready P S {} (World.init P S) [.send false ptA])
    (hB : Ready P S' {} (World.init P S') [.send false ptB, .deliver 0 rA]) :
    ∃ r r' r0, ((begun P S' ptB).step P S' (.deliver 0 rA)).1.R.sessions (sessName S'.nameI S'.devI) = .good r ∧
      (World.step P S' { I := (begun P S' ptB).I, R := (begun P S ptA).I, wire := (begun P S' ptB).wire }
        (.deliver 0 rA)).1.R.sessions (sessName S'.nameI S'.devI) = .good r' ∧ r'.cur = r.cur ∧
      (begun P S ptA).I.sessions (sessName S.nameR S.devR) = .good r0 ∧ r'.prev = [r0.cur] ∧
      isTrusted (World.step P S' { I := (begun P S' ptB).I, R := (begun P S ptA).I, wire := (begun P S' ptB).wire }
        (.deliver 0 rA)).1.R S'.nameI S'.idI.pub = true ∧
      ((begun P S' ptB).step P S' (.deliver 0 rA)).2 = .received (.ok ptB) ∧
      (World.step P S' { I := (begun P S' ptB).I, R := (begun P S ptA).I, wire := (begun P S' ptB).wire }
        (.deliver 0 rA)).2 = .received (.ok ptB) := by
  obtain ⟨e1, e2, e3, e4⟩ := hM.ids hS hS'
  obtain ⟨_, _, hA1⟩ := ready_step hS hA
  obtain ⟨_, _, hB1⟩ := ready_step hS' hB
  obtain ⟨hag, _, _⟩ := ready_step hS' hB1
  obtain ⟨GA, hA1, _⟩ := hA1
  obtain ⟨GB, hB1, _⟩ := hB1
  change Rel P S GA _ (begun P S ptA) at hA1
  change Rel P S' GB _ (begun P S' ptB) at hB1
  change Agree _ ((begun P S' ptB).step P S' (.deliver 0 rA)).2 at hag
  obtain ⟨b, hb⟩ : ∃ b, b = begun P S' ptB := ⟨_, rfl⟩
  obtain ⟨a, ha⟩ : ∃ a, a = begun P S ptA := ⟨_, rfl⟩
  obtain ⟨k1, k2, k3, k4⟩ := begun_I P S ptA
  rw [← hb] at hB1 hag ⊢
  rw [← ha] at hA1 k1 k2 k3 k4 ⊢
  -- the message
  obtain ⟨x, hx, hok⟩ := (forall₂_get hB1.log 0).2 ⟨1, 0, ptB⟩ rfl
  obtain ⟨who, by_, ty⟩ := x
  obtain ⟨g, wm, hg, hw, hm, hwire⟩ := hok
  have hw : who = false := hw
  subst hw
  obtain ⟨hty, pm, hl, hv, hreg, hpid, hsid, hbk, hik, hin⟩ := hwire.2 rfl
  simp only at hty hl
  subst hty
  -- Alice's session
  obtain ⟨r0, hr0, hat⟩ := hA1.sessI
  have hst : StillR S' a.I := by
    refine ⟨?_, ?_, ?_, ?_⟩
    · rw [hM.nameI, e1]; exact hA1.trustI
    · rw [k1, hS.iIdent, e2]
    · rw [k2, hS.iReg, e4]
    · rw [k3, ← hM.responder]; exact hS'.rSpk
  have hopk : ∀ k, S'.opk = some k → a.I.preKeys S'.pkId = some k := by
    intro k hk
    rw [k4, ← hM.responder]
    exact hS'.rOpk k hk
  have hfr := hB1.freshR rfl
  obtain ⟨_, n2⟩ := receive_build P S' hS'.pkId.2 rA b.R hB1.still hfr.2 by_ pm hl hv hpid hsid hbk hik hreg {}
    (by simp [loadSession, hfr.1]) (by simp [SRecord.hasState, SState.getVersion]) {} rfl rfl ptB
  obtain ⟨n1, _⟩ := receive_build P S' hS'.pkId.2 rA b.R hB1.still hfr.2 by_ pm hl hv hpid hsid hbk hik hreg {}
    (by simp [loadSession, hfr.1]) (by simp [SRecord.hasState, SState.getVersion]) {} rfl rfl ptB
  have hload : loadSession a.I S'.nameI S'.devI = .ok { r0 with fresh := false } := by
    rw [hM.nameI, hM.devI]
    simp [loadSession, hr0]
  obtain ⟨m1, _⟩ := receive_build P S' hS'.pkId.2 rA a.I hst hopk by_ pm hl hv hpid hsid hbk hik hreg _ hload
    (by
      unfold SRecord.hasState
      simp only [hat.prev, List.any_cons, List.any_nil, Bool.or_false, decide_eq_false_iff_not, hat.base]
      rintro ⟨_, h⟩
      exact hbase (ser_inj h)) { cur := {}, prev := [r0.cur], fresh := false } (by
        simp [SRecord.archive, SRecord.promote, hat.prev]) rfl ptB
  have hstep : ∀ w : World, w.wire = b.wire → w.step P S' (.deliver 0 rA) =
      ({ w with R := applyWrites w.R (receive P rA w.R S'.nameI S'.devI by_ .prekey).writes },
        .received (receive P rA w.R S'.nameI S'.devI by_ .prekey).res) := by
    intro w hw
    simp only [World.step, hw, hx]
  have hres : (receive P rA b.R S'.nameI S'.devI by_ .prekey).res = .ok ptB := by
    rw [hstep b rfl] at hag
    have hwant : Abs.want (Abs.step {} (.send false ptB)) (.deliver 0 rA) = .got ptB := by
      simp [Abs.want, Abs.step, Abs.expect, Abs.recvLevel, Abs.sendLevel, count]
    rw [hwant] at hag
    simp only at hag
    rcases hq : (receive P rA b.R S'.nameI S'.devI by_ .prekey).res with q | q | _
    · rw [hq] at hag
      rw [show q = ptB from hag]
    · rw [hq] at hag
      exact hag.elim
    · rw [hq] at hag
      exact hag.elim
  obtain ⟨s', hd⟩ := n2 rfl hres
  rw [hstep b rfl, hstep ⟨b.I, a.I, b.wire⟩ rfl]
  simp only [n1 s' hd, m1 s' hd]
  refine ⟨{ cur := s', prev := [], fresh := false }, { cur := s', prev := [r0.cur], fresh := false }, r0,
    ?_, ?_, rfl, hr0, rfl, ?_, trivial, trivial⟩
  · simp only [applyWrites, List.foldl_append, List.foldl_cons, List.foldl_nil, applyWrite, if_true]
  · simp only [applyWrites, List.foldl_append, List.foldl_cons, List.foldl_nil, applyWrite, if_true]
  · by_cases hp : S'.pkId ≠ 0xFFFFFF
    · rw [if_pos hp]
      simp [applyWrites, applyWrite, isTrusted]
    · rw [if_neg hp]
      simp [applyWrites, applyWrite, isTrusted]

/-- The message the archived session opens is read, and that session is the current one again. -/
theorem receive_promote (P : Prims) (rnd : Nat → Bytes) (st : Store) (rec : String) (dev : Nat) (b : Bytes)
    (wm : WhisperMsg) (r : SRecord) (s : SState) (hs : st.sessions (sessName rec dev) = .good r)
    (hp : r.prev = [s]) (hl : loadWhisper b = .ok wm)
    (hno : ∃ e, (decryptState P (rnd 0) r.cur wm).2 = .err e) (s' : SState) (pt : Bytes)
    (hd : decryptState P (rnd 1) s wm = (s', .ok pt)) :
    (receive P rnd st rec dev b .whisper).res = .ok pt ∧
    (∃ r', (applyWrites st (receive P rnd st rec dev b .whisper).writes).sessions (sessName rec dev) = .good r' ∧
      r'.cur = s') ∧
    SameRest st (applyWrites st (receive P rnd st rec dev b .whisper).writes) := by
  have hload : loadSession st rec dev = .ok { r with fresh := false } := by simp [loadSession, hs]
  have hrec : receive P rnd st rec dev b .whisper = decryptWhisper P {} rnd st rec dev wm := by
    unfold receive; simp only [hl]
  obtain ⟨e, he⟩ := hno
  obtain ⟨s1, h1⟩ : ∃ s1, decryptState P (rnd 0) r.cur wm = (s1, .err e) := ⟨_, by rw [← he]⟩
  have hdr : decryptRecord P rnd { r with fresh := false } wm =
      (SRecord.promote { cur := s1, prev := [s'], fresh := false } s', .ok pt) := by
    unfold decryptRecord
    simp only [h1, hp, tryPrev, hd]
  rw [hrec]
  unfold decryptWhisper
  rw [hload]
  simp only
  rw [hdr]
  simp only [storeSession, if_true]
  refine ⟨trivial, ⟨{ SRecord.promote { cur := s1, prev := [s'], fresh := false } s' with fresh := false }, ?_, rfl⟩,
    ⟨rfl, rfl, rfl, rfl, rfl⟩⟩
  simp [applyWrites, applyWrite]

/-- Both sides after the first messages crossed, Alice's second message was sent and Bob has read it. -/
theorem cross_over {P : Prims} {S S' : Setup} (hM : Mirror S S') (hS : S.Ok P) (hS' : S'.Ok P)
    (hbase : (newPair P S.rb).pub ≠ (newPair P S'.rb).pub) (ptA ptB ptA2 : Bytes) (rA rB rB2 : Nat → Bytes)
    (hA : Ready P S {} (World.init P S) [.send false ptA, .deliver 0 rB])
    (post : List Ev)
    (hB : Ready P S' {} (World.init P S')
      (.send false ptB :: .deliver 0 rA :: .send true ptA2 :: .deliver 1 (fun k => rB2 (k + 1)) :: post))
    (href : Refuses P S' (rB2 0) ((meet P S S' ptA ptB rA rB).1.step P S' (.send true ptA2)).1 1) :
    (meet P S S' ptA ptB rA rB).2 = (.received (.ok ptB), .received (.ok ptA)) ∧
    List.Forall₂ Agree (wants (Abs.step (Abs.step {} (.send false ptB)) (.deliver 0 rA))
        [.send true ptA2, .deliver 1 rB2])
      (World.gots P S' (meet P S S' ptA ptB rA rB).1 [.send true ptA2, .deliver 1 rB2]) ∧
    Over S' ((((begun P S' ptB).step P S' (.deliver 0 rA)).1.step P S' (.send true ptA2)).1.step P S'
        (.deliver 1 (fun k => rB2 (k + 1)))).1
      (((meet P S S' ptA ptB rA rB).1.step P S' (.send true ptA2)).1.step P S' (.deliver 1 rB2)).1 := by
  obtain ⟨e1, e2, e3, e4⟩ := hM.ids hS hS'
  have hshort : ∀ {a w} {xs ys : List Ev} {T : Setup}, Ready P T a w (xs ++ ys) → Ready P T a w xs := by
    intro a w xs ys T h
    obtain ⟨G, h1, h2, h3, h4, h5⟩ := h
    refine ⟨G, h1, ?_, ?_, by rw [List.length_append] at h4; omega, ?_⟩
    · clear h1 h3 h4 h5
      induction xs generalizing a with
      | nil => trivial
      | cons x xs ih => exact ⟨h2.1, ih h2.2⟩
    · refine h3.sublist (List.Sublist.append (List.Sublist.refl _) ?_)
      unfold keysOf
      rw [List.filterMap_append]
      exact List.sublist_append_left _ _
    · intro x hx
      refine h5 x ?_
      clear h1 h2 h3 h4 h5
      induction xs generalizing a with
      | nil => simp [wants] at hx
      | cons y ys ih =>
        simp only [wants, List.mem_cons, List.cons_append] at hx ⊢
        rcases hx with hx | hx
        · exact Or.inl hx
        · exact Or.inr (ih hx)
  obtain ⟨r, r', r0, c1, c2, c3, c4, c5, c6, c7, c8⟩ := cross_read hM hS hS' hbase ptA ptB rA
    (hshort (xs := [.send false ptA]) (ys := [.deliver 0 rB]) hA)
    (hshort (xs := [.send false ptB, .deliver 0 rA]) hB)
  obtain ⟨q, q', q0, d1, d2, d3, d4, d5, d6, d7, d8⟩ := cross_read hM.symm hS' hS (fun h => hbase h.symm) ptB ptA rB
    (hshort (xs := [.send false ptB]) hB) hA
  refine ⟨by unfold meet; simp only [c8, d8], ?_⟩
  -- the world without a crossing
  obtain ⟨_, _, hB1⟩ := ready_step hS' hB
  change Ready P S' _ (begun P S' ptB) _ at hB1
  obtain ⟨_, _, hB2⟩ := ready_step hS' hB1
  obtain ⟨g3a, g3, hB3⟩ := ready_step hS' hB2
  obtain ⟨g4a, g4, hB4⟩ := ready_step hS' hB3
  obtain ⟨n2, hn2⟩ : ∃ n2, n2 = ((begun P S' ptB).step P S' (.deliver 0 rA)).1 := ⟨_, rfl⟩
  obtain ⟨m2, hm2⟩ : ∃ m2, m2 = (meet P S S' ptA ptB rA rB).1 := ⟨_, rfl⟩
  rw [← hn2] at c1 hB2 hB3 hB4 g3a g3 g4a g4
  rw [← hm2] at href ⊢
  rw [← hn2]
  -- Bob's session of the normal world is the archived one
  have hx0 : ∃ x, (begun P S' ptB).wire[0]? = some (false, x) := by
    obtain ⟨_, hr, _⟩ := hB1
    obtain ⟨x, hx, _, _, _, hw, _⟩ := (forall₂_get hr.log 0).2 ⟨1, 0, ptB⟩ rfl
    obtain ⟨w, x⟩ := x
    have hw : w = false := hw
    subst hw
    exact ⟨x, hx⟩
  obtain ⟨⟨x0, t0⟩, hx0⟩ := hx0
  have hnI : n2.I = (begun P S' ptB).I := by
    rw [hn2]
    simp only [World.step, hx0]
  have hnW : n2.wire = (begun P S' ptB).wire := by
    rw [hn2]
    simp only [World.step, hx0]
  have hmR : m2.R.sessions (sessName S'.nameI S'.devI) = .good r' := by rw [hm2]; exact c2
  have hmI : m2.I.sessions (sessName S'.nameR S'.devR) = .good q' := by
    rw [hm2, hM.nameR, hM.devR]; exact d2
  have hnIs : n2.I.sessions (sessName S'.nameR S'.devR) = .good q0 := by rw [hnI]; exact d4
  have hmW : m2.wire = n2.wire := by rw [hm2, hnW]; rfl
  have htI : isTrusted m2.I S'.nameR S'.idR.pub = true := by
    rw [hm2, hM.nameR, e2]; exact d6
  have htR : isTrusted m2.R S'.nameI S'.idI.pub = true := by rw [hm2]; exact c6
  clear hn2 hm2 c2 d2 d4 c6 d6 c7 c8 d7 d8 c4 c5 d1 d3 hnI hnW hx0 hB1
  -- Alice sends
  obtain ⟨b, ty, he⟩ : ∃ b ty, (encryptMsg P {} n2.R S'.nameI S'.devI ptA2).res = .ok (b, ty) := by
    simp only [World.step] at g3
    rcases he : (encryptMsg P {} n2.R S'.nameI S'.devI ptA2).res with ⟨b, ty⟩ | e | _
    · exact ⟨b, ty, rfl⟩
    · rw [he] at g3; exact g3.elim
    · rw [he] at g3; exact g3.elim
  obtain ⟨u1, ⟨v1, v2, u2, u3, u4⟩, u5⟩ := over_encrypt P n2.R m2.R S'.nameI S'.devI ptA2 r r' c1 hmR c3 b ty he
  have hs3 : n2.step P S' (.send true ptA2) =
      ({ n2 with R := applyWrites n2.R (encryptMsg P {} n2.R S'.nameI S'.devI ptA2).writes
                 wire := n2.wire ++ [(true, b, ty)] }, .sent) := by
    simp only [World.step, he]
  have ht3 : m2.step P S' (.send true ptA2) =
      ({ m2 with R := applyWrites m2.R (encryptMsg P {} m2.R S'.nameI S'.devI ptA2).writes
                 wire := m2.wire ++ [(true, b, ty)] }, .sent) := by
    simp only [World.step, u1]
  rw [hs3] at g3a g4a g4 hB3 hB4
  rw [ht3] at href
  have hlen : n2.wire.length = 1 := by
    obtain ⟨_, hr, _⟩ := hB2
    rw [← hr.log.length_eq]
    rfl
  have hx1 : (n2.wire ++ [(true, b, ty)])[1]? = some (true, b, ty) := by
    rw [List.getElem?_append_right (by omega), hlen]
    rfl
  obtain ⟨_, hr3, _⟩ := hB3
  obtain ⟨wm, hty, hl⟩ : ∃ wm, ty = .whisper ∧ loadWhisper b = .ok wm := by
    obtain ⟨x, hx, _, wm, _, _, _, hw⟩ := (forall₂_get hr3.log 1).2 ⟨2, 0, ptA2⟩ rfl
    simp only at hx
    rw [hx1] at hx
    injection hx with hx
    subst hx
    exact ⟨wm, hw.1 (by show (2 : Nat) ≠ 1; decide)⟩
  subst hty
  -- Bob reads
  have hat : q0.prev = [] ∧ q0.cur.version = 3 ∧ q0.cur.aliceBase = ser (newPair P S'.rb).pub := by
    obtain ⟨r2, h2, hat⟩ := hr3.sessI
    simp only at h2
    rw [hnIs] at h2
    injection h2 with h2
    subst h2
    exact ⟨hat.prev, hat.party.version, hat.base⟩
  have hs4 : ∀ (w : World) (rnd : Nat → Bytes), w.wire = n2.wire ++ [(true, b, .whisper)] →
      w.step P S' (.deliver 1 rnd) =
      ({ w with I := applyWrites w.I (receive P rnd w.I S'.nameR S'.devR b .whisper).writes },
        .received (receive P rnd w.I S'.nameR S'.devR b .whisper).res) := by
    intro w rnd hw
    simp only [World.step, hw, hx1]
  rw [hs4 _ _ rfl] at g4a g4 hB4
  simp only at g4a g4 hB4
  obtain ⟨pt, hpt⟩ : ∃ pt, (receive P (fun k => rB2 (k + 1)) n2.I S'.nameR S'.devR b .whisper).res = .ok pt := by
    rcases hq : (receive P (fun k => rB2 (k + 1)) n2.I S'.nameR S'.devR b .whisper).res with pt | e | _
    · exact ⟨pt, rfl⟩
    · rw [hq] at g4; exact g4.elim
    · rw [hq] at g4; exact g4.elim
  obtain ⟨k1, k2⟩ := receive_known P (fun k => rB2 (k + 1)) n2.I S'.nameR S'.devR b .whisper _ S'.idR.pub wm q0 hnIs
    hat.2.1 hat.2.2 hr3.trustI (Or.inl ⟨rfl, hl⟩)
  obtain ⟨sr, hsr⟩ := k2 pt hpt
  obtain ⟨s', hd⟩ := decryptRecord_only P _ _ _ _ _ (show (SRecord.mk q0.cur q0.prev false).prev = [] from hat.1) hsr
  obtain ⟨_, y2, _⟩ := k1 _ pt (decryptRecord_cur P _ { q0 with fresh := false } wm s' pt hd)
  obtain ⟨z1, ⟨q4, z2, z3⟩, z4⟩ := receive_promote P rB2 m2.I S'.nameR S'.devR b wm q' q0.cur hmI d5 hl
    (href q' true b .whisper wm hmI (by simp only [hmW]; exact hx1) hl) s' pt hd
  have ht4 := hs4 { m2 with R := applyWrites m2.R (encryptMsg P {} m2.R S'.nameI S'.devI ptA2).writes
                            wire := m2.wire ++ [(true, b, .whisper)] } rB2 (by simp only [hmW])
  have hs5 := hs4 { n2 with R := applyWrites n2.R (encryptMsg P {} n2.R S'.nameI S'.devI ptA2).writes
                            wire := n2.wire ++ [(true, b, .whisper)] } (fun k => rB2 (k + 1)) rfl
  simp only [wants, World.gots]
  rw [ht3, hs3]
  simp only
  rw [ht4, hs5]
  simp only
  rw [z1]
  rw [hpt] at g4a
  refine ⟨List.Forall₂.cons trivial (List.Forall₂.cons g4a List.Forall₂.nil), ?_⟩
  refine ⟨by simp only [hmW], ⟨_, q4, y2, z2, z3⟩, ⟨v1, v2, u2, u3, u4⟩, ?_, ?_⟩
  · simp only; rw [isTrusted_same z4]; exact htI
  · simp only; rw [isTrusted_same u5]; exact htR

/-- The schedule goes on. -/
theorem cross_on {P : Prims} {S S' : Setup} (hM : Mirror S S') (hS : S.Ok P) (hS' : S'.Ok P)
    (hbase : (newPair P S.rb).pub ≠ (newPair P S'.rb).pub) (ptA ptB ptA2 : Bytes) (rA rB rB2 : Nat → Bytes)
    (hA : Ready P S {} (World.init P S) [.send false ptA, .deliver 0 rB])
    (post : List Ev)
    (hB : Ready P S' {} (World.init P S')
      (.send false ptB :: .deliver 0 rA :: .send true ptA2 :: .deliver 1 (fun k => rB2 (k + 1)) :: post))
    (href : Refuses P S' (rB2 0) ((meet P S S' ptA ptB rA rB).1.step P S' (.send true ptA2)).1 1) :
    (meet P S S' ptA ptB rA rB).2 = (.received (.ok ptB), .received (.ok ptA)) ∧
    List.Forall₂ Agree (wants (Abs.step (Abs.step {} (.send false ptB)) (.deliver 0 rA))
        (.send true ptA2 :: .deliver 1 rB2 :: post))
      (World.gots P S' (meet P S S' ptA ptB rA rB).1 (.send true ptA2 :: .deliver 1 rB2 :: post)) := by
  obtain ⟨h1, h2, h3⟩ := cross_over hM hS hS' hbase ptA ptB ptA2 rA rB rB2 hA post hB href
  obtain ⟨_, _, hB1⟩ := ready_step hS' hB
  obtain ⟨_, _, hB2⟩ := ready_step hS' hB1
  obtain ⟨_, _, hB3⟩ := ready_step hS' hB2
  obtain ⟨_, _, hB4⟩ := ready_step hS' hB3
  refine ⟨h1, ?_⟩
  simp only [wants, World.gots] at h2 ⊢
  cases h2 with
  | cons g1 h2 => cases h2 with
    | cons g2 _ =>
      exact List.Forall₂.cons g1 (List.Forall₂.cons g2 (over_run hS' post _ _ _ hB4 (by
        simp [Abs.step, Abs.expect, Abs.accept, Abs.recvLevel, Abs.sendLevel, count]) h3))

end Verif.Crossing
