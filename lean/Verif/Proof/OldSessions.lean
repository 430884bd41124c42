import Verif.Spec.OldSessions
import Verif.Proof.StartOver
/-!
# Lemmas for C154: messages to be refused
-/
namespace Verif.OldSessions
open Verif Verif.Keys Verif.Messages Verif.Session Verif.Api Verif.Names Verif.Conv Verif.Crossing Verif.StartOver

/-- Both fail, in the same way. -/
def Alike : Res Bytes → Res Bytes → Prop
  | .err _, .err _ => True
  | .panic, .panic => True
  | _, _ => False

theorem agree_alike {x : Want} {q q' : Res Bytes} (h : Agree x (.received q)) (ha : Alike q q') :
    Agree x (.received q') := by
  cases q <;> cases q' <;> first | exact ha.elim | skip
  · cases x <;> first | exact h | exact h.elim | skip
    intro pt hh; cases hh
  · exact h

theorem tryPrev_none (P : Prims) (rnd : Nat → Bytes) (m : WhisperMsg) (l : List SState)
    (h : ∀ s ∈ l, ∀ k, ∃ e, (decryptState P (rnd k) s m).2 = .err e) :
    ∀ k, ∃ p, tryPrev P rnd m k l = (p, .ok none) := by
  induction l with
  | nil => intro k; exact ⟨[], rfl⟩
  | cons s l ih =>
    intro k
    obtain ⟨e, he⟩ := h s List.mem_cons_self k
    obtain ⟨p, hp⟩ := ih (fun t ht => h t (List.mem_cons_of_mem _ ht)) (k + 1)
    obtain ⟨s', hs⟩ : ∃ s', decryptState P (rnd k) s m = (s', .err e) := ⟨_, by rw [← he]⟩
    refine ⟨s' :: p, ?_⟩
    simp only [tryPrev, hs, hp]

theorem decryptRecord_alike (P : Prims) (rnd : Nat → Bytes) (r r' : SRecord) (m : WhisperMsg) (hc : r'.cur = r.cur)
    (hp : r.prev = []) (hs : ∀ s ∈ r'.prev, ∀ k, ∃ e, (decryptState P (rnd k) s m).2 = .err e)
    (hno : ∀ pt, (decryptRecord P rnd r m).2 ≠ .ok pt) :
    Alike (decryptRecord P rnd r m).2 (decryptRecord P rnd r' m).2 := by
  obtain ⟨p, htp⟩ := tryPrev_none P rnd m r'.prev hs 1
  unfold decryptRecord at hno ⊢
  rw [hc]
  rcases hd : decryptState P (rnd 0) r.cur m with ⟨s', q⟩
  rw [hd] at hno
  cases q with
  | ok b => exact absurd rfl (hno b)
  | err e =>
    simp only [hp, htp, tryPrev]
    exact trivial
  | panic => exact trivial

/-- Receiving with an existing session, whatever comes of it. -/
theorem receive_known_res (P : Prims) (rnd : Nat → Bytes) (st : Store) (rec : String) (dev : Nat)
    (b : Bytes) (ty : MsgType) (base ik : Bytes) (wm : WhisperMsg) (r : SRecord)
    (hs : st.sessions (sessName rec dev) = .good r) (hv : r.cur.version = 3)
    (hb : r.cur.aliceBase = ser base) (ht : isTrusted st rec ik = true)
    (ha : Arrives b ty base ik wm) :
    (receive P rnd st rec dev b ty).res = (decryptRecord P rnd { r with fresh := false } wm).2 ∧
    ((∀ pt, (receive P rnd st rec dev b ty).res ≠ .ok pt) → (receive P rnd st rec dev b ty).writes = []) := by
  have hload : loadSession st rec dev = .ok { r with fresh := false } := by simp [loadSession, hs]
  rcases ha with ⟨rfl, hl⟩ | ⟨rfl, pm, hl, hpv, hpb, hpi, hpm⟩
  · have hrec : receive P rnd st rec dev b .whisper = decryptWhisper P {} rnd st rec dev wm := by
      unfold receive; simp only [hl]
    rw [hrec]
    unfold decryptWhisper
    rw [hload]
    simp only
    rcases hh : decryptRecord P rnd { r with fresh := false } wm with ⟨sr', q⟩
    cases q with
    | ok b => simp [storeSession]
    | err e => exact ⟨rfl, fun _ => rfl⟩
    | panic => exact ⟨rfl, fun _ => rfl⟩
  · have hrec : receive P rnd st rec dev b .prekey = decryptPreKey P {} rnd st rec dev pm := by
      unfold receive; simp only [hl]
    have hbr : buildReceiver P {} st rec { r with fresh := false } pm =
        ⟨[], .ok ({ r with fresh := false }, 0)⟩ := by
      unfold buildReceiver
      rw [if_neg (by simp [hpv]), hpi, if_neg (by simp [ht]), if_pos]
      unfold SRecord.hasState
      simp [SState.getVersion, hv, hb, hpb]
    rw [hrec]
    unfold decryptPreKey
    rw [hload]
    simp only
    rw [hbr, hpm]
    simp only
    rcases hh : decryptRecord P rnd { r with fresh := false } wm with ⟨sr', q⟩
    cases q with
    | ok b => simp [storeSession]
    | err e => exact ⟨rfl, fun _ => rfl⟩
    | panic => exact ⟨rfl, fun _ => rfl⟩

theorem arrives_inner {b : Bytes} {ty : MsgType} {base ik : Bytes} {wm : WhisperMsg} (h : Arrives b ty base ik wm) :
    inner b ty = .ok wm := by
  rcases h with ⟨rfl, hl⟩ | ⟨rfl, pm, hl, _, _, _, hpm⟩
  · exact hl
  · simp only [inner, hl, hpm]

/-- One party refuses in a session. -/
theorem over_refuse (P : Prims) (rnd : Nat → Bytes) (st st' : Store) (rec : String) (dev : Nat)
    (b : Bytes) (ty : MsgType) (base ik : Bytes) (wm : WhisperMsg) (r r' : SRecord)
    (hs : st.sessions (sessName rec dev) = .good r) (hs' : st'.sessions (sessName rec dev) = .good r')
    (hc : r'.cur = r.cur) (hp : r.prev = []) (hv : r.cur.version = 3) (hb : r.cur.aliceBase = ser base)
    (ht : isTrusted st rec ik = true) (ht' : isTrusted st' rec ik = true) (ha : Arrives b ty base ik wm)
    (hsh : ∀ s ∈ r'.prev, ∀ k, ∃ e, (decryptState P (rnd k) s wm).2 = .err e)
    (hno : ∀ pt, (receive P rnd st rec dev b ty).res ≠ .ok pt) :
    Alike (receive P rnd st rec dev b ty).res (receive P rnd st' rec dev b ty).res ∧
    (receive P rnd st rec dev b ty).writes = [] ∧ (receive P rnd st' rec dev b ty).writes = [] := by
  obtain ⟨k1, k2⟩ := receive_known_res P rnd st rec dev b ty base ik wm r hs hv hb ht ha
  obtain ⟨k3, k4⟩ := receive_known_res P rnd st' rec dev b ty base ik wm r' hs' (by rw [hc]; exact hv)
    (by rw [hc]; exact hb) ht' ha
  have hal := decryptRecord_alike P rnd { r with fresh := false } { r' with fresh := false } wm hc hp hsh
    (by rw [← k1]; exact hno)
  rw [← k1, ← k3] at hal
  refine ⟨hal, k2 hno, k4 ?_⟩
  intro pt hpt
  rw [hpt] at hal
  cases hq : (receive P rnd st rec dev b ty).res with
  | ok x => exact hno x hq
  | err e => rw [hq] at hal; exact hal
  | panic => rw [hq] at hal; exact hal

/-- A first message that cannot be read: the identity of its sender is stored all the same. -/
theorem receive_build_res (P : Prims) (S : Setup) (hpk : S.pkId = 0 ↔ S.opk = none)
    (rnd : Nat → Bytes) (st : Store) (hr : StillR S st)
    (hopk : ∀ k, S.opk = some k → st.preKeys S.pkId = some k)
    (b : Bytes) (pm : PreKeyMsg) (hl : loadPreKeyMsg b = .ok pm) (hv : pm.version = 3)
    (hpid : pm.preKeyId = S.pkId) (hsid : pm.signedPreKeyId = S.spkId)
    (hbk : pm.baseKey = (newPair P S.rb).pub) (hik : pm.identityKey = S.idI.pub)
    (hreg : pm.regId = S.regI) (sr : SRecord) (hload : loadSession st S.nameI S.devI = .ok sr)
    (hno : sr.hasState 3 (ser (newPair P S.rb).pub) = false) (sr1 : SRecord)
    (hsr : (if sr.fresh then sr else sr.archive) = sr1) (hcur : sr1.cur = {}) :
    (receive P rnd st S.nameI S.devI b .prekey).res =
      (decryptRecord P rnd { sr1 with cur := firstState P S } pm.message).2 ∧
    ((∀ pt, (receive P rnd st S.nameI S.devI b .prekey).res ≠ .ok pt) →
      (receive P rnd st S.nameI S.devI b .prekey).writes = [.saveIdentity S.nameI S.idI.pub]) := by
  have hbr : buildReceiver P {} st S.nameI sr pm =
      ⟨[.saveIdentity S.nameI S.idI.pub], .ok ({ sr1 with cur := firstState P S }, S.pkId)⟩ := by
    unfold buildReceiver
    rw [if_neg (by simp [hv]), hik, if_neg (by simp [hr.trust]), hbk,
      if_neg (by simp [hno]), hsid, hr.spk, hr.ident, hpid]
    have hsel : (if S.pkId ≠ 0 then (st.preKeys S.pkId).map some else some none) = some S.opk := by
      cases ho : S.opk with
      | none => rw [if_neg (by simpa using hpk.mpr ho)]
      | some k =>
        have : S.pkId ≠ 0 := by intro h; rw [hpk.mp h] at ho; simp at ho
        rw [if_pos this, hopk k ho]; rfl
    rw [hsel, hr.reg]
    simp only [hreg, if_true, hsr, hcur]
    rfl
  have hrec : receive P rnd st S.nameI S.devI b .prekey = decryptPreKey P {} rnd st S.nameI S.devI pm := by
    unfold receive; simp only [hl]
  rw [hrec]
  unfold decryptPreKey
  rw [hload]
  simp only
  rw [hbr]
  simp only
  rcases hh : decryptRecord P rnd { sr1 with cur := firstState P S } pm.message with ⟨sr', q⟩
  cases q with
  | ok b => simp [storeSession]
  | err e => exact ⟨rfl, fun _ => rfl⟩
  | panic => exact ⟨rfl, fun _ => rfl⟩

theorem archived_older {st : Store} {rec : String} {dev : Nat} {sr : SRecord} (h : loadSession st rec dev = .ok sr) :
    ∀ s ∈ (if sr.fresh then sr else sr.archive).prev, s ∈ older false st rec dev := by
  unfold loadSession at h
  unfold older
  intro s hs
  split at h
  · injection h with h; subst h; simp at hs
  · injection h with h; subst h; simp at hs
  · cases h
  · rename_i r hr
    injection h with h
    subst h
    rw [hr]
    simp only [SRecord.archive, SRecord.promote, Bool.false_eq_true, if_false] at hs ⊢
    split at hs
    · exact List.dropLast_subset _ hs
    · exact hs

/-- Storing the identity of a trusted sender. -/
theorem saved_same (st : Store) (id : String) (k : Bytes) :
    (applyWrites st [.saveIdentity id k]).sessions = st.sessions ∧
    (applyWrites st [.saveIdentity id k]).preKeys = st.preKeys ∧
    (applyWrites st [.saveIdentity id k]).identity = st.identity ∧
    (applyWrites st [.saveIdentity id k]).regId = st.regId ∧
    (applyWrites st [.saveIdentity id k]).signedPreKeys = st.signedPreKeys ∧
    isTrusted (applyWrites st [.saveIdentity id k]) id k = true := by
  refine ⟨rfl, rfl, rfl, rfl, rfl, ?_⟩
  simp [applyWrites, applyWrite, isTrusted]

/-- The clients of `w` are in step with `a`, and the schedule can be run; messages may be refused. -/
def Set (P : Prims) (S : Setup) (a : Abs) (w : World) (evs : List Ev) : Prop :=
  ∃ G, Rel P S G a w ∧ Legal a evs ∧ (G.map (fun g => g.kp.pub) ++ keysOf P evs).Nodup ∧
    a.log.length + evs.length + 1 < u32 ∧ NoForgery P S a w evs

theorem set_step {P : Prims} {S : Setup} (hS : S.Ok P) {a : Abs} {w : World} {ev : Ev} {evs : List Ev}
    (h : Set P S a w (ev :: evs)) :
    Agree (a.want ev) (w.step P S ev).2 ∧ Set P S (a.step ev) (w.step P S ev).1 evs := by
  obtain ⟨G, h, hl, hn, hb, hr⟩ := h
  simp only [List.length_cons] at hb
  have hstep : StepOk P S G a w ev := by
    cases ev with
    | send who pt => exact step_send hS h who pt hl.1 (by omega)
    | deliver i rnd =>
      refine step_deliver hS h i rnd hl.1 ?_ (by omega) hr.1
      intro x hx he
      rw [List.nodup_append] at hn
      exact hn.2.2 x.kp.pub (List.mem_map.mpr ⟨x, hx, rfl⟩) (newPair P (rnd 0)).pub
        (by simp [keysOf]) he
  obtain ⟨hag, G', hrel, hG⟩ := hstep
  have hll : (a.step ev).log.length ≤ a.log.length + 1 := by
    cases ev with
    | send who pt => simp [Abs.step]
    | deliver i rnd =>
      simp only [Abs.step]
      split
      · omega
      · split
        · unfold Abs.accept
          simp only
          split
          · split <;> simp
          · simp
        · omega
  refine ⟨hag, G', hrel, hl.2, ?_, by omega, hr.2⟩
  rcases hG with rfl | ⟨g, i, rnd, rfl, rfl, hk⟩
  · refine hn.sublist ?_
    refine List.Sublist.append (List.Sublist.refl _) ?_
    unfold keysOf
    cases ev <;> simp
  · have he : keysOf P (.deliver i rnd :: evs) = (newPair P (rnd 0)).pub :: keysOf P evs := by
      simp [keysOf]
    rw [he] at hn
    rw [List.map_append, List.append_assoc]
    simpa [hk] using hn

theorem not_ok {x : Want} {q : Res Bytes} (h : Agree x (.received q)) (hx : x = .refused ∨ x = .stale) :
    ∀ pt, q ≠ .ok pt := by
  intro pt hq
  subst hq
  rcases hx with rfl | rfl
  · exact h
  · exact h pt rfl

/-- A message to be refused is refused with older sessions about as it is without, and nothing comes of it. -/
theorem behind_refuse {P : Prims} {S : Setup} (hS : S.Ok P) {G : List Epoch} {a : Abs} {w w' : World}
    (h : Rel P S G a w) (ho : Behind P S a w w') (ev : Ev) (hx : a.want ev = .refused ∨ a.want ev = .stale)
    (hag : Agree (a.want ev) (w.step P S ev).2) (hsh : Shut P S a w' ev) :
    Agree (a.want ev) (w'.step P S ev).2 ∧ Behind P S (a.step ev) (w.step P S ev).1 (w'.step P S ev).1 := by
  cases ev with
  | send who pt => simp [Abs.want] at hx
  | deliver i rnd =>
    cases hm : a.log[i]? with
    | none => simp [Abs.want, hm] at hx
    | some m =>
      have hsame : a.step (.deliver i rnd) = a := by
        simp only [Abs.want, hm] at hx
        simp only [Abs.step, hm]
        cases he : a.expect m with
        | accept => rw [he] at hx; simp at hx
        | refuse => rfl
        | stale => rfl
      rw [hsame]
      obtain ⟨x, hxw, hok⟩ := (forall₂_get h.log i).2 m hm
      obtain ⟨who, b, ty⟩ := x
      obtain ⟨wm, harr⟩ := MsgOk.arrives hok
      have hsh := hsh who b ty wm (by rw [ho.wire]; exact hxw) (arrives_inner harr)
      cases who with
      | true =>
        have hstep : ∀ v : World, v.wire = w.wire → v.step P S (.deliver i rnd) =
            ({ v with I := applyWrites v.I (receive P rnd v.I S.nameR S.devR b ty).writes },
              .received (receive P rnd v.I S.nameR S.devR b ty).res) := by
          intro v hv
          simp only [World.step, hv, hxw]
        obtain ⟨rI, rI', hI, hI', hcI⟩ := ho.I
        obtain ⟨r0, hr0, hat⟩ := h.sessI
        rw [hI] at hr0
        injection hr0 with hr0
        subst hr0
        rw [hstep w rfl] at hag ⊢
        rw [hstep w' ho.wire]
        obtain ⟨u1, u2, u3⟩ := over_refuse P rnd w.I w'.I S.nameR S.devR b ty _ _ wm rI rI' hI hI' hcI hat.prev
          hat.party.version hat.base h.trustI ho.trustI harr (by
            simp only [if_true, older, hI'] at hsh; exact hsh) (not_ok hag hx)
        refine ⟨agree_alike hag u1, ?_⟩
        simp only [u2, u3]
        exact ho
      | false =>
        have hstep : ∀ v : World, v.wire = w.wire → v.step P S (.deliver i rnd) =
            ({ v with R := applyWrites v.R (receive P rnd v.R S.nameI S.devI b ty).writes },
              .received (receive P rnd v.R S.nameI S.devI b ty).res) := by
          intro v hv
          simp only [World.step, hv, hxw]
        rw [hstep w rfl] at hag ⊢
        rw [hstep w' ho.wire]
        simp only [Bool.false_eq_true, if_false] at hsh harr
        by_cases h0 : a.lvR = 0
        · have hlv : a.lvI = 1 := by have := h.adj; omega
          obtain ⟨hst, hopk, sr, hload, hno⟩ := ho.fresh h0
          obtain ⟨g, wm', hg', hw, hmm, hwire⟩ := hok
          have hE := h.logE m (List.mem_of_getElem? hm)
          have hep : m.epoch = 1 := by
            have h2 := hE.2.1
            have h1 := hE.1
            by_cases hpar : m.epoch % 2 = 0
            · simp [Abs.sendLevel, hpar, h0] at h2
              omega
            · simp [Abs.sendLevel, hpar, hlv] at h2
              omega
          obtain ⟨hty, pm, hlp, hv, hreg, hpid, hsid, hbk, hik, hin⟩ := hwire.2 hep
          simp only at hty hlp
          subst hty
          have hwm : pm.message = wm := by
            have := arrives_inner harr
            simp only [inner, hlp] at this
            injection this
          have hfr := h.freshR h0
          obtain ⟨n1, n2⟩ := receive_build_res P S hS.pkId.2 rnd w.R h.still hfr.2 b pm hlp hv hpid hsid hbk hik hreg {}
            (by simp [loadSession, hfr.1]) (by simp [SRecord.hasState, SState.getVersion]) {} rfl rfl
          obtain ⟨sr1, hsr1⟩ : ∃ sr1, (if sr.fresh then sr else sr.archive) = sr1 := ⟨_, rfl⟩
          obtain ⟨m1, m2⟩ := receive_build_res P S hS.pkId.2 rnd w'.R hst hopk b pm hlp hv hpid hsid hbk hik hreg sr hload
            hno sr1 hsr1 (by rw [← hsr1]; exact load_archive hload)
          have hnok := not_ok hag hx
          have hal := decryptRecord_alike P rnd { cur := firstState P S } { sr1 with cur := firstState P S } pm.message
            rfl rfl (by
              intro s hs
              rw [hwm]
              refine hsh s ?_
              rw [decide_eq_false (by simp [h0])]
              exact archived_older hload s (by rw [hsr1]; exact hs)) (by rw [← n1]; exact hnok)
          rw [← n1, ← m1] at hal
          have hnok' : ∀ pt, (receive P rnd w'.R S.nameI S.devI b .prekey).res ≠ .ok pt := by
            intro pt hpt
            rw [hpt] at hal
            cases hq : (receive P rnd w.R S.nameI S.devI b .prekey).res with
            | ok x => exact hnok x hq
            | err e => rw [hq] at hal; exact hal
            | panic => rw [hq] at hal; exact hal
          refine ⟨agree_alike hag hal, ?_⟩
          simp only [n2 hnok, m2 hnok']
          obtain ⟨q1, q2, q3, q4, q5, q6⟩ := saved_same w'.R S.nameI S.idI.pub
          refine ⟨ho.wire, ho.I, fun hh => absurd h0 hh, fun _ => ⟨⟨q6, ?_, ?_, ?_⟩, ?_, sr, ?_, hno⟩, ho.trustI, q6⟩
          · simp only [q3]; exact hst.ident
          · simp only [q4]; exact hst.reg
          · simp only [q5]; exact hst.spk
          · simp only [q2]; exact hopk
          · rw [← hload]; simp only [loadSession, q1]
        · obtain ⟨rR, rR', hR, hR', hcR⟩ := ho.R h0
          obtain ⟨r0, hr0, hat⟩ := h.sessR h0
          rw [hR] at hr0
          injection hr0 with hr0
          subst hr0
          obtain ⟨u1, u2, u3⟩ := over_refuse P rnd w.R w'.R S.nameI S.devI b ty _ _ wm rR rR' hR hR' hcR hat.prev
            hat.party.version hat.base h.trustR ho.trustR harr (by
              rw [decide_eq_true h0] at hsh
              simp only [older, hR', if_true] at hsh
              exact hsh) (not_ok hag hx)
          refine ⟨agree_alike hag u1, ?_⟩
          simp only [u2, u3]
          exact ho

theorem behind_run_all {P : Prims} {S : Setup} (hS : S.Ok P) : ∀ (evs : List Ev) (a : Abs) (w w' : World),
    Set P S a w evs → Behind P S a w w' → AllShut P S a w' evs →
    List.Forall₂ Agree (wants a evs) (World.gots P S w' evs) := by
  intro evs
  induction evs with
  | nil => intros; exact List.Forall₂.nil
  | cons ev evs ih =>
    intro a w w' h ho hsh
    obtain ⟨h1, h3⟩ := set_step hS h
    obtain ⟨G, hr, hl, _⟩ := h
    by_cases hx : a.want ev = .refused ∨ a.want ev = .stale
    · obtain ⟨h4, h5⟩ := behind_refuse hS hr ho ev hx h1 (hsh.1 hx)
      exact List.Forall₂.cons h4 (ih _ _ _ h3 h5 hsh.2)
    · have hx1 : a.want ev ≠ .refused := fun h => hx (Or.inl h)
      have hx2 : a.want ev ≠ .stale := fun h => hx (Or.inr h)
      obtain ⟨h4, h5⟩ := behind_step hS hr ho ev hl.1 hx1 hx2 (good_of_agree h1 hx1 hx2)
      exact List.Forall₂.cons (by rw [h4]; exact h1) (ih _ _ _ h3 h5 hsh.2)

theorem set_init {P : Prims} {S : Setup} {evs : List Ev} (hS : S.Ok P) (hl : Legal {} evs)
    (hk : (ratchetKeys P S evs).Nodup) (hb : evs.length < 2 ^ 32 - 1) (hf : NoForgery P S {} (World.init P S) evs) :
    Set P S {} (World.init P S) evs := by
  have hne : S.spk.pub ≠ (newPair P S.rr).pub := by
    have hk := hk
    unfold ratchetKeys at hk
    rw [List.nodup_cons] at hk
    intro h
    exact hk.1 (by rw [h]; exact List.mem_cons_self)
  refine ⟨initG P S, (init_rel hS hne).2, hl, hk, ?_, hf⟩
  show 0 + evs.length + 1 < u32
  unfold u32
  omega

theorem allShut_strangers (P : Prims) (S : Setup) (evs : List Ev) : ∀ a w, AllShut P S a w evs →
    AllShut P (strangers S) a w evs := by
  induction evs with
  | nil => intros; trivial
  | cons ev evs ih =>
    intro a w h
    have : World.step P (strangers S) w ev = World.step P S w ev := by
      cases ev with
      | send who pt => cases who <;> rfl
      | deliver i rnd => rfl
    refine ⟨?_, ?_⟩
    · intro hx
      have := h.1 hx
      cases ev with
      | send who pt => trivial
      | deliver i rnd => exact this
    · rw [this]
      exact ih _ _ h.2

end Verif.OldSessions
