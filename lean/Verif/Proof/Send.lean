import Verif.Model.Send
import Verif.Proof.Api
import Verif.Proof.Session
import Verif.Proof.Encoding
/-!
# Lemmas about the send path
-/
namespace Verif.Send
open Verif Verif.Keys Verif.Messages Verif.Session Verif.Api Verif.Names

/-! ## States that can encrypt -/

/-- `SessionEncryptMessage` succeeds on such a state. -/
structure Usable (s : SState) : Prop where
  sender : ∃ sd, s.sender = some sd ∧ sd.ck.key.length = 32 ∧ sd.pub.length = 32
  localId : s.localId.length = 32
  remoteId : s.remoteId.length = 32
  pending : ∀ p, s.pending = some p → ∃ k, deser p.baseKey = .ok k

theorem encryptState_usable (P : Prims) (s : SState) (pt : Bytes) (h : Usable s) :
    ∃ s' out ty, encryptState P s pt = .ok (s', out, ty) ∧ Usable s' := by
  obtain ⟨sd, hsd, hk, hp⟩ := h.sender
  have hlens := msgKeys_lens P sd.ck
  obtain ⟨ct, hct⟩ : ∃ ct, Cbc.Encrypt P (msgKeys P sd.ck).cipherKey (msgKeys P sd.ck).iv pt = .ok ct :=
    ⟨_, Cbc.Encrypt_ok P _ _ pt (by simp [Cbc.validKey, hlens.1]) hlens.2.2⟩
  have hu : Usable { s with sender := some { sd with ck := nextCK P sd.ck } } :=
    ⟨⟨_, rfl, by simp [nextCK, P.hmac_len], hp⟩, h.localId, h.remoteId, h.pending⟩
  unfold encryptState
  rw [hsd]
  simp only
  rw [if_neg (by simpa using hk), if_neg (by simpa using hp), hct]
  simp only [Res.ok_bind]
  rw [if_neg (by rw [h.localId, h.remoteId]; omega)]
  cases hq : s.pending with
  | none => rw [hq] at hu; exact ⟨_, _, _, rfl, hu⟩
  | some p =>
    obtain ⟨k, hk⟩ := h.pending p hq
    simp only [hk, Res.ok_bind]
    rw [hq] at hu
    exact ⟨_, _, _, rfl, hu⟩

/-- What encryption leaves alone. -/
theorem encryptState_keeps (P : Prims) (s s' : SState) (pt out : Bytes) (ty : MsgType)
    (h : encryptState P s pt = .ok (s', out, ty)) :
    s.sender ≠ none ∧ s'.remoteReg = s.remoteReg ∧ s'.remoteId = s.remoteId := by
  unfold encryptState at h
  cases hs : s.sender with
  | none => rw [hs] at h; simp at h
  | some sd =>
    rw [hs] at h
    simp only at h
    split at h
    · simp at h
    · split at h
      · simp at h
      · rw [Res.bind_eq_ok] at h
        obtain ⟨ct, _, h⟩ := h
        split at h
        · simp at h
        · cases hp : s.pending with
          | none =>
            rw [hp] at h; simp only [Res.ok.injEq, Prod.mk.injEq] at h
            rw [← h.1]; simp
          | some p =>
            rw [hp] at h
            simp only at h
            rw [Res.bind_eq_ok] at h
            obtain ⟨bk, _, h⟩ := h
            simp only [Res.ok.injEq, Prod.mk.injEq] at h
            rw [← h.1]; simp

/-- While the session is unacknowledged, messages are prekey messages. -/
theorem encryptState_prekey (P : Prims) (s s' : SState) (pt out : Bytes) (ty : MsgType)
    (h : encryptState P s pt = .ok (s', out, ty)) (hp : s.pending ≠ none) : ty = .prekey := by
  unfold encryptState at h
  cases hs : s.sender with
  | none => rw [hs] at h; simp at h
  | some sd =>
    rw [hs] at h
    simp only at h
    split at h
    · simp at h
    · split at h
      · simp at h
      · rw [Res.bind_eq_ok] at h
        obtain ⟨ct, _, h⟩ := h
        split at h
        · simp at h
        · cases hq : s.pending with
          | none => exact absurd hq hp
          | some p =>
            rw [hq] at h
            simp only at h
            rw [Res.bind_eq_ok] at h
            obtain ⟨bk, _, h⟩ := h
            simp only [Res.ok.injEq, Prod.mk.injEq] at h
            exact h.2.2.symm

theorem senderRecord_usable (P : Prims) (rb rr : Bytes) (ident : KeyPair) (reg : Nat) (b : Bundle)
    (spk : Bytes) (hb : rb.length = 32) (hr : rr.length = 32) (hi : ident.pub.length = 32)
    (hk : b.identityKey.length = 32) :
    Usable (senderRecord P rb rr {} ident reg b spk).cur := by
  have hl := createChain_lens P
  refine ⟨⟨_, rfl, (hl _ _ _).2.1, (newPair_valid P rr hr).pub_len⟩, hi, hk, ?_⟩
  intro p hp
  simp only [senderRecord, Option.some.injEq] at hp
  subst hp
  exact ⟨_, deser_ser _ (newPair_valid P rb hb).pub_len⟩

theorem senderRecord_reg (P : Prims) (rb rr : Bytes) (sr : SRecord) (ident : KeyPair) (reg : Nat) (b : Bundle)
    (spk : Bytes) : (senderRecord P rb rr sr ident reg b spk).cur.remoteReg = b.regId := rfl

/-! ## One device -/

/-- Session before the encryption: the stored one, or one built from the bundle served for `dev`. -/
inductive Origin (P : Prims) (D : DevExt) (st : Store) (recid : String) (dev : Nat) : SRecord → Prop
  | existing (r : SRecord) (h : st.sessions (sessName recid dev) = .good r) :
      Origin P D st recid dev { r with fresh := false }
  | built (reply : PkReply) (b : Bundle) (spk : Bytes) (ident : KeyPair) (reg : Nat)
      (h0 : st.sessions (sessName recid dev) = .absent) (h1 : D.prekeys dev = .ok reply)
      (h2 : makeBundle reply = .ok (dev, b)) (h3 : b.signedPreKey = some spk)
      (h4 : st.identity = some ident) (h5 : st.regId = some reg)
      (h6 : P.verify b.identityKey (ser spk) b.signature = true) :
      Origin P D st recid dev { senderRecord P D.rb D.rr {} ident reg b spk with fresh := false }

/-- A failing or absent session state: encryption does not succeed. -/
theorem encryptState_empty (P : Prims) (pt : Bytes) : encryptState P {} pt = .panic := rfl

theorem loadSession_congr {st st' : Store} {rec : String} {dev : Nat}
    (h : st.sessions (sessName rec dev) = st'.sessions (sessName rec dev)) :
    loadSession st rec dev = loadSession st' rec dev := by
  unfold loadSession; rw [h]

structure SameKeys (st st' : Store) : Prop where
  identity : st'.identity = st.identity
  regId : st'.regId = st.regId
  trust : st'.alwaysTrust = st.alwaysTrust

theorem SameKeys.refl (st : Store) : SameKeys st st := ⟨rfl, rfl, rfl⟩
theorem SameKeys.trans {a b c : Store} (h : SameKeys a b) (h' : SameKeys b c) : SameKeys a c :=
  ⟨h'.identity.trans h.identity, h'.regId.trans h.regId, h'.trust.trans h.trust⟩

theorem buildOne_ok (P : Prims) (D : DevExt) (st st2 : Store) (recid : String) (dev : Nat) (pt : Bytes)
    (m : JMsg) (h : buildOne P D st recid dev pt = (st2, .ok m)) :
    ∃ r s' ct ty, Origin P D st recid dev r ∧ encryptState P r.cur pt = .ok (s', ct, ty) ∧
      m = ⟨typeNum ty, dev, s'.remoteReg, Encoding.b64Encode ct⟩ ∧
      (∀ n, st2.sessions n = if n = sessName recid dev then .good { r with cur := s', fresh := false }
        else st.sessions n) ∧ SameKeys st st2 := by
  -- the encryption step, from any store that has a session for `dev`
  have enc : ∀ (st1 : Store) (r : SRecord), st1.sessions (sessName recid dev) = .good r →
      (match (encryptMsg P D.env st1 recid dev pt).res with
        | .err e => (applyWrites st1 (encryptMsg P D.env st1 recid dev pt).writes, .err e)
        | .panic => (applyWrites st1 (encryptMsg P D.env st1 recid dev pt).writes, .panic)
        | .ok (ct, ty) =>
          match remoteRegId (applyWrites st1 (encryptMsg P D.env st1 recid dev pt).writes) recid dev with
          | .err e => (applyWrites st1 (encryptMsg P D.env st1 recid dev pt).writes, .err e)
          | .panic => (applyWrites st1 (encryptMsg P D.env st1 recid dev pt).writes, .panic)
          | .ok rr => (applyWrites st1 (encryptMsg P D.env st1 recid dev pt).writes,
              .ok ⟨typeNum ty, dev, rr, Encoding.b64Encode ct⟩) : Store × Res JMsg) = (st2, .ok m) →
      ∃ s' ct ty, encryptState P r.cur pt = .ok (s', ct, ty) ∧
        m = ⟨typeNum ty, dev, s'.remoteReg, Encoding.b64Encode ct⟩ ∧
        (∀ n, st2.sessions n = if n = sessName recid dev then .good { r with cur := s', fresh := false }
          else st1.sessions n) ∧ SameKeys st1 st2 := by
    intro st1 r hr he
    rcases encryptMsg_cases P D.env st1 recid dev pt with ⟨_, hn⟩ | ⟨sr, s', out, ty, hl, hs, _, ho⟩
    · cases hres : (encryptMsg P D.env st1 recid dev pt).res with
      | ok x => exact absurd hres (hn x)
      | err e => rw [hres] at he; simp at he
      | panic => rw [hres] at he; simp at he
    · have hsr : sr = { r with fresh := false } := by
        unfold loadSession at hl; rw [hr] at hl; simpa using hl.symm
      rw [ho] at he
      simp only [applyWrites_cons, applyWrites_nil] at he
      have hreg : remoteRegId (applyWrite st1 (.storeSession recid dev { sr with cur := s' })) recid dev
          = .ok s'.remoteReg := by
        simp [remoteRegId, loadSession, applyWrite]
      rw [hreg] at he
      simp only [Prod.mk.injEq, Res.ok.injEq] at he
      refine ⟨s', out, ty, by rw [hsr] at hs; exact hs, he.2.symm, ?_, ?_⟩
      · intro n; rw [← he.1, hsr]; rfl
      · rw [← he.1]; exact ⟨rfl, rfl, rfl⟩
  unfold buildOne at h
  unfold ensureSession at h
  cases hc : st.sessions (sessName recid dev) with
  | good r =>
    have : containsSession st recid dev = true := by simp [containsSession, hc]
    rw [if_pos this] at h
    simp only at h
    obtain ⟨s', ct, ty, h1, h2, h3, h4⟩ := enc st r hc h
    exact ⟨_, s', ct, ty, .existing r hc, h1, h2, h3, h4⟩
  | badProto =>
    have : containsSession st recid dev = true := by simp [containsSession, hc]
    rw [if_pos this] at h
    simp [encryptMsg, loadSession, hc] at h
  | unreadable =>
    have : containsSession st recid dev = true := by simp [containsSession, hc]
    rw [if_pos this] at h
    simp [encryptMsg, loadSession, hc, encryptState_empty] at h
  | absent =>
    have : ¬ containsSession st recid dev = true := by simp [containsSession, hc]
    rw [if_neg this] at h
    cases hpk : D.prekeys dev with
    | err e => rw [hpk] at h; simp at h
    | panic => rw [hpk] at h; simp at h
    | ok reply =>
      rw [hpk] at h
      simp only at h
      cases hmb : makeBundle reply with
      | err e => rw [hmb] at h; simp at h
      | panic => rw [hmb] at h; simp at h
      | ok x =>
        obtain ⟨bdev, b⟩ := x
        rw [hmb] at h
        simp only at h
        rcases buildSender_cases P D.env st D.rb D.rr recid bdev b with
          ⟨_, hn⟩ | ⟨_, _, spk, sr, ident, reg, hspk, hver, hl, hid, hrg, ho⟩
        · cases hres : (buildSender P D.env st D.rb D.rr recid bdev b).res with
          | ok x => exact absurd hres hn
          | err e => rw [hres] at h; simp at h
          | panic => rw [hres] at h; simp at h
        · cases hsv : D.env.saveOk with
          | false => rw [hsv] at ho; rw [ho] at h; simp at h
          | true =>
            rw [hsv] at ho
            simp only [Bool.true_eq_false, if_false] at ho
            rw [ho] at h
            simp only at h
            obtain ⟨st1, hst1⟩ : ∃ st1, st1 = applyWrites st
              [.storeSession recid bdev (senderRecord P D.rb D.rr sr ident reg b spk),
               .saveIdentity recid b.identityKey] := ⟨_, rfl⟩
            rw [← hst1] at h
            have hsess : ∀ n, st1.sessions n = if n = sessName recid bdev then
                .good { senderRecord P D.rb D.rr sr ident reg b spk with fresh := false }
                else st.sessions n := by
              intro n; rw [hst1]; rfl
            by_cases hbd : bdev = dev
            · subst hbd
              have hsr : sr = {} := by
                unfold loadSession at hl; rw [hc] at hl; simpa using hl.symm
              subst hsr
              obtain ⟨s', ct, ty, h1, h2, h3, h4⟩ := enc st1 _ (by rw [hsess, if_pos rfl]) h
              refine ⟨_, s', ct, ty, .built reply b spk ident reg hc hpk hmb hspk hid hrg hver, h1, h2, ?_, ?_⟩
              · intro n
                rw [h3 n]
                split
                · rfl
                · rename_i hne; rw [hsess, if_neg hne]
              · exact SameKeys.trans ⟨by rw [hst1]; rfl, by rw [hst1]; rfl, by rw [hst1]; rfl⟩ h4
            · have hab : st1.sessions (sessName recid dev) = .absent := by
                rw [hsess, if_neg (fun he => hbd (sessName_inj he).2.symm), hc]
              simp [encryptMsg, loadSession, hab, encryptState_empty] at h

/-! ## All devices -/

theorem buildLoop_ok (P : Prims) (D : Nat → DevExt) (recid : String) (pt : Bytes) (devs : List Nat) :
    ∀ (i : Nat) (st st2 : Store) (ms : List JMsg), buildLoop P D recid pt i devs st = (st2, .ok ms) →
      ms.map JMsg.dev = devs ∧ SameKeys st st2 ∧
      (∀ n, (∀ d ∈ devs, n ≠ sessName recid d) → st2.sessions n = st.sessions n) := by
  induction devs with
  | nil =>
    intro i st st2 ms h
    simp only [buildLoop, Prod.mk.injEq, Res.ok.injEq] at h
    rw [← h.1, ← h.2]
    exact ⟨rfl, .refl _, fun _ _ => rfl⟩
  | cons d devs ih =>
    intro i st st2 ms h
    unfold buildLoop at h
    rcases hb : buildOne P (D i) st recid d pt with ⟨st1, r⟩
    rw [hb] at h
    cases r with
    | err e => simp at h
    | panic => simp at h
    | ok m =>
      simp only at h
      rcases hl : buildLoop P D recid pt (i + 1) devs st1 with ⟨st3, r⟩
      rw [hl] at h
      cases r with
      | err e => simp at h
      | panic => simp at h
      | ok ms' =>
        simp only [Prod.mk.injEq, Res.ok.injEq] at h
        obtain ⟨h1, h2⟩ := h
        subst h1; subst h2
        obtain ⟨e1, e2, e3⟩ := ih _ _ _ _ hl
        obtain ⟨r, s', ct, ty, ho, hs, hm, hst, hk⟩ := buildOne_ok P (D i) st st1 recid d pt m hb
        refine ⟨by simp [e1, hm], hk.trans e2, ?_⟩
        intro n hn
        rw [e3 n (fun x hx => hn x (List.mem_cons_of_mem _ hx)), hst n, if_neg (hn d List.mem_cons_self)]

theorem buildMessage_inv (P : Prims) (D : Nat → DevExt) (st st2 : Store) (receiver : String) (pt : Bytes)
    (devs : List Nat) (ms : List JMsg) (h : buildMessage P D st receiver pt devs = (st2, .ok ms)) :
    ∃ recid, Receive.recID receiver = .ok recid ∧ buildLoop P D recid pt 0 devs st = (st2, .ok ms) := by
  unfold buildMessage at h
  cases hr : Receive.recID receiver with
  | err e => rw [hr] at h; simp at h
  | panic => rw [hr] at h; simp at h
  | ok recid => rw [hr] at h; exact ⟨recid, rfl, h⟩

theorem Origin.congr {P : Prims} {D : DevExt} {st st' : Store} {recid : String} {dev : Nat} {r : SRecord}
    (h : Origin P D st recid dev r)
    (hs : st'.sessions (sessName recid dev) = st.sessions (sessName recid dev)) (hk : SameKeys st st') :
    Origin P D st' recid dev r := by
  cases h with
  | existing r h => exact .existing r (hs.trans h)
  | built reply b spk ident reg h0 h1 h2 h3 h4 h5 h6 =>
    exact .built reply b spk ident reg (hs.trans h0) h1 h2 h3 (hk.identity.trans h4) (hk.regId.trans h5) h6

theorem buildLoop_entry (P : Prims) (D : Nat → DevExt) (recid : String) (pt : Bytes) (devs : List Nat) :
    ∀ (i : Nat) (st st2 : Store) (ms : List JMsg), devs.Nodup →
      buildLoop P D recid pt i devs st = (st2, .ok ms) →
      ∀ j d, devs[j]? = some d → ∃ r s' ct ty, Origin P (D (i + j)) st recid d r ∧
        encryptState P r.cur pt = .ok (s', ct, ty) ∧
        ms[j]? = some ⟨typeNum ty, d, s'.remoteReg, Encoding.b64Encode ct⟩ ∧
        st2.sessions (sessName recid d) = .good { r with cur := s', fresh := false } := by
  induction devs with
  | nil => intro i st st2 ms _ _ j d hd; simp at hd
  | cons a devs ih =>
    intro i st st2 ms hnd h j d hj
    rw [List.nodup_cons] at hnd
    unfold buildLoop at h
    rcases hb : buildOne P (D i) st recid a pt with ⟨st1, r⟩
    rw [hb] at h
    cases r with
    | err e => simp at h
    | panic => simp at h
    | ok m =>
      simp only at h
      rcases hl : buildLoop P D recid pt (i + 1) devs st1 with ⟨st3, r⟩
      rw [hl] at h
      cases r with
      | err e => simp at h
      | panic => simp at h
      | ok ms' =>
        simp only [Prod.mk.injEq, Res.ok.injEq] at h
        obtain ⟨h1, h2⟩ := h
        subst h1; subst h2
        obtain ⟨r, s', ct, ty, ho, hs, hm, hst, hk⟩ := buildOne_ok P (D i) st st1 recid a pt m hb
        obtain ⟨e1, e2, e3⟩ := buildLoop_ok P D recid pt devs _ _ _ _ hl
        cases j with
        | zero =>
          simp only [List.getElem?_cons_zero, Option.some.injEq] at hj
          subst hj
          refine ⟨r, s', ct, ty, ho, hs, by simp [hm], ?_⟩
          have hne : ∀ x ∈ devs, sessName recid a ≠ sessName recid x := by
            intro x hx he
            have := (sessName_inj he).2
            subst this
            exact hnd.1 hx
          rw [e3 _ hne, hst, if_pos rfl]
        | succ j =>
          simp only [List.getElem?_cons_succ] at hj
          obtain ⟨r', s'', ct', ty', ho', hs', hm', hst'⟩ := ih _ _ _ _ hnd.2 hl j d hj
          have hne : sessName recid d ≠ sessName recid a := by
            intro he
            exact hnd.1 ((sessName_inj he).2 ▸ List.mem_of_getElem? hj)
          refine ⟨r', s'', ct', ty', ?_, hs', by simpa using hm', hst'⟩
          have := ho'.congr (st' := st) (by rw [hst, if_neg hne])
            ⟨hk.identity.symm, hk.regId.symm, hk.trust.symm⟩
          rwa [show i + (j + 1) = i + 1 + j by omega]

/-- A device without session for which there are no prekeys: the message is not built. -/
theorem buildLoop_blocked (P : Prims) (D : Nat → DevExt) (recid : String) (pt : Bytes) (d : Nat)
    (hp : ∀ i, ∃ e, (D i).prekeys d = .err e) (devs : List Nat) :
    ∀ (i : Nat) (st st2 : Store) (ms : List JMsg), d ∈ devs →
      st.sessions (sessName recid d) = .absent →
      buildLoop P D recid pt i devs st ≠ (st2, .ok ms) := by
  induction devs with
  | nil => intro i st st2 ms hd; simp at hd
  | cons a devs ih =>
    intro i st st2 ms hd hs h
    unfold buildLoop at h
    rcases hb : buildOne P (D i) st recid a pt with ⟨st1, r⟩
    rw [hb] at h
    cases r with
    | err e => simp at h
    | panic => simp at h
    | ok m =>
      simp only at h
      obtain ⟨r, s', ct, ty, ho, _, _, hst, _⟩ := buildOne_ok P (D i) st st1 recid a pt m hb
      by_cases had : d = a
      · subst had
        obtain ⟨e, he⟩ := hp i
        cases ho with
        | existing r hx => rw [hs] at hx; cases hx
        | built reply b spk ident reg h0 h1 => rw [he] at h1; cases h1
      · rcases hl : buildLoop P D recid pt (i + 1) devs st1 with ⟨st3, r⟩
        rw [hl] at h
        cases r with
        | err e => simp at h
        | panic => simp at h
        | ok ms' =>
          refine ih (i + 1) st1 st3 ms' ((List.mem_cons.mp hd).resolve_left had) ?_ hl
          rw [hst, if_neg (fun he => had (sessName_inj he).2), hs]

/-! ## Success -/

/-- The prekey server serves, for every registered device, a bundle of that device with a valid
signature under the recipient's identity key and the device's current registration id. -/
def Serves (P : Prims) (D : DevExt) (R : List Nat) (ik : Bytes) (reg : Nat → Nat) : Prop :=
  ∀ d ∈ R, ∃ reply b spk, D.prekeys d = .ok reply ∧ makeBundle reply = .ok (d, b) ∧
    b.signedPreKey = some spk ∧ P.verify b.identityKey (ser spk) b.signature = true ∧
    b.identityKey = ik ∧ b.regId = reg d

/-- Nothing fails locally. -/
structure Works (D : DevExt) : Prop where
  rb : D.rb.length = 32
  rr : D.rr.length = 32
  store : D.env.storeOk = true
  save : D.env.saveOk = true

/-- Sessions of the devices in `S` are usable, or absent and the device registered. -/
def Ready (st : Store) (recid : String) (R : List Nat) (S : Nat → Prop) : Prop :=
  ∀ d, S d → (∃ r, st.sessions (sessName recid d) = .good r ∧ Usable r.cur) ∨
    (st.sessions (sessName recid d) = .absent ∧ d ∈ R)

/-- Own keys present, and the recipient's identity key trusted. -/
structure Trusting (st : Store) (recid : String) (ik : Bytes) : Prop where
  ident : ∃ k : KeyPair, st.identity = some k ∧ k.pub.length = 32
  reg : ∃ r, st.regId = some r
  trust : isTrusted st recid ik = true

/-- Registration id a message to `d` would carry. -/
def regAt (reg : Nat → Nat) (st : Store) (recid : String) (d : Nat) : Nat :=
  match st.sessions (sessName recid d) with
  | .good r => r.cur.remoteReg
  | _ => reg d

/-- What a successful build preserves. -/
structure Kept (reg : Nat → Nat) (recid : String) (ik : Bytes) (R : List Nat) (st st2 : Store) : Prop where
  trusting : Trusting st2 recid ik
  ready : ∀ S, Ready st recid R S → Ready st2 recid R S
  regs : ∀ d, regAt reg st2 recid d = regAt reg st recid d

theorem buildOne_succeeds (P : Prims) (D : DevExt) (st : Store) (recid : String) (R : List Nat) (ik : Bytes)
    (reg : Nat → Nat) (d : Nat) (pt : Bytes) (hik : ik.length = 32) (hw : Works D)
    (hsv : Serves P D R ik reg) (hr : Ready st recid R (· = d)) (ht : Trusting st recid ik) :
    ∃ st2 m, buildOne P D st recid d pt = (st2, .ok m) ∧ m.dev = d ∧ m.regId = regAt reg st recid d ∧
      Kept reg recid ik R st st2 := by
  -- encryption with a usable session
  have enc : ∀ (st1 : Store) (r : SRecord), st1.sessions (sessName recid d) = .good r → Usable r.cur →
      ∃ s' out ty, Usable s' ∧ s'.remoteReg = r.cur.remoteReg ∧
        encryptMsg P D.env st1 recid d pt =
          ⟨[.storeSession recid d { r with cur := s', fresh := false }], .ok (out, ty)⟩ := by
    intro st1 r h1 h2
    obtain ⟨s', out, ty, he, hu⟩ := encryptState_usable P r.cur pt h2
    refine ⟨s', out, ty, hu, (encryptState_keeps P _ _ _ _ _ he).2.1, ?_⟩
    simp [encryptMsg, loadSession, h1, he, storeSession, hw.store]
  have fin : ∀ (st1 : Store) (r : SRecord), st1.sessions (sessName recid d) = .good r → Usable r.cur →
      Trusting st1 recid ik → ensureSession P D st recid d = (st1, .ok ()) →
      r.cur.remoteReg = regAt reg st recid d →
      (∀ n, n ≠ sessName recid d → st1.sessions n = st.sessions n) →
      ∃ st2 m, buildOne P D st recid d pt = (st2, .ok m) ∧ m.dev = d ∧ m.regId = regAt reg st recid d ∧
        Kept reg recid ik R st st2 := by
    intro st1 r h1 h2 h3 h4 h5 h6
    obtain ⟨s', out, ty, hu, hrr, he⟩ := enc st1 r h1 h2
    obtain ⟨st2, hst2⟩ : ∃ st2, st2 = applyWrites st1
      [.storeSession recid d { r with cur := s', fresh := false }] := ⟨_, rfl⟩
    have hs2 : ∀ n, st2.sessions n = if n = sessName recid d then
        .good { r with cur := s', fresh := false } else st1.sessions n := by
      intro n; rw [hst2]; rfl
    have hreg : remoteRegId st2 recid d = .ok s'.remoteReg := by
      simp [remoteRegId, loadSession, hs2]
    refine ⟨st2, ⟨typeNum ty, d, s'.remoteReg, Encoding.b64Encode out⟩, ?_, rfl, hrr.trans h5, ?_, ?_, ?_⟩
    · unfold buildOne
      rw [h4]
      simp only
      rw [he]
      simp only
      rw [← hst2, hreg]
    · obtain ⟨a, b, c⟩ := h3
      rw [hst2]
      exact ⟨a, b, c⟩
    · intro S hS x hx
      by_cases hxd : x = d
      · subst hxd
        left
        exact ⟨_, by rw [hs2, if_pos rfl], hu⟩
      · have hne : sessName recid x ≠ sessName recid d := fun h => hxd (sessName_inj h).2
        rw [hs2, if_neg hne, h6 _ hne]
        exact hS x hx
    · intro x
      by_cases hxd : x = d
      · subst hxd
        rw [← h5, ← hrr]
        unfold regAt
        rw [hs2, if_pos rfl]
      · have hne : sessName recid x ≠ sessName recid d := fun h => hxd (sessName_inj h).2
        unfold regAt
        rw [hs2, if_neg hne, h6 _ hne]
  rcases hr d rfl with ⟨r, h1, h2⟩ | ⟨h1, h2⟩
  · refine fin st r h1 h2 ht ?_ ?_ (fun _ _ => rfl)
    · unfold ensureSession; rw [if_pos (by simp [containsSession, h1])]
    · unfold regAt; rw [h1]
  · obtain ⟨reply, b, spk, hpk, hmb, hspk, hver, hbik, hbreg⟩ := hsv d h2
    obtain ⟨ident, hid, hidl⟩ := ht.ident
    obtain ⟨rg, hrg⟩ := ht.reg
    have hbs : buildSender P D.env st D.rb D.rr recid d b =
        ⟨[.storeSession recid d (senderRecord P D.rb D.rr {} ident rg b spk),
          .saveIdentity recid b.identityKey], .ok ()⟩ := by
      unfold buildSender
      rw [if_neg (by rw [hbik, ht.trust]; simp)]
      simp [hspk, hver, loadSession, h1, hid, hrg, hw.store, hw.save]
    refine fin (applyWrites st [.storeSession recid d (senderRecord P D.rb D.rr {} ident rg b spk),
          .saveIdentity recid b.identityKey])
        { senderRecord P D.rb D.rr {} ident rg b spk with fresh := false } ?_ ?_ ?_ ?_ ?_ ?_
    · simp [applyWrites_cons, applyWrites_nil, applyWrite]
    · exact senderRecord_usable P D.rb D.rr ident rg b spk hw.rb hw.rr hidl (by rw [hbik]; exact hik)
    · refine ⟨⟨ident, hid, hidl⟩, ⟨rg, hrg⟩, ?_⟩
      simp [applyWrites_cons, applyWrites_nil, applyWrite, isTrusted, hbik]
    · unfold ensureSession
      rw [if_neg (by simp [containsSession, h1]), hpk]
      simp only
      rw [hmb]
      simp only
      rw [hbs]
    · unfold regAt
      rw [h1]
      exact hbreg
    · intro n hn
      simp [applyWrites_cons, applyWrites_nil, applyWrite, hn]

theorem buildLoop_succeeds (P : Prims) (D : Nat → DevExt) (recid : String) (R : List Nat) (ik : Bytes)
    (reg : Nat → Nat) (pt : Bytes) (hik : ik.length = 32) (hw : ∀ i, Works (D i))
    (hsv : ∀ i, Serves P (D i) R ik reg) (devs : List Nat) :
    ∀ (i : Nat) (st : Store), Ready st recid R (· ∈ devs) → Trusting st recid ik →
    ∃ st2 ms, buildLoop P D recid pt i devs st = (st2, .ok ms) ∧ ms.map JMsg.dev = devs ∧
      (∀ m ∈ ms, m.regId = regAt reg st recid m.dev) ∧ Kept reg recid ik R st st2 := by
  induction devs with
  | nil =>
    intro i st _ ht
    exact ⟨st, [], rfl, rfl, by simp, ⟨ht, fun _ h => h, fun _ => rfl⟩⟩
  | cons d devs ih =>
    intro i st hr ht
    obtain ⟨st1, m, hb, hm, hmr, hk⟩ := buildOne_succeeds P (D i) st recid R ik reg d pt hik (hw i) (hsv i)
      (fun x hx => hr x (by rw [hx]; exact List.mem_cons_self)) ht
    obtain ⟨st2, ms, hl, hms, hmsr, hk'⟩ := ih (i + 1) st1
      (hk.ready _ (fun x hx => hr x (List.mem_cons_of_mem _ hx))) hk.trusting
    refine ⟨st2, m :: ms, ?_, by simp [hm, hms], ?_, ⟨hk'.trusting, fun S h => hk'.ready S (hk.ready S h),
      fun x => (hk'.regs x).trans (hk.regs x)⟩⟩
    · unfold buildLoop; rw [hb]; simp only; rw [hl]
    · intro x hx
      rcases List.mem_cons.mp hx with rfl | hx
      · rw [hmr, hm]
      · rw [hmsr x hx, hk.regs]

/-! ## Deleting stale sessions -/

theorem dropStale_sessions (recid : String) (l : List Nat) : ∀ (st : Store) (n : Name),
    (dropStale st recid l).sessions n = if ∃ d ∈ l, n = sessName recid d then .absent else st.sessions n := by
  unfold dropStale
  induction l with
  | nil => intro st n; simp
  | cons a l ih =>
    intro st n
    rw [List.foldl_cons, ih]
    by_cases h1 : ∃ d ∈ l, n = sessName recid d
    · obtain ⟨d, hd, rfl⟩ := h1
      rw [if_pos ⟨d, hd, rfl⟩, if_pos ⟨d, List.mem_cons_of_mem _ hd, rfl⟩]
    · rw [if_neg h1]
      by_cases h2 : n = sessName recid a
      · rw [if_pos ⟨a, List.mem_cons_self, h2⟩]
        simp [deleteSession, h2]
      · rw [if_neg (by
          rintro ⟨d, hd, rfl⟩
          rcases List.mem_cons.mp hd with rfl | hd
          · exact h2 rfl
          · exact h1 ⟨d, hd, rfl⟩)]
        simp [deleteSession, h2]

theorem dropStale_keys (recid : String) (l : List Nat) : ∀ (st : Store),
    SameKeys st (dropStale st recid l) ∧ (dropStale st recid l).identities = st.identities := by
  unfold dropStale
  induction l with
  | nil => intro st; exact ⟨.refl _, rfl⟩
  | cons a l ih =>
    intro st
    rw [List.foldl_cons]
    exact ⟨SameKeys.trans (b := deleteSession st recid a) ⟨rfl, rfl, rfl⟩ (ih _).1, by rw [(ih _).2]; rfl⟩

theorem dropStale_ready (recid : String) (R l : List Nat) (st : Store) (S : Nat → Prop)
    (h : Ready st recid R S) (hl : ∀ d ∈ l, d ∈ R) : Ready (dropStale st recid l) recid R S := by
  intro d hd
  rw [dropStale_sessions]
  by_cases hx : ∃ x ∈ l, sessName recid d = sessName recid x
  · rw [if_pos hx]
    obtain ⟨x, hx, he⟩ := hx
    exact .inr ⟨rfl, (sessName_inj he).2 ▸ hl x hx⟩
  · rw [if_neg hx]; exact h d hd

theorem dropStale_trusting (recid : String) (l : List Nat) (st : Store) (ik : Bytes)
    (h : Trusting st recid ik) : Trusting (dropStale st recid l) recid ik := by
  obtain ⟨hk, hi⟩ := dropStale_keys recid l st
  refine ⟨by rw [hk.identity]; exact h.ident, by rw [hk.regId]; exact h.reg, ?_⟩
  have := h.trust
  unfold isTrusted at this ⊢
  rw [hk.trust, hi]; exact this

theorem dropStale_regAt (reg : Nat → Nat) (recid : String) (l : List Nat) (st : Store) (d : Nat) :
    regAt reg (dropStale st recid l) recid d = if d ∈ l then reg d else regAt reg st recid d := by
  unfold regAt
  rw [dropStale_sessions]
  by_cases hd : d ∈ l
  · rw [if_pos ⟨d, hd, rfl⟩, if_pos hd]
  · rw [if_neg (by rintro ⟨x, hx, he⟩; exact hd ((sessName_inj he).2 ▸ hx)), if_neg hd]

end Verif.Send
