import Verif.Spec.Clients
import Verif.Proof.Conversation
import Verif.Proof.Encoding
import Verif.Props.Symmetric
/-!
# Two clients refine the abstract conversation
-/
namespace Verif.Clients
open Verif Verif.Keys Verif.Messages Verif.Session Verif.Api Verif.Conv

/-! ## Sending -/

theorem recID_self {n : String} (h0 : n ≠ "") (h1 : n.toList.head? ≠ some '+') :
    Receive.recID n = .ok n := by
  unfold Receive.recID
  split
  · rename_i he
    exact absurd (String.ext (by simpa using he)) h0
  · rename_i t he
    simp [he] at h1
  · rfl

/-! ### What does not concern a conversation -/

/-- `Apart`, and the prekeys are the same. -/
structure Aside (n : String) (dev : Nat) (k : Bytes) (a b : Store) : Prop extends Apart n dev k a b where
  preKeys : b.preKeys = a.preKeys
  signedPreKeys : b.signedPreKeys = a.signedPreKeys

theorem Aside.refl (n : String) (dev : Nat) (k : Bytes) (a : Store) : Aside n dev k a a :=
  ⟨⟨rfl, id, id, rfl, rfl⟩, rfl, rfl⟩

theorem Apart.trans {n : String} {dev : Nat} {k : Bytes} {a b c : Store} (h : Apart n dev k a b)
    (h' : Apart n dev k b c) : Apart n dev k a c :=
  ⟨h'.session.trans h.session, fun x => h'.trust (h.trust x), fun x => h'.saved (h.saved x),
   h'.identity.trans h.identity, h'.regId.trans h.regId⟩

theorem Aside.trans {n : String} {dev : Nat} {k : Bytes} {a b c : Store} (h : Aside n dev k a b)
    (h' : Aside n dev k b c) : Aside n dev k a c :=
  ⟨h.toApart.trans h'.toApart, h'.preKeys.trans h.preKeys, h'.signedPreKeys.trans h.signedPreKeys⟩

/-- A write to other files of sessions and identities. -/
def WriteAside (n : String) (dev : Nat) (k : Bytes) : Write → Prop
  | .saveIdentity n' k' => n' ≠ n ∨ k' = k
  | .removePreKey _ => False
  | .storeSession n' d' _ => n' ≠ n ∨ d' ≠ dev

theorem writes_aside (n : String) (dev : Nat) (k : Bytes) (ws : List Write) : ∀ st : Store,
    (∀ x ∈ ws, WriteAside n dev k x) → Aside n dev k st (applyWrites st ws) := by
  induction ws with
  | nil => intro st _; exact Aside.refl n dev k st
  | cons x ws ih =>
    intro st h
    refine Aside.trans ?_ (ih (applyWrite st x) (fun y hy => h y (List.mem_cons_of_mem _ hy)))
    have hx := h x List.mem_cons_self
    cases x with
    | removePreKey i => exact hx.elim
    | saveIdentity n' k' =>
      refine ⟨⟨rfl, ?_, ?_, rfl, rfl⟩, rfl, rfl⟩
      · intro ht
        unfold isTrusted at ht ⊢
        simp only [applyWrite]
        by_cases hn : n = n'
        · rcases hx with hx | hx
          · exact absurd hn.symm hx
          · rw [if_pos hn, hx]; simp
        · rw [if_neg hn]; exact ht
      · intro ht
        simp only [applyWrite]
        by_cases hn : n = n'
        · rcases hx with hx | hx
          · exact absurd hn.symm hx
          · rw [if_pos hn, hx]
        · rw [if_neg hn]; exact ht
    | storeSession n' d' r =>
      refine ⟨⟨?_, id, id, rfl, rfl⟩, rfl, rfl⟩
      simp only [applyWrite]
      rw [if_neg]
      intro he
      obtain ⟨h1, h2⟩ := Names.sessName_inj he
      rcases hx with hx | hx
      · exact hx h1.symm
      · exact hx h2.symm

/-- Sending to device `d` of `recid` does not concern the conversation with device `dev` of `n`. -/
def SendAside (n : String) (dev : Nat) (k : Bytes) (D : Send.DevExt) (recid : String) (d : Nat) : Prop :=
  recid ≠ n ∨ (d ≠ dev ∧ ∀ r bd b, D.prekeys d = .ok r → Send.makeBundle r = .ok (bd, b) →
    bd = d ∧ b.identityKey = k)

theorem ensure_aside (P : Prims) (n : String) (dev : Nat) (k : Bytes) (D : Send.DevExt) (st : Store) (recid : String)
    (d : Nat) (h : SendAside n dev k D recid d) : Aside n dev k st (Send.ensureSession P D st recid d).1 := by
  unfold Send.ensureSession
  split
  · exact Aside.refl n dev k st
  · split
    · exact Aside.refl n dev k st
    · exact Aside.refl n dev k st
    · rename_i r hr
      split
      · exact Aside.refl n dev k st
      · exact Aside.refl n dev k st
      · rename_i bd b hb
        refine writes_aside n dev k _ st ?_
        have hk : recid ≠ n ∨ bd ≠ dev ∧ b.identityKey = k := by
          rcases h with h | ⟨h1, h2⟩
          · exact Or.inl h
          · obtain ⟨h3, h4⟩ := h2 r bd b hr hb
            exact Or.inr ⟨by rw [h3]; exact h1, h4⟩
        rcases buildSender_cases P D.env st D.rb D.rr recid bd b with ⟨hw, _⟩ | ⟨_, _, _, _, _, _, _, _, _, _, _, hw⟩
        · rw [hw]; intro x hx; cases hx
        · rw [hw]
          have h1 : ∀ r, WriteAside n dev k (.storeSession recid bd r) := fun _ => hk.imp id And.left
          have h2 : WriteAside n dev k (.saveIdentity recid b.identityKey) := hk.imp id And.right
          split <;> simp [h1, h2]

theorem encrypt_aside (P : Prims) (n : String) (dev : Nat) (k : Bytes) (env : Env) (st : Store) (recid : String)
    (d : Nat) (pt : Bytes) (h : recid ≠ n ∨ d ≠ dev) :
    Aside n dev k st (applyWrites st (encryptMsg P env st recid d pt).writes) := by
  refine writes_aside n dev k _ st ?_
  rcases encryptMsg_cases P env st recid d pt with ⟨hw, _⟩ | ⟨_, _, _, _, _, _, _, hw⟩
  · rw [hw]; intro x hx; cases hx
  · rw [hw]
    intro x hx
    rw [List.mem_singleton.mp hx]
    exact h

theorem buildOne_aside (P : Prims) (n : String) (dev : Nat) (k : Bytes) (D : Send.DevExt) (st : Store) (recid : String)
    (d : Nat) (pt : Bytes) (h : SendAside n dev k D recid d) :
    Aside n dev k st (Send.buildOne P D st recid d pt).1 := by
  have h1 := ensure_aside P n dev k D st recid d h
  unfold Send.buildOne
  rcases he : Send.ensureSession P D st recid d with ⟨st1, r⟩
  rw [he] at h1
  cases r with
  | err e => exact h1
  | panic => exact h1
  | ok u =>
    have h2 := h1.trans (encrypt_aside P n dev k D.env st1 recid d pt (h.imp id And.left))
    simp only
    split
    · exact h2
    · exact h2
    · split <;> exact h2

theorem buildLoop_aside (P : Prims) (n : String) (dev : Nat) (k : Bytes) (D : Nat → Send.DevExt) (recid : String)
    (pt : Bytes) (devs : List Nat) : ∀ (i : Nat) (st : Store),
    (∀ j d, devs[j]? = some d → SendAside n dev k (D (i + j)) recid d) →
    Aside n dev k st (Send.buildLoop P D recid pt i devs st).1 := by
  induction devs with
  | nil => intro i st _; exact Aside.refl n dev k st
  | cons d devs ih =>
    intro i st h
    have h1 := buildOne_aside P n dev k (D i) st recid d pt (h 0 d rfl)
    unfold Send.buildLoop
    rcases he : Send.buildOne P (D i) st recid d pt with ⟨st1, r⟩
    rw [he] at h1
    cases r with
    | err e => exact h1
    | panic => exact h1
    | ok m =>
      have h2 := h1.trans (ih (i + 1) st1 (fun j d' hj => by
        have := h (j + 1) d' (by simpa using hj)
        rwa [show i + 1 + j = i + (j + 1) by omega]))
      simp only
      rcases he2 : Send.buildLoop P D recid pt (i + 1) devs st1 with ⟨st2, r2⟩
      rw [he2] at h2
      cases r2 <;> exact h2

theorem dropStale_aside (n : String) (dev : Nat) (k : Bytes) (recid : String) (l : List Nat) : ∀ (st : Store),
    recid ≠ n → Aside n dev k st (Send.dropStale st recid l) := by
  induction l with
  | nil => intro st _; exact Aside.refl n dev k st
  | cons d l ih =>
    intro st h
    refine Aside.trans ?_ (ih (deleteSession st recid d) h)
    refine ⟨⟨?_, id, id, rfl, rfl⟩, rfl, rfl⟩
    simp only [deleteSession]
    rw [if_neg]
    intro he
    exact h (Names.sessName_inj he).1.symm

/-- A whole exchange with another account. -/
theorem sendLoop_aside (P : Prims) (n : String) (dev : Nat) (k : Bytes) (D : Nat → Nat → Send.DevExt)
    (srv : Nat → Send.Request → Send.Reply) (uuid : String) (pt : Bytes) (ts : Nat)
    (hne : Send.recidOf uuid ≠ n) (fuel : Nat) : ∀ (i : Nat) (s : Send.State),
    Aside n dev k s.store (Send.sendLoop P D srv uuid pt ts fuel i s).1.store ∧
    (∀ u, u ≠ uuid → (Send.sendLoop P D srv uuid pt ts fuel i s).1.devices u = s.devices u) ∧
    ∃ l, (Send.sendLoop P D srv uuid pt ts fuel i s).1.log = s.log ++ l ∧ ∀ r ∈ l, r.dest = uuid := by
  induction fuel with
  | zero => intro i s; exact ⟨Aside.refl _ _ _ _, fun _ _ => rfl, [], by simp [Send.sendLoop], by simp⟩
  | succ fuel ih =>
    intro i s
    have h1 : Aside n dev k s.store (Send.buildMessage P (D i) s.store uuid pt (s.devs uuid)).1 := by
      unfold Send.buildMessage
      rcases hr : Receive.recID uuid with recid | e | _
      · have : recid ≠ n := by simpa [Send.recidOf, hr] using hne
        exact buildLoop_aside P n dev k (D i) recid pt _ 0 s.store (fun _ _ _ => Or.inl this)
      · exact Aside.refl _ _ _ _
      · exact Aside.refl _ _ _ _
    unfold Send.sendLoop
    rcases hb : Send.buildMessage P (D i) s.store uuid pt (s.devs uuid) with ⟨st1, r⟩
    rw [hb] at h1
    cases r with
    | err e => exact ⟨h1, fun _ _ => rfl, [], by simp, by simp⟩
    | panic => exact ⟨h1, fun _ _ => rfl, [], by simp, by simp⟩
    | ok ms =>
      simp only
      split
      · exact ⟨h1, fun _ _ => rfl, _, rfl, by simp⟩
      · exact ⟨h1, fun _ _ => rfl, _, rfl, by simp⟩
      · exact ⟨h1, fun _ _ => rfl, _, rfl, by simp⟩
      · obtain ⟨a, b, l, c, d⟩ := ih (i + 1) _
        refine ⟨h1.trans a, ?_, [⟨uuid, ts, ms⟩] ++ l, by rw [c, List.append_assoc], ?_⟩
        · intro u hu
          rw [b u hu]
          simp only [if_neg hu]
        · intro r hr
          rcases List.mem_append.mp hr with hr | hr
          · rw [List.mem_singleton.mp hr]
          · exact d r hr
      · obtain ⟨a, b, l, c, d⟩ := ih (i + 1) _
        refine ⟨(h1.trans (dropStale_aside n dev k _ _ st1 hne)).trans a, ?_, [⟨uuid, ts, ms⟩] ++ l,
          by rw [c, List.append_assoc], ?_⟩
        · intro u hu
          rw [b u hu]
        · intro r hr
          rcases List.mem_append.mp hr with hr | hr
          · rw [List.mem_singleton.mp hr]
          · exact d r hr

theorem sendSync_aside (P : Prims) (n : String) (dev : Nat) (k : Bytes) (X : Send.SendExt)
    (hne : Send.recidOf X.self ≠ n) (fuel : Nat) (t : Send.Transcript) (s : Send.State) :
    Aside n dev k s.store (Send.sendSync P X fuel t s).1.store ∧
    (∀ u, u ≠ X.self → (Send.sendSync P X fuel t s).1.devices u = s.devices u) ∧
    ∃ l, (Send.sendSync P X fuel t s).1.log = s.log ++ l ∧ ∀ r ∈ l, r.dest = X.self := by
  have hw : ∀ u, u ≠ X.self → (Send.withDefault s X.self).devices u = s.devices u := by
    intro u hu
    simp [Send.withDefault, hu]
  unfold Send.sendSync
  simp only
  split
  · exact ⟨Aside.refl _ _ _ _, hw, [], by simp [Send.withDefault], by simp⟩
  · exact ⟨Aside.refl _ _ _ _, hw, [], by simp [Send.withDefault], by simp⟩
  · rename_i b _
    obtain ⟨a, b', l, c, d⟩ := sendLoop_aside P n dev k X.D' X.srv' X.self (Files.padMessage b) t.timestamp hne fuel 0
      (Send.withDefault s X.self)
    rcases hl : Send.sendLoop P X.D' X.srv' X.self (Files.padMessage b) t.timestamp fuel 0
      (Send.withDefault s X.self) with ⟨s', r⟩
    rw [hl] at a b' c
    have : Aside n dev k s.store s'.store ∧ (∀ u, u ≠ X.self → s'.devices u = s.devices u) ∧
        ∃ l, s'.log = s.log ++ l ∧ ∀ r ∈ l, r.dest = X.self :=
      ⟨a, fun u hu => (b' u hu).trans (hw u hu), l, c, d⟩
    rcases r with _ | r
    · exact this
    · cases r <;> exact this

/-! ### The message for the peer's device -/

theorem buildLoop_append (P : Prims) (D : Nat → Send.DevExt) (recid : String) (pt : Bytes) (pre rest : List Nat) :
    ∀ (i : Nat) (st : Store), Send.buildLoop P D recid pt i (pre ++ rest) st =
      match Send.buildLoop P D recid pt i pre st with
      | (st1, .ok ms1) =>
        (match Send.buildLoop P D recid pt (i + pre.length) rest st1 with
        | (st2, .ok ms) => (st2, .ok (ms1 ++ ms))
        | r => r)
      | r => r := by
  induction pre with
  | nil =>
    intro i st
    simp only [List.nil_append, Send.buildLoop, List.length_nil, Nat.add_zero]
    rcases Send.buildLoop P D recid pt i rest st with ⟨st2, r⟩
    cases r <;> rfl
  | cons d pre ih =>
    intro i st
    simp only [List.cons_append, Send.buildLoop, List.length_cons]
    rcases Send.buildOne P (D i) st recid d pt with ⟨st1, r⟩
    cases r with
    | err e => rfl
    | panic => rfl
    | ok m =>
      simp only
      rw [ih (i + 1) st1, show i + 1 + pre.length = i + (pre.length + 1) by omega]
      rcases Send.buildLoop P D recid pt (i + 1) pre st1 with ⟨st2, r2⟩
      cases r2 with
      | err e => rfl
      | panic => rfl
      | ok ms =>
        simp only
        rcases Send.buildLoop P D recid pt (i + (pre.length + 1)) rest st2 with ⟨st3, r3⟩
        cases r3 <;> rfl

theorem buildLoop_devs (P : Prims) (D : Nat → Send.DevExt) (recid : String) (pt : Bytes) (devs : List Nat) :
    ∀ (i : Nat) (st st' : Store) (ms : List Send.JMsg), Send.buildLoop P D recid pt i devs st = (st', .ok ms) →
    ms.map Send.JMsg.dev = devs := by
  induction devs with
  | nil =>
    intro i st st' ms h
    simp only [Send.buildLoop, Prod.mk.injEq, Res.ok.injEq] at h
    rw [← h.2]
    rfl
  | cons d devs ih =>
    intro i st st' ms h
    simp only [Send.buildLoop] at h
    rcases hb : Send.buildOne P (D i) st recid d pt with ⟨st1, r⟩
    rw [hb] at h
    cases r with
    | err e => simp at h
    | panic => simp at h
    | ok m =>
      simp only at h
      rcases hl : Send.buildLoop P D recid pt (i + 1) devs st1 with ⟨st2, r2⟩
      rw [hl] at h
      cases r2 with
      | err e => simp at h
      | panic => simp at h
      | ok ms2 =>
        simp only [Prod.mk.injEq, Res.ok.injEq] at h
        rw [← h.2, List.map_cons, ih _ _ _ _ hl]
        congr 1
        unfold Send.buildOne at hb
        split at hb
        · simp at hb
        · simp at hb
        · simp only at hb
          split at hb
          · simp at hb
          · simp at hb
          · split at hb
            · simp at hb
            · simp at hb
            · simp only [Prod.mk.injEq, Res.ok.injEq] at hb
              rw [← hb.2]

theorem filter_dev_none (ms : List Send.JMsg) (d : Nat) (h : d ∉ ms.map Send.JMsg.dev) :
    ms.filter (fun j => j.dev = d) = [] := by
  rw [List.filter_eq_nil_iff]
  intro j hj hd
  exact h (List.mem_map.mpr ⟨j, hj, by simpa using hd⟩)

/-- Sending to the devices of a peer, when for one of them the session (possibly after building it) encrypts. -/
theorem sendMessage_many (P : Prims) (X : Send.SendExt) (m : Send.OutMsg) (s : Send.State) (n : String)
    (dev : Nat) (k : Bytes) (b : Bytes)
    (hd : m.destination = n) (hn : Receive.recID n = .ok n)
    (hm : X.marshal (Send.createMessage X.now X.profileKey m) = .ok b)
    (henv : ∀ i, (X.D 0 i).env = {}) (hs : ∀ r, ∃ linked, X.srv 0 r = .ok linked)
    (hdev : dev ∈ (s.devices n).getD [1] ∧ ((s.devices n).getD [1]).Nodup)
    (hself : Send.recidOf X.self ≠ n)
    (hoth : ∀ i d, ((s.devices n).getD [1])[i]? = some d → d ≠ dev →
      ∀ r bd b, (X.D 0 i).prekeys d = .ok r → Send.makeBundle r = .ok (bd, b) → bd = d ∧ b.identityKey = k)
    (hr : ((s.devices n).getD [1] = [dev] ∧ ∀ r, X.srv 0 r = .ok false) ∨
      ∃ ts, (Send.sendMessage P X 2 m s).2 = some (.ok ts))
    (hready : ∀ i st1, ((s.devices n).getD [1])[i]? = some dev → Aside n dev k s.store st1 → ∃ st2 ct ty rr,
      Send.ensureSession P (X.D 0 i) st1 n dev = (st2, .ok ()) ∧
      (encryptMsg P {} st2 n dev (Files.padMessage b)).res = .ok (ct, ty) ∧
      remoteRegId (applyWrites st2 (encryptMsg P {} st2 n dev (Files.padMessage b)).writes) n dev = .ok rr) :
    ∃ i st1 st2 ct ty rr, ((s.devices n).getD [1])[i]? = some dev ∧ Aside n dev k s.store st1 ∧
      Send.ensureSession P (X.D 0 i) st1 n dev = (st2, .ok ()) ∧
      (encryptMsg P {} st2 n dev (Files.padMessage b)).res = .ok (ct, ty) ∧
      Aside n dev k (applyWrites st2 (encryptMsg P {} st2 n dev (Files.padMessage b)).writes)
        (Send.sendMessage P X 2 m s).1.store ∧
      (Send.sendMessage P X 2 m s).2 = some (.ok (Send.createMessage X.now X.profileKey m).timestamp) ∧
      newMsgs n dev s.log (Send.sendMessage P X 2 m s).1.log =
        [⟨Send.typeNum ty, dev, rr, Encoding.b64Encode ct⟩] ∧
      (Send.sendMessage P X 2 m s).1.devices n = some ((s.devices n).getD [1]) := by
  obtain ⟨L, hL⟩ : ∃ L, L = (s.devices n).getD [1] := ⟨_, rfl⟩
  rw [← hL] at hdev hoth hr hready ⊢
  obtain ⟨pre, post, hsplit⟩ := List.append_of_mem hdev.1
  have hat : L[pre.length]? = some dev := by rw [hsplit]; simp
  have hnd : (dev ∉ pre ∧ dev ∉ post) ∧ True := by
    have h0 := hdev.2
    rw [hsplit, List.nodup_append, List.nodup_cons] at h0
    exact ⟨⟨fun h => h0.2.2 dev h dev List.mem_cons_self rfl, h0.2.1.1⟩, trivial⟩
  obtain ⟨pt, hpt⟩ : ∃ pt, pt = Files.padMessage b := ⟨_, rfl⟩
  rw [← hpt] at hready ⊢
  -- the devices before
  have hpre : Aside n dev k s.store (Send.buildLoop P (X.D 0) n pt 0 pre s.store).1 := by
    refine buildLoop_aside P n dev k (X.D 0) n pt pre 0 s.store ?_
    intro j d hj
    have hlt := (List.getElem?_eq_some_iff.mp hj).1
    refine Or.inr ⟨?_, ?_⟩
    · intro he
      exact hnd.1.1 (he ▸ List.mem_of_getElem? hj)
    · rw [Nat.zero_add]
      refine hoth j d ?_ ?_
      · rw [hsplit, List.getElem?_append_left hlt]; exact hj
      · intro he
        exact hnd.1.1 (he ▸ List.mem_of_getElem? hj)
  have hdevs : (Send.withDefault s n).devs n = L := by
    simp [Send.State.devs, Send.withDefault, hL]
  have hbm : Send.buildMessage P (X.D 0) (Send.withDefault s n).store n pt ((Send.withDefault s n).devs n) =
      Send.buildLoop P (X.D 0) n pt 0 (pre ++ dev :: post) s.store := by
    unfold Send.buildMessage
    rw [hn, hdevs, hsplit]
    rfl
  rw [buildLoop_append] at hbm
  rcases hp : Send.buildLoop P (X.D 0) n pt 0 pre s.store with ⟨st1, r1⟩
  rw [hp] at hpre hbm
  obtain ⟨st2, ct, ty, rr, hens, hres, hrr⟩ := hready pre.length st1 hat hpre
  have hone : Send.buildOne P (X.D 0 pre.length) st1 n dev pt =
      (applyWrites st2 (encryptMsg P {} st2 n dev pt).writes, .ok ⟨Send.typeNum ty, dev, rr, Encoding.b64Encode ct⟩) := by
    simp only [Send.buildOne, hens, henv, hres, hrr]
  obtain ⟨st3, hst3⟩ : ∃ st3, st3 = applyWrites st2 (encryptMsg P {} st2 n dev pt).writes := ⟨_, rfl⟩
  rw [← hst3] at hone
  -- the devices after
  have hpost : Aside n dev k st3 (Send.buildLoop P (X.D 0) n pt (pre.length + 1) post st3).1 := by
    refine buildLoop_aside P n dev k (X.D 0) n pt post _ st3 ?_
    intro j d hj
    have hne : d ≠ dev := by
      intro he
      exact hnd.1.2 (he ▸ List.mem_of_getElem? hj)
    refine Or.inr ⟨hne, hoth _ d ?_ hne⟩
    rw [hsplit, List.getElem?_append_right (by omega), show pre.length + 1 + j - pre.length = j + 1 by omega]
    simpa using hj
  rcases hq : Send.buildLoop P (X.D 0) n pt (pre.length + 1) post st3 with ⟨st4, r4⟩
  rw [hq] at hpost
  have hmid : Send.buildLoop P (X.D 0) n pt (0 + pre.length) (dev :: post) st1 = match (st4, r4) with
      | (st2, .ok ms) => (st2, .ok (⟨Send.typeNum ty, dev, rr, Encoding.b64Encode ct⟩ :: ms))
      | r => r := by
    simp only [Send.buildLoop, Nat.zero_add, hone, hq]
    cases r4 <;> rfl
  -- all messages are made
  obtain ⟨ms1, ms4, e1, e4⟩ : ∃ ms1 ms4, r1 = .ok ms1 ∧ r4 = .ok ms4 := by
    rcases hr with ⟨hr, _⟩ | ⟨ts, hr⟩
    · rw [hsplit] at hr
      have h0 : pre = [] ∧ post = [] := by
        have := congrArg List.length hr
        simp only [List.length_append, List.length_cons, List.length_nil] at this
        exact ⟨List.eq_nil_of_length_eq_zero (by omega), List.eq_nil_of_length_eq_zero (by omega)⟩
      obtain ⟨rfl, rfl⟩ := h0
      simp only [Send.buildLoop, Prod.mk.injEq] at hp hq
      exact ⟨[], [], hp.2.symm, hq.2.symm⟩
    · simp only [Send.sendMessage, hm, hd, Send.sendLoop, ← hpt, hbm] at hr
      cases r1 with
      | err e => simp at hr
      | panic => simp at hr
      | ok ms1 =>
        simp only [hmid] at hr
        cases r4 with
        | err e => simp at hr
        | panic => simp at hr
        | ok ms4 => exact ⟨ms1, ms4, rfl, rfl⟩
  subst e1 e4
  simp only [hmid] at hbm
  have hf : (ms1 ++ (⟨Send.typeNum ty, dev, rr, Encoding.b64Encode ct⟩ :: ms4)).filter (fun j => j.dev = dev) =
      [⟨Send.typeNum ty, dev, rr, Encoding.b64Encode ct⟩] := by
    rw [List.filter_append, filter_dev_none ms1 dev (by rw [buildLoop_devs P _ n pt pre _ _ _ _ hp]; exact hnd.1.1),
      List.filter_cons_of_pos (by simp),
      filter_dev_none ms4 dev (by rw [buildLoop_devs P _ n pt post _ _ _ _ hq]; exact hnd.1.2)]
    rfl
  obtain ⟨ms, hms⟩ : ∃ ms, ms = ms1 ++ (⟨Send.typeNum ty, dev, rr, Encoding.b64Encode ct⟩ :: ms4) := ⟨_, rfl⟩
  rw [← hms] at hf hbm
  obtain ⟨d, hdm⟩ : ∃ d, d = Send.createMessage X.now X.profileKey m := ⟨_, rfl⟩
  rw [← hdm] at hm ⊢
  obtain ⟨linked, hlk⟩ := hs ⟨n, d.timestamp, ms⟩
  obtain ⟨s', hs'⟩ : ∃ s' : Send.State, s' =
      { Send.withDefault s n with store := st4, log := s.log ++ [⟨n, d.timestamp, ms⟩] } := ⟨_, rfl⟩
  have hloop : Send.sendLoop P X.D X.srv n pt d.timestamp 2 0 (Send.withDefault s n) =
      (s', some (.ok ⟨linked, d.timestamp⟩)) := by
    unfold Send.sendLoop
    rw [hbm]
    simp only [hlk, hs']
    rfl
  have hs'd : s'.devices n = some L := by
    rw [hs', hL]
    simp [Send.withDefault]
  have hs'l : s'.log = s.log ++ [⟨n, d.timestamp, ms⟩] := by rw [hs']
  have hs's : s'.store = st4 := by rw [hs']
  have hself' : X.self ≠ n := by
    intro he
    rw [he] at hself
    exact hself (by simp [Send.recidOf, hn])
  refine ⟨pre.length, st1, st2, ct, ty, rr, hat, hpre, hens, hres, ?_⟩
  rw [← hst3]
  have hsm : Send.sendMessage P X 2 m s =
      if linked = false then (s', some (.ok d.timestamp))
      else
        let plus := n.toList.head? = some '+'
        match Send.sendSync P X 2 ⟨if plus then some n else none, if plus then none else some n, d.timestamp, d⟩ s' with
        | (s'', none) => (s'', none)
        | (s'', some .panic) => (s'', some .panic)
        | (s'', some _) => (s'', some (.ok d.timestamp)) := by
    simp only [Send.sendMessage, ← hdm, hm, hd, ← hpt, hloop]
    generalize Send.sendSync P X 2 _ s' = q
    rcases q with ⟨s'', _ | (_ | _ | _)⟩ <;> rfl
  cases linked with
  | false =>
    rw [hsm, if_pos rfl]
    refine ⟨by rw [hs's]; exact hpost, rfl, ?_, hs'd⟩
    simp [newMsgs, hs'l, hf]
  | true =>
    rw [if_neg (by simp)] at hsm
    obtain ⟨t, ht⟩ : ∃ t, t = (⟨if n.toList.head? = some '+' then some n else none,
      if n.toList.head? = some '+' then none else some n, d.timestamp, d⟩ : Send.Transcript) := ⟨_, rfl⟩
    simp only [← ht] at hsm
    obtain ⟨a1, a2, l, a3, a4⟩ := sendSync_aside P n dev k X hself 2 t s'
    rcases hy : Send.sendSync P X 2 t s' with ⟨s'', r⟩
    rw [hy] at a1 a2 a3 hsm
    have hlog : newMsgs n dev s.log s''.log = [⟨Send.typeNum ty, dev, rr, Encoding.b64Encode ct⟩] := by
      have hz : l.flatMap (fun r => if r.dest = n then r.msgs.filter (fun j => j.dev = dev) else []) = [] := by
        rw [List.flatMap_eq_nil_iff]
        intro r hr
        rw [if_neg (by rw [a4 r hr]; exact hself')]
      have hz' : (⟨n, d.timestamp, ms⟩ :: l).flatMap
          (fun r : Send.Request => if r.dest = n then r.msgs.filter (fun j => j.dev = dev) else []) =
          [⟨Send.typeNum ty, dev, rr, Encoding.b64Encode ct⟩] := by
        rw [List.flatMap_cons, hz, if_pos rfl, hf]; rfl
      unfold newMsgs
      rw [a3, hs'l, List.append_assoc, List.drop_left]
      exact hz'
    have hst : Aside n dev k st3 s''.store := (hpost.trans (by rw [hs's] at a1; exact a1))
    have hdv : s''.devices n = some L := (a2 n (fun h => hself' h.symm)).trans hs'd
    have hok : ∃ ts, (Send.sendMessage P X 2 m s).2 = some (.ok ts) := by
      rcases hr with ⟨_, hr⟩ | hr
      · rw [hr] at hlk; cases hlk
      · exact hr
    obtain ⟨ts, hok⟩ := hok
    rw [hsm] at hok ⊢
    rcases r with _ | r
    · simp at hok
    · cases r with
      | panic => simp at hok
      | ok v => exact ⟨hst, rfl, hlog, hdv⟩
      | err e => exact ⟨hst, rfl, hlog, hdv⟩

/-! ## Receiving -/

theorem handle_ok (P : Prims) (X : Receive.Ext) (loc : Send.WireAtt → Bytes) (n : String) (ts : Nat)
    (d : Send.WireData) (b : Bytes) (atts : List Bytes) (g : Option Bytes) (w : Receive.World)
    (hcb : X.cb.message = true) (hf : d.flags ≠ 1) (hc : X.contactsOk = true)
    (hp : X.parseContent b = some { data := some (view loc d) })
    (ha : Files.handleAttachments P X.fetch Receive.AttPtr.key (view loc d).attachments = .ok atts)
    (hg : ∀ src, X.groupsV2 src (view loc d) = .ok g) :
    ∃ cts, Receive.handleMessage P X n n ts b w =
      (⟨w.store, cts, w.log ++ [.enter .data, .onMessage (shown n d atts g)], w.devices, w.sent⟩, .ok ()) := by
  unfold Receive.handleMessage
  rw [hp]
  have h1 : (view loc d).flags = d.flags := rfl
  have h3 : ∀ ev, Receive.callback X.cb.message ev = Receive.M.emit ev := by
    intro ev
    simp [Receive.callback, hcb]
  by_cases h4 : d.flags = 4
  · simp only [Receive.dispatch, Receive.handleData, Receive.handleFlags, h1, h4, bind, Receive.M.emit,
      Receive.updateProfileKey, Receive.M.update, hc, if_true, pure, Receive.M.lift,
      ha, Receive.derefTs, hg, h3]
    exact ⟨_, by simp [view, shown, h4]; rfl⟩
  · have h2 : Receive.handleFlags X n (view loc d) = pure 0 := by simp [Receive.handleFlags, h1, hf, h4]
    simp only [Receive.dispatch, Receive.handleData, bind, Receive.M.emit, h2, pure, Receive.M.lift,
      ha, Receive.derefTs, hg, h3]
    exact ⟨w.contacts, by simp [view, shown, hf, h4]⟩

/-- What hearing a frame does, in terms of the decryption of the bytes in it. -/
theorem hear_eq (P : Prims) (S : Setup) (X : Receive.Ext) (who : Bool) (b : Bytes) (ty : MsgType)
    (id : Nat) (body : Bytes) (c : Client) (h : Heard P S X who b ty body) :
    let o := receive P X.rnd c.send.store (senderName S who) (senderDev S who) b ty
    let st1 := applyWrites c.send.store o.writes
    let o' := receive P X.rnd' st1 (senderName S who) (senderDev S who) b ty
    (∀ pt, o.res = .ok pt → ∃ ts, (∀ pt' e', Files.decryptReceivedMessage P X.signalingKey body = .ok pt' →
        X.parseEnvelope pt' = some e' → ts = e'.serverTimestamp) ∧ ∀ w', Receive.handleMessage P X (senderName S who) (senderName S who) ts
        (Files.stripPadding pt) ⟨st1, c.contacts, [], c.send.devices, c.send.log⟩ = (w', .ok ()) →
      hear P c X id body = (⟨⟨w'.store, w'.devices, w'.sent⟩, w'.contacts⟩,
        .told (w'.log ++ [.ack id]) .waiting)) ∧
    ((∃ e, o.res = .err e) → (∃ e, o'.res = .err e) →
      hear P c X id body = (⟨{ c.send with store := st1 }, c.contacts⟩, .told [.ack id] .waiting) ∨
      hear P c X id body = (⟨{ c.send with store := applyWrites st1 o'.writes }, c.contacts⟩,
        .told [.ack id] .waiting)) ∧
    ((∀ pt, o.res ≠ .ok pt) →
      ∃ evs e, (hear P c X id body = (⟨{ c.send with store := st1 }, c.contacts⟩, .told evs e) ∨
        hear P c X id body = (⟨{ c.send with store := applyWrites st1 o'.writes }, c.contacts⟩,
          .told evs e)) ∧ ∀ x ∈ evs, x = .ack id) := by
  obtain ⟨hne, pt, e, hd, hpe, het, hes, hed, hec⟩ := h.carried
  intro o st1 o'
  have hproc : ∀ w, Receive.process P X body w = Receive.handleReceived P X (some e) w := by
    intro w
    unfold Receive.process
    rw [if_neg hne, hd]
    simp only [hpe]
  cases ty with
  | whisper =>
    have hH : ∀ w, Receive.handleReceived P X (some e) w = Receive.handleCiphertext P X e w := by
      intro w
      unfold Receive.handleReceived
      simp only [het, Send.typeNum]
    cases hl : loadWhisper b with
    | err er =>
      have ho : o = ⟨[], .err er⟩ := by simp only [o, receive, hl]
      have hh : hear P c X id body = (⟨{ c.send with store := st1 }, c.contacts⟩, .told [.ack id] .waiting) := by
        simp only [hear, Receive.listen, hproc, hH, Receive.handleCiphertext, hec, bind, Receive.M.lift, hl,
          List.nil_append, st1, ho, applyWrites, List.foldl_nil]
      rw [hh, ho]
      refine ⟨fun _ hx => (by cases hx), fun _ _ => Or.inl rfl,
        fun _ => ⟨_, _, Or.inl rfl, by simp⟩⟩
    | panic =>
      have ho : o = ⟨[], .panic⟩ := by simp only [o, receive, hl]
      have hh : hear P c X id body = (⟨{ c.send with store := st1 }, c.contacts⟩, .told [] .crashed) := by
        simp only [hear, Receive.listen, hproc, hH, Receive.handleCiphertext, hec, bind, Receive.M.lift, hl,
          st1, ho, applyWrites, List.foldl_nil]
      rw [hh, ho]
      refine ⟨fun _ hx => (by cases hx), fun hx => (by obtain ⟨_, hx⟩ := hx; cases hx),
        fun _ => ⟨_, _, Or.inl rfl, by simp⟩⟩
    | ok wm =>
      have ho : o = decryptWhisper P {} X.rnd c.send.store (senderName S who) (senderDev S who) wm := by
        simp only [o, receive, hl]
      have ho' : o' = decryptWhisper P {} X.rnd' st1 (senderName S who) (senderDev S who) wm := by
        simp only [o', receive, hl]
      have hleg : Receive.legacyId (senderName S who) = senderName S who := by
        unfold Receive.legacyId
        rw [h.name]
      have hst : st1 = applyWrites c.send.store
        (decryptWhisper P {} X.rnd c.send.store (senderName S who) (senderDev S who) wm).writes := by
        simp only [st1, ho]
      have key : Receive.handleCiphertext P X e ⟨c.send.store, c.contacts, [], c.send.devices, c.send.log⟩ =
          match o.res with
          | .panic => (⟨st1, c.contacts, [], c.send.devices, c.send.log⟩, .panic)
          | .err .duplicate => (⟨st1, c.contacts, [], c.send.devices, c.send.log⟩, .ok ())
          | .err .invalidMessage =>
            (match o'.res with
            | .panic => (⟨applyWrites st1 o'.writes, c.contacts, [], c.send.devices, c.send.log⟩, .panic)
            | .err .duplicate => (⟨applyWrites st1 o'.writes, c.contacts, [], c.send.devices, c.send.log⟩, .ok ())
            | _ => (⟨applyWrites st1 o'.writes, c.contacts, [], c.send.devices, c.send.log⟩, .err .invalidMessage))
          | .err er => (⟨st1, c.contacts, [], c.send.devices, c.send.log⟩, .err er)
          | .ok pt => Receive.handleMessage P X e.sourceUuid e.sourceUuid e.serverTimestamp
              (Files.stripPadding pt) ⟨st1, c.contacts, [], c.send.devices, c.send.log⟩ := by
        unfold Receive.handleCiphertext
        simp only [hec, bind, Receive.M.lift, hl, Receive.cipher, hes, hed, h.env, hleg]
        rw [← ho, show applyWrites c.send.store o.writes = st1 from rfl]
        cases hr : o.res with
        | panic => simp only
        | ok pt => simp only
        | err er =>
          cases er <;> try rfl
          simp only [← ho']
          cases hr' : o'.res with
          | panic => rfl
          | ok pt => rfl
          | err er' => cases er' <;> rfl
      refine ⟨?_, ?_, ?_⟩
      · intro pt hok
        refine ⟨e.serverTimestamp, ?_, ?_⟩
        · intro pt' e' h1 h2
          rw [hd] at h1
          cases h1
          rw [hpe] at h2
          cases h2
          rfl
        intro w' hw'
        simp only [hear, Receive.listen, hproc, hH, key, hok, hes, hw']
      · intro ⟨er, her⟩ ⟨er', her'⟩
        by_cases hd : er = .invalidMessage
        · right
          subst hd
          simp only [hear, Receive.listen, hproc, hH, key, her, her']
          cases er' <;> simp
        · left
          simp only [hear, Receive.listen, hproc, hH, key, her]
          cases er <;> simp at hd ⊢
      · intro hno
        cases hr : o.res with
        | ok pt => exact absurd hr (hno pt)
        | panic =>
          exact ⟨[], .crashed, Or.inl (by simp only [hear, Receive.listen, hproc, hH, key, hr]), by simp⟩
        | err er =>
          by_cases hd : er = .invalidMessage
          · subst hd
            cases hr' : o'.res with
            | panic =>
              exact ⟨[], .crashed, Or.inr (by simp only [hear, Receive.listen, hproc, hH, key, hr, hr']), by simp⟩
            | ok pt =>
              exact ⟨[.ack id], .waiting,
                Or.inr (by simp only [hear, Receive.listen, hproc, hH, key, hr, hr', List.nil_append]), by simp⟩
            | err er' =>
              refine ⟨[.ack id], .waiting, Or.inr ?_, by simp⟩
              simp only [hear, Receive.listen, hproc, hH, key, hr, hr']
              cases er' <;> simp
          · refine ⟨[.ack id], .waiting, Or.inl ?_, by simp⟩
            simp only [hear, Receive.listen, hproc, hH, key, hr]
            cases er <;> simp at hd ⊢
  | prekey =>
    have hH : ∀ w, Receive.handleReceived P X (some e) w = Receive.handlePreKey P X e w := by
      intro w
      unfold Receive.handleReceived
      simp only [het, Send.typeNum]
    cases hl : loadPreKeyMsg b with
    | err er =>
      have ho : o = ⟨[], .err er⟩ := by simp only [o, receive, hl]
      have hh : hear P c X id body = (⟨{ c.send with store := st1 }, c.contacts⟩, .told [.ack id] .waiting) := by
        simp only [hear, Receive.listen, hproc, hH, Receive.handlePreKey, hec, bind, Receive.M.lift, hl,
          List.nil_append, st1, ho, applyWrites, List.foldl_nil, Option.getD_some]
      rw [hh, ho]
      refine ⟨fun _ hx => (by cases hx), fun _ _ => Or.inl rfl,
        fun _ => ⟨_, _, Or.inl rfl, by simp⟩⟩
    | panic =>
      have ho : o = ⟨[], .panic⟩ := by simp only [o, receive, hl]
      have hh : hear P c X id body = (⟨{ c.send with store := st1 }, c.contacts⟩, .told [] .crashed) := by
        simp only [hear, Receive.listen, hproc, hH, Receive.handlePreKey, hec, bind, Receive.M.lift, hl,
          st1, ho, applyWrites, List.foldl_nil, Option.getD_some]
      rw [hh, ho]
      refine ⟨fun _ hx => (by cases hx), fun hx => (by obtain ⟨_, hx⟩ := hx; cases hx),
        fun _ => ⟨_, _, Or.inl rfl, by simp⟩⟩
    | ok pm =>
      have ho : o = decryptPreKey P {} X.rnd c.send.store (senderName S who) (senderDev S who) pm := by
        simp only [o, receive, hl]
      have key : Receive.handlePreKey P X e ⟨c.send.store, c.contacts, [], c.send.devices, c.send.log⟩ =
          match o.res with
          | .panic => (⟨st1, c.contacts, [], c.send.devices, c.send.log⟩, .panic)
          | .err er => (⟨st1, c.contacts, [], c.send.devices, c.send.log⟩,
              if er = .duplicate ∨ er = .preKeyNotFound ∨ er = .invalidMessage then .ok () else .err er)
          | .ok pt => Receive.handleMessage P X e.sourceUuid e.sourceUuid e.serverTimestamp
              (Files.stripPadding pt) ⟨st1, c.contacts, [], c.send.devices, c.send.log⟩ := by
        unfold Receive.handlePreKey
        simp only [hec, bind, Receive.M.lift, hl, Receive.cipher, hes, hed, h.env, Option.getD_some]
        rw [← ho, show applyWrites c.send.store o.writes = st1 from rfl]
        cases hr : o.res with
        | panic => simp only
        | ok pt => simp only
        | err er =>
          by_cases hx : er = .duplicate ∨ er = .preKeyNotFound ∨ er = .invalidMessage
          · simp only [if_pos hx]; rfl
          · simp only [if_neg hx]; rfl
      have hsil : ∀ er, o.res = .err er → hear P c X id body =
          (⟨{ c.send with store := st1 }, c.contacts⟩, .told [.ack id] .waiting) := by
        intro er hr
        simp only [hear, Receive.listen, hproc, hH, key, hr]
        split
        · rename_i hx
          split at hx <;> simp at hx
        · rename_i hx
          simp only [Prod.mk.injEq] at hx
          rw [← hx.1]
          rfl
      refine ⟨?_, ?_, ?_⟩
      · intro pt hok
        refine ⟨e.serverTimestamp, ?_, ?_⟩
        · intro pt' e' h1 h2
          rw [hd] at h1
          cases h1
          rw [hpe] at h2
          cases h2
          rfl
        intro w' hw'
        simp only [hear, Receive.listen, hproc, hH, key, hok, hes, hw']
      · intro ⟨er, her⟩ _
        exact Or.inl (hsil er her)
      · intro hno
        cases hr : o.res with
        | ok pt => exact absurd hr (hno pt)
        | panic =>
          exact ⟨[], .crashed, Or.inl (by simp only [hear, Receive.listen, hproc, hH, key, hr]), by simp⟩
        | err er => exact ⟨[.ack id], .waiting, Or.inl (hsil er hr), by simp⟩

/-! ## The relation -/

/-- The server holds the base64 text of the bytes sent. -/
def OnWire (x : Bool × Bytes × MsgType) (j : Bool × Send.JMsg) : Prop :=
  j.1 = x.1 ∧ j.2.type = Send.typeNum x.2.2 ∧ j.2.content = Encoding.b64Encode x.2.1

/-- The abstract plaintext is the padded encoding. -/
def Said (m : AMsg) (d : Send.WireData × Bytes) : Prop := m.pt = Files.padMessage d.2

/-- The initiator has no session yet and accepts the responder's key. -/
structure Unbegun (S : Setup) (st : Store) : Prop where
  trust : isTrusted st S.nameR S.idR.pub = true
  none : st.sessions (Names.sessName S.nameR S.devR) = .absent

structure CRel (P : Prims) (S : Setup) (G : List Epoch) (s : Sight) (w : Pair) (cw : Conv.World) : Prop where
  rel : Rel P S G s.abs cw
  I : w.I.send.store = cw.I ∨ (s.abs = {} ∧ G = initG P S ∧ Unbegun S w.I.send.store)
  R : w.R.send.store = cw.R
  wire : List.Forall₂ OnWire cw.wire w.wire
  said : List.Forall₂ Said s.abs.log s.said
  devR : S.devR ∈ w.I.devs S.nameR ∧ (w.I.devs S.nameR).Nodup
  devI : S.devI ∈ w.R.devs S.nameI ∧ (w.R.devs S.nameI).Nodup
  numI : w.devI = S.devI
  numR : w.devR = S.devR
  identI : w.I.send.store.identity = some S.idI ∧ w.I.send.store.regId = some S.regI

structure Named (S : Setup) : Prop where
  nameI : Receive.recID S.nameI = .ok S.nameI
  nameR : Receive.recID S.nameR = .ok S.nameR

/-- One step: the outcome agrees and the relation is kept; at most one new epoch, with a key drawn by
this event. -/
def CStepOk (P : Prims) (S : Setup) (G : List Epoch) (s : Sight) (w : Pair) (ev : CEv) : Prop :=
  CAgree (s.want S ev) (w.step P ev).2 ∧ ∃ G' cw', CRel P S G' (s.step ev) (w.step P ev).1 cw' ∧
    (G' = G ∨ ∃ g, G' = G ++ [g] ∧ g.kp.pub ∈ keysOf P [ev])

theorem remoteReg_good {st : Store} {n : String} {dev : Nat} {r : SRecord}
    (h : st.sessions (Names.sessName n dev) = .good r) : ∃ rr, remoteRegId st n dev = .ok rr := by
  refine ⟨r.cur.remoteReg, ?_⟩
  unfold remoteRegId loadSession
  rw [h]
  rfl

theorem pad_len (b : Bytes) (h : b.length < 2 ^ 59) : (Files.padMessage b).length < 2 ^ 60 := by
  have := (Props.C29_padding_hides_length b b).2.2.2.1
  omega

theorem applyWrites_own (ws : List Write) : ∀ st : Store, (applyWrites st ws).identity = st.identity ∧
    (applyWrites st ws).regId = st.regId := by
  induction ws with
  | nil => exact fun _ => ⟨rfl, rfl⟩
  | cons x ws ih =>
    intro st
    obtain ⟨h1, h2⟩ := ih (applyWrite st x)
    refine ⟨h1.trans ?_, h2.trans ?_⟩ <;> cases x <;> rfl

theorem sent_ok {P : Prims} {S : Setup} {G : List Epoch} {a : Abs} {w : World} {who : Bool} {pt : Bytes}
    (h : StepOk P S G a w (.send who pt)) : ∃ b ty,
      (encryptMsg P {} (if who then w.R else w.I) (senderName S (!who)) (senderDev S (!who)) pt).res = .ok (b, ty) := by
  have h1 := h.1
  cases who with
  | false =>
    simp only [Abs.want, World.step] at h1
    split at h1
    · rename_i b ty he
      exact ⟨b, ty, he⟩
    · exact absurd h1 id
  | true =>
    simp only [Abs.want, World.step] at h1
    split at h1
    · rename_i b ty he
      exact ⟨b, ty, he⟩
    · exact absurd h1 id

/-- The store, and the client, that a message of `who` goes to. -/
def get (w : Conv.World) (who : Bool) : Store := if who then w.I else w.R
def put (w : Conv.World) (who : Bool) (st : Store) : Conv.World :=
  if who then { w with I := st } else { w with R := st }
def getC (w : Pair) (who : Bool) : Client := if who then w.I else w.R
def putC (w : Pair) (who : Bool) (c : Client) : Pair := if who then { w with I := c } else { w with R := c }

theorem put_put (cw : Conv.World) (who : Bool) (a b : Store) : put (put cw who a) who b = put cw who b := by
  cases who <;> rfl

theorem get_put (cw : Conv.World) (who : Bool) (a : Store) : get (put cw who a) who = a := by
  cases who <;> rfl

theorem put_wire (cw : Conv.World) (who : Bool) (a : Store) : (put cw who a).wire = cw.wire := by
  cases who <;> rfl

theorem scope_of {P : Prims} {st : Store} {ws : List Write} {rec : String} {dev : Nat} (e : Event)
    (hp : e.peer = rec) (hd : e.dev = dev) (h : e.writes P st = ws) (n : Names.Name) (hn : n ≠ Names.sessName rec dev) :
    (applyWrites st ws).sessions n = st.sessions n := by
  subst hp hd h
  exact applyWrites_sessions _ _ _ _ (Event.writes_scope P st e) n hn

theorem receive_scope (P : Prims) (rnd : Nat → Bytes) (st : Store) (rec : String) (dev : Nat) (b : Bytes) (ty : MsgType)
    (n : Names.Name) (hn : n ≠ Names.sessName rec dev) :
    (applyWrites st (receive P rnd st rec dev b ty).writes).sessions n = st.sessions n := by
  cases ty with
  | whisper =>
    simp only [receive]
    split
    · rename_i wm _
      exact scope_of (P := P) ⟨rec, dev, {}, none, .decryptW rnd wm⟩ rfl rfl rfl n hn
    · rfl
    · rfl
  | prekey =>
    simp only [receive]
    split
    · rename_i pm _
      exact scope_of (P := P) ⟨rec, dev, {}, none, .decryptP rnd pm⟩ rfl rfl rfl n hn
    · rfl
    · rfl

/-! ### Activity that does not concern the conversation -/

theorem rel_apart {P : Prims} {S : Setup} {G : List Epoch} {a : Abs} {w : Conv.World} (h : Rel P S G a w) (who : Bool)
    (st : Store) (ha : Apart (senderName S who) (senderDev S who) (senderKey S who) (get w who) st)
    (hk : who = false → (∀ k, S.opk = some k → st.preKeys S.pkId = w.R.preKeys S.pkId) ∧
      st.signedPreKeys S.spkId = w.R.signedPreKeys S.spkId) :
    Rel P S G a (put w who st) := by
  cases who with
  | true =>
    have hs : st.sessions (Names.sessName S.nameR S.devR) = w.I.sessions (Names.sessName S.nameR S.devR) := ha.session
    exact { h with
      sessI := by
        obtain ⟨r, hr, hat⟩ := h.sessI
        exact ⟨r, hs.trans hr, hat⟩
      trustI := ha.trust h.trustI
      knownI := ha.saved h.knownI }
  | false =>
    have hs : st.sessions (Names.sessName S.nameI S.devI) = w.R.sessions (Names.sessName S.nameI S.devI) := ha.session
    obtain ⟨hk1, hk2⟩ := hk rfl
    exact { h with
      sessR := by
        intro h0
        obtain ⟨r, hr, hat⟩ := h.sessR h0
        exact ⟨r, hs.trans hr, hat⟩
      freshR := by
        intro h0
        obtain ⟨h1, h2⟩ := h.freshR h0
        exact ⟨hs.trans h1, fun k hk => (hk1 k hk).trans (h2 k hk)⟩
      trustR := ha.trust h.trustR
      knownR := fun h0 => ha.saved (h.knownR h0)
      identR := ha.identity.trans h.identR
      regR := ha.regId.trans h.regR
      spkR := hk2.trans h.spkR }

theorem unbegun_apart {S : Setup} {a b : Store} (h : Unbegun S a) (ha : Apart S.nameR S.devR S.idR.pub a b) :
    Unbegun S b := ⟨ha.trust h.trust, ha.session.trans h.none⟩

theorem cstep_other {P : Prims} {S : Setup} {G : List Epoch} {s : Sight} {w : Pair} {cw : Conv.World}
    (h : CRel P S G s w cw) (who : Bool) (c : Client) (hl : OtherOk S w who c) :
    CStepOk P S G s w (.other who c) := by
  cases who with
  | false =>
    have ha : Apart S.nameR S.devR S.idR.pub w.I.send.store c.send.store := hl.apart
    have hid : c.send.store.identity = some S.idI ∧ c.send.store.regId = some S.regI :=
      ⟨ha.identity.trans h.identI.1, ha.regId.trans h.identI.2⟩
    rcases h.I with hI | ⟨h1, h2, h3⟩
    · refine ⟨trivial, G, { cw with I := c.send.store }, ?_, Or.inl rfl⟩
      have := rel_apart h.rel true c.send.store (by rw [show get cw true = w.I.send.store from hI.symm]; exact ha)
        (fun h => by cases h)
      exact { rel := this, I := Or.inl rfl, R := h.R, wire := h.wire, said := h.said, devR := hl.known
              devI := h.devI, numI := h.numI, numR := h.numR, identI := hid }
    · refine ⟨trivial, G, cw, ?_, Or.inl rfl⟩
      exact { rel := h.rel, I := Or.inr ⟨h1, h2, unbegun_apart h3 ha⟩, R := h.R, wire := h.wire, said := h.said
              devR := hl.known, devI := h.devI, numI := h.numI, numR := h.numR, identI := hid }
  | true =>
    have ha : Apart S.nameI S.devI S.idI.pub w.R.send.store c.send.store := hl.apart
    refine ⟨trivial, G, { cw with R := c.send.store }, ?_, Or.inl rfl⟩
    have := rel_apart h.rel false c.send.store (by rw [show get cw false = w.R.send.store from h.R.symm]; exact ha)
        (fun _ => by rw [← h.R]; exact hl.keys rfl)
    exact { rel := this, I := h.I, R := rfl, wire := h.wire, said := h.said, devR := h.devR
            devI := hl.known, numI := h.numI, numR := h.numR, identI := h.identI }

/-! ### Sending within the conversation -/

theorem conv_send (P : Prims) (S : Setup) (cw : Conv.World) (who : Bool) (pt b : Bytes) (ty : MsgType) (st : Store)
    (hst : get cw (!who) = st)
    (h : (encryptMsg P {} st (senderName S (!who)) (senderDev S (!who)) pt).res = .ok (b, ty)) :
    (cw.step P S (.send who pt)).1 = { put cw (!who) (applyWrites st
      (encryptMsg P {} st (senderName S (!who)) (senderDev S (!who)) pt).writes) with wire := cw.wire ++ [(who, b, ty)] } := by
  subst hst
  cases who <;> simp [senderName, senderDev, get] at h <;> simp [World.step, put, get, senderName, senderDev, h]

/-- Before the message is encrypted: the session is there, or is built from the bundle. -/
theorem ready {P : Prims} {S : Setup} {G : List Epoch} {s : Sight} {w : Pair} {cw : Conv.World}
    (hS : S.Ok P) (hne : S.spk.pub ≠ (newPair P S.rr).pub) (h : CRel P S G s w cw)
    (who : Bool) (D : Send.DevExt) (st1 : Store) (henv : D.env = {}) (hlv : who = true → s.abs.lvR ≠ 0)
    (hfirst : who = false → s.said = [] → D.rb = S.rb ∧ D.rr = S.rr ∧
      ∃ r, D.prekeys S.devR = .ok r ∧ Send.makeBundle r = .ok (S.devR, S.bundle))
    (ha : Aside (senderName S (!who)) (senderDev S (!who)) (senderKey S (!who)) (w.client who).send.store st1) :
    ∃ st2, Send.ensureSession P D st1 (senderName S (!who)) (senderDev S (!who)) = (st2, .ok ()) ∧
      Rel P S G s.abs (put cw (!who) st2) ∧ st2.identity = st1.identity ∧ st2.regId = st1.regId := by
  have old : ∀ st2, Rel P S G s.abs (put cw (!who) st2) →
      Send.ensureSession P D st2 (senderName S (!who)) (senderDev S (!who)) = (st2, .ok ()) := by
    intro st2 hr
    cases who with
    | false =>
      obtain ⟨r, hr, _⟩ := hr.sessI
      have hr : st2.sessions (Names.sessName S.nameR S.devR) = .good r := hr
      unfold Send.ensureSession
      rw [if_pos (by simp [containsSession, senderName, senderDev, hr])]
    | true =>
      obtain ⟨r, hr, _⟩ := hr.sessR (hlv rfl)
      have hr : st2.sessions (Names.sessName S.nameI S.devI) = .good r := hr
      unfold Send.ensureSession
      rw [if_pos (by simp [containsSession, senderName, senderDev, hr])]
  cases who with
  | true =>
    have hrel := rel_apart h.rel false st1
      (by rw [show get cw false = w.R.send.store from h.R.symm]; exact ha.toApart)
      (fun _ => by rw [← h.R]; exact ⟨fun _ _ => congrFun ha.preKeys _, congrFun ha.signedPreKeys _⟩)
    exact ⟨st1, old st1 hrel, hrel, rfl, rfl⟩
  | false =>
    rcases h.I with hI | ⟨h1, h2, h3⟩
    · have hrel := rel_apart h.rel true st1
        (by rw [show get cw true = w.I.send.store from hI.symm]; exact ha.toApart) (fun h => by cases h)
      exact ⟨st1, old st1 hrel, hrel, rfl, rfl⟩
    · have hnil : s.said = [] := by
        have := h.said.length_eq
        rw [h1] at this
        exact List.eq_nil_of_length_eq_zero this.symm
      obtain ⟨f1, f2, r, f3, f4⟩ := hfirst rfl hnil
      have ha' : Aside S.nameR S.devR S.idR.pub w.I.send.store st1 := ha
      have hu := unbegun_apart h3 ha'.toApart
      obtain ⟨S', hS'⟩ : ∃ S' : Setup, S' = { S with initiator := st1, responder := cw.R } := ⟨_, rfl⟩
      have hfr := h.rel.freshR (by rw [h1])
      have hok : S'.Ok P := by
        rw [hS']
        exact { hS with
          iIdent := ha'.identity.trans h.identI.1, iReg := ha'.regId.trans h.identI.2, iTrust := hu.trust
          iNone := hu.none, rIdent := h.rel.identR, rReg := h.rel.regR, rTrust := h.rel.trustR
          rNone := hfr.1, rSpk := h.rel.spkR, rOpk := hfr.2 }
      obtain ⟨i1, i2⟩ := init_rel hok (by rw [hS']; exact hne)
      refine ⟨(World.init P S').I, ?_, ?_, ?_⟩
      · unfold Send.ensureSession
        rw [if_neg (by
          have := hu.none
          simp [containsSession, senderName, senderDev, this])]
        have f3 : D.prekeys (senderDev S (!false)) = .ok r := f3
        rw [f3]
        simp only [f4, henv, f1, f2]
        rw [hS'] at i1 ⊢
        exact Prod.ext rfl i1
      · rw [h1, h2]
        have hwire : cw.wire = [] := by
          have := h.rel.log.length_eq
          rw [h1] at this
          exact List.eq_nil_of_length_eq_zero this.symm
        rw [hS'] at i2 ⊢
        show Rel P S (initG P S) {} ⟨_, cw.R, cw.wire⟩
        rw [hwire]
        exact ⟨i2.chain, i2.len, i2.parI, i2.parR, i2.adj, i2.g0, i2.sessI, i2.sessR, i2.freshR, i2.trustI,
          i2.trustR, i2.knownI, i2.knownR, i2.identR, i2.regR, i2.spkR, i2.log, i2.logE, i2.acc⟩
      · rw [hS']
        exact applyWrites_own _ st1

theorem cstep_send {P : Prims} {S : Setup} {G : List Epoch} {s : Sight} {w : Pair} {cw : Conv.World}
    (hS : S.Ok P) (hN : Named S) (hne : S.spk.pub ≠ (newPair P S.rr).pub) (h : CRel P S G s w cw)
    (who : Bool) (X : Send.SendExt) (m : Send.OutMsg)
    (hl : SendOk P S s w who X m) (hb : s.abs.log.length + 2 < u32) : CStepOk P S G s w (.send who X m) := by
  obtain ⟨b, hm, hlen⟩ := hl.enc
  obtain ⟨d, hd⟩ : ∃ d, d = Send.createMessage X.now X.profileKey m := ⟨_, rfl⟩
  have henc : encoded X d = b := by rw [hd]; simp [encoded, hm]
  obtain ⟨pt, hpt⟩ : ∃ pt, pt = Files.padMessage b := ⟨_, rfl⟩
  have hptl : pt.length < 2 ^ 60 := by rw [hpt]; exact pad_len b hlen
  have hname : Receive.recID (senderName S (!who)) = .ok (senderName S (!who)) := by
    cases who
    · exact hN.nameR
    · exact hN.nameI
  have hdst := hl.dest
  -- what encrypting does
  have enc : ∀ st2, Rel P S G s.abs (put cw (!who) st2) → ∃ ct ty rr,
      (encryptMsg P {} st2 (senderName S (!who)) (senderDev S (!who)) pt).res = .ok (ct, ty) ∧
      remoteRegId (applyWrites st2 (encryptMsg P {} st2 (senderName S (!who)) (senderDev S (!who)) pt).writes)
        (senderName S (!who)) (senderDev S (!who)) = .ok rr ∧
      Rel P S G (s.abs.step (.send who pt)) { put cw (!who) (applyWrites st2
        (encryptMsg P {} st2 (senderName S (!who)) (senderDev S (!who)) pt).writes) with
        wire := cw.wire ++ [(who, ct, ty)] } := by
    intro st2 hr
    have hst := step_send hS hr who pt ⟨hl.session, hptl⟩ hb
    obtain ⟨ct, ty, hres⟩ := sent_ok hst
    have hg : (if who then (put cw (!who) st2).R else (put cw (!who) st2).I) = st2 := by cases who <;> rfl
    rw [hg] at hres
    obtain ⟨_, G', hrel, hG⟩ := hst
    have hG' : G' = G := by
      rcases hG with h | ⟨g, i, rnd, h, _⟩
      · exact h
      · cases h
    subst hG'
    rw [conv_send P S _ who pt ct ty st2 (get_put cw (!who) st2) hres, put_put, put_wire] at hrel
    refine ⟨ct, ty, ?_⟩
    obtain ⟨st3, hst3⟩ : ∃ st3, st3 = applyWrites st2
      (encryptMsg P {} st2 (senderName S (!who)) (senderDev S (!who)) pt).writes := ⟨_, rfl⟩
    rw [← hst3] at hrel ⊢
    have hgood : ∃ r, st3.sessions (Names.sessName (senderName S (!who)) (senderDev S (!who))) = .good r := by
      cases who with
      | false =>
        obtain ⟨r, hr, _⟩ := hrel.sessI
        exact ⟨r, hr⟩
      | true =>
        obtain ⟨r, hr, _⟩ := hrel.sessR (hl.session rfl)
        exact ⟨r, hr⟩
    obtain ⟨r, hr⟩ := hgood
    obtain ⟨rr, hrr⟩ := remoteReg_good hr
    exact ⟨rr, hres, hrr, hrel⟩
  have hrdy := ready hS hne h who
  have hdev : senderDev S (!who) ∈ ((w.client who).send.devices (senderName S (!who))).getD [1] ∧
      (((w.client who).send.devices (senderName S (!who))).getD [1]).Nodup := by
    cases who
    · exact h.devR
    · exact h.devI
  have hfst : ∀ i, (((w.client who).send.devices (senderName S (!who))).getD [1])[i]? = some (senderDev S (!who)) →
      who = false → s.said = [] → (X.D 0 i).rb = S.rb ∧ (X.D 0 i).rr = S.rr ∧
      ∃ r, (X.D 0 i).prekeys S.devR = .ok r ∧ Send.makeBundle r = .ok (S.devR, S.bundle) := by
    intro i hi hw h0
    subst hw
    refine hl.first h0 i ?_
    rw [hdst]
    exact hi
  have hoth := hl.others
  have hreach := hl.reaches
  have hself := hl.self
  simp only [Reaches, Client.devs, hdst] at hoth hreach hself
  obtain ⟨i, st1, st2, ct, ty, rr, hi, ha1, hens, hres, ha3, hout, hnew, hdv⟩ :=
    sendMessage_many P X m (w.client who).send (senderName S (!who)) (senderDev S (!who)) (senderKey S (!who)) b
      hdst hname hm hl.env hl.srv hdev hself hoth hreach (by
        intro i st1 hi ha
        obtain ⟨st2, e1, e2, _⟩ := hrdy (X.D 0 i) st1 (hl.env i) hl.session (hfst i hi) ha
        obtain ⟨ct, ty, rr, e3, e4, _⟩ := enc st2 e2
        rw [hpt] at e3 e4
        exact ⟨st2, ct, ty, rr, e1, e3, e4⟩)
  rw [← hpt] at hres ha3
  obtain ⟨st2', e1, e2, e3, e4⟩ := hrdy (X.D 0 i) st1 (hl.env i) hl.session (hfst i hi) ha1
  rw [hens] at e1
  cases e1
  obtain ⟨ct', ty', rr', g1, g2, g3⟩ := enc st2 e2
  rw [hres] at g1
  cases g1
  obtain ⟨st3, hst3⟩ : ∃ st3, st3 = applyWrites st2
      (encryptMsg P {} st2 (senderName S (!who)) (senderDev S (!who)) pt).writes := ⟨_, rfl⟩
  have hown3 : st3.identity = st2.identity ∧ st3.regId = st2.regId := by rw [hst3]; exact applyWrites_own _ st2
  rw [← hst3] at ha3 g3
  obtain ⟨s', hs'⟩ : ∃ s', s' = (Send.sendMessage P X 2 m (w.client who).send).1 := ⟨_, rfl⟩
  rw [← hs'] at ha3 hnew hdv
  have hfin := rel_apart g3 (!who) s'.store (by
      rw [show get { put cw (!who) st3 with wire := cw.wire ++ [(who, ct, ty)] } (!who) = st3 by cases who <;> rfl]
      exact ha3.toApart)
    (by
      intro hw
      have hw : who = true := by cases who; cases hw; rfl
      subst hw
      exact ⟨fun _ _ => congrFun ha3.preKeys _, congrFun ha3.signedPreKeys _⟩)
  rw [show put { put cw (!who) st3 with wire := cw.wire ++ [(who, ct, ty)] } (!who) s'.store =
    { put cw (!who) s'.store with wire := cw.wire ++ [(who, ct, ty)] } by cases who <;> rfl] at hfin
  have hsaid : List.Forall₂ Said (s.step (.send who X m)).abs.log (s.step (.send who X m)).said := by
    simp only [Sight.step, Abs.step]
    exact List.rel_append h.said (List.Forall₂.cons rfl List.Forall₂.nil)
  have hsa : (s.step (.send who X m)).abs = s.abs.step (.send who pt) := by
    simp only [Sight.step, ← hd, henc, hpt]
  have hown : s'.store.identity = (w.client who).send.store.identity ∧
      s'.store.regId = (w.client who).send.store.regId :=
    ⟨(ha3.identity.trans hown3.1).trans (e3.trans ha1.identity), (ha3.regId.trans hown3.2).trans (e4.trans ha1.regId)⟩
  have hknown : ∀ c : Client, c.send = s' → senderDev S (!who) ∈ c.devs (senderName S (!who)) ∧
      (c.devs (senderName S (!who))).Nodup := by
    intro c hc
    unfold Client.devs
    rw [hc, hdv]
    exact hdev
  have hstep : w.step P (.send who X m) = ({ putC w (!who) { (w.client who) with send := s' } with
      wire := w.wire ++ [(who, ⟨Send.typeNum ty, senderDev S (!who), rr, Encoding.b64Encode ct⟩)] },
      .sent (some (.ok d.timestamp))) := by
    have hnum : (if who then w.devI else w.devR) = senderDev S (!who) := by
      cases who
      · exact h.numR
      · exact h.numI
    rw [← hdst] at hnew
    rw [← hnum] at hnew ⊢
    rw [← hd] at hout
    cases who with
    | false =>
      have hs'' : (Send.sendMessage P X 2 m w.I.send).1 = s' := hs'.symm
      have hout' : (Send.sendMessage P X 2 m w.I.send).2 = some (.ok d.timestamp) := hout
      have hnew' : newMsgs m.destination w.devR w.I.send.log s'.log = _ := hnew
      simp only [Pair.step, hs'', hout', hnew']
      rfl
    | true =>
      have hs'' : (Send.sendMessage P X 2 m w.R.send).1 = s' := hs'.symm
      have hout' : (Send.sendMessage P X 2 m w.R.send).2 = some (.ok d.timestamp) := hout
      have hnew' : newMsgs m.destination w.devI w.R.send.log s'.log = _ := hnew
      simp only [Pair.step, hs'', hout', hnew']
      rfl
  refine ⟨?_, G, { put cw (!who) s'.store with wire := cw.wire ++ [(who, ct, ty)] }, ?_, Or.inl rfl⟩
  · rw [hstep]
    simp only [Sight.want, CAgree, hd]
  · rw [hstep]
    rw [← hsa] at hfin
    have hwire := List.rel_append h.wire (List.Forall₂.cons
      (⟨rfl, rfl, rfl⟩ : OnWire (who, ct, ty) (who, ⟨Send.typeNum ty, senderDev S (!who), rr, Encoding.b64Encode ct⟩))
      List.Forall₂.nil)
    cases who with
    | false =>
      exact { rel := hfin, I := Or.inl rfl, R := h.R, wire := hwire, said := hsaid, devR := hknown _ rfl
              devI := h.devI, numI := h.numI, numR := h.numR
              identI := ⟨hown.1.trans h.identI.1, hown.2.trans h.identI.2⟩ }
    | true =>
      have hne0 : s.abs ≠ {} := fun hx => hl.session rfl (by rw [hx])
      exact { rel := hfin, I := Or.inl (h.I.resolve_right (fun hx => hne0 hx.1)), R := rfl, wire := hwire
              said := hsaid, devR := h.devR, devI := hknown _ rfl, numI := h.numI, numR := h.numR
              identI := h.identI }

/-! ## Delivery -/

theorem conv_deliver (P : Prims) (S : Setup) (cw : Conv.World) (i : Nat) (rnd : Nat → Bytes) (who : Bool)
    (b : Bytes) (ty : MsgType) (h : cw.wire[i]? = some (who, b, ty)) :
    cw.step P S (.deliver i rnd) =
      (put cw who (applyWrites (get cw who)
        (receive P rnd (get cw who) (senderName S who) (senderDev S who) b ty).writes),
       .received (receive P rnd (get cw who) (senderName S who) (senderDev S who) b ty).res) := by
  cases who <;> simp [World.step, h, put, get, senderName, senderDev]

theorem pair_deliver (P : Prims) (w : Pair) (i : Nat) (X : Receive.Ext) (id : Nat) (body : Bytes)
    (atts : List Bytes) (g : Option Bytes) (who : Bool) (j : Send.JMsg) (h : w.wire[i]? = some (who, j)) :
    w.step P (.deliver i X id body atts g) =
      (putC w who (hear P (getC w who) X id body).1, (hear P (getC w who) X id body).2) := by
  cases who <;> simp [Pair.step, h, putC, getC]

theorem step_log (a : Abs) (i : Nat) (rnd : Nat → Bytes) : (a.step (.deliver i rnd)).log = a.log := by
  simp only [Abs.step]
  split
  · rfl
  · split
    · unfold Abs.accept
      simp only
      split
      · split <;> rfl
      · rfl
    · rfl

theorem crel_put {P : Prims} {S : Setup} {G G' : List Epoch} {s : Sight} {w : Pair} {cw : Conv.World}
    (h : CRel P S G s w cw) (hne : s.abs ≠ {}) (who : Bool) (st : Store) (a' : Abs)
    (hrel : Rel P S G' a' (put cw who st)) (hlog : a'.log = s.abs.log)
    (hown : st.identity = (get cw who).identity ∧ st.regId = (get cw who).regId) (cts : String → Option Bytes) :
    CRel P S G' ⟨a', s.said⟩ (putC w who ⟨{ (getC w who).send with store := st }, cts⟩) (put cw who st) := by
  have hI : w.I.send.store = cw.I := h.I.resolve_right (fun hx => hne hx.1)
  cases who with
  | false =>
    exact { rel := hrel, I := Or.inl hI, R := rfl, wire := h.wire, said := by rw [hlog]; exact h.said
            devR := h.devR, devI := h.devI, numI := h.numI, numR := h.numR, identI := h.identI }
  | true =>
    have hg : get cw true = w.I.send.store := hI.symm
    rw [hg] at hown
    exact { rel := hrel, I := Or.inl rfl, R := h.R, wire := h.wire, said := by rw [hlog]; exact h.said
            devR := h.devR, devI := h.devI, numI := h.numI, numR := h.numR
            identI := ⟨hown.1.trans h.identI.1, hown.2.trans h.identI.2⟩ }

theorem same_G {P S G G' a w w'} (h : Rel P S G a w) (h' : Rel P S G' a w') {ev : Ev}
    (hG : G' = G ∨ ∃ g i rnd, ev = .deliver i rnd ∧ G' = G ++ [g] ∧ g.kp = newPair P (rnd 0)) : G' = G := by
  rcases hG with hG | ⟨g, i, rnd, _, hG, _⟩
  · exact hG
  · have h1 := h.len
    have h2 := h'.len
    rw [hG] at h2
    simp only [List.length_append, List.length_singleton] at h2
    omega

theorem cstep_deliver {P : Prims} {S : Setup} {G : List Epoch} {s : Sight} {w : Pair} {cw : Conv.World}
    {loc : Send.WireAtt → Bytes}
    (hS : S.Ok P) (hN : Named S) (h : CRel P S G s w cw)
    (i : Nat) (X : Receive.Ext) (id : Nat) (body : Bytes) (atts : List Bytes) (g : Option Bytes)
    (hl : DeliverOk P S loc s w i X body atts g) (hgo : s.GoesOn i)
    (hnf : (CEv.deliver i X id body atts g).NoForgery P S s w)
    (hfr : ∀ x ∈ G, x.kp.pub ≠ (newPair P (X.rnd 0)).pub ∧ x.kp.pub ≠ (newPair P (X.rnd' 0)).pub)
    (hb : s.abs.log.length + 1 < u32) : CStepOk P S G s w (.deliver i X id body atts g) := by
  cases hm : s.abs.log[i]? with
  | none =>
    have h1 := (forall₂_get h.rel.log i).1 hm
    have h2 := (forall₂_get h.wire i).1 h1
    have hs1 : s.step (.deliver i X id body atts g) = s := by
      simp only [Sight.step, Abs.step, hm]
    refine ⟨?_, G, cw, ?_, Or.inl rfl⟩
    · simp [Sight.want, hm, Pair.step, h2, CAgree]
    · rw [hs1]
      simp only [Pair.step, h2]
      exact h
  | some m =>
    obtain ⟨x, hx, hmx⟩ := (forall₂_get h.rel.log i).2 m hm
    obtain ⟨jj, hj, how⟩ := (forall₂_get h.wire i).2 x hx
    obtain ⟨d, hd, hpt⟩ := (forall₂_get h.said i).2 m hm
    obtain ⟨who, b, ty⟩ := x
    obtain ⟨who', j⟩ := jj
    obtain ⟨how1, how2, how3⟩ := how
    simp only at how1 how2 how3
    subst how1
    have hwho : who' = decide (m.epoch % 2 = 0) := by
      obtain ⟨_, _, _, hh, _⟩ := hmx
      exact hh
    have hane : s.abs ≠ {} := by
      intro hx
      rw [hx] at hm
      simp at hm
    have hI : w.I.send.store = cw.I := h.I.resolve_right (fun hx => hane hx.1)
    have hst : (getC w who').send.store = get cw who' := by
      cases who'
      · exact h.R
      · exact hI
    have hdec : Encoding.b64Quanta j.content = some b := by rw [how3]; exact Encoding.quanta_encode b
    have hname : Receive.recID (senderName S who') = .ok (senderName S who') := by
      cases who'
      · exact hN.nameI
      · exact hN.nameR
    have hheard : Heard P S X who' b ty body := by
      refine ⟨hl.env, hname, ?_⟩
      obtain ⟨h1, pt, e, h2, h3, h4, h5, h6, h7⟩ := hl.carried who' j hj
      exact ⟨h1, pt, e, h2, h3, by rw [h4, how2], h5, h6, by rw [h7, hdec]⟩
    obtain ⟨hok, herr, hstale⟩ := hear_eq P S X who' b ty id body (getC w who') hheard
    rw [hst] at hok herr hstale
    obtain ⟨o, ho⟩ : ∃ o, o = receive P X.rnd (get cw who') (senderName S who') (senderDev S who') b ty := ⟨_, rfl⟩
    rw [← ho] at hok herr hstale
    obtain ⟨st1, hst1⟩ : ∃ st1, st1 = applyWrites (get cw who') o.writes := ⟨_, rfl⟩
    rw [← hst1] at hok herr hstale
    obtain ⟨o', ho'⟩ : ∃ o', o' = receive P X.rnd' st1 (senderName S who') (senderDev S who') b ty := ⟨_, rfl⟩
    rw [← ho'] at herr hstale
    have hown1 : st1.identity = (get cw who').identity ∧ st1.regId = (get cw who').regId := by
      rw [hst1]
      exact applyWrites_own _ _
    have hown2 : (applyWrites st1 o'.writes).identity = (get cw who').identity ∧
        (applyWrites st1 o'.writes).regId = (get cw who').regId := by
      obtain ⟨h1, h2⟩ := applyWrites_own o'.writes st1
      exact ⟨h1.trans hown1.1, h2.trans hown1.2⟩
    have hcd : cw.step P S (.deliver i X.rnd) = (put cw who' st1, .received o.res) := by
      rw [conv_deliver P S cw i X.rnd who' b ty hx, ← ho, ← hst1]
    have hcd' : (put cw who' st1).step P S (.deliver i X.rnd') =
        (put cw who' (applyWrites st1 o'.writes), .received o'.res) := by
      rw [conv_deliver P S (put cw who' st1) i X.rnd' who' b ty (by rw [put_wire]; exact hx), get_put, put_put,
        ← ho']
    have hgs : (if who' = true then w.I else w.R) = getC w who' := rfl
    have hnf' : s.abs.want (.deliver i X.rnd) = .stale →
        (∀ pt, o.res ≠ .ok pt) ∧ ∀ pt, o'.res ≠ .ok pt := by
      intro hs
      have := hnf hs who' j b ty hj hdec how2
      simp only [hgs, hst, ← ho, ← hst1, ← ho'] at this
      exact this
    have hS1 : StepOk P S G s.abs cw (.deliver i X.rnd) := by
      refine step_deliver hS h.rel i X.rnd hl.rnd.1 (fun x hx => (hfr x hx).1) hb ?_
      intro hs pt
      rw [hcd]
      intro he
      exact (hnf' hs).1 pt (by simpa using he)
    obtain ⟨hag, G', hrel, hG⟩ := hS1
    rw [hcd] at hag hrel
    have hlog := step_log s.abs i X.rnd
    have hpd := pair_deliver P w i X id body atts g who' j hj
    have hso : (getC w who').send = { (getC w who').send with store := get cw who' } := by
      rw [← hst]
    cases hexp : s.abs.expect m with
    | accept =>
      have hwant : s.abs.want (.deliver i X.rnd) = .got m.pt := by simp [Abs.want, hm, hexp]
      rw [hwant] at hag
      have hres : o.res = .ok m.pt := by
        cases hr : o.res with
        | ok pt => rw [hr] at hag; rw [show pt = m.pt from hag]
        | err e => rw [hr] at hag; exact hag.elim
        | panic => rw [hr] at hag; exact hag.elim
      obtain ⟨hp1, hp2, hp3⟩ := hl.parsed d hd
      obtain ⟨ts, _, hok⟩ := hok m.pt hres
      obtain ⟨cts, hmsg⟩ := handle_ok P X loc (senderName S who') ts d.1 (Files.stripPadding m.pt) atts g
        ⟨st1, (getC w who').contacts, [], (getC w who').send.devices, (getC w who').send.log⟩ hl.cb (hgo d hd) hl.contacts
        (by rw [hpt, Props.C29_padding_round_trip]; exact hp1) hp2 hp3
      have := hok _ hmsg
      simp only [List.nil_append, List.cons_append] at this
      rw [this] at hpd
      refine ⟨?_, G', put cw who' st1, ?_, ?_⟩
      · rw [hpd]
        simp only [Sight.want, hm, hd, hexp, CAgree, hwho, and_self]
      · rw [hpd]
        exact crel_put h hane who' st1 _ hrel hlog hown1 _
      · rcases hG with hG | ⟨ge, i', rnd', he, hG, hk⟩
        · exact Or.inl hG
        · cases he
          exact Or.inr ⟨ge, hG, by simp [keysOf, hk]⟩
    | refuse =>
      have hwant : ∀ rnd, s.abs.want (.deliver i rnd) = .refused := by intro rnd; simp [Abs.want, hm, hexp]
      have hsame : ∀ rnd, s.abs.step (.deliver i rnd) = s.abs := by intro rnd; simp [Abs.step, hm, hexp]
      rw [hwant] at hag
      rw [hsame] at hrel
      have hG1 := same_G h.rel hrel hG
      subst hG1
      have hS2 := step_deliver hS hrel i X.rnd' hl.rnd.2 (fun x hx => (hfr x hx).2) hb
        (by rw [hwant]; intro hx; cases hx)
      obtain ⟨hag2, G2, hrel2, hG2⟩ := hS2
      rw [hcd', hwant] at hag2
      rw [hcd', hsame] at hrel2
      have hG2 := same_G hrel hrel2 hG2
      subst hG2
      have e1 : ∃ e, o.res = .err e := by
        cases hr : o.res with
        | ok pt => rw [hr] at hag; exact hag.elim
        | err e => exact ⟨e, rfl⟩
        | panic => rw [hr] at hag; exact hag.elim
      have e2 : ∃ e, o'.res = .err e := by
        cases hr : o'.res with
        | ok pt => rw [hr] at hag2; exact hag2.elim
        | err e => exact ⟨e, rfl⟩
        | panic => rw [hr] at hag2; exact hag2.elim
      have hab : s.step (.deliver i X id body atts g) = ⟨s.abs, s.said⟩ := by
        simp only [Sight.step, hsame]
      rw [CStepOk, hab, hpd]
      rcases herr e1 e2 with hh | hh
      · rw [hh]
        exact ⟨by simp only [Sight.want, hm, hd, hexp, CAgree, and_self], G2, put cw who' st1,
          crel_put h hane who' st1 _ hrel rfl hown1 _, Or.inl rfl⟩
      · rw [hh]
        exact ⟨by simp only [Sight.want, hm, hd, hexp, CAgree, and_self], G2,
          put cw who' (applyWrites st1 o'.writes), crel_put h hane who' _ _ hrel2 rfl hown2 _, Or.inl rfl⟩
    | stale =>
      have hwant : ∀ rnd, s.abs.want (.deliver i rnd) = .stale := by intro rnd; simp [Abs.want, hm, hexp]
      have hsame : ∀ rnd, s.abs.step (.deliver i rnd) = s.abs := by intro rnd; simp [Abs.step, hm, hexp]
      obtain ⟨hn1, hn2⟩ := hnf' (hwant _)
      rw [hsame] at hrel
      have hG1 := same_G h.rel hrel hG
      subst hG1
      have hS2 := step_deliver hS hrel i X.rnd' hl.rnd.2 (fun x hx => (hfr x hx).2) hb
        (by
          intro _ pt
          rw [hcd']
          intro he
          exact hn2 pt (by simpa using he))
      obtain ⟨hag2, G2, hrel2, hG2⟩ := hS2
      rw [hcd', hsame] at hrel2
      have hG2 := same_G hrel hrel2 hG2
      subst hG2
      have hab : s.step (.deliver i X id body atts g) = ⟨s.abs, s.said⟩ := by
        simp only [Sight.step, hsame]
      rw [CStepOk, hab, hpd]
      obtain ⟨evs, e, hh, hev⟩ := hstale hn1
      have hag3 : CAgree (s.want S (.deliver i X id body atts g)) (.told evs e) := by
        simp only [Sight.want, hm, hd, hexp]
        exact hev
      rcases hh with hh | hh
      · rw [hh]
        exact ⟨hag3, G2, put cw who' st1, crel_put h hane who' st1 _ hrel rfl hown1 _, Or.inl rfl⟩
      · rw [hh]
        exact ⟨hag3, G2, put cw who' (applyWrites st1 o'.writes), crel_put h hane who' _ _ hrel2 rfl hown2 _,
          Or.inl rfl⟩

/-! ## Whole schedules -/

theorem csimulate {P : Prims} {S : Setup} {loc : Send.WireAtt → Bytes} (hS : S.Ok P) (hN : Named S)
    (hne : S.spk.pub ≠ (newPair P S.rr).pub) (more : List Bytes) : ∀ (evs : List CEv) (G : List Epoch) (s : Sight)
    (w : Pair) (cw : Conv.World), CRel P S G s w cw → Ok P S loc s w evs →
    (G.map (fun g => g.kp.pub) ++ keysOf P evs ++ more).Nodup → s.abs.log.length + evs.length + 1 < u32 →
    List.Forall₂ CAgree (wants S s evs) (Pair.outs P w evs) ∧
    ∃ G' cw', CRel P S G' (s.run evs) (w.run P evs) cw' ∧ (G'.map (fun g => g.kp.pub) ++ more).Nodup ∧
      (s.run evs).abs.log.length ≤ s.abs.log.length + evs.length := by
  intro evs
  induction evs with
  | nil =>
    intro G s w cw h _ hn _
    exact ⟨List.Forall₂.nil, G, cw, h, by simpa [keysOf] using hn, Nat.le_refl _⟩
  | cons ev evs ih =>
    intro G s w cw h hl hn hb
    simp only [List.length_cons] at hb
    have hsplit : keysOf P (ev :: evs) = keysOf P [ev] ++ keysOf P evs := by
      simp [keysOf]
    rw [hsplit] at hn
    have hstep : CStepOk P S G s w ev := by
      cases ev with
      | send who X m => exact cstep_send hS hN hne h who X m hl.1 (by omega)
      | deliver i X id body atts g =>
        refine cstep_deliver hS hN h i X id body atts g hl.1.1 hl.1.2 hl.2.1 ?_ (by omega)
        intro x hx
        rw [List.append_assoc, List.nodup_append] at hn
        have hh := hn.2.2 x.kp.pub (List.mem_map.mpr ⟨x, hx, rfl⟩)
        exact ⟨hh _ (by simp [keysOf]), hh _ (by simp [keysOf])⟩
      | other who c => exact cstep_other h who c hl.1
    obtain ⟨hag, G', cw', hrel, hG⟩ := hstep
    have hll : (s.step ev).abs.log.length ≤ s.abs.log.length + 1 := by
      cases ev with
      | send who X m => simp [Sight.step, Abs.step]
      | deliver i X id body atts g => simp [Sight.step, step_log]
      | other who c => simp [Sight.step]
    have hn' : (G'.map (fun g => g.kp.pub) ++ keysOf P evs ++ more).Nodup := by
      rcases hG with rfl | ⟨ge, rfl, hk⟩
      · refine hn.sublist (List.Sublist.append (List.Sublist.append (List.Sublist.refl _) ?_) (List.Sublist.refl _))
        exact List.sublist_append_right _ _
      · refine hn.sublist (List.Sublist.append ?_ (List.Sublist.refl _))
        rw [List.map_append, List.append_assoc]
        refine List.Sublist.append (List.Sublist.refl _) ?_
        refine List.Sublist.append ?_ (List.Sublist.refl _)
        simpa using hk
    obtain ⟨h1, G2, cw2, h2, h3, h4⟩ := ih G' _ _ cw' hrel hl.2.2 hn' (by omega)
    refine ⟨List.Forall₂.cons hag h1, G2, cw2, h2, h3, ?_⟩
    have : (s.run (ev :: evs)).abs.log.length = ((s.step ev).run evs).abs.log.length := rfl
    rw [this]
    simp only [List.length_cons]
    omega

end Verif.Clients
