import Verif.Proof.Send
import Verif.Props.Demo
import Verif.Props.Encoding
import Mathlib.Tactic.ByContra
/-!
# Properties of the send path (C49-C51, C66-C68)
-/
namespace Verif.Props.Send
open Verif Verif.Keys Verif.Messages Verif.Session Verif.Api Verif.Names Verif.Send

/-! ## A concrete recipient -/

/-- The text of Bob's prekey reply for device `d`. -/
def reply (d reg : Nat) : PkReply :=
  { identityKey := Encoding.encodeKey Demo.bobId.pub
    devices := [{ deviceId := d, registrationId := reg
                  signedPreKey := some ⟨5, Encoding.encodeKey Demo.bobSpk.pub,
                    Encoding.b64EncodeNoPad (Demo.toySig Demo.bobId (ser Demo.bobSpk.pub))⟩
                  preKey := some ⟨7, Encoding.encodeKey Demo.bobOpk.pub⟩ }] }

/-- Bob's devices 1 and 3 are registered. -/
def ext : DevExt :=
  { prekeys := fun d => if d = 1 ∨ d = 3 then .ok (reply d (1000 + d)) else .err .http
    rb := List.replicate 32 59, rr := List.replicate 32 70 }

def state (st : Store) (ds : List Nat) : State := ⟨st, fun u => if u = "bob" then some ds else none, []⟩

/-! ## C50 One ciphertext per device -/

/-- The entry for one device, `st` being the store before the request was built and `st2` after it: the
session is the stored one or, if there was none, one built from the bundle the server returned for this
device; the entry carries the base64 of the encryption of the plaintext under that session, the type of
that message and the registration id recorded in that session; and `st2` holds the advanced session. -/
def Entry (P : Prims) (D : DevExt) (st st2 : Store) (recid : String) (d : Nat) (pt : Bytes) (m : JMsg) :
    Prop :=
  ∃ r s' ct ty, Origin P D st recid d r ∧ encryptState P r.cur pt = .ok (s', ct, ty) ∧
    st2.sessions (sessName recid d) = .good { r with cur := s', fresh := false } ∧
    m.dev = d ∧ m.type = (match ty with | .whisper => 1 | .prekey => 3) ∧
    m.regId = r.cur.remoteReg ∧ m.content = Encoding.b64Encode ct

/-- For all device lists and stores: if the message is built, it has one entry per addressed device, in
order; if no device is listed twice each is an `Entry` of its device; and sessions with anyone else are
as before. -/
theorem C50_one_entry_per_device (P : Prims) (D : Nat → DevExt) (st st2 : Store) (receiver recid : String)
    (pt : Bytes) (devs : List Nat) (ms : List JMsg) (hrec : Receive.recID receiver = .ok recid)
    (h : buildMessage P D st receiver pt devs = (st2, .ok ms)) :
    ms.map JMsg.dev = devs ∧
    (devs.Nodup → ∀ j d, devs[j]? = some d → ∃ m, ms[j]? = some m ∧ Entry P (D j) st st2 recid d pt m) ∧
    (∀ rec' d, rec' ≠ recid ∨ d ∉ devs →
      st2.sessions (sessName rec' d) = st.sessions (sessName rec' d)) := by
  obtain ⟨recid', hr, hl⟩ := buildMessage_inv P D st st2 receiver pt devs ms h
  rw [hrec] at hr
  cases hr
  obtain ⟨h1, _, h3⟩ := buildLoop_ok P D recid pt devs 0 st st2 ms hl
  refine ⟨h1, ?_, ?_⟩
  · intro hnd j d hj
    obtain ⟨r, s', ct, ty, ho, he, hm, hs⟩ := buildLoop_entry P D recid pt devs 0 st st2 ms hnd hl j d hj
    rw [Nat.zero_add] at ho
    exact ⟨_, hm, r, s', ct, ty, ho, he, hs, rfl, by cases ty <;> rfl,
      (encryptState_keeps P _ _ _ _ _ he).2.1, rfl⟩
  · intro rec' d hd
    apply h3
    intro x hx he
    obtain ⟨e1, e2⟩ := sessName_inj he
    rcases hd with hd | hd
    · exact hd e1
    · exact hd (e2 ▸ hx)

/-- The base64 text of an entry decodes to the ciphertext. -/
theorem C50_content_decodes (ct : Bytes) :
    Encoding.b64DecodeNoPad (Encoding.b64EncodeNoPad ct) = .ok ct := Encoding.b64_round_trip ct

/-- Two devices, one with a session and one without. -/
example : (match buildMessage Demo.P (fun _ => ext) (Demo.aliceBuilt 7) "bob" [9] [1, 3] with
    | (_, .ok ms) => ms.map (fun m => (m.type, m.dev, m.regId))
    | _ => []) = [(3, 1, 1002), (3, 3, 1003)] := by decide +kernel

/-! ## C49 Device reconciliation -/

/-- Devices a request addresses. -/
def addressed (q : Request) : List Nat := q.msgs.map JMsg.dev

/-- The requests of a run, in order: the first addresses `ds`, and after each reply the next one, if any,
addresses what the reply asks for. -/
inductive Follows (srv : Nat → Request → Reply) (uuid : String) (ts : Nat) : Nat → List Nat → List Request → Prop
  | none (k ds) : Follows srv uuid ts k ds []
  | last (k ds q) (h : addressed q = ds) (hd : q.dest = uuid) (ht : q.ts = ts) : Follows srv uuid ts k ds [q]
  | mismatched (k ds q qs missing extra ds') (h : addressed q = ds) (hd : q.dest = uuid) (ht : q.ts = ts)
      (hr : srv k q = .mismatched missing extra)
      (hds : ds' = (ds.filter fun d => d ∉ extra) ++ missing) (hq : Follows srv uuid ts (k + 1) ds' qs) :
      Follows srv uuid ts k ds (q :: qs)
  | stale (k ds q qs l) (h : addressed q = ds) (hd : q.dest = uuid) (ht : q.ts = ts)
      (hr : srv k q = .stale l) (hq : Follows srv uuid ts (k + 1) ds qs) : Follows srv uuid ts k ds (q :: qs)

/-- For all environments, servers, attempts and states: the requests made follow the replies. -/
theorem C49_requests_follow_replies (P : Prims) (D : Nat → Nat → DevExt) (srv : Nat → Request → Reply)
    (uuid : String) (pt : Bytes) (ts fuel k : Nat) (s : State) :
    ∃ qs, (sendLoop P D srv uuid pt ts fuel k s).1.log = s.log ++ qs ∧
      Follows srv uuid ts k (s.devs uuid) qs := by
  induction fuel generalizing k s with
  | zero => exact ⟨[], by simp [sendLoop], .none _ _⟩
  | succ fuel ih =>
    unfold sendLoop
    rcases hb : buildMessage P (D k) s.store uuid pt (s.devs uuid) with ⟨st1, r⟩
    cases r with
    | err e => exact ⟨[], by simp, .none _ _⟩
    | panic => exact ⟨[], by simp, .none _ _⟩
    | ok ms =>
      obtain ⟨recid, hr, hl⟩ := buildMessage_inv P (D k) s.store st1 uuid pt _ ms hb
      have ha : addressed ⟨uuid, ts, ms⟩ = s.devs uuid :=
        (buildLoop_ok P (D k) recid pt _ _ _ _ _ hl).1
      simp only
      cases hsrv : srv k ⟨uuid, ts, ms⟩ with
      | netErr => exact ⟨[_], rfl, .last _ _ _ ha rfl rfl⟩
      | status => exact ⟨[_], rfl, .last _ _ _ ha rfl rfl⟩
      | ok ns => exact ⟨[_], rfl, .last _ _ _ ha rfl rfl⟩
      | mismatched missing extra =>
        simp only
        obtain ⟨qs, h1, h2⟩ := ih (k + 1)
          ⟨st1, fun u => if u = uuid then some (reconcile (s.devs uuid) missing extra) else s.devices u,
            s.log ++ [⟨uuid, ts, ms⟩]⟩
        refine ⟨⟨uuid, ts, ms⟩ :: qs, by rw [h1]; simp, .mismatched _ _ _ _ _ _ _ ha rfl rfl hsrv ?_ h2⟩
        simp [State.devs, reconcile]
      | stale l =>
        simp only
        obtain ⟨qs, h1, h2⟩ := ih (k + 1)
          ⟨dropStale st1 (recidOf uuid) l, s.devices,
            s.log ++ [⟨uuid, ts, ms⟩]⟩
        exact ⟨⟨uuid, ts, ms⟩ :: qs, by rw [h1]; simp, .stale _ _ _ _ _ ha rfl rfl hsrv h2⟩

/-- The same as a statement about consecutive requests: which devices the next one addresses. -/
theorem C49_next_devices (srv : Nat → Request → Reply) (uuid : String) (ts k : Nat) (ds : List Nat)
    (qs : List Request) (h : Follows srv uuid ts k ds qs) (i : Nat) (q q' : Request)
    (hq : qs[i]? = some q) (hq' : qs[i + 1]? = some q') :
    (∃ missing extra, srv (k + i) q = .mismatched missing extra ∧
      ∀ d, d ∈ addressed q' ↔ (d ∈ addressed q ∧ d ∉ extra) ∨ d ∈ missing) ∨
    (∃ l, srv (k + i) q = .stale l ∧ addressed q' = addressed q) := by
  induction h generalizing i with
  | none => simp at hq
  | last => simp at hq'
  | mismatched k ds q0 qs missing extra ds' h0 hd ht hr hds hfol ih =>
    cases i with
    | zero =>
      simp only [List.getElem?_cons_zero, Option.some.injEq] at hq
      subst hq
      left
      refine ⟨missing, extra, hr, ?_⟩
      have : addressed q' = ds' := by
        cases hfol <;> simp_all
      intro d
      rw [this, hds, h0]
      simp
    | succ i =>
      simp only [List.getElem?_cons_succ] at hq hq'
      have := ih i hq hq'
      rwa [show k + 1 + i = k + (i + 1) by omega] at this
  | stale k ds q0 qs l h0 hd ht hr hfol ih =>
    cases i with
    | zero =>
      simp only [List.getElem?_cons_zero, Option.some.injEq] at hq
      subst hq
      right
      refine ⟨l, hr, ?_⟩
      have : addressed q' = ds := by
        cases hfol <;> simp_all
      rw [this, h0]
    | succ i =>
      simp only [List.getElem?_cons_succ] at hq hq'
      have := ih i hq hq'
      rwa [show k + 1 + i = k + (i + 1) by omega] at this

/-- After a stale-devices reply, and for all stores: the entries of the next request for stale devices are
prekey messages of sessions newly built from the bundles the server then returns; the entries for the
other devices are encrypted under the very sessions used before, as the first request left them. -/
theorem C49_stale_rebuilt (P : Prims) (D : Nat → Nat → DevExt) (srv : Nat → Request → Reply)
    (uuid recid : String) (pt : Bytes) (ts fuel k : Nat) (s : State) (q q' : Request) (rest : List Request)
    (l : List Nat) (hrec : Receive.recID uuid = .ok recid) (hnd : (s.devs uuid).Nodup)
    (hlog : (sendLoop P D srv uuid pt ts fuel k s).1.log = s.log ++ q :: q' :: rest)
    (hsrv : srv k q = .stale l) (j d : Nat) (hj : (s.devs uuid)[j]? = some d) :
    ∃ m m', q.msgs[j]? = some m ∧ q'.msgs[j]? = some m' ∧ m.dev = d ∧ m'.dev = d ∧
      (d ∈ l → ∃ reply b spk ident reg s' ct, (D (k + 1) j).prekeys d = .ok reply ∧
        makeBundle reply = .ok (d, b) ∧ s.store.identity = some ident ∧
        encryptState P (senderRecord P (D (k + 1) j).rb (D (k + 1) j).rr {} ident reg b spk).cur pt
          = .ok (s', ct, .prekey) ∧
        m' = ⟨3, d, b.regId, Encoding.b64Encode ct⟩) ∧
      (d ∉ l → ∃ r s1 ct1 ty1 s2 ct2 ty2, Origin P (D k j) s.store recid d r ∧
        encryptState P r.cur pt = .ok (s1, ct1, ty1) ∧ encryptState P s1 pt = .ok (s2, ct2, ty2) ∧
        m = ⟨typeNum ty1, d, s1.remoteReg, Encoding.b64Encode ct1⟩ ∧
        m' = ⟨typeNum ty2, d, s2.remoteReg, Encoding.b64Encode ct2⟩) := by
  cases fuel with
  | zero => simp [sendLoop] at hlog
  | succ fuel =>
  unfold sendLoop at hlog
  rcases hb : buildMessage P (D k) s.store uuid pt (s.devs uuid) with ⟨st1, r⟩
  rw [hb] at hlog
  cases r with
  | err e => simp at hlog
  | panic => simp at hlog
  | ok ms =>
  simp only at hlog
  -- the first request is `q`
  have hq : q = ⟨uuid, ts, ms⟩ := by
    cases hx : srv k ⟨uuid, ts, ms⟩ with
    | netErr => rw [hx] at hlog; simp at hlog
    | status => rw [hx] at hlog; simp at hlog
    | ok ns => rw [hx] at hlog; simp at hlog
    | mismatched a b =>
      rw [hx] at hlog
      simp only at hlog
      obtain ⟨qs, h1, _⟩ := C49_requests_follow_replies P D srv uuid pt ts fuel (k + 1)
        ⟨st1, fun u => if u = uuid then some (reconcile (s.devs uuid) a b) else s.devices u,
          s.log ++ [⟨uuid, ts, ms⟩]⟩
      rw [h1] at hlog
      simp at hlog
      exact hlog.1.symm
    | stale l =>
      rw [hx] at hlog
      simp only at hlog
      obtain ⟨qs, h1, _⟩ := C49_requests_follow_replies P D srv uuid pt ts fuel (k + 1)
        ⟨dropStale st1 (recidOf uuid) l, s.devices,
          s.log ++ [⟨uuid, ts, ms⟩]⟩
      rw [h1] at hlog
      simp at hlog
      exact hlog.1.symm
  subst hq
  have hro : recidOf uuid = recid := by simp [recidOf, hrec]
  rw [hsrv] at hlog
  simp only [hro] at hlog
  cases fuel with
  | zero => simp [sendLoop] at hlog
  | succ fuel =>
  unfold sendLoop at hlog
  have hdevs : State.devs ⟨dropStale st1 recid l, s.devices, s.log ++ [⟨uuid, ts, ms⟩]⟩ uuid = s.devs uuid := rfl
  rw [hdevs] at hlog
  simp only at hlog
  rcases hb' : buildMessage P (D (k + 1)) (dropStale st1 recid l) uuid pt (s.devs uuid) with ⟨st2, r⟩
  rw [hb'] at hlog
  cases r with
  | err e => simp at hlog
  | panic => simp at hlog
  | ok ms' =>
  simp only at hlog
  have hq' : q' = ⟨uuid, ts, ms'⟩ := by
    cases hx : srv (k + 1) ⟨uuid, ts, ms'⟩ with
    | netErr => rw [hx] at hlog; simp at hlog; exact hlog.1.symm
    | status => rw [hx] at hlog; simp at hlog; exact hlog.1.symm
    | ok ns => rw [hx] at hlog; simp at hlog; exact hlog.1.symm
    | mismatched a b =>
      rw [hx] at hlog
      simp only at hlog
      obtain ⟨qs, h1, _⟩ := C49_requests_follow_replies P D srv uuid pt ts fuel (k + 1 + 1)
        ⟨st2, fun u => if u = uuid then some (reconcile (s.devs uuid) a b) else s.devices u,
          s.log ++ [⟨uuid, ts, ms⟩] ++ [⟨uuid, ts, ms'⟩]⟩
      rw [h1] at hlog
      simp at hlog
      exact hlog.1.symm
    | stale l' =>
      rw [hx] at hlog
      simp only [hro] at hlog
      obtain ⟨qs, h1, _⟩ := C49_requests_follow_replies P D srv uuid pt ts fuel (k + 1 + 1)
        ⟨dropStale st2 recid l', s.devices, s.log ++ [⟨uuid, ts, ms⟩] ++ [⟨uuid, ts, ms'⟩]⟩
      rw [h1] at hlog
      simp at hlog
      exact hlog.1.symm
  subst hq'
  -- the two builds
  obtain ⟨recid', hr1, hl1⟩ := buildMessage_inv P _ _ _ _ _ _ _ hb
  obtain ⟨recid'', hr2, hl2⟩ := buildMessage_inv P _ _ _ _ _ _ _ hb'
  rw [hrec] at hr1 hr2
  cases hr1; cases hr2
  obtain ⟨r1, s1, ct1, ty1, ho1, he1, hm1, hs1⟩ := buildLoop_entry P _ recid pt _ 0 _ _ _ hnd hl1 j d hj
  obtain ⟨r2, s2, ct2, ty2, ho2, he2, hm2, hs2⟩ := buildLoop_entry P _ recid pt _ 0 _ _ _ hnd hl2 j d hj
  have hk1 := (buildLoop_ok P _ recid pt _ _ _ _ _ hl1).2.1
  rw [Nat.zero_add] at ho1 ho2
  refine ⟨_, _, hm1, hm2, rfl, rfl, ?_, ?_⟩
  · intro hd
    have hab : (dropStale st1 recid l).sessions (sessName recid d) = .absent := by
      rw [dropStale_sessions, if_pos ⟨d, hd, rfl⟩]
    cases ho2 with
    | existing r h => rw [hab] at h; cases h
    | built reply b spk ident reg h0 h1 h2 h3 h4 h5 h6 =>
      have hid : s.store.identity = some ident := by
        rw [← hk1.identity, ← (dropStale_keys recid l st1).1.identity]; exact h4
      have hty : ty2 = .prekey := by
        have hp : (senderRecord P (D (k + 1) j).rb (D (k + 1) j).rr {} ident reg b spk).cur.pending ≠ none := by
          simp [senderRecord]
        exact encryptState_prekey P _ _ _ _ _ he2 hp
      subst hty
      refine ⟨reply, b, spk, ident, reg, s2, ct2, h1, h2, hid, he2, ?_⟩
      rw [(encryptState_keeps P _ _ _ _ _ he2).2.1]
      rfl
  · intro hd
    have hse : (dropStale st1 recid l).sessions (sessName recid d) = st1.sessions (sessName recid d) := by
      rw [dropStale_sessions, if_neg (by rintro ⟨x, hx, he⟩; exact hd ((sessName_inj he).2 ▸ hx))]
    cases ho2 with
    | built reply b spk ident reg h0 => rw [hse, hs1] at h0; cases h0
    | existing r h =>
      rw [hse, hs1] at h
      cases h
      exact ⟨r1, s1, ct1, ty1, s2, ct2, ty2, ho1, he1, he2, rfl, rfl⟩

/-- A server whose registered devices are `R` with registration ids `reg`, and which does not change:
devices missing or not registered are reported first, then those addressed with another registration
id; otherwise the message is accepted. -/
def stable (R : List Nat) (reg : Nat → Nat) (ns : Bool) (q : Request) : Reply :=
  let missing := R.filter (fun d => d ∉ addressed q)
  let extra := (addressed q).filter (fun d => d ∉ R)
  let old := (q.msgs.filter (fun m => m.regId ≠ reg m.dev)).map JMsg.dev
  if missing ≠ [] ∨ extra ≠ [] then .mismatched missing extra
  else if old ≠ [] then .stale old
  else .ok ns

/-- The message was accepted within `n` attempts, and what was accepted addresses exactly the registered
devices with their registration ids. -/
def Accepted (R : List Nat) (reg : Nat → Nat) (ns : Bool) (ts n : Nat) (s : State)
    (out : State × Option (Res Response)) : Prop :=
  out.2 = some (.ok ⟨ns, ts⟩) ∧ ∃ qs q, out.1.log = s.log ++ qs ∧ qs.length ≤ n ∧ qs.getLast? = some q ∧
    (∀ d, d ∈ addressed q ↔ d ∈ R) ∧ ∀ m ∈ q.msgs, m.regId = reg m.dev

/-- Everything the client needs for the recipient. -/
structure Setting (P : Prims) (D : Nat → Nat → DevExt) (R : List Nat) (ik : Bytes) (reg : Nat → Nat)
    (uuid recid : String) : Prop where
  rec' : Receive.recID uuid = .ok recid
  len : ik.length = 32
  works : ∀ k i, Works (D k i)
  serves : ∀ k i, Serves P (D k i) R ik reg

theorem attempt {P : Prims} {D : Nat → Nat → DevExt} {R : List Nat} {ik : Bytes} {reg : Nat → Nat}
    {uuid recid : String} (X : Setting P D R ik reg uuid recid) (pt : Bytes) (k : Nat) (s : State)
    (hr : Ready s.store recid R (· ∈ s.devs uuid)) (ht : Trusting s.store recid ik) :
    ∃ st1 ms, buildMessage P (D k) s.store uuid pt (s.devs uuid) = (st1, .ok ms) ∧
      ms.map JMsg.dev = s.devs uuid ∧ (∀ m ∈ ms, m.regId = regAt reg s.store recid m.dev) ∧
      Kept reg recid ik R s.store st1 := by
  obtain ⟨st1, ms, h1, h2, h3, h4⟩ := buildLoop_succeeds P (D k) recid R ik reg pt X.len (X.works k)
    (X.serves k) (s.devs uuid) 0 s.store hr ht
  refine ⟨st1, ms, ?_, h2, h3, h4⟩
  unfold buildMessage
  rw [X.rec']
  exact h1

theorem filter_nil {p : Nat → Prop} [DecidablePred p] {l : List Nat} :
    l.filter (fun d => decide (p d)) = [] ↔ ∀ d ∈ l, ¬ p d := by
  simp [List.filter_eq_nil_iff]

/-- All devices right, all registration ids right: accepted at once. -/
theorem accepted1 {P : Prims} {D : Nat → Nat → DevExt} {R : List Nat} {ik : Bytes} {reg : Nat → Nat}
    {uuid recid : String} (X : Setting P D R ik reg uuid recid) (pt : Bytes) (ts : Nat) (ns : Bool)
    (fuel k : Nat) (s : State)
    (hr : Ready s.store recid R (· ∈ s.devs uuid)) (ht : Trusting s.store recid ik)
    (hd : ∀ d, d ∈ s.devs uuid ↔ d ∈ R) (hg : ∀ d ∈ R, regAt reg s.store recid d = reg d) :
    Accepted R reg ns ts 1 s (sendLoop P D (fun _ => stable R reg ns) uuid pt ts (fuel + 1) k s) := by
  obtain ⟨st1, ms, h1, h2, h3, h4⟩ := attempt X pt k s hr ht
  have ha : addressed ⟨uuid, ts, ms⟩ = s.devs uuid := h2
  have hregs : ∀ m ∈ ms, m.regId = reg m.dev := by
    intro m hm
    rw [h3 m hm]
    apply hg
    rw [← hd, ← h2]
    exact List.mem_map_of_mem hm
  have hok : stable R reg ns ⟨uuid, ts, ms⟩ = .ok ns := by
    unfold stable
    simp only
    rw [ha, if_neg, if_neg]
    · simp only [ne_eq, Decidable.not_not, List.map_eq_nil_iff, List.filter_eq_nil_iff, decide_eq_true_eq]
      intro m hm
      exact hregs m hm
    · simp only [ne_eq, not_or, Decidable.not_not, filter_nil]
      exact ⟨fun d hdR => (hd d).2 hdR, fun d hds => (hd d).1 hds⟩
  unfold sendLoop
  rw [h1]
  simp only [hok]
  exact ⟨rfl, [⟨uuid, ts, ms⟩], ⟨uuid, ts, ms⟩, rfl, by simp, rfl, by rw [ha]; exact hd, hregs⟩

theorem Accepted.shift {R : List Nat} {reg : Nat → Nat} {ns : Bool} {ts n : Nat} {s s1 : State} {q : Request}
    {out : State × Option (Res Response)} (h : Accepted R reg ns ts n s1 out)
    (hl : s1.log = s.log ++ [q]) : Accepted R reg ns ts (n + 1) s out := by
  obtain ⟨h1, qs, q', h2, h3, h4, h5⟩ := h
  refine ⟨h1, q :: qs, q', by rw [h2, hl]; simp, by simp; omega, ?_, h5⟩
  cases qs with
  | nil => simp at h4
  | cons a qs => rw [List.getLast?_cons_cons]; exact h4

theorem Accepted.mono {R : List Nat} {reg : Nat → Nat} {ns : Bool} {ts n n' : Nat} {s : State}
    {out : State × Option (Res Response)} (h : Accepted R reg ns ts n s out) (hn : n ≤ n') :
    Accepted R reg ns ts n' s out := by
  obtain ⟨h1, qs, q', h2, h3, h4⟩ := h
  exact ⟨h1, qs, q', h2, by omega, h4⟩

/-- All devices right: accepted within two attempts. -/
theorem accepted2 {P : Prims} {D : Nat → Nat → DevExt} {R : List Nat} {ik : Bytes} {reg : Nat → Nat}
    {uuid recid : String} (X : Setting P D R ik reg uuid recid) (pt : Bytes) (ts : Nat) (ns : Bool)
    (fuel k : Nat) (s : State)
    (hr : Ready s.store recid R (· ∈ s.devs uuid)) (ht : Trusting s.store recid ik)
    (hd : ∀ d, d ∈ s.devs uuid ↔ d ∈ R) :
    Accepted R reg ns ts 2 s (sendLoop P D (fun _ => stable R reg ns) uuid pt ts (fuel + 2) k s) := by
  by_cases hg : ∀ d ∈ R, regAt reg s.store recid d = reg d
  · exact (accepted1 X pt ts ns (fuel + 1) k s hr ht hd hg).mono (by omega)
  obtain ⟨st1, ms, h1, h2, h3, h4⟩ := attempt X pt k s hr ht
  have ha : addressed ⟨uuid, ts, ms⟩ = s.devs uuid := h2
  obtain ⟨old, hold⟩ : ∃ old, old = (ms.filter (fun m => m.regId ≠ reg m.dev)).map JMsg.dev := ⟨_, rfl⟩
  have hmem : ∀ d, d ∈ old ↔ d ∈ R ∧ regAt reg s.store recid d ≠ reg d := by
    intro d
    rw [hold, List.mem_map]
    constructor
    · rintro ⟨m, hm, rfl⟩
      rw [List.mem_filter] at hm
      refine ⟨by rw [← hd, ← h2]; exact List.mem_map_of_mem hm.1, ?_⟩
      rw [← h3 m hm.1]
      simpa using hm.2
    · rintro ⟨hdR, hne⟩
      rw [← hd, ← h2, List.mem_map] at hdR
      obtain ⟨m, hm, rfl⟩ := hdR
      exact ⟨m, List.mem_filter.mpr ⟨hm, by rw [h3 m hm]; simpa using hne⟩, rfl⟩
  have hst : stable R reg ns ⟨uuid, ts, ms⟩ = .stale old := by
    unfold stable
    simp only
    rw [ha, if_neg, ← hold, if_pos]
    · intro he
      apply hg
      intro d hdR
      by_contra hne
      have := (hmem d).2 ⟨hdR, hne⟩
      rw [he] at this
      simp at this
    · simp only [ne_eq, not_or, Decidable.not_not, filter_nil]
      exact ⟨fun d hdR => (hd d).2 hdR, fun d hds => (hd d).1 hds⟩
  have hro : recidOf uuid = recid := by simp [recidOf, X.rec']
  unfold sendLoop
  rw [h1]
  simp only [hst, hro]
  refine (accepted1 X pt ts ns fuel (k + 1) _ ?_ ?_ ?_ ?_).shift rfl
  · exact dropStale_ready recid R old st1 _ (h4.ready _ hr) (fun d h => ((hmem d).1 h).1)
  · exact dropStale_trusting recid old st1 ik h4.trusting
  · exact hd
  · intro d hdR
    rw [dropStale_regAt]
    split
    · rfl
    · rename_i hno
      rw [h4.regs]
      by_contra hne
      exact hno ((hmem d).2 ⟨hdR, hne⟩)

/-- **C49, convergence.** From every store and device list, against every stable server, the message is
accepted within three attempts, addressed to exactly the registered devices with their current
registration ids. Required: the sessions of listed and registered devices are usable or absent, bundles
are served for registered devices and their identity key is trusted, and every listed device without a
session is registered. The last cannot be dropped: `C49_unregistered_device_blocks`. -/
theorem C49_converges_partial (P : Prims) (D : Nat → Nat → DevExt) (R : List Nat) (ik : Bytes)
    (reg : Nat → Nat) (uuid recid : String) (X : Setting P D R ik reg uuid recid) (pt : Bytes) (ts : Nat)
    (ns : Bool) (fuel k : Nat) (s : State)
    (hr : Ready s.store recid R (fun d => d ∈ s.devs uuid ∨ d ∈ R)) (ht : Trusting s.store recid ik) :
    Accepted R reg ns ts 3 s (sendLoop P D (fun _ => stable R reg ns) uuid pt ts (fuel + 3) k s) := by
  by_cases hd : ∀ d, d ∈ s.devs uuid ↔ d ∈ R
  · exact (accepted2 X pt ts ns (fuel + 1) k s (fun d h => hr d (.inl h)) ht hd).mono (by omega)
  obtain ⟨st1, ms, h1, h2, h3, h4⟩ := attempt X pt k s (fun d h => hr d (.inl h)) ht
  have ha : addressed ⟨uuid, ts, ms⟩ = s.devs uuid := h2
  have hmm : stable R reg ns ⟨uuid, ts, ms⟩ = .mismatched (R.filter fun d => d ∉ s.devs uuid)
      ((s.devs uuid).filter fun d => d ∉ R) := by
    unfold stable
    simp only
    rw [ha, if_pos]
    by_contra hn
    simp only [ne_eq, not_or, Decidable.not_not, filter_nil] at hn
    exact hd (fun d => ⟨hn.2 d, hn.1 d⟩)
  unfold sendLoop
  rw [h1]
  simp only [hmm]
  have hmem : ∀ d, d ∈ reconcile (s.devs uuid) (R.filter fun d => d ∉ s.devs uuid)
      ((s.devs uuid).filter fun d => d ∉ R) ↔ d ∈ R := by
    intro d
    simp only [reconcile, List.mem_append, List.mem_filter, List.contains_iff_mem, Bool.not_eq_true',
      decide_eq_true_eq, ← Bool.not_eq_true]
    by_cases x : d ∈ s.devs uuid <;> by_cases y : d ∈ R <;> simp [x, y]
  refine (accepted2 X pt ts ns fuel (k + 1) _ ?_ h4.trusting ?_).shift rfl
  · intro d hdd
    apply h4.ready _ hr
    right
    simp only [State.devs, if_true, Option.getD_some] at hdd
    exact (hmem d).1 hdd
  · intro d
    simp only [State.devs, if_true, Option.getD_some]
    exact hmem d

/-- The setting is satisfiable: Bob's devices 1 and 3, from a list naming devices 1 and 2, where device 1
has a session with an outdated registration id and device 2 is no longer registered. -/
def oldSession : Store :=
  applyWrites (Demo.aliceBuilt 7)
    (buildSender Demo.P {} (Demo.aliceBuilt 7) (List.replicate 32 9) (List.replicate 32 8) "bob" 2
      (Demo.bundle 7)).writes

/-- Attempts needed and devices addressed: 409, then 410, then accepted. -/
example : (match sendLoop Demo.P (fun _ _ => ext) (fun _ => stable [1, 3] (1000 + ·) true) "bob" [9] 77 5 0
      (state oldSession [1, 2]) with
    | (s, some (.ok r)) => (s.log.map addressed, r.needsSync, r.ts)
    | _ => ([], false, 0)) = ([[1, 2], [1, 3], [1, 3]], true, 77) := by decide +kernel

example : Setting Demo.P (fun _ _ => ext) [1, 3] Demo.bobId.pub (1000 + ·) "bob" "bob" := by
  refine ⟨by decide, by decide +kernel, fun _ _ => ⟨by decide, by decide, rfl, rfl⟩, ?_⟩
  intro _ _ d hd
  have hb : ∀ d reg, makeBundle (reply d reg) = .ok (d, { Demo.bundle 7 with regId := reg }) := by
    intro d reg
    have h1 : Encoding.decodeKey (Encoding.encodeKey Demo.bobOpk.pub) = .ok Demo.bobOpk.pub :=
      Encoding.C41_key_round_trip _ (by decide +kernel)
    have h2 : Encoding.decodeKey (Encoding.encodeKey Demo.bobSpk.pub) = .ok Demo.bobSpk.pub :=
      Encoding.C41_key_round_trip _ (by decide +kernel)
    have h3 : Encoding.decodeKey (Encoding.encodeKey Demo.bobId.pub) = .ok Demo.bobId.pub :=
      Encoding.C41_key_round_trip _ (by decide +kernel)
    have h4 : Encoding.decodeSignature (Encoding.b64EncodeNoPad (Demo.toySig Demo.bobId (ser Demo.bobSpk.pub)))
        = .ok (Demo.toySig Demo.bobId (ser Demo.bobSpk.pub)) := by
      exact Encoding.C41_signature_round_trip _ (by decide +kernel)
    simp [makeBundle, reply, decodePreKey, h1, h2, h3, h4, Demo.bundle]
  refine ⟨reply d (1000 + d), { Demo.bundle 7 with regId := 1000 + d }, Demo.bobSpk.pub, ?_, hb _ _, rfl,
    ?_, rfl, rfl⟩
  · have : d = 1 ∨ d = 3 := by simpa using hd
    simp [ext, this]
  · change Demo.P.verify Demo.bobId.pub (ser Demo.bobSpk.pub) (Demo.toySig Demo.bobId (ser Demo.bobSpk.pub)) = true
    decide +kernel

/-- **C49 refuted**, convergence: a listed device that has no session and for which the server has no
prekeys (it is not registered) blocks sending for ever, for all stores, servers and numbers of attempts:
fetching its prekeys fails before the server is asked, so no request is made and the device list is not
corrected. So not every run against a stable server ends in success. -/
theorem C49_unregistered_device_blocks (P : Prims) (D : Nat → Nat → DevExt) (srv : Nat → Request → Reply)
    (uuid recid : String) (pt : Bytes) (ts fuel k : Nat) (s : State) (d : Nat)
    (hrec : Receive.recID uuid = .ok recid) (hd : d ∈ s.devs uuid)
    (hs : s.store.sessions (sessName recid d) = .absent)
    (hp : ∀ k i, ∃ e, (D k i).prekeys d = .err e) :
    (sendLoop P D srv uuid pt ts fuel k s).1.log = s.log ∧
    (sendLoop P D srv uuid pt ts fuel k s).1.devices = s.devices ∧
    ∀ r, (sendLoop P D srv uuid pt ts fuel k s).2 ≠ some (.ok r) := by
  cases fuel with
  | zero => simp [sendLoop]
  | succ fuel =>
    unfold sendLoop
    rcases hb : buildMessage P (D k) s.store uuid pt (s.devs uuid) with ⟨st1, r⟩
    cases r with
    | err e => simp
    | panic => simp
    | ok ms =>
      exfalso
      obtain ⟨recid', hr, hl⟩ := buildMessage_inv P _ _ _ _ _ _ _ hb
      rw [hrec] at hr
      cases hr
      exact buildLoop_blocked P (D k) recid pt d (hp k) _ _ _ _ _ hd hs hl

/-- With Bob's devices as above, device 1 having a session and device 2 listed but not registered: nothing
is ever sent, although the setting is that of `C49_converges_partial`. -/
example : State.devs (state (Demo.aliceBuilt 7) [1, 2]) "bob" = [1, 2] ∧
    (Demo.aliceBuilt 7).sessions (sessName "bob" 2) = .absent ∧ ext.prekeys 2 = .err .http := by
  refine ⟨rfl, ?_, rfl⟩
  decide +kernel

/-- **C49**: the number of attempts has no bound. Against a server that keeps answering 410, whatever it
lists, a client that can build its messages is still trying after any number of attempts. -/
theorem C49_attempts_unbounded (P : Prims) (D : Nat → Nat → DevExt) (R : List Nat) (ik : Bytes)
    (reg : Nat → Nat) (uuid recid : String) (X : Setting P D R ik reg uuid recid) (pt : Bytes) (ts : Nat)
    (fuel k : Nat) (s : State) (hr : Ready s.store recid R (· ∈ s.devs uuid))
    (ht : Trusting s.store recid ik) (l : List Nat) (hl : ∀ d ∈ l, d ∈ R) :
    (sendLoop P D (fun _ _ => .stale l) uuid pt ts fuel k s).2 = none ∧
    (sendLoop P D (fun _ _ => .stale l) uuid pt ts fuel k s).1.log.length = s.log.length + fuel := by
  induction fuel generalizing k s with
  | zero => simp [sendLoop]
  | succ fuel ih =>
    obtain ⟨st1, ms, h1, h2, h3, h4⟩ := attempt X pt k s hr ht
    have hro : recidOf uuid = recid := by simp [recidOf, X.rec']
    unfold sendLoop
    rw [h1]
    simp only [hro]
    obtain ⟨e1, e2⟩ := ih (k + 1) ⟨dropStale st1 recid l, s.devices, s.log ++ [⟨uuid, ts, ms⟩]⟩
      (dropStale_ready recid R l st1 _ (h4.ready _ hr) hl) (dropStale_trusting recid l st1 ik h4.trusting)
    refine ⟨e1, e2.trans ?_⟩
    simp
    omega

/-! ## C51 Outgoing data message carries what was asked -/

/-- For all outgoing messages: body, timestamp (or the clock's if none was given), expiry, attachment,
flags and group context (new groups) are those the caller specified, and the profile key is the
configured one. Missing: the context of legacy groups, see `C51_legacy_group_dropped`. -/
theorem C51_carries_partial (now : Nat) (pk : Bytes) (m : OutMsg) :
    let w := createMessage now pk m
    w.body.getD [] = m.msg ∧ (w.body = none ↔ m.msg = []) ∧
    (∀ t, m.timestamp = some t → w.timestamp = t) ∧ (m.timestamp = none → w.timestamp = now) ∧
    w.expireTimer = m.expireTimer ∧ w.flags = m.flags ∧ w.groupV2 = m.groupV2 ∧ w.profileKey = pk ∧
    (m.attachment = none → w.attachments = []) ∧
    (∀ a, m.attachment = some a → ∃ x, w.attachments = [x] ∧ x.cdnKey = a.cdnKey ∧ x.cdnNr = a.cdnNr ∧
      x.contentType = a.contentType ∧ x.keys = a.keys ∧ x.digest = a.digest ∧ x.size = a.size ∧
      (x.flags = some 1 ↔ a.voiceNote = true)) := by
  refine ⟨?_, ?_, ?_, ?_, rfl, rfl, rfl, rfl, ?_, ?_⟩
  · by_cases h : m.msg = [] <;> simp [createMessage, h]
  · by_cases h : m.msg = [] <;> simp [createMessage, h]
  · intro t h; simp [createMessage, h]
  · intro h; simp [createMessage, h]
  · intro h; simp [createMessage, h]
  · intro a h
    refine ⟨_, by simp [createMessage, h]; rfl, rfl, rfl, rfl, rfl, rfl, rfl, ?_⟩
    cases a.voiceNote <;> simp

/-- **C51 refuted**: the context of a legacy group is dropped. A message to such a group (with or without
a body) is the same data message as one without any group, so it arrives as a private message, and an
update or quit of a group arrives as an empty message. -/
theorem C51_legacy_group_dropped (now : Nat) (pk : Bytes) (m : OutMsg) (g : GroupV1Msg) :
    createMessage now pk { m with group := some g } = createMessage now pk { m with group := none } ∧
    (createMessage now pk { m with group := some g }).group = none := ⟨rfl, rfl⟩

example : createMessage 5 [] { destination := "bob", group := some ⟨[1, 2], [], [], 3⟩ }
    = createMessage 5 [] { destination := "bob" } := rfl

/-! ## C66 Prekey replies -/

/-- Part of **C66**: a bundle is made only from a reply for a single device that has a signed prekey, and it
carries that reply's values. -/
theorem C66_bundle_is_the_reply (r : PkReply) (dev : Nat) (b : Bundle) (h : makeBundle r = .ok (dev, b)) :
    ∃ d s k, r.devices = [d] ∧ d.signedPreKey = some s ∧ dev = d.deviceId ∧ b.regId = d.registrationId ∧
      b.signedPreKeyId = s.id ∧ b.signedPreKey = some k ∧ Encoding.decodeKey s.publicKey = .ok k ∧
      Encoding.decodeSignature s.signature = .ok b.signature ∧
      Encoding.decodeKey r.identityKey = .ok b.identityKey ∧
      ((d.preKey = none ∧ b.preKey = none) ∨
        ∃ e k', d.preKey = some e ∧ b.preKeyId = e.id ∧ b.preKey = some k' ∧
          Encoding.decodeKey e.publicKey = .ok k') := by
  unfold makeBundle at h
  split at h
  · rename_i d hd
    cases hp : decodePreKey d.preKey with
    | err e => rw [hp] at h; cases h
    | panic => rw [hp] at h; cases h
    | ok pk =>
      rw [hp] at h
      simp only [Res.ok_bind] at h
      cases hs : d.signedPreKey with
      | none => rw [hs] at h; cases h
      | some s =>
        rw [hs] at h
        simp only [Res.bind_eq_ok] at h
        obtain ⟨k, hk, sig, hsig, ik, hik, h⟩ := h
        cases h
        refine ⟨d, s, k, hd, hs, rfl, rfl, rfl, rfl, hk, hsig, hik, ?_⟩
        cases hpk : d.preKey with
        | none =>
          rw [hpk] at hp
          simp only [decodePreKey] at hp
          cases hp
          exact .inl ⟨rfl, rfl⟩
        | some e =>
          rw [hpk] at hp
          simp only [decodePreKey] at hp
          cases hde : Encoding.decodeKey e.publicKey with
          | err x => rw [hde] at hp; cases hp
          | panic => rw [hde] at hp; cases hp
          | ok k' =>
            rw [hde] at hp
            cases hp
            exact .inr ⟨e, k', rfl, rfl, rfl, hde⟩
  · cases h

/-- For all replies: whatever session results from a reply is stored under the device id *in the reply*,
and it is a session with that reply's identity key whose signed prekey carries a valid signature under
that key. -/
theorem C66_session_from_reply_partial (P : Prims) (D : DevExt) (st st1 : Store) (recid : String) (dev : Nat)
    (h : ensureSession P D st recid dev = (st1, .ok ()))
    (hno : containsSession st recid dev = false) :
    ∃ reply bdev b spk r, D.prekeys dev = .ok reply ∧ makeBundle reply = .ok (bdev, b) ∧
      b.signedPreKey = some spk ∧ P.verify b.identityKey (ser spk) b.signature = true ∧
      isTrusted st recid b.identityKey = true ∧
      st1.sessions (sessName recid bdev) = .good r ∧ r.cur.remoteId = b.identityKey ∧
      (∀ n, n ≠ sessName recid bdev → st1.sessions n = st.sessions n) := by
  unfold ensureSession at h
  rw [if_neg (by simp [hno])] at h
  cases hpk : D.prekeys dev with
  | err e => rw [hpk] at h; simp at h
  | panic => rw [hpk] at h; simp at h
  | ok reply =>
    rw [hpk] at h
    simp only at h
    cases hmb : makeBundle reply with
    | err e => rw [hmb] at h; simp at h
    | panic => rw [hmb] at h; simp at h
    | ok x =>
      obtain ⟨bdev, b⟩ := x
      rw [hmb] at h
      simp only [Prod.mk.injEq] at h
      rcases buildSender_cases P D.env st D.rb D.rr recid bdev b with
        ⟨_, hn⟩ | ⟨htr, _, spk, sr, ident, reg, hspk, hver, hl, hid, hrg, ho⟩
      · exact absurd h.2 hn
      · cases hsv : D.env.saveOk with
        | false => rw [hsv] at ho; rw [ho] at h; simp at h
        | true =>
          rw [hsv] at ho
          simp only [Bool.true_eq_false, if_false] at ho
          rw [ho] at h
          refine ⟨reply, bdev, b, spk, { senderRecord P D.rb D.rr sr ident reg b spk with fresh := false },
            rfl, hmb, hspk, hver, htr, ?_, rfl, ?_⟩
          · rw [← h.1]; simp [applyWrites_cons, applyWrites_nil, applyWrite]
          · intro n hn; rw [← h.1]; simp [applyWrites_cons, applyWrites_nil, applyWrite, hn]

/-- **C66 refuted**, first part: a reply with a one-time prekey that does not decode to a key crashes the
process, whatever else it contains: the key is used before the decoding error is looked at. -/
theorem C66_bad_prekey_crashes (P : Prims) (D : DevExt) (st : Store) (receiver recid : String)
    (dev : Nat) (rest : List Nat) (pt : Bytes) (id ik : Bytes) (item : PkItem) (e : PkEntity)
    (hrec : Receive.recID receiver = .ok recid)
    (hno : containsSession st recid dev = false) (hpk : D.prekeys dev = .ok ⟨ik, [item]⟩)
    (hit : item.preKey = some e) (hbad : ∀ k, Encoding.decodeKey e.publicKey ≠ .ok k) :
    (buildMessage P (fun _ => D) st receiver pt (dev :: rest)).2 = .panic := by
  have hd : decodePreKey item.preKey = .panic := by
    rw [hit]
    simp only [decodePreKey]
    cases hk : Encoding.decodeKey e.publicKey with
    | ok k => exact absurd hk (hbad k)
    | err e => rfl
    | panic => rfl
  have hm : makeBundle ⟨ik, [item]⟩ = .panic := by
    simp [makeBundle, hd]
  unfold buildMessage
  rw [hrec]
  simp only
  unfold buildLoop buildOne ensureSession
  rw [if_neg (by simp [hno]), hpk]
  simp only [hm]

/-- An empty key text: the crash happens. -/
example : (buildMessage Demo.P (fun _ => { ext with prekeys := fun _ => .ok ⟨[],
    [⟨1, 1001, none, some ⟨7, []⟩⟩]⟩ }) Demo.alice0 "bob" [9] [1]).2 = .panic := by decide +kernel

/-- A server that answers every request with the bundle of device 1. -/
def otherDevice : DevExt := { ext with prekeys := fun _ => .ok (reply 1 1001), rb := List.replicate 32 5 }

/-- **C66 refuted**, second part: a reply naming another device than the one asked for overwrites the
session with that other device — here Alice's session with Bob's device 1 is archived and replaced
while she is asking for device 3 — and then crashes the process (no session for the device asked for). -/
theorem C66_other_device_overwritten :
    ∃ D : DevExt, (∃ r r', (Demo.aliceBuilt 7).sessions (sessName "bob" 1) = .good r ∧
      (buildMessage Demo.P (fun _ => D) (Demo.aliceBuilt 7) "bob" [9] [3]).1.sessions (sessName "bob" 1)
        = .good r' ∧ r'.cur ≠ r.cur) ∧
    (buildMessage Demo.P (fun _ => D) (Demo.aliceBuilt 7) "bob" [9] [3]).2 = .panic := by
  refine ⟨otherDevice, ?_, by decide +kernel⟩
  have h : (match (Demo.aliceBuilt 7).sessions (sessName "bob" 1),
      (buildMessage Demo.P (fun _ => otherDevice) (Demo.aliceBuilt 7) "bob" [9] [3]).1.sessions
        (sessName "bob" 1) with
    | .good r, .good r' => decide (r'.cur ≠ r.cur)
    | _, _ => false) = true := by decide +kernel
  split at h
  · rename_i r r' h1 h2
    exact ⟨r, r', h1, h2, by simpa using h⟩
  · simp at h

/-! ## C67 The transcript does not affect the send -/

/-- What holds: unless sending the transcript crashes (or never ends), the caller gets the result of the
send, for all messages and states. Missing: `C67_failed_transcript_crashes`. -/
theorem C67_transcript_partial (P : Prims) (X : SendExt) (fuel : Nat) (m : OutMsg) (s s1 : State) (b : Bytes)
    (r : Response) (hb : X.marshal (createMessage X.now X.profileKey m) = .ok b)
    (hs : sendLoop P X.D X.srv m.destination (Files.padMessage b) (createMessage X.now X.profileKey m).timestamp
      fuel 0 (withDefault s m.destination) = (s1, some (.ok r)))
    (ht : ∀ t, (sendSync P X fuel t s1).2 ≠ some .panic ∧ (sendSync P X fuel t s1).2 ≠ none) :
    (sendMessage P X fuel m s).2 = some (.ok r.ts) := by
  unfold sendMessage
  simp only [hb, hs]
  by_cases hn : r.needsSync = false
  · rw [if_pos hn]
  · rw [if_neg hn]
    obtain ⟨tr, htr⟩ : ∃ tr : Transcript, tr =
      ⟨if m.destination.toList.head? = some '+' then some m.destination else none,
        if m.destination.toList.head? = some '+' then none else some m.destination,
        (createMessage X.now X.profileKey m).timestamp, createMessage X.now X.profileKey m⟩ := ⟨_, rfl⟩
    rw [← htr]
    have := ht tr
    rcases hy : sendSync P X fuel tr s1 with ⟨s2, o⟩
    rw [hy] at this
    rcases o with _ | (_ | _ | _) <;> simp_all

/-- **C67 refuted**: for all messages and states, if the message was delivered, the server asked for a
transcript, and sending that fails with an error (network, HTTP status, a prekey fetch, ...), the process
crashes instead of returning the timestamp of the delivered message. -/
theorem C67_failed_transcript_crashes (P : Prims) (X : SendExt) (fuel : Nat) (m : OutMsg) (s s1 : State)
    (b : Bytes) (r : Response) (e : Err)
    (hb : X.marshal (createMessage X.now X.profileKey m) = .ok b)
    (hs : sendLoop P X.D X.srv m.destination (Files.padMessage b) (createMessage X.now X.profileKey m).timestamp
      fuel 0 (withDefault s m.destination) = (s1, some (.ok r)))
    (hn : r.needsSync = true) (hm : ∀ t, ∃ b', X.marshalSync t = .ok b')
    (hf : ∀ b' ts, (sendLoop P X.D' X.srv' X.self (Files.padMessage b') ts fuel 0 (withDefault s1 X.self)).2
      = some (.err e)) :
    (sendMessage P X fuel m s).2 = some .panic := by
  have hsync : ∀ t, (sendSync P X fuel t s1).2 = some .panic := by
    intro t
    obtain ⟨b', hb'⟩ := hm t
    unfold sendSync
    simp only [hb']
    have := hf b' t.timestamp
    rcases hx : sendLoop P X.D' X.srv' X.self (Files.padMessage b') t.timestamp fuel 0 (withDefault s1 X.self)
      with ⟨s2, o⟩
    rw [hx] at this
    simp only at this
    rw [this]
  unfold sendMessage
  simp only [hb, hs]
  rw [if_neg (by simp [hn])]
  obtain ⟨tr, htr⟩ : ∃ tr : Transcript, tr =
    ⟨if m.destination.toList.head? = some '+' then some m.destination else none,
      if m.destination.toList.head? = some '+' then none else some m.destination,
      (createMessage X.now X.profileKey m).timestamp, createMessage X.now X.profileKey m⟩ := ⟨_, rfl⟩
  rw [← htr]
  have := hsync tr
  rcases hy : sendSync P X fuel tr s1 with ⟨s2, o⟩
  rw [hy] at this
  simp only at this
  rw [this]

/-- Bob receives the message; the transcript to Alice's own devices gets HTTP 500. -/
def syncFails : SendExt :=
  { now := 5, profileKey := [], marshal := fun w => .ok (w.body.getD []), marshalSync := fun _ => .ok [1]
    D := fun _ _ => ext, srv := fun _ => stable [1, 3] (1000 + ·) true
    D' := fun _ _ => ext, srv' := fun _ _ => .status, self := "alice" }

example : (match sendMessage Demo.P syncFails 5 { destination := "bob", msg := [7] } (state Demo.alice0 [1]) with
    | (s, r) => (s.log.map fun q => (q.dest, addressed q), r))
    = ([("bob", [1]), ("bob", [1, 3]), ("alice", [1])], some .panic) := by decide +kernel

/-! ## C68 One timestamp -/

theorem Follows.stamped {srv : Nat → Request → Reply} {uuid : String} {ts k : Nat} {ds : List Nat}
    {qs : List Request} (h : Follows srv uuid ts k ds qs) : ∀ q ∈ qs, q.ts = ts ∧ q.dest = uuid := by
  induction h with
  | none => simp
  | last k ds q h hd ht => simp [hd, ht]
  | mismatched k ds q qs a b ds' h hd ht hr hds hq ih =>
    intro x hx
    rcases List.mem_cons.mp hx with rfl | hx
    · exact ⟨ht, hd⟩
    · exact ih x hx
  | stale k ds q qs l h hd ht hr hq ih =>
    intro x hx
    rcases List.mem_cons.mp hx with rfl | hx
    · exact ⟨ht, hd⟩
    · exact ih x hx

theorem sendLoop_ts (P : Prims) (D : Nat → Nat → DevExt) (srv : Nat → Request → Reply) (uuid : String)
    (pt : Bytes) (ts fuel k : Nat) (s : State) (r : Response)
    (h : (sendLoop P D srv uuid pt ts fuel k s).2 = some (.ok r)) : r.ts = ts := by
  induction fuel generalizing k s with
  | zero => simp [sendLoop] at h
  | succ fuel ih =>
    unfold sendLoop at h
    rcases hb : buildMessage P (D k) s.store uuid pt (s.devs uuid) with ⟨st1, o⟩
    rw [hb] at h
    cases o with
    | err e => simp at h
    | panic => simp at h
    | ok ms =>
      simp only at h
      cases hx : srv k ⟨uuid, ts, ms⟩ with
      | netErr => rw [hx] at h; simp at h
      | status => rw [hx] at h; simp at h
      | ok ns =>
        rw [hx] at h
        simp only [Option.some.injEq, Res.ok.injEq] at h
        rw [← h]
      | mismatched a b => rw [hx] at h; exact ih _ _ h
      | stale l => rw [hx] at h; exact ih _ _ h

theorem sendSync_log (P : Prims) (X : SendExt) (fuel : Nat) (t : Transcript) (s : State) :
    ∃ qs, (sendSync P X fuel t s).1.log = s.log ++ qs ∧ ∀ q ∈ qs, q.ts = t.timestamp := by
  unfold sendSync
  cases hm : X.marshalSync t with
  | err e => exact ⟨[], by simp [withDefault], by simp⟩
  | panic => exact ⟨[], by simp [withDefault], by simp⟩
  | ok b =>
    simp only
    obtain ⟨qs, h1, h2⟩ := C49_requests_follow_replies P X.D' X.srv' X.self (Files.padMessage b) t.timestamp
      fuel 0 (withDefault s X.self)
    rcases hx : sendLoop P X.D' X.srv' X.self (Files.padMessage b) t.timestamp fuel 0 (withDefault s X.self)
      with ⟨s', o⟩
    rw [hx] at h1
    refine ⟨qs, ?_, fun q hq => (h2.stamped q hq).1⟩
    rcases o with _ | (_ | _ | _) <;> exact h1

/-- The device list after a run of requests: each mismatched-devices reply changes it. -/
def listAfter (srv : Nat → Request → Reply) : Nat → List Nat → List Request → List Nat
  | _, ds, [] => ds
  | k, ds, q :: qs =>
    match srv k q with
    | .mismatched missing extra => listAfter srv (k + 1) ((ds.filter fun d => d ∉ extra) ++ missing) qs
    | _ => listAfter srv (k + 1) ds qs

theorem sendLoop_list (P : Prims) (D : Nat → Nat → DevExt) (srv : Nat → Request → Reply)
    (uuid : String) (pt : Bytes) (ts fuel k : Nat) (s : State) (hs : (s.devices uuid).isSome) :
    ∃ qs, (sendLoop P D srv uuid pt ts fuel k s).1.log = s.log ++ qs ∧
      Follows srv uuid ts k (s.devs uuid) qs ∧
      (sendLoop P D srv uuid pt ts fuel k s).1.devices uuid = some (listAfter srv k (s.devs uuid) qs) ∧
      (∀ u, u ≠ uuid → (sendLoop P D srv uuid pt ts fuel k s).1.devices u = s.devices u) ∧
      (qs = [] → ∀ r, (sendLoop P D srv uuid pt ts fuel k s).2 ≠ some (.ok r)) := by
  have hdev : ∀ s : State, (s.devices uuid).isSome → s.devices uuid = some (s.devs uuid) := by
    intro s h
    obtain ⟨x, hx⟩ := Option.isSome_iff_exists.mp h
    simp [State.devs, hx]
  induction fuel generalizing k s with
  | zero => exact ⟨[], by simp [sendLoop], .none _ _, hdev s hs, fun _ _ => rfl, by simp [sendLoop]⟩
  | succ fuel ih =>
    unfold sendLoop
    rcases hb : buildMessage P (D k) s.store uuid pt (s.devs uuid) with ⟨st1, r⟩
    cases r with
    | err e => exact ⟨[], by simp, .none _ _, hdev s hs, fun _ _ => rfl, by simp⟩
    | panic => exact ⟨[], by simp, .none _ _, hdev s hs, fun _ _ => rfl, by simp⟩
    | ok ms =>
      obtain ⟨recid, hr, hl⟩ := buildMessage_inv P (D k) s.store st1 uuid pt _ ms hb
      have ha : addressed ⟨uuid, ts, ms⟩ = s.devs uuid :=
        (buildLoop_ok P (D k) recid pt _ _ _ _ _ hl).1
      simp only
      cases hsrv : srv k ⟨uuid, ts, ms⟩ with
      | netErr => exact ⟨[_], rfl, .last _ _ _ ha rfl rfl, by simp [listAfter, hsrv, hdev s hs], fun _ _ => rfl, by simp⟩
      | status => exact ⟨[_], rfl, .last _ _ _ ha rfl rfl, by simp [listAfter, hsrv, hdev s hs], fun _ _ => rfl, by simp⟩
      | ok ns => exact ⟨[_], rfl, .last _ _ _ ha rfl rfl, by simp [listAfter, hsrv, hdev s hs], fun _ _ => rfl, by simp⟩
      | mismatched missing extra =>
        simp only
        obtain ⟨s2, hs2⟩ : ∃ s2 : State, s2 =
          { s with store := st1, log := s.log ++ [⟨uuid, ts, ms⟩], devices := fun u => if u = uuid then some (reconcile (s.devs uuid) missing extra)
                                        else s.devices u } := ⟨_, rfl⟩
        have hd2 : s2.devs uuid = (s.devs uuid).filter (fun d => d ∉ extra) ++ missing := by
          rw [hs2]; simp [State.devs, reconcile]
        obtain ⟨qs, h1, h2, h3, h4, h5⟩ := ih (k + 1) s2 (by rw [hs2]; simp)
        rw [← hs2]
        refine ⟨⟨uuid, ts, ms⟩ :: qs, by rw [h1, hs2]; simp, .mismatched _ _ _ _ _ _ _ ha rfl rfl hsrv hd2 h2, ?_, ?_, by simp⟩
        · rw [h3]; simp only [listAfter, hsrv, hd2]
        · intro u hu; rw [h4 u hu, hs2]; simp [hu]
      | stale l =>
        simp only
        obtain ⟨s2, hs2⟩ : ∃ s2 : State, s2 =
          { s with store := dropStale st1 (recidOf uuid) l, log := s.log ++ [⟨uuid, ts, ms⟩] } := ⟨_, rfl⟩
        have hd2 : s2.devs uuid = s.devs uuid := by rw [hs2]; rfl
        obtain ⟨qs, h1, h2, h3, h4, h5⟩ := ih (k + 1) s2 (by rw [hs2]; exact hs)
        rw [← hs2]
        rw [hd2] at h2 h3
        refine ⟨⟨uuid, ts, ms⟩ :: qs, by rw [h1, hs2]; simp, .stale _ _ _ _ _ ha rfl rfl hsrv h2, ?_, ?_, by simp⟩
        · rw [h3]; simp only [listAfter, hsrv]
        · intro u hu; rw [h4 u hu, hs2]

/-- **C49** for whole messages: the requests to the destination start with the devices known from earlier
messages (device 1 if there are none) and follow the replies; the list they end with is the one the next
message starts with. The transcript goes to the client's own devices; lists of others are left alone. -/
theorem C49_message (P : Prims) (X : SendExt) (fuel : Nat) (m : OutMsg) (s : State) :
    ∃ qs qs', (sendMessage P X fuel m s).1.log = s.log ++ qs ++ qs' ∧
      Follows X.srv m.destination (m.timestamp.getD X.now) 0 ((s.devices m.destination).getD [1]) qs ∧
      (∀ q ∈ qs', q.dest = X.self) ∧ (qs = [] → qs' = []) ∧
      (X.self ≠ m.destination → (sendMessage P X fuel m s).1.devices m.destination =
        some (listAfter X.srv 0 ((s.devices m.destination).getD [1]) qs)) ∧
      ∀ u, u ≠ m.destination → u ≠ X.self → (sendMessage P X fuel m s).1.devices u = s.devices u := by
  have hd0 : (withDefault s m.destination).devices m.destination = some ((s.devices m.destination).getD [1]) := by
    simp [withDefault]
  have hd1 : (withDefault s m.destination).devs m.destination = (s.devices m.destination).getD [1] := by
    simp [State.devs, withDefault]
  have hd2 : ∀ u, u ≠ m.destination → (withDefault s m.destination).devices u = s.devices u := by
    intro u hu; simp [withDefault, hu]
  unfold sendMessage
  simp only
  cases hm : X.marshal (createMessage X.now X.profileKey m) with
  | err e => exact ⟨[], [], by simp [withDefault], .none _ _, by simp, by simp, fun _ => hd0, fun u hu _ => hd2 u hu⟩
  | panic => exact ⟨[], [], by simp [withDefault], .none _ _, by simp, by simp, fun _ => hd0, fun u hu _ => hd2 u hu⟩
  | ok b =>
    simp only
    obtain ⟨qs, h1, h2, h3, h4, h5⟩ := sendLoop_list P X.D X.srv m.destination (Files.padMessage b)
      (createMessage X.now X.profileKey m).timestamp fuel 0 (withDefault s m.destination) (by rw [hd0]; rfl)
    rcases hx : sendLoop P X.D X.srv m.destination (Files.padMessage b)
      (createMessage X.now X.profileKey m).timestamp fuel 0 (withDefault s m.destination) with ⟨s', o⟩
    rw [hx] at h1 h3 h4 h5
    rw [hd1] at h2 h3
    have hl : s'.log = s.log ++ qs := h1
    have h4' : ∀ u, u ≠ m.destination → s'.devices u = s.devices u := fun u hu => (h4 u hu).trans (hd2 u hu)
    rcases o with _ | (r | e | _)
    · exact ⟨qs, [], by simpa using hl, h2, by simp, by simp, fun _ => h3, fun u hu _ => h4' u hu⟩
    · simp only
      by_cases hn : r.needsSync = false
      · rw [if_pos hn]
        exact ⟨qs, [], by simpa using hl, h2, by simp, by simp, fun _ => h3, fun u hu _ => h4' u hu⟩
      · rw [if_neg hn]
        obtain ⟨tr, htr⟩ : ∃ tr : Transcript, tr =
          ⟨if m.destination.toList.head? = some '+' then some m.destination else none,
            if m.destination.toList.head? = some '+' then none else some m.destination,
            (createMessage X.now X.profileKey m).timestamp, createMessage X.now X.profileKey m⟩ := ⟨_, rfl⟩
        rw [← htr]
        have hsync : ∃ qs', (sendSync P X fuel tr s').1.log = s'.log ++ qs' ∧ (∀ q ∈ qs', q.dest = X.self) ∧
            ∀ u, u ≠ X.self → (sendSync P X fuel tr s').1.devices u = s'.devices u := by
          unfold sendSync
          cases hms : X.marshalSync tr with
          | err e => exact ⟨[], by simp [withDefault], by simp, fun u hu => by simp [withDefault, hu]⟩
          | panic => exact ⟨[], by simp [withDefault], by simp, fun u hu => by simp [withDefault, hu]⟩
          | ok b' =>
            simp only
            obtain ⟨qs', g1, g2, -, g4, -⟩ := sendLoop_list P X.D' X.srv' X.self (Files.padMessage b') tr.timestamp
              fuel 0 (withDefault s' X.self) (by simp [withDefault])
            rcases hy : sendLoop P X.D' X.srv' X.self (Files.padMessage b') tr.timestamp fuel 0 (withDefault s' X.self)
              with ⟨s2, o⟩
            rw [hy] at g1 g4
            have g1' : s2.log = s'.log ++ qs' := g1
            have g4' : ∀ u, u ≠ X.self → s2.devices u = s'.devices u := by
              intro u hu; rw [g4 u hu]; simp [withDefault, hu]
            rcases o with _ | (_ | _ | _) <;> exact ⟨qs', g1', fun q hq => (g2.stamped q hq).2, g4'⟩
        obtain ⟨qs', g1, g2, g3⟩ := hsync
        rcases hy : sendSync P X fuel tr s' with ⟨s'', o⟩
        rw [hy] at g1 g3
        have e1 : s''.log = s.log ++ qs ++ qs' := by rw [← hl]; exact g1
        have hne : qs = [] → qs' = [] := fun h => absurd rfl (h5 h r)
        have e2 : X.self ≠ m.destination → s''.devices m.destination =
            some (listAfter X.srv 0 ((s.devices m.destination).getD [1]) qs) := by
          intro hs; rw [g3 _ (fun h => hs h.symm), h3]
        have e3 : ∀ u, u ≠ m.destination → u ≠ X.self → s''.devices u = s.devices u := by
          intro u h1 h2; rw [g3 u h2, h4' u h1]
        rcases o with _ | (_ | _ | _) <;> exact ⟨qs, qs', e1, h2, g2, hne, e2, e3⟩
    · exact ⟨qs, [], by simpa using hl, h2, by simp, by simp, fun _ => h3, fun u hu _ => h4' u hu⟩
    · exact ⟨qs, [], by simpa using hl, h2, by simp, by simp, fun _ => h3, fun u hu _ => h4' u hu⟩

/-- The second message to Bob goes to both of Bob's devices at once. -/
example :
    let X : SendExt := { syncFails with srv := fun _ => stable [1, 3] (1000 + ·) false }
    let s1 := (sendMessage Demo.P X 5 { destination := "bob", msg := [7] } (state Demo.alice0 [1])).1
    (sendMessage Demo.P X 5 { destination := "bob", msg := [8] } s1).1.log.map (fun q => (q.dest, addressed q))
      = [("bob", [1]), ("bob", [1, 3]), ("bob", [1, 3])] := by decide +kernel

/-- For all messages, states and servers: every request made on behalf of a message carries the timestamp
of its data message — the caller's if given, else the clock's — including all retries and the transcript,
and that is the timestamp returned. -/
theorem C68_one_timestamp (P : Prims) (X : SendExt) (fuel : Nat) (m : OutMsg) (s : State) :
    (∃ qs, (sendMessage P X fuel m s).1.log = s.log ++ qs ∧ ∀ q ∈ qs, q.ts = m.timestamp.getD X.now) ∧
    (∀ t, (sendMessage P X fuel m s).2 = some (.ok t) → t = m.timestamp.getD X.now) := by
  have hts : (createMessage X.now X.profileKey m).timestamp = m.timestamp.getD X.now := rfl
  unfold sendMessage
  simp only
  cases hm : X.marshal (createMessage X.now X.profileKey m) with
  | err e => exact ⟨⟨[], by simp [withDefault], by simp⟩, by simp⟩
  | panic => exact ⟨⟨[], by simp [withDefault], by simp⟩, by simp⟩
  | ok b =>
    simp only
    obtain ⟨qs, h1, h2⟩ := C49_requests_follow_replies P X.D X.srv m.destination (Files.padMessage b)
      (createMessage X.now X.profileKey m).timestamp fuel 0 (withDefault s m.destination)
    have h3 := sendLoop_ts P X.D X.srv m.destination (Files.padMessage b)
      (createMessage X.now X.profileKey m).timestamp fuel 0 (withDefault s m.destination)
    rcases hx : sendLoop P X.D X.srv m.destination (Files.padMessage b)
      (createMessage X.now X.profileKey m).timestamp fuel 0 (withDefault s m.destination) with ⟨s', o⟩
    rw [hx] at h1 h3
    have hq : ∀ q ∈ qs, q.ts = m.timestamp.getD X.now := fun q hq => ((h2.stamped q hq).1).trans hts
    have hl : s'.log = s.log ++ qs := h1
    rcases o with _ | (r | e | _)
    · exact ⟨⟨qs, hl, hq⟩, by simp⟩
    · have hr : r.ts = m.timestamp.getD X.now := (h3 r rfl).trans hts
      simp only
      by_cases hn : r.needsSync = false
      · rw [if_pos hn]
        refine ⟨⟨qs, hl, hq⟩, ?_⟩
        intro t ht
        simp only [Option.some.injEq, Res.ok.injEq] at ht
        rw [← ht, hr]
      · rw [if_neg hn]
        obtain ⟨tr, htr⟩ : ∃ tr : Transcript, tr =
          ⟨if m.destination.toList.head? = some '+' then some m.destination else none,
            if m.destination.toList.head? = some '+' then none else some m.destination,
            (createMessage X.now X.profileKey m).timestamp, createMessage X.now X.profileKey m⟩ := ⟨_, rfl⟩
        rw [← htr]
        obtain ⟨qs', g1, g2⟩ := sendSync_log P X fuel tr s'
        have g2' : ∀ q ∈ qs', q.ts = m.timestamp.getD X.now := by
          intro q hq; rw [g2 q hq, htr]; rfl
        have hall : ∀ q ∈ qs ++ qs', q.ts = m.timestamp.getD X.now := by
          intro q hq'
          rcases List.mem_append.mp hq' with h | h
          · exact hq q h
          · exact g2' q h
        rcases hy : sendSync P X fuel tr s' with ⟨s'', o⟩
        rw [hy] at g1
        have hl' : s''.log = s.log ++ (qs ++ qs') := by
          rw [← List.append_assoc, ← hl]; exact g1
        rcases o with _ | (_ | _ | _)
        · exact ⟨⟨_, hl', hall⟩, by simp⟩
        · refine ⟨⟨_, hl', hall⟩, ?_⟩
          intro t ht
          simp only [Option.some.injEq, Res.ok.injEq] at ht
          rw [← ht, hr]
        · refine ⟨⟨_, hl', hall⟩, ?_⟩
          intro t ht
          simp only [Option.some.injEq, Res.ok.injEq] at ht
          rw [← ht, hr]
        · exact ⟨⟨_, hl', hall⟩, by simp⟩
    · exact ⟨⟨qs, hl, hq⟩, by simp⟩
    · exact ⟨⟨qs, hl, hq⟩, by simp⟩

/-- Three requests, one of them the transcript, all with the caller's timestamp. -/
example : (match sendMessage Demo.P { syncFails with srv' := fun _ _ => .ok false } 5
      { destination := "bob", msg := [7], timestamp := some 99 } (state Demo.alice0 [1]) with
    | (s, r) => (s.log.map fun q => (q.dest, q.ts), r))
    = ([("bob", 99), ("bob", 99), ("alice", 99)], some (.ok 99)) := by decide +kernel

end Verif.Props.Send
