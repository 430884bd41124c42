import Verif.Spec.Growth
import Verif.Proof.Theft
import Verif.Proof.Invariant
/-!
# Lemmas for C158
-/
namespace Verif.Growth
open Verif Verif.Keys Verif.Messages Verif.Session Verif.Api Verif.Names Verif.Conv

/-! ## Every history -/

theorem updFirst_sum (p : RecvChain → Bool) (f : RecvChain → RecvChain) (d : Nat)
    (hf : ∀ c, (f c).mks.length ≤ c.mks.length + d) (l : List RecvChain) :
    ((updFirst p f l).map (fun c => c.mks.length)).sum ≤ (l.map (fun c => c.mks.length)).sum + d := by
  induction l with
  | nil => simp [updFirst]
  | cons a l ih =>
    unfold updFirst
    split
    · simp only [List.map_cons, List.sum_cons]
      have := hf a
      omega
    · simp only [List.map_cons, List.sum_cons]
      omega

theorem eraseMk_le (n : Nat) (l : List MsgKeys) : (eraseMk n l).length ≤ l.length := by
  induction l with
  | nil => simp [eraseMk]
  | cons a l ih =>
    unfold eraseMk
    split
    · simp
    · simp; omega

theorem skipKeys_length (P : Prims) : ∀ (n : Nat) (c : ChainKey), (skipKeys P n c).1.length = n
  | 0, _ => rfl
  | n + 1, c => by simp [skipKeys, skipKeys_length P n]

theorem addRecv_keys (s : SState) (e : Bytes) (ck : ChainKey) : keysIn (addRecv s e ck) ≤ keysIn s := by
  unfold addRecv keysIn
  simp only
  split
  · cases hr : s.recv with
    | nil => simp
    | cons a l => simp
  · simp

theorem chainKey_keys (P : Prims) (r : Bytes) (s s1 : SState) (e : Bytes) (ck : ChainKey)
    (h : getOrCreateChainKey P r s e = .ok (s1, ck)) : keysIn s1 ≤ keysIn s := by
  unfold getOrCreateChainKey at h
  split at h
  · split at h <;> simp at h
    rw [← h.1]; exact Nat.le_refl _
  · split at h
    · simp at h
    · split at h
      · simp at h
      · simp only [Res.ok.injEq, Prod.mk.injEq] at h
        rw [← h.1]
        exact addRecv_keys _ _ _

theorem messageKeys_keys (P : Prims) (s s2 : SState) (e : Bytes) (ck : ChainKey) (c : Nat) (mk : MsgKeys)
    (h : getOrCreateMessageKeys P s e ck c = .ok (s2, mk)) : keysIn s2 ≤ keysIn s + 2000 := by
  unfold getOrCreateMessageKeys at h
  split at h
  · split at h
    · simp at h
    · split at h
      · simp only [Res.ok.injEq, Prod.mk.injEq] at h
        rw [← h.1]
        exact Nat.le_trans (updFirst_sum _ _ 0 (fun c => eraseMk_le _ _) _) (by unfold keysIn; omega)
      · simp at h
  · split at h
    · simp at h
    · rename_i hle
      simp only [Res.ok.injEq, Prod.mk.injEq] at h
      rw [← h.1]
      refine updFirst_sum _ _ 2000 (fun rc => ?_) _
      simp only [List.length_append, skipKeys_length]
      omega

/-- One attempt to decrypt adds at most 2000 keys to the state. -/
theorem decryptState_keys (P : Prims) (r : Bytes) (s : SState) (m : WhisperMsg) :
    keysIn (decryptState P r s m).1 ≤ keysIn s + 2000 := by
  unfold decryptState
  split
  · simp
  split
  · simp
  cases h1 : getOrCreateChainKey P r s m.ratchetKey with
  | err e => simp
  | panic => simp
  | ok x =>
    obtain ⟨s1, ck⟩ := x
    have k1 := chainKey_keys P r s s1 _ ck h1
    simp only
    cases h2 : getOrCreateMessageKeys P s1 m.ratchetKey ck m.counter with
    | err e => simp only; omega
    | panic => simp only; omega
    | ok y =>
      obtain ⟨s2, mk⟩ := y
      have k2 := messageKeys_keys P s1 s2 _ ck _ mk h2
      simp only
      split
      · simp only; omega
      split
      · simp only; omega
      split
      · show keysIn s2 ≤ _; omega
      · simp only; omega
      · simp only; omega

theorem tryPrev_grow {P : Prims} {Q Q' : SState → Prop} (sub : ∀ s, Q s → Q' s)
    (dec : ∀ r s m, Q s → Q' (decryptState P r s m).1)
    (rnd : Nat → Bytes) (m : WhisperMsg) (l : List SState) :
    ∀ k, (∀ s ∈ l, Q s) → (∀ s ∈ (tryPrev P rnd m k l).1, Q' s) ∧
      (∀ s pt, (tryPrev P rnd m k l).2 = .ok (some (s, pt)) → Q' s) := by
  induction l with
  | nil => intro k _; simp [tryPrev]
  | cons a l ih =>
    intro k h
    have ha := dec (rnd k) a m (h a List.mem_cons_self)
    obtain ⟨i1, i2⟩ := ih (k + 1) (fun s hs => h s (List.mem_cons_of_mem _ hs))
    unfold tryPrev
    cases hd : decryptState P (rnd k) a m with
    | mk s' res =>
      rw [hd] at ha
      cases res with
      | ok b =>
        refine ⟨?_, ?_⟩
        · intro s hs
          rcases List.mem_cons.mp hs with rfl | hs
          · exact ha
          · exact sub _ (h s (List.mem_cons_of_mem _ hs))
        · intro s pt he
          simp at he
          rw [← he.1]; exact ha
      | panic =>
        refine ⟨?_, by simp⟩
        intro s hs
        rcases List.mem_cons.mp hs with rfl | hs
        · exact ha
        · exact sub _ (h s (List.mem_cons_of_mem _ hs))
      | err e =>
        refine ⟨?_, i2⟩
        intro s hs
        rcases List.mem_cons.mp hs with rfl | hs
        · exact ha
        · exact i1 s hs

theorem decryptRecord_grow {P : Prims} {Q Q' : SState → Prop} (sub : ∀ s, Q s → Q' s)
    (dec : ∀ r s m, Q s → Q' (decryptState P r s m).1) (rnd : Nat → Bytes) (sr : SRecord) (m : WhisperMsg)
    (h : AllStates Q sr) : AllStates Q' (decryptRecord P rnd sr m).1 := by
  have hc := dec (rnd 0) sr.cur m h.1
  obtain ⟨t1, t2⟩ := tryPrev_grow sub dec rnd m sr.prev 1 h.2
  unfold decryptRecord
  cases hd : decryptState P (rnd 0) sr.cur m with
  | mk s' res =>
    rw [hd] at hc
    cases res with
    | ok b => exact ⟨hc, fun s hs => sub _ (h.2 s hs)⟩
    | panic => exact ⟨hc, fun s hs => sub _ (h.2 s hs)⟩
    | err e =>
      simp only
      cases ht : tryPrev P rnd m 1 sr.prev with
      | mk p res =>
        rw [ht] at t1 t2
        cases res with
        | err e => exact ⟨hc, t1⟩
        | panic => exact ⟨hc, t1⟩
        | ok o =>
          cases o with
          | none => exact ⟨hc, t1⟩
          | some x => exact promote_all (sr := { sr with cur := s', prev := p }) ⟨hc, t1⟩ (t2 x.1 x.2 rfl)

/-- At most `B` keys in each state. -/
def AtMost (B : Nat) (s : SState) : Prop := keysIn s ≤ B

theorem atMost_empty (B : Nat) : AtMost B {} := Nat.zero_le _

theorem load_atMost {B : Nat} {st : Store} {rec : String} {dev : Nat} {sr : SRecord}
    (h : ∀ r, st.sessions (sessName rec dev) = .good r → AllStates (AtMost B) r)
    (hl : loadSession st rec dev = .ok sr) : AllStates (AtMost B) sr := by
  rcases load_good hl with ⟨rfl, _⟩ | ⟨r, hr, rfl⟩
  · exact ⟨atMost_empty B, by simp⟩
  · exact ⟨(h _ hr).1, (h _ hr).2⟩

theorem initSender_keys (P : Prims) (a b c : KeyPair) (x y : Bytes) (z : Option Bytes) :
    keysIn (initSender P {} a b c x y z) = 0 := by
  simp [initSender, addRecv, keysIn]

theorem encrypt_recv (P : Prims) (s s' : SState) (pt out : Bytes) (ty : MsgType)
    (h : encryptState P s pt = .ok (s', out, ty)) : s'.recv = s.recv := by
  unfold encryptState at h
  split at h
  · simp at h
  · split at h
    · simp at h
    split at h
    · simp at h
    simp only [Res.bind_eq_ok] at h
    obtain ⟨ct, _, h⟩ := h
    split at h
    · simp at h
    split at h
    · simp at h; rw [← h.1]
    · simp only [Res.bind_eq_ok] at h
      obtain ⟨bk, _, h⟩ := h
      simp at h; rw [← h.1]

theorem buildReceiver_atMost {P : Prims} {B : Nat} {env : Env} {st : Store} {rec : String}
    {sr sr1 : SRecord} {dev : Nat} {m : PreKeyMsg} {w : List Write} {pk : Nat} (hsr : AllStates (AtMost B) sr)
    (hl : loadSession st rec dev = .ok sr)
    (hb : buildReceiver P env st rec sr m = ⟨w, .ok (sr1, pk)⟩) : AllStates (AtMost B) sr1 := by
  rcases buildReceiver_cases P env st rec sr m with
    ⟨_, _, h⟩ | ⟨_, _, _, h⟩ | ⟨_, _, _, spk, ident, opk, reg, _, _, _, hr, _, h⟩
  · rw [hb] at h; simp at h
  · rw [hb] at h
    injection h with _ h
    injection h with h
    injection h with h _
    rw [h]; exact hsr
  · rw [hb] at h
    injection h with _ h
    injection h with h
    injection h with h _
    rw [h, load_ready_cur hl]
    exact ⟨Nat.zero_le _, (ready_all (atMost_empty B) hsr).2⟩

/-- What a call of the address stores. -/
theorem writes_atMost {P : Prims} {B : Nat} {st : Store} {e : Event}
    (h : ∀ r, st.sessions (sessName e.peer e.dev) = .good r → AllStates (AtMost B) r) (a : String) (b : Nat)
    (c : SRecord) (hw : Write.storeSession a b c ∈ e.writes P st) :
    AllStates (AtMost (B + if Accepts P st e then 2000 else 0)) c := by
  have up : ∀ {D : Nat} {x : SRecord}, AllStates (AtMost B) x → AllStates (AtMost (B + D)) x :=
    fun hx => ⟨Nat.le_trans hx.1 (Nat.le_add_right _ _), fun s hs => Nat.le_trans (hx.2 s hs) (Nat.le_add_right _ _)⟩
  have hdec : ∀ (rnd : Nat → Bytes) (sr : SRecord) (m : WhisperMsg), AllStates (AtMost B) sr →
      AllStates (AtMost (B + 2000)) (decryptRecord P rnd sr m).1 := fun rnd sr m hsr =>
    decryptRecord_grow (Q := AtMost B) (Q' := AtMost (B + 2000)) (fun s hs => Nat.le_trans hs (Nat.le_add_right _ _))
      (fun r s m hs => Nat.le_trans (decryptState_keys P r s m) (Nat.add_le_add_right hs _)) rnd sr m hsr
  unfold Event.writes at hw
  cases hcall : e.call with
  | delete => simp [hcall] at hw
  | build rb rr bd =>
    simp only [hcall] at hw
    rcases buildSender_cases P e.env st rb rr e.peer e.dev bd with
      ⟨hn, _⟩ | ⟨_, _, spk, sr, ident, reg, _, _, hl, _, hr, ho'⟩
    · simp [hn] at hw
    · have hb : AllStates (AtMost B) (senderRecord P rb rr sr ident reg bd spk) := by
        unfold senderRecord
        simp only
        rw [load_ready_cur hl]
        refine ⟨?_, (ready_all (atMost_empty B) (load_atMost h hl)).2⟩
        show keysIn (initSender P {} _ _ _ _ _ _) ≤ B
        rw [initSender_keys]
        exact Nat.zero_le _
      rw [ho'] at hw
      split at hw <;> simp at hw
      · rw [hw.2.2]; exact up hb
      · rw [hw.2.2]; exact up hb
  | encrypt pt =>
    simp only [hcall] at hw
    rcases encryptMsg_cases P e.env st e.peer e.dev pt with ⟨hn, _⟩ | ⟨sr, s', out, ty, hl, he, _, ho⟩
    · simp [hn] at hw
    · rw [ho] at hw
      simp at hw
      rw [hw.2.2]
      have hsr := load_atMost h hl
      refine up ⟨?_, hsr.2⟩
      show keysIn s' ≤ B
      unfold keysIn
      rw [encrypt_recv P _ _ _ _ _ he]
      exact hsr.1
  | decryptW rnd m =>
    simp only [hcall] at hw
    rcases decryptWhisper_cases P e.env rnd st e.peer e.dev m with
      ⟨hn, _⟩ | ⟨sr, sr', pt, hl, hd, _, ho⟩
    · simp [hn] at hw
    · have hacc : Accepts P st e = true := by simp [Accepts, hcall, ho]
      rw [ho] at hw
      simp at hw
      rw [hw.2.2, hacc]
      have := hdec rnd sr m (load_atMost h hl)
      rw [hd] at this
      exact this
  | decryptP rnd m =>
    simp only [hcall] at hw
    rcases decryptPreKey_cases P e.env rnd st e.peer e.dev m with
      ⟨hn | ⟨hn, _⟩, _⟩ | ⟨sr, w, sr1, pkid, sr', pt, hl, hb, hd, hn, hres⟩
    · simp [hn] at hw
    · simp [hn] at hw
    · have h1 := buildReceiver_atMost (load_atMost h hl) hl hb
      have h2 : w = [] ∨ w = [.saveIdentity e.peer m.identityKey] := by
        rcases buildReceiver_cases P e.env st e.peer sr m with
          ⟨_, _, h⟩ | ⟨_, _, _, h⟩ | ⟨_, _, _, _, _, _, _, _, _, _, _, _, h⟩
        · rw [hb] at h; simp at h
        · rw [hb] at h; left; injection h
        · rw [hb] at h; right; injection h
      rw [hn] at hw
      simp only [List.mem_append] at hw
      rcases hw with (hw | hw) | hw
      · rcases h2 with h2 | h2 <;> rw [h2] at hw <;> simp at hw
      · split at hw <;> simp at hw
      · by_cases hs : e.env.storeOk = true
        · have hacc : Accepts P st e = true := by simp [Accepts, hcall, hres, hs]
          rw [if_pos hs] at hw
          simp at hw
          rw [hw.2.2, hacc]
          have := hdec rnd sr1 m.message h1
          rw [hd] at this
          exact this
        · rw [if_neg hs] at hw
          simp at hw

theorem run_atMost (P : Prims) (rec : String) (dev : Nat) : ∀ (es : List Event) (st : Store) (B : Nat),
    (∀ r, st.sessions (sessName rec dev) = .good r → AllStates (AtMost B) r) →
    ∀ r, (run P st es).sessions (sessName rec dev) = .good r →
      AllStates (AtMost (B + 2000 * accepted P rec dev st es)) r := by
  intro es
  induction es with
  | nil => intro st B h r hr; exact h r hr
  | cons e es ih =>
    intro st B h r hr
    have hstep : ∀ r, (step P st e).sessions (sessName rec dev) = .good r →
        AllStates (AtMost (B + 2000 *
          (if e.peer = rec ∧ e.dev = dev ∧ Accepts P st e = true then 1 else 0))) r := by
      intro r hr
      have up : ∀ {D : Nat} {x : SRecord}, AllStates (AtMost B) x → AllStates (AtMost (B + D)) x :=
        fun hx => ⟨Nat.le_trans hx.1 (Nat.le_add_right _ _),
          fun s hs => Nat.le_trans (hx.2 s hs) (Nat.le_add_right _ _)⟩
      by_cases hp : sessName rec dev = sessName e.peer e.dev
      · obtain ⟨h1, h2⟩ := sessName_inj hp
        subst h1
        subst h2
        by_cases hdel : e.call = .delete
        · rw [step_eq, hdel] at hr
          simp [deleteSession] at hr
        · rcases step_own P st e (fun hx => hdel hx) with h1 | ⟨c, h1, h2⟩
          · rw [h1] at hr
            exact up (h r hr)
          · rw [h2] at hr
            injection hr with hr
            subst hr
            have := writes_atMost (P := P) h e.peer e.dev c h1
            have hif : B + 2000 * (if e.peer = e.peer ∧ e.dev = e.dev ∧ Accepts P st e = true then 1 else 0) =
                B + (if Accepts P st e then 2000 else 0) := by
              cases Accepts P st e <;> simp
            rw [hif]
            exact ⟨this.1, this.2⟩
      · rw [step_sessions P st e _ hp] at hr
        exact up (h r hr)
    have := ih (step P st e) _ hstep r hr
    have hc : B + 2000 * (if e.peer = rec ∧ e.dev = dev ∧ Accepts P st e = true then 1 else 0)
        + 2000 * accepted P rec dev (step P st e) es = B + 2000 * accepted P rec dev st (e :: es) := by
      simp only [accepted]
      split <;> omega
    rw [← hc]
    exact this

/-! ## Conversations -/

theorem nodup_same_length {a b : List Nat} (ha : a.Nodup) (hb : b.Nodup) (h : ∀ x, x ∈ a ↔ x ∈ b) :
    a.length = b.length :=
  ((List.perm_ext_iff_of_nodup ha hb).mpr h).length_eq

theorem tracks_length {P : Prims} {C : ChainKey} {rc : RecvChain} {acc : List (Nat × Nat)} {e : Nat}
    (h : Tracks P C rc (pos acc e) (fun c => (e, c) ∈ acc)) (h0 : C.idx = 0) (hp : pos acc e < u32) :
    rc.mks.length = missing acc e := by
  have hidx : ∀ j, j < pos acc e → (msgKeys P (ckAt P C j)).idx = j := by
    intro j hj
    show (ckAt P C j).idx = j
    rw [ckAt_idx P C j (by omega), h0, Nat.zero_add]
  have : (rc.mks.map MsgKeys.idx).length = missing acc e := by
    refine nodup_same_length h.nodup (List.nodup_range.filter _) (fun x => ?_)
    simp only [List.mem_map, List.mem_filter, List.mem_range, decide_not, Bool.not_eq_true', decide_eq_false_iff_not]
    constructor
    · rintro ⟨mk, hmk, rfl⟩
      obtain ⟨j, hj, hD, rfl⟩ := h.sound mk hmk
      rw [hidx j hj]
      exact ⟨hj, hD⟩
    · rintro ⟨hx, hD⟩
      exact ⟨_, h.complete x hx hD, hidx x hx⟩
  simpa using this

theorem forall₂_sum {α β : Type} {R : α → β → Prop} (f : α → Nat) (g : β → Nat) (h : ∀ a b, R a b → g b = f a)
    {l : List α} {m : List β} (hr : List.Forall₂ R l m) : (m.map g).sum = (l.map f).sum := by
  induction hr with
  | nil => rfl
  | cons hab _ ih => simp only [List.map_cons, List.sum_cons, ih, h _ _ hab]

theorem sessAt_kept {P : Prims} {G : List Epoch} {a : Abs} {n : Nat} {me them : Bytes} {pend base reg} {r : SRecord}
    (hC : Chain P G) (hb : ∀ x ∈ a.acc, x.1 ≠ 0 ∧ x.2 + 1 < u32)
    (h : SessAt P G a.log a.acc n me them pend base reg r) : kept r = ((ret n).map (missing a.acc)).sum := by
  unfold kept
  rw [h.prev]
  simp only [List.map_cons, List.map_nil, List.sum_cons, List.sum_nil, Nat.add_zero]
  refine forall₂_sum (missing a.acc) _ (fun e rc hrc => ?_) h.party.recv
  obtain ⟨g, hg, _, ht, h0⟩ := hrc
  by_cases he : e = 0
  · rw [(h0 he).1]
    have : pos a.acc e = 0 := pos_zero _ _ (fun x hx => by rw [he]; exact (hb x hx).1)
    simp [missing, this]
  · refine tracks_length (ht he) (hC.valid g (List.mem_of_getElem? hg)).2.2.2 ?_
    have : pos a.acc e ≤ u32 - 1 := pos_le _ _ _ (fun x hx => by have := (hb x hx).2; omega)
    unfold u32 at *
    omega

theorem accept_fields (a : Abs) (m : AMsg) : (a.accept m).log = a.log ∧ (a.accept m).acc = (m.epoch, m.ctr) :: a.acc := by
  unfold Abs.accept
  simp only
  split
  · split <;> simp
  · simp

/-- What was accepted was sent, and no more was sent than there were events. -/
theorem acc_sent (evs : List Ev) : ∀ a : Abs, (∀ x ∈ a.acc, ∃ m ∈ a.log, x = (m.epoch, m.ctr)) →
    (∀ x ∈ (evs.foldl Abs.step a).acc, ∃ m ∈ (evs.foldl Abs.step a).log, x = (m.epoch, m.ctr)) ∧
    (evs.foldl Abs.step a).log.length ≤ a.log.length + evs.length := by
  induction evs with
  | nil => intro a h; exact ⟨h, by simp⟩
  | cons ev evs ih =>
    intro a h
    have hs : (∀ x ∈ (a.step ev).acc, ∃ m ∈ (a.step ev).log, x = (m.epoch, m.ctr)) ∧
        (a.step ev).log.length ≤ a.log.length + 1 := by
      cases ev with
      | send who pt =>
        simp only [Abs.step]
        refine ⟨fun x hx => ?_, by simp⟩
        obtain ⟨m, hm, he⟩ := h x hx
        exact ⟨m, List.mem_append_left _ hm, he⟩
      | deliver i rnd =>
        simp only [Abs.step]
        split
        · exact ⟨h, by omega⟩
        · rename_i m hm
          split
          · obtain ⟨h1, h2⟩ := accept_fields a m
            rw [h1, h2]
            refine ⟨fun x hx => ?_, by omega⟩
            rcases List.mem_cons.mp hx with rfl | hx
            · exact ⟨m, List.mem_of_getElem? hm, rfl⟩
            · exact h x hx
          · exact ⟨h, by omega⟩
    have := ih _ hs.1
    refine ⟨this.1, ?_⟩
    have h2 := this.2
    have h3 := hs.2
    simp only [List.foldl_cons, List.length_cons]
    omega

theorem rel_acc {P : Prims} {S : Setup} {G : List Epoch} {evs : List Ev} {w : World}
    (h : Rel P S G (evs.foldl Abs.step {}) w) (hl : evs.length < u32) :
    ∀ x ∈ (evs.foldl Abs.step {}).acc, x.1 ≠ 0 ∧ x.2 + 1 < u32 := by
  intro x hx
  obtain ⟨h1, h2⟩ := acc_sent evs {} (by simp)
  obtain ⟨m, hm, rfl⟩ := h1 x hx
  obtain ⟨he, _, hc⟩ := h.logE m hm
  simp only [List.length_nil, Nat.zero_add] at h2
  refine ⟨by simp only; omega, ?_⟩
  have : m.ctr < evs.length := by omega
  simp only
  omega

/-! ## The flood -/

theorem missing_ahead (acc : List (Nat × Nat)) (e c : Nat) (h : pos acc e ≤ c) (hb : ∀ x ∈ acc, x.1 = e → x.2 < pos acc e) :
    missing ((e, c) :: acc) e = missing acc e + (c - pos acc e) := by
  unfold missing
  rw [pos_cons_eq, Nat.max_eq_right (by omega)]
  obtain ⟨d, rfl⟩ := Nat.exists_eq_add_of_le h
  have hr : List.range (pos acc e + d + 1) =
      List.range (pos acc e) ++ ((List.range d).map (pos acc e + ·) ++ [pos acc e + d]) := by
    rw [List.range_succ, List.range_add, List.append_assoc]
  rw [hr, List.filter_append, List.filter_append, List.length_append, List.length_append]
  have h1 : (List.range (pos acc e)).filter (fun c => (e, c) ∉ (e, pos acc e + d) :: acc) =
      (List.range (pos acc e)).filter (fun c => (e, c) ∉ acc) := by
    refine List.filter_congr (fun x hx => ?_)
    have hx := List.mem_range.mp hx
    have : x ≠ pos acc e + d := by omega
    simp [this]
  have h2 : ((List.range d).map (pos acc e + ·)).filter (fun c => (e, c) ∉ (e, pos acc e + d) :: acc) =
      (List.range d).map (pos acc e + ·) := by
    rw [List.filter_eq_self]
    intro x hx
    obtain ⟨y, hy, rfl⟩ := List.mem_map.mp hx
    have hy := List.mem_range.mp hy
    have hn : (e, pos acc e + y) ∉ acc := fun hm => by have := hb _ hm rfl; simp only at this; omega
    have hne : y ≠ d := by omega
    simp [hn, hne]
  have h3 : [pos acc e + d].filter (fun c => (e, c) ∉ (e, pos acc e + d) :: acc) = [] := by simp
  rw [h1, h2, h3]
  simp

/-- The abstract state after `k` rounds. -/
structure Flooded (n k : Nat) (a : Abs) : Prop where
  lvI : a.lvI = 1
  lvR : a.lvR = if k = 0 then 0 else 2
  log : a.log = (List.range ((n + 1) * k)).map (fun i => ⟨1, i, []⟩)
  pos : pos a.acc 1 = (n + 1) * k
  below : ∀ x ∈ a.acc, x.1 = 1 ∧ x.2 < (n + 1) * k
  missing : missing a.acc 1 = n * k

theorem count_all (n : Nat) : count ((List.range n).map (fun i => (⟨1, i, []⟩ : AMsg))) 1 = n := by
  unfold count
  rw [List.filter_eq_self.mpr (by simp)]
  simp

theorem sends (n : Nat) : ∀ (a : Abs) (m : Nat), a.lvI = 1 → a.log = (List.range m).map (fun i => ⟨1, i, []⟩) →
    (List.replicate n (Ev.send false [])).foldl Abs.step a =
      { a with log := (List.range (m + n)).map (fun i => ⟨1, i, []⟩) } := by
  induction n with
  | zero => intro a m _ hl; cases a; simp only [List.replicate_zero, List.foldl_nil, Nat.add_zero] at *; rw [hl]
  | succ n ih =>
    intro a m hv hl
    have hs : a.step (.send false []) = { a with log := (List.range (m + 1)).map (fun i => ⟨1, i, []⟩) } := by
      simp only [Abs.step, Abs.sendLevel, hv, Bool.false_eq_true, if_false]
      rw [hl, count_all, List.range_succ, List.map_append]
      rfl
    rw [List.replicate_succ, List.foldl_cons, hs]
    refine (ih { a with log := (List.range (m + 1)).map (fun i => ⟨1, i, []⟩) } (m + 1) hv rfl).trans ?_
    simp only
    rw [show m + 1 + n = m + (n + 1) by omega]

/-- One round: what is expected, and the state after it. -/
theorem round (n k : Nat) (hn : n ≤ 2000) (a : Abs) (h : Flooded n k a) (rnd : Nat → Bytes) (b : Abs)
    (hb : b = (List.replicate (n + 1) (Ev.send false [])).foldl Abs.step a) :
    b.log[(n + 1) * k + n]? = some ⟨1, (n + 1) * k + n, []⟩ ∧ b.expect ⟨1, (n + 1) * k + n, []⟩ = .accept ∧
    Flooded n (k + 1) (b.step (.deliver ((n + 1) * k + n) rnd)) := by
  have hM : (n + 1) * (k + 1) = (n + 1) * k + n + 1 := by rw [Nat.mul_succ]; omega
  rw [sends (n + 1) a ((n + 1) * k) h.lvI h.log] at hb
  obtain ⟨M, hMe⟩ : ∃ M, M = (n + 1) * k := ⟨_, rfl⟩
  have hp := h.pos
  have hbel := h.below
  rw [← hMe] at hb hM hp hbel ⊢
  have hm : b.log[M + n]? = some ⟨1, M + n, []⟩ := by
    rw [hb]
    simp
  have hacc : b.acc = a.acc := by rw [hb]
  have hlv : b.lvR = if k = 0 then 0 else 2 := by rw [hb]; exact h.lvR
  have hnot : (1, M + n) ∉ a.acc := fun hx => by have := (hbel _ hx).2; simp only at this; omega
  have hex : b.expect ⟨1, M + n, []⟩ = .accept := by
    unfold Abs.expect Abs.recvLevel
    simp only [hlv, hacc, hp]
    by_cases hk : k = 0
    · have hM0 : M = 0 := by rw [hMe, hk]; rfl
      simp [hk, hM0, hn]
    · simp [hk, hnot, ret, last5, hn]
  refine ⟨hm, hex, ?_⟩
  have hst : b.step (.deliver (M + n) rnd) = b.accept ⟨1, M + n, []⟩ := by
    simp only [Abs.step, hm, hex]
  have hfin : b.accept ⟨1, M + n, []⟩ = { b with acc := (1, M + n) :: a.acc, lvR := 2 } := by
    unfold Abs.accept Abs.recvLevel
    simp only [hlv, hacc]
    by_cases hk : k = 0
    · subst hk; simp
    · have : b.lvR = 2 := by rw [hlv, if_neg hk]
      simp [hk, ← this]
  rw [hst, hfin]
  have hpos : Conv.pos ((1, M + n) :: a.acc) 1 = (n + 1) * (k + 1) := by
    rw [pos_cons_eq, hp, hM]
    omega
  refine ⟨by rw [hb]; exact h.lvI, by simp, by rw [hb]; simp only; rw [hM, Nat.add_assoc], hpos, ?_, ?_⟩
  · intro x hx
    rcases List.mem_cons.mp hx with rfl | hx
    · exact ⟨rfl, by simp only; omega⟩
    · have := hbel x hx
      exact ⟨this.1, by omega⟩
  · show Growth.missing ((1, M + n) :: a.acc) 1 = n * (k + 1)
    rw [missing_ahead _ _ _ (by rw [hp]; omega) (fun x hx _ => by rw [hp]; exact (hbel x hx).2), h.missing, hp,
      Nat.mul_succ]
    omega

theorem flooded (rnd : Nat → Nat → Bytes) (n : Nat) (hn : n ≤ 2000) : ∀ k, Flooded n k ((flood rnd n k).foldl Abs.step {})
  | 0 => ⟨rfl, rfl, rfl, rfl, by simp [flood], rfl⟩
  | k + 1 => by
    simp only [flood, List.foldl_append, List.foldl_cons, List.foldl_nil]
    exact (round n k hn _ (flooded rnd n hn k) (rnd k) _ rfl).2.2

theorem legal_append : ∀ (l m : List Ev) (a : Abs), Legal a (l ++ m) ↔ Legal a l ∧ Legal (l.foldl Abs.step a) m
  | [], m, a => by simp [Legal]
  | e :: l, m, a => by simp only [List.cons_append, Legal, legal_append l m, List.foldl_cons, and_assoc]

theorem noForgery_append {P : Prims} {S : Setup} : ∀ (l m : List Ev) (a : Abs) (w : World),
    NoForgery P S a w l → (∀ w', NoForgery P S (l.foldl Abs.step a) w' m) → NoForgery P S a w (l ++ m)
  | [], _, _, w, _, h => h w
  | _ :: l, m, _, _, h1, h2 => ⟨h1.1, noForgery_append l m _ _ h1.2 h2⟩

theorem legal_sends (n : Nat) : ∀ a : Abs, Legal a (List.replicate n (Ev.send false [])) := by
  induction n with
  | zero => intro a; trivial
  | succ n ih => intro a; exact ⟨⟨by simp, by simp⟩, ih _⟩

theorem noForgery_sends {P : Prims} {S : Setup} (n : Nat) : ∀ (a : Abs) (w : World),
    NoForgery P S a w (List.replicate n (Ev.send false [])) := by
  induction n with
  | zero => intro a w; trivial
  | succ n ih => intro a w; exact ⟨by simp [Abs.want], ih _ _⟩

theorem flood_legal (rnd : Nat → Nat → Bytes) (hr : ∀ i, (rnd i 0).length = 32) (n : Nat) : ∀ k, Legal {} (flood rnd n k)
  | 0 => trivial
  | k + 1 => by
    simp only [flood]
    rw [legal_append, legal_append]
    exact ⟨⟨flood_legal rnd hr n k, legal_sends _ _⟩, hr k, trivial⟩

theorem flood_noForgery {P : Prims} {S : Setup} (rnd : Nat → Nat → Bytes) (w : World) (n : Nat) (hn : n ≤ 2000) : ∀ k,
    NoForgery P S {} w (flood rnd n k)
  | 0 => trivial
  | k + 1 => by
    simp only [flood]
    refine noForgery_append _ _ _ _ (noForgery_append _ _ _ _ (flood_noForgery rnd w n hn k)
      (fun w' => noForgery_sends _ _ _)) ?_
    intro w'
    refine ⟨?_, trivial⟩
    rw [List.foldl_append]
    obtain ⟨h1, h2, _⟩ := round n k hn _ (flooded rnd n hn k) (rnd k) _ rfl
    simp only [Abs.want, h1, h2]
    simp

theorem flood_length (rnd : Nat → Nat → Bytes) (n : Nat) : ∀ k, (flood rnd n k).length = (n + 2) * k
  | 0 => rfl
  | k + 1 => by
    simp only [flood, List.length_append, flood_length rnd n k, List.length_replicate, List.length_singleton, Nat.mul_succ]
    omega

end Verif.Growth
