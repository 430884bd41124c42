import Verif.Proof.Shape
/-!
# Lifting properties of session states to histories of API calls

A property of single session states that holds of the empty state and is kept by decryption attempts,
encryption and the two initialisations holds of every state of every record ever stored.
-/
namespace Verif.Api
open Verif Verif.Keys Verif.Messages Verif.Session Verif.Names

/-- `Q` is kept by everything the code does to a session state. `B`, `M` restrict the bundles and prekey
messages used, `R` the registration id in the store. -/
structure StateInv (P : Prims) (Q : SState → Prop) (B : Bundle → Prop) (M : PreKeyMsg → Prop)
    (R : Nat → Prop) : Prop where
  empty : Q {}
  dec : ∀ r s m, Q s → Q (decryptState P r s m).1
  enc : ∀ s pt s' out ty, Q s → encryptState P s pt = .ok (s', out, ty) → Q s'
  snd : ∀ ident base rat b spk reg, B b → R reg →
    Q { initSender P {} ident base rat b.identityKey spk b.preKey with
        pending := some ⟨b.preKeyId, b.signedPreKeyId, ser base.pub⟩
        localReg := reg, remoteReg := b.regId, aliceBase := ser base.pub }
  rcv : ∀ ident spk opk m reg, M m → R reg →
    Q { initReceiver P {} ident spk opk m.identityKey m.baseKey with
        localReg := reg, remoteReg := m.regId, aliceBase := ser m.baseKey }

/-- All states of a record. -/
def AllStates (Q : SState → Prop) (r : SRecord) : Prop := Q r.cur ∧ ∀ s ∈ r.prev, Q s

theorem promote_all {Q : SState → Prop} {sr : SRecord} {s : SState} (h : AllStates Q sr) (hs : Q s) :
    AllStates Q (sr.promote s) := by
  refine ⟨hs, ?_⟩
  intro x hx
  have : x ∈ sr.cur :: sr.prev := by
    simp only [SRecord.promote] at hx
    split at hx
    · exact List.dropLast_subset _ hx
    · exact hx
  rcases List.mem_cons.mp this with rfl | h1
  · exact h.1
  · exact h.2 x h1

theorem tryPrev_all {P : Prims} {Q : SState → Prop} (dec : ∀ r s m, Q s → Q (decryptState P r s m).1)
    (rnd : Nat → Bytes) (m : WhisperMsg) (l : List SState) :
    ∀ k, (∀ s ∈ l, Q s) → (∀ s ∈ (tryPrev P rnd m k l).1, Q s) ∧
      (∀ s pt, (tryPrev P rnd m k l).2 = .ok (some (s, pt)) → Q s) := by
  induction l with
  | nil => intro k _; simp [tryPrev]
  | cons a l ih =>
    intro k h
    have ha := dec (rnd k) a m (h a List.mem_cons_self)
    obtain ⟨i1, i2⟩ := ih (k + 1) (fun s hs => h s (List.mem_cons_of_mem _ hs))
    unfold tryPrev
    cases hd : decryptState P (rnd k) a m with
    | mk s' res =>
      rw [hd] at ha
      cases res with
      | ok b =>
        refine ⟨?_, ?_⟩
        · intro s hs
          rcases List.mem_cons.mp hs with rfl | hs
          · exact ha
          · exact h s (List.mem_cons_of_mem _ hs)
        · intro s pt he
          simp at he
          rw [← he.1]; exact ha
      | panic =>
        refine ⟨?_, by simp⟩
        intro s hs
        rcases List.mem_cons.mp hs with rfl | hs
        · exact ha
        · exact h s (List.mem_cons_of_mem _ hs)
      | err e =>
        refine ⟨?_, i2⟩
        intro s hs
        rcases List.mem_cons.mp hs with rfl | hs
        · exact ha
        · exact i1 s hs

theorem decryptRecord_all {P : Prims} {Q : SState → Prop}
    (dec : ∀ r s m, Q s → Q (decryptState P r s m).1) (rnd : Nat → Bytes) (sr : SRecord) (m : WhisperMsg)
    (h : AllStates Q sr) : AllStates Q (decryptRecord P rnd sr m).1 := by
  have hc := dec (rnd 0) sr.cur m h.1
  obtain ⟨t1, t2⟩ := tryPrev_all dec rnd m sr.prev 1 h.2
  unfold decryptRecord
  cases hd : decryptState P (rnd 0) sr.cur m with
  | mk s' res =>
    rw [hd] at hc
    cases res with
    | ok b => exact ⟨hc, h.2⟩
    | panic => exact ⟨hc, h.2⟩
    | err e =>
      simp only
      cases ht : tryPrev P rnd m 1 sr.prev with
      | mk p res =>
        rw [ht] at t1 t2
        cases res with
        | err e => exact ⟨hc, t1⟩
        | panic => exact ⟨hc, t1⟩
        | ok o =>
          cases o with
          | none => exact ⟨hc, t1⟩
          | some x => exact promote_all (sr := { sr with cur := s', prev := p }) ⟨hc, t1⟩ (t2 x.1 x.2 rfl)

/-- Every stored record. -/
def AllRecords (Q : SState → Prop) (st : Store) : Prop := ∀ n r, st.sessions n = .good r → AllStates Q r

theorem load_all {Q : SState → Prop} (he : Q {}) {st : Store} {rec : String} {dev : Nat} {sr : SRecord}
    (h : AllRecords Q st) (hl : loadSession st rec dev = .ok sr) : AllStates Q sr := by
  rcases load_good hl with ⟨rfl, _⟩ | ⟨r, hr, rfl⟩
  · exact ⟨he, by simp⟩
  · exact ⟨(h _ _ hr).1, (h _ _ hr).2⟩

theorem ready_all {Q : SState → Prop} (he : Q {}) {sr : SRecord} (h : AllStates Q sr) :
    AllStates Q (if sr.fresh then sr else sr.archive) := by
  split
  · exact h
  · exact promote_all h he

theorem applyWrites_all {Q : SState → Prop} (ws : List Write) : ∀ st : Store, AllRecords Q st →
    (∀ a b c, Write.storeSession a b c ∈ ws → AllStates Q c) → AllRecords Q (applyWrites st ws) := by
  induction ws with
  | nil => exact fun _ h _ => h
  | cons w ws ih =>
    intro st h hw
    refine ih _ ?_ (fun a b c hm => hw a b c (List.mem_cons_of_mem _ hm))
    cases w with
    | saveIdentity _ _ => exact h
    | removePreKey _ => exact h
    | storeSession a b c =>
      intro n r hr
      simp only [applyWrite] at hr
      split at hr
      · injection hr with hr
        rw [← hr]
        exact hw a b c List.mem_cons_self
      · exact h n r hr

/-- The arguments of an event are in the range considered. -/
def EventOk (B : Bundle → Prop) (M : PreKeyMsg → Prop) (e : Event) : Prop :=
  (∀ rb rr b, e.call = .build rb rr b → B b) ∧ (∀ rnd m, e.call = .decryptP rnd m → M m)

theorem buildReceiver_all {P : Prims} {Q B M R} (inv : StateInv P Q B M R) {env : Env} {st : Store}
    {rec : String} {dev : Nat} {sr sr1 : SRecord} {m : PreKeyMsg} {w : List Write} {pk : Nat}
    (h : AllRecords Q st) (hm : M m) (hreg : ∀ n, st.regId = some n → R n)
    (hl : loadSession st rec dev = .ok sr)
    (hb : buildReceiver P env st rec sr m = ⟨w, .ok (sr1, pk)⟩) : AllStates Q sr1 := by
  have hsr := load_all inv.empty h hl
  rcases buildReceiver_cases P env st rec sr m with
    ⟨_, _, h⟩ | ⟨_, _, _, h⟩ | ⟨_, _, _, spk, ident, opk, reg, _, _, _, hr, _, h⟩
  · rw [hb] at h; simp at h
  · rw [hb] at h
    injection h with _ h
    injection h with h
    injection h with h _
    rw [h]; exact hsr
  · rw [hb] at h
    injection h with _ h
    injection h with h
    injection h with h _
    rw [h, load_ready_cur hl]
    exact ⟨inv.rcv ident spk opk m reg hm (hreg _ hr), (ready_all inv.empty hsr).2⟩

theorem writes_all {P : Prims} {Q B M R} (inv : StateInv P Q B M R) {st : Store} {e : Event}
    (h : AllRecords Q st) (ho : EventOk B M e) (hreg : ∀ n, st.regId = some n → R n) :
    ∀ a b c, Write.storeSession a b c ∈ e.writes P st → AllStates Q c := by
  intro a b c hw
  unfold Event.writes at hw
  cases hcall : e.call with
  | delete => simp [hcall] at hw
  | build rb rr bd =>
    simp only [hcall] at hw
    rcases buildSender_cases P e.env st rb rr e.peer e.dev bd with
      ⟨hn, _⟩ | ⟨_, _, spk, sr, ident, reg, _, _, hl, _, hr, ho'⟩
    · simp [hn] at hw
    · have hb : AllStates Q (senderRecord P rb rr sr ident reg bd spk) := by
        unfold senderRecord
        simp only
        rw [load_ready_cur hl]
        exact ⟨inv.snd ident _ _ bd spk reg (ho.1 _ _ _ hcall) (hreg _ hr),
          (ready_all inv.empty (load_all inv.empty h hl)).2⟩
      rw [ho'] at hw
      split at hw <;> simp at hw
      · rw [hw.2.2]; exact hb
      · rw [hw.2.2]; exact hb
  | encrypt pt =>
    simp only [hcall] at hw
    rcases encryptMsg_cases P e.env st e.peer e.dev pt with ⟨hn, _⟩ | ⟨sr, s', out, ty, hl, he, _, ho⟩
    · simp [hn] at hw
    · rw [ho] at hw
      simp at hw
      rw [hw.2.2]
      have hsr := load_all inv.empty h hl
      exact ⟨inv.enc _ _ _ _ _ hsr.1 he, hsr.2⟩
  | decryptW rnd m =>
    simp only [hcall] at hw
    rcases decryptWhisper_cases P e.env rnd st e.peer e.dev m with
      ⟨hn, _⟩ | ⟨sr, sr', pt, hl, hd, _, ho⟩
    · simp [hn] at hw
    · rw [ho] at hw
      simp at hw
      rw [hw.2.2]
      have := decryptRecord_all inv.dec rnd sr m (load_all inv.empty h hl)
      rwa [hd] at this
  | decryptP rnd m =>
    simp only [hcall] at hw
    rcases decryptPreKey_cases P e.env rnd st e.peer e.dev m with
      ⟨hn | ⟨hn, _⟩, _⟩ | ⟨sr, w, sr1, pkid, sr', pt, hl, hb, hd, hn, _⟩
    · simp [hn] at hw
    · simp [hn] at hw
    · have h1 := buildReceiver_all inv h (ho.2 _ _ hcall) hreg hl hb
      have h2 : w = [] ∨ w = [.saveIdentity e.peer m.identityKey] := by
        rcases buildReceiver_cases P e.env st e.peer sr m with
          ⟨_, _, h⟩ | ⟨_, _, _, h⟩ | ⟨_, _, _, _, _, _, _, _, _, _, _, _, h⟩
        · rw [hb] at h; simp at h
        · rw [hb] at h; left; injection h
        · rw [hb] at h; right; injection h
      rw [hn] at hw
      simp only [List.mem_append] at hw
      rcases hw with (hw | hw) | hw
      · rcases h2 with h2 | h2 <;> rw [h2] at hw <;> simp at hw
      · split at hw <;> simp at hw
      · split at hw <;> simp at hw
        rw [hw.2.2]
        have := decryptRecord_all inv.dec rnd sr1 m.message h1
        rwa [hd] at this

theorem applyWrites_regId (ws : List Write) : ∀ st : Store, (applyWrites st ws).regId = st.regId := by
  induction ws with
  | nil => exact fun _ => rfl
  | cons w ws ih =>
    intro st
    rw [applyWrites_cons, ih]
    cases w <;> rfl

theorem step_regId (P : Prims) (st : Store) (e : Event) : (step P st e).regId = st.regId := by
  rw [step_eq]
  split
  · rfl
  · exact applyWrites_regId _ st

theorem step_all {P : Prims} {Q B M R} (inv : StateInv P Q B M R) {st : Store} {e : Event}
    (h : AllRecords Q st) (ho : EventOk B M e) (hreg : ∀ n, st.regId = some n → R n) :
    AllRecords Q (step P st e) := by
  rw [step_eq]
  have hd : AllRecords Q (applyWrites st (e.done P st)) :=
    applyWrites_all _ st h (fun a b c hw => writes_all inv h ho hreg a b c (Event.done_sub P st e _ hw))
  split
  · intro n r hr
    simp only [deleteSession] at hr
    split at hr
    · simp at hr
    · exact h n r hr
  · exact hd

/-- The lifting. -/
theorem run_all {P : Prims} {Q B M R} (inv : StateInv P Q B M R) (es : List Event) : ∀ st : Store,
    AllRecords Q st → (∀ e ∈ es, EventOk B M e) → (∀ n, st.regId = some n → R n) →
    AllRecords Q (run P st es) := by
  induction es with
  | nil => exact fun _ h _ _ => h
  | cons e es ih =>
    intro st h ho hreg
    exact ih _ (step_all inv h (ho e List.mem_cons_self) hreg)
      (fun x hx => ho x (List.mem_cons_of_mem _ hx)) (by rw [step_regId]; exact hreg)

end Verif.Api
