import Verif.Proof.Session
import Verif.Model.Api
/-!
# Case analysis of the session API
-/
namespace Verif.Api
open Verif Verif.Keys Verif.Messages Verif.Session Verif.Names

@[simp] theorem applyWrites_nil (st : Store) : applyWrites st [] = st := rfl
@[simp] theorem applyWrites_cons (st : Store) (w : Write) (ws : List Write) :
    applyWrites st (w :: ws) = applyWrites (applyWrite st w) ws := rfl

theorem applyWrites_append (st : Store) (a b : List Write) :
    applyWrites st (a ++ b) = applyWrites (applyWrites st a) b := by
  simp [applyWrites, List.foldl_append]

/-- The target of a write lies in the scope of a call at `(rec, dev)`. -/
def InScope (rec : String) (dev : Nat) : Write → Prop
  | .saveIdentity id _ => id = rec
  | .removePreKey _ => True
  | .storeSession r d _ => r = rec ∧ d = dev

theorem applyWrite_sessions (st : Store) (rec : String) (dev : Nat) (w : Write)
    (h : InScope rec dev w) (n : Name) (hn : n ≠ sessName rec dev) :
    (applyWrite st w).sessions n = st.sessions n := by
  cases w with
  | saveIdentity _ _ => rfl
  | removePreKey _ => rfl
  | storeSession r d x =>
    obtain ⟨rfl, rfl⟩ := h
    simp [applyWrite, hn]

theorem applyWrites_sessions (st : Store) (rec : String) (dev : Nat) (ws : List Write)
    (h : ∀ w ∈ ws, InScope rec dev w) (n : Name) (hn : n ≠ sessName rec dev) :
    (applyWrites st ws).sessions n = st.sessions n := by
  induction ws generalizing st with
  | nil => rfl
  | cons w ws ih =>
    rw [applyWrites_cons, ih _ (fun x hx => h x (List.mem_cons_of_mem _ hx)),
      applyWrite_sessions _ _ _ _ (h w List.mem_cons_self) _ hn]

theorem buildReceiver_cases (P : Prims) (env : Env) (st : Store) (rec : String) (sr : SRecord)
    (m : PreKeyMsg) :
    ((buildReceiver P env st rec sr m).writes = [] ∧
      ∃ e, (buildReceiver P env st rec sr m).res = .err e) ∨
    (m.version = 3 ∧ isTrusted st rec m.identityKey = true ∧ sr.hasState 3 (ser m.baseKey) = true ∧
      buildReceiver P env st rec sr m = ⟨[], .ok (sr, 0)⟩) ∨
    (m.version = 3 ∧ isTrusted st rec m.identityKey = true ∧ sr.hasState 3 (ser m.baseKey) = false ∧
      ∃ spk ident opk reg, st.signedPreKeys m.signedPreKeyId = some spk ∧ st.identity = some ident ∧
        (if m.preKeyId ≠ 0 then (st.preKeys m.preKeyId).map some else some none) = some opk ∧
        st.regId = some reg ∧ env.saveOk = true ∧
        buildReceiver P env st rec sr m =
          ⟨[.saveIdentity rec m.identityKey], .ok
            ({ (if sr.fresh then sr else sr.archive) with
               cur := { initReceiver P (if sr.fresh then sr else sr.archive).cur ident spk opk
                         m.identityKey m.baseKey with
                         localReg := reg, remoteReg := m.regId, aliceBase := ser m.baseKey } },
             m.preKeyId)⟩) := by
  by_cases hv : m.version = 3
  rotate_left
  · left; simp [buildReceiver, hv]
  cases ht : isTrusted st rec m.identityKey
  · left; simp [buildReceiver, hv, ht]
  cases hh : sr.hasState 3 (ser m.baseKey)
  rotate_left
  · right; left; exact ⟨hv, rfl, rfl, by simp [buildReceiver, hv, ht, hh]⟩
  cases h1 : st.signedPreKeys m.signedPreKeyId with
  | none => left; simp [buildReceiver, hv, ht, hh, h1]
  | some spk =>
    cases h2 : st.identity with
    | none => left; simp [buildReceiver, hv, ht, hh, h1, h2]
    | some ident =>
      cases h3 : (if m.preKeyId ≠ 0 then (st.preKeys m.preKeyId).map some else some none) with
      | none => left; simp only [buildReceiver, hv, ht, hh, h1, h2, h3]; simp
      | some opk =>
        cases h4 : st.regId with
        | none => left; simp only [buildReceiver, hv, ht, hh, h1, h2, h3, h4]; simp
        | some reg =>
          cases h5 : env.saveOk
          · left; simp only [buildReceiver, hv, ht, hh, h1, h2, h3, h4, h5]; simp
          · right; right
            exact ⟨hv, rfl, rfl, spk, ident, opk, reg, rfl, rfl, rfl, rfl, rfl, by
              simp only [buildReceiver, hv, ht, hh, h1, h2, h3, h4, h5]; simp⟩

theorem storeSession_cases {α : Type} (env : Env) (rec : String) (dev : Nat) (sr : SRecord) (a : α) :
    (env.storeOk = true ∧ storeSession env rec dev sr a = ⟨[.storeSession rec dev sr], .ok a⟩) ∨
    (env.storeOk = false ∧ storeSession env rec dev sr a = ⟨[], .err .storeWrite⟩) := by
  cases h : env.storeOk <;> simp [storeSession, h]

/-- `SessionDecryptWhisperMessage`: fails without writing, or stores the record it decrypted with. -/
theorem decryptWhisper_cases (P : Prims) (env : Env) (rnd : Nat → Bytes) (st : Store) (rec : String)
    (dev : Nat) (m : WhisperMsg) :
    ((decryptWhisper P env rnd st rec dev m).writes = [] ∧
      ∀ pt, (decryptWhisper P env rnd st rec dev m).res ≠ .ok pt) ∨
    ∃ sr sr' pt, loadSession st rec dev = .ok sr ∧ decryptRecord P rnd sr m = (sr', .ok pt) ∧
      env.storeOk = true ∧
      decryptWhisper P env rnd st rec dev m = ⟨[.storeSession rec dev sr'], .ok pt⟩ := by
  cases hl : loadSession st rec dev with
  | err e => left; simp [decryptWhisper, hl]
  | panic => left; simp [decryptWhisper, hl]
  | ok sr =>
    cases hd : decryptRecord P rnd sr m with
    | mk sr' res =>
      cases res with
      | err e => left; simp [decryptWhisper, hl, hd]
      | panic => left; simp [decryptWhisper, hl, hd]
      | ok pt =>
        rcases storeSession_cases env rec dev sr' pt with ⟨h1, h2⟩ | ⟨h1, h2⟩
        · right; exact ⟨sr, sr', pt, rfl, hd, h1, by simp [decryptWhisper, hl, hd, h2]⟩
        · left; simp [decryptWhisper, hl, hd, h2]

/-- `SessionDecryptPreKeyWhisperMessage`: all outcomes. -/
theorem decryptPreKey_cases (P : Prims) (env : Env) (rnd : Nat → Bytes) (st : Store) (rec : String)
    (dev : Nat) (m : PreKeyMsg) :
    (((decryptPreKey P env rnd st rec dev m).writes = [] ∨
      ((decryptPreKey P env rnd st rec dev m).writes = [.saveIdentity rec m.identityKey] ∧
        isTrusted st rec m.identityKey = true ∧
        ∃ sr, loadSession st rec dev = .ok sr ∧ sr.hasState 3 (ser m.baseKey) = false)) ∧
      ∀ pt, (decryptPreKey P env rnd st rec dev m).res ≠ .ok pt) ∨
    ∃ sr w sr1 pkid sr' pt, loadSession st rec dev = .ok sr ∧
      buildReceiver P env st rec sr m = ⟨w, .ok (sr1, pkid)⟩ ∧
      decryptRecord P rnd sr1 m.message = (sr', .ok pt) ∧
      (decryptPreKey P env rnd st rec dev m).writes =
        w ++ (if pkid ≠ 0xFFFFFF then [.removePreKey pkid] else []) ++
          (if env.storeOk then [.storeSession rec dev sr'] else []) ∧
      (decryptPreKey P env rnd st rec dev m).res =
        (if env.storeOk then .ok pt else .err .storeWrite) := by
  cases hl : loadSession st rec dev with
  | err e => left; simp [decryptPreKey, hl]
  | panic => left; simp [decryptPreKey, hl]
  | ok sr =>
    have hb := buildReceiver_cases P env st rec sr m
    cases hbr : buildReceiver P env st rec sr m with
    | mk w res =>
      cases res with
      | err e =>
        left
        have : w = [] := by
          rw [hbr] at hb
          rcases hb with ⟨h, _⟩ | ⟨_, _, _, h⟩ | ⟨_, _, _, _, _, _, _, _, _, _, _, _, h⟩
          · exact h
          · simp at h
          · simp at h
        simp [decryptPreKey, hl, hbr, this]
      | panic =>
        rw [hbr] at hb
        rcases hb with ⟨_, _, h⟩ | ⟨_, _, _, h⟩ | ⟨_, _, _, _, _, _, _, _, _, _, _, _, h⟩ <;> simp at h
      | ok x =>
        obtain ⟨sr1, pkid⟩ := x
        have hw : w = [] ∨ (w = [.saveIdentity rec m.identityKey] ∧
            isTrusted st rec m.identityKey = true ∧ sr.hasState 3 (ser m.baseKey) = false) := by
          rw [hbr] at hb
          rcases hb with ⟨h, _⟩ | ⟨_, _, _, h⟩ | ⟨_, h1, h2, _, _, _, _, _, _, _, _, _, h⟩
          · exact Or.inl h
          · left; injection h
          · right; exact ⟨by injection h, h1, h2⟩
        cases hd : decryptRecord P rnd sr1 m.message with
        | mk sr' res =>
          cases res with
          | err e =>
            left
            simp only [decryptPreKey, hl, hbr, hd]
            refine ⟨?_, by simp⟩
            rcases hw with hw | ⟨hw, h1, h2⟩
            · exact Or.inl hw
            · exact Or.inr ⟨hw, h1, sr, rfl, h2⟩
          | panic =>
            left
            simp only [decryptPreKey, hl, hbr, hd]
            refine ⟨?_, by simp⟩
            rcases hw with hw | ⟨hw, h1, h2⟩
            · exact Or.inl hw
            · exact Or.inr ⟨hw, h1, sr, rfl, h2⟩
          | ok pt =>
            right
            refine ⟨sr, w, sr1, pkid, sr', pt, rfl, hbr, hd, ?_, ?_⟩
            · rcases storeSession_cases env rec dev sr' pt with ⟨h1, h2⟩ | ⟨h1, h2⟩ <;>
                simp [decryptPreKey, hl, hbr, hd, h2, h1]
            · rcases storeSession_cases env rec dev sr' pt with ⟨h1, h2⟩ | ⟨h1, h2⟩ <;>
                simp [decryptPreKey, hl, hbr, hd, h2, h1]

theorem buildSender_cases (P : Prims) (env : Env) (st : Store) (rb rr : Bytes) (rec : String)
    (dev : Nat) (b : Bundle) :
    ((buildSender P env st rb rr rec dev b).writes = [] ∧
      (buildSender P env st rb rr rec dev b).res ≠ .ok ()) ∨
    (isTrusted st rec b.identityKey = true ∧ env.storeOk = true ∧
      ∃ spk sr ident reg, b.signedPreKey = some spk ∧ P.verify b.identityKey (ser spk) b.signature = true ∧
        loadSession st rec dev = .ok sr ∧ st.identity = some ident ∧ st.regId = some reg ∧
        buildSender P env st rb rr rec dev b =
          (if env.saveOk = false then
            ⟨[.storeSession rec dev (senderRecord P rb rr sr ident reg b spk)], .err .storeWrite⟩
          else ⟨[.storeSession rec dev (senderRecord P rb rr sr ident reg b spk),
                 .saveIdentity rec b.identityKey], .ok ()⟩)) := by
  cases ht : isTrusted st rec b.identityKey
  · left; simp [buildSender, ht]
  cases hs : b.signedPreKey with
  | none =>
    left
    simp only [buildSender, ht, hs]
    cases hl : loadSession st rec dev <;> simp
    cases hi : st.identity <;> simp
  | some spk =>
    cases hv : P.verify b.identityKey (ser spk) b.signature
    · left; simp [buildSender, ht, hs, hv]
    cases hl : loadSession st rec dev with
    | err e => left; simp [buildSender, ht, hs, hv, hl]
    | panic => left; simp [buildSender, ht, hs, hv, hl]
    | ok sr =>
      cases hi : st.identity with
      | none => left; simp [buildSender, ht, hs, hv, hl, hi]
      | some ident =>
        cases hr : st.regId with
        | none => left; simp [buildSender, ht, hs, hv, hl, hi, hr]
        | some reg =>
          cases he : env.storeOk
          · left; simp [buildSender, ht, hs, hv, hl, hi, hr, he]
          · right
            refine ⟨rfl, rfl, spk, sr, ident, reg, rfl, hv, rfl, rfl, rfl, ?_⟩
            simp [buildSender, ht, hs, hv, hl, hi, hr, he]

theorem encryptMsg_cases (P : Prims) (env : Env) (st : Store) (rec : String) (dev : Nat) (pt : Bytes) :
    ((encryptMsg P env st rec dev pt).writes = [] ∧
      ∀ x, (encryptMsg P env st rec dev pt).res ≠ .ok x) ∨
    ∃ sr s' out ty, loadSession st rec dev = .ok sr ∧ encryptState P sr.cur pt = .ok (s', out, ty) ∧
      env.storeOk = true ∧
      encryptMsg P env st rec dev pt =
        ⟨[.storeSession rec dev { sr with cur := s' }], .ok (out, ty)⟩ := by
  cases hl : loadSession st rec dev with
  | err e => left; simp [encryptMsg, hl]
  | panic => left; simp [encryptMsg, hl]
  | ok sr =>
    cases hd : encryptState P sr.cur pt with
    | err e => left; simp [encryptMsg, hl, hd]
    | panic => left; simp [encryptMsg, hl, hd]
    | ok x =>
      obtain ⟨s', out, ty⟩ := x
      rcases storeSession_cases env rec dev { sr with cur := s' } (out, ty) with ⟨h1, h2⟩ | ⟨h1, h2⟩
      · right; exact ⟨sr, s', out, ty, rfl, hd, h1, by simp [encryptMsg, hl, hd, h2]⟩
      · left; simp [encryptMsg, hl, hd, h2]

/-- Every write of a call concerns its own address. -/
theorem Event.writes_scope (P : Prims) (st : Store) (e : Event) :
    ∀ w ∈ e.writes P st, InScope e.peer e.dev w := by
  unfold Event.writes
  cases e.call with
  | delete => simp
  | build rb rr b =>
    simp only
    rcases buildSender_cases P e.env st rb rr e.peer e.dev b with ⟨h, _⟩ | ⟨_, _, _, _, _, _, _, _, _, _, _, h⟩
    · simp [h]
    · rw [h]
      split <;> simp [InScope]
  | encrypt pt =>
    simp only
    rcases encryptMsg_cases P e.env st e.peer e.dev pt with ⟨h, _⟩ | ⟨_, _, _, _, _, _, _, h⟩
    · simp [h]
    · rw [h]; simp [InScope]
  | decryptW rnd m =>
    simp only
    rcases decryptWhisper_cases P e.env rnd st e.peer e.dev m with ⟨h, _⟩ | ⟨_, _, _, _, _, _, h⟩
    · simp [h]
    · rw [h]; simp [InScope]
  | decryptP rnd m =>
    simp only
    rcases decryptPreKey_cases P e.env rnd st e.peer e.dev m with
      ⟨h | ⟨h, _⟩, _⟩ | ⟨sr, w, sr1, pkid, sr', pt, _, hb, _, h, _⟩
    · simp [h]
    · simp [h, InScope]
    · have hw : w = [] ∨ w = [.saveIdentity e.peer m.identityKey] := by
        have hc := buildReceiver_cases P e.env st e.peer sr m
        rw [hb] at hc
        rcases hc with ⟨_, _, h⟩ | ⟨_, _, _, h⟩ | ⟨_, _, _, _, _, _, _, _, _, _, _, _, h⟩
        · simp at h
        · left; injection h
        · right; injection h
      intro x hx
      rw [h] at hx
      simp only [List.mem_append] at hx
      rcases hx with (hx | hx) | hx
      · rcases hw with hw | hw <;> rw [hw] at hx <;> simp at hx
        subst hx; rfl
      · split at hx <;> simp at hx
        subst hx; trivial
      · split at hx <;> simp at hx
        subst hx; exact ⟨rfl, rfl⟩

/-- The writes an event completes. -/
def Event.done (P : Prims) (st : Store) (e : Event) : List Write :=
  match e.crash with
  | none => e.writes P st
  | some k => (e.writes P st).take k

theorem step_eq (P : Prims) (st : Store) (e : Event) :
    step P st e = match e.call with
      | .delete => deleteSession st e.peer e.dev
      | _ => applyWrites st (e.done P st) := by
  unfold step Event.done
  cases e.call <;> cases e.crash <;> rfl

theorem Event.done_sub (P : Prims) (st : Store) (e : Event) :
    ∀ w ∈ e.done P st, w ∈ e.writes P st := by
  intro w hw
  unfold Event.done at hw
  split at hw
  · exact hw
  · exact List.mem_of_mem_take hw

theorem step_sessions (P : Prims) (st : Store) (e : Event) (n : Name)
    (hn : n ≠ sessName e.peer e.dev) : (step P st e).sessions n = st.sessions n := by
  rw [step_eq]
  have h : (applyWrites st (e.done P st)).sessions n = st.sessions n :=
    applyWrites_sessions _ _ _ _
      (fun w hw => Event.writes_scope P st e w (Event.done_sub P st e w hw)) _ hn
  split
  · simp [deleteSession, hn]
  · exact h

end Verif.Api
