import Verif.Model.Concurrent
import Verif.Proof.Api
/-! # Programs run alone are the API calls -/
namespace Verif.Conc
open Verif Verif.Keys Verif.Messages Verif.Session Verif.Names Verif.Api

/-- Run a program to its end without interruption. -/
def Prog.exec : Prog → Store → Store × Res Reply
  | .ret r, st => (st, r)
  | .read k, st => (k st).exec st
  | .write w k, st => k.exec (applyWrite st w)

/-- Result of a call as a reply. -/
def asReply {α : Type} (f : α → Reply) (o : Res α) : Res Reply :=
  match o with
  | .ok a => .ok (f a)
  | .err e => .err e
  | .panic => .panic

/-- What a call returns when it runs alone: the API functions of `Model/Api`. -/
def result (P : Prims) (st : Store) (e : Event) : Res Reply :=
  match e.call with
  | .build rb rr b => asReply (fun _ => .built) (buildSender P e.env st rb rr e.peer e.dev b).res
  | .encrypt pt => asReply (fun x => .sent x.1 x.2) (encryptMsg P e.env st e.peer e.dev pt).res
  | .decryptW rnd m => asReply .got (decryptWhisper P e.env rnd st e.peer e.dev m).res
  | .decryptP rnd m => asReply .got (decryptPreKey P e.env rnd st e.peer e.dev m).res
  | .delete => .panic

theorem storeProg_exec {α : Type} (env : Env) (rec : String) (dev : Nat) (sr : SRecord) (a : α) (f : α → Reply)
    (st : Store) :
    (storeProg env rec dev sr (f a)).exec st =
      (applyWrites st (storeSession env rec dev sr a).writes,
       asReply f (storeSession env rec dev sr a).res) := by
  unfold storeProg storeSession
  split <;> rfl

theorem encrypt_exec (P : Prims) (env : Env) (st : Store) (rec : String) (dev : Nat) (pt : Bytes) :
    (encryptProg P env rec dev pt).exec st =
      (applyWrites st (encryptMsg P env st rec dev pt).writes,
       asReply (fun x => .sent x.1 x.2) (encryptMsg P env st rec dev pt).res) := by
  unfold encryptProg encryptMsg
  simp only [Prog.exec]
  cases loadSession st rec dev with
  | err e => rfl
  | panic => rfl
  | ok sr =>
    simp only
    cases encryptState P sr.cur pt with
    | err e => rfl
    | panic => rfl
    | ok x => exact storeProg_exec env rec dev _ (x.2.1, x.2.2) (fun x => .sent x.1 x.2) st

theorem decryptW_exec (P : Prims) (env : Env) (rnd : Nat → Bytes) (st : Store) (rec : String) (dev : Nat)
    (m : WhisperMsg) : (decryptWProg P env rnd rec dev m).exec st =
      (applyWrites st (decryptWhisper P env rnd st rec dev m).writes,
       asReply .got (decryptWhisper P env rnd st rec dev m).res) := by
  unfold decryptWProg decryptWhisper
  simp only [Prog.exec]
  cases loadSession st rec dev with
  | err e => rfl
  | panic => rfl
  | ok sr =>
    simp only
    cases decryptRecord P rnd sr m with
    | mk sr' res =>
      cases res with
      | err e => rfl
      | panic => rfl
      | ok pt => exact storeProg_exec env rec dev sr' pt .got st

/-- The end of the prekey call, after the writes `w` of the builder. -/
def finishOut (P : Prims) (env : Env) (rnd : Nat → Bytes) (rec : String) (dev : Nat) (m : PreKeyMsg)
    (sr1 : SRecord) (pkid : Nat) (w : List Write) : Out Bytes :=
  match decryptRecord P rnd sr1 m.message with
  | (_, .err e) => ⟨w, .err e⟩
  | (_, .panic) => ⟨w, .panic⟩
  | (sr', .ok pt) =>
    let w := w ++ (if pkid ≠ 0xFFFFFF then [.removePreKey pkid] else [])
    let o := storeSession env rec dev sr' pt
    ⟨w ++ o.writes, o.res⟩

theorem finish_exec (P : Prims) (env : Env) (rnd : Nat → Bytes) (rec : String) (dev : Nat) (m : PreKeyMsg)
    (sr1 : SRecord) (pkid : Nat) (st : Store) (w : List Write) :
    (finishPreKey P env rnd rec dev m sr1 pkid).exec (applyWrites st w) =
      (applyWrites st (finishOut P env rnd rec dev m sr1 pkid w).writes,
       asReply .got (finishOut P env rnd rec dev m sr1 pkid w).res) := by
  unfold finishPreKey finishOut
  cases decryptRecord P rnd sr1 m.message with
  | mk sr' res =>
    cases res with
    | err e => rfl
    | panic => rfl
    | ok pt =>
      simp only
      split
      · simp only [Prog.exec]
        rw [storeProg_exec env rec dev sr' pt .got]
        simp [applyWrites, List.foldl_append]
      · rw [storeProg_exec env rec dev sr' pt .got]
        simp [applyWrites, List.foldl_append]

theorem decryptPreKey_built (P : Prims) (env : Env) (rnd : Nat → Bytes) (st : Store) (rec : String)
    (dev : Nat) (m : PreKeyMsg) (sr : SRecord) (hl : loadSession st rec dev = .ok sr) :
    (∀ w e, buildReceiver P env st rec sr m = ⟨w, .err e⟩ →
      decryptPreKey P env rnd st rec dev m = ⟨w, .err e⟩) ∧
    (∀ w sr1 pkid, buildReceiver P env st rec sr m = ⟨w, .ok (sr1, pkid)⟩ →
      decryptPreKey P env rnd st rec dev m = finishOut P env rnd rec dev m sr1 pkid w) := by
  constructor
  · intro w e h
    simp [decryptPreKey, hl, h]
  · intro w sr1 pkid h
    simp only [decryptPreKey, hl, h, finishOut]
    rfl

theorem decryptP_exec (P : Prims) (env : Env) (rnd : Nat → Bytes) (st : Store) (rec : String) (dev : Nat)
    (m : PreKeyMsg) : (decryptPProg P env rnd rec dev m).exec st =
      (applyWrites st (decryptPreKey P env rnd st rec dev m).writes,
       asReply .got (decryptPreKey P env rnd st rec dev m).res) := by
  cases hl : loadSession st rec dev with
  | err e => simp [decryptPProg, decryptPreKey, Prog.exec, hl, applyWrites, asReply]
  | panic => simp [decryptPProg, decryptPreKey, Prog.exec, hl, applyWrites, asReply]
  | ok sr =>
    obtain ⟨herr, hok⟩ := decryptPreKey_built P env rnd st rec dev m sr hl
    have fin : ∀ w sr1 pkid, buildReceiver P env st rec sr m = ⟨w, .ok (sr1, pkid)⟩ →
        (finishPreKey P env rnd rec dev m sr1 pkid).exec (applyWrites st w) =
        (applyWrites st (decryptPreKey P env rnd st rec dev m).writes,
         asReply .got (decryptPreKey P env rnd st rec dev m).res) := by
      intro w sr1 pkid h
      rw [finish_exec, hok w sr1 pkid h]
    have bad : ∀ e, buildReceiver P env st rec sr m = ⟨[], .err e⟩ →
        (st, Res.err e) = (applyWrites st (decryptPreKey P env rnd st rec dev m).writes,
         asReply .got (decryptPreKey P env rnd st rec dev m).res) := by
      intro e h
      rw [herr [] e h]
      rfl
    unfold decryptPProg
    simp only [Prog.exec, hl]
    generalize hX : (applyWrites st (decryptPreKey P env rnd st rec dev m).writes,
         asReply .got (decryptPreKey P env rnd st rec dev m).res) = X at fin bad ⊢
    unfold buildReceiverProg
    unfold buildReceiver at fin bad
    by_cases h1 : m.version ≠ 3
    · rw [if_pos h1]; exact bad _ (by rw [if_pos h1])
    rw [if_neg h1]
    rw [if_neg h1] at fin bad
    simp only [Prog.exec]
    by_cases h2 : isTrusted st rec m.identityKey = false
    · rw [if_pos h2]; exact bad _ (by rw [if_pos h2])
    rw [if_neg h2]
    rw [if_neg h2] at fin bad
    by_cases h3 : sr.hasState 3 (ser m.baseKey) = true
    · rw [if_pos h3]; exact fin [] _ _ (by rw [if_pos h3])
    rw [if_neg h3]
    rw [if_neg h3] at fin bad
    simp only [Prog.exec]
    cases h4 : st.signedPreKeys m.signedPreKeyId with
    | none => exact bad _ (by rw [h4])
    | some spk =>
      rw [h4] at fin bad
      simp only [Prog.exec]
      cases h5 : st.identity with
      | none => exact bad _ (by rw [h5])
      | some ident =>
        rw [h5] at fin bad
        simp only [Prog.exec]
        cases h6 : (if m.preKeyId ≠ 0 then (st.preKeys m.preKeyId).map some else some none) with
        | none => exact bad _ (by simp only [h6])
        | some opk =>
          simp only [h6] at fin bad
          simp only [Prog.exec]
          cases h7 : st.regId with
          | none => exact bad _ (by rw [h7])
          | some reg =>
            rw [h7] at fin bad
            simp only
            by_cases h8 : env.saveOk = true
            · rw [if_pos h8]
              exact fin [.saveIdentity rec m.identityKey] _ m.preKeyId (by simp only [if_pos h8])
            · rw [if_neg h8]; exact bad _ (by simp only [if_neg h8])

theorem build_exec (P : Prims) (env : Env) (st : Store) (rb rr : Bytes) (rec : String) (dev : Nat)
    (b : Bundle) : (buildProg P env rb rr rec dev b).exec st =
      (applyWrites st (buildSender P env st rb rr rec dev b).writes,
       asReply (fun _ => .built) (buildSender P env st rb rr rec dev b).res) := by
  unfold buildProg buildSender
  simp only [Prog.exec]
  cases h2 : b.signedPreKey with
  | none =>
    split
    · rfl
    simp only [Prog.exec, Bool.false_eq_true, if_false]
    cases loadSession st rec dev with
    | err e => rfl
    | panic => rfl
    | ok sr =>
      simp only [Prog.exec]
      cases st.identity <;> rfl
  | some spk =>
    split
    · rfl
    simp only
    split
    · rfl
    simp only [Prog.exec]
    cases loadSession st rec dev with
    | err e => rfl
    | panic => rfl
    | ok sr =>
      simp only [Prog.exec]
      cases st.identity with
      | none => rfl
      | some ident =>
        simp only [Prog.exec]
        cases st.regId with
        | none => rfl
        | some reg =>
          simp only
          split
          · rfl
          · simp only [Prog.exec]
            split <;> rfl

/-- A call run alone is the API call. -/
theorem prog_exec (P : Prims) (st : Store) (e : Event) (hd : e.call ≠ .delete) (hc : e.crash = none) :
    (prog P e).exec st = (step P st e, result P st e) := by
  unfold prog result
  cases h : e.call with
  | delete => exact (hd h).elim
  | build rb rr b => rw [build_exec]; simp [step, Event.writes, h, hc]
  | encrypt pt => rw [encrypt_exec]; simp [step, Event.writes, h, hc]
  | decryptW rnd m => rw [decryptW_exec]; simp [step, Event.writes, h, hc]
  | decryptP rnd m => rw [decryptP_exec]; simp [step, Event.writes, h, hc]

end Verif.Conc
