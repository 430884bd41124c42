import Verif.Model.Api
/-!
# Session calls as sequences of store accesses, run concurrently

The three cipher calls hold the store's mutex from before their first read to after their last write
(axolotl/session.go:523-525, 658-660, 677-679); `BuildSenderSession` (443-499) takes no lock. Here each
call is a program of single file reads and writes, and threads are interleaved arbitrarily between them.
A single file access is atomic in this model.
-/
namespace Verif.Conc
open Verif Verif.Keys Verif.Messages Verif.Session Verif.Names Verif.Api

/-- What a call returns. Code: axolotl/session.go:523-572, 658-674. -/
inductive Reply where
  | sent (b : Bytes) (ty : MsgType)
  | got (pt : Bytes)
  | built
  deriving DecidableEq, Repr

/-- A call in progress: it returns, reads a file, or writes one. Code: store.go:163-170, 172-178. -/
inductive Prog where
  | ret (r : Res Reply)
  | read (k : Store → Prog)
  | write (w : Write) (k : Prog)

/-- `StoreSession` with its error check. Code: store.go:432-439. -/
def storeProg (env : Env) (rec : String) (dev : Nat) (sr : SRecord) (a : Reply) : Prog :=
  if env.storeOk then .write (.storeSession rec dev sr) (.ret (.ok a)) else .ret (.err .storeWrite)

/-- `SessionEncryptMessage` (axolotl/session.go:523-572), inside the lock. -/
def encryptProg (P : Prims) (env : Env) (rec : String) (dev : Nat) (pt : Bytes) : Prog :=
  .read fun st => match loadSession st rec dev with
    | .err e => .ret (.err e)
    | .panic => .ret .panic
    | .ok sr => match encryptState P sr.cur pt with
      | .err e => .ret (.err e)
      | .panic => .ret .panic
      | .ok (s', out, ty) => storeProg env rec dev { sr with cur := s' } (.sent out ty)

/-- `SessionDecryptWhisperMessage` (axolotl/session.go:658-674), inside the lock. -/
def decryptWProg (P : Prims) (env : Env) (rnd : Nat → Bytes) (rec : String) (dev : Nat)
    (m : WhisperMsg) : Prog :=
  .read fun st => match loadSession st rec dev with
    | .err e => .ret (.err e)
    | .panic => .ret .panic
    | .ok sr => match decryptRecord P rnd sr m with
      | (_, .err e) => .ret (.err e)
      | (_, .panic) => .ret .panic
      | (sr', .ok pt) => storeProg env rec dev sr' (.got pt)

/-- The end of `SessionDecryptPreKeyWhisperMessage` (lines 687-700). Code:
axolotl/session.go:677-701. -/
def finishPreKey (P : Prims) (env : Env) (rnd : Nat → Bytes) (rec : String) (dev : Nat) (m : PreKeyMsg)
    (sr1 : SRecord) (pkid : Nat) : Prog :=
  match decryptRecord P rnd sr1 m.message with
  | (_, .err e) => .ret (.err e)
  | (_, .panic) => .ret .panic
  | (sr', .ok pt) =>
    if pkid ≠ 0xFFFFFF then .write (.removePreKey pkid) (storeProg env rec dev sr' (.got pt))
    else storeProg env rec dev sr' (.got pt)

/-- `BuildReceiverSession` (lines 375-430) followed by `k`, one file access at a time. Code:
axolotl/session.go:375-430. -/
def buildReceiverProg (P : Prims) (env : Env) (rec : String) (sr : SRecord) (m : PreKeyMsg)
    (k : SRecord → Nat → Prog) : Prog :=
  if m.version ≠ 3 then .ret (.err .unsupportedVersion)
  else .read fun st =>
    if isTrusted st rec m.identityKey = false then .ret (.err .notTrusted)
    else if sr.hasState 3 (ser m.baseKey) then k sr 0
    else .read fun st => match st.signedPreKeys m.signedPreKeyId with
      | none => .ret (.err .signedPreKeyNotFound)
      | some spk => .read fun st => match st.identity with
        | none => .ret (.err .storeRead)
        | some ident => .read fun st =>
          match (if m.preKeyId ≠ 0 then (st.preKeys m.preKeyId).map some else some none) with
          | none => .ret (.err .preKeyNotFound)
          | some opk => .read fun st =>
            let sr1 := if sr.fresh then sr else sr.archive
            let s := initReceiver P sr1.cur ident spk opk m.identityKey m.baseKey
            match st.regId with
            | none => .ret (.err .storeRead)
            | some reg =>
              let s := { s with localReg := reg, remoteReg := m.regId, aliceBase := ser m.baseKey }
              if env.saveOk then .write (.saveIdentity rec m.identityKey) (k { sr1 with cur := s } m.preKeyId)
              else .ret (.err .storeWrite)

/-- `SessionDecryptPreKeyWhisperMessage` (axolotl/session.go:677-701), inside the lock. -/
def decryptPProg (P : Prims) (env : Env) (rnd : Nat → Bytes) (rec : String) (dev : Nat)
    (m : PreKeyMsg) : Prog :=
  .read fun st => match loadSession st rec dev with
    | .err e => .ret (.err e)
    | .panic => .ret .panic
    | .ok sr => buildReceiverProg P env rec sr m (finishPreKey P env rnd rec dev m)

/-- `BuildSenderSession` (axolotl/session.go:443-499). -/
def buildProg (P : Prims) (env : Env) (rb rr : Bytes) (rec : String) (dev : Nat) (b : Bundle) : Prog :=
  .read fun st =>
    if isTrusted st rec b.identityKey = false then .ret (.err .notTrusted)
    else if (match b.signedPreKey with
        | some k => !P.verify b.identityKey (ser k) b.signature
        | none => false) then .ret (.err .invalidSignature)
    else .read fun st => match loadSession st rec dev with
      | .err e => .ret (.err e)
      | .panic => .ret .panic
      | .ok sr => .read fun st => match st.identity with
        | none => .ret (.err .storeRead)
        | some ident => match b.signedPreKey with
          | none => .ret .panic
          | some spk => .read fun st => match st.regId with
            | none => .ret (.err .storeRead)
            | some reg =>
              let sr' := senderRecord P rb rr sr ident reg b spk
              if env.storeOk = false then .ret (.err .storeWrite)
              else .write (.storeSession rec dev sr')
                (if env.saveOk = false then .ret (.err .storeWrite)
                 else .write (.saveIdentity rec b.identityKey) (.ret (.ok .built)))

/-- The program of a call; a deletion is not a session call and is not considered here. Code:
axolotl/session.go:523-572, 658-674, 677-701, 443-499. -/
def prog (P : Prims) (e : Event) : Prog :=
  match e.call with
  | .build rb rr b => buildProg P e.env rb rr e.peer e.dev b
  | .encrypt pt => encryptProg P e.env e.peer e.dev pt
  | .decryptW rnd m => decryptWProg P e.env rnd e.peer e.dev m
  | .decryptP rnd m => decryptPProg P e.env rnd e.peer e.dev m
  | .delete => .ret .panic

/-- Whether the call runs inside the lock. Code: axolotl/session.go:524-525, 659-660, 678-679. -/
def locked (e : Event) : Bool :=
  match e.call with
  | .encrypt _ | .decryptW _ _ | .decryptP _ _ => true
  | _ => false

/-- A goroutine. Code: axolotl/session.go:524-525, 659-660, 678-679. -/
inductive Thread where
  | idle
  | running (p : Prog)
  | done (r : Res Reply)

/-- The store, the mutex (`store.Mutex`, store.go:30) and the goroutines; `calls i` is what goroutine `i`
is going to call. -/
structure Sys where
  store : Store
  lock : Option Nat := none
  threads : Nat → Thread := fun _ => .idle

/-- One goroutine is replaced. Code: axolotl/session.go:524-525, 659-660, 678-679. -/
def Sys.set (s : Sys) (i : Nat) (t : Thread) : Sys :=
  { s with threads := fun j => if j = i then t else s.threads j }

/-- One step of one goroutine. A locked call starts by taking the free mutex and releases it with its
return (`defer Unlock`). Code: axolotl/session.go:524-525, 659-660, 678-679. -/
inductive Step (P : Prims) (calls : Nat → Event) : Sys → Sys → Prop
  | lock (s : Sys) (i : Nat) : locked (calls i) = true → s.threads i = .idle → s.lock = none →
      Step P calls s { s.set i (.running (prog P (calls i))) with lock := some i }
  | start (s : Sys) (i : Nat) : locked (calls i) = false → s.threads i = .idle →
      Step P calls s (s.set i (.running (prog P (calls i))))
  | read (s : Sys) (i : Nat) (k : Store → Prog) : s.threads i = .running (.read k) →
      Step P calls s (s.set i (.running (k s.store)))
  | write (s : Sys) (i : Nat) (w : Write) (k : Prog) : s.threads i = .running (.write w k) →
      Step P calls s { s.set i (.running k) with store := applyWrite s.store w }
  | unlock (s : Sys) (i : Nat) (r : Res Reply) : locked (calls i) = true →
      s.threads i = .running (.ret r) → Step P calls s { s.set i (.done r) with lock := none }
  | finish (s : Sys) (i : Nat) (r : Res Reply) : locked (calls i) = false →
      s.threads i = .running (.ret r) → Step P calls s (s.set i (.done r))

/-- Any number of steps. Code: axolotl/session.go:524-525, 659-660, 678-679. -/
inductive Steps (P : Prims) (calls : Nat → Event) : Sys → Sys → Prop
  | refl (s : Sys) : Steps P calls s s
  | tail {s t u : Sys} : Steps P calls s t → Step P calls t u → Steps P calls s u

end Verif.Conc
