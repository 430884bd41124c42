import Verif.Model.Session
import Verif.Model.Names
/-!
# Session builder and cipher over the persistent stores

Models `BuildReceiverSession`, `BuildSenderSession`, `SessionEncryptMessage`,
`SessionDecryptWhisperMessage`, `SessionDecryptPreKeyWhisperMessage`, `GetRemoteRegistrationID`
(axolotl/session.go:375-701) over the file stores of store.go.

A call is described by the list of persistent writes it performs, in order, and its result. Stopping
the process after `k` writes leaves the store `applyWrites st (writes.take k)`. A single file write is
atomic in this model. Files hold values here; that stored bytes and values correspond is C26/C30.
-/
namespace Verif.Api
open Verif Verif.Keys Verif.Messages Verif.Session Verif.Names

/-- Content of a session file. Code: store.go:418-430, 432-439. -/
inductive SessFile where
  | absent
  | good (r : SRecord)
  | badProto      -- readable, but `LoadSessionRecord` fails
  | unreadable    -- `readFile` fails (I/O error, wrong MAC)
  deriving DecidableEq, Repr

/-- Content of a `remote_<id>` identity file. Code: store.go:217-233, 212-215. -/
inductive IdFile where
  | absent
  | key (k : Bytes)
  | unreadable
  deriving DecidableEq, Repr

/-- The persistent state of `store` (store.go). Directories are maps: the sessions directory from file
name to content, the `remote_<id>` files from id to content (prefixing is injective, and none of the
other files of that directory starts with `remote_`). A prekey file that cannot be read or parsed counts
as missing (both make `LoadPreKey` fail). Code: store.go:43-91. -/
structure Store where
  sessions : Name → SessFile
  identities : String → IdFile
  preKeys : Nat → Option KeyPair
  signedPreKeys : Nat → Option KeyPair
  /-- `identity_key`; `none` if it cannot be read. -/
  identity : Option KeyPair
  /-- `regid`. -/
  regId : Option Nat
  /-- `config.ConfigFile.AlwaysTrustPeerID`. -/
  alwaysTrust : Bool

/-- Persistent effects. Code: store.go:432-439, 212-215, 361-363. -/
inductive Write where
  | saveIdentity (id : String) (k : Bytes)
  | removePreKey (id : Nat)
  | storeSession (rec : String) (dev : Nat) (r : SRecord)
  deriving DecidableEq, Repr

/-- One completed write (store.go:212-215, 359-361, 432-439). A stored record is loaded with
`Fresh = false`. -/
def applyWrite (st : Store) : Write → Store
  | .saveIdentity id k => { st with identities := fun i => if i = id then .key k else st.identities i }
  | .removePreKey n => { st with preKeys := fun i => if i = n then none else st.preKeys i }
  | .storeSession rec dev r =>
    { st with sessions := fun n => if n = sessName rec dev then .good { r with fresh := false }
                                 else st.sessions n }

/-- A list of writes, in order. Code: store.go:172-178. -/
def applyWrites (st : Store) (ws : List Write) : Store := ws.foldl applyWrite st

/-- Which writes fail in this run (disk full, permissions). A failing write changes nothing. Code:
store.go:172-178. -/
structure Env where
  storeOk : Bool := true
  saveOk : Bool := true
  deriving DecidableEq, Repr

/-- Result of a call: completed writes, in order, and the returned value. Code:
axolotl/session.go:523-572, 658-674, 677-701. -/
structure Out (α : Type) where
  writes : List Write
  res : Res α
  deriving DecidableEq, Repr

/-- `LoadSession` (store.go:418-430): any read error gives a new record. -/
def loadSession (st : Store) (rec : String) (dev : Nat) : Res SRecord :=
  match st.sessions (sessName rec dev) with
  | .absent => .ok {}
  | .unreadable => .ok {}
  | .badProto => .err .badProto
  | .good r => .ok { r with fresh := false }

/-- `IsTrustedIdentity` (store.go:217-233). -/
def isTrusted (st : Store) (id : String) (k : Bytes) : Bool :=
  st.alwaysTrust ||
  match st.identities id with
  | .absent => true
  | .unreadable => false
  | .key b => b == k

/-- `StoreSession`, with its error. Code: store.go:432-439. -/
def storeSession (env : Env) (rec : String) (dev : Nat) (sr : SRecord) (a : α) : Out α :=
  if env.storeOk then ⟨[.storeSession rec dev sr], .ok a⟩ else ⟨[], .err .storeWrite⟩

/-! ## BuildReceiverSession (axolotl/session.go:375-430) -/

/-- Result: the updated record and the prekey id to remove. The only write is `SaveIdentity`.
Code: axolotl/session.go:375-430. -/
def buildReceiver (P : Prims) (env : Env) (st : Store) (rec : String) (sr : SRecord) (m : PreKeyMsg) :
    Out (SRecord × Nat) :=
  if m.version ≠ 3 then ⟨[], .err .unsupportedVersion⟩
  else if isTrusted st rec m.identityKey = false then ⟨[], .err .notTrusted⟩
  else if sr.hasState 3 (ser m.baseKey) then ⟨[], .ok (sr, 0)⟩
  else match st.signedPreKeys m.signedPreKeyId with
  | none => ⟨[], .err .signedPreKeyNotFound⟩
  | some spk =>
    match st.identity with
    | none => ⟨[], .err .storeRead⟩
    | some ident =>
      match (if m.preKeyId ≠ 0 then (st.preKeys m.preKeyId).map some else some none) with
      | none => ⟨[], .err .preKeyNotFound⟩
      | some opk =>
        let sr1 := if sr.fresh then sr else sr.archive
        let s := initReceiver P sr1.cur ident spk opk m.identityKey m.baseKey
        match st.regId with
        | none => ⟨[], .err .storeRead⟩
        | some reg =>
          let s := { s with localReg := reg, remoteReg := m.regId, aliceBase := ser m.baseKey }
          if env.saveOk then
            ⟨[.saveIdentity rec m.identityKey], .ok ({ sr1 with cur := s }, m.preKeyId)⟩
          else ⟨[], .err .storeWrite⟩

/-! ## BuildSenderSession (axolotl/session.go:443-499) -/

/-- `PreKeyBundle` (axolotl/prekeys.go:117-130). -/
structure Bundle where
  regId : Nat
  preKeyId : Nat
  preKey : Option Bytes
  signedPreKeyId : Nat
  signedPreKey : Option Bytes
  signature : Bytes
  identityKey : Bytes
  deriving DecidableEq, Repr

/-- The record `BuildSenderSession` stores (lines 456-488): `rb`, `rr` the randomness of the base key
and of the ratchet key. Code: axolotl/session.go:443-499. -/
def senderRecord (P : Prims) (rb rr : Bytes) (sr : SRecord) (ident : KeyPair) (reg : Nat)
    (b : Bundle) (spk : Bytes) : SRecord :=
  let base := newPair P rb
  let sr1 := if sr.fresh then sr else sr.archive
  let s := initSender P sr1.cur ident base (newPair P rr) b.identityKey spk b.preKey
  let s := { s with pending := some ⟨b.preKeyId, b.signedPreKeyId, ser base.pub⟩
                    localReg := reg, remoteReg := b.regId, aliceBase := ser base.pub }
  { sr1 with cur := s }

/-- `BuildSenderSession`. A bundle without signed prekey skips the signature check and then
dereferences nil in `initializeSenderSession`. Takes no lock. Code: axolotl/session.go:443-499. -/
def buildSender (P : Prims) (env : Env) (st : Store) (rb rr : Bytes) (rec : String) (dev : Nat)
    (b : Bundle) : Out Unit :=
  if isTrusted st rec b.identityKey = false then ⟨[], .err .notTrusted⟩
  else if (match b.signedPreKey with
      | some k => !P.verify b.identityKey (ser k) b.signature
      | none => false) then ⟨[], .err .invalidSignature⟩
  else match loadSession st rec dev with
  | .err e => ⟨[], .err e⟩
  | .panic => ⟨[], .panic⟩
  | .ok sr =>
    match st.identity with
    | none => ⟨[], .err .storeRead⟩
    | some ident =>
      match b.signedPreKey with
      | none => ⟨[], .panic⟩
      | some spk =>
        match st.regId with
        | none => ⟨[], .err .storeRead⟩
        | some reg =>
          let sr' := senderRecord P rb rr sr ident reg b spk
          if env.storeOk = false then ⟨[], .err .storeWrite⟩
          else if env.saveOk = false then ⟨[.storeSession rec dev sr'], .err .storeWrite⟩
          else ⟨[.storeSession rec dev sr', .saveIdentity rec b.identityKey], .ok ()⟩

/-! ## SessionCipher -/

/-- `SessionEncryptMessage` (axolotl/session.go:523-572). -/
def encryptMsg (P : Prims) (env : Env) (st : Store) (rec : String) (dev : Nat) (pt : Bytes) :
    Out (Bytes × MsgType) :=
  match loadSession st rec dev with
  | .err e => ⟨[], .err e⟩
  | .panic => ⟨[], .panic⟩
  | .ok sr =>
    match encryptState P sr.cur pt with
    | .err e => ⟨[], .err e⟩
    | .panic => ⟨[], .panic⟩
    | .ok (s', out, ty) => storeSession env rec dev { sr with cur := s' } (out, ty)

/-- `SessionDecryptWhisperMessage` (axolotl/session.go:658-674). -/
def decryptWhisper (P : Prims) (env : Env) (rnd : Nat → Bytes) (st : Store) (rec : String) (dev : Nat)
    (m : WhisperMsg) : Out Bytes :=
  match loadSession st rec dev with
  | .err e => ⟨[], .err e⟩
  | .panic => ⟨[], .panic⟩
  | .ok sr =>
    match decryptRecord P rnd sr m with
    | (_, .err e) => ⟨[], .err e⟩
    | (_, .panic) => ⟨[], .panic⟩
    | (sr', .ok pt) => storeSession env rec dev sr' pt

/-- `SessionDecryptPreKeyWhisperMessage` (axolotl/session.go:677-701). -/
def decryptPreKey (P : Prims) (env : Env) (rnd : Nat → Bytes) (st : Store) (rec : String) (dev : Nat)
    (m : PreKeyMsg) : Out Bytes :=
  match loadSession st rec dev with
  | .err e => ⟨[], .err e⟩
  | .panic => ⟨[], .panic⟩
  | .ok sr =>
    match buildReceiver P env st rec sr m with
    | ⟨w, .err e⟩ => ⟨w, .err e⟩
    | ⟨w, .panic⟩ => ⟨w, .panic⟩
    | ⟨w, .ok (sr1, pkid)⟩ =>
      match decryptRecord P rnd sr1 m.message with
      | (_, .err e) => ⟨w, .err e⟩
      | (_, .panic) => ⟨w, .panic⟩
      | (sr', .ok pt) =>
        let w := w ++ (if pkid ≠ 0xFFFFFF then [.removePreKey pkid] else [])
        let o := storeSession env rec dev sr' pt
        ⟨w ++ o.writes, o.res⟩

/-- `GetRemoteRegistrationID` (axolotl/session.go:575-581). -/
def remoteRegId (st : Store) (rec : String) (dev : Nat) : Res Nat := do
  let sr ← loadSession st rec dev
  .ok sr.cur.remoteReg

/-- `ContainsSession` (store.go:441-444). -/
def containsSession (st : Store) (rec : String) (dev : Nat) : Bool := st.sessions (sessName rec dev) ≠ .absent

/-- `DeleteSession` (store.go:446-449). -/
def deleteSession (st : Store) (rec : String) (dev : Nat) : Store :=
  { st with sessions := fun n => if n = sessName rec dev then .absent else st.sessions n }

/-- `GetSubDeviceSessions` (store.go:404-416): `names` are the files in the sessions directory. The
recipient is not used. -/
def subDeviceSessions (names : List Name) (_rec : String) : List Nat :=
  names.map (fun n => atoi32 (afterLast n))

/-- `DeleteAllSessions` (store.go:451-457). -/
def deleteAllSessions (st : Store) (names : List Name) (rec : String) : Store :=
  (subDeviceSessions names rec).foldl (fun st dev => deleteSession st rec dev) st

/-- `names` lists the files of the sessions directory (`filepath.Walk`). Code: store.go:404-416,
451-457. -/
def Listing (st : Store) (names : List Name) : Prop := ∀ n, n ∈ names ↔ st.sessions n ≠ .absent

/-! ## Histories -/

/-- A call on the store by this client. Code: axolotl/session.go:443-499, 523-572, 658-674,
677-701. -/
inductive Call where
  | build (rb rr : Bytes) (b : Bundle)
  | encrypt (pt : Bytes)
  | decryptW (rnd : Nat → Bytes) (m : WhisperMsg)
  | decryptP (rnd : Nat → Bytes) (m : PreKeyMsg)
  | delete

/-- A call with its address, the writes that fail, and possibly the number of completed writes after
which the process dies (and is restarted). Code: axolotl/session.go:523-572; store.go:172-178. -/
structure Event where
  peer : String
  dev : Nat
  env : Env := {}
  crash : Option Nat := none
  call : Call

/-- The writes of a call. Code: axolotl/session.go:523-572, 658-674, 677-701. -/
def Event.writes (P : Prims) (st : Store) (e : Event) : List Write :=
  match e.call with
  | .build rb rr b => (buildSender P e.env st rb rr e.peer e.dev b).writes
  | .encrypt pt => (encryptMsg P e.env st e.peer e.dev pt).writes
  | .decryptW rnd m => (decryptWhisper P e.env rnd st e.peer e.dev m).writes
  | .decryptP rnd m => (decryptPreKey P e.env rnd st e.peer e.dev m).writes
  | .delete => []

/-- Store after the call, or after the crash in the middle of it. Code:
axolotl/session.go:523-572, 658-674, 677-701. -/
def step (P : Prims) (st : Store) (e : Event) : Store :=
  match e.call with
  | .delete => deleteSession st e.peer e.dev
  | _ => match e.crash with
    | none => applyWrites st (e.writes P st)
    | some k => applyWrites st ((e.writes P st).take k)

/-- Store after a history. Code: axolotl/session.go:523-572, 658-674, 677-701. -/
def run (P : Prims) (st : Store) (es : List Event) : Store := es.foldl (step P) st

end Verif.Api
