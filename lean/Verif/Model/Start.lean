import Verif.Model.Profile
/-!
# The profile part of starting up (textsecure.go:325-388, 411-459; unidentifiedAccess.go)
-/
namespace Verif.Start
open Verif Verif.Profile Verif.Contacts

/-- The fields of the configuration file concerned (config/config.go). Code:
config/config.go:4-31. -/
structure Config where
  uuid : Bytes := []
  name : Bytes := []
  profileKey : Bytes := []
  credential : Bytes := []
  certificate : Bytes := []
  deriving DecidableEq, Repr

/-- A profile sent to the server: the encrypted name, and the profile key it was encrypted with (which
is not sent; the server sees a version derived from it). Code: profiles/profile.go:55-86. -/
structure Upload where
  key : Bytes
  name : Bytes
  deriving DecidableEq, Repr

/-- `CheckCertificate` (unidentifiedAccess/unidentifiedAccess.go:37-58). `outer` and `inner` are
`proto.Unmarshal` of the server certificate (its `Certificate` field) and of the sender certificate (its
optional `Expires`); `now` is the time in milliseconds. `log.Fatalln` ends the program, which counts as a
crash here. -/
def checkCertificate (outer : Bytes → Option Bytes) (inner : Bytes → Option (Option Nat)) (now : Nat) (cert : Bytes) :
    Res Unit :=
  if cert = [] then .err .other
  else match outer cert with
    | none => .panic
    | some c =>
      match inner c with
      | none => .panic
      | some none => .panic
      | some (some e) => if e < now / 1000 then .err .other else .ok ()

/-- What the surroundings do during one start of the program. Code: textsecure.go:263-376. -/
structure Env where
  gcm : Gcm
  /-- `client.GetUsername()`. -/
  username : Bytes
  /-- whether the library computes a version and a commitment for a profile key and UUID. -/
  zkOk : Bytes → Bytes → Bool
  outer : Bytes → Option Bytes
  inner : Bytes → Option (Option Nat)
  now : Nat
  /-- `transport.GetSenderCertificate()`. -/
  newCertificate : Res Bytes
  /-- `GetProfileAndCredential` for a UUID and a profile key. -/
  fetch : Bytes → Bytes → Res Prof

/-- The sending part of `UpdateProfile` (profiles/profile.go:55-86): what is uploaded and the random bytes
drawn afterwards. What the server answers is of no consequence here: the callers ignore the error. -/
def updateProfile (R : Nat → UInt8) (e : Env) (key uuid name : Bytes) (used : Nat) : List Upload × Nat :=
  if !e.zkOk key uuid then ([], used)
  else match encryptName R e.gcm key name paddedLength used with
    | (.ok c, used') => ([⟨key, c⟩], used')
    | (_, used') => ([], used')

/-- State of a start: configuration as saved, random bytes drawn, profiles uploaded. Code:
textsecure.go:263-376. -/
structure St where
  cfg : Config
  used : Nat := 0
  uploads : List Upload := []
  deriving DecidableEq, Repr

/-- A profile is sent. Code: profiles/profile.go:55-86. -/
def St.upload (R : Nat → UInt8) (e : Env) (s : St) : St :=
  let r := updateProfile R e s.cfg.profileKey s.cfg.uuid s.cfg.name s.used
  { s with used := r.2, uploads := s.uploads ++ r.1 }

/-- A new profile key is drawn and saved. Code: profiles/profile.go:44-48. -/
def St.newKey (R : Nat → UInt8) (s : St) : St :=
  let r := generateProfileKey R s.used
  { s with cfg := { s.cfg with profileKey := r.1 }, used := r.2 }

/-- textsecure.go:325-344. -/
def keyStep (R : Nat → UInt8) (e : Env) (s : St) : St :=
  let noKey := s.cfg.profileKey = []
  let s := if noKey then s.newKey R else s
  let noName := s.cfg.name = []
  let s := if noName then { s with cfg := { s.cfg with name := e.username } } else s
  if noKey ∨ noName then s.upload R e else (s.newKey R).upload R e

/-- textsecure.go:346-360 with `renewSenderCertificate` (377-388). -/
def certStep (e : Env) (s : St) : Res St :=
  let renew : Res St := do
    let c ← e.newCertificate
    .ok { s with cfg := { s.cfg with certificate := c } }
  if s.cfg.certificate = [] then renew
  else match checkCertificate e.outer e.inner e.now s.cfg.certificate with
    | .ok _ => .ok s
    | .err _ => renew
    | .panic => .panic

/-- textsecure.go:361-372: the state afterwards and the error. -/
def credStep (R : Nat → UInt8) (e : Env) (s : St) : St × Res Unit :=
  if s.cfg.credential = [] then
    let s := s.upload R e
    match e.fetch s.cfg.uuid s.cfg.profileKey with
    | .ok p => ({ s with cfg := { s.cfg with credential := p.credential.getD [] } }, .ok ())
    | .err x => (s, .err x)
    | .panic => (s, .panic)
  else (s, .ok ())

/-- The profile part of `Setup` (textsecure.go:325-375). -/
def setup (R : Nat → UInt8) (e : Env) (s : St) : St × Res Unit :=
  let s := keyStep R e s
  match certStep e s with
  | .ok s => credStep R e s
  | .err x => (s, .err x)
  | .panic => (s, .panic)

/-- The profile part of `registerDevice` (textsecure.go:411-459): name from the application, UUID from the
registration, a new profile key. -/
def register (R : Nat → UInt8) (e : Env) (uuid : Bytes) (s : St) : St :=
  ({ s with cfg := { s.cfg with uuid := uuid, name := e.username } } : St).newKey R

/-- The program is started on an unregistered installation. Code: textsecure.go:263-376. -/
def firstRun (R : Nat → UInt8) (e : Env) (uuid : Bytes) : St × Res Unit := setup R e (register R e uuid ⟨{}, 0, []⟩)

/-- The program is started again with the configuration saved before. Code: textsecure.go:263-376. -/
def run (R : Nat → UInt8) (e : Env) (c : Config) : St × Res Unit := setup R e ⟨c, 0, []⟩

/-! ## Unidentified access (unidentifiedAccess/unidentifiedAccess.go) -/

/-- `GetTargetUnidentifiedAccessKey` (unidentifiedAccess/unidentifiedAccess.go:80-89); a missing profile key (`none`) gives
the random token `tok`. A key that is present but empty is not missing. -/
def targetKey (g : Gcm) (tok : Bytes) : Option Bytes → Res Bytes
  | some k => deriveAccessKey g k
  | none => .ok tok

/-- `GetAccessForUUID` (unidentifiedAccess/unidentifiedAccess.go:122-145): the access key for the contact and one's own. The
error of the first is dropped. `certOk` is whether the stored certificate parses (`GetOurCertificate`,
146-154; if not, the program ends). -/
def accessFor (g : Gcm) (certOk : Bool) (tok ownKey : Bytes) (contactKey : Option Bytes) : Res (Bytes × Bytes) := do
  let own ← deriveAccessKey g ownKey
  if !certOk then .panic
  else
    match targetKey g tok contactKey with
    | .ok k => .ok (k, own)
    | .err _ => .ok ([], own)
    | .panic => .panic

end Verif.Start
