import Verif.Model.Config
import Verif.Model.Start
import Verif.Model.Encoding
import Verif.Model.Answers
/-!
# What the server is told of the account (server.go:196-209, 310-360), and asking for contacts (server.go:533-548)
-/
namespace Verif.Account
open Verif Verif.Wire Verif.Record

/-- `UpdateAccountAttributes` (server.go:196-209), without the fields that are always null or false. -/
structure Attributes where
  signalingKey : Bytes
  registrationId : Nat
  name : String
  accessKey : Bytes
  unrestricted : Bool
  capabilities : Nat
  discoverable : Bool
  fetchesMessages : Bool
  deriving DecidableEq, Repr

/-- What the client has in memory: `identityKey` (textsecure.go:91; nil before `Setup`), of which the private key is
given here, and `registration.Registration`. -/
structure Own where
  identity : Option Bytes
  signalingKey : Bytes
  registrationId : Nat

/-- How the server answers `PUT /v1/accounts/attributes`: not at all, with an error status, or with success.
Code: server.go:342-361. -/
inductive Answer where
  | none | error | ok
  deriving DecidableEq, Repr

/-- `SetAccountCapabilities` and `setAccountAttributes` (server.go:311-360). `discoverable` in the configuration (its
field `DiscoverableByPhoneNumber`) is not looked at. `profile` is the outcome of `profiles.GetProfile` for the own
account. The result of `saveConfig` is not looked at. Gives what the server was told, and the result. -/
def setCapabilities (g : Gcm) (Y : Config.Yaml) (own : Own) (caps : Nat) (srv : Attributes → Answer) (profile : Res Unit)
    (o : Config.Outcome) (s : Config.Sys) : Config.Sys × List Attributes × Res Unit :=
  match own.identity with
  | none => (s, [], .panic)
  | some priv =>
    match Profile.deriveAccessKey g priv with
    | .err e => (s, [], .err e)
    | .panic => (s, [], .panic)
    | .ok key =>
      match s.mem with
      | none => (s, [], .panic)
      | some cfg =>
        let a : Attributes :=
          { signalingKey := Encoding.b64Encode own.signalingKey, registrationId := own.registrationId, name := cfg.name
            accessKey := key, unrestricted := true, capabilities := caps, discoverable := true
            fetchesMessages := true }
        match srv a with
        | .none => (s, [a], .err .http)
        | .error => (s, [a], .err .http)
        | .ok =>
          match profile with
          | .err e => (s, [a], .err e)
          | .panic => (s, [a], .panic)
          | .ok _ =>
            let r := Config.change Y s (.capabilities caps) o
            (r.1, [a], r.2)

/-- The `Content` of a request for contacts (server.go:535-541). -/
def askContent : Bytes := encFields [sub 2 [sub 4 [(1, .varint 1)]]]

/-- `SyncContacts` (server.go:534-548) with `sendSyncMessage` (sender.go:66-88), which reads `resp.Timestamp` before the
error is looked at. -/
def syncContacts (P : Prims) (A : Answers.Ext) (s : Send.State) : Send.State × Res Unit :=
  let r := Send.sendLoop P A.D A.srv A.self (Files.padMessage askContent) A.now A.fuel 0 (Send.withDefault s A.self)
  (r.1, match r.2 with
    | some (.ok _) => .ok ()
    | some _ => .panic
    | none => .err .other)

end Verif.Account
