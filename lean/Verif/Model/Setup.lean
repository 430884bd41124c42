import Verif.Model.Start
import Verif.Model.Register
import Verif.Model.Http
/-!
# Starting up as a whole (textsecure.go:263-388; transport/unidentifiedCert.go)

The registration part is in `Verif/Model/Register.lean`, the profile part in `Verif/Model/Start.lean`; here they are
put together, with the request for the sender certificate and the error that `Setup` returns in the end.
-/
namespace Verif.Setup
open Verif Verif.Keys Verif.Http

/-- `Decode(&certificates)` on a pointer to a `SenderCertificate` (transport/unidentifiedCert.go:9-11, 26-30): the
field `Certificate` afterwards, `none` if the pointer has become nil. The error is dropped by the code. -/
structure CertJson where
  decode : Bytes → Option Bytes
  /-- `null` sets the pointer to nil -/
  null : decode (ascii "null") = none
  /-- nothing to decode: `io.EOF`, the fresh structure is left as it is -/
  empty : decode [] = some []
  /-- a byte slice is written in standard base64 -/
  object : ∀ c, decode (ascii "{\"certificate\":\"" ++ Encoding.b64Encode c ++ ascii "\"}") = some c

variable {W : Type}

/-- `GetSenderCertificate` (transport/unidentifiedCert.go:17-33): neither the status nor the error of `Decode` is
looked at. -/
def getSenderCertificate (serve : Serve W) (J : CertJson) (T : Transports) : M W (Option Bytes) := do
  let resp ← call serve (getReq T.main (ascii "/v1/certificate/delivery"))
  pure (match resp.body with
    | none => some []
    | some b => J.decode b)

/-- The first half of `renewSenderCertificate` (textsecure.go:377-383): `cert.Certificate` of a nil pointer panics. -/
def newCertificate (serve : Serve W) (J : CertJson) (T : Transports) : M W Bytes := do
  let c ← getSenderCertificate serve J T
  match c with
  | none => M.lift .panic
  | some c => pure c

/-- The surroundings of the profile part when the certificate comes from the network `n`. What the network does
with the other requests is in `e`. Code: textsecure.go:346-360, 377-388. -/
def withNet (serve : Serve W) (J : CertJson) (T : Transports) (n : Http.St W) (e : Start.Env) : Start.Env :=
  { e with newCertificate := (newCertificate serve J T n).2 }

/-- `Setup` from line 322 on (textsecure.go:322-376). The error of `GetIdentityKeyPair` stays in `err` until
`renewSenderCertificate` overwrites it, which it does only if there was no certificate (line 348; the `err` of line 353
is another variable, as is that of line 364). -/
def finish (R : Nat → UInt8) (e : Start.Env) (identity : Option KeyPair) (s : Start.St) : Start.St × Res Unit :=
  match Start.setup R e s with
  | (s', .ok _) =>
    (s', if s.cfg.certificate = [] then .ok ()
      else match identity with
        | none => .err .storeRead
        | some _ => .ok ())
  | r => r

/-- `Setup` (textsecure.go:263-376): what is written to the store, what is loaded from it, the configuration
afterwards and the result. `s` is the configuration as the registration leaves it or as it was saved. -/
def setup {P : Prims} (E : Sign.Ed P) (R : Nat → UInt8) (er : Register.Env) (e : Start.Env) (w : Register.World)
    (s : Start.St) : List Register.Eff × Option Register.Loaded × Start.St × Res Unit :=
  match Register.start E er w with
  | (effs, .ok l) =>
    let r := finish R e l.identity s
    (effs, some l, r.1, r.2)
  | (effs, .err x) => (effs, none, s, .err x)
  | (effs, .panic) => (effs, none, s, .panic)

end Verif.Setup
