import Verif.Model.Discovery
import Verif.Model.Keys
/-!
# Remote attestation and the whole contact refresh (contactsDiscovery/remoteAttestationUtil.go, server.go)

The two requests to the directory service are parameters: what the service answers may depend on everything
it was sent. `contactsDiscovery/quote.go` is commented out as a whole, so it has no counterpart here.
-/
namespace Verif.Attest
open Verif Verif.Discovery Verif.Contacts

/-- `RemoteAttestationResponse` (contactsDiscovery/remoteAttestationUtil.go:25-35). -/
structure Answer where
  eph : Bytes
  static : Bytes
  quote : Bytes
  iv : Bytes
  ciphertext : Bytes
  tag : Bytes
  signature : Bytes
  deriving DecidableEq, Repr

/-- `remoteAttestationKeys` (contactsDiscovery/remoteAttestationUtil.go:144-169): client key and server key. Public keys of
the wrong length panic. -/
def attestationKeys (P : Prims) (kp : Keys.KeyPair) (eph static : Bytes) : Res (Bytes × Bytes) := do
  let e ← Keys.newKey eph
  let s ← Keys.newKey static
  let keys := P.hkdf (P.dh kp.priv e ++ P.dh kp.priv s) (kp.pub ++ eph ++ static) [] 64
  .ok (keys.take 32, (keys.drop 32).take 32)

/-- `getRequestId` (contactsDiscovery/remoteAttestationUtil.go:171-173) with `AesgcmDecrypt` (crypto/aesgcm.go:11-24), which
takes the same steps as `aesDecrypt` without additional data. -/
def requestId (g : Gcm) (serverKey : Bytes) (a : Answer) : Res Bytes :=
  aesDecrypt g serverKey a.iv a.ciphertext a.tag []

/-- `validateAndBuildRemoteAttestation` (contactsDiscovery/remoteAttestationUtil.go:117-142): neither the quote nor the
signature is looked at. A null entry is dereferenced. -/
def build (P : Prims) (g : Gcm) (kp : Keys.KeyPair) (name : Bytes) : Option Answer → Res Attestation
  | none => .panic
  | some a => do
    let (ck, sk) ← attestationKeys P kp a.eph a.static
    let id ← requestId g sk a
    .ok ⟨name, id, ck, sk⟩

/-- The loop over the answers (contactsDiscovery/remoteAttestationUtil.go:95-112), in the order in which the map is walked (Go
may walk it in another order each time): an answer with an error is left out. -/
def buildAll (P : Prims) (g : Gcm) (kp : Keys.KeyPair) : List (Bytes × Option Answer) → Res (List Attestation)
  | [] => .ok []
  | (name, a) :: r =>
    match build P g kp name a with
    | .panic => .panic
    | .err _ => buildAll P g kp r
    | .ok x => do
      let rest ← buildAll P g kp r
      .ok (x :: rest)

/-- `GetAndVerifyMultiRemoteAttestation` (contactsDiscovery/remoteAttestationUtil.go:58-115). `answer`: the body read as JSON,
whatever the status; `none` is the JSON null, which makes the pointer nil. -/
def attest (P : Prims) (g : Gcm) (kp : Keys.KeyPair) (answer : Res (Option (List (Bytes × Option Answer)))) :
    Res (List Attestation) :=
  match answer with
  | .err x => .err x
  | .panic => .panic
  | .ok none => .panic
  | .ok (some l) => if l.length < 1 ∨ l.length > 3 then .err .other else buildAll P g kp l

/-- What a refresh takes from outside. Code: contactsDiscovery/remoteAttestationUtil.go:58-113. -/
structure Env where
  /-- 32 random bytes for the key pair -/
  ecRandom : Bytes
  /-- 32 random bytes: the query key -/
  key : Bytes
  /-- 32 random bytes -/
  nonce : Bytes
  /-- 12 random bytes -/
  iv : Bytes
  /-- 12 random bytes for each envelope -/
  ivs : Nat → Bytes
  /-- `GetCredendtails` (transport/credentials.go:29-42) -/
  creds : Res Unit
  /-- `PUT /v1/attestation/…`, given the client's public key -/
  attestation : Bytes → Res (Option (List (Bytes × Option Answer)))
  /-- `PUT /v1/discovery/…` (server.go:584-612): `none` is the JSON null -/
  discovery : Request → Res (Option Response)
  /-- quoted-printable decoding -/
  decode : Bytes → Option Bytes

/-- One random nonce for each attestation. Code:
contactDiscoveryCrypto/contactDiscoveryCrypto.go:43-72. -/
def withIvs (ivs : Nat → Bytes) (as : List Attestation) : List (Attestation × Bytes) :=
  as.zip ((List.range as.length).map ivs)

/-- What is sent to the directory service, and the attestations it was made for (server.go:658-676). -/
def request (P : Prims) (g : Gcm) (e : Env) (ts : List Bytes) : Res (List Attestation × Request) :=
  match e.creds with
  | .err x => .err x
  | .panic => .panic
  | .ok _ => do
    let kp := Keys.newPair P e.ecRandom
    let as ← attest P g kp (e.attestation kp.pub)
    let req ← createRequest P g e.key e.nonce e.iv ts (withIvs e.ivs as)
    .ok (as, req)

/-- The conversation with the directory service (server.go:658-684). -/
def discover (P : Prims) (g : Gcm) (e : Env) (ts : List Bytes) : Res Bytes := do
  let (as, req) ← request P g e ts
  let resp ← e.discovery req
  match resp with
  | none => .panic
  | some r => responseData g r as

/-- `GetRegisteredContacts` (server.go:631-719), the conversation included. -/
def refresh (P : Prims) (g : Gcm) (e : Env) (loc : Res (List Contact)) : Res (List Contact × Book) := do
  let cs ← loc
  if cs = [] then .err .other
  else
    let ts := tokensOf cs
    if ts = [] then .err .other
    else do
      let data ← discover P g e ts
      assign e.decode data 0 ts (cs, [])

end Verif.Attest
