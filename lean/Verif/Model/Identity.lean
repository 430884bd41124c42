import Verif.Model.Fingerprint
import Verif.Model.Api
import Verif.Model.Receive
/-!
# Identity keys as the application sees them (store.go)
-/
namespace Verif.Identity
open Verif Verif.Api Verif.Fingerprint

/-- `MyIdentityKey` (store.go:235-238): the global `identityKey` is what `Setup` read from the file
`identity_key`; if it could not be read, it is nil (textsecure.go:322) and is dereferenced here. -/
def myIdentityKey (st : Store) : Res Bytes :=
  match st.identity with
  | none => .panic
  | some k => .ok (5 :: k.pub)

/-- `ContactIdentityKey` (store.go:249-265). -/
def contactIdentityKey (st : Store) (id : String) : Res Bytes := do
  let n ← Receive.recID id
  match st.identities n with
  | .absent => .err .other
  | .unreadable => .err .storeRead
  | .key k => .ok (5 :: k)

/-- `GetFingerprint` (store.go:267-282); `tel` is `config.ConfigFile.Tel`. -/
def getFingerprint (P : Prims) (tel : Bytes) (st : Store) (remoteUuid : String) (remoteTel : Bytes) :
    Res (List (List Char) × Bytes) := do
  let l ← myIdentityKey st
  let r ← contactIdentityKey st remoteUuid
  createFingerprintSimple P 1 tel l remoteTel r

end Verif.Identity
