import Verif.Model.Gcm
import Verif.Model.Contacts
import Verif.Model.Encoding
/-!
# Profiles (profiles/profile.go, profiles/avatars.go, crypto/aesgcm.go, textsecure.go:325-372)

`math/rand` is used without a seed (profiles/profile.go:11; nothing in the repository calls `rand.Seed`, and
go.mod asks for Go 1.15), so its global source starts from the same state in every process. It is
modelled as a fixed sequence of bytes `R : Nat → UInt8`, the same for all processes, and the number of
bytes the process has drawn so far; only this package draws from it.
-/
namespace Verif.Profile
open Verif Verif.Contacts Verif.Encoding

/-- `rand.Read` for `n` bytes when `used` were drawn before; the bytes and the new count. Code:
profiles/profile.go:44-48. -/
def draw (R : Nat → UInt8) (used n : Nat) : Bytes × Nat :=
  ((List.range n).map (fun i => R (used + i)), used + n)

/-- `GenerateProfileKey` (profiles/profile.go:43-48). -/
def generateProfileKey (R : Nat → UInt8) (used : Nat) : Bytes × Nat := draw R used 32

/-- `AesgcmEncrypt` (crypto/aesgcm.go:29-39) with the 12 byte nonce of its caller in profiles. -/
def aesgcmEncrypt (g : Gcm) (key nonce input : Bytes) : Res Bytes :=
  if !aesKeyOk key then .err .badKeySize else .ok (g.lock key nonce input [])

/-- `AesgcmDecrypt` (crypto/aesgcm.go:11-24) with the 12 byte nonce of its caller in profiles. -/
def aesgcmDecrypt (g : Gcm) (key nonce data mac : Bytes) : Res Bytes :=
  if !aesKeyOk key then .err .badKeySize
  else match g.unlock key nonce (data ++ mac) [] with
    | some p => .ok p
    | none => .err .badMac

/-- `NAME_PADDED_LENGTH` (profiles/profile.go:28). -/
def paddedLength : Nat := 53

/-- `encryptName` (profiles/profile.go:104-117), and the number of random bytes drawn afterwards. -/
def encryptName (R : Nat → UInt8) (g : Gcm) (key input : Bytes) (padded : Nat) (used : Nat) : Res Bytes × Nat :=
  if input.length > padded then (.err .other, used)
  else
    let (nonce, used') := draw R used 12
    (do
      let c ← aesgcmEncrypt g key nonce (input ++ List.replicate (padded - input.length) 0)
      .ok (nonce ++ c), used')

/-- The loop of `decryptName` looking for the last byte that is not zero (profiles/profile.go:129-136);
`i` positions are left. -/
def nameLength (p : Bytes) : Nat → Nat
  | 0 => 0
  | i + 1 => if p[i]? ≠ some 0 then i + 1 else nameLength p i

/-- `decryptName` (profiles/profile.go:119-138). -/
def decryptName (g : Gcm) (key data : Bytes) : Res Bytes :=
  if data.length < 29 then .err .other
  else do
    let p ← aesgcmDecrypt g key (data.take 12) (data.drop 12) []
    .ok (p.take (nameLength p p.length))

/-- `decryptString` (profiles/profile.go:321-332). -/
def decryptString (g : Gcm) (key text : Bytes) : Res Bytes :=
  match b64Decode text with
  | none => .err .badEncoding
  | some b => decryptName g key b

/-- `Profile` (profiles/profile.go:145-158); the fields nothing here looks at are left out. -/
structure Prof where
  identityKey : Bytes := []
  access : Bytes := []
  uuid : Bytes := []
  name : Bytes := []
  about : Bytes := []
  aboutEmoji : Bytes := []
  avatar : Bytes := []
  credential : Option Bytes := none
  deriving DecidableEq, Repr

/-- The JSON object answered by the server: a field that is missing (or null) is `none`. Code:
profiles/profile.go:145-158. -/
structure Json where
  identityKey : Option Bytes := none
  access : Option Bytes := none
  uuid : Option Bytes := none
  name : Option Bytes := none
  about : Option Bytes := none
  aboutEmoji : Option Bytes := none
  avatar : Option Bytes := none
  credential : Option Bytes := none
  deriving DecidableEq, Repr

/-- `json.Unmarshal(bytes, profile)` into an existing profile: the fields present replace the old ones.
Code: profiles/profile.go:160-201. -/
def unmarshal (j : Json) (p : Prof) : Prof where
  identityKey := j.identityKey.getD p.identityKey
  access := j.access.getD p.access
  uuid := j.uuid.getD p.uuid
  name := j.name.getD p.name
  about := j.about.getD p.about
  aboutEmoji := j.aboutEmoji.getD p.aboutEmoji
  avatar := j.avatar.getD p.avatar
  credential := j.credential.orElse (fun _ => p.credential)

/-- One `decryptString` step of `decryptProfile`: an empty text is left alone. Code:
profiles/profile.go:280-319. -/
def decField (g : Gcm) (key text : Bytes) : Res Bytes :=
  if text = [] then .ok [] else decryptString g key text

/-- `decryptProfile` (profiles/profile.go:280-319): the profile afterwards — partly decrypted when a
later step fails — and the error. -/
def decryptProfile (g : Gcm) (key : Bytes) (p : Prof) : Prof × Option Err :=
  let ident (p : Prof) : Prof × Option Err :=
    match b64Decode p.identityKey with
    | none => (p, some .badEncoding)
    | some k => ({ p with identityKey := k }, none)
  if key = [] then (p, some .other)
  else if p.name = [] then ident p
  else match decryptString g key p.name with
    | .ok n =>
      let p := { p with name := n }
      match decField g key p.about with
      | .ok a =>
        let p := { p with about := a }
        match decField g key p.aboutEmoji with
        | .ok m => ident { p with aboutEmoji := m }
        | .err e => (p, some e)
        | .panic => (p, some .other)
      | .err e => (p, some e)
      | .panic => (p, some .other)
    | .err e => (p, some e)
    | .panic => (p, some .other)

/-- A reply of the server: status and body (`none`: not JSON). `Err` stands for a transport failure.
Code: profiles/profile.go:160-201. -/
structure Reply where
  status : Nat
  body : Option Json
  deriving DecidableEq, Repr

/-- Reading a reply into a profile (profiles/profile.go:170-179, 189-197, 241-248): the status is not
looked at. -/
def readReply (r : Res Reply) (p : Prof) : Res Prof := do
  let r ← r
  match r.body with
  | none => .err .badEncoding
  | some j => .ok (unmarshal j p)

/-- `DeriveAccessKeyFrom` (unidentifiedAccess/unidentifiedAccess.go:17-33). -/
def deriveAccessKey (g : Gcm) (profileKey : Bytes) : Res Bytes :=
  if !aesKeyOk profileKey then .err .badKeySize
  else .ok ((g.lock profileKey (List.replicate 12 0) (List.replicate 16 0) []).take 16)

/-- `GetProfile` (profiles/profile.go:160-201). `get n key` is the server's reply to the `n`-th request,
made with access key `key`. -/
def getProfile (g : Gcm) (ownKey : Bytes) (get : Nat → Bytes → Res Reply) (key : Bytes) : Res Prof := do
  let access ← deriveAccessKey g ownKey
  let p ← readReply (get 0 access) {}
  let p := (decryptProfile g key p).1
  readReply (get 1 p.access) p

/-- The zero-knowledge library as far as `GetProfileAndCredential` uses it. Code:
profiles/profile.go:202-279. -/
structure Zk where
  /-- `uuidUtil.FromString`. -/
  uuid : Bytes → Option Bytes
  /-- request context, request and version for a UUID and profile key (profiles/profile.go:216-234). -/
  request : Bytes → Bytes → Option Bytes
  /-- `ReceiveProfileKeyCredential` for a UUID, profile key and server response (profiles/profile.go:261-271). -/
  receive : Bytes → Bytes → Bytes → Option Bytes

/-- `GetProfileAndCredential` (profiles/profile.go:202-279); `get` answers the credential request. -/
def getProfileAndCredential (g : Gcm) (z : Zk) (get : Bytes → Res Reply) (uuid key : Bytes) : Res Prof :=
  if key = [] then .err .other
  else if uuid = [] ∨ uuid = "00000000-0000-0000-0000-000000000000".toList.map (fun c => UInt8.ofNat c.toNat) then .err .other
  else match z.uuid uuid with
    | none => .err .other
    | some u =>
      match z.request u key with
      | none => .err .other
      | some req => do
        let p ← readReply (get req) {}
        match decryptProfile g key p with
        | (_, some e) => .err e
        | (p, none) =>
          match p.credential with
          | none => .err .other
          | some r =>
            match z.receive u key r with
            | none => .err .other
            | some c => .ok { p with credential := some c }

/-- `decryptAvatar` (profiles/avatars.go:120-129) and `decrypt` (131-148). Both slice expressions panic
when too short (`avatar[12:]`, `identityKey[:32]`; the spare capacity a key may have is not modelled). -/
def decryptAvatar (g : Gcm) (avatar key : Bytes) : Res Bytes :=
  if avatar.length < 12 ∨ key.length < 32 then .panic
  else match g.unlock (key.take 32) (avatar.take 12) (avatar.drop 12) [] with
    | some p => .ok p
    | none => .err .badMac

/-- The avatar part of `GetProfileUUID` (profiles/profile.go:407-438): the profile afterwards, the
decrypted avatar and what is written to the file named by the profile's UUID. -/
def fetchAvatar (g : Gcm) (cdn : Bytes → Res Bytes) (key : Bytes) (p : Prof) : Res (Prof × Option Bytes × Option (Bytes × Bytes)) :=
  if p.avatar = [] then .ok (p, none, none)
  else match cdn (47 :: p.avatar) with
    | .panic => .panic
    | .err _ => .ok ({ p with avatar := [] }, none, none)
    | .ok body =>
      if key = [] then .ok ({ p with avatar := [] }, none, none)
      else if body = [] then .ok (p, none, none)
      else match decryptAvatar g body key with
        | .panic => .panic
        | .err _ => .ok ({ p with avatar := [] }, none, none)
        | .ok a => .ok (p, some a, if a = [] ∨ p.uuid = [] then none else some (p.uuid, a))

/-- The contact after its profile was read (profiles/profile.go:446-460). -/
def updateContact (c : Contact) (p : Prof) (avatar : Option Bytes) : Contact :=
  { c with
    username := p.name
    name := if c.name = [] then p.name else c.name
    uuid := p.uuid
    avatar := if p.avatar ≠ [] then some (avatar.getD []) else c.avatar
    about := if p.about ≠ [] then p.about else c.about
    aboutEmoji := if p.aboutEmoji ≠ [] then p.aboutEmoji else c.aboutEmoji }

/-- The contact `Contacts[uuid]`, the zero value when there is none. Code:
contacts/contacts.go:180-182. -/
def contactOf (m : Book) (uuid : Bytes) : Contact := (Contacts.get m uuid).getD { uuid := [], tel := [], name := [] }

/-- The request of `GetProfileUUID` (profiles/profile.go:385-406). -/
def fetchProfile (g : Gcm) (z : Zk) (plain cred : Bytes → Res Reply) (c : Contact) (uuid : Bytes) : Res Prof :=
  if c.profileKey ≠ [] then getProfileAndCredential g z cred c.uuid c.profileKey
  else readReply (plain uuid) {}

/-- `GetProfileUUID` (profiles/profile.go:383-464): the profile, the contacts and the avatar file written.
`plain` answers the request made without a profile key, `cred` the one made with it, `cdn` the one for
the avatar. -/
def getProfileUUID (g : Gcm) (z : Zk) (plain cred : Bytes → Res Reply) (cdn : Bytes → Res Bytes)
    (m : Book) (uuid : Bytes) : Res (Prof × Book × Option (Bytes × Bytes)) := do
  let c := contactOf m uuid
  let p ← fetchProfile g z plain cred c uuid
  let (p, a, file) ← fetchAvatar g cdn c.profileKey p
  .ok (p, put m p.uuid (updateContact c p a), file)

end Verif.Profile
