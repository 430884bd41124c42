import Verif.Model.Profile
/-!
# Profiles looked up by number (profiles/profile.go:344-380)
-/
namespace Verif.ByNumber
open Verif Verif.Contacts Verif.Profile

/-- `GetRemoteAvatar` (profiles/avatars.go:26-39): the error for an empty address; the status of the answer is not
looked at. -/
def getRemoteAvatar (cdn : Bytes → Res Bytes) (url : Bytes) : Res Bytes := if url = [] then .err .other else cdn url

/-- The profile `GetProfileE164` goes on with (profiles/profile.go:347-358). Without an answer `resp` is nil and
`resp.Body` panics; an answer that is not JSON leaves the empty profile (what a decoder may have stored before an error
in the middle of an answer is left out, and so is the answer `null`, which sets the pointer to nil). -/
def readProfile (get : Bytes → Res Reply) (tel : Bytes) : Res Prof :=
  match get tel with
  | .ok r => match r.body with
    | some j => .ok (unmarshal j {})
    | none => .ok {}
  | _ => .panic

/-- The picture (profiles/profile.go:360-368): the error of `GetRemoteAvatar` is dropped, and reading from the nil
reader panics; an error of `decryptAvatar`, with the text of the identity key for a key, is logged and leaves nil. -/
def picture (g : Gcm) (cdn : Bytes → Res Bytes) (p : Prof) : Res Bytes :=
  match getRemoteAvatar cdn p.avatar with
  | .ok body => match decryptAvatar g body p.identityKey with
    | .ok a => .ok a
    | .err _ => .ok []
    | .panic => .panic
  | _ => .panic

/-- `saveLocalAvatar` (profiles/avatars.go:83-109): the file written, none for an empty id or picture. Errors of the
file system are left out. -/
def saveLocalAvatar (uuid avatar : Bytes) : Option (Bytes × Bytes) :=
  if uuid = [] ∨ avatar = [] then none else some (uuid, avatar)

/-- `GetProfileE164` (profiles/profile.go:345-380): the contact, the contacts and the file written. The contacts file
holds the contacts afterwards (`WriteContactsToPath`, its error is dropped and left out). -/
def getProfileE164 (g : Gcm) (get : Bytes → Res Reply) (cdn : Bytes → Res Bytes) (m : Book) (tel : Bytes) :
    Res (Contact × Book × Option (Bytes × Bytes)) := do
  let p ← readProfile get tel
  let a ← picture g cdn p
  let c := { contactOf m p.uuid with name := p.name, uuid := p.uuid, avatar := some a }
  .ok (c, put m p.uuid c, saveLocalAvatar p.uuid a)

end Verif.ByNumber
