import Verif.Model.Http
/-!
# Reading the file to be sent (textsecure.go:144-183)

The application gives `SendAttachment` an `io.Reader`. Here a reader is what its calls of `Read` will give: pieces of
data, of at most the size asked for, and failures; then the end, again and again. (A call that gives data and a
failure at once counts as two; one that gives nothing, as none. A reader that never ends is not considered.)
-/
namespace Verif.Reader
open Verif Verif.Http

/-- What a call of `Read` gives. Code: textsecure.go:145-150. -/
inductive Ev where
  | data (b : Bytes)
  | fail
  deriving DecidableEq, Repr

/-- A reader, as what it will give. Code: textsecure.go:145-150. -/
abbrev Reader := List Ev

/-- `io.CopyN(&buf, r, n)`: at most `n` bytes, up to the end or a failure. What was read, and the reader afterwards.
Code: textsecure.go:145-150. -/
def copyN : Nat → Reader → Bytes × Reader
  | 0, r => ([], r)
  | _ + 1, [] => ([], [])
  | _ + 1, .fail :: r => ([], r)
  | n + 1, .data b :: r =>
    if b.length ≤ n + 1 then
      let x := copyN (n + 1 - b.length) r
      (b ++ x.1, x.2)
    else (b.take (n + 1), .data (b.drop (n + 1)) :: r)

/-- `io.ReadAll` (attachments.go:66); `none`: a failure. -/
def readAll : Reader → Option Bytes
  | [] => some []
  | .fail :: _ => none
  | .data b :: r => (readAll r).map (b ++ ·)

/-- `MIMETypeFromReader` (textsecure.go:145-150): `magic` is `mimemagic.Match`. The result of `CopyN` is not looked at.
-/
def mimeType (magic : Bytes → Bytes) (r : Reader) : Bytes × Reader :=
  let x := copyN 1024 r
  (magic x.1, .data x.1 :: x.2)

/-- `SendAttachment` and `SendVoiceNote` (textsecure.go:154-183) of a reader. -/
def send {W : Type} (P : Prims) (serve : Serve W) (J : Json) (T : Transports) (magic : Bytes → Bytes)
    (X : Send.SendExt) (fuel : Nat) (voice : Bool) (keys iv : Bytes) (uuid : String) (msg : Bytes) (r : Reader)
    (timer : Nat) (n : St W) (s : Send.State) : St W × Send.State × Option (Res Nat) :=
  let m := mimeType magic r
  sendAttachment P serve J T X fuel voice keys iv uuid msg (readAll m.2) m.1 timer n s

end Verif.Reader
