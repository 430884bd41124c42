import Verif.Model.Regex
import Verif.Model.Keys
import Verif.Model.Encoding
/-!
# The command-line client and its gateway (cmd/textsecure/main.go)

Texts are byte strings. The library is seen through the calls made to it: `Ext.lib` gives, for the calls made so far
and the next one, the text of the error it returns (`none`: it succeeds). Files are a map from paths to contents.
The HTTP server of Go's library (parsing of requests and forms, routing by prefix) is not modelled: a request is
given by what the handlers read from it. Logging, headers of answers and the console prompt are left out.
-/
namespace Verif.Gateway
open Verif Verif.Keys Verif.Regex

/-- A call to the library made by `sendMessage` or `sendAttachment` (cmd/textsecure/main.go:160-185): the kind of
destination, the destination, the text, the contents of the attachment. The expiry timer is always 0. -/
structure Call where
  group : Bool
  dest : Bytes
  text : Bytes
  file : Option Bytes := none
  deriving DecidableEq, Repr

/-- What the program can see and change: files by path, and the calls made to the library, oldest first.
Code: cmd/textsecure/main.go:381-409, 353-378. -/
structure World where
  files : Bytes → Option Bytes
  calls : List Call

/-- A value in a JSON object, as far as it matters (`interface{}` after `json.Unmarshal`). Code:
cmd/textsecure/main.go:412-450. -/
inductive JVal where
  | null
  | str (s : Bytes)
  | other
  deriving DecidableEq, Repr

/-- What lies outside: the library, which files can be opened for writing, and JSON (`none`: not an object and not
`null`; an absent field and `null` are both `JVal.null`). Code: cmd/textsecure/main.go:381-409,
412-450, 453-503. -/
structure Ext where
  lib : List Call → Call → Option Bytes
  writable : Bytes → Bool
  json : Bytes → Option (Bytes → JVal)

/-- What the client of the gateway gets: an answer, or a connection closed without one (the handler panicked).
Code: cmd/textsecure/main.go:412-450, 453-503, 353-378. -/
inductive Reply where
  | answer (status : Nat) (body : Bytes)
  | crash
  deriving DecidableEq, Repr

/-- A file is given new contents, or removed. Code: cmd/textsecure/main.go:353-378, 453-503. -/
def setFile (p : Bytes) (v : Option Bytes) (w : World) : World :=
  { w with files := fun q => if q = p then v else w.files q }

/-- `sendMessage`, `sendAttachment` (cmd/textsecure/main.go:160-185). -/
def callLib (X : Ext) (c : Call) (w : World) : World × Option Bytes :=
  ({ w with calls := w.calls ++ [c] }, X.lib w.calls c)

/-! ## Regular expressions of the gateway -/

/-- `\d`. Code: cmd/textsecure/main.go:363. -/
def digit (c : UInt8) : Bool := 48 ≤ c && c ≤ 57
/-- `[a-f\d]`. Code: cmd/textsecure/main.go:384. -/
def lowerHex (c : UInt8) : Bool := (97 ≤ c && c ≤ 102) || digit c
/-- An expression without anchors: it may match anywhere. Code: cmd/textsecure/main.go:397-399. -/
def anywhere (r : Re) : Re := .seq (.star (.cls (fun _ => true))) (.seq r (.star (.cls (fun _ => true))))
/-- `^([a-f\d]{64})$` (cmd/textsecure/main.go:384). -/
def groupRe : Re := (Re.cls lowerHex).times 64
/-- `^\d*$` (cmd/textsecure/main.go:363). -/
def identityRe : Re := .star (.cls digit)
/-- `status code 413` (cmd/textsecure/main.go:397). -/
def limitRe : Re := anywhere (Re.lit (ascii "status code 413"))
/-- `remote identity \d+ is not trusted` (cmd/textsecure/main.go:399). -/
def untrustedRe : Re :=
  anywhere (.seq (Re.lit (ascii "remote identity ")) (.seq (Re.plus (.cls digit)) (Re.lit (ascii " is not trusted"))))

/-! ## Requests to send -/

/-- `strings.Trim(s, "\n")`. Code: cmd/textsecure/main.go:404. -/
def trimNl (s : Bytes) : Bytes := ((s.dropWhile (· == 10)).reverse.dropWhile (· == 10)).reverse

/-- The text reported for an error (cmd/textsecure/main.go:395-408). -/
def report (dest e : Bytes) : Bytes :=
  if limitRe.matches' e then ascii "signal api rate limit reached"
  else if untrustedRe.matches' e then ascii "remote identity " ++ dest ++ ascii " is not trusted"
  else trimNl e

/-- The text of the error of `os.Open` on a missing file. Code: cmd/textsecure/main.go:381-409. -/
def noSuchFile (p : Bytes) : Bytes := ascii "open " ++ p ++ ascii ": no such file or directory"

/-- `GatewaySend` (cmd/textsecure/main.go:381-409). `none`: sent. The empty name stands for no file. Removing the file
does not fail here. -/
def gatewaySend (X : Ext) (dest message filename : Bytes) (w : World) : World × Option Bytes :=
  let g := groupRe.matches' dest
  if filename ≠ [] then
    match w.files filename with
    | none => (w, some (noSuchFile filename))
    | some content =>
      let r := callLib X ⟨g, dest, message, some content⟩ w
      (setFile filename none r.1, r.2.map (report dest))
  else
    let r := callLib X ⟨g, dest, message, none⟩ w
    (r.1, r.2.map (report dest))

/-- The body of an answer to a message sent. Code: cmd/textsecure/main.go:412-450, 453-503. -/
def success : Reply := .answer 200 (ascii "{\"success\": true}")
/-- The body of an answer to a message not sent. Code: cmd/textsecure/main.go:412-450, 453-503. -/
def failure : Reply := .answer 500 (ascii "{\"success\": false}")
/-- The error text is inserted as it is (`%s`). Code: cmd/textsecure/main.go:412-450, 453-503. -/
def failureWith (e : Bytes) : Reply :=
  .answer 500 (ascii "{\"success\": false, \"error\": \"" ++ e ++ ascii "\"}")

/-- The answer after `GatewaySend` (cmd/textsecure/main.go:438-449, 484-498). -/
def answerFor : Option Bytes → Reply
  | none => success
  | some e => failureWith e

/-- `JSONHandler` (cmd/textsecure/main.go:412-450): `field` is the name of the field of the message, `path` what
follows `/json/`, `body` is `none` if it could not be read. The method is not looked at. A message that is no string
makes the type assertion panic. -/
def jsonHandler (X : Ext) (field path : Bytes) (body : Option Bytes) (w : World) : World × Reply :=
  match body with
  | none => (w, failure)
  | some b =>
    match X.json b with
    | none => (w, failure)
    | some obj =>
      match obj field with
      | .null => (w, failureWith (ascii "json request contains empty item " ++ field))
      | .other => (w, .crash)
      | .str message =>
        let r := gatewaySend X path message [] w
        (r.1, answerFor r.2)

/-- A request to the form handler: `file` is the name (its last element, as `multipart` gives it) and the contents of
the uploaded file. Code: cmd/textsecure/main.go:453-503. -/
structure Form where
  post : Bool := true
  message : Bytes
  dest : Bytes
  file : Option (Bytes × Bytes) := none
  deriving DecidableEq, Repr

/-- The directory of uploaded files. Code: cmd/textsecure/main.go:453-503. -/
def tmp (name : Bytes) : Bytes := ascii "/tmp/" ++ name

/-- The upload is stored (cmd/textsecure/main.go:468-480): the file is opened without `O_TRUNC`, so what was in it
beyond the length of the new contents stays. Result: the name of the file, empty if there is none. A write that fails
in the middle is left out. -/
def storeUpload (X : Ext) (file : Option (Bytes × Bytes)) (w : World) : World × Bytes :=
  match file with
  | none => (w, [])
  | some (name, content) =>
    if X.writable (tmp name) then
      (setFile (tmp name) (some (content ++ ((w.files (tmp name)).getD []).drop content.length)) w, tmp name)
    else (w, [])

/-- `GatewayHandler` (cmd/textsecure/main.go:453-503). -/
def formHandler (X : Ext) (f : Form) (w : World) : World × Reply :=
  if f.post = false then (w, failure)
  else
    let s := storeUpload X f.file w
    if f.message ≠ [] ∧ f.dest ≠ [] then
      let r := gatewaySend X f.dest f.message s.2 s.1
      (r.1, answerFor r.2)
    else (s.1, failureWith (ascii "form fields message and to are required"))

/-- The file of a remembered identity for the handler: the directory is fixed (cmd/textsecure/main.go:365). -/
def identityFile (id : Bytes) : Bytes := ascii ".storage/identity/remote_" ++ id

/-- `RekeyHandler` (cmd/textsecure/main.go:353-378): `path` is what follows `/rekey/`. Removing a file that exists
does not fail here. -/
def rekeyHandler (delete : Bool) (path : Bytes) (w : World) : World × Reply :=
  if delete = false then (w, failure)
  else if identityRe.matches' path then
    match w.files (identityFile path) with
    | none => (w, failureWith (ascii "identity " ++ path ++ ascii " not found"))
    | some _ => (setFile (identityFile path) none w, success)
  else (w, failure)

/-- The requests of the gateway (cmd/textsecure/main.go:532-540), without `/groups` (`Model/Listing.lean`). -/
inductive Request where
  | form (f : Form)
  | json (path : Bytes) (body : Option Bytes)
  | rekey (delete : Bool) (path : Bytes)

/-- A request, by its path. Code: cmd/textsecure/main.go:507-673. -/
def handle (X : Ext) (field : Bytes) : Request → World → World × Reply
  | .form f, w => formHandler X f w
  | .json p b, w => jsonHandler X field p b w
  | .rekey d p, w => rekeyHandler d p w

/-! ## Messages that arrive -/

/-- What `messageHandler` reads of a message: `Source()`, `Group().Hexid` and `GroupV2().Hexid` (the latter is not
read, it is here to state where the message belongs), `Message()`. Attachments are left out. Code:
cmd/textsecure/main.go:218-265. -/
structure Msg where
  source : Bytes
  group : Option Bytes := none
  groupV2 : Option Bytes := none
  text : Bytes
  deriving DecidableEq, Repr

/-- The flags that matter here and the addressee of the conversation (`to`). Code:
cmd/textsecure/main.go:61-84. -/
structure Flags where
  echo : Bool := false
  raw : Bool := false
  hook : Bool := false
  redis : Bool := false
  deriving DecidableEq, Repr

/-- Effects of `messageHandler`: a call to the library, a line printed, the hook run, the conversation loop started
towards an addressee, an item published to redis. Code: cmd/textsecure/main.go:218-265. -/
inductive Act where
  | send (c : Call)
  | print (m : Msg)
  | runHook (m : Msg)
  | converse (group : Bool)
  | publish (dest text : Bytes)
  deriving DecidableEq, Repr

/-- `messageHandler` (cmd/textsecure/main.go:218-265). First argument after the flags: `to`; result: the new `to` and
the effects in order. Errors are only logged. -/
def messageHandler (F : Flags) (peer : Bytes) (m : Msg) : Bytes × List Act :=
  if F.echo then
    (peer, [.send ⟨m.group.isSome, m.group.getD m.source, m.text, none⟩])
  else
    let shown :=
      if m.text ≠ [] then
        .print m :: ((if F.hook then [.runHook m] else []) ++ (if F.raw then [] else [.print m]))
      else []
    let start :=
      if peer = [] then
        (m.group.getD m.source, if F.redis then [] else [Act.converse m.group.isSome])
      else (peer, [])
    (start.1, shown ++ start.2 ++ (if F.redis then [.publish start.1 m.text] else []))

/-- The messages that arrive, one after the other: the effects of each. Code:
cmd/textsecure/main.go:218-265. -/
def arrive (F : Flags) : Bytes → List Msg → Bytes × List (List Act)
  | peer, [] => (peer, [])
  | peer, m :: ms =>
    let r := messageHandler F peer m
    let rest := arrive F r.1 ms
    (rest.1, r.2 :: rest.2)

/-! ## The command line -/

/-- ASCII lower case. Code: cmd/textsecure/main.go:507-673. -/
def lower (c : UInt8) : UInt8 := if 65 ≤ c && c ≤ 90 then c + 32 else c
/-- `strings.EqualFold`, for ASCII texts. Code: cmd/textsecure/main.go:507-673. -/
def equalFold (a b : Bytes) : Bool := a.map lower == b.map lower

/-- `strings.Split(s, ":")`. Code: cmd/textsecure/main.go:507-673. -/
def split : Bytes → List Bytes
  | [] => [[]]
  | c :: r =>
    if c = 58 then [] :: split r
    else
      match split r with
      | [] => [[c]]
      | p :: ps => (c :: p) :: ps

/-- A registered contact: name and UUID. Code: cmd/textsecure/main.go:507-673. -/
structure Contact where
  name : Bytes
  uuid : Bytes
  deriving DecidableEq, Repr

/-- The flags of a run that acts on groups or sends (cmd/textsecure/main.go:61-84); empty: not given. `attachment` is
the contents of the file. -/
structure Args where
  newgroup : Bytes := []
  updategroup : Bytes := []
  leavegroup : Bytes := []
  peer : Bytes := []
  group : Bool := false
  endsession : Bool := false
  attachment : Option Bytes := none
  stress : Nat := 0
  message : Bytes := []

/-- What a run does before it listens. Code: cmd/textsecure/main.go:507-673. -/
inductive Cmd where
  | newGroup (name : Bytes) (members : List Bytes)
  | updateGroup (hexid name : Bytes) (members : List Bytes)
  | leaveGroup (hexid : Bytes)
  | endSession (dest : Bytes)
  | send (c : Call)
  | stress (dest : Bytes) (n : Nat)
  | converse (group : Bool) (dest : Bytes)
  | listen
  deriving DecidableEq, Repr

/-- The addressee (cmd/textsecure/main.go:612-618). -/
def resolve (cs : List Contact) (peer : Bytes) : Bytes :=
  match cs.find? (fun c => equalFold c.name peer) with
  | some c => c.uuid
  | none => peer

/-- `main` after `Setup` without `-echo` and without the flags of linked devices (cmd/textsecure/main.go:587-667).
`none`: an index out of range stops the program. -/
def run (cs : List Contact) (a : Args) : Option Cmd :=
  if a.newgroup ≠ [] then
    match split a.newgroup with
    | name :: members => some (.newGroup name members)
    | [] => none
  else if a.updategroup ≠ [] then
    match split a.updategroup with
    | hexid :: name :: members => some (.updateGroup hexid name members)
    | _ => none
  else if a.leavegroup ≠ [] then some (.leaveGroup a.leavegroup)
  else
    let dest := resolve cs a.peer
    if dest = [] then some .listen
    else if a.endsession then some (.endSession dest)
    else
      match a.attachment with
      | some content => some (.send ⟨a.group, dest, a.message, some content⟩)
      | none =>
        if 0 < a.stress then some (.stress dest a.stress)
        else if a.message ≠ [] then some (.send ⟨a.group, dest, a.message, none⟩)
        else some (.converse a.group dest)

end Verif.Gateway
