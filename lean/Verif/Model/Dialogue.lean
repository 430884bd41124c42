import Verif.Model.Encoding
import Verif.Model.Names
/-!
# What a registering client asks and tells (textsecure.go:262-375, 388-470; crayfish/register.go)

`Setup` as seen by the application and by the companion process: the callbacks it calls, the requests it
makes and the account it saves, in order. What the callbacks and the companion answer and how the other steps
end are parameters. The keys and files are in `Verif/Model/Register.lean`, the profile part in
`Verif/Model/Start.lean`, the connection to the companion and the race for its answers in
`Verif/Model/Backend.lean` and `Verif/Model/Crayfish.lean`; here requests arrive, and answers arrive either
before or after the channel for them is made.
-/
namespace Verif.Dialogue
open Verif

/-- How a step ends: as in the other models, or waiting for ever. Code: textsecure.go:263-376;
crayfish/register.go:40. -/
inductive Out (α : Type) where
  | ok (a : α)
  | err
  | panic
  | waits
  deriving DecidableEq, Repr

/-- The callbacks of `Client` (textsecure.go:211-228) that `Setup` uses. -/
inductive Callback where
  | config
  | phone
  | captcha
  | name
  | code
  | done
  deriving DecidableEq, Repr

/-- Something that happens during `Setup`. Code: textsecure.go:263-376, 398-468. -/
inductive Ev where
  /-- A callback is called. -/
  | call (c : Callback)
  /-- `START_REGISTRATION` is sent (crayfish/register.go:16-37). -/
  | request (phone captcha : String)
  /-- `VERIFY_REGISTRATION` is sent (crayfish/register.go:49-72). -/
  | confirm (phone : String) (code : Nat) (name : String)
  /-- `saveConfig` with a new account (textsecure.go:425-440). -/
  | save (tel : String) (uuid : Bytes) (name : String)
  /-- `generatePreKeys` and `generatePreKeyState` (textsecure.go:445-452). -/
  | keys
  /-- `registerPreKeys` (textsecure.go:453-456). -/
  | publish
  /-- `profiles.UpdateProfile` (textsecure.go:336-342) under a name. -/
  | profile (name : String)
  deriving DecidableEq, Repr

/-- A JSON value as the decoder gives it. Numbers are integers or something else. Code:
crayfish/register.go:40. -/
inductive Json where
  | null
  | bool (b : Bool)
  | num (n : Option Int)
  | str (s : String)
  | arr (l : List Json)
  | obj (l : List (String × Json))

/-- An answer of the companion (crayfish/backend.go:96-99); its type is present. -/
structure Reply where
  type : Nat
  message : Json

/-- Elements of a JSON array into a byte array (encoding/json `array`): null leaves a zero, other values must
be numbers of one byte. Code: crayfish/register.go:40. -/
def bytes : List Json → Option Bytes
  | [] => some []
  | .null :: l => (bytes l).map (0 :: ·)
  | .num (some n) :: l => if 0 ≤ n ∧ n < 256 then (bytes l).map (UInt8.ofNat n.toNat :: ·) else none
  | _ :: _ => none

/-- A JSON value into `[16]byte` (encoding/json): elements past the end are skipped, missing ones are zero, null
changes nothing. Code: crayfish/register.go:40. -/
def intoUuid (old : Bytes) : Json → Option Bytes
  | .null => some old
  | .arr l => (bytes (l.take 16)).map (fun b => b ++ List.replicate (16 - b.length) 0)
  | _ => none

/-- One field of `CrayfishWebSocketResponse_VERIFY_REGISTER_MESSAGE` (crayfish/messages.go:21-24). Simplified: names
are compared exactly, where `encoding/json` ignores case. -/
def intoField (old : Bytes) (k : String) (v : Json) : Option Bytes :=
  if k = "uuid" then intoUuid old v
  else if k = "storage_capable" then
    (match v with
     | .bool _ => some old
     | .null => some old
     | _ => none)
  else some old

/-- All fields of an object, in order. Code: crayfish/register.go:40. -/
def intoFields (old : Bytes) : List (String × Json) → Option Bytes
  | [] => some old
  | (k, v) :: l => (intoField old k v).bind (fun b => intoFields b l)

/-- `json.Unmarshal` into `CrayfishWebSocketResponse_VERIFY_REGISTER_MESSAGE` (crayfish/register.go:75-83): its
`UUID`. -/
def verified : Json → Option Bytes
  | .null => some (List.replicate 16 0)
  | .obj l => intoFields (List.replicate 16 0) l
  | _ => none

/-- `uuid.UUID.String` (github.com/satori/go.uuid): five groups of hexadecimal digits. Code:
textsecure.go:398-468. -/
def uuidText (b : Bytes) : Bytes := Encoding.dashed (Encoding.hexEncode (b.take 8)) (Encoding.hexEncode (b.drop 8))

/-- `strconv.ParseUint(code, 10, 32)` (crayfish/register.go:44-47). -/
def parseCode (code : String) : Option Nat :=
  let d := code.toList
  if d = [] ∨ ¬ (∀ c ∈ d, Names.isDigit c = true) then none
  else if Names.undec d < 2 ^ 32 then some (Names.undec d) else none

/-- `handleCrayfishResponseMessage` (crayfish/backend.go:366-372): whether the answer goes into the channel. -/
def kept (waiting : Bool) (r : Reply) : Bool := waiting && decide (r.type > 1)

/-- The answers of the application, of the companion and of the disk during one start. Code:
textsecure.go:263-376, 398-468. -/
structure World where
  /-- Which callbacks the application has set. -/
  given : Callback → Bool := fun _ => true
  /-- `client.GetConfig()`, its first answer: the name in the configuration. -/
  config : Out String := .ok ""
  /-- `setupStore`; it may ask for the storage password, which is left out. -/
  store : Out Unit := .ok ()
  /-- Not `needsRegistration()`. -/
  registered : Bool := false
  /-- `SetIdentityKeyPair`. -/
  identity : Out Unit := .ok ()
  /-- The second answer of `client.GetConfig()`. -/
  again : Out Unit := .ok ()
  phone : String := ""
  captcha : String := ""
  name : String := ""
  code : String := ""
  /-- What the companion answers before the channel for answers is made. -/
  early : List Reply := []
  /-- What it answers afterwards. -/
  replies : List Reply := []
  save : Out Unit := .ok ()
  keys : Out Unit := .ok ()
  publish : Out Unit := .ok ()
  /-- Reading registration id, password and signaling key back (textsecure.go:302-313). -/
  reload : Out Unit := .ok ()
  /-- The certificate and the credential (textsecure.go:344-372). -/
  rest : Out Unit := .ok ()

/-- A step that leaves a trace. Code: textsecure.go:263-376, 398-468. -/
abbrev M (α : Type) := List Ev × Out α

/-- One step after another, as long as none fails. Code: textsecure.go:263-376, 398-468. -/
def M.andThen {α β : Type} (m : M α) (k : α → M β) : M β :=
  match m.2 with
  | .ok a => (m.1 ++ (k a).1, (k a).2)
  | .err => (m.1, .err)
  | .panic => (m.1, .panic)
  | .waits => (m.1, .waits)

/-- Calling a callback: nil panics. Code: textsecure.go:212-229. -/
def ask (w : World) (c : Callback) : M Unit :=
  if w.given c then ([.call c], .ok ()) else ([], .panic)

/-- A step of which only the outcome matters. Code: textsecure.go:263-376, 398-468. -/
def step {α : Type} (r : Out α) : M α := ([], r)

/-- A step noted when it has succeeded. Code: textsecure.go:263-376, 398-468. -/
def made (e : Ev) (r : Out Unit) : M Unit :=
  match r with
  | .ok a => ([e], .ok a)
  | .err => ([], .err)
  | .panic => ([], .panic)
  | .waits => ([], .waits)

/-- `CrayfishRegister` (crayfish/register.go:12-39): it does not wait for an answer. -/
def register (w : World) : M Unit := ([.request w.phone w.captcha], .ok ())

/-- `response := <-c.receiveChannel` (crayfish/register.go:73-74): the first answer kept; none before the channel
is there. -/
def awaitReply (w : World) : Out Reply :=
  match w.early.filter (kept false) ++ w.replies.filter (kept true) with
  | [] => .waits
  | r :: _ => .ok r

/-- `CrayfishRegisterWithCode` (crayfish/register.go:40-94): the number and the UUID. -/
def registerWithCode (w : World) : M (String × Bytes) :=
  match parseCode w.code with
  | none => ([], .err)
  | some c => M.andThen ([.confirm w.phone c w.name], awaitReply w) fun r =>
    match verified r.message with
    | none => ([], .err)
    | some b => ([], .ok (w.phone, uuidText b))

/-- The end of `registerDevice` (textsecure.go:462-468): called, then compared with nil and called. -/
def tellDone (w : World) : M Unit :=
  (ask w .done).andThen fun _ => if w.given .done then ask w .done else ([], .ok ())

/-- `registerDevice` (textsecure.go:398-470); gives the name stored. -/
def registerDevice (w : World) : M String :=
  (ask w .config).andThen fun _ => (step w.again).andThen fun _ =>
  (ask w .config).andThen fun _ =>
  (ask w .phone).andThen fun _ =>
  (ask w .captcha).andThen fun _ =>
  (ask w .name).andThen fun _ =>
  (register w).andThen fun _ =>
  (ask w .code).andThen fun _ =>
  (registerWithCode w).andThen fun a =>
  (made (.save a.1 a.2 w.name) w.save).andThen fun _ =>
  (made .keys w.keys).andThen fun _ =>
  (made .publish w.publish).andThen fun _ =>
  (tellDone w).andThen fun _ => ([], .ok w.name)

/-- textsecure.go:316-372: after the transports; a missing name is asked for, the profile is sent. -/
def finish (w : World) (name : String) : M Unit :=
  (if name = "" then (ask w .name).andThen fun _ => ([], .ok w.name) else ([], .ok name)).andThen
    fun n => M.andThen ([.profile n], .ok ()) fun _ => step w.rest

/-- textsecure.go:277-300: registering if need be; gives the name in the configuration. -/
def account (w : World) (old : String) : M String :=
  if w.registered then ([], .ok old) else (step w.identity).andThen fun _ => registerDevice w

/-- `Setup` (textsecure.go:262-375). -/
def setup (w : World) : M Unit :=
  (ask w .config).andThen fun _ => (step w.config).andThen fun old =>
  (step w.store).andThen fun _ =>
  (account w old).andThen fun name =>
  (step w.reload).andThen fun _ =>
  (ask w .done).andThen fun _ => finish w name

end Verif.Dialogue
