import Verif.Model.Encoding
import Verif.Model.Content
/-!
# Requests over HTTP (transport/, attachments.go, link.go, server.go)

The network is a function from its state and a request to a new state and an answer. Texts are byte strings.
JSON is a parameter (`Json`). Redirects, timeouts, the refusal of the library to send headers with control
characters, and the connection itself are not modelled, except for the check of certificates.
-/
namespace Verif.Http
open Verif Verif.Keys

/-- A request as it is sent: method, address, headers with canonical names, body. Code:
transport/transport.go:134-410. -/
structure Req where
  method : String
  url : Bytes
  headers : List (Bytes × Bytes)
  body : Bytes
  deriving DecidableEq, Repr

/-- `response` (transport/transport.go:59-64): the status, the header `Location` (empty if absent; the only one
that is read) and the body (`none`: reading it fails). -/
structure Resp where
  status : Nat
  location : Bytes := []
  body : Option Bytes := some []
  deriving DecidableEq, Repr

/-- `response.IsError` (transport/transport.go:66-68). -/
def Resp.isError (r : Resp) : Bool := decide (r.status < 200) || decide (r.status ≥ 300)

/-! ## Addresses (net/url of the Go library) -/

/-- `unhex` succeeds. Code: transport/transport.go:135; attachments.go:28. -/
def isHex (c : UInt8) : Bool := (48 ≤ c && c ≤ 57) || (97 ≤ c && c ≤ 102) || (65 ≤ c && c ≤ 70)

/-- `unescape` of a path or fragment succeeds: each `%` is followed by two hexadecimal digits.
Code: transport/transport.go:135; attachments.go:28. -/
def escapesOk : Bytes → Bool
  | [] => true
  | c :: rest =>
    if c = 37 then
      match rest with
      | a :: b :: rest' => isHex a && isHex b && escapesOk rest'
      | _ => false
    else escapesOk rest

/-- `url.Parse` succeeds, for addresses made of `https://`, a host and a text that is empty or begins with a
slash: no control characters before the fragment; `%` only as part of an escape, except in the query. Code:
transport/transport.go:135; attachments.go:28. -/
def urlOk (u : Bytes) : Bool :=
  (u.takeWhile (· ≠ 35)).all (fun c => !(c < 32 || c == 127)) &&
    escapesOk ((u.takeWhile (· ≠ 35)).takeWhile (· ≠ 63)) && escapesOk ((u.dropWhile (· ≠ 35)).drop 1)

/-! ## Headers (net/http of the Go library) -/

/-- Bytes allowed in the name of a header. Code: transport/transport.go:210-212. -/
def tokenByte (c : UInt8) : Bool :=
  (48 ≤ c && c ≤ 57) || (97 ≤ c && c ≤ 122) || (65 ≤ c && c ≤ 90) || (ascii "!#$%&'*+-.^_`|~").contains c

/-- Upper case after a hyphen and at the beginning, lower case elsewhere. Code:
transport/transport.go:210-212. -/
def canonFrom : Bool → Bytes → Bytes
  | _, [] => []
  | upper, c :: rest =>
    let c := if upper && 97 ≤ c && c ≤ 122 then c - 32 else if !upper && 65 ≤ c && c ≤ 90 then c + 32 else c
    c :: canonFrom (c == 45) rest

/-- `textproto.CanonicalMIMEHeaderKey`. Code: transport/transport.go:210-212. -/
def canon (k : Bytes) : Bytes := if k.all tokenByte then canonFrom true k else k

/-- `Header.Set`. Code: transport/transport.go:140. -/
def setH (h : List (Bytes × Bytes)) (k v : Bytes) : List (Bytes × Bytes) :=
  h.filter (fun p => p.1 ≠ canon k) ++ [(canon k, v)]

/-- `Header.Add`. Code: transport/transport.go:216. -/
def addH (h : List (Bytes × Bytes)) (k v : Bytes) : List (Bytes × Bytes) := h ++ [(canon k, v)]

/-- Headers that are not sent as given: `reqWriteExcludeHeader` (net/http). Code:
transport/transport.go:217; attachments.go:29. -/
def excluded (k : Bytes) : Bool :=
  [ascii "Host", ascii "Content-Length", ascii "Transfer-Encoding", ascii "Trailer"].contains k

/-- `SetBasicAuth`. Code: transport/transport.go:142. -/
def basic (user pass : Bytes) : Bytes := ascii "Basic " ++ Encoding.b64Encode (user ++ 58 :: pass)

/-! ## The transporter (transport/transport.go) -/

/-- `httpTransporter` (89-96), and whether certificates go unchecked (`InsecureSkipVerify` of its client).
Code: transport/transport.go:89-96. -/
structure Transporter where
  baseURL : Bytes
  user : Bytes
  pass : Bytes
  proxyServer : Bytes
  userAgent : Bytes
  insecure : Bool
  deriving DecidableEq, Repr

/-- `newHTTPTransporter` (119-132). The literal gives the fields by position: the user agent takes the place
of `proxyServer` and the other way round. Code: transport/transport.go:119-132. -/
def newTransporter (baseURL user pass userAgent proxyServer : Bytes) : Transporter :=
  ⟨baseURL, user, pass, userAgent, proxyServer, true⟩

/-- The TLS handshake of Go: an unverifiable certificate is accepted only with `InsecureSkipVerify`.
Code: transport/transport.go:119-132. -/
def accepts (insecure certOk : Bool) : Bool := insecure || certOk

/-- The websocket's dialer (websocket.go:56-66) sets only `RootCAs`. -/
def websocketInsecure : Bool := false

/-- The client of `getAttachment` (attachments.go:25-27). -/
def attachmentInsecure : Bool := true

/-- State of the network, and the requests sent so far. Code: transport/transport.go:134-410. -/
structure St (W : Type) where
  world : W
  log : List Req

/-- Calls that use the network. Code: transport/transport.go:134-410. -/
def M (W α : Type) : Type := St W → St W × Res α

namespace M
variable {W α β : Type}

/-- One call after another: an error or a panic ends the sequence, as `if err != nil` does. Code:
attachments.go:61-89. -/
def bind (x : M W α) (f : α → M W β) : M W β := fun s =>
  match x s with
  | (s', .ok a) => f a s'
  | (s', .err e) => (s', .err e)
  | (s', .panic) => (s', .panic)

/-- Sequences of calls. Code: attachments.go:61-89. -/
instance : Monad (M W) where
  pure a := fun s => (s, .ok a)
  bind := bind

/-- A result that needs no network. Code: attachments.go:61-89. -/
def lift (r : Res α) : M W α := fun s => (s, r)

end M

/-- The network: new state and answer; `none` if there is no answer. Code:
transport/transport.go:134-410. -/
abbrev Serve (W : Type) := W → Req → W × Option Resp

/-- `client.Do`. Code: transport/transport.go:143. -/
def perform {W : Type} (serve : Serve W) (r : Req) : M W Resp := fun s =>
  let r := { r with headers := r.headers.filter (fun p => !excluded p.1) }
  let a := serve s.world r
  (⟨a.1, s.log ++ [r]⟩, match a.2 with
    | none => .err .http
    | some x => .ok x)

/-- `http.NewRequest` and `client.Do`: nothing is sent to an unusable address. Code:
transport/transport.go:135-146. -/
def call {W : Type} (serve : Serve W) (r : Req) : M W Resp :=
  if urlOk r.url then perform serve r else M.lift (.err .other)

/-- The lines `if ht.userAgent != ""`. Code: transport/transport.go:139-141. -/
def agentH (t : Transporter) (h : List (Bytes × Bytes)) : List (Bytes × Bytes) :=
  if t.userAgent = [] then h else setH h (ascii "X-Signal-Agent") t.userAgent

/-- `req.SetBasicAuth(ht.user, ht.pass)`. Code: transport/transport.go:142. -/
def authH (t : Transporter) (h : List (Bytes × Bytes)) : List (Bytes × Bytes) :=
  setH h (ascii "Authorization") (basic t.user t.pass)

/-- The request of `Get` (134-156). Code: transport/transport.go:134-156. -/
def getReq (t : Transporter) (url : Bytes) : Req := ⟨"GET", t.baseURL ++ url, authH t (agentH t []), []⟩

/-- The request of `GetWithAuth` (157-179). Code: transport/transport.go:157-179. -/
def getWithAuthReq (t : Transporter) (url auth : Bytes) : Req :=
  ⟨"GET", t.baseURL ++ url, setH (agentH t []) (ascii "Authorization") auth, []⟩

/-- The request of `Del` (180-202). Code: transport/transport.go:180-202. -/
def delReq (t : Transporter) (url : Bytes) : Req := ⟨"DELETE", t.baseURL ++ url, authH t (agentH t []), []⟩

/-- The request of `PostWithHeaders` (204-233); `headers` is a Go map, taken in some order. Code:
transport/transport.go:204-233. -/
def postReq (t : Transporter) (url body ct : Bytes) (headers : List (Bytes × Bytes)) : Req :=
  ⟨"POST", t.baseURL ++ url,
   authH t (addH (addH (agentH t (headers.foldl (fun h p => setH h p.1 p.2) [])) (ascii "Content-Type") ct)
     (ascii "Content-Length") (ascii (toString body.length))), body⟩

/-- The request of `Put` (235-259). Code: transport/transport.go:235-259. -/
def putReq (t : Transporter) (url body ct : Bytes) : Req :=
  ⟨"PUT", t.baseURL ++ url, authH t (addH (agentH t []) (ascii "Content-Type") ct), body⟩

/-- The request of `PutWithAuth` (260-287). Code: transport/transport.go:260-287. -/
def putWithAuthReq (t : Transporter) (url body ct auth : Bytes) : Req :=
  ⟨"PUT", t.baseURL ++ url, setH (addH (agentH t []) (ascii "Content-Type") ct) (ascii "Authorization") auth, body⟩

/-- The request of `GetWithUnidentifiedAccessKey` (288-310). Code: transport/transport.go:288-310. -/
def getSealedReq (t : Transporter) (url key : Bytes) : Req :=
  ⟨"GET", t.baseURL ++ url, setH (agentH t []) (ascii "Unidentified-Access-Key") (Encoding.b64Encode key), []⟩

/-- The request of `PutWithUnidentifiedSender` (311-339). Code: transport/transport.go:311-339. -/
def putSealedReq (t : Transporter) (url body ct key : Bytes) : Req :=
  ⟨"PUT", t.baseURL ++ url, setH (addH (agentH t []) (ascii "Content-Type") ct)
    (ascii "Unidentified-Access-Key") (Encoding.b64EncodeNoPad key), body⟩

/-- The request of `PutWithAuthCookies` (340-368). Code: transport/transport.go:340-368. -/
def putWithAuthCookiesReq (t : Transporter) (url body ct auth cookies : Bytes) : Req :=
  ⟨"PUT", t.baseURL ++ url, setH (addH (addH (agentH t []) (ascii "Cookie") cookies) (ascii "Content-Type") ct)
    (ascii "Authorization") auth, body⟩

/-- The request of `PatchWithAuth` (384-410). Code: transport/transport.go:384-410. -/
def patchWithAuthReq (t : Transporter) (url body ct auth : Bytes) : Req :=
  ⟨"PATCH", t.baseURL ++ url, setH (addH (agentH t []) (ascii "Content-Type") ct) (ascii "Authorization") auth, body⟩

/-- The request of `PutJSON` (369-371). Code: transport/transport.go:369-371. -/
def putJSONReq (t : Transporter) (url body : Bytes) : Req := putReq t url body (ascii "application/json")

/-- The part of the configuration that goes into the transporters, and the registration's password.
Code: textsecure.go:317-321. -/
structure Account where
  server : Bytes
  uuid : Bytes
  password : Bytes
  userAgent : Bytes
  proxy : Bytes
  tel : Bytes
  deriving DecidableEq, Repr

/-- The transporters that `Setup` makes (textsecure.go:317-321; addresses server.go:37-43). -/
structure Transports where
  main : Transporter
  cdn : Transporter
  directory : Transporter
  storage : Transporter
  service : Transporter

/-- The calls in `Setup`. Code: textsecure.go:317-321; transport/transport.go:24-57. -/
def setup (a : Account) : Transports :=
  { main := newTransporter a.server a.uuid a.password a.userAgent a.proxy
    cdn := newTransporter (ascii "https://cdn2.signal.org") a.uuid a.password a.userAgent a.proxy
    directory := newTransporter (ascii "https://api.directory.signal.org") a.uuid a.password a.userAgent a.proxy
    storage := newTransporter (ascii "https://storage.signal.org") a.uuid a.password a.userAgent a.proxy
    service := newTransporter (ascii "https://chat.signal.org") a.uuid a.password a.userAgent a.proxy }

/-! ## Uploading attachments (attachments.go) -/

/-- `attachmentV3UploadAttributes` (server.go:722-727). -/
structure Form where
  cdn : Nat := 0
  key : Bytes := []
  headers : List (Bytes × Bytes) := []
  url : Bytes := []
  deriving DecidableEq, Repr

/-- A device as listed (server.go:437-442). -/
structure Device where
  id : Nat
  name : Bytes
  created : Nat
  lastSeen : Nat
  deriving DecidableEq, Repr

/-- `encoding/json` on the types used here. Fields that are absent have their zero value. Code:
attachments.go:178-190; server.go:424-434, 446-462, 405-418. -/
structure Json where
  /-- an upload form; `none`: `Decode` fails -/
  form : Bytes → Option Form
  /-- `verificationCode`; empty if `Decode` fails -/
  code : Bytes → Bytes
  /-- `devices`; what is there when `Decode` fails -/
  devices : Bytes → List Device
  /-- `uuid`; empty if `Decode` fails -/
  uuid : Bytes → Bytes

/-- `strings.Split(url, "/")`. Code: attachments.go:192-195. -/
def split : Bytes → List Bytes
  | [] => [[]]
  | c :: l =>
    if c = 47 then [] :: split l
    else match split l with
      | [] => [[c]]
      | p :: ps => (c :: p) :: ps

/-- `relativePath` (attachments.go:192-195): `parts[3:]` panics on fewer than three parts. -/
def relativePath (url : Bytes) : Res Bytes :=
  let parts := split url
  if parts.length < 3 then .panic else .ok (47 :: List.intercalate [47] (parts.drop 3))

variable {W : Type}

/-- `getAttachmentV3UploadAttributes` (178-190). The status is not looked at. Code:
attachments.go:178-190. -/
def getForm (serve : Serve W) (J : Json) (T : Transports) : M W Form := do
  let resp ← call serve (getReq T.service (ascii "/v3/attachments/form/upload"))
  match resp.body.bind J.form with
  | none => M.lift (.err .other)
  | some f => pure f

/-- `allocateAttachmentV3` (201-220). Code: attachments.go:201-220. -/
def allocate (serve : Serve W) (J : Json) (T : Transports) : M W (Bytes × Form) := do
  let f ← getForm serve J T
  let path ← M.lift (relativePath f.url)
  let resp ← call serve (postReq T.cdn path [] (ascii "application/octet-stream") f.headers)
  if resp.isError then M.lift (.err .http)
  else do
    let loc ← M.lift (relativePath resp.location)
    pure (loc, f)

/-- `putAttachmentV3` (41-53); the digest is in `Files.uploadAttachment`. Code:
attachments.go:41-53. -/
def putAttachment (serve : Serve W) (T : Transports) (url body : Bytes) : M W Unit := do
  let resp ← call serve (putReq T.cdn url body (ascii "application/octet-stream"))
  if resp.isError then M.lift (.err .http) else pure ()

/-- `uploadAttachmentV3` (61-89); `src` is the reader (`none`: reading fails), `keys` and `iv` are random.
Code: attachments.go:61-89. -/
def upload (P : Prims) (serve : Serve W) (J : Json) (T : Transports) (keys iv : Bytes) (src : Option Bytes)
    (ct : Bytes) (voiceNote : Bool) : M W Send.OutAtt := do
  let b ← M.lift (match src with
    | none => .err .other
    | some b => .ok b)
  let u ← M.lift (Files.uploadAttachment P keys iv b)
  let a ← allocate serve J T
  putAttachment serve T a.1 u.blob
  pure ⟨a.2.key, a.2.cdn, ct, u.keys, u.digest, u.size, voiceNote⟩

/-- `uploadVoiceNote` (91-93): the type found by the caller is not used. Code:
attachments.go:91-93. -/
def uploadVoiceNote (P : Prims) (serve : Serve W) (J : Json) (T : Transports) (keys iv : Bytes)
    (src : Option Bytes) (_ct : Bytes) : M W Send.OutAtt :=
  upload P serve J T keys iv src (ascii "audio/mpeg") true

/-- `SendAttachment` (textsecure.go:154-168) and `SendVoiceNote` (170-184). `ct` is what `mimemagic` finds in the
first 1024 bytes. -/
def sendAttachment (P : Prims) (serve : Serve W) (J : Json) (T : Transports) (X : Send.SendExt) (fuel : Nat)
    (voice : Bool) (keys iv : Bytes) (uuid : String) (msg : Bytes) (src : Option Bytes) (ct : Bytes)
    (timer : Nat) (n : St W) (s : Send.State) : St W × Send.State × Option (Res Nat) :=
  let u := if voice then uploadVoiceNote P serve J T keys iv src ct else upload P serve J T keys iv src ct false
  match u n with
  | (n', .ok a) =>
    let r := Send.sendMessage P X fuel
      { destination := uuid, msg := msg, attachment := some a, expireTimer := timer } s
    (n', r.1, r.2)
  | (n', .err e) => (n', s, some (.err e))
  | (n', .panic) => (n', s, some .panic)

/-! ## Downloading attachments -/

/-- `getAttachment` and `io.ReadAll` (attachments.go:24-38, 103-112). The error of `http.NewRequest` is not looked
at: `req` is nil and `req.Header` panics. The status is not looked at. -/
def download (serve : Serve W) (url : Bytes) : M W Bytes :=
  if urlOk url then do
    let resp ← perform serve ⟨"GET", url,
      addH (addH [] (ascii "Host") (ascii "europe-west1-signal-cdn-reflector.cloudfunctions.net"))
        (ascii "Content-Type") (ascii "application/octet-stream"), []⟩
    match resp.body with
    | none => M.lift (.err .http)
    | some b => pure b
  else M.lift .panic

/-- `handleSingleAttachment` (98-127). Code: attachments.go:98-127. -/
def fetchAttachment (P : Prims) (serve : Serve W) (a : Receive.AttPtr) : M W Bytes := do
  let b ← download serve a.location
  M.lift (Files.handleSingleAttachment P a.key b)

/-! ## Linked devices (server.go, link.go) -/

/-- `getNewDeviceVerificationCode` (server.go:424-434): neither the status nor the error of `Decode` is looked at. -/
def getCode (serve : Serve W) (J : Json) (T : Transports) : M W Bytes := do
  let resp ← call serve (getReq T.main (ascii "/v1/devices/provisioning/code"))
  pure (match resp.body with
    | none => []
    | some b => J.code b)

/-- `getLinkedDevices` (server.go:446-462): as above. -/
def getLinkedDevices (serve : Serve W) (J : Json) (T : Transports) : M W (List Device) := do
  let resp ← call serve (getReq T.main (ascii "/v1/devices/"))
  pure (match resp.body with
    | none => []
    | some b => J.devices b)

/-- `unlinkDevice` (server.go:464-470): the answer is not looked at. -/
def unlinkDevice (serve : Serve W) (T : Transports) (id : Int) : M W Unit := do
  let _ ← call serve (delReq T.main (ascii "/v1/devices/" ++ ascii (toString id)))
  pure ()

/-- `GetMyUUID` (server.go:405-418): the error of `Decode` is not looked at. -/
def getMyUUID (serve : Serve W) (J : Json) (T : Transports) : M W Bytes := do
  let resp ← call serve (getReq T.main (ascii "/v1/accounts/whoami"))
  if resp.isError then M.lift (.err .http)
  else pure (match resp.body with
    | none => []
    | some b => J.uuid b)

/-- The body of a checked `PUT` of a JSON text: `RegisterWithUPS` (server.go:292-308), `registerPreKeys`
(551-565), and the first half of `setAccountAttributes` (342-353). -/
def putChecked (serve : Serve W) (T : Transports) (path json : Bytes) : M W Unit := do
  let resp ← call serve (putJSONReq T.main path json)
  if resp.isError then M.lift (.err .http) else pure ()

/-- The `ProvisionMessage` (server.go:480-486; Provisioning.proto): public and private identity key, number, code
and UUID. -/
def provisionMessage (pub priv uuid code tel : Bytes) : Bytes :=
  Wire.encFields [(1, .len (ser pub)), (2, .len priv), (3, .len tel), (4, .len code), (8, .len uuid)]

/-- `addNewDevice` (server.go:472-509); `r`, `iv` the randomness of `provisioningCipher`. The JSON text of a map
with one base64 value. -/
def addNewDevice (P : Prims) (serve : Serve W) (T : Transports) (ident : KeyPair) (acc : Account)
    (r iv : Bytes) (ephemeralId publicKey code : Bytes) : M W Unit := do
  let pk ← M.lift (Encoding.decodeKey publicKey)
  let ct ← M.lift (Files.provisioningCipher P r iv
    (provisionMessage ident.pub ident.priv acc.uuid code acc.tel) pk)
  putChecked serve T (ascii "/v1/provisioning/" ++ ephemeralId)
    (ascii "{\"body\":\"" ++ Encoding.b64Encode ct ++ ascii "\"}")

/-- `code2` and the number of timers running (link.go:12, 29-33). -/
structure Link where
  code : Bytes := []
  timers : Nat := 0
  deriving DecidableEq, Repr

/-- `AddNewLinkedDevice` (link.go:15-35). -/
def addNewLinkedDevice (P : Prims) (serve : Serve W) (J : Json) (T : Transports) (ident : KeyPair) (acc : Account)
    (r iv : Bytes) (uuid publicKey : Bytes) (l : Link) (n : St W) : Link × St W × Res Unit :=
  let c : St W × Res Bytes := if l.code = [] then getCode serve J T n else (n, .ok l.code)
  match c with
  | (n, .err e) => (l, n, .err e)
  | (n, .panic) => (l, n, .panic)
  | (n, .ok code) =>
    let l := { l with code := code }
    match addNewDevice P serve T ident acc r iv uuid publicKey code n with
    | (n, .ok _) => ({ l with timers := l.timers + 1 }, n, .ok ())
    | (n, .err e) => (l, n, .err e)
    | (n, .panic) => (l, n, .panic)

/-- A timer runs out (link.go:30-33). -/
def timerFires (l : Link) : Link := if l.timers = 0 then l else ⟨[], l.timers - 1⟩

end Verif.Http
