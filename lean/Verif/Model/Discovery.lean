import Verif.Model.Gcm
import Verif.Model.Regex
import Verif.Model.Contacts
import Verif.Model.Encoding
/-!
# Contact discovery (contactDiscoveryCrypto, server.go:GetRegisteredContacts)
-/
namespace Verif.Discovery
open Verif Verif.Regex Verif.Contacts

/-- `aesEncryptNonce` (contactDiscoveryCrypto/contactDiscoveryCrypto.go:151-165): data and tag. A nonce
of another length makes `Seal` panic. -/
def aesEncryptNonce (g : Gcm) (key aad data nonce : Bytes) : Res (Bytes × Bytes) :=
  if !aesKeyOk key then .err .badKeySize
  else if nonce.length ≠ 12 then .panic
  else
    let c := g.lock key nonce data aad
    .ok (c.take (c.length - 16), c.drop (c.length - 16))

/-- `aesDecrypt` (contactDiscoveryCrypto/contactDiscoveryCrypto.go:189-200). A nonce of another length makes `Open` panic. -/
def aesDecrypt (g : Gcm) (key nonce data mac aad : Bytes) : Res Bytes :=
  if !aesKeyOk key then .err .badKeySize
  else if nonce.length ≠ 12 then .panic
  else match g.unlock key nonce (data ++ mac) aad with
    | some p => .ok p
    | none => .err .badMac

/-- Digits of a decimal numeral, most significant first (`strconv.ParseUint`, base 10), by Horner's rule.
Code: contactDiscoveryCrypto/contactDiscoveryCrypto.go:113-115. -/
def digitsVal : Nat → Bytes → Option Nat
  | acc, [] => some acc
  | acc, c :: r => if 48 ≤ c.toNat ∧ c.toNat ≤ 57 then digitsVal (acc * 10 + (c.toNat - 48)) r else none

/-- Sign and digits of a numeral (`strconv.ParseInt`). Code:
contactDiscoveryCrypto/contactDiscoveryCrypto.go:113-115. -/
def signed : Bytes → Bool × Bytes
  | 43 :: r => (false, r)
  | 45 :: r => (true, r)
  | s => (false, s)

/-- `parse` (contactDiscoveryCrypto/contactDiscoveryCrypto.go:103-105): `strconv.ParseInt(s, 10, 64)`. The overflow tests made
digit by digit amount to testing the value. -/
def parse (s : Bytes) : Res Int :=
  if (signed s).2 = [] then .err .badEncoding
  else match digitsVal 0 (signed s).2 with
    | none => .err .badEncoding
    | some n =>
      if (signed s).1 then (if n ≤ 2 ^ 63 then .ok (-(n : Int)) else .err .badEncoding)
      else (if n < 2 ^ 63 then .ok (n : Int) else .err .badEncoding)

/-- Big-endian bytes of a number, `k` of them. Code:
contactDiscoveryCrypto/contactDiscoveryCrypto.go:107-111. -/
def beBytes : Nat → Nat → Bytes
  | 0, _ => []
  | k + 1, n => UInt8.ofNat (n / 256 ^ k) :: beBytes k (n % 256 ^ k)

/-- `toByteArray` (contactDiscoveryCrypto/contactDiscoveryCrypto.go:107-111): two's complement, big endian. -/
def toByteArray (i : Int) : Bytes := beBytes 8 (i % 2 ^ 64).toNat

/-- The loop of `buildQueryDataWithNonce` (contactDiscoveryCrypto/contactDiscoveryCrypto.go:93-99). -/
def queryNumbers : List Bytes → Res Bytes
  | [] => .ok []
  | a :: r => do
    let i ← parse a
    let rest ← queryNumbers r
    .ok (toByteArray i ++ rest)

/-- `buildQueryDataWithNonce` (contactDiscoveryCrypto/contactDiscoveryCrypto.go:91-101). -/
def buildQuery (nonce : Bytes) (book : List Bytes) : Res Bytes := do
  let d ← queryNumbers book
  .ok (nonce ++ d)

/-- `RemoteAttestation` (contactDiscoveryCrypto/contactDiscoveryCrypto.go:33-41), with its key in the map. -/
structure Attestation where
  name : Bytes
  requestId : Bytes
  clientKey : Bytes
  serverKey : Bytes

/-- `QueryEnvelope` (contactDiscoveryCrypto/contactDiscoveryCrypto.go:17-22), with its key in the map. -/
structure Envelope where
  name : Bytes
  data : Bytes
  iv : Bytes
  mac : Bytes
  requestId : Bytes

/-- `DiscoveryRequest` (contactDiscoveryCrypto/contactDiscoveryCrypto.go:24-31). -/
structure Request where
  addressCount : Nat
  commitment : Bytes
  data : Bytes
  envelopes : List Envelope
  iv : Bytes
  mac : Bytes

/-- The loop over the attestations (contactDiscoveryCrypto/contactDiscoveryCrypto.go:58-63, 117-132); `ivs` are the random
nonces drawn, one per attestation. -/
def envelopes (g : Gcm) (key : Bytes) : List (Attestation × Bytes) → Res (List Envelope)
  | [] => .ok []
  | (a, iv) :: r => do
    let (d, m) ← aesEncryptNonce g a.clientKey a.requestId key iv
    let rest ← envelopes g key r
    .ok (⟨a.name, d, iv, m, a.requestId⟩ :: rest)

/-- `CreateDiscoveryRequest` (contactDiscoveryCrypto/contactDiscoveryCrypto.go:43-72); random key and nonces are arguments. -/
def createRequest (P : Prims) (g : Gcm) (key nonce iv : Bytes) (book : List Bytes)
    (atts : List (Attestation × Bytes)) : Res Request := do
  let q ← buildQuery nonce book
  let (d, m) ← aesEncryptNonce g key [] q iv
  let es ← envelopes g key atts
  .ok ⟨book.length, P.sha256 q, d, es, iv, m⟩

/-- `DiscoveryResponse` (contactDiscoveryCrypto/contactDiscoveryCrypto.go:182-187). -/
structure Response where
  data : Bytes
  iv : Bytes
  mac : Bytes
  requestId : Bytes

/-- `GetDiscoveryResponseData` (contactDiscoveryCrypto/contactDiscoveryCrypto.go:172-180); the attestations in the order in
which the map is walked. -/
def responseData (g : Gcm) (r : Response) : List Attestation → Res Bytes
  | [] => .err .other
  | a :: rest =>
    if r.requestId = a.requestId then aesDecrypt g a.serverKey r.iv r.data r.mac []
    else responseData g r rest

/-- `[\-\.\ \\\/]`. Code: server.go:631-719. -/
def sepClass (c : UInt8) : Bool := c == 45 || c == 46 || c == 32 || c == 92 || c == 47
/-- `\\d`. Code: server.go:631-719. -/
def digitClass (c : UInt8) : Bool := 48 ≤ c && c ≤ 57
/-- `[a-b]`. Code: server.go:631-719. -/
def range (lo hi : UInt8) (c : UInt8) : Bool := lo ≤ c && c ≤ hi

/-- The pattern for telephone numbers (server.go:643). -/
def telRe : Re :=
  let d := Re.cls digitClass
  let sep := Re.cls sepClass
  let country := Re.alt (.seq (.cls (range 49 52)) (.seq d d)) (.seq (.cls (range 49 57)) d.opt)
  let prefix' := Re.seq (Re.byte 40).opt (.seq (.alt (.lit [48, 48]) (.byte 43)) (.seq country (Re.byte 41).opt))
  let head := (Re.seq prefix'.opt sep.opt).opt
  let body := Re.star (.seq (Re.byte 40).opt (.seq d.plus (.seq (Re.byte 41).opt sep.opt)))
  let word := Re.alt (.byte 35) (.alt (.seq (.lit [101, 120, 116]) (Re.byte 46).opt)
    (.alt (.lit [101, 120, 116, 101, 110, 115, 105, 111, 110]) (.byte 120)))
  let tail := (Re.seq sep.opt (.seq word (.seq sep.opt d.plus))).opt
  .seq head (.seq body tail)

/-- `re.MatchString` (server.go:647). -/
def validTel (t : Bytes) : Bool := telRe.matches' t

/-- The numbers asked about (server.go:644-653): valid ones, each once, in the order of the address book. -/
def tokensOf (cs : List Contact) : List Bytes :=
  cs.foldl (fun ts c => if c.tel != [] && validTel c.tel && !ts.contains c.tel then ts ++ [c.tel] else ts) []

/-- The all-zero UUID text (server.go:701). -/
def zeroUuid : Bytes := "00000000-0000-0000-0000-000000000000".toList.map (fun c => UInt8.ofNat c.toNat)

/-- `findIndexByE147` (server.go:620-627); -1 is `none`. -/
def indexOf (phone : Bytes) : List Contact → Option Nat
  | [] => none
  | c :: r => if c.tel = phone then some 0 else (indexOf phone r).map (· + 1)

/-- The renaming of server.go:692-699: names with more than two `=` are read as quoted-printable;
`decode` is `quotedprintable.NewReader`. -/
def fixName (decode : Bytes → Option Bytes) (n : Bytes) : Bytes :=
  if n.count 61 > 2 then (decode n).getD n else n

/-- The contact after the answer for its number was read (server.go:700-710). -/
def answered (decode : Bytes → Option Bytes) (uuid : Bytes) (c : Contact) : Contact :=
  { c with name := fixName decode c.name, uuid := uuid, registered := (uuid.length > 0 && uuid != zeroUuid) }

/-- Key under which the contact is filed (server.go:701-710). -/
def fileKey (c : Contact) : Bytes := if c.registered then c.uuid else c.tel

/-- The loop over the numbers (server.go:688-712) from position `ind` on: the contacts and the contact
map. A reply that is too short makes the slice expression panic; a missing number would index with -1. -/
def assign (decode : Bytes → Option Bytes) (data : Bytes) :
    Nat → List Bytes → List Contact × Book → Res (List Contact × Book)
  | _, [], st => .ok st
  | ind, phone :: r, (cs, m) =>
    if data.length < (ind + 1) * 16 then .panic
    else do
      let uuid ← Encoding.idToHexUUID ((data.drop (ind * 16)).take 16)
      match indexOf phone cs with
      | none => .panic
      | some k =>
        match cs[k]? with
        | none => .panic
        | some c =>
          let c := answered decode uuid c
          assign decode data (ind + 1) r (cs.set k c, put m (fileKey c) c)

/-- What the modelled call takes from outside. Code: server.go:631-719. -/
structure Env where
  /-- 32 random bytes -/
  nonce : Bytes
  /-- the service: from the plain query to the decrypted reply (credentials, attestation, encryption and
  transport; `createRequest` and `responseData` above are the encryption) -/
  ask : Bytes → Res Bytes
  /-- quoted-printable decoding -/
  decode : Bytes → Option Bytes

/-- `GetRegisteredContacts` (server.go:631-719): the contacts returned and the new contact map, whose
permutation is then written to the contacts file (a failing write is only logged). -/
def getRegistered (e : Env) (loc : Res (List Contact)) : Res (List Contact × Book) := do
  let cs ← loc
  if cs = [] then .err .other
  else
    let ts := tokensOf cs
    if ts = [] then .err .other
    else do
      let q ← buildQuery e.nonce ts
      let data ← e.ask q
      assign e.decode data 0 ts (cs, [])

end Verif.Discovery
