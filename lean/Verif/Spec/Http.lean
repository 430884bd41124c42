import Verif.Model.Http
/-!
# Specification of the attachment servers and of a new device

The service hands out upload forms, the content server (CDN) keeps what is uploaded. Other people use them at the same
time. Written from the protocol, with whole addresses: nothing is taken from the client's code but the form of
requests and answers.
-/
namespace Verif.Http
open Verif Verif.Keys

/-- What the servers hand out: the form of upload number `i`, the address for its data, the text of a form; and
whose credentials the service accepts. -/
structure Plan where
  form : Nat → Form
  loc : Nat → Bytes
  render : Form → Bytes
  member : Bytes → Bool

/-- Uploads begun, and the objects kept by key. -/
structure Server where
  issued : Nat
  objects : Bytes → Option Bytes

def header (r : Req) (k : String) : Option Bytes := (r.headers.find? (fun p => p.1 = ascii k)).map Prod.snd

/-- One request. -/
def Server.serve (pl : Plan) (w : Server) (r : Req) : Server × Option Resp :=
  if r.method = "GET" ∧ r.url = ascii "https://chat.signal.org/v3/attachments/form/upload" then
    if (header r "Authorization").any pl.member then
      ({ w with issued := w.issued + 1 }, some ⟨200, [], some (pl.render (pl.form w.issued))⟩)
    else (w, some ⟨401, [], some []⟩)
  else if r.method = "POST" then
    match (List.range w.issued).find? (fun i => r.url = (pl.form i).url) with
    | some i =>
      if (pl.form i).headers.all (fun p => r.headers.contains p) then (w, some ⟨201, pl.loc i, some []⟩)
      else (w, some ⟨403, [], some []⟩)
    | none => (w, some ⟨404, [], some []⟩)
  else if r.method = "PUT" then
    match (List.range w.issued).find? (fun i => r.url = pl.loc i) with
    | some i => ({ w with objects := fun k => if k = (pl.form i).key then some r.body else w.objects k },
                 some ⟨200, [], some []⟩)
    | none => (w, some ⟨404, [], some []⟩)
  else if r.method = "GET" ∧ ascii "https://cdn2.signal.org/attachments/" <+: r.url then
    match w.objects (r.url.drop (ascii "https://cdn2.signal.org/attachments/").length) with
    | some b => (w, some ⟨200, [], some b⟩)
    | none => (w, some ⟨404, [], some []⟩)
  else (w, some ⟨404, [], some []⟩)

/-- Requests of other people. -/
def Server.serves (pl : Plan) (w : Server) (qs : List Req) : Server := qs.foldl (fun w q => (w.serve pl q).1) w

/-- The servers as our client meets them: before our request number `n` those of `others n` are served. -/
def crowd (pl : Plan) (others : Nat → List Req) : Serve (Server × Nat) := fun w r =>
  let a := (w.1.serves pl (others w.2)).serve pl r
  ((a.1, w.2 + 1), a.2)

/-- Letters, digits, `-`, `.`, `_`. -/
def plainByte (c : UInt8) : Bool :=
  (48 ≤ c && c ≤ 57) || (97 ≤ c && c ≤ 122) || (65 ≤ c && c ≤ 90) || c == 45 || c == 46 || c == 95

/-- The plan is in order: addresses on the second content server, which is the one named in the form, well-formed
and different for different uploads; keys plain and different; forms can be read by the client; the headers asked
for are of the kind that a client can send and are not the ones it sets itself. -/
structure Plan.Sound (pl : Plan) (J : Json) : Prop where
  url : ∀ i, ∃ p, (pl.form i).url = ascii "https://cdn2.signal.org/" ++ p ∧ urlOk (pl.form i).url
  loc : ∀ i, ∃ p, pl.loc i = ascii "https://cdn2.signal.org/" ++ p ∧ urlOk (pl.loc i)
  url_inj : ∀ i j, (pl.form i).url = (pl.form j).url → i = j
  loc_inj : ∀ i j, pl.loc i = pl.loc j → i = j
  key_inj : ∀ i j, (pl.form i).key = (pl.form j).key → i = j
  key_plain : ∀ i, (pl.form i).key.all plainByte
  cdn : ∀ i, (pl.form i).cdn = 2
  read : ∀ i, J.form (pl.render (pl.form i)) = some (pl.form i)
  headers : ∀ i, ∀ p ∈ (pl.form i).headers, canon p.1 = p.1 ∧ ¬ excluded p.1 ∧
    p.1 ≠ ascii "Authorization" ∧ p.1 ≠ ascii "X-Signal-Agent"
  distinct : ∀ i, ((pl.form i).headers.map Prod.fst).Nodup

/-! ## The new device -/

/-- What a `ProvisionMessage` tells a new device. -/
structure Provision where
  identityPublic : Option Bytes
  identityPrivate : Option Bytes
  number : Option Bytes
  code : Option Bytes
  aci : Option Bytes
  profileKey : Option Bytes
  deriving DecidableEq, Repr

/-- Reading a `ProvisionMessage` (Provisioning.proto). -/
def readProvision (b : Bytes) : Option Provision := do
  let fs ← Wire.decFields b
  some ⟨Wire.getBytes fs 1, Wire.getBytes fs 2, Wire.getBytes fs 3, Wire.getBytes fs 4, Wire.getBytes fs 8,
    Wire.getBytes fs 6⟩

/-! ## Addresses -/

/-- The host of an address, as any reader of addresses sees it: what stands between `https://` and the next slash,
question mark or number sign. -/
def hostOf (u : Bytes) : Option Bytes :=
  if ascii "https://" <+: u then
    some ((u.drop 8).takeWhile (fun c => c ≠ 47 && c ≠ 63 && c ≠ 35))
  else none

end Verif.Http
