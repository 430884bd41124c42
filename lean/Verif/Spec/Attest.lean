import Verif.Model.Attest
import Verif.Spec.Discovery
/-!
# The other side of contact discovery

What a party does that answers attestation requests with keys of its own and looks numbers up in a directory.
An enclave is such a party; so is anyone else who chooses two key pairs. Written from the protocol, not from
the client's functions.
-/
namespace Verif.Attest.Spec
open Verif Verif.Discovery Verif.Discovery.Spec Verif.Attest

/-- The party: two private keys, what it claims about itself, and what it draws at random. -/
structure Party where
  e : Bytes
  s : Bytes
  name : Bytes
  quote : Bytes
  signature : Bytes
  id : Bytes
  iv : Bytes
  replyIv : Bytes

/-- Lengths as the protocol has them. Nothing is asked of `quote` and `signature`. -/
structure Party.Ok (p : Party) : Prop where
  e : p.e.length = 32
  s : p.s.length = 32
  iv : p.iv.length = 12
  replyIv : p.replyIv.length = 12

/-- The keys shared with the client whose public key is `pub`: for reading, and for writing. -/
def Party.readKey (P : Prims) (p : Party) (pub : Bytes) : Bytes :=
  (P.hkdf (P.dh p.e pub ++ P.dh p.s pub) (pub ++ P.pubOf p.e ++ P.pubOf p.s) [] 64).take 32

def Party.writeKey (P : Prims) (p : Party) (pub : Bytes) : Bytes :=
  (P.hkdf (P.dh p.e pub ++ P.dh p.s pub) (pub ++ P.pubOf p.e ++ P.pubOf p.s) [] 64).drop 32

/-- Ciphertext and tag. -/
def halves (c : Bytes) : Bytes × Bytes := (c.take (c.length - 16), c.drop (c.length - 16))

/-- The attestation the party gives. -/
def Party.answer (P : Prims) (g : Gcm) (p : Party) (pub : Bytes) : Answer :=
  let c := halves (g.lock (p.writeKey P pub) p.iv p.id [])
  ⟨P.pubOf p.e, P.pubOf p.s, p.quote, p.iv, c.1, c.2, p.signature⟩

/-- What the party reads in a request: first the query key in its envelope, then the query. -/
def Party.opens (P : Prims) (g : Gcm) (p : Party) (pub : Bytes) (r : Request) : Option Bytes := do
  let env ← r.envelopes.find? (fun x => x.name = p.name)
  let key ← g.unlock (p.readKey P pub) env.iv (env.data ++ env.mac) p.id
  g.unlock key r.iv (r.data ++ r.mac) []

/-- The numbers in a query: 32 bytes are skipped, then there is a word for each. -/
def numbers (q : Bytes) : List Int :=
  (List.range ((q.length - 32) / 8)).map (fun i => word ((q.drop (32 + 8 * i)).take 8))

/-- The reply of a party with the directory `dir`. -/
def Party.reply (P : Prims) (g : Gcm) (p : Party) (pub : Bytes) (dir : Int → Bytes) (r : Request) : Res (Option Response) :=
  match p.opens P g pub r with
  | none => .err .other
  | some q =>
    let c := halves (g.lock (p.writeKey P pub) p.replyIv ((numbers q).flatMap dir) [])
    .ok (some ⟨c.1, p.replyIv, c.2, p.id⟩)

end Verif.Attest.Spec
