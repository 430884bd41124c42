import Verif.Model.Api
/-!
# A concrete pair of clients

Used by the property files for examples that meet the hypotheses of theorems and for counterexamples.
Primitives are `Prims.toy`. Alice talks to Bob's device 1.
-/
namespace Verif.Props.Demo
open Verif Verif.Keys Verif.Messages Verif.Session Verif.Api Verif.Names

def P : Prims := Prims.toy

def pair (b : UInt8) : KeyPair := newPair P (List.replicate 32 b)

def aliceId : KeyPair := pair 17
def bobId : KeyPair := pair 29
def bobSpk : KeyPair := pair 38
def bobOpk : KeyPair := pair 47

/-- The signature `Prims.toy` accepts. -/
def toySig (k : KeyPair) (msg : Bytes) : Bytes := Prims.toyExpand (k.pub ++ msg) 64

/-- A client without sessions. -/
def client (ident : KeyPair) (reg : Nat) : Store :=
  { sessions := fun _ => .absent, identities := fun _ => .absent, preKeys := fun _ => none
    signedPreKeys := fun _ => none, identity := some ident, regId := some reg, alwaysTrust := false }

def alice0 : Store := client aliceId 1001

/-- Bob holds signed prekey 5, one-time prekey 7 and the last-resort prekey. -/
def bob0 : Store :=
  { client bobId 1002 with
    signedPreKeys := fun i => if i = 5 then some bobSpk else none
    preKeys := fun i => if i = 7 ∨ i = 0xFFFFFF then some bobOpk else none }

def bundle (preKeyId : Nat) : Bundle :=
  { regId := 1002, preKeyId := preKeyId, preKey := some bobOpk.pub, signedPreKeyId := 5
    signedPreKey := some bobSpk.pub, signature := toySig bobId (ser bobSpk.pub)
    identityKey := bobId.pub }

def rnd (b : UInt8) : Nat → Bytes := fun k => List.replicate 32 (b + 19 * UInt8.ofNat k)

/-- Alice after building a session from Bob's bundle. -/
def aliceBuilt (preKeyId : Nat) : Store :=
  applyWrites alice0
    (buildSender P {} alice0 (List.replicate 32 59) (List.replicate 32 70) "bob" 1 (bundle preKeyId)).writes

/-- Encrypt to a peer: the store afterwards and the bytes. -/
def send (st : Store) (peer : String) (pt : Bytes) : Store × Bytes :=
  let o := encryptMsg P {} st peer 1 pt
  (applyWrites st o.writes, match o.res with | .ok (b, _) => b | _ => [])

/-- A prekey message from bytes (a dummy if they do not parse). -/
def parseP (b : Bytes) : PreKeyMsg :=
  match loadPreKeyMsg b with
  | .ok m => m
  | _ => ⟨0, 0, 0, 0, [], [], ⟨0, [], 0, 0, [], []⟩, []⟩

def parseW (b : Bytes) : WhisperMsg :=
  match loadWhisper b with
  | .ok m => m
  | _ => ⟨0, [], 0, 0, [], []⟩

def recvP (st : Store) (peer : String) (r : UInt8) (b : Bytes) : Store × Res Bytes :=
  let o := decryptPreKey P {} (rnd r) st peer 1 (parseP b)
  (applyWrites st o.writes, o.res)

def recvW (st : Store) (peer : String) (r : UInt8) (b : Bytes) : Store × Res Bytes :=
  let o := decryptWhisper P {} (rnd r) st peer 1 (parseW b)
  (applyWrites st o.writes, o.res)

/-- Alice's first three messages (all prekey messages: she has no reply yet). -/
def a1 : Store × Bytes := send (aliceBuilt 7) "bob" [1]
def a2 : Store × Bytes := send a1.1 "bob" [2]
def a3 : Store × Bytes := send a2.1 "bob" [3]

/-- Bob after the first. -/
def b1 : Store × Res Bytes := recvP bob0 "alice" 83 a1.2

example : b1.2 = .ok [1] := by decide +kernel
example : (parseP a2.2).message.counter = 1 := by decide +kernel

end Verif.Props.Demo
