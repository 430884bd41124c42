import Verif.Model.Keys
import Verif.Model.Names
import Verif.Model.Wire
/-!
# Safety numbers and QR fingerprints (fingerprint/*.go)
-/
namespace Verif.Fingerprint
open Verif

/-- `ITERATIONS` (fingerprint/fingerprint.go:20). -/
def iterations : Nat := 5200

/-- `bytes.Compare(a, b) != 1`: lexicographic order of byte strings
(fingerprint/fingerprint.go:121-132, where `Less` is `Compare == -1`). -/
def bytesLe : Bytes → Bytes → Bool
  | [], _ => true
  | _ :: _, [] => false
  | a :: as, b :: bs => if a < b then true else if b < a then false else bytesLe as bs

/-- Insert into a sorted list. Code: fingerprint/fingerprint.go:121-132. -/
def insertKey (k : Bytes) : List Bytes → List Bytes
  | [] => [k]
  | x :: xs => if bytesLe (Keys.ser k) (Keys.ser x) then k :: x :: xs else x :: insertKey k xs

/-- `sort.Sort(sorted)` (fingerprint/fingerprint.go:103-106, 139-143). The standard library sorts with
pattern-defeating quicksort; the model uses insertion sort. Keys that compare equal are equal, so the
sorted list is unique and both agree. The Go code sorts the caller's slice in place, which is not
modelled. -/
def sortKeys (ks : List Bytes) : List Bytes := ks.foldr insertKey []

/-- `getLogicalKeyBytes` (fingerprint/fingerprint.go:103-112). -/
def logicalKeyBytes (ks : List Bytes) : Bytes := ((sortKeys ks).map Keys.ser).flatten

/-- `repeatedHashing` with `javaLikeUpdate`/`javaLikeDigest` (fingerprint/fingerprint.go:68-101): one
round hashes `hash ++ key`. -/
def repeatedHashing (P : Prims) (start key : Bytes) : Nat → Bytes
  | 0 => start
  | n + 1 => P.sha512 (repeatedHashing P start key n ++ key)

/-- `getFingerprint` (fingerprint/fingerprint.go:54-66); the version is the big-endian int16 0. -/
def getFingerprint (P : Prims) (n : Nat) (ident : Bytes) (ks : List Bytes) : Bytes :=
  let pk := logicalKeyBytes ks
  repeatedHashing P ([0, 0] ++ pk ++ ident) pk n

/-- `byteArray5ToLong` (fingerprint/fingerprint_numbers.go:46-53): indexing past the end panics. -/
def byteArray5ToLong (b : Bytes) (o : Nat) : Res Nat :=
  match b.drop o with
  | b0 :: b1 :: b2 :: b3 :: b4 :: _ =>
    .ok (b0.toNat <<< 32 ||| b1.toNat <<< 24 ||| b2.toNat <<< 16 ||| b3.toNat <<< 8 ||| b4.toNat)
  | _ => .panic

/-- `getEncodedChunk` (fingerprint/fingerprint_numbers.go:40-43). -/
def getEncodedChunk (b : Bytes) (o : Nat) : Res (List Char) := do
  let n ← byteArray5ToLong b o
  .ok (Names.decPad 5 (n % 100000))

/-- `getFingerprintNumbersFor` (fingerprint/fingerprint_numbers.go:29-38). -/
def numbersFor (b : Bytes) : Res (List (List Char)) := do
  let c0 ← getEncodedChunk b 0
  let c1 ← getEncodedChunk b 5
  let c2 ← getEncodedChunk b 10
  let c3 ← getEncodedChunk b 15
  let c4 ← getEncodedChunk b 20
  let c5 ← getEncodedChunk b 25
  .ok [c0, c1, c2, c3, c4, c5]

/-- `strings.Compare` on strings of ASCII characters. Code:
fingerprint/fingerprint_numbers.go:17-26. -/
def strCompare : List Char → List Char → Int
  | [], [] => 0
  | [], _ :: _ => -1
  | _ :: _, [] => 1
  | a :: as, b :: bs => if a.toNat < b.toNat then -1 else if b.toNat < a.toNat then 1 else strCompare as bs

/-- `compareFingerprintBlocks` (fingerprint/fingerprint_numbers.go:17-27): `localBlocks[0]` is evaluated
before the length is checked, so two equal lists end in an index panic. -/
def compareBlocks : List (List Char) → List (List Char) → Res Int
  | [], [] => .panic
  | a :: as, b :: bs =>
    if as.length ≠ bs.length then .ok ((as.length : Int) - bs.length)
    else if strCompare a b = 0 then compareBlocks as bs else .ok (strCompare a b)
  | as, bs => .ok ((as.length : Int) - bs.length)

/-- `CreateFingerprintNumbers` (fingerprint/fingerprint_numbers.go:8-15). -/
def createNumbers (l r : Bytes) : Res (List (List Char)) := do
  let l ← numbersFor l
  let r ← numbersFor r
  let c ← compareBlocks l r
  if c ≤ 0 then .ok (l ++ r) else .ok (r ++ l)

/-- `CreateQRFingerprint` (fingerprint/qr_fingerprint.go:10-47): `localFingerprint[:32]` panics on shorter
input. The message is proto2, fields are written when set (axolotl/protobuf/FingerprintProtocol.pb.go:33-38, 80-88); a
sliced non-nil `Content` is always written. -/
def createQR (version : Nat) (l r : Bytes) : Res Bytes :=
  if l.length < 32 then .panic
  else if r.length < 32 then .panic
  else .ok (Wire.encFields [(1, .varint version),
    (2, .len (Wire.encFields [(1, .len (l.take 32))])),
    (3, .len (Wire.encFields [(1, .len (r.take 32))]))])

/-- `CombinedFingerprints` (axolotl/protobuf/FingerprintProtocol.pb.go:80-88). -/
structure Combined where
  version : Option Nat
  localFp : Option (Option Bytes)
  remoteFp : Option (Option Bytes)
  deriving DecidableEq, Repr

/-- An embedded `LogicalFingerprint`: several occurrences of the field are merged, which for a message
made of one bytes field is decoding their concatenation. Code:
fingerprint/qr_fingerprint.go:49-56. -/
def decLogical (fs : List Wire.Field) (num : Nat) : Res (Option (Option Bytes)) :=
  match Wire.getAll fs num with
  | [] => .ok none
  | bs => match bs.mapM Wire.decFields with
    | none => .err .badProto
    | some fss => .ok (some (Wire.getBytes fss.flatten 1))

/-- `ScanQRFingerprint` (fingerprint/qr_fingerprint.go:49-57). -/
def scanQR (b : Bytes) : Res Combined :=
  match Wire.decFields b with
  | none => .err .badProto
  | some fs => do
    let l ← decLogical fs 2
    let r ← decLogical fs 3
    .ok ⟨Wire.getU32 fs 1, l, r⟩

/-- `CreateFingerprint` (fingerprint/fingerprint.go:24-36). -/
def createFingerprint (P : Prims) (version : Nat) (lid : Bytes) (lks : List Bytes) (rid : Bytes)
    (rks : List Bytes) : Res (List (List Char) × Bytes) := do
  let l := getFingerprint P iterations lid lks
  let r := getFingerprint P iterations rid rks
  let n ← createNumbers l r
  let q ← createQR version l r
  .ok (n, q)

/-- `CreateFingerprintSimple` with `castParameters` (fingerprint/fingerprint.go:38-52): the first byte of
a serialized key is dropped. -/
def createFingerprintSimple (P : Prims) (version : Nat) (lid lk rid rk : Bytes) :
    Res (List (List Char) × Bytes) := do
  let l ← Keys.deser lk
  let r ← Keys.deser rk
  createFingerprint P version lid [l] rid [r]

end Verif.Fingerprint
