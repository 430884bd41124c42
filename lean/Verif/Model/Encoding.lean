import Verif.Bytes
/-!
# Text encodings: base64 keys and signatures, hex ids, UUID text

A Go string is a byte string here (`len(s)` counts bytes).
-/
namespace Verif.Encoding
open Verif

/-- Character of a base64 digit (`encoding/base64`, standard alphabet). Code:
helpers/base64.go:9-12. -/
def enc64 (n : Nat) : UInt8 :=
  if n < 26 then UInt8.ofNat (65 + n)
  else if n < 52 then UInt8.ofNat (71 + n)
  else if n < 62 then UInt8.ofNat (n - 4)
  else if n = 62 then 43 else 47

/-- Value of a base64 character; `=` and everything else has none. Code: helpers/base64.go:9-12. -/
def dec64 (c : UInt8) : Option Nat :=
  let n := c.toNat
  if 65 ≤ n ∧ n ≤ 90 then some (n - 65)
  else if 97 ≤ n ∧ n ≤ 122 then some (n - 71)
  else if 48 ≤ n ∧ n ≤ 57 then some (n + 4)
  else if n = 43 then some 62
  else if n = 47 then some 63
  else none

/-- `base64.StdEncoding.EncodeToString` (used by helpers/base64.go:9-12). -/
def b64Encode : Bytes → Bytes
  | a :: b :: c :: rest =>
    let v := a.toNat * 65536 + b.toNat * 256 + c.toNat
    enc64 (v / 262144) :: enc64 (v / 4096 % 64) :: enc64 (v / 64 % 64) :: enc64 (v % 64) :: b64Encode rest
  | [a, b] =>
    let v := a.toNat * 65536 + b.toNat * 256
    [enc64 (v / 262144), enc64 (v / 4096 % 64), enc64 (v / 64 % 64), 61]
  | [a] =>
    let v := a.toNat * 65536
    [enc64 (v / 262144), enc64 (v / 4096 % 64), 61, 61]
  | [] => []

/-- `base64.StdEncoding.DecodeString` on text without line breaks: groups of four, padding only at the
end, left-over low bits ignored (the encoding is not `Strict`). Code: textsecure.go:65-74, 76-85;
helpers/base64.go:15-20. -/
def b64Quanta : Bytes → Option Bytes
  | [] => some []
  | a :: b :: c :: d :: rest =>
    if rest = [] ∧ d = 61 then
      if c = 61 then
        match dec64 a, dec64 b with
        | some x, some y => some [UInt8.ofNat (x * 4 + y / 16)]
        | _, _ => none
      else
        match dec64 a, dec64 b, dec64 c with
        | some x, some y, some z => some [UInt8.ofNat (x * 4 + y / 16), UInt8.ofNat (y % 16 * 16 + z / 4)]
        | _, _, _ => none
    else
      match dec64 a, dec64 b, dec64 c, dec64 d, b64Quanta rest with
      | some x, some y, some z, some w, some r =>
        some (UInt8.ofNat (x * 4 + y / 16) :: UInt8.ofNat (y % 16 * 16 + z / 4)
          :: UInt8.ofNat (z % 4 * 64 + w) :: r)
      | _, _, _, _, _ => none
  | _ => none

/-- `base64.StdEncoding.DecodeString`: `\r` and `\n` are ignored anywhere. Code:
textsecure.go:65-74, 76-85; helpers/base64.go:15-20. -/
def b64Decode (s : Bytes) : Option Bytes := b64Quanta (s.filter (fun c => c ≠ 10 ∧ c ≠ 13))

/-- `strings.TrimRight(s, "=")`. Code: helpers/base64.go:9-12. -/
def trimEq (s : Bytes) : Bytes := (s.reverse.dropWhile (· == 61)).reverse

/-- `Base64EncWithoutPadding` (helpers/base64.go:9-12). -/
def b64EncodeNoPad (b : Bytes) : Bytes := trimEq (b64Encode b)

/-- `Base64DecodeNonPadded` (helpers/base64.go:15-20). -/
def b64DecodeNoPad (s : Bytes) : Res Bytes :=
  let s := if s.length % 4 ≠ 0 then s ++ List.replicate (4 - s.length % 4) 61 else s
  match b64Decode s with
  | some b => .ok b
  | none => .err .badEncoding

/-- `encodeKey` (textsecure.go:57-59). -/
def encodeKey (k : Bytes) : Bytes := b64EncodeNoPad (5 :: k)

/-- `decodeKey` (textsecure.go:65-74). -/
def decodeKey (s : Bytes) : Res Bytes := do
  let b ← b64DecodeNoPad s
  if b.length ≠ 33 ∨ b[0]? ≠ some 5 then .err .other else .ok (b.drop 1)

/-- `decodeSignature` (textsecure.go:76-85). -/
def decodeSignature (s : Bytes) : Res Bytes := do
  let b ← b64DecodeNoPad s
  if b.length ≠ 64 then .err .other else .ok b

/-- Lower-case hex digit. Code: groups.go:44-46. -/
def hexDigit (n : Nat) : UInt8 := if n < 10 then UInt8.ofNat (48 + n) else UInt8.ofNat (87 + n)

/-- `hex.EncodeToString`; `idToHex` (groupsv2/groupsv2.go:58-60, groups.go:44-46). -/
def hexEncode : Bytes → Bytes
  | [] => []
  | b :: r => hexDigit (b.toNat / 16) :: hexDigit (b.toNat % 16) :: hexEncode r

/-- The layout 8-4-4-4-12 shared by the UUID functions. Code: helpers/helpers.go:3-10;
groupsv2/createGroupChange.go:140-147. -/
def dashed (msb lsb : Bytes) : Bytes :=
  msb.take 8 ++ 45 :: ((msb.drop 8).take 4 ++ 45 :: (msb.drop 12 ++ 45 :: (lsb.take 4 ++ 45 :: lsb.drop 4)))

/-- `idToHexUUID` (server.go:613-619): slicing panics on fewer than 8 bytes, and `lsbHex[:4]` on fewer
than 10. -/
def idToHexUUID (id : Bytes) : Res Bytes :=
  if id.length < 8 then .panic
  else if (hexEncode (id.drop 8)).length < 4 then .panic
  else .ok (dashed (hexEncode (id.take 8)) (hexEncode (id.drop 8)))

/-- `HexToUUID` (helpers/helpers.go:3-10; groupsv2/createGroupChange.go:140-147). -/
def hexToUUID (s : Bytes) : Bytes :=
  if s.length ≠ 32 then s else dashed (s.take 16) (s.drop 16)

end Verif.Encoding
