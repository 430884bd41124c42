import Verif.Model.Regex
import Verif.Model.Wire
import Verif.Model.Contacts
/-!
# Contact and group sync (sync.go)
-/
namespace Verif.Sync
open Verif Verif.Regex Verif.Contacts

/-- `varint32` (sync.go:273-277): `binary.PutUvarint` into a five byte buffer; a sixth byte would be
written out of range. `value` is the length of a slice, so it is not negative. -/
def varint32 (value : Nat) : Res Bytes :=
  let b := Wire.encVarint value
  if b.length ≤ 5 then .ok b else .panic

/-- The loop writing one length-prefixed record per item (sync.go:165-189 and 220-237). `marshal` is
`proto.Marshal` of the record built for the item; an item it fails on is skipped. -/
def frames {α : Type} (marshal : α → Option Bytes) : List α → Res Bytes
  | [] => .ok []
  | a :: r =>
    match marshal a with
    | none => frames marshal r
    | some b => do
      let p ← varint32 b.length
      let rest ← frames marshal r
      .ok (p ++ b ++ rest)

/-- `[a-fA-F0-9]`. Code: sync.go:150. -/
def hexClass (c : UInt8) : Bool :=
  (97 ≤ c && c ≤ 102) || (65 ≤ c && c ≤ 70) || (48 ≤ c && c ≤ 57)

/-- `[8|9|aA|bB]`: inside a class `|` is a literal. Code: sync.go:150. -/
def variantClass (c : UInt8) : Bool :=
  c == 56 || c == 124 || c == 57 || c == 97 || c == 65 || c == 98 || c == 66

/-- The pattern of `isValidUUID` (sync.go:150). -/
def uuidRe : Re :=
  let h := Re.cls hexClass
  .seq (h.times 8) (.seq (.byte 45) (.seq (h.times 4) (.seq (.byte 45) (.seq (.byte 52) (.seq (h.times 3)
    (.seq (.byte 45) (.seq (.cls variantClass) (.seq (h.times 3) (.seq (.byte 45) (h.times 12))))))))))

/-- `isValidUUID` (sync.go:149-152). -/
def isValidUUID (s : Bytes) : Bool := uuidRe.matches' s

/-- The bytes uploaded by `sendContactUpdate` (sync.go:163-189) for the contacts `lc`. -/
def contactStream (marshal : Contact → Option Bytes) (lc : List Contact) : Res Bytes :=
  frames marshal (lc.filter (fun c => isValidUUID c.uuid))

end Verif.Sync
