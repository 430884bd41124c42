import Verif.Bytes
/-!
# Protobuf wire format

The Go code calls `proto.Marshal` / `proto.Unmarshal` (github.com/golang/protobuf, backed by
google.golang.org/protobuf) on generated messages, e.g. axolotl/messages.go:53, 88, 162, 204;
axolotl/session.go:272, 287; fingerprint/ScannableFingerprint.go. This file models the wire
format those calls read and write: a sequence of (field number, value) pairs.

Simplifications: the recursion limit of 10000 nested groups when skipping an unknown group is not
modelled (any nesting is accepted); UTF-8 validation of string fields is not modelled.
-/
namespace Verif.Wire
open Verif

/-- Value carried by one field, by wire type. Group contents are skipped by every message of this
code base, so only the fact that a group was present is kept. Code: axolotl/messages.go:41-72. -/
inductive WVal where
  | varint (n : Nat)      -- wire type 0
  | fixed64 (b : Bytes)   -- wire type 1
  | len (b : Bytes)       -- wire type 2
  | group                 -- wire types 3/4
  | fixed32 (b : Bytes)   -- wire type 5
  deriving DecidableEq, Repr

/-- A field: its number and value. Code: axolotl/messages.go:41-72. -/
abbrev Field := Nat × WVal

/-- Base-128 varint of a number below 2^64 (protowire.AppendVarint). Code: axolotl/messages.go:74. -/
def encVarint (n : Nat) : Bytes :=
  if n < 128 then [UInt8.ofNat n]
  else UInt8.ofNat (n % 128 + 128) :: encVarint (n / 128)
termination_by n
decreasing_by omega

/-- `protowire.ConsumeVarint`, `i` = bytes already consumed: at most ten bytes, the tenth at most 1.
Code: axolotl/messages.go:41-72. -/
def decVarintAux (i : Nat) : Bytes → Option (Nat × Bytes)
  | [] => none
  | b :: rest =>
    if i = 9 then
      if b.toNat ≤ 1 then some (b.toNat, rest) else none
    else if b.toNat < 128 then some (b.toNat, rest)
    else if i < 9 then
      match decVarintAux (i + 1) rest with
      | some (n, r) => some (b.toNat - 128 + 128 * n, r)
      | none => none
    else none

/-- `protowire.ConsumeVarint`: the number and the rest. Code: axolotl/messages.go:41-72. -/
def decVarint (b : Bytes) : Option (Nat × Bytes) := decVarintAux 0 b

/-- `protowire.ConsumeBytes`. Code: axolotl/messages.go:41-72. -/
def decLen (b : Bytes) : Option (Bytes × Bytes) :=
  match decVarint b with
  | none => none
  | some (n, r) => if n ≤ r.length then some (r.take n, r.drop n) else none

/-- Parse fields until the input ends (`grp = none`) or the end-group tag of group `g` is met
(`grp = some g`). Every iteration consumes at least one byte, so `fuel = length + 1` suffices.
(google.golang.org/protobuf/internal/impl/decode.go, protowire.ConsumeFieldValue.) Code:
axolotl/messages.go:41-72. -/
def decFieldsAux : Nat → Option Nat → Bytes → Option (List Field × Bytes)
  | 0, _, _ => none
  | fuel + 1, grp, b =>
    match b with
    | [] => match grp with
      | none => some ([], [])
      | some _ => none
    | _ =>
      match decVarint b with
      | none => none
      | some (tag, r) =>
        let num := tag / 8
        if num < 1 ∨ num > 536870911 then none
        else match tag % 8 with
        | 0 => match decVarint r with
          | none => none
          | some (v, r') => (decFieldsAux fuel grp r').map (fun p => ((num, .varint v) :: p.1, p.2))
        | 1 => if r.length < 8 then none
          else (decFieldsAux fuel grp (r.drop 8)).map
            (fun p => ((num, .fixed64 (r.take 8)) :: p.1, p.2))
        | 2 => match decLen r with
          | none => none
          | some (v, r') => (decFieldsAux fuel grp r').map (fun p => ((num, .len v) :: p.1, p.2))
        | 3 => match decFieldsAux fuel (some num) r with
          | none => none
          | some (_, r') => (decFieldsAux fuel grp r').map (fun p => ((num, .group) :: p.1, p.2))
        | 4 => match grp with
          | some g => if g = num then some ([], r) else none
          | none => none
        | 5 => if r.length < 4 then none
          else (decFieldsAux fuel grp (r.drop 4)).map
            (fun p => ((num, .fixed32 (r.take 4)) :: p.1, p.2))
        | _ => none

/-- The fields of a message, or `none` if the bytes are malformed. Code:
axolotl/messages.go:41-72. -/
def decFields (b : Bytes) : Option (List Field) :=
  (decFieldsAux (b.length + 1) none b).map Prod.fst

/-- The tag of a field: number and wire type. Code: axolotl/messages.go:74. -/
def encTag (num wt : Nat) : Bytes := encVarint (num * 8 + wt)

/-- One field as written by `proto.Marshal` (no generated message writes a group). Code:
axolotl/messages.go:74. -/
def encField : Field → Bytes
  | (num, .varint n) => encTag num 0 ++ encVarint n
  | (num, .fixed64 b) => encTag num 1 ++ b
  | (num, .len b) => encTag num 2 ++ (encVarint b.length ++ b)
  | (_, .group) => []
  | (num, .fixed32 b) => encTag num 5 ++ b

/-- All fields, in order. Code: axolotl/messages.go:74. -/
def encFields (fs : List Field) : Bytes := (fs.map encField).flatten

/-- Fields `proto.Marshal` can produce. Code: axolotl/messages.go:74. -/
def Field.valid : Field → Prop
  | (num, .varint n) => 1 ≤ num ∧ num ≤ 536870911 ∧ n < 2 ^ 64
  | (num, .fixed64 b) => 1 ≤ num ∧ num ≤ 536870911 ∧ b.length = 8
  | (num, .len b) => 1 ≤ num ∧ num ≤ 536870911 ∧ b.length < 2 ^ 64
  | (_, .group) => False
  | (num, .fixed32 b) => 1 ≤ num ∧ num ≤ 536870911 ∧ b.length = 4

/-! ## Field access as the generated decoders do it: the last occurrence with the right wire type
wins, other wire types are kept as unknown fields. -/

/-- A singular bytes field: the last occurrence counts. Code: axolotl/messages.go:41-72. -/
def getBytes (fs : List Field) (num : Nat) : Option Bytes :=
  fs.foldl (fun acc f => match f with
    | (n, .len b) => if n = num then some b else acc
    | _ => acc) none

/-- A `uint32` field: the varint is truncated to 32 bits. Code: axolotl/messages.go:41-72. -/
def getU32 (fs : List Field) (num : Nat) : Option Nat :=
  fs.foldl (fun acc f => match f with
    | (n, .varint v) => if n = num then some (v % u32) else acc
    | _ => acc) none

/-- A `fixed64` field. Code: protobuf/SignalService.proto:600-626. -/
def getFixed64 (fs : List Field) (num : Nat) : Option Bytes :=
  fs.foldl (fun acc f => match f with
    | (n, .fixed64 v) => if n = num then some v else acc
    | _ => acc) none

/-- A repeated message field. Code: axolotl/session.go:268-280. -/
def getAll (fs : List Field) (num : Nat) : List Bytes :=
  fs.filterMap (fun f => match f with
    | (n, .len b) => if n = num then some b else none
    | _ => none)

end Verif.Wire
