import Verif.Model.Gateway
/-! # What a client of the gateway can rely on -/
namespace Verif.GatewaySpec
open Verif Verif.Gateway Verif.Keys

/-- The text of the identifier of a group of the new kind: a master key of 32 bytes in hexadecimal digits. -/
def IsGroupKey (s : Bytes) : Prop := ∃ key : Bytes, key.length = 32 ∧ s = Encoding.hexEncode key

/-- The call hands over what the request asked for: addressee, text, and the kind of addressee. -/
def Asked (X : Ext) (field : Bytes) (r : Request) (c : Call) : Prop :=
  (c.group = true ↔ IsGroupKey c.dest) ∧
  match r with
  | .form f => f.post = true ∧ f.message ≠ [] ∧ f.dest ≠ [] ∧ c.dest = f.dest ∧ c.text = f.message
  | .json p b => c.file = none ∧ c.dest = p ∧ ∃ t obj, b = some t ∧ X.json t = some obj ∧ obj field = .str c.text
  | .rekey .. => False

/-- The request names an addressee and a text to send. -/
def Complete (X : Ext) (field : Bytes) : Request → Prop
  | .form f => f.post = true ∧ f.message ≠ [] ∧ f.dest ≠ []
  | .json _ b => ∃ t obj s, b = some t ∧ X.json t = some obj ∧ obj field = .str s
  | .rekey .. => False

/-! ## JSON: objects whose values are texts and truth values -/

inductive J where
  | start | key | inKey | keyEsc | keyU (n : Nat) | colon | value
  | inStr | strEsc | strU (n : Nat) | lit (rest : Bytes) | after | done | bad
  deriving DecidableEq, Repr

def blank (c : UInt8) : Bool := c == 32 || c == 9 || c == 10 || c == 13
def hexByte (c : UInt8) : Bool := (48 ≤ c && c ≤ 57) || (97 ≤ c && c ≤ 102) || (65 ≤ c && c ≤ 70)

/-- One byte of a text within quotes: `stay`, after a backslash, or the closing quote. -/
def inText (stay esc close : J) (c : UInt8) : J :=
  if c == 34 then close else if c == 92 then esc else if c < 32 then .bad else stay

/-- The byte after a backslash. -/
def escaped (stay : J) (u : Nat → J) (c : UInt8) : J :=
  if (ascii "\"\\/bfnrt").contains c then stay else if c == 117 then u 4 else .bad

/-- One byte of a JSON object (RFC 8259, values restricted to texts and truth values). -/
def J.step (s : J) (c : UInt8) : J :=
  match s with
  | .start => if blank c then .start else if c == 123 then .key else .bad
  | .key => if blank c then .key else if c == 34 then .inKey else .bad
  | .inKey => inText .inKey .keyEsc .colon c
  | .keyEsc => escaped .inKey .keyU c
  | .keyU n => if hexByte c then (if n ≤ 1 then .inKey else .keyU (n - 1)) else .bad
  | .colon => if blank c then .colon else if c == 58 then .value else .bad
  | .value =>
    if blank c then .value else if c == 34 then .inStr
    else if c == 116 then .lit (ascii "rue") else if c == 102 then .lit (ascii "alse") else .bad
  | .inStr => inText .inStr .strEsc .after c
  | .strEsc => escaped .inStr .strU c
  | .strU n => if hexByte c then (if n ≤ 1 then .inStr else .strU (n - 1)) else .bad
  | .lit rest =>
    match rest with
    | [] => .bad
    | [d] => if c == d then .after else .bad
    | d :: r => if c == d then .lit r else .bad
  | .after => if blank c then .after else if c == 44 then .key else if c == 125 then .done else .bad
  | .done => if blank c then .done else .bad
  | .bad => .bad

/-- The text is a JSON object of that kind. -/
def IsJson (b : Bytes) : Prop := b.foldl J.step .start = .done
instance (b : Bytes) : Decidable (IsJson b) := inferInstanceAs (Decidable (_ = _))

/-- A text that may stand between quotes as it is. -/
def Plain (s : Bytes) : Prop := ∀ c ∈ s, 32 ≤ c ∧ c ≠ 34 ∧ c ≠ 92

/-- Where a message belongs: the group of either kind, or the sender. -/
def home (m : Msg) : Bool × Bytes :=
  match m.group, m.groupV2 with
  | some g, _ => (true, g)
  | none, some g => (true, g)
  | none, none => (false, m.source)

end Verif.GatewaySpec
