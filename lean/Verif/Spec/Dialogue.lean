import Verif.Model.Dialogue
/-!
# Orderly dialogues
-/
namespace Verif.Spec.Dialogue
open Verif Verif.Dialogue

/-- Every event of the second kind comes after one of the first kind. -/
def After (p q : Ev → Prop) (tr : List Ev) : Prop :=
  ∀ pre e post, tr = pre ++ e :: post → q e → ∃ d ∈ pre, p d

/-- The event happens once at most. -/
def Once (e : Ev) (tr : List Ev) : Prop := tr.count e ≤ 1

/-- A proper answer to a verified registration: sixteen bytes, and whether storage can be used. -/
def proper (uuid : Bytes) (storage : Bool) : Json :=
  .obj [("storage_capable", .bool storage), ("uuid", .arr (uuid.map fun b => .num (some b.toNat)))]

/-- Part of making an account: what only a client that is not registered does. -/
def registering : Ev → Prop
  | .call .phone => True
  | .call .captcha => True
  | .call .code => True
  | .request _ _ => True
  | .confirm _ _ _ => True
  | .save _ _ _ => True
  | .keys => True
  | .publish => True
  | _ => False

end Verif.Spec.Dialogue
