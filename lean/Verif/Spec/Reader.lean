import Verif.Model.Reader
/-!
# What a reader has (C149)
-/
namespace Verif.Reader
open Verif

/-- All the data of a reader, without the failures. -/
def bytes (r : Reader) : Bytes :=
  r.flatMap (fun e => match e with
    | .data b => b
    | .fail => [])

/-- Reading never fails. -/
def Sound (r : Reader) : Prop := .fail ∉ r

instance (r : Reader) : Decidable (Sound r) := inferInstanceAs (Decidable (¬ _))

end Verif.Reader
