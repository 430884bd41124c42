import Verif.Model.Companion
/-!
# What a message of the companion process says, read off its JSON text
-/
namespace Verif.Spec.Companion
open Verif Verif.Dialogue

/-- The object has this value under this name. -/
def At (j : Json) (k : String) (v : Json) : Prop := ∃ l, j = .obj l ∧ (k, v) ∈ l

/-- No name occurs twice. -/
def Distinct (j : Json) : Prop := ∀ l, j = .obj l → (l.map (·.1)).Nodup

/-- Neither in the message nor in its parts. -/
def Clear (j : Json) : Prop := Distinct j ∧ ∀ k v, At j k v → Distinct v

/-- A type: a number of 32 bits, or null. -/
def TypeText (v : Json) : Prop := v = .null ∨ ∃ n : Int, v = .num (some n) ∧ -2147483648 ≤ n ∧ n ≤ 2147483647

/-- A part: null, or an object whose type is one. -/
def PartText (v : Json) : Prop := v = .null ∨ (∃ l, v = .obj l) ∧ ∀ t, At v "type" t → TypeText t

/-- The message has the form of one. -/
def Readable (j : Json) : Prop :=
  j = .null ∨ (∃ l, j = .obj l) ∧ (∀ t, At j "type" t → TypeText t) ∧ (∀ v, At j "request" v → PartText v) ∧
    ∀ v, At j "response" v → PartText v

/-- The part of that name is there and has a type. -/
def HasPart (j : Json) (k : String) : Prop := ∃ v n, At j k v ∧ At v "type" (.num (some n))

/-- A message that says it is a request has one, and so has one that says it is an answer. -/
def Whole (j : Json) : Prop :=
  (At j "type" (.num (some 1)) → HasPart j "request") ∧ (At j "type" (.num (some 2)) → HasPart j "response")

/-- What a part carries: null if nothing. -/
def Body (v m : Json) : Prop := At v "message" m ∨ m = .null ∧ ∀ x, ¬ At v "message" x

/-- An answer, other than an acknowledgement. -/
def IsAnswer (j : Json) : Prop :=
  At j "type" (.num (some 2)) ∧ ∃ v n, At j "response" v ∧ At v "type" (.num (some n)) ∧ 1 < n

/-- It carries this. -/
def Carries (j m : Json) : Prop := ∃ v, At j "response" v ∧ Body v m

/-- A run in which nothing arrives that is not whole, and answers arrive only while a call waits (the flag): the answers in
their order. Between them anything else may arrive, also what cannot be read. -/
inductive Dialog : Bool → List Companion.Event → List Json → Prop
  | done (w : Bool) : Dialog w [] []
  | call (w : Bool) {l : List Companion.Event} {ms : List Json} : Dialog true l ms → Dialog w (.call :: l) ms
  | garbage {w : Bool} {l : List Companion.Event} {ms : List Json} : Dialog w l ms → Dialog w (.arrives none :: l) ms
  | other {w : Bool} {j : Json} {l : List Companion.Event} {ms : List Json} : Clear j → Whole j →
      ¬ Readable j ∨ ¬ IsAnswer j → Dialog w l ms → Dialog w (.arrives (some j) :: l) ms
  | answer {j m : Json} {l : List Companion.Event} {ms : List Json} : Clear j → Readable j → IsAnswer j → Carries j m →
      Dialog false l ms → Dialog true (.arrives (some j) :: l) (m :: ms)

end Verif.Spec.Companion
