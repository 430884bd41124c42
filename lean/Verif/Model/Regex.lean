import Verif.Bytes
/-!
# Regular expressions

`regexp.MustCompile(…).MatchString` is used on two patterns (sync.go:150, server.go:643). Both are
anchored at both ends and use only ASCII classes, so a match is membership of the byte string in a
regular language. Capture groups play no role in `MatchString`.
-/
namespace Verif.Regex
open Verif

/-- Regular expressions, as far as the code uses them. Code: server.go:643; sync.go:150;
cmd/textsecure/main.go:363-399. -/
inductive Re where
  | none                       -- matches nothing
  | eps                        -- the empty string
  | cls (p : UInt8 → Bool)     -- one byte of a class
  | alt (a b : Re)
  | seq (a b : Re)
  | star (a : Re)

namespace Re

/-- Does the expression match the empty string? Code: server.go:643; sync.go:150;
cmd/textsecure/main.go:363-399. -/
def nullable : Re → Bool
  | none => false
  | eps => true
  | cls _ => false
  | alt a b => a.nullable || b.nullable
  | seq a b => a.nullable && b.nullable
  | star _ => true

/-- What remains to be matched after one byte. Code: server.go:643; sync.go:150;
cmd/textsecure/main.go:363-399. -/
def deriv (c : UInt8) : Re → Re
  | none => none
  | eps => none
  | cls p => if p c then eps else none
  | alt a b => alt (a.deriv c) (b.deriv c)
  | seq a b => if a.nullable then alt (seq (a.deriv c) b) (b.deriv c) else seq (a.deriv c) b
  | star a => seq (a.deriv c) (star a)

/-- `MatchString` of an anchored pattern. Go's engine simulates an automaton; only the language matters.
Code: server.go:643; sync.go:150; cmd/textsecure/main.go:363-399. -/
def matches' (r : Re) : Bytes → Bool
  | [] => r.nullable
  | c :: s => (r.deriv c).matches' s

/-- `r?`. Code: server.go:643. -/
def opt (r : Re) : Re := alt r eps
/-- `r{n}`. Code: sync.go:150; cmd/textsecure/main.go:384. -/
def times (r : Re) : Nat → Re
  | 0 => eps
  | n + 1 => seq r (times r n)
/-- `r+` (also `r{1,}`) Code: server.go:643. -/
def plus (r : Re) : Re := seq r (star r)
/-- A literal byte. Code: server.go:643; sync.go:150. -/
def byte (b : UInt8) : Re := cls (· == b)
/-- A literal text. Code: server.go:643; cmd/textsecure/main.go:397-399. -/
def lit : List UInt8 → Re
  | [] => eps
  | b :: r => seq (byte b) (lit r)

end Re
end Verif.Regex
