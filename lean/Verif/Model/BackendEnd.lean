import Verif.Bytes
/-!
# The output and the end of the companion process (crayfish/backend.go:137-193)
-/
namespace Verif.BackendEnd
open Verif

/-- The error of a read: `io.EOF` or another one. Code: crayfish/backend.go:172-193. -/
inductive RdErr where
  | eof
  | fail
  deriving DecidableEq, Repr

/-- What one `r.Read(buf)` gives (crayfish/backend.go:176): `buf[:n]`, and the error. Simplified: that `n` is at most 1024
is not recorded. -/
structure Read where
  data : Bytes := []
  err : Option RdErr := none
  deriving DecidableEq, Repr

/-- `copyAndCapture` (crayfish/backend.go:172-193) on a reader that gives `rs`, with `out` captured so far; `none` while it
waits for more. The writer it is given is not used. -/
def copyAndCapture (out : Bytes) : List Read → Option (Bytes × Option RdErr)
  | [] => none
  | r :: rs =>
    let out' := if r.data ≠ [] then out ++ r.data else out
    match r.err with
    | none => copyAndCapture out' rs
    | some e =>
      if r.data ≠ [] then some (out', some e)
      else some (out', if e = .eof then none else some e)

/-- What `Run` comes to after the start of the program. Code: crayfish/backend.go:150-170. -/
inductive Tail where
  | waiting                    -- a pipe is still open
  | failed                     -- the error of `Wait` is logged, `Run` returns (159-163)
  | fatal                      -- `log.Fatal` ends the client (164-166)
  | done (out err : Bytes)     -- both outputs are logged, `Run` returns (167-171)
  deriving DecidableEq, Repr

/-- The rest of `Run` (crayfish/backend.go:150-171): `so` and `se` are what the reads of the two pipes give, `exitOk` tells
whether `cmd.Wait` gives no error, that is, whether the program ended with status 0. Nothing starts the program again. -/
def tail (so se : List Read) (exitOk : Bool) : Tail :=
  match copyAndCapture [] so, copyAndCapture [] se with
  | some (out, e1), some (err, e2) =>
    if exitOk = false then .failed
    else if e1.isSome = true ∨ e2.isSome = true then .fatal
    else .done out err
  | _, _ => .waiting

end Verif.BackendEnd
