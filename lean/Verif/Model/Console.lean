import Verif.Model.Gateway
/-!
# Reading from the console (cmd/textsecure/main.go:98-141, 187-206)

Standard input is what the `read` calls of the process can get: a list of pieces, each there at once, then the end. A
terminal gives at most a line with one call, a pipe whatever was written before the call.
-/
namespace Verif.Console
open Verif

/-- The size of the buffer `bufio.NewReader` makes (`defaultBufSize` of Go's bufio). Code: cmd/textsecure/main.go:99. -/
def bufSize : Nat := 4096

/-- The result of `readLine`: the text and what is still to be read from the process's input, or the end of the
process (`log.Fatal`). Code: cmd/textsecure/main.go:98-106. -/
inductive Line where
  | text (l : Bytes) (rest : List Bytes)
  | fatal
  deriving DecidableEq, Repr

/-- A carriage return at the end is dropped (`ReadLine` of Go's bufio). Code: cmd/textsecure/main.go:101. -/
def dropCR (l : Bytes) : Bytes := if l.getLast? = some 13 then l.dropLast else l

/-- The first line of a buffer that has a line feed (`ReadSlice`, `ReadLine` of Go's bufio). Code:
cmd/textsecure/main.go:101. -/
def firstLine (buf : Bytes) : Bytes := dropCR (buf.takeWhile (· ≠ 10))

/-- `ReadLine` of Go's bufio, with what is in the buffer: first the buffer is searched for a line feed, then it may be
full, then one more `read` fills it. What is left in the buffer at the end is lost, since the next call of `readLine`
makes a reader of its own. `isPrefix` is ignored. Code: cmd/textsecure/main.go:98-106. -/
def readFrom (buf : Bytes) : List Bytes → Line
  | [] =>
    if 10 ∈ buf then .text (firstLine buf) []
    else if bufSize ≤ buf.length then .text (dropCR buf) []
    else if buf = [] then .fatal
    else .text buf []
  | c :: r =>
    if 10 ∈ buf then .text (firstLine buf) (c :: r)
    else if bufSize ≤ buf.length then .text (dropCR buf) (c :: r)
    else if buf.length + c.length ≤ bufSize then readFrom (buf ++ c) r
    else
      let full := buf ++ c.take (bufSize - buf.length)
      .text (if 10 ∈ full then firstLine full else dropCR full) (c.drop (bufSize - buf.length) :: r)

/-- `readLine` (cmd/textsecure/main.go:98-106): the prompt is not modelled. -/
def readLine (inp : List Bytes) : Line := readFrom [] inp

/-- Questions asked one after the other (`getPhoneNumber`, `getPin`, `getVerificationCode`, `getCaptchaToken`,
`getUsername`): the answers, and whether the process was ended. Code: cmd/textsecure/main.go:108-124, 139-141. -/
def ask : Nat → List Bytes → List Bytes × Bool
  | 0, _ => ([], false)
  | n + 1, inp =>
    match readLine inp with
    | .fatal => ([], true)
    | .text l rest => (l :: (ask n rest).1, (ask n rest).2)

/-- `conversationLoop` (cmd/textsecure/main.go:187-206), `n` times round: the calls to the library, and whether the
process was ended. Errors of `sendMessage` are only logged. -/
def loop (group : Bool) (dest : Bytes) : Nat → List Bytes → List Gateway.Call × Bool
  | 0, _ => ([], false)
  | n + 1, inp =>
    match readLine inp with
    | .fatal => ([], true)
    | .text l rest =>
      if l = [] then loop group dest n rest
      else (⟨group, dest, l, none⟩ :: (loop group dest n rest).1, (loop group dest n rest).2)

end Verif.Console
