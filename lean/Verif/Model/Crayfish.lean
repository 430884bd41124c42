import Verif.Bytes
/-!
# Requests to the companion process (crayfish/backend.go, crayfish/envelope.go, avatar.go, register.go)

`HandleEnvelope`, `DecryptAvatar` and `CrayfishRegisterWithCode` share one pattern: send the request, make
a new channel, store it in the instance, wait on it. Replies carry no request id; the reader goroutine
puts them into whatever channel is stored. The model interleaves any number of calling goroutines, the
companion process and the reader. Each atomic action is one Go operation on shared state. Memory is
taken to be sequentially consistent, the companion process to answer every request once, in order, with a
message whose type is present (a missing type would crash the reader, crayfish/backend.go:367); acknowledgements
(type 1) may come at any time. The content of requests and replies is not modelled: a reply is
represented by the request it answers.
-/
namespace Verif.Crayfish

/-- A request: which goroutine made it and the how-manieth of that goroutine it is. Code:
crayfish/envelope.go:10-50. -/
structure Req where
  thread : Nat
  no : Nat
  deriving DecidableEq, Repr

/-- Where a calling goroutine is (crayfish/envelope.go:34-36, crayfish/avatar.go:37-39, crayfish/register.go:72-74). -/
inductive Pc where
  | idle
  | sent              -- the request is in the send channel
  | made              -- a new channel was made and stored
  | waiting (ch : Nat) -- `<-c.receiveChannel` evaluated the field and waits on channel `ch`
  deriving DecidableEq, Repr

/-- A calling goroutine and how many calls it has made. Code: crayfish/envelope.go:10-50;
crayfish/avatar.go:10-56. -/
structure Caller where
  pc : Pc := .idle
  calls : Nat := 0
  deriving DecidableEq, Repr

/-- Messages from the companion process. Code: crayfish/backend.go:96-99. -/
inductive Msg where
  | ack
  | reply (r : Req)
  deriving DecidableEq, Repr

/-- Where the reader goroutine is (crayfish/backend.go:366-372). -/
inductive Reader where
  | idle
  | checked (r : Req)            -- `c.receiveChannel != nil && *response.Type > 1` held
  | pushing (ch : Nat) (r : Req) -- the channel of the send statement is evaluated
  deriving DecidableEq, Repr

/-- Shared state. `chans` are the buffers of the channels made so far (capacity 1); `log` lists the calls
that returned, with the request whose reply they got. Code: crayfish/backend.go:32-39. -/
structure State where
  callers : Nat → Caller := fun _ => {}
  queue : List Req := []
  wire : List Msg := []
  reader : Reader := .idle
  field : Option Nat := none
  chans : List (List Req) := []
  log : List (Req × Req) := []

/-- The atomic actions of the callers, the companion and the reader. Code:
crayfish/envelope.go:10-50; crayfish/backend.go:288-348, 366-372. -/
inductive Action where
  | send (i : Nat)   -- crayfish/envelope.go:34
  | mk (i : Nat)     -- crayfish/envelope.go:35
  | eval (i : Nat)   -- crayfish/envelope.go:36, reading the field
  | recv (i : Nat)   -- crayfish/envelope.go:36, receiving
  | answer           -- the companion process answers the oldest request
  | ack              -- the companion process acknowledges something
  | take             -- crayfish/backend.go:311-337, 367-368
  | readerEval       -- crayfish/backend.go:369, reading the field
  | push             -- crayfish/backend.go:369, sending
  deriving DecidableEq, Repr

/-- One caller moves on. Code: crayfish/envelope.go:10-50. -/
def setPc (s : State) (i : Nat) (p : Pc) : Nat → Caller :=
  fun j => if j = i then { s.callers i with pc := p } else s.callers j

/-- One atomic action; `none` if it is not possible (in particular: blocked). Code:
crayfish/envelope.go:10-50; crayfish/backend.go:288-348, 366-372. -/
def step (s : State) : Action → Option State
  | .send i =>
    if (s.callers i).pc = .idle then
      let n := (s.callers i).calls + 1
      some { s with
        callers := fun j => if j = i then ⟨.sent, n⟩ else s.callers j
        queue := s.queue ++ [⟨i, n⟩] }
    else none
  | .mk i =>
    if (s.callers i).pc = .sent then
      some { s with callers := setPc s i .made, field := some s.chans.length, chans := s.chans ++ [[]] }
    else none
  | .eval i =>
    if (s.callers i).pc = .made then
      match s.field with
      | some ch => some { s with callers := setPc s i (.waiting ch) }
      | none => none
    else none
  | .recv i =>
    match (s.callers i).pc with
    | .waiting ch =>
      match s.chans[ch]? with
      | some (r :: rest) =>
        some { s with
          callers := setPc s i .idle
          chans := s.chans.set ch rest
          log := s.log ++ [(⟨i, (s.callers i).calls⟩, r)] }
      | _ => none
    | _ => none
  | .answer =>
    match s.queue with
    | r :: q => some { s with queue := q, wire := s.wire ++ [.reply r] }
    | [] => none
  | .ack => some { s with wire := s.wire ++ [.ack] }
  | .take =>
    match s.reader, s.wire with
    | .idle, .ack :: w => some { s with wire := w }
    | .idle, .reply r :: w =>
      match s.field with
      | none => some { s with wire := w }
      | some _ => some { s with wire := w, reader := .checked r }
    | _, _ => none
  | .readerEval =>
    match s.reader, s.field with
    | .checked r, some ch => some { s with reader := .pushing ch r }
    | _, _ => none
  | .push =>
    match s.reader with
    | .pushing ch r =>
      match s.chans[ch]? with
      | some [] => some { s with reader := .idle, chans := s.chans.set ch [r] }
      | _ => none
    | _ => none

/-- A schedule. Code: crayfish/envelope.go:10-50; crayfish/backend.go:288-348. -/
def exec : State → List Action → Option State
  | s, [] => some s
  | s, a :: as => (step s a).bind (fun s' => exec s' as)

end Verif.Crayfish
