import Verif.Bytes
/-!
# Stopping the companion process (crayfish/backend.go:264-385)

An interleaving of: the listener (`StartListening`), calls of `Stop`, the companion, and the connection between them.
Memory is taken to be sequentially consistent. `Run` has started the companion before (otherwise `Instance` or `cmd` is
`nil`); calls of `Stop` follow one another; `StopListening` is called by `Stop` only.
-/
namespace Verif.BackendStop

/-- Where the listener is. Code: crayfish/backend.go:264-344. -/
inductive Pc where
  | start      -- asleep for a second (266)
  | head       -- at the head of the loop (269-270)
  | making     -- in `StartWebsocket`, before `wsconn` is set (289-291)
  | dialing    -- in `connect` (292)
  | reading    -- in the loop of `ReadMessage` (310)
  | back       -- `StartWebsocket` has returned (272-277)
  | over       -- out of the loop (279)
  deriving DecidableEq, Repr

/-- The variable `wsconn` and the connection in it (crayfish/backend.go:107-112, 291-292): `nil`; a `Conn` without `ws`; or one
with `ws`, open or not. -/
inductive Wsconn where
  | none
  | bare
  | link (isOpen : Bool)
  deriving DecidableEq, Repr

/-- Everything shared. Code: crayfish/backend.go:264-385. -/
structure State where
  pc : Pc := .start
  stopping : Bool := false
  conn : Wsconn := .none
  buf : Nat := 0             -- messages that have arrived and are not yet read
  alive : Bool := true       -- the companion has not been waited for
  caller : Nat := 0          -- the call of `Stop`: 0 none, 1 after line 375, 2 after line 379
  deriving DecidableEq, Repr

/-- What can be seen from outside. Code: crayfish/backend.go:292, 311, 374-385. -/
inductive Event where
  | connected
  | received
  | interrupted
  | returned (ok : Bool)     -- `Stop` returns, without an error?
  deriving DecidableEq, Repr

/-- What can happen. Code: crayfish/backend.go:264-385. -/
inductive Act where
  | wake        -- the second is over (266)
  | test        -- `!c.stopping` (270)
  | make        -- `wsconn` is set (291)
  | dial (ok : Bool)  -- `connect` returns (292-296)
  | read        -- a message is read (311-342)
  | drop        -- a read fails, or a message is no JSON: `StartWebsocket` closes and returns (312-327, 298)
  | again       -- after an error, perhaps after a pause (272-277)
  | arrive      -- the companion sends a message
  | exit        -- the companion has ended
  | stop1       -- `Stop` is called and sets `stopping` (375)
  | stop2       -- `StopListening` (376-379, 351-359)
  | stop3       -- the interrupt (380-386)
  deriving DecidableEq, Repr

/-- One step; an action that is not possible does nothing. Messages that have arrived can be read although the connection has
been closed since: they are in the buffer of the websocket. Simplified: `StopListening` reads `wsconn` once, and `Signal` fails
exactly if the companion has been waited for. Code: crayfish/backend.go:264-386. -/
def step (s : State) : Act → State × List Event
  | .wake => if s.pc = .start then ({ s with pc := .head }, []) else (s, [])
  | .test => if s.pc = .head then ({ s with pc := if s.stopping then .over else .making }, []) else (s, [])
  | .make => if s.pc = .making then ({ s with pc := .dialing, conn := .bare }, []) else (s, [])
  | .dial ok =>
    if s.pc = .dialing then
      if ok = true ∧ s.alive = true then ({ s with pc := .reading, conn := .link true, buf := 0 }, [.connected])
      else ({ s with pc := .back }, [])
    else (s, [])
  | .read => if s.pc = .reading ∧ 0 < s.buf then ({ s with buf := s.buf - 1 }, [.received]) else (s, [])
  | .drop => if s.pc = .reading then ({ s with pc := .back, conn := .link false, buf := 0 }, []) else (s, [])
  | .again => if s.pc = .back then ({ s with pc := .head }, []) else (s, [])
  | .arrive =>
    if s.pc = .reading ∧ s.conn = .link true ∧ s.alive = true then ({ s with buf := s.buf + 1 }, []) else (s, [])
  | .exit => ({ s with alive := false }, [])
  | .stop1 => if s.caller = 0 then ({ s with stopping := true, caller := 1 }, []) else (s, [])
  | .stop2 =>
    if s.caller = 1 then
      match s.conn with
      | .none => ({ s with caller := 0 }, [.returned false])
      | .bare => ({ s with caller := 2 }, [])
      | .link _ => ({ s with caller := 2, conn := .link false }, [])
    else (s, [])
  | .stop3 =>
    if s.caller = 2 then
      if s.alive then ({ s with caller := 0 }, [.interrupted, .returned true])
      else ({ s with caller := 0 }, [.returned false])
    else (s, [])

/-- A schedule: the state afterwards and what was seen. Code: crayfish/backend.go:264-386. -/
def run : State → List Act → State × List Event
  | s, [] => (s, [])
  | s, a :: as =>
    let r := step s a
    let r' := run r.1 as
    (r'.1, r.2 ++ r'.2)

end Verif.BackendStop
