import Verif.Bytes
/-!
# How long a connection is kept (websocket.go:19-29, 107-229; crayfish/backend.go:40-50, 228-348)

The same code serves the connection to the service and the one to the companion process. Times are in milliseconds since
the connection was made.
-/
namespace Verif.Deadline

/-- `pongWait` (websocket.go:25, crayfish/backend.go:46). -/
def pongWait : Nat := 60000

/-- `pingPeriod` (websocket.go:28, crayfish/backend.go:49). -/
def pingPeriod : Nat := pongWait * 9 / 10

/-- When the `k`th ping is sent (websocket.go:109, 131-137, crayfish/backend.go:230, 253-260): the writer is taken not to be
in the middle of another write then. -/
def ping (k : Nat) : Nat := pingPeriod * k

/-- What the other side sends: the answer to a ping, or a message. `arrives` is when it is there to be read; `work` is how long the body
of the loop takes for the message (websocket.go:174-225, crayfish/backend.go:317-347), which ends neither with an error of the
parser nor with one of `sendAck`. -/
structure Frame where
  arrives : Nat
  work : Option Nat    -- `none`: a pong
  deriving DecidableEq, Repr

/-- What comes of a connection: the frames read, with the time at which each was read, and when the read failed. Code:
websocket.go:166-172. -/
structure Outcome where
  got : List (Nat × Frame)
  upTo : Nat
  deriving DecidableEq, Repr

/-- The loop of `ReadMessage` from time `t` on with the read deadline `d`, for the frames still to come. A frame can be read if
the read is made and the frame is there before the deadline; a pong moves the deadline (websocket.go:159-163) and is seen only
inside `ReadMessage`; a message does not move it. Simplified: nothing is read ahead into the buffer of the websocket (1024
bytes, line 59). Code: websocket.go:159-229, crayfish/backend.go:303-348. -/
def serve (t d : Nat) : List Frame → Outcome
  | [] => ⟨[], max t d⟩
  | f :: fs =>
    let now := max t f.arrives
    if now < d then
      match f.work with
      | none =>
        let r := serve now (now + pongWait) fs
        ⟨(now, f) :: r.got, r.upTo⟩
      | some w =>
        let r := serve (now + w) d fs
        ⟨(now, f) :: r.got, r.upTo⟩
    else ⟨[], max t d⟩

/-- A connection from its start (websocket.go:159, crayfish/backend.go:303). -/
def connection (fs : List Frame) : Outcome := serve 0 pongWait fs

end Verif.Deadline
