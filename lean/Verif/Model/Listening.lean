import Verif.Bytes
/-!
# Stopping and starting to listen (websocket.go:43, 107-146, 143-246)

An interleaving of: any number of calls of `StartListening`, each in a goroutine of the application; the writers they
start; calls of `StopListening`; and the network. All of them share the variable `wsconn`. Memory is taken to be
sequentially consistent. What is in the frames and how they are handled is in `Model/Receive`; here a frame is its id.
Pings are not modelled.
-/
namespace Verif.Listening
open Verif

/-- The field `ws` of a `Conn` (websocket.go:34-41): nil until the dial is done. -/
inductive Ws where
  | nil | up | closed
  deriving DecidableEq, Repr

/-- `Conn`: the channel `send` of capacity 256, and how many `writeWorker`s read from it. Code:
websocket.go:35-41. -/
structure Link where
  ws : Ws := .nil
  buf : List Nat := []
  writers : Nat := 0
  deriving DecidableEq, Repr

/-- Where a call of `StartListening` is (websocket.go:143-230): connecting its own link; waiting in `ReadMessage`;
handling frame `id` of link `i`; having handled it, about to
acknowledge it; returned. When it returns it closes link `closes` (the operand of `defer`, 153, is
evaluated when the dial is done). -/
inductive Phase where
  | dialing (own : Nat)
  | reading (closes : Nat)
  | handling (i id closes : Nat)
  | acking (i id closes : Nat)
  | done
  deriving DecidableEq, Repr

/-- What can be seen from outside: the application was shown the frame `id` of link `i`; the server got an
acknowledgement of `id` over link `i`; `StopListening` returned (with success?). Code:
websocket.go:144-229, 236-246. -/
inductive Ev where
  | shown (i id : Nat)
  | acked (i id : Nat)
  | stopped (ok : Bool)
  deriving DecidableEq, Repr

/-- `links` are all the `Conn`s made and `cur` is `wsconn` (websocket.go:43). -/
structure State where
  links : List Link := []
  cur : Option Nat := none
  calls : List Phase := []
  log : List Ev := []
  crashed : Bool := false
  deriving DecidableEq, Repr

/-- The atomic actions of the listener, the writers and the application. Code:
websocket.go:144-229, 108-141, 236-246. -/
inductive Action where
  | start                      -- `StartListening` is called: `wsconn = &Conn{…}` (146), and the dial begins
  | dialed (k : Nat) (ok : Bool)  -- the dial of call `k` is done (147-165)
  | frame (k id : Nat)         -- call `k` reads a frame (168)
  | shows (k : Nat)            -- call `k` handles its frame, the application is told (175-218)
  | ack (k : Nat)              -- `sendAck`, which waits while the channel is full (220-227, 98)
  | fails (k : Nat)            -- call `k` finds that the connection is gone, and returns (169-174, 153)
  | write (i : Nat)            -- a writer of link `i` writes an acknowledgement, or fails to (107-140)
  | drop (i : Nat)             -- the network or the server closes link `i`
  | stop                       -- `StopListening` (236-246)
  deriving DecidableEq, Repr

/-- Capacity of the channel (websocket.go:146). -/
def cap : Nat := 256

/-- The connection `wsconn` points to. Code: websocket.go:35-41. -/
def State.ws (s : State) (i : Nat) : Ws := ((s.links[i]?).map Link.ws).getD .nil

/-- `ws.Close()`, for what it means here. Code: websocket.go:144-229. -/
def Link.close (l : Link) : Link := if l.ws = .up then { l with ws := .closed } else l

/-- One atomic action; `none` if it is not possible. A nil dereference ends the program, whichever goroutine it
happens in. From the end of the dial on, `StartListening` uses whatever `wsconn` is at the moment.
Code: websocket.go:144-229, 108-141, 236-246. -/
def step (s : State) : Action → Option State
  | .start =>
    if s.crashed then none
    else some { s with links := s.links ++ [{}], cur := some s.links.length, calls := s.calls ++ [.dialing s.links.length] }
  | .dialed k ok =>
    if s.crashed then none
    else match s.calls[k]? with
      | some (.dialing own) =>
        if ok then
          let links := s.links.modify own (fun l => { l with ws := .up })
          match s.cur with
          | none => none
          | some j =>
            if ((links[j]?).map Link.ws).getD .nil = .nil then some { s with links := links, crashed := true }
            else some { s with links := links.modify j (fun l => { l with writers := l.writers + 1 })
                               calls := s.calls.set k (.reading j) }
        else some { s with calls := s.calls.set k .done }
      | _ => none
  | .frame k id =>
    if s.crashed then none
    else match s.calls[k]?, s.cur with
      | some (.reading c), some j =>
        if s.ws j = .up then some { s with calls := s.calls.set k (.handling j id c) } else none
      | _, _ => none
  | .shows k =>
    if s.crashed then none
    else match s.calls[k]? with
      | some (.handling i id c) =>
        some { s with calls := s.calls.set k (.acking i id c), log := s.log ++ [.shown i id] }
      | _ => none
  | .ack k =>
    if s.crashed then none
    else match s.calls[k]?, s.cur with
      | some (.acking _ id c), some j =>
        if ((s.links[j]?).map (fun l => l.buf.length)).getD 0 < cap then
          some { s with links := s.links.modify j (fun l => { l with buf := l.buf ++ [id] })
                        calls := s.calls.set k (.reading c) }
        else none
      | _, _ => none
  | .fails k =>
    if s.crashed then none
    else match s.calls[k]?, s.cur with
      | some (.reading c), some j =>
        if s.ws j = .nil then some { s with crashed := true }
        else if s.ws j = .closed then
          some { s with links := s.links.modify c Link.close, calls := s.calls.set k .done }
        else none
      | _, _ => none
  | .write i =>
    if s.crashed then none
    else match s.links[i]? with
      | none => none
      | some l =>
        match l.buf with
        | [] => none
        | a :: rest =>
          if l.writers = 0 then none
          else if l.ws = .up then
            some { s with links := s.links.set i { l with buf := rest }, log := s.log ++ [.acked i a] }
          else some { s with links := s.links.set i { l with buf := rest, writers := l.writers - 1 } }
  | .drop i => if s.crashed then none else some { s with links := s.links.modify i Link.close }
  | .stop =>
    if s.crashed then none
    else match s.cur with
      | none => some { s with log := s.log ++ [.stopped false] }
      | some j => some { s with links := s.links.modify j Link.close, log := s.log ++ [.stopped true] }

/-- A schedule. Code: websocket.go:144-229. -/
def run : State → List Action → Option State
  | s, [] => some s
  | s, a :: as => (step s a).bind (fun s' => run s' as)

end Verif.Listening
