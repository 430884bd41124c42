import Verif.Bytes
/-!
# The life of the companion process and of the connection to it (crayfish/backend.go, textsecure.go:263-272)

Finding the program (`locate`), and an interleaving of: `Run` and the listener it starts, the writers of the
connections, the goroutine that makes requests, and the outside (the connection may break at any time). Memory is
taken to be sequentially consistent. What `Model/Crayfish` has, the waiting for replies, is not repeated here.
`Stop` is in `Model/BackendStop`, the pings are in `Model/Deadline`.
-/
namespace Verif.Backend
open Verif

/-! ## Finding the program -/

/-- What is at a path. Code: crayfish/backend.go:114-171. -/
inductive Node where
  | absent
  | dir
  | file (runs : Bool)  -- whether it can be executed
  deriving DecidableEq, Repr

/-- The program started. Code: crayfish/backend.go:114-171. -/
inductive Prog where
  | inPath    -- the program `exec.LookPath` found
  | here      -- `./crayfish`
  | debug     -- `./crayfish/target/debug/crayfish`
  deriving DecidableEq, Repr

/-- What `Run` meets: whether `crayfish` is in the search path (`LookPath` finds executable files only), what is at
`./crayfish`, whether files can be made in the current directory, and what is at
`./crayfish/target/debug/crayfish`. Code: crayfish/backend.go:114-171. -/
structure Place where
  inPath : Bool := false
  here : Node := .absent
  canCreate : Bool := true
  debug : Node := .absent
  deriving DecidableEq, Repr

/-- Which command `Run` chooses (crayfish/backend.go:120-135), `none` for `os.Exit(1)`, and what is at `./crayfish`
afterwards: `os.OpenFile` with `O_CREATE|O_EXCL` succeeds exactly if nothing was there and makes an empty file that
cannot be executed. -/
def choose (p : Place) : Option Prog × Node :=
  if p.inPath then (some .inPath, p.here)
  else if p.here = .absent ∧ p.canCreate = true then (some .here, .file false)
  else if p.debug ≠ .absent then (some .debug, p.here)
  else (none, p.here)

/-- `Run` up to `cmd.Start` (crayfish/backend.go:120-148): the program that runs, `none` if the client has ended
instead (`os.Exit`, `log.Fatalf`), and what is at `./crayfish` afterwards. -/
def locate (p : Place) : Option Prog × Node :=
  match choose p with
  | (some .inPath, n) => (some .inPath, n)
  | (some .here, n) => (if n = .file true then some .here else none, n)
  | (some .debug, n) => (if p.debug = .file true then some .debug else none, n)
  | (none, n) => (none, n)

/-! ## The connection -/

/-- A request: its number and the UUID it names as the account (`LocalUUID`, crayfish/envelope.go:14-18; other
requests carry none, here the model gives all of them the one of the instance). -/
structure Req where
  no : Nat
  uuid : String
  deriving DecidableEq, Repr

/-- `Conn` (crayfish/backend.go:103-112): the channel `send` of capacity 256; whether the websocket is connected;
whether its `writeWorker` runs. -/
structure Link where
  buf : List Req := []
  up : Bool := false
  writer : Bool := false
  deriving DecidableEq, Repr

/-- Where the listener is (crayfish/backend.go:264-349): not started, about to connect, connecting, reading. -/
inductive Listener where
  | off | idle | dialing | reading
  deriving DecidableEq, Repr

/-- `cfg` is the UUID of `config.ConfigFile`, `none` if that is nil; `inst` is the `LocalUUID` of `Instance`; `links`
are the connections made so far and `cur` is the field `wsconn`. `sent` and `arrived` list requests handed over and
requests the companion has got. Code: crayfish/backend.go:32-41. -/
structure State where
  cfg : Option String
  inst : Option String := none
  listener : Listener := .off
  links : List Link := []
  cur : Option Nat := none
  sent : List Req := []
  arrived : List Req := []
  crashed : Bool := false
  deriving DecidableEq, Repr

/-- What the goroutines do, one atomic action each. Code: crayfish/backend.go:114-171, 264-285,
288-348, 229-263. -/
inductive Action where
  | begin                -- `Run` makes the instance (crayfish/backend.go:115-118)
  | spawn                -- `Run` has started the program; `go Instance.StartListening()` (150)
  | make                 -- `c.wsconn = &Conn{…}` (291)
  | dial (ok : Bool)     -- `c.wsconn.connect`, and `go c.wsconn.writeWorker()` (292-301)
  | drop                 -- the connection breaks
  | readFails            -- `ReadMessage` notices, `StartWebsocket` returns (311-318), the loop goes on
  | request (n : Nat)    -- `c.wsconn.send <- m` (crayfish/envelope.go:34, crayfish/avatar.go:37, crayfish/register.go:36, 72)
  | write (i : Nat)      -- a writer takes a request and writes it (crayfish/backend.go:236-252)
  | registered (u : String)  -- textsecure.go:425
  deriving DecidableEq, Repr

/-- One atomic action; `none` if it is not possible. A nil dereference ends the program, whichever goroutine it
happens in. Code: crayfish/backend.go:114-171, 264-285, 288-348, 229-263. -/
def step (s : State) : Action → Option State
  | .begin =>
    if s.crashed = true ∨ s.inst ≠ none then none
    else match s.cfg with
      | none => some { s with crashed := true }
      | some u => some { s with inst := some u }
  | .spawn =>
    if s.crashed = true ∨ s.inst = none ∨ s.listener ≠ .off then none
    else some { s with listener := .idle }
  | .make =>
    if s.crashed = true ∨ s.listener ≠ .idle then none
    else some { s with links := s.links ++ [{}], cur := some s.links.length, listener := .dialing }
  | .dial ok =>
    if s.crashed = true ∨ s.listener ≠ .dialing then none
    else match s.cur with
      | none => none
      | some i =>
        if ok then some { s with links := s.links.modify i (fun l => { l with up := true, writer := true })
                                 listener := .reading }
        else some { s with listener := .idle }
  | .drop =>
    match s.cur with
    | none => none
    | some i => if s.crashed = true then none else some { s with links := s.links.modify i (fun l => { l with up := false }) }
  | .readFails =>
    match s.cur with
    | none => none
    | some i =>
      if s.crashed = true ∨ s.listener ≠ .reading ∨ ((s.links[i]?).map Link.up).getD false = true then none
      else some { s with listener := .idle }
  | .request n =>
    if s.crashed = true then none
    else match s.inst with
      | none => some { s with crashed := true }
      | some u =>
        match s.cur with
        | none => some { s with crashed := true }
        | some i =>
          match s.links[i]? with
          | none => none
          | some l =>
            if 256 ≤ l.buf.length then none
            else some { s with links := s.links.set i { l with buf := l.buf ++ [⟨n, u⟩] }, sent := s.sent ++ [⟨n, u⟩] }
  | .write i =>
    if s.crashed = true then none
    else match s.links[i]? with
      | none => none
      | some l =>
        if l.writer = false then none
        else match l.buf with
          | [] => none
          | r :: rest =>
            if l.up = true then
              some { s with links := s.links.set i { l with buf := rest }, arrived := s.arrived ++ [r] }
            else some { s with links := s.links.set i { l with buf := rest, writer := false } }
  | .registered u =>
    if s.crashed = true then none
    else match s.cfg with
      | none => some { s with crashed := true }
      | some _ => some { s with cfg := some u }

/-- A schedule. Code: crayfish/backend.go:264-285. -/
def exec : State → List Action → Option State
  | s, [] => some s
  | s, a :: as => (step s a).bind (fun s' => exec s' as)

/-- After `config.ConfigFile, err = loadConfig()` and `go crayfish.Run()` (textsecure.go:267-268). -/
def start (cfg : Option String) : State := { cfg := cfg }

end Verif.Backend
