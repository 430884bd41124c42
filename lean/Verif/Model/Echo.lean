import Verif.Model.Gateway
/-!
# Programs that answer by themselves (cmd/textsecure/main.go:218-229)

Any number of accounts. Some run the command line program, others anything else. What one sends to another is on its
way until it is handed to the program of the addressee, in any order (that it arrives as it was sent is C106 and C146).
-/
namespace Verif.Echo
open Verif Verif.Gateway

/-- A message on its way. Code: cmd/textsecure/main.go:160-171. -/
structure Flight where
  dest : Bytes
  msg : Msg
  deriving DecidableEq, Repr

/-- A running program: its flags and the peer of its conversation (`to`). Code: cmd/textsecure/main.go:61-84. -/
structure Prog where
  flags : Flags
  peer : Bytes := []
  deriving DecidableEq, Repr

/-- The accounts that run the program, and what is on its way. Code: cmd/textsecure/main.go:218-265. -/
structure Net where
  progs : Bytes → Option Prog
  wire : List Flight

/-- What the effects of `messageHandler` put on its way. The addressee of a private message sees the sender's account as
its source. Simplified: messages to groups of the old kind are left out (the library hands over none of them, see
`Shown.msgOfApp`). Code: cmd/textsecure/main.go:160-171, 218-229. -/
def sent (me : Bytes) : List Act → List Flight
  | [] => []
  | .send c :: as => if c.group then sent me as else ⟨c.dest, ⟨me, none, none, c.text⟩⟩ :: sent me as
  | _ :: as => sent me as

/-- The message at `i` is handed to the program of its addressee, if it runs this one. Code:
cmd/textsecure/main.go:218-265. -/
def deliver (i : Nat) (n : Net) : Net :=
  match n.wire[i]? with
  | none => n
  | some f =>
    match n.progs f.dest with
    | none => { n with wire := n.wire.eraseIdx i }
    | some p =>
      let r := messageHandler p.flags p.peer f.msg
      { progs := fun a => if a = f.dest then some { p with peer := r.1 } else n.progs a
        wire := n.wire.eraseIdx i ++ sent f.dest r.2 }

/-- Deliveries one after the other. Code: cmd/textsecure/main.go:218-265. -/
def run : List Nat → Net → Net
  | [], n => n
  | i :: is, n => run is (deliver i n)

end Verif.Echo
