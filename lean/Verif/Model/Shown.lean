import Verif.Model.Gateway
import Verif.Model.Receive
/-!
# What the command line shows of a message (cmd/textsecure/main.go:218-306, 505, 593-596)

The bytes written to the terminal. When something is shown, and how often, is in `Verif/Model/Gateway.lean`
(`messageHandler`). The time zone is a parameter: the seconds by which local time is ahead at a given moment.
-/
namespace Verif.Shown
open Verif Verif.Keys

/-- What `pretty` reads of a message: `Source()`, `Group().Name`, `Message()`, `Timestamp()`. Code:
cmd/textsecure/main.go:283-297. -/
structure Item where
  source : Bytes
  group : Option Bytes := none
  text : Bytes
  timestamp : Nat
  deriving DecidableEq, Repr

/-- A message handed to `MessageHandler`, as `pretty` and `messageHandler` read it. The library never sets the field
`Group()` returns (handler.go:90-106, 140-146); the id of a group of the new kind is not read. -/
def ofApp (m : Receive.AppMsg) : Item := ⟨ascii m.source, none, m.message, m.timestamp⟩

/-- The same for `messageHandler`. Code: cmd/textsecure/main.go:218-265; handler.go:90-106, 140-146. -/
def msgOfApp (m : Receive.AppMsg) : Gateway.Msg := ⟨ascii m.source, none, m.group, m.message⟩

/-- `int64(msg.Timestamp())*1000000`: the conversion and the product wrap around. Code:
cmd/textsecure/main.go:284. -/
def nanos (ts : Nat) : Int := ((ts : Int) * 1000000).bmod (2 ^ 64)

/-- `time.Unix(0, ns)`, in whole seconds, rounded down. Code: cmd/textsecure/main.go:284. -/
def seconds (ts : Nat) : Int := nanos ts / 1000000000

/-- Three letters for a day of the week, Sunday first. Code: cmd/textsecure/main.go:281-286. -/
def dayName (d : Nat) : Bytes :=
  match d with
  | 0 => ascii "Sun"
  | 1 => ascii "Mon"
  | 2 => ascii "Tue"
  | 3 => ascii "Wed"
  | 4 => ascii "Thu"
  | 5 => ascii "Fri"
  | _ => ascii "Sat"

/-- Two decimal digits. Code: cmd/textsecure/main.go:281-286. -/
def two (n : Nat) : Bytes := [UInt8.ofNat (48 + n / 10 % 10), UInt8.ofNat (48 + n % 10)]

/-- `03` in a time format: the hour on a clock of twelve hours. Code: cmd/textsecure/main.go:281. -/
def hour12 (h : Nat) : Nat := if h % 12 = 0 then 12 else h % 12

/-- `t.Format("Mon 03:04")` for a local time in seconds since the first of January 1970, which was a Thursday. Code:
cmd/textsecure/main.go:281-286. -/
def format (s : Int) : Bytes :=
  let day := ((s / 86400 + 4) % 7).toNat
  let sec := (s % 86400).toNat
  dayName day ++ [32] ++ two (hour12 (sec / 3600)) ++ [58] ++ two (sec / 60 % 60)

/-- `timestamp` (cmd/textsecure/main.go:283-286). -/
def timestamp (zone : Int → Int) (ts : Nat) : Bytes :=
  let s := seconds ts
  format (s + zone s)

/-- A registered contact: number and name. Code: cmd/textsecure/main.go:594-596. -/
structure Contact where
  tel : Bytes
  name : Bytes
  deriving DecidableEq, Repr

/-- `getName` (cmd/textsecure/main.go:301-306): the map made from the contacts (cmd/textsecure/main.go:593-596), in which
a later entry replaces an earlier one. -/
def getName (cs : List Contact) (tel : Bytes) : Bytes :=
  match cs.reverse.find? (fun c => c.tel == tel) with
  | some c => c.name
  | none => tel

/-- The formats of `pretty`; both modes give the same text. Code: cmd/textsecure/main.go:290-296. -/
def compose (time name : Bytes) (group : Option Bytes) (text : Bytes) : Bytes :=
  let src := name ++ (match group with
    | some g => [91] ++ g ++ [93]
    | none => [])
  time ++ [32] ++ src ++ [32] ++ text

/-- `pretty` (cmd/textsecure/main.go:288-297). -/
def pretty (zone : Int → Int) (cs : List Contact) (m : Item) : Bytes :=
  compose (timestamp zone m.timestamp) (getName cs m.source) m.group m.text

/-- `fmt.Printf("\r%s\n>", pretty(msg))` (cmd/textsecure/main.go:233, 240), for the text given by `pretty`. -/
def printed (line : Bytes) : Bytes := 13 :: line ++ [10, 62]

/-- What is written to the terminal as messages arrive, `line` being `pretty`: those without text are not shown, and
without `-raw` each is shown twice. Code: cmd/textsecure/main.go:232-242. -/
def output (raw : Bool) (line : Item → Bytes) : List Item → Bytes
  | [] => []
  | m :: ms =>
    (if m.text = [] then []
     else printed (line m) ++ (if raw then [] else printed (line m))) ++ output raw line ms

/-- The same with the lines the program writes. Code: cmd/textsecure/main.go:232-242, 288-297. -/
def screen (raw : Bool) (zone : Int → Int) (cs : List Contact) (ms : List Item) : Bytes := output raw (pretty zone cs) ms

end Verif.Shown
