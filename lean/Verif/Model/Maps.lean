/-!
# The maps that all goroutines share (sender.go, server.go, contacts/contacts.go, groups.go)

`deviceLists` (server.go:881), `contacts.Contacts` (contacts/contacts.go:50) and `groups` (groups.go:39) are plain Go
maps without a lock. A Go map must not be written while another goroutine is inside an access to it: the
runtime ends the program when it notices. Here each call is the sequence of its accesses to these maps; an access has
a beginning and an end, and goroutines are interleaved between them. Of the contents only which keys are there is
modelled; an iteration counts as one access. Whatever else a call does is left out, except that what the server answers
is a parameter where it decides about accesses.
-/
namespace Verif.Maps

/-- The shared maps. Code: server.go:881; contacts/contacts.go:50; groups.go:39. -/
inductive Map where
  | devices
  | contacts
  | groups
  deriving DecidableEq, Repr

/-- What a goroutine still does with the maps. Code: server.go:881; contacts/contacts.go:50;
groups.go:39. -/
inductive Prog where
  | done
  | read (m : Map) (key : String) (k : Bool → Prog)
  | write (m : Map) (key : String) (k : Prog)

/-- A goroutine: the access it is inside of (and whether that is a write), and what it still does, that access first.
Code: server.go:881; contacts/contacts.go:50; groups.go:39. -/
structure Thread where
  inside : Option (Map × Bool) := none
  prog : Prog := .done

/-- The keys in the maps, and the goroutines. Code: server.go:881; contacts/contacts.go:50;
groups.go:39. -/
structure State where
  known : Map → String → Bool
  threads : Nat → Thread

/-- A key is there from now on. Code: sender.go:16-18. -/
def withKey (known : Map → String → Bool) (m : Map) (key : String) : Map → String → Bool :=
  fun m' key' => if m' = m ∧ key' = key then true else known m' key'

/-- The next step of one goroutine: an access begins, or ends. Code: sender.go:16-18. -/
def stepThread (known : Map → String → Bool) (t : Thread) : (Map → String → Bool) × Thread :=
  match t.inside, t.prog with
  | _, .done => (known, ⟨none, .done⟩)
  | none, .read m key k => (known, ⟨some (m, false), .read m key k⟩)
  | none, .write m key k => (known, ⟨some (m, true), .write m key k⟩)
  | some _, .read m key k => (known, ⟨none, k (known m key)⟩)
  | some _, .write m key k => (withKey known m key, ⟨none, k⟩)

/-- Goroutine `i` makes a step. Code: sender.go:16-18. -/
def step (s : State) (i : Nat) : State :=
  let r := stepThread s.known (s.threads i)
  { known := r.1, threads := fun j => if j = i then r.2 else s.threads j }

/-- A schedule. Code: sender.go:16-18. -/
def run (s : State) (sched : List Nat) : State := sched.foldl step s

/-! ## The calls -/

/-- What the server answers to a message (server.go:905-950): it was accepted, refused, the devices differ, or some
devices are stale. -/
inductive Answer where
  | accepted
  | refused
  | mismatched
  | stale
  deriving DecidableEq, Repr

/-- `buildAndSendMessage` (server.go:883-950). After the last answer given the request fails. `ok` is what follows if
the message was accepted, `no` if not. -/
def attempts (u : String) (ok no : Prog) : List Answer → Prog
  | [] => .read .devices u fun _ => no
  | .accepted :: _ => .read .devices u fun _ => ok
  | .refused :: _ => .read .devices u fun _ => no
  | .mismatched :: l => .read .devices u fun _ => .read .devices u fun _ => .write .devices u (attempts u ok no l)
  | .stale :: l => .read .devices u fun _ => attempts u ok no l

/-- Looking up the device list and storing the default (sender.go:16-18, 73-75, 107-109), then sending. -/
def deliver (u : String) (answers : List Answer) (ok no : Prog) : Prog :=
  .read .devices u fun there =>
    if there then attempts u ok no answers else .write .devices u (attempts u ok no answers)

/-- `sendMessage` (sender.go:13-62): the message, and a transcript to the own devices if the server asks for one (`sync`
lists what it answers to that). -/
def sendMessage (self u : String) (answers : List Answer) (sync : Option (List Answer)) (ok no : Prog) : Prog :=
  deliver u answers
    (match sync with
     | none => ok
     | some l => deliver self l ok ok) no

/-- One after the other, until one fails (groups.go:277-305, 366-383); `look` is whether the address book is searched for
each member (`GetContactForTel`, groups.go:197-204). -/
def sendAll (self : String) (look : Bool) : List (String × List Answer × Option (List Answer)) → Prog → Prog
  | [], k => k
  | (u, l, y) :: rest, k =>
    let one := sendMessage self u l y (sendAll self look rest k) k
    if look then .read .contacts "" fun _ => one else one

/-- A new map with these keys (server.go:687-711), which is then gone through for the file (contacts/contacts.go:98-113).
The old map is replaced by another one, which counts as a write. -/
def fill : List String → Prog → Prog
  | [], k => .read .contacts "" fun _ => k
  | key :: l, k => .write .contacts key (fill l k)

/-- `GetRegisteredContacts`, the end of it (server.go:687-717). -/
def refresh (keys : List String) (k : Prog) : Prog := .write .contacts "" (fill keys k)

/-- What an application or the listener does. Code: textsecure.go:135-182; groups.go:253-447;
server.go:631-719; sync.go:154-260. -/
inductive Call where
  /-- `SendMessage` and the like (textsecure.go:135-182). -/
  | send (u : String) (answers : List Answer) (sync : Option (List Answer))
  /-- `SendGroupMessage` to a legacy group (groups.go:253-310). -/
  | sendGroup (hexid : String) (members : List (String × List Answer × Option (List Answer)))
  /-- `NewGroup` (groups.go:386-401, 439-447). -/
  | newGroup (hexid : String) (members : List (String × List Answer × Option (List Answer)))
  /-- `GetRegisteredContacts`. -/
  | refresh (keys : List String)
  /-- Received: a text. -/
  | gotText
  /-- Received: a new profile key (textsecure.go:505-511, contacts/contacts.go:163-178). -/
  | gotProfileKey (src : String)
  /-- Received from another own device: a request for the contacts (sync.go:154-212). -/
  | gotContactsRequest (keys : List String) (answers : List Answer)
  /-- Received from another own device: a request for the groups (sync.go:215-260). -/
  | gotGroupsRequest (answers : List Answer)

/-- The accesses of a call, then `k`. Code: textsecure.go:135-182; groups.go:253-447;
server.go:631-719; sync.go:154-260. -/
def prog (self : String) (k : Prog) : Call → Prog
  | .send u l y => sendMessage self u l y k k
  | .sendGroup g ms => .read .groups g fun there => if there then sendAll self true ms k else k
  | .newGroup g ms => .write .groups g (.read .groups g fun _ => .read .groups g fun _ => sendAll self false ms k)
  | .refresh keys => refresh keys k
  | .gotText => k
  | .gotProfileKey src => .read .contacts src fun _ => .write .contacts src (.read .contacts "" fun _ => k)
  | .gotContactsRequest keys l => refresh keys (deliver self l k k)
  | .gotGroupsRequest l => .read .groups "" fun _ => deliver self l k k

/-- A goroutine that makes these calls. Code: textsecure.go:135-182; groups.go:253-447. -/
def calls (self : String) : List Call → Prog
  | [] => .done
  | c :: l => prog self (calls self l) c

/-- Goroutines that have not begun yet. Code: textsecure.go:135-182; websocket.go:144-229. -/
def start (self : String) (known : Map → String → Bool) (ts : Nat → List Call) : State :=
  ⟨known, fun i => ⟨none, calls self (ts i)⟩⟩

end Verif.Maps
