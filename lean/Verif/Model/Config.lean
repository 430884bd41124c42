import Verif.Bytes
/-!
# The configuration (config.go, config/config.go, profile.go) and the authority of the server (rootCa/rootca.go)

YAML is a parameter. The fields of the configuration that no property mentions are one field, `rest`.
-/
namespace Verif.Config
open Verif

/-- `Config` (config/config.go:4-32). -/
structure Config where
  tel : String := ""
  uuid : String := ""
  server : String := ""
  rootCA : String := ""
  verificationType : String := ""
  storageDir : String := ""
  name : String := ""
  profileKey : Bytes := []
  credential : Bytes := []
  certificate : Bytes := []
  capabilities : Nat := 0
  rest : Bytes := []
  deriving DecidableEq, Repr

/-- `yaml.Marshal` and `yaml.Unmarshal` into an empty configuration. Code: config.go:39-52, 55-61. -/
structure Yaml where
  marshal : Config → Option Bytes
  unmarshal : Bytes → Option Config
  /-- A configuration that was written is read as it was. -/
  round : ∀ c b, marshal c = some b → unmarshal b = some c
  /-- An empty document sets nothing. -/
  empty : unmarshal [] = some {}

/-- Files: path and contents. Code: config.go:39-52, 55-61. -/
abbrev Files := String → Option Bytes

/-- One file gets new contents. Code: config.go:55-61. -/
def Files.set (fs : Files) (f : String) (b : Bytes) : Files := fun g => if g = f then some b else fs g

/-- What the operating system does with one write: whether the file can be opened, and how many bytes are
written before the disk is full or the power fails (`none`: all). Code: config.go:55-61. -/
structure Outcome where
  opens : Bool := true
  bytes : Option Nat := none
  deriving DecidableEq, Repr

/-- `ioutil.WriteFile`: the file is emptied when it is opened, then written. The empty path cannot be opened.
Code: config.go:55-61. -/
def writeFile (fs : Files) (f : String) (b : Bytes) (o : Outcome) : Files × Res Unit :=
  if f = "" ∨ o.opens = false then (fs, .err .storeWrite)
  else
    let n := o.bytes.getD b.length
    (fs.set f (b.take n), if n < b.length then .err .storeWrite else .ok ())

/-- `WriteConfig` (config.go:55-61). -/
def writeConfig (Y : Yaml) (fs : Files) (f : String) (c : Config) (o : Outcome) : Files × Res Unit :=
  match Y.marshal c with
  | none => (fs, .err .other)
  | some b => writeFile fs f b o

/-- How the application answers `GetConfig`: with `ReadConfig` of a file, as cmd/textsecure/main.go:136-138 does,
or with a configuration of its own (the same one each time; an application that hands out a pointer it keeps is not
modelled). -/
inductive App where
  | file (path : String)
  | own (c : Config)
  deriving DecidableEq, Repr

/-- The files, and of the running program the variable `configFile` (config.go:15) and `config.ConfigFile`. -/
structure Sys where
  files : Files
  configFile : String := ""
  mem : Option Config := none

/-- `ReadConfig` (config.go:39-52): the new value of `configFile`, and the result. -/
def readConfig (Y : Yaml) (fs : Files) (cf f : String) : String × Res Config :=
  match fs f with
  | none => (cf, .err .storeRead)
  | some b =>
    match Y.unmarshal b with
    | none => (f, .err .other)
    | some c => (f, .ok c)

/-- The defaults of `loadConfig` (config.go:92-102). -/
def defaults (c : Config) : Config :=
  let c := if c.server = "" then { c with server := "https://chat.signal.org:443" } else c
  let c := if c.verificationType = "" then { c with verificationType := "sms" } else c
  if c.storageDir = "" then { c with storageDir := ".storage" } else c

/-- `loadConfig` (config.go:84-105). -/
def loadConfig (Y : Yaml) (app : App) (s : Sys) : String × Res Config :=
  match app with
  | .own c => (s.configFile, .ok (defaults c))
  | .file f =>
    match readConfig Y s.files s.configFile f with
    | (cf, .ok c) => (cf, .ok (defaults c))
    | (cf, .err e) => (cf, .err e)
    | (cf, .panic) => (cf, .panic)

/-- `saveConfig` (config.go:63-72). -/
def saveConfig (Y : Yaml) (s : Sys) (c : Config) (o : Outcome) : Sys × Res Unit :=
  let r := writeConfig Y s.files s.configFile c o
  ({ s with files := r.1 }, r.2)

/-- `RefreshConfig` (config.go:73-80); it returns nothing. -/
def refreshConfig (Y : Yaml) (app : App) (s : Sys) (o : Outcome) : Sys :=
  match loadConfig Y app s with
  | (cf, .ok c) => (saveConfig Y { s with configFile := cf } c o).1
  | (cf, _) => { s with configFile := cf }

/-- The changes that are followed by `saveConfig`. Code: textsecure.go:398-468, 263-376. -/
inductive Change where
  | registered (tel uuid name : String)  -- textsecure.go:424-437
  | profileKey (k : Bytes)               -- textsecure.go:328, 341, 457
  | name (n : String)                    -- textsecure.go:334, profile.go:6-9
  | certificate (c : Bytes)              -- textsecure.go:383
  | credential (c : Bytes)               -- textsecure.go:368
  | capabilities (n : Nat)               -- server.go:358
  deriving DecidableEq, Repr

/-- The assignments of these lines. The capabilities after registration are a constant, here 1.
Code: textsecure.go:398-468, 263-376. -/
def Change.apply : Change → Config → Config
  | .registered t u n, c => { c with tel := t, uuid := u, name := n, capabilities := 1 }
  | .profileKey k, c => { c with profileKey := k }
  | .name n, c => { c with name := n }
  | .certificate b, c => { c with certificate := b }
  | .credential b, c => { c with credential := b }
  | .capabilities n, c => { c with capabilities := n }

/-- One of these changes with its `saveConfig`. Without a configuration the assignment crashes. Only
`registerDevice` (textsecure.go:437-440) looks at the error of `saveConfig`. -/
def change (Y : Yaml) (s : Sys) (c : Change) (o : Outcome) : Sys × Res Unit :=
  match s.mem with
  | none => (s, .panic)
  | some m =>
    let m' := c.apply m
    let r := saveConfig Y { s with mem := some m' } m' o
    match c with
    | .registered .. => r
    | _ => (r.1, .ok ())

/-- What happens to the configuration. Code: config.go:84-105, 63-72. -/
inductive Ev where
  | load                            -- textsecure.go:267, 401
  | change (c : Change) (o : Outcome)
  | refresh (o : Outcome)
  | restart                         -- the program ends and is started again
  | edit (f : String) (b : Bytes)   -- the user edits a file
  deriving DecidableEq, Repr

/-- Loading stores the result, or nil if there was an error (textsecure.go:267, 401). -/
def load (Y : Yaml) (app : App) (s : Sys) : Sys × Res Unit :=
  match loadConfig Y app s with
  | (cf, .ok c) => ({ s with configFile := cf, mem := some c }, .ok ())
  | (cf, .err e) => ({ s with configFile := cf, mem := none }, .err e)
  | (cf, .panic) => ({ s with configFile := cf, mem := none }, .panic)

/-- One event. The variables are lost when the program ends. Code: config.go:84-105, 63-72. -/
def step (Y : Yaml) (app : App) (s : Sys) : Ev → Sys × Res Unit
  | .load => load Y app s
  | .change c o => change Y s c o
  | .refresh o => (refreshConfig Y app s o, .ok ())
  | .restart => ({ files := s.files }, .ok ())
  | .edit f b => ({ s with files := s.files.set f b }, .ok ())

/-- Events one after the other. Code: config.go:84-105, 63-72. -/
def run (Y : Yaml) (app : App) (s : Sys) (evs : List Ev) : Sys := evs.foldl (fun s e => (step Y app s e).1) s

/-! ## The authority (rootCa/rootca.go) -/

/-- What the library and the system offer. `certs` are the certificates `AppendCertsFromPEM` finds in a text;
`verifies` is the verification of the chain a server presents for a host against a set of authorities.
Code: rootCa/rootca.go:81-102. -/
structure Tls (Cert Chain : Type) where
  certs : Bytes → List Cert
  verifies : List Cert → String → Chain → Bool
  /-- The authorities of the operating system. -/
  system : List Cert
  /-- `rootPEM` and `directoryPEM` (rootCa/rootca.go:13-78). -/
  rootPEM : Bytes
  directoryPEM : Bytes

/-- A file as `SetupCA` meets it: not there, there but unreadable, or readable. Code:
rootCa/rootca.go:81-102. -/
inductive CaFile where
  | absent
  | unreadable
  | text (b : Bytes)
  deriving DecidableEq, Repr

/-- `RootCA` and `DirectoryCA` (rootCa/rootca.go:79-80); `none` is nil. -/
structure Pools (Cert : Type) where
  root : Option (List Cert) := none
  directory : Option (List Cert) := none

/-- `SetupCA` (rootCa/rootca.go:82-102). -/
def setupCA {Cert Chain : Type} (T : Tls Cert Chain) (disk : String → CaFile) (rootca : String) (p : Pools Cert) :
    Pools Cert :=
  let use (pem : Bytes) : Pools Cert := ⟨some (T.certs pem), some (T.certs T.directoryPEM)⟩
  if rootca = "" then use T.rootPEM
  else match disk rootca with
    | .absent => use T.rootPEM
    | .unreadable => p
    | .text b => use b

/-- The handshake of Go with `RootCAs`: without a pool the authorities of the system count. Code:
rootCa/rootca.go:81-102; websocket.go:46-75. -/
def accepts {Cert Chain : Type} (T : Tls Cert Chain) (pool : Option (List Cert)) (host : String) (c : Chain) : Bool :=
  T.verifies (pool.getD T.system) host c

/-- `connect` (websocket.go:46-75): whether the connection that carries the password is made. -/
def connects {Cert Chain : Type} (T : Tls Cert Chain) (p : Pools Cert) (host : String) (c : Chain) : Bool :=
  accepts T p.root host c

end Verif.Config
