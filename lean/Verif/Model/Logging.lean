import Verif.Model.Content
/-!
# What of received messages goes to the log (textsecure.go:235-260, 640-672; handler.go:11-39)

Only the lines written on the way from the decrypted message to its handler are modelled, not those of the handlers
themselves.
-/
namespace Verif.Logging
open Verif

/-- The levels of the logger that are used (textsecure.go:243-254), the most urgent first. -/
inductive Level where
  | error
  | warn
  | info
  | debug
  deriving DecidableEq, Repr

/-- How verbose a level is: a logger set to a level writes the lines up to it (logrus). Code: textsecure.go:243-254. -/
def Level.rank : Level → Nat
  | .error => 2
  | .warn => 3
  | .info => 4
  | .debug => 5

/-- `setupLogging` (textsecure.go:237-254): `cfg` is `loglevel` of the configuration, `env` is `TEXTSECURE_LOGLEVEL`, empty if not
set. Simplified: `ToUpper` changes ASCII letters only; others make no further name of a level but that of the default. -/
def setupLogging (cfg env : String) : Level :=
  let name := if cfg = "" ∨ env ≠ "" then env else cfg
  if name.toUpper = "DEBUG" then .debug
  else if name.toUpper = "INFO" then .info
  else if name.toUpper = "WARN" then .warn
  else if name.toUpper = "ERROR" then .error
  else .info

/-- What a line shows apart from fixed text, lengths, the own identity and errors of the parser. Code: textsecure.go:640-672;
handler.go:11-39. -/
inductive Shows where
  | nothing
  | sender (uuid : String)
  | contents (b : Bytes)     -- the whole of the decrypted contents
  deriving DecidableEq, Repr

/-- A line. Code: textsecure.go:640-672; handler.go:11-39. -/
structure Line where
  level : Level
  shows : Shows
  deriving DecidableEq, Repr

/-- The lines of `handleMessage` (handler.go:11-39) for the contents `b`. -/
def handleMessage (b : Bytes) : List Line :=
  match Content.parseContent b with
  | none => [⟨.error, .nothing⟩]
  | some c =>
    ⟨.debug, .nothing⟩ ::
      if c.data.isSome then []
      else if c.sync.isSome then []
      else if c.call.isSome then []
      else if c.receipt.isSome then []
      else if c.typing then []
      else if c.null then [⟨.error, .contents b⟩]
      else [⟨.error, .contents b⟩]

/-- The lines for a sealed message that the companion has opened (textsecure.go:640-667): `oldKey` is whether the signaling
key has a wrong version. -/
def sealedMessage (oldKey : Bool) (uuid : String) (b : Bytes) : List Line :=
  (if oldKey then [⟨.error, .nothing⟩] else []) ++
    [⟨.debug, .nothing⟩, ⟨.info, .sender uuid⟩, ⟨.debug, .nothing⟩] ++ if b = [] then [] else handleMessage b

/-- The lines that are written at a level (logrus). Code: textsecure.go:243-254. -/
def written (l : Level) (ls : List Line) : List Line := ls.filter (fun x => x.level.rank ≤ l.rank)

end Verif.Logging
