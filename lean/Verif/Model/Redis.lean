import Verif.Model.Gateway
import Verif.Model.Logging
/-!
# Publishing what arrives (cmd/textsecure/main.go:146-158, 260-264)
-/
namespace Verif.Redis
open Verif
open Verif.Gateway (Flags Msg Act messageHandler)

/-- A line of the program's log: its level, and the addressee and text it shows, if any. Code:
cmd/textsecure/main.go:156, 261. -/
structure Line where
  level : Logging.Level
  shows : Option (Bytes × Bytes) := none
  deriving DecidableEq, Repr

/-- What the channel `messages` has received, the clients of redis that were made and not closed (each keeps a goroutine for
its idle connections), and the log. Code: cmd/textsecure/main.go:146-158. -/
structure World where
  channel : List (Bytes × Bytes) := []
  clients : Nat := 0
  log : List Line := []
  deriving DecidableEq, Repr

/-- `sendMessageToRedis` (cmd/textsecure/main.go:146-158). `up`: whether redis can be reached; the error is in the result of
`Publish`, which nobody looks at. Simplified: the JSON of a text is the text (one that is not UTF-8 is changed). -/
def sendMessageToRedis (up : Bool) (dest text : Bytes) (w : World) : World where
  channel := if up then w.channel ++ [(dest, text)] else w.channel
  clients := w.clients + 1
  log := w.log ++ [{ level := .debug }]

/-- One of the effects of `messageHandler`; only that of lines 260-264 is followed further. Code:
cmd/textsecure/main.go:260-264. -/
def perform (up : Bool) (w : World) : Act → World
  | .publish dest text =>
    sendMessageToRedis up dest text { w with log := w.log ++ [{ level := .info, shows := some (dest, text) }] }
  | _ => w

/-- Messages that arrive, each with whether redis can be reached by then: the peer and the world afterwards. Code:
cmd/textsecure/main.go:218-265. -/
def run (F : Flags) : Bytes → World → List (Msg × Bool) → Bytes × World
  | peer, w, [] => (peer, w)
  | peer, w, (m, up) :: ms =>
    let r := messageHandler F peer m
    run F r.1 (r.2.foldl (perform up) w) ms

end Verif.Redis
