import Verif.Model.Api
/-!
# What sending changes

The stores, the device lists and the requests: the state of `Model/Send`, also reached from the receive path
(`Model/Receive`) when a message is answered.
-/
namespace Verif.Send
open Verif Verif.Api

/-- `jsonMessage` (server.go:741-747); `content` is base64 text. -/
structure JMsg where
  type : Nat
  dev : Nat
  regId : Nat
  content : Bytes
  deriving DecidableEq, Repr

/-- A request: destination, timestamp, messages. Code: server.go:741-747, 883-956. -/
structure Request where
  dest : String
  ts : Nat
  msgs : List JMsg
  deriving DecidableEq, Repr

/-- State: the stores, `deviceLists`, and the requests made. Code: server.go:881. -/
structure State where
  store : Store
  devices : String → Option (List Nat)
  log : List Request

end Verif.Send
