import Verif.Model.GroupTalk
import Verif.Model.Http
/-!
# Files sent to a group (groups.go:253-268, 312-330)
-/
namespace Verif.GroupAttach
open Verif Verif.Http Verif.GroupStore

variable {W : Type}

/-- `SendGroupAttachment` (groups.go:313-320) and `SendGroupVoiceNote` (groups.go:323-330) to a group that is not
among those of the old kind (groups.go:253-265): the client's groups afterwards, the messages handed to `sendMessage`,
each with the pointer to the file if there is one, and the result. Whatever `sendGroupV2Helper` reports becomes one
error. `ct` is what `mimemagic` finds in the first 1024 bytes. Groups of the old kind are `GroupsV1.sendGroup`. -/
def sendGroupAttachment (P : Prims) (serve : Serve W) (J : Json) (T : Transports) (Z : Zk) (E : Env)
    (net : Nat → Res Nat) (now : Nat) (voice : Bool) (keys iv k msg : Bytes) (src : Option Bytes) (ct : Bytes)
    (timer : Nat) (n : St W) (w : GroupStore.World) :
    St W × GroupStore.World × List Send.OutMsg × Res Nat :=
  let u := if voice then uploadVoiceNote P serve J T keys iv src ct else upload P serve J T keys iv src ct false
  match u n with
  | (n', .ok a) =>
    let r := GroupStore.send Z E net now k msg timer w
    (n', r.1, r.2.1.map (GroupTalk.outMsg (some a)), match r.2.2 with
      | .ok t => .ok t
      | .err _ => .err .other
      | .panic => .panic)
  | (n', .err e) => (n', w, [], .err e)
  | (n', .panic) => (n', w, [], .panic)

end Verif.GroupAttach
