import Verif.Spec.Conversation
/-!
# Two clients that begin a session with each other at the same time

Each has a setup of its own: in `S` Alice begins, in `S'` Bob does. The stores are the same.
-/
namespace Verif.Crossing
open Verif Verif.Keys Verif.Messages Verif.Session Verif.Api Verif.Names Verif.Conv

/-- `S` and `S'` are about the same two clients, with the roles exchanged. -/
structure Mirror (S S' : Setup) : Prop where
  nameI : S'.nameI = S.nameR
  devI : S'.devI = S.devR
  nameR : S'.nameR = S.nameI
  devR : S'.devR = S.devI
  initiator : S'.initiator = S.responder
  responder : S'.responder = S.initiator

/-- Alice and Bob both build a session from the other's bundle and send a first message. -/
def begun (P : Prims) (S : Setup) (pt : Bytes) : World := ((World.init P S).step P S (.send false pt)).1

/-- Then both first messages arrive: what Alice and Bob read, and the world of `S'` afterwards (Bob is its
initiator). -/
def meet (P : Prims) (S S' : Setup) (ptA ptB : Bytes) (rA rB : Nat → Bytes) : World × Got × Got :=
  let a := begun P S ptA
  let b := begun P S' ptB
  let atA := World.step P S' { I := b.I, R := a.I, wire := b.wire } (.deliver 0 rA)
  let atB := World.step P S { I := a.I, R := b.I, wire := a.wire } (.deliver 0 rB)
  ({ I := atB.1.R, R := atA.1.R, wire := b.wire }, atA.2, atB.2)

/-- The current session of the initiator refuses the message number `i`. -/
def Refuses (P : Prims) (S : Setup) (r : Bytes) (w : World) (i : Nat) : Prop :=
  ∀ sr who b ty m, w.I.sessions (sessName S.nameR S.devR) = .good sr → w.wire[i]? = some (who, b, ty) →
    loadWhisper b = .ok m → ∃ e, (decryptState P r sr.cur m).2 = .err e

/-- No message of the schedule is one that must not be read: a duplicate, one too far ahead or one of a forgotten
epoch. -/
def AllRead (a : Abs) (evs : List Ev) : Prop := ∀ x ∈ wants a evs, x ≠ .refused ∧ x ≠ .stale

end Verif.Crossing
