import Verif.Spec.StartOver
/-!
# Messages to be refused, with older sessions about
-/
namespace Verif.OldSessions
open Verif Verif.Keys Verif.Messages Verif.Session Verif.Api Verif.Names Verif.Conv

/-- The message inside a received byte string. -/
def inner (b : Bytes) : MsgType → Res WhisperMsg
  | .whisper => loadWhisper b
  | .prekey => match loadPreKeyMsg b with
    | .ok m => .ok m.message
    | .err e => .err e
    | .panic => .panic

/-- The sessions a client has with another besides the new one; `begun` says whether it has the new one. -/
def older (begun : Bool) (st : Store) (rec : String) (dev : Nat) : List SState :=
  match st.sessions (sessName rec dev) with
  | .good r => if begun then r.prev else r.cur :: r.prev
  | _ => []

/-- None of the receiver's older sessions opens the message delivered. -/
def Shut (P : Prims) (S : Setup) (a : Abs) (w : World) : Ev → Prop
  | .send _ _ => True
  | .deliver i rnd => ∀ who b ty m, w.wire[i]? = some (who, b, ty) → inner b ty = .ok m →
    ∀ s ∈ (if who then older true w.I S.nameR S.devR else older (decide (a.lvR ≠ 0)) w.R S.nameI S.devI),
      ∀ k, ∃ e, (decryptState P (rnd k) s m).2 = .err e

/-- No message to be refused, a duplicate, one too far ahead or one of a forgotten epoch, is opened by an older session
of its receiver. -/
def AllShut (P : Prims) (S : Setup) : Abs → World → List Ev → Prop
  | _, _, [] => True
  | a, w, ev :: evs =>
    (a.want ev = .refused ∨ a.want ev = .stale → Shut P S a w ev) ∧ AllShut P S (a.step ev) (w.step P S ev).1 evs

end Verif.OldSessions
