/-!
# Byte strings and Go outcomes

Shared vocabulary of the model. A Go `[]byte` is a `List UInt8`; `nil` and the empty slice are
identified unless a definition says otherwise. A Go call has one of three outcomes: a value, an
`error`, or a panic (index out of range, nil dereference, explicit `panic`).
-/
namespace Verif

abbrev Bytes := List UInt8

/-- Error values returned by the modelled code. Each constructor names the Go error it stands for;
error texts are not modelled. -/
inductive Err where
  | incompleteWhisper        -- axolotl/messages.go:38
  | incompletePreKeyWhisper  -- axolotl/messages.go:145
  | unsupportedVersion       -- axolotl/session.go:356
  | mismatchedVersion        -- axolotl/session.go:589
  | uninitialized            -- axolotl/session.go:585
  | duplicate                -- axolotl/session.go:733
  | tooFarAhead              -- axolotl/session.go:750
  | invalidMac               -- axolotl/session.go:599
  | invalidMessage           -- axolotl/session.go:602
  | notTrusted               -- axolotl/session.go:346
  | preKeyNotFound           -- axolotl/session.go:365
  | signedPreKeyNotFound     -- store.go: LoadSignedPreKey
  | invalidSignature         -- axolotl/session.go:434
  | notBlockMultiple         -- axolotl/crypto.go:33 / crypto.go
  | badPad                   -- axolotl/crypto.go:40 / crypto.go
  | badKeySize               -- aes.NewCipher
  | badProto                 -- proto.Unmarshal
  | storeWrite               -- a failing file write
  | storeRead                -- a failing file read
  | storeBadMac              -- store.go: ErrStoreBadMAC
  | badMac                   -- crypto.go / attachments.go MAC mismatch
  | badEncoding              -- base64/hex decoding
  | forbidden                -- groupsv2 permission failures
  | invalidRequest           -- groupsv2 malformed or conflicting actions
  | http                     -- an HTTP status outside 2xx
  | handler                  -- an error reported while handling a decrypted message
  | other
  deriving DecidableEq, Repr

/-- Outcome of a Go call. -/
inductive Res (α : Type) where
  | ok (a : α)
  | err (e : Err)
  | panic
  deriving DecidableEq, Repr

namespace Res

def bind {α β : Type} (x : Res α) (f : α → Res β) : Res β :=
  match x with
  | ok a => f a
  | err e => err e
  | panic => panic

instance : Monad Res where
  pure := ok
  bind := bind

@[simp] theorem pure_eq {α : Type} (a : α) : (pure a : Res α) = ok a := rfl
@[simp] theorem ok_bind {α β : Type} (a : α) (f : α → Res β) : (ok a >>= f) = f a := rfl
@[simp] theorem err_bind {α β : Type} (e : Err) (f : α → Res β) : ((err e : Res α) >>= f) = err e := rfl
@[simp] theorem panic_bind {α β : Type} (f : α → Res β) : ((panic : Res α) >>= f) = panic := rfl

def isOk {α : Type} : Res α → Bool
  | ok _ => true
  | _ => false

def isErr {α : Type} : Res α → Bool
  | err _ => true
  | _ => false

theorem bind_eq_ok {α β : Type} {x : Res α} {f : α → Res β} {b : β} :
    (x >>= f) = ok b ↔ ∃ a, x = ok a ∧ f a = ok b := by
  cases x <;> simp

end Res

/-- Number of values of a Go `uint32`. -/
def u32 : Nat := 4294967296

end Verif
