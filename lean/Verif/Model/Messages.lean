import Verif.Model.Wire
import Verif.Model.Cbc
import Verif.Model.Keys
/-!
# Whisper and prekey whisper messages (axolotl/messages.go)
-/
namespace Verif.Messages
open Verif Verif.Wire Verif.Keys

/-- `macLength` (axolotl/messages.go:25). -/
def macLength : Nat := 8

/-- `highBitsToInt` (axolotl/messages.go:29-31). -/
def highBits (b : UInt8) : Nat := b.toNat / 16

/-- `makeVersionByte(v, currentVersion)` (axolotl/messages.go:33-35), `currentVersion = 3`. -/
def versionByte (v : Nat) : UInt8 := UInt8.ofNat (v % 16 * 16 + 3)

/-- `WhisperMessage` (axolotl/messages.go:15-23). -/
structure WhisperMsg where
  version : Nat
  ratchetKey : Bytes
  counter : Nat
  prevCounter : Nat
  ciphertext : Bytes
  serialized : Bytes
  deriving DecidableEq, Repr

/-- `LoadWhisperMessage` (axolotl/messages.go:41-72). `SignalMessage` fields: ratchetKey 1, counter 2,
previousCounter 3, ciphertext 4. -/
def loadWhisper (s : Bytes) : Res WhisperMsg :=
  match s with
  | [] => .err .incompleteWhisper
  | v :: rest =>
    if s.length < 9 then .err .incompleteWhisper
    else if highBits v ≠ 3 then .err .unsupportedVersion
    else
      match decFields (rest.take (rest.length - macLength)) with
      | none => .err .badProto
      | some fs =>
        match getBytes fs 4, getBytes fs 1 with
        | some ct, some rk => do
          let k ← deser rk
          .ok { version := highBits v
                ratchetKey := k
                counter := (getU32 fs 2).getD 0
                prevCounter := (getU32 fs 3).getD 0
                ciphertext := ct
                serialized := s }
        | _, _ => .err .incompleteWhisper

/-- `getMac` (axolotl/messages.go:109-117). -/
def getMac (P : Prims) (version : Nat) (sid rid macKey data : Bytes) : Bytes :=
  Cbc.truncMAC P ((if version ≥ 3 then ser sid ++ ser rid else []) ++ data) macKey macLength

/-- `verifyMAC` (axolotl/messages.go:119-125). -/
def verifyMac (P : Prims) (m : WhisperMsg) (sid rid macKey : Bytes) : Bool :=
  let macpos := m.serialized.length - macLength
  getMac P m.version sid rid macKey (m.serialized.take macpos) == m.serialized.drop macpos

/-- Body of a `SignalMessage`. Code: axolotl/protobuf/WhisperTextProtocol.proto:16-21. -/
def whisperBody (rk : Bytes) (counter prev : Nat) (ct : Bytes) : Bytes :=
  encFields [(1, .len (ser rk)), (2, .varint counter), (3, .varint prev), (4, .len ct)]

/-- `newWhisperMessage` (axolotl/messages.go:74-107); `proto.Marshal` does not fail on this message. -/
def newWhisper (P : Prims) (v : Nat) (macKey rk : Bytes) (counter prev : Nat) (ct sid rid : Bytes) :
    WhisperMsg :=
  let data := versionByte v :: whisperBody rk counter prev ct
  { version := v, ratchetKey := rk, counter := counter, prevCounter := prev, ciphertext := ct
    serialized := data ++ getMac P v sid rid macKey data }

/-- `PreKeyWhisperMessage` (axolotl/messages.go:133-142). -/
structure PreKeyMsg where
  version : Nat
  regId : Nat
  preKeyId : Nat
  signedPreKeyId : Nat
  baseKey : Bytes
  identityKey : Bytes
  message : WhisperMsg
  serialized : Bytes
  deriving DecidableEq, Repr

/-- `LoadPreKeyWhisperMessage` (axolotl/messages.go:148-184): `serialized[0]` panics on empty input.
`PreKeySignalMessage` fields: preKeyId 1, baseKey 2, identityKey 3, message 4, registrationId 5,
signedPreKeyId 6. -/
def loadPreKeyMsg (s : Bytes) : Res PreKeyMsg :=
  match s with
  | [] => .panic
  | v :: rest =>
    if highBits v ≠ 3 then .err .unsupportedVersion
    else
      match decFields rest with
      | none => .err .badProto
      | some fs =>
        match getBytes fs 2, getBytes fs 3, getBytes fs 4 with
        | some bk, some ik, some m =>
          if (getU32 fs 6).getD 0 = 0 then .err .incompletePreKeyWhisper
          else do
            let wm ← loadWhisper m
            let bk ← deser bk
            let ik ← deser ik
            .ok { version := highBits v
                  regId := (getU32 fs 5).getD 0
                  preKeyId := (getU32 fs 1).getD 0
                  signedPreKeyId := (getU32 fs 6).getD 0
                  baseKey := bk
                  identityKey := ik
                  message := wm
                  serialized := s }
        | _, _, _ => .err .incompletePreKeyWhisper

/-- `newPreKeyWhisperMessage` (axolotl/messages.go:186-214): the bytes produced. The Go struct returned
is used only through `serialize()` (axolotl/session.go:560-566). -/
def newPreKeyMsg (v regId preKeyId signedPreKeyId : Nat) (bk ik : Bytes) (wm : WhisperMsg) : Bytes :=
  versionByte v :: encFields
    [(1, .varint preKeyId), (2, .len (ser bk)), (3, .len (ser ik)), (4, .len wm.serialized),
     (5, .varint regId), (6, .varint signedPreKeyId)]

end Verif.Messages
