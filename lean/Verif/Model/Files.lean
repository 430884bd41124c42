import Verif.Model.Cbc
import Verif.Model.Keys
import Verif.Model.Wire
/-!
# Uses of symmetric encryption: stored files, attachments, provisioning, transport, padding
-/
namespace Verif.Files
open Verif Verif.Cbc

/-! ## Encrypted store files (store.go) -/

/-- The fields of `store` used for file encryption (store.go:24-40). -/
structure StoreKeys where
  unencrypted : Bool
  aesKey : Bytes
  macKey : Bytes

/-- `genKeys` (store.go:125-129): `derived` is the 36-byte PBKDF2 output, which is a parameter. -/
def genKeys (derived : Bytes) : StoreKeys := ⟨false, derived.take 16, derived.drop 16⟩

/-- `store.encrypt` (store.go:131-142); `iv` is the random IV drawn by `aesEncrypt`. -/
def storeEncrypt (P : Prims) (s : StoreKeys) (iv pt : Bytes) : Res Bytes :=
  if s.unencrypted then .ok pt
  else do
    let e ← aesEncrypt P s.aesKey iv pt
    .ok (appendMAC P s.macKey e)

/-- `store.decrypt` (store.go:148-161): `ciphertext[:macPos]` panics when `macPos < 0`. -/
def storeDecrypt (P : Prims) (s : StoreKeys) (ct : Bytes) : Res Bytes :=
  if s.unencrypted then .ok ct
  else if ct.length < 32 then .panic
  else
    let macPos := ct.length - 32
    if verifyMAC P s.macKey (ct.take macPos) (ct.drop macPos) = false then .err .storeBadMac
    else aesDecrypt P s.aesKey (ct.take macPos)

/-! ## Attachments (attachments.go) -/

/-- What `uploadAttachmentV3` uploads and returns (attachments.go:61-89; digest: 41-53). `keys` is the
random 64-byte key, `iv` the random IV. HTTP errors are not modelled here. -/
structure Uploaded where
  blob : Bytes
  keys : Bytes
  digest : Bytes
  size : Nat
  deriving DecidableEq, Repr

/-- The blob, keys, digest and size of an attachment. Code: attachments.go:61-89. -/
def uploadAttachment (P : Prims) (keys iv b : Bytes) : Res Uploaded := do
  let e ← aesEncrypt P (keys.take 32) iv b
  let m := appendMAC P (keys.drop 32) e
  .ok ⟨m, keys, P.sha256 m, b.length % u32⟩

/-- `handleSingleAttachment` after the download (attachments.go:109-121): `key[32:]` panics for keys
shorter than 32 bytes, `b[:l]` for blobs shorter than 32 bytes. The digest is not checked (line 123).
Slicing `Key[:32]` cannot fail once `Key[32:]` succeeded. -/
def handleSingleAttachment (P : Prims) (key b : Bytes) : Res Bytes :=
  if b.length < 32 then .panic
  else if key.length < 32 then .panic
  else
    let l := b.length - 32
    if verifyMAC P (key.drop 32) (b.take l) (b.drop l) = false then .err .badMac
    else aesDecrypt P (key.take 32) (b.take l)

/-- `handleProfileAvatar` after the download (attachments.go:145-156): here the MAC is taken to be the
last 16 bytes. -/
def handleProfileAvatar (P : Prims) (key b : Bytes) : Res Bytes :=
  if b.length < 16 then .panic
  else if key.length < 16 then .panic
  else
    let l := b.length - 16
    if verifyMAC P (key.drop 16) (b.take l) (b.drop l) = false then .err .badMac
    else aesDecrypt P (key.take 16) (b.take l)

/-- `handleAttachments` (attachments.go:161-176): all or nothing, in order. `fetch` is the download of
each pointer (`getAttachmentLocation` + `getAttachment`). -/
def handleAttachments (P : Prims) (fetch : α → Res Bytes) (keyOf : α → Bytes) :
    List α → Res (List Bytes)
  | [] => .ok []
  | a :: as => do
    let b ← fetch a
    let p ← handleSingleAttachment P (keyOf a) b
    let ps ← handleAttachments P fetch keyOf as
    .ok (p :: ps)

/-! ## Provisioning (crypto.go:131-169) -/

/-- `provisioningCipher`: `r` the 32 random bytes of the ephemeral key pair, `iv` the random IV,
`message` the marshalled `ProvisionMessage`, `theirPub` the new device's key. The result is the
marshalled `ProvisionEnvelope` (publicKey = 1, body = 2). Code: crypto.go:131-169. -/
def provisioningCipher (P : Prims) (r iv message theirPub : Bytes) : Res Bytes := do
  let our := Keys.newPair P r
  let shared := P.dh our.priv theirPub
  let derived := P.hkdf shared [] (Keys.ascii "TextSecure Provisioning Message") 64
  let ct ← aesEncrypt P (derived.take 32) iv message
  let mac := P.hmac (derived.drop 32) (1 :: ct)
  let body := 1 :: ct ++ mac
  .ok (Wire.encFields [(1, .len (Keys.ser our.pub)), (2, .len body)])

/-! ## Websocket transport layer (textsecure.go:528-553) -/

/-- `decryptReceivedMessage`: a message whose 10-byte MAC does not verify is returned unchanged
(lines 535-544). `msg[macpos:]` panics for fewer than 10 bytes, the signaling key is sliced at 32, and
`msg[1:macpos]` panics when `macpos = 0`. Code: textsecure.go:528-553. -/
def decryptReceivedMessage (P : Prims) (signalingKey msg : Bytes) : Res Bytes :=
  if msg.length < 10 then .panic
  else if signalingKey.length < 32 then .panic
  else
    let macpos := msg.length - 10
    if validTruncMAC P (msg.take macpos) (msg.drop macpos) (signalingKey.drop 32) = false then .ok msg
    else if macpos = 0 then .panic
    else Decrypt P (signalingKey.take 32) ((msg.take macpos).drop 1)

/-! ## Traffic padding (server.go:795-811) -/

/-- `padMessage` (server.go:795-802). -/
def padMessage (msg : Bytes) : Bytes :=
  let l := msg.length + 160
  let l := l - l % 160
  ((msg ++ List.replicate (l - msg.length) 0).set msg.length 0x80)

/-- `stripPadding` (server.go:804-811): index loop from the end for the last 0x80. -/
def stripFrom (msg : Bytes) : Nat → Bytes
  | 0 => msg
  | i + 1 => if msg[i]? = some 0x80 then msg.take i else stripFrom msg i

/-- Removing the padding of a message. Code: server.go:804-811. -/
def stripPadding (msg : Bytes) : Bytes := stripFrom msg msg.length

end Verif.Files
