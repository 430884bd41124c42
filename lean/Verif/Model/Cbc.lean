import Verif.Prims
/-!
# AES-CBC with padding, MACs

Models `axolotl/crypto.go` and the symmetric part of `crypto.go`.
-/
namespace Verif.Cbc
open Verif

/-- `aes.BlockSize`. Code: axolotl/crypto.go:25-43; crypto.go:85-105. -/
def blockSize : Nat := 16

/-- Keys accepted by `aes.NewCipher` (axolotl/crypto.go:26, 47; crypto.go:66, 86). -/
def validKey (key : Bytes) : Bool := key.length == 16 || key.length == 24 || key.length == 32

/-- Padding appended before encryption: axolotl/crypto.go:51-52, crypto.go:71-72. -/
def pad (pt : Bytes) : Bytes :=
  pt ++ List.replicate (blockSize - pt.length % blockSize)
    (UInt8.ofNat (blockSize - pt.length % blockSize))

/-- Bytewise exclusive or, as in CBC mode (`crypto/cipher`). Code: axolotl/crypto.go:25-43, 46-57. -/
def xorB (a b : Bytes) : Bytes := List.zipWith (· ^^^ ·) a b

/-- Split into 16-byte blocks (`CryptBlocks` works blockwise). Code: axolotl/crypto.go:25-43,
46-57. -/
def blocks (b : Bytes) : List Bytes :=
  if b.length = 0 then [] else b.take 16 :: blocks (b.drop 16)
termination_by b.length
decreasing_by simp; omega

/-- `cipher.NewCBCEncrypter(..).CryptBlocks` (axolotl/crypto.go:54-55, crypto.go:78-79). -/
def cbcEnc (P : Prims) (key : Bytes) : Bytes → List Bytes → List Bytes
  | _, [] => []
  | iv, b :: bs =>
    let c := P.aesEnc key (xorB b iv)
    c :: cbcEnc P key c bs

/-- `cipher.NewCBCDecrypter(..).CryptBlocks` (axolotl/crypto.go:36-37, crypto.go:98-99). -/
def cbcDec (P : Prims) (key : Bytes) : Bytes → List Bytes → List Bytes
  | _, [] => []
  | iv, c :: cs => xorB (P.aesDec key c) iv :: cbcDec P key c cs

/-- `axolotl.Encrypt` (axolotl/crypto.go:46-57). `NewCBCEncrypter` panics on an IV of the wrong
length. -/
def Encrypt (P : Prims) (key iv pt : Bytes) : Res Bytes :=
  if validKey key = false then .err .badKeySize
  else if iv.length ≠ blockSize then .panic
  else .ok (cbcEnc P key iv (blocks (pad pt))).flatten

/-- Padding removal of `axolotl.Decrypt` (axolotl/crypto.go:38-42) on the decrypted text `pt`, which
still starts with the decrypted IV block. The last byte is the pad length; only `pad > 16` is refused
(a pad of 0 and inconsistent pad bytes are accepted). `pt[len-1]` panics on empty input, and so does
slicing `[16 : len-pad]` when `len - pad < 16`. -/
def unpad (pt : Bytes) : Res Bytes :=
  match pt.getLast? with
  | none => .panic
  | some p =>
    if p.toNat > blockSize then .err .badPad
    else if pt.length - p.toNat < blockSize then .panic
    else .ok ((pt.take (pt.length - p.toNat)).drop blockSize)

/-- `axolotl.Decrypt` (axolotl/crypto.go:25-43): the input starts with the IV block, which is itself
run through the decrypter and dropped. -/
def Decrypt (P : Prims) (key ct : Bytes) : Res Bytes :=
  if validKey key = false then .err .badKeySize
  else if ct.length % blockSize ≠ 0 then .err .notBlockMultiple
  else unpad (cbcDec P key (ct.take blockSize) (blocks ct)).flatten

/-- `aesEncrypt` (crypto.go:65-82); the random IV is the argument `iv` (16 bytes). -/
def aesEncrypt (P : Prims) (key iv pt : Bytes) : Res Bytes := do
  let c ← Encrypt P key iv pt
  .ok (iv ++ c)

/-- `aesDecrypt` (crypto.go:85-105): same statements as `axolotl.Decrypt`. -/
def aesDecrypt (P : Prims) (key ct : Bytes) : Res Bytes := Decrypt P key ct

/-- `appendMAC` (crypto.go:45-49). -/
def appendMAC (P : Prims) (key b : Bytes) : Bytes := b ++ P.hmac key b

/-- `verifyMAC` (crypto.go:52-56). -/
def verifyMAC (P : Prims) (key b mac : Bytes) : Bool := P.hmac key b == mac

/-- `ComputeTruncatedMAC` (axolotl/crypto.go:66-70) for sizes up to 32. -/
def truncMAC (P : Prims) (msg key : Bytes) (size : Nat) : Bytes := (P.hmac key msg).take size

/-- `ValidTruncMAC` (axolotl/crypto.go:60-63) for MACs up to 32 bytes. -/
def validTruncMAC (P : Prims) (msg mac key : Bytes) : Bool := truncMAC P msg key mac.length == mac

end Verif.Cbc
