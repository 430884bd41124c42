import Verif.Model.Sign
import Verif.Proof.Wire
import Mathlib.Algebra.Group.Basic
import Mathlib.Algebra.Module.NatInt
import Mathlib.Tactic.Abel
/-!
# Signatures: C35
-/
namespace Verif.Props.Sign
open Verif Verif.Sign

variable {P : Prims}

theorem leBytes_length (k n : Nat) : (leBytes k n).length = k := by
  induction k generalizing n with
  | zero => rfl
  | succ k ih => simp [leBytes, ih]

theorem leNat_leBytes (k n : Nat) (h : n < 256 ^ k) : leNat (leBytes k n) = n := by
  induction k generalizing n with
  | zero => simp at h; subst h; rfl
  | succ k ih =>
    rw [leBytes, leNat, ih (n / 256) (by rw [Nat.pow_succ] at h; omega),
      Wire.toNat_ofNat_lt _ (Nat.mod_lt _ (by decide))]
    omega

theorem leNat_ge (l : Bytes) (i : Nat) (b : UInt8) (h : l[i]? = some b) : b.toNat * 256 ^ i ≤ leNat l := by
  induction l generalizing i with
  | nil => simp at h
  | cons x l ih =>
    cases i with
    | zero => simp at h; subst h; simp [leNat]
    | succ i =>
      simp at h
      have := ih i h
      rw [leNat, Nat.pow_succ]
      have e : b.toNat * (256 ^ i * 256) = 256 * (b.toNat * 256 ^ i) := by
        rw [Nat.mul_comm (256 ^ i), ← Nat.mul_assoc, Nat.mul_comm b.toNat, Nat.mul_assoc]
      omega

theorem top_small (n : Nat) (h : n < 2 ^ 253) : (leBytes 32 n).getD 31 0 < 32 := by
  obtain ⟨b, hb⟩ : ∃ b, (leBytes 32 n)[31]? = some b := by
    have := leBytes_length 32 n
    exact ⟨(leBytes 32 n)[31], List.getElem?_eq_getElem (by omega)⟩
  have h1 := leNat_ge _ _ _ hb
  rw [leNat_leBytes 32 n (by
    have : (2:Nat) ^ 253 ≤ 256 ^ 32 := by decide
    omega)] at h1
  rw [List.getD_eq_getElem?_getD, hb]
  simp only [Option.getD_some, UInt8.lt_iff_toNat_lt]
  have h2 : (256 : Nat) ^ 31 = 2 ^ 248 := by decide
  rw [h2] at h1
  have h3 : (2 : Nat) ^ 253 = 32 * 2 ^ 248 := by decide
  rw [h3] at h
  by_contra hc
  have : 32 ≤ b.toNat := by simpa using hc
  have := Nat.mul_le_mul_right (2 ^ 248) this
  omega

theorem top_bit (y : UInt8) : y &&& 0x80 = 0 ∨ y &&& 0x80 = 0x80 := by
  rcases y with ⟨y⟩
  revert y
  decide +kernel

theorem mask_small (x : UInt8) : x < 32 → x &&& 0x7F = x ∧ x &&& 0x80 = 0 ∧ x &&& 224 = 0 ∧
    (x ||| 0x80) &&& 0x7F = x ∧ (x ||| 0x80) &&& 0x80 = 0x80 := by
  rcases x with ⟨x⟩
  revert x
  decide +kernel

theorem mask_back (x : UInt8) : (x &&& 0x7F) ||| (x &&& 0x80) = x := by
  rcases x with ⟨x⟩
  revert x
  decide +kernel

theorem byte_mask (x y : UInt8) (h : x < 32) :
    (x ||| (y &&& 0x80)) &&& 0x7F = x ∧ (x ||| (y &&& 0x80)) &&& 0x80 = y &&& 0x80 ∧ x &&& 224 = 0 := by
  obtain ⟨h1, h2, h3, h4, h5⟩ := mask_small x h
  rcases top_bit y with e | e
  · rw [e, UInt8.or_zero]; exact ⟨h1, h2, h3⟩
  · rw [e]; exact ⟨h4, h5, h3⟩

/-- Bytes 31 and 63 of lists of the right length. -/
theorem modify_append {a b : Bytes} (ha : a.length = 32) (f : UInt8 → UInt8) :
    (a ++ b).modify 63 f = a ++ b.modify 31 f := by
  apply List.ext_getElem?
  intro i
  rw [List.getElem?_modify]
  by_cases hi : i < 32
  · rw [List.getElem?_append_left (by omega), List.getElem?_append_left (by omega)]
    have : ¬ 63 = i := by omega
    cases a[i]? <;> simp [this]
  · rw [List.getElem?_append_right (by omega), List.getElem?_append_right (by omega),
      List.getElem?_modify, ha]
    have : (63 = i) = (31 = i - 32) := by
      apply propext; omega
    simp only [this]

theorem getD_append63 {a b : Bytes} (ha : a.length = 32) : (a ++ b).getD 63 0 = b.getD 31 0 := by
  rw [List.getD_eq_getElem?_getD, List.getElem?_append_right (by omega), ha,
    ← List.getD_eq_getElem?_getD]

theorem getD_modify {b : Bytes} (h : 31 < b.length) (f : UInt8 → UInt8) :
    (b.modify 31 f).getD 31 0 = f (b.getD 31 0) := by
  simp [List.getD_eq_getElem?_getD, List.getElem?_modify, List.getElem?_eq_getElem h]

theorem modify_id' {b : Bytes} {f : UInt8 → UInt8} (h : f (b.getD 31 0) = b.getD 31 0) :
    b.modify 31 f = b := by
  apply List.ext_getElem?
  intro i
  rw [List.getElem?_modify]
  by_cases hi : 31 = i
  · subst hi
    rw [List.getD_eq_getElem?_getD] at h
    cases hb : b[31]? with
    | none => simp
    | some x => rw [hb] at h; simp at h; simp [h]
  · cases b[i]? <;> simp [hi]

theorem modify_modify' (b : Bytes) (f g : UInt8 → UInt8) :
    (b.modify 31 f).modify 31 g = b.modify 31 (g ∘ f) := by
  apply List.ext_getElem?
  intro i
  simp only [List.getElem?_modify]
  by_cases hi : 31 = i <;> cases b[i]? <;> simp [hi]

/-- Parts of a made signature. -/
theorem sign_parts (E : Ed P) (priv msg rnd : Bytes) :
    ∃ (R s : Bytes) (r n : Nat), R = E.enc (r • E.B) ∧ R.length = 32 ∧ s = leBytes 32 n ∧ n < 2 ^ 253 ∧
      n = (reduce E (P.sha512 (R ++ E.enc (leNat priv • E.B) ++ msg)) * leNat priv + r) % E.L ∧
      sign E priv msg rnd
        = R ++ s.modify 31 (· ||| ((E.enc (leNat priv • E.B)).getD 31 0 &&& 0x80)) := by
  refine ⟨_, _, reduce E (P.sha512 (diversifier ++ priv ++ msg ++ rnd)), _, rfl, E.enc_len _, rfl, ?_, rfl, ?_⟩
  · exact Nat.lt_of_lt_of_le (Nat.mod_lt _ E.L_pos) E.L_le
  · simp only [sign]
    exact modify_append (E.enc_len _) _

theorem smul_mod (E : Ed P) (n : Nat) : (n % E.L) • E.B = n • E.B := by
  conv_rhs => rw [← Nat.div_add_mod n E.L, add_nsmul, mul_comm, mul_nsmul', E.order]
  simp

/-- What the signature array holds after a successful verification: the sign bit is gone. -/
theorem verify_sign (E : Ed P) (priv msg rnd : Bytes) (hp : Clamped priv) :
    verify E (P.pubOf priv) msg (sign E priv msg rnd)
      = (true, (sign E priv msg rnd).modify 63 (· &&& 0x7F)) := by
  obtain ⟨R, s, r, n, hR, hRl, hs, hn, hne, hsig⟩ := sign_parts E priv msg rnd
  have hsl : s.length = 32 := by rw [hs, leBytes_length]
  have hsm : s.getD 31 0 < 32 := by rw [hs]; exact top_small n hn
  obtain ⟨A, hA⟩ : ∃ A, A = E.enc (leNat priv • E.B) := ⟨_, rfl⟩
  have hAl : A.length = 32 := by rw [hA, E.enc_len]
  rw [← hA] at hsig hne
  obtain ⟨m1, m2, m3⟩ := byte_mask (s.getD 31 0) (A.getD 31 0) hsm
  have htop : (sign E priv msg rnd).getD 63 0 = s.getD 31 0 ||| (A.getD 31 0 &&& 0x80) := by
    rw [hsig, getD_append63 hRl, getD_modify (by omega)]
  have hclean : (sign E priv msg rnd).modify 63 (· &&& 0x7F) = R ++ s := by
    rw [hsig, modify_append hRl, modify_modify']
    congr 1
    exact modify_id' (by simp only [Function.comp]; exact m1)
  have hkey : (E.toEd (clearTop (P.pubOf priv))).modify 31
      (· ||| ((sign E priv msg rnd).getD 63 0 &&& 0x80)) = A := by
    rw [E.toEd_pub priv hp, htop, m2, ← hA, clearTop, modify_modify']
    exact modify_id' (by simp only [Function.comp]; exact mask_back _)
  unfold verify
  simp only [hkey, hclean]
  congr 1
  unfold edVerify
  rw [getD_append63 hRl, m3]
  simp only [ne_eq, not_true_eq_false, if_false, hA, E.dec_enc]
  rw [← hA, List.take_left' hRl, List.drop_left' hRl, decide_eq_true_eq]
  rw [hs, leNat_leBytes 32 n (by
    have : (2:Nat) ^ 253 ≤ 256 ^ 32 := by decide
    omega)]
  conv_lhs => rw [hR]
  congr 1
  rw [hne, smul_mod, add_nsmul, mul_comm, mul_nsmul, smul_neg]
  abel

/-- **C35**, first part: a signature made with a (clamped) private key verifies under the corresponding
public key, for every message and all randomness. -/
theorem C35_verifies (E : Ed P) (priv msg rnd : Bytes) (hp : Clamped priv) :
    (verify E (P.pubOf priv) msg (sign E priv msg rnd)).1 = true := by
  rw [verify_sign E priv msg rnd hp]

/-- **C35**, second part, what holds of the code: when the sign bit of the Edwards public key is clear,
verification leaves the signature as it was, so it verifies again. Missing: keys whose sign bit is set,
see `C35_signature_clobbered` and `C35_second_verification_fails`. -/
theorem C35_reusable_partial (E : Ed P) (priv msg rnd : Bytes) (hp : Clamped priv)
    (hbit : (E.enc (leNat priv • E.B)).getD 31 0 &&& 0x80 = 0) :
    (verify E (P.pubOf priv) msg (sign E priv msg rnd)).2 = sign E priv msg rnd ∧
    (verify E (P.pubOf priv) msg (verify E (P.pubOf priv) msg (sign E priv msg rnd)).2).1 = true := by
  have h : (verify E (P.pubOf priv) msg (sign E priv msg rnd)).2 = sign E priv msg rnd := by
    rw [verify_sign E priv msg rnd hp]
    obtain ⟨R, s, r, n, hR, hRl, hs, hn, hne, hsig⟩ := sign_parts E priv msg rnd
    have hsm : s.getD 31 0 < 32 := by rw [hs]; exact top_small n hn
    simp only [hsig, hbit, modify_append hRl, modify_modify']
    congr 1
    have : ((fun x : UInt8 => x &&& 0x7F) ∘ fun x : UInt8 => x ||| 0) = fun x => x &&& 0x7F := by
      funext x; simp
    rw [this, modify_id' (mask_small _ hsm).1, modify_id' (by simp)]
  exact ⟨h, by rw [h]; exact C35_verifies E priv msg rnd hp⟩

/-- **C35 refuted**, second part: for every key whose sign bit is set, verification overwrites the
caller's signature with a different one. -/
theorem C35_signature_clobbered (E : Ed P) (priv msg rnd : Bytes) (hp : Clamped priv)
    (hbit : (E.enc (leNat priv • E.B)).getD 31 0 &&& 0x80 = 0x80) :
    (verify E (P.pubOf priv) msg (sign E priv msg rnd)).2 ≠ sign E priv msg rnd := by
  rw [verify_sign E priv msg rnd hp]
  obtain ⟨R, s, r, n, hR, hRl, hs, hn, hne, hsig⟩ := sign_parts E priv msg rnd
  have hsl : s.length = 32 := by rw [hs, leBytes_length]
  have hsm : s.getD 31 0 < 32 := by rw [hs]; exact top_small n hn
  intro e
  have e' := congrArg (fun l : Bytes => l.getD 63 0 &&& 0x80) e
  simp only [hsig, hbit, modify_append hRl, getD_append63 hRl, modify_modify',
    getD_modify (b := s) (by omega), Function.comp] at e'
  obtain ⟨h1, h2, _, h4, h5⟩ := mask_small _ hsm
  rw [h4, h5, h2] at e'
  exact absurd e' (by decide)

/-! ## A concrete curve-like instance -/

/-- Integers modulo 5 with multiplication by a number computed directly. -/
structure T where
  v : Fin 5
  deriving DecidableEq

instance : Add T := ⟨fun a b => ⟨a.v + b.v⟩⟩
instance : Zero T := ⟨⟨0⟩⟩
instance : Neg T := ⟨fun a => ⟨-a.v⟩⟩

instance : AddCommGroup T where
  add_assoc := by rintro ⟨a⟩ ⟨b⟩ ⟨c⟩; exact congrArg T.mk (by revert a b c; decide)
  zero_add := by rintro ⟨a⟩; exact congrArg T.mk (by revert a; decide)
  add_zero := by rintro ⟨a⟩; exact congrArg T.mk (by revert a; decide)
  add_comm := by rintro ⟨a⟩ ⟨b⟩; exact congrArg T.mk (by revert a b; decide)
  neg_add_cancel := by rintro ⟨a⟩; exact congrArg T.mk (by revert a; decide)
  nsmul n a := ⟨⟨n * a.v.val % 5, Nat.mod_lt _ (by decide)⟩⟩
  nsmul_zero := by rintro ⟨a⟩; exact congrArg T.mk (by simp)
  nsmul_succ := by
    rintro n ⟨a⟩
    refine congrArg T.mk (Fin.ext ?_)
    change (n + 1) * a.val % 5 = (n * a.val % 5 + a.val) % 5
    rw [Nat.add_mul]; omega
  zsmul := zsmulRec

theorem smul_one (n : Nat) : n • (⟨1⟩ : T) = ⟨Fin.ofNat 5 n⟩ := by
  refine congrArg T.mk (Fin.ext ?_)
  change n * 1 % 5 = n % 5
  rw [Nat.mul_one]

/-- Encoding of the toy group: absolute value, sign in the top bit. -/
def toyEnc (g : T) : Bytes :=
  (UInt8.ofNat (if g.v.val ≤ 2 then g.v.val else 5 - g.v.val) :: List.replicate 30 0)
    ++ [if g.v.val ≤ 2 then 0 else 0x80]

def toyDec (b : Bytes) : Option T :=
  let n : T := ⟨Fin.ofNat 5 (b.getD 0 0).toNat⟩
  some (if b.getD 31 0 &&& 0x80 = 0 then n else -n)

theorem toyDec_enc : ∀ g : T, toyDec (toyEnc g) = some g := by
  rintro ⟨g⟩
  revert g
  decide +kernel

/-- The toy primitives, with public keys that are encodings in the toy group. -/
def toyP : Prims :=
  { Prims.toy with
    pubOf := fun a => clearTop (toyEnc ⟨Fin.ofNat 5 (leNat a)⟩)
    dh := fun _ _ => List.replicate 32 0
    pubOf_len := by intro a _; simp [clearTop, toyEnc]
    dh_len := by intro a p _ _; simp
    dh_comm := by intro a b _ _; rfl }

theorem clearTop_twice (b : Bytes) : clearTop (clearTop b) = clearTop b := by
  rw [clearTop, clearTop, modify_modify']
  congr 1
  funext x
  simp only [Function.comp]
  rcases x with ⟨x⟩
  revert x
  decide +kernel

/-- The laws of `Ed` are consistent. -/
def toyEd : Ed toyP where
  G := T
  B := ⟨1⟩
  L := 5
  enc := toyEnc
  dec := toyDec
  toEd := id
  L_pos := by decide
  L_le := by decide
  order := by decide
  enc_len := by intro g; simp [toyEnc]
  dec_enc := toyDec_enc
  toEd_pub := by
    intro a _
    change clearTop (clearTop (toyEnc ⟨Fin.ofNat 5 (leNat a)⟩)) = clearTop (toyEnc (leNat a • (⟨1⟩ : T)))
    rw [clearTop_twice, smul_one]

/-- A clamped key with the sign bit set, and one with it clear. -/
def keyNeg : Bytes := Keys.clamp (16 :: List.replicate 31 3)
def keyPos : Bytes := Keys.clamp (24 :: List.replicate 31 3)

example : Clamped keyNeg ∧ Clamped keyPos ∧
    (toyEnc (leNat keyNeg • (⟨1⟩ : T))).getD 31 0 &&& 0x80 = 0x80 ∧
    (toyEnc (leNat keyPos • (⟨1⟩ : T))).getD 31 0 &&& 0x80 = 0 :=
  ⟨by decide +kernel, by decide +kernel, by decide +kernel, by decide +kernel⟩

/-- **C35 refuted**, observably: the same signature verifies once and is then rejected. -/
theorem C35_second_verification_fails : ∃ (P : Prims) (E : Ed P) (priv msg rnd : Bytes), Clamped priv ∧
    (verify E (P.pubOf priv) msg (sign E priv msg rnd)).1 = true ∧
    (verify E (P.pubOf priv) msg (verify E (P.pubOf priv) msg (sign E priv msg rnd)).2).1 = false :=
  ⟨toyP, toyEd, keyNeg, [1, 2, 3], List.replicate 64 9, by decide +kernel, by decide +kernel,
    by decide +kernel⟩

/-! ## C90 Private keys -/

theorem clamp_byte0 (x : UInt8) : (x &&& 248).toNat = x.toNat - x.toNat % 8 := by
  rcases x with ⟨x⟩
  revert x
  decide +kernel

theorem clamp_byte31 (x : UInt8) : ((x &&& 63) ||| 64).toNat = 64 + x.toNat % 64 := by
  rcases x with ⟨x⟩
  revert x
  decide +kernel

/-- **C90**: whatever 32 bytes the system's generator returns, the private key made from them is a valid
Curve25519 scalar, the public key belongs to it, and apart from the five fixed bits it is what was drawn:
byte 0 up to its last three bits, byte 31 up to its first two, all others exactly. -/
theorem C90_private_keys (P : Prims) (r : Bytes) (h : r.length = 32) :
    Clamped (Keys.newPair P r).priv ∧ (Keys.newPair P r).pub = P.pubOf (Keys.newPair P r).priv ∧
    ((Keys.newPair P r).priv.getD 0 0).toNat / 8 = (r.getD 0 0).toNat / 8 ∧
    ((Keys.newPair P r).priv.getD 31 0).toNat % 64 = (r.getD 31 0).toNat % 64 ∧
    ∀ i, i ≠ 0 → i ≠ 31 → (Keys.newPair P r).priv[i]? = r[i]? := by
  have e0 : ((Keys.newPair P r).priv.getD 0 0) = (r.getD 0 0) &&& 248 := by
    simp [Keys.newPair, Keys.clamp, List.getD_eq_getElem?_getD, List.getElem?_modify,
      List.getElem?_eq_getElem (show 0 < r.length by omega)]
  have e31 : ((Keys.newPair P r).priv.getD 31 0) = ((r.getD 31 0) &&& 63) ||| 64 := by
    simp [Keys.newPair, Keys.clamp, List.getD_eq_getElem?_getD, List.getElem?_modify,
      List.getElem?_eq_getElem (show 31 < r.length by omega)]
  refine ⟨⟨?_, ?_, ?_, ?_⟩, rfl, ?_, ?_, ?_⟩
  · simp [Keys.newPair, Keys.clamp, h]
  · rw [e0, clamp_byte0]; omega
  · rw [e31, clamp_byte31]; omega
  · rw [e31, clamp_byte31]; omega
  · rw [e0, clamp_byte0]; omega
  · rw [e31, clamp_byte31]; omega
  · intro i h0 h31
    simp only [Keys.newPair, Keys.clamp, List.getElem?_modify]
    cases r[i]? <;> simp [Ne.symm h0, Ne.symm h31]

example : (Keys.newPair Prims.toy (List.replicate 32 255)).priv = 248 :: List.replicate 30 255 ++ [127] := by decide

end Verif.Props.Sign
