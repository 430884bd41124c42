import Verif.Bytes
/-!
# File names: decimal numbers and session file names

Models the `%d` and `%09d` formats, `strconv.Atoi` and the names used by store.go.
-/
namespace Verif.Names

/-- A file name (without directory). Code: store.go:400-402, 95-97. -/
abbrev Name := List Char

/-- Decimal digit character. Code: store.go:95-97. -/
def digit (d : Nat) : Char := Char.ofNat (48 + d)

/-- Digits of `n` in front of `acc`; `f` bounds the number of digits. Code: store.go:95-97. -/
def decAux : Nat → Nat → List Char → List Char
  | 0, _, acc => acc
  | f + 1, n, acc => if n / 10 = 0 then digit (n % 10) :: acc else decAux f (n / 10) (digit (n % 10) :: acc)

/-- `fmt.Sprintf("%d", n)` for a non-negative number (store.go:400-402, 94-97). -/
def dec (n : Nat) : List Char := decAux (n + 1) n []

/-- `fmt.Sprintf("%0wd", n)` for a non-negative number (store.go:94-97,
fingerprint/fingerprint_numbers.go:42). -/
def decPad (w n : Nat) : List Char := List.replicate (w - (dec n).length) '0' ++ dec n

/-- A decimal digit. Code: store.go:99-106. -/
def isDigit (c : Char) : Bool := 48 ≤ c.toNat && c.toNat ≤ 57

/-- Value of a digit string. Code: store.go:99-106. -/
def undec (l : List Char) : Nat := l.foldl (fun a c => a * 10 + (c.toNat - 48)) 0

/-- `uint32(id)` where `id, _ = strconv.Atoi(s)` on a 64-bit platform (store.go:409-410): a syntax error
gives 0, an out-of-range value the nearest 64-bit one. -/
def atoi32 (s : List Char) : Nat :=
  let go (neg : Bool) (d : List Char) : Nat :=
    if d = [] ∨ d.any (fun c => !isDigit c) then 0
    else
      let v := undec d
      if neg then (if v > 2 ^ 63 then 0 else (2 ^ 64 - v) % 2 ^ 32)
      else (if v > 2 ^ 63 - 1 then 2 ^ 32 - 1 else v % 2 ^ 32)
  match s with
  | '-' :: d => go true d
  | '+' :: d => go false d
  | d => go false d

/-- The part after the last `'_'`; without one the Go code parses (part of) the directory path, which
contains a `'/'` and so is not a number: the result is then the empty string, also not a number
(store.go:408-409). -/
def afterLast : List Char → List Char
  | [] => []
  | c :: l => if l.contains '_' then afterLast l else if c = '_' then l else []

/-- `fmt.Sprintf("%s_%d", recipientID, deviceID)` (store.go:400-402). -/
def sessName (rec : String) (dev : Nat) : Name := rec.toList ++ '_' :: dec dev

/-! ## Facts -/

theorem isDigit_digit (d : Nat) (h : d < 10) : isDigit (digit d) = true := by
  have : d = 0 ∨ d = 1 ∨ d = 2 ∨ d = 3 ∨ d = 4 ∨ d = 5 ∨ d = 6 ∨ d = 7 ∨ d = 8 ∨ d = 9 := by omega
  rcases this with h | h | h | h | h | h | h | h | h | h <;> subst h <;> decide

theorem digit_val (d : Nat) (h : d < 10) : (digit d).toNat - 48 = d := by
  have : d = 0 ∨ d = 1 ∨ d = 2 ∨ d = 3 ∨ d = 4 ∨ d = 5 ∨ d = 6 ∨ d = 7 ∨ d = 8 ∨ d = 9 := by omega
  rcases this with h | h | h | h | h | h | h | h | h | h <;> subst h <;> decide

/-- Digits as an unaccumulated list. -/
theorem decAux_acc (f n : Nat) (acc : List Char) : decAux f n acc = decAux f n [] ++ acc := by
  induction f generalizing n acc with
  | zero => simp [decAux]
  | succ f ih =>
    unfold decAux
    split
    · simp
    · rw [ih, ih (n / 10) [digit (n % 10)]]; simp

theorem decAux_digits (f n : Nat) : ∀ c ∈ decAux f n [], isDigit c = true := by
  induction f generalizing n with
  | zero => simp [decAux]
  | succ f ih =>
    intro c hc
    unfold decAux at hc
    split at hc
    · simp at hc; subst hc; exact isDigit_digit _ (Nat.mod_lt _ (by decide))
    · rw [decAux_acc] at hc
      simp only [List.mem_append, List.mem_singleton] at hc
      rcases hc with hc | hc
      · exact ih _ c hc
      · subst hc; exact isDigit_digit _ (Nat.mod_lt _ (by decide))

theorem undec_snoc (l : List Char) (c : Char) : undec (l ++ [c]) = undec l * 10 + (c.toNat - 48) := by
  simp [undec, List.foldl_append]

theorem decAux_ne (f n : Nat) (h : 0 < f) : decAux f n [] ≠ [] := by
  cases f with
  | zero => omega
  | succ f =>
    unfold decAux
    split
    · simp
    · rw [decAux_acc]; simp

theorem undec_decAux (f n : Nat) (h : n < f) : undec (decAux f n []) = n := by
  induction f generalizing n with
  | zero => omega
  | succ f ih =>
    unfold decAux
    split
    · rename_i h0
      have : n < 10 := by omega
      simp [undec, Nat.mod_eq_of_lt this, digit_val n this]
    · rename_i h0
      rw [decAux_acc, undec_snoc, ih (n / 10) (by omega), digit_val _ (Nat.mod_lt n (by decide))]
      omega

theorem undec_dec (n : Nat) : undec (dec n) = n := undec_decAux _ _ (by omega)

theorem dec_digits (n : Nat) : ∀ c ∈ dec n, isDigit c = true := decAux_digits _ _

theorem dec_ne (n : Nat) : dec n ≠ [] := decAux_ne _ _ (by omega)

theorem dec_no_underscore (n : Nat) : '_' ∉ dec n := by
  intro h
  have := dec_digits n _ h
  simp [isDigit] at this

theorem dec_inj {a b : Nat} (h : dec a = dec b) : a = b := by
  have := congrArg undec h
  rwa [undec_dec, undec_dec] at this

theorem afterLast_append (a l : List Char) (h : '_' ∉ l) : afterLast (a ++ '_' :: l) = l := by
  induction a with
  | nil =>
    have : l.contains '_' = false := by simpa using h
    simp only [List.nil_append, afterLast, this]
    simp
  | cons c a ih =>
    have hc : (a ++ '_' :: l).contains '_' = true := by simp
    simp only [List.cons_append, afterLast, hc, if_true]
    exact ih

theorem split_last {a b l m : List Char} (hl : '_' ∉ l) (hm : '_' ∉ m)
    (h : a ++ '_' :: l = b ++ '_' :: m) : a = b ∧ l = m := by
  have h1 : l = m := by
    have := congrArg afterLast h
    rwa [afterLast_append _ _ hl, afterLast_append _ _ hm] at this
  subst h1
  exact ⟨List.append_cancel_right h, rfl⟩

theorem sessName_inj {r r' : String} {d d' : Nat} (h : sessName r d = sessName r' d') :
    r = r' ∧ d = d' := by
  obtain ⟨h1, h2⟩ := split_last (dec_no_underscore d) (dec_no_underscore d') h
  exact ⟨String.toList_inj.mp h1, dec_inj h2⟩

theorem atoi32_dec (n : Nat) (h : n < 2 ^ 32) : atoi32 (dec n) = n := by
  have hd := dec_digits n
  have hne := dec_ne n
  have hu := undec_dec n
  unfold atoi32
  split
  · rename_i d heq
    have := hd '-' (by rw [heq]; simp)
    simp [isDigit] at this
  · rename_i d heq
    have := hd '+' (by rw [heq]; simp)
    simp [isDigit] at this
  · have : (dec n).any (fun c => !isDigit c) = false := by
      rw [List.any_eq_false]; intro c hc; simp [hd c hc]
    simp only [this, hne, hu]
    simp
    split
    · omega
    · omega

theorem undec_zeros (k : Nat) (l : List Char) : undec (List.replicate k '0' ++ l) = undec l := by
  induction k with
  | zero => rfl
  | succ k ih =>
    rw [List.replicate_succ, List.cons_append]
    have : undec ('0' :: (List.replicate k '0' ++ l)) = undec (List.replicate k '0' ++ l) := by
      simp [undec]
    rw [this, ih]

theorem undec_decPad (w n : Nat) : undec (decPad w n) = n := by
  rw [decPad, undec_zeros, undec_dec]

theorem decPad_digits (w n : Nat) : ∀ c ∈ decPad w n, isDigit c = true := by
  intro c hc
  rw [decPad, List.mem_append] at hc
  rcases hc with hc | hc
  · rw [(List.mem_replicate.mp hc).2]; decide
  · exact dec_digits n c hc

theorem decAux_length (f n w : Nat) (hw : 0 < w) (h : n < 10 ^ w) :
    (decAux f n []).length ≤ w := by
  induction f generalizing n w with
  | zero => simp [decAux]
  | succ f ih =>
    unfold decAux
    split
    · exact hw
    · rename_i h0
      rw [decAux_acc, List.length_append]
      obtain ⟨w, rfl⟩ : ∃ v, w = v + 1 := ⟨w - 1, by omega⟩
      have hw' : 0 < w := by
        rcases Nat.eq_zero_or_pos w with e | e
        · subst e; simp at h; omega
        · exact e
      have := ih (n / 10) w hw' (by rw [Nat.pow_succ] at h; omega)
      simp
      omega

theorem dec_length {n w : Nat} (hw : 0 < w) (h : n < 10 ^ w) : (dec n).length ≤ w :=
  decAux_length _ _ _ hw h

theorem decPad_length {n w : Nat} (hw : 0 < w) (h : n < 10 ^ w) : (decPad w n).length = w := by
  have := dec_length hw h
  simp [decPad]
  omega

end Verif.Names
