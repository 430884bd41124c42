import Verif.Proof.Fingerprint
/-!
# Safety numbers and QR fingerprints: C36, C37, C38
-/
namespace Verif.Props.Fingerprint
open Verif Verif.Fingerprint

/-- The safety number a user sees (first result of `CreateFingerprint`). -/
def number (P : Prims) (version : Nat) (lid : Bytes) (lks : List Bytes) (rid : Bytes) (rks : List Bytes) :
    Res (List (List Char)) := do
  let r ← createFingerprint P version lid lks rid rks
  .ok r.1

/-- The QR data a user shows (second result of `CreateFingerprint`). -/
def qr (P : Prims) (version : Nat) (lid : Bytes) (lks : List Bytes) (rid : Bytes) (rks : List Bytes) :
    Res Bytes := do
  let r ← createFingerprint P version lid lks rid rks
  .ok r.2

/-! ## Specification of a printed group -/

/-- Decimal digit. -/
def Digit (c : Char) : Prop := c ∈ ['0', '1', '2', '3', '4', '5', '6', '7', '8', '9']

/-- Value of five bytes, most significant first. -/
def value5 (b : Bytes) (o : Nat) : Nat :=
  (b.getD o 0).toNat * 256 ^ 4 + (b.getD (o + 1) 0).toNat * 256 ^ 3 + (b.getD (o + 2) 0).toNat * 256 ^ 2
    + (b.getD (o + 3) 0).toNat * 256 + (b.getD (o + 4) 0).toNat

/-- The value of a string of decimal digits. -/
def digitsValue : List Char → Nat
  | [] => 0
  | c :: l => (c.toNat - '0'.toNat) * 10 ^ l.length + digitsValue l

/-- `s` is the five-digit group for the five bytes of `b` at `o`. -/
def GroupOf (b : Bytes) (o : Nat) (s : List Char) : Prop :=
  s.length = 5 ∧ (∀ c ∈ s, Digit c) ∧ digitsValue s = value5 b o % 100000

theorem digit_of_isDigit {c : Char} (h : Names.isDigit c = true) : Digit c := by
  simp only [Names.isDigit, Bool.and_eq_true, decide_eq_true_eq] at h
  have : c.toNat = 48 ∨ c.toNat = 49 ∨ c.toNat = 50 ∨ c.toNat = 51 ∨ c.toNat = 52 ∨ c.toNat = 53 ∨
    c.toNat = 54 ∨ c.toNat = 55 ∨ c.toNat = 56 ∨ c.toNat = 57 := by omega
  have key : ∀ d : Char, c.toNat = d.toNat → c = d := fun d hd => Char.toNat_inj.mp hd
  simp only [Digit, List.mem_cons, List.not_mem_nil, or_false]
  rcases this with h | h | h | h | h | h | h | h | h | h
  · exact .inl (key '0' h)
  · exact .inr (.inl (key '1' h))
  · exact .inr (.inr (.inl (key '2' h)))
  · exact .inr (.inr (.inr (.inl (key '3' h))))
  · exact .inr (.inr (.inr (.inr (.inl (key '4' h)))))
  · exact .inr (.inr (.inr (.inr (.inr (.inl (key '5' h))))))
  · exact .inr (.inr (.inr (.inr (.inr (.inr (.inl (key '6' h)))))))
  · exact .inr (.inr (.inr (.inr (.inr (.inr (.inr (.inl (key '7' h))))))))
  · exact .inr (.inr (.inr (.inr (.inr (.inr (.inr (.inr (.inl (key '8' h)))))))))
  · exact .inr (.inr (.inr (.inr (.inr (.inr (.inr (.inr (.inr (key '9' h)))))))))

theorem foldl_digits (l : List Char) (a : Nat) :
    l.foldl (fun a c => a * 10 + (c.toNat - 48)) a = a * 10 ^ l.length + digitsValue l := by
  induction l generalizing a with
  | nil => simp [digitsValue]
  | cons c l ih =>
    rw [List.foldl_cons, ih, digitsValue, List.length_cons, Nat.pow_succ]
    rw [Nat.add_mul, show ('0').toNat = 48 from rfl, Nat.mul_assoc, Nat.mul_comm (10 ^ l.length) 10]
    omega

theorem digitsValue_undec (l : List Char) : digitsValue l = Names.undec l := by
  rw [Names.undec, foldl_digits]; simp

theorem beNat_value5 {b : Bytes} {o : Nat} (h : o + 5 ≤ b.length) :
    beNat ((b.drop o).take 5) = value5 b o := by
  have e : ∀ i, b.getD (o + i) 0 = (b.drop o).getD i 0 := by
    intro i; simp [List.getD_eq_getElem?_getD, List.getElem?_drop]
  have e0 := e 0
  rw [Nat.add_zero] at e0
  simp only [value5, e, e0]
  obtain ⟨d, hd⟩ : ∃ d, d = b.drop o := ⟨_, rfl⟩
  have hl : 5 ≤ d.length := by rw [hd, List.length_drop]; omega
  rw [← hd]
  match d, hl with
  | b0 :: b1 :: b2 :: b3 :: b4 :: _, _ =>
    simp [beNat]
    omega

theorem chunk_groupOf {b : Bytes} {o : Nat} (h : o + 5 ≤ b.length) : GroupOf b o (chunkText b o) := by
  have hlt : beNat ((b.drop o).take 5) % 100000 < 10 ^ 5 := Nat.mod_lt _ (by decide)
  refine ⟨Names.decPad_length (by decide) hlt, ?_, ?_⟩
  · intro c hc; exact digit_of_isDigit (Names.decPad_digits _ _ c hc)
  · rw [digitsValue_undec, chunkText, Names.undec_decPad, beNat_value5 h]

/-- The six groups of one user. -/
def HalfOf (b : Bytes) (g : List (List Char)) : Prop :=
  ∃ g0 g1 g2 g3 g4 g5, g = [g0, g1, g2, g3, g4, g5] ∧ GroupOf b 0 g0 ∧ GroupOf b 5 g1 ∧ GroupOf b 10 g2 ∧
    GroupOf b 15 g3 ∧ GroupOf b 20 g4 ∧ GroupOf b 25 g5

theorem numbersFor_half {b : Bytes} {n : List (List Char)} (h : numbersFor b = .ok n) : HalfOf b n := by
  obtain ⟨hb, _⟩ := numbersFor_length h
  rw [numbersFor_eq hb] at h
  injection h with h
  subst h
  exact ⟨_, _, _, _, _, _, rfl, chunk_groupOf (by omega), chunk_groupOf (by omega),
    chunk_groupOf (by omega), chunk_groupOf (by omega), chunk_groupOf (by omega), chunk_groupOf (by omega)⟩

/-! ## C36 -/

theorem createNumbers_swap (l r : Bytes) : createNumbers l r = createNumbers r l := by
  unfold createNumbers
  cases hl : numbersFor l with
  | panic =>
    cases hr : numbersFor r with
    | panic => rfl
    | ok _ => rfl
    | err e =>
      exfalso
      by_cases h : 30 ≤ r.length
      · rw [numbersFor_eq h] at hr; cases hr
      · rw [numbersFor_panic (by omega)] at hr; cases hr
  | err e =>
    exfalso
    by_cases h : 30 ≤ l.length
    · rw [numbersFor_eq h] at hl; cases hl
    · rw [numbersFor_panic (by omega)] at hl; cases hl
  | ok a =>
    cases hr : numbersFor r with
    | panic => rfl
    | err e => rfl
    | ok b =>
      have ha := (numbersFor_length hl).2
      have hb := (numbersFor_length hr).2
      simp only [Res.ok_bind]
      by_cases hab : a = b
      · rw [hab]
      · obtain ⟨c, hc, h1, h2⟩ := compareBlocks_swap (ha.trans hb.symm) hab
        simp only [h1, h2, Res.ok_bind]
        rcases Int.lt_or_gt_of_ne hc with h | h
        · have h' : ¬ (-c) ≤ 0 := by omega
          simp [Int.le_of_lt h, h']
        · have h' : ¬ c ≤ 0 := by omega
          have h'' : -c ≤ 0 := by omega
          simp [h', h'']

theorem createQR_ok (v : Nat) {l r : Bytes} (hl : 32 ≤ l.length) (hr : 32 ≤ r.length) :
    ∃ q, createQR v l r = .ok q := by
  refine ⟨Wire.encFields [(1, .varint v), (2, .len (Wire.encFields [(1, .len (l.take 32))])),
    (3, .len (Wire.encFields [(1, .len (r.take 32))]))], ?_⟩
  rw [createQR, if_neg (by omega), if_neg (by omega)]

theorem number_eq (P : Prims) (v : Nat) (lid : Bytes) (lks : List Bytes) (rid : Bytes) (rks : List Bytes) :
    number P v lid lks rid rks
      = createNumbers (getFingerprint P iterations lid lks) (getFingerprint P iterations rid rks) := by
  have h1 := getFingerprint_length P iterations lid lks (by decide)
  have h2 := getFingerprint_length P iterations rid rks (by decide)
  obtain ⟨q, hq⟩ := createQR_ok v (l := getFingerprint P iterations lid lks)
    (r := getFingerprint P iterations rid rks) (by omega) (by omega)
  unfold number createFingerprint
  simp only [hq]
  cases createNumbers (getFingerprint P iterations lid lks) (getFingerprint P iterations rid rks) <;> rfl

/-- **C36.** Whatever one side computes — a number or a crash — the other side computes too. -/
theorem C36_same_outcome (P : Prims) (v w : Nat) (aid : Bytes) (aks : List Bytes) (bid : Bytes)
    (bks : List Bytes) : number P v aid aks bid bks = number P w bid bks aid aks := by
  rw [number_eq, number_eq, createNumbers_swap]

/-- **C36**, what holds of the code: when the two users' six groups differ, both sides succeed with the
same number. Missing: two users whose six groups coincide, for which `C36_equal_users_crash`. -/
theorem C36_same_number_partial (P : Prims) (v w : Nat) (aid : Bytes) (aks : List Bytes) (bid : Bytes)
    (bks : List Bytes)
    (hne : ∃ o ∈ [0, 5, 10, 15, 20, 25], value5 (getFingerprint P 5200 aid aks) o % 100000
      ≠ value5 (getFingerprint P 5200 bid bks) o % 100000) :
    ∃ n, number P v aid aks bid bks = .ok n ∧ number P w bid bks aid aks = .ok n := by
  rw [← C36_same_outcome P v w, number_eq]
  have h1 := getFingerprint_length P iterations aid aks (by decide)
  have h2 := getFingerprint_length P iterations bid bks (by decide)
  change ∃ o ∈ _, value5 (getFingerprint P iterations aid aks) o % 100000
    ≠ value5 (getFingerprint P iterations bid bks) o % 100000 at hne
  obtain ⟨a, ha⟩ : ∃ a, a = getFingerprint P iterations aid aks := ⟨_, rfl⟩
  obtain ⟨b, hb⟩ : ∃ b, b = getFingerprint P iterations bid bks := ⟨_, rfl⟩
  rw [← ha] at h1 hne ⊢
  rw [← hb] at h2 hne ⊢
  have ea := numbersFor_eq (b := a) (by omega)
  have eb := numbersFor_eq (b := b) (by omega)
  have diff : ([chunkText a 0, chunkText a 5, chunkText a 10, chunkText a 15, chunkText a 20,
      chunkText a 25] : List (List Char)) ≠ [chunkText b 0, chunkText b 5, chunkText b 10,
      chunkText b 15, chunkText b 20, chunkText b 25] := by
    intro e
    obtain ⟨o, ho, hd⟩ := hne
    simp only [List.cons.injEq, and_true] at e
    apply hd
    have key : ∀ o, o + 5 ≤ 64 → chunkText a o = chunkText b o →
        value5 a o % 100000 = value5 b o % 100000 := by
      intro o ho hc
      rw [← (chunk_groupOf (b := a) (by omega)).2.2, ← (chunk_groupOf (b := b) (by omega)).2.2, hc]
    simp only [List.mem_cons, List.not_mem_nil, or_false] at ho
    rcases ho with rfl | rfl | rfl | rfl | rfl | rfl
    · exact key _ (by omega) e.1
    · exact key _ (by omega) e.2.1
    · exact key _ (by omega) e.2.2.1
    · exact key _ (by omega) e.2.2.2.1
    · exact key _ (by omega) e.2.2.2.2.1
    · exact key _ (by omega) e.2.2.2.2.2
  obtain ⟨c, hc, hcmp, _⟩ := compareBlocks_swap (by rfl) diff
  simp only [createNumbers, ea, eb, Res.ok_bind, hcmp]
  by_cases h : c ≤ 0
  · exact ⟨_, ⟨if_pos h, if_pos h⟩⟩
  · exact ⟨_, ⟨if_neg h, if_neg h⟩⟩

/-- **C36 refuted** in one corner: computing the safety number of a user with the same identifier and
keys (for instance one's own) crashes, because the block comparison indexes past the end on a tie. -/
theorem C36_equal_users_crash (P : Prims) (v : Nat) (uid : Bytes) (ks : List Bytes) :
    number P v uid ks uid ks = .panic := by
  rw [number_eq]
  have h1 := getFingerprint_length P iterations uid ks (by decide)
  simp only [createNumbers, numbersFor_eq (b := getFingerprint P iterations uid ks) (by omega),
    Res.ok_bind, compareBlocks_self, Res.panic_bind]

/-! ## C37 -/

/-- **C37**, format: a safety number is twelve groups of five decimal digits, six for each user, each
group being five fingerprint bytes (big-endian) modulo 100000. -/
theorem C37_format (P : Prims) (v : Nat) (lid : Bytes) (lks : List Bytes) (rid : Bytes)
    (rks : List Bytes) (n : List (List Char)) (h : number P v lid lks rid rks = .ok n) :
    n.length = 12 ∧ (∀ g ∈ n, g.length = 5 ∧ ∀ c ∈ g, Digit c) ∧
    ∃ a b, HalfOf (getFingerprint P 5200 lid lks) a ∧ HalfOf (getFingerprint P 5200 rid rks) b ∧
      (n = a ++ b ∨ n = b ++ a) := by
  rw [number_eq] at h
  simp only [createNumbers, Res.bind_eq_ok] at h
  obtain ⟨a, ha, b, hb, c, _, hn⟩ := h
  have h1 := numbersFor_half ha
  have h2 := numbersFor_half hb
  have hn' : n = a ++ b ∨ n = b ++ a := by
    split at hn
    · injection hn with hn; exact .inl hn.symm
    · injection hn with hn; exact .inr hn.symm
  have half : ∀ x g, HalfOf x g → g.length = 6 ∧ ∀ s ∈ g, s.length = 5 ∧ ∀ c ∈ s, Digit c := by
    rintro x g ⟨g0, g1, g2, g3, g4, g5, rfl, q0, q1, q2, q3, q4, q5⟩
    refine ⟨rfl, ?_⟩
    intro s hs
    simp only [List.mem_cons, List.not_mem_nil, or_false] at hs
    rcases hs with rfl | rfl | rfl | rfl | rfl | rfl
    · exact ⟨q0.1, q0.2.1⟩
    · exact ⟨q1.1, q1.2.1⟩
    · exact ⟨q2.1, q2.2.1⟩
    · exact ⟨q3.1, q3.2.1⟩
    · exact ⟨q4.1, q4.2.1⟩
    · exact ⟨q5.1, q5.2.1⟩
  obtain ⟨la, fa⟩ := half _ _ h1
  obtain ⟨lb, fb⟩ := half _ _ h2
  refine ⟨?_, ?_, a, b, h1, h2, hn'⟩
  · rcases hn' with e | e <;> rw [e, List.length_append, la, lb]
  · intro g hg
    rcases hn' with e | e <;> rw [e, List.mem_append] at hg <;> rcases hg with hg | hg
    · exact fa g hg
    · exact fb g hg
    · exact fb g hg
    · exact fa g hg

/-- **C37**, order independence: neither the number nor the QR data depends on the order in which either
user's identity keys are listed. -/
theorem C37_key_order (P : Prims) (v : Nat) (lid : Bytes) (lks lks' : List Bytes) (rid : Bytes)
    (rks rks' : List Bytes) (hl : lks.Perm lks') (hr : rks.Perm rks') :
    createFingerprint P v lid lks rid rks = createFingerprint P v lid lks' rid rks' := by
  simp only [createFingerprint, getFingerprint, logicalKeyBytes, sortKeys_congr hl, sortKeys_congr hr]

/-- The texts hashed, one after the other, for the fingerprint of a user. -/
def hashed (P : Prims) (n : Nat) (uid : Bytes) (ks : List Bytes) : List Bytes :=
  (List.range n).map (fun i => getFingerprint P i uid ks ++ logicalKeyBytes ks)

theorem rounds_commit (P : Prims) (s s' k k' : Bytes) (hk : k.length = k'.length) :
    ∀ n, repeatedHashing P s k (n + 1) = repeatedHashing P s' k' (n + 1) →
      (s ++ k = s' ++ k' ∧ k = k') ∨
      ∃ i ≤ n, repeatedHashing P s k i ++ k ≠ repeatedHashing P s' k' i ++ k' ∧
        P.sha512 (repeatedHashing P s k i ++ k) = P.sha512 (repeatedHashing P s' k' i ++ k') := by
  intro n
  induction n with
  | zero =>
    intro h
    by_cases he : s ++ k = s' ++ k'
    · exact .inl ⟨he, (List.append_inj' he hk).2⟩
    · exact .inr ⟨0, Nat.le_refl _, he, h⟩
  | succ n ih =>
    intro h
    by_cases he : repeatedHashing P s k (n + 1) ++ k = repeatedHashing P s' k' (n + 1) ++ k'
    · rcases ih (List.append_inj' he hk).1 with h1 | ⟨i, hi, h2⟩
      · exact .inl h1
      · exact .inr ⟨i, by omega, h2⟩
    · exact .inr ⟨n + 1, Nat.le_refl _, he, h⟩

theorem flatten_inj {n : Nat} : ∀ (l m : List Bytes), l.length = m.length → (∀ x ∈ l, x.length = n) →
    (∀ x ∈ m, x.length = n) → l.flatten = m.flatten → l = m := by
  intro l
  induction l with
  | nil => intro m hlen _ _ _; exact (List.length_eq_zero_iff.mp hlen.symm).symm
  | cons x l ih =>
    intro m hlen hl hm h
    cases m with
    | nil => simp at hlen
    | cons y m =>
      have hxy : x.length = y.length := by rw [hl x List.mem_cons_self, hm y List.mem_cons_self]
      rw [List.flatten_cons, List.flatten_cons] at h
      obtain ⟨h1, h2⟩ := List.append_inj h hxy
      rw [h1, ih m (by simpa using hlen) (fun z hz => hl z (List.mem_cons_of_mem _ hz))
        (fun z hz => hm z (List.mem_cons_of_mem _ hz)) h2]

/-- **C37**, binding: two users with the same number of identity keys have the same fingerprint only if they
have the same identifier and keys, or the computation of the two fingerprints has hashed two different texts
to the same value. -/
theorem C37_commits (P : Prims) (n : Nat) (hn : 0 < n) (uid uid' : Bytes) (ks ks' : List Bytes)
    (hlen : ks.length = ks'.length) (hk : ∀ k ∈ ks, k.length = 32) (hk' : ∀ k ∈ ks', k.length = 32)
    (h : getFingerprint P n uid ks = getFingerprint P n uid' ks') :
    (uid = uid' ∧ ks.Perm ks') ∨
    ∃ x ∈ hashed P n uid ks, ∃ y ∈ hashed P n uid' ks', x ≠ y ∧ P.sha512 x = P.sha512 y := by
  have hser : ∀ l : List Bytes, (∀ k ∈ l, k.length = 32) → ∀ x ∈ (sortKeys l).map Keys.ser, x.length = 33 := by
    intro l hl x hx
    obtain ⟨k, hk, rfl⟩ := List.mem_map.mp hx
    simp [Keys.ser, hl k ((sortKeys_perm l).mem_iff.mp hk)]
  have hl2 : ((sortKeys ks).map Keys.ser).length = ((sortKeys ks').map Keys.ser).length := by
    simp [(sortKeys_perm ks).length_eq, (sortKeys_perm ks').length_eq, hlen]
  have hflat : ∀ (l : List Bytes), (∀ x ∈ l, x.length = 33) → l.flatten.length = l.length * 33 := by
    intro l
    induction l with
    | nil => intro _; rfl
    | cons x l ih =>
      intro hx
      rw [List.flatten_cons, List.length_append, hx x List.mem_cons_self,
        ih (fun y hy => hx y (List.mem_cons_of_mem _ hy)), List.length_cons]
      omega
  have hlog : (logicalKeyBytes ks).length = (logicalKeyBytes ks').length := by
    unfold logicalKeyBytes
    rw [hflat _ (hser ks hk), hflat _ (hser ks' hk'), hl2]
  obtain ⟨m, rfl⟩ : ∃ m, n = m + 1 := ⟨n - 1, by omega⟩
  rcases rounds_commit P _ _ _ _ hlog m h with ⟨h1, h2⟩ | ⟨i, hi, h1, h2⟩
  · left
    have h3 := (List.append_inj' h1 hlog).1
    rw [h2] at h3
    refine ⟨List.append_cancel_left h3, ?_⟩
    have h4 := flatten_inj _ _ hl2 (hser ks hk) (hser ks' hk') h2
    have h5 : sortKeys ks = sortKeys ks' := by
      have : Function.Injective (fun k : Bytes => Keys.ser k) := by
        intro a b hab; simpa [Keys.ser] using hab
      exact List.map_injective_iff.mpr this h4
    exact (sortKeys_perm ks).symm.trans (h5 ▸ sortKeys_perm ks')
  · right
    exact ⟨_, List.mem_map.mpr ⟨i, by simpa using Nat.lt_succ_of_le hi, rfl⟩,
      _, List.mem_map.mpr ⟨i, by simpa using Nat.lt_succ_of_le hi, rfl⟩, h1, h2⟩

/-- With a hash that keeps its input apart the first case applies: different identifiers, different
fingerprints. -/
example : getFingerprint Prims.toy 3 [1] [List.replicate 32 7] ≠ getFingerprint Prims.toy 3 [2] [List.replicate 32 7] := by
  decide +kernel

/-- Any sorting algorithm gives the list the model's insertion sort gives: the modelled choice of
algorithm cannot be observed. -/
theorem C37_sort_algorithm_irrelevant (ks out : List Bytes) (hp : out.Perm ks)
    (hs : out.Pairwise (fun a b => bytesLe (5 :: a) (5 :: b) = true)) : out = sortKeys ks :=
  sorted_unique hs (sortKeys_sorted ks) (hp.trans (sortKeys_perm ks).symm)

/-! ## C38 -/

theorem logical_dec (x : Bytes) (h : x.length < 2 ^ 64) :
    Wire.decFields (Wire.encFields [(1, .len x)]) = some [(1, .len x)] :=
  Wire.decFields_enc _ (by
    intro f hf
    simp only [List.mem_cons, List.not_mem_nil, or_false] at hf
    subst hf
    exact ⟨by decide, by decide, h⟩)

theorem inner_len (x : Bytes) (h : x.length = 32) :
    (Wire.encFields [(1, .len x)]).length < 2 ^ 64 := by
  have t : Wire.encTag 1 2 = [10] := by
    unfold Wire.encTag Wire.encVarint; rfl
  simp only [Wire.encFields, Wire.encField, h, t, List.map_cons, List.map_nil, List.flatten_cons,
    List.flatten_nil, List.length_append, List.length_cons, List.length_nil]
  rw [show Wire.encVarint 32 = [32] by unfold Wire.encVarint; rfl] <;> simp [h]

theorem scan_create {v : Nat} {l r q : Bytes} (hv : v < u32) (h : createQR v l r = .ok q) :
    scanQR q = .ok ⟨some v, some (some (l.take 32)), some (some (r.take 32))⟩ := by
  unfold createQR at h
  split at h
  · cases h
  split at h
  · cases h
  rename_i hl hr
  injection h with h
  subst h
  have l1 : (l.take 32).length = 32 := by simp; omega
  have l2 : (r.take 32).length = 32 := by simp; omega
  have i1 := inner_len _ l1
  have i2 := inner_len _ l2
  have hd := Wire.decFields_enc [(1, .varint v), (2, .len (Wire.encFields [(1, .len (l.take 32))])),
    (3, .len (Wire.encFields [(1, .len (r.take 32))]))] (by
      intro f hf
      simp only [List.mem_cons, List.not_mem_nil, or_false] at hf
      rcases hf with rfl | rfl | rfl
      · refine ⟨by decide, by decide, ?_⟩
        simp only [u32] at hv; omega
      · exact ⟨by decide, by decide, i1⟩
      · exact ⟨by decide, by decide, i2⟩)
  have d1 := logical_dec (l.take 32) (by omega)
  have d2 := logical_dec (r.take 32) (by omega)
  rw [scanQR, hd]
  simp [decLogical, Wire.getAll, Wire.getBytes, Wire.getU32, d1, d2, Nat.mod_eq_of_lt hv]

/-- **C38**, round trip: QR data is produced exactly for fingerprints of at least 32 bytes, and scanning
it yields the version and the first 32 bytes of each fingerprint. -/
theorem C38_round_trip (v : Nat) (l r : Bytes) (hv : v < u32) (hl : 32 ≤ l.length)
    (hr : 32 ≤ r.length) :
    ∃ q, createQR v l r = .ok q ∧
      scanQR q = .ok ⟨some v, some (some (l.take 32)), some (some (r.take 32))⟩ := by
  obtain ⟨q, hq⟩ := createQR_ok v hl hr
  exact ⟨q, hq, scan_create hv hq⟩

/-- **C38**, through the whole function: the QR data of a user names the first halves of both 64-byte
fingerprints, their own as `local`. -/
theorem C38_scan_created (P : Prims) (v : Nat) (lid : Bytes) (lks : List Bytes) (rid : Bytes)
    (rks : List Bytes) (q : Bytes) (hv : v < u32) (h : qr P v lid lks rid rks = .ok q) :
    scanQR q = .ok ⟨some v, some (some ((getFingerprint P 5200 lid lks).take 32)),
      some (some ((getFingerprint P 5200 rid rks).take 32))⟩ := by
  simp only [qr, createFingerprint, Res.bind_eq_ok] at h
  obtain ⟨_, ⟨_, _, q', hq, e⟩, e'⟩ := h
  injection e with e
  subst e
  injection e' with e'
  subst e'
  exact scan_create hv hq

/-- The comparison a scanning client makes: the peer's `remote` is my local fingerprint and the peer's
`local` is the fingerprint I hold for them. The repository has no function for it; the scanned message
is handed to the application (fingerprint/qr_fingerprint.go:49-57). -/
def Matches (mine theirs : Bytes) (c : Combined) : Prop :=
  c.remoteFp = some (some (mine.take 32)) ∧ c.localFp = some (some (theirs.take 32))

/-- **C38**, comparison: the scanned data matches my view exactly when the peer's view (peer-local,
peer-remote) is mine with the roles swapped. -/
theorem C38_match_iff (v : Nat) (mine theirs peerLocal peerRemote q : Bytes) (hv : v < u32)
    (h : createQR v peerLocal peerRemote = .ok q) :
    ∃ c, scanQR q = .ok c ∧ (Matches mine theirs c ↔
      peerLocal.take 32 = theirs.take 32 ∧ peerRemote.take 32 = mine.take 32) := by
  refine ⟨_, scan_create hv h, ?_⟩
  simp only [Matches, Option.some.injEq]
  exact ⟨fun h => ⟨h.2, h.1⟩, fun h => ⟨h.2, h.1⟩⟩

/-- **C38**, distinct views give distinct codes. -/
theorem C38_injective (v w : Nat) (l r l' r' q : Bytes) (hv : v < u32) (hw : w < u32)
    (h : createQR v l r = .ok q) (h' : createQR w l' r' = .ok q) :
    v = w ∧ l.take 32 = l'.take 32 ∧ r.take 32 = r'.take 32 := by
  have e := (scan_create hv h).symm.trans (scan_create hw h')
  injection e with e
  simp only [Combined.mk.injEq, Option.some.injEq] at e
  exact e

/-! ## Concrete cases -/

/-- Two 64-byte fingerprints differing in the first group. -/
def fpA : Bytes := List.replicate 64 1
def fpB : Bytes := 0 :: List.replicate 63 1

example : createNumbers fpA fpB = createNumbers fpB fpA ∧ (createNumbers fpA fpB).isOk = true ∧
    createNumbers fpA fpA = .panic := by decide +kernel

example : createNumbers fpA fpB = .ok (["10305", "10305", "10305", "10305", "10305", "10305",
    "43009", "10305", "10305", "10305", "10305", "10305"].map String.toList) := by decide +kernel

/-- A hash that keeps the first 64 bytes: the iteration is then a fixed point, so whole safety numbers
can be computed. -/
def keep : Prims :=
  { Prims.toy with
    sha512 := fun m => (m ++ List.replicate 64 0).take 64
    sha512_len := by intro m; simp }

theorem keep_fingerprint (uid : Bytes) (ks : List Bytes) (n : Nat) :
    getFingerprint keep (n + 1) uid ks = getFingerprint keep 1 uid ks := by
  induction n with
  | zero => rfl
  | succ n ih =>
    have step : ∀ s k m, repeatedHashing keep s k (m + 1) = keep.sha512 (repeatedHashing keep s k m ++ k) :=
      fun _ _ _ => rfl
    have hl := getFingerprint_length keep (n + 1) uid ks (by omega)
    unfold getFingerprint at hl ih ⊢
    simp only at hl ih ⊢
    rw [step _ _ (n + 1)]
    refine Eq.trans ?_ ih
    change List.take 64 _ = _
    rw [List.append_assoc, List.take_append_of_le_length (by omega), List.take_of_length_le (by omega)]

theorem keep_fingerprint' (uid : Bytes) (ks : List Bytes) (n : Nat) (h : 0 < n) :
    getFingerprint keep n uid ks = getFingerprint keep 1 uid ks := by
  cases n with
  | zero => omega
  | succ n => exact keep_fingerprint uid ks n

/-- Two users for whom the hypothesis of `C36_same_number_partial` holds, and the number both see. -/
example : ∃ n, number keep 1 [65] [[7, 8, 9], [1, 2]] [66] [[3]] = .ok n ∧
    number keep 1 [66] [[3]] [65] [[1, 2], [7, 8, 9]] = .ok n := by
  rw [number, number, C37_key_order keep 1 [66] [[3]] [[3]] [65] [[1, 2], [7, 8, 9]] [[7, 8, 9], [1, 2]] (.refl _) (.swap _ _ _)]
  exact C36_same_number_partial keep 1 1 [65] [[7, 8, 9], [1, 2]] [66] [[3]]
    ⟨0, by decide, by
      rw [keep_fingerprint' _ _ 5200 (by decide), keep_fingerprint' _ _ 5200 (by decide)]; decide +kernel⟩

/-- Unsorted keys really are reordered, so order independence is not about equal lists. -/
example : sortKeys [[2, 0], [1, 9], [1, 3]] = [[1, 3], [1, 9], [2, 0]] ∧
    sortKeys [[1, 9], [2, 0], [1, 3]] = [[1, 3], [1, 9], [2, 0]] := by decide

/-- The hypothesis of `C36_same_number_partial` is met by fingerprints like these. -/
example : ∃ o ∈ [0, 5, 10, 15, 20, 25], value5 fpA o % 100000 ≠ value5 fpB o % 100000 :=
  ⟨0, by decide, by decide +kernel⟩

example : ∃ q, createQR 1 fpA fpB = .ok q ∧ scanQR q
    = .ok ⟨some 1, some (some (List.replicate 32 1)), some (some (0 :: List.replicate 31 1))⟩ :=
  C38_round_trip 1 fpA fpB (by decide) (by decide) (by decide)

end Verif.Props.Fingerprint
