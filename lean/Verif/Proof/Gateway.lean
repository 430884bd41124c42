import Verif.Spec.Gateway
import Verif.Proof.Regex
import Verif.Proof.Encoding
/-! # Lemmas about the gateway -/
namespace Verif.Gateway
open Verif Verif.Keys Verif.Regex Verif.GatewaySpec

theorem chain_replicate {p : UInt8 → Bool} (n : Nat) (s : Bytes) :
    Chain (List.replicate n p) s ↔ s.length = n ∧ ∀ c ∈ s, p c = true := by
  induction n generalizing s with
  | zero =>
    constructor
    · intro h; cases h; simp
    · rintro ⟨h, _⟩
      rw [List.length_eq_zero_iff.1 h]
      exact List.Forall₂.nil
  | succ n ih =>
    rw [List.replicate_succ]
    constructor
    · intro h
      cases h with
      | cons h1 h2 =>
        obtain ⟨h3, h4⟩ := (ih _).1 h2
        refine ⟨by simp [h3], ?_⟩
        intro c hc
        rcases List.mem_cons.1 hc with rfl | hc
        · exact h1
        · exact h4 c hc
    · rintro ⟨h1, h2⟩
      cases s with
      | nil => simp at h1
      | cons a s =>
        exact List.Forall₂.cons (h2 a (by simp)) ((ih s).2 ⟨by simpa using h1, fun c hc => h2 c (by simp [hc])⟩)

theorem lowerHex_iff (c : UInt8) : lowerHex c = true ↔ ∃ n, n < 16 ∧ c = Encoding.hexDigit n := by
  have h : ∀ k, k < 256 → (lowerHex (UInt8.ofNat k) = true ↔ ∃ n, n < 16 ∧ UInt8.ofNat k = Encoding.hexDigit n) := by
    decide +kernel
  have := h c.toNat c.toNat_lt
  rwa [UInt8.ofNat_toNat] at this

theorem hexEncode_of_pairs (n : Nat) (s : Bytes) (hl : s.length = 2 * n) (h : ∀ c ∈ s, lowerHex c = true) :
    ∃ key : Bytes, key.length = n ∧ s = Encoding.hexEncode key := by
  induction n generalizing s with
  | zero =>
    rw [List.length_eq_zero_iff.1 hl]
    exact ⟨[], rfl, rfl⟩
  | succ n ih =>
    match s, hl with
    | a :: b :: r, hl =>
      obtain ⟨key, hk, rfl⟩ := ih r (by simp at hl; omega) (fun c hc => h c (by simp [hc]))
      obtain ⟨x, hx, rfl⟩ := (lowerHex_iff a).1 (h a (by simp))
      obtain ⟨y, hy, rfl⟩ := (lowerHex_iff b).1 (h b (by simp))
      refine ⟨UInt8.ofNat (16 * x + y) :: key, by simp [hk], ?_⟩
      have e : (UInt8.ofNat (16 * x + y)).toNat = 16 * x + y := by
        rw [UInt8.toNat_ofNat']; omega
      simp only [Encoding.hexEncode, e]
      rw [show (16 * x + y) / 16 = x by omega, show (16 * x + y) % 16 = y by omega]

theorem hexEncode_lower (b : Bytes) : ∀ c ∈ Encoding.hexEncode b, lowerHex c = true := by
  induction b with
  | nil => simp [Encoding.hexEncode]
  | cons a b ih =>
    intro c hc
    have := a.toNat_lt
    simp only [Encoding.hexEncode, List.mem_cons] at hc
    rcases hc with rfl | rfl | hc
    · exact (lowerHex_iff _).2 ⟨_, by omega, rfl⟩
    · exact (lowerHex_iff _).2 ⟨_, by omega, rfl⟩
    · exact ih c hc

theorem groupRe_iff (s : Bytes) : groupRe.matches' s = true ↔ IsGroupKey s := by
  rw [matches_iff, groupRe, chain_times_end, chain_replicate]
  constructor
  · rintro ⟨h1, h2⟩
    exact hexEncode_of_pairs 32 s h1 h2
  · rintro ⟨key, hk, rfl⟩
    exact ⟨by rw [Encoding.hexEncode_length, hk], hexEncode_lower key⟩

theorem star_cls {p : UInt8 → Bool} (s : Bytes) : Lang (.star (.cls p)) s ↔ ∀ c ∈ s, p c = true := by
  induction s with
  | nil => simp [Lang.starNil]
  | cons a s ih =>
    constructor
    · intro h
      obtain ⟨x, y, rfl, h1, h2⟩ := Lang.star_cons h _ rfl a s rfl
      obtain ⟨c, e, hc⟩ := Lang.cls_iff.1 h1
      simp only [List.cons.injEq] at e
      obtain ⟨rfl, rfl⟩ := e
      intro d hd
      rcases List.mem_cons.1 hd with rfl | hd
      · exact hc
      · exact ih.1 h2 d hd
    · intro h
      exact Lang.starCons (s := [a]) (.cls (h a (by simp))) (ih.2 (fun c hc => h c (by simp [hc])))

theorem identityRe_iff (s : Bytes) : identityRe.matches' s = true ↔ ∀ c ∈ s, digit c = true := by
  rw [matches_iff, identityRe, star_cls]

theorem lit_iff (t s : Bytes) : Lang (Re.lit t) s ↔ s = t := by
  induction t generalizing s with
  | nil => rw [Re.lit, Lang.eps_iff]
  | cons a t ih =>
    rw [Re.lit, Lang.seq_iff]
    constructor
    · rintro ⟨x, y, rfl, h1, h2⟩
      obtain ⟨c, rfl, hc⟩ := Lang.cls_iff.1 h1
      rw [(ih y).1 h2, eq_of_beq hc]
      rfl
    · rintro rfl
      exact ⟨[a], t, rfl, Lang.cls_iff.2 ⟨a, rfl, by simp⟩, (ih t).2 rfl⟩

theorem anywhere_iff (r : Re) (s : Bytes) : Lang (anywhere r) s ↔ ∃ x y z, s = x ++ y ++ z ∧ Lang r y := by
  unfold anywhere
  rw [Lang.seq_iff]
  constructor
  · rintro ⟨x, t, rfl, _, h⟩
    obtain ⟨y, z, rfl, h, _⟩ := Lang.seq_iff.1 h
    exact ⟨x, y, z, by simp, h⟩
  · rintro ⟨x, y, z, rfl, h⟩
    refine ⟨x, y ++ z, by simp, (star_cls x).2 (fun _ _ => rfl), Lang.seq_iff.2 ⟨y, z, rfl, h, (star_cls z).2 (fun _ _ => rfl)⟩⟩

theorem limitRe_iff (e : Bytes) : limitRe.matches' e = true ↔ ∃ x z, e = x ++ ascii "status code 413" ++ z := by
  rw [matches_iff, limitRe, anywhere_iff]
  constructor
  · rintro ⟨x, y, z, rfl, h⟩
    rw [lit_iff] at h
    exact ⟨x, z, by rw [h]⟩
  · rintro ⟨x, z, rfl⟩
    exact ⟨x, _, z, rfl, (lit_iff _ _).2 rfl⟩

theorem untrustedRe_iff (e : Bytes) : untrustedRe.matches' e = true ↔
    ∃ x d z, d ≠ [] ∧ (∀ c ∈ d, digit c = true) ∧
      e = x ++ (ascii "remote identity " ++ (d ++ ascii " is not trusted")) ++ z := by
  rw [matches_iff, untrustedRe, anywhere_iff]
  constructor
  · rintro ⟨x, y, z, rfl, h⟩
    obtain ⟨a, b, rfl, h1, h2⟩ := Lang.seq_iff.1 h
    obtain ⟨d, c, rfl, h3, h4⟩ := Lang.seq_iff.1 h2
    rw [lit_iff] at h1 h4
    obtain ⟨u, v, rfl, h5, h6⟩ := Lang.seq_iff.1 h3
    obtain ⟨k, rfl, hk⟩ := Lang.cls_iff.1 h5
    rw [star_cls] at h6
    refine ⟨x, [k] ++ v, z, by simp, ?_, by rw [h1, h4]⟩
    intro m hm
    simp only [List.singleton_append, List.mem_cons] at hm
    rcases hm with rfl | hm
    · exact hk
    · exact h6 m hm
  · rintro ⟨x, d, z, hd, hall, rfl⟩
    refine ⟨x, _, z, rfl, Lang.seq_iff.2 ⟨_, _, rfl, (lit_iff _ _).2 rfl, Lang.seq_iff.2 ⟨d, _, rfl, ?_, (lit_iff _ _).2 rfl⟩⟩⟩
    cases d with
    | nil => exact absurd rfl hd
    | cons k v =>
      exact Lang.seq_iff.2 ⟨[k], v, rfl, .cls (hall k (by simp)), (star_cls v).2 (fun c hc => hall c (by simp [hc]))⟩

/-- A text without line ends at either end is not trimmed. -/
theorem trimNl_of (a b : UInt8) (s : Bytes) (ha : a ≠ 10) (hb : b ≠ 10) : trimNl (a :: (s ++ [b])) = a :: (s ++ [b]) := by
  unfold trimNl
  rw [List.dropWhile_cons_of_neg (by simpa using ha)]
  rw [show (a :: (s ++ [b])).reverse = b :: (a :: s).reverse by simp]
  rw [List.dropWhile_cons_of_neg (by simpa using hb)]
  simp

/-! ## What a handler does -/

theorem tmp_ne (n : Bytes) : tmp n ≠ [] := by
  unfold tmp
  rw [show ascii "/tmp/" = [47, 116, 109, 112, 47] by decide +kernel]
  simp

theorem tmp_inj {a b : Bytes} (h : tmp a = tmp b) : a = b := List.append_cancel_left h

theorem success_ne (e : Bytes) : failureWith e ≠ success := by simp [failureWith, success]
theorem failure_ne : failure ≠ success := by simp [failure, success]

theorem answerFor_iff (r : Option Bytes) : answerFor r = success ↔ r = none := by
  cases r with
  | none => simp [answerFor]
  | some e => simp [answerFor, success_ne]

theorem gatewaySend_none (X : Ext) (d m : Bytes) (w : World) :
    gatewaySend X d m [] w =
      ({ w with calls := w.calls ++ [⟨groupRe.matches' d, d, m, none⟩] },
        (X.lib w.calls ⟨groupRe.matches' d, d, m, none⟩).map (report d)) := by
  simp [gatewaySend, callLib]

theorem gatewaySend_file (X : Ext) (d m p c : Bytes) (w : World) (hp : p ≠ []) (hc : w.files p = some c) :
    gatewaySend X d m p w =
      (setFile p none { w with calls := w.calls ++ [⟨groupRe.matches' d, d, m, some c⟩] },
        (X.lib w.calls ⟨groupRe.matches' d, d, m, some c⟩).map (report d)) := by
  simp [gatewaySend, callLib, hp, hc]

/-- The outcome of the form handler on a complete request: the attachment that is sent and the files afterwards. -/
theorem formHandler_complete (X : Ext) (f : Form) (w : World) (hp : f.post = true) (hm : f.message ≠ []) (hd : f.dest ≠ []) :
    ∃ att files, formHandler X f w =
      (⟨files, w.calls ++ [⟨groupRe.matches' f.dest, f.dest, f.message, att⟩]⟩,
        answerFor ((X.lib w.calls ⟨groupRe.matches' f.dest, f.dest, f.message, att⟩).map (report f.dest))) ∧
      ((att = none ∧ files = w.files ∧ (∀ n c, f.file = some (n, c) → X.writable (tmp n) = false)) ∨
        ∃ n c, f.file = some (n, c) ∧ X.writable (tmp n) = true ∧
          att = some (c ++ ((w.files (tmp n)).getD []).drop c.length) ∧
          ∀ q, files q = if q = tmp n then none else w.files q) := by
  unfold formHandler
  rw [if_neg (by simp [hp])]
  simp only [hm, hd, ne_eq, not_false_eq_true, and_self, if_true]
  rcases hf : f.file with _ | ⟨n, c⟩
  · refine ⟨none, w.files, ?_, .inl ⟨rfl, rfl, by simp⟩⟩
    simp only [storeUpload, gatewaySend_none]
  · by_cases hw : X.writable (tmp n) = true
    · refine ⟨some (c ++ ((w.files (tmp n)).getD []).drop c.length),
        fun q => if q = tmp n then none else w.files q, ?_, .inr ⟨n, c, rfl, hw, rfl, fun q => rfl⟩⟩
      simp only [storeUpload, hw, if_true]
      rw [gatewaySend_file X f.dest f.message (tmp n) (c ++ ((w.files (tmp n)).getD []).drop c.length) _ (tmp_ne n)
        (by simp [setFile])]
      simp only [setFile]
      congr 2
      funext q
      by_cases hq : q = tmp n <;> simp [hq]
    · refine ⟨none, w.files, ?_, .inl ⟨rfl, rfl, ?_⟩⟩
      · simp only [storeUpload, hw]
        exact congrArg (fun r : World × Option Bytes => (r.1, answerFor r.2)) (gatewaySend_none X f.dest f.message w)
      · intro n' c' h
        simp only [Option.some.injEq, Prod.mk.injEq] at h
        rw [← h.1]
        simpa using hw

theorem foldl_plain (s : Bytes) (h : Plain s) : s.foldl J.step .inStr = .inStr := by
  induction s with
  | nil => rfl
  | cons a s ih =>
    rw [List.foldl_cons]
    obtain ⟨h1, h2, h3⟩ := h a (by simp)
    have e : J.step .inStr a = .inStr := by
      have h4 : ¬ a < 32 := UInt8.not_lt.2 h1
      simp [J.step, inText, h2, h3, h4]
    rw [e]
    exact ih (fun c hc => h c (by simp [hc]))

theorem split_ne (s : Bytes) : split s ≠ [] := by
  cases s with
  | nil => simp [split]
  | cons a s =>
    unfold split
    split
    · simp
    · split <;> simp

theorem split_plain (s : Bytes) (h : 58 ∉ s) : split s = [s] := by
  induction s with
  | nil => rfl
  | cons a s ih =>
    simp only [List.mem_cons, not_or] at h
    unfold split
    rw [if_neg (fun e => h.1 e.symm), ih h.2]

theorem split_append (s t : Bytes) (h : 58 ∉ s) : split (s ++ 58 :: t) = s :: split t := by
  induction s with
  | nil => simp [split]
  | cons a s ih =>
    simp only [List.mem_cons, not_or] at h
    rw [List.cons_append, split, if_neg (fun e => h.1 e.symm), ih h.2]

/-- The text contains `co`; the first argument tells whether a `c` stands before it. -/
def hasCo : Bool → Bytes → Bool
  | _, [] => false
  | p, c :: r => (p && c == 111) || hasCo (c == 99) r

theorem hasCo_mid (x z : Bytes) (p : Bool) : hasCo p (x ++ (99 :: 111 :: z)) = true := by
  induction x generalizing p with
  | nil => simp [hasCo]
  | cons a x ih => rw [List.cons_append, hasCo, ih, Bool.or_true]

theorem hasCo_skip (d t : Bytes) (h : ∀ c ∈ d, c ≠ 111) (h1 : hasCo true t = false) (h2 : hasCo false t = false) :
    hasCo false (d ++ t) = false := by
  suffices ∀ p, hasCo p (d ++ t) = false from this false
  induction d with
  | nil => intro p; cases p <;> assumption
  | cons a d ih =>
    intro p
    rw [List.cons_append, hasCo, ih (fun c hc => h c (by simp [hc]))]
    have := h a (by simp)
    simp [this]

theorem digit_plain (c : UInt8) (h : digit c = true) : 32 ≤ c ∧ c ≠ 34 ∧ c ≠ 92 := by
  have key : ∀ k, k < 256 → digit (UInt8.ofNat k) = true → 32 ≤ UInt8.ofNat k ∧ UInt8.ofNat k ≠ 34 ∧ UInt8.ofNat k ≠ 92 := by
    decide +kernel
  have := key c.toNat c.toNat_lt
  rw [UInt8.ofNat_toNat] at this
  exact this h

end Verif.Gateway
