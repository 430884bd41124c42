import Verif.Spec.Ratchet
import Verif.Proof.Protocol
/-!
# Lemmas for C163
-/
namespace Verif.Ratchet
open Verif Verif.Keys Verif.Messages Verif.Session Verif.Api Verif.Names Verif.Conv Verif.Theft Verif.Protocol

/-! ## Messages -/

theorem sealed_eq (P : Prims) (ck : Bytes) (ratchet : Bytes) (n pn : Nat) (s r pt : Bytes) :
    sealed P (keyOf P (later P ck n) 0) ratchet n pn s r pt = message P ck ratchet n pn s r pt := by
  rw [keyOf_later]
  rfl

theorem openWith_of {P : Prims} {g : Epoch} {c : Nat} {s r pt : Bytes} {m : WhisperMsg} (h : IsMsg P g c s r pt m) :
    openWith P (keyOf P g.ck.key c) s r m = some pt := by
  obtain ⟨h1, h2⟩ := h.opens
  rw [← keyOf_msgKeys]
  unfold openWith
  simp only [h2]
  rw [if_pos]
  unfold verifyMac getMac Cbc.truncMAC macLength at h1
  rw [h.version] at h1
  simp only [ge_iff_le, Nat.le_refl, if_true, beq_iff_eq] at h1
  exact h1

/-! ## Skipping -/

theorem skipLoop_eq (P : Prims) (k d : Bytes) : ∀ (n : Nat) (s : State), s.CKr = some (later P k s.Nr) → s.DHr = some d →
    ∃ l, skipLoop P n s = { s with CKr := some (later P k (s.Nr + n)), Nr := s.Nr + n, MKSKIPPED := l ++ s.MKSKIPPED } ∧
      ∀ x, x ∈ l ↔ ∃ j, s.Nr ≤ j ∧ j < s.Nr + n ∧ x = ((d, j), keyOf P k j)
  | 0, s, hc, hd => ⟨[], by simp [skipLoop, ← hc], fun x => by
      constructor
      · intro h; cases h
      · rintro ⟨j, h1, h2, _⟩; omega⟩
  | n + 1, s, hc, hd => by
    obtain ⟨l, h1, h2⟩ := skipLoop_eq P k d n
      { s with CKr := some (kdfCK P (later P k s.Nr)).1, Nr := s.Nr + 1, MKSKIPPED := ((d, s.Nr), (kdfCK P (later P k s.Nr)).2) :: s.MKSKIPPED }
      rfl hd
    refine ⟨l ++ [((d, s.Nr), keyOf P k s.Nr)], ?_, fun x => ?_⟩
    · unfold skipLoop
      rw [hd] at h1
      rw [hc, hd]
      simp only
      rw [h1]
      simp only [kdfCK, keyOf_later, Nat.add_zero, List.append_assoc, List.singleton_append,
        show s.Nr + 1 + n = s.Nr + (n + 1) by omega]
    · rw [List.mem_append, h2, List.mem_singleton]
      constructor
      · rintro (⟨j, a, b, c⟩ | h)
        · simp only at a b; exact ⟨j, by omega, by omega, c⟩
        · exact ⟨s.Nr, by omega, by omega, h⟩
      · rintro ⟨j, a, b, c⟩
        by_cases hj : j = s.Nr
        · subst hj; exact Or.inr c
        · exact Or.inl ⟨j, by simp only; omega, by simp only; omega, c⟩

/-! ## The peer's state in step with the conversation -/

/-- Up to where the keys of an epoch have been derived by a peer sending in epoch `n`. -/
def bound (log : List AMsg) (acc : List (Nat × Nat)) (n e : Nat) : Nat :=
  if e + 1 = n then pos acc e else max (count log e) 1

structure At (P : Prims) (G : List Epoch) (log : List AMsg) (acc : List (Nat × Nat)) (n : Nat) (s : State) : Prop where
  key : ∃ g, G[n]? = some g ∧ s.DHs = g.kp ∧ s.RK = g.root ∧ (n ≠ 0 → s.CKs = some (later P g.ck.key (count log n)))
  ns : s.Ns = count log n
  pn : s.PN = if n < 2 then 0 else count log (n - 2)
  start : n < 2 → s.CKr = none ∧ s.Nr = 0 ∧ ∀ d, s.DHr = some d → ∃ g0, G[0]? = some g0 ∧ d = g0.kp.pub
  recv : 2 ≤ n → ∃ g, G[n - 1]? = some g ∧ s.DHr = some g.kp.pub ∧
    s.CKr = some (later P g.ck.key (pos acc (n - 1))) ∧ s.Nr = pos acc (n - 1)
  skipped : ∀ x, x ∈ s.MKSKIPPED ↔ ∃ e g j, G[e]? = some g ∧ x = ((g.kp.pub, j), keyOf P g.ck.key j) ∧ e ≠ 0 ∧
    e < n ∧ e % 2 ≠ n % 2 ∧ (e, j) ∉ acc ∧ j < bound log acc n e
  gap : ∀ e, e ≠ 0 → e + 1 < n → e % 2 ≠ n % 2 → count log e ≤ pos acc e + 2000

/-- A message of the other party is sent. -/
theorem At.log {P G log acc n s} (h : At P G log acc n s) (m : AMsg) (h1 : m.epoch % 2 ≠ n % 2) (h2 : n ≤ m.epoch + 1) :
    At P G (log ++ [m]) acc n s := by
  have hc : ∀ e, e ≠ m.epoch → count (log ++ [m]) e = count log e := fun e he => by
    rw [count_append, if_neg (Ne.symm he), Nat.add_zero]
  have hb : ∀ e, e < n → e % 2 ≠ n % 2 → bound (log ++ [m]) acc n e = bound log acc n e := fun e he hp => by
    unfold bound
    split
    · rfl
    · rw [hc e (by omega)]
  obtain ⟨k, a, b, c, d, e, f⟩ := h
  refine ⟨by rw [hc n (by omega)]; exact k, by rw [hc n (by omega)]; exact a, ?_, c, d, fun x => ?_, fun e h0 he hp => ?_⟩
  · rw [b]
    split
    · rfl
    · rw [hc _ (by omega)]
  · rw [e]
    constructor
    · rintro ⟨e, g, j, q1, q2, q3, q4, q5, q6, q7⟩
      exact ⟨e, g, j, q1, q2, q3, q4, q5, q6, by rw [hb e q4 q5]; exact q7⟩
    · rintro ⟨e, g, j, q1, q2, q3, q4, q5, q6, q7⟩
      exact ⟨e, g, j, q1, q2, q3, q4, q5, q6, by rw [hb e q4 q5] at q7; exact q7⟩
  · rw [hc e (by omega)]
    exact f e h0 he hp

/-- The other party reads a message. -/
theorem At.acc {P G log acc n s} (h : At P G log acc n s) (e0 c0 : Nat) (h1 : e0 % 2 = n % 2) :
    At P G log ((e0, c0) :: acc) n s := by
  have hp : ∀ e, e % 2 ≠ n % 2 → pos ((e0, c0) :: acc) e = pos acc e := fun e he =>
    pos_cons_ne _ _ _ _ (fun h => by subst h; exact he h1)
  have hm : ∀ e j, e % 2 ≠ n % 2 → ((e, j) ∈ (e0, c0) :: acc ↔ (e, j) ∈ acc) := fun e j he => by
    rw [List.mem_cons]
    constructor
    · rintro (h | h)
      · injection h with h; subst h; exact absurd h1 he
      · exact h
    · exact Or.inr
  have hb : ∀ e, e % 2 ≠ n % 2 → bound log ((e0, c0) :: acc) n e = bound log acc n e := fun e he => by
    unfold bound
    rw [hp e he]
  obtain ⟨k, a, b, c, d, e, f⟩ := h
  refine ⟨k, a, b, c, fun h2 => ?_, fun x => ?_, fun e h0 he hpe => ?_⟩
  · rw [hp _ (by omega)]
    exact d h2
  · rw [e]
    constructor
    · rintro ⟨e, g, j, q1, q2, q3, q4, q5, q6, q7⟩
      exact ⟨e, g, j, q1, q2, q3, q4, q5, by rw [hm e j q5]; exact q6, by rw [hb e q5]; exact q7⟩
    · rintro ⟨e, g, j, q1, q2, q3, q4, q5, q6, q7⟩
      exact ⟨e, g, j, q1, q2, q3, q4, q5, by rw [hm e j q5] at q6; exact q6, by rw [hb e q5] at q7; exact q7⟩
  · rw [hp e hpe]
    exact f e h0 he hpe

/-- A new epoch begins elsewhere. -/
theorem At.extend {P G log acc n s} (h : At P G log acc n s) (l : List Epoch) : At P (G ++ l) log acc n s := by
  obtain ⟨⟨g, hg, hk⟩, a, b, c, d, e, f⟩ := h
  have hlt := (List.getElem?_eq_some_iff.mp hg).1
  have hl : ∀ i, i ≤ n → (G ++ l)[i]? = G[i]? := fun i hi => List.getElem?_append_left (by omega)
  refine ⟨⟨g, by rw [hl n (Nat.le_refl _)]; exact hg, hk⟩, a, b, ?_, ?_, fun x => ?_, f⟩
  · rw [hl 0 (by omega)]; exact c
  · rw [hl (n - 1) (by omega)]; exact d
  · rw [e]
    constructor
    · rintro ⟨e, g, j, q1, q2⟩
      exact ⟨e, g, j, by rw [hl e (by omega)]; exact q1, q2⟩
    · rintro ⟨e, g, j, q1, q2⟩
      exact ⟨e, g, j, by rw [hl e (by omega)] at q1; exact q1, q2⟩

/-- The peer sends. -/
theorem At.send {P G log acc n s} (h : At P G log acc n s) (h0 : n ≠ 0) (N : Numbering) (me them pt : Bytes) (g : Epoch)
    (hg : G[n]? = some g) :
    ∃ s', encrypt P N me them s pt = some (message P g.ck.key g.kp.pub (count log n)
        (N.write (if n < 2 then 0 else count log (n - 2))) me them pt, s') ∧
      At P G (log ++ [⟨n, count log n, pt⟩]) acc n s' ∧ s'.CKr = s.CKr := by
  obtain ⟨⟨g', hg', k1, k2, k3⟩, a, b, c, d, e, f⟩ := h
  rw [hg] at hg'
  injection hg' with hg'
  subst hg'
  have hc : ∀ e, e ≠ n → count (log ++ [⟨n, count log n, pt⟩]) e = count log e := fun e he => by
    rw [count_append, if_neg (Ne.symm he), Nat.add_zero]
  have hn : count (log ++ [⟨n, count log n, pt⟩]) n = count log n + 1 := by rw [count_append, if_pos rfl]
  have hb : ∀ e, e < n → bound (log ++ [⟨n, count log n, pt⟩]) acc n e = bound log acc n e := fun e he => by
    unfold bound
    rw [hc e (by omega)]
  refine ⟨{ s with CKs := some (kdfCK P (later P g.ck.key (count log n))).1, Ns := s.Ns + 1 }, ?_, ?_, rfl⟩
  · unfold encrypt
    rw [k3 h0]
    simp only [kdfCK, k1, a, b]
    rw [sealed_eq]
  · refine ⟨⟨g, hg, k1, k2, fun _ => ?_⟩, ?_, ?_, c, d, fun x => ?_, fun e h0 he hp => ?_⟩
    · rw [hn]; rfl
    · rw [hn]; simp only [a]
    · simp only [b]
      split
      · rfl
      · rw [hc _ (by omega)]
    · simp only
      rw [e]
      constructor
      · rintro ⟨e, g, j, q1, q2, q3, q4, q5⟩
        exact ⟨e, g, j, q1, q2, q3, q4, by rw [hb e q4]; exact q5⟩
      · rintro ⟨e, g, j, q1, q2, q3, q4, q5⟩
        exact ⟨e, g, j, q1, q2, q3, q4, by rw [hb e q4] at q5; exact q5⟩
    · rw [hc e (by omega)]
      exact f e h0 he hp

/-! ## Reading -/

theorem pos_mem (acc : List (Nat × Nat)) (e j : Nat) (h : (e, j) ∈ acc) : j < pos acc e := by
  induction acc with
  | nil => cases h
  | cons a l ih =>
    obtain ⟨e', c⟩ := a
    unfold pos
    rcases List.mem_cons.mp h with h' | h'
    · injection h' with h1 h2
      subst h1
      subst h2
      rw [if_pos rfl]
      omega
    · have := ih h'
      split
      · omega
      · exact this

/-- The store of skipped keys, for a message of an epoch. -/
theorem At.find {P G log acc n s} (h : At P G log acc n s) (hC : Chain P G) (e c : Nat) (g : Epoch) (hg : G[e]? = some g) :
    (e ≠ 0 ∧ e < n ∧ e % 2 ≠ n % 2 ∧ (e, c) ∉ acc ∧ c < bound log acc n e →
      s.MKSKIPPED.find? (fun x => decide (x.1 = (g.kp.pub, c))) = some ((g.kp.pub, c), keyOf P g.ck.key c)) ∧
    (¬ (e ≠ 0 ∧ e < n ∧ e % 2 ≠ n % 2 ∧ (e, c) ∉ acc ∧ c < bound log acc n e) →
      s.MKSKIPPED.find? (fun x => decide (x.1 = (g.kp.pub, c))) = none) := by
  have key : ∀ x ∈ s.MKSKIPPED, x.1 = (g.kp.pub, c) → x = ((g.kp.pub, c), keyOf P g.ck.key c) ∧
      (e ≠ 0 ∧ e < n ∧ e % 2 ≠ n % 2 ∧ (e, c) ∉ acc ∧ c < bound log acc n e) := by
    intro x hx h1
    obtain ⟨e', g', j, q1, q2, q3⟩ := (h.skipped x).mp hx
    rw [q2] at h1
    simp only [Prod.mk.injEq] at h1
    have he := hC.inj q1 hg h1.1
    subst he
    rw [hg] at q1
    injection q1 with q1
    subst q1
    obtain ⟨_, h2⟩ := h1
    subst h2
    exact ⟨q2, q3⟩
  constructor
  · intro hh
    have hmem : ((g.kp.pub, c), keyOf P g.ck.key c) ∈ s.MKSKIPPED := (h.skipped _).mpr ⟨e, g, c, hg, rfl, hh⟩
    cases hf : s.MKSKIPPED.find? (fun x => decide (x.1 = (g.kp.pub, c))) with
    | none => exact absurd (List.find?_eq_none.mp hf _ hmem) (by simp)
    | some x =>
      have h1 := List.find?_some hf
      exact congrArg some (key x (List.mem_of_find?_eq_some hf) (by simpa using h1)).1
  · intro hh
    rw [List.find?_eq_none]
    intro x hx h1
    exact hh (key x hx (by simpa using h1)).2

/-- A message whose key is kept. -/
theorem read_kept {P : Prims} {G log acc n s} (hC : Chain P G) (h : At P G log acc n s) (N : Numbering) (me them pt : Bytes)
    (fresh : KeyPair) (e c : Nat) (g : Epoch) (hg : G[e]? = some g) (wm : WhisperMsg) (hm : IsMsg P g c them me pt wm)
    (hh : e ≠ 0 ∧ e < n ∧ e % 2 ≠ n % 2 ∧ (e, c) ∉ acc ∧ c < bound log acc n e) :
    ∃ s', decrypt P N me them fresh s wm = some (pt, s') ∧ At P G log ((e, c) :: acc) n s' := by
  have hf := (h.find hC e c g hg).1 hh
  obtain ⟨h0, h1, h2, h3, h4⟩ := hh
  refine ⟨{ s with MKSKIPPED := s.MKSKIPPED.filter (fun x => decide (x.1 ≠ (g.kp.pub, c))) }, ?_, ?_⟩
  · unfold decrypt
    rw [hm.ratchet, hm.counter, hf]
    simp only
    rw [openWith_of hm]
    rfl
  · obtain ⟨k, a, b, c1, d, e1, f⟩ := h
    have hpos : e + 1 = n → pos ((e, c) :: acc) e = pos acc e := fun he => by
      rw [pos_cons_eq]
      unfold bound at h4
      rw [if_pos he] at h4
      omega
    have hb : ∀ e', bound log ((e, c) :: acc) n e' = bound log acc n e' := fun e' => by
      unfold bound
      by_cases he : e' = e
      · subst he
        split
        · rename_i hn; exact hpos hn
        · rfl
      · rw [pos_cons_ne _ _ _ _ (Ne.symm he)]
    refine ⟨k, a, b, c1, fun hn => ?_, fun x => ?_, fun e' h0' he hp => ?_⟩
    · obtain ⟨g', q1, q2, q3, q4⟩ := d hn
      have hpp : pos ((e, c) :: acc) (n - 1) = pos acc (n - 1) := by
        by_cases he : e = n - 1
        · subst he; exact hpos (by omega)
        · exact pos_cons_ne _ _ _ _ he
      rw [hpp]
      exact ⟨g', q1, q2, q3, q4⟩
    · rw [List.mem_filter, e1]
      simp only [decide_eq_true_eq]
      constructor
      · rintro ⟨⟨e', g', j, q1, q2, q3, q4, q5, q6, q7⟩, hne⟩
        refine ⟨e', g', j, q1, q2, q3, q4, q5, ?_, by rw [hb]; exact q7⟩
        intro hin
        rcases List.mem_cons.mp hin with h' | h'
        · injection h' with h1' h2'
          subst h1'
          subst h2'
          rw [hg] at q1
          injection q1 with q1
          subst q1
          exact hne (by rw [q2])
        · exact q6 h'
      · rintro ⟨e', g', j, q1, q2, q3, q4, q5, q6, q7⟩
        refine ⟨⟨e', g', j, q1, q2, q3, q4, q5, fun hin => q6 (List.mem_cons_of_mem _ hin), by rw [hb] at q7; exact q7⟩, ?_⟩
        rw [q2]
        intro hk
        simp only [Prod.mk.injEq] at hk
        have he := hC.inj q1 hg hk.1
        subst he
        obtain ⟨_, hk2⟩ := hk
        subst hk2
        exact q6 List.mem_cons_self
    · have := f e' h0' he hp
      by_cases hee : e' = e
      · subst hee
        rw [pos_cons_eq]
        omega
      · rw [pos_cons_ne _ _ _ _ (Ne.symm hee)]
        exact this

/-- Reading message number `c` of the receiving chain. -/
theorem inChain_eq {P : Prims} (k d : Bytes) (s : State) (me them : Bytes) (wm : WhisperMsg) (hc : s.CKr = some (later P k s.Nr))
    (hd : s.DHr = some d) (hge : s.Nr ≤ wm.counter) :
    (s.Nr + 2000 < wm.counter → inChain P me them wm s = none) ∧
    (¬ s.Nr + 2000 < wm.counter → ∃ l, (∀ x, x ∈ l ↔ ∃ j, s.Nr ≤ j ∧ j < wm.counter ∧ x = ((d, j), keyOf P k j)) ∧
      inChain P me them wm s = (openWith P (keyOf P k wm.counter) them me wm).map (fun pt =>
        (pt, { s with CKr := some (later P k (wm.counter + 1)), Nr := wm.counter + 1, MKSKIPPED := l ++ s.MKSKIPPED }))) := by
  constructor
  · intro h
    unfold inChain skipKeys
    rw [if_pos h]
    rfl
  · intro h
    obtain ⟨l, h1, h2⟩ := skipLoop_eq P k d (wm.counter - s.Nr) s hc hd
    rw [show s.Nr + (wm.counter - s.Nr) = wm.counter by omega] at h1 h2
    refine ⟨l, h2, ?_⟩
    unfold inChain skipKeys
    rw [if_neg h, if_neg (by simp [hc]), h1]
    simp only [Option.bind_some, kdfCK, keyOf_later, Nat.add_zero]
    rfl

/-- A message of the present chain, not skipped before. -/
theorem read_present {P : Prims} {G log acc n s} (hC : Chain P G) (h : At P G log acc n s) (N : Numbering) (me them pt : Bytes)
    (fresh : KeyPair) (c : Nat) (hn : 2 ≤ n) (g : Epoch) (hg : G[n - 1]? = some g) (wm : WhisperMsg)
    (hm : IsMsg P g c them me pt wm) (hge : pos acc (n - 1) ≤ c) (hnew : ∀ j, (n - 1, j) ∈ acc → j < pos acc (n - 1)) :
    (pos acc (n - 1) + 2000 < c → decrypt P N me them fresh s wm = none) ∧
    (¬ pos acc (n - 1) + 2000 < c →
      ∃ s', decrypt P N me them fresh s wm = some (pt, s') ∧ At P G log ((n - 1, c) :: acc) n s') := by
  have hbn : ∀ acc', bound log acc' n (n - 1) = pos acc' (n - 1) := fun acc' => by
    unfold bound
    rw [if_pos (by omega)]
  have hf := (h.find hC (n - 1) c g hg).2 (fun hh => by
    have := hh.2.2.2.2
    rw [hbn] at this
    omega)
  obtain ⟨k, a, b, c1, d, e1, f⟩ := h
  obtain ⟨g', q1, q2, q3, q4⟩ := d hn
  rw [hg] at q1
  injection q1 with q1
  subst q1
  have hdec : decrypt P N me them fresh s wm = inChain P me them wm s := by
    unfold decrypt
    rw [hm.ratchet, hm.counter, hf]
    simp only
    rw [if_pos q2]
  have hch := inChain_eq (P := P) g.ck.key g.kp.pub s me them wm (by rw [q4]; exact q3) q2
    (by rw [q4, hm.counter]; exact hge)
  rw [q4, hm.counter] at hch
  constructor
  · intro hlt
    rw [hdec]
    exact hch.1 hlt
  · intro hle
    obtain ⟨l, hl, hres⟩ := hch.2 hle
    rw [openWith_of hm] at hres
    have hpp : pos ((n - 1, c) :: acc) (n - 1) = c + 1 := by rw [pos_cons_eq]; omega
    have hbo : ∀ e', e' ≠ n - 1 → bound log ((n - 1, c) :: acc) n e' = bound log acc n e' := fun e' he => by
      unfold bound
      rw [pos_cons_ne _ _ _ _ (Ne.symm he)]
    refine ⟨{ s with CKr := some (later P g.ck.key (c + 1)), Nr := c + 1, MKSKIPPED := l ++ s.MKSKIPPED },
      by rw [hdec, hres]; rfl, k, a, b, fun h2 => absurd h2 (by omega), fun _ => ?_, fun x => ?_, fun e' h0' he hp => ?_⟩
    · exact ⟨g, hg, q2, by rw [hpp], by rw [hpp]⟩
    · simp only
      rw [List.mem_append, hl, e1]
      constructor
      · rintro (⟨j, p1, p2, p3⟩ | ⟨e', g', j, p1, p2, p3, p4, p5, p6, p7⟩)
        · refine ⟨n - 1, g, j, hg, p3, by omega, by omega, by omega, ?_, by rw [hbn, hpp]; omega⟩
          intro hin
          rcases List.mem_cons.mp hin with h' | h'
          · injection h' with _ h'; omega
          · have := hnew j h'; omega
        · refine ⟨e', g', j, p1, p2, p3, p4, p5, ?_, ?_⟩
          · intro hin
            rcases List.mem_cons.mp hin with h' | h'
            · injection h' with h1 h2
              subst h1
              rw [hbn] at p7
              omega
            · exact p6 h'
          · by_cases he : e' = n - 1
            · subst he
              rw [hbn] at p7 ⊢
              omega
            · rw [hbo e' he]; exact p7
      · rintro ⟨e', g', j, p1, p2, p3, p4, p5, p6, p7⟩
        by_cases he : e' = n - 1
        · subst he
          rw [hg] at p1
          injection p1 with p1
          subst p1
          by_cases hj : pos acc (n - 1) ≤ j
          · refine Or.inl ⟨j, hj, ?_, p2⟩
            rw [hbn, hpp] at p7
            by_cases hjc : j = c
            · subst hjc; exact absurd List.mem_cons_self p6
            · omega
          · exact Or.inr ⟨n - 1, g, j, hg, p2, p3, p4, p5, fun h' => p6 (List.mem_cons_of_mem _ h'), by rw [hbn]; omega⟩
        · exact Or.inr ⟨e', g', j, p1, p2, p3, p4, p5, fun h' => p6 (List.mem_cons_of_mem _ h'), by rw [hbo e' he] at p7; exact p7⟩
    · rw [pos_cons_ne _ _ _ _ (by omega)]
      exact f e' h0' he hp

/-- The keys left over of a chain when the next one begins. -/
theorem skip_rest {P : Prims} {G log acc n s} (h : At P G log acc n s) (till : Nat) (h1 : n < 2 → till ≤ 2000)
    (h2 : 2 ≤ n → till ≤ pos acc (n - 1) + 2000) (h3 : 2 ≤ n → pos acc (n - 1) ≤ till) :
    ∃ s1, skipKeys P s till = some s1 ∧ s1.DHs = s.DHs ∧ s1.RK = s.RK ∧ s1.Ns = s.Ns ∧
      ∀ x, x ∈ s1.MKSKIPPED ↔ x ∈ s.MKSKIPPED ∨
        2 ≤ n ∧ ∃ g j, G[n - 1]? = some g ∧ pos acc (n - 1) ≤ j ∧ j < till ∧ x = ((g.kp.pub, j), keyOf P g.ck.key j) := by
  by_cases hn : n < 2
  · obtain ⟨q1, q2, _⟩ := h.start hn
    refine ⟨s, ?_, rfl, rfl, rfl, fun x => ⟨Or.inl, ?_⟩⟩
    · unfold skipKeys
      rw [if_neg (by have := h1 hn; omega), if_pos q1]
    · rintro (h' | h')
      · exact h'
      · omega
  · obtain ⟨g, q1, q2, q3, q4⟩ := h.recv (by omega)
    obtain ⟨l, r1, r2⟩ := skipLoop_eq P g.ck.key g.kp.pub (till - s.Nr) s (by rw [q4]; exact q3) q2
    have ht : s.Nr + (till - s.Nr) = till := by rw [q4]; have := h3 (by omega); omega
    rw [ht] at r1 r2
    refine ⟨{ s with CKr := some (later P g.ck.key till), Nr := till, MKSKIPPED := l ++ s.MKSKIPPED }, ?_, ?_⟩
    · unfold skipKeys
      rw [if_neg (by have := h2 (by omega); omega), if_neg (by simp [q3]), r1]
    · refine ⟨rfl, rfl, rfl, fun x => ?_⟩
      simp only
      rw [List.mem_append, r2]
      constructor
      · rintro (⟨j, p1, p2, p3⟩ | h')
        · exact Or.inr ⟨by omega, g, j, q1, by omega, p2, p3⟩
        · exact Or.inl h'
      · rintro (h' | ⟨_, g', j, p1, p2, p3, p4⟩)
        · exact Or.inr h'
        · rw [q1] at p1
          injection p1 with p1
          subst p1
          exact Or.inl ⟨j, by omega, p3, p4⟩

/-- The first message of a new chain. -/
theorem read_new {P : Prims} {G log acc n s} (hC : Chain P G) (h : At P G log acc n s) (me them pt : Bytes)
    (fresh : KeyPair) (c : Nat) (g g' : Epoch) (hg : G[n + 1]? = some g) (hlen : G.length = n + 2) (wm : WhisperMsg)
    (hm : IsMsg P g c them me pt wm) (hprev : wm.prevCounter = prevOf log (n + 1)) (hlog0 : count log 0 = 0)
    (hC' : Chain P (G ++ [g'])) (hg' : g'.kp = fresh) (hnew : ∀ x ∈ acc, x.1 ≠ n + 1) (hc2 : count log (n + 2) = 0)
    (hacc : ∀ e, pos acc e ≤ count log e) (hgap : prevOf log (n + 1) + 1 ≤ pos acc (n - 1) + 2000) :
    (2000 < c → decrypt P customary me them fresh s wm = none) ∧
    (¬ 2000 < c → ∃ s', decrypt P customary me them fresh s wm = some (pt, s') ∧
      At P (G ++ [g']) log ((n + 1, c) :: acc) (n + 2) s') := by
  have hf := (h.find hC (n + 1) c g hg).2 (fun hh => by omega)
  have hd : s.DHr ≠ some wm.ratchetKey := by
    rw [hm.ratchet]
    intro hd
    by_cases hn : n < 2
    · obtain ⟨g0, p1, p2⟩ := (h.start hn).2.2 _ hd
      have := hC.inj hg p1 p2
      omega
    · obtain ⟨g1, p1, p2, _⟩ := h.recv (by omega)
      rw [p2] at hd
      injection hd with hd
      have := hC.inj p1 hg hd
      omega
  obtain ⟨till, htill⟩ : ∃ t, t = prevOf log (n + 1) + 1 := ⟨_, rfl⟩
  have ht2 : 2 ≤ n → till = max (count log (n - 1)) 1 := fun hn => by
    rw [htill]
    unfold prevOf
    rw [if_neg (by omega), show n + 1 - 2 = n - 1 by omega]
    omega
  have ht1 : n < 2 → till = 1 := fun hn => by
    rw [htill]
    unfold prevOf
    split
    · rfl
    · rw [show n + 1 - 2 = 0 by omega, hlog0]
  obtain ⟨s1, w1, w2, w3, w4, w5⟩ := skip_rest h till (fun hn => by rw [ht1 hn]; omega) (fun _ => by omega)
    (fun hn => by rw [ht2 hn]; have := hacc (n - 1); omega)
  have hdec : decrypt P customary me them fresh s wm = inChain P me them wm (dhRatchet P s1 wm.ratchetKey fresh) := by
    unfold decrypt
    rw [hm.ratchet, hm.counter, hf]
    simp only
    rw [if_neg (by rw [← hm.ratchet]; exact hd), hprev]
    show Option.bind (skipKeys P s (prevOf log (n + 1) + 1)) _ = _
    rw [← htill, w1]
    rfl
  obtain ⟨⟨gn, k0, k1, k2, k3⟩, a, b, c1, d, e1, f⟩ := h
  have hgv := hC.valid g (List.mem_of_getElem? hg)
  have hgnv := hC.valid gn (List.mem_of_getElem? k0)
  have hl1 := hC.link n gn g k0 hg
  have hgg : (G ++ [g'])[n + 1]? = some g := by rw [List.getElem?_append_left (by omega)]; exact hg
  have hgg' : (G ++ [g'])[n + 2]? = some g' := by rw [List.getElem?_append_right (by omega)]; simp [hlen]
  have hl2 := hC'.link (n + 1) g g' hgg hgg'
  have hx : kdfRK P s1.RK (P.dh s1.DHs.priv g.kp.pub) = (g.root, g.ck.key) := by
    rw [w3, w2, k1, k2, dh_swap hgnv.1 hgv.1]
    unfold createChain at hl1
    simp only [Prod.mk.injEq] at hl1
    unfold kdfRK
    simp only [Prod.mk.injEq]
    exact ⟨hl1.1, by rw [← hl1.2]⟩
  have hy : kdfRK P g.root (P.dh fresh.priv g.kp.pub) = (g'.root, g'.ck.key) := by
    unfold createChain at hl2
    simp only [Prod.mk.injEq] at hl2
    unfold kdfRK
    simp only [Prod.mk.injEq]
    rw [← hg']
    exact ⟨hl2.1, by rw [← hl2.2]⟩
  have hs2 : dhRatchet P s1 wm.ratchetKey fresh =
      { s1 with PN := s1.Ns, Ns := 0, Nr := 0, DHr := some g.kp.pub, CKr := some g.ck.key, DHs := fresh, RK := g'.root, CKs := some g'.ck.key } := by
    unfold dhRatchet
    rw [hm.ratchet, hx]
    simp only
    rw [hy]
  obtain ⟨s2, hs2'⟩ : ∃ s2, s2 = dhRatchet P s1 wm.ratchetKey fresh := ⟨_, rfl⟩
  rw [← hs2'] at hdec hs2
  have hch := inChain_eq (P := P) g.ck.key g.kp.pub s2 me them wm (by rw [hs2]; rfl) (by rw [hs2])
    (by rw [hs2]; exact Nat.zero_le _)
  have hnr : s2.Nr = 0 := by rw [hs2]
  rw [hnr, hm.counter, Nat.zero_add] at hch
  have hbn : ∀ acc', bound log acc' (n + 2) (n + 1) = pos acc' (n + 1) := fun acc' => by
    unfold bound
    rw [if_pos rfl]
  have hbo : ∀ acc' e, e < n → bound log acc' (n + 2) e = max (count log e) 1 := fun acc' e he => by
    unfold bound
    rw [if_neg (by omega)]
  have hp0 := pos_zero acc (n + 1) hnew
  have hpp : pos ((n + 1, c) :: acc) (n + 1) = c + 1 := by rw [pos_cons_eq]; omega
  constructor
  · intro hlt
    rw [hdec]
    exact hch.1 hlt
  · intro hle
    obtain ⟨l, hl, hres⟩ := hch.2 hle
    rw [openWith_of hm] at hres
    refine ⟨{ s2 with CKr := some (later P g.ck.key (c + 1)), Nr := c + 1, MKSKIPPED := l ++ s2.MKSKIPPED },
      by rw [hdec, hres]; rfl, ⟨g', hgg', ?_, ?_, fun _ => ?_⟩, ?_, ?_, fun h2 => absurd h2 (by omega), fun _ => ?_,
      fun x => ?_, fun e' h0' he hp => ?_⟩
    · rw [hs2, hg']
    · rw [hs2]
    · rw [hs2, hc2]; rfl
    · rw [hs2, hc2]
    · rw [hs2, if_neg (by omega), show n + 2 - 2 = n by omega]
      simp only
      rw [w4, a]
    · refine ⟨g, hgg, by rw [hs2], ?_, ?_⟩
      · rw [show n + 2 - 1 = n + 1 by omega, hpp]
      · rw [show n + 2 - 1 = n + 1 by omega, hpp]
    · have hsk : s2.MKSKIPPED = s1.MKSKIPPED := by rw [hs2]
      simp only
      rw [List.mem_append, hl, hsk, w5, e1]
      constructor
      · rintro (⟨j, p1, p2, p3⟩ | ⟨e', ge, j, p1, p2, p3, p4, p5, p6, p7⟩ | ⟨hn, ge, j, p1, p2, p3, p4⟩)
        · refine ⟨n + 1, g, j, hgg, p3, by omega, by omega, by omega, ?_, by rw [hbn, hpp]; omega⟩
          intro hin
          rcases List.mem_cons.mp hin with h' | h'
          · injection h' with _ h'; omega
          · exact hnew _ h' rfl
        · refine ⟨e', ge, j, by rw [List.getElem?_append_left (by omega)]; exact p1, p2, p3, by omega, by omega, ?_, ?_⟩
          · intro hin
            rcases List.mem_cons.mp hin with h' | h'
            · injection h' with h' _; omega
            · exact p6 h'
          · rw [hbo _ _ p4]
            unfold bound at p7
            have := hacc e'
            split at p7
            · omega
            · exact p7
        · refine ⟨n - 1, ge, j, by rw [List.getElem?_append_left (by omega)]; exact p1, p4, by omega, by omega, by omega, ?_, ?_⟩
          · intro hin
            rcases List.mem_cons.mp hin with h' | h'
            · injection h' with h' _; omega
            · have := pos_mem acc (n - 1) j h'; omega
          · rw [hbo _ _ (by omega), ← ht2 hn]; exact p3
      · rintro ⟨e', ge, j, p1, p2, p3, p4, p5, p6, p7⟩
        have p6' : (e', j) ∉ acc := fun h' => p6 (List.mem_cons_of_mem _ h')
        by_cases he : e' = n + 1
        · subst he
          rw [hgg] at p1
          injection p1 with p1
          subst p1
          rw [hbn, hpp] at p7
          refine Or.inl ⟨j, by omega, ?_, p2⟩
          by_cases hjc : j = c
          · subst hjc; exact absurd List.mem_cons_self p6
          · omega
        · have hlt : e' < n := by omega
          rw [List.getElem?_append_left (by omega)] at p1
          rw [hbo _ _ hlt] at p7
          by_cases hen : e' + 1 = n
          · have he1 : e' = n - 1 := by omega
            subst he1
            by_cases hj : pos acc (n - 1) ≤ j
            · exact Or.inr (Or.inr ⟨by omega, ge, j, p1, hj, by rw [ht2 (by omega)]; exact p7, p2⟩)
            · refine Or.inr (Or.inl ⟨n - 1, ge, j, p1, p2, p3, hlt, by omega, p6', ?_⟩)
              unfold bound
              rw [if_pos hen]
              omega
          · refine Or.inr (Or.inl ⟨e', ge, j, p1, p2, p3, hlt, by omega, p6', ?_⟩)
            unfold bound
            rw [if_neg hen]
            exact p7
    · rw [pos_cons_ne _ _ _ _ (by omega)]
      by_cases hen : e' + 1 = n
      · have he1 : e' = n - 1 := by omega
        subst he1
        have := ht2 (by omega)
        omega
      · exact f e' h0' (by omega) (by omega)

/-- The first message of a new chain, too far on. -/
theorem read_far {P : Prims} {G log acc n s} (hC : Chain P G) (h : At P G log acc n s) (me them pt : Bytes)
    (fresh : KeyPair) (c : Nat) (g : Epoch) (hg : G[n + 1]? = some g) (wm : WhisperMsg)
    (hm : IsMsg P g c them me pt wm) (hc : 2000 < c) : decrypt P customary me them fresh s wm = none := by
  have hf := (h.find hC (n + 1) c g hg).2 (fun hh => by omega)
  have hd : s.DHr ≠ some wm.ratchetKey := by
    rw [hm.ratchet]
    intro hd
    by_cases hn : n < 2
    · obtain ⟨g0, p1, p2⟩ := (h.start hn).2.2 _ hd
      have := hC.inj hg p1 p2
      omega
    · obtain ⟨g1, p1, p2, _⟩ := h.recv (by omega)
      rw [p2] at hd
      injection hd with hd
      have := hC.inj p1 hg hd
      omega
  unfold decrypt
  rw [hm.ratchet, hm.counter, hf]
  simp only
  rw [if_neg (by rw [← hm.ratchet]; exact hd)]
  cases skipKeys P s (customary.read wm.prevCounter) with
  | none => rfl
  | some s1 =>
    show inChain P me them wm (dhRatchet P s1 g.kp.pub fresh) = none
    unfold inChain skipKeys
    rw [if_pos (by rw [hm.counter]; show 0 + 2000 < c; omega)]
    rfl

end Verif.Ratchet
