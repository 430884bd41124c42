import Verif.Spec.Mailbox
import Verif.Proof.Conversation
/-!
# Lemmas for the mailboxes (C144)
-/
namespace Verif.Clients
open Verif Verif.Keys Verif.Session Verif.Api Verif.Conv

/-! ## The abstract conversation when messages arrive in order -/

/-- Who sends in epoch `e`. -/
def sender (e : Nat) : Bool := decide (e % 2 = 0)

theorem count_snoc (l : List AMsg) (m : AMsg) (e : Nat) :
    count (l ++ [m]) e = count l e + if m.epoch = e then 1 else 0 := by
  unfold count
  rw [List.filter_append, List.length_append]
  by_cases h : m.epoch = e <;> simp [h]

theorem take_succ_get {α : Type} {l : List α} {i : Nat} {x : α} (h : l[i]? = some x) :
    l.take (i + 1) = l.take i ++ [x] := by
  rw [List.take_add_one, h]; rfl

theorem count_take_mono (l : List AMsg) (e : Nat) {i j : Nat} (h : i ≤ j) :
    count (l.take i) e ≤ count (l.take j) e := by
  obtain ⟨d, rfl⟩ := Nat.exists_eq_add_of_le h
  rw [List.take_add]
  unfold count
  rw [List.filter_append, List.length_append]
  exact Nat.le_add_right _ _

theorem pos_ge {acc : List (Nat × Nat)} {e c : Nat} (h : (e, c) ∈ acc) : c + 1 ≤ pos acc e := by
  induction acc with
  | nil => cases h
  | cons x l ih =>
    obtain ⟨e', c'⟩ := x
    rcases List.mem_cons.mp h with h | h
    · cases h
      simp only [pos, if_true]
      exact Nat.le_max_right _ _
    · have := ih h
      simp only [pos]
      split
      · exact Nat.le_trans this (Nat.le_max_left _ _)
      · exact this

theorem mem_ret (n : Nat) : n + 1 ∈ ret (n + 2) := by
  unfold ret last5
  have h : (ret n ++ [n + 1]).length - 5 ≤ (ret n).length := by
    rw [List.length_append]; simp only [List.length_cons, List.length_nil]; omega
  rw [List.drop_append_of_le_length h]
  exact List.mem_append_right _ (List.mem_singleton.mpr rfl)

/-- The messages numbered below `W` have been accepted, and no others. -/
structure Turn (a : Abs) (W : Bool → Nat) : Prop where
  ctr : ∀ (i : Nat) (m : AMsg), a.log[i]? = some m → m.ctr = count (a.log.take i) m.epoch
  mono : ∀ (i j : Nat) (m m' : AMsg), i < j → a.log[i]? = some m → a.log[j]? = some m' → sender m.epoch = sender m'.epoch →
    m.epoch ≤ m'.epoch
  gap : ∀ (i : Nat) (m : AMsg), a.log[i]? = some m → 2 ≤ m.epoch → ∃ j : Nat, ∃ m' : AMsg, j < i ∧ a.log[j]? = some m' ∧ m'.epoch = m.epoch - 1
  top : ∀ (i : Nat) (m : AMsg), a.log[i]? = some m → 1 ≤ m.epoch ∧ m.epoch ≤ a.sendLevel (sender m.epoch)
  par : a.lvI % 2 = 1 ∧ a.lvR % 2 = 0
  wm : ∀ who, W who ≤ a.log.length
  acc : ∀ e c, (e, c) ∈ a.acc ↔ ∃ i : Nat, ∃ m : AMsg, a.log[i]? = some m ∧ i < W (sender e) ∧ m.epoch = e ∧ m.ctr = c
  lev : ∀ who, a.sendLevel who = (if who then 0 else 1) ∨ ∃ c, (a.sendLevel who - 1, c) ∈ a.acc
  most : ∀ e c, (e, c) ∈ a.acc → e + 1 ≤ a.recvLevel e

theorem turn_init : Turn {} (fun _ => 0) where
  ctr := by intro i m h; simp at h
  mono := by intro i j m m' _ h; simp at h
  gap := by intro i m h; simp at h
  top := by intro i m h; simp at h
  par := ⟨rfl, rfl⟩
  wm := fun _ => Nat.le_refl _
  acc := by
    intro e c
    constructor
    · intro h; cases h
    · rintro ⟨i, m, _, h, _⟩; exact absurd h (Nat.not_lt_zero _)
  lev := by intro who; left; cases who <;> rfl
  most := by intro e c h; cases h

theorem recv_eq (a : Abs) (e : Nat) : a.recvLevel e = a.sendLevel (!sender e) := by
  unfold Abs.recvLevel Abs.sendLevel sender
  have := Nat.mod_two_eq_zero_or_one e
  rcases this with h | h <;> simp [h]

theorem sender_level {a : Abs} {W} (h : Turn a W) (who : Bool) : sender (a.sendLevel who) = who := by
  unfold sender Abs.sendLevel
  cases who
  · simp [h.par.1]
  · simp [h.par.2]

theorem get_snoc {α : Type} {l : List α} {x y : α} {i : Nat} (h : (l ++ [x])[i]? = some y) :
    l[i]? = some y ∨ (i = l.length ∧ y = x) := by
  rcases Nat.lt_trichotomy i l.length with h1 | h1 | h1
  · left; rwa [List.getElem?_append_left h1] at h
  · right
    subst h1
    simp at h
    exact ⟨rfl, h.symm⟩
  · rw [List.getElem?_append_right (by omega)] at h
    have : i - l.length = (i - l.length - 1) + 1 := by omega
    rw [this] at h
    simp at h

theorem lt_of_get {α : Type} {l : List α} {i : Nat} {x : α} (h : l[i]? = some x) : i < l.length := by
  rw [List.getElem?_eq_some_iff] at h
  exact h.1

theorem get_old {α : Type} {l : List α} {x y : α} {i : Nat} (h : l[i]? = some y) : (l ++ [x])[i]? = some y := by
  rw [List.getElem?_append_left (lt_of_get h)]; exact h

/-- Sending. -/
theorem turn_send {a : Abs} {W} (h : Turn a W) (who : Bool) (pt : Bytes) (hl : who = true → a.lvR ≠ 0) :
    Turn (a.step (.send who pt)) W := by
  have hs := sender_level h who
  have hlog : (a.step (.send who pt)).log = a.log ++ [⟨a.sendLevel who, count a.log (a.sendLevel who), pt⟩] := rfl
  have htake : ∀ i, i ≤ a.log.length → ∀ x : AMsg, (a.log ++ [x]).take i = a.log.take i := by
    intro i hi x; rw [List.take_append_of_le_length hi]
  have hacc : ∀ e c, (e, c) ∈ a.acc → ∃ j : Nat, ∃ m' : AMsg, a.log[j]? = some m' ∧ m'.epoch = e := by
    intro e c hm
    obtain ⟨j, m', h1, _, h3, _⟩ := (h.acc e c).mp hm
    exact ⟨j, m', h1, h3⟩
  constructor
  · intro i m hi
    rw [hlog] at hi ⊢
    rcases get_snoc hi with h1 | ⟨h1, h2⟩
    · rw [htake i (Nat.le_of_lt (lt_of_get h1))]; exact h.ctr i m h1
    · subst h1; subst h2
      rw [htake _ (Nat.le_refl _), List.take_length]
  · intro i j m m' hij hi hj hp
    rw [hlog] at hi hj
    rcases get_snoc hj with h1 | ⟨h1, h2⟩
    · rcases get_snoc hi with g1 | ⟨g1, g2⟩
      · exact h.mono i j m m' hij g1 h1 hp
      · have := lt_of_get h1; omega
    · rcases get_snoc hi with g1 | ⟨g1, g2⟩
      · subst h2
        have := (h.top i m g1).2
        rw [hp] at this
        show m.epoch ≤ a.sendLevel who
        have e : sender (a.sendLevel who) = who := hs
        rw [show sender ({ epoch := a.sendLevel who, ctr := count a.log (a.sendLevel who), pt := pt } : AMsg).epoch = who from e] at this
        exact this
      · omega
  · intro i m hi h2
    rw [hlog] at hi ⊢
    rcases get_snoc hi with h1 | ⟨h1, h3⟩
    · obtain ⟨j, m', g1, g2, g3⟩ := h.gap i m h1 h2
      exact ⟨j, m', g1, get_old g2, g3⟩
    · subst h1; subst h3
      have h2 : 2 ≤ a.sendLevel who := h2
      rcases h.lev who with g | ⟨c, g⟩
      · rw [g] at h2; split at h2 <;> omega
      · obtain ⟨j, m', g1, g2⟩ := hacc _ _ g
        exact ⟨j, m', lt_of_get g1, get_old g1, g2⟩
  · intro i m hi
    rw [hlog] at hi
    show 1 ≤ m.epoch ∧ m.epoch ≤ a.sendLevel (sender m.epoch)
    rcases get_snoc hi with h1 | ⟨h1, h3⟩
    · exact h.top i m h1
    · subst h3
      show 1 ≤ a.sendLevel who ∧ a.sendLevel who ≤ a.sendLevel (sender (a.sendLevel who))
      rw [hs]
      refine ⟨?_, Nat.le_refl _⟩
      cases who
      · have := h.par.1; show 1 ≤ a.lvI; omega
      · have := hl rfl; show 1 ≤ a.lvR; omega
  · exact h.par
  · intro b
    rw [hlog, List.length_append]
    exact Nat.le_trans (h.wm b) (Nat.le_add_right _ _)
  · intro e c
    rw [hlog]
    show (e, c) ∈ a.acc ↔ _
    rw [h.acc e c]
    constructor
    · rintro ⟨i, m, h1, h2⟩; exact ⟨i, m, get_old h1, h2⟩
    · rintro ⟨i, m, h1, h2, h3⟩
      rcases get_snoc h1 with g | ⟨g, _⟩
      · exact ⟨i, m, g, h2, h3⟩
      · have := h.wm (sender e); omega
  · exact h.lev
  · exact h.most

/-- No two messages have the same number. -/
theorem turn_inj {a : Abs} {W} (h : Turn a W) {i j : Nat} {m m' : AMsg} (hi : a.log[i]? = some m)
    (hj : a.log[j]? = some m') (he : m.epoch = m'.epoch) (hc : m.ctr = m'.ctr) : i = j := by
  have key : ∀ {i j : Nat} {m m' : AMsg}, a.log[i]? = some m → a.log[j]? = some m' → m.epoch = m'.epoch →
      m.ctr = m'.ctr → ¬ i < j := by
    intro i j m m' hi hj he hc hlt
    have h1 := count_take_mono a.log m.epoch (show i + 1 ≤ j from hlt)
    rw [take_succ_get hi, count_snoc, if_pos rfl, ← h.ctr i m hi, he, ← h.ctr j m' hj] at h1
    omega
  rcases Nat.lt_trichotomy i j with g | g | g
  · exact absurd g (key hi hj he hc)
  · exact g
  · exact absurd g (key hj hi he.symm hc.symm)

/-- A message that was accepted is not accepted again. -/
theorem turn_again {a : Abs} {W} (h : Turn a W) {i : Nat} {m : AMsg} (hi : a.log[i]? = some m)
    (hw : i < W (sender m.epoch)) : a.expect m ≠ .accept := by
  have hm : (m.epoch, m.ctr) ∈ a.acc := (h.acc _ _).mpr ⟨i, m, hi, hw, rfl, rfl⟩
  have hl := h.most _ _ hm
  unfold Abs.expect
  rw [if_neg (by omega)]
  split
  · simp [hm]
  · intro h; cases h

/-- The next message is accepted. -/
theorem turn_next {a : Abs} {W} (h : Turn a W) {i : Nat} {m : AMsg} (hi : a.log[i]? = some m)
    (hw : W (sender m.epoch) ≤ i)
    (hb : ∀ (j : Nat) (m' : AMsg), j < i → a.log[j]? = some m' → sender m'.epoch = sender m.epoch → j < W (sender m.epoch)) :
    a.expect m = .accept := by
  have hbef : ∀ (j : Nat) (m' : AMsg), j < i → a.log[j]? = some m' → sender m'.epoch = sender m.epoch → (m'.epoch, m'.ctr) ∈ a.acc := by
    intro j m' h1 h2 h3
    exact (h.acc _ _).mpr ⟨j, m', h2, by rw [h3]; exact hb j m' h1 h2 h3, rfl, rfl⟩
  have hlow : ∀ e c, (e, c) ∈ a.acc → sender e = sender m.epoch → e ≤ m.epoch := by
    intro e c h1 h2
    obtain ⟨j, m', g1, g2, g3, _⟩ := (h.acc e c).mp h1
    subst g3
    exact h.mono j i m' m (by rw [h2] at g2; omega) g1 hi h2
  have hprev : 0 < m.ctr → (m.epoch, m.ctr - 1) ∈ a.acc := by
    intro h0
    have hc := h.ctr i m hi
    -- the last message of the epoch before `i`
    have : ∀ k, k ≤ i → count (a.log.take k) m.epoch = m.ctr → ∃ j : Nat, ∃ m' : AMsg, j < i ∧ a.log[j]? = some m' ∧
        m'.epoch = m.epoch ∧ m'.ctr = m.ctr - 1 := by
      intro k
      induction k with
      | zero => intro _ h1; simp [count] at h1; omega
      | succ k ih =>
        intro hk h1
        have hlt : k < a.log.length := Nat.lt_of_lt_of_le hk (Nat.le_of_lt (lt_of_get hi))
        have hg : a.log[k]? = some a.log[k] := List.getElem?_eq_getElem hlt
        rw [take_succ_get hg, count_snoc] at h1
        by_cases he : a.log[k].epoch = m.epoch
        · rw [if_pos he] at h1
          refine ⟨k, _, hk, hg, he, ?_⟩
          rw [h.ctr k _ hg, he]; omega
        · rw [if_neg he] at h1
          exact ih (by omega) h1
    obtain ⟨j, m', h1, h2, h3, h4⟩ := this i (Nat.le_refl _) hc.symm
    have := hbef j m' h1 h2 (by rw [h3])
    rw [h3, h4] at this
    exact this
  have hm1 := (h.top i m hi).1
  unfold Abs.expect
  show (if m.epoch = a.recvLevel m.epoch + 1 then _ else _) = _
  by_cases hn : m.epoch = a.recvLevel m.epoch + 1
  · rw [if_pos hn]
    have : m.ctr = 0 := by
      rcases Nat.eq_zero_or_pos m.ctr with h0 | h0
      · exact h0
      · have := h.most _ _ (hprev h0); omega
    rw [if_neg (by omega)]
  · rw [if_neg hn]
    have hpar : (a.recvLevel m.epoch) % 2 ≠ m.epoch % 2 := by
      unfold Abs.recvLevel
      have := h.par
      split <;> omega
    have hle : m.epoch ≤ a.recvLevel m.epoch := by
      rcases Nat.lt_or_ge (a.recvLevel m.epoch) m.epoch with hgt | hge
      · have h2 : 2 ≤ m.epoch := by omega
        obtain ⟨j, m1, g1, g2, g3⟩ := h.gap i m hi h2
        have h3 : a.recvLevel m.epoch + 3 ≤ m.epoch := by omega
        have h4 : 2 ≤ m1.epoch := by omega
        obtain ⟨k, m2, k1, k2, k3⟩ := h.gap j m1 g2 h4
        have hp2 : sender m2.epoch = sender m.epoch := by
          unfold sender; rw [k3, g3]; congr 1; apply propext; constructor <;> intro <;> omega
        have := h.most _ _ (hbef k m2 (by omega) k2 hp2)
        have e : a.recvLevel m2.epoch = a.recvLevel m.epoch := by rw [recv_eq, recv_eq, hp2]
        rw [e] at this
        omega
      · exact hge
    have hlev : a.recvLevel m.epoch = m.epoch + 1 := by
      rw [recv_eq] at hle hn hpar ⊢
      rcases h.lev (!sender m.epoch) with g | ⟨c, g⟩
      · rw [g] at hle hpar
        cases hs : sender m.epoch
        · rw [hs] at hle; simp at hle; omega
        · rw [hs] at hle hpar; simp at hle hpar; omega
      · have hq : sender (a.sendLevel (!sender m.epoch) - 1) = sender m.epoch := by
          have h1 := sender_level h (!sender m.epoch)
          obtain ⟨x, hx⟩ : ∃ x, x = a.sendLevel (!sender m.epoch) := ⟨_, rfl⟩
          rw [← hx] at h1 hle ⊢
          unfold sender at h1 ⊢
          by_cases h2 : m.epoch % 2 = 0
          · simp only [h2, decide_true, Bool.not_true, decide_eq_false_iff_not] at h1
            simp only [h2, decide_true, decide_eq_true_eq]; omega
          · simp only [h2, decide_false, Bool.not_false, decide_eq_true_eq] at h1
            simp only [h2, decide_false, decide_eq_false_iff_not]; omega
        have := hlow _ _ g hq
        omega
    have hret : m.epoch ∈ ret (a.recvLevel m.epoch) := by
      rw [hlev]
      have := mem_ret (m.epoch - 1)
      rw [show m.epoch - 1 + 1 = m.epoch by omega, show m.epoch - 1 + 2 = m.epoch + 1 by omega] at this
      exact this
    rw [if_pos hret]
    have hna : (m.epoch, m.ctr) ∉ a.acc := by
      intro hx
      obtain ⟨j, m', g1, g2, g3, g4⟩ := (h.acc _ _).mp hx
      have := turn_inj h g1 hi g3 g4
      omega
    rw [if_neg hna]
    have hp : m.ctr ≤ pos a.acc m.epoch := by
      rcases Nat.eq_zero_or_pos m.ctr with h0 | h0
      · omega
      · have := pos_ge (hprev h0); omega
    rw [if_neg (by omega)]

theorem accept_log (a : Abs) (m : AMsg) : (a.accept m).log = a.log := by
  unfold Abs.accept; simp only []; split
  · split <;> rfl
  · rfl

theorem accept_acc (a : Abs) (m : AMsg) : (a.accept m).acc = (m.epoch, m.ctr) :: a.acc := by
  unfold Abs.accept; simp only []; split
  · split <;> rfl
  · rfl

theorem accept_level (a : Abs) (m : AMsg) (b : Bool) : (a.accept m).sendLevel b =
    if b = (!sender m.epoch) ∧ m.epoch = a.recvLevel m.epoch + 1 then m.epoch + 1 else a.sendLevel b := by
  unfold Abs.accept
  simp only []
  by_cases hn : m.epoch = a.recvLevel m.epoch + 1
  · rw [if_pos hn]
    by_cases hp : m.epoch % 2 = 1
    · rw [if_pos hp]
      have hs : sender m.epoch = false := by unfold sender; simp [hp]
      rw [hs]
      cases b
      · rw [if_neg (by simp)]; rfl
      · rw [if_pos ⟨rfl, hn⟩]; show a.recvLevel m.epoch + 2 = _; omega
    · rw [if_neg hp]
      have hs : sender m.epoch = true := by unfold sender; simp; omega
      rw [hs]
      cases b
      · rw [if_pos ⟨rfl, hn⟩]; show a.recvLevel m.epoch + 2 = _; omega
      · rw [if_neg (by simp)]; rfl
  · rw [if_neg hn, if_neg (by intro h; exact hn h.2)]; rfl

theorem accept_up (a : Abs) (m : AMsg) (b : Bool) : a.sendLevel b ≤ (a.accept m).sendLevel b := by
  rw [accept_level]
  split
  · rename_i g
    rw [g.1, ← recv_eq]; omega
  · exact Nat.le_refl _

/-- It being accepted. -/
theorem turn_accept {a : Abs} {W} (h : Turn a W) {i : Nat} {m : AMsg} (hi : a.log[i]? = some m)
    (hw : W (sender m.epoch) ≤ i)
    (hb : ∀ (j : Nat) (m' : AMsg), j < i → a.log[j]? = some m' → sender m'.epoch = sender m.epoch → j < W (sender m.epoch)) :
    Turn (a.accept m) (fun b => if b = sender m.epoch then i + 1 else W b) := by
  have hlog := accept_log a m
  have hacc := accept_acc a m
  have hlev := accept_level a m
  have hup := accept_up a m
  constructor
  · rw [hlog]; exact h.ctr
  · rw [hlog]; exact h.mono
  · rw [hlog]; exact h.gap
  · rw [hlog]
    intro j m' hj
    exact ⟨(h.top j m' hj).1, Nat.le_trans (h.top j m' hj).2 (hup _)⟩
  · have h1 := h.par
    have hI := hlev false
    have hR := hlev true
    have eI : (a.accept m).lvI = (a.accept m).sendLevel false := rfl
    have eR : (a.accept m).lvR = (a.accept m).sendLevel true := rfl
    rw [eI, eR, hI, hR]
    unfold Abs.sendLevel sender
    constructor
    · split
      · rename_i g; have := g.1; simp at this; omega
      · exact h1.1
    · split
      · rename_i g; have := g.1; simp at this; omega
      · exact h1.2
  · intro b
    rw [hlog]
    show (if b = sender m.epoch then i + 1 else W b) ≤ _
    split
    · exact lt_of_get hi
    · exact h.wm b
  · intro e c
    rw [hlog, hacc, List.mem_cons, h.acc e c]
    constructor
    · rintro (g | ⟨j, m', g1, g2, g3⟩)
      · cases g
        exact ⟨i, m, hi, by rw [if_pos rfl]; omega, rfl, rfl⟩
      · refine ⟨j, m', g1, ?_, g3⟩
        split
        · rename_i hq; rw [hq] at g2; omega
        · exact g2
    · rintro ⟨j, m', g1, g2, g3, g4⟩
      by_cases hq : sender e = sender m.epoch
      · rw [if_pos hq] at g2
        rcases Nat.lt_or_ge j i with hj | hj
        · right
          exact ⟨j, m', g1, by rw [hq]; exact hb j m' hj g1 (by rw [g3]; exact hq), g3, g4⟩
        · left
          have : j = i := by omega
          subst this
          rw [hi] at g1
          cases g1
          rw [← g3, ← g4]
      · rw [if_neg hq] at g2
        exact Or.inr ⟨j, m', g1, g2, g3, g4⟩
  · intro b
    rw [hlev, hacc]
    split
    · right; exact ⟨m.ctr, by rw [Nat.add_sub_cancel]; exact List.mem_cons_self⟩
    · rcases h.lev b with g | ⟨c, g⟩
      · exact Or.inl g
      · exact Or.inr ⟨c, List.mem_cons_of_mem _ g⟩
  · intro e c hm
    rw [hacc] at hm
    rw [recv_eq]
    rcases List.mem_cons.mp hm with g | g
    · cases g
      rw [hlev]
      have hx := turn_next h hi hw hb
      split
      · exact Nat.le_refl _
      · rename_i hne
        have hn : m.epoch ≠ a.recvLevel m.epoch + 1 := fun hn => hne ⟨rfl, hn⟩
        unfold Abs.expect at hx
        simp only [] at hx
        rw [if_neg hn] at hx
        rw [← recv_eq]
        split at hx
        · rename_i hr
          exact (ret_lt _ _ hr).1
        · cases hx
    · have := h.most e c g
      rw [recv_eq] at this
      exact Nat.le_trans this (hup _)

/-! ## The mailboxes -/

def gist (d : Send.WireData) : Gist := ⟨d.body.getD [], d.timestamp, d.expireTimer, d.profileKey⟩

theorem gist_create (X : Send.SendExt) (m : Send.OutMsg) : gist (Send.createMessage X.now X.profileKey m) =
    ⟨m.msg, m.timestamp.getD X.now, m.expireTimer, X.profileKey⟩ := by
  unfold gist Send.createMessage
  by_cases h : m.msg = [] <;> simp [h]

/-- The messages of `who` among the first `k`. -/
def got (M : Mail) (s : Sight) (who : Bool) (k : Nat) : List Gist :=
  ((M.sent.zip s.said).take k).filterMap (fun x => if x.1 = who then some (gist x.2.1) else none)

/-- What should be heard from `name`. -/
def heardW (name : String) (ws : List CWant) : List Gist :=
  ws.flatMap (fun w => match w with
    | .shown m _ => if m.sourceUuid = name then [⟨m.message, m.timestamp, m.expireTimer, m.profileKey⟩] else []
    | _ => [])

theorem heard_eq (name : String) {ws : List CWant} {os : List COut} (h : List.Forall₂ CAgree ws os) :
    heardFrom name os = heardW name ws := by
  induction h with
  | nil => rfl
  | @cons w o ws os h _ ih =>
    have e1 : heardFrom name (o :: os) = heardFrom name [o] ++ heardFrom name os := by
      simp [heardFrom]
    have e2 : heardW name (w :: ws) = heardW name [w] ++ heardW name ws := by
      simp [heardW]
    rw [e1, e2, ih]
    congr 1
    cases w <;> cases o <;> simp only [CAgree] at h
    · rfl
    · rfl
    · rw [h.1]
      simp only [heardFrom, heardW, List.flatMap_cons, List.flatMap_nil, List.append_nil, List.filterMap_cons,
        List.filterMap_nil]
      split <;> rename_i hq <;> split at hq <;> first | (cases hq; done) | (cases hq; simp_all) | simp_all
    · rw [h.1]; rfl
    · simp only [heardFrom, heardW, List.flatMap_cons, List.flatMap_nil, List.append_nil]
      rw [List.filterMap_eq_nil_iff]
      intro x hx
      rw [h x hx]

structure MInv (s : Sight) (M : Mail) (W : Bool → Nat) : Prop where
  turn : Turn s.abs W
  len : s.said.length = s.abs.log.length
  sent : M.sent = s.abs.log.map (fun m => sender m.epoch)
  up : ∀ who i, i < M.upTo who → M.sent[i]? = some who → i < W who
  gone : ∀ i ∈ M.gone, ∀ who, M.sent[i]? = some who → i < W who
  upLe : ∀ who, M.upTo who ≤ M.sent.length
  goneLt : ∀ i ∈ M.gone, i < M.sent.length

/-- The responder sends only when it has a session. -/
def Going : Sight → List CEv → Prop
  | _, [] => True
  | s, ev :: evs => (∀ X m, ev = .send true X m → s.abs.lvR ≠ 0) ∧ Going (s.step ev) evs

def Sight.after : Sight → List CEv → Sight
  | s, [] => s
  | s, ev :: evs => Sight.after (s.step ev) evs

theorem next_some {M : Mail} {who : Bool} {i : Nat} (h : M.next who = some i) :
    M.upTo who ≤ i ∧ M.sent[i]? = some who ∧ i ∉ M.gone ∧ ∀ j, j < i → M.Due who j = false := by
  unfold Mail.next at h
  have h1 := List.find?_some h
  unfold Mail.Due at h1
  simp only [Bool.and_eq_true, decide_eq_true_eq] at h1
  refine ⟨h1.1.1, h1.1.2, h1.2, ?_⟩
  intro j hj
  rw [List.find?_range_eq_some] at h
  have := h.2.2 j hj
  simpa using this

theorem next_none {M : Mail} {who : Bool} (h : M.next who = none) :
    ∀ j, j < M.sent.length → M.Due who j = false := by
  intro j hj
  unfold Mail.next at h
  rw [List.find?_eq_none] at h
  simpa using h j (List.mem_range.mpr hj)

theorem sent_get {s : Sight} {M : Mail} {W} (h : MInv s M W) {i : Nat} {who : Bool} :
    M.sent[i]? = some who ↔ ∃ m, s.abs.log[i]? = some m ∧ sender m.epoch = who := by
  rw [h.sent, List.getElem?_map]
  cases s.abs.log[i]? with
  | none => simp
  | some m => simp

/-- Not due means: delivered before, or not for this mailbox. -/
theorem not_due {s : Sight} {M : Mail} {W} (h : MInv s M W) {i : Nat} {who : Bool} (hd : M.Due who i = false)
    (hs : M.sent[i]? = some who) : i < W who := by
  unfold Mail.Due at hd
  rcases Nat.lt_or_ge i (M.upTo who) with g | g
  · exact h.up who i g hs
  · by_cases hg : i ∈ M.gone
    · exact h.gone i hg who hs
    · simp [g, hs, hg] at hd

theorem got_ext {M M' : Mail} {s s' : Sight} (who : Bool) {k : Nat} {a b} (h1 : M'.sent = M.sent ++ a)
    (h2 : s'.said = s.said ++ b) (hl : M.sent.length = s.said.length) (hk : k ≤ M.sent.length) :
    got M' s' who k = got M s who k := by
  unfold got
  rw [h1, h2, List.zip_append hl, List.take_append_of_le_length (by rw [List.length_zip, hl, Nat.min_self]; omega)]

/-- Going on from `k` to the next message of `who`. -/
theorem got_next {M : Mail} {s : Sight} {who : Bool} {k i : Nat} {d : Send.WireData × Bytes} (hk : k ≤ i)
    (hi : M.sent[i]? = some who) (hd : s.said[i]? = some d)
    (hb : ∀ j, k ≤ j → j < i → M.sent[j]? ≠ some who) : got M s who (i + 1) = got M s who k ++ [gist d.1] := by
  unfold got
  have hz : (M.sent.zip s.said)[i]? = some (who, d) := by
    rw [List.getElem?_zip_eq_some]; exact ⟨hi, hd⟩
  rw [take_succ_get hz, List.filterMap_append]
  have : ∀ n, k + n ≤ i → ((M.sent.zip s.said).take (k + n)).filterMap
      (fun x => if x.1 = who then some (gist x.2.1) else none) =
      ((M.sent.zip s.said).take k).filterMap (fun x => if x.1 = who then some (gist x.2.1) else none) := by
    intro n
    induction n with
    | zero => intro _; rfl
    | succ n ih =>
      intro hn
      have hlt : k + n < i := by omega
      cases hg : (M.sent.zip s.said)[k + n]? with
      | none =>
        rw [show k + (n + 1) = (k + n) + 1 by omega, List.take_add_one, hg]
        simpa using ih (by omega)
      | some x =>
        rw [show k + (n + 1) = (k + n) + 1 by omega, take_succ_get hg, List.filterMap_append, ih (by omega)]
        have hx := (List.getElem?_zip_eq_some.mp hg).1
        have : x.1 ≠ who := by
          intro hw
          rw [hw] at hx
          exact hb (k + n) (by omega) hlt hx
        simp [this]
  have e := this (i - k) (by omega)
  rw [show k + (i - k) = i by omega] at e
  rw [e]
  simp

theorem heardW_cons (name : String) (w : CWant) (ws : List CWant) :
    heardW name (w :: ws) = heardW name [w] ++ heardW name ws := by simp [heardW]

theorem wants_append (S : Setup) (s : Sight) (l r : List CEv) :
    wants S s (l ++ r) = wants S s l ++ wants S (s.after l) r := by
  induction l generalizing s with
  | nil => rfl
  | cons e l ih =>
    show _ :: wants S _ (l ++ r) = _ :: _ ++ _
    rw [ih]; rfl

/-- One event. -/
theorem mail_step {S : Setup} (hne : S.nameI ≠ S.nameR) {s : Sight} {M : Mail} {W} (h : MInv s M W) (e : MEv)
    (hg : Going s (M.event e)) : ∃ W', MInv (s.after (M.event e)) (M.step e) W' ∧
      (∀ who, got (M.step e) (s.after (M.event e)) who (W' who) =
        got M s who (W who) ++ heardW (senderName S who) (wants S s (M.event e))) ∧
      (∃ a b, (M.step e).sent = M.sent ++ a ∧ (s.after (M.event e)).said = s.said ++ b ∧
        (a.zip b).map (fun x => (x.1, gist x.2.1)) = ([e].filterMap MEv.said)) := by
  have hlen : M.sent.length = s.said.length := by rw [h.sent, List.length_map, h.len]
  have hinj : ∀ a b, senderName S a = senderName S b → a = b := by
    intro a b hab
    cases a <;> cases b <;> first | rfl | (exact absurd hab hne) | (exact absurd hab.symm hne)
  cases e with
  | send who X m =>
    have ht := turn_send h.turn who (Files.padMessage (encoded X (Send.createMessage X.now X.profileKey m)))
      (by intro hw; subst hw; exact hg.1 X m rfl)
    refine ⟨W, ?_, ?_, ?_⟩
    · constructor
      · exact ht
      · show (s.said ++ [_]).length = (s.abs.log ++ [_]).length
        rw [List.length_append, List.length_append, h.len]; rfl
      · show M.sent ++ [who] = (s.abs.log ++ [_]).map _
        rw [List.map_append, ← h.sent]
        show _ = M.sent ++ [sender (s.abs.sendLevel who)]
        rw [sender_level h.turn]
      · intro b i hi hs
        have hs : (M.sent ++ [who])[i]? = some b := hs
        rcases get_snoc hs with g | ⟨g, g2⟩
        · exact h.up b i hi g
        · have := h.upLe b
          have hi : i < M.upTo b := hi
          omega
      · intro i hi b hs
        have hs : (M.sent ++ [who])[i]? = some b := hs
        rcases get_snoc hs with g | ⟨g, g2⟩
        · exact h.gone i hi b g
        · have := h.goneLt i hi
          omega
      · intro b
        show M.upTo b ≤ (M.sent ++ [who]).length
        rw [List.length_append]; exact Nat.le_trans (h.upLe b) (Nat.le_add_right _ _)
      · intro i hi
        show i < (M.sent ++ [who]).length
        rw [List.length_append]; exact Nat.lt_of_lt_of_le (h.goneLt i hi) (Nat.le_add_right _ _)
    · intro b
      have : heardW (senderName S b) (wants S s (M.event (.send who X m))) = [] := rfl
      rw [this, List.append_nil]
      exact got_ext b (a := [who]) rfl rfl hlen (by rw [h.sent, List.length_map]; exact h.turn.wm b)
    · refine ⟨[who], _, rfl, rfl, ?_⟩
      show [(who, gist (Send.createMessage X.now X.profileKey m))] = [(who, _)]
      rw [gist_create]
  | frame who X id body atts g =>
    cases hn : M.next who with
    | none =>
      have e1 : M.step (.frame who X id body atts g) = M := by simp only [Mail.step, hn]
      have e2 : M.event (.frame who X id body atts g) = [] := by simp only [Mail.event, hn]
      rw [e1, e2]
      exact ⟨W, h, fun b => (List.append_nil _).symm, [], [], (List.append_nil _).symm, (List.append_nil _).symm, rfl⟩
    | some i =>
      obtain ⟨n1, n2, n3, n4⟩ := next_some hn
      have e1 : M.step (.frame who X id body atts g) =
          { M with upTo := fun b => if b = who then i + 1 else M.upTo b } := by simp only [Mail.step, hn]
      have e2 : M.event (.frame who X id body atts g) = [.deliver i X id body atts g] := by simp only [Mail.event, hn]
      rw [e1, e2]
      obtain ⟨m, hm, hw⟩ := (sent_get h).mp n2
      have hd : ∃ d, s.said[i]? = some d := by
        have := lt_of_get hm
        rw [← h.len] at this
        exact ⟨_, List.getElem?_eq_getElem this⟩
      obtain ⟨d, hd⟩ := hd
      have hup : ∀ b, (if b = who then i + 1 else M.upTo b) ≤ M.sent.length := by
        intro b
        split
        · exact lt_of_get n2
        · exact h.upLe b
      have hbefore : ∀ j, j < i → M.sent[j]? = some who → j < W who := fun j hj hs => not_due h (n4 j hj) hs
      subst hw
      rcases Nat.lt_or_ge i (W (sender m.epoch)) with hlt | hge
      · -- a message delivered before
        have hx := turn_again h.turn hm hlt
        have hst : s.after [.deliver i X id body atts g] = s := by
          show (⟨s.abs.step _, s.said⟩ : Sight) = s
          have : s.abs.step (.deliver i X.rnd) = s.abs := by
            simp only [Abs.step, hm]
          rw [this]
        rw [hst]
        refine ⟨W, ⟨h.turn, h.len, h.sent, ?_, h.gone, hup, h.goneLt⟩, ?_, [], [], (List.append_nil _).symm, (List.append_nil _).symm, rfl⟩
        · intro b j hj hs
          have hj : j < if b = sender m.epoch then i + 1 else M.upTo b := hj
          split at hj
          · rename_i hb; subst hb; omega
          · exact h.up b j hj hs
        · intro b
          have : heardW (senderName S b) (wants S s [.deliver i X id body atts g]) = [] := by
            show heardW _ [s.want S _] = []
            simp only [Sight.want, hm, hd]
            cases hq : s.abs.expect m with
            | accept => exact absurd hq hx
            | refuse => rfl
            | stale => rfl
          rw [this, List.append_nil]
          rfl
      · -- the next one
        have hb : ∀ (j : Nat) (m' : AMsg), j < i → s.abs.log[j]? = some m' → sender m'.epoch = sender m.epoch →
            j < W (sender m.epoch) := by
          intro j m' h1 h2 h3
          exact hbefore j h1 ((sent_get h).mpr ⟨m', h2, h3⟩)
        have hx := turn_next h.turn hm hge hb
        have ht := turn_accept h.turn hm hge hb
        have hst : s.after [.deliver i X id body atts g] = ⟨s.abs.accept m, s.said⟩ := by
          show (⟨s.abs.step _, s.said⟩ : Sight) = _
          have : s.abs.step (.deliver i X.rnd) = s.abs.accept m := by
            simp only [Abs.step, hm, hx]
          rw [this]
        have hlog := accept_log s.abs m
        rw [hst]
        refine ⟨_, ⟨ht, ?_, ?_, ?_, ?_, hup, h.goneLt⟩, ?_, [], [], (List.append_nil _).symm, (List.append_nil _).symm, rfl⟩
        · show s.said.length = (s.abs.accept m).log.length
          rw [hlog, h.len]
        · show M.sent = (s.abs.accept m).log.map _
          rw [hlog, h.sent]
        · intro b j hj hs
          have hj : j < if b = sender m.epoch then i + 1 else M.upTo b := hj
          show j < if b = sender m.epoch then i + 1 else W b
          split
          · rename_i hbb; rw [if_pos hbb] at hj; exact hj
          · rename_i hbb; rw [if_neg hbb] at hj; exact h.up b j hj hs
        · intro j hj b hs
          have := h.gone j hj b hs
          show j < if b = sender m.epoch then i + 1 else W b
          split
          · rename_i hbb; subst hbb; omega
          · exact this
        · intro b
          have hwant : wants S s [.deliver i X id body atts g] =
              [.shown (shown (senderName S (sender m.epoch)) d.1 atts g) id] := by
            show [s.want S _] = _
            simp only [Sight.want, hm, hd, hx]
            rfl
          rw [hwant]
          show got M s b (if b = sender m.epoch then i + 1 else W b) = _
          by_cases hbb : b = sender m.epoch
          · subst hbb
            rw [if_pos rfl, got_next hge n2 hd (by
              intro j h1 h2 h3
              have := hbefore j h2 h3
              omega)]
            congr 1
            simp [heardW, shown, gist]
          · rw [if_neg hbb]
            have hnn : senderName S (sender m.epoch) ≠ senderName S b := fun hq => hbb (hinj _ _ hq).symm
            simp [heardW, shown, hnn]
  | acked i =>
    refine ⟨W, ?_, ?_, [], [], ?_, (List.append_nil _).symm, rfl⟩
    · show MInv s (M.step (.acked i)) W
      simp only [Mail.step]
      cases hi : M.sent[i]? with
      | none => exact h
      | some who =>
        show MInv s (if _ then _ else _) W
        split
        · rename_i hlt
          refine ⟨h.turn, h.len, h.sent, h.up, ?_, h.upLe, ?_⟩
          · intro j hj b hs
            have hj : j ∈ i :: M.gone := hj
            rcases List.mem_cons.mp hj with g | g
            · subst g
              have hs : M.sent[j]? = some b := hs
              rw [hi] at hs
              cases hs
              exact h.up _ j hlt hi
            · exact h.gone j g b hs
          · intro j hj
            have hj : j ∈ i :: M.gone := hj
            rcases List.mem_cons.mp hj with g | g
            · subst g; exact lt_of_get hi
            · exact h.goneLt j g
        · exact h
    · intro b
      show got (M.step (.acked i)) s b (W b) = got M s b (W b) ++ []
      rw [List.append_nil]
      unfold got
      have : (M.step (.acked i)).sent = M.sent := by
        simp only [Mail.step]
        split
        · split <;> rfl
        · rfl
      rw [this]
    · rw [List.append_nil]
      simp only [Mail.step]
      split
      · split <;> rfl
      · rfl
  | broken who =>
    refine ⟨W, ⟨h.turn, h.len, h.sent, ?_, h.gone, ?_, h.goneLt⟩, fun b => (List.append_nil _).symm, [], [],
      (List.append_nil _).symm, (List.append_nil _).symm, rfl⟩
    · intro b j hj hs
      have hj : j < if b = who then 0 else M.upTo b := hj
      split at hj
      · omega
      · exact h.up b j hj hs
    · intro b
      show (if b = who then 0 else M.upTo b) ≤ M.sent.length
      split
      · exact Nat.zero_le _
      · exact h.upLe b
  | other who c =>
    exact ⟨W, h, fun b => (List.append_nil _).symm, [], [], (List.append_nil _).symm, (List.append_nil _).symm, rfl⟩

theorem going_append {s : Sight} {l r : List CEv} (h : Going s (l ++ r)) : Going s l ∧ Going (s.after l) r := by
  induction l generalizing s with
  | nil => exact ⟨trivial, h⟩
  | cons e l ih => exact ⟨⟨h.1, (ih h.2).1⟩, (ih h.2).2⟩

/-- Any number of events. -/
theorem mail_run {S : Setup} (hne : S.nameI ≠ S.nameR) (es : List MEv) : ∀ {s : Sight} {M : Mail} {W}, MInv s M W →
    Going s (M.events es) → ∃ W', MInv (s.after (M.events es)) (M.run es) W' ∧
      (∀ who, got (M.run es) (s.after (M.events es)) who (W' who) =
        got M s who (W who) ++ heardW (senderName S who) (wants S s (M.events es))) ∧
      (((M.run es).sent.zip (s.after (M.events es)).said).map (fun x => (x.1, gist x.2.1)) =
        (M.sent.zip s.said).map (fun x => (x.1, gist x.2.1)) ++ es.filterMap MEv.said) := by
  induction es with
  | nil =>
    intro s M W h _
    exact ⟨W, h, fun b => (List.append_nil _).symm, (List.append_nil _).symm⟩
  | cons e es ih =>
    intro s M W h hg
    have hg : Going s (M.event e ++ (M.step e).events es) := hg
    obtain ⟨g1, g2⟩ := going_append hg
    obtain ⟨W1, i1, i2, a, b, i3, i4, i5⟩ := mail_step hne h e g1
    obtain ⟨W2, j1, j2, j3⟩ := ih i1 g2
    have hafter : s.after (M.events (e :: es)) = (s.after (M.event e)).after ((M.step e).events es) := by
      have : ∀ (l r : List CEv) (s : Sight), s.after (l ++ r) = (s.after l).after r := by
        intro l r
        induction l with
        | nil => intro s; rfl
        | cons x l ih => intro s; exact ih (s.step x)
      exact this _ _ s
    refine ⟨W2, ?_, ?_, ?_⟩
    · rw [hafter]; exact j1
    · intro who
      rw [hafter]
      show got ((M.step e).run es) _ who (W2 who) = _ ++ heardW _ (wants S s (M.event e ++ (M.step e).events es))
      rw [j2 who, i2 who, wants_append, List.append_assoc]
      simp [heardW]
    · rw [hafter]
      show ((((M.step e).run es).sent).zip _).map _ = _
      rw [j3, i3, i4, List.zip_append (by rw [h.sent, List.length_map, h.len]), List.map_append, i5, List.append_assoc]
      congr 1
      rw [← List.filterMap_append]
      rfl

theorem minv_init : MInv {} {} (fun _ => 0) where
  turn := turn_init
  len := rfl
  sent := rfl
  up := by intro who i hi; exact absurd hi (Nat.not_lt_zero _)
  gone := by intro i hi; cases hi
  upLe := fun _ => Nat.le_refl _
  goneLt := by intro i hi; cases hi

theorem got_eq_saidBy {M : Mail} {s : Sight} {es : List MEv}
    (h : (M.sent.zip s.said).map (fun x => (x.1, gist x.2.1)) = es.filterMap MEv.said) (who : Bool) (k : Nat) : got M s who k = saidBy who k es := by
  unfold got saidBy
  rw [← h, ← List.map_take, List.filterMap_map]
  rfl

/-! ## Deliveries of the same message -/

/-- What is accepted is older than the receiver's epoch. -/
def Settled (a : Abs) : Prop := ∀ e c, (e, c) ∈ a.acc → e + 1 ≤ a.recvLevel e

theorem step_deliver (a : Abs) (i : Nat) (rnd : Nat → Bytes) : a.step (.deliver i rnd) = a ∨
    ∃ m, a.log[i]? = some m ∧ a.expect m = .accept ∧ a.step (.deliver i rnd) = a.accept m := by
  simp only [Abs.step]
  split
  · exact Or.inl rfl
  · rename_i m hm
    split
    · rename_i hx
      exact Or.inr ⟨m, hm, hx, rfl⟩
    · exact Or.inl rfl

theorem settled_step {a : Abs} (h : Settled a) (ev : Ev) : Settled (a.step ev) ∧
    (∀ x ∈ a.acc, x ∈ (a.step ev).acc) ∧
    (∀ (i : Nat) (m : AMsg), a.log[i]? = some m → (a.step ev).log[i]? = some m) := by
  cases ev with
  | send who pt => exact ⟨h, fun _ hx => hx, fun _ _ hi => get_old hi⟩
  | deliver i rnd =>
    rcases step_deliver a i rnd with hs | ⟨m, _, hx, hs⟩
    · rw [hs]; exact ⟨h, fun _ hx => hx, fun _ _ hi => hi⟩
    · rw [hs, accept_log, accept_acc]
      refine ⟨?_, fun _ hx => List.mem_cons_of_mem _ hx, fun _ _ hi => hi⟩
      intro e c hm
      rw [accept_acc] at hm
      rw [recv_eq]
      rcases List.mem_cons.mp hm with g | g
      · cases g
        rw [accept_level]
        split
        · exact Nat.le_refl _
        · rename_i hne
          have hn : m.epoch ≠ a.recvLevel m.epoch + 1 := fun hn => hne ⟨rfl, hn⟩
          unfold Abs.expect at hx
          simp only [] at hx
          rw [if_neg hn] at hx
          rw [← recv_eq]
          split at hx
          · rename_i hr
            exact (ret_lt _ _ hr).1
          · cases hx
      · have := h e c g
        rw [recv_eq] at this
        exact Nat.le_trans this (accept_up a m _)

/-- Accepted messages are not accepted again. -/
theorem settled_again {a : Abs} (h : Settled a) {m : AMsg} (hm : (m.epoch, m.ctr) ∈ a.acc) : a.expect m ≠ .accept := by
  have hl := h _ _ hm
  unfold Abs.expect
  rw [if_neg (by omega)]
  split
  · simp [hm]
  · intro h; cases h

theorem accepted_in (a : Abs) (m : AMsg) : (m.epoch, m.ctr) ∈ (a.accept m).acc := by
  rw [accept_acc]
  exact List.mem_cons_self

def CWant.Shows (w : CWant) : Prop := ∃ m id, w = .shown m id

/-- Once a message is accepted no delivery of it shows anything. -/
theorem want_again (S : Setup) (i : Nat) (m : AMsg) (evs : List CEv) : ∀ (s : Sight), Settled s.abs →
    s.abs.log[i]? = some m → (m.epoch, m.ctr) ∈ s.abs.acc → ∀ (k : Nat) (X : Receive.Ext) (id : Nat) (body : Bytes)
    (atts : List Bytes) (g : Option Bytes), evs[k]? = some (CEv.deliver i X id body atts g) → ∀ v : CWant, (wants S s evs)[k]? = some v → ¬ v.Shows := by
  induction evs with
  | nil => intro s _ _ _ k X id body atts g h; simp at h
  | cons ev evs ih =>
    intro s hs hi hm k X id body atts g hk v hv
    cases k with
    | zero =>
      simp at hk
      subst hk
      have hv : some (s.want S (.deliver i X id body atts g)) = some v := hv
      cases hv
      rintro ⟨m', id', hx⟩
      simp only [Sight.want, hi] at hx
      have := settled_again hs hm
      cases hd : s.said[i]? with
      | none => rw [hd] at hx; cases hx
      | some d =>
        rw [hd] at hx
        simp only [] at hx
        cases he : s.abs.expect m with
        | accept => exact this he
        | refuse => rw [he] at hx; cases hx
        | stale => rw [he] at hx; cases hx
    | succ k =>
      have hk : evs[k]? = some (.deliver i X id body atts g) := by simpa using hk
      have hv : (wants S (s.step ev) evs)[k]? = some v := by simpa [wants] using hv
      have hstep : Settled (s.step ev).abs ∧ (s.step ev).abs.log[i]? = some m ∧ (m.epoch, m.ctr) ∈ (s.step ev).abs.acc := by
        cases ev with
        | send who X m' =>
          obtain ⟨g1, g2, g3⟩ := settled_step hs (.send who (Files.padMessage (encoded X (Send.createMessage X.now X.profileKey m'))))
          exact ⟨g1, g3 _ _ hi, g2 _ hm⟩
        | deliver j X _ _ _ _ =>
          obtain ⟨g1, g2, g3⟩ := settled_step hs (.deliver j X.rnd)
          exact ⟨g1, g3 _ _ hi, g2 _ hm⟩
        | other _ _ => exact ⟨hs, hi, hm⟩
      exact ih _ hstep.1 hstep.2.1 hstep.2.2 k X id body atts g hk v hv

/-- Two deliveries of the same message do not both show it. -/
theorem want_once (S : Setup) (i : Nat) (evs : List CEv) : ∀ (s : Sight), Settled s.abs → ∀ (k k' : Nat) (X : Receive.Ext)
    (id : Nat) (body : Bytes) (atts : List Bytes) (g : Option Bytes) (X' : Receive.Ext) (id' : Nat) (body' : Bytes)
    (atts' : List Bytes) (g' : Option Bytes),
    k < k' → evs[k]? = some (CEv.deliver i X id body atts g) → evs[k']? = some (CEv.deliver i X' id' body' atts' g') →
    ∀ v v' : CWant, (wants S s evs)[k]? = some v → (wants S s evs)[k']? = some v' → v.Shows → ¬ v'.Shows := by
  induction evs with
  | nil => intro s _ k k' X id body atts g X' id' body' atts' g' _ h; simp at h
  | cons ev evs ih =>
    intro s hs k k' X id body atts g X' id' body' atts' g' hlt hk hk' v v' hv hv' hsh
    obtain ⟨k'', rfl⟩ : ∃ q, k' = q + 1 := ⟨k' - 1, by omega⟩
    have hk'' : evs[k'']? = some (.deliver i X' id' body' atts' g') := by simpa using hk'
    have hv'' : (wants S (s.step ev) evs)[k'']? = some v' := by simpa [wants] using hv'
    cases k with
    | zero =>
      simp at hk
      subst hk
      have hv : some (s.want S (.deliver i X id body atts g)) = some v := hv
      cases hv
      obtain ⟨m0, id0, hx⟩ := hsh
      simp only [Sight.want] at hx
      cases hi : s.abs.log[i]? with
      | none => rw [hi] at hx; cases hx
      | some m =>
        rw [hi] at hx
        cases hd : s.said[i]? with
        | none => rw [hd] at hx; cases hx
        | some d =>
          rw [hd] at hx
          simp only [] at hx
          cases he : s.abs.expect m with
          | refuse => rw [he] at hx; cases hx
          | stale => rw [he] at hx; cases hx
          | accept =>
            obtain ⟨g1, g2, g3⟩ := settled_step hs (.deliver i X.rnd)
            refine want_again S i m evs _ g1 (g3 _ _ hi) ?_ k'' X' id' body' atts' g' hk'' v' hv''
            show _ ∈ (s.abs.step _).acc
            rw [show s.abs.step (.deliver i X.rnd) = s.abs.accept m by simp only [Abs.step, hi, he]]
            exact accepted_in _ _
    | succ k =>
      have hk : evs[k]? = some (.deliver i X id body atts g) := by simpa using hk
      have hv : (wants S (s.step ev) evs)[k]? = some v := by simpa [wants] using hv
      have hst : Settled (s.step ev).abs := by
        cases ev with
        | send who X m' => exact (settled_step hs _).1
        | deliver j X _ _ _ _ => exact (settled_step hs _).1
        | other _ _ => exact hs
      exact ih _ hst k k'' X id body atts g X' id' body' atts' g' (by omega) hk hk'' v v' hv hv'' hsh

theorem forall2_get {α β : Type} {R : α → β → Prop} {l : List α} {l' : List β} (h : List.Forall₂ R l l') (k : Nat) (y : β)
    (hy : l'[k]? = some y) : ∃ x, l[k]? = some x ∧ R x y := by
  induction h generalizing k with
  | nil => simp at hy
  | cons h1 _ ih =>
    cases k with
    | zero => simp at hy; subst hy; exact ⟨_, rfl, h1⟩
    | succ k => simpa using ih k (by simpa using hy)

theorem agree_shows {w : CWant} {o : COut} (h : CAgree w o) : w.Shows ↔ o.Shows := by
  constructor
  · rintro ⟨m, id, rfl⟩
    cases o with
    | told evs e => exact ⟨evs, e, m, rfl, by rw [h.1]; simp⟩
    | sent _ => exact absurd h (by intro h; exact h)
    | nothing => exact absurd h (by intro h; exact h)
  · rintro ⟨evs, e, m, rfl, hm⟩
    cases w with
    | shown m id => exact ⟨m, id, rfl⟩
    | silent id => rw [h.1] at hm; simp at hm
    | stale id => exact absurd (h _ hm) (by intro h; cases h)
    | sent _ => exact absurd h (by intro h; exact h)
    | nothing => exact absurd h (by intro h; exact h)

theorem real_going (P : Prims) (S : Setup) (evs : List CEv) : ∀ (s : Sight) (w : Pair), Real P S s w evs → Going s evs := by
  induction evs with
  | nil => intro _ _ _; trivial
  | cons ev evs ih =>
    intro s w h
    obtain ⟨h1, _, h3⟩ := h
    refine ⟨?_, ih _ _ h3⟩
    intro X m he
    subst he
    exact (show SendReal P S s w true X m from h1).session rfl

end Verif.Clients
