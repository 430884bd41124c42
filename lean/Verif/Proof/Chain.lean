import Verif.Model.Session
import Verif.Proof.Messages
import Verif.Proof.Cbc
/-!
Lemmas about symmetric chains: what the receiver holds for a chain, compared with what the sender used.
-/
namespace Verif.Session
open Verif Verif.Keys Verif.Messages

/-- The sender's chain key after `n` messages. -/
def ckAt (P : Prims) (c : ChainKey) : Nat → ChainKey
  | 0 => c
  | n + 1 => nextCK P (ckAt P c n)

theorem ckAt_add (P : Prims) (c : ChainKey) (n m : Nat) :
    ckAt P (ckAt P c n) m = ckAt P c (n + m) := by
  induction m with
  | zero => rfl
  | succ m ih =>
    show nextCK P (ckAt P (ckAt P c n) m) = nextCK P (ckAt P c (n + m))
    rw [ih]

theorem ckAt_idx (P : Prims) (c : ChainKey) (n : Nat) (h : c.idx + n < u32) :
    (ckAt P c n).idx = c.idx + n := by
  induction n with
  | zero => rfl
  | succ n ih =>
    simp only [ckAt, nextCK]
    rw [ih (by omega)]
    rw [Nat.mod_eq_of_lt (by omega)]; omega

theorem ckAt_len (P : Prims) (c : ChainKey) (n : Nat) (h : c.key.length = 32) :
    (ckAt P c n).key.length = 32 := by
  cases n with
  | zero => exact h
  | succ n => simp [ckAt, nextCK, P.hmac_len]

theorem msgKeys_idx (P : Prims) (c : ChainKey) : (msgKeys P c).idx = c.idx := rfl

theorem msgKeys_lens (P : Prims) (c : ChainKey) :
    (msgKeys P c).cipherKey.length = 32 ∧ (msgKeys P c).macKey.length = 32 ∧
      (msgKeys P c).iv.length = 16 := by
  simp [msgKeys, P.hkdf_len]

/-- Keys skipped when moving `n` steps from `ckAt P c k`. -/
theorem skipKeys_eq (P : Prims) (c : ChainKey) (n k : Nat) :
    skipKeys P n (ckAt P c k) =
      ((List.range n).map (fun i => msgKeys P (ckAt P c (k + i))), ckAt P c (k + n)) := by
  induction n generalizing k with
  | zero => rfl
  | succ n ih =>
    have h := ih (k + 1)
    simp only [ckAt] at h
    simp only [skipKeys]
    rw [h, List.range_succ_eq_map]
    simp only [List.map_cons, List.map_map, Nat.add_zero]
    refine Prod.ext ?_ ?_
    · simp only [List.cons.injEq, true_and]
      apply List.map_congr_left
      intro i _
      simp only [Function.comp, Nat.succ_eq_add_one]
      congr 2; omega
    · simp only; congr 1; omega

/-- Removing a stored key. -/
theorem mem_eraseMk (l : List MsgKeys) (c : Nat) (hn : (l.map MsgKeys.idx).Nodup) (m : MsgKeys) :
    m ∈ eraseMk c l ↔ m ∈ l ∧ m.idx ≠ c := by
  induction l with
  | nil => simp [eraseMk]
  | cons a l ih =>
    simp only [List.map_cons, List.nodup_cons] at hn
    unfold eraseMk
    split
    · rename_i h
      constructor
      · intro hm
        refine ⟨List.mem_cons_of_mem _ hm, ?_⟩
        intro hc
        exact hn.1 (by rw [h, ← hc]; exact List.mem_map_of_mem hm)
      · rintro ⟨hm, hc⟩
        rcases List.mem_cons.mp hm with rfl | hm
        · exact absurd h hc
        · exact hm
    · rename_i h
      rw [List.mem_cons, ih hn.2, List.mem_cons]
      constructor
      · rintro (rfl | ⟨h1, h2⟩)
        · exact ⟨Or.inl rfl, h⟩
        · exact ⟨Or.inr h1, h2⟩
      · rintro ⟨rfl | h1, h2⟩
        · exact Or.inl rfl
        · exact Or.inr ⟨h1, h2⟩

theorem eraseMk_sublist (l : List MsgKeys) (c : Nat) : (eraseMk c l).Sublist l := by
  induction l with
  | nil => exact .slnil
  | cons a l ih =>
    unfold eraseMk
    split
    · exact List.sublist_cons_self a l
    · exact ih.cons₂ a

/-- `rc` is the receiver's view of the sender chain starting at `C`: position `p`, with the messages in
`D` already delivered. -/
structure Tracks (P : Prims) (C : ChainKey) (rc : RecvChain) (p : Nat) (D : Nat → Prop) : Prop where
  ck : rc.ck = ckAt P C p
  sound : ∀ mk ∈ rc.mks, ∃ j, j < p ∧ ¬ D j ∧ mk = msgKeys P (ckAt P C j)
  complete : ∀ j, j < p → ¬ D j → msgKeys P (ckAt P C j) ∈ rc.mks
  nodup : (rc.mks.map MsgKeys.idx).Nodup
  below : ∀ j, D j → j < p

theorem Tracks.init (P : Prims) (C : ChainKey) (eph : Bytes) :
    Tracks P C ⟨eph, C, []⟩ 0 (fun _ => False) where
  ck := rfl
  sound := by simp
  complete := by intro j h; omega
  nodup := by simp
  below := by simp

theorem find_mk (l : List MsgKeys) (mk : MsgKeys) (hm : mk ∈ l) (hn : (l.map MsgKeys.idx).Nodup) :
    l.find? (fun m => m.idx = mk.idx) = some mk := by
  induction l with
  | nil => simp at hm
  | cons a l ih =>
    simp only [List.map_cons, List.nodup_cons] at hn
    rcases List.mem_cons.mp hm with rfl | hm
    · simp
    · have hne : a.idx ≠ mk.idx := fun h => hn.1 (by rw [h]; exact List.mem_map_of_mem hm)
      rw [List.find?_cons_of_neg (by simpa using hne)]
      exact ih hm hn.2

/-- Where the first element satisfying a predicate is, `find?` sees the update. -/
theorem find_updFirst {α : Type} (p : α → Bool) (f : α → α) (hf : ∀ a, p a = true → p (f a) = true)
    (l : List α) (a : α) (h : l.find? p = some a) : (updFirst p f l).find? p = some (f a) := by
  induction l with
  | nil => simp at h
  | cons b l ih =>
    unfold updFirst
    by_cases hb : p b = true
    · simp [hb] at h
      subst h
      simp [hb, hf b hb]
    · simp [hb] at h
      simp [hb, ih h]

/-- The key for counter `c` on a chain that tracks `C`: every outcome of `getOrCreateMessageKeys`. -/
theorem messageKeys_tracks (P : Prims) (C : ChainKey) (s : SState) (eph : Bytes) (rc : RecvChain)
    (p : Nat) (D : Nat → Prop) (c : Nat) (hC : C.idx = 0) (hp : p < u32) (hc : c < u32)
    (hg : getRecv s eph = some rc) (ht : Tracks P C rc p D) :
    (D c → getOrCreateMessageKeys P s eph rc.ck c = .err .duplicate) ∧
    (c > p + 2000 → getOrCreateMessageKeys P s eph rc.ck c = .err .tooFarAhead) ∧
    (¬ D c → c ≤ p + 2000 →
      ∃ f, getOrCreateMessageKeys P s eph rc.ck c = .ok (modRecv s eph f, msgKeys P (ckAt P C c)) ∧
        (∀ x, (f x).ratchet = x.ratchet) ∧
        Tracks P C (f rc) (max p (c + 1)) (fun j => D j ∨ j = c)) := by
  have hidx : ∀ j, j < u32 → (ckAt P C j).idx = j := by
    intro j hj; rw [ckAt_idx P C j (by omega), hC]; omega
  have hci : rc.ck.idx = p := by rw [ht.ck, hidx p hp]
  refine ⟨?_, ?_, ?_⟩
  · intro hd
    have hlt := ht.below c hd
    unfold getOrCreateMessageKeys
    rw [if_pos (by omega)]
    simp only [hg]
    have : rc.mks.find? (fun m => m.idx = c) = none := by
      rw [List.find?_eq_none]
      intro m hm
      obtain ⟨j, hj, hnd, rfl⟩ := ht.sound m hm
      simp only [msgKeys_idx, hidx j (by omega), decide_eq_true_eq]
      rintro rfl
      exact hnd hd
    rw [this]
  · intro h
    unfold getOrCreateMessageKeys
    rw [if_neg (by omega), if_pos (by omega)]
  · intro hnd hle
    by_cases hcp : c < p
    · refine ⟨fun x => { x with mks := eraseMk c x.mks }, ?_, fun _ => rfl, ?_⟩
      · unfold getOrCreateMessageKeys
        rw [if_pos (by omega)]
        simp only [hg]
        have hm := ht.complete c hcp hnd
        have := find_mk rc.mks _ hm ht.nodup
        simp only [msgKeys_idx, hidx c hc] at this
        rw [this]
      · have hmax : max p (c + 1) = p := by omega
        rw [hmax]
        refine ⟨ht.ck, ?_, ?_, ?_, ?_⟩
        · intro mk hmk
          rw [mem_eraseMk _ _ ht.nodup] at hmk
          obtain ⟨j, hj, hd, rfl⟩ := ht.sound mk hmk.1
          refine ⟨j, hj, ?_, rfl⟩
          rintro (h | h)
          · exact hd h
          · apply hmk.2; rw [msgKeys_idx, hidx j (by omega), h]
        · intro j hj hd
          rw [mem_eraseMk _ _ ht.nodup]
          refine ⟨ht.complete j hj (fun h => hd (Or.inl h)), ?_⟩
          rw [msgKeys_idx, hidx j (by omega)]
          exact fun h => hd (Or.inr h)
        · exact (List.Sublist.map _ (eraseMk_sublist _ _)).nodup ht.nodup
        · rintro j (h | rfl)
          · exact ht.below j h
          · exact hcp
    · have hsk := skipKeys_eq P C (c - p) p
      have hpc : p + (c - p) = c := by omega
      rw [hpc] at hsk
      refine ⟨fun x => { x with
          mks := x.mks ++ (List.range (c - p)).map (fun i => msgKeys P (ckAt P C (p + i)))
          ck := ckAt P C (c + 1) }, ?_, fun _ => rfl, ?_⟩
      · unfold getOrCreateMessageKeys
        rw [if_neg (by omega), if_neg (by omega), hci, ht.ck, hsk]
        rfl
      · have hmax : max p (c + 1) = c + 1 := by omega
        rw [hmax]
        refine ⟨rfl, ?_, ?_, ?_, ?_⟩
        · intro mk hmk
          simp only [List.mem_append, List.mem_map, List.mem_range] at hmk
          rcases hmk with hmk | ⟨i, hi, rfl⟩
          · obtain ⟨j, hj, hd, rfl⟩ := ht.sound mk hmk
            refine ⟨j, by omega, ?_, rfl⟩
            rintro (h | h)
            · exact hd h
            · omega
          · refine ⟨p + i, by omega, ?_, rfl⟩
            rintro (h | h)
            · have := ht.below _ h; omega
            · omega
        · intro j hj hd
          simp only [List.mem_append, List.mem_map, List.mem_range]
          by_cases hjp : j < p
          · exact Or.inl (ht.complete j hjp (fun h => hd (Or.inl h)))
          · refine Or.inr ⟨j - p, ?_, ?_⟩
            · have : j ≠ c := fun h => hd (Or.inr h)
              omega
            · rw [show p + (j - p) = j by omega]
        · simp only [List.map_append, List.map_map]
          rw [List.nodup_append]
          refine ⟨ht.nodup, ?_, ?_⟩
          · rw [List.nodup_iff_pairwise_ne, List.pairwise_map]
            apply List.Pairwise.imp_of_mem (R := fun a b => a < b) _ List.pairwise_lt_range
            intro a b ha hb hab
            simp only [List.mem_range] at ha hb
            simp only [Function.comp, msgKeys_idx]
            rw [hidx _ (by omega), hidx _ (by omega)]
            omega
          · intro x hx y hy
            simp only [List.mem_map, List.mem_range, Function.comp] at hx hy
            obtain ⟨mk, hmk, rfl⟩ := hx
            obtain ⟨i, hi, rfl⟩ := hy
            obtain ⟨j, hj, _, rfl⟩ := ht.sound mk hmk
            rw [msgKeys_idx, msgKeys_idx, hidx _ (by omega), hidx _ (by omega)]
            omega
        · rintro j (h | rfl)
          · have := ht.below j h; omega
          · omega

end Verif.Session
