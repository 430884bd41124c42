import Verif.Spec.Theft
import Verif.Proof.Conversation
/-!
# Lemmas for C152
-/
namespace Verif.Theft
open Verif Verif.Keys Verif.Messages Verif.Session Verif.Api Verif.Names Verif.Conv

/-- As `simulate`, for the states reached. -/
theorem simulate_rel {P : Prims} {S : Setup} (hS : S.Ok P) : ∀ (evs : List Ev) (G : List Epoch) (a : Abs)
    (w : World), Rel P S G a w → Legal a evs → (G.map (fun g => g.kp.pub) ++ keysOf P evs).Nodup →
    a.log.length + evs.length + 1 < u32 → NoForgery P S a w evs →
    ∃ G', Rel P S G' (evs.foldl Abs.step a) (evs.foldl (fun w ev => (w.step P S ev).1) w) := by
  intro evs
  induction evs with
  | nil => intro G a w h _ _ _ _; exact ⟨G, h⟩
  | cons ev evs ih =>
    intro G a w h hl hn hb hnf
    simp only [List.length_cons] at hb
    have hstep : StepOk P S G a w ev := by
      cases ev with
      | send who pt => exact step_send hS h who pt hl.1 (by omega)
      | deliver i rnd =>
        refine step_deliver hS h i rnd hl.1 ?_ (by omega) hnf.1
        intro x hx he
        rw [List.nodup_append] at hn
        exact hn.2.2 x.kp.pub (List.mem_map.mpr ⟨x, hx, rfl⟩) (newPair P (rnd 0)).pub
          (by simp [keysOf]) he
    obtain ⟨hag, G', hrel, hG⟩ := hstep
    have hll : (a.step ev).log.length ≤ a.log.length + 1 := by
      cases ev with
      | send who pt => simp [Abs.step]
      | deliver i rnd =>
        simp only [Abs.step]
        split
        · omega
        · split
          · unfold Abs.accept
            simp only
            split
            · split <;> simp
            · simp
          · omega
    refine ih G' _ _ hrel hl.2 ?_ (by omega) hnf.2
    rcases hG with rfl | ⟨g, i, rnd, rfl, rfl, hk⟩
    · refine hn.sublist ?_
      refine List.Sublist.append (List.Sublist.refl _) ?_
      unfold keysOf
      cases ev <;> simp
    · have he : keysOf P (.deliver i rnd :: evs) = (newPair P (rnd 0)).pub :: keysOf P evs := by
        simp [keysOf]
      rw [he] at hn
      rw [List.map_append, List.append_assoc]
      simpa [hk] using hn

theorem later_ckAt (P : Prims) (c : ChainKey) (n : Nat) : (ckAt P c n).key = later P c.key n := by
  induction n with
  | zero => rfl
  | succ n ih => simp [ckAt, nextCK, later, ih]

theorem later_add (P : Prims) (k : Bytes) (n m : Nat) : later P (later P k n) m = later P k (n + m) := by
  induction m with
  | zero => rfl
  | succ m ih =>
    show P.hmac (later P (later P k n) m) [2] = P.hmac (later P k (n + m)) [2]
    rw [ih]

theorem keyOf_later (P : Prims) (k : Bytes) (n m : Nat) : keyOf P (later P k n) m = keyOf P k (n + m) := by
  simp only [keyOf, later_add]

theorem keyOf_msgKeys (P : Prims) (c : ChainKey) (n : Nat) :
    (⟨(msgKeys P (ckAt P c n)).cipherKey, (msgKeys P (ckAt P c n)).macKey, (msgKeys P (ckAt P c n)).iv⟩ : MKey)
      = keyOf P c.key n := by
  simp only [msgKeys, keyOf, later_ckAt]

/-- The first chain key of an epoch. -/
def firstKey (G : List Epoch) (e : Nat) : Bytes :=
  match G[e]? with
  | some g => g.ck.key
  | none => []

theorem firstKey_of {G : List Epoch} {e : Nat} {g : Epoch} (h : G[e]? = some g) : firstKey G e = g.ck.key := by
  simp only [firstKey, h]

theorem forall₂_right {α β : Type} {R : α → β → Prop} {l : List α} {m : List β} (h : List.Forall₂ R l m) :
    ∀ b ∈ m, ∃ a ∈ l, R a b := by
  induction h with
  | nil => simp
  | cons hab _ ih =>
    intro b hb
    rcases List.mem_cons.mp hb with rfl | hb
    · exact ⟨_, List.mem_cons_self, hab⟩
    · obtain ⟨a, ha, hr⟩ := ih b hb
      exact ⟨a, List.mem_cons_of_mem _ ha, hr⟩

theorem forall₂_left {α β : Type} {R : α → β → Prop} {l : List α} {m : List β} (h : List.Forall₂ R l m) :
    ∀ a ∈ l, ∃ b ∈ m, R a b := by
  induction h with
  | nil => simp
  | cons hab _ ih =>
    intro b hb
    rcases List.mem_cons.mp hb with rfl | hb
    · exact ⟨_, List.mem_cons_self, hab⟩
    · obtain ⟨a, ha, hr⟩ := ih b hb
      exact ⟨a, List.mem_cons_of_mem _ ha, hr⟩

/-- What a record in step with the conversation gives away. -/
theorem has_future {P : Prims} {G : List Epoch} {a : Abs} {n : Nat} {me them : Bytes} {pend base reg} {r : SRecord}
    (h : SessAt P G a.log a.acc n me them pend base reg r) (K : MKey) (hK : Has P r K) :
    ∃ sd, r.cur.sender = some sd ∧
      (Future P (firstKey G) a n r.cur.rootKey sd.priv K ∨ 0 ∈ ret n ∧ ∃ j, K = keyOf P (firstKey G 1) j) := by
  obtain ⟨g, hg, hroot, hsd⟩ := h.party.key
  refine ⟨_, hsd, ?_⟩
  cases hK with
  | kept s c k hs hc hk =>
    rw [h.prev, List.mem_singleton] at hs
    subst hs
    obtain ⟨e, he, ge, hge, _, ht, h0⟩ := forall₂_right h.party.recv c hc
    by_cases hz : e = 0
    · have := (h0 hz).1
      rw [this] at hk
      simp at hk
    · obtain ⟨j, hj, hD, rfl⟩ := (ht hz).sound k hk
      rw [keyOf_msgKeys, ← firstKey_of hge]
      exact Or.inl (.unread e j he hz hD)
  | receiving s c m hs hc =>
    rw [h.prev, List.mem_singleton] at hs
    subst hs
    obtain ⟨e, he, ge, hge, _, ht, h0⟩ := forall₂_right h.party.recv c hc
    by_cases hz : e = 0
    · obtain ⟨_, g1, hg1, hck⟩ := h0 hz
      rw [hck, ← firstKey_of hg1]
      exact Or.inr ⟨hz ▸ he, m, rfl⟩
    · rw [(ht hz).ck, later_ckAt, keyOf_later, ← firstKey_of hge]
      refine Or.inl (.unread e _ he hz ?_)
      intro hx
      have := (ht hz).below _ hx
      omega
  | sending s c m hs hc =>
    rw [h.prev, List.mem_singleton] at hs
    subst hs
    rw [hsd] at hc
    injection hc with hc
    subst hc
    show Future P _ a n _ _ (keyOf P (ckAt P g.ck (count a.log n)).key m) ∨ _
    rw [later_ckAt, keyOf_later, ← firstKey_of hg]
    exact Or.inl (.unsent _ (by omega))
  | turning s c x m hs hc =>
    rw [h.prev, List.mem_singleton] at hs
    subst hs
    rw [hsd] at hc
    injection hc with hc
    subst hc
    exact Or.inl (.next x m)

/-- The bytes of a message open with its keys. -/
theorem opens_msg {P : Prims} {S : Setup} {G : List Epoch} {m : AMsg} {x : Bool × Bytes × MsgType}
    (h : MsgOk P S G m x) : OpensTo P (keyOf P (firstKey G m.epoch) m.ctr) x.2.1 x.2.2 m.pt := by
  obtain ⟨g, wm, hg, _, hm, hw⟩ := h
  have hin : inside x.2.1 x.2.2 = some wm := by
    by_cases h1 : m.epoch = 1
    · obtain ⟨hty, pm, hpm, _, _, _, _, _, _, hin⟩ := hw.2 h1
      simp only [inside, hty, hpm, hin]
    · obtain ⟨hty, hl⟩ := hw.1 h1
      simp only [inside, hty, hl]
  unfold OpensTo opened
  rw [hin, firstKey_of hg, ← keyOf_msgKeys]
  exact congrArg some hm.opens.2

theorem ret_zero_even : ∀ k, 0 ∉ ret (2 * k)
  | 0 => by simp [ret]
  | k + 1 => by
    show 0 ∉ ret (2 * k + 2)
    intro h
    have := ret_lt _ _ h
    omega

/-- The initiator forgets the chain of the signed prekey with the fifth turn. -/
theorem ret_odd (k : Nat) : ret (2 * k + 1) = last5 ((List.range (k + 1)).map (fun i => 2 * i)) := by
  induction k with
  | zero => decide
  | succ k ih =>
    show last5 (ret (2 * k + 1) ++ [2 * k + 2]) = _
    rw [ih, List.range_succ (n := k + 1), List.map_append]
    unfold last5
    simp only [List.length_append, List.length_drop, List.length_map, List.length_range, List.map_cons,
      List.map_nil, List.length_cons, List.length_nil]
    rw [show 2 * k + 2 = 2 * (k + 1) by omega]
    by_cases hk : k + 1 ≤ 5
    · rw [show k + 1 - 5 = 0 by omega, List.drop_zero, Nat.sub_zero]
    · rw [show k + 1 - (k + 1 - 5) + (0 + 1) - 5 = 1 by omega, List.drop_append_of_le_length (by simp; omega),
        List.drop_append_of_le_length (by simp; omega), List.drop_drop]
      congr 2
      omega

theorem zero_mem_ret (n : Nat) (hn : n % 2 = 1) : 0 ∈ ret n ↔ n < 11 := by
  obtain ⟨k, rfl⟩ : ∃ k, n = 2 * k + 1 := ⟨n / 2, by omega⟩
  rw [ret_odd]
  by_cases hk : k < 5
  · have : ∀ k < 5, 0 ∈ last5 ((List.range (k + 1)).map (fun i => 2 * i)) := by decide
    exact ⟨fun _ => by omega, fun _ => this k hk⟩
  · constructor
    · intro h
      unfold last5 at h
      rw [← List.map_drop] at h
      obtain ⟨i, hi, h0⟩ := List.mem_map.mp h
      rw [List.mem_iff_getElem] at hi
      obtain ⟨j, hj, hji⟩ := hi
      simp only [List.length_map, List.length_range, List.length_drop] at hj
      simp only [List.getElem_drop, List.getElem_range, List.length_map, List.length_range] at hji
      omega
    · intro h
      omega

end Verif.Theft
