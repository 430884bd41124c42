import Verif.Spec.Healing
import Verif.Proof.Theft
/-!
# Lemmas for C174
-/
namespace Verif.Theft
open Verif Verif.Keys Verif.Messages Verif.Session Verif.Api Verif.Names Verif.Conv

theorem simulate_pairs {P : Prims} {S : Setup} (hS : S.Ok P) : ∀ (evs : List Ev) (G : List Epoch) (a : Abs)
    (w : World), Rel P S G a w → Legal a evs → (G.map (fun g => g.kp.pub) ++ keysOf P evs).Nodup →
    a.log.length + evs.length + 1 < u32 → NoForgery P S a w evs →
    ∃ G', Rel P S G' (evs.foldl Abs.step a) (evs.foldl (fun w ev => (w.step P S ev).1) w) ∧
      G'.map (fun g => g.kp) = G.map (fun g => g.kp) ++ (turned a evs).map (newPair P) := by
  intro evs
  induction evs with
  | nil => intro G a w h _ _ _ _; exact ⟨G, h, by simp [turned]⟩
  | cons ev evs ih =>
    intro G a w h hl hn hb hnf
    simp only [List.length_cons] at hb
    have hstep : StepOk P S G a w ev := by
      cases ev with
      | send who pt => exact step_send hS h who pt hl.1 (by omega)
      | deliver i rnd =>
        refine step_deliver hS h i rnd hl.1 ?_ (by omega) hnf.1
        intro x hx he
        rw [List.nodup_append] at hn
        exact hn.2.2 x.kp.pub (List.mem_map.mpr ⟨x, hx, rfl⟩) (newPair P (rnd 0)).pub
          (by simp [keysOf]) he
    obtain ⟨hag, G', hrel, hG⟩ := hstep
    have hll : (a.step ev).log.length ≤ a.log.length + 1 := by
      cases ev with
      | send who pt => simp [Abs.step]
      | deliver i rnd =>
        simp only [Abs.step]
        split
        · omega
        · split
          · unfold Abs.accept
            simp only
            split
            · split <;> simp
            · simp
          · omega
    have h1 := h.len
    have h2 := hrel.len
    have hn' : (G'.map (fun g => g.kp.pub) ++ keysOf P evs).Nodup := by
      rcases hG with rfl | ⟨g, i, rnd, rfl, rfl, hk⟩
      · refine hn.sublist ?_
        refine List.Sublist.append (List.Sublist.refl _) ?_
        unfold keysOf
        cases ev <;> simp
      · have he : keysOf P (.deliver i rnd :: evs) = (newPair P (rnd 0)).pub :: keysOf P evs := by
          simp [keysOf]
        rw [he] at hn
        rw [List.map_append, List.append_assoc]
        simpa [hk] using hn
    obtain ⟨G'', hr, hm⟩ := ih G' _ _ hrel hl.2 hn' (by omega) hnf.2
    refine ⟨G'', hr, hm.trans ?_⟩
    rcases hG with rfl | ⟨g, i, rnd, rfl, rfl, hk⟩
    · cases ev with
      | send who pt => rfl
      | deliver i rnd =>
        have : ¬ top a < top (a.step (.deliver i rnd)) := by unfold top; omega
        simp only [turned, if_neg this]
    · have : top a < top (a.step (.deliver i rnd)) := by
        unfold top
        simp only [List.length_append, List.length_cons, List.length_nil] at h2
        omega
      simp only [turned, if_pos this, List.map_append, List.map_cons, List.map_nil, hk, List.append_assoc,
        List.cons_append, List.nil_append]

/-- The epochs of a conversation follow from the key pairs. -/
theorem chain_roots {P : Prims} {G : List Epoch} (hc : Chain P G) {g0 : Epoch} (h0 : G[0]? = some g0) :
    ∀ (e : Nat) (g : Epoch), G[e]? = some g → g.root = rootOf P g0.root (G.map (fun g => g.kp)) e := by
  intro e
  induction e with
  | zero =>
    intro g hg
    rw [h0] at hg
    injection hg with hg
    subst hg
    rfl
  | succ e ih =>
    intro g hg
    have hlt := (List.getElem?_eq_some_iff.mp hg).1
    obtain ⟨k, hk⟩ : ∃ k, G[e]? = some k := ⟨G[e]'(by omega), List.getElem?_eq_getElem (by omega)⟩
    have hl := hc.link e k g hk hg
    simp only [rootOf, List.getElem?_map, hk, hg, Option.map_some, ← ih k hk]
    exact (congrArg Prod.fst hl).symm

theorem chain_chains {P : Prims} {G : List Epoch} (hc : Chain P G) {g0 : Epoch} (h0 : G[0]? = some g0)
    (e : Nat) (g : Epoch) (hg : G[e + 1]? = some g) :
    g.ck.key = chainOf P g0.root (G.map (fun g => g.kp)) (e + 1) := by
  have hlt := (List.getElem?_eq_some_iff.mp hg).1
  obtain ⟨k, hk⟩ : ∃ k, G[e]? = some k := ⟨G[e]'(by omega), List.getElem?_eq_getElem (by omega)⟩
  have hl := hc.link e k g hk hg
  simp only [chainOf, List.getElem?_map, hk, hg, Option.map_some, ← chain_roots hc h0 e k hk]
  exact (congrArg (fun x => x.2.key) hl).symm

theorem turned_append (pre post : List Ev) : ∀ a : Abs,
    turned a (pre ++ post) = turned a pre ++ turned (pre.foldl Abs.step a) post := by
  induction pre with
  | nil => intro a; rfl
  | cons ev pre ih =>
    intro a
    cases ev with
    | send who pt => exact ih _
    | deliver i rnd =>
      simp only [List.cons_append, turned, List.foldl_cons]
      split <;> simp [ih]

theorem turned_mem : ∀ (evs : List Ev) (a : Abs) (d : Bytes), d ∈ turned a evs →
    ∃ i rnd, Ev.deliver i rnd ∈ evs ∧ d = rnd 0 := by
  intro evs
  induction evs with
  | nil => intro a d h; simp [turned] at h
  | cons ev evs ih =>
    intro a d h
    cases ev with
    | send who pt =>
      obtain ⟨i, rnd, h1, h2⟩ := ih _ d h
      exact ⟨i, rnd, List.mem_cons_of_mem _ h1, h2⟩
    | deliver i rnd =>
      simp only [turned] at h
      split at h
      · rcases List.mem_cons.mp h with rfl | h
        · exact ⟨i, rnd, List.mem_cons_self, rfl⟩
        · obtain ⟨i, rnd, h1, h2⟩ := ih _ d h
          exact ⟨i, rnd, List.mem_cons_of_mem _ h1, h2⟩
      · obtain ⟨i, rnd, h1, h2⟩ := ih _ d h
        exact ⟨i, rnd, List.mem_cons_of_mem _ h1, h2⟩

end Verif.Theft
