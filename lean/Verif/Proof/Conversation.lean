import Verif.Spec.Conversation
import Verif.Proof.Shape
import Mathlib.Data.List.Forall2
/-!
# Refinement: two modelled clients implement the abstract conversation
-/
namespace Verif.Conv
open Verif Verif.Keys Verif.Messages Verif.Session Verif.Api Verif.Names

/-! ## Facts about the specification -/

theorem last5_sublist (l : List Nat) : (last5 l).Sublist l := List.drop_sublist _ _

theorem ret_lt : ∀ n, ∀ e ∈ ret n, e < n ∧ (e + n) % 2 = 1
  | 0 => by simp [ret]
  | 1 => by simp [ret]
  | n + 2 => by
    intro e he
    have he := (last5_sublist _).mem he
    rcases List.mem_append.mp he with he | he
    · have := ret_lt n e he; omega
    · simp at he; omega

theorem ret_nodup : ∀ n, (ret n).Nodup
  | 0 => by simp [ret]
  | 1 => by simp [ret]
  | n + 2 => by
    apply (last5_sublist _).nodup
    rw [List.nodup_append]
    refine ⟨ret_nodup n, by simp, ?_⟩
    intro a ha b hb
    have := ret_lt n a ha
    simp at hb
    omega

theorem ret_length : ∀ n, (ret n).length ≤ 5
  | 0 => by simp [ret]
  | 1 => by simp [ret]
  | n + 2 => by
    simp only [ret, last5, List.length_drop]
    omega

theorem pos_cons_ne (acc : List (Nat × Nat)) (e e' c : Nat) (h : e ≠ e') :
    pos ((e, c) :: acc) e' = pos acc e' := by simp [pos, h]

theorem pos_cons_eq (acc : List (Nat × Nat)) (e c : Nat) :
    pos ((e, c) :: acc) e = max (pos acc e) (c + 1) := by simp [pos]

theorem pos_le (acc : List (Nat × Nat)) (e B : Nat) (h : ∀ x ∈ acc, x.2 < B) : pos acc e ≤ B := by
  induction acc with
  | nil => simp [pos]
  | cons a l ih =>
    obtain ⟨e', c⟩ := a
    have h1 := h (e', c) List.mem_cons_self
    have h2 := ih (fun x hx => h x (List.mem_cons_of_mem _ hx))
    simp only [pos]
    simp only at h1
    split <;> omega

theorem pos_zero (acc : List (Nat × Nat)) (e : Nat) (h : ∀ x ∈ acc, x.1 ≠ e) : pos acc e = 0 := by
  induction acc with
  | nil => rfl
  | cons a l ih =>
    obtain ⟨e', c⟩ := a
    have h1 := h (e', c) List.mem_cons_self
    simp only [pos]
    rw [if_neg h1]
    exact ih (fun x hx => h x (List.mem_cons_of_mem _ hx))

theorem count_append (log : List AMsg) (m : AMsg) (e : Nat) :
    count (log ++ [m]) e = count log e + (if m.epoch = e then 1 else 0) := by
  unfold count
  rw [List.filter_append]
  by_cases h : m.epoch = e <;> simp [h]

theorem count_le (log : List AMsg) (e : Nat) : count log e ≤ log.length := List.length_filter_le _ _

/-! ## Ghost state: the sequence of ratchet epochs -/

structure Epoch where
  kp : KeyPair
  root : Bytes
  ck : ChainKey

structure Chain (P : Prims) (G : List Epoch) : Prop where
  valid : ∀ g ∈ G, g.kp.Valid P ∧ g.root.length = 32 ∧ g.ck.key.length = 32 ∧ g.ck.idx = 0
  link : ∀ (i : Nat) a b, G[i]? = some a → G[i + 1]? = some b →
    createChain P a.root a.kp.pub b.kp.priv = (b.root, b.ck)
  distinct : (G.map (fun g => g.kp.pub)).Nodup

theorem Chain.inj {P : Prims} {G : List Epoch} (h : Chain P G) {i j : Nat} {a b : Epoch}
    (hi : G[i]? = some a) (hj : G[j]? = some b) (he : a.kp.pub = b.kp.pub) : i = j := by
  obtain ⟨hi1, hi2⟩ := List.getElem?_eq_some_iff.mp hi
  obtain ⟨hj1, hj2⟩ := List.getElem?_eq_some_iff.mp hj
  have := h.distinct
  rw [List.nodup_iff_pairwise_ne, List.pairwise_iff_getElem] at this
  rcases Nat.lt_trichotomy i j with hlt | heq | hgt
  · exact (this i j (by simpa using hi1) (by simpa using hj1) hlt
      (by simp only [List.getElem_map, hi2, hj2, he])).elim
  · exact heq
  · exact (this j i (by simpa using hj1) (by simpa using hi1) hgt
      (by simp only [List.getElem_map, hi2, hj2, he])).elim

theorem dh_swap {P : Prims} {a b : KeyPair} (ha : a.Valid P) (hb : b.Valid P) :
    P.dh a.priv b.pub = P.dh b.priv a.pub := by
  rw [ha.2, hb.2]; exact P.dh_comm _ _ ha.1 hb.1

/-- A receiving chain is in step with the epoch it receives. The chain that the initiator registers for the signed
prekey (epoch 0) has the first sending chain key, unchanged. -/
def RecvOk (P : Prims) (G : List Epoch) (acc : List (Nat × Nat)) (e : Nat) (rc : RecvChain) : Prop :=
  ∃ g, G[e]? = some g ∧ rc.ratchet = g.kp.pub ∧
    (e ≠ 0 → Tracks P g.ck rc (pos acc e) (fun c => (e, c) ∈ acc)) ∧
    (e = 0 → rc.mks = [] ∧ ∃ g1, G[1]? = some g1 ∧ rc.ck = g1.ck)

theorem RecvOk.other {P G acc e rc} (h : RecvOk P G acc e rc) (e' c : Nat) (hne : e' ≠ e) :
    RecvOk P G ((e', c) :: acc) e rc := by
  obtain ⟨g, h1, h2, h3, h4⟩ := h
  refine ⟨g, h1, h2, fun h0 => ?_, h4⟩
  have := h3 h0
  rw [pos_cons_ne _ _ _ _ hne]
  have hd : (fun c' => (e, c') ∈ (e', c) :: acc) = (fun c' => (e, c') ∈ acc) := by
    funext c'
    simp only [List.mem_cons, Prod.mk.injEq, eq_iff_iff]
    constructor
    · rintro (⟨h, _⟩ | h)
      · exact absurd h.symm hne
      · exact h
    · exact Or.inr
  rw [hd]; exact this

theorem RecvOk.extend {P G acc e rc} (h : RecvOk P G acc e rc) (g : Epoch) :
    RecvOk P (G ++ [g]) acc e rc := by
  obtain ⟨g', h1, h2, h3, h4⟩ := h
  refine ⟨g', by rw [List.getElem?_append_left (List.getElem?_eq_some_iff.mp h1).1]; exact h1, h2, h3, fun h0 => ?_⟩
  obtain ⟨h5, g1, h6, h7⟩ := h4 h0
  exact ⟨h5, g1, by rw [List.getElem?_append_left (List.getElem?_eq_some_iff.mp h6).1]; exact h6, h7⟩

/-- The number of the last message of the chain before the one of epoch `n`, or 0. -/
def prevOf (log : List AMsg) (n : Nat) : Nat := if n < 2 then 0 else count log (n - 2) - 1

theorem prevOf_other (log : List AMsg) (n : Nat) (m : AMsg) (h : 2 ≤ n → m.epoch ≠ n - 2) :
    prevOf (log ++ [m]) n = prevOf log n := by
  unfold prevOf
  split
  · rfl
  · rw [count_append, if_neg (h (by omega)), Nat.add_zero]

/-- A party sending in epoch `n`. -/
structure PartyAt (P : Prims) (G : List Epoch) (log : List AMsg) (acc : List (Nat × Nat)) (n : Nat)
    (me them : Bytes) (s : SState) : Prop where
  version : s.version = 3
  localId : s.localId = me
  remoteId : s.remoteId = them
  key : ∃ g, G[n]? = some g ∧ s.rootKey = g.root ∧
    s.sender = some ⟨g.kp.pub, g.kp.priv, ckAt P g.ck (count log n)⟩
  recv : List.Forall₂ (RecvOk P G acc) (ret n) s.recv
  prevCounter : s.prevCounter = prevOf log n

theorem forall₂_find {P : Prims} {G : List Epoch} {acc : List (Nat × Nat)} (hC : Chain P G) (e : Nat) (g : Epoch)
    (hg : G[e]? = some g) : ∀ (l : List Nat) (r : List RecvChain),
    List.Forall₂ (RecvOk P G acc) l r →
    (e ∈ l → ∃ rc, r.find? (fun c => c.ratchet == g.kp.pub) = some rc ∧ RecvOk P G acc e rc) ∧
    (e ∉ l → r.find? (fun c => c.ratchet == g.kp.pub) = none) := by
  intro l r h
  induction h with
  | nil => simp
  | @cons e' rc l r hh _ ih =>
    obtain ⟨g', h1, h2, h3⟩ := hh
    by_cases he : e' = e
    · subst he
      rw [hg] at h1
      injection h1 with h1
      subst h1
      refine ⟨fun _ => ⟨rc, by simp [h2], ⟨g, hg, h2, h3⟩⟩, by simp⟩
    · have hne : ¬ (rc.ratchet == g.kp.pub) = true := by
        rw [h2]
        simp only [beq_iff_eq]
        intro hp
        exact he (hC.inj h1 hg hp)
      rw [List.find?_cons_of_neg (p := fun c : RecvChain => c.ratchet == g.kp.pub) hne]
      refine ⟨fun hm => ih.1 ?_, fun hm => ih.2 ?_⟩
      · rcases List.mem_cons.mp hm with hm | hm
        · exact absurd hm.symm he
        · exact hm
      · exact fun h => hm (List.mem_cons_of_mem _ h)

theorem forall₂_update {P : Prims} {G : List Epoch} {acc : List (Nat × Nat)} (hC : Chain P G) (e c : Nat) (g : Epoch)
    (hg : G[e]? = some g) (f : RecvChain → RecvChain) :
    ∀ (l : List Nat) (r : List RecvChain), l.Nodup → List.Forall₂ (RecvOk P G acc) l r →
    (∀ rc, r.find? (fun c => c.ratchet == g.kp.pub) = some rc → RecvOk P G ((e, c) :: acc) e (f rc)) →
    List.Forall₂ (RecvOk P G ((e, c) :: acc)) l (updFirst (fun c => c.ratchet == g.kp.pub) f r) := by
  intro l r hn h
  induction h with
  | nil => intro _; exact List.Forall₂.nil
  | @cons e' rc l r hh ht ih =>
    intro hf
    rw [List.nodup_cons] at hn
    have hh' := hh
    obtain ⟨g', h1, h2, h3⟩ := hh
    unfold updFirst
    by_cases he : e' = e
    · subst he
      rw [hg] at h1
      injection h1 with h1
      subst h1
      rw [if_pos (by simp [h2])]
      refine List.Forall₂.cons (hf rc (by simp [h2])) ?_
      have : ∀ (l : List Nat) (r : List RecvChain), e' ∉ l → List.Forall₂ (RecvOk P G acc) l r →
          List.Forall₂ (RecvOk P G ((e', c) :: acc)) l r := by
        intro l r hnl hlr
        induction hlr with
        | nil => exact List.Forall₂.nil
        | @cons e2 rc2 l2 r2 ha _ ih2 =>
          simp only [List.mem_cons, not_or] at hnl
          exact List.Forall₂.cons (ha.other _ _ hnl.1) (ih2 hnl.2)
      exact this _ _ hn.1 ht
    · have hne : ¬ (rc.ratchet == g.kp.pub) = true := by
        rw [h2]
        simp only [beq_iff_eq]
        intro hp
        exact he (hC.inj h1 hg hp)
      rw [if_neg hne]
      refine List.Forall₂.cons (hh'.other _ _ (Ne.symm he)) (ih hn.2 ?_)
      intro rc' hrc'
      exact hf rc' (by rw [List.find?_cons_of_neg (p := fun c : RecvChain => c.ratchet == g.kp.pub) hne]; exact hrc')

theorem PartyAt.acc_other {P G log acc n me them s} (h : PartyAt P G log acc n me them s) (e c : Nat)
    (hne : e ∉ ret n) : PartyAt P G log ((e, c) :: acc) n me them s := by
  refine ⟨h.version, h.localId, h.remoteId, h.key, ?_, h.prevCounter⟩
  have : ∀ (l : List Nat) (r : List RecvChain), e ∉ l → List.Forall₂ (RecvOk P G acc) l r →
      List.Forall₂ (RecvOk P G ((e, c) :: acc)) l r := by
    intro l r hnl hlr
    induction hlr with
    | nil => exact List.Forall₂.nil
    | @cons e2 rc2 l2 r2 ha _ ih2 =>
      simp only [List.mem_cons, not_or] at hnl
      exact List.Forall₂.cons (ha.other _ _ hnl.1) (ih2 hnl.2)
  exact this _ _ hne h.recv

theorem PartyAt.extend {P G log acc n me them s} (h : PartyAt P G log acc n me them s) (g : Epoch) :
    PartyAt P (G ++ [g]) log acc n me them s := by
  obtain ⟨g', h1, h2, h3⟩ := h.key
  refine ⟨h.version, h.localId, h.remoteId,
    ⟨g', by rw [List.getElem?_append_left (List.getElem?_eq_some_iff.mp h1).1]; exact h1, h2, h3⟩, ?_,
    h.prevCounter⟩
  exact h.recv.imp (fun _ _ hx => hx.extend g)

theorem PartyAt.log_other {P G log acc n me them s} (h : PartyAt P G log acc n me them s) (m : AMsg)
    (hne : m.epoch ≠ n) (hne2 : 2 ≤ n → m.epoch ≠ n - 2) : PartyAt P G (log ++ [m]) acc n me them s := by
  obtain ⟨g', h1, h2, h3⟩ := h.key
  refine ⟨h.version, h.localId, h.remoteId, ⟨g', h1, h2, ?_⟩, h.recv,
    by rw [prevOf_other _ _ _ hne2]; exact h.prevCounter⟩
  rw [count_append, if_neg hne, Nat.add_zero]; exact h3

/-- The message `wm` is the one sent with number `c` in the epoch `g`, from `me` to `them`. -/
structure IsMsg (P : Prims) (g : Epoch) (c : Nat) (me them pt : Bytes) (wm : WhisperMsg) : Prop where
  version : wm.version = 3
  ratchet : wm.ratchetKey = g.kp.pub
  counter : wm.counter = c
  opens : Opens P (msgKeys P (ckAt P g.ck c)) me them wm pt

/-! ## Decryption of a message of a known epoch -/

theorem deliver_known {P : Prims} {G log acc n me them s} (hC : Chain P G)
    (h : PartyAt P G log acc n me them s) (hme : me.length = 32) (hth : them.length = 32)
    (e c : Nat) (g : Epoch) (hg : G[e]? = some g) (he : e ∈ ret n) (h0 : e ≠ 0)
    (hc : c < u32) (hpos : pos acc e < u32) (pt : Bytes) (wm : WhisperMsg)
    (hm : IsMsg P g c them me pt wm) (r : Bytes) :
    ((e, c) ∈ acc ∨ c > pos acc e + 2000 → ∃ s' er, decryptState P r s wm = (s', .err er)) ∧
    ((e, c) ∉ acc → c ≤ pos acc e + 2000 → ∃ s', decryptState P r s wm = (s', .ok pt) ∧
      PartyAt P G log ((e, c) :: acc) n me them s' ∧ s'.pending = none ∧ s'.aliceBase = s.aliceBase ∧
      s'.localReg = s.localReg) := by
  obtain ⟨rc, hrc, g', hg', hrat, ht⟩ := (forall₂_find hC e g hg _ _ h.recv).1 he
  rw [hg] at hg'
  injection hg' with hg'
  subst hg'
  have ht := ht.1 h0
  have hgv := hC.valid g (List.mem_of_getElem? hg)
  obtain ⟨gn, hgn, hroot, hsd⟩ := h.key
  have hgr : getRecv s wm.ratchetKey = some rc := by rw [hm.ratchet]; exact hrc
  have hckl : rc.ck.key.length = 32 := by rw [ht.ck]; exact ckAt_len _ _ _ hgv.2.2.1
  have hdec : decryptState P r s wm = afterChain P s rc.ck wm := by
    rw [decryptState_eq P r s wm (by simp [hsd]) (by simp [hm.version, SState.getVersion, h.version]),
      chainKey_existing P r s _ rc hgr hckl]
  have hcnt : wm.counter = c := hm.counter
  obtain ⟨o1, o2, o3⟩ := afterChain_tracks P g.ck s rc (pos acc e) _ wm hgv.2.2.2 hpos
    (by rw [hcnt]; exact hc) hgr ht (by rw [h.remoteId]; exact hth) (by rw [h.localId]; exact hme)
  rw [hcnt] at o1 o2 o3
  constructor
  · rintro (hd | hd)
    · exact ⟨_, _, by rw [hdec]; exact o1 hd⟩
    · exact ⟨_, _, by rw [hdec]; exact o2 hd⟩
  · intro hnd hle
    obtain ⟨f, hf, htr, hok, _⟩ := o3 hnd hle
    have hop : Opens P (msgKeys P (ckAt P g.ck c)) s.remoteId s.localId wm pt := by
      rw [h.remoteId, h.localId]; exact hm.opens
    refine ⟨_, hdec.trans (hok pt hop), ?_, rfl, rfl, rfl⟩
    refine ⟨h.version, h.localId, h.remoteId, ⟨gn, hgn, hroot, hsd⟩, ?_, h.prevCounter⟩
    show List.Forall₂ _ (ret n) (updFirst (fun c => c.ratchet == wm.ratchetKey) f s.recv)
    rw [hm.ratchet]
    apply forall₂_update hC e c g hg f _ _ (ret_nodup n) h.recv
    intro rc' hrc'
    rw [hrc] at hrc'
    injection hrc' with hrc'
    subst hrc'
    refine ⟨g, hg, by rw [hf]; exact hrat, fun _ => ?_, fun h => absurd h h0⟩
    rw [pos_cons_eq]
    have hD : (fun c' => (e, c') ∈ (e, c) :: acc) = (fun c' => (e, c') ∈ acc ∨ c' = c) := by
      funext c'
      simp only [List.mem_cons, Prod.mk.injEq, true_and, eq_iff_iff]
      exact or_comm
    rw [hD]
    exact htr

/-! ## Decryption of the first message of a new epoch -/

theorem last5_eq (l : List Nat) (x : Nat) (h : l.length ≤ 5) :
    last5 (l ++ [x]) = if (l ++ [x]).length > 5 then (l ++ [x]).drop 1 else l ++ [x] := by
  unfold last5
  simp only [List.length_append, List.length_cons, List.length_nil]
  split
  · rw [show l.length + (0 + 1) - 5 = 1 by omega]
  · rw [show l.length + (0 + 1) - 5 = 0 by omega]; rfl

/-- A state that would ratchet at epoch `n + 1`: used both for a party at level `n ≥ 1` and for the
responder's state made from the first message. -/
theorem deliver_new {P : Prims} {G log acc n me them s} (hC : Chain P G)
    (h : PartyAt P G log acc n me them s) (hme : me.length = 32) (hth : them.length = 32)
    (hlen : G.length = n + 2) (c : Nat) (g : Epoch) (hg : G[n + 1]? = some g)
    (hc : c < u32) (hnew : ∀ x ∈ acc, x.1 ≠ n + 1) (hcnt0 : count log n < u32)
    (hcnt1 : count log (n + 2) = 0) (pt : Bytes)
    (wm : WhisperMsg) (hm : IsMsg P g c them me pt wm) (r : Bytes) (hr : r.length = 32)
    (hfresh : ∀ x ∈ G, x.kp.pub ≠ (newPair P r).pub) :
    (c > 2000 → ∃ s' er, decryptState P r s wm = (s', .err er)) ∧
    (c ≤ 2000 → ∃ s' g', decryptState P r s wm = (s', .ok pt) ∧ g'.kp = newPair P r ∧
      Chain P (G ++ [g']) ∧ PartyAt P (G ++ [g']) log ((n + 1, c) :: acc) (n + 2) me them s' ∧
      s'.pending = none ∧ s'.aliceBase = s.aliceBase ∧ s'.localReg = s.localReg) := by
  obtain ⟨gn, hgn, hroot, hsd⟩ := h.key
  have hgv := hC.valid g (List.mem_of_getElem? hg)
  have hgnv := hC.valid gn (List.mem_of_getElem? hgn)
  have hnone : getRecv s wm.ratchetKey = none := by
    rw [hm.ratchet]
    apply (forall₂_find hC (n + 1) g hg _ _ h.recv).2
    intro hin
    have := ret_lt n _ hin
    omega
  obtain ⟨sd, hsdd⟩ : ∃ sd, sd = (⟨gn.kp.pub, gn.kp.priv, ckAt P gn.ck (count log n)⟩ : SendChain) :=
    ⟨_, rfl⟩
  rw [← hsdd] at hsd
  -- the chain derived equals the sender's
  have hlink : createChain P s.rootKey g.kp.pub sd.priv = (g.root, g.ck) := by
    have := hC.link n gn g hgn hg
    rw [hroot, hsdd, ← this]
    unfold createChain
    rw [dh_swap hgnv.1 hgv.1]
  have hdec : decryptState P r s wm =
      afterChain P (ratchetStep P r s sd wm.ratchetKey).1 (ratchetStep P r s sd wm.ratchetKey).2 wm := by
    rw [decryptState_eq P r s wm (by simp [hsd]) (by simp [hm.version, SState.getVersion, h.version]),
      chainKey_new P r s _ sd hnone hsd (by rw [hroot]; exact hgnv.2.1) (by rw [hsdd]; exact hgnv.1.1)
        (by rw [hsdd]; exact hgnv.1.pub_len) (by rw [hsdd]; exact ckAt_len _ _ _ hgnv.2.2.1)]
  obtain ⟨g', hg'⟩ : ∃ g' : Epoch, g' = ⟨newPair P r,
    (createChain P g.root g.kp.pub (newPair P r).priv).1,
    (createChain P g.root g.kp.pub (newPair P r).priv).2⟩ := ⟨_, rfl⟩
  obtain ⟨s1, hs1⟩ : ∃ s1, s1 = (ratchetStep P r s sd wm.ratchetKey).1 := ⟨_, rfl⟩
  have hck : (ratchetStep P r s sd wm.ratchetKey).2 = g.ck := by
    show (createChain P s.rootKey wm.ratchetKey sd.priv).2 = g.ck
    rw [hm.ratchet, hlink]
  have hrat := getRecv_ratchetStep P r s sd wm.ratchetKey hnone
  rw [hck] at hrat hdec
  rw [← hs1] at hrat hdec
  have hC' : Chain P (G ++ [g']) := by
    have hl := createChain_lens P g.root g.kp.pub (newPair P r).priv
    refine ⟨?_, ?_, ?_⟩
    · intro x hx
      rcases List.mem_append.mp hx with hx | hx
      · exact hC.valid x hx
      · simp at hx
        rw [hx, hg']
        exact ⟨newPair_valid P r hr, hl.1, hl.2.1, hl.2.2⟩
    · intro i a b ha hb
      have hi := (List.getElem?_eq_some_iff.mp hb).1
      simp only [List.length_append, List.length_cons, List.length_nil] at hi
      have ha' : G[i]? = some a := by
        rw [List.getElem?_append_left (by omega)] at ha; exact ha
      by_cases hlt : i + 1 < G.length
      · rw [List.getElem?_append_left hlt] at hb
        exact hC.link i a b ha' hb
      · have hie : i = n + 1 := by omega
        subst hie
        rw [List.getElem?_append_right (by omega), show n + 1 + 1 - G.length = 0 by omega] at hb
        simp at hb
        rw [hg] at ha'
        injection ha' with ha'
        rw [← ha', ← hb, hg']
    · rw [List.map_append, List.nodup_append]
      refine ⟨hC.distinct, by simp, ?_⟩
      intro x hx y hy
      simp only [List.map_cons, List.map_nil, List.mem_singleton] at hy
      obtain ⟨z, hz, rfl⟩ := List.mem_map.mp hx
      rw [hy, hg']
      exact hfresh z hz
  -- the party right after the ratchet step, before the message key is taken
  have hp1 : s1.version = 3 ∧ s1.localId = me ∧ s1.remoteId = them ∧ s1.rootKey = g'.root ∧
      s1.sender = some ⟨g'.kp.pub, g'.kp.priv, g'.ck⟩ ∧ s1.prevCounter = prevOf log (n + 2) ∧
      s1.aliceBase = s.aliceBase ∧ s1.localReg = s.localReg := by
    have hidx : sd.ck.idx - 1 = prevOf log (n + 2) := by
      rw [hsdd]
      show (ckAt P gn.ck (count log n)).idx - 1 = _
      rw [ckAt_idx _ _ _ (by rw [hgnv.2.2.2]; omega), hgnv.2.2.2]
      unfold prevOf
      rw [if_neg (by omega), Nat.zero_add, Nat.add_sub_cancel]
    rw [hs1, hg']
    refine ⟨h.version, h.localId, h.remoteId, ?_, ?_, hidx, rfl, rfl⟩
    · show (createChain P (createChain P s.rootKey wm.ratchetKey sd.priv).1 wm.ratchetKey
        (newPair P r).priv).1 = _
      rw [hm.ratchet, hlink]
    · show some (⟨(newPair P r).pub, (newPair P r).priv, (createChain P (createChain P s.rootKey
        wm.ratchetKey sd.priv).1 wm.ratchetKey (newPair P r).priv).2⟩ : SendChain) = _
      rw [hm.ratchet, hlink]
  have hrecv : List.Forall₂ (RecvOk P (G ++ [g']) acc) (ret (n + 2)) s1.recv := by
    have hext : List.Forall₂ (RecvOk P (G ++ [g']) acc) (ret n ++ [n + 1])
        (s.recv ++ [⟨wm.ratchetKey, g.ck, []⟩]) := by
      apply List.rel_append
      · exact h.recv.imp (fun _ _ hx => hx.extend g')
      · refine List.Forall₂.cons ⟨g, ?_, hm.ratchet, fun _ => ?_, fun h => absurd h (Nat.succ_ne_zero n)⟩ List.Forall₂.nil
        · rw [List.getElem?_append_left (by omega)]; exact hg
        · rw [pos_zero acc (n + 1) hnew]
          have hD : (fun c' => ((n + 1, c') : Nat × Nat) ∈ acc) = (fun _ => False) := by
            funext c'
            simp only [eq_iff_iff, iff_false]
            intro hin
            exact hnew _ hin rfl
          rw [hD]
          exact Tracks.init P g.ck wm.ratchetKey
    have hlen2 := hext.length_eq
    have hr5 := ret_length n
    show List.Forall₂ _ (last5 (ret n ++ [n + 1])) _
    rw [last5_eq _ _ hr5]
    have hs1r : s1.recv = if (s.recv ++ [(⟨wm.ratchetKey, g.ck, []⟩ : RecvChain)]).length > 5 then
        (s.recv ++ [(⟨wm.ratchetKey, g.ck, []⟩ : RecvChain)]).drop 1
        else s.recv ++ [(⟨wm.ratchetKey, g.ck, []⟩ : RecvChain)] := by
      rw [hs1, ← hck]
      rfl
    rw [hs1r, hlen2]
    split
    · exact List.forall₂_drop 1 hext
    · exact hext
  have hcnt : wm.counter = c := hm.counter
  obtain ⟨o1, o2, o3⟩ := afterChain_tracks P g.ck s1 ⟨wm.ratchetKey, g.ck, []⟩ 0 (fun _ => False) wm
    hgv.2.2.2 (by decide) (by rw [hcnt]; exact hc) hrat (Tracks.init P g.ck wm.ratchetKey)
    (by rw [hp1.2.2.1]; exact hth) (by rw [hp1.2.1]; exact hme)
  rw [hcnt] at o2 o3
  constructor
  · intro hgt
    exact ⟨_, _, by rw [hdec]; exact o2 (by omega)⟩
  · intro hle
    obtain ⟨f, hf, htr, hok, _⟩ := o3 (fun h => h) (by omega)
    have hop : Opens P (msgKeys P (ckAt P g.ck c)) s1.remoteId s1.localId wm pt := by
      rw [hp1.2.1, hp1.2.2.1]; exact hm.opens
    have hg2 : (G ++ [g'])[n + 1]? = some g := by
      rw [List.getElem?_append_left (by omega)]; exact hg
    refine ⟨_, g', hdec.trans (hok pt hop), by rw [hg'], hC', ?_, rfl, hp1.2.2.2.2.2.2.1,
      hp1.2.2.2.2.2.2.2⟩
    refine ⟨hp1.1, hp1.2.1, hp1.2.2.1, ⟨g', ?_, hp1.2.2.2.1, ?_⟩, ?_, hp1.2.2.2.2.2.1⟩
    · rw [List.getElem?_append_right (by omega), show n + 2 - G.length = 0 by omega]; rfl
    · rw [hcnt1]; exact hp1.2.2.2.2.1
    · show List.Forall₂ _ (ret (n + 2)) (updFirst (fun c => c.ratchet == wm.ratchetKey) f s1.recv)
      rw [hm.ratchet]
      apply forall₂_update hC' (n + 1) c g hg2 f _ _ (ret_nodup _) hrecv
      intro rc' hrc'
      have hrat' : s1.recv.find? (fun c => c.ratchet == g.kp.pub) = some ⟨wm.ratchetKey, g.ck, []⟩ := by
        rw [← hm.ratchet]; exact hrat
      rw [hrat'] at hrc'
      injection hrc' with hrc'
      subst hrc'
      refine ⟨g, hg2, by rw [hf]; exact hm.ratchet, fun _ => ?_, fun h => absurd h (Nat.succ_ne_zero n)⟩
      rw [pos_cons_eq, pos_zero acc (n + 1) hnew]
      have hD : (fun c' => ((n + 1, c') : Nat × Nat) ∈ (n + 1, c) :: acc) = (fun c' => False ∨ c' = c) := by
        funext c'
        simp only [List.mem_cons, Prod.mk.injEq, true_and, eq_iff_iff]
        constructor
        · rintro (h | h)
          · exact Or.inr h
          · exact absurd rfl (hnew _ h)
        · rintro (h | h)
          · exact h.elim
          · exact Or.inl h
      rw [hD]
      exact htr

/-! ## Encryption -/

/-- A party encrypts: the new state, and the message. -/
theorem encrypt_party {P : Prims} {G log acc n me them s} (hC : Chain P G)
    (h : PartyAt P G log acc n me them s) (hme : me.length = 32) (hth : them.length = 32) (pt : Bytes)
    (hpt : pt.length < 2 ^ 60) (hcnts : ∀ e, count log e + 1 < u32) (g : Epoch) (hg : G[n]? = some g) :
    ∃ s' wm, IsMsg P g (count log n) me them pt wm ∧ loadWhisper wm.serialized = .ok wm ∧
      wm.serialized.length < 2 ^ 64 ∧
      PartyAt P G (log ++ [⟨n, count log n, pt⟩]) acc n me them s' ∧ s'.pending = s.pending ∧
      s'.aliceBase = s.aliceBase ∧ s'.localReg = s.localReg ∧
      (s.pending = none → encryptState P s pt = .ok (s', wm.serialized, .whisper)) ∧
      (∀ p bk, s.pending = some p → deser p.baseKey = .ok bk → encryptState P s pt =
        .ok (s', newPreKeyMsg 3 s.localReg p.preKeyId p.signedPreKeyId bk me wm, .prekey)) := by
  have hcnt := hcnts n
  obtain ⟨gn, hgn, hroot, hsd⟩ := h.key
  rw [hg] at hgn
  injection hgn with hgn
  subst hgn
  have hgv := hC.valid g (List.mem_of_getElem? hg)
  obtain ⟨ck, hck⟩ : ∃ ck, ck = ckAt P g.ck (count log n) := ⟨_, rfl⟩
  rw [← hck] at hsd
  have hckl : ck.key.length = 32 := by rw [hck]; exact ckAt_len _ _ _ hgv.2.2.1
  have hidx : ck.idx = count log n := by
    rw [hck, ckAt_idx _ _ _ (by rw [hgv.2.2.2]; omega), hgv.2.2.2]; omega
  have hlens := msgKeys_lens P ck
  obtain ⟨ct, hct⟩ : ∃ ct, Cbc.Encrypt P (msgKeys P ck).cipherKey (msgKeys P ck).iv pt = .ok ct :=
    ⟨_, Cbc.Encrypt_ok P (msgKeys P ck).cipherKey (msgKeys P ck).iv pt
      (by simp [Cbc.validKey, hlens.1]) hlens.2.2⟩
  have hctl : ct.length < 2 ^ 61 := by
    have := Cbc.Encrypt_length P _ _ _ _ hct
    omega
  have hpubl := hgv.1.pub_len
  obtain ⟨wm, hwm⟩ : ∃ wm, wm = newWhisper P 3 (msgKeys P ck).macKey g.kp.pub ck.idx
    s.prevCounter ct me them := ⟨_, rfl⟩
  have hpc : s.prevCounter < 2 ^ 32 := by
    rw [h.prevCounter, prevOf]
    split
    · decide
    · have := hcnts (n - 2)
      unfold u32 at this
      omega
  have hload := loadWhisper_newWhisper P (msgKeys P ck).macKey g.kp.pub ck.idx s.prevCounter ct
    me them hpubl (by unfold u32 at hcnt; omega) hpc (by omega)
  rw [← hwm] at hload
  have hwl : wm.serialized.length < 2 ^ 64 := by
    have h1 : wm.serialized.length = (whisperBody g.kp.pub ck.idx s.prevCounter ct).length + 1 + 8 := by
      rw [hwm]; simp [newWhisper, getMac_len]
    have h2 : (whisperBody g.kp.pub ck.idx s.prevCounter ct).length ≤ ct.length + 200 :=
      whisperBody_length_le _ _ _ _ hpubl (by unfold u32 at hcnt; omega) (by omega) (by omega)
    omega
  have hop := opens_newWhisper P ck g.kp.pub ck.idx s.prevCounter me them pt ct 3 hct
  refine ⟨{ s with sender := some ⟨g.kp.pub, g.kp.priv, nextCK P ck⟩ }, wm,
    ⟨by rw [hwm]; rfl, by rw [hwm]; rfl, by rw [hwm]; exact hidx, by rw [hwm, ← hck]; exact hop⟩,
    hload, hwl, ?_, rfl, rfl, rfl, ?_, ?_⟩
  · refine ⟨h.version, h.localId, h.remoteId, ⟨g, hg, hroot, ?_⟩, h.recv,
      by rw [prevOf_other _ _ _ (fun _ => by simp only; omega)]; exact h.prevCounter⟩
    rw [count_append, if_pos rfl, hck]
    rfl
  all_goals
    have hgv3 : s.getVersion % 256 = 3 := by simp [SState.getVersion, h.version]
  · intro hq
    unfold encryptState
    rw [hsd]
    simp only
    rw [if_neg (by simpa using hckl), if_neg (by simpa using hpubl), hct]
    simp only [Res.ok_bind]
    rw [if_neg (by rw [h.localId, h.remoteId]; omega), hgv3, h.localId, h.remoteId, ← hwm, hq]
  · intro p bk hq hbk
    unfold encryptState
    rw [hsd]
    simp only
    rw [if_neg (by simpa using hckl), if_neg (by simpa using hpubl), hct]
    simp only [Res.ok_bind]
    rw [if_neg (by rw [h.localId, h.remoteId]; omega), hgv3, h.localId, h.remoteId, ← hwm, hq]
    simp only [hbk, Res.ok_bind]

/-! ## The stores -/

/-- Everything but sessions and one-time prekeys is unchanged. -/
structure SameRest (st st' : Store) : Prop where
  identities : st'.identities = st.identities
  signedPreKeys : st'.signedPreKeys = st.signedPreKeys
  identity : st'.identity = st.identity
  regId : st'.regId = st.regId
  alwaysTrust : st'.alwaysTrust = st.alwaysTrust

theorem SameRest.refl (st : Store) : SameRest st st := ⟨rfl, rfl, rfl, rfl, rfl⟩

/-- The session file holds a session in step with the conversation. -/
structure SessAt (P : Prims) (G : List Epoch) (log : List AMsg) (acc : List (Nat × Nat)) (n : Nat)
    (me them : Bytes) (pend : Option Pending) (base : Bytes) (reg : Nat) (r : SRecord) : Prop where
  prev : r.prev = []
  party : PartyAt P G log acc n me them r.cur
  pending : r.cur.pending = pend
  base : r.cur.aliceBase = base
  reg : r.cur.localReg = reg

/-- The bytes parse to the message `wm`, possibly inside a first-contact envelope. -/
def Arrives (b : Bytes) (ty : MsgType) (base ik : Bytes) (wm : WhisperMsg) : Prop :=
  (ty = .whisper ∧ loadWhisper b = .ok wm) ∨
  (ty = .prekey ∧ ∃ pm, loadPreKeyMsg b = .ok pm ∧ pm.version = 3 ∧ pm.baseKey = base ∧
    pm.identityKey = ik ∧ pm.message = wm)

theorem decryptRecord_single (P : Prims) (rnd : Nat → Bytes) (sr : SRecord) (m : WhisperMsg)
    (h : sr.prev = []) :
    (∀ s' e, decryptState P (rnd 0) sr.cur m = (s', .err e) →
      ∃ sr', decryptRecord P rnd sr m = (sr', .err .invalidMessage)) ∧
    (∀ s', decryptState P (rnd 0) sr.cur m = (s', .panic) →
      ∃ sr', decryptRecord P rnd sr m = (sr', .panic)) ∧
    (∀ s' pt, decryptState P (rnd 0) sr.cur m = (s', .ok pt) →
      decryptRecord P rnd sr m = ({ sr with cur := s' }, .ok pt)) := by
  refine ⟨?_, ?_, ?_⟩
  · intro s' e hd
    unfold decryptRecord
    rw [hd, h]
    exact ⟨_, rfl⟩
  · intro s' hd
    unfold decryptRecord
    rw [hd]
    exact ⟨_, rfl⟩
  · intro s' pt hd
    unfold decryptRecord
    rw [hd]

/-- Receiving with an existing session. -/
theorem receive_existing (P : Prims) (rnd : Nat → Bytes) (st : Store) (rec : String) (dev : Nat)
    (b : Bytes) (ty : MsgType) (base ik : Bytes) (wm : WhisperMsg) (r : SRecord)
    (hs : st.sessions (sessName rec dev) = .good r) (hp : r.prev = []) (hv : r.cur.version = 3)
    (hb : r.cur.aliceBase = ser base) (ht : isTrusted st rec ik = true)
    (ha : Arrives b ty base ik wm) :
    (∀ s' e, decryptState P (rnd 0) r.cur wm = (s', .err e) →
      receive P rnd st rec dev b ty = ⟨[], .err .invalidMessage⟩) ∧
    ((∀ pt, (receive P rnd st rec dev b ty).res ≠ .ok pt) →
      (receive P rnd st rec dev b ty).writes = []) ∧
    (∀ s' pt, decryptState P (rnd 0) r.cur wm = (s', .ok pt) →
      (receive P rnd st rec dev b ty).res = .ok pt ∧
      (applyWrites st (receive P rnd st rec dev b ty).writes).sessions (sessName rec dev) =
        .good { r with fresh := false, cur := s' } ∧
      SameRest st (applyWrites st (receive P rnd st rec dev b ty).writes)) := by
  have hload : loadSession st rec dev = .ok { r with fresh := false } := by simp [loadSession, hs]
  obtain ⟨d1, d2, d3⟩ := decryptRecord_single P rnd { r with fresh := false } wm hp
  rcases ha with ⟨rfl, hl⟩ | ⟨rfl, pm, hl, hpv, hpb, hpi, hpm⟩
  · have hrec : receive P rnd st rec dev b .whisper = decryptWhisper P {} rnd st rec dev wm := by
      unfold receive; simp only [hl]
    rw [hrec]
    unfold decryptWhisper
    rw [hload]
    simp only
    refine ⟨?_, ?_, ?_⟩
    · intro s' e hd
      obtain ⟨sr', hh⟩ := d1 s' e hd
      rw [hh]
    · intro hno
      rcases hh : decryptRecord P rnd { r with fresh := false } wm with ⟨sr', q⟩
      rw [hh] at hno
      cases q with
      | ok pt => simp [storeSession] at hno
      | err e => rfl
      | panic => rfl
    · intro s' pt hd
      rw [d3 s' pt hd]
      simp only [storeSession, if_true]
      refine ⟨trivial, ?_, ⟨rfl, rfl, rfl, rfl, rfl⟩⟩
      simp [applyWrites, applyWrite]
  · have hrec : receive P rnd st rec dev b .prekey = decryptPreKey P {} rnd st rec dev pm := by
      unfold receive; simp only [hl]
    have hbr : buildReceiver P {} st rec { r with fresh := false } pm =
        ⟨[], .ok ({ r with fresh := false }, 0)⟩ := by
      unfold buildReceiver
      rw [if_neg (by simp [hpv]), hpi, if_neg (by simp [ht]), if_pos]
      unfold SRecord.hasState
      simp [SState.getVersion, hv, hb, hpb]
    rw [hrec]
    unfold decryptPreKey
    rw [hload]
    simp only
    rw [hbr, hpm]
    simp only
    refine ⟨?_, ?_, ?_⟩
    · intro s' e hd
      obtain ⟨sr', hh⟩ := d1 s' e hd
      rw [hh]
    · intro hno
      rcases hh : decryptRecord P rnd { r with fresh := false } wm with ⟨sr', q⟩
      rw [hh] at hno
      cases q with
      | ok pt => simp [storeSession] at hno
      | err e => rfl
      | panic => rfl
    · intro s' pt hd
      rw [d3 s' pt hd]
      simp only [storeSession, if_true]
      refine ⟨trivial, ?_, ⟨rfl, rfl, rfl, rfl, rfl⟩⟩
      simp [applyWrites, applyWrite]

/-- Sending with a session. -/
theorem send_existing (P : Prims) (st : Store) (rec : String) (dev : Nat) (pt : Bytes) (r : SRecord)
    (hs : st.sessions (sessName rec dev) = .good r) (s' : SState) (b : Bytes) (ty : MsgType)
    (he : encryptState P r.cur pt = .ok (s', b, ty)) :
    (encryptMsg P {} st rec dev pt).res = .ok (b, ty) ∧
    (applyWrites st (encryptMsg P {} st rec dev pt).writes).sessions (sessName rec dev) =
      .good { r with fresh := false, cur := s' } ∧
    (applyWrites st (encryptMsg P {} st rec dev pt).writes).preKeys = st.preKeys ∧
    SameRest st (applyWrites st (encryptMsg P {} st rec dev pt).writes) := by
  have hload : loadSession st rec dev = .ok { r with fresh := false } := by simp [loadSession, hs]
  unfold encryptMsg
  rw [hload]
  simp only
  rw [he]
  simp only [storeSession, if_true]
  refine ⟨trivial, ?_, rfl, ⟨rfl, rfl, rfl, rfl, rfl⟩⟩
  simp [applyWrites, applyWrite]

theorem isTrusted_same {st st' : Store} (h : SameRest st st') (id : String) (k : Bytes) :
    isTrusted st' id k = isTrusted st id k := by
  unfold isTrusted; rw [h.identities, h.alwaysTrust]

/-! ## The simulation relation -/

/-- Key material of the responder. -/
def keyMaterial (P : Prims) (S : Setup) : Bytes :=
  diversifier ++ P.dh S.spk.priv S.idI.pub ++ P.dh S.idR.priv (newPair P S.rb).pub
    ++ P.dh S.spk.priv (newPair P S.rb).pub ++ (match S.opk with
      | some k => P.dh k.priv (newPair P S.rb).pub
      | none => [])

def epoch0 (P : Prims) (S : Setup) : Epoch :=
  ⟨S.spk, (derivedKeys P (keyMaterial P S)).1, (derivedKeys P (keyMaterial P S)).2⟩

/-- The bytes `b` of type `ty` carry `wm`: an initiator's message of epoch 1 is sent in a first-contact
envelope, all others bare. -/
def WireOk (P : Prims) (S : Setup) (e : Nat) (b : Bytes) (ty : MsgType) (wm : WhisperMsg) : Prop :=
  (e ≠ 1 → ty = .whisper ∧ loadWhisper b = .ok wm) ∧
  (e = 1 → ty = .prekey ∧ ∃ pm, loadPreKeyMsg b = .ok pm ∧ pm.version = 3 ∧
    pm.regId = S.regI ∧ pm.preKeyId = S.pkId ∧ pm.signedPreKeyId = S.spkId ∧
    pm.baseKey = (newPair P S.rb).pub ∧ pm.identityKey = S.idI.pub ∧ pm.message = wm)

/-- A message sent and the bytes on the wire. -/
def MsgOk (P : Prims) (S : Setup) (G : List Epoch) (m : AMsg) (x : Bool × Bytes × MsgType) : Prop :=
  ∃ g wm, G[m.epoch]? = some g ∧ x.1 = decide (m.epoch % 2 = 0) ∧
    IsMsg P g m.ctr (if m.epoch % 2 = 0 then S.idR.pub else S.idI.pub)
      (if m.epoch % 2 = 0 then S.idI.pub else S.idR.pub) m.pt wm ∧
    WireOk P S m.epoch x.2.1 x.2.2 wm

theorem MsgOk.extend {P S G m x} (h : MsgOk P S G m x) (g : Epoch) : MsgOk P S (G ++ [g]) m x := by
  obtain ⟨g', wm, h1, h2⟩ := h
  exact ⟨g', wm, by rw [List.getElem?_append_left (List.getElem?_eq_some_iff.mp h1).1]; exact h1, h2⟩

def pendI (P : Prims) (S : Setup) (lv : Nat) : Option Pending :=
  if lv = 1 then some ⟨S.pkId, S.spkId, ser (newPair P S.rb).pub⟩ else none

structure Rel (P : Prims) (S : Setup) (G : List Epoch) (a : Abs) (w : World) : Prop where
  chain : Chain P G
  len : G.length = max a.lvI a.lvR + 1
  parI : a.lvI % 2 = 1
  parR : a.lvR % 2 = 0
  adj : a.lvI = a.lvR + 1 ∨ a.lvR = a.lvI + 1
  g0 : G[0]? = some (epoch0 P S)
  sessI : ∃ r, w.I.sessions (sessName S.nameR S.devR) = .good r ∧
    SessAt P G a.log a.acc a.lvI S.idI.pub S.idR.pub (pendI P S a.lvI) (ser (newPair P S.rb).pub)
      S.regI r
  sessR : a.lvR ≠ 0 → ∃ r, w.R.sessions (sessName S.nameI S.devI) = .good r ∧
    SessAt P G a.log a.acc a.lvR S.idR.pub S.idI.pub none (ser (newPair P S.rb).pub) S.regR r
  freshR : a.lvR = 0 → w.R.sessions (sessName S.nameI S.devI) = .absent ∧
    ∀ k, S.opk = some k → w.R.preKeys S.pkId = some k
  trustI : isTrusted w.I S.nameR S.idR.pub = true
  trustR : isTrusted w.R S.nameI S.idI.pub = true
  knownI : w.I.identities S.nameR = .key S.idR.pub
  knownR : a.lvR ≠ 0 → w.R.identities S.nameI = .key S.idI.pub
  identR : w.R.identity = some S.idR
  regR : w.R.regId = some S.regR
  spkR : w.R.signedPreKeys S.spkId = some S.spk
  log : List.Forall₂ (MsgOk P S G) a.log w.wire
  logE : ∀ m ∈ a.log, 1 ≤ m.epoch ∧ m.epoch ≤ a.sendLevel (decide (m.epoch % 2 = 0)) ∧
    m.ctr < a.log.length
  acc : ∀ x ∈ a.acc, x.1 < a.recvLevel x.1 ∧ x.2 < a.log.length

theorem forall₂_get {α β : Type} {R : α → β → Prop} {l : List α} {m : List β}
    (h : List.Forall₂ R l m) (i : Nat) :
    (l[i]? = none → m[i]? = none) ∧ (∀ a, l[i]? = some a → ∃ b, m[i]? = some b ∧ R a b) := by
  induction h generalizing i with
  | nil => simp
  | cons hr _ ih =>
    cases i with
    | zero => simp [hr]
    | succ j => simpa using ih j

/-- What the responder's store keeps through the first message. -/
structure StillR (S : Setup) (st : Store) : Prop where
  trust : isTrusted st S.nameI S.idI.pub = true
  ident : st.identity = some S.idR
  reg : st.regId = some S.regR
  spk : st.signedPreKeys S.spkId = some S.spk

/-- The responder's session state built from the first message. -/
def firstState (P : Prims) (S : Setup) : SState :=
  { initReceiver P {} S.idR S.spk S.opk S.idI.pub (newPair P S.rb).pub with
    localReg := S.regR, remoteReg := S.regI, aliceBase := ser (newPair P S.rb).pub }

/-- Receiving the first message, without a session. -/
theorem receive_first (P : Prims) (S : Setup) (hpk : S.pkId = 0 ↔ S.opk = none)
    (rnd : Nat → Bytes) (st : Store)
    (hr : StillR S st) (hno : st.sessions (sessName S.nameI S.devI) = .absent)
    (hopk : ∀ k, S.opk = some k → st.preKeys S.pkId = some k)
    (b : Bytes) (pm : PreKeyMsg) (hl : loadPreKeyMsg b = .ok pm) (hv : pm.version = 3)
    (hpid : pm.preKeyId = S.pkId) (hsid : pm.signedPreKeyId = S.spkId)
    (hbk : pm.baseKey = (newPair P S.rb).pub) (hik : pm.identityKey = S.idI.pub)
    (hreg : pm.regId = S.regI) :
    (∀ s' e, decryptState P (rnd 0) (firstState P S) pm.message = (s', .err e) →
      receive P rnd st S.nameI S.devI b .prekey =
        ⟨[.saveIdentity S.nameI S.idI.pub], .err .invalidMessage⟩) ∧
    (∀ s' pt, decryptState P (rnd 0) (firstState P S) pm.message = (s', .ok pt) →
      receive P rnd st S.nameI S.devI b .prekey =
        ⟨[.saveIdentity S.nameI S.idI.pub] ++
          (if S.pkId ≠ 0xFFFFFF then [.removePreKey S.pkId] else []) ++
          [.storeSession S.nameI S.devI { cur := s' }], .ok pt⟩) := by
  have hload : loadSession st S.nameI S.devI = .ok {} := by simp [loadSession, hno]
  have hbr : buildReceiver P {} st S.nameI {} pm =
      ⟨[.saveIdentity S.nameI S.idI.pub], .ok ({ cur := firstState P S }, S.pkId)⟩ := by
    unfold buildReceiver
    rw [if_neg (by simp [hv]), hik, if_neg (by simp [hr.trust]),
      if_neg (by simp [SRecord.hasState, SState.getVersion]), hsid, hr.spk, hr.ident, hpid]
    have hsel : (if S.pkId ≠ 0 then (st.preKeys S.pkId).map some else some none) = some S.opk := by
      cases ho : S.opk with
      | none => rw [if_neg (by simpa using hpk.mpr ho)]
      | some k =>
        have : S.pkId ≠ 0 := by intro h; rw [hpk.mp h] at ho; simp at ho
        rw [if_pos this, hopk k ho]; rfl
    rw [hsel, hr.reg]
    simp only [hbk, hreg, if_true]
    rfl
  obtain ⟨d1, _, d3⟩ := decryptRecord_single P rnd { cur := firstState P S } pm.message rfl
  have hrec : receive P rnd st S.nameI S.devI b .prekey = decryptPreKey P {} rnd st S.nameI S.devI pm := by
    unfold receive; simp only [hl]
  rw [hrec]
  unfold decryptPreKey
  rw [hload]
  simp only
  rw [hbr]
  simp only
  constructor
  · intro s' e hd
    obtain ⟨sr', hh⟩ := d1 s' e hd
    rw [hh]
  · intro s' pt hd
    rw [d3 s' pt hd]
    simp only [storeSession, if_true]

theorem firstState_party {P : Prims} {S : Setup} {G : List Epoch} (hg : G[0]? = some (epoch0 P S))
    (log : List AMsg) (acc : List (Nat × Nat)) (h0 : count log 0 = 0) :
    PartyAt P G log acc 0 S.idR.pub S.idI.pub (firstState P S) := by
  refine ⟨rfl, rfl, rfl, ⟨epoch0 P S, hg, rfl, ?_⟩, List.Forall₂.nil, ?_⟩
  · rw [h0]; rfl
  · rfl

theorem count_zero (log : List AMsg) (e : Nat) (h : ∀ m ∈ log, m.epoch ≠ e) : count log e = 0 := by
  unfold count
  rw [List.length_eq_zero_iff, List.filter_eq_nil_iff]
  intro m hm
  simpa using h m hm

/-! ## One step -/

/-- The step of the specification and of the system correspond. -/
def StepOk (P : Prims) (S : Setup) (G : List Epoch) (a : Abs) (w : World) (ev : Ev) : Prop :=
  Agree (a.want ev) (w.step P S ev).2 ∧ ∃ G', Rel P S G' (a.step ev) (w.step P S ev).1 ∧
    (G' = G ∨ ∃ g i rnd, ev = .deliver i rnd ∧ G' = G ++ [g] ∧ g.kp = newPair P (rnd 0))

theorem step_send {P : Prims} {S : Setup} {G : List Epoch} {a : Abs} {w : World} (hS : S.Ok P)
    (h : Rel P S G a w) (who : Bool) (pt : Bytes) (hl : Ev.Legal a (.send who pt))
    (hb : a.log.length + 2 < u32) : StepOk P S G a w (.send who pt) := by
  have hidI := hS.idI.pub_len
  have hidR := hS.idR.pub_len
  have hlen := h.len
  have hpi := h.parI
  have hpr := h.parR
  have hadj := h.adj
  have hcl := count_le a.log
  cases who with
  | false =>
    obtain ⟨r, hr, hat⟩ := h.sessI
    obtain ⟨g, hg⟩ : ∃ g, G[a.lvI]? = some g := ⟨G[a.lvI]'(by omega), List.getElem?_eq_getElem (by omega)⟩
    obtain ⟨s', wm, hm, hlw, hwl, hparty, e1, e2, e3, e4, e5⟩ := encrypt_party h.chain hat.party hidI hidR
      pt hl.2 (fun e => by have := hcl e; omega) g hg
    have hbk : deser (ser (newPair P S.rb).pub) = .ok (newPair P S.rb).pub :=
      deser_ser _ (newPair_valid P _ hS.rb).pub_len
    obtain ⟨b, ty, henc, hok⟩ : ∃ b ty, encryptState P r.cur pt = .ok (s', b, ty) ∧
        MsgOk P S G ⟨a.lvI, count a.log a.lvI, pt⟩ (false, b, ty) := by
      have hpar : ¬ a.lvI % 2 = 0 := by omega
      by_cases h1 : a.lvI = 1
      · have hp : r.cur.pending = some ⟨S.pkId, S.spkId, ser (newPair P S.rb).pub⟩ := by
          rw [hat.pending, pendI, if_pos h1]
        refine ⟨_, _, e5 _ _ hp hbk, g, wm, hg, by simp [hpar], by simpa [hpar] using hm,
          fun hn => absurd h1 hn, fun _ => ⟨rfl, _, loadPreKeyMsg_new wm _ _ _ _ _ hlw
            (by rw [hat.reg]; exact hS.regI) hS.pkId.1 hS.spkId.2 hS.spkId.1
            (newPair_valid P _ hS.rb).pub_len hidI hwl, rfl, hat.reg, rfl, rfl, rfl, rfl, rfl⟩⟩
      · have hp : r.cur.pending = none := by rw [hat.pending, pendI, if_neg h1]
        exact ⟨_, _, e4 hp, g, wm, hg, by simp [hpar], by simpa [hpar] using hm,
          fun _ => ⟨rfl, hlw⟩, fun hn => absurd hn h1⟩
    obtain ⟨t1, t2, t3, t4⟩ := send_existing P w.I S.nameR S.devR pt r hr s' b ty henc
    have hstep : w.step P S (.send false pt) =
        ({ w with I := applyWrites w.I (encryptMsg P {} w.I S.nameR S.devR pt).writes
                  wire := w.wire ++ [(false, b, ty)] }, .sent) := by
      simp only [World.step, t1]
    unfold StepOk
    rw [hstep]
    refine ⟨trivial, G, ?_, Or.inl rfl⟩
    have hst : a.step (.send false pt) = { a with log := a.log ++ [⟨a.lvI, count a.log a.lvI, pt⟩] } := rfl
    rw [hst]
    refine { chain := h.chain, len := hlen, parI := hpi, parR := hpr, adj := hadj, g0 := h.g0, sessI := ?_, sessR := ?_, freshR := h.freshR, trustI := ?_, trustR := h.trustR, knownI := (by simp only; rw [t4.identities]; exact h.knownI), knownR := h.knownR, identR := h.identR, regR := h.regR, spkR := h.spkR, log := ?_, logE := ?_, acc := ?_ }
    · exact ⟨_, t2, hat.prev, hparty, by rw [← hat.pending]; exact e1, by rw [← hat.base]; exact e2,
        by rw [← hat.reg]; exact e3⟩
    · intro h0
      obtain ⟨r2, hr2, hat2⟩ := h.sessR h0
      exact ⟨r2, hr2, hat2.prev, hat2.party.log_other _ (by simp only; omega) (by simp only; omega), hat2.pending, hat2.base,
        hat2.reg⟩
    · simp only; rw [isTrusted_same t4]; exact h.trustI
    · exact List.rel_append h.log (List.Forall₂.cons hok List.Forall₂.nil)
    · intro m hmem
      simp only [List.length_append, List.length_cons, List.length_nil]
      rcases List.mem_append.mp hmem with hmem | hmem
      · have := h.logE m hmem
        exact ⟨this.1, this.2.1, by omega⟩
      · simp at hmem
        subst hmem
        have := hcl a.lvI
        refine ⟨by simp only; omega, ?_, by simp only; omega⟩
        simp [Abs.sendLevel, hpi]
    · intro x hx
      simp only [List.length_append, List.length_cons, List.length_nil]
      have := h.acc x hx
      exact ⟨this.1, by omega⟩
  | true =>
    have h0 : a.lvR ≠ 0 := hl.1 rfl
    obtain ⟨r, hr, hat⟩ := h.sessR h0
    obtain ⟨g, hg⟩ : ∃ g, G[a.lvR]? = some g := ⟨G[a.lvR]'(by omega), List.getElem?_eq_getElem (by omega)⟩
    obtain ⟨s', wm, hm, hlw, hwl, hparty, e1, e2, e3, e4, e5⟩ := encrypt_party h.chain hat.party hidR hidI
      pt hl.2 (fun e => by have := hcl e; omega) g hg
    obtain ⟨b, ty, henc, hok⟩ : ∃ b ty, encryptState P r.cur pt = .ok (s', b, ty) ∧
        MsgOk P S G ⟨a.lvR, count a.log a.lvR, pt⟩ (true, b, ty) := by
      exact ⟨_, _, e4 hat.pending, g, wm, hg, by simp [hpr], by simpa [hpr] using hm,
          fun _ => ⟨rfl, hlw⟩, fun hn => by simp only at hn; omega⟩
    obtain ⟨t1, t2, t3, t4⟩ := send_existing P w.R S.nameI S.devI pt r hr s' b ty henc
    have hstep : w.step P S (.send true pt) =
        ({ w with R := applyWrites w.R (encryptMsg P {} w.R S.nameI S.devI pt).writes
                  wire := w.wire ++ [(true, b, ty)] }, .sent) := by
      simp only [World.step, t1]
    unfold StepOk
    rw [hstep]
    refine ⟨trivial, G, ?_, Or.inl rfl⟩
    have hst : a.step (.send true pt) = { a with log := a.log ++ [⟨a.lvR, count a.log a.lvR, pt⟩] } := rfl
    rw [hst]
    refine { chain := h.chain, len := hlen, parI := hpi, parR := hpr, adj := hadj, g0 := h.g0, sessI := ?_, sessR := ?_, freshR := fun hh => absurd hh h0, trustI := h.trustI, trustR := ?_, knownI := h.knownI, knownR := (fun h0 => by simp only; rw [t4.identities]; exact h.knownR h0), identR := ?_, regR := ?_, spkR := ?_, log := ?_, logE := ?_, acc := ?_ }
    · obtain ⟨r2, hr2, hat2⟩ := h.sessI
      exact ⟨r2, hr2, hat2.prev, hat2.party.log_other _ (by simp only; omega) (by simp only; omega), hat2.pending, hat2.base,
        hat2.reg⟩
    · intro _
      exact ⟨_, t2, hat.prev, hparty, by rw [← hat.pending]; exact e1, by rw [← hat.base]; exact e2,
        by rw [← hat.reg]; exact e3⟩
    · simp only; rw [isTrusted_same t4]; exact h.trustR
    · simp only; rw [t4.identity]; exact h.identR
    · simp only; rw [t4.regId]; exact h.regR
    · simp only; rw [t4.signedPreKeys]; exact h.spkR
    · exact List.rel_append h.log (List.Forall₂.cons hok List.Forall₂.nil)
    · intro m hmem
      simp only [List.length_append, List.length_cons, List.length_nil]
      rcases List.mem_append.mp hmem with hmem | hmem
      · have := h.logE m hmem
        exact ⟨this.1, this.2.1, by omega⟩
      · simp at hmem
        subst hmem
        have := hcl a.lvR
        refine ⟨by simp only; omega, ?_, by simp only; omega⟩
        simp [Abs.sendLevel, hpr]
    · intro x hx
      simp only [List.length_append, List.length_cons, List.length_nil]
      have := h.acc x hx
      exact ⟨this.1, by omega⟩

/-- Delivery to a party that has a session. -/
theorem deliver_party {P : Prims} {G log acc n me them pend base reg} {r : SRecord} {st : Store}
    {rec : String} {dev : Nat} (hC : Chain P G)
    (hs : st.sessions (sessName rec dev) = .good r)
    (hat : SessAt P G log acc n me them pend (ser base) reg r)
    (hme : me.length = 32) (hth : them.length = 32) {b : Bytes} {ty : MsgType} {ik : Bytes}
    {wm : WhisperMsg} (ht : isTrusted st rec ik = true) (ha : Arrives b ty base ik wm)
    {e c : Nat} {g : Epoch} {pt : Bytes} (hg : G[e]? = some g) (hm : IsMsg P g c them me pt wm)
    (hc : c < u32) (hpos : pos acc e < u32) (rnd : Nat → Bytes) :
    (e ∈ ret n → e ≠ 0 → ((e, c) ∈ acc ∨ c > pos acc e + 2000) →
      receive P rnd st rec dev b ty = ⟨[], .err .invalidMessage⟩) ∧
    (e ∈ ret n → e ≠ 0 → (e, c) ∉ acc → c ≤ pos acc e + 2000 →
      (receive P rnd st rec dev b ty).res = .ok pt ∧
      ∃ r', (applyWrites st (receive P rnd st rec dev b ty).writes).sessions (sessName rec dev) = .good r' ∧
        SessAt P G log ((e, c) :: acc) n me them none (ser base) reg r' ∧
        SameRest st (applyWrites st (receive P rnd st rec dev b ty).writes)) ∧
    (e = n + 1 → G.length = n + 2 → (∀ x ∈ acc, x.1 ≠ n + 1) → count log n < u32 →
      count log (n + 2) = 0 → (rnd 0).length = 32 → (∀ x ∈ G, x.kp.pub ≠ (newPair P (rnd 0)).pub) →
      (c > 2000 → receive P rnd st rec dev b ty = ⟨[], .err .invalidMessage⟩) ∧
      (c ≤ 2000 → (receive P rnd st rec dev b ty).res = .ok pt ∧
        ∃ r' g', (applyWrites st (receive P rnd st rec dev b ty).writes).sessions (sessName rec dev) =
            .good r' ∧ g'.kp = newPair P (rnd 0) ∧ Chain P (G ++ [g']) ∧
          SessAt P (G ++ [g']) log ((e, c) :: acc) (n + 2) me them none (ser base) reg r' ∧
          SameRest st (applyWrites st (receive P rnd st rec dev b ty).writes))) ∧
    ((∀ pt, (receive P rnd st rec dev b ty).res ≠ .ok pt) →
      (receive P rnd st rec dev b ty).writes = []) := by
  obtain ⟨x1, x2, x3⟩ := receive_existing P rnd st rec dev b ty base ik wm r hs hat.prev
    hat.party.version hat.base ht ha
  refine ⟨?_, ?_, ?_, x2⟩
  · intro he h0 hor
    obtain ⟨s', er, hd⟩ := (deliver_known hC hat.party hme hth e c g hg he h0 hc hpos pt wm hm (rnd 0)).1 hor
    exact x1 s' er hd
  · intro he h0 hna hle
    obtain ⟨s', hd, hp, h1, h2, h3⟩ :=
      (deliver_known hC hat.party hme hth e c g hg he h0 hc hpos pt wm hm (rnd 0)).2 hna hle
    obtain ⟨y1, y2, y3⟩ := x3 s' pt hd
    exact ⟨y1, _, y2, ⟨hat.prev, hp, h1, h2.trans hat.base, h3.trans hat.reg⟩, y3⟩
  · intro he hlen hnew hcnt hcnt2 hr hfr
    subst he
    obtain ⟨d1, d2⟩ := deliver_new hC hat.party hme hth hlen c g hg hc hnew hcnt hcnt2 pt wm hm (rnd 0) hr hfr
    constructor
    · intro hgt
      obtain ⟨s', er, hd⟩ := d1 hgt
      exact x1 s' er hd
    · intro hle
      obtain ⟨s', g', hd, hk, hC', hp, h1, h2, h3⟩ := d2 hle
      obtain ⟨y1, y2, y3⟩ := x3 s' pt hd
      exact ⟨y1, _, g', y2, hk, hC', ⟨hat.prev, hp, h1, h2.trans hat.base, h3.trans hat.reg⟩, y3⟩

theorem SessAt.extend {P G log acc n me them pend base reg r}
    (h : SessAt P G log acc n me them pend base reg r) (g : Epoch) :
    SessAt P (G ++ [g]) log acc n me them pend base reg r :=
  ⟨h.prev, h.party.extend g, h.pending, h.base, h.reg⟩

theorem SessAt.acc_other {P G log acc n me them pend base reg r}
    (h : SessAt P G log acc n me them pend base reg r) (e c : Nat) (hne : e ∉ ret n) :
    SessAt P G log ((e, c) :: acc) n me them pend base reg r :=
  ⟨h.prev, h.party.acc_other e c hne, h.pending, h.base, h.reg⟩

theorem rel_R_known {P S G a w} (h : Rel P S G a w) {e c : Nat} (he : e % 2 = 1) (hlt : e < a.lvR)
    (hc : c < a.log.length) {R' : Store} {r' : SRecord}
    (hs : R'.sessions (sessName S.nameI S.devI) = .good r')
    (hat : SessAt P G a.log ((e, c) :: a.acc) a.lvR S.idR.pub S.idI.pub none
      (ser (newPair P S.rb).pub) S.regR r') (hsame : SameRest w.R R') :
    Rel P S G { a with acc := (e, c) :: a.acc } { w with R := R' } := by
  have hpi := h.parI
  refine { chain := h.chain, len := h.len, parI := h.parI, parR := h.parR, adj := h.adj, g0 := h.g0, sessI := ?_, sessR := fun _ => ⟨r', hs, hat⟩, freshR := fun h0 => ?_, trustI := h.trustI, trustR := ?_, knownI := h.knownI, knownR := (fun h0 => by simp only; rw [hsame.identities]; exact h.knownR h0), identR := ?_, regR := ?_, spkR := ?_, log := h.log, logE := h.logE, acc := ?_ }
  · obtain ⟨r2, hr2, hat2⟩ := h.sessI
    exact ⟨r2, hr2, hat2.acc_other e c (fun hin => by have := ret_lt _ _ hin; omega)⟩
  · simp only at h0; omega
  · simp only; rw [isTrusted_same hsame]; exact h.trustR
  · simp only; rw [hsame.identity]; exact h.identR
  · simp only; rw [hsame.regId]; exact h.regR
  · simp only; rw [hsame.signedPreKeys]; exact h.spkR
  · intro x hx
    rcases List.mem_cons.mp hx with hx | hx
    · subst hx
      exact ⟨by simpa [Abs.recvLevel, he] using hlt, hc⟩
    · exact h.acc x hx

theorem rel_I_known {P S G a w} (h : Rel P S G a w) {e c : Nat} (he : e % 2 = 0) (hlt : e < a.lvI)
    (h1 : a.lvI ≠ 1)
    (hc : c < a.log.length) {I' : Store} {r' : SRecord}
    (hs : I'.sessions (sessName S.nameR S.devR) = .good r')
    (hat : SessAt P G a.log ((e, c) :: a.acc) a.lvI S.idI.pub S.idR.pub none
      (ser (newPair P S.rb).pub) S.regI r') (hsame : SameRest w.I I') :
    Rel P S G { a with acc := (e, c) :: a.acc } { w with I := I' } := by
  have hpr := h.parR
  refine { chain := h.chain, len := h.len, parI := h.parI, parR := h.parR, adj := h.adj, g0 := h.g0, sessI := ?_, sessR := fun h0 => ?_, freshR := h.freshR, trustI := ?_, trustR := h.trustR, knownI := (by simp only; rw [hsame.identities]; exact h.knownI), knownR := h.knownR, identR := h.identR, regR := h.regR, spkR := h.spkR, log := h.log, logE := h.logE, acc := ?_ }
  · refine ⟨r', hs, ?_⟩
    simp only [pendI, if_neg h1]; exact hat
  · obtain ⟨r2, hr2, hat2⟩ := h.sessR h0
    exact ⟨r2, hr2, hat2.acc_other e c (fun hin => by have := ret_lt _ _ hin; omega)⟩
  · simp only; rw [isTrusted_same hsame]; exact h.trustI
  · intro x hx
    rcases List.mem_cons.mp hx with hx | hx
    · subst hx
      exact ⟨by simpa [Abs.recvLevel, he] using hlt, hc⟩
    · exact h.acc x hx

theorem rel_R_new {P S G a w} (h : Rel P S G a w) {c : Nat} (hlv : a.lvI = a.lvR + 1)
    (hc : c < a.log.length) {R' : Store} {r' : SRecord} {g' : Epoch} (hC : Chain P (G ++ [g']))
    (hs : R'.sessions (sessName S.nameI S.devI) = .good r')
    (hat : SessAt P (G ++ [g']) a.log ((a.lvR + 1, c) :: a.acc) (a.lvR + 2) S.idR.pub S.idI.pub none
      (ser (newPair P S.rb).pub) S.regR r') (hst : StillR S R')
    (hkn : R'.identities S.nameI = .key S.idI.pub) :
    Rel P S (G ++ [g']) { a with acc := (a.lvR + 1, c) :: a.acc, lvR := a.lvR + 2 } { w with R := R' } := by
  have hpr := h.parR
  have hpi := h.parI
  have hlen := h.len
  refine { chain := hC, len := ?_, parI := h.parI, parR := ?_, adj := ?_, g0 := ?_, sessI := ?_, sessR := fun _ => ⟨r', hs, hat⟩, freshR := fun h0 => ?_, trustI := h.trustI, trustR := hst.trust, knownI := h.knownI, knownR := fun _ => hkn, identR := hst.ident, regR := hst.reg, spkR := hst.spk, log := ?_, logE := ?_, acc := ?_ }
  · simp only [List.length_append, List.length_cons, List.length_nil]; omega
  · simp only; omega
  · simp only; omega
  · rw [List.getElem?_append_left (by omega)]; exact h.g0
  · obtain ⟨r2, hr2, hat2⟩ := h.sessI
    exact ⟨r2, hr2, (hat2.acc_other _ c (fun hin => by have := ret_lt _ _ hin; omega)).extend g'⟩
  · simp only at h0; omega
  · exact h.log.imp (fun _ _ hx => hx.extend g')
  · intro m hm
    obtain ⟨h1, h2, h3⟩ := h.logE m hm
    refine ⟨h1, ?_, h3⟩
    simp only [Abs.sendLevel] at h2 ⊢
    split at h2 <;> split <;> omega
  · intro x hx
    rcases List.mem_cons.mp hx with hx | hx
    · subst hx
      refine ⟨?_, hc⟩
      simp only [Abs.recvLevel]
      rw [if_pos (by omega)]
      omega
    · obtain ⟨h1, h2⟩ := h.acc x hx
      refine ⟨?_, h2⟩
      simp only [Abs.recvLevel] at h1 ⊢
      split at h1 <;> split <;> omega

theorem rel_I_new {P S G a w} (h : Rel P S G a w) {c : Nat} (hlv : a.lvR = a.lvI + 1)
    (hc : c < a.log.length) {I' : Store} {r' : SRecord} {g' : Epoch} (hC : Chain P (G ++ [g']))
    (hs : I'.sessions (sessName S.nameR S.devR) = .good r')
    (hat : SessAt P (G ++ [g']) a.log ((a.lvI + 1, c) :: a.acc) (a.lvI + 2) S.idI.pub S.idR.pub none
      (ser (newPair P S.rb).pub) S.regI r') (hsame : SameRest w.I I') :
    Rel P S (G ++ [g']) { a with acc := (a.lvI + 1, c) :: a.acc, lvI := a.lvI + 2 } { w with I := I' } := by
  have hpr := h.parR
  have hpi := h.parI
  have hlen := h.len
  refine { chain := hC, len := ?_, parI := ?_, parR := h.parR, adj := ?_, g0 := ?_, sessI := ?_, sessR := fun h0 => ?_, freshR := fun h0 => ?_, trustI := ?_, trustR := h.trustR, knownI := (by simp only; rw [hsame.identities]; exact h.knownI), knownR := h.knownR, identR := h.identR, regR := h.regR, spkR := h.spkR, log := ?_, logE := ?_, acc := ?_ }
  · simp only [List.length_append, List.length_cons, List.length_nil]; omega
  · simp only; omega
  · simp only; omega
  · rw [List.getElem?_append_left (by omega)]; exact h.g0
  · refine ⟨r', hs, ?_⟩
    simp only [pendI, if_neg (show ¬ a.lvI + 2 = 1 by omega)]; exact hat
  · obtain ⟨r2, hr2, hat2⟩ := h.sessR h0
    exact ⟨r2, hr2, (hat2.acc_other _ c (fun hin => by have := ret_lt _ _ hin; omega)).extend g'⟩
  · simp only at h0; omega
  · simp only; rw [isTrusted_same hsame]; exact h.trustI
  · exact h.log.imp (fun _ _ hx => hx.extend g')
  · intro m hm
    obtain ⟨h1, h2, h3⟩ := h.logE m hm
    refine ⟨h1, ?_, h3⟩
    simp only [Abs.sendLevel] at h2 ⊢
    split at h2 <;> split <;> omega
  · intro x hx
    rcases List.mem_cons.mp hx with hx | hx
    · subst hx
      refine ⟨?_, hc⟩
      simp only [Abs.recvLevel]
      rw [if_neg (by omega)]
      omega
    · obtain ⟨h1, h2⟩ := h.acc x hx
      refine ⟨?_, h2⟩
      simp only [Abs.recvLevel] at h1 ⊢
      split at h1 <;> split <;> omega

theorem Rel.still {P S G a w} (h : Rel P S G a w) : StillR S w.R := ⟨h.trustR, h.identR, h.regR, h.spkR⟩

theorem StillR.same {S : Setup} {st st' : Store} (h : StillR S st) (hs : SameRest st st') : StillR S st' :=
  ⟨by rw [isTrusted_same hs]; exact h.trust, by rw [hs.identity]; exact h.ident,
   by rw [hs.regId]; exact h.reg, by rw [hs.signedPreKeys]; exact h.spk⟩

theorem expect_new (a : Abs) (m : AMsg) (h : m.epoch = a.recvLevel m.epoch + 1) :
    (m.ctr > 2000 → a.expect m = .refuse) ∧ (m.ctr ≤ 2000 → a.expect m = .accept) := by
  constructor
  · intro hc
    unfold Abs.expect
    simp only
    rw [if_pos h, if_pos hc]
  · intro hc
    unfold Abs.expect
    simp only
    rw [if_pos h, if_neg (by omega)]

theorem expect_known (a : Abs) (m : AMsg) (h : m.epoch ≠ a.recvLevel m.epoch + 1)
    (hin : m.epoch ∈ ret (a.recvLevel m.epoch)) :
    ((m.epoch, m.ctr) ∈ a.acc ∨ m.ctr > pos a.acc m.epoch + 2000 → a.expect m = .refuse) ∧
    ((m.epoch, m.ctr) ∉ a.acc → m.ctr ≤ pos a.acc m.epoch + 2000 → a.expect m = .accept) := by
  constructor
  · intro hc
    unfold Abs.expect
    simp only
    rw [if_neg h, if_pos hin]
    by_cases h1 : (m.epoch, m.ctr) ∈ a.acc
    · rw [if_pos h1]
    · rw [if_neg h1, if_pos (by rcases hc with hc | hc; exact absurd hc h1; exact hc)]
  · intro h1 h2
    unfold Abs.expect
    simp only
    rw [if_neg h, if_pos hin, if_neg h1, if_neg (by omega)]

theorem expect_stale (a : Abs) (m : AMsg) (h : m.epoch ≠ a.recvLevel m.epoch + 1)
    (hin : m.epoch ∉ ret (a.recvLevel m.epoch)) : a.expect m = .stale := by
  unfold Abs.expect
  simp only
  rw [if_neg h, if_neg hin]

theorem deliver_abs (a : Abs) (i : Nat) (rnd : Nat → Bytes) (m : AMsg) (hi : a.log[i]? = some m) :
    (a.expect m = .accept → a.want (.deliver i rnd) = .got m.pt ∧ a.step (.deliver i rnd) = a.accept m) ∧
    (a.expect m = .refuse → a.want (.deliver i rnd) = .refused ∧ a.step (.deliver i rnd) = a) ∧
    (a.expect m = .stale → a.want (.deliver i rnd) = .stale ∧ a.step (.deliver i rnd) = a) := by
  refine ⟨?_, ?_, ?_⟩ <;> intro h <;> simp [Abs.want, Abs.step, hi, h]

theorem applyWrites_nil (st : Store) : applyWrites st [] = st := rfl

theorem step_deliver {P : Prims} {S : Setup} {G : List Epoch} {a : Abs} {w : World} (hS : S.Ok P)
    (h : Rel P S G a w) (i : Nat) (rnd : Nat → Bytes) (hr : (rnd 0).length = 32)
    (hfr : ∀ x ∈ G, x.kp.pub ≠ (newPair P (rnd 0)).pub)
    (hb : a.log.length + 1 < u32)
    (hnf : a.want (.deliver i rnd) = .stale → ∀ pt, (w.step P S (.deliver i rnd)).2 ≠ .received (.ok pt)) :
    StepOk P S G a w (.deliver i rnd) := by
  have hidI := hS.idI.pub_len
  have hidR := hS.idR.pub_len
  have hlen := h.len
  have hpi := h.parI
  have hpr := h.parR
  have hadj := h.adj
  have hcl := count_le a.log
  have hpos : ∀ e, pos a.acc e < u32 := fun e => by
    have := pos_le a.acc e a.log.length (fun x hx => (h.acc x hx).2)
    omega
  cases hi : a.log[i]? with
  | none =>
    have hwi := (forall₂_get h.log i).1 hi
    unfold StepOk
    have e1 : a.want (.deliver i rnd) = .nothing := by simp [Abs.want, hi]
    have e2 : a.step (.deliver i rnd) = a := by simp [Abs.step, hi]
    have e3 : w.step P S (.deliver i rnd) = (w, .nothing) := by simp [World.step, hwi]
    rw [e1, e2, e3]
    exact ⟨trivial, G, h, Or.inl rfl⟩
  | some m =>
    obtain ⟨x, hx, g, wm, hg, hx1, hm, hwp⟩ := (forall₂_get h.log i).2 m hi
    obtain ⟨who, b, ty⟩ := x
    simp only at hx1 hwp
    have hmem := List.mem_of_getElem? hi
    obtain ⟨l1, l2, l3⟩ := h.logE m hmem
    obtain ⟨da, dr, ds⟩ := deliver_abs a i rnd m hi
    by_cases hodd : m.epoch % 2 = 1
    · -- to the responder
      have hev : ¬ m.epoch % 2 = 0 := by omega
      have hwho : who = false := by rw [hx1]; simp [hev]
      subst hwho
      have hrl : a.recvLevel m.epoch = a.lvR := by simp [Abs.recvLevel, hodd]
      have hsl : m.epoch ≤ a.lvI := by simpa [Abs.sendLevel, hodd] using l2
      rw [if_neg hev, if_neg hev] at hm
      have hstep : w.step P S (.deliver i rnd) =
          ({ w with R := applyWrites w.R (receive P rnd w.R S.nameI S.devI b ty).writes },
            .received (receive P rnd w.R S.nameI S.devI b ty).res) := by
        simp only [World.step, hx]
      unfold StepOk
      rw [hstep] at hnf ⊢
      simp only at hnf ⊢
      have hnew : ∀ x ∈ a.acc, x.1 ≠ a.lvR + 1 := by
        intro x hx' he
        have := (h.acc x hx').1
        simp only [Abs.recvLevel, he] at this
        rw [if_pos (by omega)] at this
        omega
      have hc2 : count a.log (a.lvR + 2) = 0 := by
        apply count_zero
        intro m' hm' he
        have := (h.logE m' hm').2.1
        simp only [Abs.sendLevel, he] at this
        rw [if_pos (by simp; omega)] at this
        omega
      by_cases h0 : a.lvR = 0
      · -- the responder has no session
        have he1 : m.epoch = 1 := by omega
        have hlv : a.lvI = a.lvR + 1 := by omega
        obtain ⟨hty, pm, q1, q2, q3, q4, q5, q6, q7, q8⟩ := hwp.2 he1
        obtain ⟨f1, f2⟩ := h.freshR h0
        obtain ⟨p1, p2⟩ := receive_first P S hS.pkId.2 rnd w.R h.still f1 f2 b pm q1 q2 q4 q5 q6 q7 q3
        rw [q8] at p1 p2
        rw [hty]
        have hc0 : count a.log 0 = 0 := by
          apply count_zero
          intro m' hm' he
          have := (h.logE m' hm').1
          omega
        have hg1 : G[0 + 1]? = some g := by rw [he1] at hg; exact hg
        obtain ⟨d1, d2⟩ := deliver_new h.chain (firstState_party h.g0 a.log a.acc hc0) hidR hidI
          (by omega) m.ctr g hg1 (by omega) (by rw [h0] at hnew; exact hnew) (by rw [hc0]; decide)
          (by rw [h0] at hc2; exact hc2) m.pt wm hm (rnd 0) hr hfr
        obtain ⟨n1, n2⟩ := expect_new a m (by rw [hrl]; omega)
        by_cases hbig : m.ctr > 2000
        · obtain ⟨s', er, hd⟩ := d1 hbig
          rw [p1 s' er hd, (dr (n1 hbig)).1, (dr (n1 hbig)).2]
          refine ⟨trivial, G, ?_, Or.inl rfl⟩
          refine { chain := h.chain, len := h.len, parI := h.parI, parR := h.parR, adj := h.adj, g0 := h.g0, sessI := h.sessI, sessR := fun hh => absurd h0 hh, freshR := fun _ => ⟨f1, f2⟩, trustI := h.trustI, trustR := ?_, knownI := h.knownI, knownR := fun hh => absurd h0 hh, identR := h.identR, regR := h.regR, spkR := h.spkR, log := h.log, logE := h.logE, acc := h.acc }
          simp [applyWrites, applyWrite, isTrusted]
        · obtain ⟨s', g', hd, hk, hC', hpa, t1, t2, t3⟩ := d2 (by omega)
          have hacc := n2 (by omega)
          rw [p2 s' m.pt hd, (da hacc).1, (da hacc).2]
          refine ⟨rfl, G ++ [g'], ?_, Or.inr ⟨g', i, rnd, rfl, rfl, hk⟩⟩
          have hab : a.accept m = { a with acc := (a.lvR + 1, m.ctr) :: a.acc, lvR := a.lvR + 2 } := by
            unfold Abs.accept
            simp only [hrl]
            rw [if_pos (by rw [h0]; exact he1), if_pos hodd, he1, h0]
          rw [hab]
          apply rel_R_new h hlv l3 hC' (r' := { cur := s', fresh := false })
          · simp [applyWrites, applyWrite]
          · rw [h0]
            exact ⟨rfl, hpa, t1, t2, t3⟩
          · have hst := h.still
            refine ⟨?_, ?_, ?_, ?_⟩
            · by_cases hl : S.pkId = 0xFFFFFF <;> simp [applyWrites, applyWrite, isTrusted, hl]
            · by_cases hl : S.pkId = 0xFFFFFF <;> simp [applyWrites, applyWrite, hl, hst.ident]
            · by_cases hl : S.pkId = 0xFFFFFF <;> simp [applyWrites, applyWrite, hl, hst.reg]
            · by_cases hl : S.pkId = 0xFFFFFF <;> simp [applyWrites, applyWrite, hl, hst.spk]
          · by_cases hl : S.pkId = 0xFFFFFF <;> simp [applyWrites, applyWrite, hl]
      · obtain ⟨r, hs, hat⟩ := h.sessR h0
        have harr : Arrives b ty (newPair P S.rb).pub S.idI.pub wm := by
          by_cases he1 : m.epoch = 1
          · obtain ⟨hty, pm, q1, q2, q3, q4, q5, q6, q7, q8⟩ := hwp.2 he1
            exact Or.inr ⟨hty, pm, q1, q2, q6, q7, q8⟩
          · exact Or.inl (hwp.1 he1)
        obtain ⟨k1, k2, k3, k4⟩ := deliver_party h.chain hs hat hidR hidI h.trustR harr hg hm
          (by omega) (hpos _) rnd
        by_cases hn : m.epoch = a.lvR + 1
        · obtain ⟨k5, k6⟩ := k3 hn (by omega) hnew (by have := hcl a.lvR; omega) hc2 hr hfr
          obtain ⟨n1, n2⟩ := expect_new a m (by rw [hrl]; exact hn)
          by_cases hbig : m.ctr > 2000
          · rw [k5 hbig, (dr (n1 hbig)).1, (dr (n1 hbig)).2]
            exact ⟨trivial, G, h, Or.inl rfl⟩
          · obtain ⟨y1, r', g', y2, y3, y4, y5, y6⟩ := k6 (by omega)
            have hacc := n2 (by omega)
            rw [y1, (da hacc).1, (da hacc).2]
            refine ⟨rfl, G ++ [g'], ?_, Or.inr ⟨g', i, rnd, rfl, rfl, y3⟩⟩
            have hab : a.accept m = { a with acc := (a.lvR + 1, m.ctr) :: a.acc, lvR := a.lvR + 2 } := by
              unfold Abs.accept
              simp only [hrl]
              rw [if_pos hn, if_pos hodd, hn]
            rw [hab]
            rw [hn] at y5
            exact rel_R_new h (by omega) l3 y4 y2 y5 (h.still.same y6) (by rw [y6.identities]; exact h.knownR h0)
        · by_cases hin : m.epoch ∈ ret a.lvR
          · obtain ⟨n1, n2⟩ := expect_known a m (by rw [hrl]; exact hn) (by rw [hrl]; exact hin)
            by_cases hor : (m.epoch, m.ctr) ∈ a.acc ∨ m.ctr > pos a.acc m.epoch + 2000
            · rw [k1 hin (by omega) hor, (dr (n1 hor)).1, (dr (n1 hor)).2]
              exact ⟨trivial, G, h, Or.inl rfl⟩
            · have ho1 : (m.epoch, m.ctr) ∉ a.acc := fun hh => hor (Or.inl hh)
              have ho2 : m.ctr ≤ pos a.acc m.epoch + 2000 := by
                by_contra hh
                exact hor (Or.inr (by omega))
              obtain ⟨y1, r', y2, y3, y4⟩ := k2 hin (by omega) ho1 ho2
              have hacc := n2 ho1 ho2
              rw [y1, (da hacc).1, (da hacc).2]
              refine ⟨rfl, G, ?_, Or.inl rfl⟩
              have hab : a.accept m = { a with acc := (m.epoch, m.ctr) :: a.acc } := by
                unfold Abs.accept
                simp only [hrl]
                rw [if_neg hn]
              rw [hab]
              exact rel_R_known h hodd (ret_lt _ _ hin).1 l3 y2 y3 y4
          · have hst := expect_stale a m (by rw [hrl]; exact hn) (by rw [hrl]; exact hin)
            have hno := hnf (ds hst).1
            have hno' : ∀ pt, (receive P rnd w.R S.nameI S.devI b ty).res ≠ .ok pt := by
              intro pt hh
              exact hno pt (by rw [hh])
            rw [k4 hno', (ds hst).1, (ds hst).2]
            exact ⟨hno', G, h, Or.inl rfl⟩
    · -- to the initiator
      have hev : m.epoch % 2 = 0 := by omega
      have hwho : who = true := by rw [hx1]; simp [hev]
      subst hwho
      have hrl : a.recvLevel m.epoch = a.lvI := by simp [Abs.recvLevel, hodd]
      have hsl : m.epoch ≤ a.lvR := by simpa [Abs.sendLevel, hev] using l2
      rw [if_pos hev, if_pos hev] at hm
      have hstep : w.step P S (.deliver i rnd) =
          ({ w with I := applyWrites w.I (receive P rnd w.I S.nameR S.devR b ty).writes },
            .received (receive P rnd w.I S.nameR S.devR b ty).res) := by
        simp only [World.step, hx]
      unfold StepOk
      rw [hstep] at hnf ⊢
      simp only at hnf ⊢
      have hnew : ∀ x ∈ a.acc, x.1 ≠ a.lvI + 1 := by
        intro x hx' he
        have := (h.acc x hx').1
        simp only [Abs.recvLevel, he] at this
        rw [if_neg (by omega)] at this
        omega
      have hc2 : count a.log (a.lvI + 2) = 0 := by
        apply count_zero
        intro m' hm' he
        have := (h.logE m' hm').2.1
        simp only [Abs.sendLevel, he] at this
        rw [if_neg (by simp; omega)] at this
        omega
      obtain ⟨r, hs, hat⟩ := h.sessI
      have harr : Arrives b ty (newPair P S.rb).pub S.idR.pub wm := Or.inl (hwp.1 (by omega))
      obtain ⟨k1, k2, k3, k4⟩ := deliver_party h.chain hs hat hidI hidR h.trustI harr hg hm
        (by omega) (hpos _) rnd
      by_cases hn : m.epoch = a.lvI + 1
      · obtain ⟨k5, k6⟩ := k3 hn (by omega) hnew (by have := hcl a.lvI; omega) hc2 hr hfr
        obtain ⟨n1, n2⟩ := expect_new a m (by rw [hrl]; exact hn)
        by_cases hbig : m.ctr > 2000
        · rw [k5 hbig, (dr (n1 hbig)).1, (dr (n1 hbig)).2]
          exact ⟨trivial, G, h, Or.inl rfl⟩
        · obtain ⟨y1, r', g', y2, y3, y4, y5, y6⟩ := k6 (by omega)
          have hacc := n2 (by omega)
          rw [y1, (da hacc).1, (da hacc).2]
          refine ⟨rfl, G ++ [g'], ?_, Or.inr ⟨g', i, rnd, rfl, rfl, y3⟩⟩
          have hab : a.accept m = { a with acc := (a.lvI + 1, m.ctr) :: a.acc, lvI := a.lvI + 2 } := by
            unfold Abs.accept
            simp only [hrl]
            rw [if_pos hn, if_neg hodd, hn]
          rw [hab]
          rw [hn] at y5
          exact rel_I_new h (by omega) l3 y4 y2 y5 y6
      · by_cases hin : m.epoch ∈ ret a.lvI
        · obtain ⟨n1, n2⟩ := expect_known a m (by rw [hrl]; exact hn) (by rw [hrl]; exact hin)
          by_cases hor : (m.epoch, m.ctr) ∈ a.acc ∨ m.ctr > pos a.acc m.epoch + 2000
          · rw [k1 hin (by omega) hor, (dr (n1 hor)).1, (dr (n1 hor)).2]
            exact ⟨trivial, G, h, Or.inl rfl⟩
          · have ho1 : (m.epoch, m.ctr) ∉ a.acc := fun hh => hor (Or.inl hh)
            have ho2 : m.ctr ≤ pos a.acc m.epoch + 2000 := by
              by_contra hh
              exact hor (Or.inr (by omega))
            obtain ⟨y1, r', y2, y3, y4⟩ := k2 hin (by omega) ho1 ho2
            have hacc := n2 ho1 ho2
            rw [y1, (da hacc).1, (da hacc).2]
            refine ⟨rfl, G, ?_, Or.inl rfl⟩
            have hab : a.accept m = { a with acc := (m.epoch, m.ctr) :: a.acc } := by
              unfold Abs.accept
              simp only [hrl]
              rw [if_neg hn]
            rw [hab]
            have hlt := ret_lt _ _ hin
            exact rel_I_known h hev hlt.1 (by omega) l3 y2 y3 y4
        · have hst := expect_stale a m (by rw [hrl]; exact hn) (by rw [hrl]; exact hin)
          have hno := hnf (ds hst).1
          have hno' : ∀ pt, (receive P rnd w.I S.nameR S.devR b ty).res ≠ .ok pt := by
            intro pt hh
            exact hno pt (by rw [hh])
          rw [k4 hno', (ds hst).1, (ds hst).2]
          exact ⟨hno', G, h, Or.inl rfl⟩

/-! ## The initial state and whole schedules -/

theorem keyMaterial_sender {P : Prims} {S : Setup} (hS : S.Ok P) :
    diversifier ++ P.dh S.idI.priv S.spk.pub ++ P.dh (newPair P S.rb).priv S.idR.pub
      ++ P.dh (newPair P S.rb).priv S.spk.pub ++ (match S.opk.map KeyPair.pub with
        | some k => P.dh (newPair P S.rb).priv k
        | none => []) = keyMaterial P S := by
  have hbase := newPair_valid P S.rb hS.rb
  unfold keyMaterial
  rw [dh_swap hS.idI hS.spk, dh_swap hbase hS.idR, dh_swap hbase hS.spk]
  cases ho : S.opk with
  | none => rfl
  | some k =>
    simp only [Option.map]
    rw [dh_swap hbase (hS.opk k ho)]

def initG (P : Prims) (S : Setup) : List Epoch :=
  [epoch0 P S, ⟨newPair P S.rr, (createChain P (epoch0 P S).root S.spk.pub (newPair P S.rr).priv).1,
    (createChain P (epoch0 P S).root S.spk.pub (newPair P S.rr).priv).2⟩]

theorem init_rel {P : Prims} {S : Setup} (hS : S.Ok P) (hne : S.spk.pub ≠ (newPair P S.rr).pub) :
    (buildSender P {} S.initiator S.rb S.rr S.nameR S.devR S.bundle).res = .ok () ∧
    Rel P S (initG P S) {} (World.init P S) := by
  obtain ⟨rec, hrec⟩ : ∃ rec, rec = senderRecord P S.rb S.rr {} S.idI S.regI S.bundle S.spk.pub := ⟨_, rfl⟩
  have hbs : buildSender P {} S.initiator S.rb S.rr S.nameR S.devR S.bundle =
      ⟨[.storeSession S.nameR S.devR rec, .saveIdentity S.nameR S.idR.pub], .ok ()⟩ := by
    unfold buildSender
    rw [hS.bundleId, if_neg (by simp [hS.iTrust]), hS.bundleSpk.1]
    simp only
    rw [if_neg (by
      have := hS.bundleSig
      simp only [ser]
      simp [this])]
    have hload : loadSession S.initiator S.nameR S.devR = .ok {} := by simp [loadSession, hS.iNone]
    rw [hload, hS.iIdent, hS.iReg]
    simp only [hrec]
    simp
  have hl := derivedKeys_lens P (keyMaterial P S)
  have hl2 := createChain_lens P (epoch0 P S).root S.spk.pub (newPair P S.rr).priv
  refine ⟨by rw [hbs], ?_⟩
  unfold World.init
  rw [hbs]
  refine { chain := ⟨?_, ?_, ?_⟩, len := rfl, parI := rfl, parR := rfl, adj := Or.inl rfl, g0 := rfl, sessI := ?_, sessR := fun hh => absurd rfl hh, freshR := fun _ => ⟨hS.rNone, hS.rOpk⟩, trustI := ?_, trustR := hS.rTrust, knownI := (by simp [applyWrites, applyWrite]), knownR := fun hh => absurd rfl hh, identR := hS.rIdent, regR := hS.rReg, spkR := hS.rSpk, log := List.Forall₂.nil, logE := ?_, acc := ?_ }
  · intro g hg
    simp only [initG, List.mem_cons, List.not_mem_nil, or_false] at hg
    rcases hg with rfl | rfl
    · exact ⟨hS.spk, hl.1, hl.2.1, hl.2.2⟩
    · exact ⟨newPair_valid P _ hS.rr, hl2.1, hl2.2.1, hl2.2.2⟩
  · intro i a b ha hb
    match i with
    | 0 =>
      simp only [initG, List.getElem?_cons_zero, Option.some.injEq, Nat.zero_add,
        List.getElem?_cons_succ] at ha hb
      subst ha hb
      rfl
    | j + 1 => simp [initG] at hb
  · simp [initG, epoch0, hne]
  · refine ⟨{ rec with fresh := false }, ?_, ?_⟩
    · simp [applyWrites, applyWrite]
    · have hkm := keyMaterial_sender hS
      rw [← hS.bundleOpk.1] at hkm
      have hch : rec.cur.rootKey = (createChain P (epoch0 P S).root S.spk.pub (newPair P S.rr).priv).1 ∧
          rec.cur.sender = some ⟨(newPair P S.rr).pub, (newPair P S.rr).priv,
            (createChain P (epoch0 P S).root S.spk.pub (newPair P S.rr).priv).2⟩ := by
        rw [hrec]
        simp only [epoch0, ← hkm, ← hS.bundleId]
        exact ⟨rfl, rfl⟩
      refine ⟨by rw [hrec]; rfl, ⟨by rw [hrec]; rfl, by rw [hrec]; rfl, ?_, ?_, ?_, ?_⟩, ?_, by rw [hrec]; rfl, by rw [hrec]; rfl⟩
      · rw [hrec]; exact hS.bundleId
      · exact ⟨_, rfl, hch.1, hch.2⟩
      · rw [hrec]
        refine List.Forall₂.cons ⟨epoch0 P S, rfl, rfl, fun h0 => absurd rfl h0, fun _ => ⟨rfl, _, rfl, ?_⟩⟩
          List.Forall₂.nil
        simp only [epoch0, ← hkm, ← hS.bundleId]
        rfl
      · rw [hrec]
        rfl
      · rw [hrec]
        show some (⟨S.bundle.preKeyId, S.bundle.signedPreKeyId, _⟩ : Pending) = _
        rw [hS.bundleOpk.2, hS.bundleSpk.2]
        rfl
  · simp [applyWrites, applyWrite, isTrusted]
  · simp
  · simp

def keysOf (P : Prims) (evs : List Ev) : List Bytes :=
  evs.filterMap (fun ev => match ev with
    | .deliver _ rnd => some (newPair P (rnd 0)).pub
    | .send _ _ => none)

theorem simulate {P : Prims} {S : Setup} (hS : S.Ok P) : ∀ (evs : List Ev) (G : List Epoch) (a : Abs)
    (w : World), Rel P S G a w → Legal a evs → (G.map (fun g => g.kp.pub) ++ keysOf P evs).Nodup →
    a.log.length + evs.length + 1 < u32 → NoForgery P S a w evs →
    List.Forall₂ Agree (wants a evs) (World.gots P S w evs) := by
  intro evs
  induction evs with
  | nil => intros; exact List.Forall₂.nil
  | cons ev evs ih =>
    intro G a w h hl hn hb hnf
    simp only [List.length_cons] at hb
    have hstep : StepOk P S G a w ev := by
      cases ev with
      | send who pt => exact step_send hS h who pt hl.1 (by omega)
      | deliver i rnd =>
        refine step_deliver hS h i rnd hl.1 ?_ (by omega) hnf.1
        intro x hx he
        rw [List.nodup_append] at hn
        exact hn.2.2 x.kp.pub (List.mem_map.mpr ⟨x, hx, rfl⟩) (newPair P (rnd 0)).pub
          (by simp [keysOf]) he
    obtain ⟨hag, G', hrel, hG⟩ := hstep
    have hll : (a.step ev).log.length ≤ a.log.length + 1 := by
      cases ev with
      | send who pt => simp [Abs.step]
      | deliver i rnd =>
        simp only [Abs.step]
        split
        · omega
        · split
          · unfold Abs.accept
            simp only
            split
            · split <;> simp
            · simp
          · omega
    refine List.Forall₂.cons hag (ih G' _ _ hrel hl.2 ?_ (by omega) hnf.2)
    rcases hG with rfl | ⟨g, i, rnd, rfl, rfl, hk⟩
    · refine hn.sublist ?_
      refine List.Sublist.append (List.Sublist.refl _) ?_
      unfold keysOf
      cases ev <;> simp
    · have he : keysOf P (.deliver i rnd :: evs) = (newPair P (rnd 0)).pub :: keysOf P evs := by
        simp [keysOf]
      rw [he] at hn
      rw [List.map_append, List.append_assoc]
      simpa [hk] using hn

end Verif.Conv
