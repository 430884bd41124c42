import Verif.Proof.Healing
import Verif.Props.Theft
/-!
# Property C174: how long a stolen session file is of use
-/
namespace Verif.Props
open Verif Verif.Keys Verif.Messages Verif.Session Verif.Api Verif.Names Verif.Conv Verif.Theft

theorem legal_prefix (pre post : List Ev) : ∀ a : Abs, Legal a (pre ++ post) → Legal a pre := by
  induction pre with
  | nil => intro a _; trivial
  | cons ev pre ih => intro a h; exact ⟨h.1, ih _ h.2⟩

theorem noForgery_prefix {P : Prims} {S : Setup} (pre post : List Ev) : ∀ (a : Abs) (w : World),
    NoForgery P S a w (pre ++ post) → NoForgery P S a w pre := by
  induction pre with
  | nil => intro a w _; trivial
  | cons ev pre ih => intro a w h; exact ⟨h.1, ih _ _ h.2⟩

theorem Scheduled.pre {P : Prims} {S : Setup} {pre post : List Ev} (h : Scheduled P S (pre ++ post)) :
    Scheduled P S pre := by
  refine ⟨h.setup, legal_prefix pre post _ h.legal, ?_, ?_, noForgery_prefix pre post _ _ h.noForgery⟩
  · refine h.keys.sublist ?_
    unfold ratchetKeys
    rw [List.filterMap_append]
    exact ((List.sublist_append_left _ _).cons₂ _).cons₂ _
  · have := h.short
    rw [List.length_append] at this
    omega

/-- The epochs reached, with the key pairs that were drawn. -/
theorem Scheduled.pairs {P : Prims} {S : Setup} {evs : List Ev} (h : Scheduled P S evs) :
    ∃ G, Rel P S G (absRun evs) (worldRun P S (World.init P S) evs) ∧
      G.map (fun g => g.kp) = Theft.pairs P S evs := by
  have hne : S.spk.pub ≠ (newPair P S.rr).pub := by
    have hk := h.keys
    unfold ratchetKeys at hk
    rw [List.nodup_cons] at hk
    intro h
    exact hk.1 (by rw [h]; exact List.mem_cons_self)
  refine simulate_pairs h.setup evs (initG P S) {} (World.init P S) (init_rel h.setup hne).2 h.legal h.keys ?_
    h.noForgery
  have := h.short
  show 0 + evs.length + 1 < u32
  unfold u32
  omega

theorem pairs_append (P : Prims) (S : Setup) (pre post : List Ev) :
    Theft.pairs P S (pre ++ post) = Theft.pairs P S pre ++ (turned (absRun pre) post).map (newPair P) := by
  simp only [Theft.pairs, turned_append, List.map_append, List.cons_append]
  rfl

theorem rootOf_append (P : Prims) (root : Bytes) (ks l : List KeyPair) : ∀ e, e < ks.length →
    rootOf P root (ks ++ l) e = rootOf P root ks e := by
  intro e
  induction e with
  | zero => intro _; rfl
  | succ e ih =>
    intro h
    simp only [rootOf]
    rw [List.getElem?_append_left (by omega), List.getElem?_append_left (by omega), ih (by omega)]

/-- A message of a schedule, as it is on the wire: `Carries P root ks m x` says that the bytes `x` open with the keys
that follow from the key pairs `ks`, and show the public key of the message's epoch. -/
def Carries (P : Prims) (root : Bytes) (ks : List KeyPair) (m : AMsg) (x : Bool × Bytes × MsgType) : Prop :=
  OpensTo P (keyOf P (chainOf P root ks m.epoch) m.ctr) x.2.1 x.2.2 m.pt ∧
  ∃ k wm, ks[m.epoch]? = some k ∧ inside x.2.1 x.2.2 = some wm ∧ wm.ratchetKey = k.pub

theorem carries_msg {P : Prims} {S : Setup} {G : List Epoch} {a : Abs} {w : World} (hr : Rel P S G a w) {m : AMsg}
    (h1 : 1 ≤ m.epoch) {x : Bool × Bytes × MsgType} (h : MsgOk P S G m x) :
    Carries P (epoch0 P S).root (G.map (fun g => g.kp)) m x := by
  refine ⟨?_, ?_⟩
  · have ho := opens_msg h
    obtain ⟨g, _, hg, _⟩ := h
    obtain ⟨e, he⟩ : ∃ e, m.epoch = e + 1 := ⟨m.epoch - 1, by omega⟩
    rw [he] at hg
    rw [he, firstKey_of hg, chain_chains hr.chain hr.g0 e g hg] at ho
    rw [he]
    exact ho
  · obtain ⟨g, wm, hg, _, hm, hw⟩ := h
    refine ⟨g.kp, wm, by rw [List.getElem?_map, hg]; rfl, ?_, hm.ratchet⟩
    by_cases h1 : m.epoch = 1
    · obtain ⟨hty, pm, hpm, _, _, _, _, _, _, hin⟩ := hw.2 h1
      simp only [inside, hty, hpm, hin]
    · obtain ⟨hty, hl⟩ := hw.1 h1
      simp only [inside, hty, hl]

theorem forall₂_mem {α β : Type} {R Q : α → β → Prop} {l : List α} {m : List β} (h : List.Forall₂ R l m)
    (hq : ∀ a b, a ∈ l → R a b → Q a b) : List.Forall₂ Q l m := by
  induction h with
  | nil => exact .nil
  | cons hab _ ih =>
    exact .cons (hq _ _ List.mem_cons_self hab) (ih (fun a b ha => hq a b (List.mem_cons_of_mem _ ha)))

/-- What a session stored by a party that sends in epoch `n` holds of the key schedule: the root key and the private key
of that epoch. -/
def Holds (P : Prims) (root : Bytes) (ks : List KeyPair) (n : Nat) (r : SRecord) : Prop :=
  r.cur.rootKey = rootOf P root ks n ∧ ∃ sd k, r.cur.sender = some sd ∧ ks[n]? = some k ∧ sd.priv = k.priv

theorem holds_of {P : Prims} {S : Setup} {G : List Epoch} {a : Abs} {w : World} (hr : Rel P S G a w) {n : Nat}
    {me them : Bytes} {pend base reg} {r : SRecord} (h : SessAt P G a.log a.acc n me them pend base reg r) :
    Holds P (epoch0 P S).root (G.map (fun g => g.kp)) n r := by
  obtain ⟨g, hg, hroot, hsd⟩ := h.party.key
  exact ⟨hroot.trans (chain_roots hr.chain hr.g0 n g hg), _, g.kp, hsd, by rw [List.getElem?_map, hg]; rfl, rfl⟩

/-- C174, in part: in every schedule `pre ++ post` of sends and deliveries of two clients that start from a published
bundle, the keys of all messages follow from one first root key and the key pairs that were drawn. A session stored
after `pre` holds the root key and the private key of the epoch its owner sends in, and for every later epoch but the
next the private key was drawn after `pre`: by a delivery in `post`. Missing: the next epoch (`C174_window`). -/
theorem C174_healing_partial (P : Prims) (S : Setup) (pre post : List Ev) (h : Scheduled P S (pre ++ post)) :
    ∃ root,
      List.Forall₂ (Carries P root (pairs P S (pre ++ post)))
        (absRun (pre ++ post)).log (worldRun P S (World.init P S) (pre ++ post)).wire ∧
      (∀ r, (worldRun P S (World.init P S) pre).I.sessions (sessName S.nameR S.devR) = .good r →
        Holds P root (pairs P S (pre ++ post)) (absRun pre).lvI r) ∧
      (∀ r, (worldRun P S (World.init P S) pre).R.sessions (sessName S.nameI S.devI) = .good r →
        Holds P root (pairs P S (pre ++ post)) (absRun pre).lvR r) ∧
      (∀ m ∈ (absRun (pre ++ post)).log,
        (absRun pre).lvI + 2 ≤ m.epoch ∨ (absRun pre).lvR + 2 ≤ m.epoch →
        ∃ i rnd, Ev.deliver i rnd ∈ post ∧ (pairs P S (pre ++ post))[m.epoch]? = some (newPair P (rnd 0))) := by
  obtain ⟨G, hr, hG⟩ := h.pairs
  obtain ⟨G1, hr1, hG1⟩ := h.pre.pairs
  have hlen : G1.length = (Theft.pairs P S pre).length := by rw [← hG1, List.length_map]
  have grow : ∀ n r, n < G1.length → Holds P (epoch0 P S).root (G1.map (fun g => g.kp)) n r →
      Holds P (epoch0 P S).root (Theft.pairs P S (pre ++ post)) n r := by
    intro n r hn hh
    obtain ⟨h1, sd, k, h2, h3, h4⟩ := hh
    rw [pairs_append]
    rw [hG1] at h1 h3
    exact ⟨by rw [rootOf_append _ _ _ _ _ (by omega)]; exact h1, sd, k, h2,
      by rw [List.getElem?_append_left (by omega)]; exact h3, h4⟩
  have hl1 := hr1.len
  have hadj := hr1.adj
  refine ⟨(epoch0 P S).root, ?_, ?_, ?_, ?_⟩
  · refine forall₂_mem hr.log (fun m x hm hx => ?_)
    rw [← hG]
    exact carries_msg hr (hr.logE m hm).1 hx
  · intro r hs
    obtain ⟨r', hr', hat⟩ := hr1.sessI
    rw [hr'] at hs
    injection hs with hs
    subst hs
    exact grow _ _ (by omega) (holds_of hr1 hat)
  · intro r hs
    by_cases h0 : (absRun pre).lvR = 0
    · rw [(hr1.freshR h0).1] at hs
      cases hs
    · obtain ⟨r', hr', hat⟩ := hr1.sessR h0
      rw [hr'] at hs
      injection hs with hs
      subst hs
      exact grow _ _ (by omega) (holds_of hr1 hat)
  · intro m hm hlv
    obtain ⟨_, _, g, _, hg, _⟩ := forall₂_left hr.log m hm
    have hg' : (Theft.pairs P S (pre ++ post))[m.epoch]? = some g.kp := by
      rw [← hG, List.getElem?_map, hg]; rfl
    rw [pairs_append, List.getElem?_append_right (by omega), List.getElem?_map] at hg'
    cases hd : (turned (absRun pre) post)[m.epoch - (Theft.pairs P S pre).length]? with
    | none => rw [hd] at hg'; cases hg'
    | some d =>
      obtain ⟨i, rnd, h1, h2⟩ := turned_mem _ _ _ (List.mem_of_getElem? hd)
      refine ⟨i, rnd, h1, ?_⟩
      rw [pairs_append, List.getElem?_append_right (by omega), List.getElem?_map, hd, h2]
      rfl

/-- What the session of a party that sends in epoch `n` opens of what is sent later. -/
theorem reads_window {P : Prims} {S : Setup} {G G1 : List Epoch} {a a1 : Abs} {w w1 : World} (hr : Rel P S G a w)
    (hr1 : Rel P S G1 a1 w1) {l : List KeyPair} (hG : G.map (fun g => g.kp) = G1.map (fun g => g.kp) ++ l) {n : Nat}
    (hn : n < G1.length) (hn0 : n ≠ 0) {me them : Bytes} {pend base reg} {r : SRecord}
    (hat : SessAt P G1 a1.log a1.acc n me them pend base reg r) {m : AMsg} {x : Bool × Bytes × MsgType}
    (hx : MsgOk P S G m x) (he : m.epoch = n + 1 ∨ m.epoch = n ∧ count a1.log n ≤ m.ctr) :
    CanRead P r x.2.1 x.2.2 m.pt := by
  obtain ⟨g, hg, hroot, hsd⟩ := hat.party.key
  have hop := opens_msg hx
  have hk1 : (G1.map (fun g => g.kp))[n]? = some g.kp := by rw [List.getElem?_map, hg]; rfl
  have hk : (G.map (fun g => g.kp))[n]? = some g.kp := by
    rw [hG, List.getElem?_append_left (by rw [List.length_map]; exact hn)]; exact hk1
  obtain ⟨g', hg', hgk⟩ : ∃ g', G[n]? = some g' ∧ g'.kp = g.kp := by
    rw [List.getElem?_map] at hk
    cases hq : G[n]? with
    | none => rw [hq] at hk; cases hk
    | some g' => rw [hq] at hk; injection hk with hk; exact ⟨g', rfl, hk⟩
  have hroots : g'.root = g.root := by
    rw [chain_roots hr.chain hr.g0 n g' hg', chain_roots hr1.chain hr1.g0 n g hg, hG,
      rootOf_append _ _ _ _ _ (by rw [List.length_map]; exact hn)]
  rcases he with he | ⟨he, hc⟩
  · refine ⟨_, ?_, hop⟩
    obtain ⟨g2, _, hg2, _⟩ := hx
    rw [he] at hg2
    have hl := hr.chain.link n g' g2 hg' hg2
    have hv := (hr.chain.valid g' (List.mem_of_getElem? hg')).1
    have hv2 := (hr.chain.valid g2 (List.mem_of_getElem? hg2)).1
    have hck : firstKey G m.epoch = turn P r.cur.rootKey g.kp.priv g2.kp.pub := by
      rw [he, firstKey_of hg2, ← congrArg (fun x => x.2.key) hl, hroot, ← hroots, ← hgk]
      simp only [createChain, turn]
      rw [hv.2, hv2.2, P.dh_comm _ _ hv2.1 hv.1]
    rw [hck]
    exact Has.turning r.cur _ g2.kp.pub m.ctr List.mem_cons_self hsd
  · refine ⟨_, ?_, hop⟩
    obtain ⟨e, rfl⟩ : ∃ e, n = e + 1 := ⟨n - 1, by omega⟩
    have hck : firstKey G m.epoch = g.ck.key := by
      rw [he, firstKey_of hg', chain_chains hr.chain hr.g0 e g' hg', chain_chains hr1.chain hr1.g0 e g hg, hG]
      simp only [chainOf]
      rw [List.getElem?_append_left (by rw [List.length_map]; omega),
        List.getElem?_append_left (by rw [List.length_map]; omega),
        rootOf_append _ _ _ _ _ (by rw [List.length_map]; omega)]
    have hs := Has.sending (P := P) r.cur _ (m.ctr - count a1.log (e + 1)) List.mem_cons_self hsd
    simp only [later_ckAt, keyOf_later] at hs
    rw [show count a1.log (e + 1) + (m.ctr - count a1.log (e + 1)) = m.ctr by omega] at hs
    rw [hck]
    exact hs

/-- C174 fails before that: in every schedule, a session stored after `pre` opens all that its owner sends afterwards
until they next change the direction, and all answers to it, that is every message of the next epoch. -/
theorem C174_window (P : Prims) (S : Setup) (pre post : List Ev) (h : Scheduled P S (pre ++ post)) :
    ∀ (i : Nat) m x, (absRun (pre ++ post)).log[i]? = some m →
      (worldRun P S (World.init P S) (pre ++ post)).wire[i]? = some x →
      (∀ r, (worldRun P S (World.init P S) pre).I.sessions (sessName S.nameR S.devR) = .good r →
        (m.epoch = (absRun pre).lvI + 1 ∨
          m.epoch = (absRun pre).lvI ∧ count (absRun pre).log (absRun pre).lvI ≤ m.ctr) →
        CanRead P r x.2.1 x.2.2 m.pt) ∧
      (∀ r, (worldRun P S (World.init P S) pre).R.sessions (sessName S.nameI S.devI) = .good r →
        (m.epoch = (absRun pre).lvR + 1 ∨
          m.epoch = (absRun pre).lvR ∧ count (absRun pre).log (absRun pre).lvR ≤ m.ctr) →
        CanRead P r x.2.1 x.2.2 m.pt) := by
  obtain ⟨G, hr, hG⟩ := h.pairs
  obtain ⟨G1, hr1, hG1⟩ := h.pre.pairs
  rw [pairs_append, ← hG1] at hG
  have hl1 := hr1.len
  have hpar := hr1.parI
  intro i m x hm hx
  obtain ⟨x', hx', hok⟩ := (forall₂_get hr.log i).2 m hm
  rw [hx'] at hx
  injection hx with hx
  subst hx
  refine ⟨?_, ?_⟩
  · intro r hs he
    obtain ⟨r', hr', hat⟩ := hr1.sessI
    rw [hr'] at hs
    injection hs with hs
    subst hs
    exact reads_window hr hr1 hG (by omega) (by omega) hat hok he
  · intro r hs he
    by_cases h0 : (absRun pre).lvR = 0
    · rw [(hr1.freshR h0).1] at hs
      cases hs
    · obtain ⟨r', hr', hat⟩ := hr1.sessR h0
      rw [hr'] at hs
      injection hs with hs
      subst hs
      exact reads_window hr hr1 hG (by omega) h0 hat hok he

/-- The hypotheses are met by the schedule of C02, cut after three messages of the initiator: the session they have
stored then is that of epoch 1. The answer `[4]` is of the next epoch, the message `[5]` of the one after, whose key
the delivery of the answer draws. -/
example : Demo.schedule = Demo.schedule.take 3 ++ Demo.schedule.drop 3 ∧
    Scheduled Demo.P Demo.setup (Demo.schedule.take 3 ++ Demo.schedule.drop 3) ∧
    (absRun (Demo.schedule.take 3)).lvI = 1 ∧
    ((absRun Demo.schedule).log.filter (fun m => m.epoch = 2)).map (fun m => m.pt) = [[4]] ∧
    ((absRun Demo.schedule).log.filter (fun m => m.epoch = 3)).map (fun m => m.pt) = [[5]] ∧
    turned (absRun (Demo.schedule.take 3)) (Demo.schedule.drop 3) = [Demo.rnd 83 0, Demo.rnd 86 0, Demo.rnd 87 0] := by
  refine ⟨rfl, ⟨Demo.setup_ok, ?_, by decide +kernel, by decide, ?_⟩, by decide +kernel, by decide +kernel,
    by decide +kernel, by decide +kernel⟩
  · simp [Demo.schedule, Legal, Ev.Legal, Demo.rnd, Abs.step, Abs.expect, Abs.recvLevel, Abs.accept,
      Abs.sendLevel, count, ret, last5, pos]
  · simp only [Demo.schedule, List.take, List.drop, List.cons_append, List.nil_append, NoForgery]
    simp [Abs.want, Abs.step, Abs.expect, Abs.recvLevel, Abs.accept,
      Abs.sendLevel, count, ret, last5, pos]

end Verif.Props
