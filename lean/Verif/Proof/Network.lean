import Verif.Spec.Network
import Verif.Proof.Apart
import Verif.Props.Clients
/-!
# Lemmas for conversations among any number of clients (C146)
-/
namespace Verif.Clients
open Verif Verif.Keys Verif.Messages Verif.Session Verif.Api Verif.Conv Verif.Props

/-- A message of a conversation does not concern conversations with others. -/
theorem deliver_elsewhere {P : Prims} {S : Setup} {G : List Epoch} {s : Sight} {w : Pair} {cw : Conv.World}
    {loc : Send.WireAtt → Bytes} (hS : S.Ok P) (h : CRel P S G s w cw)
    (i : Nat) (X : Receive.Ext) (id : Nat) (body : Bytes) (atts : List Bytes) (g : Option Bytes)
    (hl : DeliverOk P S loc s w i X body atts g) (hgo : s.GoesOn i)
    (hnf : (CEv.deliver i X id body atts g).NoForgery P S s w)
    (hfr : ∀ x ∈ G, x.kp.pub ≠ (newPair P (X.rnd 0)).pub)
    (hb : s.abs.log.length + 1 < u32) (who : Bool) (j : Send.JMsg) (hj : w.wire[i]? = some (who, j))
    (n : String) (dev : Nat) (k : Bytes) (pk : Option Nat) (hn : ¬ AddressOf (senderName S who) n)
    (hpk : ∀ i, pk = some i → who = false → S.pkId ≠ i ∨ i = 0xFFFFFF) :
    Elsewhere P n dev k pk X (getC w who).send.store body := by
  obtain ⟨m, hm⟩ : ∃ m, s.abs.log[i]? = some m := by
    cases hm : s.abs.log[i]? with
    | some m => exact ⟨m, rfl⟩
    | none =>
      have := (forall₂_get h.wire i).1 ((forall₂_get h.rel.log i).1 hm)
      rw [this] at hj
      cases hj
  obtain ⟨x, hx, hmx⟩ := (forall₂_get h.rel.log i).2 m hm
  obtain ⟨jj, hj', how⟩ := (forall₂_get h.wire i).2 x hx
  obtain ⟨d, hd, hpt⟩ := (forall₂_get h.said i).2 m hm
  rw [hj] at hj'
  cases hj'
  obtain ⟨who', b, ty⟩ := x
  obtain ⟨how1, how2, how3⟩ := how
  simp only at how1 how2 how3
  subst how1
  have hane : s.abs ≠ {} := by
    intro hx
    rw [hx] at hm
    simp at hm
  have hI : w.I.send.store = cw.I := h.I.resolve_right (fun hx => hane hx.1)
  have hst : (getC w who).send.store = get cw who := by
    cases who
    · exact h.R
    · exact hI
  have hdec : Encoding.b64Quanta j.content = some b := by rw [how3]; exact Encoding.quanta_encode b
  obtain ⟨_, pt, e0, hc1, hc2, he1, he2, he3, he4⟩ := hl.carried who j hj
  have hcar : ∀ e, Carries P X body e → e = e0 := by
    rintro e ⟨pt', h1, h2⟩
    rw [hc1] at h1
    cases h1
    rw [hc2] at h2
    exact (Option.some.inj h2).symm
  have hcont : e0.content = some b := by rw [he4, hdec]
  have htype : e0.type = some (Send.typeNum ty) := by rw [he1, how2]
  have hres : ∀ p, (receive P X.rnd (get cw who) (senderName S who) (senderDev S who) b ty).res = .ok p →
      p = m.pt := by
    intro p hp
    have hcd := conv_deliver P S cw i X.rnd who b ty hx
    have hgs : (if who = true then w.I else w.R) = getC w who := rfl
    have hS1 : StepOk P S G s.abs cw (.deliver i X.rnd) := by
      refine step_deliver hS h.rel i X.rnd hl.rnd.1 hfr hb ?_
      intro hs pt
      rw [hcd]
      intro he
      have := (hnf hs who j b ty hj hdec how2).1 pt
      simp only [hgs, hst] at this
      exact this (by simpa using he)
    have hag := hS1.1
    rw [hcd] at hag
    simp only at hag
    rw [hp] at hag
    cases hexp : s.abs.expect m with
    | accept => simp only [Abs.want, hm, hexp] at hag; exact hag
    | refuse => simp only [Abs.want, hm, hexp] at hag; exact hag.elim
    | stale => simp only [Abs.want, hm, hexp] at hag; exact absurd rfl (hag p)
  have hplain : ∀ uuid p0, Plain P X (getC w who).send.store body uuid p0 → p0 = Files.stripPadding m.pt := by
    rintro uuid p0 ⟨e, he, hcase⟩
    rw [hcar e he] at hcase
    rw [hst] at hcase
    rcases hcase with ⟨h1, _, msg, wm, p, hm1, hm2, hm3, hm4⟩ | ⟨h1, _, m1, p, hm2, hm3, hm4⟩ | ⟨h1, _⟩
    · rw [htype] at h1
      cases ty with
      | prekey => cases h1
      | whisper =>
        rw [hcont] at hm1
        cases hm1
        rw [hm4, hres p ?_]
        rw [hl.env, he2, he3] at hm3
        simp only [receive, hm2]
        exact hm3
    · rw [htype] at h1
      cases ty with
      | whisper => cases h1
      | prekey =>
        rw [hcont] at hm2
        have hm2 : loadPreKeyMsg b = .ok m1 := hm2
        rw [hm4, hres p ?_]
        rw [hl.env, he2, he3] at hm3
        simp only [receive, hm2]
        exact hm3
    · rw [htype] at h1
      cases ty <;> cases h1
  have hdata : ∀ uuid p0 c, Plain P X (getC w who).send.store body uuid p0 → X.parseContent p0 = some c →
      c = { data := some (view loc d.1) } := by
    intro uuid p0 c hp hc
    rw [hplain uuid p0 hp, hpt, C29_padding_round_trip, (hl.parsed d hd).1] at hc
    exact (Option.some.inj hc).symm
  refine ⟨?_, ?_, ?_, ?_⟩
  · intro e he _
    rw [hcar e he, he2]
    exact Or.inr hn
  · intro e pm he ht hpm
    rw [hcar e he] at ht hpm ⊢
    rw [hcont] at hpm
    rw [he2]
    refine ⟨Or.inl (fun hx => hn (Or.inl hx)), ?_⟩
    intro i0 hi0
    obtain ⟨g', wm, _, hw, _, hwo⟩ := hmx
    simp only at hw hwo
    by_cases h1 : m.epoch = 1
    · obtain ⟨_, pm', h2, _, _, h3, _⟩ := hwo.2 h1
      have hpm : loadPreKeyMsg b = .ok pm := hpm
      rw [h2] at hpm
      cases hpm
      rw [h3]
      exact hpk i0 hi0 (by rw [hw, h1]; rfl)
    · obtain ⟨h2, _⟩ := hwo.1 h1
      rw [htype, h2] at ht
      cases ht
  · intro uuid p0 c peer hpl hp hend
    rw [hdata uuid p0 c hpl hp] at hend
    rcases hend with ⟨dm, h1, h2, _⟩ | ⟨h1, _⟩
    · cases h1
      exact absurd h2 (hgo d hd)
    · cases h1
  · intro uuid p0 c f hpl hp hf
    rw [hdata uuid p0 c hpl hp] at hf
    cases hf.1

/-! ## All conversations at once -/

section
variable {K C : Type} [DecidableEq K] [DecidableEq C]

theorem side_name {T : Plan K C} (hT : T.Ok) (c : C) (who : Bool) : senderName (T.S c) who = T.name (T.side c who) := by
  cases who
  · exact hT.nameI c
  · exact hT.nameR c

theorem side_two {T : Plan K C} (hT : T.Ok) (c : C) (who : Bool) : T.side c who ≠ T.side c (!who) := by
  cases who
  · exact hT.two c
  · exact fun h => hT.two c h.symm

theorem not_address {T : Plan K C} (hT : T.Ok) {k k' : K} (h : k ≠ k') : ¬ AddressOf (T.name k) (T.name k') := by
  rintro (h1 | h1)
  · exact h (hT.own _ _ h1)
  · have := (hT.plain k).2
    rw [h1] at this
    exact this (by simp)

theorem act_ok (P : Prims) (S : Setup) (hS : S.Ok P) (w : Pair) (who : Bool) (a : Act)
    (hk : senderDev S (!who) ∈ (w.client who).devs (senderName S (!who)) ∧
      ((w.client who).devs (senderName S (!who))).Nodup)
    (ha : a.Apart P (senderName S (!who)) (senderDev S (!who)) (senderKey S (!who))
      (if who then S.opk.map (fun _ => S.pkId) else none) (w.client who)) :
    OtherOk S w who (a.run P (w.client who)) := by
  obtain ⟨⟨h1, h2, h3⟩, h4⟩ := spares_act _ _ _ _ P (w.client who) a ha
  refine ⟨h1, ?_, ?_⟩
  · simp only [Client.devs, h4]
    exact hk
  · rintro rfl
    refine ⟨fun k hk => h3 S.pkId (by rw [hk]; rfl) ?_, congrFun h2 _⟩
    intro h0
    rw [hS.pkId.2.mp h0] at hk
    cases hk

theorem rel_known {P : Prims} {S : Setup} {G : List Epoch} {s : Sight} {w : Pair} {cw : Conv.World}
    (h : CRel P S G s w cw) (who : Bool) : senderDev S (!who) ∈ (w.client who).devs (senderName S (!who)) ∧
      ((w.client who).devs (senderName S (!who))).Nodup := by
  cases who
  · exact h.devR
  · exact h.devI

theorem pair_client (T : Plan K C) (n : Net K C) (c : C) (who : Bool) :
    (n.pair T c).client who = n.cl (T.side c who) := by cases who <;> rfl

/-- Client `k` has done something that does not concern `c`. -/
theorem other_conv {P : Prims} {T : Plan K C} (hT : T.Ok) {n n' : Net K C} {c : C} {G : List Epoch} {s : Sight}
    {cw : Conv.World} (h : CRel P (T.S c) G s (n.pair T c) cw) (k : K) (x : Client)
    (hcl : n'.cl = (n.put k x).cl) (hwire : n'.wire c = n.wire c)
    (ho : ∀ who, T.side c who = k → OtherOk (T.S c) (n.pair T c) who x) :
    ∃ G' cw', CRel P (T.S c) G' s (n'.pair T c) cw' ∧ G' = G := by
  have key : ∀ who, T.side c who = k → ∃ G' cw', CRel P (T.S c) G' s (n'.pair T c) cw' ∧ G' = G := by
    intro who hk
    obtain ⟨_, G', cw', hrel, hG⟩ := cstep_other h who x (ho who hk)
    have hG : G' = G := hG.elim id (fun ⟨_, _, hg⟩ => by simp [keysOf] at hg)
    have hp : ((n.pair T c).step P (.other who x)).1 = n'.pair T c := by
      have h2 := hT.two c
      simp only [Net.pair, hcl, hwire, Net.put]
      cases who with
      | false =>
        have hk : T.ini c = k := hk
        subst hk
        simp only [Pair.step, if_true, if_neg (Ne.symm h2)]
      | true =>
        have hk : T.res c = k := hk
        subst hk
        simp only [Pair.step, if_true, if_neg h2]
    exact ⟨G', cw', by rw [← hp]; exact hrel, hG⟩
  by_cases h1 : T.ini c = k
  · exact key false h1
  · by_cases h2 : T.res c = k
    · exact key true h2
    · refine ⟨G, cw, ?_, rfl⟩
      have hp : n.pair T c = n'.pair T c := by
        simp only [Net.pair, hcl, hwire, Net.put, if_neg h1, if_neg h2]
      rw [← hp]
      exact h

/-- What an event of a conversation does to the clients. -/
theorem talk_act {P : Prims} {T : Plan K C} (hT : T.Ok) {v : C → Sight} {n : Net K C} {c : C} {G : List Epoch}
    {cw : Conv.World} (hS : (T.S c).Ok P) (h : CRel P (T.S c) G (v c) (n.pair T c) cw) (ev : CEv)
    (hA : Addresses (T.S c)) (hfit : AllFit (v c)) (hr : (NEv.talk c ev : NEv K C).Real P T v n)
    (hfr : ∀ x ∈ G, x.kp.pub ∉ keysOf P [ev]) (hb : (v c).abs.log.length + 1 < u32) :
    (n.step P T (.talk c ev)).1.cl = n.cl ∨
    ∃ (who : Bool) (a : Act), (n.step P T (.talk c ev)).1.cl = (n.put (T.side c who) (a.run P (n.cl (T.side c who)))).cl ∧
      ∀ nm dev k pk, ¬ AddressOf (senderName (T.S c) (!who)) nm → ¬ AddressOf (T.name (T.side c who)) nm →
        (∀ i, pk = some i → who = true → (T.S c).pkId ≠ i ∨ i = 0xFFFFFF) →
        a.Apart P nm dev k pk (n.cl (T.side c who)) := by
  have h2 := hT.two c
  obtain ⟨hr1, hr2, hr3⟩ := hr
  cases ev with
  | other who x => exact hr3.elim
  | send who X m =>
    right
    refine ⟨who, .send X 2 m, ?_, ?_⟩
    · funext k
      cases who <;> simp only [Net.step, Net.put, Net.pair, Pair.step, Act.run, Plan.side, if_true, Bool.false_eq_true, if_false]
      · by_cases e1 : k = T.res c
        · subst e1; simp [Ne.symm h2]
        · simp [e1]
      · by_cases e1 : k = T.res c
        · simp [e1]
        · by_cases e2 : k = T.ini c
          · subst e2; simp [h2]
          · simp [e1, e2]
    · intro nm dev k pk h3 h4 _
      have hr1 : SendReal P (T.S c) (v c) (n.pair T c) who X m := hr1
      have hr3 : X.self = T.name (T.side c who) := hr3
      exact ⟨by rw [hr1.dest]; exact h3, by rw [hr3]; exact h4⟩
  | deliver i X id body atts g =>
    cases hw : (n.wire c)[i]? with
    | none =>
      left
      funext k
      have hp : (n.pair T c).step P (.deliver i X id body atts g) = (n.pair T c, .nothing) := by
        simp only [Pair.step, Net.pair, hw]
      simp only [Net.step, hp, Net.put]
      by_cases e1 : k = T.res c
      · subst e1; rw [if_pos rfl]; rfl
      · by_cases e2 : k = T.ini c
        · subst e2; rw [if_neg e1, if_pos rfl]; rfl
        · rw [if_neg e1, if_neg e2]
    | some j =>
      obtain ⟨who, j⟩ := j
      right
      refine ⟨!who, .hear X id body, ?_, ?_⟩
      · have hp : ((n.pair T c).step P (.deliver i X id body atts g)).1 =
            if who then { n.pair T c with I := (hear P (n.cl (T.ini c)) X id body).1 }
            else { n.pair T c with R := (hear P (n.cl (T.res c)) X id body).1 } := by
          cases who <;> simp [Pair.step, Net.pair, hw]
        funext k
        simp only [Net.step, hp, Net.put, Act.run]
        cases who <;> simp only [Net.pair, Plan.side, if_true, Bool.false_eq_true, if_false, Bool.not_true, Bool.not_false]
        · by_cases e1 : k = T.res c
          · simp [e1]
          · by_cases e2 : k = T.ini c
            · subst e2; simp [h2]
            · simp [e1, e2]
        · by_cases e1 : k = T.res c
          · subst e1; simp [Ne.symm h2]
          · simp [e1]
      · intro nm dev k pk h3 h4 h5
        obtain ⟨hd, hgo⟩ := hr1
        have hc : (getC (n.pair T c) who) = n.cl (T.side c (!who)) := by cases who <;> rfl
        show Elsewhere P nm dev k pk X (n.cl (T.side c (!who))).send.store body
        rw [← hc]
        refine deliver_elsewhere hS h i X id body atts g (deliver_real_ok hA hfit hd) hgo hr2 ?_ hb who j hw nm dev k pk
          (by simpa using h3) ?_
        · intro x hx he
          exact hfr x hx (by rw [he]; simp [keysOf])
        · intro i0 hi0 hwho
          exact h5 i0 hi0 (by rw [hwho]; rfl)

/-- Every conversation is as it should be. -/
def NInv (P : Prims) (T : Plan K C) (v : C → Sight) (n : Net K C) (evs : List (NEv K C)) : Prop :=
  ∀ c, AllFit (v c) ∧ (v c).abs.log.length + (NEv.of c evs).length + 1 < u32 ∧
    ∃ G cw, CRel P (T.S c) G (v c) (n.pair T c) cw ∧ (G.map (fun g => g.kp.pub) ++ keysOf P (NEv.of c evs)).Nodup

theorem of_talk (c c' : C) (ev : CEv) (evs : List (NEv K C)) :
    NEv.of c' (.talk c ev :: evs) = if c = c' then ev :: NEv.of c' evs else NEv.of c' evs := by
  by_cases h : c = c' <;> simp [NEv.of, h]

theorem of_does (k : K) (a : Act) (c' : C) (evs : List (NEv K C)) : NEv.of c' (.does k a :: evs) = NEv.of c' evs := by
  simp [NEv.of]

theorem net_step {P : Prims} {T : Plan K C} (hT : T.Ok) (hS : ∀ c, (T.S c).Ok P) (hA : ∀ c, Addresses (T.S c))
    (hne : ∀ c, (T.S c).spk.pub ≠ (newPair P (T.S c).rr).pub)
    (v : C → Sight) (n : Net K C) (ev : NEv K C) (evs : List (NEv K C)) (h : NInv P T v n (ev :: evs))
    (hr : ev.Real P T v n) :
    CAgree (ev.want T v) (n.step P T ev).2 ∧ NInv P T (ev.sight v) (n.step P T ev).1 evs := by
  have hN : ∀ c, Named (T.S c) := fun c =>
    ⟨recID_self (by rw [hT.nameI]; exact (hT.plain _).1) (by rw [hT.nameI]; exact (hT.plain _).2),
     recID_self (by rw [hT.nameR]; exact (hT.plain _).1) (by rw [hT.nameR]; exact (hT.plain _).2)⟩
  cases ev with
  | does k a =>
    refine ⟨trivial, ?_⟩
    intro c
    obtain ⟨h1, h2, G, cw, h3, h4⟩ := h c
    rw [of_does] at h2 h4
    obtain ⟨G', cw', h5, h6⟩ := other_conv (n' := (n.step P T (.does k a)).1) hT h3 k (a.run P (n.cl k)) rfl rfl (by
      intro who hk
      have := act_ok P (T.S c) (hS c) (n.pair T c) who a (rel_known h3 who)
        (by rw [pair_client, hk]; exact hr c who hk)
      rwa [pair_client, hk] at this)
    subst h6
    exact ⟨h1, h2, G', cw', h5, h4⟩
  | talk c ev =>
    obtain ⟨hf, hb, G, cw, hrel, hnd⟩ := h c
    rw [of_talk, if_pos rfl] at hb hnd
    have hsplit : keysOf P (ev :: NEv.of c evs) = keysOf P [ev] ++ keysOf P (NEv.of c evs) := by simp [keysOf]
    rw [hsplit] at hnd
    simp only [List.length_cons] at hb
    have hone : Real P (T.S c) (v c) (n.pair T c) [ev] := ⟨hr.1, hr.2.1, trivial⟩
    obtain ⟨hok, hfit'⟩ := real_ok P (T.S c) (hA c) [ev] (v c) (n.pair T c) hf hone
    obtain ⟨hag, G', cw', hrel', hnd', hlen'⟩ := csimulate (hS c) (hN c) (hne c) (keysOf P (NEv.of c evs)) [ev] G (v c)
      (n.pair T c) cw hrel hok (by rw [List.append_assoc]; exact hnd)
      (by simp only [List.length_cons, List.length_nil]; omega)
    have hpair : (n.step P T (.talk c ev)).1.pair T c = ((n.pair T c).step P ev).1 := by
      have h2 := hT.two c
      have hnum : ((n.pair T c).step P ev).1.devI = (T.S c).devI ∧ ((n.pair T c).step P ev).1.devR = (T.S c).devR :=
        ⟨hrel'.numI, hrel'.numR⟩
      show Pair.mk _ _ _ _ _ = _
      simp only [Net.step, Net.put, if_neg h2, if_true]
      rw [← hnum.1, ← hnum.2]
    refine ⟨?_, ?_⟩
    · cases hag with
      | cons hx _ => exact hx
    · intro c'
      by_cases hcc : c' = c
      · subst hcc
        have hs : (NEv.talk c' ev : NEv K C).sight v c' = (v c').step ev := by simp [NEv.sight]
        rw [hs, hpair]
        refine ⟨hfit', ?_, G', cw', hrel', hnd'⟩
        simp only [List.length_cons, List.length_nil] at hlen'
        have : ((v c').step ev).abs.log.length ≤ (v c').abs.log.length + (0 + 1) := hlen'
        omega
      · obtain ⟨h1, h2, G0, cw0, h3, h4⟩ := h c'
        rw [of_talk, if_neg (fun h => hcc h.symm)] at h2 h4
        have hs : (NEv.talk c ev : NEv K C).sight v c' = v c' := by simp [NEv.sight, hcc]
        rw [hs]
        have hwire : (n.step P T (.talk c ev)).1.wire c' = n.wire c' := by simp [Net.step, hcc]
        rcases talk_act hT (hS c) hrel ev (hA c) hf hr (by
            intro x hx hm
            rw [List.nodup_append] at hnd
            exact hnd.2.2 x.kp.pub (List.mem_map.mpr ⟨x, hx, rfl⟩) _ (List.mem_append_left _ hm) rfl) (by omega) with hcl | ⟨who, a, hcl, hap⟩
        · have hp : (n.step P T (.talk c ev)).1.pair T c' = n.pair T c' := by
            simp only [Net.pair, hcl, hwire]
          rw [hp]
          exact ⟨h1, h2, G0, cw0, h3, h4⟩
        · obtain ⟨G1, cw1, h5, h6⟩ := other_conv hT h3 _ _ hcl hwire (by
            intro who' hk
            have := act_ok P (T.S c') (hS c') (n.pair T c') who' a (rel_known h3 who')
              (by
                rw [pair_client, hk]
                have hne1 : T.side c (!who) ≠ T.side c' (!who') :=
                  fun he => hcc (hT.once c' c who' who hk he.symm)
                refine hap _ _ _ _ ?_ ?_ ?_
                · rw [side_name hT, side_name hT]; exact not_address hT hne1
                · rw [side_name hT, ← hk]; exact not_address hT (side_two hT c' who')
                · rintro i0 hi0 rfl
                  cases who' with
                  | false => simp at hi0
                  | true =>
                    simp only [if_true, Option.map_eq_some_iff] at hi0
                    obtain ⟨ok, hok1, rfl⟩ := hi0
                    exact hT.keys c' c hcc hk (by rw [hok1]; simp))
            rwa [pair_client, hk] at this)
          subst h6
          exact ⟨h1, h2, G1, cw1, h5, h4⟩

theorem net_run {P : Prims} {T : Plan K C} (hT : T.Ok) (hS : ∀ c, (T.S c).Ok P) (hA : ∀ c, Addresses (T.S c))
    (hne : ∀ c, (T.S c).spk.pub ≠ (newPair P (T.S c).rr).pub) (evs : List (NEv K C)) : ∀ (v : C → Sight) (n : Net K C),
    NInv P T v n evs → NEv.AllReal P T v n evs →
    List.Forall₂ CAgree (NEv.wants T v evs) (Net.outs P T n evs) := by
  induction evs with
  | nil => intro _ _ _ _; exact List.Forall₂.nil
  | cons ev evs ih =>
    intro v n h hr
    obtain ⟨h1, h2⟩ := net_step hT hS hA hne v n ev evs h hr.1
    exact List.Forall₂.cons h1 (ih _ _ h2 hr.2)

end
end Verif.Clients
