import Verif.Proof.Mailbox
import Verif.Props.Clients
/-!
# C144, C145: the mailboxes of the server; lost connections and interruptions
-/
namespace Verif.Props
open Verif Verif.Keys Verif.Session Verif.Api Verif.Conv Verif.Clients

/-- C144. Whatever the applications send and whenever connections are lost and acknowledgements do not arrive: what
the application of either client has been shown of the other's messages is a first part of what the other's
application sent, each message once, in order; and it comprises every message that has left the mailbox. -/
theorem C144_in_order (P : Prims) (S : Setup) (hS : S.Ok P) (hA : Addresses S) (hne : S.nameI ≠ S.nameR) (w : Pair)
    (hw : Peers S w) (es : List MEv) (hl : Real P S {} w (Mail.events {} es))
    (hk : (S.spk.pub :: (newPair P S.rr).pub :: keysOf P (Mail.events {} es)).Nodup)
    (hn : (Mail.events {} es).length < 2 ^ 32 - 1) :
    ∀ who, ∃ k, heardFrom (senderName S who) (Pair.outs P w (Mail.events {} es)) = saidBy who k es ∧
      (∀ i ∈ (Mail.run {} es).gone, (Mail.run {} es).sent[i]? = some who → i < k) ∧
      ((Mail.run {} es).next who = none → heardFrom (senderName S who) (Pair.outs P w (Mail.events {} es)) =
        saidBy who es.length es) := by
  intro who
  have h106 := C106_end_to_end P S hS hA w hw _ hl hk hn
  obtain ⟨W, i1, i2, i3⟩ := mail_run hne es minv_init (real_going P S _ _ _ hl)
  have e1 := heard_eq (senderName S who) h106
  have e2 := i2 who
  have e0 : got {} {} who 0 = [] := rfl
  rw [e0, List.nil_append] at e2
  have e3 : ∀ k, got (Mail.run {} es) (Sight.after {} (Mail.events {} es)) who k = saidBy who k es :=
    fun k => got_eq_saidBy i3 who k
  refine ⟨W who, by rw [e1, ← e2, e3], ?_, ?_⟩
  · intro i hi hs
    exact i1.gone i hi who hs
  · intro hnone
    rw [e1, ← e2, ← e3]
    -- nothing of `who` is left above the mark
    have hz : ∀ n, W who ≤ n → got (Mail.run {} es) (Sight.after {} (Mail.events {} es)) who n =
        got (Mail.run {} es) (Sight.after {} (Mail.events {} es)) who (W who) := by
      intro n hn
      obtain ⟨d, rfl⟩ := Nat.exists_eq_add_of_le hn
      clear hn
      induction d with
      | zero => rfl
      | succ d ih =>
        rw [← ih]
        unfold got
        rw [show W who + (d + 1) = (W who + d) + 1 by omega, List.take_add_one, List.filterMap_append]
        cases hg : ((Mail.run {} es).sent.zip (Sight.after {} (Mail.events {} es)).said)[W who + d]? with
        | none => simp
        | some x =>
          have hx := (List.getElem?_zip_eq_some.mp hg).1
          have : x.1 ≠ who := by
            intro hxw
            rw [hxw] at hx
            have := not_due i1 (next_none hnone _ (lt_of_get hx)) hx
            omega
          simp [this]
    have hle : W who ≤ es.length := by
      have h1 := i1.turn.wm who
      rw [← i1.len] at h1
      have h2 := congrArg List.length i3
      have h3 : (Mail.run {} es).sent.length = (Sight.after {} (Mail.events {} es)).said.length := by
        rw [i1.sent, List.length_map, i1.len]
      simp only [List.length_map, List.length_zip, List.length_append, List.length_nil] at h2
      have h4 := List.length_filterMap_le MEv.said es
      rw [h3, Nat.min_self] at h2
      simp at h2
      omega
    exact (hz _ hle).symm

/-! A case: Alice sends, Bob receives, but the connection is lost before the acknowledgement arrives. Bob answers, Alice
receives the answer, and over Bob's new connection the server sends Alice's message again, which Bob acknowledges. -/
namespace Demo

def post : List MEv :=
  [.send false sendExt hello, .frame false (hearExt 83) 100 (envOf w1 0 "alice") [[42, 43]] none, .broken false,
   .send true sendExt answer, .frame true (hearExt 84) 101 (envOf w3 1 "bob") [] none, .acked 1,
   .frame false (hearExt 85) 102 (envOf w1 0 "alice") [[42, 43]] none, .acked 0]

theorem post_events : Mail.events {} post = talk := rfl

end Demo

open Demo in
example : setup.nameI ≠ setup.nameR ∧ Real P setup {} pair0 (Mail.events {} post) ∧
    (Mail.run {} post).gone = [0, 1] ∧ (Mail.run {} post).next false = none ∧ (Mail.run {} post).next true = none ∧
    heardFrom "alice" (Pair.outs P pair0 (Mail.events {} post)) = [⟨ascii "hello", 1000, 0, [1, 2, 3]⟩] ∧
    heardFrom "bob" (Pair.outs P pair0 (Mail.events {} post)) = [⟨ascii "hi", 1000, 0, [1, 2, 3]⟩] := by
  have h := C144_in_order P setup setup_ok addresses (by decide) pair0 peers0 post
    talk_real talk_keys (by decide)
  refine ⟨by decide, talk_real, by decide, by decide, by decide, ?_, ?_⟩
  · obtain ⟨_, _, _, h3⟩ := h false
    exact (h3 (by decide)).trans (by decide)
  · obtain ⟨_, _, _, h3⟩ := h true
    exact (h3 (by decide)).trans (by decide)

/-! ## C145 -/

/-- C145 refuted, always: if the program is interrupted while it handles a message that it would have shown, after
having stored what decrypting the message changes and before the application's handler is called, then the application
is never shown that message, however often the server delivers it (before or after), under any schedule. -/
theorem C145_lost (P : Prims) (S : Setup) (hS : S.Ok P) (hA : Addresses S) (w : Pair) (hw : Peers S w)
    (evs : List CEv) (hl : Real P S {} w evs)
    (hk : (S.spk.pub :: (newPair P S.rr).pub :: keysOf P evs).Nodup) (hn : evs.length < 2 ^ 32 - 1)
    (k i : Nat) (X : Receive.Ext) (id : Nat) (body : Bytes) (atts : List Bytes) (g : Option Bytes)
    (he : evs[k]? = some (.deliver i X id body atts g)) (o : COut) (ho : (Pair.outs P w evs)[k]? = some o)
    (hsh : o.Shows) (cuts : Nat → Option Nat) (hc : ∃ n, cuts k = some n ∧ n ≤ 1) :
    ∀ (k' : Nat) (X' : Receive.Ext) (id' : Nat) (body' : Bytes) (atts' : List Bytes) (g' : Option Bytes),
      evs[k']? = some (CEv.deliver i X' id' body' atts' g') →
      ∀ o' : COut, (interrupt cuts (Pair.outs P w evs))[k']? = some o' → ¬ o'.Shows := by
  intro k' X' id' body' atts' g' he' o' ho' hs'
  have h106 := C106_end_to_end P S hS hA w hw evs hl hk hn
  unfold interrupt at ho'
  rw [List.getElem?_mapIdx] at ho'
  cases hq : (Pair.outs P w evs)[k']? with
  | none => rw [hq] at ho'; cases ho'
  | some o2 =>
    rw [hq] at ho'
    simp only [Option.map_some, Option.some.injEq] at ho'
    obtain ⟨v, hv, ha⟩ := forall2_get h106 k o ho
    obtain ⟨v2, hv2, ha2⟩ := forall2_get h106 k' o2 hq
    have hvs := (agree_shows ha).mpr hsh
    have hst : Settled (({} : Sight).abs) := by intro e c h; cases h
    -- the output without the interruption shows something too
    have hcut : ∀ n, (o2.cut n).Shows → o2.Shows := by
      rintro n ⟨l, e, m, h1, h2⟩
      cases o2 with
      | told l2 e2 =>
        simp only [COut.cut, COut.told.injEq] at h1
        exact ⟨l2, e2, m, rfl, List.mem_of_mem_take (by rw [h1.1]; exact h2)⟩
      | sent _ => cases h1
      | nothing => cases h1
    have ho2 : o2.Shows := by
      rw [← ho'] at hs'
      cases hck : cuts k' with
      | none => rw [hck] at hs'; exact hs'
      | some n => rw [hck] at hs'; exact hcut n hs'
    have hv2s := (agree_shows ha2).mpr ho2
    rcases Nat.lt_trichotomy k k' with hlt | heq | hgt
    · exact want_once S i evs {} hst k k' X id body atts g X' id' body' atts' g' hlt he he' v v2 hv hv2 hvs hv2s
    · subst heq
      obtain ⟨n, hc1, hc2⟩ := hc
      rw [← ho', hc1] at hs'
      obtain ⟨m0, id0, hvm⟩ := hv2s
      subst hvm
      cases o2 with
      | told l2 e2 =>
        obtain ⟨a1, _⟩ := ha2
        obtain ⟨l, e, m, h1, h2⟩ := hs'
        simp only [COut.cut, Option.map_some, Option.getD_some, COut.told.injEq] at h1
        rw [← h1.1, a1] at h2
        have : n = 0 ∨ n = 1 := by omega
        rcases this with rfl | rfl <;> simp at h2
      | sent _ => exact ha2
      | nothing => exact ha2
    · exact want_once S i evs {} hst k' k X' id' body' atts' g' X id body atts g hgt he' he v2 v hv2 hv hv2s hvs

/-! The same schedule, with Bob's program interrupted during the second event: Alice's message, delivered again in the
fifth, is never shown. -/
open Demo in
example : heardFrom "alice" (interrupt (fun k => if k = 1 then some 1 else none) (Pair.outs P pair0 talk)) = [] ∧
    heardFrom "bob" (interrupt (fun k => if k = 1 then some 1 else none) (Pair.outs P pair0 talk)) =
      [⟨ascii "hi", 1000, 0, [1, 2, 3]⟩] := by decide +kernel

namespace Demo

def cutBob (k : Nat) : Option Nat := if k = 1 then some 1 else none

theorem talk_shows : ∃ o, (Pair.outs P pair0 talk)[1]? = some o ∧ o.Shows := by
  have h : (match (Pair.outs P pair0 talk)[1]? with
    | some (COut.told l _) => decide (Receive.Ev.onMessage (shown "alice" d0 [[42, 43]] none) ∈ l)
    | _ => false) = true := by decide +kernel
  split at h
  · rename_i l e he
    exact ⟨_, he, l, e, _, rfl, of_decide_eq_true h⟩
  · cases h

end Demo

open Demo in
example : ∀ o', (interrupt cutBob (Pair.outs P pair0 talk))[4]? = some o' → ¬ o'.Shows := by
  obtain ⟨o, h1, h2⟩ := talk_shows
  exact C145_lost P setup setup_ok addresses pair0 peers0 talk talk_real talk_keys (by decide)
    1 0 (hearExt 83) 100 (envOf w1 0 "alice") [[42, 43]] none rfl o h1 h2 cutBob ⟨1, rfl, Nat.le_refl _⟩ 4 (hearExt 85) 102
    (envOf w1 0 "alice") [[42, 43]] none rfl

/-- C145, without such interruptions: if the program is only interrupted after the application's handler returned (and
before the frame is acknowledged), or before it has stored anything (then, to the mailbox, the connection was lost),
C144 holds. Missing: interruptions in between, with which it fails. -/
theorem C145_in_order_partial (P : Prims) (S : Setup) (hS : S.Ok P) (hA : Addresses S) (hne : S.nameI ≠ S.nameR) (w : Pair)
    (hw : Peers S w) (es : List MEv) (hl : Real P S {} w (Mail.events {} es))
    (hk : (S.spk.pub :: (newPair P S.rr).pub :: keysOf P (Mail.events {} es)).Nodup)
    (hn : (Mail.events {} es).length < 2 ^ 32 - 1) (cuts : Nat → Option Nat) (hc : ∀ k n, cuts k = some n → 2 ≤ n) :
    ∀ who, ∃ k,
      heardFrom (senderName S who) (interrupt cuts (Pair.outs P w (Mail.events {} es))) = saidBy who k es ∧
      (∀ i ∈ (Mail.run {} es).gone, (Mail.run {} es).sent[i]? = some who → i < k) := by
  intro who
  obtain ⟨k, h1, h2, _⟩ := C144_in_order P S hS hA hne w hw es hl hk hn who
  refine ⟨k, ?_, h2⟩
  rw [← h1]
  have h106 := C106_end_to_end P S hS hA w hw _ hl hk hn
  have key : ∀ {ws : List CWant} {os : List COut} (_ : List.Forall₂ CAgree ws os) (cuts : Nat → Option Nat),
      (∀ k n, cuts k = some n → 2 ≤ n) → heardFrom (senderName S who) (interrupt cuts os) = heardFrom (senderName S who) os := by
    intro ws os h
    induction h with
    | nil => intro _ _; rfl
    | @cons v o ws os ha _ ih =>
      intro cuts hc
      have e1 : interrupt cuts (o :: os) = ((cuts 0).map (fun n => o.cut n)).getD o ::
          interrupt (fun k => cuts (k + 1)) os := by
        simp only [interrupt, List.mapIdx_cons]
      have e2 : ∀ o os, heardFrom (senderName S who) (o :: os) = heardFrom (senderName S who) [o] ++
          heardFrom (senderName S who) os := by intro o os; simp [heardFrom]
      rw [e1, e2, e2 o os, ih _ (fun k n h => hc (k + 1) n h)]
      congr 1
      cases hc0 : cuts 0 with
      | none => rfl
      | some n =>
        have h2 := hc 0 n hc0
        obtain ⟨q, rfl⟩ := Nat.exists_eq_add_of_le h2
        have hval : ∀ l e, heardFrom (senderName S who) [.told l e] = heardFrom (senderName S who) [.told l .crashed] := by
          intro l e; rfl
        cases v <;> cases o <;> simp only [CAgree] at ha
        · rfl
        · rfl
        · rw [ha.1, ha.2]
          show heardFrom _ [.told (List.take (2 + q) _) _] = _
          rw [hval _ .waiting, Nat.add_comm]
          cases q with
          | zero =>
            show heardFrom _ [.told [_, _] _] = _
            simp only [heardFrom, List.flatMap_cons, List.flatMap_nil, List.append_nil, List.filterMap_cons,
              List.filterMap_nil]
          | succ q => rw [List.take_of_length_le (by simp)]
        · rw [ha.1, ha.2]
          show heardFrom _ [.told (List.take (2 + q) _) _] = _
          rw [Nat.add_comm]
          rfl
        · have hnil : ∀ (l : List Receive.Ev) e, (∀ x ∈ l, ∃ id, x = .ack id) →
              heardFrom (senderName S who) [.told l e] = [] := by
            intro l e hl
            simp only [heardFrom, List.flatMap_cons, List.flatMap_nil, List.append_nil]
            rw [List.filterMap_eq_nil_iff]
            intro x hx
            obtain ⟨id, rfl⟩ := hl x hx
            rfl
          rw [hnil _ _ (fun x hx => ⟨_, ha x hx⟩)]
          exact hnil _ _ (fun x hx => ⟨_, ha x (List.mem_of_mem_take hx)⟩)
  exact key h106 cuts hc

open Demo in
/-- Bob's program is interrupted when it has shown Alice's message: Bob is shown it once. -/
example : (∀ k n, (fun k => if k = 1 then some 2 else none) k = some n → 2 ≤ n) ∧
    heardFrom "alice" (interrupt (fun k => if k = 1 then some 2 else none) (Pair.outs P pair0 (Mail.events {} post))) =
      [⟨ascii "hello", 1000, 0, [1, 2, 3]⟩] := by
  refine ⟨?_, by decide +kernel⟩
  intro k n h
  dsimp only at h
  split at h
  · injection h with h; omega
  · cases h

end Verif.Props
