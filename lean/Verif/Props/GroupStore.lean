import Verif.Proof.GroupStore
import Verif.Props.Encoding
/-!
# New groups: what the client keeps, shows and sends (C94 to C101)
-/
namespace Verif.Props.GroupStore
open Verif Verif.Encoding Verif.GroupStore

/-! ## A toy zkgroup, for examples: the key is added to each byte, a title ends with the key. -/
namespace Demo

def toyZ : Zk where
  secret := fun mk => decide (mk.length = 2)
  uuid := fun mk c => if c.length = 17 ∧ c.head? = mk.head? then some (c.drop 1) else none
  blob := fun mk c => if c.head? = mk.head? then some (c.drop 1) else none
  profileKey := fun _ c _ => some c
  presentation := fun p => if p = [] then none else some (p, [])
  clean := fun t => t.filter (fun c => 32 ≤ c)
  verify := fun a s => decide (s = a ++ [7])
  uuid_len := by
    intro mk c u h
    split at h
    · rename_i hc
      rw [← Option.some.inj h, List.length_drop, hc.1]
    · cases h

def mk : Bytes := [1, 2]
def id1 : Bytes := List.replicate 16 17
def id2 : Bytes := List.replicate 16 34
def id3 : Bytes := List.replicate 16 51
def me : Bytes := hexToUUID (hexEncode id1)
def server (rev : Nat) : EncGroup :=
  { title := [1, 72, 105], revision := rev, members := [{ userId := 1 :: id1 }, { userId := 1 :: id2, role := 1 }] }
def env : Env := { me := me, query := fun _ => .ok (server 5) }
def offline : Env := { me := me, query := fun _ => .err .other }
/-- The actions a change is read as: the revision is the first byte, who leaves follows. -/
def parse (b : Bytes) : Actions := { revision := (b.headD 0).toNat, delete := [b.drop 1] }

end Demo
open Demo

/-! ## C94: a message to a group does not crash the program -/

/-- The title the server gives for the group cannot be decrypted with the group's key. -/
def Unreadable (Z : Zk) (mk : Bytes) (e : EncGroup) : Prop := Z.secret mk = false ∨ Z.blob mk e.title = none

/-- Files hold what their name says. -/
def Named (w : World) : Prop := ∀ mk g, w.files (hexid mk) = some g → g.masterKey = mk

/-- Part of **C94**: exactly when a message to a group crashes the program. It carries no change, and the
group has no decrypted form: none on file and none from the server. Missing: the claim itself, see below. -/
theorem C94_crash_iff_partial (Z : Zk) (parse : Bytes → Actions) (E : Env) (src : Bytes) (c : Ctx) (w : World)
    (hw : Named w) :
    (handle Z parse E src c w).2 = .panic ↔
      c.change = none ∧
      ((w.files (hexid c.masterKey) = none ∧ ∀ e, E.query 0 = .ok e → Unreadable Z c.masterKey e) ∨
       ∃ f, w.files (hexid c.masterKey) = some f ∧
         ((f.context.title ≠ [] ∧ f.decrypted = none) ∨
          (f.context.title = [] ∧ f.decrypted = none ∧ ∀ e, E.query 0 = .ok e → Unreadable Z c.masterKey e) ∨
          (f.context.title = [] ∧ ∃ e, E.query 0 = .ok e ∧ Unreadable Z c.masterKey e))) := by
  obtain ⟨g, hg, hmk, -, hd⟩ := handleStart_mem Z E c w (hw c.masterKey)
  rw [handle_eq Z parse E src c w g hg]
  have hpanic : (rest Z parse E c (handleStart Z E c w) g).2 = .panic ↔ c.change = none ∧ g.decrypted = none := by
    unfold rest
    cases hc : c.change with
    | some p =>
      obtain ⟨a, s⟩ := p
      simp only [reduceCtorEq, false_and, iff_false]
      split <;> simp
    | none =>
      cases hgd : g.decrypted with
      | none => simp
      | some d =>
        simp only [reduceCtorEq, and_false, iff_false]
        split <;> simp
  rw [hpanic]
  refine and_congr_right (fun _ => ?_)
  rw [hd]
  cases hf : w.files (hexid c.masterKey) with
  | none =>
    cases hq : E.query 0 with
    | ok e => simp [decryptGroup_none, Unreadable]
    | err x => simp
    | panic => simp
  | some f =>
    by_cases ht : f.context.title = []
    · cases hq : E.query 0 with
      | ok e =>
        simp only [ht, if_true, decryptGroup_none, Unreadable]
        constructor
        · intro h; exact .inr ⟨f, rfl, .inr (.inr ⟨ht, e, rfl, h⟩)⟩
        · rintro (⟨h, -⟩ | ⟨f', hf', h⟩)
          · cases h
          · cases hf'
            rcases h with ⟨h, -⟩ | ⟨-, -, h⟩ | ⟨-, e', he, h⟩
            · exact absurd ht h
            · exact h e rfl
            · cases he; exact h
      | err x =>
        simp only [ht, if_true]
        constructor
        · intro h; exact .inr ⟨f, rfl, .inr (.inl ⟨ht, h, fun e he => nomatch he⟩)⟩
        · rintro (⟨h, -⟩ | ⟨f', hf', h⟩)
          · cases h
          · cases hf'
            rcases h with ⟨h, -⟩ | ⟨-, h, -⟩ | ⟨-, e', he, h⟩
            · exact absurd ht h
            · exact h
            · cases he
      | panic =>
        simp only [ht, if_true]
        constructor
        · intro h; exact .inr ⟨f, rfl, .inr (.inl ⟨ht, h, fun e he => nomatch he⟩)⟩
        · rintro (⟨h, -⟩ | ⟨f', hf', h⟩)
          · cases h
          · cases hf'
            rcases h with ⟨h, -⟩ | ⟨-, h, -⟩ | ⟨-, e', he, h⟩
            · exact absurd ht h
            · exact h
            · cases he
    · simp only [ht, if_false]
      constructor
      · intro h; exact .inr ⟨f, rfl, .inl ⟨ht, h⟩⟩
      · rintro (⟨h, -⟩ | ⟨f', hf', h⟩)
        · cases h
        · cases hf'
          rcases h with ⟨-, h⟩ | ⟨h, -⟩ | ⟨h, -⟩
          · exact h
          · exact absurd h ht
          · exact absurd h ht

/-- Against **C94**: anyone can crash the program with a message naming a group it does not know, when the
server does not hand that group out; and again at each start, as often as the message is delivered. -/
theorem C94_unknown_group_crashes (Z : Zk) (parse : Bytes → Actions) (c : Ctx) (hc : c.change = none)
    (w : World) (hw : w.files (hexid c.masterKey) = none) (runs : List (Env × Bytes))
    (hr : ∀ r ∈ runs, ∀ e, r.1.query 0 ≠ .ok e) :
    let deliver := fun (s : World × List (Res G)) (r : Env × Bytes) =>
      let o := handle Z parse r.1 r.2 c (restart s.1)
      (o.1, s.2 ++ [o.2])
    (runs.foldl deliver (w, [])).2 = runs.map (fun _ => .panic) := by
  intro deliver
  -- what the file may be
  have key : ∀ (l : List (Env × Bytes)), (∀ r ∈ l, ∀ e, r.1.query 0 ≠ .ok e) → ∀ (w : World) (out : List (Res G)),
      (∀ g, w.files (hexid c.masterKey) = some g → g.masterKey = c.masterKey ∧ g.decrypted = none ∧ g.context.title = []) →
      (l.foldl deliver (w, out)).2 = out ++ l.map (fun _ => .panic) := by
    intro l
    induction l with
    | nil => intro _ w out _; simp
    | cons r l ih =>
      intro hl w out hf
      have hq := hl r List.mem_cons_self
      obtain ⟨g, hg, hmk, -, hd⟩ := handleStart_mem Z r.1 c (restart w) (fun g hg => (hf g hg).1)
      have hgd : g.decrypted = none := by
        rw [hd]
        cases hq0 : r.1.query 0 with
        | ok e => exact absurd hq0 (hq e)
        | err x =>
          cases hf0 : (restart w).files (hexid c.masterKey) with
          | none => rfl
          | some f => simp [(hf f hf0).2.1]
        | panic =>
          cases hf0 : (restart w).files (hexid c.masterKey) with
          | none => rfl
          | some f => simp [(hf f hf0).2.1]
      have hstep : handle Z parse r.1 r.2 c (restart w) = (handleStart Z r.1 c (restart w), .panic) := by
        rw [handle_eq Z parse r.1 r.2 c (restart w) g hg]
        simp [rest, hc, hgd]
      have hfiles : ∀ g, (handleStart Z r.1 c (restart w)).files (hexid c.masterKey) = some g →
          g.masterKey = c.masterKey ∧ g.decrypted = none ∧ g.context.title = [] := by
        intro g' hg'
        unfold handleStart load at hg'
        cases hf0 : (restart w).files (hexid c.masterKey) with
        | some f =>
          simp only [hf0] at hg'
          split at hg'
          · rw [(update_fail Z r.1 0 _ _ hq).1] at hg'
            exact hf g' hg'
          · exact hf g' hg'
        | none =>
          simp only [hf0] at hg'
          rw [(update_fail Z r.1 0 _ _ hq).1] at hg'
          unfold save at hg'
          split at hg'
          · simp only [if_true, set_mem] at hg'
            rw [← Option.some.inj hg']
            exact ⟨rfl, rfl, rfl⟩
          · rw [set_files, hf0] at hg'; cases hg'
      rw [List.foldl_cons]
      have : deliver (w, out) r = (handleStart Z r.1 c (restart w), out ++ [.panic]) := by
        simp only [deliver]; rw [hstep]
      rw [this, ih (fun x hx => hl x (List.mem_cons_of_mem _ hx)) _ _ hfiles]
      simp
  have := key runs hr w [] (by intro g hg; rw [hw] at hg; cases hg)
  simpa using this

/-- The crash leaves a file that makes a later message without a change crash too. -/
example : ((handle toyZ parse offline id3 { masterKey := mk } {}).2 = .panic) ∧
    ((handle toyZ parse offline id3 { masterKey := mk } {}).1.files (hexid mk)).isSome = true := by
  decide +kernel

/-- A group the server hands out is found, decrypted and shown. -/
example : (handle toyZ parse env id2 { masterKey := mk, revision := 5 } {}).2 =
    .ok { masterKey := mk, context := server 5, revision := 5,
          decrypted := some ⟨[72, 105], 5, [], [⟨id1, 0, [], 0⟩, ⟨id2, 1, [], 0⟩]⟩ } := by
  decide +kernel

/-! ## C95: the group shown is the group the server has -/

/-- Part of **C95**: after an update that succeeds the group in memory, and the one on file if it can be
written, has the title, revision, avatar and members the server gives, and no other group is touched. -/
theorem C95_update_mirrors_partial (Z : Zk) (E : Env) (n : Nat) (mk : Bytes) (w : World)
    (hw : ∀ g, get w.mem (hexid mk) = some g → g.masterKey = mk)
    (h : (update Z E n mk w).2 = .ok ()) :
    ∃ e t g d, E.query n = .ok e ∧ Z.blob mk e.title = some t ∧
      get (update Z E n mk w).1.mem (hexid mk) = some g ∧ g.masterKey = mk ∧ g.context = e ∧ g.decrypted = some d ∧
      d.title = Z.clean t ∧ d.revision = e.revision ∧ d.avatar = e.avatar ∧
      ((∀ m ∈ e.members, m.presentation = []) →
        d.members.map (fun x => (x.uuid, x.role, x.joinedAt)) =
          e.members.filterMap (fun m => (Z.uuid mk m.userId).map (fun u => (u, m.role, m.joinedAt)))) ∧
      (g.status = statusMember ↔ ∃ m ∈ d.members, hexToUUID (hexEncode m.uuid) = E.me) ∧
      (E.writeOk = true → mk ≠ [] → (update Z E n mk w).1.files (hexid mk) = some g) ∧
      (∀ x, x ≠ hexid mk → get (update Z E n mk w).1.mem x = get w.mem x ∧
        (update Z E n mk w).1.files x = w.files x) := by
  have hb : (base w mk).masterKey = mk := by
    unfold base
    cases hg : get w.mem (hexid mk) with
    | none => rfl
    | some g => exact hw g hg
  cases hq : E.query n with
  | err x => exact absurd h (update_fail Z E n mk w (by simp [hq])).2
  | panic => exact absurd h (update_fail Z E n mk w (by simp [hq])).2
  | ok e =>
    cases hd : decryptGroup Z (base w mk).masterKey e with
    | none => rw [update_bad Z E n mk w e hq hd] at h; cases h
    | some d =>
      have hother := update_other Z E n mk w
      rw [update_good Z E n mk w e d hq hd] at hother ⊢
      have hsec : Z.secret mk = true := by
        cases hs : Z.secret mk with
        | true => rfl
        | false => rw [hb] at hd; simp [decryptGroup, hs] at hd
      rw [hb] at hd
      simp only [decryptGroup, hsec, Bool.true_eq_false, if_false] at hd
      obtain ⟨t, ht, hdd⟩ := Option.map_eq_some_iff.mp hd
      refine ⟨e, t, _, d, rfl, ht, by rw [save_mem, set_mem], ?_, ?_, ?_, ?_, ?_, ?_, ?_, ?_, ?_, ?_⟩
      · rw [(checkJoin_decrypted ..).2.1]; exact hb
      · rw [(checkJoin_decrypted ..).2.2.1]
      · rw [(checkJoin_decrypted ..).1]
      · rw [← hdd]
      · rw [← hdd]
      · rw [← hdd]
      · intro hp
        rw [← hdd]
        exact decryptMembers_plain Z mk hsec _ hp
      · exact checkJoin_status Z E.me _ d rfl
      · intro hwr hmk
        rw [hwr, save_files_same _ _ ?_, set_mem]
        intro hk
        have : (hexEncode mk).length = 0 := by show (hexid mk).length = 0; rw [hk]; rfl
        rw [hexEncode_length] at this
        exact hmk (List.length_eq_zero_iff.mp (by omega))
      · exact hother

/-- Part of **C95**: an update without an answer changes nothing. -/
theorem C95_no_answer (Z : Zk) (E : Env) (n : Nat) (mk : Bytes) (w : World) (h : ∀ e, E.query n ≠ .ok e) :
    (update Z E n mk w).1 = w ∧ (update Z E n mk w).2 ≠ .ok () := update_fail Z E n mk w h

/-- Against **C95**: an answer that cannot be decrypted is reported as an error, yet the group in memory has
lost its title and members by then; asking for the members ends the program, until the next start. -/
theorem C95_bad_answer_wipes (Z : Zk) (E : Env) (mk : Bytes) (w : World) (g : G) (e : EncGroup)
    (hg : get w.mem (hexid mk) = some g) (hmk : g.masterKey = mk) (hq : E.query 0 = .ok e)
    (hu : Unreadable Z mk e) :
    (update Z E 0 mk w).2 = .err .other ∧
    (∃ g', get (update Z E 0 mk w).1.mem (hexid mk) = some g' ∧ g'.decrypted = none) ∧
    (update Z E 0 mk w).1.files = w.files ∧
    (members Z E (hexid mk) w).2 = .panic := by
  have hb : base w mk = g := by simp [base, hg]
  have hd : decryptGroup Z (base w mk).masterKey e = none := by
    rw [hb, hmk, decryptGroup_none]; exact hu
  have hup := update_bad Z E 0 mk w e hq hd
  rw [if_pos (by rw [hg]; rfl)] at hup
  have hne : ¬ w.mem.length = 0 := by
    intro h0
    rw [List.length_eq_zero_iff.mp h0] at hg
    cases hg
  refine ⟨by rw [hup], ⟨_, by rw [hup, set_mem], by rw [(checkJoin_decrypted ..).1]⟩, by rw [hup]; rfl, ?_⟩
  unfold members find
  rw [if_neg hne, hg]
  simp only [hmk, hup, set_mem, Option.getD_some, (checkJoin_decrypted ..).1]

/-- A good update followed by one whose title is under another key. -/
example :
    let w := (update toyZ env 0 mk {}).1
    let bad : Env := { env with query := fun _ => .ok { server 6 with title := [9] } }
    (get w.mem (hexid mk)).isSome = true ∧ (update toyZ env 0 mk {}).2 = .ok () ∧
    (members toyZ env (hexid mk) w).2 = .ok [⟨id1, 0, [], 0⟩, ⟨id2, 1, [], 0⟩] ∧
    (members toyZ bad (hexid mk) w).2 = .panic := by
  decide +kernel

/-! ## C96: groups survive a restart -/

/-- Part of **C96**: the first group looked for after a start is the one on file. -/
theorem C96_first_lookup_partial (w : World) (k : Bytes) : (find k (restart w)).2 = w.files k := by
  simp only [find, restart, List.length_nil, if_true, load]
  cases w.files k <;> rfl

/-- Part of **C96**: a group a message was received for is found from then on. -/
theorem C96_after_message (Z : Zk) (parse : Bytes → Actions) (E : Env) (src : Bytes) (c : Ctx) (w : World)
    (g : G) (hw : Named w) (h : (handle Z parse E src c w).2 = .ok g) :
    (find (hexid c.masterKey) (handle Z parse E src c w).1).2 = some g := by
  obtain ⟨g0, hg0, hmk, -⟩ := handleStart_mem Z E c w (hw c.masterKey)
  rw [handle_eq Z parse E src c w g0 hg0] at h ⊢
  have hfind : ∀ w' : World, get w'.mem (hexid c.masterKey) = some g → (find (hexid c.masterKey) w').2 = some g := by
    intro w' h'
    have hne : ¬ w'.mem.length = 0 := by
      intro h0
      rw [List.length_eq_zero_iff.mp h0] at h'
      cases h'
    unfold find
    rw [if_neg hne]
    exact h'
  apply hfind
  unfold rest at h ⊢
  cases hc : c.change with
  | some p =>
    obtain ⟨a, s⟩ := p
    simp only [hc] at h ⊢
    split at h
    · cases h
    · rename_i hs
      rw [if_neg hs]
      rw [set_mem]
      exact congrArg some (Res.ok.inj h)
  | none =>
    simp only [hc] at h ⊢
    cases hd : g0.decrypted with
    | none => rw [hd] at h; cases h
    | some d =>
      simp only [hd] at h ⊢
      split at h
      · rename_i hr
        rw [if_pos hr]
        obtain ⟨g', h1, -⟩ := update_keeps Z E 1 g0.masterKey _ _ _ hg0
        rw [h1] at h ⊢
        exact congrArg some (Res.ok.inj h)
      · rename_i hr
        rw [if_neg hr]
        rw [hg0]
        exact congrArg some (Res.ok.inj h)

/-- Against **C96**: once any group is in memory, a group that is only on file is not found any more:
sending to it, listing its members and joining it fail with an error, and nothing is sent. -/
theorem C96_second_lookup_fails (Z : Zk) (E : Env) (net : Nat → Res Nat) (now timer : Nat) (msg : Bytes)
    (w : World) (k k' : Bytes) (hk : k ≠ k') (h' : (w.files k').isSome) :
    let w1 := (find k' (restart w)).1
    (find k w1).2 = none ∧
    (send Z E net now k msg timer w1).2 = ([], .err .other) ∧
    (members Z E k w1).2 = .err .other ∧ (join Z E k w1).2 = .err .other := by
  obtain ⟨g', hg'⟩ := Option.isSome_iff_exists.mp h'
  have hw1 : (find k' (restart w)).1 = (restart w).set k' g' := by
    have : (restart w).files k' = some g' := hg'
    simp only [find, load, this]
    rfl
  have hf : find k ((restart w).set k' g') = ((restart w).set k' g', none) := by
    unfold find
    rw [if_neg (by simp [World.set, put])]
    rw [set_mem_other _ _ _ _ hk]
    rfl
  intro w1
  show (find k w1).2 = none ∧ _
  simp only [w1, hw1, send, members, join, hf]
  exact ⟨trivial, trivial, trivial, trivial⟩

/-- Two groups on file; whichever is looked for first is the only one found. -/
example :
    let w1 := (update toyZ env 0 mk {}).1
    let e2 : Env := { env with query := fun _ => .ok { title := [3, 66], revision := 1 } }
    let w2 := (update toyZ e2 0 [3, 4] w1).1
    let w3 := (find (hexid mk) (restart w2)).1
    (w2.files (hexid mk)).isSome = true ∧ (w2.files (hexid [3, 4])).isSome = true ∧
    (find (hexid mk) (restart w2)).2.isSome = true ∧ (find (hexid [3, 4]) (restart w2)).2.isSome = true ∧
    (find (hexid [3, 4]) w3).2 = none := by
  decide +kernel

/-! ## C97: who a message to a group is sent to -/

/-- Part of **C97**: a message to a group with a decrypted form goes to its members in order, one message
each, all with the same text, timer, time, group and revision; when a delivery fails, the members before it
have got the message and the others do not; only a member sends. Missing: that the message goes to the others
only, see below. -/
theorem C97_send_partial (Z : Zk) (E : Env) (net : Nat → Res Nat) (now timer : Nat) (k msg : Bytes) (w : World)
    (g : G) (d : DGroup) (hg : (find k w).2 = some g) (hd : g.decrypted = some d)
    (hlen : ∀ m ∈ d.members, m.uuid.length = 16) (hnet : ∀ i, net i ≠ .panic) :
    let sent := (send Z E net now k msg timer w).2.1
    (∃ j, sent = (d.members.take j).map (fun m =>
        ⟨hexToUUID (hexEncode m.uuid), msg, timer, now, g.masterKey, d.revision⟩)) ∧
    ((∃ t, (send Z E net now k msg timer w).2.2 = .ok t) ↔
      (∃ m ∈ d.members, hexToUUID (hexEncode m.uuid) = E.me) ∧ ∀ i < d.members.length, ∃ t, net i = .ok t) ∧
    ((∃ t, (send Z E net now k msg timer w).2.2 = .ok t) →
      sent.map (·.destination) = d.members.map (fun m => hexToUUID (hexEncode m.uuid))) ∧
    ((¬ ∃ m ∈ d.members, hexToUUID (hexEncode m.uuid) = E.me) → sent = []) ∧
    (send Z E net now k msg timer w).2.2 ≠ .panic := by
  intro sent
  obtain ⟨w1, hw1⟩ : ∃ w1, w1 = (find k w).1 := ⟨_, rfl⟩
  have hfind : find k w = (w1, some g) := by rw [hw1, ← hg]
  have hcd := checkJoin_decrypted Z E.me g
  have hst := checkJoin_status Z E.me g d hd
  by_cases hm : ∃ m ∈ d.members, hexToUUID (hexEncode m.uuid) = E.me
  · have hs : ¬ (checkJoin Z E.me g).status ≠ statusMember := fun h => h (hst.mpr hm)
    have hne : d.members ≠ [] := by
      obtain ⟨m, h1, -⟩ := hm
      intro h2; rw [h2] at h1; cases h1
    have hsend : (send Z E net now k msg timer w).2 =
        sendLoop net (fun dest => ⟨dest, msg, timer, now, g.masterKey, d.revision⟩) d.members 0 0 [] := by
      simp only [send, hfind]
      rw [if_neg hs]
      simp only [hcd.1, hd, Option.isNone_some, Bool.false_eq_true, if_false, set_mem, Option.getD_some, hcd.2.1]
      rw [if_neg hne]
    obtain ⟨s, h1, h2, h3, h4⟩ := sendLoop_shape net
      (fun dest => ⟨dest, msg, timer, now, g.masterKey, d.revision⟩) (fun _ => rfl) d.members hlen 0 0 []
    have hsent : sent = s := by show (send Z E net now k msg timer w).2.1 = s; rw [hsend, h1]; rfl
    rw [hsent, hsend]
    refine ⟨h2, ⟨fun h => ⟨hm, by simpa using (h3 h).2⟩, fun h => h4 (by simpa using h.2)⟩, ?_, fun h => absurd hm h, ?_⟩
    · intro h
      rw [(h3 h).1, List.map_map]; rfl
    · -- no panic
      have : ∀ (ms : List DMember), (∀ m ∈ ms, m.uuid.length = 16) → ∀ n ts out,
          (sendLoop net (fun dest => (⟨dest, msg, timer, now, g.masterKey, d.revision⟩ : Out)) ms n ts out).2 ≠ .panic := by
        intro ms
        induction ms with
        | nil => intro _ n ts out h; cases h
        | cons m ms ih =>
          intro hl n ts out
          have h16 := hl m List.mem_cons_self
          have hid : ∃ x, idToHexUUID m.uuid = .ok x := by
            unfold idToHexUUID
            rw [if_neg (by omega), if_neg (by rw [hexEncode_length, List.length_drop]; omega)]
            exact ⟨_, rfl⟩
          obtain ⟨x, hx⟩ := hid
          cases hn : net n with
          | ok t => simp only [sendLoop, hx, hn]; exact ih (fun y hy => hl y (List.mem_cons_of_mem _ hy)) _ _ _
          | err y => simp [sendLoop, hx, hn]
          | panic => exact absurd hn (hnet n)
      exact this d.members hlen 0 0 []
  · have hs : (checkJoin Z E.me g).status ≠ statusMember := fun h => hm (hst.mp h)
    have hsend : (send Z E net now k msg timer w).2 = ([], .err .other) := by
      simp only [send, hfind]
      rw [if_pos hs]
    have hsent : sent = [] := by show (send Z E net now k msg timer w).2.1 = []; rw [hsend]
    rw [hsent, hsend]
    exact ⟨⟨0, by simp⟩, ⟨(fun ⟨t, ht⟩ => nomatch ht), fun h => absurd h.1 hm⟩, (fun ⟨t, ht⟩ => nomatch ht),
      fun _ => rfl, by intro h; cases h⟩

/-- Against **C97**: a message to a group that is sent is sent to the sender too. -/
theorem C97_sent_to_self (Z : Zk) (E : Env) (net : Nat → Res Nat) (now timer t : Nat) (k msg : Bytes) (w : World)
    (g : G) (d : DGroup) (hg : (find k w).2 = some g) (hd : g.decrypted = some d)
    (hlen : ∀ m ∈ d.members, m.uuid.length = 16) (hnet : ∀ i, net i ≠ .panic)
    (h : (send Z E net now k msg timer w).2.2 = .ok t) :
    ∃ o ∈ (send Z E net now k msg timer w).2.1, o.destination = E.me := by
  obtain ⟨-, h2, h3, -⟩ := C97_send_partial Z E net now timer k msg w g d hg hd hlen hnet
  obtain ⟨m, hm1, hm2⟩ := (h2.mp ⟨t, h⟩).1
  have : E.me ∈ (send Z E net now k msg timer w).2.1.map (·.destination) := by
    rw [h3 ⟨t, h⟩, ← hm2]; exact List.mem_map.mpr ⟨m, hm1, rfl⟩
  obtain ⟨o, ho, hoe⟩ := List.mem_map.mp this
  exact ⟨o, ho, hoe⟩

example :
    let w := (update toyZ env 0 mk {}).1
    (send toyZ env (fun _ => .ok 9) 77 (hexid mk) [65] 0 w).2 =
      ([⟨me, [65], 0, 77, mk, 5⟩, ⟨hexToUUID (hexEncode id2), [65], 0, 77, mk, 5⟩], .ok 9) ∧
    (send toyZ env (fun i => if i = 0 then .ok 9 else .err .other) 77 (hexid mk) [65] 0 w).2.2 = .err .other := by
  decide +kernel

theorem foundEnc_any (Z : Zk) (me mk : Bytes) (hs : Z.secret mk = true) (l : List Member)
    (h : ∀ m ∈ l, ∃ u, Z.uuid mk m.userId = some u) :
    ∃ b, foundEnc Z me mk l = some b ∧
      (b = true ↔ ∃ m ∈ l, ∃ u, Z.uuid mk m.userId = some u ∧ hexToUUID (hexEncode u) = me) := by
  induction l with
  | nil => exact ⟨false, rfl, by simp⟩
  | cons m l ih =>
    obtain ⟨b, hb, hi⟩ := ih (fun x hx => h x (List.mem_cons_of_mem _ hx))
    obtain ⟨u, hu⟩ := h m List.mem_cons_self
    refine ⟨decide (hexToUUID (hexEncode u) = me) || b, ?_, ?_⟩
    · simp [foundEnc, hs, hu, hb]
    · rw [Bool.or_eq_true, hi, decide_eq_true_eq]
      constructor
      · rintro (e | ⟨x, hx, e⟩)
        · exact ⟨m, List.mem_cons_self, u, hu, e⟩
        · exact ⟨x, List.mem_cons_of_mem _ hx, e⟩
      · rintro ⟨x, hx, v, hv, e⟩
        rcases List.mem_cons.1 hx with rfl | hx
        · rw [hu] at hv
          cases hv
          exact .inl e
        · exact .inr ⟨x, hx, v, hv, e⟩

/-- **C97** for a group whose decrypted form is not there: who is a member is found in the encrypted list, wherever it
stands there; a member's message goes to the members the server names now, a non-member sends nothing. -/
theorem C97_encrypted_members (Z : Zk) (E : Env) (net : Nat → Res Nat) (now timer : Nat) (k msg : Bytes) (w : World)
    (g : G) (hg : (find k w).2 = some g) (hd : g.decrypted = none) (hs : Z.secret g.masterKey = true)
    (hu : ∀ m ∈ g.context.members, ∃ u, Z.uuid g.masterKey m.userId = some u) :
    (¬ (∃ m ∈ g.context.members, ∃ u, Z.uuid g.masterKey m.userId = some u ∧ hexToUUID (hexEncode u) = E.me) →
      (send Z E net now k msg timer w).2 = ([], .err .other)) ∧
    ((∃ m ∈ g.context.members, ∃ u, Z.uuid g.masterKey m.userId = some u ∧ hexToUUID (hexEncode u) = E.me) →
      k = hexid g.masterKey → ∀ e t, E.query 0 = .ok e → Z.blob g.masterKey e.title = some t →
      e.members.filterMap (decryptMember Z g.masterKey) ≠ [] →
      (send Z E net now k msg timer w).2 =
        sendLoop net (fun dest => ⟨dest, msg, timer, now, g.masterKey, e.revision⟩)
          (e.members.filterMap (decryptMember Z g.masterKey)) 0 0 []) := by
  obtain ⟨w1, hw1⟩ : ∃ w1, w1 = (find k w).1 := ⟨_, rfl⟩
  have hfind : find k w = (w1, some g) := by rw [hw1, ← hg]
  obtain ⟨b, hb, hi⟩ := foundEnc_any Z E.me g.masterKey hs g.context.members hu
  have hcj : checkJoin Z E.me g = { g with status := if b then statusMember else statusInvite } := by
    unfold checkJoin
    simp only [hd, hb]
    cases b <;> rfl
  refine ⟨fun hn => ?_, fun hy hk e t he ht hne => ?_⟩
  · have : b = false := by
      cases b
      · rfl
      · exact absurd (hi.1 rfl) hn
    subst this
    simp only [send, hfind, hcj]
    rw [if_pos (by simp [statusMember, statusInvite])]
  · have : b = true := hi.2 hy
    subst this
    simp only [send, hfind, hcj]
    rw [if_neg (by simp)]
    simp only [hd, Option.isNone_none, if_true, update, he, ← hk, set_mem, Option.getD_some, decryptFromServer,
      decryptGroup, hs, ht, Option.map_some, Option.isSome_some, Bool.true_eq_false, if_false, save_mem,
      (checkJoin_decrypted ..).1]
    rw [if_neg hne]

/-- The second of two members, known in encrypted form only. -/
example :
    let g : G := { masterKey := mk, context := server 4 }
    (send toyZ { env with me := hexToUUID (hexEncode id2) } (fun _ => .ok 9) 77 (hexid mk) [65] 0
      { mem := [(hexid mk, g)] }).2.1.length = 2 ∧
    (send toyZ { env with me := hexToUUID (hexEncode id3) } (fun _ => .ok 9) 77 (hexid mk) [65] 0
      { mem := [(hexid mk, g)] }).2 = ([], .err .other) := by
  decide +kernel

/-! ## C98: joining a group -/

/-- Part of **C98**: what joining reports. It succeeds exactly if the group is known, the server gives it with
a title that decrypts, the account is among the invited, and the client can authorise itself. Missing: that it
fails when the server refuses, see below. -/
theorem C98_join_partial (Z : Zk) (E : Env) (mk : Bytes) (w : World) (g : G) (e : EncGroup)
    (hg : (find (hexid mk) w).2 = some g) (hmk : g.masterKey = mk) (hq : E.query 0 = .ok e)
    (ht : ¬ Unreadable Z mk e) (hp : E.patch ≠ .panic) (ha : E.auth ≠ .panic)
    (hpend : ∀ p ∈ e.pending, ∃ m u, p = some m ∧ Z.uuid mk m.userId = some u) :
    ((join Z E (hexid mk) w).2 = .ok () ↔
      (∃ m u, some m ∈ e.pending ∧ Z.uuid mk m.userId = some u ∧ hexToUUID (hexEncode u) = E.me) ∧
      E.credential = true ∧ E.auth = .ok ()) ∧
    ((join Z E (hexid mk) w).2 = .ok () → ∃ g', get (join Z E (hexid mk) w).1.mem (hexid mk) = some g' ∧
      (match E.query 1 with
        | .ok e1 => ¬ Unreadable Z mk e1 → ∃ d, g'.decrypted = some d ∧
            (g'.status = statusMember ↔ ∃ m ∈ d.members, hexToUUID (hexEncode m.uuid) = E.me)
        | _ => g'.status = statusMember)) := by
  obtain ⟨w1, hw1⟩ : ∃ w1, w1 = (find (hexid mk) w).1 := ⟨_, rfl⟩
  have hfind : find (hexid mk) w = (w1, some g) := by rw [hw1, ← hg]
  have hw1g : get w1.mem (hexid mk) = some g := by
    rw [hw1]
    unfold find at hg ⊢
    split at hg
    · rename_i h0
      rw [if_pos h0]
      unfold load at hg ⊢
      cases hf : w.files (hexid mk) with
      | none => rw [hf] at hg; cases hg
      | some f =>
        rw [hf] at hg
        simp only [set_mem]
        exact hg
    · rename_i h0
      rw [if_neg h0]; exact hg
  have hb : base w1 mk = g := by simp [base, hw1g]
  have hsec : Z.secret mk = true := by
    cases hs : Z.secret mk with
    | true => rfl
    | false => exact absurd (.inl hs) ht
  obtain ⟨d, hd⟩ : ∃ d, decryptGroup Z (base w1 mk).masterKey e = some d := by
    cases hd : decryptGroup Z (base w1 mk).masterKey e with
    | some d => exact ⟨d, rfl⟩
    | none => rw [hb, hmk, decryptGroup_none] at hd; exact absurd hd ht
  obtain ⟨g1, hg1⟩ : ∃ g1, g1 = checkJoin Z E.me { base w1 mk with context := e, decrypted := some d } := ⟨_, rfl⟩
  have hup := update_good Z E 0 mk w1 e d hq hd
  rw [← hg1] at hup
  have h1mk : g1.masterKey = mk := by rw [hg1, (checkJoin_decrypted ..).2.1]; show (base w1 mk).masterKey = mk; rw [hb, hmk]
  have h1c : g1.context = e := by rw [hg1, (checkJoin_decrypted ..).2.2.1]
  have h1d : g1.decrypted = some d := by rw [hg1, (checkJoin_decrypted ..).1]
  obtain ⟨w2, hw2⟩ : ∃ w2, w2 = save E.writeOk (hexid mk) (w1.set (hexid mk) g1) := ⟨_, rfl⟩
  rw [← hw2] at hup
  have hw2g : get w2.mem (hexid mk) = some g1 := by rw [hw2, save_mem, set_mem]
  have hjoin : join Z E (hexid mk) w = addPending Z E 1 (hexid mk) g1 w2 := by
    simp only [join, hfind, hmk, hup, hw2g, Option.getD_some]
  have hadd : addPending Z E 1 (hexid mk) g1 w2 =
      (match findPending Z E.me mk e.pending with
        | .err x => (w2, .err x)
        | .panic => (w2, .panic)
        | .ok _ => if E.credential = false then (w2, .err .other) else
          match E.auth with
          | .err x => (w2, .err x)
          | .panic => (w2, .panic)
          | .ok _ => ((update Z E 1 mk (w2.set (hexid mk) { g1 with status := statusMember })).1, .ok ())) := by
    simp only [addPending, h1mk, h1c, h1d, hsec, Bool.true_eq_false, false_or]
    cases findPending Z E.me mk e.pending with
    | err x => rfl
    | panic => rfl
    | ok u =>
      simp only []
      by_cases hc : E.credential = false
      · simp [hc]
      · simp only [hc, if_false]
        cases hau : E.auth with
        | err x => rfl
        | panic => rfl
        | ok u =>
          simp only []
          cases hpa : E.patch with
          | panic => exact absurd hpa hp
          | err x => simp
          | ok u => simp
  rw [hjoin, hadd, ← (findPending_spec Z E.me mk hsec e.pending hpend).1]
  constructor
  · cases hf : findPending Z E.me mk e.pending with
    | err x => simp
    | panic => simp
    | ok u =>
      simp only []
      by_cases hc : E.credential = false
      · simp [hc]
      · have hc' : E.credential = true := by simpa using hc
        simp only [hc, if_false]
        cases hau : E.auth with
        | err x => simp
        | panic => exact absurd hau ha
        | ok u => simp [hc']
  · intro hok
    cases hf : findPending Z E.me mk e.pending with
    | err x => rw [hf] at hok; cases hok
    | panic => rw [hf] at hok; cases hok
    | ok u =>
      rw [hf] at hok
      simp only [] at hok ⊢
      split at hok
      · cases hok
      · rename_i hc
        rw [if_neg hc]
        cases hau : E.auth with
        | err x => rw [hau] at hok; cases hok
        | panic => rw [hau] at hok; cases hok
        | ok u =>
          simp only []
          obtain ⟨g2, hg2⟩ : ∃ g2 : G, g2 = { g1 with status := statusMember } := ⟨_, rfl⟩
          rw [← hg2]
          have h0 := set_mem w2 (hexid mk) g2
          have hb2 : base (w2.set (hexid mk) g2) mk = g2 := by simp [base, h0]
          have hmk2 : g2.masterKey = mk := by rw [hg2]; exact h1mk
          cases hq1 : E.query 1 with
          | err x =>
            rw [(update_fail Z E 1 mk _ (by simp [hq1])).1]
            exact ⟨g2, h0, by rw [hg2]⟩
          | panic =>
            rw [(update_fail Z E 1 mk _ (by simp [hq1])).1]
            exact ⟨g2, h0, by rw [hg2]⟩
          | ok e1 =>
            cases hd1 : decryptGroup Z (base (w2.set (hexid mk) g2) mk).masterKey e1 with
            | some d1 =>
              rw [update_good Z E 1 mk _ e1 d1 hq1 hd1]
              refine ⟨_, by rw [save_mem, set_mem], ?_⟩
              intro _
              exact ⟨d1, by rw [(checkJoin_decrypted ..).1], checkJoin_status Z E.me _ d1 rfl⟩
            | none =>
              obtain ⟨g3, h3, -⟩ := update_keeps Z E 1 mk _ _ _ h0
              refine ⟨g3, h3, ?_⟩
              intro hr
              rw [hb2, hmk2, decryptGroup_none] at hd1
              exact absurd hd1 hr

/-- Against **C98**: the server's answer to the request to join is not looked at: refused or not, joining
gives the same. -/
theorem C98_refusal_ignored (Z : Zk) (E : Env) (k : Bytes) (w : World) (x : Err) :
    join Z { E with patch := .err x } k w = join Z { E with patch := .ok () } k w := by
  have hup : ∀ n mk w, update Z { E with patch := .err x } n mk w = update Z { E with patch := .ok () } n mk w := by
    intro n mk w; rfl
  simp only [join, hup, addPending]

/-- Against **C98**: an entry of the list of invited without a member ends the program. -/
theorem C98_empty_invitation_crashes (Z : Zk) (E : Env) (mk : Bytes) (w : World) (g : G) (e : EncGroup)
    (l : List (Option Member)) (hg : get w.mem (hexid mk) = some g) (hmk : g.masterKey = mk)
    (hq : E.query 0 = .ok e) (ht : ¬ Unreadable Z mk e) (he : e.pending = none :: l) :
    (join Z E (hexid mk) w).2 = .panic := by
  have hb : base w mk = g := by simp [base, hg]
  have hne : ¬ w.mem.length = 0 := by
    intro h0
    rw [List.length_eq_zero_iff.mp h0] at hg
    cases hg
  obtain ⟨d, hd⟩ : ∃ d, decryptGroup Z (base w mk).masterKey e = some d := by
    cases hd : decryptGroup Z (base w mk).masterKey e with
    | some d => exact ⟨d, rfl⟩
    | none => rw [hb, hmk, decryptGroup_none] at hd; exact absurd hd ht
  have hup := update_good Z E 0 mk w e d hq hd
  have hfind : find (hexid mk) w = (w, some g) := by
    unfold find; rw [if_neg hne, hg]
  simp only [join, hfind, hmk, hup, save_mem, set_mem, Option.getD_some, addPending,
    (checkJoin_decrypted ..).2.2.1, he, findPending]

/-- An invitation; the server refuses the request and is then not reached: the group counts as joined. -/
example :
    let inv : EncGroup := { server 5 with members := [{ userId := 1 :: id2 }], pending := [some { userId := 1 :: id1 }] }
    let E : Env := { env with query := fun n => if n = 0 then .ok inv else .err .other, patch := .err .other }
    let w : World := (update toyZ E 0 mk {}).1
    ((get w.mem (hexid mk)).map (·.status) = some statusInvite) ∧
    (join toyZ E (hexid mk) w).2 = .ok () ∧
    ((get (join toyZ E (hexid mk) w).1.mem (hexid mk)).map (·.status) = some statusMember) := by
  decide +kernel

/-! ## C99: credentials for the group server -/

/-- Part of **C99**: from the first request that is answered, the requests of the days the answer covers
succeed, without asking the server again. Missing: the days after, see below. -/
theorem C99_covered_days_partial (l : List Nat) (reqs : List (Nat × Res (List Nat))) (h : ∀ r ∈ reqs, r.1 ∈ l)
    (d : Nat) (hd : d ∈ l) :
    (credentials ((d, .ok l) :: reqs) none).2 = .ok () :: reqs.map (fun _ => .ok ()) := by
  have key : ∀ (reqs : List (Nat × Res (List Nat))), (∀ r ∈ reqs, r.1 ∈ l) →
      (credentials reqs (some l)).2 = reqs.map (fun _ => .ok ()) := by
    intro reqs
    induction reqs with
    | nil => intro _; rfl
    | cons r reqs ih =>
      intro h
      obtain ⟨x, f⟩ := r
      have hx : x ∈ l := h (x, f) List.mem_cons_self
      simp [credentials, credential, hx, ih (fun y hy => h y (List.mem_cons_of_mem _ hy))]
  simp [credentials, credential, hd, key reqs h]

/-- Part of **C99**: a request that was not answered is made again. -/
theorem C99_failed_fetch_retried (fails : List (Nat × Err)) (d : Nat) (l : List Nat) (hd : d ∈ l) :
    (credentials (fails.map (fun f => (f.1, .err f.2)) ++ [(d, .ok l)]) none).2 =
      fails.map (fun f => .err f.2) ++ [.ok ()] := by
  induction fails with
  | nil => simp [credentials, credential, hd]
  | cons f fails ih => simp [credentials, credential, ih]

/-- Against **C99**: once credentials are held they are never renewed: on every day they do not cover every
request fails, whatever the server would answer. With the eight days the client asks for, a program that has
run for more than a week reaches no group any more. -/
theorem C99_never_renewed (l : List Nat) (reqs : List (Nat × Res (List Nat))) (h : ∀ r ∈ reqs, r.1 ∉ l) (d : Nat) :
    (credentials ((d, .ok l) :: reqs) none).1 = some l ∧
    (credentials ((d, .ok l) :: reqs) none).2.tail = reqs.map (fun _ => .err .other) := by
  have key : ∀ (reqs : List (Nat × Res (List Nat))), (∀ r ∈ reqs, r.1 ∉ l) →
      (credentials reqs (some l)).1 = some l ∧ (credentials reqs (some l)).2 = reqs.map (fun _ => .err .other) := by
    intro reqs
    induction reqs with
    | nil => intro _; exact ⟨rfl, rfl⟩
    | cons r reqs ih =>
      intro h
      obtain ⟨x, f⟩ := r
      have hx : x ∉ l := h (x, f) List.mem_cons_self
      obtain ⟨h1, h2⟩ := ih (fun y hy => h y (List.mem_cons_of_mem _ hy))
      simp [credentials, credential, hx, h1, h2]
  obtain ⟨h1, h2⟩ := key reqs h
  simp [credentials, credential, h1, h2]

/-- Eight days from day 100; day 108 fails although the server would answer. An unreadable answer (nothing
read from it) leaves the client without credentials for good. -/
example :
    (credentials [(100, .ok (List.range' 100 8)), (107, .err .other), (108, .ok [108, 109])] none).2 =
      [.ok (), .ok (), .err .other] ∧
    (credentials [(100, .ok []), (100, .ok [100]), (101, .ok [101])] none).2 =
      [.err .other, .err .other, .err .other] := by
  decide +kernel

/-! ## C100: changes of a group -/

/-- Part of **C100**: a change that says anything is reported with a message only if the server signed it, and
what is reported is what it says under the group's key. A change without a valid signature makes the message
fail and leaves no mark beyond those of a message without one. -/
theorem C100_signed_partial (Z : Zk) (parse : Bytes → Actions) (E : Env) (src : Bytes) (c : Ctx) (w : World) (g : G)
    (a s : Bytes) (hw : Named w) (hc : c.change = some (a, s)) (ha : a ≠ []) :
    ((handle Z parse E src c w).2 = .ok g → Z.verify a s = true ∧
      ∀ d, g.action = some d → d.revision = (parse a).revision ∧
        d.deleted = (parse a).delete.filterMap (Z.uuid c.masterKey) ∧
        d.roles = (parse a).roles.filterMap (fun r => (Z.uuid c.masterKey r.1).map (fun u => (u, r.2))) ∧
        (∀ l : List Member, (parse a).add = l.map some → (∀ m ∈ l, m.presentation = []) →
          d.newMembers.map (fun x => (x.uuid, x.role, x.joinedAt)) =
            l.filterMap (fun m => (Z.uuid c.masterKey m.userId).map (fun u => (u, m.role, m.joinedAt))))) ∧
    (Z.verify a s = false → (handle Z parse E src c w).2 = .err .other) := by
  obtain ⟨g0, hg0, hmk, -⟩ := handleStart_mem Z E c w (hw c.masterKey)
  rw [handle_eq Z parse E src c w g0 hg0]
  simp only [rest, hc]
  constructor
  · intro h
    by_cases hv : Z.verify a s = false
    · rw [if_pos ⟨ha, hv⟩] at h; cases h
    · rw [if_neg (fun h => hv h.2)] at h
      refine ⟨by simpa using hv, ?_⟩
      intro d hd
      rw [← Res.ok.inj h] at hd
      simp only [decryptActions, hmk] at hd
      split at hd
      · cases hd
      · rename_i hsec
        rw [← Option.some.inj hd]
        refine ⟨rfl, rfl, rfl, ?_⟩
        intro l hl hp
        simp only [hl, List.filterMap_map]
        exact decryptMembers_plain Z c.masterKey (by simpa using hsec) l hp
  · intro hv
    rw [if_pos ⟨ha, hv⟩]

/-- Against **C100**: a signed change is reported whatever group it was signed for and whatever revision the
group is at, so an old change, or one of another group, can be shown again by anyone who has seen it. -/
theorem C100_not_bound (Z : Zk) (parse : Bytes → Actions) (E : Env) (src : Bytes) (c : Ctx) (w : World)
    (a s : Bytes) (hw : Named w) (hc : c.change = some (a, s)) (hs : Z.secret c.masterKey = true)
    (hv : Z.verify a s = true) :
    ∃ g d, (handle Z parse E src c w).2 = .ok g ∧ g.masterKey = c.masterKey ∧ g.action = some d ∧
      d.revision = (parse a).revision := by
  obtain ⟨g0, hg0, hmk, -⟩ := handleStart_mem Z E c w (hw c.masterKey)
  rw [handle_eq Z parse E src c w g0 hg0]
  simp only [rest, hc]
  rw [if_neg (fun h => by rw [hv] at h; cases h.2)]
  obtain ⟨g1, h1, h2, -⟩ := update_keeps Z E 1 g0.masterKey _ _ _ hg0
  rw [h1]
  have hsec : ¬ Z.secret g0.masterKey = false := by rw [hmk, hs]; simp
  obtain ⟨d, hd, hdr⟩ : ∃ d, decryptActions Z g0.masterKey (parse a) = some d ∧ d.revision = (parse a).revision := by
    simp only [decryptActions, hsec, if_false]; exact ⟨_, rfl, rfl⟩
  refine ⟨_, d, rfl, ?_, hd, hdr⟩
  simp only [Option.getD_some, h2, hmk]

/-- A change of another group, and one of a revision long past, are both shown. -/
example :
    let w := (update toyZ env 0 mk {}).1
    let a : Bytes := 3 :: 1 :: id2
    ((handle toyZ parse env id3 { masterKey := mk, revision := 5, change := some (a, a ++ [7]) } w).2.isOk = true) ∧
    (handle toyZ parse env id3 { masterKey := mk, revision := 5, change := some (a, a) } w).2 = .err .other := by
  decide +kernel

/-- Against **C100**: a change that was shown once is stored with the group by the next update, and is shown
again with every later message that brings no change. -/
theorem C100_shown_again :
    let w := (update toyZ env 0 mk {}).1
    let a : Bytes := 3 :: 1 :: id2
    let w1 := (handle toyZ parse env id2 { masterKey := mk, revision := 5, change := some (a, a ++ [7]) } w).1
    let w2 := (members toyZ env (hexid mk) w1).1
    let later := handle toyZ parse env id2 { masterKey := mk, revision := 5 } (restart w2)
    let plain := handle toyZ parse env id2 { masterKey := mk, revision := 5 } (restart w1)
    (∃ g d, later.2 = .ok g ∧ g.action = some d ∧ d.deleted = [id2]) ∧ ∃ g, plain.2 = .ok g ∧ g.action = none := by
  refine ⟨⟨_, _, rfl, rfl, ?_⟩, ⟨_, rfl, ?_⟩⟩
  · decide +kernel
  · decide +kernel

/-! ## C101: who may write to a group -/

/-- Against **C101**: the sender of a message to a group is not compared with its members: from whomever it
comes, the message is shown in the group. -/
theorem C101_any_sender (Z : Zk) (parse : Bytes → Actions) (E : Env) (src : Bytes) (c : Ctx) (w : World)
    (f : G) (d : DGroup) (hw : Named w) (hf : w.files (hexid c.masterKey) = some f) (ht : f.context.title ≠ [])
    (hd : f.decrypted = some d) (hr : d.revision = c.revision) (hc : c.change = none)
    (_houtsider : ∀ m ∈ d.members, hexToUUID (hexEncode m.uuid) ≠ src) :
    (handle Z parse E src c w).2 = .ok f := by
  have hst : handleStart Z E c w = w.set (hexid c.masterKey) f := by
    simp only [handleStart, load, hf, ht, if_false]
  rw [handle_eq Z parse E src c w f (by rw [hst, set_mem])]
  simp [rest, hc, hd, hr]

/-- Part of **C101**: a message is shown in the group whose master key it carries and no other. Missing: that
the sender is a member. -/
theorem C101_group_of_key_partial (Z : Zk) (parse : Bytes → Actions) (E : Env) (src : Bytes) (c : Ctx) (w : World)
    (g : G) (hw : Named w) (h : (handle Z parse E src c w).2 = .ok g) : g.masterKey = c.masterKey := by
  obtain ⟨g0, hg0, hmk, -⟩ := handleStart_mem Z E c w (hw c.masterKey)
  rw [handle_eq Z parse E src c w g0 hg0] at h
  obtain ⟨g1, h1, h2, -⟩ := update_keeps Z E 1 g0.masterKey _ _ _ hg0
  unfold rest at h
  cases hc : c.change with
  | some p =>
    obtain ⟨a, s⟩ := p
    simp only [hc] at h
    split at h
    · cases h
    · rw [← Res.ok.inj h, h1]
      simp only [Option.getD_some, h2, hmk]
  | none =>
    simp only [hc] at h
    cases hd : g0.decrypted with
    | none => rw [hd] at h; cases h
    | some d =>
      simp only [hd] at h
      split at h
      · rw [← Res.ok.inj h, h1]
        simp only [Option.getD_some, h2, hmk]
      · rw [← Res.ok.inj h, hmk]

example : (handle toyZ parse env (hexToUUID (hexEncode id3)) { masterKey := mk, revision := 5 }
    (update toyZ env 0 mk {}).1).2 = .ok
    { masterKey := mk, context := server 5, decrypted := some ⟨[72, 105], 5, [], [⟨id1, 0, [], 0⟩, ⟨id2, 1, [], 0⟩]⟩ } := by
  decide +kernel

end Verif.Props.GroupStore
