import Verif.Model.GroupStore
import Verif.Proof.Encoding
/-! Lemmas about the copies of new groups. -/
namespace Verif.GroupStore
open Verif Verif.Encoding

theorem get_put_same (m : List (Bytes × G)) (k : Bytes) (g : G) : get (put m k g) k = some g := by
  simp [get, put]

theorem get_put_other (m : List (Bytes × G)) (k x : Bytes) (g : G) (h : x ≠ k) :
    get (put m k g) x = get m x := by
  have h' : ¬ k = x := fun e => h e.symm
  simp only [get, put, List.find?_cons, h', decide_false]
  congr 1
  induction m with
  | nil => rfl
  | cons e l ih =>
    by_cases he : e.1 = k
    · have : ¬ e.1 = x := fun e2 => h (e2 ▸ he)
      rw [List.filter_cons, if_neg (by simp [he]), ih, List.find?_cons]
      simp [this]
    · by_cases hx : e.1 = x
      · have hxk : ¬ x = k := h
        rw [List.filter_cons, if_pos (by simp [he])]
        simp [List.find?_cons, hx]
      · rw [List.filter_cons, if_pos (by simp [he]), List.find?_cons, List.find?_cons, ih]

theorem set_mem (w : World) (k : Bytes) (g : G) : get (w.set k g).mem k = some g := get_put_same ..

theorem set_mem_other (w : World) (k x : Bytes) (g : G) (h : x ≠ k) :
    get (w.set k g).mem x = get w.mem x := get_put_other _ _ _ _ h

theorem set_files (w : World) (k : Bytes) (g : G) : (w.set k g).files = w.files := rfl

theorem save_mem (ok : Bool) (k : Bytes) (w : World) : (save ok k w).mem = w.mem := by
  unfold save; split <;> rfl

theorem save_files_other (ok : Bool) (k x : Bytes) (w : World) (h : x ≠ k) :
    (save ok k w).files x = w.files x := by
  unfold save; split
  · simp only [h, if_false]
  · rfl

theorem save_files_same (k : Bytes) (w : World) (hk : k ≠ []) : (save true k w).files k = get w.mem k := by
  unfold save; simp [hk]

/-- An update that does not get an answer. -/
theorem update_fail (Z : Zk) (E : Env) (n : Nat) (mk : Bytes) (w : World) (h : ∀ e, E.query n ≠ .ok e) :
    (update Z E n mk w).1 = w ∧ (update Z E n mk w).2 ≠ .ok () := by
  unfold update
  cases hq : E.query n with
  | ok e => exact absurd hq (h e)
  | err x => exact ⟨rfl, by intro h; cases h⟩
  | panic => exact ⟨rfl, by intro h; cases h⟩

/-- The object an update works on. -/
def base (w : World) (mk : Bytes) : G := (get w.mem (hexid mk)).getD { masterKey := mk }

theorem update_good (Z : Zk) (E : Env) (n : Nat) (mk : Bytes) (w : World) (e : EncGroup) (d : DGroup)
    (hq : E.query n = .ok e) (hd : decryptGroup Z (base w mk).masterKey e = some d) :
    update Z E n mk w =
      (save E.writeOk (hexid mk) (w.set (hexid mk)
        (checkJoin Z E.me { base w mk with context := e, decrypted := some d })), .ok ()) := by
  simp only [update, hq, decryptFromServer, base] at hd ⊢
  rw [hd]; rfl

theorem update_bad (Z : Zk) (E : Env) (n : Nat) (mk : Bytes) (w : World) (e : EncGroup)
    (hq : E.query n = .ok e) (hd : decryptGroup Z (base w mk).masterKey e = none) :
    update Z E n mk w =
      (if (get w.mem (hexid mk)).isSome then w.set (hexid mk)
        (checkJoin Z E.me { base w mk with context := e, decrypted := none }) else w, .err .other) := by
  simp only [update, hq, decryptFromServer, base] at hd ⊢
  rw [hd]; rfl

/-- What `checkJoin` leaves alone. -/
theorem checkJoin_keeps (Z : Zk) (me : Bytes) (g : G) :
    ∃ s, checkJoin Z me g = { g with status := s } := by
  unfold checkJoin
  simp only []
  split
  · exact ⟨g.status, rfl⟩
  · exact ⟨_, rfl⟩
  · exact ⟨_, rfl⟩

theorem checkJoin_decrypted (Z : Zk) (me : Bytes) (g : G) :
    (checkJoin Z me g).decrypted = g.decrypted ∧ (checkJoin Z me g).masterKey = g.masterKey ∧
    (checkJoin Z me g).context = g.context ∧ (checkJoin Z me g).action = g.action := by
  obtain ⟨s, hs⟩ := checkJoin_keeps Z me g
  rw [hs]; exact ⟨rfl, rfl, rfl, rfl⟩

theorem checkJoin_status (Z : Zk) (me : Bytes) (g : G) (d : DGroup) (h : g.decrypted = some d) :
    ((checkJoin Z me g).status = statusMember ↔ ∃ m ∈ d.members, hexToUUID (hexEncode m.uuid) = me) := by
  simp only [checkJoin, h]
  by_cases hm : ∃ m ∈ d.members, hexToUUID (hexEncode m.uuid) = me
  · have : d.members.any (fun m => decide (hexToUUID (hexEncode m.uuid) = me)) = true := by
      simpa [List.any_eq_true] using hm
    simp only [this]
    exact ⟨fun _ => hm, fun _ => by trivial⟩
  · have : d.members.any (fun m => decide (hexToUUID (hexEncode m.uuid) = me)) = false := by
      rw [Bool.eq_false_iff]; intro h2; exact hm (by simpa [List.any_eq_true] using h2)
    simp only [this]
    exact ⟨fun h => by simp [statusMember, statusInvite] at h, fun h => absurd h hm⟩

theorem decryptGroup_none (Z : Zk) (mk : Bytes) (e : EncGroup) :
    decryptGroup Z mk e = none ↔ Z.secret mk = false ∨ Z.blob mk e.title = none := by
  unfold decryptGroup
  by_cases h : Z.secret mk = false
  · simp [h]
  · simp [h]

/-- An update touches the object under the key of its master key only. -/
theorem update_other (Z : Zk) (E : Env) (n : Nat) (mk : Bytes) (w : World) (x : Bytes) (h : x ≠ hexid mk) :
    get (update Z E n mk w).1.mem x = get w.mem x ∧ (update Z E n mk w).1.files x = w.files x := by
  cases hq : E.query n with
  | err y => rw [(update_fail Z E n mk w (by simp [hq])).1]; exact ⟨rfl, rfl⟩
  | panic => rw [(update_fail Z E n mk w (by simp [hq])).1]; exact ⟨rfl, rfl⟩
  | ok e =>
    cases hd : decryptGroup Z (base w mk).masterKey e with
    | some d =>
      rw [update_good Z E n mk w e d hq hd]
      exact ⟨by rw [save_mem, set_mem_other _ _ _ _ h], by rw [save_files_other _ _ _ _ h, set_files]⟩
    | none =>
      rw [update_bad Z E n mk w e hq hd]
      split
      · exact ⟨set_mem_other _ _ _ _ h, rfl⟩
      · exact ⟨rfl, rfl⟩

/-- A group in memory stays there, with its master key. -/
theorem update_keeps (Z : Zk) (E : Env) (n : Nat) (mk : Bytes) (w : World) (k : Bytes) (g : G)
    (h : get w.mem k = some g) :
    ∃ g', get (update Z E n mk w).1.mem k = some g' ∧ g'.masterKey = g.masterKey ∧ g'.action = g.action := by
  by_cases hk : k = hexid mk
  · subst hk
    have hb : base w mk = g := by simp [base, h]
    cases hq : E.query n with
    | err y => rw [(update_fail Z E n mk w (by simp [hq])).1]; exact ⟨g, h, rfl, rfl⟩
    | panic => rw [(update_fail Z E n mk w (by simp [hq])).1]; exact ⟨g, h, rfl, rfl⟩
    | ok e =>
      cases hd : decryptGroup Z (base w mk).masterKey e with
      | some d =>
        rw [update_good Z E n mk w e d hq hd, save_mem, set_mem]
        refine ⟨_, rfl, ?_, ?_⟩
        · rw [(checkJoin_decrypted ..).2.1, hb]
        · rw [(checkJoin_decrypted ..).2.2.2, hb]
      | none =>
        rw [update_bad Z E n mk w e hq hd]
        rw [if_pos (by rw [h]; rfl), set_mem]
        refine ⟨_, rfl, ?_, ?_⟩
        · rw [(checkJoin_decrypted ..).2.1, hb]
        · rw [(checkJoin_decrypted ..).2.2.2, hb]
  · exact ⟨g, by rw [(update_other Z E n mk w k hk).1, h], rfl, rfl⟩

/-- What the object under the key is decrypted to after an update. -/
theorem update_decrypted (Z : Zk) (E : Env) (n : Nat) (mk : Bytes) (w : World) (g : G)
    (h : get w.mem (hexid mk) = some g) :
    ∃ g', get (update Z E n mk w).1.mem (hexid mk) = some g' ∧
      g'.decrypted = (match E.query n with
        | .ok e => decryptGroup Z g.masterKey e
        | _ => g.decrypted) := by
  have hb : base w mk = g := by simp [base, h]
  cases hq : E.query n with
  | err y => rw [(update_fail Z E n mk w (by simp [hq])).1]; exact ⟨g, h, rfl⟩
  | panic => rw [(update_fail Z E n mk w (by simp [hq])).1]; exact ⟨g, h, rfl⟩
  | ok e =>
    cases hd : decryptGroup Z (base w mk).masterKey e with
    | some d =>
      rw [update_good Z E n mk w e d hq hd, save_mem, set_mem]
      exact ⟨_, rfl, by rw [(checkJoin_decrypted ..).1, ← hb]; exact hd.symm⟩
    | none =>
      rw [update_bad Z E n mk w e hq hd, if_pos (by rw [h]; rfl), set_mem]
      exact ⟨_, rfl, by rw [(checkJoin_decrypted ..).1, ← hb]; exact hd.symm⟩

/-- After the first part of handling a message the group is in memory. -/
theorem handleStart_mem (Z : Zk) (E : Env) (c : Ctx) (w : World)
    (hw : ∀ g, w.files (hexid c.masterKey) = some g → g.masterKey = c.masterKey) :
    ∃ g, get (handleStart Z E c w).mem (hexid c.masterKey) = some g ∧ g.masterKey = c.masterKey ∧
      g.action = ((w.files (hexid c.masterKey)).bind (·.action)) ∧
      g.decrypted = (match w.files (hexid c.masterKey) with
        | some f => if f.context.title = [] then
            (match E.query 0 with | .ok e => decryptGroup Z c.masterKey e | _ => f.decrypted) else f.decrypted
        | none => match E.query 0 with | .ok e => decryptGroup Z c.masterKey e | _ => none) := by
  cases hf : w.files (hexid c.masterKey) with
  | some f =>
    have hmk := hw f hf
    simp only [handleStart, load, hf]
    by_cases ht : f.context.title = []
    · simp only [ht, if_true, hmk]
      have h0 := set_mem w (hexid c.masterKey) f
      obtain ⟨g', h1, h2, h3⟩ := update_keeps Z E 0 c.masterKey _ _ _ h0
      obtain ⟨g2, h4, h5⟩ := update_decrypted Z E 0 c.masterKey _ _ h0
      have : g' = g2 := by rw [h1] at h4; exact Option.some.inj h4
      subst this
      exact ⟨g', h1, by rw [h2, hmk], by rw [h3]; rfl, by rw [h5, hmk]⟩
    · simp only [ht, if_false]
      exact ⟨f, set_mem .., hmk, rfl, rfl⟩
  | none =>
    simp only [handleStart, load, hf]
    obtain ⟨g0, hg0⟩ : ∃ g0 : G, g0 = { masterKey := c.masterKey, revision := c.revision } := ⟨_, rfl⟩
    rw [← hg0]
    have h0 : get (save E.writeOk (hexid c.masterKey) (w.set (hexid c.masterKey) g0)).mem (hexid c.masterKey) = some g0 := by
      rw [save_mem, set_mem]
    obtain ⟨g', h1, h2, h3⟩ := update_keeps Z E 0 c.masterKey _ _ _ h0
    obtain ⟨g2, h4, h5⟩ := update_decrypted Z E 0 c.masterKey _ _ h0
    have : g' = g2 := by rw [h1] at h4; exact Option.some.inj h4
    subst this
    refine ⟨g', h1, by rw [h2, hg0], by rw [h3, hg0]; rfl, ?_⟩
    rw [h5, hg0]

/-- The part of a message's handling after the first, given the group it found. -/
def rest (Z : Zk) (parse : Bytes → Actions) (E : Env) (c : Ctx) (w : World) (g : G) : World × Res G :=
  match c.change with
  | some (actions, sig) =>
    if actions ≠ [] ∧ Z.verify actions sig = false then (w, .err .other)
    else
      let d := decryptActions Z g.masterKey (parse actions)
      let w := (update Z E 1 g.masterKey w).1
      let g := { (get w.mem (hexid c.masterKey)).getD g with action := d }
      (w.set (hexid c.masterKey) g, .ok g)
  | none =>
    match g.decrypted with
    | none => (w, .panic)
    | some d =>
      if d.revision ≠ c.revision then
        let w := (update Z E 1 g.masterKey w).1
        (w, .ok ((get w.mem (hexid c.masterKey)).getD g))
      else (w, .ok g)

theorem handle_eq (Z : Zk) (parse : Bytes → Actions) (E : Env) (src : Bytes) (c : Ctx) (w : World) (g : G)
    (h : get (handleStart Z E c w).mem (hexid c.masterKey) = some g) :
    handle Z parse E src c w = rest Z parse E c (handleStart Z E c w) g := by
  simp only [handle, h, rest]
  cases c.change with
  | some p => obtain ⟨a, s⟩ := p; rfl
  | none => cases g.decrypted <;> rfl

/-- Looking for an invitation, when every entry can be read. -/
theorem findPending_spec (Z : Zk) (me mk : Bytes) (hs : Z.secret mk = true) (l : List (Option Member))
    (h : ∀ p ∈ l, ∃ m u, p = some m ∧ Z.uuid mk m.userId = some u) :
    (findPending Z me mk l = .ok () ↔
      ∃ m u, some m ∈ l ∧ Z.uuid mk m.userId = some u ∧ hexToUUID (hexEncode u) = me) ∧
    findPending Z me mk l ≠ .panic := by
  induction l with
  | nil => simp [findPending]
  | cons p l ih =>
    obtain ⟨m, u, hp, hu⟩ := h p List.mem_cons_self
    subst hp
    obtain ⟨ih1, ih2⟩ := ih (fun x hx => h x (List.mem_cons_of_mem _ hx))
    simp only [findPending, hs, Bool.true_eq_false, if_false, hu]
    by_cases hm : hexToUUID (hexEncode u) = me
    · simp only [hm, if_true]
      exact ⟨⟨fun _ => ⟨m, u, List.mem_cons_self, hu, hm⟩, fun _ => trivial⟩, by intro h; cases h⟩
    · simp only [hm, if_false]
      refine ⟨ih1.trans ⟨?_, ?_⟩, ih2⟩
      · rintro ⟨m', u', h1, h2, h3⟩
        exact ⟨m', u', List.mem_cons_of_mem _ h1, h2, h3⟩
      · rintro ⟨m', u', h1, h2, h3⟩
        rcases List.mem_cons.mp h1 with h1 | h1
        · cases h1
          rw [hu] at h2; cases h2
          exact absurd h3 hm
        · exact ⟨m', u', h1, h2, h3⟩

/-- Members without a presentation: those whose id decrypts, in order. -/
theorem decryptMembers_plain (Z : Zk) (mk : Bytes) (hs : Z.secret mk = true) (l : List Member)
    (hl : ∀ m ∈ l, m.presentation = []) :
    (l.filterMap (decryptMember Z mk)).map (fun x => (x.uuid, x.role, x.joinedAt)) =
      l.filterMap (fun m => (Z.uuid mk m.userId).map (fun u => (u, m.role, m.joinedAt))) := by
  simp only [List.map_filterMap]
  induction l with
  | nil => rfl
  | cons m l ih =>
    have hm := hl m List.mem_cons_self
    rw [List.filterMap_cons, List.filterMap_cons, ih (fun x hx => hl x (List.mem_cons_of_mem _ hx))]
    simp only [decryptMember, hs, Bool.true_eq_false, if_false, hm, if_true, Option.map_map]
    cases Z.uuid mk m.userId <;> rfl

/-- The loop that sends. -/
theorem sendLoop_shape (net : Nat → Res Nat) (mk : Bytes → Out) (hmk : ∀ x, (mk x).destination = x)
    (ms : List DMember) (hl : ∀ m ∈ ms, m.uuid.length = 16) :
    ∀ n ts out, ∃ sent, (sendLoop net mk ms n ts out).1 = out ++ sent ∧
      (∃ j, sent = (ms.take j).map (fun m => mk (hexToUUID (hexEncode m.uuid)))) ∧
      ((∃ t, (sendLoop net mk ms n ts out).2 = .ok t) →
        sent = ms.map (fun m => mk (hexToUUID (hexEncode m.uuid))) ∧ ∀ i < ms.length, ∃ t, net (n + i) = .ok t) ∧
      ((∀ i < ms.length, ∃ t, net (n + i) = .ok t) → ∃ t, (sendLoop net mk ms n ts out).2 = .ok t) := by
  induction ms with
  | nil => intro n ts out; exact ⟨[], by simp [sendLoop], ⟨0, rfl⟩, by simp, fun _ => ⟨ts, rfl⟩⟩
  | cons m ms ih =>
    intro n ts out
    have h16 := hl m List.mem_cons_self
    have hd : idToHexUUID m.uuid = .ok (hexToUUID (hexEncode m.uuid)) := by
      unfold idToHexUUID hexToUUID
      have h1 : ¬ m.uuid.length < 8 := by omega
      have h2 : ¬ (hexEncode (m.uuid.drop 8)).length < 4 := by rw [hexEncode_length, List.length_drop]; omega
      have h3 : ¬ (hexEncode m.uuid).length ≠ 32 := by rw [hexEncode_length]; omega
      rw [if_neg h1, if_neg h2, if_neg h3, hexEncode_take, hexEncode_drop]
    obtain ⟨o, ho⟩ : ∃ o, o = mk (hexToUUID (hexEncode m.uuid)) := ⟨_, rfl⟩
    cases hn : net n with
    | ok t =>
      obtain ⟨sent, h1, ⟨j, h2⟩, h3, h4⟩ := ih (fun x hx => hl x (List.mem_cons_of_mem _ hx)) (n + 1) t (out ++ [o])
      have hstep : sendLoop net mk (m :: ms) n ts out = sendLoop net mk ms (n + 1) t (out ++ [o]) := by
        simp only [sendLoop, hd, hn, ho]
      rw [hstep]
      refine ⟨o :: sent, by rw [h1]; simp, ⟨j + 1, by simp [h2, ho]⟩, ?_, ?_⟩
      · intro hok
        obtain ⟨h5, h6⟩ := h3 hok
        refine ⟨by rw [h5, ho]; rfl, ?_⟩
        intro i hi
        cases i with
        | zero => exact ⟨t, hn⟩
        | succ i =>
          have := h6 i (by simpa using hi)
          rwa [show n + (i + 1) = n + 1 + i by omega]
      · intro hall
        apply h4
        intro i hi
        have := hall (i + 1) (by simpa using hi)
        rwa [show n + (i + 1) = n + 1 + i by omega] at this
    | err x =>
      have hstep : sendLoop net mk (m :: ms) n ts out = (out ++ [o], .err x) := by
        simp only [sendLoop, hd, hn, ho]
      rw [hstep]
      refine ⟨[o], rfl, ⟨1, by simp [ho]⟩, (fun ⟨t, ht⟩ => nomatch ht), ?_⟩
      intro hall
      obtain ⟨t, ht⟩ := hall 0 (by simp)
      rw [Nat.add_zero, hn] at ht; cases ht
    | panic =>
      have hstep : sendLoop net mk (m :: ms) n ts out = (out ++ [o], .panic) := by
        simp only [sendLoop, hd, hn, ho]
      rw [hstep]
      refine ⟨[o], rfl, ⟨1, by simp [ho]⟩, (fun ⟨t, ht⟩ => nomatch ht), ?_⟩
      intro hall
      obtain ⟨t, ht⟩ := hall 0 (by simp)
      rw [Nat.add_zero, hn] at ht; cases ht

end Verif.GroupStore
