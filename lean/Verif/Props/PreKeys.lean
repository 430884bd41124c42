import Verif.Proof.PreKeys
import Verif.Proof.Encoding
import Mathlib.Data.List.Range
/-!
# Prekey files and published prekey state: C39, C40
-/
namespace Verif.Props.PreKeys
open Verif Verif.PreKeys Verif.Names

/-! ## C39 -/

/-- **C39**: the id is recovered from the file name, for every `uint32`. -/
theorem C39_id_recovered (id : Nat) (h : id < 2 ^ 32) : filenameToID (idToFilename id) = .ok id :=
  filenameToID_id id h

/-- A space, by the number of the character: those of Unicode but the end of the line. -/
def Blank (c : Char) : Prop :=
  c.toNat ∈ [9, 11, 12, 13, 32, 0x85, 0xA0, 0x1680, 0x2000, 0x2001, 0x2002, 0x2003, 0x2004, 0x2005, 0x2006, 0x2007,
    0x2008, 0x2009, 0x200A, 0x2028, 0x2029, 0x202F, 0x205F, 0x3000]

/-- The letters of these digits. -/
def letters (ds : List Nat) : List Char := ds.map (fun d => Char.ofNat (48 + d))

/-- The number these digits make. -/
def number (ds : List Nat) : Nat := ds.foldl (fun a d => 10 * a + d) 0

theorem isSpace_iff (c : Char) : isSpace c = true ↔ Blank c := by
  simp only [isSpace, Blank, Bool.or_eq_true, Bool.and_eq_true, beq_iff_eq, decide_eq_true_eq, List.mem_cons,
    List.not_mem_nil, or_false]
  omega

theorem ofNat_digit {d : Nat} (h : d < 10) : (Char.ofNat (48 + d)).toNat = 48 + d := by
  rcases (by omega : d = 0 ∨ d = 1 ∨ d = 2 ∨ d = 3 ∨ d = 4 ∨ d = 5 ∨ d = 6 ∨ d = 7 ∨ d = 8 ∨ d = 9) with
    rfl | rfl | rfl | rfl | rfl | rfl | rfl | rfl | rfl | rfl <;> rfl

theorem undec_letters (ds : List Nat) (h : ∀ d ∈ ds, d < 10) (a : Nat) :
    (letters ds).foldl (fun a c => a * 10 + (c.toNat - 48)) a = ds.foldl (fun a d => 10 * a + d) a := by
  induction ds generalizing a with
  | nil => rfl
  | cons d ds ih =>
    rw [letters, List.map_cons, List.foldl_cons, List.foldl_cons, ofNat_digit (h d List.mem_cons_self)]
    rw [show a * 10 + (48 + d - 48) = 10 * a + d by omega]
    exact ih (fun x hx => h x (List.mem_cons_of_mem _ hx)) _

theorem letters_of (l : List Char) (h : ∀ c ∈ l, isDigit c = true) :
    ∃ ds : List Nat, (∀ d ∈ ds, d < 10) ∧ l = letters ds := by
  refine ⟨l.map (fun c => c.toNat - 48), ?_, ?_⟩
  · intro d hd
    obtain ⟨c, hc, rfl⟩ := List.mem_map.mp hd
    have := h c hc
    simp only [isDigit, Bool.and_eq_true, decide_eq_true_eq] at this
    omega
  · rw [letters, List.map_map]
    conv => lhs; rw [← List.map_id l]
    apply List.map_congr_left
    intro c hc
    have := h c hc
    simp only [isDigit, Bool.and_eq_true, decide_eq_true_eq] at this
    simp only [Function.comp, id]
    rw [show 48 + (c.toNat - 48) = c.toNat by omega, Char.ofNat_toNat]

theorem takeWhile_prefix {p : Char → Bool} {a b : List Char} (ha : ∀ c ∈ a, p c = true)
    (hb : ∀ c, b.head? = some c → p c = false) : (a ++ b).takeWhile p = a ∧ (a ++ b).dropWhile p = b := by
  induction a with
  | nil =>
    cases b with
    | nil => exact ⟨rfl, rfl⟩
    | cons c b =>
      have := hb c rfl
      simp [this]
  | cons c a ih =>
    obtain ⟨h1, h2⟩ := ih (fun x hx => ha x (List.mem_cons_of_mem _ hx))
    have := ha c List.mem_cons_self
    simp [this, h1, h2]

theorem mem_takeWhile {p : Char → Bool} {l : List Char} {c : Char} (h : c ∈ l.takeWhile p) : p c = true := by
  induction l with
  | nil => simp at h
  | cons a l ih =>
    rw [List.takeWhile_cons] at h
    split at h
    · rcases List.mem_cons.mp h with rfl | h
      · assumption
      · exact ih h
    · simp at h

/-- **C39**: which names of files are read as which id, whoever made the files: spaces, then digits that make a number
of 32 bits, then anything that does not begin with a digit. -/
theorem C39_which_names (n : Name) (id : Nat) :
    filenameToID n = .ok id ↔
      ∃ sp ds rest, n = sp ++ letters ds ++ rest ∧ (∀ c ∈ sp, Blank c) ∧ ds ≠ [] ∧ (∀ d ∈ ds, d < 10) ∧
        (∀ c, rest.head? = some c → ¬ (48 ≤ c.toNat ∧ c.toNat ≤ 57)) ∧ id = number ds ∧ id < 2 ^ 32 := by
  constructor
  · intro h
    unfold filenameToID at h
    simp only at h
    obtain ⟨ds, hlt, hds⟩ := letters_of ((n.dropWhile isSpace).takeWhile isDigit)
      (fun c hc => mem_takeWhile hc)
    refine ⟨n.takeWhile isSpace, ds, (n.dropWhile isSpace).dropWhile isDigit, ?_, ?_, ?_, hlt, ?_, ?_⟩
    · rw [← hds, List.append_assoc, List.takeWhile_append_dropWhile, List.takeWhile_append_dropWhile]
    · intro c hc
      exact (isSpace_iff c).mp (mem_takeWhile hc)
    · rintro rfl
      rw [hds] at h
      simp [letters] at h
    · intro c hc hd
      have := List.head?_dropWhile_not (p := isDigit) (n.dropWhile isSpace)
      rw [hc] at this
      simp [isDigit, hd] at this
    · rw [hds] at h
      split at h
      · exact absurd h (by simp)
      · split at h
        · rename_i hu
          have e : id = undec (letters ds) := by simpa using h.symm
          rw [e]
          refine ⟨undec_letters ds hlt 0, hu⟩
        · exact absurd h (by simp)
  · rintro ⟨sp, ds, rest, rfl, hsp, hne, hlt, hrest, rfl, hid⟩
    have hdig : ∀ c ∈ letters ds, isDigit c = true := by
      intro c hc
      obtain ⟨d, hd, rfl⟩ := List.mem_map.mp hc
      have := hlt d hd
      simp only [isDigit, ofNat_digit this, Bool.and_eq_true, decide_eq_true_eq]
      omega
    have h1 : (sp ++ (letters ds ++ rest)).dropWhile isSpace = letters ds ++ rest := by
      refine (takeWhile_prefix (fun c hc => (isSpace_iff c).mpr (hsp c hc)) ?_).2
      intro c hc
      cases ds with
      | nil => exact absurd rfl hne
      | cons d ds =>
        have : c ∈ letters (d :: ds) := by
          rw [letters, List.map_cons, List.cons_append, List.head?_cons, Option.some.injEq] at hc
          subst hc
          exact List.mem_cons_self
        exact isSpace_of_digit (hdig c this)
    have h2 : (letters ds ++ rest).takeWhile isDigit = letters ds := by
      refine (takeWhile_prefix hdig ?_).1
      intro c hc
      have := hrest c hc
      cases hd : isDigit c with
      | false => rfl
      | true =>
        simp only [isDigit, Bool.and_eq_true, decide_eq_true_eq] at hd
        exact absurd hd this
    unfold filenameToID
    rw [List.append_assoc]
    simp only [h1, h2]
    have hu : undec (letters ds) = number ds := undec_letters ds hlt 0
    rw [if_neg (by cases ds with | nil => exact absurd rfl hne | cons d l => simp [letters]), hu,
      if_pos (by simpa [u32] using hid)]

/-- A copy made by an editor, ` 000000007~`, is read as the prekey seven. -/
example : filenameToID " 000000007~".toList = .ok 7 :=
  (C39_which_names _ 7).mpr ⟨[' '], [0, 0, 0, 0, 0, 0, 0, 0, 7], ['~'], by decide, by simp [Blank], by decide, by decide,
    by simp, by decide, by decide⟩

/-- **C39**: different ids never share a file. -/
theorem C39_names_distinct (a b : Nat) (h : idToFilename a = idToFilename b) : a = b :=
  idToFilename_inj h

/-- **C39**: the order of names is the numeric order of ids below 10^9. -/
theorem C39_name_order (a b : Nat) (ha : a < 10 ^ 9) (hb : b < 10 ^ 9) :
    nameLe (idToFilename a) (idToFilename b) = true ↔ a ≤ b := nameLe_id ha hb

/-- Files written by storing the given records one after the other. -/
def stored (ops : List (Nat × Rec)) : Dir := ops.foldl (fun d o => storePreKey d o.1 o.2) []

/-- The record last stored under an id. -/
def lastStored (ops : List (Nat × Rec)) (id : Nat) : Option Rec :=
  (ops.reverse.find? (fun o => o.1 = id)).map Prod.snd

theorem write_names (d : Dir) (n : Name) (c : Bytes) :
    (write d n c).map Prod.fst = if n ∈ d.map Prod.fst then d.map Prod.fst else d.map Prod.fst ++ [n] := by
  unfold write
  have hiff : d.any (fun f => decide (f.1 = n)) = true ↔ n ∈ d.map Prod.fst := by
    simp only [List.any_eq_true, decide_eq_true_eq, List.mem_map]
  by_cases h : n ∈ d.map Prod.fst
  · rw [if_pos (hiff.mpr h), if_pos h, List.map_map]
    apply List.map_congr_left
    intro f _
    simp only [Function.comp]
    split
    · rename_i e; exact e.symm
    · rfl
  · rw [if_neg (fun e => h (hiff.mp e)), if_neg h]; simp

/-- Names in the directory: distinct, and exactly those of the stored ids. -/
theorem stored_names (ops : List (Nat × Rec)) :
    ((stored ops).map Prod.fst).Nodup ∧
    (∀ n, n ∈ (stored ops).map Prod.fst ↔ ∃ o ∈ ops, n = idToFilename o.1) := by
  induction ops using List.reverseRecOn with
  | nil => simp [stored]
  | append_singleton ops o ih =>
    have e : stored (ops ++ [o]) = write (stored ops) (idToFilename o.1) (serRec o.2) := by
      simp [stored, storePreKey]
    rw [e, write_names]
    obtain ⟨h1, h2⟩ := ih
    by_cases hm : idToFilename o.1 ∈ (stored ops).map Prod.fst
    · rw [if_pos hm]
      refine ⟨h1, fun n => ?_⟩
      rw [h2 n]
      constructor
      · rintro ⟨x, hx, hn⟩; exact ⟨x, List.mem_append_left _ hx, hn⟩
      · rintro ⟨x, hx, hn⟩
        rcases List.mem_append.mp hx with hx | hx
        · exact ⟨x, hx, hn⟩
        · rw [List.mem_singleton] at hx
          subst hx
          rw [hn]; exact (h2 _).mp hm
    · rw [if_neg hm]
      refine ⟨List.nodup_append.mpr ⟨h1, by simp, ?_⟩, fun n => ?_⟩
      · intro a ha b hb
        rw [List.mem_singleton] at hb
        subst hb
        intro hab; subst hab; exact hm ha
      · rw [List.mem_append, h2 n, List.mem_singleton]
        constructor
        · rintro (⟨x, hx, hn⟩ | hn)
          · exact ⟨x, List.mem_append_left _ hx, hn⟩
          · exact ⟨o, by simp, hn⟩
        · rintro ⟨x, hx, hn⟩
          rcases List.mem_append.mp hx with hx | hx
          · exact .inl ⟨x, hx, hn⟩
          · rw [List.mem_singleton] at hx; subst hx; exact .inr hn

/-- **C39**, loading: after any sequence of stores, loading an id gives the record last stored under it. -/
theorem C39_load_after_stores (ops : List (Nat × Rec)) (id : Nat) (r : Rec)
    (hops : ∀ o ∈ ops, o.2.id < 2 ^ 32 ∧ o.2.pub.length < 2 ^ 64 ∧ o.2.priv.length < 2 ^ 64)
    (h : lastStored ops id = some r) : loadPreKey (stored ops) id = .ok r := by
  induction ops using List.reverseRecOn with
  | nil => simp [lastStored] at h
  | append_singleton ops o ih =>
    have e : stored (ops ++ [o]) = write (stored ops) (idToFilename o.1) (serRec o.2) := by
      simp [stored, storePreKey]
    rw [e, loadPreKey]
    by_cases ho : o.1 = id
    · simp [lastStored, ho] at h
      subst h
      have := hops o (by simp)
      rw [ho, read_write_same]
      exact loadRec_serRec o.2 this.1 this.2.1 this.2.2
    · rw [read_write_other _ _ (fun e => ho (idToFilename_inj e).symm)]
      exact ih (fun x hx => hops x (List.mem_append_left _ hx)) (by
        simpa [lastStored, ho] using h)

/-- **C39**, removing: afterwards the id is gone from the directory and every other id loads as before. -/
theorem C39_remove (d : Dir) (id : Nat) :
    loadPreKey (removePreKey d id) id = .err .storeRead ∧
    (∀ other, other ≠ id → loadPreKey (removePreKey d id) other = loadPreKey d other) ∧
    ∀ f, f ∈ removePreKey d id ↔ f ∈ d ∧ f.1 ≠ idToFilename id := by
  have hread : ∀ n, PreKeys.read (removePreKey d id) n = if n = idToFilename id then none else PreKeys.read d n := by
    intro n
    unfold PreKeys.read removePreKey
    induction d with
    | nil => simp
    | cons f d ih =>
      by_cases hf : f.1 = idToFilename id
      · rw [List.filter_cons, if_neg (by simp [hf]), ih]
        by_cases hn : n = idToFilename id
        · simp [hn]
        · have : ¬ f.1 = n := fun e => hn (by rw [← e, hf])
          simp [hn, List.find?_cons, this]
      · rw [List.filter_cons, if_pos (by simp [hf])]
        by_cases hn : f.1 = n
        · have : ¬ n = idToFilename id := fun e => hf (by rw [hn, e])
          simp [List.find?_cons, hn, this]
        · simp only [List.find?_cons, hn, decide_false]
          exact ih
  refine ⟨?_, ?_, ?_⟩
  · unfold loadPreKey; rw [hread, if_pos rfl]
  · intro other ho
    unfold loadPreKey; rw [hread, if_neg (fun e => ho (idToFilename_inj e))]
  · intro f; simp [removePreKey]

example : loadPreKey (removePreKey (storePreKey (storePreKey [] 3 ⟨3, [1], [2]⟩) 4 ⟨4, [5], [6]⟩) 3) 4 =
    .ok ⟨4, [5], [6]⟩ := by decide +kernel

/-- **C39**, listing: after any sequence of stores under ids below 10^9, the directory walk reports each
stored id exactly once, in increasing numeric order. -/
theorem C39_listing (ops : List (Nat × Rec)) (hops : ∀ o ∈ ops, o.1 < 10 ^ 9) :
    ∃ ids : List Nat, (walk (stored ops)).map (fun f => filenameToID f.1) = ids.map .ok ∧
      ids.Pairwise (· < ·) ∧ ∀ id, id ∈ ids ↔ ∃ o ∈ ops, o.1 = id := by
  obtain ⟨hnd, hmem⟩ := stored_names ops
  have hperm := walk_perm (stored ops)
  have hs := walk_sorted (stored ops)
  refine ⟨(walk (stored ops)).map (fun f => Names.undec f.1), ?_, ?_, ?_⟩
  · rw [List.map_map]
    apply List.map_congr_left
    intro f hf
    obtain ⟨o, ho, hn⟩ := (hmem f.1).mp (List.mem_map_of_mem (hperm.subset hf))
    have := hops o ho
    simp only [Function.comp, hn]
    rw [filenameToID_id _ (by simp only [u32]; omega), idToFilename, Names.undec_decPad]
  · have hnd' : ((walk (stored ops)).map Prod.fst).Nodup := (hperm.map _).nodup_iff.mpr hnd
    rw [List.Nodup, List.pairwise_map] at hnd'
    rw [List.pairwise_map]
    have hboth := List.Pairwise.and hs hnd'
    refine List.Pairwise.imp_of_mem ?_ hboth
    intro f g hf hg hfg
    obtain ⟨o, ho, hn⟩ := (hmem f.1).mp (List.mem_map_of_mem (hperm.subset hf))
    obtain ⟨p, hp, hn'⟩ := (hmem g.1).mp (List.mem_map_of_mem (hperm.subset hg))
    rw [hn, hn'] at hfg ⊢
    have h1 := (nameLe_id (hops o ho) (hops p hp)).mp hfg.1
    have h2 : o.1 ≠ p.1 := fun e => hfg.2 (by rw [e])
    simp only [idToFilename, Names.undec_decPad]
    omega
  · intro id
    rw [List.mem_map]
    constructor
    · rintro ⟨f, hf, he⟩
      obtain ⟨o, ho, hn⟩ := (hmem f.1).mp (List.mem_map_of_mem (hperm.subset hf))
      refine ⟨o, ho, ?_⟩
      rw [hn, idToFilename, Names.undec_decPad] at he
      exact he
    · rintro ⟨o, ho, he⟩
      obtain ⟨f, hf, hn⟩ := List.mem_map.mp ((hmem (idToFilename o.1)).mpr ⟨o, ho, rfl⟩)
      refine ⟨f, hperm.symm.subset hf, ?_⟩
      rw [hn, idToFilename, Names.undec_decPad, he]

/-- The bound is needed: with ten digits the order is no longer numeric. -/
theorem C39_order_needs_bound :
    ¬ (nameLe (idToFilename 999999999) (idToFilename 1000000000) = true ↔ 999999999 ≤ 1000000000) := by
  decide +kernel

/-- Ids produced by the code stay below the bound: a 24-bit start plus at most 99, or the last-resort id. -/
theorem C39_generated_ids_in_range (r i : Nat) (hi : i < batchSize) :
    randID r + i < 10 ^ 9 ∧ lastResortID < 10 ^ 9 := by
  have : randID r ≤ 0xffffff := Nat.and_le_right
  simp only [batchSize, lastResortID] at *
  omega

example : ∃ ids : List Nat, (walk (stored [(500, ⟨500, [1], [2]⟩), (7, ⟨7, [3], [4]⟩), (500, ⟨500, [5], [6]⟩)])).map
    (fun f => filenameToID f.1) = ids.map .ok ∧ ids = [7, 500] :=
  ⟨[7, 500], by decide +kernel, rfl⟩

example : loadPreKey (stored [(500, ⟨500, [1], [2]⟩), (7, ⟨7, [3], [4]⟩), (500, ⟨500, [5], [6]⟩)]) 500
    = .ok ⟨500, [5], [6]⟩ :=
  C39_load_after_stores _ 500 ⟨500, [5], [6]⟩ (by decide) (by decide)

/-! ## C40 -/

/-- File of a record under its own id. -/
def file (r : Rec) : Name × Bytes := (idToFilename r.id, serRec r)

theorem read_file {L : List Rec} {r : Rec} (hr : r ∈ L) (hnd : L.Pairwise (fun a b => a.id < b.id)) :
    PreKeys.read (L.map file) (idToFilename r.id) = some (serRec r) := by
  induction L with
  | nil => simp at hr
  | cons x L ih =>
    have hx := List.pairwise_cons.mp hnd
    rcases List.mem_cons.mp hr with e | hm
    · subst e; simp [PreKeys.read, file]
    · have : x.id ≠ r.id := Nat.ne_of_lt (hx.1 r hm)
      have hn : ¬ idToFilename x.id = idToFilename r.id := fun e => this (idToFilename_inj e)
      have := ih hm hx.2
      simpa [PreKeys.read, file, hn] using this

/-- Loading a directory of well-formed records whose ids increase. -/
theorem loadPreKeys_files {L : List Rec} (hinc : L.Pairwise (fun a b => a.id < b.id))
    (hid : ∀ r ∈ L, r.id < 10 ^ 9) (hlen : ∀ r ∈ L, r.pub.length < 2 ^ 64 ∧ r.priv.length < 2 ^ 64) :
    loadPreKeys (L.map file) = .ok (L.map some) := by
  have hs : SortedDir (L.map file) := by
    rw [SortedDir, List.pairwise_map]
    refine List.Pairwise.imp_of_mem ?_ hinc
    intro a b ha hb hab
    exact (nameLe_id (hid a ha) (hid b hb)).mpr (Nat.le_of_lt hab)
  have key : ∀ L' : List Rec, (∀ r ∈ L', r ∈ L) →
      (L'.map file).foldr (fun f acc => match filenameToID f.1 with
        | .ok id => do
          let rest ← acc
          .ok ((match loadPreKey (L.map file) id with | .ok r => some r | _ => none) :: rest)
        | .err e => .err e
        | .panic => .panic) (.ok []) = Res.ok (L'.map some) := by
    intro L' hL'
    induction L' with
    | nil => rfl
    | cons r L' ih =>
      have hr := hL' r List.mem_cons_self
      have h32 : r.id < u32 := by have := hid r hr; simp only [u32]; omega
      have hload : loadPreKey (L.map file) r.id = .ok r := by
        rw [loadPreKey, read_file hr hinc]
        exact loadRec_serRec r h32 (hlen r hr).1 (hlen r hr).2
      rw [List.map_cons, List.foldr_cons, ih (fun x hx => hL' x (List.mem_cons_of_mem _ hx))]
      simp only [file, filenameToID_id r.id h32, Res.ok_bind, hload, List.map_cons]
  rw [loadPreKeys, walk_of_sorted hs]
  exact key L (fun _ h => h)

theorem entities_map (L : List Rec) :
    entities (L.map some) = .ok (L.map (fun r => ⟨r.id, Encoding.encodeKey r.pub⟩)) := by
  induction L with
  | nil => rfl
  | cons r L ih => simp [entities, entity, ih]

theorem state_files {L : List Rec} {l : Rec} (ident : Bytes) (sp : SignedEntity)
    (hinc : (L ++ [l]).Pairwise (fun a b => a.id < b.id)) (hid : ∀ r ∈ L ++ [l], r.id < 10 ^ 9)
    (hlen : ∀ r ∈ L ++ [l], r.pub.length < 2 ^ 64 ∧ r.priv.length < 2 ^ 64) :
    generatePreKeyState ((L ++ [l]).map file) ident sp = .ok
      ⟨Encoding.b64EncodeNoPad (5 :: ident), L.map (fun r => ⟨r.id, Encoding.encodeKey r.pub⟩),
        ⟨l.id, Encoding.encodeKey l.pub⟩, sp⟩ := by
  rw [generatePreKeyState, loadPreKeys_files hinc hid hlen]
  simp only [Res.ok_bind, List.map_append, List.map_cons, List.map_nil]
  rw [if_neg (by simp), List.dropLast_concat, entities_map]
  simp [entity, Keys.ser]

/-- The record made from randomness `r` under `id`. -/
def recOf (P : Prims) (id : Nat) (r : Bytes) : Rec :=
  ⟨id, (Keys.newPair P r).pub, (Keys.newPair P r).priv⟩

theorem batch_files (P : Prims) (s : Nat) (rnd : Nat → Bytes) (n : Nat) (h : s + n ≤ 10 ^ 9) :
    generateBatch P [] s rnd n = ((List.range n).map (fun i => recOf P (s + i) (rnd i))).map file := by
  induction n with
  | zero => rfl
  | succ n ih =>
    rw [generateBatch, ih (by omega), generatePreKey, storePreKey,
      Nat.mod_eq_of_lt (by simp only [u32]; omega), write_fresh]
    · rw [List.range_succ]; simp [file, recOf]
    · intro f hf e
      simp only [List.mem_map, List.mem_range] at hf
      obtain ⟨r, ⟨i, hi, rfl⟩, rfl⟩ := hf
      have := idToFilename_inj (show idToFilename (s + i) = idToFilename (s + n) from e)
      omega

theorem rec_len (P : Prims) (id : Nat) {r : Bytes} (h : r.length = 32) :
    (recOf P id r).pub.length < 2 ^ 64 ∧ (recOf P id r).priv.length < 2 ^ 64 := by
  have h1 : (Keys.clamp r).length = 32 := by rw [Keys.clamp_len, h]
  constructor
  · change (P.pubOf (Keys.clamp r)).length < _
    rw [P.pubOf_len _ h1]; decide
  · change (Keys.clamp r).length < _
    rw [h1]; decide

theorem batch_increasing (P : Prims) (s n : Nat) (f : Nat → Bytes) :
    ((List.range n).map (fun i => recOf P (s + i) (f i))).Pairwise (fun a b => a.id < b.id) := by
  rw [List.pairwise_map]
  refine List.Pairwise.imp ?_ (List.pairwise_lt_range (n := n))
  intro a b hab
  simp only [recOf]
  omega

/-- **C40**, what holds of the code: when the random start leaves the whole batch below the reserved id,
the published state lists exactly the 100 new keys in order, the last-resort key has the reserved id, and
each published public key belongs to the private key stored under its id. Missing: start ids within 100 of
the reserved id (`C40_wrong_last_resort`). -/
theorem C40_published_state_partial (P : Prims) (r : Nat) (rnd : Nat → Bytes) (ident : Bytes)
    (sp : SignedEntity) (hr : ∀ i, (rnd i).length = 32) (hs : randID r + 100 ≤ 0xFFFFFF) :
    ∃ st, generatePreKeyState (generatePreKeys P [] r rnd) ident sp = .ok st ∧
      st.preKeys.map Entity.id = (List.range 100).map (fun i => randID r + i) ∧
      st.lastResort.id = 0xFFFFFF ∧
      (∀ e ∈ st.preKeys ++ [st.lastResort], ∃ k, loadPreKey (generatePreKeys P [] r rnd) e.id = .ok k ∧
        k.id = e.id ∧ k.priv.length = 32 ∧ Encoding.decodeKey e.publicKey = .ok (P.pubOf k.priv)) := by
  obtain ⟨s, hs'⟩ : ∃ s, s = randID r := ⟨_, rfl⟩
  rw [← hs'] at hs ⊢
  have hdir : generatePreKeys P [] r rnd
      = (((List.range 100).map (fun i => recOf P (s + i) (rnd i))) ++ [recOf P 0xFFFFFF (rnd 100)]).map file := by
    rw [generatePreKeys, ← hs', batch_files P s rnd _ (by simp only [batchSize]; omega), generatePreKey,
      storePreKey, write_fresh]
    · rw [List.map_append]; rfl
    · intro f hf e
      simp only [List.mem_map, List.mem_range] at hf
      obtain ⟨x, ⟨i, hi, rfl⟩, rfl⟩ := hf
      have := idToFilename_inj (show idToFilename (s + i) = idToFilename lastResortID from e)
      simp only [lastResortID, batchSize] at this hi
      omega
  have hinc : (((List.range 100).map (fun i => recOf P (s + i) (rnd i)))
      ++ [recOf P 0xFFFFFF (rnd 100)]).Pairwise (fun a b => a.id < b.id) := by
    rw [List.pairwise_append]
    refine ⟨batch_increasing P s 100 rnd, by simp, ?_⟩
    intro a ha b hb
    simp only [List.mem_map, List.mem_range] at ha
    obtain ⟨i, hi, rfl⟩ := ha
    rw [List.mem_singleton] at hb
    subst hb
    simp only [recOf]
    omega
  have hrec : ∀ x ∈ ((List.range 100).map (fun i => recOf P (s + i) (rnd i))) ++ [recOf P 0xFFFFFF (rnd 100)],
      ∃ id q, x = recOf P id q ∧ q.length = 32 ∧ id < 10 ^ 9 := by
    intro x hx
    rcases List.mem_append.mp hx with hx | hx
    · simp only [List.mem_map, List.mem_range] at hx
      obtain ⟨i, hi, rfl⟩ := hx
      exact ⟨_, _, rfl, hr i, by omega⟩
    · rw [List.mem_singleton] at hx
      exact ⟨_, _, hx, hr 100, by decide⟩
  have hst := state_files ident sp hinc
    (by intro x hx; obtain ⟨id, q, rfl, _, h⟩ := hrec x hx; exact h)
    (by intro x hx; obtain ⟨id, q, rfl, h, _⟩ := hrec x hx; exact rec_len P id h)
  rw [hdir]
  refine ⟨_, hst, ?_, rfl, ?_⟩
  · simp only [List.map_map]
    apply List.map_congr_left
    intro i _
    rfl
  · intro e he
    have : ∃ x ∈ ((List.range 100).map (fun i => recOf P (s + i) (rnd i))) ++ [recOf P 0xFFFFFF (rnd 100)],
        e = ⟨x.id, Encoding.encodeKey x.pub⟩ := by
      rcases List.mem_append.mp he with he | he
      · obtain ⟨x, hx, rfl⟩ := List.mem_map.mp he
        exact ⟨x, List.mem_append_left _ hx, rfl⟩
      · rw [List.mem_singleton] at he
        exact ⟨_, List.mem_append_right _ (List.mem_singleton.mpr rfl), he⟩
    obtain ⟨x, hx, rfl⟩ := this
    obtain ⟨id, q, rfl, hq, hid⟩ := hrec x hx
    have hc : (Keys.clamp q).length = 32 := by rw [Keys.clamp_len, hq]
    refine ⟨recOf P id q, ?_, rfl, hc, ?_⟩
    · rw [loadPreKey, read_file hx hinc]
      exact loadRec_serRec _ (by simp only [recOf, u32]; omega) (rec_len P id hq).1 (rec_len P id hq).2
    · change Encoding.decodeKey (Encoding.encodeKey (P.pubOf (Keys.clamp q))) = _
      have hl : (P.pubOf (Keys.clamp q)).length = 32 := P.pubOf_len _ hc
      simp [Encoding.decodeKey, Encoding.encodeKey, Encoding.b64_round_trip, hl, recOf, Keys.newPair]

/-- **C40 refuted** for every start id within 100 of the reserved one (one start in 167772): the batch
runs over the last-resort key, only 99 one-time keys are published, and the published last-resort key is
the last one-time key, whose id is not the reserved id unless the batch ends exactly there. -/
theorem C40_wrong_last_resort (P : Prims) (r : Nat) (rnd : Nat → Bytes) (ident : Bytes)
    (sp : SignedEntity) (hr : ∀ i, (rnd i).length = 32) (hs : 0xFFFFFF < randID r + 100) :
    ∃ st, generatePreKeyState (generatePreKeys P [] r rnd) ident sp = .ok st ∧
      st.preKeys.length = 99 ∧ st.lastResort.id = randID r + 99 := by
  obtain ⟨s, hs'⟩ : ∃ s, s = randID r := ⟨_, rfl⟩
  have hle : s ≤ 0xFFFFFF := by rw [hs']; exact Nat.and_le_right
  rw [← hs'] at hs ⊢
  obtain ⟨g, hg⟩ : ∃ g : Nat → Bytes, g = fun i => if s + i = 0xFFFFFF then rnd 100 else rnd i := ⟨_, rfl⟩
  have hgl : ∀ i, (g i).length = 32 := by intro i; rw [hg]; simp only; split <;> exact hr _
  have hdir : generatePreKeys P [] r rnd = ((List.range 100).map (fun i => recOf P (s + i) (g i))).map file := by
    rw [generatePreKeys, ← hs', batch_files P s rnd _ (by simp only [batchSize]; omega), generatePreKey,
      storePreKey, write, if_pos]
    · rw [List.map_map, List.map_map, List.map_map]
      apply List.map_congr_left
      intro i _
      have hgi : g i = if s + i = 0xFFFFFF then rnd 100 else rnd i := by rw [hg]
      by_cases hi : s + i = 0xFFFFFF
      · have hn : (file (recOf P (s + i) (rnd i))).1 = idToFilename lastResortID := by
          change idToFilename (s + i) = _
          rw [hi]; rfl
        change (if (file (recOf P (s + i) (rnd i))).1 = idToFilename lastResortID then _ else _) = _
        rw [if_pos hn]
        change _ = file (recOf P (s + i) (g i))
        rw [hgi, if_pos hi, hi]
        rfl
      · have hn : ¬ (file (recOf P (s + i) (rnd i))).1 = idToFilename lastResortID :=
          fun e => hi (idToFilename_inj e)
        change (if (file (recOf P (s + i) (rnd i))).1 = idToFilename lastResortID then _ else _) = _
        rw [if_neg hn]
        change _ = file (recOf P (s + i) (g i))
        rw [hgi, if_neg hi]
    · rw [List.any_eq_true]
      refine ⟨file (recOf P (s + (0xFFFFFF - s)) (rnd (0xFFFFFF - s))), ?_, ?_⟩
      · apply List.mem_map_of_mem
        apply List.mem_map_of_mem (f := fun i => recOf P (s + i) (rnd i))
        rw [List.mem_range, batchSize]; omega
      · simp only [file, recOf, decide_eq_true_eq]
        rw [show s + (0xFFFFFF - s) = lastResortID from by simp only [lastResortID]; omega]
        exact decide_eq_true rfl
  have hsplit : (List.range 100).map (fun i => recOf P (s + i) (g i))
      = (List.range 99).map (fun i => recOf P (s + i) (g i)) ++ [recOf P (s + 99) (g 99)] := by
    rw [show (100 : Nat) = 99 + 1 from rfl, List.range_succ, List.map_append]; rfl
  have hrec : ∀ x ∈ (List.range 100).map (fun i => recOf P (s + i) (g i)),
      ∃ id q, x = recOf P id q ∧ q.length = 32 ∧ id < 10 ^ 9 := by
    intro x hx
    simp only [List.mem_map, List.mem_range] at hx
    obtain ⟨i, hi, rfl⟩ := hx
    exact ⟨_, _, rfl, hgl i, by omega⟩
  have hinc := batch_increasing P s 100 g
  rw [hdir]
  rw [hsplit] at hrec hinc ⊢
  have hst := state_files ident sp hinc
    (by intro x hx; obtain ⟨id, q, rfl, _, h⟩ := hrec x hx; exact h)
    (by intro x hx; obtain ⟨id, q, rfl, h, _⟩ := hrec x hx; exact rec_len P id h)
  exact ⟨_, hst, by simp, rfl⟩

/-- Both hypotheses are met by actual random words, and the bad case gives a wrong id. -/
example : randID 0x12345678 + 100 ≤ 0xFFFFFF ∧ 0xFFFFFF < randID 0xABFFFFFF + 100 ∧
    randID 0xABFFFFFF + 99 ≠ 0xFFFFFF := by decide

example : ∃ st, generatePreKeyState (generatePreKeys Prims.toy [] 0xABFFFFFF (fun _ => List.replicate 32 1))
    (List.replicate 32 9) ⟨5, [], []⟩ = .ok st ∧ st.preKeys.length = 99 ∧ st.lastResort.id = 0x1000062 :=
  C40_wrong_last_resort Prims.toy 0xABFFFFFF (fun _ => List.replicate 32 1) _ _ (by simp) (by decide)

/-- An empty directory crashes the publication. -/
example (i : Bytes) (sp : SignedEntity) : generatePreKeyState [] i sp = .panic := rfl

end Verif.Props.PreKeys
