import Verif.Model.Register
import Verif.Props.PreKeys
import Verif.Props.Encoding
import Verif.Props.Sign
import Mathlib.Data.List.Perm.Basic
/-!
# Lemmas about registration
-/
namespace Verif.Register
open Verif Verif.Names Verif.PreKeys Verif.Props.PreKeys

/-! ## Signed prekey records -/

theorem loadSRec_serSRec (r : SRec) (h : r.id < u32) (h1 : r.pub.length < 2 ^ 64)
    (h2 : r.priv.length < 2 ^ 64) (h3 : r.sig.length < 2 ^ 64) (h4 : r.time.length = 8) :
    loadSRec (serSRec r) = .ok r := by
  obtain ⟨id, pub, priv, sig, time⟩ := r
  simp only at h h1 h2 h3 h4
  unfold loadSRec serSRec
  rw [Wire.decFields_enc]
  · by_cases hi : id = 0 <;> by_cases hp : pub = [] <;> by_cases hq : priv = [] <;> by_cases hs : sig = [] <;>
      by_cases ht : time = [0, 0, 0, 0, 0, 0, 0, 0] <;>
      simp [hi, hp, hq, hs, ht, Wire.getU32, Wire.getBytes, Wire.getFixed64, Nat.mod_eq_of_lt h]
  · intro f hf
    simp only [List.mem_append] at hf
    rcases hf with (((hf | hf) | hf) | hf) | hf
    · split at hf
      · simp at hf
      · simp at hf; subst hf; refine ⟨by decide, by decide, ?_⟩; simp only [u32] at h; omega
    · split at hf
      · simp at hf
      · simp at hf; subst hf; exact ⟨by decide, by decide, h1⟩
    · split at hf
      · simp at hf
      · simp at hf; subst hf; exact ⟨by decide, by decide, h2⟩
    · split at hf
      · simp at hf
      · simp at hf; subst hf; exact ⟨by decide, by decide, h3⟩
    · split at hf
      · simp at hf
      · simp at hf; subst hf; exact ⟨by decide, by decide, h4⟩

/-! ## Numbers -/

theorem digit_byte {c : Char} (h : isDigit c = true) : Char.ofNat (UInt8.ofNat c.toNat).toNat = c := by
  simp only [isDigit, Bool.and_eq_true, decide_eq_true_eq] at h
  rw [Wire.toNat_ofNat_lt _ (by omega), Char.ofNat_toNat]

theorem readNum_numBytes (n : Nat) (h : n < u32) : readNum (numBytes n) = .ok n := by
  have hd := dec_digits n
  have e : (numBytes n).map (fun x => Char.ofNat x.toNat) = dec n := by
    simp only [numBytes, List.map_map]
    conv_rhs => rw [← List.map_id (dec n)]
    apply List.map_congr_left
    intro c hc
    exact digit_byte (hd c hc)
  obtain ⟨c, l, hcl⟩ : ∃ c l, dec n = c :: l := by
    cases hh : dec n with
    | nil => exact absurd hh (dec_ne n)
    | cons c l => exact ⟨c, l, rfl⟩
  have hc := hd c (by rw [hcl]; simp)
  have h1 : ¬ (dec n).head? = some '-' := by
    rw [hcl]; simp; rintro rfl; simp [isDigit] at hc
  have h2 : ¬ (dec n).head? = some '+' := by
    rw [hcl]; simp; rintro rfl; simp [isDigit] at hc
  have hu : undec (dec n) = n := undec_dec n
  simp only [readNum, e, h1, h2, or_self, if_false, hu]
  rw [if_neg (by rw [not_or, Decidable.not_not]; exact ⟨dec_ne n, hd⟩), if_pos (by simp only [u32] at h; omega),
    Nat.mod_eq_of_lt h]

/-! ## Prekey directories -/

/-- A directory as registrations leave it: one file per id up to the reserved one, named after the id in
it, holding a matching pair of keys. -/
structure GoodDir (P : Prims) (d : Dir) : Prop where
  nodup : (d.map Prod.fst).Nodup
  recs : ∀ f ∈ d, ∃ r : Rec, f = file r ∧ r.id ≤ 0xFFFFFF ∧ r.priv.length = 32 ∧ r.pub = P.pubOf r.priv

theorem GoodDir.nil (P : Prims) : GoodDir P [] := ⟨List.nodup_nil, by simp⟩

theorem GoodDir.gen {P : Prims} {d : Dir} (h : GoodDir P d) {id : Nat} {r : Bytes} (hid : id ≤ 0xFFFFFF)
    (hr : r.length = 32) : GoodDir P (generatePreKey P d id r) := by
  have hfile : (idToFilename id, serRec ⟨id, (Keys.newPair P r).pub, (Keys.newPair P r).priv⟩)
      = file (recOf P id r) := rfl
  have hrec : ∃ x : Rec, file (recOf P id r) = file x ∧ x.id ≤ 0xFFFFFF ∧ x.priv.length = 32 ∧
      x.pub = P.pubOf x.priv := ⟨recOf P id r, rfl, hid, by simp [recOf, Keys.newPair, Keys.clamp_len, hr], rfl⟩
  constructor
  · rw [generatePreKey, storePreKey, write_names]
    split
    · exact h.nodup
    · rename_i hn
      rw [List.nodup_append]
      refine ⟨h.nodup, by simp, ?_⟩
      intro a ha b hb
      rw [List.mem_singleton] at hb
      subst hb
      rintro rfl
      exact hn ha
  · intro f hf
    rw [generatePreKey, storePreKey, write] at hf
    split at hf
    · obtain ⟨g, hg, rfl⟩ := List.mem_map.mp hf
      split
      · rw [hfile]; exact hrec
      · exact h.recs g hg
    · rcases List.mem_append.mp hf with hf | hf
      · exact h.recs f hf
      · rw [List.mem_singleton] at hf
        rw [hf, hfile]; exact hrec

theorem GoodDir.batch {P : Prims} {d : Dir} (h : GoodDir P d) {s : Nat} {rnd : Nat → Bytes} {n : Nat}
    (hs : s + n ≤ 0xFFFFFF) (hr : ∀ i, (rnd i).length = 32) : GoodDir P (generateBatch P d s rnd n) := by
  induction n with
  | zero => exact h
  | succ n ih =>
    exact (ih (by omega)).gen (Nat.le_trans (Nat.mod_le _ _) (by omega)) (hr n)

theorem read_perm {d d' : Dir} (hp : d.Perm d') (hn : (d.map Prod.fst).Nodup) (n : Name) :
    PreKeys.read d n = PreKeys.read d' n := by
  have hn' : (d'.map Prod.fst).Nodup := (hp.map _).nodup_iff.mp hn
  have key : ∀ {l : Dir}, (l.map Prod.fst).Nodup → ∀ c, PreKeys.read l n = some c ↔ (n, c) ∈ l := by
    intro l
    induction l with
    | nil => intro _ c; simp [PreKeys.read]
    | cons f l ih =>
      intro hl c
      rw [List.map_cons, List.nodup_cons] at hl
      by_cases hf : f.1 = n
      · obtain ⟨a, b⟩ := f
        simp only at hf hl
        subst hf
        simp only [PreKeys.read, List.find?_cons_of_pos (p := fun f : Name × Bytes => decide (f.1 = a))
          (a := (a, b)) (by simp), Option.map_some, Option.some.injEq, List.mem_cons, Prod.mk.injEq, true_and]
        constructor
        · rintro rfl; exact .inl rfl
        · rintro (h | h)
          · exact h.symm
          · exact absurd (List.mem_map_of_mem (f := Prod.fst) h) hl.1
      · have : PreKeys.read (f :: l) n = PreKeys.read l n := by
          simp only [PreKeys.read]; rw [List.find?_cons_of_neg (by simpa using hf)]
        rw [this, ih hl.2 c, List.mem_cons]
        constructor
        · exact .inr
        · rintro (h | h)
          · exact absurd (by rw [← h]) hf
          · exact h
  apply Option.ext
  intro c
  rw [key hn c, key hn' c]
  exact hp.mem_iff

theorem loadPreKeys_walk {d : Dir} (hn : (d.map Prod.fst).Nodup) : loadPreKeys d = loadPreKeys (walk d) := by
  have e : loadPreKey d = loadPreKey (walk d) := by
    funext id
    rw [loadPreKey, loadPreKey, read_perm (walk_perm d).symm hn]
  rw [loadPreKeys, loadPreKeys, e, walk_of_sorted (walk_sorted d)]

theorem exists_recs {P : Prims} {l : Dir}
    (h : ∀ f ∈ l, ∃ r : Rec, f = file r ∧ r.id ≤ 0xFFFFFF ∧ r.priv.length = 32 ∧ r.pub = P.pubOf r.priv) :
    ∃ L : List Rec, l = L.map file ∧ ∀ r ∈ L, r.id ≤ 0xFFFFFF ∧ r.priv.length = 32 ∧ r.pub = P.pubOf r.priv := by
  induction l with
  | nil => exact ⟨[], rfl, by simp⟩
  | cons f l ih =>
    obtain ⟨L, hL, hr⟩ := ih (fun g hg => h g (List.mem_cons_of_mem _ hg))
    obtain ⟨r, hf, hx⟩ := h f List.mem_cons_self
    refine ⟨r :: L, by rw [hf, hL]; rfl, ?_⟩
    intro x hxm
    rcases List.mem_cons.mp hxm with e | e
    · rw [e]; exact hx
    · exact hr x e

/-- The records in the order of the walk. -/
theorem GoodDir.sorted {P : Prims} {d : Dir} (h : GoodDir P d) :
    ∃ L : List Rec, walk d = L.map file ∧ L.Pairwise (fun a b => a.id < b.id) ∧
      ∀ r ∈ L, r.id ≤ 0xFFFFFF ∧ r.priv.length = 32 ∧ r.pub = P.pubOf r.priv := by
  have hp := walk_perm d
  obtain ⟨L, hL, hr⟩ := exists_recs (P := P) (l := walk d) (fun f hf => h.recs f (hp.subset hf))
  refine ⟨L, hL, ?_, hr⟩
  have hs : SortedDir (walk d) := walk_sorted d
  have hn : ((walk d).map Prod.fst).Nodup := (hp.map _).nodup_iff.mpr h.nodup
  rw [hL] at hs hn
  rw [SortedDir, List.pairwise_map] at hs
  rw [List.map_map, List.Nodup, List.pairwise_map] at hn
  refine List.Pairwise.imp_of_mem ?_ (List.Pairwise.and hs hn)
  intro a b ha hb hab
  have h1 := (nameLe_id (show a.id < 10 ^ 9 by have := (hr a ha).1; omega)
    (show b.id < 10 ^ 9 by have := (hr b hb).1; omega)).mp hab.1
  have h2 : a.id ≠ b.id := fun e => hab.2 (by simp only [Function.comp, file, e])
  omega

/-- What the published prekeys must be: the reserved id last, and every public key belongs to the private
key stored under its id. -/
structure KeysOk (P : Prims) (d : Dir) (st : State) : Prop where
  last : st.lastResort.id = 0xFFFFFF
  all : ∀ e ∈ st.preKeys ++ [st.lastResort], ∃ k, loadPreKey d e.id = .ok k ∧ k.id = e.id ∧
    e.id ≤ 0xFFFFFF ∧ k.priv.length = 32 ∧ k.pub = P.pubOf k.priv ∧ Encoding.decodeKey e.publicKey = .ok k.pub

theorem GoodDir.state {P : Prims} {d : Dir} (h : GoodDir P d)
    (hl : (PreKeys.read d (idToFilename lastResortID)).isSome = true) (ident : Bytes) (sp : SignedEntity) :
    ∃ st, generatePreKeyState d ident sp = .ok st ∧ st.identityKey = Encoding.b64EncodeNoPad (5 :: ident) ∧
      st.signed = sp ∧ KeysOk P d st := by
  obtain ⟨L, hL, hinc, hr⟩ := h.sorted
  have hrd : ∀ n, PreKeys.read d n = PreKeys.read (L.map file) n := by
    intro n; rw [← hL]; exact read_perm (walk_perm d).symm h.nodup n
  -- the reserved id is present
  obtain ⟨x, hx, hxid⟩ : ∃ x ∈ L, x.id = 0xFFFFFF := by
    rw [hrd] at hl
    unfold PreKeys.read at hl
    rw [Option.isSome_map, List.find?_isSome] at hl
    obtain ⟨f, hf, hn⟩ := hl
    obtain ⟨r, hrm, rfl⟩ := List.mem_map.mp hf
    simp only [decide_eq_true_eq] at hn
    exact ⟨r, hrm, idToFilename_inj hn⟩
  -- so it is the last
  obtain ⟨L0, l, rfl⟩ : ∃ L0 l, L = L0 ++ [l] := by
    rcases List.eq_nil_or_concat L with e | ⟨a, b, e⟩
    · rw [e] at hx; cases hx
    · exact ⟨a, b, by rw [e, List.concat_eq_append]⟩
  have hlid : l.id = 0xFFFFFF := by
    rcases List.mem_append.mp hx with hm | hm
    · have := (List.pairwise_append.mp hinc).2.2 x hm l (by simp)
      have := (hr l (by simp)).1
      omega
    · rw [List.mem_singleton] at hm; rw [← hm]; exact hxid
  have hid : ∀ r ∈ L0 ++ [l], r.id < 10 ^ 9 := fun r hm => by have := (hr r hm).1; omega
  have hlen : ∀ r ∈ L0 ++ [l], r.pub.length < 2 ^ 64 ∧ r.priv.length < 2 ^ 64 := by
    intro r hm
    obtain ⟨_, h2, h3⟩ := hr r hm
    rw [h3, P.pubOf_len _ h2, h2]; decide
  have hst := state_files ident sp hinc hid hlen
  have heq : generatePreKeyState d ident sp = generatePreKeyState ((L0 ++ [l]).map file) ident sp := by
    rw [generatePreKeyState, generatePreKeyState, loadPreKeys_walk h.nodup, hL]
  rw [heq]
  refine ⟨_, hst, rfl, rfl, ⟨hlid, ?_⟩⟩
  intro e he
  obtain ⟨r, hm, rfl⟩ : ∃ r ∈ L0 ++ [l], e = ⟨r.id, Encoding.encodeKey r.pub⟩ := by
    rcases List.mem_append.mp he with he | he
    · obtain ⟨x, hx, rfl⟩ := List.mem_map.mp he
      exact ⟨x, List.mem_append_left _ hx, rfl⟩
    · rw [List.mem_singleton] at he
      exact ⟨_, List.mem_append_right _ (List.mem_singleton.mpr rfl), he⟩
  obtain ⟨h1, h2, h3⟩ := hr r hm
  refine ⟨r, ?_, rfl, h1, h2, h3, ?_⟩
  · rw [loadPreKey, hrd, read_file hm hinc]
    exact loadRec_serRec r (by simp only [u32]; omega) (hlen r hm).1 (hlen r hm).2
  · exact Props.Encoding.C41_key_round_trip _ (by rw [h3]; exact P.pubOf_len _ h2)

end Verif.Register
