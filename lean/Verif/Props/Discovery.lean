import Verif.Proof.Discovery
import Verif.Proof.Regex
import Verif.Props.Encoding
/-!
# C61: contact discovery; C73, C74: the contact list after a refresh and a restart;
# C75: the discovery request; C76, C77: unusable numbers and malformed replies
-/
namespace Verif.Props.Discovery
open Verif Verif.Contacts Verif.Discovery Verif.Discovery.Spec Verif.Props.Encoding

/-- ASCII text. -/
def txt (s : String) : Bytes := s.toList.map (fun c => UInt8.ofNat c.toNat)

/-- `q` is a query for the numbers `ts`: the nonce, then one 64-bit word per number, in order. -/
def QueryFor (nonce : Bytes) (ts : List Bytes) (q : Bytes) : Prop :=
  q.take nonce.length = nonce ∧ q.length = nonce.length + 8 * ts.length ∧
  ∀ i t, ts[i]? = some t → ∃ v, Decimal t v ∧ word ((q.drop (nonce.length + 8 * i)).take 8) = v

/-- **C61 (query).** From a query the numbers are recovered, in order. -/
theorem C61_query_numbers (nonce : Bytes) (ts : List Bytes) (q : Bytes) (h : buildQuery nonce ts = .ok q) :
    QueryFor nonce ts q := by
  simp only [buildQuery, Res.bind_eq_ok, Res.ok.injEq] at h
  obtain ⟨d, hd, rfl⟩ := h
  obtain ⟨h1, h2⟩ := queryNumbers_ok hd
  refine ⟨by simp, by simp [h1], fun i t ht => ?_⟩
  obtain ⟨v, hv, _, hw⟩ := h2 i t ht
  exact ⟨v, hv, by rw [List.drop_length_add_append]; exact hw⟩

/-- **C61 (query).** A query is built exactly when every number is a decimal numeral of at most 64 bits. -/
theorem C61_query_built (nonce : Bytes) (ts : List Bytes) :
    (∃ q, buildQuery nonce ts = .ok q) ↔ ∀ t ∈ ts, ∃ v, Decimal t v ∧ Fits v := by
  constructor
  · rintro ⟨q, h⟩ t ht
    by_contra hn
    simp only [buildQuery, queryNumbers_fails ⟨t, ht, hn⟩] at h
    cases h
  · intro h
    obtain ⟨d, hd⟩ := queryNumbers_exists h
    exact ⟨nonce ++ d, by simp [buildQuery, hd]⟩

theorem zero_text : Encoding.idToHexUUID (List.replicate 16 0) = .ok zeroUuid := by decide +kernel

theorem registered_iff {b u : Bytes} (hb : b.length = 16) (h : Encoding.idToHexUUID b = .ok u) :
    (decide (u.length > 0) && u != zeroUuid) = true ↔ b ≠ List.replicate 16 0 := by
  have hl := uuid_length hb h
  have h0 : decide (u.length > 0) = true := by simp [hl]
  rw [h0]
  simp only [Bool.true_and, bne_iff_ne, ne_eq, not_iff_not]
  constructor
  · rintro rfl
    exact C42_uuid_injective _ _ _ hb (by simp) h zero_text
  · rintro rfl
    rw [zero_text] at h
    injection h with h
    exact h.symm

/-- Everything a successful refresh establishes. -/
theorem refresh_ok (e : Env) (cs cs' : List Contact) (m : Book)
    (h : getRegistered e (.ok cs) = .ok (cs', m)) :
    ∃ ts q data, Asked (fun t => validTel t = true) cs ts ∧ buildQuery e.nonce ts = .ok q ∧ e.ask q = .ok data ∧
      ts ≠ [] ∧ ts = tokensOf cs ∧ assign e.decode data 0 ts (cs, []) = .ok (cs', m) := by
  simp only [getRegistered, Res.ok_bind] at h
  split at h
  · cases h
  · split at h
    · cases h
    · next hts =>
      simp only [Res.bind_eq_ok] at h
      obtain ⟨q, hq, data, hdata, h⟩ := h
      exact ⟨_, q, data, tokensOf_asked cs, hq, hdata, hts, rfl, h⟩

/-- **C61 (reply).** After a refresh, the contact that was asked about at position `i` carries the id at
position `i` of the reply and is marked registered exactly when that id is not all zeroes; every other
contact is as it was. Names stay, except that those with more than two `=` are read as quoted-printable if
they can be. The question was the one of `C61_query_numbers`, for the usable numbers of the
address book, each once and in its order. -/
theorem C61_attribution (e : Env) (cs cs' : List Contact) (m : Book)
    (h : getRegistered e (.ok cs) = .ok (cs', m)) :
    ∃ ts q data, Asked (fun t => validTel t = true) cs ts ∧ QueryFor e.nonce ts q ∧ e.ask q = .ok data ∧
      16 * ts.length ≤ data.length ∧
      (∀ i t, ts[i]? = some t → ∃ k c c', First cs t k ∧ cs[k]? = some c ∧ cs'[k]? = some c' ∧ c'.tel = t ∧
        readUUID c'.uuid = (data.drop (16 * i)).take 16 ∧ c'.uuid.length = 36 ∧
        (c'.registered = true ↔ (data.drop (16 * i)).take 16 ≠ List.replicate 16 0) ∧
        c'.profileKey = c.profileKey ∧ c'.other = c.other ∧
        c'.name = if c.name.count 61 > 2 then (e.decode c.name).getD c.name else c.name) ∧
      (∀ k, (∀ t ∈ ts, ¬ First cs t k) → cs'[k]? = cs[k]?) := by
  obtain ⟨ts, q, data, h1, h2, h3, h4, _, h5⟩ := refresh_ok e cs cs' m h
  obtain ⟨ha, hb, _⟩ := assign_ok e.decode data ts 0 cs [] cs' m h1.once h5
  refine ⟨ts, q, data, h1, C61_query_numbers _ _ _ h2, h3, ?_, ?_, hb⟩
  · have hpos : 0 < ts.length := List.length_pos_iff.2 h4
    have := (ha (ts.length - 1) _ (List.getElem?_eq_getElem (by omega))).1
    omega
  · intro i t ht
    obtain ⟨hl, k, c, u, hf, hc, hu, hc'⟩ := ha i t ht
    have hch : chunk data (0 + i) = (data.drop (16 * i)).take 16 := by simp [chunk, Nat.mul_comm]
    have hlen : (chunk data (0 + i)).length = 16 := by rw [hch]; simp; omega
    obtain ⟨t', ht1, ht2, ht3, _⟩ := C42_uuid_reversible _ hlen
    rw [hu] at ht1
    injection ht1 with ht1
    subst ht1
    refine ⟨k, c, _, hf, hc, hc', ?_, ?_, ?_, ?_, rfl, rfl, rfl⟩
    · obtain ⟨⟨d, hd, hd'⟩, _⟩ := hf
      rw [hc] at hd
      injection hd with hd
      rw [← hd'] 
      rw [← hd]
      rfl
    · rw [← hch]; exact ht2
    · exact ht3
    · rw [← hch]; exact registered_iff hlen hu

/-! ## C76, C77 -/

/-- **C76 refuted.** One number that passes the check but is not a plain numeral makes the refresh fail
for the whole address book, whatever the service would answer. -/
theorem C76_one_number_spoils_all (e : Env) (cs : List Contact)
    (h : ∃ c ∈ cs, c.tel ≠ [] ∧ validTel c.tel = true ∧ ¬ ∃ v, Decimal c.tel v ∧ Fits v) :
    getRegistered e (.ok cs) = .err .badEncoding := by
  obtain ⟨c, hc, h1, h2, h3⟩ := h
  have hmem : c.tel ∈ tokensOf cs := ((tokensOf_asked cs).all _).2 ⟨h1, h2, c, hc, rfl⟩
  have hne : cs ≠ [] := List.ne_nil_of_mem hc
  have hne' : tokensOf cs ≠ [] := List.ne_nil_of_mem hmem
  simp only [getRegistered, Res.ok_bind, if_neg hne, if_neg hne', buildQuery,
    queryNumbers_fails ⟨_, hmem, h3⟩, Res.err_bind]

theorem decimal_digits {s : Bytes} {v : Int} (h : Decimal s v) :
    ∀ c ∈ s, c = 43 ∨ c = 45 ∨ (48 ≤ c.toNat ∧ c.toNat ≤ 57) := by
  obtain ⟨ds, _, h1, h2⟩ := h
  have key : ∀ c ∈ ds.map (fun d => UInt8.ofNat (48 + d)), 48 ≤ c.toNat ∧ c.toNat ≤ 57 := by
    intro c hc
    obtain ⟨d, hd, rfl⟩ := List.mem_map.1 hc
    have := h1 d hd
    rw [Wire.toNat_ofNat_lt _ (by omega)]
    omega
  rcases h2 with ⟨rfl, _⟩ | ⟨rfl, _⟩ | ⟨rfl, _⟩
  · intro c hc; exact Or.inr (Or.inr (key c hc))
  · intro c hc
    rcases List.mem_cons.1 hc with rfl | hc
    · exact Or.inl rfl
    · exact Or.inr (Or.inr (key c hc))
  · intro c hc
    rcases List.mem_cons.1 hc with rfl | hc
    · exact Or.inr (Or.inl rfl)
    · exact Or.inr (Or.inr (key c hc))

/-- The usual way of writing a number with a space is such a number. -/
example : validTel (txt "+49 151 1234") = true ∧ ¬ ∃ v, Decimal (txt "+49 151 1234") v ∧ Fits v := by
  refine ⟨by decide +kernel, ?_⟩
  rintro ⟨v, hv, _⟩
  have := decimal_digits hv 32 (by decide +kernel)
  revert this
  decide +kernel

/-- **C76 (part).** If every number that passes the check is a numeral of at most 64 bits and the service
answers with 16 bytes for each, the refresh succeeds. Missing: numbers written with separators. -/
theorem C76_refresh_succeeds_partial (e : Env) (cs : List Contact) (hne : ∃ c ∈ cs, c.tel ≠ [] ∧ validTel c.tel = true)
    (hnum : ∀ c ∈ cs, c.tel ≠ [] → validTel c.tel = true → ∃ v, Decimal c.tel v ∧ Fits v)
    (hask : ∀ q, ∃ data, e.ask q = .ok data ∧ 2 * (q.length - e.nonce.length) ≤ data.length) :
    ∃ cs' m, getRegistered e (.ok cs) = .ok (cs', m) := by
  obtain ⟨c, hc, h1, h2⟩ := hne
  have hA := tokensOf_asked cs
  have hmem : c.tel ∈ tokensOf cs := (hA.all _).2 ⟨h1, h2, c, hc, rfl⟩
  have hne : cs ≠ [] := List.ne_nil_of_mem hc
  have hne' : tokensOf cs ≠ [] := List.ne_nil_of_mem hmem
  obtain ⟨q, hq⟩ := (C61_query_built e.nonce (tokensOf cs)).2 (fun t ht => by
    obtain ⟨hn, hv, d, hd, rfl⟩ := (hA.all t).1 ht
    exact hnum d hd hn hv)
  obtain ⟨data, hd, hlen⟩ := hask q
  obtain ⟨_, hql, _⟩ := C61_query_numbers _ _ _ hq
  have hassign : ∀ (ts : List Bytes) (ind : Nat) (ds : List Contact) (m : Book),
      (∀ t ∈ ts, ∃ d ∈ ds, d.tel = t) → (ind + ts.length) * 16 ≤ data.length →
      ∃ cs' m', assign e.decode data ind ts (ds, m) = .ok (cs', m') := by
    intro ts
    induction ts with
    | nil => intro ind ds m _ _; exact ⟨ds, m, rfl⟩
    | cons t r ih =>
      intro ind ds m hm hl
      simp only [List.length_cons] at hl
      have hch : ((data.drop (ind * 16)).take 16).length = 16 := by simp; omega
      obtain ⟨u, hu, _⟩ := C42_uuid_reversible _ hch
      simp only [assign]
      rw [if_neg (by omega), hu]
      simp only [Res.ok_bind]
      cases hk : indexOf t ds with
      | none =>
        obtain ⟨d, hd, hd'⟩ := hm t (by simp)
        exact absurd hd' (indexOf_none hk d hd)
      | some k =>
        obtain ⟨⟨d, hd, hd'⟩, _⟩ := indexOf_first hk
        simp only [hd]
        apply ih
        · intro t' ht'
          obtain ⟨x, hx, hx'⟩ := hm t' (by simp [ht'])
          obtain ⟨j, hj⟩ := List.mem_iff_getElem?.1 hx
          by_cases hjk : k = j
          · subst hjk
            rw [hd] at hj
            injection hj with hj
            subst hj
            refine ⟨answered e.decode u d, ?_, hx'⟩
            exact List.mem_of_getElem? (List.getElem?_set_self (List.getElem?_eq_some_iff.1 hd).1)
          · exact ⟨x, List.mem_of_getElem? (by rw [List.getElem?_set_ne hjk]; exact hj), hx'⟩
        · omega
  obtain ⟨cs', m', hr⟩ := hassign (tokensOf cs) 0 cs [] (fun t ht => by
    obtain ⟨_, _, d, hd, hd'⟩ := (hA.all t).1 ht
    exact ⟨d, hd, hd'⟩) (by omega)
  refine ⟨cs', m', ?_⟩
  simp only [getRegistered, Res.ok_bind, if_neg hne, if_neg hne', hq, hd, hr]

/-- A digit. -/
def Digit (c : UInt8) : Prop := 48 ≤ c.toNat ∧ c.toNat ≤ 57

/-- What separates groups of digits: one of `-`, `.`, space, `\` and `/`. -/
def Separator (c : UInt8) : Prop := c ∈ txt "-. \\/"

instance (c : UInt8) : Decidable (Separator c) := inferInstanceAs (Decidable (c ∈ txt "-. \\/"))

/-- Groups of digits, each but the first after a separator. -/
inductive Grouped : Bytes → Prop
  | one (g : Bytes) (h : g ≠ []) (hd : ∀ c ∈ g, Digit c) : Grouped g
  | more (g : Bytes) (c : UInt8) (r : Bytes) (h : g ≠ []) (hd : ∀ c ∈ g, Digit c) (hc : Separator c) (hr : Grouped r) :
    Grouped (g ++ c :: r)

/-- `+`, a digit other than 0, and digits. -/
def International (t : Bytes) : Prop := ∃ d ds, t = 43 :: d :: ds ∧ d ≠ 48 ∧ Digit d ∧ ∀ c ∈ ds, Digit c

/-- The bytes a number may have: digits, separators, `(`, `)`, `+`, `#` and the letters of `extension`. -/
def Familiar (c : UInt8) : Prop := Digit c ∨ c ∈ txt "-. \\/()+#extension"

open Verif.Regex in
theorem lang_opt_nil (r : Re) : Lang r.opt [] := .altR .eps

open Verif.Regex in
theorem lang_star_digits : ∀ {g : Bytes}, (∀ c ∈ g, Digit c) → Lang (.star (.cls digitClass)) g
  | [], _ => .starNil
  | c :: g, h => by
    have hc := h c (by simp)
    exact Lang.starCons (s := [c]) (.cls (by
      simp only [digitClass, Bool.and_eq_true, decide_eq_true_eq, UInt8.le_iff_toNat_le]
      exact hc)) (lang_star_digits (fun x hx => h x (by simp [hx])))

open Verif.Regex in
theorem lang_digits {g : Bytes} (h : g ≠ []) (hd : ∀ c ∈ g, Digit c) : Lang (Re.plus (.cls digitClass)) g := by
  cases g with
  | nil => exact absurd rfl h
  | cons c g =>
    have hc := hd c (by simp)
    exact Lang.seq (s := [c]) (.cls (by
      simp only [digitClass, Bool.and_eq_true, decide_eq_true_eq, UInt8.le_iff_toNat_le]
      exact hc)) (lang_star_digits (fun x hx => hd x (by simp [hx])))

/-- The repeated part of the pattern. -/
def bodyRe : Regex.Re := .star (.seq (Regex.Re.byte 40).opt (.seq (Regex.Re.cls digitClass).plus
  (.seq (Regex.Re.byte 41).opt (Regex.Re.cls sepClass).opt)))

open Verif.Regex in
theorem lang_grouped {t : Bytes} (h : Grouped t) : Lang bodyRe t := by
  induction h with
  | one g h hd =>
    have h1 : Lang (.seq (Re.byte 40).opt (.seq (Re.cls digitClass).plus (.seq (Re.byte 41).opt (Re.cls sepClass).opt)))
        ([] ++ (g ++ ([] ++ []))) :=
      .seq (lang_opt_nil _) (.seq (lang_digits h hd) (.seq (lang_opt_nil _) (lang_opt_nil _)))
    have := Lang.starCons h1 .starNil
    simpa [bodyRe] using this
  | more g c r h hd hc _ ih =>
    have hs : sepClass c = true := by
      have : ∀ x ∈ txt "-. \\/", sepClass x = true := by decide +kernel
      exact this c hc
    have h1 : Lang (.seq (Re.byte 40).opt (.seq (Re.cls digitClass).plus (.seq (Re.byte 41).opt (Re.cls sepClass).opt)))
        ([] ++ (g ++ ([] ++ [c]))) :=
      .seq (lang_opt_nil _) (.seq (lang_digits h hd) (.seq (lang_opt_nil _) (.altL (.cls hs))))
    have := Lang.starCons h1 ih
    simpa [bodyRe] using this

open Verif.Regex in
theorem grouped_valid {t : Bytes} (h : Grouped t) : validTel t = true := by
  rw [validTel, matches_iff]
  have e : t = [] ++ (t ++ []) := by simp
  rw [e]
  exact Lang.seq (lang_opt_nil _) (Lang.seq (lang_grouped h) (lang_opt_nil _))

open Verif.Regex in
theorem international_valid {t : Bytes} (h : International t) : validTel t = true := by
  obtain ⟨d, ds, rfl, h0, hd, hds⟩ := h
  rw [validTel, matches_iff]
  have e : 43 :: d :: ds = (([] ++ ([43] ++ (([d] ++ []) ++ []))) ++ []) ++ (ds ++ []) := by simp
  rw [e]
  refine Lang.seq (.altL (.seq (.altL (.seq (lang_opt_nil _) (.seq (.altR (.cls rfl))
    (.seq (.altR (.seq (.cls ?_) (lang_opt_nil _))) (lang_opt_nil _))))) (lang_opt_nil _))) (Lang.seq ?_ (lang_opt_nil _))
  · simp only [range, Bool.and_eq_true, decide_eq_true_eq, UInt8.le_iff_toNat_le]
    have : d.toNat ≠ 48 := fun e => h0 (UInt8.toNat_inj.1 e)
    have := hd.1
    exact ⟨show 49 ≤ d.toNat by omega, hd.2⟩
  · by_cases hn : ds = []
    · rw [hn]; exact .starNil
    · exact lang_grouped (.one ds hn hds)

theorem grouped_ne {t : Bytes} (h : Grouped t) : t ≠ [] := by
  cases h with
  | one _ h _ => exact h
  | more g c r h => simp

/-- A byte that is a separator and no minus sign is in no numeral; nor is a minus sign after a digit. -/
theorem grouped_decimal {t : Bytes} (h : Grouped t) (hs : ∃ c ∈ t, Separator c) : ¬ ∃ v, Decimal t v := by
  rintro ⟨v, ds, hds, hd, h2⟩
  obtain ⟨b, l, rfl, hb⟩ : ∃ b l, t = b :: l ∧ Digit b := by
    cases h with
    | one _ h hd =>
      cases t with
      | nil => exact absurd rfl h
      | cons b l => exact ⟨b, l, rfl, hd b (by simp)⟩
    | more g c r h hd =>
      cases g with
      | nil => exact absurd rfl h
      | cons b l => exact ⟨b, _, rfl, hd b (by simp)⟩
  have key : ∀ c ∈ ds.map (fun d => UInt8.ofNat (48 + d)), Digit c := by
    intro c hc
    obtain ⟨d, hd', rfl⟩ := List.mem_map.1 hc
    have := hd d hd'
    rw [Digit, Wire.toNat_ofNat_lt _ (by omega)]
    omega
  have hsep : ∀ c, Separator c → ¬ Digit c := by
    intro c hc
    have : ∀ x ∈ txt "-. \\/", ¬ (48 ≤ x.toNat ∧ x.toNat ≤ 57) := by decide +kernel
    exact this c hc
  obtain ⟨c, hc, hcs⟩ := hs
  rcases h2 with ⟨h2, _⟩ | ⟨h2, _⟩ | ⟨h2, _⟩
  · rw [h2] at hc
    exact hsep c hcs (key c hc)
  · injection h2 with h2 _
    subst h2
    exact absurd hb.1 (by decide)
  · injection h2 with h2 _
    subst h2
    exact absurd hb.1 (by decide)

/-- **C76 refuted**, for the ways numbers are written: a single contact whose number is written in groups of digits
with separators, as in `0151/123-45`, makes every refresh fail, whatever else is in the address book. -/
theorem C76_grouped_number_spoils (e : Env) (cs : List Contact) (c : Contact) (hc : c ∈ cs) (h : Grouped c.tel)
    (hs : ∃ b ∈ c.tel, Separator b) : getRegistered e (.ok cs) = .err .badEncoding :=
  C76_one_number_spoils_all e cs ⟨c, hc, grouped_ne h, grouped_valid h,
    fun ⟨v, hv, _⟩ => grouped_decimal h hs ⟨v, hv⟩⟩

example : Grouped (txt "0151/123-45") ∧ ∃ b ∈ txt "0151/123-45", Separator b := by
  refine ⟨?_, ⟨47, by decide +kernel, by decide +kernel⟩⟩
  have hd : ∀ s ∈ [txt "0151", txt "123", txt "45"], s ≠ [] ∧ ∀ c ∈ s, Digit c := by
    unfold Digit
    decide +kernel
  have h1 := hd (txt "0151") (by simp)
  have h2 := hd (txt "123") (by simp)
  have h3 := hd (txt "45") (by simp)
  exact Grouped.more (txt "0151") 47 (txt "123-45") h1.1 h1.2 (by decide +kernel)
    (Grouped.more (txt "123") 45 (txt "45") h2.1 h2.2 (by decide +kernel) (.one _ h3.1 h3.2))

open Verif.Regex in
/-- May the byte occur in a word of the expression? -/
def uses (c : UInt8) : Re → Bool
  | .none => false
  | .eps => false
  | .cls p => p c
  | .alt a b => uses c a || uses c b
  | .seq a b => uses c a || uses c b
  | .star a => uses c a

open Verif.Regex in
theorem lang_uses {r : Re} {s : Bytes} (h : Lang r s) : ∀ c ∈ s, uses c r = true := by
  induction h with
  | eps => simp
  | cls h => intro c hc; rw [List.mem_singleton.1 hc]; exact h
  | altL _ ih => intro c hc; simp [uses, ih c hc]
  | altR _ ih => intro c hc; simp [uses, ih c hc]
  | seq _ _ ih ih' =>
    intro c hc
    rcases List.mem_append.1 hc with hc | hc
    · simp [uses, ih c hc]
    · simp [uses, ih' c hc]
  | starNil => simp
  | starCons _ _ ih ih' =>
    intro c hc
    rcases List.mem_append.1 hc with hc | hc
    · exact ih c hc
    · exact ih' c hc

theorem uses_familiar : ∀ c : UInt8, uses c telRe = true → Familiar c := by
  have h : ∀ n : Fin 256, uses (UInt8.ofNat n) telRe = true →
      (48 ≤ n.val ∧ n.val ≤ 57) ∨ UInt8.ofNat n ∈ txt "-. \\/()+#extension" := by
    decide +kernel
  intro c hc
  have := h ⟨c.toNat, c.toNat_lt⟩ (by simpa using hc)
  simpa [Familiar, Digit] using this

/-- A number that passes the check has digits, separators, `(`, `)`, `+`, `#` and letters of `extension` only. -/
theorem valid_familiar {t : Bytes} (h : validTel t = true) : ∀ c ∈ t, Familiar c := by
  rw [validTel, Regex.matches_iff] at h
  exact fun c hc => uses_familiar c (lang_uses h c hc)

/-- **C76 (part), what is skipped.** Contacts without a number and with one that has a byte no number has, such as
a letter or the `@` of a mail address, do no harm: if all others have plain numerals and there is one of them, the refresh
succeeds. Missing: numbers written in groups, `C76_grouped_number_spoils`. -/
theorem C76_foreign_skipped_partial (e : Env) (cs : List Contact)
    (hne : ∃ c ∈ cs, Grouped c.tel ∨ International c.tel)
    (hnum : ∀ c ∈ cs, c.tel = [] ∨ (∃ b ∈ c.tel, ¬ Familiar b) ∨ ∃ v, Decimal c.tel v ∧ Fits v)
    (hask : ∀ q, ∃ data, e.ask q = .ok data ∧ 2 * (q.length - e.nonce.length) ≤ data.length) :
    ∃ cs' m, getRegistered e (.ok cs) = .ok (cs', m) := by
  obtain ⟨c, hc, h⟩ := hne
  have hv : c.tel ≠ [] ∧ validTel c.tel = true := by
    rcases h with h | h
    · exact ⟨grouped_ne h, grouped_valid h⟩
    · exact ⟨by obtain ⟨d, ds, e, _⟩ := h; rw [e]; simp, international_valid h⟩
  refine C76_refresh_succeeds_partial e cs ⟨c, hc, hv⟩ (fun d hd hn hv => ?_) hask
  rcases hnum d hd with h | ⟨b, hb, h⟩ | h
  · exact absurd h hn
  · exact absurd (valid_familiar hv b hb) h
  · exact h

example : ¬ Familiar 64 ∧ Grouped (txt "01511234") ∧ ∃ v, Decimal (txt "01511234") v ∧ Fits v := by
  have hd : txt "01511234" ≠ [] ∧ ∀ c ∈ txt "01511234", Digit c := by unfold Digit; decide +kernel
  refine ⟨by unfold Familiar Digit; decide +kernel, .one _ hd.1 hd.2, 1511234, ?_, by unfold Fits; decide⟩
  exact ⟨[0, 1, 5, 1, 1, 2, 3, 4], by decide, by decide, Or.inl ⟨by decide +kernel, by decide⟩⟩

/-- **C77 refuted.** A reply that decrypts to fewer than 16 bytes per number crashes the client. -/
theorem C77_short_reply_crashes (e : Env) (cs : List Contact) (q data : Bytes)
    (hq : buildQuery e.nonce (tokensOf cs) = .ok q) (hd : e.ask q = .ok data)
    (hne : tokensOf cs ≠ []) (hs : data.length < 16 * (tokensOf cs).length) :
    getRegistered e (.ok cs) = .panic := by
  have hcs : cs ≠ [] := by rintro rfl; exact hne rfl
  have hA := tokensOf_asked cs
  simp only [getRegistered, Res.ok_bind, if_neg hcs, if_neg hne, hq, hd]
  have key : ∀ (ts : List Bytes) (ind : Nat) (ds : List Contact) (m : Book),
      data.length < (ind + ts.length) * 16 → ind * 16 ≤ data.length →
      assign e.decode data ind ts (ds, m) = .panic := by
    intro ts
    induction ts with
    | nil => intro ind ds m h1 h2; simp at h1; omega
    | cons t r ih =>
      intro ind ds m h1 h2
      simp only [List.length_cons] at h1
      simp only [assign]
      by_cases hl : data.length < (ind + 1) * 16
      · rw [if_pos hl]
      · rw [if_neg hl]
        have hch : ((data.drop (ind * 16)).take 16).length = 16 := by simp; omega
        obtain ⟨u, hu, _⟩ := C42_uuid_reversible _ hch
        rw [hu]
        simp only [Res.ok_bind]
        cases hk : indexOf t ds with
        | none => rfl
        | some k =>
          cases hc : ds[k]? with
          | none => simp only [hc]
          | some d =>
            simp only [hc]
            exact ih _ _ _ (by omega) (by omega)
  exact key _ 0 cs [] (by omega) (by omega)

/-- **C77 refuted.** So does a reply whose nonce is not twelve bytes long. -/
theorem C77_bad_nonce_crashes (g : Gcm) (r : Response) (a : Attestation) (rest : List Attestation)
    (hid : r.requestId = a.requestId) (hk : aesKeyOk a.serverKey = true) (hiv : r.iv.length ≠ 12) :
    responseData g r (a :: rest) = .panic := by
  simp [responseData, hid, aesDecrypt, hk, hiv]

/-- **C77 (part).** A reply with a twelve byte nonce is decrypted or reported; nothing else happens.
Missing: nonces of other lengths, and replies that are too short once decrypted. -/
theorem C77_reply_partial (g : Gcm) (r : Response) (as : List Attestation) (hiv : r.iv.length = 12) :
    responseData g r as ≠ .panic := by
  induction as with
  | nil => simp [responseData]
  | cons a rest ih =>
    simp only [responseData]
    split
    · simp only [aesDecrypt]
      split
      · simp
      · rw [if_neg (by omega)]
        split <;> simp
    · exact ih

/-! ## C75: the request -/

theorem encrypt_decrypt {g : Gcm} {key aad data iv d t : Bytes}
    (h : aesEncryptNonce g key aad data iv = .ok (d, t)) : aesDecrypt g key iv d t aad = .ok data := by
  simp only [aesEncryptNonce] at h
  split at h
  · cases h
  · next hk =>
    split at h
    · cases h
    · next hiv =>
      simp only [Res.ok.injEq, Prod.mk.injEq] at h
      obtain ⟨rfl, rfl⟩ := h
      simp only [aesDecrypt]
      rw [if_neg hk, if_neg hiv, List.take_append_drop, g.unlock_lock]

/-- **C75.** Every attested enclave can open its envelope with its own key, bound to its request id; the
key in it opens the query, which matches the commitment, the count and the address book. -/
theorem C75_request (P : Prims) (g : Gcm) (key nonce iv : Bytes) (book : List Bytes)
    (atts : List (Attestation × Bytes)) (r : Request)
    (h : createRequest P g key nonce iv book atts = .ok r) :
    (∃ q, aesDecrypt g key r.iv r.data r.mac [] = .ok q ∧ r.commitment = P.sha256 q ∧ QueryFor nonce book q) ∧
    r.addressCount = book.length ∧ r.envelopes.length = atts.length ∧
    ∀ (i : Nat) (a : Attestation) (v : Bytes), atts[i]? = some (a, v) → ∃ e : Envelope, r.envelopes[i]? = some e ∧ e.name = a.name ∧
      e.requestId = a.requestId ∧ aesDecrypt g a.clientKey e.iv e.data e.mac e.requestId = .ok key := by
  simp only [createRequest, Res.bind_eq_ok] at h
  obtain ⟨q, hq, ⟨d, t⟩, hd, es, hes, h⟩ := h
  injection h with h
  subst h
  refine ⟨⟨q, encrypt_decrypt hd, rfl, C61_query_numbers _ _ _ hq⟩, rfl, ?_⟩
  simp only
  clear hd hq
  induction atts generalizing es with
  | nil => simp only [envelopes, Res.ok.injEq] at hes; subst hes; simp
  | cons x rest ih =>
    obtain ⟨a, v⟩ := x
    simp only [envelopes, Res.bind_eq_ok, Res.ok.injEq] at hes
    obtain ⟨⟨d', t'⟩, hd', es', hes', rfl⟩ := hes
    obtain ⟨h1, h2⟩ := ih es' hes'
    refine ⟨by simp [h1], fun i b w hi => ?_⟩
    cases i with
    | zero =>
      simp only [List.getElem?_cons_zero, Option.some.injEq, Prod.mk.injEq] at hi
      obtain ⟨rfl, rfl⟩ := hi
      exact ⟨_, rfl, rfl, rfl, encrypt_decrypt hd'⟩
    | succ i =>
      simp only [List.getElem?_cons_succ] at hi
      obtain ⟨e, he, h3⟩ := h2 i b w hi
      exact ⟨e, by simpa using he, h3⟩

/-- **C75 (reply).** What an enclave encrypts under its server key and labels with its request id is what
the client reads, whatever the order in which the attestations are walked. -/
theorem C75_reply (g : Gcm) (as : List Attestation) (a : Attestation) (ha : a ∈ as) (data iv d t : Bytes)
    (hids : ∀ b ∈ as, b.requestId = a.requestId → b = a)
    (h : aesEncryptNonce g a.serverKey [] data iv = .ok (d, t)) :
    responseData g ⟨d, iv, t, a.requestId⟩ as = .ok data := by
  induction as with
  | nil => simp at ha
  | cons b rest ih =>
    simp only [responseData]
    by_cases hb : a.requestId = b.requestId
    · rw [if_pos hb, hids b (by simp) hb.symm]
      exact encrypt_decrypt h
    · rw [if_neg hb]
      rcases List.mem_cons.1 ha with rfl | ha
      · exact absurd rfl hb
      · exact ih ha (fun x hx => hids x (by simp [hx]))

/-- Two enclaves, two numbers. -/
example : ∃ r, createRequest Prims.toy Gcm.toy (List.replicate 32 1) (List.replicate 32 9) (List.replicate 12 2)
    [txt "+4915112345", txt "4467060706060"]
    [(⟨[1], [7, 7], List.replicate 32 3, List.replicate 32 4⟩, List.replicate 12 5),
     (⟨[2], [8, 8], List.replicate 32 6, List.replicate 32 7⟩, List.replicate 12 8)] = .ok r := by
  have hk : aesKeyOk (List.replicate 32 (1 : UInt8)) = true ∧ aesKeyOk (List.replicate 32 (3 : UInt8)) = true ∧
    aesKeyOk (List.replicate 32 (6 : UInt8)) = true := by decide
  have h1 : (createRequest Prims.toy Gcm.toy (List.replicate 32 1) (List.replicate 32 9) (List.replicate 12 2)
    [txt "+4915112345", txt "4467060706060"]
    [(⟨[1], [7, 7], List.replicate 32 3, List.replicate 32 4⟩, List.replicate 12 5),
     (⟨[2], [8, 8], List.replicate 32 6, List.replicate 32 7⟩, List.replicate 12 8)]).isOk = true := by
    decide +kernel
  revert h1
  cases createRequest Prims.toy Gcm.toy (List.replicate 32 1) (List.replicate 32 9) (List.replicate 12 2)
    [txt "+4915112345", txt "4467060706060"]
    [(⟨[1], [7, 7], List.replicate 32 3, List.replicate 32 4⟩, List.replicate 12 5),
     (⟨[2], [8, 8], List.replicate 32 6, List.replicate 32 7⟩, List.replicate 12 8)] with
  | ok r => exact fun _ => ⟨r, rfl⟩
  | err e => intro h; cases h
  | panic => intro h; cases h

/-! ## C73: what a refresh does to the contact list -/

/-- The contact map after a refresh (server.go:687-712): replaced when the loop was reached. -/
def refreshed (old : Book) (e : Env) (cs : List Contact) : Book :=
  match getRegistered e (.ok cs) with
  | .ok (_, m) => m
  | _ => old

/-- **C73 refuted.** A refresh forgets every contact that is not in the application's address book — for
instance one whose profile key was learnt from a message: unless its key happens to be a number asked
about or an id in the reply, it is gone. -/
theorem C73_forgotten (old : Book) (e : Env) (cs cs' : List Contact) (m : Book) (u : Bytes)
    (h : getRegistered e (.ok cs) = .ok (cs', m)) (hu : ∀ c ∈ cs', c.tel ≠ u ∧ c.uuid ≠ u) :
    get (refreshed old e cs) u = none := by
  simp only [refreshed, h]
  obtain ⟨ts, q, data, h1, h2, h3, h4, _, h5⟩ := refresh_ok e cs cs' m h
  obtain ⟨_, _, as, _, ha, rfl⟩ := assign_ok e.decode data ts 0 cs [] cs' m h1.once h5
  rw [get_filed_other]
  · rfl
  · intro c hc hk
    obtain ⟨i, hi⟩ := List.mem_iff_getElem?.1 hc
    obtain ⟨t, k, _, _, hk'⟩ := ha i c hi
    have hm := hu c (List.mem_of_getElem? hk')
    simp only [fileKey] at hk
    split at hk
    · exact hm.2 hk
    · exact hm.1 hk

/-- **C73 (part).** The contacts of the address book are kept: each one asked about is afterwards in the
map, under its id or its number, with its profile key as it was, if no two answers have the same key.
Missing: contacts outside the address book, see `C73_forgotten`. -/
theorem C73_address_book_kept_partial (old : Book) (e : Env) (cs cs' : List Contact) (m : Book)
    (h : getRegistered e (.ok cs) = .ok (cs', m)) (c' : Contact) (k : Nat) (t : Bytes)
    (ht : t ≠ [] ∧ validTel t = true) (hf : First cs t k) (hk : cs'[k]? = some c')
    (hu : ∀ d ∈ cs', d.registered = true → c'.registered = true → d.uuid = c'.uuid → d = c')
    (hx : ∀ d ∈ cs', d.registered = true → d.uuid ≠ c'.tel)
    (hx' : ∀ d ∈ cs', c'.registered = true → d.tel ≠ c'.uuid) :
    get (refreshed old e cs) (if c'.registered then c'.uuid else c'.tel) = some c' := by
  simp only [refreshed, h]
  obtain ⟨ts, q, data, h1, h2, h3, h4, _, h5⟩ := refresh_ok e cs cs' m h
  obtain ⟨hall, _, as, hlen, ha, rfl⟩ := assign_ok e.decode data ts 0 cs [] cs' m h1.once h5
  obtain ⟨⟨c, hc, hct⟩, _⟩ := id hf
  have hmem : t ∈ ts := (h1.all t).2 ⟨ht.1, ht.2, c, List.mem_of_getElem? hc, hct⟩
  obtain ⟨i, hi⟩ := List.mem_iff_getElem?.1 hmem
  have hil : i < as.length := by rw [hlen]; exact (List.getElem?_eq_some_iff.1 hi).1
  obtain ⟨t', k', ht', hf', hk'⟩ := ha i _ (List.getElem?_eq_getElem hil)
  rw [hi] at ht'
  injection ht' with ht'
  subst ht'
  have := first_unique hf hf'
  subst this
  rw [hk] at hk'
  injection hk' with hk'
  have hin : c' ∈ as := by rw [hk']; exact List.getElem_mem hil
  refine get_filed (c := c') hin ?_
  intro d hd hkey
  obtain ⟨j, hj⟩ := List.mem_iff_getElem?.1 hd
  obtain ⟨t2, k2, ht2, hf2, hk2⟩ := ha j d hj
  have hd' : d ∈ cs' := List.mem_of_getElem? hk2
  have hc' : c' ∈ cs' := List.mem_of_getElem? hk
  simp only [fileKey] at hkey
  by_cases hr : d.registered = true <;> by_cases hr' : c'.registered = true
  · simp only [hr, hr', if_true] at hkey
    exact hu d hd' hr hr' hkey
  · simp only [hr, if_true, hr', Bool.false_eq_true, if_false] at hkey
    exact absurd hkey (hx d hd' hr)
  · simp only [hr, hr', if_true, Bool.false_eq_true, if_false] at hkey
    exact absurd hkey (hx' d hd' hr')
  · simp only [hr, hr', Bool.false_eq_true, if_false] at hkey
    -- the same number: asked about only once
    obtain ⟨_, kk, cc, uu, hff, hcc, _, hans⟩ := hall i t hi
    obtain ⟨_, kk2, cc2, uu2, hff2, hcc2, _, hans2⟩ := hall j t2 ht2
    have e1 := first_unique hf hff
    subst e1
    have e2 := first_unique hf2 hff2
    subst e2
    rw [hk] at hans
    injection hans with hans
    rw [hk2] at hans2
    injection hans2 with hans2
    obtain ⟨⟨y, hy, hyt⟩, _⟩ := hff
    obtain ⟨⟨z, hz, hzt⟩, _⟩ := hff2
    rw [hcc] at hy
    rw [hcc2] at hz
    injection hy with hy
    injection hz with hz
    have e3 : c'.tel = t := by rw [hans, ← hyt, ← hy]; rfl
    have e4 : d.tel = t2 := by rw [hans2, ← hzt, ← hz]; rfl
    rw [e3, e4] at hkey
    subst hkey
    have e5 := first_unique hf hf2
    subst e5
    rw [hk] at hk2
    injection hk2 with hk2
    exact hk2.symm

/-! ## C74: the contact list after a restart -/

/-- A contact without an account after a refresh carries the all-zero UUID text; one with an account
carries another text of 36 characters. -/
theorem filed_shape (e : Env) (cs cs' : List Contact) (m : Book) (h : getRegistered e (.ok cs) = .ok (cs', m)) :
    Keyed m ∧ ∀ en ∈ m, en.1 = fileKey en.2 ∧ en.2.uuid.length = 36 ∧
      (en.2.registered = true ↔ en.2.uuid ≠ zeroUuid) ∧ en.2 ∈ cs' ∧ en.2.tel ≠ [] := by
  obtain ⟨ts, q, data, h1, h2, h3, h4, _, h5⟩ := refresh_ok e cs cs' m h
  obtain ⟨hall, _, as, _, ha, rfl⟩ := assign_ok e.decode data ts 0 cs [] cs' m h1.once h5
  refine ⟨keyed_filed (by simp [Keyed]), fun en hen => ?_⟩
  rcases mem_filed hen with h6 | ⟨h6, h7⟩
  · simp at h6
  · refine ⟨h7, ?_⟩
    obtain ⟨i, hi⟩ := List.mem_iff_getElem?.1 h6
    obtain ⟨t, k, ht, hf, hk⟩ := ha i _ hi
    obtain ⟨hl, k', c, u, hf', hc, hu, hc'⟩ := hall i t ht
    have := first_unique hf hf'
    subst this
    rw [hk] at hc'
    injection hc' with hc'
    have hlen : (chunk data (0 + i)).length = 16 := by simp [chunk]; omega
    have hul := uuid_length hlen hu
    have e1 : en.2.uuid = u := by rw [hc']; rfl
    have e2 : en.2.registered = (decide (u.length > 0) && u != zeroUuid) := by rw [hc']; rfl
    refine ⟨by rw [e1]; exact hul, ?_, List.mem_of_getElem? hk, ?_⟩
    · rw [e2, e1]
      simp [hul]
    · obtain ⟨⟨y, hy, hyt⟩, _⟩ := hf
      rw [hc] at hy
      injection hy with hy
      have : en.2.tel = t := by rw [hc', ← hyt, ← hy]; rfl
      rw [this]
      exact ((h1.all t).1 (List.mem_of_getElem? ht)).1

theorem loads_by_uuid {u : Bytes} (h : u.length = 36) (hd : u ≠ [] → u.head? ≠ some 0) : hasUuid u = true := by
  have h0 : u ≠ [] := by rintro rfl; simp at h
  have h1 : u ≠ [48] := by rintro rfl; simp at h
  simp [hasUuid, h0, h1, hd h0]

/-- The first character of a UUID text is a digit, never the byte 0. -/
theorem uuid_head {b u : Bytes} (hb : b.length = 16) (h : Encoding.idToHexUUID b = .ok u) : u.head? ≠ some 0 := by
  simp only [Encoding.idToHexUUID] at h
  split at h
  · cases h
  · split at h
    · cases h
    · injection h with h
      subst h
      cases b with
      | nil => simp at hb
      | cons x r =>
        have : ∀ n, n < 16 → Encoding.hexDigit n ≠ 0 := by decide
        have hx : x.toNat / 16 < 16 := by have := x.toNat_lt; omega
        simp only [Encoding.dashed, List.take_succ_cons, Encoding.hexEncode, List.cons_append,
          List.head?_cons, ne_eq, Option.some.injEq]
        exact this _ hx

/-- Entries of the map load under their UUID text: also the contacts without an account, whose all-zero
UUID consists of the digit 0, not of the byte 0 the code compares with. -/
theorem filed_loadKey (e : Env) (cs cs' : List Contact) (m : Book) (h : getRegistered e (.ok cs) = .ok (cs', m)) :
    ∀ en ∈ m, loadKey en.2 = en.2.uuid := by
  intro en hen
  obtain ⟨ts, q, data, h1, h2, h3, h4, _, h5⟩ := refresh_ok e cs cs' m h
  obtain ⟨hall, _, as, _, ha, rfl⟩ := assign_ok e.decode data ts 0 cs [] cs' m h1.once h5
  rcases mem_filed hen with h6 | ⟨h6, h7⟩
  · simp at h6
  · obtain ⟨i, hi⟩ := List.mem_iff_getElem?.1 h6
    obtain ⟨t, k, ht, hf, hk⟩ := ha i _ hi
    obtain ⟨hl, k', c, u, hf', hc, hu, hc'⟩ := hall i t ht
    have := first_unique hf hf'
    subst this
    rw [hk] at hc'
    injection hc' with hc'
    have hlen : (chunk data (0 + i)).length = 16 := by simp [chunk]; omega
    have e1 : en.2.uuid = u := by rw [hc']; rfl
    have : hasUuid en.2.uuid = true := by
      rw [e1]
      exact loads_by_uuid (uuid_length hlen hu) (fun _ => uuid_head hlen hu)
    simp [loadKey, this]

/-- **C74 refuted.** After a refresh and a restart — whatever order the file was written in — no contact
without an account is found under its number any more, although it was before the restart, and at most
one contact without an account is left at all, under the all-zero UUID. -/
theorem C74_lost_at_restart (e : Env) (cs cs' : List Contact) (m : Book)
    (h : getRegistered e (.ok cs) = .ok (cs', m)) (file : List Contact) (hfile : List.Perm file (fileOf m)) :
    (∀ t, t.length ≠ 36 → get (loadContacts [] file) t = none) ∧
    (∀ en ∈ loadContacts [] file, en.2.registered = false → en.1 = zeroUuid) ∧
    ((loadContacts [] file).filter (fun en => !en.2.registered)).length ≤ 1 := by
  obtain ⟨hkeyed, hshape⟩ := filed_shape e cs cs' m h
  have hlk := filed_loadKey e cs cs' m h
  have hload : ∀ en ∈ loadContacts [] file, ∃ k, (k, en.2) ∈ m ∧ en.1 = en.2.uuid := by
    intro en hen
    rcases mem_load hen with h1 | ⟨h1, h2⟩
    · simp at h1
    · have h3 := hfile.mem_iff.1 h1
      obtain ⟨en', hen', he⟩ := List.mem_map.1 h3
      have : loadKey en'.2 = en'.2.uuid := hlk en' hen'
      rw [he] at this
      refine ⟨en'.1, ?_, by rw [h2, this]⟩
      rw [← he]
      exact hen'
  have hun : ∀ en ∈ loadContacts [] file, en.2.registered = false → en.1 = zeroUuid := by
    intro en hen hr
    obtain ⟨k, hk, he⟩ := hload en hen
    obtain ⟨_, _, h3, _⟩ := hshape _ hk
    simp only at h3
    rw [he]
    by_contra hne
    rw [h3.2 hne] at hr
    cases hr
  refine ⟨?_, hun, ?_⟩
  · intro t ht
    cases hg : get (loadContacts [] file) t with
    | none => rfl
    | some c =>
      obtain ⟨k, hk, he⟩ := hload _ (get_mem hg)
      obtain ⟨_, h3, _⟩ := hshape _ hk
      simp only at he h3
      rw [← he] at h3
      exact absurd h3 ht
  · have hnd := keyed_load (m := []) (by simp [Keyed]) file
    obtain ⟨l, hl⟩ : ∃ l, l = (loadContacts [] file).filter (fun en => !en.2.registered) := ⟨_, rfl⟩
    rw [← hl]
    have hkeys : ∀ en ∈ l, en.1 = zeroUuid := by
      intro en hen
      rw [hl, List.mem_filter] at hen
      exact hun en hen.1 (by simpa using hen.2)
    have hndl : (l.map (·.1)).Nodup := by
      rw [hl]
      exact List.Nodup.sublist (List.filter_sublist.map _) hnd
    match l, hkeys, hndl with
    | [], _, _ => simp
    | [_], _, _ => simp
    | a :: b :: r, hk, hn =>
      exfalso
      have ha := hk a (by simp)
      have hb := hk b (by simp)
      simp only [List.map_cons, List.nodup_cons, List.mem_cons, not_or] at hn
      exact hn.1.1 (by rw [ha, hb])

/-- **C74 (part).** A contact with an account survives the restart unchanged, under its UUID.
Missing: contacts without an account, see `C74_lost_at_restart`. -/
theorem C74_registered_survive_partial (e : Env) (cs cs' : List Contact) (m : Book)
    (h : getRegistered e (.ok cs) = .ok (cs', m)) (file : List Contact) (hfile : List.Perm file (fileOf m))
    (u : Bytes) (c : Contact) (hg : get m u = some c) (hr : c.registered = true) :
    get (loadContacts [] file) u = some c := by
  obtain ⟨hkeyed, hshape⟩ := filed_shape e cs cs' m h
  have hlk := filed_loadKey e cs cs' m h
  have hmem := get_mem hg
  obtain ⟨h1, h2, h3, _⟩ := hshape _ hmem
  simp only [fileKey, hr, if_true] at h1 h3
  have hk : loadKey c = u := by rw [hlk _ hmem, h1]
  rw [← hk]
  apply get_load
  · exact hfile.mem_iff.2 (List.mem_map.2 ⟨_, hmem, rfl⟩)
  · intro d hd hdk
    obtain ⟨en, hen, rfl⟩ := List.mem_map.1 (hfile.mem_iff.1 hd)
    obtain ⟨e1, e2, e3, _⟩ := hshape _ hen
    rw [hlk _ hen, hlk _ hmem] at hdk
    simp only at hdk
    have hreg : en.2.registered = true := by
      rw [e3, hdk]
      exact h3.1 trivial
    simp only [fileKey, hreg, if_true] at e1
    have : get m u = some en.2 := by
      apply get_of_mem hkeyed
      rw [h1, ← hdk, ← e1]
      exact hen
    rw [hg] at this
    injection this with this
    exact this.symm

/-- An environment whose service knows nobody but the first number asked about. -/
def demoEnv : Env where
  nonce := List.replicate 32 9
  ask q := .ok (List.replicate 16 0x4a ++ List.replicate (2 * (q.length - 32) - 16) 0)
  decode _ := none

/-- Three contacts, one registered: after the refresh all three are in the map, after the restart only
two, and the numbers of the two without an account are gone. -/
example : ∃ cs' m, getRegistered demoEnv (.ok [⟨[], txt "+491", txt "A", [], false, [], [], [], none, []⟩,
      ⟨[], txt "+492", txt "B", [], false, [], [], [], none, []⟩, ⟨[], txt "+493", txt "C", [], false, [], [], [], none, []⟩]) = .ok (cs', m) ∧
    m.length = 3 ∧ (get m (txt "+492")).isSome = true ∧ (get m (txt "+493")).isSome = true ∧
    (loadContacts [] (fileOf m)).length = 2 ∧ get (loadContacts [] (fileOf m)) (txt "+492") = none := by
  have h1 : (match getRegistered demoEnv (.ok [⟨[], txt "+491", txt "A", [], false, [], [], [], none, []⟩,
      ⟨[], txt "+492", txt "B", [], false, [], [], [], none, []⟩, ⟨[], txt "+493", txt "C", [], false, [], [], [], none, []⟩]) with
    | .ok (_, m) => decide (m.length = 3) && (get m (txt "+492")).isSome && (get m (txt "+493")).isSome &&
      decide ((loadContacts [] (fileOf m)).length = 2) &&
      decide (get (loadContacts [] (fileOf m)) (txt "+492") = none)
    | _ => false) = true := by decide +kernel
  revert h1
  cases getRegistered demoEnv (.ok [⟨[], txt "+491", txt "A", [], false, [], [], [], none, []⟩,
      ⟨[], txt "+492", txt "B", [], false, [], [], [], none, []⟩, ⟨[], txt "+493", txt "C", [], false, [], [], [], none, []⟩]) with
  | ok x =>
    obtain ⟨cs', m⟩ := x
    simp only [Bool.and_eq_true, decide_eq_true_eq]
    rintro ⟨⟨⟨⟨a, b⟩, c⟩, d⟩, e⟩
    exact ⟨cs', m, rfl, a, b, c, d, e⟩
  | err e => intro h; cases h
  | panic => intro h; cases h

end Verif.Props.Discovery
