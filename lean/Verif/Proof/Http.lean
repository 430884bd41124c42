import Verif.Spec.Http
import Verif.Proof.Content
/-!
# Lemmas about requests
-/
namespace Verif.Http
open Verif Verif.Keys

variable {W α β : Type}

namespace M

theorem bind_ok {x : M W α} {f : α → M W β} {s s' : St W} {a : α} (h : x s = (s', .ok a)) :
    (x >>= f) s = f a s' := by
  show M.bind x f s = _
  simp only [M.bind, h]

theorem bind_err {x : M W α} {f : α → M W β} {s s' : St W} {e : Err} (h : x s = (s', .err e)) :
    (x >>= f) s = (s', .err e) := by
  show M.bind x f s = _
  simp only [M.bind, h]

theorem bind_panic {x : M W α} {f : α → M W β} {s s' : St W} (h : x s = (s', .panic)) :
    (x >>= f) s = (s', .panic) := by
  show M.bind x f s = _
  simp only [M.bind, h]

@[simp] theorem lift_run (r : Res α) (s : St W) : (M.lift r) s = (s, r) := rfl
@[simp] theorem pure_run (a : α) (s : St W) : (pure a : M W α) s = (s, .ok a) := rfl

theorem bind_eq_ok {x : M W α} {f : α → M W β} {s s' : St W} {b : β} (h : (x >>= f) s = (s', .ok b)) :
    ∃ a s1, x s = (s1, .ok a) ∧ f a s1 = (s', .ok b) := by
  rcases hx : x s with ⟨s1, r⟩
  cases r with
  | ok a => exact ⟨a, s1, rfl, by rw [bind_ok hx] at h; exact h⟩
  | err e => rw [bind_err hx] at h; simp at h
  | panic => rw [bind_panic hx] at h; simp at h

end M

/-! ## Splitting addresses -/

theorem split_ne_nil (u : Bytes) : split u ≠ [] := by
  cases u with
  | nil => simp [split]
  | cons c l => simp only [split]; split <;> [simp; (split <;> simp)]

theorem split_length (u : Bytes) : (split u).length = u.count 47 + 1 := by
  induction u with
  | nil => rfl
  | cons c l ih =>
    simp only [split]
    split
    · next h => simp [h, ih]
    · next h =>
      have hc : (c :: l).count 47 = l.count 47 := by
        rw [List.count_cons]; simp [h]
      cases hs : split l with
      | nil => exact absurd hs (split_ne_nil l)
      | cons p ps => rw [hs] at ih; simp only [List.length_cons] at ih ⊢; omega

theorem intercalate_split (u : Bytes) : List.intercalate [47] (split u) = u := by
  induction u with
  | nil => rfl
  | cons c l ih =>
    simp only [split]
    split
    · next h =>
      cases hs : split l with
      | nil => exact absurd hs (split_ne_nil l)
      | cons p ps =>
        rw [hs] at ih
        simp only [List.intercalate, List.intersperse, List.flatten] at ih ⊢
        simp [h, ih]
    · next h =>
      cases hs : split l with
      | nil => exact absurd hs (split_ne_nil l)
      | cons p ps =>
        rw [hs] at ih
        cases ps with
        | nil => simp only [List.intercalate, List.intersperse, List.flatten] at ih ⊢; simpa using ih
        | cons q qs => simp only [List.intercalate, List.intersperse, List.flatten] at ih ⊢; simpa using ih

theorem split_append (a p : Bytes) (h : ∀ c ∈ a, c ≠ 47) : split (a ++ 47 :: p) = a :: split p := by
  induction a with
  | nil => simp [split]
  | cons c l ih =>
    have hc : c ≠ 47 := h c (by simp)
    simp only [List.cons_append, split, if_neg hc, ih (fun x hx => h x (by simp [hx]))]

/-- The path of an address. -/
theorem relativePath_url (host p : Bytes) (h : ∀ c ∈ host, c ≠ 47) :
    relativePath (ascii "https://" ++ host ++ 47 :: p) = .ok (47 :: p) := by
  have e : ascii "https://" ++ host ++ 47 :: p = ascii "https:" ++ 47 :: ([] ++ 47 :: (host ++ 47 :: p)) := by
    have : ascii "https://" = ascii "https:" ++ [47, 47] := by decide
    rw [this]; simp
  unfold relativePath
  rw [e, split_append _ _ (by decide), split_append _ _ (by simp), split_append _ _ h]
  simp only [List.length_cons, List.drop_succ_cons, List.drop_zero, intercalate_split]
  rw [if_neg (by omega)]

theorem relativePath_panic (u : Bytes) : relativePath u = .panic ↔ u.count 47 < 2 := by
  unfold relativePath
  simp only [split_length]
  constructor
  · intro h; split at h
    · omega
    · cases h
  · intro h; rw [if_pos (by omega)]

theorem relativePath_no_err (u : Bytes) (e : Err) : relativePath u ≠ .err e := by
  unfold relativePath
  simp only []
  split <;> simp

/-! ## Headers -/

theorem mem_setH {h : List (Bytes × Bytes)} {k v : Bytes} {p : Bytes × Bytes} (hp : p ∈ h) (hn : p.1 ≠ canon k) :
    p ∈ setH h k v := by
  simp [setH, hp, hn]

theorem foldl_setH (hs : List (Bytes × Bytes)) (acc : List (Bytes × Bytes))
    (hc : ∀ p ∈ hs, canon p.1 = p.1) (hn : (hs.map Prod.fst).Nodup)
    (ha : ∀ p ∈ acc, p.1 ∉ hs.map Prod.fst) :
    hs.foldl (fun h p => setH h p.1 p.2) acc = acc ++ hs := by
  induction hs generalizing acc with
  | nil => simp
  | cons p ps ih =>
    have hp : setH acc p.1 p.2 = acc ++ [p] := by
      unfold setH
      rw [hc p (by simp), List.filter_eq_self.2]
      intro q hq
      have := ha q hq
      simp only [List.map_cons, List.mem_cons, not_or] at this
      simp [this.1]
    rw [List.foldl_cons, hp, ih]
    · simp
    · intro q hq; exact hc q (by simp [hq])
    · simp only [List.map_cons, List.nodup_cons] at hn; exact hn.2
    · intro q hq
      simp only [List.map_cons, List.nodup_cons] at hn
      rcases List.mem_append.1 hq with hq | hq
      · have := ha q hq
        simp only [List.map_cons, List.mem_cons, not_or] at this
        exact this.2
      · simp only [List.mem_singleton] at hq; rw [hq]; exact hn.1

theorem canon_auth : canon (ascii "Authorization") = ascii "Authorization" := by decide
theorem canon_agent : canon (ascii "X-Signal-Agent") = ascii "X-Signal-Agent" := by decide

/-- The headers asked for are in the request. -/
theorem post_headers (t : Transporter) (url body ct : Bytes) (hs : List (Bytes × Bytes))
    (hc : ∀ p ∈ hs, canon p.1 = p.1 ∧ ¬ excluded p.1 ∧ p.1 ≠ ascii "Authorization" ∧ p.1 ≠ ascii "X-Signal-Agent")
    (hn : (hs.map Prod.fst).Nodup) (p : Bytes × Bytes) (hp : p ∈ hs) :
    p ∈ (postReq t url body ct hs).headers := by
  have h0 : p ∈ hs.foldl (fun h p => setH h p.1 p.2) [] := by
    rw [foldl_setH hs [] (fun q hq => (hc q hq).1) hn (by simp)]; simpa using hp
  have h1 : p ∈ agentH t (hs.foldl (fun h p => setH h p.1 p.2) []) := by
    unfold agentH
    split
    · exact h0
    · exact mem_setH h0 (by rw [canon_agent]; exact (hc p hp).2.2.2)
  unfold postReq authH
  refine mem_setH ?_ (by rw [canon_auth]; exact (hc p hp).2.2.1)
  simp only [addH, List.mem_append]
  exact .inl (.inl h1)

/-! ## The servers -/

variable {pl : Plan} {J : Json}

theorem find_first {n i : Nat} {f : Nat → Bytes} (hf : ∀ i j, f i = f j → i = j) (hi : i < n) :
    (List.range n).find? (fun j => decide (f i = f j)) = some i := by
  rw [List.find?_range_eq_some]
  refine ⟨by simp, by simpa using hi, ?_⟩
  intro j hj
  simp only [Bool.not_eq_true', decide_eq_false_iff_not]
  intro h
  have := hf i j h
  omega

theorem find_some {n i : Nat} {f : Nat → Bytes} {u : Bytes}
    (h : (List.range n).find? (fun j => decide (u = f j)) = some i) : u = f i ∧ i < n := by
  have h1 := List.find?_some h
  have h2 := List.mem_of_find?_eq_some h
  simp at h1 h2
  exact ⟨h1, h2⟩

theorem serve_issued (pl : Plan) (w : Server) (r : Req) : w.issued ≤ (w.serve pl r).1.issued := by
  unfold Server.serve
  repeat' split
  all_goals first | exact Nat.le_refl _ | exact Nat.le_succ _

theorem serves_issued (pl : Plan) (qs : List Req) (w : Server) : w.issued ≤ (w.serves pl qs).issued := by
  unfold Server.serves
  induction qs generalizing w with
  | nil => exact Nat.le_refl _
  | cons q qs ih => exact Nat.le_trans (serve_issued pl w q) (ih _)

theorem serve_object (S : pl.Sound J) (w : Server) (r : Req) (i : Nat)
    (h : ¬ (r.method = "PUT" ∧ r.url = pl.loc i)) :
    (w.serve pl r).1.objects (pl.form i).key = w.objects (pl.form i).key := by
  unfold Server.serve
  split
  · split <;> rfl
  · split
    · split
      · split <;> rfl
      · rfl
    · split
      · next hput =>
        split
        · next j hj =>
          obtain ⟨hu, hlt⟩ := find_some hj
          show (if (pl.form i).key = (pl.form j).key then _ else _) = _
          rw [if_neg]
          intro hk
          have := S.key_inj i j hk
          subst this
          exact h ⟨hput, hu⟩
        · rfl
      · split
        · split <;> rfl
        · rfl

theorem serves_object (S : pl.Sound J) (qs : List Req) (w : Server) (i : Nat)
    (h : ∀ q ∈ qs, ¬ (q.method = "PUT" ∧ q.url = pl.loc i)) :
    (w.serves pl qs).objects (pl.form i).key = w.objects (pl.form i).key := by
  unfold Server.serves
  induction qs generalizing w with
  | nil => rfl
  | cons q qs ih =>
    rw [List.foldl_cons, ih _ (fun x hx => h x (by simp [hx])), serve_object S w q i (h q (by simp))]

/-! ## Plain keys make good addresses -/

theorem escapesOk_no_percent (b : Bytes) (h : ∀ c ∈ b, c ≠ 37) : escapesOk b := by
  induction b with
  | nil => rfl
  | cons c l ih =>
    unfold escapesOk
    rw [if_neg (h c (by simp))]
    exact ih (fun x hx => h x (by simp [hx]))

theorem plain_facts (c : UInt8) (h : plainByte c) : c ≠ 37 ∧ c ≠ 35 ∧ c ≠ 63 ∧ (!(c < 32 || c == 127)) = true := by
  revert h
  rcases c with ⟨c⟩
  revert c
  decide +kernel

theorem urlOk_plain (pre k : Bytes) (hp : ∀ c ∈ pre, c ≠ 37 ∧ c ≠ 35 ∧ c ≠ 63 ∧ (!(c < 32 || c == 127)) = true)
    (h : k.all plainByte) : urlOk (pre ++ k) := by
  have hall : ∀ c ∈ pre ++ k, c ≠ 37 ∧ c ≠ 35 ∧ c ≠ 63 ∧ (!(c < 32 || c == 127)) = true := by
    intro c hc
    rcases List.mem_append.1 hc with hc | hc
    · exact hp c hc
    · exact plain_facts c (List.all_eq_true.1 h c hc)
  unfold urlOk
  rw [Bool.and_eq_true, Bool.and_eq_true]
  refine ⟨⟨?_, ?_⟩, ?_⟩
  · exact List.all_eq_true.2 (fun c hc => (hall c (List.takeWhile_subset _ hc)).2.2.2)
  · refine escapesOk_no_percent _ (fun c hc => ?_)
    have := (List.takeWhile_subset _ (List.takeWhile_subset _ hc))
    exact (hall c this).1
  · refine escapesOk_no_percent _ (fun c hc => ?_)
    exact (hall c ((List.dropWhile_suffix _).subset (List.mem_of_mem_drop hc))).1

/-- The service finds the credentials in a request made with `Get`. -/
theorem header_auth (t : Transporter) (l : List (Bytes × Bytes)) (m : String) (u b : Bytes) :
    header ⟨m, u, (authH t l).filter (fun p => !excluded p.1), b⟩ "Authorization" = some (basic t.user t.pass) := by
  unfold header authH setH
  rw [canon_auth]
  simp only []
  rw [List.filter_append, List.find?_append]
  have h1 : ((l.filter (fun p => p.1 ≠ ascii "Authorization")).filter (fun p => !excluded p.1)).find?
      (fun p => decide (p.1 = ascii "Authorization")) = none := by
    rw [List.find?_eq_none]
    intro p hp
    simp only [List.mem_filter, decide_eq_true_eq] at hp ⊢
    exact hp.1.2
  rw [h1]
  have h2 : excluded (ascii "Authorization") = false := by decide
  simp [List.filter, h2]

/-- The three steps of an upload against the servers, with others' requests in between. -/
theorem allocate_run (J : Json) (pl : Plan) (S : pl.Sound J) (acc : Account) (others : Nat → List Req)
    (w : Server) (n : Nat) (log : List Req) (hmem : pl.member (basic acc.uuid acc.password)) :
    ∃ w1 log1 p, pl.loc (w.serves pl (others n)).issued = ascii "https://cdn2.signal.org/" ++ p ∧
      (w.serves pl (others n)).issued < w1.issued ∧
      allocate (crowd pl others) J (setup acc) ⟨(w, n), log⟩ =
        (⟨(w1, n + 2), log1⟩, .ok (47 :: p, pl.form (w.serves pl (others n)).issued)) := by
  obtain ⟨w0, hw0⟩ : ∃ w0, w0 = w.serves pl (others n) := ⟨_, rfl⟩
  obtain ⟨i, hi⟩ : ∃ i, i = w0.issued := ⟨_, rfl⟩
  rw [← hw0, ← hi]
  obtain ⟨p, hp, hpu⟩ := S.url i
  obtain ⟨q, hq, hqu⟩ := S.loc i
  -- the form
  obtain ⟨r, hr⟩ : ∃ r : Req, r = ⟨"GET", ascii "https://chat.signal.org" ++ ascii "/v3/attachments/form/upload",
      (authH (setup acc).service (agentH (setup acc).service [])).filter (fun p => !excluded p.1), []⟩ := ⟨_, rfl⟩
  have hs : crowd pl others (w, n) r =
      (({ w0 with issued := i + 1 }, n + 1), some ⟨200, [], some (pl.render (pl.form i))⟩) := by
    have hh : (header r "Authorization").any pl.member = true := by
      rw [hr, header_auth]; exact hmem
    have hm : r.method = "GET" := by rw [hr]
    have hurl : r.url = ascii "https://chat.signal.org/v3/attachments/form/upload" := by
      have e : ascii "https://chat.signal.org" ++ ascii "/v3/attachments/form/upload" =
        ascii "https://chat.signal.org/v3/attachments/form/upload" := by decide +kernel
      rw [hr]; exact e
    unfold crowd Server.serve
    rw [if_pos ⟨hm, hurl⟩, if_pos hh]
    simp only [← hw0, ← hi]
  have h1 : ∃ lg, getForm (crowd pl others) J (setup acc) ⟨(w, n), log⟩ =
      (⟨({ w0 with issued := i + 1 }, n + 1), lg⟩, .ok (pl.form i)) := by
    refine ⟨log ++ [r], ?_⟩
    have hc : call (crowd pl others) (getReq (setup acc).service (ascii "/v3/attachments/form/upload")) ⟨(w, n), log⟩
        = (⟨({ w0 with issued := i + 1 }, n + 1), log ++ [r]⟩,
          .ok ⟨200, [], some (pl.render (pl.form i))⟩) := by
      have hu : urlOk (ascii "https://chat.signal.org" ++ ascii "/v3/attachments/form/upload") = true := by
        decide +kernel
      unfold call
      rw [if_pos (show urlOk (getReq (setup acc).service (ascii "/v3/attachments/form/upload")).url = true from hu)]
      have hr' : { getReq (setup acc).service (ascii "/v3/attachments/form/upload") with
        headers := (getReq (setup acc).service (ascii "/v3/attachments/form/upload")).headers.filter
          (fun p => !excluded p.1) } = r := by rw [hr]; rfl
      unfold perform
      simp only [hr', hs]
    unfold getForm
    rw [M.bind_ok hc]
    simp only [Option.bind_some, S.read i]
    rfl
  obtain ⟨lg, h1⟩ := h1
  have hrp : relativePath (pl.form i).url = .ok (47 :: p) := by
    rw [hp]
    have : ascii "https://cdn2.signal.org/" ++ p = ascii "https://" ++ ascii "cdn2.signal.org" ++ 47 :: p := by
      have : ascii "https://cdn2.signal.org/" = ascii "https://" ++ ascii "cdn2.signal.org" ++ [47] := by decide
      rw [this]; simp
    rw [this]
    exact relativePath_url _ _ (by decide)
  have hrl : relativePath (pl.loc i) = .ok (47 :: q) := by
    rw [hq]
    have : ascii "https://cdn2.signal.org/" ++ q = ascii "https://" ++ ascii "cdn2.signal.org" ++ 47 :: q := by
      have : ascii "https://cdn2.signal.org/" = ascii "https://" ++ ascii "cdn2.signal.org" ++ [47] := by decide
      rw [this]; simp
    rw [this]
    exact relativePath_url _ _ (by decide)
  have hurl : ascii "https://cdn2.signal.org" ++ 47 :: p = (pl.form i).url := by
    rw [hp]
    have : ascii "https://cdn2.signal.org/" = ascii "https://cdn2.signal.org" ++ [47] := by decide
    rw [this]; simp
  obtain ⟨w2, hw2⟩ : ∃ w2, w2 = (Server.mk (i + 1) w0.objects).serves pl (others (n + 1)) := ⟨_, rfl⟩
  have hlt : i < w2.issued := by
    have := serves_issued pl (others (n + 1)) ⟨i + 1, w0.objects⟩
    rw [← hw2] at this
    simp only [] at this
    omega
  refine ⟨w2, ?_, q, hq, hlt, ?_⟩
  · exact lg ++ [⟨"POST", ascii "https://cdn2.signal.org" ++ 47 :: p,
      (postReq (setup acc).cdn (47 :: p) [] (ascii "application/octet-stream") (pl.form i).headers).headers.filter
        (fun p => !excluded p.1), []⟩]
  unfold allocate
  rw [M.bind_ok h1, M.bind_ok (M.lift_run _ _ |>.trans (by rw [hrp]))]
  have hc : call (crowd pl others) (postReq (setup acc).cdn (47 :: p) [] (ascii "application/octet-stream")
      (pl.form i).headers) ⟨({ w0 with issued := i + 1 }, n + 1), lg⟩ =
      (⟨(w2, n + 2), lg ++ [⟨"POST", ascii "https://cdn2.signal.org" ++ 47 :: p,
        (postReq (setup acc).cdn (47 :: p) [] (ascii "application/octet-stream") (pl.form i).headers).headers.filter
          (fun p => !excluded p.1), []⟩]⟩, .ok ⟨201, pl.loc i, some []⟩) := by
    have hu : urlOk (postReq (setup acc).cdn (47 :: p) [] (ascii "application/octet-stream") (pl.form i).headers).url
        = true := by
      show urlOk (ascii "https://cdn2.signal.org" ++ 47 :: p) = true
      rw [hurl]; exact hpu
    unfold call
    rw [if_pos hu]
    have hs : crowd pl others ({ w0 with issued := i + 1 }, n + 1) ⟨"POST", ascii "https://cdn2.signal.org" ++ 47 :: p,
        (postReq (setup acc).cdn (47 :: p) [] (ascii "application/octet-stream") (pl.form i).headers).headers.filter
          (fun p => !excluded p.1), []⟩ = ((w2, n + 2), some ⟨201, pl.loc i, some []⟩) := by
      unfold crowd Server.serve
      rw [if_neg (by simp), if_pos rfl]
      simp only [hurl, ← hw2, find_first S.url_inj hlt]
      rw [if_pos]
      rw [List.all_eq_true]
      intro x hx
      rw [List.contains_iff_mem, List.mem_filter]
      exact ⟨post_headers _ _ _ _ _ (S.headers i) (S.distinct i) x hx, by simpa using (S.headers i x hx).2.1⟩
    unfold perform
    show (St.mk (crowd pl others _ ⟨"POST", ascii "https://cdn2.signal.org" ++ 47 :: p, _, []⟩).1 _, _) = _
    erw [hs]
    rfl
  rw [M.bind_ok hc]
  rw [if_neg (by simp [Resp.isError])]
  rw [M.bind_ok (M.lift_run _ _ |>.trans (by rw [hrl]))]
  rfl

/-- The data goes where the server keeps it. -/
theorem put_run (J : Json) (pl : Plan) (S : pl.Sound J) (acc : Account) (others : Nat → List Req)
    (w : Server) (n i : Nat) (log : List Req) (q m : Bytes) (hq : pl.loc i = ascii "https://cdn2.signal.org/" ++ q)
    (hi : i < w.issued) :
    ∃ w1 log1, w1.objects (pl.form i).key = some m ∧
      putAttachment (crowd pl others) (setup acc) (47 :: q) m ⟨(w, n), log⟩ = (⟨(w1, n + 1), log1⟩, .ok ()) := by
  have hqu : urlOk (pl.loc i) = true := (S.loc i).choose_spec.2
  have hurl : ascii "https://cdn2.signal.org" ++ 47 :: q = pl.loc i := by
    rw [hq]
    have : ascii "https://cdn2.signal.org/" = ascii "https://cdn2.signal.org" ++ [47] := by decide
    rw [this]; simp
  obtain ⟨w0, hw0⟩ : ∃ w0, w0 = w.serves pl (others n) := ⟨_, rfl⟩
  have hlt : i < w0.issued := by
    have := serves_issued pl (others n) w
    rw [← hw0] at this
    omega
  obtain ⟨r, hr⟩ : ∃ r : Req, r = ⟨"PUT", ascii "https://cdn2.signal.org" ++ 47 :: q,
    (putReq (setup acc).cdn (47 :: q) m (ascii "application/octet-stream")).headers.filter
      (fun p => !excluded p.1), m⟩ := ⟨_, rfl⟩
  have hs : crowd pl others (w, n) r =
      (({ w0 with objects := fun k => if k = (pl.form i).key then some m else w0.objects k }, n + 1),
        some ⟨200, [], some []⟩) := by
    subst hr
    unfold crowd Server.serve
    rw [if_neg (by simp), if_neg (by simp), if_pos rfl]
    simp only [hurl, ← hw0, find_first S.loc_inj hlt]
  refine ⟨{ w0 with objects := fun k => if k = (pl.form i).key then some m else w0.objects k }, log ++ [r],
    by simp, ?_⟩
  unfold putAttachment
  have hc : call (crowd pl others) (putReq (setup acc).cdn (47 :: q) m (ascii "application/octet-stream"))
      ⟨(w, n), log⟩ = (⟨({ w0 with objects := fun k => if k = (pl.form i).key then some m else w0.objects k },
        n + 1), log ++ [r]⟩, .ok ⟨200, [], some []⟩) := by
    have hu : urlOk (putReq (setup acc).cdn (47 :: q) m (ascii "application/octet-stream")).url = true := by
      show urlOk (ascii "https://cdn2.signal.org" ++ 47 :: q) = true
      rw [hurl]; exact hqu
    unfold call
    rw [if_pos hu]
    unfold perform
    subst hr
    show (St.mk (crowd pl others _ ⟨"PUT", ascii "https://cdn2.signal.org" ++ 47 :: q, _, m⟩).1 _, _) = _
    erw [hs]
    rfl
  rw [M.bind_ok hc, if_neg (by simp [Resp.isError])]
  rfl

/-- Fetching gives what is kept. -/
theorem download_run (pl : Plan) (others : Nat → List Req) (w : Server) (n : Nat) (log : List Req)
    (k m : Bytes) (hk : k.all plainByte) (hm : (w.serves pl (others n)).objects k = some m) :
    (download (crowd pl others) (ascii "https://cdn2.signal.org" ++ ascii "/attachments/" ++ k) ⟨(w, n), log⟩).2 =
      .ok m := by
  have hu : urlOk (ascii "https://cdn2.signal.org" ++ ascii "/attachments/" ++ k) = true :=
    urlOk_plain _ k (by decide) hk
  have e : ascii "https://cdn2.signal.org/attachments/" = ascii "https://cdn2.signal.org" ++ ascii "/attachments/" := by
    decide
  unfold download
  rw [if_pos hu]
  obtain ⟨r, hr⟩ : ∃ r : Req, r = ⟨"GET", ascii "https://cdn2.signal.org" ++ ascii "/attachments/" ++ k,
    [(ascii "Content-Type", ascii "application/octet-stream")], []⟩ := ⟨_, rfl⟩
  have hs : crowd pl others (w, n) r = ((w.serves pl (others n), n + 1), some ⟨200, [], some m⟩) := by
    subst hr
    unfold crowd Server.serve
    rw [if_neg, if_neg (by simp), if_neg (by simp), if_pos ⟨rfl, by rw [e]; exact List.prefix_append _ _⟩]
    · simp only [e, List.drop_left, hm]
    · rintro ⟨-, h⟩
      have h1 : (ascii "https://cdn2.signal.org" ++ ascii "/attachments/" ++ k).take 13 = ascii "https://cdn2." := by
        rw [List.append_assoc]
        have : ascii "https://cdn2.signal.org" = ascii "https://cdn2." ++ ascii "signal.org" := by decide +kernel
        rw [this, List.append_assoc, List.take_left' (by decide)]
      have h : ascii "https://cdn2.signal.org" ++ ascii "/attachments/" ++ k =
        ascii "https://chat.signal.org/v3/attachments/form/upload" := h
      rw [h] at h1
      exact absurd h1 (by decide +kernel)
  have hp : perform (crowd pl others) ⟨"GET", ascii "https://cdn2.signal.org" ++ ascii "/attachments/" ++ k,
      addH (addH [] (ascii "Host") (ascii "europe-west1-signal-cdn-reflector.cloudfunctions.net"))
        (ascii "Content-Type") (ascii "application/octet-stream"), []⟩ ⟨(w, n), log⟩ =
      (⟨(w.serves pl (others n), n + 1), log ++ [r]⟩, .ok ⟨200, [], some m⟩) := by
    have hh : (addH (addH [] (ascii "Host") (ascii "europe-west1-signal-cdn-reflector.cloudfunctions.net"))
        (ascii "Content-Type") (ascii "application/octet-stream")).filter (fun p => !excluded p.1) =
        [(ascii "Content-Type", ascii "application/octet-stream")] := by decide +kernel
    unfold perform
    simp only [hh, ← hr, hs]
  rw [M.bind_ok hp]
  rfl

/-! ## Which requests a call makes -/

section
variable {W α β : Type}

/-- The request as it goes out. -/
def sent (r : Req) : Req := { r with headers := r.headers.filter (fun p => !excluded p.1) }

/-- All new requests satisfy `p`. -/
def Only (p : Req → Prop) (x : M W α) : Prop := ∀ s, ∃ l, (x s).1.log = s.log ++ l ∧ ∀ r ∈ l, p r

theorem Only.bind {p : Req → Prop} {x : M W α} {f : α → M W β} (hx : Only p x)
    (hf : ∀ a, (∃ s s', x s = (s', .ok a)) → Only p (f a)) : Only p (x >>= f) := by
  intro s
  obtain ⟨l, hl, hp⟩ := hx s
  rcases hxs : x s with ⟨s', r⟩
  rw [hxs] at hl
  cases r with
  | ok a =>
    rw [M.bind_ok hxs]
    obtain ⟨l2, hl2, hp2⟩ := hf a ⟨_, _, hxs⟩ s'
    exact ⟨l ++ l2, by rw [hl2, hl, List.append_assoc],
      fun r hr => (List.mem_append.1 hr).elim (hp r) (hp2 r)⟩
  | err e => rw [M.bind_err hxs]; exact ⟨l, hl, hp⟩
  | panic => rw [M.bind_panic hxs]; exact ⟨l, hl, hp⟩

theorem Only.lift (p : Req → Prop) (r : Res α) : Only p (M.lift r : M W α) := fun s => ⟨[], by simp, by simp⟩

theorem Only.pure (p : Req → Prop) (a : α) : Only p (Pure.pure a : M W α) := fun s => ⟨[], by simp, by simp⟩

theorem Only.perform {p : Req → Prop} {serve : Serve W} {r : Req} (h : p (sent r)) : Only p (Http.perform serve r) :=
  fun _ => ⟨[sent r], rfl, by simpa using h⟩

theorem Only.call {p : Req → Prop} {serve : Serve W} {r : Req} (h : p (sent r)) : Only p (Http.call serve r) := by
  unfold Http.call
  split
  · exact Only.perform h
  · exact Only.lift _ _

theorem perform_some {serve : Serve W} {r : Req} {s : St W} {x : Resp} (h : (serve s.world (sent r)).2 = some x) :
    perform serve r s = (⟨(serve s.world (sent r)).1, s.log ++ [sent r]⟩, .ok x) := by
  unfold perform
  simp only [show ({ r with headers := r.headers.filter (fun p => !excluded p.1) } : Req) = sent r from rfl, h]

theorem perform_none {serve : Serve W} {r : Req} {s : St W} (h : (serve s.world (sent r)).2 = none) :
    perform serve r s = (⟨(serve s.world (sent r)).1, s.log ++ [sent r]⟩, .err .http) := by
  unfold perform
  simp only [show ({ r with headers := r.headers.filter (fun p => !excluded p.1) } : Req) = sent r from rfl, h]

theorem call_ok {serve : Serve W} {r : Req} {s s' : St W} {x : Resp} (h : call serve r s = (s', .ok x)) :
    s'.log = s.log ++ [sent r] ∧ serve s.world (sent r) = (s'.world, some x) := by
  unfold call at h
  split at h
  · unfold perform at h
    simp only [Prod.mk.injEq] at h
    obtain ⟨h1, h2⟩ := h
    refine ⟨by rw [← h1]; rfl, ?_⟩
    split at h2
    · cases h2
    · next y hy =>
      injection h2 with h2
      rw [← h1, ← h2]
      exact Prod.ext rfl hy
  · simp at h

theorem call_run {serve : Serve W} {r : Req} {s : St W} {w : W} {x : Resp} (hu : urlOk r.url = true)
    (h : serve s.world (sent r) = (w, some x)) : call serve r s = (⟨w, s.log ++ [sent r]⟩, .ok x) := by
  unfold call
  rw [if_pos hu]
  unfold perform
  simp only [show ({ r with headers := r.headers.filter (fun p => !excluded p.1) } : Req) = sent r from rfl, h]

theorem relativePath_slash {u p : Bytes} (h : relativePath u = .ok p) : ∃ q, p = 47 :: q := by
  unfold relativePath at h
  simp only [] at h
  split at h
  · cases h
  · injection h with h; exact ⟨_, h.symm⟩

/-- The host is found before the path. -/
theorem hostOf_path (base : Bytes) (q : Bytes) (h : ascii "https://" <+: base) :
    hostOf (base ++ 47 :: q) = hostOf base := by
  obtain ⟨t, rfl⟩ := h
  have e : (ascii "https://").length = 8 := by decide
  unfold hostOf
  rw [List.append_assoc, if_pos (List.prefix_append _ _), if_pos (List.prefix_append _ _),
    List.drop_left' e, List.drop_left' e]
  congr 1
  induction t with
  | nil => simp
  | cons c t ih =>
    simp only [List.cons_append, List.takeWhile_cons]
    split
    · rw [ih]
    · rfl

theorem sent_auth (t : Transporter) (m : String) (u b : Bytes) (l : List (Bytes × Bytes)) :
    (ascii "Authorization", basic t.user t.pass) ∈ (sent ⟨m, u, authH t l, b⟩).headers := by
  unfold sent authH setH
  rw [canon_auth]
  have e : excluded (ascii "Authorization") = false := by decide +kernel
  simp [e]

/-- What happened in a successful upload. -/
theorem upload_ok {P : Prims} {serve : Serve W} {J : Json} {T : Transports} {keys iv b ct : Bytes} {v : Bool}
    {s st : St W} {a : Send.OutAtt} (h : upload P serve J T keys iv (some b) ct v s = (st, .ok a)) :
    ∃ u x1 x2 x3 body f path loc w1 w2, Files.uploadAttachment P keys iv b = .ok u ∧
      st.log = s.log ++ [sent (getReq T.service (ascii "/v3/attachments/form/upload")),
        sent (postReq T.cdn path [] (ascii "application/octet-stream") f.headers),
        sent (putReq T.cdn loc u.blob (ascii "application/octet-stream"))] ∧
      serve s.world (sent (getReq T.service (ascii "/v3/attachments/form/upload"))) = (w1, some x1) ∧
      x1.body = some body ∧ J.form body = some f ∧ relativePath f.url = .ok path ∧
      serve w1 (sent (postReq T.cdn path [] (ascii "application/octet-stream") f.headers)) = (w2, some x2) ∧
      x2.isError = false ∧ relativePath x2.location = .ok loc ∧
      serve w2 (sent (putReq T.cdn loc u.blob (ascii "application/octet-stream"))) = (st.world, some x3) ∧
      x3.isError = false ∧ a = ⟨f.key, f.cdn, ct, u.keys, u.digest, u.size, v⟩ := by
  unfold upload at h
  obtain ⟨b', s0, h0, h⟩ := M.bind_eq_ok h
  simp only [M.lift_run, Prod.mk.injEq, Res.ok.injEq] at h0
  obtain ⟨rfl, rfl⟩ := h0
  obtain ⟨u, s1, hu, h⟩ := M.bind_eq_ok h
  simp only [M.lift_run, Prod.mk.injEq] at hu
  obtain ⟨rfl, hu⟩ := hu
  obtain ⟨⟨loc, f⟩, s2, hal, h⟩ := M.bind_eq_ok h
  obtain ⟨⟨⟩, s3, hput, h⟩ := M.bind_eq_ok h
  simp only [M.pure_run, Prod.mk.injEq, Res.ok.injEq] at h
  obtain ⟨rfl, rfl⟩ := h
  unfold allocate at hal
  obtain ⟨f', s4, hform, hal⟩ := M.bind_eq_ok hal
  unfold getForm at hform
  obtain ⟨x1, s5, hc1, hform⟩ := M.bind_eq_ok hform
  obtain ⟨path, s6, hpath, hal⟩ := M.bind_eq_ok hal
  simp only [M.lift_run, Prod.mk.injEq] at hpath
  obtain ⟨rfl, hpath⟩ := hpath
  obtain ⟨x2, s7, hc2, hal⟩ := M.bind_eq_ok hal
  split at hal
  · simp at hal
  next hne =>
  obtain ⟨loc', s8, hloc, hal⟩ := M.bind_eq_ok hal
  simp only [M.lift_run, Prod.mk.injEq] at hloc
  obtain ⟨rfl, hloc⟩ := hloc
  simp only [M.pure_run, Prod.mk.injEq, Res.ok.injEq] at hal
  obtain ⟨rfl, rfl, rfl⟩ := hal
  unfold putAttachment at hput
  obtain ⟨x3, s9, hc3, hput⟩ := M.bind_eq_ok hput
  split at hput
  · simp at hput
  next hne3 =>
  simp only [M.pure_run, Prod.mk.injEq, and_true] at hput
  subst hput
  rcases hf : x1.body.bind J.form with _ | f''
  · simp only [hf, M.lift_run, Prod.mk.injEq] at hform
    exact nomatch hform.2
  simp only [hf, M.pure_run, Prod.mk.injEq, Res.ok.injEq] at hform
  obtain ⟨rfl, rfl⟩ := hform
  rw [Option.bind_eq_some_iff] at hf
  obtain ⟨body, hbody, hf⟩ := hf
  obtain ⟨hl1, hs1⟩ := call_ok hc1
  obtain ⟨hl2, hs2⟩ := call_ok hc2
  obtain ⟨hl3, hs3⟩ := call_ok hc3
  refine ⟨u, x1, x2, x3, body, f'', path, loc', _, _, hu, ?_, hs1, hbody, hf, hpath, hs2, by simpa using hne, hloc,
    hs3, by simpa using hne3, rfl⟩
  rw [hl3, hl2, hl1]
  simp

end

end Verif.Http
