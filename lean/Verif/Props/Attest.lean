import Verif.Props.Discovery
import Verif.Spec.Attest
/-!
# C104, C105 and part of C77: contact discovery end to end
-/
namespace Verif.Props.Attest
open Verif Verif.Contacts Verif.Discovery Verif.Discovery.Spec Verif.Attest Verif.Attest.Spec
open Verif.Props.Discovery Verif.Props.Encoding

theorem halves_append (c : Bytes) : (halves c).1 ++ (halves c).2 = c := List.take_append_drop ..

theorem readKey_ok (P : Prims) (p : Party) (pub : Bytes) : aesKeyOk (p.readKey P pub) = true := by
  have : (p.readKey P pub).length = 32 := by simp [Party.readKey, P.hkdf_len]
  simp [aesKeyOk, this]

theorem writeKey_ok (P : Prims) (p : Party) (pub : Bytes) : aesKeyOk (p.writeKey P pub) = true := by
  have : (p.writeKey P pub).length = 32 := by simp [Party.writeKey, P.hkdf_len]
  simp [aesKeyOk, this]

/-- The client takes the party's answer and derives the party's keys. -/
theorem build_party (P : Prims) (g : Gcm) (p : Party) (hp : p.Ok) (r : Bytes) (hr : r.length = 32) :
    build P g (Keys.newPair P r) p.name (some (p.answer P g (Keys.newPair P r).pub)) =
      .ok ⟨p.name, p.id, p.readKey P (Keys.newPair P r).pub, p.writeKey P (Keys.newPair P r).pub⟩ := by
  have hk : (Keys.clamp r).length = 32 := by rw [Keys.clamp_len, hr]
  have h1 : P.dh (Keys.clamp r) (P.pubOf p.e) = P.dh p.e (P.pubOf (Keys.clamp r)) := P.dh_comm _ _ hk hp.e
  have h2 : P.dh (Keys.clamp r) (P.pubOf p.s) = P.dh p.s (P.pubOf (Keys.clamp r)) := P.dh_comm _ _ hk hp.s
  have he : (P.pubOf p.e).length = 32 := P.pubOf_len _ hp.e
  have hs : (P.pubOf p.s).length = 32 := P.pubOf_len _ hp.s
  have hw : ∀ k : Bytes, k.length = 64 → (k.drop 32).take 32 = k.drop 32 := fun k hk =>
    List.take_of_length_le (by simp [hk])
  have hkeys : attestationKeys P (Keys.newPair P r) (P.pubOf p.e) (P.pubOf p.s) =
      .ok (p.readKey P (Keys.newPair P r).pub, p.writeKey P (Keys.newPair P r).pub) := by
    simp only [attestationKeys, Keys.newKey, he, hs, if_true, Res.ok_bind, Keys.newPair, h1, h2, Party.readKey,
      Party.writeKey]
    rw [hw _ (P.hkdf_len ..)]
  have hid : requestId g (p.writeKey P (Keys.newPair P r).pub) (p.answer P g (Keys.newPair P r).pub) = .ok p.id := by
    simp only [requestId, aesDecrypt, writeKey_ok, Bool.not_true, Bool.false_eq_true, if_false, Party.answer,
      hp.iv, ne_eq, not_true_eq_false, halves_append, g.unlock_lock]
  simp only [build]
  show (do
    let (ck, sk) ← attestationKeys P (Keys.newPair P r) (P.pubOf p.e) (P.pubOf p.s)
    let id ← requestId g sk (p.answer P g (Keys.newPair P r).pub)
    Res.ok (⟨p.name, id, ck, sk⟩ : Attestation)) = _
  rw [hkeys]
  simp only [Res.ok_bind, hid]

/-- The surroundings of a refresh whose service is the party `p` with the directory `dir`. -/
structure Served (P : Prims) (g : Gcm) (p : Party) (dir : Int → Bytes) (e : Attest.Env) : Prop where
  party : p.Ok
  ec : e.ecRandom.length = 32
  key : e.key.length = 32
  nonce : e.nonce.length = 32
  iv : e.iv.length = 12
  ivs : ∀ i, (e.ivs i).length = 12
  creds : e.creds = .ok ()
  attestation : e.attestation (Keys.newPair P e.ecRandom).pub =
    .ok (some [(p.name, some (p.answer P g (Keys.newPair P e.ecRandom).pub))])
  discovery : ∀ r, e.discovery r = p.reply P g (Keys.newPair P e.ecRandom).pub dir r

theorem numbers_query {nonce q : Bytes} {ts : List Bytes} (hn : nonce.length = 32) (h : QueryFor nonce ts q) :
    (numbers q).length = ts.length ∧
    ∀ (i : Nat) (t : Bytes), ts[i]? = some t → ∃ v, Decimal t v ∧ (numbers q)[i]? = some v := by
  obtain ⟨_, hl, hq⟩ := h
  have hlen : (numbers q).length = ts.length := by
    simp only [numbers, List.length_map, List.length_range, hl, hn]
    omega
  refine ⟨hlen, fun i t ht => ?_⟩
  obtain ⟨v, hv, hw⟩ := hq i t ht
  have hi : i < ts.length := (List.getElem?_eq_some_iff.1 ht).1
  refine ⟨v, hv, ?_⟩
  rw [List.getElem?_eq_getElem (by omega)]
  simp only [numbers, List.getElem_map, List.getElem_range]
  rw [← hn, hw]

theorem flatMap_chunk (dir : Int → Bytes) (hdir : ∀ v, (dir v).length = 16) : ∀ (vs : List Int) (i : Nat) (v : Int),
    vs[i]? = some v → ((vs.flatMap dir).drop (16 * i)).take 16 = dir v
  | [], _, _, h => by simp at h
  | w :: vs, 0, v, h => by
    simp only [List.getElem?_cons_zero, Option.some.injEq] at h
    subst h
    simp only [List.flatMap_cons, Nat.mul_zero, List.drop_zero]
    exact List.take_left' (hdir _)
  | w :: vs, i + 1, v, h => by
    simp only [List.getElem?_cons_succ] at h
    rw [List.flatMap_cons, List.drop_append, hdir, List.drop_of_length_le (by rw [hdir]; omega)]
    have : 16 * (i + 1) - 16 = 16 * i := by omega
    rw [this, List.nil_append]
    exact flatMap_chunk dir hdir vs i v h

theorem flatMap_len (dir : Int → Bytes) (hdir : ∀ v, (dir v).length = 16) (vs : List Int) :
    (vs.flatMap dir).length = 16 * vs.length := by
  induction vs with
  | nil => rfl
  | cons v vs ih => simp only [List.flatMap_cons, List.length_append, hdir, ih, List.length_cons]; omega

theorem encrypt_ok (g : Gcm) {key iv : Bytes} (aad data : Bytes) (hk : aesKeyOk key = true) (hiv : iv.length = 12) :
    ∃ d t, aesEncryptNonce g key aad data iv = .ok (d, t) := by
  simp [aesEncryptNonce, hk, hiv]

theorem decrypt_unlock {g : Gcm} {key iv d t aad p : Bytes} (h : aesDecrypt g key iv d t aad = .ok p) :
    g.unlock key iv (d ++ t) aad = some p := by
  simp only [aesDecrypt] at h
  split at h
  · cases h
  split at h
  · cases h
  split at h
  · injection h with h; subst h; assumption
  · cases h

/-- The conversation between a client and a party that serves it. -/
theorem discover_party (P : Prims) (g : Gcm) (p : Party) (dir : Int → Bytes) (e : Attest.Env) (hs : Served P g p dir e)
    (ts : List Bytes) (hts : ∀ t ∈ ts, ∃ v, Decimal t v ∧ Fits v) :
    ∃ as req q, request P g e ts = .ok (as, req) ∧
      p.opens P g (Keys.newPair P e.ecRandom).pub req = some q ∧ buildQuery e.nonce ts = .ok q ∧
      discover P g e ts = .ok ((numbers q).flatMap dir) := by
  obtain ⟨pub, hpub⟩ : ∃ x, x = (Keys.newPair P e.ecRandom).pub := ⟨_, rfl⟩
  have hb := build_party P g p hs.party e.ecRandom hs.ec
  have hat := hs.attestation
  have hdi := hs.discovery
  rw [← hpub] at hb hat hdi ⊢
  have hatt : attest P g (Keys.newPair P e.ecRandom) (e.attestation pub) =
      .ok [⟨p.name, p.id, p.readKey P pub, p.writeKey P pub⟩] := by
    rw [hat]
    simp only [attest]
    rw [if_neg (by simp)]
    simp only [buildAll, hb, Res.ok_bind]
  obtain ⟨q, hq⟩ := (C61_query_built e.nonce ts).2 hts
  obtain ⟨d1, t1, h1⟩ := encrypt_ok g (key := e.key) (iv := e.iv) [] q (by simp [aesKeyOk, hs.key]) hs.iv
  obtain ⟨d2, t2, h2⟩ := encrypt_ok g (key := p.readKey P pub) (iv := e.ivs 0) p.id e.key (readKey_ok P p pub) (hs.ivs 0)
  have hreq : createRequest P g e.key e.nonce e.iv ts [(⟨p.name, p.id, p.readKey P pub, p.writeKey P pub⟩, e.ivs 0)] =
      .ok ⟨ts.length, P.sha256 q, d1, [⟨p.name, d2, e.ivs 0, t2, p.id⟩], e.iv, t1⟩ := by
    simp only [createRequest, hq, Res.ok_bind, h1, envelopes, h2]
  have hopen : p.opens P g pub ⟨ts.length, P.sha256 q, d1, [⟨p.name, d2, e.ivs 0, t2, p.id⟩], e.iv, t1⟩ = some q := by
    simp only [Party.opens, List.find?_cons, decide_true, Option.bind_eq_bind, Option.bind_some,
      decrypt_unlock (encrypt_decrypt h2), decrypt_unlock (encrypt_decrypt h1)]
  have hmade : request P g e ts = .ok ([⟨p.name, p.id, p.readKey P pub, p.writeKey P pub⟩],
      ⟨ts.length, P.sha256 q, d1, [⟨p.name, d2, e.ivs 0, t2, p.id⟩], e.iv, t1⟩) := by
    simp only [request, hs.creds, ← hpub, hatt, Res.ok_bind, withIvs, List.length_singleton]
    show (do
      let req ← createRequest P g e.key e.nonce e.iv ts [(⟨p.name, p.id, p.readKey P pub, p.writeKey P pub⟩, e.ivs 0)]
      Res.ok (([⟨p.name, p.id, p.readKey P pub, p.writeKey P pub⟩] : List Attestation), req)) = _
    rw [hreq]
    rfl
  refine ⟨_, _, q, hmade, hopen, hq, ?_⟩
  obtain ⟨d3, t3, h3⟩ := encrypt_ok g (key := p.writeKey P pub) (iv := p.replyIv) [] ((numbers q).flatMap dir)
    (writeKey_ok P p pub) hs.party.replyIv
  have hh : halves (g.lock (p.writeKey P pub) p.replyIv ((numbers q).flatMap dir) []) = (d3, t3) := by
    simp only [aesEncryptNonce, writeKey_ok, Bool.not_true, Bool.false_eq_true, if_false, hs.party.replyIv,
      ne_eq, not_true_eq_false, Res.ok.injEq] at h3
    exact h3
  have hresp := C75_reply g [⟨p.name, p.id, p.readKey P pub, p.writeKey P pub⟩] _ (List.mem_singleton.2 rfl)
    ((numbers q).flatMap dir) p.replyIv d3 t3 (fun b hb _ => List.mem_singleton.1 hb) h3
  simp only [discover, hmade, Res.ok_bind, hdi, Party.reply, hopen, hh, hresp]

/-- A refresh is the function of `Model/Discovery` with what the service answered. -/
theorem refresh_registered {P : Prims} {g : Gcm} {e : Attest.Env} {cs : List Contact} {data q : Bytes}
    (hd : discover P g e (tokensOf cs) = .ok data) (hq : buildQuery e.nonce (tokensOf cs) = .ok q) :
    ∀ ask, ask q = .ok data → refresh P g e (.ok cs) = getRegistered ⟨e.nonce, ask, e.decode⟩ (.ok cs) := by
  intro ask h
  simp only [refresh, getRegistered, Res.ok_bind, hd, hq, h]

/-- **C104.** A contact refresh served by a party that holds the private keys of its attestation ends with
every contact whose number could be asked about carrying the id the party's directory has for that number,
marked registered exactly when this is not the zero id; the other contacts are as they were. -/
theorem C104_end_to_end (P : Prims) (g : Gcm) (p : Party) (dir : Int → Bytes) (hdir : ∀ v, (dir v).length = 16)
    (e : Attest.Env) (hs : Served P g p dir e) (cs : List Contact)
    (hne : ∃ c ∈ cs, c.tel ≠ [] ∧ validTel c.tel = true)
    (hnum : ∀ c ∈ cs, c.tel ≠ [] → validTel c.tel = true → ∃ v, Decimal c.tel v ∧ Fits v) :
    ∃ ts cs' m, refresh P g e (.ok cs) = .ok (cs', m) ∧ Asked (fun t => validTel t = true) cs ts ∧
      (∀ t ∈ ts, ∃ k c' v, First cs t k ∧ cs'[k]? = some c' ∧ Decimal t v ∧ c'.tel = t ∧
        readUUID c'.uuid = dir v ∧ (c'.registered = true ↔ dir v ≠ List.replicate 16 0)) ∧
      (∀ k, (∀ t ∈ ts, ¬ First cs t k) → cs'[k]? = cs[k]?) := by
  have hA := tokensOf_asked cs
  have hts : ∀ t ∈ tokensOf cs, ∃ v, Decimal t v ∧ Fits v := by
    intro t ht
    obtain ⟨hn, hv, d, hd, rfl⟩ := (hA.all t).1 ht
    exact hnum d hd hn hv
  obtain ⟨_, _, q, _, _, hq, hdisc⟩ := discover_party P g p dir e hs _ hts
  have href := refresh_registered hdisc hq
  obtain ⟨cs', m, hx⟩ : ∃ cs' m, refresh P g e (.ok cs) = .ok (cs', m) := by
    obtain ⟨hl, _⟩ := numbers_query hs.nonce (C61_query_numbers _ _ _ hq)
    obtain ⟨_, hql, _⟩ := C61_query_numbers _ _ _ hq
    -- whatever is said to other queries, which are not sent
    rw [href (fun x => if x = q then .ok ((numbers q).flatMap dir) else .ok (List.replicate (2 * x.length) 0)) (by simp)]
    refine C76_refresh_succeeds_partial _ cs hne hnum (fun x => ?_)
    by_cases hxq : x = q
    · subst hxq
      refine ⟨(numbers x).flatMap dir, by simp, ?_⟩
      rw [flatMap_len dir hdir, hl, hql]
      simp only []
      omega
    · exact ⟨List.replicate (2 * x.length) 0, by simp [hxq], by simp⟩
  rw [href (fun x => .ok ((numbers x).flatMap dir)) rfl] at hx
  obtain ⟨ts, q', data, hA', hq', hdata, _, hatt, hrest⟩ := C61_attribution _ cs cs' m hx
  have hdat : data = (numbers q').flatMap dir := by
    simp only [Res.ok.injEq] at hdata
    exact hdata.symm
  obtain ⟨_, hi⟩ := numbers_query hs.nonce hq'
  rw [← href (fun x => .ok ((numbers x).flatMap dir)) rfl] at hx
  refine ⟨ts, cs', m, hx, hA', fun t ht => ?_, hrest⟩
  obtain ⟨i, hi'⟩ := List.mem_iff_getElem?.1 ht
  obtain ⟨k, c, c', hf, _, hc', ht', hu, _, hr, _⟩ := hatt i t hi'
  obtain ⟨v, hv, hvi⟩ := hi i t hi'
  have hch := flatMap_chunk dir hdir (numbers q') i v hvi
  rw [hdat, hch] at hu hr
  exact ⟨k, c', v, hf, hc', hv, ht', hu, hr⟩

/-! ## An example of such a service -/

def demoParty : Party :=
  ⟨List.replicate 32 1, List.replicate 32 2, [7], [66], [83], [5, 5], List.replicate 12 6, List.replicate 12 7⟩

/-- The directory knows `+491` only. -/
def demoDir (v : Int) : Bytes := if v = 491 then List.replicate 16 171 else List.replicate 16 0

def demoClient : Bytes := (Keys.newPair Prims.toy (List.replicate 32 3)).pub

def demoEnv : Attest.Env where
  ecRandom := List.replicate 32 3
  key := List.replicate 32 4
  nonce := List.replicate 32 5
  iv := List.replicate 12 6
  ivs _ := List.replicate 12 7
  creds := .ok ()
  attestation pub := .ok (some [(demoParty.name, some (demoParty.answer Prims.toy Gcm.toy pub))])
  discovery r := demoParty.reply Prims.toy Gcm.toy demoClient demoDir r
  decode := some

theorem demoServed : Served Prims.toy Gcm.toy demoParty demoDir demoEnv where
  party := ⟨rfl, rfl, rfl, rfl⟩
  ec := rfl
  key := rfl
  nonce := rfl
  iv := rfl
  ivs _ := rfl
  creds := rfl
  attestation := rfl
  discovery _ := rfl

def demoContacts : List Contact :=
  [⟨[], txt "+491", txt "A", [], false, [], [], [], none, []⟩, ⟨[], txt "+492", txt "B", [], false, [], [], [], none, []⟩]

example : (∀ v, (demoDir v).length = 16) ∧ (∃ c ∈ demoContacts, c.tel ≠ [] ∧ validTel c.tel = true) ∧
    ∀ c ∈ demoContacts, validTel c.tel = true → ∃ v, Decimal c.tel v ∧ Fits v := by
  refine ⟨fun v => by unfold demoDir; split <;> rfl, ⟨_, List.mem_cons_self, by decide +kernel, by decide +kernel⟩, ?_⟩
  intro c hc _
  rcases List.mem_cons.1 hc with rfl | hc
  · exact ⟨491, ⟨[4, 9, 1], by decide, by decide, Or.inr (Or.inl ⟨by decide +kernel, by decide⟩)⟩, ⟨by decide, by decide⟩⟩
  · rw [List.mem_singleton.1 hc]
    exact ⟨492, ⟨[4, 9, 2], by decide, by decide, Or.inr (Or.inl ⟨by decide +kernel, by decide⟩)⟩, ⟨by decide, by decide⟩⟩

/-- The refresh of this example, computed. -/
example : (match refresh Prims.toy Gcm.toy demoEnv (.ok demoContacts) with
    | .ok (cs, _) => cs.map (fun c => (c.registered, readUUID c.uuid))
    | _ => []) = [(true, List.replicate 16 171), (false, List.replicate 16 0)] := by decide +kernel

/-! ## C105 Who learns the numbers -/

/-- **C105 refuted**, for all parties: whoever answers the attestation request with two public keys of their
own choice, any quote and any signature is taken for an enclave, and reads every number asked about in the request
made. -/
theorem C105_any_party (P : Prims) (g : Gcm) (p : Party) (dir : Int → Bytes) (e : Attest.Env)
    (hs : Served P g p dir e) (ts : List Bytes) (hts : ∀ t ∈ ts, ∃ v, Decimal t v ∧ Fits v) :
    ∃ as req q, request P g e ts = .ok (as, req) ∧
      p.opens P g (Keys.newPair P e.ecRandom).pub req = some q ∧ (numbers q).length = ts.length ∧
      ∀ (i : Nat) (t : Bytes), ts[i]? = some t → ∃ v, Decimal t v ∧ (numbers q)[i]? = some v := by
  obtain ⟨as, req, q, h1, h2, h3, _⟩ := discover_party P g p dir e hs ts hts
  exact ⟨as, req, q, h1, h2, numbers_query hs.nonce (C61_query_numbers _ _ _ h3)⟩

/-- Quote and signature make no difference to what is sent. -/
theorem C105_not_looked_at (P : Prims) (g : Gcm) (e e' : Attest.Env) (ts : List Bytes)
    (forge : Bytes → Answer → Answer)
    (hf : ∀ n a, (forge n a).eph = a.eph ∧ (forge n a).static = a.static ∧ (forge n a).iv = a.iv ∧
      (forge n a).ciphertext = a.ciphertext ∧ (forge n a).tag = a.tag)
    (l : List (Bytes × Option Answer))
    (he : e.attestation (Keys.newPair P e.ecRandom).pub = .ok (some l))
    (he' : e' = { e with attestation := fun _ => .ok (some (l.map (fun x => (x.1, x.2.map (forge x.1))))) }) :
    request P g e' ts = request P g e ts := by
  have hb : ∀ kp name a, build P g kp name (a.map (forge name)) = build P g kp name a := by
    intro kp name a
    cases a with
    | none => rfl
    | some a =>
      obtain ⟨h1, h2, h3, h4, h5⟩ := hf name a
      simp only [build, Option.map_some, requestId, h1, h2, h3, h4, h5]
  have hall : ∀ kp (l : List (Bytes × Option Answer)),
      buildAll P g kp (l.map (fun x => (x.1, x.2.map (forge x.1)))) = buildAll P g kp l := by
    intro kp l
    induction l with
    | nil => rfl
    | cons x l ih => simp only [List.map_cons, buildAll, hb, ih]
  subst he'
  simp only [request, he, attest, List.length_map, hall]

example : demoEnv.attestation (Keys.newPair Prims.toy demoEnv.ecRandom).pub =
    .ok (some [([7], some (demoParty.answer Prims.toy Gcm.toy demoClient))]) := rfl

theorem buildAll_mem {P : Prims} {g : Gcm} {kp : Keys.KeyPair} : ∀ {l : List (Bytes × Option Answer)} {as : List Attestation},
    buildAll P g kp l = .ok as → as.length ≤ l.length ∧
      ∀ a ∈ as, ∃ x ∈ l, ∃ ans, x = (a.name, some ans) ∧ build P g kp a.name (some ans) = .ok a
  | [], as, h => by
    simp only [buildAll, Res.ok.injEq] at h
    subst h
    exact ⟨Nat.le_refl _, fun a ha => by cases ha⟩
  | (name, x) :: l, as, h => by
    simp only [buildAll] at h
    cases hb : build P g kp name x with
    | panic => rw [hb] at h; cases h
    | err e =>
      rw [hb] at h
      obtain ⟨h1, h2⟩ := buildAll_mem h
      refine ⟨Nat.le_succ_of_le h1, fun a ha => ?_⟩
      obtain ⟨y, hy, r⟩ := h2 a ha
      exact ⟨y, List.mem_cons_of_mem _ hy, r⟩
    | ok y =>
      rw [hb] at h
      simp only [Res.bind_eq_ok] at h
      obtain ⟨rest, hr, h⟩ := h
      injection h with h
      subst h
      obtain ⟨h1, h2⟩ := buildAll_mem hr
      refine ⟨Nat.succ_le_succ h1, fun a ha => ?_⟩
      rcases List.mem_cons.1 ha with rfl | ha
      · cases x with
        | none => simp [build] at hb
        | some ans =>
          have hn : a.name = name := by
            simp only [build, Res.bind_eq_ok] at hb
            obtain ⟨_, _, _, _, hb⟩ := hb
            injection hb with hb
            rw [← hb]
          exact ⟨_, List.mem_cons_self, ans, by rw [hn], by rw [hn]; exact hb⟩
      · obtain ⟨y', hy, r⟩ := h2 a ha
        exact ⟨y', List.mem_cons_of_mem _ hy, r⟩

theorem envelopes_mem {g : Gcm} {key : Bytes} : ∀ {l : List (Attestation × Bytes)} {es : List Envelope},
    envelopes g key l = .ok es → es.length = l.length ∧
      ∀ v ∈ es, ∃ a iv, (a, iv) ∈ l ∧ v.name = a.name ∧ v.requestId = a.requestId ∧ v.iv = iv ∧
        v.data ++ v.mac = g.lock a.clientKey iv key a.requestId
  | [], es, h => by
    simp only [envelopes, Res.ok.injEq] at h
    subst h
    exact ⟨rfl, fun v hv => by cases hv⟩
  | (a, iv) :: l, es, h => by
    simp only [envelopes, Res.bind_eq_ok] at h
    obtain ⟨⟨d, t⟩, h1, rest, h2, h⟩ := h
    injection h with h
    subst h
    obtain ⟨h3, h4⟩ := envelopes_mem h2
    refine ⟨by simp [h3], fun v hv => ?_⟩
    rcases List.mem_cons.1 hv with rfl | hv
    · refine ⟨a, iv, List.mem_cons_self, rfl, rfl, rfl, ?_⟩
      simp only [aesEncryptNonce] at h1
      split at h1
      · cases h1
      split at h1
      · cases h1
      injection h1 with h1
      injection h1 with h1 h1'
      rw [← h1, ← h1']
      exact List.take_append_drop ..
    · obtain ⟨a', iv', hm, r⟩ := h4 v hv
      exact ⟨a', iv', List.mem_cons_of_mem _ hm, r⟩

theorem envelopes_ivs {g : Gcm} {key : Bytes} : ∀ {l : List (Attestation × Bytes)} {es : List Envelope},
    envelopes g key l = .ok es → es.map Envelope.iv = l.map Prod.snd
  | [], es, h => by
    simp only [envelopes, Res.ok.injEq] at h
    subst h
    rfl
  | (a, iv) :: l, es, h => by
    simp only [envelopes, Res.bind_eq_ok] at h
    obtain ⟨⟨d, t⟩, h1, rest, h2, h⟩ := h
    injection h with h
    subst h
    simp [envelopes_ivs h2]

theorem newKey_ok {b k : Bytes} (h : Keys.newKey b = .ok k) : k = b := by
  unfold Keys.newKey at h
  split at h
  · injection h with h; exact h.symm
  · cases h

/-- **C105 (part).** Every envelope of a request is for a party that answered the attestation: the key of the envelope
is derived, with the client's fresh private key, from the two public keys of that answer, and the answer
carried the request id sealed under the other key so derived. There are at most three, each sealed with random bytes of its own. Missing: the quote, that is, who
holds these keys (`C105_any_party`). -/
theorem C105_addressees_partial (P : Prims) (g : Gcm) (e : Attest.Env) (ts : List Bytes) (as : List Attestation)
    (req : Request) (h : request P g e ts = .ok (as, req)) :
    ∃ l, e.attestation (Keys.newPair P e.ecRandom).pub = .ok (some l) ∧ as.length ≤ 3 ∧
      req.envelopes.length = as.length ∧ req.iv = e.iv ∧
      req.envelopes.map Envelope.iv = (List.range as.length).map e.ivs ∧
      ∀ v ∈ req.envelopes, ∃ x ∈ l, ∃ ans : Answer, x = (v.name, some ans) ∧
        ∃ k : Bytes, k = P.hkdf
            (P.dh (Keys.newPair P e.ecRandom).priv ans.eph ++ P.dh (Keys.newPair P e.ecRandom).priv ans.static)
            ((Keys.newPair P e.ecRandom).pub ++ ans.eph ++ ans.static) [] 64 ∧
          g.unlock (k.drop 32) ans.iv (ans.ciphertext ++ ans.tag) [] = some v.requestId ∧
          v.data ++ v.mac = g.lock (k.take 32) v.iv e.key v.requestId := by
  simp only [request] at h
  split at h
  · cases h
  · cases h
  simp only [Res.bind_eq_ok] at h
  obtain ⟨as', hat, req', hreq, h⟩ := h
  injection h with h
  injection h with h h'
  subst h; subst h'
  unfold attest at hat
  split at hat
  · cases hat
  · cases hat
  · cases hat
  · next l hl =>
    split at hat
    · cases hat
    · next hlen =>
      obtain ⟨h1, h2⟩ := buildAll_mem hat
      simp only [createRequest, Res.bind_eq_ok] at hreq
      obtain ⟨q, _, ⟨d, t⟩, _, es, hes, hreq⟩ := hreq
      injection hreq with hreq
      subst hreq
      obtain ⟨h3, h4⟩ := envelopes_mem hes
      refine ⟨l, hl, by omega, by simp [h3, withIvs], rfl, ?_, fun v hv => ?_⟩
      · simp only [envelopes_ivs hes, withIvs]
        rw [List.map_snd_zip]
        simp
      obtain ⟨a, iv, hm, hn, hi, hiv, hd⟩ := h4 v hv
      obtain ⟨x, hx, ans, rfl, hb⟩ := h2 a (List.of_mem_zip hm).1
      simp only [build, attestationKeys, Res.bind_eq_ok] at hb
      obtain ⟨⟨ck, sk⟩, ⟨k1, hk1, k2, hk2, hk⟩, id, hid, hb⟩ := hb
      have hk1 := newKey_ok hk1
      have hk2 := newKey_ok hk2
      subst hk1; subst hk2
      injection hk with hk
      injection hk with hck hsk
      injection hb with hb
      refine ⟨_, hx, ans, by rw [hn], _, rfl, ?_, ?_⟩
      · rw [List.take_of_length_le (by rw [List.length_drop, P.hkdf_len])] at hsk
        rw [hsk, hi, ← hb]
        exact decrypt_unlock hid
      · rw [hck, hd, hiv, hi, ← hb]

example : ∃ as req, request Prims.toy Gcm.toy demoEnv [txt "+491"] = .ok (as, req) := by
  have h : (request Prims.toy Gcm.toy demoEnv [txt "+491"]).isOk = true := by decide +kernel
  cases hx : request Prims.toy Gcm.toy demoEnv [txt "+491"] with
  | ok x => exact ⟨x.1, x.2, rfl⟩
  | err e => rw [hx] at h; cases h
  | panic => rw [hx] at h; cases h

/-! ## C77 Answers that end the program -/

/-- An answer no client should have to cope with, in a list of answers. -/
def Odd (x : Bytes × Option Answer) : Prop :=
  x.2 = none ∨ ∃ a, x.2 = some a ∧ (a.eph.length ≠ 32 ∨ a.static.length ≠ 32 ∨ a.iv.length ≠ 12)

theorem build_panic (P : Prims) (g : Gcm) (kp : Keys.KeyPair) (x : Bytes × Option Answer) :
    build P g kp x.1 x.2 = .panic ↔ Odd x := by
  rcases x with ⟨name, _ | a⟩
  · simp [build, Odd]
  · have hk : ∀ b : Bytes, b.length = 64 → aesKeyOk ((b.drop 32).take 32) = true := by
      intro b hb; simp [aesKeyOk, hb]
    simp only [build, attestationKeys, Keys.newKey, Odd, reduceCtorEq, false_or, Option.some.injEq, exists_eq_left']
    by_cases h1 : a.eph.length = 32
    · by_cases h2 : a.static.length = 32
      · simp only [h1, h2, if_true, Res.ok_bind, ne_eq, not_true_eq_false, false_or, requestId, aesDecrypt,
          hk _ (P.hkdf_len ..), Bool.not_true, Bool.false_eq_true, if_false]
        by_cases h3 : a.iv.length = 12
        · simp only [h3, not_true_eq_false, if_false, iff_false]
          split <;> simp [bind, Res.bind]
        · simp [h3, bind, Res.bind]
      · simp [h1, h2, bind, Res.bind]
    · simp [h1, bind, Res.bind]

theorem buildAll_panic (P : Prims) (g : Gcm) (kp : Keys.KeyPair) (l : List (Bytes × Option Answer)) :
    buildAll P g kp l = .panic ↔ ∃ x ∈ l, Odd x := by
  induction l with
  | nil => simp [buildAll]
  | cons x l ih =>
    rcases x with ⟨name, a⟩
    have hb := build_panic P g kp (name, a)
    simp only [buildAll, List.mem_cons, exists_eq_or_imp]
    cases hx : build P g kp name a with
    | panic => simp [hb.1 hx]
    | err e =>
      have : ¬ Odd (name, a) := fun h => by rw [hb.2 h] at hx; cases hx
      simp only [this, false_or]; exact ih
    | ok y =>
      have : ¬ Odd (name, a) := fun h => by rw [hb.2 h] at hx; cases hx
      simp only [this, false_or, ← ih]
      cases buildAll P g kp l <;> simp [bind, Res.bind]

/-- **C77 refuted** for attestation, exactly: the answers that end the program are the JSON null and lists of one to three
answers of which one is null or has a key or nonce of the wrong length. -/
theorem C77_attestation_crashes (P : Prims) (g : Gcm) (kp : Keys.KeyPair) (x : Option (List (Bytes × Option Answer))) :
    attest P g kp (.ok x) = .panic ↔
      x = none ∨ ∃ l, x = some l ∧ 1 ≤ l.length ∧ l.length ≤ 3 ∧ ∃ y ∈ l, Odd y := by
  cases x with
  | none => simp [attest]
  | some l =>
    simp only [attest, reduceCtorEq, false_or, Option.some.injEq, exists_eq_left']
    split
    · next h => simp only [reduceCtorEq, false_iff]; intro h'; omega
    · next h =>
      rw [buildAll_panic]
      exact ⟨fun h' => ⟨by omega, by omega, h'⟩, fun h' => h'.2.2⟩

example : Odd ([1], some ⟨[], [], [], [], [], [], []⟩) ∧ Odd ([2], none) ∧
    ¬ Odd ([7], some (demoParty.answer Prims.toy Gcm.toy demoClient)) := by
  refine ⟨Or.inr ⟨_, rfl, Or.inl (by decide)⟩, Or.inl rfl, ?_⟩
  rintro (h | ⟨a, h, h'⟩)
  · cases h
  · injection h with h
    subst h
    revert h'
    decide +kernel

/-- **C77 refuted** for discovery: a null response ends the program, whatever was asked. -/
theorem C77_null_response (P : Prims) (g : Gcm) (e : Attest.Env) (ts : List Bytes) (as : List Attestation) (req : Request)
    (h : request P g e ts = .ok (as, req)) (hr : e.discovery req = .ok none) : discover P g e ts = .panic := by
  simp only [discover, h, Res.ok_bind, hr]

example : discover Prims.toy Gcm.toy { demoEnv with discovery := fun _ => .ok none } [txt "+491"] = .panic := by
  decide +kernel

end Verif.Props.Attest
