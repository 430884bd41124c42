import Verif.Model.Setup
import Verif.Proof.Http
import Verif.Props.Start
import Verif.Props.Register
/-!
# A start that reports success: C172
-/
namespace Verif.Props.Setup
open Verif Verif.Keys Verif.Setup
open Verif.Http hiding setup

variable {W : Type}

/-- The network answers our request for a certificate with `r` (`none`: not at all). -/
def Answers (serve : Serve W) (T : Transports) (w : W) (r : Option Resp) : Prop :=
  (serve w ⟨"GET", T.main.baseURL ++ ascii "/v1/certificate/delivery",
    (getReq T.main (ascii "/v1/certificate/delivery")).headers.filter (fun p => !excluded p.1), []⟩).2 = r

/-- What an answer is taken as. -/
def taken (J : CertJson) : Option Resp → Res Bytes
  | none => .err .http
  | some r => match r.body with
    | none => .ok []
    | some b => match J.decode b with
      | none => .panic
      | some c => .ok c

theorem newCertificate_run (serve : Serve W) (J : CertJson) (T : Transports) (n : Http.St W) (r : Option Resp)
    (hu : urlOk (T.main.baseURL ++ ascii "/v1/certificate/delivery") = true) (h : Answers serve T n.world r) :
    (newCertificate serve J T n).2 = taken J r ∧ ∃ q, (newCertificate serve J T n).1.log = n.log ++ [q] ∧
      q.method = "GET" ∧ q.url = T.main.baseURL ++ ascii "/v1/certificate/delivery" ∧ q.body = [] := by
  unfold Answers at h
  have hc : call serve (getReq T.main (ascii "/v1/certificate/delivery")) n =
      perform serve (getReq T.main (ascii "/v1/certificate/delivery")) n := by
    have hu' : urlOk (getReq T.main (ascii "/v1/certificate/delivery")).url = true := hu
    simp only [call, hu', if_true]
  have hp : perform serve (getReq T.main (ascii "/v1/certificate/delivery")) n =
      (⟨(serve n.world ⟨"GET", T.main.baseURL ++ ascii "/v1/certificate/delivery",
        (getReq T.main (ascii "/v1/certificate/delivery")).headers.filter (fun p => !excluded p.1), []⟩).1,
        n.log ++ [⟨"GET", T.main.baseURL ++ ascii "/v1/certificate/delivery",
        (getReq T.main (ascii "/v1/certificate/delivery")).headers.filter (fun p => !excluded p.1), []⟩]⟩,
        match r with
        | none => .err .http
        | some x => .ok x) := by
    cases r with
    | none => simp only [perform]; exact Prod.ext rfl (by erw [h])
    | some x => simp only [perform]; exact Prod.ext rfl (by erw [h])
  rw [← hc] at hp
  unfold newCertificate getSenderCertificate
  cases r with
  | none =>
    rw [M.bind_err (M.bind_err hp)]
    exact ⟨rfl, _, rfl, rfl, rfl, rfl⟩
  | some r =>
    have hq : (getSenderCertificate serve J T) n = (_, .ok (match r.body with
      | none => some []
      | some b => J.decode b)) := (M.bind_ok hp).trans (M.pure_run _ _)
    unfold getSenderCertificate at hq
    rw [M.bind_ok hq]
    cases hb : r.body with
    | none => simp only [taken, hb]; exact ⟨rfl, _, rfl, rfl, rfl, rfl⟩
    | some b =>
      cases hd : J.decode b with
      | none => simp only [taken, hb, hd]; exact ⟨rfl, _, rfl, rfl, rfl, rfl⟩
      | some c => simp only [taken, hb, hd]; exact ⟨rfl, _, rfl, rfl, rfl, rfl⟩

/-- The profile part of a start without a certificate goes on with whatever the answer was taken as. -/
theorem setup_none (R : Nat → UInt8) (e : Start.Env) (s : Start.St) (hc : s.cfg.certificate = []) (c : Bytes)
    (hn : e.newCertificate = .ok c) :
    Start.setup R e s = Start.credStep R e
      { Start.keyStep R e s with cfg := { (Start.keyStep R e s).cfg with certificate := c } } := by
  have hk : (Start.keyStep R e s).cfg.certificate = [] := by
    simp only [Start.keyStep, Start.St.newKey, Start.St.upload]
    repeat' split
    all_goals exact hc
  simp only [Start.setup, Start.certStep, hk, if_true, hn]
  rfl

theorem keyStep_certificate (R : Nat → UInt8) (e : Start.Env) (s : Start.St) :
    (Start.keyStep R e s).cfg.certificate = s.cfg.certificate := by
  simp only [Start.keyStep, Start.St.newKey, Start.St.upload]
  repeat' split
  all_goals rfl

theorem credStep_certificate (R : Nat → UInt8) (e : Start.Env) (s : Start.St) :
    (Start.credStep R e s).1.cfg.certificate = s.cfg.certificate := by
  simp only [Start.credStep, Start.St.upload]
  repeat' split
  all_goals rfl

/-- The credential can be had: it is there, or the server gives it. -/
def HasCredential (e : Start.Env) (s : Start.St) : Prop := s.cfg.credential ≠ [] ∨ ∀ u k, ∃ p, e.fetch u k = .ok p

theorem keyStep_credential (R : Nat → UInt8) (e : Start.Env) (s : Start.St) :
    (Start.keyStep R e s).cfg.credential = s.cfg.credential := by
  simp only [Start.keyStep, Start.St.newKey, Start.St.upload]
  repeat' split
  all_goals rfl

theorem credStep_ok (R : Nat → UInt8) (e : Start.Env) (s : Start.St) (h : HasCredential e s) :
    (Start.credStep R e s).2 = .ok () := by
  simp only [Start.credStep]
  split
  · next hc =>
    obtain ⟨p, hp⟩ := (h.resolve_left (fun x => x hc)) (s.upload R e).cfg.uuid (s.upload R e).cfg.profileKey
    rw [hp]
  · rfl

/-- **C172 (part), the certificate.** A start without a certificate asks the server for one, once; when the answer
holds a certificate, that one is stored. Missing: see `C172_refusal_taken`. -/
theorem C172_certificate_partial (R : Nat → UInt8) (serve : Serve W) (J : CertJson) (T : Transports) (n : Http.St W)
    (e : Start.Env) (identity : Option KeyPair) (s : Start.St) (st : Nat) (l c : Bytes)
    (hu : urlOk (T.main.baseURL ++ ascii "/v1/certificate/delivery") = true)
    (h : Answers serve T n.world
      (some ⟨st, l, some (ascii "{\"certificate\":\"" ++ Encoding.b64Encode c ++ ascii "\"}")⟩))
    (hc : s.cfg.certificate = []) :
    (finish R (withNet serve J T n e) identity s).1.cfg.certificate = c ∧
    ∃ q, (newCertificate serve J T n).1.log = n.log ++ [q] ∧ q.method = "GET" ∧
      q.url = T.main.baseURL ++ ascii "/v1/certificate/delivery" := by
  obtain ⟨h1, q, h2, h3, h4, -⟩ := newCertificate_run serve J T n _ hu h
  refine ⟨?_, q, h2, h3, h4⟩
  have hn : (withNet serve J T n e).newCertificate = .ok c := by
    show (newCertificate serve J T n).2 = _
    rw [h1]
    simp only [taken, J.object]
  have hs := setup_none R (withNet serve J T n e) s hc c hn
  have := credStep_certificate R (withNet serve J T n e)
    { Start.keyStep R (withNet serve J T n e) s with
      cfg := { (Start.keyStep R (withNet serve J T n e) s).cfg with certificate := c } }
  rw [← hs] at this
  unfold finish
  split
  · next s' u hss => rw [hss] at this; exact this
  · exact this

/-- No answer at all is reported. -/
theorem C172_unreachable (R : Nat → UInt8) (serve : Serve W) (J : CertJson) (T : Transports) (n : Http.St W)
    (e : Start.Env) (identity : Option KeyPair) (s : Start.St)
    (hu : urlOk (T.main.baseURL ++ ascii "/v1/certificate/delivery") = true)
    (h : Answers serve T n.world none) (hc : s.cfg.certificate = []) :
    (finish R (withNet serve J T n e) identity s).2 = .err .http := by
  have hn : (withNet serve J T n e).newCertificate = .err .http := by
    show (newCertificate serve J T n).2 = _
    rw [(newCertificate_run serve J T n _ hu h).1]
    rfl
  have hk := (keyStep_certificate R (withNet serve J T n e) s).trans hc
  have : Start.setup R (withNet serve J T n e) s = (Start.keyStep R (withNet serve J T n e) s, .err .http) := by
    simp only [Start.setup, Start.certStep, hk, if_true, hn]
    rfl
  simp only [finish, this]

/-- **C172 refuted (refusals).** An answer with any status, also one of refusal, whose body is empty, cannot be read
or holds no certificate, counts as a certificate: the start reports success, with an empty certificate and with or
without an identity key. -/
theorem C172_refusal_taken (R : Nat → UInt8) (serve : Serve W) (J : CertJson) (T : Transports) (n : Http.St W)
    (e : Start.Env) (identity : Option KeyPair) (s : Start.St) (st : Nat) (l : Bytes) (body : Option Bytes)
    (hu : urlOk (T.main.baseURL ++ ascii "/v1/certificate/delivery") = true)
    (h : Answers serve T n.world (some ⟨st, l, body⟩)) (hb : body = none ∨ body = some [] ∨ body.bind J.decode = some [])
    (hc : s.cfg.certificate = []) (hcr : HasCredential e s) :
    (finish R (withNet serve J T n e) identity s).2 = .ok () ∧
    (finish R (withNet serve J T n e) identity s).1.cfg.certificate = [] := by
  have hn : (withNet serve J T n e).newCertificate = .ok [] := by
    show (newCertificate serve J T n).2 = _
    rw [(newCertificate_run serve J T n _ hu h).1]
    rcases hb with rfl | rfl | hb
    · rfl
    · simp only [taken, J.empty]
    · cases body with
      | none => cases hb
      | some b =>
        have hb : J.decode b = some [] := hb
        simp only [taken, hb]
  have hs := setup_none R (withNet serve J T n e) s hc [] hn
  obtain ⟨t, ht⟩ : ∃ t, t = { Start.keyStep R (withNet serve J T n e) s with
      cfg := { (Start.keyStep R (withNet serve J T n e) s).cfg with certificate := [] } } := ⟨_, rfl⟩
  rw [← ht] at hs
  have hct : HasCredential (withNet serve J T n e) t := by
    rcases hcr with h | h
    · left
      rw [ht]
      show (Start.keyStep R (withNet serve J T n e) s).cfg.credential ≠ []
      rw [keyStep_credential]
      exact h
    · exact .inr h
  have h1 := credStep_ok R _ t hct
  have h2 := credStep_certificate R (withNet serve J T n e) t
  rw [← hs] at h1 h2
  have h3 : t.cfg.certificate = [] := by rw [ht]
  unfold finish
  split
  · next s' u hss => rw [hss] at h2; simp only [hc, if_true, true_and]; exact h2.trans h3
  · next hne =>
    exfalso
    exact hne _ _ (Prod.ext rfl h1)

/-- **C172 refuted (crash).** The four letters `null` as an answer, of any status, end the program. -/
theorem C172_null_crashes (R : Nat → UInt8) (serve : Serve W) (J : CertJson) (T : Transports) (n : Http.St W)
    (e : Start.Env) (identity : Option KeyPair) (s : Start.St) (st : Nat) (l : Bytes)
    (hu : urlOk (T.main.baseURL ++ ascii "/v1/certificate/delivery") = true)
    (h : Answers serve T n.world (some ⟨st, l, some (ascii "null")⟩)) (hc : s.cfg.certificate = []) :
    (finish R (withNet serve J T n e) identity s).2 = .panic := by
  have hn : (withNet serve J T n e).newCertificate = .panic := by
    show (newCertificate serve J T n).2 = _
    rw [(newCertificate_run serve J T n _ hu h).1]
    simp only [taken, J.null]
  have hk := (keyStep_certificate R (withNet serve J T n e) s).trans hc
  have : Start.setup R (withNet serve J T n e) s = (Start.keyStep R (withNet serve J T n e) s, .panic) := by
    simp only [Start.setup, Start.certStep, hk, if_true, hn]
    rfl
  simp only [finish, this]

variable {P : Prims}

/-- **C172 (part), the identity key.** A start that reports success has loaded an identity key, when it registered
(with ordinary random values), or when there was a certificate before. Missing: see `C172_without_identity`. -/
theorem C172_identity_partial (E : Sign.Ed P) (R : Nat → UInt8) (er : Register.Env) (e : Start.Env)
    (w : Register.World) (s : Start.St) (hok : (setup E R er e w s).2.2.2 = .ok ())
    (h : s.cfg.certificate ≠ [] ∨ (Register.registered w.disk = false ∧ Register.GoodEnv er ∧ Register.GoodDir P w.disk.preKeys)) :
    ∃ l k, (setup E R er e w s).2.1 = some l ∧ l.identity = some k := by
  unfold setup at hok ⊢
  cases hs : Register.start E er w with
  | mk effs r =>
    rw [hs] at hok
    cases r with
    | err x => cases hok
    | panic => cases hok
    | ok l =>
      refine ⟨l, ?_⟩
      rcases h with h | ⟨h1, h2, h3⟩
      · simp only [finish] at hok
        cases hi : l.identity with
        | some k => exact ⟨k, rfl, rfl⟩
        | none =>
          exfalso
          rw [hi] at hok
          split at hok
          · rw [if_neg h] at hok; cases hok
          · next hne => exact hne _ () (Prod.ext rfl hok)
      · obtain ⟨-, -, -, -, h5⟩ := Register.C93_new_data E er h2 w h3 h1 l (by rw [hs])
        exact ⟨_, rfl, h5⟩

/-- **C172 refuted (identity).** On every installation whose identity key is lost or of the wrong length, whose other
files are in order and that has no certificate yet, a start reports success although it has no identity key. -/
theorem C172_without_identity (E : Sign.Ed P) (R : Nat → UInt8) (er : Register.Env) (e : Start.Env)
    (w : Register.World) (s : Start.St) (id pw sk : Bytes) (num : Nat) (hreg : Register.registered w.disk = true)
    (h1 : w.disk.ident .regid = some id) (h1' : Register.readNum id = .ok num) (h2 : w.disk.ident .password = some pw)
    (h3 : w.disk.ident .signalingKey = some sk)
    (h4 : ∀ b, w.disk.ident .identityKey = some b → b.length ≠ 64)
    (hc : s.cfg.certificate = []) (c : Bytes) (hn : e.newCertificate = .ok c) (hcr : HasCredential e s) :
    (setup E R er e w s).2.2.2 = .ok () ∧ ∃ l, (setup E R er e w s).2.1 = some l ∧ l.identity = none := by
  have hi : Register.identityOf w.disk = none := by
    unfold Register.identityOf
    cases hk : w.disk.ident .identityKey with
    | none => rfl
    | some b => exact if_neg (h4 b hk)
  have hl : Register.start E er w = ([], .ok ⟨num, pw, sk, none⟩) := by
    unfold Register.start
    rw [if_pos hreg]
    unfold Register.load
    rw [h1, hi]
    simp only [h1', h2, h3]
    rfl
  have hs := setup_none R e s hc c hn
  obtain ⟨t, ht⟩ : ∃ t, t = { Start.keyStep R e s with cfg := { (Start.keyStep R e s).cfg with certificate := c } } := ⟨_, rfl⟩
  rw [← ht] at hs
  have hct : HasCredential e t := by
    rcases hcr with h | h
    · left
      rw [ht]
      show (Start.keyStep R e s).cfg.credential ≠ []
      rw [keyStep_credential]
      exact h
    · exact .inr h
  have hr := credStep_ok R e t hct
  rw [← hs] at hr
  unfold setup
  rw [hl]
  refine ⟨?_, _, rfl, rfl⟩
  simp only [finish]
  split
  · rw [if_pos hc]
  · next hne =>
    exfalso
    exact hne _ () (Prod.ext rfl hr)

/-- The next start of such an installation, now with a certificate, reports the missing key — but only after
everything else was done: there is another profile key, and the profile has been sent with it. -/
theorem C172_late (R : Nat → UInt8) (e : Start.Env) (c : Start.Config) (hc : c.certificate ≠ [])
    (hok : (Start.run R e c).2 = .ok ()) :
    (finish R e none ⟨c, 0, []⟩).2 = .err .storeRead ∧
    (finish R e none ⟨c, 0, []⟩).1 = (Start.run R e c).1 := by
  unfold Start.run at hok ⊢
  unfold finish
  split
  · next s' u hs => rw [hs]; simp only [hc, if_false, and_self]
  · next hne =>
    exfalso
    exact hne _ () (Prod.ext rfl hok)

/-! ## Concrete cases -/

/-- A decoder that knows just enough. -/
def toyJson : CertJson where
  decode b :=
    if b = ascii "null" then none
    else if (ascii "{\"certificate\":\"").isPrefixOf b then
      some ((Encoding.b64Quanta (b.drop 16).dropLast.dropLast).getD [])
    else some []
  null := by decide +kernel
  empty := by decide +kernel
  object := by
    intro c
    obtain ⟨x, hx⟩ : ∃ x, x = Encoding.b64Encode c := ⟨_, rfl⟩
    have h16 : (ascii "{\"certificate\":\"").length = 16 := by decide +kernel
    have hq : ascii "\"}" = [34, 125] := by decide +kernel
    have hp : (ascii "{\"certificate\":\"").isPrefixOf
        (ascii "{\"certificate\":\"" ++ x ++ ascii "\"}") = true := by
      rw [List.isPrefixOf_iff_prefix, List.append_assoc]
      exact List.prefix_append _ _
    have hn : ascii "{\"certificate\":\"" ++ x ++ ascii "\"}" ≠ ascii "null" := by
      intro h
      have := congrArg List.length h
      rw [List.length_append, List.length_append, h16] at this
      have h4 : (ascii "null").length = 4 := by decide +kernel
      omega
    rw [← hx, if_neg hn, if_pos hp, List.append_assoc, List.drop_left' h16, hq]
    have : (x ++ [34, 125]).dropLast.dropLast = x := by
      rw [show x ++ [34, 125] = (x ++ [34]) ++ [125] by simp, List.dropLast_concat, List.dropLast_concat]
    rw [this, hx, Encoding.quanta_encode]
    rfl

/-- Transports of an account, and a network that always gives the same answer. -/
def demoT : Transports := Http.setup ⟨ascii "https://chat.signal.org", ascii "u", ascii "p", [], [], []⟩

def always (r : Option Resp) : Serve Unit := fun _ _ => ((), r)

/-- The hypotheses of the theorems about the certificate hold of them. -/
example : urlOk (demoT.main.baseURL ++ ascii "/v1/certificate/delivery") = true ∧
    (∀ r, Answers (always r) demoT () r) ∧ HasCredential Start.demoEnv ⟨{}, 0, []⟩ ∧
    toyJson.decode (ascii "Unauthorized") = some [] := by
  refine ⟨by decide +kernel, fun r => rfl, .inr fun _ k => ⟨_, rfl⟩, by decide +kernel⟩

/-- The server refuses (403); the start is a success. A certificate comes with the answer; it is stored. -/
example :
    (finish Start.demoR (withNet (always (some ⟨403, [], some []⟩)) toyJson demoT ⟨(), []⟩ Start.demoEnv) none
      ⟨{}, 0, []⟩).2 = .ok () ∧
    (finish Start.demoR (withNet (always (some ⟨200, [], some (ascii "{\"certificate\":\"AQI=\"}")⟩)) toyJson demoT
      ⟨(), []⟩ Start.demoEnv) none ⟨{}, 0, []⟩).1.cfg.certificate = [1, 2] := by
  decide +kernel

/-- An installation that has lost its identity key. -/
def lost : Register.World :=
  { disk :=
    { ident := fun f => match f with
        | .regid => some [49, 50]
        | .password => some [7]
        | .signalingKey => some [1]
        | .identityKey => none
      preKeys := [(PreKeys.idToFilename PreKeys.lastResortID, [])] } }

/-- It meets the hypotheses of `C172_without_identity`; what happens at its first two starts. -/
example : Register.registered lost.disk = true ∧ Register.readNum [49, 50] = .ok 12 ∧
    (setup Register.Demo.regEd Start.demoR (Register.Demo.env 9) Start.demoEnv lost ⟨{}, 0, []⟩).2.2.2 = .ok () ∧
    (setup Register.Demo.regEd Start.demoR (Register.Demo.env 9) Start.demoEnv lost ⟨{}, 0, []⟩).2.2.1.cfg.certificate = [9] ∧
    (setup Register.Demo.regEd Start.demoR (Register.Demo.env 9) Start.demoEnv lost
      ⟨(setup Register.Demo.regEd Start.demoR (Register.Demo.env 9) Start.demoEnv lost ⟨{}, 0, []⟩).2.2.1.cfg, 0, []⟩).2.2.2 =
      .err .storeRead := by
  decide +kernel

/-- A new installation registers: the hypotheses of the second case of `C172_identity_partial`. -/
example : Register.registered ({} : Register.World).disk = false ∧ Register.GoodEnv (Register.Demo.env 9) ∧
    Register.GoodDir Register.Demo.regP ({} : Register.World).disk.preKeys :=
  ⟨by decide, Register.Demo.env_good 9, Register.GoodDir.nil _⟩

end Verif.Props.Setup
