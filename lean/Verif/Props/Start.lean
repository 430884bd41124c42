import Verif.Model.Start
import Verif.Proof.Profile
/-!
# C78, C79, C80, C82: profile keys over the life of an installation; C87: sender certificates; C88: access keys
-/
namespace Verif.Props.Start
open Verif Verif.Start Verif.Profile

/-- The bytes of the generator's sequence from `i` on. -/
def window (R : Nat → UInt8) (i n : Nat) : Bytes := (List.range n).map (fun k => R (i + k))

theorem upload_cfg (R : Nat → UInt8) (e : Env) (s : St) : (s.upload R e).cfg = s.cfg := rfl

theorem certStep_key {e : Env} {s s' : St} (h : certStep e s = .ok s') :
    s'.cfg.profileKey = s.cfg.profileKey ∧ s'.cfg.credential = s.cfg.credential ∧ s'.cfg.name = s.cfg.name ∧
      s'.cfg.uuid = s.cfg.uuid ∧ s'.uploads = s.uploads ∧ s'.used = s.used := by
  have renew : ∀ {s' : St}, (do let c ← e.newCertificate; Res.ok { s with cfg := { s.cfg with certificate := c } }) = Res.ok s' →
      s'.cfg.profileKey = s.cfg.profileKey ∧ s'.cfg.credential = s.cfg.credential ∧ s'.cfg.name = s.cfg.name ∧
      s'.cfg.uuid = s.cfg.uuid ∧ s'.uploads = s.uploads ∧ s'.used = s.used := by
    intro s' h
    simp only [Res.bind_eq_ok, Res.ok.injEq] at h
    obtain ⟨c, _, rfl⟩ := h
    exact ⟨rfl, rfl, rfl, rfl, rfl, rfl⟩
  simp only [certStep] at h
  split at h
  · exact renew h
  · split at h
    · injection h with h; subst h; exact ⟨rfl, rfl, rfl, rfl, rfl, rfl⟩
    · exact renew h
    · cases h

theorem credStep_key (R : Nat → UInt8) (e : Env) (s : St) :
    (credStep R e s).1.cfg.profileKey = s.cfg.profileKey ∧ (credStep R e s).1.cfg.name = s.cfg.name ∧
    (s.cfg.credential ≠ [] → (credStep R e s).1.cfg.credential = s.cfg.credential) ∧
    ∃ l, (credStep R e s).1.uploads = s.uploads ++ l := by
  simp only [credStep]
  split
  · next h =>
    split <;> exact ⟨rfl, rfl, fun h' => absurd h h', _, rfl⟩
  · exact ⟨rfl, rfl, fun _ => rfl, [], by simp⟩

/-- After the start, key, name, credential and first uploads are those of the first step, unless the
credential was fetched. -/
theorem setup_key (R : Nat → UInt8) (e : Env) (s : St) :
    (setup R e s).1.cfg.profileKey = (keyStep R e s).cfg.profileKey ∧
    (setup R e s).1.cfg.name = (keyStep R e s).cfg.name ∧
    ((keyStep R e s).cfg.credential ≠ [] → (setup R e s).1.cfg.credential = (keyStep R e s).cfg.credential) ∧
    ∃ l, (setup R e s).1.uploads = (keyStep R e s).uploads ++ l := by
  simp only [setup]
  split
  · next s' hs =>
    obtain ⟨h1, h2, h3, _, h5, _⟩ := certStep_key hs
    obtain ⟨g1, g2, g3, l, g4⟩ := credStep_key R e s'
    exact ⟨g1.trans h1, g2.trans h3, fun h => (g3 (h2 ▸ h)).trans h2, l, by rw [g4, h5]⟩
  · exact ⟨rfl, rfl, fun _ => rfl, [], by simp⟩
  · exact ⟨rfl, rfl, fun _ => rfl, [], by simp⟩

theorem keyStep_known (R : Nat → UInt8) (e : Env) (s : St) (hk : s.cfg.profileKey ≠ []) (hn : s.cfg.name ≠ []) :
    keyStep R e s = (s.newKey R).upload R e := by
  simp only [keyStep, hk, hn, if_false, or_self]

theorem window_ne (R : Nat → UInt8) (i : Nat) : window R i 32 ≠ [] := by
  intro h
  have := congrArg List.length h
  simp [window] at this

/-- What the first encryption after the key is made of. -/
theorem first_upload (R : Nat → UInt8) (e : Env) (c : Config) (hk : c.profileKey ≠ []) (hn : c.name ≠ [])
    (hlen : c.name.length ≤ 53) (hzk : e.zkOk (window R 0 32) c.uuid = true) :
    (run R e c).1.uploads[0]? = some ⟨window R 0 32, window R 32 12 ++ e.gcm.lock (window R 0 32) (window R 32 12)
      (c.name ++ List.replicate (53 - c.name.length) 0) []⟩ := by
  have hka : aesKeyOk (window R 0 32) = true := by simp [aesKeyOk, window]
  have henc : encryptName R e.gcm (window R 0 32) c.name paddedLength 32 = (.ok (window R 32 12 ++
      e.gcm.lock (window R 0 32) (window R 32 12) (c.name ++ List.replicate (53 - c.name.length) 0) []), 44) := by
    simp only [encryptName, aesgcmEncrypt, hka, paddedLength]
    rw [if_neg (Nat.not_lt.2 hlen)]
    rfl
  have hup : updateProfile R e (window R 0 32) c.uuid c.name 32 = ([⟨window R 0 32, window R 32 12 ++
      e.gcm.lock (window R 0 32) (window R 32 12) (c.name ++ List.replicate (53 - c.name.length) 0) []⟩], 44) := by
    simp only [updateProfile, hzk, henc]
    rfl
  obtain ⟨_, _, _, l, h⟩ := setup_key R e ⟨c, 0, []⟩
  rw [run, h, keyStep_known R e _ hk hn]
  show (([] ++ (updateProfile R e (window R 0 32) c.uuid c.name 32).1) ++ l)[0]? = _
  rw [hup]
  rfl

/-! ## C78 -/

/-- **C78 refuted (restarted).** Two installations — two people, with different names, UUIDs and servers —
hold the same profile key once both have been restarted: the first 32 bytes of the fixed sequence. -/
theorem C78_same_key (R : Nat → UInt8) (e : Env) (c : Config) (hk : c.profileKey ≠ []) (hn : c.name ≠ []) :
    (run R e c).1.cfg.profileKey = window R 0 32 := by
  obtain ⟨h, _⟩ := setup_key R e ⟨c, 0, []⟩
  rw [run, h, keyStep_known R e _ hk hn]
  rfl

/-- **C78 refuted (registered).** The same right after registration, with the next 32 bytes. -/
theorem C78_same_key_first (R : Nat → UInt8) (e : Env) (uuid : Bytes) (hn : e.username ≠ []) :
    (firstRun R e uuid).1.cfg.profileKey = window R 32 32 := by
  obtain ⟨h, _⟩ := setup_key R e (register R e uuid ⟨{}, 0, []⟩)
  rw [firstRun, h, keyStep_known R e _ (window_ne R 0) hn]
  rfl

/-- Everyone's profile name can be read by everyone: what anyone uploads after a restart is opened with a
key known in advance. -/
theorem C78_names_readable (R : Nat → UInt8) (e : Env) (c : Config) (hk : c.profileKey ≠ []) (hn : c.name ≠ [])
    (hlen : c.name.length ≤ 53) (hz : c.name.getLast? ≠ some 0) (hzk : e.zkOk (window R 0 32) c.uuid = true) :
    ∃ u : Upload, (run R e c).1.uploads[0]? = some u ∧ decryptName e.gcm (window R 0 32) u.name = .ok c.name := by
  have hka : aesKeyOk (window R 0 32) = true := by simp [aesKeyOk, window]
  have hp : c.name ++ List.replicate (53 - c.name.length) 0 ≠ [] := by simp [hn]
  refine ⟨_, first_upload R e c hk hn hlen hzk, ?_⟩
  show decryptName _ _ (window R 32 12 ++ _) = _
  rw [decryptName_lock e.gcm _ _ _ hka (by simp [window]) hp]
  congr 1
  exact take_nameLength rfl hz

/-! ## C79 -/

/-- **C79 refuted.** Two starts with different names — of one person or of two — encrypt both names under the
same key and the same nonce, the 12 bytes of the sequence that follow the key. -/
theorem C79_nonce_reused (R : Nat → UInt8) (e e' : Env) (c c' : Config)
    (hk : c.profileKey ≠ []) (hn : c.name ≠ []) (hk' : c'.profileKey ≠ []) (hn' : c'.name ≠ [])
    (hlen : c.name.length ≤ 53) (hlen' : c'.name.length ≤ 53)
    (hzk : e.zkOk (window R 0 32) c.uuid = true) (hzk' : e'.zkOk (window R 0 32) c'.uuid = true) :
    ∃ u u' : Upload, (run R e c).1.uploads[0]? = some u ∧ (run R e' c').1.uploads[0]? = some u' ∧
      u.key = u'.key ∧ u.name.take 12 = u'.name.take 12 ∧
      ∃ x x', x = c.name ++ List.replicate (53 - c.name.length) 0 ∧ x' = c'.name ++ List.replicate (53 - c'.name.length) 0 ∧
        u.name = u.name.take 12 ++ e.gcm.lock u.key (u.name.take 12) x [] ∧
        u'.name = u.name.take 12 ++ e'.gcm.lock u.key (u.name.take 12) x' [] := by
  have ht : ∀ y, (window R 32 12 ++ y).take 12 = window R 32 12 := by
    intro y
    rw [List.take_append_of_le_length (by simp [window]), List.take_of_length_le (by simp [window])]
  refine ⟨_, _, first_upload R e c hk hn hlen hzk, first_upload R e' c' hk' hn' hlen' hzk', rfl, ?_, _, _, rfl, rfl, ?_, ?_⟩
  · simp only [ht]
  · simp only [ht]
  · simp only [ht]

/-- **C79 (part).** Within one process the random bytes of successive encryptions come from different places
of the sequence: each takes the twelve after those of the one before. Missing: separate processes. -/
theorem C79_one_process_partial (R : Nat → UInt8) (g : Gcm) (key key' name name' c c' : Bytes) (used u1 u2 : Nat)
    (h : encryptName R g key name 53 used = (.ok c, u1)) (h' : encryptName R g key' name' 53 u1 = (.ok c', u2)) :
    c.take 12 = window R used 12 ∧ c'.take 12 = window R (used + 12) 12 := by
  have one : ∀ (key name c : Bytes) (used u1 : Nat), encryptName R g key name 53 used = (.ok c, u1) →
      c.take 12 = window R used 12 ∧ u1 = used + 12 := by
    intro key name c used u1 h
    simp only [encryptName] at h
    split at h
    · simp at h
    · simp only [draw, Prod.mk.injEq, Res.bind_eq_ok, Res.ok.injEq] at h
      obtain ⟨⟨x, _, rfl⟩, rfl⟩ := h
      refine ⟨?_, rfl⟩
      rw [List.take_append_of_le_length (by simp), List.take_of_length_le (by simp)]
      rfl
  obtain ⟨h1, rfl⟩ := one _ _ _ _ _ h
  exact ⟨h1, (one _ _ _ _ _ h').1⟩

/-! ## C80 -/

/-- **C80 refuted.** The first restart after registration replaces the profile key (unless the sequence
happens to repeat itself after 32 bytes): those who were given the key can no longer read the profile. -/
theorem C80_key_replaced (R : Nat → UInt8) (e e' : Env) (uuid : Bytes) (hn : e.username ≠ [])
    (hR : window R 0 32 ≠ window R 32 32) :
    (run R e' (firstRun R e uuid).1.cfg).1.cfg.profileKey ≠ (firstRun R e uuid).1.cfg.profileKey := by
  have h1 := C78_same_key_first R e uuid hn
  have h2 : (firstRun R e uuid).1.cfg.name ≠ [] := by
    obtain ⟨_, h, _⟩ := setup_key R e (register R e uuid ⟨{}, 0, []⟩)
    rw [firstRun, h, keyStep_known R e _ (window_ne R 0) hn]
    exact hn
  rw [C78_same_key R e' _ (by rw [h1]; exact window_ne R 32) h2, h1]
  exact hR

/-- Whatever key is stored, a start does not keep it: the key afterwards does not depend on it. (With a
generator worth the name the key would change at every start.) -/
theorem C80_stored_key_ignored (R : Nat → UInt8) (e : Env) (c : Config) (k : Bytes) (hk : c.profileKey ≠ [])
    (hk' : k ≠ []) (hn : c.name ≠ []) :
    (run R e { c with profileKey := k }).1.cfg.profileKey = (run R e c).1.cfg.profileKey := by
  rw [C78_same_key R e c hk hn, C78_same_key R e { c with profileKey := k } hk' hn]

/-- **C80 (part).** From the first restart on the key stays the same — because the generator repeats itself.
Missing: the first restart. -/
theorem C80_later_restarts_partial (R : Nat → UInt8) (e e' : Env) (c : Config) (hk : c.profileKey ≠ []) (hn : c.name ≠ []) :
    (run R e' (run R e c).1.cfg).1.cfg.profileKey = (run R e c).1.cfg.profileKey := by
  have h1 := C78_same_key R e c hk hn
  have h2 : (run R e c).1.cfg.name ≠ [] := by
    obtain ⟨_, h, _⟩ := setup_key R e ⟨c, 0, []⟩
    rw [run, h, keyStep_known R e _ hk hn]
    exact hn
  rw [C78_same_key R e' _ (by rw [h1]; exact window_ne R 0) h2, h1]

/-! ## C82 -/

/-- A sequence of restarts. -/
def restarts (R : Nat → UInt8) : List Env → Config → Config
  | [], c => c
  | e :: es, c => restarts R es (run R e c).1.cfg

theorem restarts_keep (R : Nat → UInt8) (es : List Env) (c : Config) (hk : c.profileKey ≠ []) (hn : c.name ≠ [])
    (hc : c.credential ≠ []) : (restarts R es c).credential = c.credential ∧
      (es ≠ [] → (restarts R es c).profileKey = window R 0 32) := by
  induction es generalizing c with
  | nil => exact ⟨rfl, fun h => absurd rfl h⟩
  | cons e es ih =>
    obtain ⟨_, h2, h3, _⟩ := setup_key R e ⟨c, 0, []⟩
    have hk1 := C78_same_key R e c hk hn
    have hn1 : (run R e c).1.cfg.name = c.name := by
      rw [run, h2, keyStep_known R e _ hk hn]
      rfl
    have hc1 : (run R e c).1.cfg.credential = c.credential := by
      rw [run, h3 (by rw [keyStep_known R e _ hk hn]; exact hc), keyStep_known R e _ hk hn]
      rfl
    obtain ⟨i1, i2⟩ := ih (run R e c).1.cfg (by rw [hk1]; exact window_ne R 0) (by rw [hn1]; exact hn) (by rw [hc1]; exact hc)
    refine ⟨i1.trans hc1, fun _ => ?_⟩
    cases es with
    | nil => exact hk1
    | cons e' es' => exact i2 (by simp)

/-- **C82 refuted.** A credential is bound to one profile key (`Binds`). The one fetched at registration is
kept through every restart, while the first restart replaces the key: from then on, for ever, the stored
credential does not belong to the stored profile key. -/
theorem C82_credential_stale (R : Nat → UInt8) (Binds : Bytes → Bytes → Prop)
    (hone : ∀ cr k k', Binds cr k → Binds cr k' → k = k') (e : Env) (uuid : Bytes) (hn : e.username ≠ [])
    (hR : window R 0 32 ≠ window R 32 32)
    (hfetch : ∀ u k p, e.fetch u k = .ok p → ∃ cr, p.credential = some cr ∧ cr ≠ [] ∧ Binds cr k)
    (hok : (firstRun R e uuid).2 = .ok ()) (e1 : Env) (es : List Env) :
    Binds (firstRun R e uuid).1.cfg.credential (firstRun R e uuid).1.cfg.profileKey ∧
    ¬ Binds (restarts R (e1 :: es) (firstRun R e uuid).1.cfg).credential
      (restarts R (e1 :: es) (firstRun R e uuid).1.cfg).profileKey := by
  have hkey := C78_same_key_first R e uuid hn
  obtain ⟨_, hname, _, _⟩ := setup_key R e (register R e uuid ⟨{}, 0, []⟩)
  have hname' : (firstRun R e uuid).1.cfg.name ≠ [] := by
    rw [firstRun, hname, keyStep_known R e _ (window_ne R 0) hn]
    exact hn
  have hcred : ∃ cr, cr ≠ [] ∧ Binds cr (firstRun R e uuid).1.cfg.profileKey ∧ (firstRun R e uuid).1.cfg.credential = cr := by
    have hk2 : (keyStep R e (register R e uuid ⟨{}, 0, []⟩)).cfg.credential = [] := by
      rw [keyStep_known R e _ (window_ne R 0) hn]
      rfl
    simp only [firstRun, setup] at hok ⊢
    split at hok
    · next s hs =>
      obtain ⟨g1, g2, _⟩ := certStep_key hs
      simp only [credStep, g2, hk2, if_true] at hok ⊢
      split at hok
      · next p hp =>
        obtain ⟨cr, c1, c2, c3⟩ := hfetch _ _ _ hp
        simp only [hp, c1, Option.getD_some]
        exact ⟨cr, c2, c3, rfl⟩
      · cases hok
      · cases hok
    · cases hok
    · cases hok
  obtain ⟨cr, c1, c2, c3⟩ := hcred
  refine ⟨c3 ▸ c2, fun h => ?_⟩
  obtain ⟨r1, r2⟩ := restarts_keep R (e1 :: es) (firstRun R e uuid).1.cfg (by rw [hkey]; exact window_ne R 32) hname'
    (by rw [c3]; exact c1)
  rw [r1, r2 (by simp), c3] at h
  rw [hkey] at c2
  exact hR (hone _ _ _ h c2)

/-- A concrete start: sequence, surroundings, registration and restart meeting the hypotheses above. -/
def demoR (n : Nat) : UInt8 := UInt8.ofNat (n * 7 + 1)

def demoEnv : Env where
  gcm := Gcm.toy
  username := [65, 110, 110]
  zkOk _ _ := true
  outer c := some c
  inner _ := some (some 5)
  now := 7
  newCertificate := .ok [9]
  fetch _ k := .ok { credential := some k }

example : demoEnv.username ≠ [] ∧ window demoR 0 32 ≠ window demoR 32 32 ∧
    (firstRun demoR demoEnv [1]).2 = .ok () ∧ (firstRun demoR demoEnv [1]).1.cfg.credential = window demoR 32 32 ∧
    (run demoR demoEnv (firstRun demoR demoEnv [1]).1.cfg).1.cfg.profileKey = window demoR 0 32 ∧
    (run demoR demoEnv (firstRun demoR demoEnv [1]).1.cfg).1.cfg.credential = window demoR 32 32 := by
  decide +kernel

/-- `Binds` of C82 can be equality for it. -/
example : ∀ u k p, demoEnv.fetch u k = .ok p → ∃ cr, p.credential = some cr ∧ (k ≠ [] → cr ≠ []) ∧ cr = k := by
  intro u k p h
  simp only [demoEnv, Res.ok.injEq] at h
  subst h
  exact ⟨k, rfl, fun h => h, rfl⟩

/-! ## C87 -/

/-- Expiry of the certificate stored, in milliseconds as the service writes it. -/
def ExpiresAt (e : Env) (cert : Bytes) (t : Nat) : Prop := ∃ c, e.outer cert = some c ∧ e.inner c = some (some t)

/-- **C87 refuted.** A certificate that has expired is kept as long as its expiry, in milliseconds, is at
least the present time in *seconds* — that is, for any certificate issued since 1970. -/
theorem C87_expired_kept (e : Env) (s : St) (t : Nat) (hc : s.cfg.certificate ≠ [])
    (ht : ExpiresAt e s.cfg.certificate t) (hexp : t < e.now) (hbig : e.now / 1000 ≤ t) : certStep e s = .ok s := by
  obtain ⟨c, h1, h2⟩ := ht
  simp only [certStep, hc, if_false, checkCertificate, h1, h2]
  rw [if_neg (by omega)]

/-- A certificate that expired in 2022, looked at in 2026. -/
example : (1640995200000 : Nat) < 1790000000000 ∧ 1790000000000 / 1000 ≤ 1640995200000 := by decide

/-- **C87 (part).** With no certificate, or one whose expiry lies before the present time in seconds, a new
one is fetched and stored, and failure to do so is reported. Missing: see above. -/
theorem C87_renewed_partial (e : Env) (s : St)
    (h : s.cfg.certificate = [] ∨ ∃ t, ExpiresAt e s.cfg.certificate t ∧ t < e.now / 1000) :
    (∀ c, e.newCertificate = .ok c → ∃ s', certStep e s = .ok s' ∧ s'.cfg.certificate = c ∧ s'.cfg.profileKey = s.cfg.profileKey) ∧
    (∀ x, e.newCertificate = .err x → certStep e s = .err x) := by
  have key : certStep e s = (do let c ← e.newCertificate; Res.ok { s with cfg := { s.cfg with certificate := c } }) := by
    by_cases hc : s.cfg.certificate = []
    · simp only [certStep, hc, if_true]
    · obtain ⟨t, ⟨c, h1, h2⟩, h3⟩ := h.resolve_left hc
      simp only [certStep, hc, if_false, checkCertificate, h1, h2]
      rw [if_pos h3]
  rw [key]
  constructor
  · intro c hc
    rw [hc]
    exact ⟨_, rfl, rfl, rfl⟩
  · intro x hx
    rw [hx]
    rfl

/-- **C87 refuted (crash).** A stored certificate that cannot be read, or names no expiry, ends the program
at every start, instead of being replaced. -/
theorem C87_unreadable_crashes (e : Env) (s : St) (hc : s.cfg.certificate ≠ []) (h : ∀ t, ¬ ExpiresAt e s.cfg.certificate t) :
    certStep e s = .panic := by
  simp only [certStep, hc, if_false, checkCertificate]
  cases h1 : e.outer s.cfg.certificate with
  | none => simp only
  | some c =>
    cases h2 : e.inner c with
    | none => simp only [h2]
    | some o =>
      cases o with
      | none => simp only [h2]
      | some t => exact absurd ⟨c, h1, h2⟩ (h t)

/-! ## C88 -/

/-- **C88 (part).** The access key computed for a contact from the profile key stored for it is the one that
contact computes from its own profile key; it has 16 bytes. Missing: keys of a wrong length, see
`C88_error_dropped`. -/
theorem C88_access_keys_agree_partial (g : Gcm) (tok tok' own theirs : Bytes) (a b : Bytes × Bytes) (o : Option Bytes)
    (hk : aesKeyOk theirs = true) (ha : accessFor g true tok own (some theirs) = .ok a)
    (hb : accessFor g true tok' theirs o = .ok b) : a.1 = b.2 ∧ a.1.length = 16 := by
  simp only [accessFor, Res.bind_eq_ok] at ha hb
  obtain ⟨x, _, ha⟩ := ha
  obtain ⟨y, hy, hb⟩ := hb
  obtain ⟨z, hz⟩ : ∃ z, deriveAccessKey g theirs = .ok z :=
    ⟨(g.lock theirs (List.replicate 12 0) (List.replicate 16 0) []).take 16, by
      simp only [deriveAccessKey, hk]
      rfl⟩
  have hlen : z.length = 16 := by
    simp only [deriveAccessKey, hk] at hz
    injection hz with hz
    rw [← hz]
    simp [g.lock_len]
  rw [hz] at hy
  injection hy with hy
  simp only [targetKey, hz] at ha
  simp at ha
  rw [← ha]
  refine ⟨?_, hlen⟩
  rw [if_neg (by simp)] at hb
  split at hb
  · injection hb with hb; rw [← hb]; exact hy
  · injection hb with hb; rw [← hb]; exact hy
  · cases hb

/-- **C88 refuted.** For a contact whose stored profile key has a wrong length an empty access key is handed
out without an error. -/
theorem C88_error_dropped (g : Gcm) (tok own k : Bytes) (hown : aesKeyOk own = true) (hk : aesKeyOk k = false) :
    ∃ o, accessFor g true tok own (some k) = .ok ([], o) := by
  refine ⟨(g.lock own (List.replicate 12 0) (List.replicate 16 0) []).take 16, ?_⟩
  simp only [accessFor, deriveAccessKey, hown, targetKey, hk]
  rfl

example : aesKeyOk (List.replicate 32 3) = true ∧ aesKeyOk [] = false := by decide

/-- C88, which keys: an access key is derived from a profile key of 16, 24 or 32 bytes, and from no other. -/
theorem C88_which_keys (g : Gcm) (key : Bytes) :
    (∃ a, deriveAccessKey g key = .ok a) ↔ key.length = 16 ∨ key.length = 24 ∨ key.length = 32 := by
  unfold deriveAccessKey aesKeyOk
  constructor
  · rintro ⟨a, h⟩
    split at h
    · cases h
    · rename_i hk
      simp only [Bool.not_eq_true', Bool.or_eq_true, beq_iff_eq, Bool.not_eq_false] at hk
      omega
  · intro h
    rw [if_neg]
    · exact ⟨_, rfl⟩
    · simp only [Bool.not_eq_true', Bool.or_eq_true, beq_iff_eq, Bool.not_eq_false]
      omega

end Verif.Props.Start
