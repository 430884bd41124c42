import Verif.Model.AtRest
import Verif.Props.Symmetric
/-!
# C123: the storage directory over several runs
-/
namespace Verif.Props
open Verif Verif.Files Verif.AtRest Verif.Cbc

/-! ## Lemmas -/

theorem writeAll_salt (P : Prims) (s : StoreKeys) (ops : List Op) : ∀ d, (writeAll P s ops d).salt = d.salt := by
  induction ops with
  | nil => exact fun _ => rfl
  | cons o ops ih =>
    intro d
    refine (ih _).trans ?_
    show (writeFile P s o.iv o.path o.content o.torn d).salt = d.salt
    unfold writeFile
    split <;> rfl

theorem writeAll_other (P : Prims) (s : StoreKeys) (p : String) (ops : List Op) (h : ∀ o ∈ ops, o.path ≠ p) : ∀ d,
    (writeAll P s ops d).files p = d.files p := by
  induction ops with
  | nil => exact fun _ => rfl
  | cons o ops ih =>
    intro d
    refine (ih (fun x hx => h x (List.mem_cons_of_mem _ hx)) _).trans ?_
    show (writeFile P s o.iv o.path o.content o.torn d).files p = d.files p
    unfold writeFile
    split
    · simp only
      rw [if_neg (fun e => h o List.mem_cons_self e.symm)]
    · rfl

theorem run_salt (P : Prims) (kdf : Bytes → Bytes → Bytes) (r : Run) (d : Disk) (s : Bytes) (h : d.salt = some s) :
    (run P kdf r d).salt = some s := by
  unfold run
  split
  · rw [if_neg (by rw [h]; simp)]; exact h
  · simp only [writeAll_salt]
    unfold newStore
    split
    · exact h
    · rw [h]; exact h

theorem run_other (P : Prims) (kdf : Bytes → Bytes → Bytes) (p : String) (r : Run) (d : Disk)
    (h : ∀ o ∈ r.ops, o.path ≠ p) : (run P kdf r d).files p = d.files p := by
  unfold run
  split
  · split <;> rfl
  · simp only [writeAll_other P _ p _ h]
    unfold newStore
    split
    · rfl
    · split <;> rfl

theorem history_keeps (P : Prims) (kdf : Bytes → Bytes → Bytes) (p : String) (rs : List Run)
    (h : ∀ r ∈ rs, ∀ o ∈ r.ops, o.path ≠ p) : ∀ d, (history P kdf rs d).files p = d.files p ∧
      ∀ s, d.salt = some s → (history P kdf rs d).salt = some s := by
  induction rs with
  | nil => exact fun _ => ⟨rfl, fun _ h => h⟩
  | cons r rs ih =>
    intro d
    obtain ⟨h1, h2⟩ := ih (fun x hx => h x (List.mem_cons_of_mem _ hx)) (run P kdf r d)
    exact ⟨h1.trans (run_other P kdf p r d (h r List.mem_cons_self)), fun s hs => h2 s (run_salt P kdf r d s hs)⟩

/-! ## C123 -/

/-- C123, later runs: whatever runs came before and come after, whatever was cut short in them (the creation of the salt
and writes included): what a run has written to a file, and nobody has written since, a later run with the same
password reads. -/
theorem C123_later_runs_read (P : Prims) (kdf : Bytes → Bytes → Bytes) (hkdf : ∀ p s, (kdf p s).length = 36)
    (pre post : List Run) (r : Run) (a b : List Op) (o : Op) (fresh : Bytes) (d : Disk)
    (hr : r.tornSalt = none) (hops : r.ops = a ++ o :: b) (ho : o.torn = none) (hiv : o.iv.length = 16)
    (hb : ∀ x ∈ b, x.path ≠ o.path) (hpost : ∀ r ∈ post, ∀ x ∈ r.ops, x.path ≠ o.path) :
    readBack P kdf r.password fresh (history P kdf (pre ++ r :: post) d) o.path = .ok o.content := by
  have hh : history P kdf (pre ++ r :: post) d = history P kdf post (run P kdf r (history P kdf pre d)) := by
    simp [history]
  rw [hh]
  obtain ⟨d1, hd1⟩ : ∃ d1, d1 = history P kdf pre d := ⟨_, rfl⟩
  rw [← hd1]
  obtain ⟨k1, k2⟩ := history_keeps P kdf o.path post hpost (run P kdf r d1)
  obtain ⟨x, hx⟩ : ∃ x, x = newStore kdf r.password r.fresh d1 := ⟨_, rfl⟩
  have hrun : run P kdf r d1 = writeAll P x.1 r.ops x.2 := by simp only [run, hr, hx]
  have hkeys : x.1.unencrypted = true ∨ x.1.aesKey.length = 16 := by
    rw [hx]
    unfold newStore
    split
    · exact Or.inl rfl
    · split <;> exact Or.inr (by simp [genKeys, hkdf])
  obtain ⟨f, hf1, hf2⟩ := C30_store_round_trip P x.1 o.iv o.content hkeys hiv
  -- the file
  have hfile : (run P kdf r d1).files o.path = some f := by
    rw [hrun, hops]
    show (writeAll P x.1 (a ++ o :: b) x.2).files o.path = some f
    have : writeAll P x.1 (a ++ o :: b) x.2 =
        writeAll P x.1 b (writeFile P x.1 o.iv o.path o.content o.torn (writeAll P x.1 a x.2)) := by
      simp [writeAll]
    rw [this, writeAll_other P _ _ _ hb]
    simp [writeFile, hf1, ho]
  -- the keys
  have hk : ∀ d2 : Disk, (∀ s, (run P kdf r d1).salt = some s → d2.salt = some s) →
      (newStore kdf r.password fresh d2).1 = x.1 ∧ (newStore kdf r.password fresh d2).2.files = d2.files := by
    intro d2 h2
    rw [hrun, writeAll_salt] at h2
    rw [hx] at h2 ⊢
    unfold newStore at h2 ⊢
    by_cases hp : r.password = []
    · simp [hp]
    · simp only [hp, if_false] at h2 ⊢
      cases hs : d1.salt with
      | none =>
        simp only [hs] at h2
        rw [h2 _ rfl]
        exact ⟨rfl, rfl⟩
      | some s =>
        simp only [hs] at h2
        rw [h2 _ rfl]
        exact ⟨rfl, rfl⟩
  obtain ⟨e1, e2⟩ := hk _ k2
  simp only [readBack, readFile, e2, k1, hfile, e1]
  exact hf2

/-- C123, files nobody has written: they are reported as unreadable in every later run, and not taken for empty ones. -/
theorem C123_missing_file (P : Prims) (kdf : Bytes → Bytes → Bytes) (rs : List Run) (pw fresh : Bytes) (d : Disk) (p : String)
    (hd : d.files p = none) (h : ∀ r ∈ rs, ∀ o ∈ r.ops, o.path ≠ p) :
    readBack P kdf pw fresh (history P kdf rs d) p = .err .storeRead := by
  obtain ⟨k, _⟩ := history_keeps P kdf p rs h d
  have e : ∀ d2 : Disk, (newStore kdf pw fresh d2).2.files = d2.files := by
    intro d2
    unfold newStore
    split
    · rfl
    · split <;> rfl
  simp only [readBack, readFile, e, k, hd]

example : (⟨none, fun _ => none⟩ : Disk).files "identity/identity_key" = none := rfl

/-- The form of a file (or of what is left of one) written under `k`: IV, ciphertext and MAC. -/
def Sealed (P : Prims) (k : StoreKeys) (f : Bytes) : Prop :=
  ∃ iv c e n, Encrypt P k.aesKey iv c = .ok e ∧ f = ((iv ++ e) ++ P.hmac k.macKey (iv ++ e)).take n

/-- C123, what is on the disk: if every run has the (nonempty) password `pw`, every file that any of them writes is
ciphertext and MAC under keys derived from `pw` and the one salt. Missing: runs whose password is empty although
encryption was not switched off, `C123_empty_password_writes_plaintext`. -/
theorem C123_encrypted_partial (P : Prims) (kdf : Bytes → Bytes → Bytes) (pw : Bytes) (hpw : pw ≠ [])
    (rs : List Run) (hrs : ∀ r ∈ rs, r.password = pw) (p : String) (f : Bytes)
    (h : (history P kdf rs {}).files p = some f) :
    ∃ salt, (history P kdf rs {}).salt = some salt ∧ Sealed P (genKeys (kdf pw salt)) f := by
  have key : ∀ (rs : List Run) (d : Disk), (∀ r ∈ rs, r.password = pw) →
      (∀ p f, d.files p = some f → ∃ salt, d.salt = some salt ∧ Sealed P (genKeys (kdf pw salt)) f) →
      ∀ p f, (history P kdf rs d).files p = some f → ∃ salt, (history P kdf rs d).salt = some salt ∧
        Sealed P (genKeys (kdf pw salt)) f := by
    intro rs
    induction rs with
    | nil => exact fun d _ h => h
    | cons r rs ih =>
      intro d hrs h
      refine ih (run P kdf r d) (fun x hx => hrs x (List.mem_cons_of_mem _ hx)) ?_
      have hp := hrs r List.mem_cons_self
      unfold run
      split
      · split
        · rename_i hc
          intro p f hf
          obtain ⟨s, hs, _⟩ := h p f hf
          rw [hc.2] at hs
          cases hs
        · exact h
      · -- the writes
        have hw : ∀ (ops : List Op) (s : Bytes) (d : Disk), d.salt = some s →
            (∀ p f, d.files p = some f → Sealed P (genKeys (kdf pw s)) f) →
            ∀ p f, (writeAll P (genKeys (kdf pw s)) ops d).files p = some f → Sealed P (genKeys (kdf pw s)) f := by
          intro ops s
          induction ops with
          | nil => exact fun d _ h => h
          | cons o ops ih2 =>
            intro d hs hd
            have hw1 : ∀ p f, (writeFile P (genKeys (kdf pw s)) o.iv o.path o.content o.torn d).files p = some f →
                Sealed P (genKeys (kdf pw s)) f := by
              intro p f hf
              unfold writeFile at hf
              split at hf
              · rename_i b hb
                simp only at hf
                split at hf
                · injection hf with hf
                  unfold storeEncrypt at hb
                  rw [if_neg (by simp [genKeys])] at hb
                  simp only [Res.bind_eq_ok, aesEncrypt] at hb
                  obtain ⟨e, ⟨e', he', hee⟩, hb⟩ := hb
                  injection hee with hee
                  injection hb with hb
                  rw [← hee] at hb
                  unfold appendMAC at hb
                  cases ho : o.torn with
                  | none =>
                    rw [ho] at hf
                    refine ⟨o.iv, o.content, e', b.length, he', ?_⟩
                    rw [hb, List.take_length]
                    exact hf.symm
                  | some n =>
                    rw [ho] at hf
                    exact ⟨o.iv, o.content, e', n, he', by rw [hb]; exact hf.symm⟩
                · exact hd p f hf
              · exact hd p f hf
            refine ih2 _ ?_ hw1
            show (writeFile P (genKeys (kdf pw s)) o.iv o.path o.content o.torn d).salt = some s
            unfold writeFile
            split <;> exact hs
        simp only
        rw [hp]
        unfold newStore
        rw [if_neg hpw]
        cases hs : d.salt with
        | none =>
          simp only
          intro p f hf
          refine ⟨r.fresh, by rw [writeAll_salt], hw r.ops r.fresh _ rfl ?_ p f hf⟩
          intro p f hf
          obtain ⟨s, hs', _⟩ := h p f hf
          rw [hs] at hs'
          cases hs'
        | some s =>
          simp only
          intro p f hf
          refine ⟨s, by rw [writeAll_salt]; exact hs, hw r.ops s _ hs ?_ p f hf⟩
          intro p f hf
          obtain ⟨s', hs', h'⟩ := h p f hf
          rw [hs] at hs'
          injection hs' with hs'
          rw [hs']
          exact h'
  exact key rs {} hrs (fun p f h => by cases h) p f h

/-- C123, the two keys: the same files, and the keys are the first 16 and the last 20 bytes of what is derived from the
password, so that no byte serves both to encrypt and to authenticate. -/
theorem C123_separate_keys_partial (P : Prims) (kdf : Bytes → Bytes → Bytes) (hkdf : ∀ p s, (kdf p s).length = 36)
    (pw : Bytes) (hpw : pw ≠ []) (rs : List Run) (hrs : ∀ r ∈ rs, r.password = pw) (p : String) (f : Bytes)
    (h : (history P kdf rs {}).files p = some f) :
    ∃ salt a m, (history P kdf rs {}).salt = some salt ∧ kdf pw salt = a ++ m ∧ a.length = 16 ∧ m.length = 20 ∧
      ∃ iv c e n, Encrypt P a iv c = .ok e ∧ f = ((iv ++ e) ++ P.hmac m (iv ++ e)).take n := by
  obtain ⟨salt, hs, iv, c, e, n, he, hf⟩ := C123_encrypted_partial P kdf pw hpw rs hrs p f h
  refine ⟨salt, (kdf pw salt).take 16, (kdf pw salt).drop 16, hs, (List.take_append_drop _ _).symm, ?_, ?_,
    iv, c, e, n, he, hf⟩
  · simp [hkdf]
  · simp [hkdf]

/-- C123, the setting: with `UnencryptedStorage` nobody is asked for a password, one in the configuration does not
count, and everything is written as it is; without it a password in the configuration is the one used, and only if
there is none is the application asked, which crashes if it has no callback. -/
theorem C123_setting (P : Prims) (kdf : Bytes → Bytes → Bytes) (c : Config) :
    (c.unencryptedStorage = true → ∃ pw, choosePassword c = .ok pw ∧ ∀ (fresh : Bytes) (o : Op) (d : Disk), o.torn = none →
      (run P kdf ⟨pw, fresh, none, [o]⟩ d).files o.path = some o.content) ∧
    (c.unencryptedStorage = false → c.storagePassword ≠ [] → choosePassword c = .ok c.storagePassword) ∧
    (c.unencryptedStorage = false → c.storagePassword = [] → ∀ r, choosePassword c = r ↔
      (c.ask = none ∧ r = .panic) ∨ ∃ p, c.ask = some p ∧ r = .ok p) := by
  refine ⟨fun hc => ⟨[], by simp [choosePassword, hc], ?_⟩, fun hc h => by simp [choosePassword, hc, h], ?_⟩
  · intro fresh o d ho
    simp [run, newStore, writeAll, writeFile, storeEncrypt, ho]
  · intro hc h r
    cases ha : c.ask <;> simp [choosePassword, hc, h, ha, eq_comm]

/-- C123 refuted: `UnencryptedStorage` is not set, but neither the configuration nor the application gives a password;
then everything is written as it is. -/
theorem C123_empty_password_writes_plaintext (P : Prims) (kdf : Bytes → Bytes → Bytes) (c : Config)
    (hc : c.unencryptedStorage = false) (h1 : c.storagePassword = []) (h2 : c.ask = some []) :
    ∃ pw, choosePassword c = .ok pw ∧ ∀ (fresh : Bytes) (o : Op) (d : Disk), o.torn = none →
      (run P kdf ⟨pw, fresh, none, [o]⟩ d).files o.path = some o.content := by
  refine ⟨[], by simp [choosePassword, hc, h1, h2], ?_⟩
  intro fresh o d ho
  simp [run, newStore, writeAll, writeFile, storeEncrypt, ho]

/-- C123, another password: a file that was written under one password is refused under another one, unless the MACs
of the two keys agree on it. -/
theorem C123_wrong_password (P : Prims) (k k' : StoreKeys) (iv c f : Bytes) (hk : k.unencrypted = false)
    (hk' : k'.unencrypted = false) (h : storeEncrypt P k iv c = .ok f) :
    storeDecrypt P k' f = .err .storeBadMac ∨ ∃ e, f = e ++ P.hmac k.macKey e ∧ P.hmac k.macKey e = P.hmac k'.macKey e := by
  unfold storeEncrypt at h
  rw [if_neg (by simp [hk])] at h
  simp only [Res.bind_eq_ok] at h
  obtain ⟨e, _, h⟩ := h
  injection h with h
  by_cases he : P.hmac k.macKey e = P.hmac k'.macKey e
  · exact Or.inr ⟨e, h.symm, he⟩
  · left
    rw [← h]
    exact C30_bad_mac_refused P k' e _ hk' (P.hmac_len _ _) he

/-- C123 refuted: a store written without password and then opened with one. The first thing read is the registration
id, a file of at most five bytes; reading it panics. -/
theorem C123_turning_encryption_on_crashes (P : Prims) (kdf : Bytes → Bytes → Bytes) (pw fresh fresh' : Bytes)
    (hpw : pw ≠ []) (o : Op) (ho : o.torn = none) (hlen : o.content.length < 32) (d : Disk) :
    readBack P kdf pw fresh' (run P kdf ⟨[], fresh, none, [o]⟩ d) o.path = .panic := by
  have hf : (run P kdf ⟨[], fresh, none, [o]⟩ d).files o.path = some o.content := by
    simp [run, newStore, writeAll, writeFile, storeEncrypt, ho]
  have hx : (newStore kdf pw fresh' (run P kdf ⟨[], fresh, none, [o]⟩ d)).1.unencrypted = false ∧
      (newStore kdf pw fresh' (run P kdf ⟨[], fresh, none, [o]⟩ d)).2.files =
        (run P kdf ⟨[], fresh, none, [o]⟩ d).files := by
    unfold newStore
    rw [if_neg hpw]
    split <;> exact ⟨rfl, rfl⟩
  simp only [readBack, readFile, hx.2, hf, storeDecrypt, hx.1]
  simp [hlen]

/-- C123 refuted: the other way round nothing is noticed: the ciphertext is taken for the content. -/
theorem C123_turning_encryption_off_unnoticed (P : Prims) (kdf : Bytes → Bytes → Bytes) (fresh : Bytes) (d : Disk)
    (p : String) (f : Bytes) (h : d.files p = some f) : readBack P kdf [] fresh d p = .ok f := by
  simp [readBack, readFile, newStore, storeDecrypt, h]

/-- C123 refuted: files are not bound to their names. One that is put in the place of another is read there. -/
theorem C123_moved_file_accepted (P : Prims) (kdf : Bytes → Bytes → Bytes) (pw fresh : Bytes) (d : Disk) (p q : String) :
    readBack P kdf pw fresh { d with files := fun x => if x = q then d.files p else d.files x } q =
      readBack P kdf pw fresh d p := by
  by_cases hp : pw = []
  · simp [readBack, readFile, newStore, hp]
  · cases hs : d.salt <;> simp [readBack, readFile, newStore, hp, hs]

/-! ## Concrete cases -/

namespace AtRestDemo

/-- A key derivation for examples. -/
def toyKdf (p s : Bytes) : Bytes := (List.replicate 16 7 ++ (p ++ (s ++ List.replicate 20 8))).take 36

theorem toyKdf_len (p s : Bytes) : (toyKdf p s).length = 36 := by
  simp only [toyKdf, List.length_take, List.length_append, List.length_replicate]
  omega

def r1 : Run := ⟨[1, 2], [9, 9, 9, 9, 9, 9, 9, 9], some 3, []⟩
def o2 : Op := ⟨"identity/regid", [49, 50, 51], List.replicate 16 5, none⟩
def r2 : Run := ⟨[1, 2], [8, 8], none, [o2]⟩
def r3 : Run := ⟨[1, 2], [7], none, [⟨"sessions/bob_1", [1], List.replicate 16 6, some 20⟩]⟩
def disk3 : Disk := history Prims.toy toyKdf ([r1] ++ r2 :: [r3]) {}

/-- The salt is cut short in the first run; the second run writes, the third one is cut short in a write, the fourth
one reads. -/
example : readBack Prims.toy toyKdf [1, 2] [6] disk3 "identity/regid" = .ok [49, 50, 51] :=
  C123_later_runs_read Prims.toy toyKdf toyKdf_len [r1] [r3] r2 [] [] o2 [6] {} rfl rfl rfl rfl
    (by simp) (by decide)

example : disk3.salt = some [9, 9, 9] ∧ readBack Prims.toy toyKdf [1, 2] [6] disk3 "sessions/bob_1" = .panic ∧
    readBack Prims.toy toyKdf [1, 3] [6] disk3 "identity/regid" = .err .storeBadMac := by decide +kernel

example : (∀ r ∈ [r1] ++ r2 :: [r3], r.password = [1, 2]) ∧ (disk3.files "identity/regid").isSome = true := by
  decide +kernel

example : choosePassword ⟨false, [], some []⟩ = .ok [] ∧ choosePassword ⟨false, [1], none⟩ = .ok [1] ∧
    choosePassword ⟨true, [1], none⟩ = .ok [] ∧ choosePassword ⟨false, [], none⟩ = .panic := by decide

end AtRestDemo
end Verif.Props
