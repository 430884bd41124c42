import Verif.Proof.Register
import Verif.Props.Conversation
import Verif.Model.Send
/-!
# Registration: C91, C92, C93
-/
namespace Verif.Props.Register
open Verif Verif.Names Verif.PreKeys Verif.Register Verif.Props.PreKeys

variable {P : Prims}

/-- What the random source delivers, and the assumption that the batch of prekeys fits below the reserved
id. -/
structure GoodRand (e : Env) : Prop where
  ident : e.ident.length = 32
  keys : ∀ i, (e.keys i).length = 32
  spk : e.spk.length = 32
  time : e.time.length = 8
  fits : randID e.startWord + 100 ≤ 0xFFFFFF

/-- And the signed prekey can be written. -/
structure GoodEnv (e : Env) : Prop extends GoodRand e where
  signed : e.signedOk = true

/-- The published prekeys are those of the disk: identity, one-time keys, and a signed prekey whose
signature verifies. -/
structure Matches (E : Sign.Ed P) (d : Disk) (st : State) : Prop where
  keys : KeysOk P d.preKeys st
  reg : ∃ b n, d.ident .regid = some b ∧ readNum b = .ok n ∧ n < u32
  ident : ∃ kp, identityOf d = some kp ∧ kp.Valid P ∧ Encoding.decodeKey st.identityKey = .ok kp.pub ∧
    ∃ k sig, loadSigned d.signed st.signed.id = .ok k ∧ k.priv.length = 32 ∧ k.pub = P.pubOf k.priv ∧
      st.signed.id < u32 ∧
      Encoding.decodeKey st.signed.publicKey = .ok k.pub ∧ Encoding.decodeSignature st.signed.signature = .ok sig ∧
      (Sign.verify E kp.pub (5 :: k.pub) sig).1 = true

/-! ## Effects -/

theorem applyEffs_append (w : World) (a b : List Eff) : applyEffs P w (a ++ b) = applyEffs P (applyEffs P w a) b :=
  List.foldl_append

theorem ident_preKeys (e : Env) (w : World) (k : Nat) :
    (applyEffs P w ((identEffs P e).take k)).disk.preKeys = w.disk.preKeys ∧
    (applyEffs P w ((identEffs P e).take k)).server = w.server := by
  match k with
  | 0 => exact ⟨rfl, rfl⟩
  | 1 => exact ⟨rfl, rfl⟩
  | 2 => exact ⟨rfl, rfl⟩
  | 3 => exact ⟨rfl, rfl⟩
  | n + 4 =>
    have : (identEffs P e).take (n + 4) = identEffs P e := List.take_of_length_le (by simp [identEffs])
    rw [this]; exact ⟨rfl, rfl⟩

theorem batch_effs (e : Env) (w : World) (n : Nat) :
    applyEffs P w ((List.range n).map (fun i => .preKey ((randID e.startWord + i) % u32) (e.keys i)))
      = { w with disk := { w.disk with preKeys := generateBatch P w.disk.preKeys (randID e.startWord) e.keys n } } := by
  induction n with
  | zero => rfl
  | succ n ih =>
    rw [List.range_succ, List.map_append, applyEffs_append, ih]
    rfl

theorem batchEffs_take (e : Env) (k : Nat) : ∃ n ≤ batchSize, (batchEffs e).take k =
    (List.range n).map (fun i => .preKey ((randID e.startWord + i) % u32) (e.keys i)) := by
  refine ⟨min k batchSize, Nat.min_le_right _ _, ?_⟩
  rw [batchEffs, ← List.map_take, List.take_range]

/-- Reading the reserved file after a batch that stays below it. -/
theorem batch_last (d : Dir) (s : Nat) (rnd : Nat → Bytes) (n : Nat) (h : s + n ≤ 0xFFFFFF) :
    PreKeys.read (generateBatch P d s rnd n) (idToFilename lastResortID) = PreKeys.read d (idToFilename lastResortID) := by
  induction n with
  | zero => rfl
  | succ n ih =>
    rw [generateBatch, generatePreKey, storePreKey, read_write_other, ih (by omega)]
    intro e
    have := idToFilename_inj e
    rw [Nat.mod_eq_of_lt (by simp only [u32]; omega)] at this
    simp only [lastResortID] at this
    omega

/-- Everything before the upload. -/
def keyEffs (E : Sign.Ed P) (e : Env) : List Eff :=
  identEffs P e ++ batchEffs e ++ [.preKey lastResortID (e.keys batchSize)]
      ++ (if e.signedOk then [.signed (signedRec E e)] else [])

/-- The disk before the upload. -/
def keyDisk (E : Sign.Ed P) (e : Env) (w : World) : Disk where
  ident := fun f => match f with
    | .regid => some (numBytes (registrationId e.regWord))
    | .password => some (password e.password)
    | .signalingKey => some (signalingKey e.signalingKey)
    | .identityKey => some ((Keys.newPair P e.ident).pub ++ (Keys.newPair P e.ident).priv)
  preKeys := generatePreKeys P w.disk.preKeys e.startWord e.keys
  signed := if e.signedOk then
    write w.disk.signed (idToFilename (randID e.spkWord)) (serSRec (signedRec E e)) else w.disk.signed

theorem apply_ident (e : Env) (w : World) : applyEffs P w (identEffs P e) =
    { w with disk := { w.disk with ident := fun f => match f with
      | .regid => some (numBytes (registrationId e.regWord))
      | .password => some (password e.password)
      | .signalingKey => some (signalingKey e.signalingKey)
      | .identityKey => some ((Keys.newPair P e.ident).pub ++ (Keys.newPair P e.ident).priv) } } := by
  simp only [identEffs, applyEffs, List.foldl, applyEff]
  congr 2
  funext f
  cases f <;> rfl

theorem apply_keyEffs (E : Sign.Ed P) (e : Env) (w : World) :
    applyEffs P w (keyEffs E e) = { w with disk := keyDisk E e w } := by
  unfold keyEffs
  rw [applyEffs_append, applyEffs_append, applyEffs_append, apply_ident, batchEffs, batch_effs]
  cases h : e.signedOk
  · simp only [Bool.false_eq_true, if_false]
    simp only [applyEffs, List.foldl, applyEff]
    simp [keyDisk, h, generatePreKeys]
  · simp only [if_true]
    simp only [applyEffs, List.foldl, applyEff]
    simp [keyDisk, h, generatePreKeys, signedRec]

theorem registered_keyDisk (E : Sign.Ed P) (e : Env) (w : World) : registered (keyDisk E e w) = true := by
  simp only [registered, keyDisk, generatePreKeys, generatePreKey, storePreKey, read_write_same, Option.isSome_some]

theorem goodDir_keyDisk (E : Sign.Ed P) (e : Env) (he : GoodRand e) (w : World) (hd : GoodDir P w.disk.preKeys) :
    GoodDir P (keyDisk E e w).preKeys := by
  have hf := he.fits
  have hb := hd.batch (s := randID e.startWord) (n := batchSize) (by simp only [batchSize]; omega) he.keys
  have := hb.gen (id := lastResortID) (by decide) (he.keys batchSize)
  simpa only [keyDisk, generatePreKeys] using this

theorem sign_length (E : Sign.Ed P) (priv msg rnd : Bytes) : (Sign.sign E priv msg rnd).length = 64 := by
  simp [Sign.sign, E.enc_len, Sign.leBytes_length]

theorem newPair_facts (r : Bytes) (h : r.length = 32) :
    (Keys.newPair P r).priv.length = 32 ∧ (Keys.newPair P r).pub.length = 32 ∧
    (Keys.newPair P r).pub = P.pubOf (Keys.newPair P r).priv := by
  have h1 : (Keys.newPair P r).priv.length = 32 := by simp [Keys.newPair, Keys.clamp_len, h]
  exact ⟨h1, P.pubOf_len _ h1, rfl⟩

theorem identityOf_keyDisk (E : Sign.Ed P) (e : Env) (he : GoodRand e) (w : World) :
    identityOf (keyDisk E e w) = some (Keys.newPair P e.ident) := by
  obtain ⟨h1, h2, _⟩ := newPair_facts (P := P) e.ident he.ident
  simp only [identityOf, keyDisk]
  rw [if_pos (by simp only [List.length_append]; omega), List.drop_left' h2, List.take_left' h2]

theorem load_keyDisk (E : Sign.Ed P) (e : Env) (he : GoodRand e) (w : World) : load (keyDisk E e w) =
    .ok ⟨registrationId e.regWord, password e.password, signalingKey e.signalingKey, some (Keys.newPair P e.ident)⟩ := by
  have hr : registrationId e.regWord < u32 := by
    have : registrationId e.regWord ≤ 0x3fff := Nat.and_le_right
    simp only [u32]; omega
  unfold load
  rw [identityOf_keyDisk E e he w]
  simp only [keyDisk, readNum_numBytes _ hr, Res.ok_bind]

theorem regId_lt (n : Nat) : registrationId n < u32 := by
  have : registrationId n ≤ 0x3fff := Nat.and_le_right
  simp only [u32]; omega

/-- What registering on a disk left by earlier attempts does, when the backend succeeds. -/
theorem registration_run (E : Sign.Ed P) (e : Env) (he : GoodRand e) (hb : e.backend = .ok ()) (w : World)
    (hd : GoodDir P w.disk.preKeys) :
    ∃ st, st.identityKey = Encoding.b64EncodeNoPad (5 :: (Keys.newPair P e.ident).pub) ∧
      st.signed = signedEntity (signedRec E e) ∧ KeysOk P (keyDisk E e w).preKeys st ∧
      registration E e w = if e.putOk then (keyEffs E e ++ [.publish st], .ok ()) else (keyEffs E e, .err .other) := by
  have hgd := goodDir_keyDisk E e he w hd
  obtain ⟨st, hst, hi, hs, hk⟩ := hgd.state (registered_keyDisk E e w) (Keys.newPair P e.ident).pub
    (signedEntity (signedRec E e))
  refine ⟨st, hi, hs, hk, ?_⟩
  have ha : (applyEffs P w (keyEffs E e)).disk = keyDisk E e w := by rw [apply_keyEffs]
  unfold registration
  rw [hb]
  simp only
  change (match generatePreKeyState (applyEffs P w (keyEffs E e)).disk.preKeys _ _ with
    | .err x => (keyEffs E e, Res.err x)
    | .panic => (keyEffs E e, Res.panic)
    | .ok st => _) = _
  rw [ha, hst]
  rfl

theorem registration_good (E : Sign.Ed P) (e : Env) (he : GoodEnv e) (hb : e.backend = .ok ()) (w : World)
    (hd : GoodDir P w.disk.preKeys) :
    ∃ st, Matches E (keyDisk E e w) st ∧ st.signed.id = randID e.spkWord ∧
      registration E e w = if e.putOk then (keyEffs E e ++ [.publish st], .ok ()) else (keyEffs E e, .err .other) := by
  obtain ⟨st, hi, hs, hk, hreg⟩ := registration_run E e he.toGoodRand hb w hd
  obtain ⟨i1, i2, i3⟩ := newPair_facts (P := P) e.ident he.ident
  obtain ⟨s1, s2, s3⟩ := newPair_facts (P := P) e.spk he.spk
  have hid : randID e.spkWord < u32 := by
    have : randID e.spkWord ≤ 0xffffff := Nat.and_le_right
    simp only [u32]; omega
  refine ⟨st, ⟨hk, ⟨_, _, rfl, readNum_numBytes _ (regId_lt e.regWord), regId_lt _⟩,
    Keys.newPair P e.ident, identityOf_keyDisk E e he.toGoodRand w, ⟨i1, i3⟩, ?_,
    signedRec E e, (signedRec E e).sig, ?_, s1, s3, ?_, ?_, ?_, ?_⟩, ?_, hreg⟩
  · rw [hi]; exact Encoding.C41_key_round_trip _ i2
  · rw [hs]
    simp only [signedEntity, loadSigned, keyDisk, he.signed, if_true]
    have hn : (signedRec E e).id = randID e.spkWord := rfl
    rw [hn, read_write_same]
    have e1 : (signedRec E e).pub.length = 32 := s2
    have e2 : (signedRec E e).priv.length = 32 := s1
    have e3 : (signedRec E e).sig.length = 64 := sign_length E _ _ _
    exact loadSRec_serSRec _ hid (by omega) (by omega) (by omega) he.time
  · rw [hs]; exact hid
  · rw [hs]; exact Encoding.C41_key_round_trip _ s2
  · rw [hs]; exact Encoding.C41_signature_round_trip _ (sign_length E _ _ _)
  · rw [i3]
    exact Sign.C35_verifies E _ _ _ (Sign.C90_private_keys P e.ident he.ident).1
  · rw [hs]; rfl

/-- A start on a disk without the key of last resort. -/
theorem start_new (E : Sign.Ed P) (e : Env) (he : GoodEnv e) (hb : e.backend = .ok ()) (hp : e.putOk = true)
    (w : World) (hd : GoodDir P w.disk.preKeys) (hn : registered w.disk = false) :
    ∃ st, st.identityKey = Encoding.b64EncodeNoPad (5 :: (Keys.newPair P e.ident).pub) ∧
      st.signed = signedEntity (signedRec E e) ∧ KeysOk P (keyDisk E e w).preKeys st ∧
      start E e w = (keyEffs E e ++ [.publish st], .ok ⟨registrationId e.regWord, password e.password,
        signalingKey e.signalingKey, some (Keys.newPair P e.ident)⟩) := by
  obtain ⟨st, h1, h2, h3, hreg⟩ := registration_run E e he.toGoodRand hb w hd
  refine ⟨st, h1, h2, h3, ?_⟩
  rw [hp] at hreg
  simp only [if_true] at hreg
  unfold start
  rw [if_neg (by rw [hn]; decide), hreg]
  simp only
  rw [applyEffs_append, apply_keyEffs]
  change (_, load (keyDisk E e w)) = _
  rw [load_keyDisk E e he.toGoodRand w]

/-! ## C93 Registration data survives a restart -/

/-- Whatever happened before: once a start has got through, every later start changes nothing and works
with the same data. -/
theorem C93_restart (E : Sign.Ed P) (e : Env) (w : World) (L : Loaded) (h : (start E e w).2 = .ok L) :
    ∀ e', start E e' (applyEffs P w (start E e w).1) = ([], .ok L) := by
  intro e'
  unfold start at h
  by_cases hr : registered w.disk = true
  · rw [if_pos hr] at h
    have : (start E e w).1 = [] := by unfold start; rw [if_pos hr]
    rw [this]
    change start E e' w = _
    unfold start
    rw [if_pos hr]
    simp only at h
    rw [h]
  · rw [if_neg hr] at h
    cases hreg : registration E e w with
    | mk effs res =>
      rw [hreg] at h
      cases res with
      | err x => cases h
      | panic => cases h
      | ok u =>
        have h1 : (start E e w).1 = effs := by unfold start; rw [if_neg hr, hreg]
        rw [h1]
        have hreg' : registered (applyEffs P w effs).disk = true := by
          unfold registration at hreg
          cases hb : e.backend with
          | err x => rw [hb] at hreg; simp at hreg
          | panic => rw [hb] at hreg; simp at hreg
          | ok _ =>
            rw [hb] at hreg
            simp only at hreg
            change (match generatePreKeyState (applyEffs P w (keyEffs E e)).disk.preKeys _ _ with
              | .err x => (keyEffs E e, Res.err x)
              | .panic => (keyEffs E e, Res.panic)
              | .ok st => if e.putOk then (keyEffs E e ++ [Eff.publish st], Res.ok ()) else (keyEffs E e, Res.err Err.other))
                = _ at hreg
            split at hreg
            · simp at hreg
            · simp at hreg
            · split at hreg
              · simp only [Prod.mk.injEq, and_true] at hreg
                rw [← hreg, applyEffs_append, apply_keyEffs]
                exact registered_keyDisk E e w
              · simp at hreg
        unfold start
        rw [if_pos hreg']
        simp only at h
        rw [h]

/-- The data of a new registration: a 14-bit registration id, the text form of the 16 password bytes, 52
bytes of signaling key after version byte 1, and the identity key pair made from the random bytes. -/
theorem C93_new_data (E : Sign.Ed P) (e : Env) (he : GoodEnv e) (w : World) (hd : GoodDir P w.disk.preKeys)
    (hn : registered w.disk = false) (L : Loaded) (h : (start E e w).2 = .ok L) :
    L.regId < 2 ^ 14 ∧ L.regId = e.regWord % 2 ^ 14 ∧
    Encoding.b64DecodeNoPad L.password = .ok e.password ∧
    L.signalingKey = (1 :: e.signalingKey.drop 1).take e.signalingKey.length ∧
    L.identity = some (Keys.newPair P e.ident) := by
  unfold start at h
  rw [if_neg (by rw [hn]; simp)] at h
  cases hb : e.backend with
  | err x => simp [registration, hb] at h
  | panic => simp [registration, hb] at h
  | ok u =>
    obtain ⟨st, hm, _, hreg⟩ := registration_good E e he hb w hd
    rw [hreg] at h
    cases hp : e.putOk
    · rw [hp] at h; simp at h
    · rw [hp] at h
      simp only [if_true] at h
      rw [applyEffs_append, apply_keyEffs] at h
      change load (keyDisk E e w) = _ at h
      rw [load_keyDisk E e he.toGoodRand w] at h
      injection h with h
      subst h
      have hmod : registrationId e.regWord = e.regWord % 2 ^ 14 := Nat.and_two_pow_sub_one_eq_mod e.regWord 14
      refine ⟨?_, hmod, Encoding.b64_round_trip _, ?_, rfl⟩
      · change registrationId e.regWord < _
        rw [hmod]; exact Nat.mod_lt _ (by decide)
      · change signalingKey e.signalingKey = _
        unfold signalingKey
        cases e.signalingKey <;> simp

/-! ## C92 An unfinished registration is finished at the next start -/

/-- **C92 refuted**: if the server does not accept the prekeys, or cannot be reached, the start fails;
every later start succeeds without publishing any, so the account stays without prekeys for good. -/
theorem C92_never_published (E : Sign.Ed P) (e : Env) (he : GoodEnv e) (hb : e.backend = .ok ())
    (hp : e.putOk = false) :
    (start E e {}).2 = .err .other ∧
    ∀ l e', (start E e' (history E (applyEffs P {} (start E e {}).1) l)).1 = [] ∧
      (∃ L, (start E e' (history E (applyEffs P {} (start E e {}).1) l)).2 = .ok L) ∧
      (history E (applyEffs P {} (start E e {}).1) l).server = none := by
  obtain ⟨st, _, _, hreg⟩ := registration_good E e he hb {} (GoodDir.nil P)
  rw [hp] at hreg
  simp only [Bool.false_eq_true, if_false] at hreg
  have hs : start E e {} = (keyEffs E e, .err .other) := by
    unfold start
    rw [if_neg (by decide), hreg]
  rw [hs]
  refine ⟨rfl, ?_⟩
  intro l e'
  rw [apply_keyEffs]
  have hr : registered (keyDisk E e {}) = true := registered_keyDisk E e {}
  have hstart : ∀ e'', start E e'' { disk := keyDisk E e {}, server := none } =
      ([], load (keyDisk E e {})) := by
    intro e''; unfold start; rw [if_pos hr]
  have hh : history E { disk := keyDisk E e {}, server := none } l = { disk := keyDisk E e {}, server := none } := by
    induction l with
    | nil => rfl
    | cons x l ih =>
      obtain ⟨e'', c⟩ := x
      cases c with
      | none => rw [history, hstart]; exact ih
      | some k => rw [history, hstart]; simpa [applyEffs] using ih
  rw [hh, hstart]
  exact ⟨rfl, ⟨_, load_keyDisk E e he.toGoodRand {}⟩, rfl⟩

/-- Likewise if the program dies right after the key of last resort was written. -/
theorem C92_crash (E : Sign.Ed P) (e : Env) (he : GoodEnv e) (hb : e.backend = .ok ()) :
    ∀ l e', (start E e' (history E {} ((e, some 105) :: l))).1 = [] ∧
      (history E {} ((e, some 105) :: l)).server = none := by
  intro l e'
  obtain ⟨st, _, _, hreg⟩ := registration_good E e he hb {} (GoodDir.nil P)
  have hcut : (start E e {}).1.take 105 =
      identEffs P e ++ batchEffs e ++ [.preKey lastResortID (e.keys batchSize)] := by
    have : ∃ rest, (start E e {}).1 =
        (identEffs P e ++ batchEffs e ++ [.preKey lastResortID (e.keys batchSize)]) ++ rest := by
      unfold start
      rw [if_neg (by decide), hreg]
      cases e.putOk
      · exact ⟨if e.signedOk then [.signed (signedRec E e)] else [], by simp only [Bool.false_eq_true, if_false, keyEffs]⟩
      · exact ⟨(if e.signedOk then [.signed (signedRec E e)] else []) ++ [.publish st], by
          simp only [if_true, keyEffs, List.append_assoc]⟩
    obtain ⟨rest, h⟩ := this
    rw [h, List.take_left' (by simp [identEffs, batchEffs, batchSize])]
  have hw : applyEffs P {} ((start E e {}).1.take 105) =
      { disk := { keyDisk E e {} with signed := [] }, server := none } := by
    rw [hcut, applyEffs_append, applyEffs_append, apply_ident, batchEffs, batch_effs]
    simp only [applyEffs, List.foldl, applyEff, keyDisk, generatePreKeys]
  rw [history, hw]
  have hr : registered { keyDisk E e {} with signed := [] } = true := by
    have := registered_keyDisk E e {}
    simp only [registered] at this ⊢
    exact this
  have hstart : ∀ e'', start E e'' { disk := { keyDisk E e {} with signed := [] }, server := none } =
      ([], load { keyDisk E e {} with signed := [] }) := by
    intro e''; unfold start; rw [if_pos hr]
  have hh : history E { disk := { keyDisk E e {} with signed := [] }, server := none } l =
      { disk := { keyDisk E e {} with signed := [] }, server := none } := by
    induction l with
    | nil => rfl
    | cons x l ih =>
      obtain ⟨e'', c⟩ := x
      cases c with
      | none => rw [history, hstart]; exact ih
      | some k => rw [history, hstart]; simpa [applyEffs] using ih
  rw [hh, hstart]
  exact ⟨rfl, rfl⟩

/-- The error of writing the signed prekey is dropped: the start succeeds and publishes a signed prekey
that the client cannot load. -/
theorem C92_signed_not_stored (E : Sign.Ed P) (e : Env) (he : GoodRand e) (hb : e.backend = .ok ())
    (hs : e.signedOk = false) (hp : e.putOk = true) :
    (∃ L, (start E e {}).2 = .ok L) ∧ ∃ st, (applyEffs P {} (start E e {}).1).server = some st ∧
      loadSigned (applyEffs P {} (start E e {}).1).disk.signed st.signed.id = .err .storeRead := by
  obtain ⟨st, _, _, _, hreg⟩ := registration_run E e he hb {} (GoodDir.nil P)
  rw [hp] at hreg
  simp only [if_true] at hreg
  have h1 : start E e {} = (keyEffs E e ++ [.publish st], load (keyDisk E e {})) := by
    unfold start
    rw [if_neg (by decide), hreg]
    simp only
    rw [applyEffs_append, apply_keyEffs]
    rfl
  rw [h1]
  refine ⟨⟨_, load_keyDisk E e he {}⟩, st, ?_, ?_⟩
  · simp only; rw [applyEffs_append, apply_keyEffs]; rfl
  · simp only; rw [applyEffs_append, apply_keyEffs]
    simp [applyEffs, applyEff, keyDisk, hs, loadSigned, PreKeys.read]

/-- A start as the partial theorem allows it: it dies before the key of last resort is written (the four
identity files and the hundred one-time keys come first), or it is not interrupted, and then the server
takes the prekeys if it gets that far. -/
def Allowed (x : Env × Option Nat) : Prop :=
  GoodEnv x.1 ∧ match x.2 with
    | some k => k ≤ 104
    | none => x.1.putOk = true ∨ x.1.backend ≠ .ok ()

/-- The invariant of such histories. -/
structure Inv (E : Sign.Ed P) (w : World) : Prop where
  dir : GoodDir P w.disk.preKeys
  pub : registered w.disk = true → ∃ st, w.server = some st ∧ Matches E w.disk st

theorem inv_early {E : Sign.Ed P} {w : World} (hi : Inv E w) (hn : registered w.disk = false) (e : Env)
    (he : GoodEnv e) (k : Nat) :
    Inv E (applyEffs P w ((identEffs P e ++ batchEffs e).take k)) ∧
    registered (applyEffs P w ((identEffs P e ++ batchEffs e).take k)).disk = false := by
  obtain ⟨n, hn', ht⟩ := batchEffs_take e (k - (identEffs P e).length)
  have hfits := he.fits
  rw [List.take_append, ht, applyEffs_append, batch_effs]
  obtain ⟨h1, _⟩ := ident_preKeys (P := P) e w k
  have hlast : registered { (applyEffs P w ((identEffs P e).take k)).disk with
      preKeys := generateBatch P (applyEffs P w ((identEffs P e).take k)).disk.preKeys (randID e.startWord) e.keys n }
      = false := by
    simp only [registered] at hn ⊢
    rw [batch_last _ _ _ _ (by simp only [batchSize] at hn'; omega), h1, hn]
  refine ⟨⟨?_, ?_⟩, hlast⟩
  · simp only [h1]
    exact hi.dir.batch (by simp only [batchSize] at hn'; omega) he.keys
  · intro hr
    rw [hlast] at hr
    cases hr

theorem start_step {E : Sign.Ed P} {w : World} (hi : Inv E w) (e : Env) (he : GoodEnv e)
    (ho : e.putOk = true ∨ e.backend ≠ .ok ()) :
    Inv E (applyEffs P w (start E e w).1) ∧
    (∀ L, (start E e w).2 = .ok L → registered (applyEffs P w (start E e w).1).disk = true) := by
  by_cases hr : registered w.disk = true
  · have : start E e w = ([], load w.disk) := by unfold start; rw [if_pos hr]
    rw [this]
    exact ⟨hi, fun _ _ => hr⟩
  · have hn : registered w.disk = false := by simpa using hr
    have hearly := inv_early hi hn e he 4
    have e4 : (identEffs P e ++ batchEffs e).take 4 = identEffs P e := rfl
    rw [e4] at hearly
    cases hb : e.backend with
    | err x =>
      have : start E e w = (identEffs P e, .err x) := by
        unfold start; rw [if_neg hr]; simp [registration, hb]
      rw [this]
      exact ⟨hearly.1, fun _ h => by cases h⟩
    | panic =>
      have : start E e w = (identEffs P e, .panic) := by
        unfold start; rw [if_neg hr]; simp [registration, hb]
      rw [this]
      exact ⟨hearly.1, fun _ h => by cases h⟩
    | ok u =>
      have hp : e.putOk = true := by
        rcases ho with h | h
        · exact h
        · exact absurd hb h
      obtain ⟨st, hm, _, hreg⟩ := registration_good E e he hb w hi.dir
      rw [hp] at hreg
      simp only [if_true] at hreg
      have : (start E e w).1 = keyEffs E e ++ [.publish st] := by
        unfold start; rw [if_neg hr, hreg]
      rw [this, applyEffs_append, apply_keyEffs]
      have hgd := goodDir_keyDisk E e he.toGoodRand w hi.dir
      exact ⟨⟨hgd, fun _ => ⟨st, rfl, hm⟩⟩, fun _ _ => registered_keyDisk E e w⟩

theorem cut_step {E : Sign.Ed P} {w : World} (hi : Inv E w) (e : Env) (he : GoodEnv e) (k : Nat) (hk : k ≤ 104) :
    Inv E (applyEffs P w ((start E e w).1.take k)) := by
  by_cases hr : registered w.disk = true
  · have : start E e w = ([], load w.disk) := by unfold start; rw [if_pos hr]
    rw [this]
    simpa [applyEffs] using hi
  · have hn : registered w.disk = false := by simpa using hr
    cases hb : e.backend with
    | err x =>
      have : (start E e w).1 = identEffs P e := by
        unfold start; rw [if_neg hr]; simp [registration, hb]
      rw [this]
      have h := (inv_early hi hn e he (min k 4)).1
      have e4 : (identEffs P e ++ batchEffs e).take (min k 4) = (identEffs P e).take k := by
        rw [← List.take_take]; rfl
      rwa [e4] at h
    | panic =>
      have : (start E e w).1 = identEffs P e := by
        unfold start; rw [if_neg hr]; simp [registration, hb]
      rw [this]
      have h := (inv_early hi hn e he (min k 4)).1
      have e4 : (identEffs P e ++ batchEffs e).take (min k 4) = (identEffs P e).take k := by
        rw [← List.take_take]; rfl
      rwa [e4] at h
    | ok u =>
      obtain ⟨st, _, _, hreg⟩ := registration_good E e he hb w hi.dir
      obtain ⟨rest, hrest⟩ : ∃ rest, (start E e w).1 = (identEffs P e ++ batchEffs e) ++ rest := by
        unfold start
        rw [if_neg hr, hreg]
        cases e.putOk
        · exact ⟨_, by simp [keyEffs]; rfl⟩
        · exact ⟨_, by simp [keyEffs]; rfl⟩
      rw [hrest, List.take_append_of_le_length (by simp [identEffs, batchEffs, batchSize]; omega)]
      exact (inv_early hi hn e he k).1

theorem history_inv {E : Sign.Ed P} : ∀ (l : List (Env × Option Nat)) (w : World), Inv E w →
    (∀ x ∈ l, Allowed x) → Inv E (history E w l)
  | [], _, hi, _ => hi
  | (e, none) :: l, w, hi, ha => by
    have h := ha (e, none) List.mem_cons_self
    exact history_inv l _ (start_step hi e h.1 h.2).1 (fun x hx => ha x (List.mem_cons_of_mem _ hx))
  | (e, some k) :: l, w, hi, ha => by
    have h := ha (e, some k) List.mem_cons_self
    exact history_inv l _ (cut_step hi e h.1 k h.2) (fun x hx => ha x (List.mem_cons_of_mem _ hx))

theorem history_snoc (E : Sign.Ed P) (e : Env) : ∀ (l : List (Env × Option Nat)) (w : World),
    history E w (l ++ [(e, none)]) = applyEffs P (history E w l) (start E e (history E w l)).1
  | [], _ => rfl
  | (_, none) :: l, _ => history_snoc E e l _
  | (_, some _) :: l, _ => history_snoc E e l _

theorem inv_init (E : Sign.Ed P) : Inv E {} :=
  ⟨GoodDir.nil P, by intro h; exact absurd h (by decide)⟩

/-- **C92**, what holds of the code: after any number of starts that each died before the key of last
resort was written, or ran to their end, a start that succeeds leaves the server with prekeys that match
the disk. Missing: a death, or a refusal by the server, after that key is written
(`C92_never_published`). -/
theorem C92_finished_partial (E : Sign.Ed P) (l : List (Env × Option Nat)) (e : Env) (L : Loaded)
    (hl : ∀ x ∈ l, Allowed x) (he : Allowed (e, none)) (hok : (start E e (history E {} l)).2 = .ok L) :
    ∃ st, (history E {} (l ++ [(e, none)])).server = some st ∧
      Matches E (history E {} (l ++ [(e, none)])).disk st := by
  have hi := history_inv l {} (inv_init E) hl
  obtain ⟨h1, h2⟩ := start_step hi e he.1 he.2
  rw [history_snoc]
  exact h1.pub (h2 L hok)

/-! ## C91 A registered client can be contacted -/

/-- What the server hands out about the client: the identity key, the signed prekey, and a one-time prekey
or none. -/
def reply (st : State) (dev reg : Nat) (pk : Option Entity) : Send.PkReply where
  identityKey := st.identityKey
  devices := [⟨dev, reg, some ⟨st.signed.id, st.signed.publicKey, st.signed.signature⟩,
    pk.map (fun e => ⟨e.id, e.publicKey⟩)⟩]

/-- Another client, and the addresses the two have for each other. -/
structure Caller where
  ident : Keys.KeyPair
  rb : Bytes
  rr : Bytes
  reg : Nat
  name : String
  dev : Nat
  nameR : String
  devR : Nat
  store : Api.Store

/-- The caller has no session with the client, and accepts its identity key. -/
structure Caller.Ok (P : Prims) (c : Caller) (peer : Bytes) : Prop where
  ident : c.ident.Valid P
  rb : c.rb.length = 32
  rr : c.rr.length = 32
  reg : c.reg < 2 ^ 32
  sIdent : c.store.identity = some c.ident
  sReg : c.store.regId = some c.reg
  trust : Api.isTrusted c.store c.nameR peer = true
  none : c.store.sessions (sessName c.nameR c.devR) = .absent

/-- Caller and client as the parties of a conversation. -/
def setup (c : Caller) (d : Disk) (always : Bool) (b : Api.Bundle) (idR spk : Keys.KeyPair)
    (opk : Option Keys.KeyPair) (regR : Nat) : Conv.Setup where
  idI := c.ident
  idR := idR
  spk := spk
  opk := opk
  rb := c.rb
  rr := c.rr
  spkId := b.signedPreKeyId
  pkId := b.preKeyId
  regI := c.reg
  regR := regR
  nameI := c.name
  devI := c.dev
  nameR := c.nameR
  devR := c.devR
  initiator := c.store
  responder := storeOf d always
  bundle := b

theorem contact (E : Sign.Ed P) (hv : ∀ k m s, P.verify k m s = (Sign.verify E k m s).1) {d : Disk} {st : State}
    (hm : Matches E d st) (hz : st.signed.id ≠ 0) (pk : Option Entity)
    (hpk : ∀ x, pk = some x → x ∈ st.preKeys ++ [st.lastResort] ∧ x.id ≠ 0) (dev reg : Nat) :
    ∃ b idR spk opk regR, Send.makeBundle (reply st dev reg pk) = .ok (dev, b) ∧
      identityOf d = some idR ∧ b.identityKey = idR.pub ∧ Encoding.decodeKey st.signed.publicKey = .ok spk.pub ∧
      ∀ c : Caller, c.Ok P idR.pub → ∀ always, (setup c d always b idR spk opk regR).Ok P := by
  obtain ⟨hk, ⟨rb, n, hrb, hn, hn32⟩, idR, hid, hidv, hdec, k, sig, hload, hk1, hk2, hkid, hkd, hsd, hver⟩ := hm
  have kpub : k.pub.length = 32 := by rw [hk2]; exact P.pubOf_len _ hk1
  have hspk : ∀ always, (storeOf d always).signedPreKeys st.signed.id = some ⟨k.priv, k.pub⟩ := by
    intro a; simp [storeOf, hload, keyPair, hk1, kpub]
  have hregR : ∀ always, (storeOf d always).regId = some n := by
    intro a; simp [storeOf, hrb, hn]
  cases hpk' : pk with
  | none =>
    refine ⟨⟨reg, 0, none, st.signed.id, some k.pub, sig, idR.pub⟩, idR, ⟨k.priv, k.pub⟩, none, n, ?_, hid, rfl, hkd, ?_⟩
    · simp only [Send.makeBundle, reply, Option.map, Send.decodePreKey, hkd, hsd, hdec, Res.ok_bind]
    · intro c hc always
      exact
        { idI := hc.ident, idR := hidv, spk := ⟨hk1, hk2⟩, opk := by intro _ h; cases h
          rb := hc.rb, rr := hc.rr, spkId := ⟨hz, hkid⟩, pkId := ⟨Nat.two_pow_pos 32, by simp [setup]⟩
          regI := hc.reg, regR := hn32, bundleId := rfl, bundleSpk := ⟨rfl, rfl⟩, bundleOpk := ⟨rfl, rfl⟩
          bundleSig := by rw [hv]; exact hver
          iIdent := hc.sIdent, iReg := hc.sReg, iTrust := hc.trust, iNone := hc.none
          rIdent := hid, rReg := hregR always, rTrust := by simp [setup, Api.isTrusted, storeOf]
          rNone := rfl, rSpk := hspk always, rOpk := by intro _ h; cases h }
  | some x =>
    obtain ⟨hmem, hx0⟩ := hpk x hpk'
    obtain ⟨y, hy, hyid, hxle, hy1, hy2, hyd⟩ := hk.all x hmem
    have ypub : y.pub.length = 32 := by rw [hy2]; exact P.pubOf_len _ hy1
    refine ⟨⟨reg, x.id, some y.pub, st.signed.id, some k.pub, sig, idR.pub⟩, idR, ⟨k.priv, k.pub⟩,
      some ⟨y.priv, y.pub⟩, n, ?_, hid, rfl, hkd, ?_⟩
    · simp only [Send.makeBundle, reply, Option.map, Send.decodePreKey, hyd, hkd, hsd, hdec, Res.ok_bind]
    · intro c hc always
      exact
        { idI := hc.ident, idR := hidv, spk := ⟨hk1, hk2⟩
          opk := by intro k' h; injection h with h; subst h; exact ⟨hy1, hy2⟩
          rb := hc.rb, rr := hc.rr, spkId := ⟨hz, hkid⟩
          pkId := ⟨by simp only [setup]; omega, by simp [setup, hx0]⟩
          regI := hc.reg, regR := hn32, bundleId := rfl, bundleSpk := ⟨rfl, rfl⟩, bundleOpk := ⟨rfl, rfl⟩
          bundleSig := by rw [hv]; exact hver
          iIdent := hc.sIdent, iReg := hc.sReg, iTrust := hc.trust, iNone := hc.none
          rIdent := hid, rReg := hregR always, rTrust := by simp [setup, Api.isTrusted, storeOf]
          rNone := rfl, rSpk := hspk always
          rOpk := by
            intro k' h; injection h with h; subst h
            simp [setup, storeOf, hy, keyPair, hy1, ypub] }

/-- **C91**: after a start that succeeded (and earlier ones as in C92), the server has a set of prekeys.
Whichever of them it hands out, or none, any other client makes a bundle of the reply, builds a session
from it, and the first message it sends is read by the registered client. Missing: prekeys with id 0
(C17), a batch of keys that runs into the reserved id (C40), and the histories of
`C92_never_published`. -/
theorem C91_contact_partial (E : Sign.Ed P) (hv : ∀ k m s, P.verify k m s = (Sign.verify E k m s).1)
    (l : List (Env × Option Nat)) (e : Env) (L : Loaded) (hl : ∀ x ∈ l, Allowed x) (he : Allowed (e, none))
    (hok : (start E e (history E {} l)).2 = .ok L) :
    ∃ st, (history E {} (l ++ [(e, none)])).server = some st ∧
      (st.signed.id ≠ 0 → ∀ pk : Option Entity,
        (∀ x, pk = some x → x ∈ st.preKeys ++ [st.lastResort] ∧ x.id ≠ 0) → ∀ dev reg,
        ∃ b idR spk opk regR, Send.makeBundle (reply st dev reg pk) = .ok (dev, b) ∧
          identityOf (history E {} (l ++ [(e, none)])).disk = some idR ∧
          Encoding.decodeKey st.signed.publicKey = .ok spk.pub ∧
          ∀ (c : Caller) (always : Bool) (S : Conv.Setup),
            S = setup c (history E {} (l ++ [(e, none)])).disk always b idR spk opk regR →
            c.Ok P idR.pub → ∀ (pt : Bytes) (rnd : Nat → Bytes), pt.length < 2 ^ 60 → (rnd 0).length = 32 →
            [spk.pub, (Keys.newPair P c.rr).pub, (Keys.newPair P (rnd 0)).pub].Nodup →
            (Api.buildSender P {} c.store c.rb c.rr c.nameR c.devR b).res = .ok () ∧
            Conv.World.gots P S (Conv.World.init P S) (Props.firstContact pt rnd) =
              [.sent, .received (.ok pt)]) := by
  obtain ⟨st, hs, hm⟩ := C92_finished_partial E l e L hl he hok
  refine ⟨st, hs, ?_⟩
  intro hz pk hpk dev reg
  obtain ⟨b, idR, spk, opk, regR, h1, h2, _, h4, h3⟩ := contact E hv hm hz pk hpk dev reg
  refine ⟨b, idR, spk, opk, regR, h1, h2, h4, ?_⟩
  rintro c always S rfl hc pt rnd hpt hr hk
  have := Props.C01_first_contact P _ (h3 c hc always) pt hpt rnd hr hk
  exact ⟨this.1, this.2.1⟩

/-! ## A concrete registration -/
namespace Demo

/-- The toy primitives, with signatures checked by the code's verification in the toy group. -/
def regP : Prims :=
  { Sign.toyP with verify := fun k m s => (Sign.verify Sign.toyEd k m s).1 }

def regEd : Sign.Ed regP where
  G := Sign.toyEd.G
  grp := Sign.toyEd.grp
  B := Sign.toyEd.B
  L := Sign.toyEd.L
  enc := Sign.toyEd.enc
  dec := Sign.toyEd.dec
  toEd := Sign.toyEd.toEd
  L_pos := Sign.toyEd.L_pos
  L_le := Sign.toyEd.L_le
  order := Sign.toyEd.order
  enc_len := Sign.toyEd.enc_len
  dec_enc := Sign.toyEd.dec_enc
  toEd_pub := Sign.toyEd.toEd_pub

theorem regVerify : ∀ k m s, regP.verify k m s = (Sign.verify regEd k m s).1 := fun _ _ _ => rfl

/-- A start with ordinary random values. -/
def env (b : UInt8) : Env where
  regWord := 123456789
  password := List.replicate 16 b
  signalingKey := List.replicate 52 b
  ident := List.replicate 32 b
  startWord := 70000
  keys := fun i => List.replicate 32 (b + UInt8.ofNat i)
  spk := List.replicate 32 (b + 1)
  spkWord := 4711
  random := List.replicate 64 3
  time := List.replicate 8 7

theorem env_good (b : UInt8) : GoodEnv (env b) :=
  { ident := by simp [env], keys := by intro i; simp [env], spk := by simp [env], time := by simp [env]
    fits := by change randID 70000 + 100 ≤ 0xFFFFFF; decide +kernel, signed := rfl }

def failing : Env := { env 11 with backend := .err .other }

/-- The first start dies after fifty writes, the second when the backend fails, the third gets through:
the hypotheses of C91 and C92 hold. -/
def hist : List (Env × Option Nat) := [(env 9, some 50), (failing, none)]

theorem hist_allowed : (∀ x ∈ hist, Allowed x) ∧ Allowed (env 13, none) := by
  refine ⟨?_, env_good 13, .inl rfl⟩
  intro x hx
  simp only [hist, List.mem_cons, List.not_mem_nil, or_false] at hx
  rcases hx with rfl | rfl
  · exact ⟨env_good 9, by decide⟩
  · refine ⟨?_, .inr (by simp [failing])⟩
    have := env_good 11
    exact { ident := this.ident, keys := this.keys, spk := this.spk, time := this.time, fits := this.fits
            signed := rfl }

theorem hist_world : Inv regEd (history regEd {} hist) ∧ registered (history regEd {} hist).disk = false := by
  have h9 : ((start regEd (env 9) {}).1.take 50) = (identEffs regP (env 9) ++ batchEffs (env 9)).take 50 := by
    obtain ⟨st, _, _, _, hreg⟩ := registration_run regEd (env 9) (env_good 9).toGoodRand rfl {} (GoodDir.nil regP)
    have : ∃ rest, (start regEd (env 9) {}).1 = (identEffs regP (env 9) ++ batchEffs (env 9)) ++ rest := by
      unfold start
      rw [if_neg (by decide), hreg, if_pos (show (env 9).putOk = true from rfl)]
      simp only [keyEffs, List.append_assoc]
      exact ⟨_, rfl⟩
    obtain ⟨rest, h⟩ := this
    rw [h, List.take_append_of_le_length (by simp [identEffs, batchEffs, batchSize])]
  have h1 := inv_early (inv_init regEd) (by decide) (env 9) (env_good 9) 50
  rw [← h9] at h1
  have h2 := inv_early h1.1 h1.2 failing (hist_allowed.1 (failing, none) (by simp [hist])).1 4
  have e4 : (identEffs regP failing ++
      batchEffs failing).take 4 = identEffs regP failing := rfl
  rw [e4] at h2
  have : ∀ w, registered w.disk = false → (start regEd failing w).1 = identEffs regP failing := by
    intro w hw
    unfold start; rw [if_neg (by rw [hw]; decide)]; simp [registration, failing]
  rw [hist, history, history, history, this _ h1.2]
  exact h2

/-- The third start succeeds. -/
theorem third : ∃ st L, start regEd (env 13) (history regEd {} hist) = (keyEffs regEd (env 13) ++ [.publish st], .ok L) ∧
    st.signed = signedEntity (signedRec regEd (env 13)) := by
  obtain ⟨st, _, h, _, hs⟩ := start_new regEd (env 13) (env_good 13) rfl rfl _ hist_world.1.dir hist_world.2
  exact ⟨st, _, hs, h⟩

def caller : Caller where
  ident := Keys.newPair regP (List.replicate 32 21)
  rb := List.replicate 32 22
  rr := List.replicate 32 24
  reg := 77
  name := "alice"
  dev := 1
  nameR := "bob"
  devR := 1
  store :=
    { sessions := fun _ => .absent, identities := fun _ => .absent, preKeys := fun _ => none
      signedPreKeys := fun _ => none, identity := some (Keys.newPair regP (List.replicate 32 21))
      regId := some 77, alwaysTrust := false }

theorem caller_ok (k : Bytes) : caller.Ok regP k :=
  { ident := ⟨by decide +kernel, rfl⟩, rb := by decide +kernel, rr := by decide +kernel
    reg := by decide +kernel, sIdent := rfl, sReg := rfl, trust := rfl, none := rfl }

/-- A stranger's message gets through to the client registered at the third start, with the key of last
resort. -/
example : ∃ st L b S, start regEd (env 13) (history regEd {} hist) = (keyEffs regEd (env 13) ++ [.publish st], .ok L) ∧
    Send.makeBundle (reply st 1 5 (some st.lastResort)) = .ok (1, b) ∧
    Conv.World.gots regP S (Conv.World.init regP S) (Props.firstContact [104, 105] (fun _ => List.replicate 32 8)) =
      [.sent, .received (.ok [104, 105])] := by
  obtain ⟨st, L, hst, hsig⟩ := third
  obtain ⟨st', hs, hc⟩ := C91_contact_partial regEd regVerify hist (env 13) L hist_allowed.1 hist_allowed.2
    (by rw [hst])
  have hsnoc := history_snoc regEd (env 13) hist {}
  rw [hst, applyEffs_append] at hsnoc
  have : st' = st := by
    have hpub : ∀ w, (applyEffs regP w [.publish st]).server = some st := fun _ => rfl
    rw [hsnoc, hpub] at hs
    exact (Option.some.inj hs).symm
  subst this
  have hlast : st'.lastResort.id = 0xFFFFFF := by
    obtain ⟨st2, hs2, hm⟩ := C92_finished_partial regEd hist (env 13) L hist_allowed.1 hist_allowed.2 (by rw [hst])
    rw [hs] at hs2
    rw [Option.some.inj hs2]; exact hm.keys.last
  obtain ⟨b, idR, spk, opk, regR, hb, _, hspk, hrun⟩ := hc (by rw [hsig]; decide +kernel) (some st'.lastResort)
    (by rintro x ⟨⟩; exact ⟨by simp, by rw [hlast]; decide⟩) 1 5
  have hk : spk.pub = (Keys.newPair regP (env 13).spk).pub := by
    rw [hsig] at hspk
    have := Encoding.C41_key_round_trip (signedRec regEd (env 13)).pub
      (newPair_facts (P := regP) (env 13).spk (env_good 13).spk).2.1
    have h2 : Encoding.decodeKey (Encoding.encodeKey (signedRec regEd (env 13)).pub) = .ok spk.pub := hspk
    exact (Res.ok.inj (this.symm.trans h2)).symm
  refine ⟨st', L, b, _, hst, hb, (hrun caller false _ rfl (caller_ok _) [104, 105] _ (by decide) (by simp) ?_).2⟩
  rw [hk]
  decide +kernel

end Demo

end Verif.Props.Register
