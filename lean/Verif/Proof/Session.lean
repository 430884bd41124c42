import Verif.Proof.Chain
/-! Lemmas about `decryptState` and records. -/
namespace Verif.Session
open Verif Verif.Keys Verif.Messages

/-- `m` is authentic under message key `mk` from `remote` to `loc` and opens to `pt`. -/
def Opens (P : Prims) (mk : MsgKeys) (remote loc : Bytes) (m : WhisperMsg) (pt : Bytes) : Prop :=
  verifyMac P m remote loc mk.macKey = true ∧
    Cbc.Decrypt P mk.cipherKey (mk.iv ++ m.ciphertext) = .ok pt

@[simp] theorem modRecv_sender (s : SState) (e : Bytes) (f) : (modRecv s e f).sender = s.sender := rfl
@[simp] theorem modRecv_version (s : SState) (e : Bytes) (f) : (modRecv s e f).version = s.version := rfl
@[simp] theorem modRecv_localId (s : SState) (e : Bytes) (f) : (modRecv s e f).localId = s.localId := rfl
@[simp] theorem modRecv_remoteId (s : SState) (e : Bytes) (f) :
    (modRecv s e f).remoteId = s.remoteId := rfl
@[simp] theorem modRecv_rootKey (s : SState) (e : Bytes) (f) : (modRecv s e f).rootKey = s.rootKey := rfl

theorem getRecv_ratchet {s : SState} {e : Bytes} {rc : RecvChain} (h : getRecv s e = some rc) :
    rc.ratchet = e := by
  unfold getRecv at h
  have := List.find?_some h
  simpa using this

theorem getRecv_mem {s : SState} {e : Bytes} {rc : RecvChain} (h : getRecv s e = some rc) :
    rc ∈ s.recv := List.mem_of_find?_eq_some h

theorem getRecv_modRecv (s : SState) (e : Bytes) (f : RecvChain → RecvChain) (rc : RecvChain)
    (hf : ∀ x, (f x).ratchet = x.ratchet) (h : getRecv s e = some rc) :
    getRecv (modRecv s e f) e = some (f rc) := by
  unfold getRecv modRecv at *
  exact find_updFirst _ _ (by intro a ha; simpa [hf] using ha) _ _ h

/-- Decryption once the chain key is known. -/
def afterChain (P : Prims) (s1 : SState) (ck : ChainKey) (m : WhisperMsg) : SState × Res Bytes :=
  match getOrCreateMessageKeys P s1 m.ratchetKey ck m.counter with
  | .err e => (s1, .err e)
  | .panic => (s1, .panic)
  | .ok (s2, mk) =>
    if s2.remoteId.length ≠ 32 ∨ s2.localId.length ≠ 32 then (s2, .panic)
    else if verifyMac P m s2.remoteId s2.localId mk.macKey = false then (s2, .err .invalidMac)
    else match Cbc.Decrypt P mk.cipherKey (mk.iv ++ m.ciphertext) with
      | .ok pt => ({ s2 with pending := none }, .ok pt)
      | .err e => (s2, .err e)
      | .panic => (s2, .panic)

theorem decryptState_eq (P : Prims) (r : Bytes) (s : SState) (m : WhisperMsg)
    (hs : s.sender.isSome) (hv : m.version = s.getVersion) :
    decryptState P r s m = match getOrCreateChainKey P r s m.ratchetKey with
      | .err e => (s, .err e)
      | .panic => (s, .panic)
      | .ok (s1, ck) => afterChain P s1 ck m := by
  unfold decryptState
  rw [if_neg (by rw [Option.isNone_iff_eq_none]; intro h; simp [h] at hs), if_neg (by simpa using hv)]
  rfl

/-- All outcomes on a chain that tracks the sender's. -/
theorem afterChain_tracks (P : Prims) (C : ChainKey) (s : SState) (rc : RecvChain)
    (p : Nat) (D : Nat → Prop) (m : WhisperMsg) (hC : C.idx = 0) (hp : p < u32)
    (hc : m.counter < u32) (hg : getRecv s m.ratchetKey = some rc) (ht : Tracks P C rc p D)
    (hr : s.remoteId.length = 32) (hl : s.localId.length = 32) :
    (D m.counter → afterChain P s rc.ck m = (s, .err .duplicate)) ∧
    (m.counter > p + 2000 → afterChain P s rc.ck m = (s, .err .tooFarAhead)) ∧
    (¬ D m.counter → m.counter ≤ p + 2000 →
      ∃ f, (∀ x, (f x).ratchet = x.ratchet) ∧
        Tracks P C (f rc) (max p (m.counter + 1)) (fun j => D j ∨ j = m.counter) ∧
        (∀ pt, Opens P (msgKeys P (ckAt P C m.counter)) s.remoteId s.localId m pt →
          afterChain P s rc.ck m = ({ modRecv s m.ratchetKey f with pending := none }, .ok pt)) ∧
        (verifyMac P m s.remoteId s.localId (msgKeys P (ckAt P C m.counter)).macKey = false →
          afterChain P s rc.ck m = (modRecv s m.ratchetKey f, .err .invalidMac))) := by
  obtain ⟨h1, h2, h3⟩ := messageKeys_tracks P C s m.ratchetKey rc p D m.counter hC hp hc hg ht
  refine ⟨?_, ?_, ?_⟩
  · intro h; simp [afterChain, h1 h]
  · intro h; simp [afterChain, h2 h]
  · intro hd hle
    obtain ⟨f, hok, hf, ht'⟩ := h3 hd hle
    refine ⟨f, hf, ht', ?_, ?_⟩
    · intro pt ho
      simp [afterChain, hok, hr, hl, ho.1, ho.2]
    · intro ho
      simp [afterChain, hok, hr, hl, ho]

/-- What `getOrCreateChainKey` does when the chain exists. -/
theorem chainKey_existing (P : Prims) (r : Bytes) (s : SState) (e : Bytes) (rc : RecvChain)
    (h : getRecv s e = some rc) (hl : rc.ck.key.length = 32) :
    getOrCreateChainKey P r s e = .ok (s, rc.ck) := by
  simp [getOrCreateChainKey, h, hl]

/-- A DH ratchet step on an unknown ratchet key. -/
def ratchetStep (P : Prims) (r : Bytes) (s : SState) (sd : SendChain) (eph : Bytes) :
    SState × ChainKey :=
  let rc := createChain P s.rootKey eph sd.priv
  let our := newPair P r
  let sc := createChain P rc.1 eph our.priv
  let s' := addRecv { s with rootKey := sc.1 } eph rc.2
  ({ s' with prevCounter := sd.ck.idx - 1, sender := some ⟨our.pub, our.priv, sc.2⟩ }, rc.2)

theorem chainKey_new (P : Prims) (r : Bytes) (s : SState) (e : Bytes) (sd : SendChain)
    (h : getRecv s e = none) (hs : s.sender = some sd) (hroot : s.rootKey.length = 32)
    (hpriv : sd.priv.length = 32) (hpub : sd.pub.length = 32) (hck : sd.ck.key.length = 32) :
    getOrCreateChainKey P r s e = .ok (ratchetStep P r s sd e) := by
  simp [getOrCreateChainKey, h, hs, hroot, hpriv, hpub, hck, ratchetStep]

theorem createChain_lens (P : Prims) (a b c : Bytes) :
    (createChain P a b c).1.length = 32 ∧ (createChain P a b c).2.key.length = 32 ∧
      (createChain P a b c).2.idx = 0 := by
  simp [createChain, P.hkdf_len]

theorem derivedKeys_lens (P : Prims) (a : Bytes) :
    (derivedKeys P a).1.length = 32 ∧ (derivedKeys P a).2.key.length = 32 ∧
      (derivedKeys P a).2.idx = 0 := by
  simp [derivedKeys, P.hkdf_len]

/-- The new chain is the one found after `addRecv`, if the key was unknown. -/
theorem getRecv_addRecv (s : SState) (e : Bytes) (ck : ChainKey) (h : getRecv s e = none) :
    getRecv (addRecv s e ck) e = some ⟨e, ck, []⟩ := by
  unfold getRecv addRecv at *
  simp only
  rw [List.find?_eq_none] at h
  have hnone : ∀ l : List RecvChain, (∀ x ∈ l, x ∈ s.recv) →
      l.find? (fun c => c.ratchet == e) = none := by
    intro l hl
    rw [List.find?_eq_none]
    exact fun x hx => h x (hl x hx)
  split
  · rename_i hlen
    cases hs : s.recv with
    | nil => simp [hs] at hlen
    | cons a l =>
      simp only [List.cons_append, List.drop_succ_cons, List.drop_zero]
      rw [List.find?_append, hnone l (by intro x hx; rw [hs]; exact List.mem_cons_of_mem _ hx)]
      simp
  · rw [List.find?_append, hnone s.recv (fun _ h => h)]
    simp

theorem getRecv_congr {s s' : SState} (h : s.recv = s'.recv) (e : Bytes) :
    getRecv s e = getRecv s' e := by unfold getRecv; rw [h]

theorem getRecv_ratchetStep (P : Prims) (r : Bytes) (s : SState) (sd : SendChain) (e : Bytes)
    (h : getRecv s e = none) :
    getRecv (ratchetStep P r s sd e).1 e = some ⟨e, (ratchetStep P r s sd e).2, []⟩ := by
  have := getRecv_addRecv { s with rootKey := (createChain P (createChain P s.rootKey e sd.priv).1 e
    (newPair P r).priv).1 } e (createChain P s.rootKey e sd.priv).2 h
  exact this

/-- Encryption produces a message that the holder of the same chain key opens. -/
theorem opens_newWhisper (P : Prims) (ck : ChainKey) (rk : Bytes) (c p : Nat) (a b pt ct : Bytes)
    (v : Nat) (h : Cbc.Encrypt P (msgKeys P ck).cipherKey (msgKeys P ck).iv pt = .ok ct) :
    Opens P (msgKeys P ck) a b (newWhisper P v (msgKeys P ck).macKey rk c p ct a b) pt :=
  ⟨verifyMac_newWhisper .., Cbc.Decrypt_Encrypt P _ _ pt ct h⟩

end Verif.Session
