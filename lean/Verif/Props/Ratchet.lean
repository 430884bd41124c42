import Verif.Proof.Session
import Verif.Model.Api
/-!
# Properties C03, C08, C09: receiving chains and release of plaintext
-/
namespace Verif.Props
open Verif Verif.Keys Verif.Messages Verif.Session Verif.Api

/-! ## Specification of a symmetric chain, independent of the model's chain functions -/
namespace Spec

/-- Chain key after `n` steps: repeated HMAC with the constant 2. -/
def chainKey (P : Prims) (k : Bytes) : Nat → Bytes
  | 0 => k
  | n + 1 => P.hmac (chainKey P k n) [2]

/-- 80 bytes of key material for the `n`-th message of the chain. -/
def okm (P : Prims) (k : Bytes) (n : Nat) : Bytes :=
  P.hkdf (P.hmac (chainKey P k n) [1]) [] (ascii "WhisperMessageKeys") 80

def cipherKey (P : Prims) (k : Bytes) (n : Nat) : Bytes := (okm P k n).take 32
def macKey (P : Prims) (k : Bytes) (n : Nat) : Bytes := ((okm P k n).drop 32).take 32
def iv (P : Prims) (k : Bytes) (n : Nat) : Bytes := (okm P k n).drop 64

/-- Message `m` is authentic for message number `n` of the chain with key `k`, from `sender` to
`receiver`, and its ciphertext opens to `pt`. -/
structure Authentic (P : Prims) (k : Bytes) (n : Nat) (sender receiver : Bytes) (m : WhisperMsg)
    (pt : Bytes) : Prop where
  mac : ∃ body, m.serialized =
    body ++ (P.hmac (macKey P k n) (5 :: sender ++ 5 :: receiver ++ body)).take 8
  open_ : Cbc.Decrypt P (cipherKey P k n) (iv P k n ++ m.ciphertext) = .ok pt

end Spec

theorem spec_chainKey (P : Prims) (c : ChainKey) (n : Nat) :
    (ckAt P c n).key = Spec.chainKey P c.key n := by
  induction n with
  | zero => rfl
  | succ n ih => simp [ckAt, nextCK, Spec.chainKey, ih]

theorem spec_msgKeys (P : Prims) (c : ChainKey) (n : Nat) :
    (msgKeys P (ckAt P c n)).cipherKey = Spec.cipherKey P c.key n ∧
    (msgKeys P (ckAt P c n)).macKey = Spec.macKey P c.key n ∧
    (msgKeys P (ckAt P c n)).iv = Spec.iv P c.key n := by
  simp [msgKeys, spec_chainKey, Spec.cipherKey, Spec.macKey, Spec.iv, Spec.okm]

theorem verifyMac_iff (P : Prims) (m : WhisperMsg) (a b k : Bytes) (hv : m.version = 3)
    (hl : 8 ≤ m.serialized.length) :
    verifyMac P m a b k = true ↔
      ∃ body, m.serialized = body ++ (P.hmac k (5 :: a ++ 5 :: b ++ body)).take 8 := by
  unfold verifyMac getMac Cbc.truncMAC macLength
  simp only [hv, ge_iff_le, Nat.le_refl, if_true, beq_iff_eq]
  constructor
  · intro h
    refine ⟨m.serialized.take (m.serialized.length - 8), ?_⟩
    have : 5 :: a ++ 5 :: b = ser a ++ ser b := by simp [ser]
    rw [this, h, List.take_append_drop]
  · rintro ⟨body, h⟩
    have e : m.serialized.length - 8 = body.length := by
      rw [h, List.length_append, List.length_take, P.hmac_len]; omega
    rw [e, h]
    simp [ser]

theorem authentic_opens (P : Prims) (c : ChainKey) (n : Nat) (a b : Bytes) (m : WhisperMsg)
    (pt : Bytes) (hv : m.version = 3) (h : Spec.Authentic P c.key n a b m pt) :
    Opens P (msgKeys P (ckAt P c n)) a b m pt := by
  obtain ⟨e1, e2, e3⟩ := spec_msgKeys P c n
  constructor
  · rw [e2]
    obtain ⟨body, hb⟩ := h.mac
    exact (verifyMac_iff P m a b _ hv (by rw [hb]; simp [P.hmac_len])).mpr ⟨body, hb⟩
  · rw [e1, e3]; exact h.open_

/-! ## C03 Out-of-order window is exactly 2000 -/

/-- A state able to receive, in version 3, whose first chain for ratchet key `eph` is `rc`; stored keys
belong to earlier counters (an invariant of every chain this code builds, see C08). -/
structure Receiving (s : SState) (eph : Bytes) (rc : RecvChain) : Prop where
  sender : s.sender.isSome
  version : s.version = 3
  remote : s.remoteId.length = 32
  loc : s.localId.length = 32
  chain : s.recv.find? (fun c => c.ratchet == eph) = some rc
  klen : rc.ck.key.length = 32
  stored : ∀ mk ∈ rc.mks, mk.idx < rc.ck.idx

/-- Up to 2000 ahead: the message decrypts, and afterwards every skipped message (counter between the
old position and this one) still decrypts, from the same chain. -/
theorem C03_window_accepts (P : Prims) (r r' : Bytes) (s : SState) (rc : RecvChain) (m : WhisperMsg)
    (pt : Bytes) (h : Receiving s m.ratchetKey rc) (hv : m.version = 3)
    (hlo : rc.ck.idx ≤ m.counter) (hhi : m.counter ≤ rc.ck.idx + 2000) (h32 : m.counter + 1 < 2 ^ 32)
    (ha : Spec.Authentic P rc.ck.key (m.counter - rc.ck.idx) s.remoteId s.localId m pt) :
    ∃ s', decryptState P r s m = (s', .ok pt) ∧
      ∀ m' pt', m'.ratchetKey = m.ratchetKey → m'.version = 3 → rc.ck.idx ≤ m'.counter →
        m'.counter < m.counter →
        Spec.Authentic P rc.ck.key (m'.counter - rc.ck.idx) s.remoteId s.localId m' pt' →
        ∃ s'', decryptState P r' s' m' = (s'', .ok pt') := by
  have hg : getRecv s m.ratchetKey = some rc := h.chain
  have hsk := skipKeys_eq P rc.ck (m.counter - rc.ck.idx) 0
  simp only [ckAt, Nat.zero_add] at hsk
  have ho := authentic_opens P rc.ck _ _ _ m pt hv ha
  obtain ⟨d, hd⟩ : ∃ d, d = m.counter - rc.ck.idx := ⟨_, rfl⟩
  rw [← hd] at hsk ho
  have hu : u32 = 2 ^ 32 := rfl
  have hidx : ∀ j, rc.ck.idx + j < u32 → (ckAt P rc.ck j).idx = rc.ck.idx + j := ckAt_idx P rc.ck
  obtain ⟨f, hfdef⟩ : ∃ f : RecvChain → RecvChain, f = fun x => { x with
      mks := x.mks ++ (List.range d).map (fun i => msgKeys P (ckAt P rc.ck i))
      ck := nextCK P (ckAt P rc.ck d) } := ⟨_, rfl⟩
  have hf : ∀ x, (f x).ratchet = x.ratchet := by intro x; rw [hfdef]
  have hmk : getOrCreateMessageKeys P s m.ratchetKey rc.ck m.counter =
      .ok (modRecv s m.ratchetKey f, msgKeys P (ckAt P rc.ck d)) := by
    unfold getOrCreateMessageKeys
    rw [if_neg (by omega), if_neg (by omega), ← hd, hsk, hfdef]
  refine ⟨{ modRecv s m.ratchetKey f with pending := none }, ?_, ?_⟩
  · rw [decryptState_eq P r s m h.sender (by simp [SState.getVersion, h.version, hv]),
      chainKey_existing P r s _ rc hg h.klen]
    simp only [afterChain, hmk, modRecv_remoteId, modRecv_localId, h.remote, h.loc, ho.1, ho.2]
    simp
  · intro m' pt' hrk hv' hlo' hlt' ha'
    have ho' := authentic_opens P rc.ck _ _ _ m' pt' hv' ha'
    have hg' : getRecv { modRecv s m.ratchetKey f with pending := none } m.ratchetKey = some (f rc) :=
      getRecv_modRecv s m.ratchetKey f rc hf hg
    have hfi : (f rc).ck.idx = m.counter + 1 := by
      rw [hfdef]
      simp only [nextCK]
      rw [hidx d (by omega), Nat.mod_eq_of_lt (by omega)]; omega
    have hfind : (f rc).mks.find? (fun k => k.idx = m'.counter) =
        some (msgKeys P (ckAt P rc.ck (m'.counter - rc.ck.idx))) := by
      rw [hfdef]
      simp only
      rw [List.find?_append]
      have h1 : rc.mks.find? (fun k => decide (k.idx = m'.counter)) = none := by
        rw [List.find?_eq_none]
        intro k hk
        have := h.stored k hk
        simp; omega
      rw [h1, Option.none_or]
      have h2 := find_mk ((List.range d).map (fun i => msgKeys P (ckAt P rc.ck i)))
        (msgKeys P (ckAt P rc.ck (m'.counter - rc.ck.idx))) (by
          simp only [List.mem_map, List.mem_range]
          exact ⟨m'.counter - rc.ck.idx, by omega, rfl⟩) (by
          rw [List.map_map, List.nodup_iff_pairwise_ne, List.pairwise_map]
          apply List.Pairwise.imp_of_mem (R := fun a b => a < b) _ List.pairwise_lt_range
          intro a b ha hb hab
          simp only [List.mem_range] at ha hb
          simp only [Function.comp, msgKeys_idx]
          rw [hidx _ (by omega), hidx _ (by omega)]; omega)
      rw [msgKeys_idx, hidx _ (by omega)] at h2
      rw [show rc.ck.idx + (m'.counter - rc.ck.idx) = m'.counter by omega] at h2
      exact h2
    have hklen : (f rc).ck.key.length = 32 := by
      rw [hfdef]; simp [nextCK, P.hmac_len]
    obtain ⟨s1, hs1⟩ : ∃ s1 : SState, s1 = { modRecv s m.ratchetKey f with pending := none } :=
      ⟨_, rfl⟩
    have q1 : s1.sender = s.sender := by rw [hs1]; simp
    have q2 : s1.version = s.version := by rw [hs1]; simp
    have q3 : s1.remoteId = s.remoteId := by rw [hs1]; simp
    have q4 : s1.localId = s.localId := by rw [hs1]; simp
    rw [← hs1] at hg' ⊢
    have hfin : (decryptState P r' s1 m').2 = .ok pt' := by
      rw [decryptState_eq P r' _ m' (by rw [q1]; exact h.sender)
        (by simp [SState.getVersion, q2, h.version, hv'])]
      rw [hrk, chainKey_existing P r' _ _ (f rc) hg' hklen]
      simp only [afterChain, getOrCreateMessageKeys, hrk]
      rw [if_pos (by omega)]
      simp only [hg', hfind, modRecv_remoteId, modRecv_localId, q3, q4, h.remote, h.loc, ho'.1, ho'.2]
      simp
    exact ⟨_, Prod.ext rfl hfin⟩

/-- 2001 or more ahead: refused with nothing changed in the state, whatever the message contains; and
for a stored record without archived states the call returns an error and writes nothing. -/
theorem C03_window_refuses (P : Prims) (env : Env) (rnd : Nat → Bytes) (st : Store) (rec : String)
    (dev : Nat) (sr : SRecord) (rc : RecvChain) (m : WhisperMsg)
    (h : Receiving sr.cur m.ratchetKey rc) (hv : m.version = 3) (hfar : m.counter > rc.ck.idx + 2000) :
    (∀ r, decryptState P r sr.cur m = (sr.cur, .err .tooFarAhead)) ∧
    (st.sessions (Names.sessName rec dev) = .good sr → sr.prev = [] →
      decryptWhisper P env rnd st rec dev m = ⟨[], .err .invalidMessage⟩) := by
  have h1 : ∀ r, decryptState P r sr.cur m = (sr.cur, .err .tooFarAhead) := by
    intro r
    rw [decryptState_eq P r sr.cur m h.sender (by simp [SState.getVersion, h.version, hv]),
      chainKey_existing P r sr.cur _ rc h.chain h.klen]
    simp only [afterChain, getOrCreateMessageKeys]
    rw [if_neg (by omega), if_pos (by omega)]
  refine ⟨h1, ?_⟩
  intro hst hp
  simp [decryptWhisper, loadSession, hst, decryptRecord, h1, hp, tryPrev]

/-- A state meeting the hypotheses: a chain at position 7 with one key kept, and messages 2000 and
2001 ahead of it. -/
def demoState : SState :=
  { version := 3, localId := List.replicate 32 1, remoteId := List.replicate 32 2
    rootKey := List.replicate 32 3
    sender := some ⟨List.replicate 32 4, List.replicate 32 4, ⟨List.replicate 32 5, 0⟩⟩
    recv := [⟨List.replicate 32 6, ⟨List.replicate 32 7, 7⟩, [⟨[], [], [], 3⟩]⟩] }

example : Receiving demoState (List.replicate 32 6)
    ⟨List.replicate 32 6, ⟨List.replicate 32 7, 7⟩, [⟨[], [], [], 3⟩]⟩ := by
  constructor <;> first | decide | (simp [demoState])

/-- The `n`-th message of the demonstration chain, whose counters start at `base`. -/
def demoMsg (base n : Nat) : WhisperMsg :=
  match Cbc.Encrypt Prims.toy (Spec.cipherKey Prims.toy (List.replicate 32 7) n)
      (Spec.iv Prims.toy (List.replicate 32 7) n) [42] with
  | .ok ct => newWhisper Prims.toy 3 (Spec.macKey Prims.toy (List.replicate 32 7) n)
      (List.replicate 32 6) (base + n) 0 ct demoState.remoteId demoState.localId
  | _ => newWhisper Prims.toy 3 [] [] 0 0 [] [] []

example : (demoMsg 7 2).counter = 9 ∧ (demoMsg 7 2).ratchetKey = List.replicate 32 6 ∧
    Spec.Authentic Prims.toy (List.replicate 32 7) 2 demoState.remoteId demoState.localId
      (demoMsg 7 2) [42] := by
  refine ⟨by decide +kernel, by decide +kernel,
    ⟨(demoMsg 7 2).serialized.take ((demoMsg 7 2).serialized.length - 8), by decide +kernel⟩,
    by decide +kernel⟩

/-! ## C08 Skipped-key bookkeeping is exact -/

/-- The caller's view of a series of decryptions in one state: successes are kept, failures discarded
(as `SessionDecryptWhisperMessage` does). Returns the final state and the accepted counters. -/
def deliverAll (P : Prims) : SState → List (WhisperMsg × Bytes) → SState × List Nat
  | s, [] => (s, [])
  | s, (m, r) :: rest =>
    match decryptState P r s m with
    | (s', .ok _) => let q := deliverAll P s' rest; (q.1, m.counter :: q.2)
    | _ => deliverAll P s rest

/-- One more than the largest accepted counter, 0 if none. -/
def nextPos (acc : List Nat) : Nat := acc.foldr (fun c p => max p (c + 1)) 0

theorem nextPos_append (a : List Nat) (c : Nat) : nextPos (a ++ [c]) = max (nextPos a) (c + 1) := by
  unfold nextPos
  induction a with
  | nil => simp
  | cons x a ih => simp only [List.cons_append, List.foldr_cons, ih]; omega

theorem deliverAll_tracks (P : Prims) (C : ChainKey) (eph : Bytes) (hC : C.idx = 0)
    (hCl : C.key.length = 32) (ms : List (WhisperMsg × Bytes)) :
    ∀ (s : SState) (rc : RecvChain) (done : List Nat), s.sender.isSome → s.version = 3 →
      s.remoteId.length = 32 → s.localId.length = 32 → getRecv s eph = some rc →
      Tracks P C rc (nextPos done) (fun j => j ∈ done) → done.Nodup → nextPos done < u32 →
      (∀ x ∈ ms, x.1.ratchetKey = eph ∧ x.1.counter + 1 < u32) →
      ∃ rc', getRecv (deliverAll P s ms).1 eph = some rc' ∧
        Tracks P C rc' (nextPos (done ++ (deliverAll P s ms).2))
          (fun j => j ∈ done ++ (deliverAll P s ms).2) ∧
        (done ++ (deliverAll P s ms).2).Nodup := by
  induction ms with
  | nil =>
    intro s rc done _ _ _ _ hg ht hn _ _
    exact ⟨rc, hg, by simpa [deliverAll] using ht, by simpa [deliverAll] using hn⟩
  | cons x ms ih =>
    obtain ⟨m, r⟩ := x
    intro s rc done hs hv hr hl hg ht hn hp hm
    have hmm := hm (m, r) List.mem_cons_self
    simp only at hmm
    have hrest : ∀ x ∈ ms, x.1.ratchetKey = eph ∧ x.1.counter + 1 < u32 :=
      fun x hx => hm x (List.mem_cons_of_mem _ hx)
    have keep := ih s rc done hs hv hr hl hg ht hn hp hrest
    have hgm : getRecv s m.ratchetKey = some rc := by rw [hmm.1]; exact hg
    have hlen : rc.ck.key.length = 32 := by rw [ht.ck]; exact ckAt_len P C _ hCl
    by_cases hver : m.version = 3
    · have hd := decryptState_eq P r s m hs (by simp [SState.getVersion, hv, hver])
      rw [chainKey_existing P r s _ rc hgm hlen] at hd
      simp only at hd
      obtain ⟨h1, h2, h3⟩ := messageKeys_tracks P C s m.ratchetKey rc (nextPos done) _ m.counter hC hp
        (by omega) hgm ht
      by_cases hD : m.counter ∈ done
      · have : decryptState P r s m = (s, .err .duplicate) := by rw [hd]; simp [afterChain, h1 hD]
        simp only [deliverAll, this]
        exact keep
      · by_cases hfar : m.counter > nextPos done + 2000
        · have : decryptState P r s m = (s, .err .tooFarAhead) := by rw [hd]; simp [afterChain, h2 hfar]
          simp only [deliverAll, this]
          exact keep
        · obtain ⟨f, hok, hf, ht'⟩ := h3 hD (by omega)
          cases hres : decryptState P r s m with
          | mk s' res =>
            cases res with
            | err e => simp only [deliverAll, hres]; exact keep
            | panic => simp only [deliverAll, hres]; exact keep
            | ok pt =>
              have hs' : s' = { modRecv s m.ratchetKey f with pending := none } := by
                rw [hd] at hres
                simp only [afterChain, hok] at hres
                split at hres
                · simp at hres
                split at hres
                · simp at hres
                split at hres <;> simp at hres
                exact hres.1.symm
              simp only [deliverAll, hres]
              have hnext := ih s' (f rc) (done ++ [m.counter]) (by rw [hs']; simpa using hs)
                (by rw [hs']; simpa using hv) (by rw [hs']; simpa using hr) (by rw [hs']; simpa using hl)
                (by rw [hs', ← hmm.1]; exact getRecv_modRecv s _ f rc hf hgm)
                (by rw [nextPos_append]; simpa using ht')
                (by
                  rw [List.nodup_append]
                  refine ⟨hn, by simp, ?_⟩
                  intro a ha b hb
                  simp at hb
                  rintro rfl
                  exact hD (hb ▸ ha))
                (by rw [nextPos_append]; omega) hrest
              simpa using hnext
    · have : decryptState P r s m = (s, .err .mismatchedVersion) := by
        unfold decryptState
        rw [if_neg (by rw [Option.isNone_iff_eq_none]; intro h; simp [h] at hs),
          if_pos (by simp [SState.getVersion, hv, hver])]
      simp only [deliverAll, this]
      exact keep

/-- Start from a new chain with key `k`, and let any messages with that chain's ratchet key arrive:
genuine, corrupted, repeated, in any order (only the counter 2^32-1 is excluded). Let `acc` be the
counters of those that decrypted. Then no counter was accepted twice; the chain stands one past the
largest accepted counter, with the specified chain key; and the stored keys are exactly those of the
counters below that position that have not been accepted, each once and equal to the specified one. -/
theorem C08_skipped_keys_exact (P : Prims) (k eph : Bytes) (s : SState) (ms : List (WhisperMsg × Bytes))
    (h : Receiving s eph ⟨eph, ⟨k, 0⟩, []⟩)
    (hm : ∀ x ∈ ms, x.1.ratchetKey = eph ∧ x.1.counter + 1 < 2 ^ 32) :
    ∃ rc', (deliverAll P s ms).1.recv.find? (fun c => c.ratchet == eph) = some rc' ∧
      (let acc := (deliverAll P s ms).2
       acc.Nodup ∧ rc'.ck.idx = nextPos acc ∧ rc'.ck.key = Spec.chainKey P k (nextPos acc) ∧
       (∀ mk, mk ∈ rc'.mks ↔ ∃ j, j < nextPos acc ∧ j ∉ acc ∧
          mk = ⟨Spec.cipherKey P k j, Spec.macKey P k j, Spec.iv P k j, j⟩) ∧
       rc'.mks.Nodup) := by
  have hpos : ∀ acc : List Nat, (∀ c ∈ acc, c + 1 < u32) → nextPos acc < u32 := by
    intro acc
    induction acc with
    | nil => intro _; simp [nextPos, u32]
    | cons a l ih =>
      intro hh
      have := ih (fun c hc => hh c (List.mem_cons_of_mem _ hc))
      have := hh a List.mem_cons_self
      simp only [nextPos, List.foldr_cons] at *
      omega
  have hacc : ∀ (ms : List (WhisperMsg × Bytes)) (s : SState),
      (∀ x ∈ ms, x.1.counter + 1 < u32) → ∀ c ∈ (deliverAll P s ms).2, c + 1 < u32 := by
    intro ms
    induction ms with
    | nil => intro s _ c hc; simp [deliverAll] at hc
    | cons x ms ih =>
      intro s hx c hc
      obtain ⟨m, r⟩ := x
      have h1 := hx (m, r) List.mem_cons_self
      have h2 := fun x hh => hx x (List.mem_cons_of_mem _ hh)
      simp only [deliverAll] at hc
      split at hc
      · simp only [List.mem_cons] at hc
        rcases hc with rfl | hc
        · exact h1
        · exact ih _ h2 c hc
      · exact ih _ h2 c hc
  obtain ⟨rc', hg, ht, hn⟩ := deliverAll_tracks P ⟨k, 0⟩ eph rfl h.klen ms s ⟨eph, ⟨k, 0⟩, []⟩ []
    h.sender h.version h.remote h.loc h.chain (by simpa [nextPos] using Tracks.init P ⟨k, 0⟩ eph)
    (by simp) (by simp [nextPos, u32]) hm
  simp only [List.nil_append] at ht hn
  have hlt := hpos _ (hacc ms s (fun x hx => (hm x hx).2))
  have hkey : ∀ j, j < u32 → msgKeys P (ckAt P ⟨k, 0⟩ j) =
      ⟨Spec.cipherKey P k j, Spec.macKey P k j, Spec.iv P k j, j⟩ := by
    intro j hj
    obtain ⟨e1, e2, e3⟩ := spec_msgKeys P ⟨k, 0⟩ j
    have e4 : (msgKeys P (ckAt P ⟨k, 0⟩ j)).idx = j := by
      rw [msgKeys_idx, ckAt_idx P _ j (by simpa using hj)]; simp
    cases hmk : msgKeys P (ckAt P ⟨k, 0⟩ j) with
    | mk a b c d => rw [hmk] at e1 e2 e3 e4; simp only at e1 e2 e3 e4; rw [e1, e2, e3, e4]
  refine ⟨rc', hg, hn, ?_, ?_, ?_, ?_⟩
  · rw [ht.ck, ckAt_idx P _ _ (by simpa using hlt)]; simp
  · rw [ht.ck, spec_chainKey]
  · intro mk
    constructor
    · intro hmk
      obtain ⟨j, hj, hd, rfl⟩ := ht.sound mk hmk
      exact ⟨j, hj, hd, hkey j (by omega)⟩
    · rintro ⟨j, hj, hd, rfl⟩
      rw [← hkey j (by omega)]
      exact ht.complete j hj hd
  · exact (List.pairwise_map.mp ht.nodup).imp (fun h e => h (by rw [e]))

/-- Deliveries out of order on a real chain: counters 2, 0, 2 (repeated) — 2 and 0 are accepted. -/
def demoChain : SState :=
  { demoState with recv := [⟨List.replicate 32 6, ⟨List.replicate 32 7, 0⟩, []⟩] }

example : (deliverAll Prims.toy demoChain
    [(demoMsg 0 2, []), (demoMsg 0 0, []), (demoMsg 0 2, [])]).2 = [2, 0] := by decide +kernel

/-! ## C09 Plaintext is only released for authenticated messages -/

/-- Specification: the message keys state `s` has for ratchet key `eph` and counter `c`. -/
inductive KeyFor (P : Prims) (s : SState) (eph : Bytes) (c : Nat) : MsgKeys → Prop where
  /-- a key kept for a skipped message -/
  | stored (rc : RecvChain) (mk : MsgKeys) :
      s.recv.find? (fun x => x.ratchet == eph) = some rc → mk ∈ rc.mks → mk.idx = c →
      c < rc.ck.idx → KeyFor P s eph c mk
  /-- the next key of a known chain, or one up to 2000 ahead -/
  | ahead (rc : RecvChain) (mk : MsgKeys) :
      s.recv.find? (fun x => x.ratchet == eph) = some rc → rc.ck.idx ≤ c → c ≤ rc.ck.idx + 2000 →
      mk.cipherKey = Spec.cipherKey P rc.ck.key (c - rc.ck.idx) →
      mk.macKey = Spec.macKey P rc.ck.key (c - rc.ck.idx) →
      mk.iv = Spec.iv P rc.ck.key (c - rc.ck.idx) → KeyFor P s eph c mk
  /-- a key of the chain that a ratchet step to `eph` opens -/
  | fresh (sd : SendChain) (mk : MsgKeys) :
      s.recv.find? (fun x => x.ratchet == eph) = none → s.sender = some sd → c ≤ 2000 →
      (let k := (P.hkdf (P.dh sd.priv eph) s.rootKey (ascii "WhisperRatchet") 64).drop 32
       mk.cipherKey = Spec.cipherKey P k c ∧ mk.macKey = Spec.macKey P k c ∧ mk.iv = Spec.iv P k c) →
      KeyFor P s eph c mk

theorem messageKeys_inv (P : Prims) (s : SState) (eph : Bytes) (rc : RecvChain) (c : Nat)
    (s2 : SState) (mk : MsgKeys) (hg : getRecv s eph = some rc)
    (h : getOrCreateMessageKeys P s eph rc.ck c = .ok (s2, mk)) :
    ∃ f, s2 = modRecv s eph f ∧
    ((mk ∈ rc.mks ∧ mk.idx = c ∧ c < rc.ck.idx) ∨
    (rc.ck.idx ≤ c ∧ c ≤ rc.ck.idx + 2000 ∧ mk = msgKeys P (ckAt P rc.ck (c - rc.ck.idx)))) := by
  unfold getOrCreateMessageKeys at h
  split at h
  · rename_i hlt
    simp only [hg] at h
    split at h
    · rename_i mk' hfind
      simp only [Res.ok.injEq, Prod.mk.injEq] at h
      refine ⟨_, h.1.symm, Or.inl ⟨?_, ?_, hlt⟩⟩
      · rw [← h.2]; exact List.mem_of_find?_eq_some hfind
      · have := List.find?_some hfind
        rw [← h.2]; simpa using this
    · simp at h
  · split at h
    · simp at h
    · have hsk := skipKeys_eq P rc.ck (c - rc.ck.idx) 0
      simp only [ckAt, Nat.zero_add] at hsk
      rw [hsk] at h
      simp only [Res.ok.injEq, Prod.mk.injEq] at h
      exact ⟨_, h.1.symm, Or.inr ⟨by omega, by omega, h.2.symm⟩⟩

theorem decryptState_inv (P : Prims) (r : Bytes) (s s' : SState) (m : WhisperMsg) (pt : Bytes)
    (h : decryptState P r s m = (s', .ok pt)) :
    s.sender.isSome ∧ m.version = s.getVersion ∧ ∃ mk, KeyFor P s m.ratchetKey m.counter mk ∧
      verifyMac P m s.remoteId s.localId mk.macKey = true ∧
      Cbc.Decrypt P mk.cipherKey (mk.iv ++ m.ciphertext) = .ok pt := by
  have hsd : s.sender.isSome := by
    cases hs : s.sender with
    | none => simp [decryptState, hs] at h
    | some _ => rfl
  have hver : m.version = s.getVersion := by
    unfold decryptState at h
    rw [if_neg (by rw [Option.isNone_iff_eq_none]; intro hh; simp [hh] at hsd)] at h
    split at h
    · simp at h
    · rename_i hh; simpa using hh
  refine ⟨hsd, hver, ?_⟩
  rw [decryptState_eq P r s m hsd hver] at h
  -- the common tail
  have tail : ∀ (s1 : SState) (rc : RecvChain), getRecv s1 m.ratchetKey = some rc →
      s1.remoteId = s.remoteId → s1.localId = s.localId →
      afterChain P s1 rc.ck m = (s', .ok pt) → ∃ mk,
        ((mk ∈ rc.mks ∧ mk.idx = m.counter ∧ m.counter < rc.ck.idx) ∨
         (rc.ck.idx ≤ m.counter ∧ m.counter ≤ rc.ck.idx + 2000 ∧
          mk = msgKeys P (ckAt P rc.ck (m.counter - rc.ck.idx)))) ∧
        verifyMac P m s.remoteId s.localId mk.macKey = true ∧
        Cbc.Decrypt P mk.cipherKey (mk.iv ++ m.ciphertext) = .ok pt := by
    intro s1 rc hg hr hl ha
    unfold afterChain at ha
    cases hk : getOrCreateMessageKeys P s1 m.ratchetKey rc.ck m.counter with
    | err e => simp [hk] at ha
    | panic => simp [hk] at ha
    | ok x =>
      obtain ⟨s2, mk⟩ := x
      obtain ⟨f, hs2, hmk⟩ := messageKeys_inv P s1 m.ratchetKey rc m.counter s2 mk hg hk
      subst hs2
      simp only [hk, modRecv_remoteId, modRecv_localId, hr, hl] at ha
      split at ha
      · simp at ha
      split at ha
      · simp at ha
      rename_i hmac
      split at ha <;> simp at ha
      rename_i pt' hpt
      rw [ha.2] at hpt
      exact ⟨mk, hmk, by simpa using hmac, hpt⟩
  cases hck : getOrCreateChainKey P r s m.ratchetKey with
  | err e => simp [hck] at h
  | panic => simp [hck] at h
  | ok x =>
    obtain ⟨s1, ck⟩ := x
    simp only [hck] at h
    cases hg : getRecv s m.ratchetKey with
    | some rc =>
      simp only [getOrCreateChainKey, hg] at hck
      split at hck
      · simp only [Res.ok.injEq, Prod.mk.injEq] at hck
        obtain ⟨rfl, rfl⟩ := hck
        obtain ⟨mk, hmk, h1, h2⟩ := tail s rc hg rfl rfl h
        refine ⟨mk, ?_, h1, h2⟩
        rcases hmk with ⟨a, b, c⟩ | ⟨a, b, rfl⟩
        · exact .stored rc mk hg a b c
        · obtain ⟨e1, e2, e3⟩ := spec_msgKeys P rc.ck (m.counter - rc.ck.idx)
          exact .ahead rc _ hg a b e1 e2 e3
      · simp at hck
    | none =>
      cases hs : s.sender with
      | none => simp [hs] at hsd
      | some sd =>
        have hnew : getOrCreateChainKey P r s m.ratchetKey = .panic ∨
            getOrCreateChainKey P r s m.ratchetKey = .ok (ratchetStep P r s sd m.ratchetKey) := by
          unfold getOrCreateChainKey
          simp only [hg, hs]
          split
          · exact Or.inl rfl
          · exact Or.inr rfl
        rcases hnew with hp | hp
        · rw [hp] at hck; simp at hck
        · rw [hp] at hck
          simp only [Res.ok.injEq] at hck
          have hg1 := getRecv_ratchetStep P r s sd m.ratchetKey hg
          rw [hck] at hg1
          have h1 : s1.remoteId = s.remoteId := by
            have := congrArg (fun x => x.1.remoteId) hck; exact this.symm
          have h2 : s1.localId = s.localId := by
            have := congrArg (fun x => x.1.localId) hck; exact this.symm
          obtain ⟨mk, hmk, e1, e2⟩ := tail s1 ⟨m.ratchetKey, ck, []⟩ hg1 h1 h2 h
          refine ⟨mk, ?_, e1, e2⟩
          have hckeq : ck = (createChain P s.rootKey m.ratchetKey sd.priv).2 :=
            (congrArg (fun x => x.2) hck).symm
          have hidx0 : ck.idx = 0 := by rw [hckeq]; rfl
          rcases hmk with ⟨a, _, _⟩ | ⟨a, b, rfl⟩
          · simp at a
          · simp only [hidx0, Nat.sub_zero, Nat.zero_add] at b ⊢
            obtain ⟨f1, f2, f3⟩ := spec_msgKeys P ck m.counter
            refine .fresh sd _ hg hs b ?_
            rw [hckeq] at f1 f2 f3
            rw [hckeq]
            exact ⟨f1, f2, f3⟩

theorem tryPrev_inv (P : Prims) (rnd : Nat → Bytes) (m : WhisperMsg) (l : List SState) :
    ∀ k l' s' pt, tryPrev P rnd m k l = (l', .ok (some (s', pt))) →
      ∃ s ∈ l, ∃ r, decryptState P r s m = (s', .ok pt) := by
  induction l with
  | nil => intro k l' s' pt h; simp [tryPrev] at h
  | cons a l ih =>
    intro k l' s' pt h
    unfold tryPrev at h
    cases hd : decryptState P (rnd k) a m with
    | mk s1 res =>
      rw [hd] at h
      cases res with
      | ok b =>
        simp at h
        obtain ⟨_, h1, h2⟩ := h
        subst h1 h2
        exact ⟨a, List.mem_cons_self, rnd k, hd⟩
      | panic => simp at h
      | err e =>
        simp only [Prod.mk.injEq] at h
        obtain ⟨s, hs, r, hr⟩ := ih (k + 1) (tryPrev P rnd m (k + 1) l).1 s' pt
          (Prod.ext rfl h.2)
        exact ⟨s, List.mem_cons_of_mem _ hs, r, hr⟩

theorem decryptRecord_inv (P : Prims) (rnd : Nat → Bytes) (sr sr' : SRecord) (m : WhisperMsg)
    (pt : Bytes) (h : decryptRecord P rnd sr m = (sr', .ok pt)) :
    ∃ s ∈ sr.cur :: sr.prev, ∃ r s', decryptState P r s m = (s', .ok pt) := by
  unfold decryptRecord at h
  cases hd : decryptState P (rnd 0) sr.cur m with
  | mk s1 res =>
    rw [hd] at h
    cases res with
    | ok b =>
      simp at h
      exact ⟨sr.cur, List.mem_cons_self, rnd 0, s1, by rw [hd, h.2]⟩
    | panic => simp at h
    | err e =>
      simp only at h
      cases ht : tryPrev P rnd m 1 sr.prev with
      | mk l res =>
        rw [ht] at h
        cases res with
        | err e => simp at h
        | panic => simp at h
        | ok o =>
          cases o with
          | none => simp at h
          | some x =>
            obtain ⟨s', b⟩ := x
            simp only [Prod.mk.injEq, Res.ok.injEq] at h
            obtain ⟨s, hs, r, hr⟩ := tryPrev_inv P rnd m sr.prev 1 l s' b ht
            exact ⟨s, List.mem_cons_of_mem _ hs, r, s', by rw [hr, h.2]⟩

/-- The bytes of a message released by state `s`: the trailer is the truncated HMAC, under a message
key of `s`, of both identities (remote as sender, local as receiver), version byte and body; and the
plaintext is the decryption of the ciphertext field of that authenticated body. -/
def ReleasedBy (P : Prims) (s : SState) (bytes pt : Bytes) : Prop :=
  ∃ (v : UInt8) (body mac : Bytes) (fs : List Wire.Field) (t : UInt8) (eph ct : Bytes) (mk : MsgKeys),
    bytes = v :: body ++ mac ∧ v.toNat / 16 = 3 ∧ s.getVersion = 3 ∧
    Wire.decFields body = some fs ∧ Wire.getBytes fs 1 = some (t :: eph) ∧ Wire.getBytes fs 4 = some ct ∧
    KeyFor P s eph ((Wire.getU32 fs 2).getD 0) mk ∧
    mac = (P.hmac mk.macKey (5 :: s.remoteId ++ 5 :: s.localId ++ v :: body)).take 8 ∧
    Cbc.Decrypt P mk.cipherKey (mk.iv ++ ct) = .ok pt

theorem released_of_decrypt (P : Prims) (r : Bytes) (s s' : SState) (bytes : Bytes) (m : WhisperMsg)
    (pt : Bytes) (hl : loadWhisper bytes = .ok m) (h : decryptState P r s m = (s', .ok pt)) :
    ReleasedBy P s bytes pt := by
  obtain ⟨hsd, hver, mk, hkf, hmac, hdec⟩ := decryptState_inv P r s s' m pt h
  unfold loadWhisper at hl
  split at hl
  · simp at hl
  rename_i v rest
  split at hl
  · simp at hl
  rename_i hlen
  split at hl
  · simp at hl
  rename_i hv
  simp only [ne_eq, Decidable.not_not] at hv
  split at hl
  · simp at hl
  rename_i fs hfs
  split at hl
  · rename_i ct rk hct hrk
    cases hds : deser rk with
    | err e => simp [hds] at hl
    | panic => simp [hds] at hl
    | ok k =>
      simp only [hds, Res.ok_bind, Res.ok.injEq] at hl
      subst hl
      simp only at hmac hdec hver hkf
      obtain ⟨t, ht⟩ : ∃ t, rk = t :: k := by
        cases rk with
        | nil => simp [deser] at hds
        | cons a l =>
          simp only [deser] at hds
          split at hds
          · injection hds with hds; exact ⟨a, by rw [hds]⟩
          · simp at hds
      have hlen' : 8 ≤ rest.length := by simp at hlen; omega
      refine ⟨v, rest.take (rest.length - 8), rest.drop (rest.length - 8), fs, t, k, ct, mk, by simp,
        hv, ?_, hfs, by rw [hrk, ht], hct, hkf, ?_, hdec⟩
      · rw [← hver, hv]
      · have := hmac
        unfold verifyMac getMac Cbc.truncMAC macLength at this
        simp only [hv, ge_iff_le, Nat.le_refl, if_true, beq_iff_eq, List.length_cons] at this
        have e : rest.length + 1 - 8 = (rest.length - 8) + 1 := by omega
        rw [e, List.take_succ_cons, List.drop_succ_cons] at this
        rw [← this]
        simp [ser]
  · simp at hl

/-- Ordinary messages: for every byte string and every stored record. -/
theorem C09_plaintext_authenticated (P : Prims) (env : Env) (rnd : Nat → Bytes) (st : Store)
    (rec : String) (dev : Nat) (bytes : Bytes) (m : WhisperMsg) (pt : Bytes)
    (hl : loadWhisper bytes = .ok m) (h : (decryptWhisper P env rnd st rec dev m).res = .ok pt) :
    ∃ sr, st.sessions (Names.sessName rec dev) = .good sr ∧ ∃ s ∈ sr.cur :: sr.prev, ReleasedBy P s bytes pt := by
  unfold decryptWhisper at h
  cases hls : loadSession st rec dev with
  | err e => simp [hls] at h
  | panic => simp [hls] at h
  | ok sr =>
    simp only [hls] at h
    cases hd : decryptRecord P rnd sr m with
    | mk sr' res =>
      rw [hd] at h
      cases res with
      | err e => simp at h
      | panic => simp at h
      | ok pt' =>
        have : pt' = pt := by
          simp only [storeSession] at h
          split at h <;> simp at h
          exact h
        subst this
        obtain ⟨s, hs, r, s', hr⟩ := decryptRecord_inv P rnd sr sr' m pt' hd
        have hrel := released_of_decrypt P r s s' bytes m pt' hl hr
        have hfresh : ∀ x : SRecord, loadSession st rec dev = .ok x → x.cur = {} → x.prev = [] →
            False := by
          intro x hx h1 h2
          rw [hls] at hx
          injection hx with hx
          rw [← hx] at h1 h2
          rw [h1, h2] at hs
          simp at hs
          subst hs
          have := (decryptState_inv P r _ s' m pt' hr).1
          simp at this
        unfold loadSession at hls hfresh
        split at hls
        · rename_i hh; exact absurd (hfresh {} (by simp [hh]) rfl rfl) id
        · rename_i hh; exact absurd (hfresh {} (by simp [hh]) rfl rfl) id
        · simp at hls
        · rename_i r0 hh
          injection hls with hls
          refine ⟨r0, hh, s, ?_, hrel⟩
          rw [← hls] at hs
          exact hs

/-- Prekey messages: the embedded message is authenticated by a state of the record as it is after the
session set-up step (the new session or one already stored). -/
theorem C09_prekey_plaintext_authenticated (P : Prims) (env : Env) (rnd : Nat → Bytes) (st : Store)
    (rec : String) (dev : Nat) (inner : Bytes) (m : PreKeyMsg) (pt : Bytes)
    (hl : loadWhisper inner = .ok m.message)
    (h : (decryptPreKey P env rnd st rec dev m).res = .ok pt) :
    ∃ sr sr1 pkid, loadSession st rec dev = .ok sr ∧
      (buildReceiver P env st rec sr m).res = .ok (sr1, pkid) ∧
      ∃ s ∈ sr1.cur :: sr1.prev, ReleasedBy P s inner pt := by
  unfold decryptPreKey at h
  cases hls : loadSession st rec dev with
  | err e => simp [hls] at h
  | panic => simp [hls] at h
  | ok sr =>
    simp only [hls] at h
    cases hb : buildReceiver P env st rec sr m with
    | mk w res =>
      rw [hb] at h
      cases res with
      | err e => simp at h
      | panic => simp at h
      | ok x =>
        obtain ⟨sr1, pkid⟩ := x
        simp only at h
        cases hd : decryptRecord P rnd sr1 m.message with
        | mk sr' res =>
          rw [hd] at h
          cases res with
          | err e => simp at h
          | panic => simp at h
          | ok pt' =>
            have : pt' = pt := by
              simp only [storeSession] at h
              split at h <;> simp at h
              exact h
            subst this
            obtain ⟨s, hs, r, s', hr⟩ := decryptRecord_inv P rnd sr1 sr' m.message pt' hd
            exact ⟨sr, sr1, pkid, rfl, by rw [hb], s, hs,
              released_of_decrypt P r s s' inner m.message pt' hl hr⟩

example : (decryptState Prims.toy [] demoChain (demoMsg 0 2)).2 = .ok [42] := by decide +kernel

end Verif.Props
