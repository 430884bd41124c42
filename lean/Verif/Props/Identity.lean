import Verif.Model.Identity
import Verif.Props.Fingerprint
import Verif.Props.Others
/-!
# C122: both users see the same safety number
-/
namespace Verif.Props
open Verif Verif.Keys Verif.Session Verif.Api Verif.Conv Verif.Clients Verif.Identity

/-! ## Specification -/

/-- The safety number of a result of `GetFingerprint`. -/
def numberOf (r : Res (List (List Char) × Bytes)) : Res (List (List Char)) := r >>= fun x => .ok x.1

/-- The QR data of a result of `GetFingerprint`. -/
def qrOf (r : Res (List (List Char) × Bytes)) : Res Bytes := r >>= fun x => .ok x.2

/-- After a schedule with other acts. -/
def FEv.run (P : Prims) (w : Pair) (evs : List FEv) : Pair := evs.foldl (fun w ev => (ev.step P w).1) w

/-- In the course of `evs` the responder's application is shown a message of the initiator. -/
def Heard (P : Prims) (w : Pair) (evs : List FEv) : Prop :=
  ∃ pre i X id body atts g post told e m, evs = pre ++ .talk (.deliver i X id body atts g) :: post ∧
    ((FEv.run P w pre).wire[i]?).map Prod.fst = some false ∧
    ((FEv.run P w pre).step P (.deliver i X id body atts g)).2 = .told told e ∧ Receive.Ev.onMessage m ∈ told

/-- What both sides decode of the two QR codes agrees: what is local to the one is remote to the other. -/
def CodesMatch (qa qb : Bytes) : Prop :=
  ∃ a b l r, Fingerprint.scanQR qa = .ok a ∧ Fingerprint.scanQR qb = .ok b ∧ a.localFp = some (some l) ∧
    b.remoteFp = some (some l) ∧ a.remoteFp = some (some r) ∧ b.localFp = some (some r)

/-- Two texts with the same first half of the hash. -/
def HalfCollision (P : Prims) : Prop := ∃ x y, x ≠ y ∧ (P.sha512 x).take 32 = (P.sha512 y).take 32

/-! ## Proof -/

/-- `Heard` for plain schedules. -/
def HeardC (P : Prims) (w : Pair) (evs : List CEv) : Prop :=
  ∃ pre i X id body atts g post told e m, evs = pre ++ .deliver i X id body atts g :: post ∧
    ((w.run P pre).wire[i]?).map Prod.fst = some false ∧
    ((w.run P pre).step P (.deliver i X id body atts g)).2 = .told told e ∧ Receive.Ev.onMessage m ∈ told

theorem lvR_mono (a : Abs) (ev : Conv.Ev) (h : a.lvR ≠ 0) : (a.step ev).lvR ≠ 0 := by
  cases ev with
  | send who pt => exact h
  | deliver i rnd =>
    simp only [Abs.step]
    split
    · exact h
    · split
      · unfold Abs.accept
        simp only
        split
        · split
          · simp
          · exact h
        · exact h
      · exact h

theorem sight_lvR_mono (evs : List CEv) : ∀ s : Sight, s.abs.lvR ≠ 0 → (s.run evs).abs.lvR ≠ 0 := by
  induction evs with
  | nil => exact fun _ h => h
  | cons ev evs ih =>
    intro s h
    refine ih (s.step ev) ?_
    cases ev with
    | send who X m => exact lvR_mono _ _ h
    | deliver i X id body atts g => exact lvR_mono _ _ h
    | other who c => exact h

theorem accept_lvR (a : Abs) (m : AMsg) (hodd : m.epoch % 2 = 1) (he : a.expect m = .accept) :
    (a.accept m).lvR ≠ 0 := by
  unfold Abs.accept
  simp only
  by_cases h1 : m.epoch = a.recvLevel m.epoch + 1
  · rw [if_pos h1, if_pos hodd]
    simp
  · rw [if_neg h1]
    intro h0
    have h0 : a.lvR = 0 := h0
    unfold Abs.expect at he
    simp only at he
    rw [if_neg h1] at he
    have hr : a.recvLevel m.epoch = 0 := by unfold Abs.recvLevel; rw [if_pos hodd, h0]
    rw [hr] at he
    by_cases hin : m.epoch ∈ ret 0
    · exact absurd (ret_lt _ _ hin) (by omega)
    · rw [if_neg hin] at he
      cases he

theorem ok_append {P : Prims} {S : Setup} {loc : Send.WireAtt → Bytes} (a b : List CEv) : ∀ (s : Sight) (w : Pair),
    Ok P S loc s w (a ++ b) → Ok P S loc s w a ∧ Ok P S loc (s.run a) (w.run P a) b := by
  induction a with
  | nil => exact fun _ _ h => ⟨trivial, h⟩
  | cons ev a ih =>
    intro s w h
    obtain ⟨h1, h2, h3⟩ := h
    obtain ⟨i1, i2⟩ := ih _ _ h3
    exact ⟨⟨h1, h2, i1⟩, i2⟩

theorem keysOf_append (P : Prims) (a b : List CEv) : Clients.keysOf P (a ++ b) = Clients.keysOf P a ++ Clients.keysOf P b := by
  simp [Clients.keysOf]

/-- After a conversation in which the responder has heard the initiator, each has saved the other's key. -/
theorem saved_keys (P : Prims) (S : Setup) (hS : S.Ok P) (loc : Send.WireAtt → Bytes) (w : Pair) (hw : Peers S w)
    (evs : List CEv) (hl : Ok P S loc {} w evs)
    (hk : (S.spk.pub :: (newPair P S.rr).pub :: Clients.keysOf P evs).Nodup) (hn : evs.length < 2 ^ 32 - 1)
    (hh : HeardC P w evs) :
    (w.run P evs).I.send.store.identity = some S.idI ∧ (w.run P evs).R.send.store.identity = some S.idR ∧
    (w.run P evs).I.send.store.identities S.nameR = .key S.idR.pub ∧
    (w.run P evs).R.send.store.identities S.nameI = .key S.idI.pub := by
  have hne : S.spk.pub ≠ (newPair P S.rr).pub := by
    rw [List.nodup_cons] at hk
    intro h
    exact hk.1 (by rw [h]; exact List.mem_cons_self)
  have hN : Named S := ⟨recID_self hw.nameI.1 hw.nameI.2, recID_self hw.nameR.1 hw.nameR.2⟩
  obtain ⟨pre, i, X, id, body, atts, g, post, told, e, m, rfl, hwire, hout, hm⟩ := hh
  obtain ⟨o1, o2⟩ := ok_append pre _ _ _ hl
  obtain ⟨_, G1, cw1, r1, n1, l1⟩ := csimulate hS hN hne
    (Clients.keysOf P (.deliver i X id body atts g :: post)) pre (initG P S) {} w (World.init P S)
    (begin_rel hS hne hw) o1 (by rw [List.append_assoc, ← keysOf_append]; exact hk) (by
      simp only [List.length_append] at hn
      show 0 + pre.length + 1 < u32
      unfold u32
      omega)
  have hb : (Sight.run {} pre).abs.log.length + (CEv.deliver i X id body atts g :: post).length + 1 < u32 := by
    simp only [List.length_append] at hn
    have : (Sight.run {} pre).abs.log.length ≤ 0 + pre.length := l1
    unfold u32
    omega
  obtain ⟨ag, G2, cw2, r2, _, _⟩ := csimulate hS hN hne [] (.deliver i X id body atts g :: post) G1 _ _ cw1 r1 o2
    (by rw [List.append_nil]; exact n1) hb
  have hrun : ∀ a b, (w.run P (a ++ b)) = (w.run P a).run P b := fun a b => List.foldl_append
  rw [hrun]
  -- the delivery is accepted, so the responder has moved on
  have hlv : ((Sight.run {} pre).step (.deliver i X id body atts g)).abs.lvR ≠ 0 := by
    have ag1 : CAgree ((Sight.run {} pre).want S (.deliver i X id body atts g))
        ((w.run P pre).step P (.deliver i X id body atts g)).2 := by
      cases ag with
      | cons h _ => exact h
    rw [hout] at ag1
    simp only [Sight.want] at ag1
    split at ag1
    · rename_i am d hlog hsaid
      split at ag1
      · rename_i hacc
        have hodd : am.epoch % 2 = 1 := by
          obtain ⟨x, hx1, hx2⟩ := (forall₂_get r1.rel.log i).2 am hlog
          obtain ⟨j, hj1, hj2⟩ := (forall₂_get r1.wire i).2 x hx1
          obtain ⟨_, _, _, hpar, _⟩ := hx2
          rw [hj1] at hwire
          have hwire : j.1 = false := by simpa using hwire
          rw [hj2.1, hpar] at hwire
          have := of_decide_eq_false hwire
          omega
        have hst : ((Sight.run {} pre).step (.deliver i X id body atts g)).abs = (Sight.run {} pre).abs.accept am := by
          simp only [Sight.step, Abs.step, hlog, hacc]
        rw [hst]
        exact accept_lvR _ am hodd hacc
      · obtain ⟨h1, _⟩ := ag1
        rw [h1] at hm
        simp at hm
      · have := ag1 _ hm
        cases this
    · exact ag1.elim
  have hlv2 : ((Sight.run {} pre).run (.deliver i X id body atts g :: post)).abs.lvR ≠ 0 :=
    sight_lvR_mono post _ hlv
  have hI : ((w.run P pre).run P (.deliver i X id body atts g :: post)).I.send.store = cw2.I := by
    rcases r2.I with h | ⟨h, _⟩
    · exact h
    · rw [h] at hlv2; exact absurd rfl hlv2
  refine ⟨r2.identI.1, ?_, ?_, ?_⟩
  · rw [r2.R]; exact r2.rel.identR
  · rw [hI]; exact r2.rel.knownI
  · rw [r2.R]; exact r2.rel.knownR hlv2

theorem contact_key {st : Store} {n : String} {k : Bytes} (hn : Receive.recID n = .ok n)
    (h : st.identities n = .key k) : contactIdentityKey st n = .ok (5 :: k) := by
  simp only [contactIdentityKey, hn, Res.ok_bind, h]

theorem fingerprint_of {P : Prims} {st : Store} {n : String} {me : KeyPair} {k tel rtel : Bytes}
    (hn : Receive.recID n = .ok n) (hi : st.identity = some me) (h : st.identities n = .key k)
    (h1 : me.pub.length = 32) (h2 : k.length = 32) :
    getFingerprint P tel st n rtel = Fingerprint.createFingerprint P 1 tel [me.pub] rtel [k] := by
  simp only [getFingerprint, myIdentityKey, hi, Res.ok_bind, contact_key hn h, Fingerprint.createFingerprintSimple,
    deser, h1, h2, if_true]

theorem plain_run (P : Prims) (evs : List FEv) : ∀ w, w.run P (plainEvs P w evs) = FEv.run P w evs := by
  induction evs with
  | nil => intro w; rfl
  | cons ev evs ih =>
    intro w
    show (w.step P (plainEv P w ev)).1.run P (plainEvs P (ev.step P w).1 evs) = FEv.run P (ev.step P w).1 evs
    rw [← plain_step]
    exact ih _

theorem plain_append (P : Prims) (a b : List FEv) : ∀ w,
    plainEvs P w (a ++ b) = plainEvs P w a ++ plainEvs P (FEv.run P w a) b := by
  induction a with
  | nil => intro w; rfl
  | cons ev a ih =>
    intro w
    show plainEv P w ev :: plainEvs P (ev.step P w).1 (a ++ b) = plainEv P w ev :: (plainEvs P (ev.step P w).1 a ++ _)
    rw [ih]
    rfl

theorem heard_plain {P : Prims} {w : Pair} {evs : List FEv} (h : Heard P w evs) : HeardC P w (plainEvs P w evs) := by
  obtain ⟨pre, i, X, id, body, atts, g, post, told, e, m, rfl, h1, h2, h3⟩ := h
  refine ⟨plainEvs P w pre, i, X, id, body, atts, g,
    plainEvs P ((FEv.run P w pre).step P (.deliver i X id body atts g)).1 post, told, e, m, ?_, ?_, ?_, h3⟩
  · rw [plain_append]; rfl
  · rw [plain_run]; exact h1
  · rw [plain_run]; exact h2

/-- The same for schedules with others. -/
theorem saved_among (P : Prims) (S : Setup) (hS : S.Ok P) (hA : Addresses S) (w : Pair) (hw : Peers S w)
    (evs : List FEv) (hl : FEv.Real P S {} w evs)
    (hk : (S.spk.pub :: (newPair P S.rr).pub :: FEv.keysOf P evs).Nodup) (hn : evs.length < 2 ^ 32 - 1)
    (hh : Heard P w evs) :
    (FEv.run P w evs).I.send.store.identity = some S.idI ∧ (FEv.run P w evs).R.send.store.identity = some S.idR ∧
    (FEv.run P w evs).I.send.store.identities S.nameR = .key S.idR.pub ∧
    (FEv.run P w evs).R.send.store.identities S.nameI = .key S.idI.pub := by
  have hne : S.spk.pub ≠ (newPair P S.rr).pub := by
    rw [List.nodup_cons] at hk
    intro h
    exact hk.1 (by rw [h]; exact List.mem_cons_self)
  have hN : Named S := ⟨recID_self hw.nameI.1 hw.nameI.2, recID_self hw.nameR.1 hw.nameR.2⟩
  have hr := plain_real P S hS hA hN hne evs (initG P S) {} w (World.init P S) (begin_rel hS hne hw)
    (by intro d hd; cases hd) hl hk (by show 0 + evs.length + 1 < u32; unfold u32; omega)
  rw [← plain_run]
  exact saved_keys P S hS _ w hw _ (real_ok P S hA _ {} w (by intro d hd; cases hd) hr).1
    (by rw [plain_keys]; exact hk) (by rw [plain_length]; exact hn) (heard_plain hh)

theorem half_commits (P : Prims) (n : Nat) (uid uid' k k' : Bytes) (hk : k.length = 32) (hk' : k'.length = 32)
    (h : (Fingerprint.getFingerprint P (n + 1) uid [k]).take 32 = (Fingerprint.getFingerprint P (n + 1) uid' [k']).take 32) :
    (uid = uid' ∧ k = k') ∨ HalfCollision P := by
  have e : ∀ u x, Fingerprint.getFingerprint P (n + 1) u [x] =
      P.sha512 (Fingerprint.getFingerprint P n u [x] ++ 5 :: x) := by
    intro u x
    simp [Fingerprint.getFingerprint, Fingerprint.repeatedHashing, Fingerprint.logicalKeyBytes, Fingerprint.sortKeys,
      Fingerprint.insertKey, Keys.ser]
  rw [e, e] at h
  by_cases hx : Fingerprint.getFingerprint P n uid [k] ++ 5 :: k = Fingerprint.getFingerprint P n uid' [k'] ++ 5 :: k'
  · obtain ⟨h1, h2⟩ := List.append_inj' hx (by simp [hk, hk'])
    have hkk : k = k' := by injection h2
    cases n with
    | zero =>
      left
      refine ⟨?_, hkk⟩
      simp only [Fingerprint.getFingerprint, Fingerprint.repeatedHashing, hkk] at h1
      exact List.append_cancel_left h1
    | succ n =>
      rcases Fingerprint.C37_commits P (n + 1) (by omega) uid uid' [k] [k'] rfl (by simp [hk]) (by simp [hk']) h1 with h | h
      · exact Or.inl ⟨h.1, hkk⟩
      · obtain ⟨x, _, y, _, hne, he⟩ := h
        exact Or.inr ⟨x, y, hne, by rw [he]⟩
  · exact Or.inr ⟨_, _, hx, h⟩

/-! ## C122 -/

/-- C122. After any conversation in which the responder has been shown a message of the initiator — whatever else both
did meanwhile with others — the safety numbers the two applications display for each other are the same, given that
each passes the telephone number that the other is configured with. -/
theorem C122_same_safety_number (P : Prims) (S : Setup) (hS : S.Ok P) (hA : Addresses S) (w : Pair) (hw : Peers S w)
    (evs : List FEv) (hl : FEv.Real P S {} w evs)
    (hk : (S.spk.pub :: (newPair P S.rr).pub :: FEv.keysOf P evs).Nodup) (hn : evs.length < 2 ^ 32 - 1)
    (hh : Heard P w evs) (telI telR : Bytes) :
    numberOf (getFingerprint P telI (FEv.run P w evs).I.send.store S.nameR telR) =
      numberOf (getFingerprint P telR (FEv.run P w evs).R.send.store S.nameI telI) := by
  obtain ⟨h1, h2, h3, h4⟩ := saved_among P S hS hA w hw evs hl hk hn hh
  rw [fingerprint_of (recID_self hw.nameR.1 hw.nameR.2) h1 h3 hS.idI.pub_len hS.idR.pub_len,
    fingerprint_of (recID_self hw.nameI.1 hw.nameI.2) h2 h4 hS.idR.pub_len hS.idI.pub_len]
  exact Fingerprint.C36_same_outcome P 1 1 telI [S.idI.pub] telR [S.idR.pub]

/-- C122, that it is a number: unless all six groups of the two users coincide, both calls succeed (with twelve groups
of five digits, C37). Missing: users whose groups coincide, `C122_same_groups_crash`. -/
theorem C122_number_partial (P : Prims) (S : Setup) (hS : S.Ok P) (hA : Addresses S) (w : Pair) (hw : Peers S w)
    (evs : List FEv) (hl : FEv.Real P S {} w evs)
    (hk : (S.spk.pub :: (newPair P S.rr).pub :: FEv.keysOf P evs).Nodup) (hn : evs.length < 2 ^ 32 - 1)
    (hh : Heard P w evs) (telI telR : Bytes)
    (hne : ∃ o ∈ [0, 5, 10, 15, 20, 25],
      Fingerprint.value5 (Fingerprint.getFingerprint P 5200 telI [S.idI.pub]) o % 100000 ≠
        Fingerprint.value5 (Fingerprint.getFingerprint P 5200 telR [S.idR.pub]) o % 100000) :
    ∃ n, numberOf (getFingerprint P telI (FEv.run P w evs).I.send.store S.nameR telR) = .ok n ∧
      numberOf (getFingerprint P telR (FEv.run P w evs).R.send.store S.nameI telI) = .ok n := by
  obtain ⟨h1, h2, h3, h4⟩ := saved_among P S hS hA w hw evs hl hk hn hh
  rw [fingerprint_of (recID_self hw.nameR.1 hw.nameR.2) h1 h3 hS.idI.pub_len hS.idR.pub_len,
    fingerprint_of (recID_self hw.nameI.1 hw.nameI.2) h2 h4 hS.idR.pub_len hS.idI.pub_len]
  exact Fingerprint.C36_same_number_partial P 1 1 telI [S.idI.pub] telR [S.idR.pub] hne

theorem qr_scan {P : Prims} {lid rid l r : Bytes} {x : List (List Char) × Bytes}
    (h : Fingerprint.createFingerprint P 1 lid [l] rid [r] = .ok x) :
    Fingerprint.scanQR x.2 = .ok ⟨some 1, some (some ((Fingerprint.getFingerprint P 5200 lid [l]).take 32)),
      some (some ((Fingerprint.getFingerprint P 5200 rid [r]).take 32))⟩ := by
  refine Fingerprint.C38_scan_created P 1 lid [l] rid [r] x.2 (by decide) ?_
  simp only [Fingerprint.qr, h, Res.ok_bind]

/-- C122, QR codes: each side that scans the other's code finds that it matches its own. -/
theorem C122_codes_match (P : Prims) (S : Setup) (hS : S.Ok P) (hA : Addresses S) (w : Pair) (hw : Peers S w)
    (evs : List FEv) (hl : FEv.Real P S {} w evs)
    (hk : (S.spk.pub :: (newPair P S.rr).pub :: FEv.keysOf P evs).Nodup) (hn : evs.length < 2 ^ 32 - 1)
    (hh : Heard P w evs) (telI telR qI qR : Bytes)
    (hI : qrOf (getFingerprint P telI (FEv.run P w evs).I.send.store S.nameR telR) = .ok qI)
    (hR : qrOf (getFingerprint P telR (FEv.run P w evs).R.send.store S.nameI telI) = .ok qR) :
    CodesMatch qI qR ∧ CodesMatch qR qI := by
  obtain ⟨h1, h2, h3, h4⟩ := saved_among P S hS hA w hw evs hl hk hn hh
  rw [fingerprint_of (recID_self hw.nameR.1 hw.nameR.2) h1 h3 hS.idI.pub_len hS.idR.pub_len] at hI
  rw [fingerprint_of (recID_self hw.nameI.1 hw.nameI.2) h2 h4 hS.idR.pub_len hS.idI.pub_len] at hR
  simp only [qrOf, Res.bind_eq_ok] at hI hR
  obtain ⟨x, hx, ex⟩ := hI
  obtain ⟨y, hy, ey⟩ := hR
  injection ex with ex
  injection ey with ey
  subst ex ey
  have sx := qr_scan hx
  have sy := qr_scan hy
  exact ⟨⟨_, _, _, _, sx, sy, rfl, rfl, rfl, rfl⟩, ⟨_, _, _, _, sy, sx, rfl, rfl, rfl, rfl⟩⟩

/-- C122, what a match is worth: whatever the server gave the two devices, if the codes match, then the key that each
has saved for the other is the other's own, and each passed the other's number; or else two texts with the same half
of a SHA-512 hash are at hand. -/
theorem C122_match_means_same_keys (P : Prims) (stI stR : Store) (idI idR : KeyPair) (nameI nameR : String)
    (telI telR telI' telR' : Bytes) (qI qR : Bytes)
    (h1 : stI.identity = some idI) (h2 : stR.identity = some idR)
    (hI : qrOf (getFingerprint P telI stI nameR telR') = .ok qI)
    (hR : qrOf (getFingerprint P telR stR nameI telI') = .ok qR) (hm : CodesMatch qI qR) :
    (contactIdentityKey stI nameR = .ok (5 :: idR.pub) ∧ contactIdentityKey stR nameI = .ok (5 :: idI.pub) ∧
      telR' = telR ∧ telI' = telI) ∨ HalfCollision P := by
  have key : ∀ (st : Store) (me : KeyPair) (n : String) (t t' q : Bytes), st.identity = some me →
      qrOf (getFingerprint P t st n t') = .ok q → ∃ k, contactIdentityKey st n = .ok (5 :: k) ∧ k.length = 32 ∧
        me.pub.length = 32 ∧
        Fingerprint.scanQR q = .ok ⟨some 1, some (some ((Fingerprint.getFingerprint P 5200 t [me.pub]).take 32)),
          some (some ((Fingerprint.getFingerprint P 5200 t' [k]).take 32))⟩ := by
    intro st me n t t' q hi h
    simp only [qrOf, getFingerprint, myIdentityKey, hi, Res.ok_bind, Res.bind_eq_ok] at h
    obtain ⟨x, ⟨r, hr, hx⟩, e⟩ := h
    injection e with e
    subst e
    have hrk : ∃ k, r = 5 :: k := by
      simp only [contactIdentityKey, Res.bind_eq_ok] at hr
      obtain ⟨n', _, hr⟩ := hr
      split at hr
      · cases hr
      · cases hr
      · injection hr with hr
        exact ⟨_, hr.symm⟩
    obtain ⟨k, rfl⟩ := hrk
    simp only [Fingerprint.createFingerprintSimple, Res.bind_eq_ok] at hx
    obtain ⟨l, hl, r, hr', hx⟩ := hx
    have dl : l = me.pub ∧ me.pub.length = 32 := by
      unfold deser at hl
      simp only at hl
      split at hl
      · rename_i hlen; injection hl with hl; exact ⟨hl.symm, hlen⟩
      · cases hl
    have dr : r = k ∧ k.length = 32 := by
      unfold deser at hr'
      simp only at hr'
      split at hr'
      · rename_i hlen; injection hr' with hr'; exact ⟨hr'.symm, hlen⟩
      · cases hr'
    rw [dl.1, dr.1] at hx
    exact ⟨k, hr, dr.2, dl.2, qr_scan hx⟩
  obtain ⟨kI, c1, l1, m1, s1⟩ := key stI idI nameR telI telR' qI h1 hI
  obtain ⟨kR, c2, l2, m2, s2⟩ := key stR idR nameI telR telI' qR h2 hR
  obtain ⟨a, b, l, r, ha, hb, e1, e2, e3, e4⟩ := hm
  have ha := Res.ok.inj (s1.symm.trans ha)
  have hb := Res.ok.inj (s2.symm.trans hb)
  subst ha hb
  simp only [Option.some.injEq] at e1 e2 e3 e4
  rcases half_commits P 5199 telI telI' idI.pub kR m1 l2 (e1.trans e2.symm) with ⟨t1, k1⟩ | hc
  · rcases half_commits P 5199 telR' telR kI idR.pub l1 m2 (e3.trans e4.symm) with ⟨t2, k2⟩ | hc
    · left
      rw [c1, c2, k1, k2]
      exact ⟨rfl, rfl, t2, t1.symm⟩
    · exact Or.inr hc
  · exact Or.inr hc

/-- C122, before the responder has heard anything of the initiator (and has saved no key of theirs), there is no
number for it: the call fails. -/
theorem C122_unknown_contact (P : Prims) (st : Store) (me : KeyPair) (n : String) (tel rtel : Bytes)
    (hn : n ≠ "" ∧ n.toList.head? ≠ some '+') (hi : st.identity = some me) (h : st.identities n = .absent) :
    getFingerprint P tel st n rtel = .err .other := by
  simp only [getFingerprint, myIdentityKey, hi, Res.ok_bind, contactIdentityKey, recID_self hn.1 hn.2, h]
  rfl

/-- C122 refuted in one case: with oneself (and with anybody whose six groups are one's own), there is no number;
the call panics. -/
theorem C122_same_groups_crash (P : Prims) (st : Store) (me : KeyPair) (n : String) (tel : Bytes)
    (hn : n ≠ "" ∧ n.toList.head? ≠ some '+') (hi : st.identity = some me) (hl : me.pub.length = 32)
    (h : st.identities n = .key me.pub) : numberOf (getFingerprint P tel st n tel) = .panic := by
  rw [fingerprint_of (recID_self hn.1 hn.2) hi h hl hl]
  exact Fingerprint.C36_equal_users_crash P 1 tel [me.pub]

/-! ## Concrete cases -/

theorem told_mem (o : COut) (x : Receive.Ev) (h : x ∈ Demo.told o) : ∃ l e, o = .told l e ∧ x ∈ l := by
  cases o with
  | sent r => cases h
  | nothing => cases h
  | told l e => cases e <;> first | exact ⟨l, _, rfl, h⟩ | cases h

open Demo in
set_option maxRecDepth 100000 in
theorem among_heard : Heard P pair0 among := by
  have h1 : (am3.wire[0]?).map Prod.fst = some false := by decide +kernel
  have h2 : Receive.Ev.onMessage helloShown ∈ told (am3.step P ev2).2 := by decide +kernel
  obtain ⟨l, e, h3, h4⟩ := told_mem _ _ h2
  exact ⟨[.talk ev1, f2, f3], 0, hearExt 83, 100, envOf w1 0 "alice", [[42, 43]], none,
    [.talk ev3, f6, .talk ev4, .talk ev5], l, e, helloShown, rfl, h1, h3, h4⟩

/-- The conversation of C120 meets the hypotheses. -/
example (telI telR : Bytes) :
    numberOf (getFingerprint Demo.P telI (FEv.run Demo.P Demo.pair0 Demo.among).I.send.store "bob" telR) =
      numberOf (getFingerprint Demo.P telR (FEv.run Demo.P Demo.pair0 Demo.among).R.send.store "alice" telI) :=
  C122_same_safety_number Demo.P Demo.setup Demo.setup_ok Demo.addresses Demo.pair0 Demo.peers0 Demo.among
    Demo.among_real Demo.talk_keys (by decide) among_heard telI telR
