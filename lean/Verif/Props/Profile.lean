import Verif.Proof.Profile
/-!
# C62: profile names; C81, C83, C84, C85: reading profiles; C89: profile keys of contacts
-/
namespace Verif.Props.Profile
open Verif Verif.Profile Verif.Contacts Verif.Encoding

/-- ASCII text. -/
def txt (s : String) : Bytes := s.toList.map (fun c => UInt8.ofNat c.toNat)

/-- `r` is `p` without the zero bytes at its end. -/
def Trimmed (p r : Bytes) : Prop := ∃ k, p = r ++ List.replicate k 0 ∧ r.getLast? ≠ some 0

/-! ## C62 -/

/-- What is read back from an encrypted name, for every name: the name without the zero bytes at its end.
The text sent has the same length for every name. -/
theorem C62_exact (R : Nat → UInt8) (g : Gcm) (key name : Bytes) (used : Nat) (hk : aesKeyOk key = true)
    (hlen : name.length ≤ 53) :
    ∃ c, (encryptName R g key name 53 used).1 = .ok c ∧ c.length = 81 ∧
      ∃ r, Trimmed name r ∧ decryptName g key c = .ok r := by
  obtain ⟨r, k, h1, h2⟩ := exists_trim name
  have hp : name ++ List.replicate (53 - name.length) 0 ≠ [] := by
    intro h
    have := congrArg List.length h
    simp only [List.length_append, List.length_replicate, List.length_nil] at this
    omega
  refine ⟨(draw R used 12).1 ++ g.lock key (draw R used 12).1 (name ++ List.replicate (53 - name.length) 0) [], ?_, ?_, r, ⟨k, h1, h2⟩, ?_⟩
  · simp only [encryptName]
    rw [if_neg (by omega)]
    simp only [aesgcmEncrypt, hk]
    rfl
  · simp only [List.length_append, draw_len, g.lock_len, List.length_replicate]
    omega
  · rw [decryptName_lock g key _ _ hk (draw_len R used 12) hp]
    congr 1
    refine take_nameLength (k := k + (53 - name.length)) ?_ h2
    conv => lhs; rw [h1]
    rw [List.append_assoc, List.replicate_append_replicate, ← h1]

/-- **C62 (part).** A name that does not end in a zero byte is read back. Missing: names ending in zero
bytes, which lose them (`C62_zero_lost`). -/
theorem C62_round_trip_partial (R : Nat → UInt8) (g : Gcm) (key name : Bytes) (used : Nat) (hk : aesKeyOk key = true)
    (hlen : name.length ≤ 53) (hz : name.getLast? ≠ some 0) :
    ∃ c, (encryptName R g key name 53 used).1 = .ok c ∧ decryptName g key c = .ok name := by
  obtain ⟨c, h1, _, r, ⟨k, hr, hr'⟩, h2⟩ := C62_exact R g key name used hk hlen
  refine ⟨c, h1, ?_⟩
  rw [h2]
  cases k with
  | zero => rw [hr]; simp
  | succ k =>
    exfalso
    apply hz
    rw [hr, List.replicate_succ', ← List.append_assoc]
    simp

/-- **C62 (too long).** Longer names are refused, before any random byte is drawn. -/
theorem C62_too_long (R : Nat → UInt8) (g : Gcm) (key name : Bytes) (used : Nat) (h : 53 < name.length) :
    encryptName R g key name 53 used = (.err .other, used) := by
  simp only [encryptName]
  rw [if_pos h]

/-- **C62 refuted** for every name ending in a zero byte: it is not what is read back. -/
theorem C62_zero_lost (R : Nat → UInt8) (g : Gcm) (key name : Bytes) (used : Nat) (hk : aesKeyOk key = true)
    (hlen : name.length ≤ 53) (hz : name.getLast? = some 0) :
    ∃ c r, (encryptName R g key name 53 used).1 = .ok c ∧ decryptName g key c = .ok r ∧ r ≠ name := by
  obtain ⟨c, h1, _, r, ⟨k, hr, hr'⟩, h2⟩ := C62_exact R g key name used hk hlen
  refine ⟨c, r, h1, h2, ?_⟩
  rintro rfl
  exact hr' hz

/-- Nothing received as a name makes the client crash. -/
theorem C62_no_panic (g : Gcm) (key data : Bytes) : decryptName g key data ≠ .panic := by
  simp only [decryptName]
  split
  · simp
  · simp only [aesgcmDecrypt]
    split
    · simp
    · split <;> simp

example : aesKeyOk (List.replicate 32 1) = true ∧ (txt "Mila").length ≤ 53 ∧ (txt "Mila").getLast? ≠ some 0 ∧
    (txt "Mila" ++ [0]).getLast? = some 0 := by decide

/-! ## C81 -/

/-- **C81 refuted.** Whatever the server answers, if the second answer has a name, the text in it is what
the caller gets as the name — undecrypted. -/
theorem C81_ciphertext_returned (g : Gcm) (ownKey key : Bytes) (get : Nat → Bytes → Res Reply) (p : Prof)
    (t : Bytes) (h : getProfile g ownKey get key = .ok p)
    (ht : ∀ a r j, get 1 a = .ok r → r.body = some j → j.name = some t) : p.name = t := by
  simp only [getProfile, Res.bind_eq_ok] at h
  obtain ⟨a, _, p1, _, h⟩ := h
  simp only [readReply, Res.bind_eq_ok] at h
  obtain ⟨r, hr, h⟩ := h
  split at h
  · cases h
  · next j hj =>
    injection h with h
    subst h
    simp only [unmarshal, ht _ _ _ hr hj, Option.getD_some]

/-- In particular a profile stored by `encryptName` is never shown with its name: the caller gets a text of
108 characters, more than a name may have. -/
theorem C81_name_never_shown (R : Nat → UInt8) (g : Gcm) (ownKey key name c : Bytes) (used : Nat) (j : Json) (p : Prof)
    (get : Nat → Bytes → Res Reply) (hk : aesKeyOk key = true) (hlen : name.length ≤ 53)
    (hc : (encryptName R g key name 53 used).1 = .ok c) (hj : j.name = some (b64Encode c))
    (hget : ∀ n a, get n a = .ok ⟨200, some j⟩) (h : getProfile g ownKey get key = .ok p) : p.name ≠ name := by
  have h1 := C81_ciphertext_returned g ownKey key get p (b64Encode c) h (by
    intro a r j' hr hb
    rw [hget] at hr
    injection hr with hr
    subst hr
    injection hb with hb
    rw [← hb, hj])
  obtain ⟨c', hc', hl, _⟩ := C62_exact R g key name used hk hlen
  rw [hc] at hc'
  injection hc' with hc'
  subst hc'
  intro h2
  have h3 := b64Encode_length c
  rw [← h1, h2, hl] at h3
  omega

/-- `GetProfile` does succeed on such answers, so the above is not empty. -/
theorem C81_succeeds (g : Gcm) (ownKey key : Bytes) (j : Json) (get : Nat → Bytes → Res Reply)
    (hown : aesKeyOk ownKey = true) (hget : ∀ n a, get n a = .ok ⟨200, some j⟩) :
    ∃ p, getProfile g ownKey get key = .ok p := by
  refine ⟨unmarshal j (decryptProfile g key (unmarshal j {})).1, ?_⟩
  simp only [getProfile, deriveAccessKey, hown, readReply, hget]
  rfl

/-- A field of a stored profile: absent, or an encryption of `v`. -/
def Stored (R : Nat → UInt8) (g : Gcm) (key : Bytes) (f : Option Bytes) (v : Bytes) : Prop :=
  (f = none ∧ v = []) ∨
  ∃ used c padded, (encryptName R g key v padded used).1 = .ok c ∧ 0 < padded ∧ f = some (b64Encode c)

theorem stored_read {R : Nat → UInt8} {g : Gcm} {key v : Bytes} {f : Option Bytes} (hk : aesKeyOk key = true)
    (hz : v.getLast? ≠ some 0) (h : Stored R g key f v) : decField g key (f.getD []) = .ok v := by
  rcases h with ⟨rfl, rfl⟩ | ⟨used, c, padded, hc, hpos, rfl⟩
  · rfl
  · simp only [encryptName] at hc
    split at hc
    · cases hc
    · next hle =>
      simp only [aesgcmEncrypt, hk] at hc
      injection hc with hc
      have hne : c ≠ [] := by
        intro h0
        have := congrArg List.length (hc.trans h0)
        simp [draw_len] at this
      simp only [Option.getD_some, decField, decryptString, b64Decode_encode]
      rw [if_neg (b64Encode_ne_nil hne), ← hc]
      have hp : v ++ List.replicate (padded - v.length) 0 ≠ [] := by
        intro h
        have := congrArg List.length h
        simp only [List.length_append, List.length_replicate, List.length_nil] at this
        omega
      have h1 := decryptName_lock g key (draw R used 12).1 _ hk (draw_len R used 12) hp
      rw [h1]
      congr 1
      exact take_nameLength rfl hz

/-- **C81 (part).** `GetProfileAndCredential` does return the name, description and emoji that were
encrypted with the profile key, if there is a name. Missing: `GetProfile`, see above; profiles without a
name, whose description stays encrypted (`C81_about_without_name`). -/
theorem C81_with_credential_partial (R : Nat → UInt8) (g : Gcm) (z : Zk) (get : Bytes → Res Reply) (uuid key : Bytes)
    (st : Nat) (j : Json) (name about emoji : Bytes) (p : Prof) (hk : aesKeyOk key = true)
    (hget : ∀ a, get a = .ok ⟨st, some j⟩)
    (hname : Stored R g key j.name name) (hnn : j.name ≠ none)
    (habout : Stored R g key j.about about) (hemoji : Stored R g key j.aboutEmoji emoji)
    (hz : name.getLast? ≠ some 0 ∧ about.getLast? ≠ some 0 ∧ emoji.getLast? ≠ some 0)
    (h : getProfileAndCredential g z get uuid key = .ok p) :
    p.name = name ∧ p.about = about ∧ p.aboutEmoji = emoji ∧
      ∃ u r c, z.uuid uuid = some u ∧ j.credential = some r ∧ z.receive u key r = some c ∧ p.credential = some c := by
  simp only [getProfileAndCredential] at h
  split at h
  · cases h
  split at h
  · cases h
  split at h
  · cases h
  next u hu =>
  split at h
  · cases h
  next req hreq =>
  simp only [readReply, hget, Res.ok_bind] at h
  have e1 := stored_read hk hz.1 hname
  have e2 := stored_read hk hz.2.1 habout
  have e3 := stored_read hk hz.2.2 hemoji
  have hkey : key ≠ [] := by rintro rfl; simp [aesKeyOk] at hk
  have hn0 : j.name.getD [] ≠ [] := by
    rcases hname with ⟨h0, _⟩ | ⟨used, c, padded, hc, hpos, hs⟩
    · exact absurd h0 hnn
    · rw [hs, Option.getD_some]
      refine b64Encode_ne_nil ?_
      rintro rfl
      simp only [encryptName] at hc
      split at hc
      · cases hc
      · simp only [aesgcmEncrypt, hk] at hc
        injection hc with hc
        have := congrArg List.length hc
        simp [draw_len] at this
  have e1' : decryptString g key (j.name.getD []) = .ok name := by
    simp only [decField] at e1
    rwa [if_neg hn0] at e1
  split at h
  · cases h
  next p2 hp2 =>
  simp only [decryptProfile, unmarshal, hkey, hn0, e1', e2, e3, if_false] at hp2
  split at hp2
  · simp at hp2
  · next ik hik =>
    simp only [Prod.mk.injEq, and_true] at hp2
    subst hp2
    simp only at h
    split at h
    · cases h
    next r hr =>
    split at h
    · cases h
    next c hc =>
    injection h with h
    subst h
    refine ⟨rfl, rfl, rfl, u, r, c, hu, ?_, hc, rfl⟩
    cases hjc : j.credential with
    | none => rw [hjc] at hr; simp at hr
    | some x => rw [hjc] at hr; simpa using hr

/-- **C81**, nothing undecrypted: a profile with a name that `GetProfileAndCredential` returns has as its name and
description what the answer decrypts to under the profile key, whoever made the answer; a text that is no base64 or does not
authenticate is never shown. -/
theorem C81_shown_is_decrypted (g : Gcm) (z : Zk) (get : Bytes → Res Reply) (uuid key : Bytes) (st : Nat) (j : Json)
    (t : Bytes) (p : Prof) (hget : ∀ a, get a = .ok ⟨st, some j⟩) (hn : j.name = some t) (ht : t ≠ [])
    (h : getProfileAndCredential g z get uuid key = .ok p) :
    ∀ x y, (x, y) ∈ [(some t, p.name), (j.about, p.about), (j.aboutEmoji, p.aboutEmoji)] →
      (x.getD [] = [] ∧ y = []) ∨
      ∃ b m, b64Decode (x.getD []) = some b ∧ g.unlock key (b.take 12) (b.drop 12) [] = some m ∧ y <+: m := by
  simp only [getProfileAndCredential] at h
  split at h
  · cases h
  next hk0 =>
  split at h
  · cases h
  split at h
  · cases h
  next u hu =>
  split at h
  · cases h
  next req hreq =>
  simp only [readReply, hget, Res.ok_bind] at h
  have hname : ∀ data v, decryptName g key data = .ok v → ∃ m, g.unlock key (data.take 12) (data.drop 12) [] = some m ∧
      v <+: m := by
    intro data v hv
    simp only [decryptName] at hv
    split at hv
    · cases hv
    · simp only [Res.bind_eq_ok] at hv
      obtain ⟨m, hm, hv⟩ := hv
      injection hv with hv
      refine ⟨m, ?_, hv ▸ List.take_prefix _ _⟩
      simp only [aesgcmDecrypt] at hm
      split at hm
      · cases hm
      · split at hm <;> simp_all
  have hstr : ∀ x v, decryptString g key x = .ok v → ∃ b m, b64Decode x = some b ∧
      g.unlock key (b.take 12) (b.drop 12) [] = some m ∧ v <+: m := by
    intro x v hv
    simp only [decryptString] at hv
    split at hv
    · cases hv
    · next b hb =>
      obtain ⟨m, h1, h2⟩ := hname b v hv
      exact ⟨b, m, hb, h1, h2⟩
  have hfield : ∀ x v, decField g key x = .ok v → (x = [] ∧ v = []) ∨ ∃ b m, b64Decode x = some b ∧
      g.unlock key (b.take 12) (b.drop 12) [] = some m ∧ v <+: m := by
    intro x v hv
    simp only [decField] at hv
    split at hv
    · next hx => injection hv with hv; exact Or.inl ⟨hx, hv.symm⟩
    · exact Or.inr (hstr x v hv)
  have e1 : (unmarshal j {}).name = t := by simp [unmarshal, hn]
  have e2 : (unmarshal j {}).about = j.about.getD [] := rfl
  have e3 : (unmarshal j {}).aboutEmoji = j.aboutEmoji.getD [] := rfl
  generalize unmarshal j {} = p0 at h e1 e2 e3
  split at h
  · cases h
  next p2 hp2 =>
  have hall : decryptString g key t = .ok p2.name ∧ decField g key (j.about.getD []) = .ok p2.about ∧
      decField g key (j.aboutEmoji.getD []) = .ok p2.aboutEmoji := by
    simp only [decryptProfile, if_neg hk0, e1, e2, e3, if_neg ht] at hp2
    split at hp2
    · next n hn' =>
      split at hp2
      · next a ha =>
        split at hp2
        · next m hm =>
          split at hp2
          · simp at hp2
          · simp only [Prod.mk.injEq, and_true] at hp2
            subst hp2
            exact ⟨hn', ha, hm⟩
        · simp at hp2
        · simp at hp2
      · simp at hp2
      · simp at hp2
    · simp at hp2
    · simp at hp2
  obtain ⟨a1, a2, a3⟩ := hall
  split at h
  · cases h
  split at h
  · cases h
  injection h with h
  subst h
  intro x y hxy
  simp only [List.mem_cons, Prod.mk.injEq, List.not_mem_nil, or_false] at hxy
  rcases hxy with ⟨rfl, rfl⟩ | ⟨rfl, rfl⟩ | ⟨rfl, rfl⟩
  · exact Or.inr (hstr _ _ a1)
  · exact hfield _ _ a2
  · exact hfield _ _ a3

/-- Without a name, the description is handed on as it was received, encrypted. -/
theorem C81_about_without_name (g : Gcm) (key : Bytes) (p : Prof) (h : p.name = []) :
    (decryptProfile g key p).1.about = p.about ∧ (decryptProfile g key p).1.aboutEmoji = p.aboutEmoji := by
  simp only [decryptProfile, h, if_true]
  split
  · exact ⟨rfl, rfl⟩
  · split <;> exact ⟨rfl, rfl⟩

/-! ## C83 -/

/-- **C83 refuted.** An account that does not exist (any status, body `{}`) is reported as an empty profile,
not as an error. -/
theorem C83_missing_is_empty (g : Gcm) (ownKey key : Bytes) (st : Nat) (get : Nat → Bytes → Res Reply)
    (hown : aesKeyOk ownKey = true) (hget : ∀ n a, get n a = .ok ⟨st, some {}⟩) :
    getProfile g ownKey get key = .ok {} := by
  have h : (decryptProfile g key {}).1 = ({} : Prof) := by
    simp only [decryptProfile]
    split
    · rfl
    · rfl
  have e : unmarshal {} ({} : Prof) = {} := rfl
  have hr : ∀ n a, readReply (get n a) {} = .ok {} := by
    intro n a
    simp only [readReply, hget, Res.ok_bind, e]
  have ha : ∃ a, deriveAccessKey g ownKey = .ok a := ⟨_, by simp only [deriveAccessKey, hown]; rfl⟩
  obtain ⟨a, ha⟩ := ha
  simp only [getProfile, ha, Res.ok_bind, hr, h]

/-- **C83 (part).** A failed connection or a body that is not JSON is reported. Missing: the status. -/
theorem C83_broken_reply_partial (g : Gcm) (ownKey key : Bytes) (get : Nat → Bytes → Res Reply) (n : Nat) (hn : n < 2)
    (hget : ∀ a, (∃ e, get n a = .err e) ∨ ∃ st, get n a = .ok ⟨st, none⟩) (p : Prof) :
    getProfile g ownKey get key ≠ .ok p := by
  intro h
  simp only [getProfile, Res.bind_eq_ok] at h
  obtain ⟨a, _, p1, h1, h2⟩ := h
  have key' : ∀ b q q', readReply (get n b) q ≠ .ok q' := by
    intro b q q' hr
    simp only [readReply] at hr
    rcases hget b with ⟨e, he⟩ | ⟨st, he⟩
    · rw [he] at hr; cases hr
    · rw [he] at hr; cases hr
  obtain rfl | rfl : n = 0 ∨ n = 1 := by omega
  · exact key' _ _ _ h1
  · exact key' _ _ _ h2

/-! ## C84: which contact is changed -/

/-- **C84 (part).** If the profile carries the UUID asked for, no other contact changes, and number, profile
key and registration of that contact stay as they were; name, text and symbol are the profile's where it has
some (a name given before is kept). Missing: profiles with another UUID or none, see
`C84_other_contact_overwritten`. -/
theorem C84_only_that_contact_partial (g : Gcm) (z : Zk) (plain cred : Bytes → Res Reply) (cdn : Bytes → Res Bytes)
    (m m' : Book) (uuid : Bytes) (p : Prof) (f : Option (Bytes × Bytes))
    (h : getProfileUUID g z plain cred cdn m uuid = .ok (p, m', f)) (hu : p.uuid = uuid) :
    (∀ k, k ≠ uuid → Contacts.get m' k = Contacts.get m k) ∧
    ∃ c' : Contact, Contacts.get m' uuid = some c' ∧ c'.uuid = uuid ∧ c'.username = p.name ∧
      ∀ c, Contacts.get m uuid = some c → c'.tel = c.tel ∧ c'.profileKey = c.profileKey ∧
        c'.registered = c.registered ∧ c'.other = c.other ∧ (c.name ≠ [] → c'.name = c.name) ∧
        (c.name = [] → c'.name = p.name) ∧
        (p.about ≠ [] → c'.about = p.about) ∧ (p.about = [] → c'.about = c.about) ∧
        (p.aboutEmoji ≠ [] → c'.aboutEmoji = p.aboutEmoji) ∧ (p.aboutEmoji = [] → c'.aboutEmoji = c.aboutEmoji) ∧
        (p.avatar = [] → c'.avatar = c.avatar) := by
  simp only [getProfileUUID, Res.bind_eq_ok] at h
  obtain ⟨p0, _, ⟨p1, a, file⟩, _, h⟩ := h
  simp only [Res.ok.injEq, Prod.mk.injEq] at h
  obtain ⟨rfl, rfl, rfl⟩ := h
  constructor
  · intro k hk
    rw [get_put, hu]
    simp [Ne.symm hk]
  · refine ⟨updateContact (contactOf m uuid) p1 a, ?_, hu, rfl, fun c hc => ?_⟩
    · rw [get_put, hu]; simp
    · have : contactOf m uuid = c := by simp [contactOf, hc]
      rw [this]
      refine ⟨rfl, rfl, rfl, rfl, ?_, ?_, ?_, ?_, ?_, ?_, ?_⟩ <;> intro hn <;> simp [updateContact, hn]

/-- **C84 refuted.** Asked about a contact without a profile key, a server that answers with another
contact's UUID replaces that other contact: number and profile key are gone. -/
theorem C84_other_contact_overwritten (g : Gcm) (z : Zk) (plain cred : Bytes → Res Reply) (cdn : Bytes → Res Bytes)
    (m : Book) (uuid other name : Bytes) (c : Contact) (st : Nat)
    (hc : Contacts.get m uuid = some c) (hck : c.profileKey = [])
    (hplain : plain uuid = .ok ⟨st, some { uuid := some other, name := some name }⟩) :
    ∃ p m' f, getProfileUUID g z plain cred cdn m uuid = .ok (p, m', f) ∧
      ∃ o : Contact, Contacts.get m' other = some o ∧ o.tel = c.tel ∧ o.profileKey = [] ∧ o.username = name := by
  have h1 : contactOf m uuid = c := by simp [contactOf, hc]
  refine ⟨{ uuid := other, name := name }, put m other (updateContact c { uuid := other, name := name } none), none, ?_, ?_⟩
  · simp only [getProfileUUID, h1, hck, fetchProfile]
    rw [if_neg (by simp)]
    simp only [readReply, hplain, Res.ok_bind]
    rfl
  · exact ⟨updateContact c { uuid := other, name := name } none, by rw [get_put]; simp, rfl, hck, rfl⟩

/-- A missing account (body `{}`) files a copy of the contact under the empty key. -/
theorem C84_empty_key (g : Gcm) (z : Zk) (plain cred : Bytes → Res Reply) (cdn : Bytes → Res Bytes)
    (m : Book) (uuid : Bytes) (c : Contact) (st : Nat) (hc : Contacts.get m uuid = some c) (hck : c.profileKey = [])
    (hplain : plain uuid = .ok ⟨st, some {}⟩) :
    ∃ p m' f, getProfileUUID g z plain cred cdn m uuid = .ok (p, m', f) ∧
      ∃ o : Contact, Contacts.get m' [] = some o ∧ o.tel = c.tel ∧ o.uuid = [] := by
  have h1 : contactOf m uuid = c := by simp [contactOf, hc]
  refine ⟨{}, put m [] (updateContact c {} none), none, ?_, ?_⟩
  · simp only [getProfileUUID, h1, hck, fetchProfile]
    rw [if_neg (by simp)]
    simp only [readReply, hplain, Res.ok_bind]
    rfl
  · exact ⟨updateContact c {} none, by rw [get_put]; simp, rfl, rfl⟩

/-! ## C85: avatars -/

/-- **C85 refuted.** An avatar file of one to eleven bytes crashes the client. -/
theorem C85_short_avatar_crashes (g : Gcm) (cdn : Bytes → Res Bytes) (key : Bytes) (p : Prof) (body : Bytes)
    (hp : p.avatar ≠ []) (hk : key ≠ []) (hb : cdn (47 :: p.avatar) = .ok body) (h1 : body ≠ []) (h2 : body.length < 12) :
    fetchAvatar g cdn key p = .panic := by
  simp only [fetchAvatar]
  rw [if_neg hp, hb]
  simp only []
  rw [if_neg hk, if_neg h1]
  simp only [decryptAvatar]
  rw [if_pos (Or.inl h2)]

/-- **C85 (part).** With a profile key of at least 32 bytes, any other avatar is decrypted or dropped, and the
avatar handed on was encrypted under the profile key. Missing: avatars shorter than the nonce. -/
theorem C85_avatar_partial (g : Gcm) (cdn : Bytes → Res Bytes) (key : Bytes) (p : Prof)
    (hc : ∀ u, cdn u ≠ .panic) (hlen : ∀ u b, cdn u = .ok b → b = [] ∨ 12 ≤ b.length) (hk : key = [] ∨ 32 ≤ key.length) :
    ∃ p' a f, fetchAvatar g cdn key p = .ok (p', a, f) ∧
      ∀ x, a = some x → ∃ nonce c, nonce.length = 12 ∧ cdn (47 :: p.avatar) = .ok (nonce ++ c) ∧
        g.unlock (key.take 32) nonce c [] = some x := by
  simp only [fetchAvatar]
  split
  · exact ⟨_, _, _, rfl, by simp⟩
  cases hb : cdn (47 :: p.avatar) with
  | panic => exact absurd hb (hc _)
  | err e => exact ⟨_, _, _, rfl, by simp⟩
  | ok body =>
    simp only []
    split
    · exact ⟨_, _, _, rfl, by simp⟩
    next hk0 =>
    split
    · exact ⟨_, _, _, rfl, by simp⟩
    next hb0 =>
    have h12 : 12 ≤ body.length := (hlen _ _ hb).resolve_left hb0
    have h32 : 32 ≤ key.length := hk.resolve_left hk0
    simp only [decryptAvatar]
    rw [if_neg (by omega)]
    cases hu : g.unlock (key.take 32) (body.take 12) (body.drop 12) [] with
    | none => exact ⟨_, _, _, rfl, by simp⟩
    | some x =>
      refine ⟨_, _, _, rfl, ?_⟩
      intro y hy
      injection hy with hy
      subst hy
      exact ⟨body.take 12, body.drop 12, by simp; omega, by simp, hu⟩

/-- Two contacts: one without a profile key, one with. -/
def demoBook : Book := [(txt "A", ⟨txt "A", txt "1", txt "Ann", [], true, [], [], [], none, []⟩),
  (txt "B", ⟨txt "B", txt "2", txt "Bob", [7], true, [], [], [], none, []⟩)]

/-- A server answering with the wrong UUID. -/
example : ∃ p m' f, getProfileUUID Gcm.toy ⟨fun _ => none, fun _ _ => none, fun _ _ _ => none⟩
      (fun _ => .ok ⟨200, some { uuid := some (txt "B"), name := some (txt "x") }⟩) (fun _ => .err .http) (fun _ => .err .http)
      demoBook (txt "A") = .ok (p, m', f) ∧
      ∃ o : Contact, Contacts.get m' (txt "B") = some o ∧ o.tel = txt "1" ∧ o.profileKey = [] ∧ o.username = txt "x" :=
  C84_other_contact_overwritten _ _ _ _ _ demoBook (txt "A") (txt "B") (txt "x")
    ⟨txt "A", txt "1", txt "Ann", [], true, [], [], [], none, []⟩ 200 (by decide) (by decide) rfl

/-! ## C89: a profile key update -/

/-- **C89.** A profile key update changes the key of the contact it is for — creating the contact if there
is none — and nothing else: no other field and no other contact. -/
theorem C89_only_the_key (m : Book) (src key : Bytes) :
    (∀ k, k ≠ src → Contacts.get (updateProfileKey m src key) k = Contacts.get m k) ∧
    (∃ c' : Contact, Contacts.get (updateProfileKey m src key) src = some c' ∧ c'.profileKey = key ∧
      (∀ c, Contacts.get m src = some c → c' = { c with profileKey := key }) ∧
      (Contacts.get m src = none → c'.uuid = src ∧ c'.tel = [])) := by
  cases hg : Contacts.get m src with
  | none =>
    simp only [updateProfileKey, hg]
    refine ⟨fun k hk => by rw [get_put]; simp [Ne.symm hk], _, by rw [get_put]; simp; rfl, rfl, by simp, fun _ => ⟨rfl, rfl⟩⟩
  | some c =>
    simp only [updateProfileKey, hg]
    refine ⟨fun k hk => by rw [get_put]; simp [Ne.symm hk], _, by rw [get_put]; simp; rfl, rfl, ?_, by simp⟩
    intro d hd
    injection hd with hd
    rw [hd]

/-- Ann's key is changed, a key for someone unknown makes a contact, and Bob stays. -/
example : (Contacts.get (updateProfileKey demoBook (txt "A") [9]) (txt "A")).map (fun c => (c.name, c.profileKey)) =
      some (txt "Ann", [9]) ∧
    (Contacts.get (updateProfileKey demoBook (txt "C") [9]) (txt "C")).map (fun c => (c.uuid, c.tel, c.profileKey)) =
      some (txt "C", [], [9]) ∧
    Contacts.get (updateProfileKey demoBook (txt "C") [9]) (txt "B") = Contacts.get demoBook (txt "B") := by
  decide +kernel

end Verif.Props.Profile
