import Verif.Model.ByNumber
import Verif.Props.Profile
/-!
# Property C169: looking up a profile by number
-/
namespace Verif.Props
open Verif Verif.Contacts Verif.Profile Verif.ByNumber

/-- What the server and the place of the pictures have to answer for the number: a JSON object with the address of a
picture, 32 bytes of text for the identity key, and at least twelve bytes for the picture. -/
def Answered (get : Bytes → Res Reply) (cdn : Bytes → Res Bytes) (tel : Bytes) (j : Json) (body : Bytes) : Prop :=
  (∃ st, get tel = .ok ⟨st, some j⟩) ∧ (∃ u, j.avatar = some u ∧ u ≠ [] ∧ cdn u = .ok body) ∧ 12 ≤ body.length ∧
    ∃ k, j.identityKey = some k ∧ 32 ≤ k.length

/-- C169 refuted: never an error. Everything but a full answer, so already a profile without a picture, a number without
an account or no connection, ends the program. -/
theorem C169_answer_or_crash (g : Gcm) (get : Bytes → Res Reply) (cdn : Bytes → Res Bytes) (m : Book) (tel : Bytes) :
    (∀ e, getProfileE164 g get cdn m tel ≠ .err e) ∧
    (getProfileE164 g get cdn m tel ≠ .panic ↔ ∃ j body, Answered get cdn tel j body) := by
  unfold getProfileE164 readProfile
  rcases hr : get tel with ⟨st, _ | j⟩ | e | _
  · refine ⟨by simp [picture, getRemoteAvatar, bind, Res.bind], ?_⟩
    simp [picture, getRemoteAvatar, bind, Res.bind, Answered, hr]
  · simp only [bind, Res.bind, picture, getRemoteAvatar]
    have hav : (unmarshal j {}).avatar = j.avatar.getD [] := rfl
    have hid : (unmarshal j {}).identityKey = j.identityKey.getD [] := rfl
    rw [hav, hid]
    by_cases h0 : j.avatar.getD [] = []
    · rw [if_pos h0]
      refine ⟨by simp, ?_⟩
      simp only [ne_eq, not_true_eq_false, false_iff]
      rintro ⟨j', body, ⟨st', h1⟩, ⟨u, h2, h3, _⟩, _⟩
      rw [hr] at h1
      injection h1 with h1
      injection h1 with _ h1
      injection h1 with h1
      subst h1
      rw [h2] at h0
      exact h3 h0
    · rw [if_neg h0]
      obtain ⟨u, hu⟩ : ∃ u, j.avatar = some u := by
        cases hj : j.avatar with
        | none => rw [hj] at h0; exact absurd rfl h0
        | some u => exact ⟨u, rfl⟩
      have hu' : j.avatar.getD [] = u := by rw [hu]; rfl
      rw [hu'] at h0 ⊢
      have key : (∃ j' body, Answered get cdn tel j' body) ↔
          ∃ body, cdn u = .ok body ∧ 12 ≤ body.length ∧ 32 ≤ (j.identityKey.getD []).length := by
        constructor
        · rintro ⟨j', body, ⟨st', h1⟩, ⟨u', h2, _, h4⟩, h5, k, h6, h7⟩
          rw [hr] at h1
          injection h1 with h1
          injection h1 with _ h1
          injection h1 with h1
          subst h1
          rw [hu] at h2
          injection h2 with h2
          subst h2
          exact ⟨body, h4, h5, by rw [h6]; exact h7⟩
        · rintro ⟨body, h4, h5, h6⟩
          refine ⟨j, body, ⟨st, hr⟩, ⟨u, hu, h0, h4⟩, h5, ?_⟩
          cases hk : j.identityKey with
          | none => rw [hk] at h6; simp at h6
          | some k => rw [hk] at h6; exact ⟨k, rfl, h6⟩
      rw [key]
      rcases hc : cdn u with body | e | _
      · simp only
        unfold decryptAvatar
        by_cases hs : body.length < 12 ∨ (j.identityKey.getD []).length < 32
        · rw [if_pos hs]
          refine ⟨by simp, ?_⟩
          simp only [ne_eq, not_true_eq_false, false_iff]
          rintro ⟨body', h1, h2, h3⟩
          injection h1 with h1
          subst h1
          omega
        · rw [if_neg hs]
          have : ∃ body', Res.ok body = Res.ok body' ∧ 12 ≤ body'.length ∧ 32 ≤ (j.identityKey.getD []).length :=
            ⟨body, rfl, by omega, by omega⟩
          cases g.unlock ((j.identityKey.getD []).take 32) (body.take 12) (body.drop 12) [] with
          | some a => exact ⟨by simp, by simp only [this, iff_true]; simp⟩
          | none => exact ⟨by simp, by simp only [this, iff_true]; simp⟩
      · refine ⟨by simp, ?_⟩
        simp
      · refine ⟨by simp, ?_⟩
        simp
  · exact ⟨by simp [bind, Res.bind], by simp [bind, Res.bind, Answered, hr]⟩
  · exact ⟨by simp [bind, Res.bind], by simp [bind, Res.bind, Answered, hr]⟩

/-- C169, in part: when a contact is returned it is the one now kept under the profile's UUID; no other contact changes,
and the number, the profile key, the text and symbol of this one stay. Its picture is what the answer decrypts to with
the text of the identity key, and that picture is on disk. Missing: everything that ends in a crash
(`C169_answer_or_crash`), the name and the picture (`C169_name_and_picture_lost`). -/
theorem C169_contact_kept_partial (g : Gcm) (get : Bytes → Res Reply) (cdn : Bytes → Res Bytes) (m m' : Book)
    (tel : Bytes) (c : Contact) (f : Option (Bytes × Bytes))
    (h : getProfileE164 g get cdn m tel = .ok (c, m', f)) :
    ∃ j body, Answered get cdn tel j body ∧ c.uuid = j.uuid.getD [] ∧ c.name = j.name.getD [] ∧
      Contacts.get m' c.uuid = some c ∧ (∀ k, k ≠ c.uuid → Contacts.get m' k = Contacts.get m k) ∧
      (∀ c0, Contacts.get m c.uuid = some c0 → c.tel = c0.tel ∧ c.profileKey = c0.profileKey ∧
        c.registered = c0.registered ∧ c.username = c0.username ∧ c.about = c0.about ∧ c.aboutEmoji = c0.aboutEmoji ∧
        c.other = c0.other) ∧
      (∀ a, f = some a → a = (c.uuid, c.avatar.getD []) ∧
        g.unlock ((j.identityKey.getD []).take 32) (body.take 12) (body.drop 12) [] = c.avatar) := by
  obtain ⟨j, body, hans⟩ := (C169_answer_or_crash g get cdn m tel).2.mp (by rw [h]; simp)
  refine ⟨j, body, hans, ?_⟩
  obtain ⟨⟨st, h1⟩, ⟨u, h2, h3, h4⟩, h5, k, h6, h7⟩ := hans
  have hk : (unmarshal j {}).identityKey = k := by show j.identityKey.getD [] = k; rw [h6]; rfl
  have hu : (unmarshal j {}).avatar = u := by show j.avatar.getD [] = u; rw [h2]; rfl
  unfold getProfileE164 readProfile at h
  simp only [h1, bind, Res.bind, picture, getRemoteAvatar, hu, if_neg h3, h4, decryptAvatar, hk,
    if_neg (show ¬ (body.length < 12 ∨ k.length < 32) by omega)] at h
  have core : ∀ a : Bytes, (∀ x, a = x → x ≠ [] → g.unlock (k.take 32) (body.take 12) (body.drop 12) [] = some x) →
      (c, m', f) = ({ contactOf m (unmarshal j {}).uuid with
        name := (unmarshal j {}).name, uuid := (unmarshal j {}).uuid, avatar := some a },
        put m (unmarshal j {}).uuid { contactOf m (unmarshal j {}).uuid with
          name := (unmarshal j {}).name, uuid := (unmarshal j {}).uuid, avatar := some a },
        saveLocalAvatar (unmarshal j {}).uuid a) →
      c.uuid = j.uuid.getD [] ∧ c.name = j.name.getD [] ∧
      Contacts.get m' c.uuid = some c ∧ (∀ k, k ≠ c.uuid → Contacts.get m' k = Contacts.get m k) ∧
      (∀ c0, Contacts.get m c.uuid = some c0 → c.tel = c0.tel ∧ c.profileKey = c0.profileKey ∧
        c.registered = c0.registered ∧ c.username = c0.username ∧ c.about = c0.about ∧ c.aboutEmoji = c0.aboutEmoji ∧
        c.other = c0.other) ∧
      (∀ a, f = some a → a = (c.uuid, c.avatar.getD []) ∧
        g.unlock ((j.identityKey.getD []).take 32) (body.take 12) (body.drop 12) [] = c.avatar) := by
    intro a ha heq
    simp only [Prod.mk.injEq] at heq
    obtain ⟨rfl, rfl, rfl⟩ := heq
    refine ⟨rfl, rfl, by rw [get_put]; simp, ?_, ?_, ?_⟩
    · intro k' hk'
      rw [get_put]
      simp [Ne.symm hk']
    · intro c0 hc0
      have : contactOf m (unmarshal j {}).uuid = c0 := by
        unfold contactOf
        rw [show Contacts.get m (unmarshal j {}).uuid = some c0 from hc0]
        rfl
      rw [this]
      exact ⟨rfl, rfl, rfl, rfl, rfl, rfl, rfl⟩
    · intro x hx
      unfold saveLocalAvatar at hx
      split at hx
      · cases hx
      · rename_i hne
        injection hx with hx
        subst hx
        refine ⟨rfl, ?_⟩
        rw [h6]
        exact ha a rfl (fun h => hne (Or.inr h))
  cases hun : g.unlock (k.take 32) (body.take 12) (body.drop 12) [] with
  | some a =>
    rw [hun] at h
    simp only [Res.ok.injEq] at h
    exact core a (by intro x hx _; rw [hun, hx]) h.symm
  | none =>
    rw [hun] at h
    simp only [Res.ok.injEq] at h
    exact core [] (by intro x hx hne; exact absurd hx.symm hne) h.symm

/-- C169 refuted: whenever the picture does not decrypt with the text of the identity key, which is no key of anything,
the contact is returned and kept without the picture it had, and as one that has a picture; and the name the user gave
it is replaced by the text of the profile, which is the name encrypted. No error is returned. -/
theorem C169_name_and_picture_lost (g : Gcm) (get : Bytes → Res Reply) (cdn : Bytes → Res Bytes) (m : Book)
    (tel : Bytes) (j : Json) (body : Bytes) (c0 : Contact) (h : Answered get cdn tel j body)
    (hc : Contacts.get m (j.uuid.getD []) = some c0)
    (hu : ∀ k, j.identityKey = some k → g.unlock (k.take 32) (body.take 12) (body.drop 12) [] = none) :
    ∃ c m', getProfileE164 g get cdn m tel = .ok (c, m', none) ∧ Contacts.get m' (j.uuid.getD []) = some c ∧
      c.avatar = some [] ∧ c.name = j.name.getD [] ∧ c.tel = c0.tel := by
  obtain ⟨⟨st, h1⟩, ⟨u, h2, h3, h4⟩, h5, k, h6, h7⟩ := h
  have hk : (unmarshal j {}).identityKey = k := by show j.identityKey.getD [] = k; rw [h6]; rfl
  have hav : (unmarshal j {}).avatar = u := by show j.avatar.getD [] = u; rw [h2]; rfl
  have hid : (unmarshal j {}).uuid = j.uuid.getD [] := rfl
  have hco : contactOf m (j.uuid.getD []) = c0 := by simp [contactOf, hc]
  refine ⟨{ c0 with name := j.name.getD [], uuid := j.uuid.getD [], avatar := some [] },
    put m (j.uuid.getD []) { c0 with name := j.name.getD [], uuid := j.uuid.getD [], avatar := some [] }, ?_,
    by rw [get_put]; simp, rfl, rfl, rfl⟩
  unfold getProfileE164 readProfile
  simp only [h1, bind, Res.bind, picture, getRemoteAvatar, hav, if_neg h3, h4, decryptAvatar, hk,
    if_neg (show ¬ (body.length < 12 ∨ k.length < 32) by omega), hu k h6, hid, hco, saveLocalAvatar, or_true, if_true]
  rfl

namespace Demo.ByNumber

/-- Ann's profile: a name encrypted with their profile key and a picture. -/
def annJson : Json :=
  { identityKey := some (List.replicate 44 65), uuid := some (Props.Profile.txt "A"), name := some (Props.Profile.txt "c2VjcmV0"), avatar := some (Props.Profile.txt "p/1") }

def get (tel : Bytes) : Res Reply := if tel = Props.Profile.txt "1" then .ok ⟨200, some annJson⟩ else .ok ⟨404, none⟩

/-- The picture, encrypted with Ann's profile key. -/
def annPicture : Bytes := List.replicate 12 9 ++ Gcm.toy.lock (List.replicate 32 3) (List.replicate 12 9) [1, 2, 3] []

def cdn (u : Bytes) : Res Bytes := if u = Props.Profile.txt "p/1" then .ok annPicture else .err .other

/-- Ann is a contact, with a picture. -/
def book : Book := [(Props.Profile.txt "A", ⟨Props.Profile.txt "A", Props.Profile.txt "1", Props.Profile.txt "Ann", List.replicate 32 3, true, [], [], [], some [1, 2, 3], []⟩)]

end Demo.ByNumber

/-- Looking up Ann's number gives Ann without picture and with an unreadable name; a number without account ends the
program. -/
example : Answered Demo.ByNumber.get Demo.ByNumber.cdn (Props.Profile.txt "1") Demo.ByNumber.annJson Demo.ByNumber.annPicture ∧
    (∀ k, Demo.ByNumber.annJson.identityKey = some k →
      Gcm.toy.unlock (k.take 32) (Demo.ByNumber.annPicture.take 12) (Demo.ByNumber.annPicture.drop 12) [] = none) ∧
    getProfileE164 Gcm.toy Demo.ByNumber.get Demo.ByNumber.cdn Demo.ByNumber.book (Props.Profile.txt "2") = .panic := by
  refine ⟨⟨⟨200, by decide +kernel⟩, ⟨Props.Profile.txt "p/1", by decide +kernel, by decide +kernel, by decide +kernel⟩, by decide +kernel,
    List.replicate 44 65, rfl, by decide⟩, ?_, rfl⟩
  intro k hk
  rw [← show List.replicate 44 65 = k from Option.some.inj hk]
  decide +kernel

end Verif.Props
