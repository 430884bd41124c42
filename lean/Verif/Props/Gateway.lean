import Verif.Proof.Gateway
/-! # Properties of the command-line client and its gateway (C126 to C133) -/
namespace Verif.Gateway
open Verif Verif.Keys Verif.GatewaySpec

/-- A library that accepts everything. -/
def Demo.ext : Ext := ⟨fun _ _ => none, fun _ => true, fun b => if b = ascii "1" then some (fun _ => .other) else
  if b = ascii "s" then some (fun f => if f = ascii "message" then .str (ascii "hi") else .null) else none⟩
def Demo.empty : World := ⟨fun _ => none, []⟩

/-! ## C126 -/

/-- Whatever the request: either nothing is handed to the library and success is not reported (unless an identity was
to be removed), or exactly one message is, to the addressee of the request, with its text, as a group message exactly
if the addressee is a group key, and success is reported exactly if the library reported it. -/
theorem C126_at_most_once (X : Ext) (field : Bytes) (r : Request) (w : World) :
    ((handle X field r w).1.calls = w.calls ∧ ¬ Complete X field r ∧
        ((handle X field r w).2 = success → ∃ d p, r = .rekey d p)) ∨
      ∃ c, (handle X field r w).1.calls = w.calls ++ [c] ∧ Complete X field r ∧ Asked X field r c ∧
        ((handle X field r w).2 = success ↔ X.lib w.calls c = none) := by
  cases r with
  | form f =>
    by_cases hc : f.post = true ∧ f.message ≠ [] ∧ f.dest ≠ []
    · obtain ⟨hp, hm, hd⟩ := hc
      obtain ⟨att, files, e, _⟩ := formHandler_complete X f w hp hm hd
      refine .inr ⟨⟨_, f.dest, f.message, att⟩, ?_, ⟨hp, hm, hd⟩, ⟨groupRe_iff _, hp, hm, hd, rfl, rfl⟩, ?_⟩
      · exact congrArg (fun r => r.1.calls) e
      · rw [show handle X field (.form f) w = _ from e, answerFor_iff, Option.map_eq_none_iff]
    · refine .inl ⟨?_, hc, ?_⟩
      · unfold handle formHandler
        dsimp only
        split
        · rfl
        · rename_i hp
          rw [if_neg (fun h => hc ⟨by simpa using hp, h⟩)]
          unfold storeUpload
          split
          · rfl
          · split <;> rfl
      · intro h
        exfalso
        unfold handle formHandler at h
        dsimp only at h
        split at h
        · exact failure_ne h
        · rename_i hp
          rw [if_neg (fun h => hc ⟨by simpa using hp, h⟩)] at h
          exact success_ne _ h
  | json p b =>
    unfold handle jsonHandler
    dsimp only
    rcases b with _ | b
    · refine .inl ⟨rfl, ?_, fun h => absurd h failure_ne⟩
      rintro ⟨t, obj, s, h, _⟩
      cases h
    · dsimp only
      rcases hj : X.json b with _ | obj
      · refine .inl ⟨rfl, ?_, fun h => absurd h failure_ne⟩
        rintro ⟨t, obj, s, h, h', _⟩
        cases h
        rw [hj] at h'
        cases h'
      · dsimp only
        rcases hv : obj field with _ | s | _
        · refine .inl ⟨rfl, ?_, fun h => absurd h (success_ne _)⟩
          rintro ⟨t, obj', s, h, h', h''⟩
          cases h
          rw [hj] at h'
          cases h'
          rw [hv] at h''
          cases h''
        · dsimp only
          rw [gatewaySend_none]
          refine .inr ⟨⟨_, p, s, none⟩, rfl, ⟨b, obj, s, rfl, hj, hv⟩,
            ⟨groupRe_iff _, rfl, rfl, b, obj, rfl, hj, hv⟩, ?_⟩
          rw [answerFor_iff, Option.map_eq_none_iff]
        · refine .inl ⟨rfl, ?_, fun h => by simp [success] at h⟩
          rintro ⟨t, obj', s, h, h', h''⟩
          cases h
          rw [hj] at h'
          cases h'
          rw [hv] at h''
          cases h''
  | rekey d p =>
    refine .inl ⟨?_, id, fun _ => ⟨d, p, rfl⟩⟩
    unfold handle rekeyHandler
    dsimp only
    split
    · rfl
    · split
      · split <;> rfl
      · rfl

/-- The attachment that is sent. If nothing was stored under the name of the upload and the file can be created, it is
the upload. Missing from the property: that this is so always. -/
theorem C126_attachment_partial (X : Ext) (field : Bytes) (f : Form) (w : World) (c : Call)
    (h : (handle X field (.form f) w).1.calls = w.calls ++ [c])
    (hfresh : ∀ n b, f.file = some (n, b) → w.files (tmp n) = none ∧ X.writable (tmp n) = true) :
    c.file = f.file.map Prod.snd := by
  rcases C126_at_most_once X field (.form f) w with ⟨h', _⟩ | ⟨_, _, ⟨hp, hm, hd⟩, _⟩
  · rw [h'] at h
    exact absurd h (by simp)
  · obtain ⟨att, files, e, ha⟩ := formHandler_complete X f w hp hm hd
    have h2 : (handle X field (.form f) w).1.calls = _ := congrArg (fun r => r.1.calls) e
    rw [h2] at h
    have hcc : c = _ := (List.cons.inj (List.append_cancel_left h)).1.symm
    rw [hcc]
    rcases ha with ⟨h3, _, h4⟩ | ⟨n, b, h3, _, h4, _⟩
    · rcases hf : f.file with _ | ⟨n, b⟩
      · exact h3
      · have := hfresh n b hf
        rw [h4 n b hf] at this
        cases this.2
    · dsimp only
      rw [h4, h3, (hfresh n b h3).1]
      simp

example : (handle Demo.ext (ascii "message") (.form ⟨true, ascii "hi", ascii "+1", some (ascii "a", [1, 2])⟩) Demo.empty).1.calls =
    [⟨false, ascii "+1", ascii "hi", some [1, 2]⟩] := by decide +kernel

/-- Refuted: a longer file with the name of the upload is in /tmp; the end of the old file is sent behind the upload,
and success is reported. -/
theorem C126_old_contents (X : Ext) (field : Bytes) (f : Form) (w : World) (n b old : Bytes) (hp : f.post = true)
    (hm : f.message ≠ []) (hd : f.dest ≠ []) (hf : f.file = some (n, b)) (ho : w.files (tmp n) = some old)
    (hl : b.length < old.length) (hw : X.writable (tmp n) = true) (hlib : ∀ c, X.lib w.calls c = none) :
    ∃ c, (handle X field (.form f) w).1.calls = w.calls ++ [c] ∧ c.file = some (b ++ old.drop b.length) ∧
      c.file ≠ some b ∧ (handle X field (.form f) w).2 = success := by
  obtain ⟨att, files, e, ha⟩ := formHandler_complete X f w hp hm hd
  have e' : handle X field (.form f) w = _ := e
  rcases ha with ⟨_, _, h4⟩ | ⟨n', b', h3, _, h4, _⟩
  · rw [h4 n b hf] at hw
    cases hw
  · rw [hf] at h3
    simp only [Option.some.injEq, Prod.mk.injEq] at h3
    obtain ⟨rfl, rfl⟩ := h3
    rw [ho] at h4
    refine ⟨_, congrArg (fun r => r.1.calls) e', h4, ?_, ?_⟩
    · show att ≠ _
      rw [h4]
      intro h
      have := congrArg List.length (Option.some.inj h)
      simp only [List.length_append, List.length_drop, Option.getD_some] at this
      omega
    · rw [e', answerFor_iff, Option.map_eq_none_iff]
      exact hlib _

example : (handle Demo.ext (ascii "message") (.form ⟨true, ascii "hi", ascii "+1", some (ascii "a", [1])⟩)
    ⟨fun p => if p = tmp (ascii "a") then some [7, 8] else none, []⟩).1.calls =
    [⟨false, ascii "+1", ascii "hi", some [1, 8]⟩] := by decide +kernel

/-- Refuted: if the upload cannot be stored, the message goes out without it and success is reported. -/
theorem C126_upload_lost (X : Ext) (field : Bytes) (f : Form) (w : World) (n b : Bytes) (hp : f.post = true)
    (hm : f.message ≠ []) (hd : f.dest ≠ []) (hf : f.file = some (n, b)) (hw : X.writable (tmp n) = false)
    (hlib : ∀ c, X.lib w.calls c = none) :
    ∃ c, (handle X field (.form f) w).1.calls = w.calls ++ [c] ∧ c.file = none ∧
      (handle X field (.form f) w).2 = success := by
  obtain ⟨att, files, e, ha⟩ := formHandler_complete X f w hp hm hd
  have e' : handle X field (.form f) w = _ := e
  rcases ha with ⟨h3, _, _⟩ | ⟨n', b', h3, h4, _, _⟩
  · refine ⟨_, congrArg (fun r => r.1.calls) e', h3, ?_⟩
    rw [e', answerFor_iff, Option.map_eq_none_iff]
    exact hlib _
  · rw [hf] at h3
    simp only [Option.some.injEq, Prod.mk.injEq] at h3
    obtain ⟨rfl, rfl⟩ := h3
    rw [hw] at h4
    cases h4

example : (handle { Demo.ext with writable := fun p => p ≠ tmp (ascii ".") } (ascii "message")
    (.form ⟨true, ascii "hi", ascii "+1", some (ascii ".", [1])⟩) Demo.empty).1.calls =
    [⟨false, ascii "+1", ascii "hi", none⟩] := by decide +kernel

/-! ## C127 -/

/-- The only file that a request can change: the one with the name of the upload in /tmp, or the identity named by a
request to forget it, which must consist of digits. -/
theorem C127_only_own_files (X : Ext) (field : Bytes) (r : Request) (w : World) (p : Bytes)
    (h : (handle X field r w).1.files p ≠ w.files p) :
    (∃ f n b, r = .form f ∧ f.post = true ∧ f.file = some (n, b) ∧ p = ascii "/tmp/" ++ n) ∨
      (∃ id, r = .rekey true id ∧ (∀ c ∈ id, 48 ≤ c ∧ c ≤ 57) ∧ p = ascii ".storage/identity/remote_" ++ id ∧
        (handle X field r w).1.files p = none) := by
  cases r with
  | form f =>
    left
    by_cases hp : f.post = true
    · by_cases hc : f.message ≠ [] ∧ f.dest ≠ []
      · obtain ⟨att, files, e, ha⟩ := formHandler_complete X f w hp hc.1 hc.2
        rw [show handle X field (.form f) w = _ from e] at h
        rcases ha with ⟨_, h2, _⟩ | ⟨n, b, h1, _, _, h2⟩
        · exact absurd (by rw [h2]) h
        · refine ⟨f, n, b, rfl, hp, h1, ?_⟩
          by_contra hne
          exact h ((h2 p).trans (if_neg hne))
      · unfold handle formHandler at h
        dsimp only at h
        rw [if_neg (by simp [hp]), if_neg hc] at h
        unfold storeUpload at h
        rcases hf : f.file with _ | ⟨n, b⟩
        · rw [hf] at h
          exact absurd rfl h
        · rw [hf] at h
          dsimp only at h
          by_cases hw : X.writable (tmp n) = true
          · rw [if_pos hw] at h
            refine ⟨f, n, b, rfl, hp, hf, ?_⟩
            by_contra hne
            exact h (if_neg hne)
          · rw [if_neg hw] at h
            exact absurd rfl h
    · unfold handle formHandler at h
      dsimp only at h
      rw [if_pos (by simpa using hp)] at h
      exact absurd rfl h
  | json path b =>
    exfalso
    apply h
    unfold handle jsonHandler
    dsimp only
    rcases b with _ | b
    · rfl
    · dsimp only
      rcases X.json b with _ | obj
      · rfl
      · dsimp only
        rcases obj field with _ | s | _
        · rfl
        · dsimp only
          rw [gatewaySend_none]
        · rfl
  | rekey d id =>
    right
    unfold handle rekeyHandler at h ⊢
    dsimp only at h ⊢
    cases d with
    | false => exact absurd rfl h
    | true =>
      rw [if_neg (by simp)] at h ⊢
      by_cases hm : identityRe.matches' id = true
      · rw [if_pos hm] at h ⊢
        refine ⟨id, rfl, ?_, ?_⟩
        · intro c hc
          have := (identityRe_iff id).1 hm c hc
          simpa [digit] using this
        · rcases hf : w.files (identityFile id) with _ | old
          · rw [hf] at h
            exact absurd rfl h
          · rw [hf] at h
            dsimp only at h ⊢
            have hp : p = identityFile id := by
              by_contra hne
              exact h (if_neg hne)
            exact ⟨hp, if_pos hp⟩
      · rw [if_neg hm] at h
        exact absurd rfl h

example : (handle Demo.ext (ascii "message") (.rekey true (ascii "12")) ⟨fun _ => some [1], []⟩).1.files
    (ascii ".storage/identity/remote_12") = none := by decide +kernel

/-- A complete request leaves no file behind. Missing from the property: that the same holds of other requests, and
that a file that was there before stays. -/
theorem C127_cleaned_partial (X : Ext) (field : Bytes) (f : Form) (w : World) (hc : Complete X field (.form f))
    (hfresh : ∀ n b, f.file = some (n, b) → w.files (tmp n) = none) :
    (handle X field (.form f) w).1.files = w.files := by
  obtain ⟨hp, hm, hd⟩ := hc
  obtain ⟨att, files, e, ha⟩ := formHandler_complete X f w hp hm hd
  rw [show handle X field (.form f) w = _ from e]
  rcases ha with ⟨_, h2, _⟩ | ⟨n, b, h1, _, _, h2⟩
  · exact h2
  · funext q
    show files q = _
    rw [h2 q]
    by_cases hq : q = tmp n
    · rw [if_pos hq, hq, hfresh n b h1]
    · rw [if_neg hq]

/-- Refuted: an upload without a text or without an addressee stays in /tmp although the request fails. -/
theorem C127_left_behind (X : Ext) (field : Bytes) (f : Form) (w : World) (n b : Bytes) (hp : f.post = true)
    (hc : f.message = [] ∨ f.dest = []) (hf : f.file = some (n, b)) (hw : X.writable (tmp n) = true)
    (hfresh : w.files (tmp n) = none) :
    (handle X field (.form f) w).1.files (tmp n) = some b ∧
      (handle X field (.form f) w).2 = failureWith (ascii "form fields message and to are required") := by
  unfold handle formHandler
  dsimp only
  rw [if_neg (by simp [hp]), if_neg (fun h => hc.elim h.1 h.2), hf]
  simp [storeUpload, hw, setFile, hfresh]

/-- Refuted: a file of anybody else in /tmp with the name of the upload is gone after the request. -/
theorem C127_others_file_lost (X : Ext) (field : Bytes) (f : Form) (w : World) (n b old : Bytes)
    (hc : Complete X field (.form f)) (hf : f.file = some (n, b)) (hw : X.writable (tmp n) = true)
    (ho : w.files (tmp n) = some old) :
    (handle X field (.form f) w).1.files (tmp n) = none ∧ w.files (tmp n) ≠ none := by
  obtain ⟨hp, hm, hd⟩ := hc
  obtain ⟨att, files, e, ha⟩ := formHandler_complete X f w hp hm hd
  rw [show handle X field (.form f) w = _ from e]
  refine ⟨?_, by simp [ho]⟩
  rcases ha with ⟨_, _, h2⟩ | ⟨n', b', h1, _, _, h2⟩
  · rw [h2 n b hf] at hw
    cases hw
  · rw [hf] at h1
    simp only [Option.some.injEq, Prod.mk.injEq] at h1
    obtain ⟨rfl, rfl⟩ := h1
    exact (h2 _).trans (if_pos rfl)

example : (handle Demo.ext (ascii "message") (.form ⟨true, [], ascii "+1", some (ascii "a", [1])⟩) Demo.empty).1.files
    (ascii "/tmp/a") = some [1] := by decide +kernel
example : (handle Demo.ext (ascii "message") (.form ⟨true, ascii "hi", ascii "+1", some (ascii "a", [1])⟩)
    ⟨fun _ => some [9], []⟩).1.files (ascii "/tmp/a") = none := by decide +kernel

/-! ## C128 -/

/-- The kind of message handed to the library: a group message exactly if the addressee is a master key in hexadecimal
digits; a telephone number or a UUID is always a person. Missing from the property: groups of the old kind. -/
theorem C128_kind_partial (X : Ext) (field : Bytes) (r : Request) (w : World) (c : Call)
    (h : (handle X field r w).1.calls = w.calls ++ [c]) :
    (c.group = true ↔ IsGroupKey c.dest) ∧ (43 ∈ c.dest → c.group = false) ∧ (45 ∈ c.dest → c.group = false) := by
  have h1 : c.group = true ↔ IsGroupKey c.dest := by
    rcases C126_at_most_once X field r w with ⟨h', _⟩ | ⟨c', h', _, ⟨ha, _⟩, _⟩
    · rw [h'] at h
      exact absurd h (by simp)
    · rw [h'] at h
      rw [← (List.cons.inj (List.append_cancel_left h)).1]
      exact ha
  have h2 : ∀ x, lowerHex x = false → x ∈ c.dest → c.group = false := by
    intro x hx hm
    by_contra hg
    obtain ⟨key, _, e⟩ := h1.1 (by simpa using hg)
    rw [e] at hm
    have := hexEncode_lower key x hm
    rw [hx] at this
    cases this
  exact ⟨h1, h2 43 (by decide +kernel), h2 45 (by decide +kernel)⟩

/-- Every group of the new kind can be addressed. -/
theorem C128_new_groups (X : Ext) (field : Bytes) (key text : Bytes) (w : World) (hk : key.length = 32) (ht : text ≠ []) :
    (handle X field (.form { message := text, dest := Encoding.hexEncode key }) w).1.calls =
      w.calls ++ [⟨true, Encoding.hexEncode key, text, none⟩] := by
  have hd : Encoding.hexEncode key ≠ [] := by
    intro e
    have := congrArg List.length e
    rw [Encoding.hexEncode_length, hk] at this
    cases this
  obtain ⟨att, files, e, ha⟩ := formHandler_complete X { message := text, dest := Encoding.hexEncode key } w rfl ht hd
  rw [show handle X field (.form { message := text, dest := Encoding.hexEncode key }) w = _ from e]
  rcases ha with ⟨h1, _⟩ | ⟨n, b, h1, _⟩
  · dsimp only
    rw [h1, (groupRe_iff _).2 ⟨key, hk, rfl⟩]
  · cases h1

/-- Refuted: no group of the old kind, whose identifier has 16 bytes, can be addressed: the message is handed over as
one to a person with that name. -/
theorem C128_old_groups (X : Ext) (field : Bytes) (id text : Bytes) (w : World) (hk : id.length = 16) (ht : text ≠ []) :
    (handle X field (.form { message := text, dest := Encoding.hexEncode id }) w).1.calls =
      w.calls ++ [⟨false, Encoding.hexEncode id, text, none⟩] := by
  have hd : Encoding.hexEncode id ≠ [] := by
    intro e
    have := congrArg List.length e
    rw [Encoding.hexEncode_length, hk] at this
    cases this
  obtain ⟨att, files, e, ha⟩ := formHandler_complete X { message := text, dest := Encoding.hexEncode id } w rfl ht hd
  rw [show handle X field (.form { message := text, dest := Encoding.hexEncode id }) w = _ from e]
  have hg : groupRe.matches' (Encoding.hexEncode id) = false := by
    by_contra hg
    obtain ⟨key, h1, h2⟩ := (groupRe_iff _).1 (by simpa using hg)
    have := congrArg List.length h2
    rw [Encoding.hexEncode_length, Encoding.hexEncode_length, hk, h1] at this
    cases this
  rcases ha with ⟨h1, _⟩ | ⟨n, b, h1, _⟩
  · dsimp only
    rw [h1, hg]
  · cases h1

example : (handle Demo.ext [] (.form { message := ascii "hi", dest := Encoding.hexEncode (List.replicate 32 7) }) Demo.empty).1.calls =
    [⟨true, Encoding.hexEncode (List.replicate 32 7), ascii "hi", none⟩] :=
  C128_new_groups _ _ _ _ _ rfl (by decide +kernel)

/-! ## C129 -/

/-- A request to forget the identity of a peer whose identifier consists of digits removes exactly that file and
reports success exactly if there was one. Missing from the property: other identifiers. -/
theorem C129_forgotten_partial (X : Ext) (field id : Bytes) (w : World) (hd : ∀ c ∈ id, 48 ≤ c ∧ c ≤ 57) :
    (handle X field (.rekey true id) w).1.files =
        (fun p => if p = ascii ".storage/identity/remote_" ++ id then none else w.files p) ∧
      ((handle X field (.rekey true id) w).2 = success ↔ w.files (ascii ".storage/identity/remote_" ++ id) ≠ none) ∧
      (handle X field (.rekey true id) w).1.calls = w.calls := by
  have hm : identityRe.matches' id = true := by
    rw [identityRe_iff]
    intro c hc
    simpa [digit] using hd c hc
  unfold handle rekeyHandler
  dsimp only
  rw [if_neg (by simp), if_pos hm]
  rcases hf : w.files (identityFile id) with _ | old
  · have hf' : w.files (ascii ".storage/identity/remote_" ++ id) = none := hf
    refine ⟨?_, ?_, rfl⟩
    · funext p
      by_cases hp : p = ascii ".storage/identity/remote_" ++ id
      · rw [if_pos hp, hp]
        exact hf
      · rw [if_neg hp]
    · simp [hf', success_ne]
  · have hf' : w.files (ascii ".storage/identity/remote_" ++ id) = some old := hf
    exact ⟨rfl, by simp [hf'], rfl⟩

example : ∀ c ∈ ascii "491701234567", 48 ≤ c ∧ c ≤ 57 := by decide +kernel

/-- Refuted: an identity under a name with anything but digits, as every UUID is, can never be removed: the request
fails and nothing changes. -/
theorem C129_uuid_kept (X : Ext) (field id : Bytes) (w : World) (d : Bool) (c : UInt8) (hc : c ∈ id)
    (hn : ¬ (48 ≤ c ∧ c ≤ 57)) : handle X field (.rekey d id) w = (w, failure) := by
  have hm : identityRe.matches' id = false := by
    by_contra hm
    rw [Bool.not_eq_false, identityRe_iff] at hm
    have := hm c hc
    simp [digit] at this
    exact hn this
  unfold handle rekeyHandler
  dsimp only
  cases d <;> simp [hm]

example : handle Demo.ext [] (.rekey true (ascii "5ab02b2b-15cb-4b12-9f7f-5b1f2cbe2d10")) ⟨fun _ => some [1], []⟩ =
    (⟨fun _ => some [1], []⟩, failure) :=
  C129_uuid_kept _ _ _ _ _ 45 (by decide +kernel) (by decide)

/-- What a client learns of a peer whose identity changed. The error of the library is `remote identity ID is not
trusted` (axolotl/session.go:350-352), where the ID is the addressee, or the digits behind a leading `+`. The answer
names the addressee as the client gave it. -/
theorem C129_untrusted_reported (dest id : Bytes) (hc : ∀ c ∈ id, lowerHex c = true ∨ c = 45) (hne : id ≠ [])
    (hid : dest = id ∨ (dest = 43 :: id ∧ ∀ c ∈ id, 48 ≤ c ∧ c ≤ 57)) :
    report dest (ascii "remote identity " ++ (id ++ ascii " is not trusted")) =
      ascii "remote identity " ++ dest ++ ascii " is not trusted" := by
  have hlim : limitRe.matches' (ascii "remote identity " ++ (id ++ ascii " is not trusted")) = false := by
    by_contra hm
    rw [Bool.not_eq_false, limitRe_iff] at hm
    obtain ⟨x, z, e⟩ := hm
    have h1 := hasCo_mid (x ++ ascii "status ") (ascii "de 413" ++ z) false
    rw [show x ++ ascii "status " ++ (99 :: 111 :: (ascii "de 413" ++ z)) = x ++ ascii "status code 413" ++ z by
      rw [show ascii "status code 413" = ascii "status " ++ 99 :: 111 :: ascii "de 413" by decide +kernel]
      simp, ← e] at h1
    rw [show hasCo false (ascii "remote identity " ++ (id ++ ascii " is not trusted")) =
        hasCo false (id ++ ascii " is not trusted") by
      rw [show ascii "remote identity " = [114, 101, 109, 111, 116, 101, 32, 105, 100, 101, 110, 116, 105, 116, 121, 32] by
        decide +kernel]
      rfl] at h1
    rw [hasCo_skip id (ascii " is not trusted") (by
        intro c hm
        rcases hc c hm with h | rfl
        · rintro rfl
          exact absurd h (by decide +kernel)
        · decide) (by decide +kernel) (by decide +kernel)] at h1
    cases h1
  unfold report
  rw [hlim]
  simp only [Bool.false_eq_true, if_false]
  rcases hid with rfl | ⟨rfl, hd⟩
  · split
    · rfl
    · have := trimNl_of 114 100 (ascii "emote identity " ++ (dest ++ ascii " is not truste")) (by decide) (by decide)
      have e : ascii "remote identity " ++ (dest ++ ascii " is not trusted") =
          114 :: (ascii "emote identity " ++ (dest ++ ascii " is not truste") ++ [100]) := by
        rw [show ascii "remote identity " = 114 :: ascii "emote identity " by decide +kernel,
          show ascii " is not trusted" = ascii " is not truste" ++ [100] by decide +kernel]
        simp
      rw [e, this, ← e]
      simp
  · rw [if_pos]
    rw [untrustedRe_iff]
    exact ⟨[], id, [], hne, fun c hm => by simpa [digit] using hd c hm, by simp⟩

example : report (ascii "+4917") (ascii "remote identity 4917 is not trusted") = ascii "remote identity +4917 is not trusted" := by
  decide +kernel
example : report (ascii "5ab0-15") (ascii "remote identity 5ab0-15 is not trusted") =
    ascii "remote identity 5ab0-15 is not trusted" := by
  decide +kernel

/-! ## C130 -/

/-- Exactly when a request gets no answer: the field of the message is there and is no text. Missing from the property:
that every request gets one. -/
theorem C130_no_answer_iff_partial (X : Ext) (field : Bytes) (r : Request) (w : World) :
    (handle X field r w).2 = .crash ↔
      ∃ p t obj, r = .json p (some t) ∧ X.json t = some obj ∧ obj field = .other := by
  cases r with
  | form f =>
    constructor
    · intro h
      exfalso
      unfold handle formHandler at h
      dsimp only at h
      split at h
      · simp [failure] at h
      · split at h
        · cases hg : (gatewaySend X f.dest f.message (storeUpload X f.file w).2 (storeUpload X f.file w).1).2 <;>
            simp [hg, answerFor, success, failureWith] at h
        · simp [failureWith] at h
    · rintro ⟨_, _, _, h, _⟩
      cases h
  | json p b =>
    unfold handle jsonHandler
    dsimp only
    rcases b with _ | b
    · simp [failure]
    · dsimp only
      rcases hj : X.json b with _ | obj
      · constructor
        · intro h; simp [failure] at h
        · rintro ⟨_, _, _, h, h', _⟩
          cases h
          rw [hj] at h'
          cases h'
      · dsimp only
        rcases hv : obj field with _ | s | _
        · constructor
          · intro h; simp [failureWith] at h
          · rintro ⟨_, _, _, h, h', h''⟩
            cases h
            rw [hj] at h'
            cases h'
            rw [hv] at h''
            cases h''
        · dsimp only
          constructor
          · intro h
            cases hg : (gatewaySend X p s [] w).2 <;> simp [hg, answerFor, success, failureWith] at h
          · rintro ⟨_, _, _, h, h', h''⟩
            cases h
            rw [hj] at h'
            cases h'
            rw [hv] at h''
            cases h''
        · exact ⟨fun _ => ⟨p, b, obj, rfl, hj, hv⟩, fun _ => rfl⟩
  | rekey d p =>
    constructor
    · intro h
      exfalso
      unfold handle rekeyHandler at h
      dsimp only at h
      split at h
      · simp [failure] at h
      · split at h
        · split at h
          · simp [failureWith] at h
          · simp [success] at h
        · simp [failure] at h
    · rintro ⟨_, _, _, h, _⟩
      cases h

/-- Refuted: a request whose message is a number. -/
theorem C130_crashes : (handle Demo.ext (ascii "message") (.json (ascii "+1") (some (ascii "1"))) Demo.empty).2 = .crash := by
  decide +kernel

theorem success_json : IsJson (ascii "{\"success\": true}") := by decide +kernel

theorem failureWith_json (e : Bytes) (h : Plain e) :
    IsJson (ascii "{\"success\": false, \"error\": \"" ++ e ++ ascii "\"}") := by
  unfold IsJson
  rw [List.foldl_append, List.foldl_append,
    show (ascii "{\"success\": false, \"error\": \"").foldl J.step .start = .inStr by decide +kernel, foldl_plain e h]
  decide +kernel

theorem trimNl_sub (e : Bytes) : ∀ c ∈ trimNl e, c ∈ e := by
  intro c hc
  unfold trimNl at hc
  rw [List.mem_reverse] at hc
  have h1 := (List.dropWhile_suffix (fun x : UInt8 => x == 10)).subset hc
  rw [List.mem_reverse] at h1
  exact (List.dropWhile_suffix (fun x : UInt8 => x == 10)).subset h1

theorem report_plain (dest e : Bytes) (hd : Plain dest) (he : Plain e) : Plain (report dest e) := by
  unfold report
  split
  · exact (by decide +kernel : ∀ c ∈ ascii "signal api rate limit reached", 32 ≤ c ∧ c ≠ 34 ∧ c ≠ 92)
  · split
    · intro c hc
      simp only [List.mem_append] at hc
      rcases hc with (hc | hc) | hc
      · exact (by decide +kernel : ∀ c ∈ ascii "remote identity ", 32 ≤ c ∧ c ≠ 34 ∧ c ≠ 92) c hc
      · exact hd c hc
      · exact (by decide +kernel : ∀ c ∈ ascii " is not trusted", 32 ≤ c ∧ c ≠ 34 ∧ c ≠ 92) c hc
    · exact fun c hc => he c (trimNl_sub e c hc)

/-- The addressee that a request names. -/
def destOf : Request → Bytes
  | .form f => f.dest
  | .json p _ => p
  | .rekey _ _ => []

/-- Every answer is a JSON object, provided the texts of errors of the library, the addressee and the name of the field
contain no quotes, backslashes or control characters. Missing from the property: that this is so whatever they
contain. -/
theorem C130_json_partial (X : Ext) (field : Bytes) (r : Request) (w : World) (status : Nat) (body : Bytes)
    (h : (handle X field r w).2 = .answer status body) (hlib : ∀ cs c e, X.lib cs c = some e → Plain e)
    (hd : Plain (destOf r)) (hf : Plain field) : IsJson body := by
  have hfail : ∀ {b}, failure = .answer status b → IsJson b := by
    intro b e
    simp only [failure, Reply.answer.injEq] at e
    rw [← e.2]
    decide +kernel
  have hsucc : ∀ {b}, success = .answer status b → IsJson b := by
    intro b e
    simp only [success, Reply.answer.injEq] at e
    rw [← e.2]
    exact success_json
  have hwith : ∀ {t b}, Plain t → failureWith t = .answer status b → IsJson b := by
    intro t b ht e
    simp only [failureWith, Reply.answer.injEq] at e
    rw [← e.2]
    exact failureWith_json t ht
  have hans : ∀ {dest cs c b}, Plain dest → answerFor ((X.lib cs c).map (report dest)) = .answer status b → IsJson b := by
    intro dest cs c b hdest e
    rcases hl : X.lib cs c with _ | t
    · rw [hl] at e
      exact hsucc e
    · rw [hl] at e
      exact hwith (report_plain dest t hdest (hlib _ _ _ hl)) e
  cases r with
  | form f =>
    by_cases hc : f.post = true ∧ f.message ≠ [] ∧ f.dest ≠ []
    · obtain ⟨att, files, e, _⟩ := formHandler_complete X f w hc.1 hc.2.1 hc.2.2
      rw [show handle X field (.form f) w = _ from e] at h
      exact hans hd h
    · unfold handle formHandler at h
      dsimp only at h
      split at h
      · exact hfail h
      · rename_i hp
        rw [if_neg (fun h => hc ⟨by simpa using hp, h⟩)] at h
        exact hwith (by
          exact (by decide +kernel : ∀ c ∈ ascii "form fields message and to are required", 32 ≤ c ∧ c ≠ 34 ∧ c ≠ 92)) h
  | json p b =>
    unfold handle jsonHandler at h
    dsimp only at h
    rcases b with _ | b
    · exact hfail h
    · dsimp only at h
      rcases hj : X.json b with _ | obj
      · rw [hj] at h
        exact hfail h
      · rw [hj] at h
        dsimp only at h
        rcases hv : obj field with _ | s | _
        · rw [hv] at h
          refine hwith ?_ h
          intro c hc
          rw [List.mem_append] at hc
          rcases hc with hc | hc
          · exact (by decide +kernel : ∀ c ∈ ascii "json request contains empty item ", 32 ≤ c ∧ c ≠ 34 ∧ c ≠ 92) c hc
          · exact hf c hc
        · rw [hv] at h
          dsimp only at h
          rw [gatewaySend_none] at h
          exact hans hd h
        · rw [hv] at h
          cases h
  | rekey d p =>
    unfold handle rekeyHandler at h
    dsimp only at h
    split at h
    · exact hfail h
    · split at h
      · rename_i hm
        rw [identityRe_iff] at hm
        split at h
        · refine hwith ?_ h
          intro c hc
          simp only [List.mem_append] at hc
          rcases hc with (hc | hc) | hc
          · exact (by decide +kernel : ∀ c ∈ ascii "identity ", 32 ≤ c ∧ c ≠ 34 ∧ c ≠ 92) c hc
          · exact digit_plain c (hm c hc)
          · exact (by decide +kernel : ∀ c ∈ ascii " not found", 32 ≤ c ∧ c ≠ 34 ∧ c ≠ 92) c hc
        · exact hsucc h
      · exact hfail h

/-- The status of an answer and its field `success` agree: 200 and true, or 500 and false. -/
theorem C130_status (X : Ext) (field : Bytes) (r : Request) (w : World) (status : Nat) (body : Bytes)
    (h : (handle X field r w).2 = .answer status body) :
    (status = 200 ∧ body = ascii "{\"success\": true}") ∨
      (status = 500 ∧ ∃ rest, body = ascii "{\"success\": false" ++ rest) := by
  obtain ⟨G, hG⟩ : ∃ G : Prop, G = ((status = 200 ∧ body = ascii "{\"success\": true}") ∨
      (status = 500 ∧ ∃ rest, body = ascii "{\"success\": false" ++ rest)) := ⟨_, rfl⟩
  rw [← hG]
  have hfail : failure = .answer status body → G := fun e => by
    simp only [failure, Reply.answer.injEq] at e
    rw [hG]
    exact Or.inr ⟨e.1.symm, ascii "}", by rw [← e.2]; decide +kernel⟩
  have hsucc : success = .answer status body → G := fun e => by
    simp only [success, Reply.answer.injEq] at e
    rw [hG]
    exact Or.inl ⟨e.1.symm, e.2.symm⟩
  have hwith : ∀ t, failureWith t = .answer status body → G := fun t e => by
    simp only [failureWith, Reply.answer.injEq] at e
    rw [hG]
    refine Or.inr ⟨e.1.symm, ascii ", \"error\": \"" ++ t ++ ascii "\"}", ?_⟩
    rw [← e.2, show ascii "{\"success\": false, \"error\": \"" = ascii "{\"success\": false" ++ ascii ", \"error\": \"" by
      decide +kernel]
    simp
  have hans : ∀ t, answerFor t = .answer status body → G := fun t e => by
    cases t with
    | none => exact hsucc e
    | some t => exact hwith t e
  cases r with
  | form f =>
    unfold handle formHandler at h
    dsimp only at h
    split at h
    · exact hfail h
    · split at h
      · exact hans _ h
      · exact hwith _ h
  | json p b =>
    unfold handle jsonHandler at h
    dsimp only at h
    split at h
    · exact hfail h
    · split at h
      · exact hfail h
      · split at h
        · exact hwith _ h
        · cases h
        · exact hans _ h
  | rekey d p =>
    unfold handle rekeyHandler at h
    dsimp only at h
    split at h
    · exact hfail h
    · split at h
      · split at h
        · exact hwith _ h
        · exact hsucc h
      · exact hfail h

/-- Refuted: an error text with a quote. The answer of the gateway to a message that the service refuses with the text
`bad "to"` is not JSON. -/
theorem C130_not_json : ∃ status body, (handle { Demo.ext with lib := fun _ _ => some (ascii "bad \"to\"") } (ascii "message")
    (.form { message := ascii "hi", dest := ascii "+1" }) Demo.empty).2 = .answer status body ∧ ¬ IsJson body := by
  refine ⟨500, ascii "{\"success\": false, \"error\": \"bad \"to\"\"}", ?_, ?_⟩ <;> decide +kernel

example : IsJson (ascii "{\"success\": false, \"error\": \"unknown group ID\"}") := by decide +kernel

/-! ## C131 -/

/-- In echo mode every message is answered with exactly one message with its text, to the group if it came in a group
of the old kind, and else to the sender; nothing else is done. If the message came in no group of the new kind, it
goes back to where it came from. Missing from the property: groups of the new kind. -/
theorem C131_echo_partial (F : Flags) (peer : Bytes) (m : Msg) (he : F.echo = true) (h2 : m.groupV2 = none ∨ m.group ≠ none) :
    messageHandler F peer m = (peer, [.send ⟨(home m).1, (home m).2, m.text, none⟩]) := by
  unfold messageHandler home
  rw [if_pos he]
  rcases hg : m.group with _ | g
  · rcases h2 with h2 | h2
    · rw [h2]
      rfl
    · exact absurd hg h2
  · rfl

example : messageHandler { echo := true } [] ⟨ascii "u", some (ascii "ab"), none, ascii "hi"⟩ =
    ([], [.send ⟨true, ascii "ab", ascii "hi", none⟩]) := by decide +kernel

/-- Refuted: what somebody writes in a group of the new kind is sent back to them alone, outside the group. -/
theorem C131_echo_private (F : Flags) (peer : Bytes) (m : Msg) (g : Bytes) (he : F.echo = true) (h1 : m.group = none)
    (h2 : m.groupV2 = some g) :
    messageHandler F peer m = (peer, [.send ⟨false, m.source, m.text, none⟩]) ∧ home m = (true, g) := by
  unfold messageHandler home
  rw [if_pos he, h1, h2]
  exact ⟨rfl, rfl⟩

example : (messageHandler { echo := true } [] ⟨ascii "u", none, some (ascii "ab"), ascii "hi"⟩).2 =
    [.send ⟨false, ascii "u", ascii "hi", none⟩] := by decide +kernel

/-- Without echo, nothing is ever sent because a message arrived. -/
theorem C131_silent (F : Flags) (he : F.echo = false) (ms : List Msg) (peer : Bytes) :
    ∀ as ∈ (arrive F peer ms).2, ∀ c, .send c ∉ as := by
  induction ms generalizing peer with
  | nil => simp [arrive]
  | cons m ms ih =>
    intro as has c
    simp only [arrive, List.mem_cons] at has
    rcases has with rfl | has
    · unfold messageHandler
      rw [if_neg (by simp [he])]
      dsimp only
      simp only [List.mem_append, not_or]
      refine ⟨⟨?_, ?_⟩, ?_⟩
      · split
        · cases F.hook <;> cases F.raw <;> simp
        · simp
      · split
        · cases F.redis <;> simp
        · simp
      · cases F.redis <;> simp
    · exact ih _ as has c

/-- Once somebody is the peer of the conversation, no message that arrives changes it, and no further conversation is
started: lines that are typed keep going to the same peer. -/
theorem C131_peer_fixed (F : Flags) (ms : List Msg) (peer : Bytes) (hp : peer ≠ []) :
    (arrive F peer ms).1 = peer ∧ ∀ as ∈ (arrive F peer ms).2, ∀ g, .converse g ∉ as := by
  induction ms with
  | nil => simp [arrive]
  | cons m ms ih =>
    have h1 : (messageHandler F peer m).1 = peer := by
      unfold messageHandler
      split
      · rfl
      · simp [hp]
    simp only [arrive]
    rw [h1]
    refine ⟨ih.1, ?_⟩
    intro as has g
    rcases List.mem_cons.1 has with rfl | has
    · unfold messageHandler
      split
      · simp
      · simp only [hp, if_false]
        simp only [List.mem_append, not_or]
        refine ⟨⟨?_, by simp⟩, ?_⟩
        · split
          · cases F.hook <;> cases F.raw <;> simp
          · simp
        · cases F.redis <;> simp
    · exact ih.2 as has g

/-- The first message that arrives when no peer was given makes its sender, or the group, the peer, for good. -/
theorem C131_first_is_peer (F : Flags) (m : Msg) (ms : List Msg) (he : F.echo = false) (hr : F.redis = false)
    (h2 : m.groupV2 = none) (hs : (home m).2 ≠ []) :
    (arrive F [] (m :: ms)).1 = (home m).2 ∧
      (∃ as rest, (arrive F [] (m :: ms)).2 = as :: rest ∧ .converse (home m).1 ∈ as ∧
        ∀ bs ∈ rest, ∀ g, .converse g ∉ bs) := by
  have hh : home m = (m.group.isSome, m.group.getD m.source) := by
    unfold home
    rw [h2]
    cases m.group <;> rfl
  have h1 : (messageHandler F [] m).1 = (home m).2 := by
    unfold messageHandler
    simp [he, hh]
  have h3 : Act.converse (home m).1 ∈ (messageHandler F [] m).2 := by
    unfold messageHandler
    simp [he, hr, hh]
  have := C131_peer_fixed F ms (home m).2 hs
  simp only [arrive]
  rw [h1]
  exact ⟨this.1, _, _, rfl, h3, this.2⟩

example : (arrive {} [] [⟨ascii "u", none, none, ascii "hi"⟩, ⟨ascii "v", none, none, ascii "ho"⟩]).1 = ascii "u" := by
  decide +kernel

/-! ## C132 -/

/-- How often a text that arrives is shown: once with `-raw`; the hook, if there is one, runs once. Missing from the
property: that it is shown once without `-raw`. -/
theorem C132_shown_partial (F : Flags) (peer : Bytes) (m : Msg) (he : F.echo = false) (ht : m.text ≠ []) :
    ((messageHandler F peer m).2.count (.print m) = if F.raw then 1 else 2) ∧
      ((messageHandler F peer m).2.count (.runHook m) = if F.hook then 1 else 0) := by
  unfold messageHandler
  rw [if_neg (by simp [he])]
  dsimp only
  rw [if_pos ht]
  by_cases hp : peer = [] <;> cases F.raw <;> cases F.hook <;> cases F.redis <;> simp [hp, List.count_cons]

/-- Refuted: in the default mode each text is shown twice. -/
theorem C132_twice : (messageHandler {} [] ⟨ascii "u", none, none, ascii "hi"⟩).2.count
    (.print ⟨ascii "u", none, none, ascii "hi"⟩) = 2 := by decide +kernel

/-- What is published for a message. It is the text, under the peer of the conversation. If that is unset or is where
the message came from, it is published under where it came from. Missing from the property: all other messages. -/
theorem C132_published_partial (F : Flags) (peer : Bytes) (m : Msg) (he : F.echo = false) (hr : F.redis = true)
    (h2 : m.groupV2 = none) (hp : peer = [] ∨ peer = (home m).2) :
    (messageHandler F peer m).2.filter (fun a => match a with | .publish .. => true | _ => false) =
      [.publish (home m).2 m.text] := by
  have hh : home m = (m.group.isSome, m.group.getD m.source) := by
    unfold home
    rw [h2]
    cases m.group <;> rfl
  have hpub : (if peer = [] then (m.group.getD m.source, if F.redis then [] else [Act.converse m.group.isSome])
      else (peer, [])).1 = (home m).2 := by
    rw [hh] at hp ⊢
    rcases hp with hp | hp
    · rw [if_pos hp]
    · split
      · rfl
      · exact hp
  unfold messageHandler
  rw [if_neg (by simp [he])]
  dsimp only
  rw [hpub, hr]
  simp only [List.filter_append, if_true]
  have e1 : ∀ b : Bool, List.filter (fun a => match a with | .publish .. => true | _ => false)
      (if m.text ≠ [] then Act.print m :: ((if F.hook = true then [Act.runHook m] else []) ++ if F.raw = true then [] else [Act.print m]) else []) = [] := by
    intro _
    split
    · cases F.hook <;> cases F.raw <;> simp
    · rfl
  rw [e1 true]
  split <;> simp

/-- Refuted: every message but those of the first peer is published under the first peer's name. -/
theorem C132_wrong_name (F : Flags) (peer : Bytes) (m : Msg) (he : F.echo = false) (hr : F.redis = true)
    (hp : peer ≠ []) (hh : peer ≠ (home m).2) : .publish peer m.text ∈ (messageHandler F peer m).2 ∧
      (m.text ≠ [] → .publish (home m).2 m.text ∉ (messageHandler F peer m).2) := by
  unfold messageHandler
  rw [if_neg (by simp [he])]
  dsimp only
  rw [if_neg hp, hr]
  constructor
  · simp
  · intro ht
    simp only [List.mem_append, not_or, if_true]
    refine ⟨⟨?_, by simp⟩, ?_⟩
    · rw [if_pos ht]
      cases F.hook <;> cases F.raw <;> simp
    · simp only [List.mem_singleton, Act.publish.injEq, and_true]
      exact fun h => hh h.symm

example : (arrive { redis := true, raw := true } [] [⟨ascii "u", none, none, ascii "hi"⟩, ⟨ascii "v", none, none, ascii "ho"⟩]).2 =
    [[.print ⟨ascii "u", none, none, ascii "hi"⟩, .publish (ascii "u") (ascii "hi")],
      [.print ⟨ascii "v", none, none, ascii "ho"⟩, .publish (ascii "u") (ascii "ho")]] := by decide +kernel

/-! ## C133 -/

/-- The same letter, but perhaps one of the two is a capital one. -/
def SameLetter (x y : UInt8) : Prop :=
  x = y ∨ (65 ≤ x.toNat ∧ x.toNat ≤ 90 ∧ y.toNat = x.toNat + 32) ∨ (65 ≤ y.toNat ∧ y.toNat ≤ 90 ∧ x.toNat = y.toNat + 32)

/-- The same name, whatever letters are capital. -/
def SameName (a b : Bytes) : Prop := List.Forall₂ SameLetter a b

theorem lower_same (x y : UInt8) : lower x = lower y ↔ SameLetter x y := by
  have hx := x.toNat_lt
  have hy := y.toNat_lt
  unfold lower SameLetter
  simp only [← UInt8.toNat_inj, Bool.and_eq_true, decide_eq_true_eq, UInt8.le_iff_toNat_le]
  have e1 : (65 : UInt8).toNat = 65 := rfl
  have e2 : (90 : UInt8).toNat = 90 := rfl
  have e3 : (32 : UInt8).toNat = 32 := rfl
  rw [e1, e2]
  split <;> split <;> (try simp only [UInt8.toNat_add, e3]) <;> omega

theorem lower_names (a b : Bytes) : a.map lower = b.map lower ↔ SameName a b := by
  unfold SameName
  induction a generalizing b with
  | nil =>
    cases b with
    | nil => exact ⟨fun _ => .nil, fun _ => rfl⟩
    | cons y b => exact ⟨fun h => by simp at h, fun h => by cases h⟩
  | cons x a ih =>
    cases b with
    | nil => exact ⟨fun h => by simp at h, fun h => by cases h⟩
    | cons y b =>
      simp only [List.map_cons, List.cons.injEq, lower_same, ih]
      exact ⟨fun h => .cons h.1 h.2, fun h => by cases h with | cons h1 h2 => exact ⟨h1, h2⟩⟩

/-- A text to be sent from the command line goes to the addressee given, or to the contact with that name, if the
addressee is not empty. Missing from the property: that nothing is sent if none is given. -/
theorem C133_message_partial (cs : List Contact) (a : Args) (c : Call) (h : run cs a = some (.send c)) :
    c.group = a.group ∧ c.text = a.message ∧ c.file = a.attachment ∧ c.dest ≠ [] ∧
      ((∃ k ∈ cs, SameName k.name a.peer ∧ c.dest = k.uuid) ∨
        (c.dest = a.peer ∧ ∀ k ∈ cs, ¬ SameName k.name a.peer)) := by
  simp only [← lower_names]
  have hres : (∃ k ∈ cs, k.name.map lower = a.peer.map lower ∧ resolve cs a.peer = k.uuid) ∨
      (resolve cs a.peer = a.peer ∧ ∀ k ∈ cs, k.name.map lower ≠ a.peer.map lower) := by
    unfold resolve
    rcases hf : cs.find? (fun c => equalFold c.name a.peer) with _ | k
    · right
      refine ⟨by rw [hf], ?_⟩
      intro k hk
      have := List.find?_eq_none.1 hf k hk
      simpa [equalFold] using this
    · left
      have h1 := List.find?_some hf
      exact ⟨k, List.mem_of_find?_eq_some hf, by simpa [equalFold] using h1, by rw [hf]⟩
  unfold run at h
  split at h
  · split at h <;> cases h
  · split at h
    · split at h <;> cases h
    · split at h
      · cases h
      · dsimp only at h
        split at h
        · cases h
        · rename_i hd
          split at h
          · cases h
          · split at h
            · rename_i content ha
              simp only [Option.some.injEq, Cmd.send.injEq] at h
              subst h
              exact ⟨rfl, rfl, ha.symm, hd, hres⟩
            · rename_i ha
              split at h
              · cases h
              · split at h
                · simp only [Option.some.injEq, Cmd.send.injEq] at h
                  subst h
                  exact ⟨rfl, rfl, ha.symm, hd, hres⟩
                · cases h

example : run [⟨ascii "Ann", ascii "u-1"⟩] { peer := ascii "ann", message := ascii "hi" } =
    some (.send ⟨false, ascii "u-1", ascii "hi", none⟩) := by decide +kernel

/-- Refuted: no addressee is given, and among the contacts is one without a name. The text is sent to them. -/
theorem C133_nameless (cs : List Contact) (k : Contact) (a : Args) (hn : k.name = []) (hu : k.uuid ≠ [])
    (hcs : cs.find? (fun c => equalFold c.name []) = some k) (hp : a.peer = []) (hm : a.message ≠ [])
    (h1 : a.newgroup = []) (h2 : a.updategroup = []) (h3 : a.leavegroup = []) (h4 : a.endsession = false)
    (h5 : a.attachment = none) (h6 : a.stress = 0) :
    run cs a = some (.send ⟨a.group, k.uuid, a.message, none⟩) ∧ k.name = a.peer := by
  refine ⟨?_, hn.trans hp.symm⟩
  unfold run
  rw [if_neg (by simp [h1]), if_neg (by simp [h2]), if_neg (by simp [h3])]
  dsimp only
  have : resolve cs a.peer = k.uuid := by
    unfold resolve
    rw [hp, hcs]
  rw [this, if_neg hu, h4, h5]
  simp [h6, hm]

example : run [⟨ascii "Ann", ascii "u-1"⟩, ⟨[], ascii "u-2"⟩] { message := ascii "hi" } =
    some (.send ⟨false, ascii "u-2", ascii "hi", none⟩) := by decide +kernel

/-- Texts joined by colons. -/
def join : List Bytes → Bytes
  | [] => []
  | [a] => a
  | a :: r => a ++ 58 :: join r

theorem split_join (p : Bytes) (ps : List Bytes) (h : ∀ q ∈ p :: ps, 58 ∉ q) : split (join (p :: ps)) = p :: ps := by
  induction ps generalizing p with
  | nil => exact split_plain p (h p (by simp))
  | cons q ps ih =>
    rw [show join (p :: q :: ps) = p ++ 58 :: join (q :: ps) from rfl, split_append p _ (h p (by simp)),
      ih q (fun x hx => h x (List.mem_cons_of_mem _ hx))]

/-- A group is made with the name and the members given, if none of them contains a colon. -/
theorem C133_new_group_partial (cs : List Contact) (a : Args) (name : Bytes) (members : List Bytes)
    (h : ∀ q ∈ name :: members, 58 ∉ q) (hg : a.newgroup = join (name :: members)) (hne : a.newgroup ≠ []) :
    run cs a = some (.newGroup name members) := by
  unfold run
  rw [if_pos hne, hg, split_join name members h]

/-- A group is changed as asked, under the same condition. -/
theorem C133_update_group_partial (cs : List Contact) (a : Args) (hexid name : Bytes) (members : List Bytes)
    (h : ∀ q ∈ hexid :: name :: members, 58 ∉ q) (hn : a.newgroup = [])
    (hg : a.updategroup = join (hexid :: name :: members)) :
    run cs a = some (.updateGroup hexid name members) := by
  unfold run
  have hne : a.updategroup ≠ [] := by
    rw [hg]
    intro e
    have := congrArg List.length e
    simp [join] at this
  rw [if_neg (by simp [hn]), if_pos hne, hg, split_join hexid _ h]

/-- Exactly when the program stops with an index out of range: a group is to be changed and the argument has no colon. -/
theorem C133_stops_iff (cs : List Contact) (a : Args) :
    run cs a = none ↔ a.newgroup = [] ∧ a.updategroup ≠ [] ∧ 58 ∉ a.updategroup := by
  have hs : ∀ s : Bytes, 58 ∉ s ↔ ∃ x, split s = [x] := by
    intro s
    constructor
    · exact fun h => ⟨s, split_plain s h⟩
    · rintro ⟨x, hx⟩ hm
      induction s generalizing x with
      | nil => cases hm
      | cons b s ih =>
        unfold split at hx
        by_cases hb : b = 58
        · rw [if_pos hb] at hx
          have := split_ne s
          simp only [List.cons.injEq] at hx
          exact this hx.2
        · rw [if_neg hb] at hx
          rcases hsp : split s with _ | ⟨p, ps⟩
          · exact split_ne s hsp
          · rw [hsp] at hx
            simp only [List.cons.injEq] at hx
            exact ih p (by rw [hsp, hx.2]) (by
              rcases List.mem_cons.1 hm with e | e
              · exact absurd e.symm hb
              · exact e)
  unfold run
  by_cases h1 : a.newgroup = []
  · rw [if_neg (by simp [h1])]
    by_cases h2 : a.updategroup = []
    · rw [if_neg (by simp [h2])]
      simp only [h1, h2, ne_eq, not_true_eq_false, false_and, and_false, iff_false]
      split
      · simp
      · split
        · simp
        · split
          · simp
          · split
            · simp
            · split
              · simp
              · split <;> simp
    · rw [if_pos h2]
      rw [hs]
      rcases hsp : split a.updategroup with _ | ⟨p, _ | ⟨q, ps⟩⟩
      · exact absurd hsp (split_ne _)
      · simp [h1, h2]
      · simp [h1, h2]
  · rw [if_pos h1]
    rcases hsp : split a.newgroup with _ | ⟨p, ps⟩
    · exact absurd hsp (split_ne _)
    · simp [h1]

/-- Refuted: the argument `-updategroup` with an identifier alone stops the program; a group whose name has a colon is
made with a shorter name and the rest of the name as a member. -/
theorem C133_update_stops : run [] { updategroup := ascii "ab" } = none := by decide +kernel
theorem C133_colon : run [] { newgroup := join [ascii "12:30 club", ascii "u-1"] } =
    some (.newGroup (ascii "12") [ascii "30 club", ascii "u-1"]) := by decide +kernel

example : run [] { newgroup := join [ascii "club", ascii "u-1", ascii "u-2"] } =
    some (.newGroup (ascii "club") [ascii "u-1", ascii "u-2"]) := by decide +kernel

end Verif.Gateway
