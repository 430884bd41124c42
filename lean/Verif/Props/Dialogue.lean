import Verif.Proof.Dialogue
import Verif.Proof.PreKeys
/-!
# C155: the dialogue of a registration
-/
namespace Verif.Props
open Verif Verif.Dialogue Verif.Spec.Dialogue Verif.Proof.Dialogue

/-- A number of 32 bits written in decimal, with zeros in front or without, is read as that number. -/
theorem parseCode_dec (k m : Nat) (h : m < 2 ^ 32) : parseCode (String.ofList (Names.decPad k m)) = some m := by
  have hne : Names.decPad k m ≠ [] := by
    intro e
    have h0 : Names.dec m ≠ [] := Names.dec_ne m
    simp [Names.decPad, h0] at e
  have hd := Names.decPad_digits k m
  unfold parseCode
  simp only [String.toList_ofList, Names.undec_decPad]
  rw [if_neg (by simp only [hne, false_or, not_not]; exact hd), if_pos h]

theorem bytes_map (b : Bytes) : bytes (b.map fun x => .num (some x.toNat)) = some b := by
  induction b with
  | nil => rfl
  | cons x b ih =>
    have hx : ((x.toNat : Int)) < 256 := by have := x.toNat_lt; omega
    simp [bytes, ih, hx]

theorem verified_proper (b : Bytes) (s : Bool) (h : b.length = 16) : verified (proper b s) = some b := by
  have ht : (b.map fun x => Json.num (some x.toNat)).take 16 = b.map fun x => Json.num (some x.toNat) :=
    List.take_of_length_le (by simp [h])
  simp [verified, proper, intoFields, intoField, intoUuid, ht, bytes_map, h]

theorem first_kept : ∀ {l : List Reply} {r : Reply} {rs : List Reply}, l.filter (kept true) = r :: rs →
    ∃ pre post, l = pre ++ r :: post ∧ (∀ x ∈ pre, x.type ≤ 1) ∧ r.type > 1
  | [], r, rs, h => by simp at h
  | x :: l, r, rs, h => by
      by_cases hx : x.type > 1
      · rw [List.filter_cons_of_pos (by simp [kept, hx])] at h
        simp only [List.cons.injEq] at h
        exact ⟨[], l, by rw [h.1]; rfl, by simp, h.1 ▸ hx⟩
      · rw [List.filter_cons_of_neg (by simp [kept]; omega)] at h
        obtain ⟨pre, post, e, h1, h2⟩ := first_kept h
        refine ⟨x :: pre, post, by rw [e]; rfl, ?_, h2⟩
        intro y hy
        rcases List.mem_cons.1 hy with rfl | hy
        · omega
        · exact h1 y hy

/-- What is saved and where it comes from. -/
theorem madeOf_some {w : World} {u : Bytes} (h : madeOf w = some u) :
    ∃ pre r post, w.replies = pre ++ r :: post ∧ (∀ x ∈ pre, x.type ≤ 1) ∧ r.type > 1 ∧
      ∀ b s, b.length = 16 → r.message = proper b s → u = uuidText b := by
  unfold madeOf at h
  split at h
  · simp at h
  · rename_i r rs hr
    obtain ⟨pre, post, e, h1, h2⟩ := first_kept hr
    refine ⟨pre, r, post, e, h1, h2, ?_⟩
    intro b s hb hm
    rw [hm, verified_proper b s hb] at h
    simpa using h.symm

/-- The script that every start follows up to some point. -/
theorem follows (w : World) : ∃ l, (setup w).1 <+: l ∧
    ((w.registered = true ∧ ∃ name, l = .call .config :: .call .done :: finalName w name) ∨
     (w.registered = false ∧ parseCode w.code = none ∧ l = .call .config :: opening w) ∨
     (w.registered = false ∧ ∃ c, parseCode w.code = some c ∧
        l = .call .config :: (opening w ++ [.confirm w.phone c w.name])) ∨
     (w.registered = false ∧ ∃ c u, parseCode w.code = some c ∧ madeOf w = some u ∧
        l = .call .config :: (opening w ++ ([.confirm w.phone c w.name] ++ closing w u) ++
          .call .done :: finalName w w.name))) := by
  cases hr : w.registered with
  | true =>
    obtain ⟨name, _, h⟩ := setup_old w hr
    exact ⟨_, h.1, Or.inl ⟨rfl, name, rfl⟩⟩
  | false =>
    rcases setup_new w hr with ⟨t, ht, hp, _, hm⟩ | ⟨t, ht, hp, _, hc⟩ | ⟨c, u, hc, hm, h⟩
    · cases ht with
      | code h => exact ⟨_, hp, Or.inr (Or.inl ⟨rfl, h, by simp⟩)⟩
      | lost c h _ => exact ⟨_, hp, Or.inr (Or.inr (Or.inl ⟨rfl, c, h, rfl⟩))⟩
      | made c u _ h => rw [hm] at h; cases h
    · cases ht with
      | code h => exact ⟨_, hp, Or.inr (Or.inl ⟨rfl, h, by simp⟩)⟩
      | lost c h _ => rw [hc] at h; cases h
      | made c u h _ => rw [hc] at h; cases h
    · exact ⟨_, h.1, Or.inr (Or.inr (Or.inr ⟨rfl, c, u, hc, hm, rfl⟩))⟩

/-- **C155** (ordering; what is missing is below). Whatever the application and the companion answer and whatever
fails: number, captcha and code are asked for once at most; the code is asked for after the registration was
requested with the number and the captcha given; the code confirmed is the one given; an account is saved only
after the confirmation was answered, under the number and name given and with the UUID of the answer; keys are
published only after that; and the application is told only after they were published, unless it was registered
before. A registered client asks and sends nothing of this. -/
theorem C155_dialogue_partial (w : World) :
    let tr := (setup w).1
    (Once (.call .phone) tr ∧ Once (.call .captcha) tr ∧ Once (.call .code) tr ∧
      Once (.request w.phone w.captcha) tr) ∧
    (After (· = .call .phone) (fun e => ∃ p c, e = .request p c) tr ∧
      After (· = .call .captcha) (fun e => ∃ p c, e = .request p c) tr ∧
      After (· = .request w.phone w.captcha) (· = .call .code) tr ∧
      After (· = .call .code) (fun e => ∃ p c n, e = .confirm p c n) tr ∧
      After (fun e => ∃ c, e = .confirm w.phone c w.name) (fun e => ∃ t u n, e = .save t u n) tr ∧
      After (fun e => ∃ u, e = .save w.phone u w.name) (· = .publish) tr ∧
      (w.registered = false → After (· = .publish) (· = .call .done) tr)) ∧
    (∀ p c, Ev.request p c ∈ tr → p = w.phone ∧ c = w.captcha) ∧
    (∀ p c n, Ev.confirm p c n ∈ tr → p = w.phone ∧ n = w.name ∧
      ∀ k m, m < 2 ^ 32 → w.code = String.ofList (Names.decPad k m) → c = m) ∧
    (∀ t u n, Ev.save t u n ∈ tr → t = w.phone ∧ n = w.name ∧
      ∃ pre r post, w.replies = pre ++ r :: post ∧ (∀ x ∈ pre, x.type ≤ 1) ∧ r.type > 1 ∧
        ∀ b s, b.length = 16 → r.message = proper b s → u = uuidText b) ∧
    (w.registered = true → ∀ e ∈ tr, ¬ registering e) := by
  intro tr
  obtain ⟨l, hl, h⟩ := follows w
  have mem : ∀ e, e ∈ tr → e ∈ l := fun e he => hl.subset he
  rcases h with ⟨hr, name, rfl⟩ | ⟨hr, hc, rfl⟩ | ⟨hr, c, hc, rfl⟩ | ⟨hr, c, u, hc, hm, rfl⟩
  · have hf : finalName w name = [.call .name, .profile w.name] ∨ finalName w name = [.profile name] := by
      unfold finalName; split <;> simp
    rcases hf with hf | hf <;> rw [hf] at hl mem
    all_goals
      refine ⟨⟨once_prefix hl ?_, once_prefix hl ?_, once_prefix hl ?_, once_prefix hl ?_⟩,
        ⟨after_prefix hl ?_, after_prefix hl ?_, after_prefix hl ?_, after_prefix hl ?_, after_prefix hl ?_,
          after_prefix hl ?_, ?_⟩, ?_, ?_, ?_, ?_⟩
      all_goals first
        | (simp [afterFrom]; done)
        | (simp [hr]; done)
        | (intro p q h; simpa using mem _ h)
        | (intro p q n h; simpa using mem _ h)
        | (intro _ e he; have := mem e he; simp only [List.mem_cons, List.not_mem_nil, or_false] at this
           rcases this with rfl | rfl | rfl | rfl <;> simp [registering])
        | (intro _ e he; have := mem e he; simp only [List.mem_cons, List.not_mem_nil, or_false] at this
           rcases this with rfl | rfl | rfl <;> simp [registering])
  · refine ⟨⟨once_prefix hl ?_, once_prefix hl ?_, once_prefix hl ?_, once_prefix hl ?_⟩,
      ⟨after_prefix hl ?_, after_prefix hl ?_, after_prefix hl ?_, after_prefix hl ?_, after_prefix hl ?_,
        after_prefix hl ?_, fun _ => after_prefix hl ?_⟩, ?_, ?_, ?_, ?_⟩
    all_goals first
      | (simp [afterFrom, opening]; done)
      | (simp [hr]; done)
      | (intro p q h; simpa [opening] using mem _ h)
      | (intro p q n h; simpa [opening] using mem _ h)
  · refine ⟨⟨once_prefix hl ?_, once_prefix hl ?_, once_prefix hl ?_, once_prefix hl ?_⟩,
      ⟨after_prefix hl ?_, after_prefix hl ?_, after_prefix hl ?_, after_prefix hl ?_, after_prefix hl ?_,
        after_prefix hl ?_, fun _ => after_prefix hl ?_⟩, ?_, ?_, ?_, ?_⟩
    case refine_13 =>
      intro p q n h
      have h' : p = w.phone ∧ q = c ∧ n = w.name := by simpa [opening] using mem _ h
      refine ⟨h'.1, h'.2.2, fun k m hm e => ?_⟩
      rw [e, parseCode_dec k m hm] at hc
      rw [h'.2.1]
      simpa using hc.symm
    all_goals first
      | (simp [afterFrom, opening]; done)
      | (simp [hr]; done)
      | (intro p q h; simpa [opening] using mem _ h)
      | (intro p q n h; simpa [opening] using mem _ h)
  · have hf : ∃ f, finalName w w.name = f ∧ (f = [.call .name, .profile w.name] ∨ f = [.profile w.name]) := by
      refine ⟨_, rfl, ?_⟩
      unfold finalName; split <;> simp
    obtain ⟨f, hf, hff⟩ := hf
    rw [hf] at hl mem
    rcases hff with rfl | rfl
    all_goals
      refine ⟨⟨once_prefix hl ?_, once_prefix hl ?_, once_prefix hl ?_, once_prefix hl ?_⟩,
        ⟨after_prefix hl ?_, after_prefix hl ?_, after_prefix hl ?_, after_prefix hl ?_, after_prefix hl ?_,
          after_prefix hl ?_, fun _ => after_prefix hl ?_⟩, ?_, ?_, ?_, ?_⟩
      case refine_13 =>
        intro p q n h
        have h' : p = w.phone ∧ q = c ∧ n = w.name := by simpa [opening, closing] using mem _ h
        refine ⟨h'.1, h'.2.2, fun k m hm e => ?_⟩
        rw [e, parseCode_dec k m hm] at hc
        rw [h'.2.1]
        simpa using hc.symm
      case refine_14 =>
        intro t v n h
        have h' : t = w.phone ∧ v = u ∧ n = w.name := by simpa [opening, closing] using mem _ h
        obtain ⟨rfl, rfl, rfl⟩ := h'
        exact ⟨rfl, rfl, madeOf_some hm⟩
      all_goals first
        | (simp [afterFrom, opening, closing]; done)
        | (simp [hr]; done)
        | (intro p q h; simpa [opening, closing] using mem _ h)

/-- **C155** (success). If every step succeeds, the code is a number and the companion answers it properly, the
account is made: setting up succeeds and saves it under the number and name given. -/
theorem C155_registration_succeeds (w : World) (k m : Nat) (uuid : Bytes) (s : Bool) (acks rest : List Reply)
    (hg : ∀ c, w.given c = true) (hr : w.registered = false) (hcfg : ∃ old, w.config = .ok old)
    (h1 : w.store = .ok ()) (h2 : w.identity = .ok ()) (h3 : w.again = .ok ()) (h4 : w.save = .ok ())
    (h5 : w.keys = .ok ()) (h6 : w.publish = .ok ()) (h7 : w.reload = .ok ()) (h8 : w.rest = .ok ())
    (hm : m < 2 ^ 32) (hc : w.code = String.ofList (Names.decPad k m))
    (hk : ∀ r ∈ acks, r.type ≤ 1) (hu : uuid.length = 16)
    (hrep : w.replies = acks ++ ⟨2, proper uuid s⟩ :: rest) :
    (setup w).2 = .ok () ∧ .confirm w.phone m w.name ∈ (setup w).1 ∧
      .save w.phone (uuidText uuid) w.name ∈ (setup w).1 ∧ .profile w.name ∈ (setup w).1 := by
  obtain ⟨old, hcfg⟩ := hcfg
  have hp : parseCode w.code = some m := by rw [hc]; exact parseCode_dec k m hm
  have hfil : w.replies.filter (kept true) = ⟨2, proper uuid s⟩ :: rest.filter (kept true) := by
    have : acks.filter (kept true) = [] := by
      rw [List.filter_eq_nil_iff]
      intro r hr
      have := hk r hr
      simp [kept]; omega
    rw [hrep, List.filter_append, this, List.nil_append, List.filter_cons_of_pos (by simp [kept])]
  have hw : awaitReply w = .ok ⟨2, proper uuid s⟩ := by
    rw [await_eq, hfil]
  have hreg : registerWithCode w = ([.confirm w.phone m w.name], .ok (w.phone, uuidText uuid)) := by
    unfold registerWithCode
    rw [hp, hw]
    simp only [M.andThen, verified_proper uuid s hu, List.append_nil]
  have hask : ∀ c, ask w c = ([.call c], .ok ()) := fun c => by simp [ask, hg c]
  by_cases hn : w.name = ""
  · simp [setup, account, registerDevice, finish, tellDone, register, hask, hreg, M.andThen, step, made, hr, hcfg, h1, h2,
      h3, h4, h5, h6, h7, h8, hg, hn]
  · simp [setup, account, registerDevice, finish, tellDone, register, hask, hreg, M.andThen, step, made, hr, hcfg, h1, h2,
      h3, h4, h5, h6, h7, h8, hg, hn]

/-- Missing, and false of the code: *the application is told once*. Whenever a client registers successfully, it
is told three times. -/
theorem C155_told_three_times (w : World) (hr : w.registered = false) (hok : (setup w).2 = .ok ()) :
    (setup w).1.count (.call .done) = 3 := by
  rcases setup_new w hr with ⟨t, _, _, h, _⟩ | ⟨t, _, _, h, _⟩ | ⟨c, u, _, _, h⟩
  · exact absurd hok h
  · exact absurd hok h
  · rw [(h.2 () hok).1]
    have : (finalName w w.name).count (.call .done) = 0 := by
      unfold finalName; split <;> simp
    simp [opening, closing, this]

/-- Missing, and false of the code: *the application is told when a registration was made*. It is told at every
start, although nothing was registered. -/
theorem C155_told_at_every_start (w : World) (hr : w.registered = true) (hok : (setup w).2 = .ok ()) :
    (setup w).1.count (.call .done) = 1 := by
  obtain ⟨name, _, h⟩ := setup_old w hr
  rw [(h.2 () hok).1]
  have : (finalName w name).count (.call .done) = 0 := by
    unfold finalName; split <;> simp
  simp [this]

/-- Missing, and false of the code: *the handler may be left out*, which the check before the second call
suggests. Without it no start succeeds. -/
theorem C155_handler_needed (w : World) (h : w.given .done = false) : (setup w).2 ≠ .ok () := by
  intro hok
  have hg : w.given .done = true := by
    cases hr : w.registered with
    | true =>
      obtain ⟨name, _, h'⟩ := setup_old w hr
      exact (h'.2 () hok).2
    | false =>
      rcases setup_new w hr with ⟨t, _, _, h', _⟩ | ⟨t, _, _, h', _⟩ | ⟨c, u, _, _, h'⟩
      · exact absurd hok h'
      · exact absurd hok h'
      · exact (h'.2 () hok).2
  rw [h] at hg
  cases hg

/-- Missing, and false of the code: *an account is made only if the companion says so*. Any answer that says
nothing about a UUID is taken for one: if the first answer is nothing, or an object without the fields
expected, an account with the UUID of zeros is saved. -/
theorem C155_any_answer_is_an_account (w : World) (r : Reply) (rest : List Reply) (m : Nat)
    (hr : w.registered = false) (hrep : w.replies = r :: rest) (ht : r.type > 1)
    (hmsg : r.message = .null ∨ ∃ l, r.message = .obj l ∧ ∀ kv ∈ l, kv.1 ≠ "uuid" ∧ kv.1 ≠ "storage_capable")
    (hc : parseCode w.code = some m)
    (hok : (setup w).2 = .ok ()) :
    .save w.phone (uuidText (List.replicate 16 0)) w.name ∈ (setup w).1 := by
  have hv : verified r.message = some (List.replicate 16 0) := by
    rcases hmsg with h | ⟨l, h, hl⟩
    · rw [h]; rfl
    · rw [h]
      have : ∀ (l : List (String × Json)) (b : Bytes), (∀ kv ∈ l, kv.1 ≠ "uuid" ∧ kv.1 ≠ "storage_capable") →
          intoFields b l = some b := by
        intro l
        induction l with
        | nil => intro b _; rfl
        | cons x l ih =>
          intro b hx
          obtain ⟨k, v⟩ := x
          have := hx (k, v) (by simp)
          simp only at this
          simp only [intoFields, intoField, this.1, this.2, if_false, Option.bind_some]
          exact ih b fun y hy => hx y (List.mem_cons_of_mem _ hy)
      exact this l _ hl
  have hmade : madeOf w = some (uuidText (List.replicate 16 0)) := by
    unfold madeOf
    rw [hrep, List.filter_cons_of_pos (by simp [kept, ht])]
    simp [hv]
  rcases setup_new w hr with ⟨t, _, _, h', _⟩ | ⟨t, _, _, h', _⟩ | ⟨c, u, _, hu, h'⟩
  · exact absurd hok h'
  · exact absurd hok h'
  · rw [hmade] at hu
    simp only [Option.some.injEq] at hu
    rw [(h'.2 () hok).1, hu]
    simp [closing]

/-- Missing, and false of the code: *the code is asked for only if the request for one was not refused*. What the
companion answers to that request makes no difference. -/
theorem C155_refusal_not_heard (w : World) (answers : List Reply) : setup { w with early := answers } = setup w := by
  have hreg : registerWithCode { w with early := answers } = registerWithCode w := by
    unfold registerWithCode
    simp only [await_eq]
  have hdev : registerDevice { w with early := answers } = registerDevice w := by
    unfold registerDevice
    rw [hreg]
    rfl
  have hacc : ∀ old, account { w with early := answers } old = account w old := by
    intro old
    unfold account
    rw [hdev]
  unfold setup
  simp only [hacc]
  rfl

/-- Missing, and false of the code: *a mistyped code can be corrected*, and *a refusal is reported*. A code that is
not a plain number ends the registration; if the companion only acknowledges, `Setup` does not return. -/
theorem C155_refused_code_waits (w : World) (m : Nat) (hg : ∀ c, w.given c = true) (hr : w.registered = false)
    (hcfg : ∃ old, w.config = .ok old) (h1 : w.store = .ok ()) (h2 : w.identity = .ok ()) (h3 : w.again = .ok ())
    (hk : ∀ r ∈ w.replies, r.type ≤ 1) (hc : parseCode w.code = some m) : (setup w).2 = .waits := by
  obtain ⟨old, hcfg⟩ := hcfg
  have hfil : w.replies.filter (kept true) = [] := by
    rw [List.filter_eq_nil_iff]
    intro r hr
    have := hk r hr
    simp [kept]; omega
  have hw : awaitReply w = .waits := by rw [await_eq, hfil]
  have hreg : registerWithCode w = ([.confirm w.phone m w.name], .waits) := by
    unfold registerWithCode
    rw [hc, hw]
    rfl
  have hask : ∀ c, ask w c = ([.call c], .ok ()) := fun c => by simp [ask, hg c]
  simp [setup, account, registerDevice, register, hask, hreg, M.andThen, step, hr, hcfg, h1, h2, h3]

namespace Demo.Dialogue

/-- A new installation; the code has a zero in front. -/
def w : World :=
  { config := .ok "", phone := "+4915112345", captcha := "c4ptch4", name := "Ann", code := "012345"
    early := [⟨1, .null⟩]
    replies := [⟨1, .null⟩, ⟨2, proper [1, 2, 3, 4, 5, 6, 7, 8, 9, 10, 11, 12, 13, 14, 15, 16] true⟩] }

/-- The whole dialogue. -/
example : setup w = (
    [.call .config, .call .config, .call .config, .call .phone, .call .captcha, .call .name,
     .request "+4915112345" "c4ptch4", .call .code, .confirm "+4915112345" 12345 "Ann",
     .save "+4915112345" (uuidText [1, 2, 3, 4, 5, 6, 7, 8, 9, 10, 11, 12, 13, 14, 15, 16]) "Ann",
     .keys, .publish, .call .done, .call .done, .call .done, .profile "Ann"], .ok ()) := by decide +kernel

/-- The hypotheses of `C155_registration_succeeds`. -/
example : ∃ k m uuid s acks rest, (∀ c, w.given c = true) ∧ w.registered = false ∧ m < 2 ^ 32 ∧
    w.code = String.ofList (Names.decPad k m) ∧ (∀ r ∈ acks, r.type ≤ 1) ∧ List.length (α := UInt8) uuid = 16 ∧
    w.replies = acks ++ ⟨2, proper uuid s⟩ :: rest :=
  ⟨6, 12345, [1, 2, 3, 4, 5, 6, 7, 8, 9, 10, 11, 12, 13, 14, 15, 16], true, [⟨1, .null⟩], [], fun _ => rfl, rfl,
    by decide, by decide +kernel, by simp, rfl, rfl⟩

/-- The first answer is that of another request: an account of zeros. -/
def wrong : World := { w with replies := [⟨3, .obj [("message", .str "…"), ("timestamp", .num (some 5))]⟩] }

example : parseCode wrong.code = some 12345 ∧ (setup wrong).2 = .ok () ∧
    Ev.save "+4915112345" (uuidText (List.replicate 16 0)) "Ann" ∈ (setup wrong).1 := by decide +kernel

/-- A refusal that is only acknowledged. -/
def refused : World := { w with replies := [⟨1, .obj [("status", .str "refused")]⟩] }

example : (setup refused).2 = .waits := by decide +kernel

/-- A code with a hyphen in it. -/
example : (setup { w with code := "012-345" }).2 = .err ∧ (setup { w with code := "012-345" }).1.length = 8 := by
  decide +kernel

/-- No handler: everything is registered and published, and then the program crashes. -/
def bare : World := { w with given := fun c => c ≠ .done }

example : (setup bare).2 = .panic ∧ Ev.publish ∈ (setup bare).1 := by decide +kernel

/-- A later start. -/
example : setup { w with registered := true, config := .ok "Ann" } =
    ([.call .config, .call .done, .profile "Ann"], .ok ()) := by decide +kernel

end Demo.Dialogue

end Verif.Props
