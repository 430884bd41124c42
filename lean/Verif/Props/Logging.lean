import Verif.Model.Logging
import Verif.Proof.Wire
/-!
# What of received messages goes to the log (C180)
-/
namespace Verif.Props.Logging
open Verif Verif.Logging Verif.Wire

/-- The setting that counts: the environment's if there is one. -/
def setting (cfg env : String) : String := if env = "" then cfg else env

/-- C180: the environment goes before the configuration, names count in whatever case, and everything else means the level
for information. -/
theorem C180_level (cfg env : String) :
    (setupLogging cfg env = .debug ↔ (setting cfg env).toUpper = "DEBUG") ∧
      (setupLogging cfg env = .warn ↔ (setting cfg env).toUpper = "WARN") ∧
      (setupLogging cfg env = .error ↔ (setting cfg env).toUpper = "ERROR") := by
  have e : (if cfg = "" ∨ env ≠ "" then env else cfg) = setting cfg env := by
    unfold setting
    by_cases h : env = "" <;> by_cases g : cfg = "" <;> simp [h, g]
  unfold setupLogging
  rw [e]
  dsimp only
  generalize (setting cfg env).toUpper = x
  by_cases h1 : x = "DEBUG"
  · subst h1; decide
  · by_cases h2 : x = "INFO"
    · subst h2; decide
    · by_cases h3 : x = "WARN"
      · subst h3; decide
      · by_cases h4 : x = "ERROR"
        · subst h4; decide
        · simp [h1, h2, h3, h4]

/-- Contents with a part the client has a handler for. -/
def Handled (b : Bytes) : Prop :=
  ∃ c, Content.parseContent b = some c ∧
    (c.data ≠ none ∨ c.sync ≠ none ∨ c.call ≠ none ∨ c.receipt ≠ none ∨ c.typing = true)

/-- C180 for contents that are handled, and for those that are none: whatever the level, nothing of them is written on the way
to the handler. Missing from the property: `C180_contents_written`, `C180_sender_written`. -/
theorem C180_handled_partial (l : Level) (oldKey : Bool) (uuid : String) (b : Bytes)
    (h : Handled b ∨ Content.parseContent b = none) :
    (∀ x ∈ written l (handleMessage b), x.shows = .nothing) ∧
      ∀ x ∈ written l (sealedMessage oldKey uuid b), ∀ b', x.shows ≠ .contents b' := by
  have key : ∀ x ∈ handleMessage b, x.shows = .nothing := by
    intro x hx
    rcases h with ⟨c, hc, h⟩ | h
    · simp only [handleMessage, hc, List.mem_cons] at hx
      rcases hx with rfl | hx
      · rfl
      · obtain ⟨data, sync, call, receipt, typing, null⟩ := c
        cases data <;> cases sync <;> cases call <;> cases receipt <;> cases typing <;> simp_all
    · simp only [handleMessage, h, List.mem_singleton] at hx
      rw [hx]
  refine ⟨fun x hx => key x (List.mem_filter.mp hx).1, ?_⟩
  intro x hx b' e
  have hx := (List.mem_filter.mp hx).1
  simp only [sealedMessage, List.mem_append, List.mem_cons, List.not_mem_nil, or_false] at hx
  rcases hx with (hx | rfl | rfl | rfl) | hx
  · split at hx
    · rw [List.mem_singleton.mp hx] at e; cases e
    · cases hx
  · cases e
  · cases e
  · cases e
  · split at hx
    · cases hx
    · rw [key x hx] at e; cases e

/-- Refuted: all other contents are written in full, whatever the level is set to. -/
theorem C180_contents_written (cfg env : String) (b : Bytes) (hp : Content.parseContent b ≠ none) (h : ¬ Handled b) :
    ⟨.error, .contents b⟩ ∈ written (setupLogging cfg env) (handleMessage b) := by
  obtain ⟨l, hl⟩ : ∃ l, l = setupLogging cfg env := ⟨_, rfl⟩
  rw [← hl]
  have hr : Level.error.rank ≤ l.rank := by cases l <;> decide
  refine List.mem_filter.mpr ⟨?_, by simpa using hr⟩
  cases hc : Content.parseContent b with
  | none => exact absurd hc hp
  | some c =>
    have hn : ¬ (c.data ≠ none ∨ c.sync ≠ none ∨ c.call ≠ none ∨ c.receipt ≠ none ∨ c.typing = true) :=
      fun g => h ⟨c, hc, g⟩
    obtain ⟨data, sync, call, receipt, typing, null⟩ := c
    simp only [not_or, Decidable.not_not, Bool.not_eq_true] at hn
    obtain ⟨rfl, rfl, rfl, rfl, rfl⟩ := hn
    simp [handleMessage, hc]

/-- Refuted, for keys: the message by which someone hands over the key of their group messages (field 7 of the contents) is
written in full, whatever the key and whatever the level is set to. -/
theorem C180_key_written (cfg env : String) (key : Bytes) (hk : key.length < 2 ^ 64) :
    ⟨.error, .contents (encFields [(7, .len key)])⟩ ∈
      written (setupLogging cfg env) (handleMessage (encFields [(7, .len key)])) := by
  have hd : decFields (encFields [(7, .len key)]) = some [(7, .len key)] := by
    refine decFields_enc _ ?_
    intro f hf
    rw [List.mem_singleton.mp hf]
    exact ⟨by decide, by decide, hk⟩
  have hc : Content.parseContent (encFields [(7, .len key)]) =
      some { data := none, sync := none, call := none, receipt := none, typing := false, null := false } := by
    simp [Content.parseContent, hd, Record.subOne, Record.subs, Record.optional, Content.checked, Content.rawOne, getAll]
  refine C180_contents_written cfg env _ (by rw [hc]; simp) ?_
  rintro ⟨c, hc', h⟩
  rw [hc] at hc'
  cases hc'
  simp at h

/-- Refuted: the sender of every sealed message is written, unless the level is set to warnings or errors. -/
theorem C180_sender_written (cfg env : String) (oldKey : Bool) (uuid : String) (b : Bytes) :
    (∃ x ∈ written (setupLogging cfg env) (sealedMessage oldKey uuid b), x.shows = .sender uuid) ↔
      (setting cfg env).toUpper ≠ "WARN" ∧ (setting cfg env).toUpper ≠ "ERROR" := by
  obtain ⟨-, hw, he⟩ := C180_level cfg env
  rw [Ne, Ne, ← hw, ← he]
  obtain ⟨l, hl⟩ : ∃ l, l = setupLogging cfg env := ⟨_, rfl⟩
  rw [← hl]
  have hin : (⟨.info, .sender uuid⟩ : Line) ∈ sealedMessage oldKey uuid b := by simp [sealedMessage]
  have only : ∀ x ∈ sealedMessage oldKey uuid b, x.shows = .sender uuid → x.level = .info := by
    intro x hx e
    simp only [sealedMessage, List.mem_append, List.mem_cons, List.not_mem_nil, or_false] at hx
    rcases hx with (hx | rfl | rfl | rfl) | hx
    · split at hx
      · rw [List.mem_singleton.mp hx] at e; cases e
      · cases hx
    · cases e
    · rfl
    · cases e
    · split at hx
      · cases hx
      · exfalso
        revert hx
        simp only [handleMessage]
        split
        · intro hx; rw [List.mem_singleton.mp hx] at e; cases e
        · intro hx
          rcases List.mem_cons.mp hx with rfl | hx
          · cases e
          · revert hx
            (repeat' split) <;> intro hx <;> first | cases hx; done | (rw [List.mem_singleton.mp hx] at e; cases e)
  constructor
  · rintro ⟨x, hx, e⟩
    obtain ⟨h1, h2⟩ := List.mem_filter.mp hx
    rw [only x h1 e] at h2
    refine ⟨?_, ?_⟩ <;> intro hl' <;> rw [hl'] at h2 <;> exact absurd h2 (by decide)
  · rintro ⟨h1, h2⟩
    refine ⟨_, List.mem_filter.mpr ⟨hin, ?_⟩, rfl⟩
    cases l
    · exact absurd rfl h2
    · exact absurd rfl h1
    · rfl
    · rfl

/-! ## Concrete cases -/

/-- A text message is handled, and shows nothing at any level. -/
example : Handled (encFields [(1, .len (encFields [(1, .len [104, 105]), (7, .varint 5)]))]) ∧
    written .debug (handleMessage (encFields [(1, .len (encFields [(1, .len [104, 105]), (7, .varint 5)]))])) =
      [⟨.debug, .nothing⟩] := by
  refine ⟨?_, by decide +kernel⟩
  have h : ((Content.parseContent (encFields [(1, .len (encFields [(1, .len [104, 105]), (7, .varint 5)]))])).any
      fun c => c.data.isSome) = true := by decide +kernel
  obtain ⟨c, hc, h⟩ := Option.any_eq_true .. |>.mp h
  exact ⟨c, hc, .inl fun e => by rw [e] at h; cases h⟩

/-- With `loglevel: error` the key `[1, 2, 3]` is in the log. -/
example : written (setupLogging "error" "") (handleMessage [58, 3, 1, 2, 3]) = [⟨.error, .contents [58, 3, 1, 2, 3]⟩] := by
  decide +kernel

/-- Without any setting, the sender of a sealed text. -/
example : written (setupLogging "" "") (sealedMessage false "bob" (encFields [(1, .len [])])) = [⟨.info, .sender "bob"⟩] := by
  decide +kernel

/-- The environment goes first, in any case. -/
example : setupLogging "error" "Debug" = .debug ∧ setupLogging "warn" "" = .warn ∧ setupLogging "verbose" "" = .info := by
  decide +kernel

end Verif.Props.Logging
