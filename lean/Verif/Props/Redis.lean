import Verif.Model.Redis
/-!
# Publishing what arrives (C182)
-/
namespace Verif.Props.Redis
open Verif Verif.Redis
open Verif.Gateway (Flags Msg Act messageHandler)

/-! ## Lemmas -/

/-- What one message does to the world. -/
theorem one (F : Flags) (he : F.echo = false) (hr : F.redis = true) (peer : Bytes) (m : Msg) (up : Bool) (w : World) :
    ∃ d, (messageHandler F peer m).2.foldl (perform up) w =
      ⟨if up then w.channel ++ [(d, m.text)] else w.channel, w.clients + 1,
        w.log ++ [⟨.info, some (d, m.text)⟩, ⟨.debug, none⟩]⟩ ∧ d = (messageHandler F peer m).1 := by
  refine ⟨(messageHandler F peer m).1, ?_, rfl⟩
  unfold messageHandler
  rw [if_neg (by simp [he])]
  by_cases hp : peer = [] <;> by_cases ht : m.text = [] <;> cases F.raw <;> cases F.hook <;>
    simp [hp, ht, hr, perform, sendMessageToRedis]

/-! ## The property -/

/-- C182 as far as redis can be reached: the texts published are those of the messages that arrived while it could be reached,
each once and in order. Missing from the property: `C182_silent`, `C182_clients`, `C182_text_written`. -/
theorem C182_published_partial (F : Flags) (he : F.echo = false) (hr : F.redis = true) : ∀ (ms : List (Msg × Bool))
    (peer : Bytes) (w : World), (run F peer w ms).2.channel.map (·.2) =
      w.channel.map (·.2) ++ (ms.filter (·.2)).map (·.1.text)
  | [], _, w => by simp [run]
  | (m, up) :: ms, peer, w => by
    obtain ⟨d, h, -⟩ := one F he hr peer m up w
    simp only [run]
    rw [C182_published_partial F he hr ms, h]
    cases up <;> simp

/-- C182: without interruptions everything is published. -/
theorem C182_all (F : Flags) (he : F.echo = false) (hr : F.redis = true) (ms : List Msg) (peer : Bytes) :
    (run F peer {} (ms.map (·, true))).2.channel.map (·.2) = ms.map (·.text) := by
  rw [C182_published_partial F he hr]
  have : (ms.map (·, true)).filter (·.2) = ms.map (·, true) := List.filter_eq_self.mpr (by simp)
  rw [this]
  simp

/-- Refuted: that redis cannot be reached is not told: the log is the same whether or not it can be. -/
theorem C182_silent (F : Flags) (he : F.echo = false) (hr : F.redis = true) : ∀ (ms ms' : List (Msg × Bool)) (peer : Bytes)
    (w w' : World), ms.map (·.1) = ms'.map (·.1) → w.log = w'.log →
      (run F peer w ms).2.log = (run F peer w' ms').2.log ∧ (run F peer w ms).1 = (run F peer w' ms').1
  | [], [], _, _, _, _, hw => ⟨hw, rfl⟩
  | [], _ :: _, _, _, _, h, _ => by simp at h
  | _ :: _, [], _, _, _, h, _ => by simp at h
  | (m, up) :: ms, (m', up') :: ms', peer, w, w', h, hw => by
    simp only [List.map_cons, List.cons.injEq] at h
    obtain ⟨rfl, h⟩ := h
    obtain ⟨d, e, hd⟩ := one F he hr peer m up w
    obtain ⟨d', e', hd'⟩ := one F he hr peer m up' w'
    simp only [run]
    rw [e, e']
    exact C182_silent F he hr ms ms' _ _ _ h (by rw [hd, hd', hw])

/-- Refuted: each message costs a client that is never closed. -/
theorem C182_clients (F : Flags) (he : F.echo = false) (hr : F.redis = true) : ∀ (ms : List (Msg × Bool)) (peer : Bytes)
    (w : World), (run F peer w ms).2.clients = w.clients + ms.length
  | [], _, w => by simp [run]
  | (m, up) :: ms, peer, w => by
    obtain ⟨d, h, -⟩ := one F he hr peer m up w
    simp only [run]
    rw [C182_clients F he hr ms, h, List.length_cons]
    simp only []
    omega

/-- Refuted: the text of each message is written to the log, unless the level is set to warnings or errors. -/
theorem C182_text_written (F : Flags) (he : F.echo = false) (hr : F.redis = true) (l : Logging.Level) (m : Msg) :
    ∀ (ms : List (Msg × Bool)) (peer : Bytes) (w : World), m ∈ ms.map (·.1) → l = .info ∨ l = .debug →
      ∃ x ∈ (run F peer w ms).2.log, x.level.rank ≤ l.rank ∧ ∃ d, x.shows = some (d, m.text) := by
  have keep : ∀ (ms : List (Msg × Bool)) (peer : Bytes) (w : World), ∀ x ∈ w.log, x ∈ (run F peer w ms).2.log := by
    intro ms
    induction ms with
    | nil => intro peer w x hx; exact hx
    | cons a ms ih =>
      intro peer w x hx
      obtain ⟨d, h, -⟩ := one F he hr peer a.1 a.2 w
      show x ∈ (run F _ _ ms).2.log
      refine ih _ _ x ?_
      rw [h]
      exact List.mem_append_left _ hx
  intro ms
  induction ms with
  | nil => intro _ _ hm; cases hm
  | cons a ms ih =>
    intro peer w hm hl
    rw [List.map_cons, List.mem_cons] at hm
    rcases hm with rfl | hm
    · obtain ⟨d, h, -⟩ := one F he hr peer a.1 a.2 w
      refine ⟨⟨.info, some (d, a.1.text)⟩, ?_, ?_, d, rfl⟩
      · show _ ∈ (run F _ _ ms).2.log
        refine keep ms _ _ _ ?_
        rw [h]
        simp
      · rcases hl with rfl | rfl <;> simp [Logging.Level.rank]
    · exact ih _ _ hm hl

/-- At those levels nothing is written. -/
theorem C182_text_hidden (F : Flags) (he : F.echo = false) (hr : F.redis = true) (l : Logging.Level) (hl : l = .warn ∨ l = .error) :
    ∀ (ms : List (Msg × Bool)) (peer : Bytes) (w : World), (∀ x ∈ w.log, l.rank < x.level.rank) →
      ∀ x ∈ (run F peer w ms).2.log, l.rank < x.level.rank
  | [], _, _, hw => hw
  | (m, up) :: ms, peer, w, hw => by
    obtain ⟨d, h, -⟩ := one F he hr peer m up w
    refine C182_text_hidden F he hr l hl ms _ _ ?_
    rw [h]
    intro x hx
    rcases List.mem_append.mp hx with hx | hx
    · exact hw x hx
    · simp only [List.mem_cons, List.not_mem_nil, or_false] at hx
      rcases hx with rfl | rfl <;> rcases hl with rfl | rfl <;> simp [Logging.Level.rank]

/-! ## Concrete cases -/

/-- Redis cannot be reached for the second of three messages. -/
example : (run { redis := true } [] {} [(⟨[1], none, none, [65]⟩, true), (⟨[1], none, none, [66]⟩, false),
      (⟨[1], none, none, [67]⟩, true)]).2 =
    ⟨[([1], [65]), ([1], [67])], 3, [⟨.info, some ([1], [65])⟩, ⟨.debug, none⟩, ⟨.info, some ([1], [66])⟩, ⟨.debug, none⟩,
      ⟨.info, some ([1], [67])⟩, ⟨.debug, none⟩]⟩ := by decide +kernel

end Verif.Props.Redis
