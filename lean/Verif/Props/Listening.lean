import Verif.Proof.Listening
/-!
# C147: stopping and starting to listen
-/
namespace Verif.Props.Listening
open Verif.Listening

/-- C147, as far as it holds. The application calls `StartListening` when no other call is in progress and
`StopListening` when none is connecting. Then, whatever the network does: the program does not crash, and over every
connection the acknowledgements are those of the frames shown from this connection, in order, without a gap. -/
theorem C147_acknowledged_partial (acts : List Action) (s : State) (ho : Orderly {} acts) (hr : run {} acts = some s) :
    s.crashed = false ∧ ∀ i, ackedOn i s.log <+: shownOn i s.log := by
  have h := inv_run inv_init ho hr
  exact ⟨h.fine, h.prefixed⟩

/-- C147, as far as it holds. After `StopListening`, until `StartListening` is called again, nothing is shown except the
frame that was being handled. -/
theorem C147_stops_partial (before after : List Action) (s0 s : State) (h0 : run {} before = some s0)
    (ho : Orderly {} (before ++ .stop :: after)) (hn : .start ∉ after)
    (hr : run {} (before ++ .stop :: after) = some s) :
    shownAll s.log = shownAll s0.log ∨
    ∃ i id c, .handling i id c ∈ s0.calls ∧ shownAll s.log = shownAll s0.log ++ [(i, id)] := by
  obtain ⟨ho1, ho2⟩ := orderly_append ho h0
  have hi := inv_run inv_init ho1 h0
  rw [run_append, h0] at hr
  simp only [Option.bind_some, run, Option.bind_eq_some_iff] at hr
  obtain ⟨s1, h1, h2⟩ := hr
  obtain ⟨hS, hlog, hcalls⟩ := stop_stops hi (ho2.2.1 rfl) h1
  obtain ⟨-, -, h3⟩ := stopped_run (inv_step hi (by intro h; cases h) h1) hS hn h2
  have hlast : s1.last = s0.last := by unfold State.last; rw [hcalls]
  obtain ⟨h3, -⟩ | ⟨h3, -⟩ := h3
  · exact Or.inl (h3.trans hlog)
  · rw [hlog, hlast] at h3
    cases hl : s0.last with
    | handling i id c =>
      right
      rw [hl] at h3
      refine ⟨i, id, c, ?_, h3⟩
      unfold State.last at hl
      rw [List.getLastD_eq_getLast?] at hl
      cases hg : s0.calls.getLast? with
      | none => rw [hg] at hl; cases hl
      | some p => rw [hg] at hl; rw [← hl]; exact List.mem_of_getLast? hg
    | dialing => rw [hl] at h3; left; simpa [unshown] using h3
    | reading => rw [hl] at h3; left; simpa [unshown] using h3
    | acking => rw [hl] at h3; left; simpa [unshown] using h3
    | done => rw [hl] at h3; left; simpa [unshown] using h3

/-- C147, as far as it holds. When the connection is closed (by `StopListening`, the network or the server), a call in
progress that has its connection returns: it, with the writer, can always go on until it has, and never waits for the
application or the network. -/
theorem C147_returns_partial (acts : List Action) (s : State) (ho : Orderly {} acts) (hr : run {} acts = some s)
    (k : Nat) (p : Phase) (hk : s.calls[k]? = some p) (hd : p.isDialing = false)
    (hc : ∀ j, s.cur = some j → s.ws j = .closed) :
    ∃ more s', (∀ a ∈ more, a = .shows k ∨ a = .ack k ∨ a = .fails k ∨ ∃ j, a = .write j) ∧
      run s more = some s' ∧ s'.calls[k]? = some .done := by
  have h := inv_run inv_init ho hr
  exact returns h hk hd hc

/-- C147 refuted: a second call of `StartListening` while one is connecting crashes the program when the first
connection is made. -/
theorem C147_overlap_crashes : ∃ s, run {} [.start, .start, .dialed 0 true] = some s ∧ s.crashed = true := by
  refine ⟨_, rfl, rfl⟩

/-- C147 refuted: the application stops, and starts again while a message of the first connection is being handled: the
acknowledgement goes over the second connection, over which no such request came. -/
theorem C147_wrong_connection : ∃ s,
    run {} [.start, .dialed 0 true, .frame 0 77, .stop, .start, .dialed 1 true, .shows 0, .ack 0, .write 1] = some s ∧
    s.crashed = false ∧ ackedOn 1 s.log = [77] ∧ shownOn 1 s.log = [] := by
  refine ⟨_, rfl, ?_⟩
  decide

/-- C147 refuted: while a call is connecting, `StopListening` returns without error and has no effect. -/
theorem C147_stop_ignored (acts : List Action) (s : State) (ho : Orderly {} acts) (hr : run {} acts = some s)
    (k own : Nat) (hk : s.calls[k]? = some (.dialing own)) :
    step s .stop = some { s with log := s.log ++ [.stopped true] } := by
  have h := inv_run inv_init ho hr
  obtain ⟨hl, -⟩ := last_of h hk (by intro h0; cases h0)
  have hp := h.phase
  rw [hl] at hp
  have hn := hp.2
  simp only [step, h.fine, cur_last h hp.1]
  have : s.links.modify own Link.close = s.links := by
    rw [modify_set _ hn]
    apply List.ext_getElem?
    intro j
    rw [List.getElem?_set]
    split
    · rename_i hj
      subst hj
      have := (List.getElem?_eq_some_iff.mp hn).1
      rw [hn]
      simp [this, Link.close]
    · rfl
  rw [this, ← cur_last h hp.1]
  rfl

/-- So messages are shown after it. -/
example : ∃ s, run {} [.start, .stop, .dialed 0 true, .frame 0 1, .shows 0, .ack 0, .frame 0 2, .shows 0] = some s ∧
    s.log = [.stopped true, .shown 0 1, .shown 0 2] := ⟨_, rfl, rfl⟩

/-- An orderly run: two connections, of which the first is stopped while a frame is handled. -/
def story : List Action :=
  [.start, .dialed 0 true, .frame 0 5, .shows 0, .ack 0, .write 0, .frame 0 6, .stop, .shows 0, .ack 0, .write 0, .fails 0,
   .start, .dialed 1 true, .frame 1 7, .shows 1, .ack 1, .write 1, .drop 1]

example : Orderly {} story := by
  simp only [story, Orderly]
  refine ⟨by decide, by decide, ?_⟩
  repeat' (first
    | trivial
    | (intro s' hs; cases hs; refine ⟨by decide, by decide, ?_⟩))

example : ∃ s, run {} story = some s ∧
    s.log = [.shown 0 5, .acked 0 5, .stopped true, .shown 0 6, .shown 1 7, .acked 1 7] := ⟨_, rfl, rfl⟩

end Verif.Props.Listening
