import Verif.Spec.Listening
/-!
# Lemmas on stopping and starting to listen
-/
namespace Verif.Listening

/-- The frame of link `i` that was shown and is about to be acknowledged. -/
def pend (i : Nat) : Phase → List Nat
  | .acking j id _ => if j = i then [id] else []
  | _ => []

def busy (c : Nat) : Phase → Nat
  | .handling _ _ j => if j = c then 1 else 0
  | .acking _ _ j => if j = c then 1 else 0
  | _ => 0

/-- What holds of a phase in orderly runs: it belongs to the last link, which is `wsconn`. -/
def PhaseOk (links : List Link) : Phase → Prop
  | .dialing own => own + 1 = links.length ∧ links[own]? = some {}
  | .reading c => c + 1 = links.length ∧ ∃ l, links[c]? = some l ∧ l.ws ≠ .nil
  | .handling i _ c => i = c ∧ c + 1 = links.length ∧ ∃ l, links[c]? = some l ∧ l.ws ≠ .nil
  | .acking i _ c => i = c ∧ c + 1 = links.length ∧ ∃ l, links[c]? = some l ∧ l.ws ≠ .nil
  | .done => True

/-- The call made last. -/
def State.last (s : State) : Phase := s.calls.getLastD .done

/-- In orderly runs only the last call may not have returned. -/
structure Inv (s : State) : Prop where
  fine : s.crashed = false
  cur : s.cur = if s.links = [] then none else some (s.links.length - 1)
  single : ∀ k p, s.calls[k]? = some p → p ≠ .done → k + 1 = s.calls.length
  phase : PhaseOk s.links s.last
  prefixed : ∀ i, ackedOn i s.log <+: shownOn i s.log
  whole : ∀ (i : Nat) (l : Link), s.links[i]? = some l → l.ws = .up →
    ackedOn i s.log ++ l.buf ++ pend i s.last = shownOn i s.log ∧ 0 < l.writers
  fresh : ∀ (i : Nat) (l : Link), s.links[i]? = some l → l.ws = .nil → l = {} ∧ shownOn i s.log = []
  bound : ∀ (i : Nat) (l : Link), s.links[i]? = some l → l.buf.length ≤ cap ∧
    (l.writers = 0 → l.buf.length + busy i s.last ≤ cap)
  new : ∀ i, s.links.length ≤ i → shownOn i s.log = []

theorem modify_set {α : Type} {l : List α} {i : Nat} {a : α} (f : α → α) (h : l[i]? = some a) :
    l.modify i f = l.set i (f a) := by
  apply List.ext_getElem?
  intro j
  rw [List.getElem?_modify, List.getElem?_set]
  by_cases hj : i = j
  · subst hj
    have := (List.getElem?_eq_some_iff.mp h).1
    rw [h]
    simp [this]
  · simp [hj]

theorem last_of {s : State} (h : Inv s) {k : Nat} {p : Phase} (hk : s.calls[k]? = some p) (hp : p ≠ .done) :
    s.last = p ∧ k + 1 = s.calls.length := by
  have h1 := h.single k p hk hp
  refine ⟨?_, h1⟩
  have : s.calls.getLast? = some p := by
    rw [List.getLast?_eq_getElem?, ← hk]
    congr 1
    omega
  simp [State.last, List.getLastD_eq_getLast?, this]

theorem last_set (calls : List Phase) (k : Nat) (q : Phase) (h : k + 1 = calls.length) :
    (calls.set k q).getLastD .done = q := by
  have : (calls.set k q).getLast? = some q := by
    rw [List.getLast?_eq_getElem?, List.length_set, List.getElem?_set]
    have h2 : calls.length - 1 = k := by omega
    rw [h2, if_pos rfl, if_pos (by omega)]
  simp [List.getLastD_eq_getLast?, this]

theorem single_set {s : State} (h : Inv s) (k : Nat) (q : Phase) (hk : k + 1 = s.calls.length) :
    ∀ k' p, (s.calls.set k q)[k']? = some p → p ≠ .done → k' + 1 = (s.calls.set k q).length := by
  intro k' p h1 h2
  rw [List.length_set]
  rw [List.getElem?_set] at h1
  split at h1
  · omega
  · exact h.single k' p h1 h2

theorem cur_last {s : State} (h : Inv s) {c : Nat} (hc : c + 1 = s.links.length) : s.cur = some c := by
  rw [h.cur, if_neg (by intro h0; rw [h0] at hc; simp at hc)]
  congr 1
  omega

theorem shown_append (i : Nat) (log : List Ev) (e : Ev) : shownOn i (log ++ [e]) = shownOn i log ++ shownOn i [e] := by
  simp [shownOn]

theorem acked_append (i : Nat) (log : List Ev) (e : Ev) : ackedOn i (log ++ [e]) = ackedOn i log ++ ackedOn i [e] := by
  simp [ackedOn]

/-- Closing links keeps the invariant. -/
theorem phase_close {links : List Link} {p : Phase} (i : Nat) (h : PhaseOk links p) :
    PhaseOk (links.modify i Link.close) p := by
  have key : ∀ (c : Nat), (∃ l : Link, links[c]? = some l ∧ l.ws ≠ .nil) → ∃ l : Link, (links.modify i Link.close)[c]? = some l ∧ l.ws ≠ .nil := by
    rintro c ⟨l, h1, h2⟩
    refine ⟨if i = c then l.close else l, by simp [List.getElem?_modify, h1], ?_⟩
    split
    · unfold Link.close; split <;> simp_all
    · exact h2
  cases p with
  | dialing own =>
    refine ⟨by rw [List.length_modify]; exact h.1, ?_⟩
    rw [List.getElem?_modify, h.2]
    simp [Link.close]
  | reading c => exact ⟨by rw [List.length_modify]; exact h.1, key c h.2⟩
  | handling j id c => exact ⟨h.1, by rw [List.length_modify]; exact h.2.1, key c h.2.2⟩
  | acking j id c => exact ⟨h.1, by rw [List.length_modify]; exact h.2.1, key c h.2.2⟩
  | done => trivial

theorem inv_close {s : State} (h : Inv s) (i : Nat) : Inv { s with links := s.links.modify i Link.close } := by
  have get : ∀ (c : Nat) (l : Link), (s.links.modify i Link.close)[c]? = some l → ∃ l0 : Link, s.links[c]? = some l0 ∧
      (l = l0 ∨ (l0.ws = .up ∧ l = { l0 with ws := .closed })) := by
    intro c l hl
    rw [List.getElem?_modify] at hl
    obtain ⟨l0, h0, h1⟩ := Option.map_eq_some_iff.mp hl
    refine ⟨l0, h0, ?_⟩
    split at h1
    · unfold Link.close at h1
      split at h1
      · right; exact ⟨by assumption, h1.symm⟩
      · left; exact h1.symm
    · left; exact h1.symm
  refine { h with cur := ?_, phase := phase_close i h.phase, whole := ?_, fresh := ?_, bound := ?_, new := ?_ }
  · show s.cur = _
    rw [h.cur]
    by_cases h0 : s.links = []
    · simp [h0]
    · rw [if_neg h0, if_neg (by intro h1; apply h0; have := congrArg List.length h1; simpa using this), List.length_modify]
  · intro c l hl hu
    obtain ⟨l0, h0, rfl | ⟨_, rfl⟩⟩ := get c l hl
    · exact h.whole c _ h0 hu
    · cases hu
  · intro c l hl hu
    obtain ⟨l0, h0, rfl | ⟨_, rfl⟩⟩ := get c l hl
    · exact h.fresh c _ h0 hu
    · cases hu
  · intro c l hl
    obtain ⟨l0, h0, rfl | ⟨_, rfl⟩⟩ := get c l hl
    · exact h.bound c _ h0
    · exact h.bound c l0 h0
  · intro c hc
    rw [List.length_modify] at hc
    exact h.new c hc

theorem inv_stopped {s : State} (h : Inv s) (b : Bool) : Inv { s with log := s.log ++ [.stopped b] } := by
  have h1 : ∀ i, shownOn i (s.log ++ [.stopped b]) = shownOn i s.log := by intro i; simp [shownOn]
  have h2 : ∀ i, ackedOn i (s.log ++ [.stopped b]) = ackedOn i s.log := by intro i; simp [ackedOn]
  exact { h with
    prefixed := by intro i; show ackedOn i (s.log ++ _) <+: shownOn i (s.log ++ _); rw [h1, h2]; exact h.prefixed i
    whole := by intro i l hl hu; show ackedOn i (s.log ++ _) ++ _ ++ _ = shownOn i (s.log ++ _) ∧ _; rw [h1, h2]; exact h.whole i l hl hu
    fresh := by intro i l hl hu; show _ ∧ shownOn i (s.log ++ _) = _; rw [h1]; exact h.fresh i l hl hu
    new := by intro i hi; show shownOn i (s.log ++ _) = _; rw [h1]; exact h.new i hi }

theorem inv_init : Inv {} :=
  { fine := rfl, cur := rfl, single := (by intro k p h; cases h), phase := trivial, prefixed := (by intro i; exact List.prefix_rfl)
    whole := (by intro i l h; cases h), fresh := (by intro i l h; cases h), bound := (by intro i l h; cases h), new := (by intro i _; rfl) }

theorem inv_start {s : State} (h : Inv s) (hd : ∀ p ∈ s.calls, p = .done) :
    Inv { s with links := s.links ++ [{}], cur := some s.links.length, calls := s.calls ++ [.dialing s.links.length] } := by
  have hl : s.last = .done := by
    unfold State.last
    rw [List.getLastD_eq_getLast?]
    cases hg : s.calls.getLast? with
    | none => rfl
    | some p => exact hd p (List.mem_of_getLast? hg)
  have hlast : State.last { s with links := s.links ++ [{}], cur := some s.links.length, calls := s.calls ++ [Phase.dialing s.links.length] } = .dialing s.links.length := by
    simp [State.last, List.getLastD_eq_getLast?]
  have get : ∀ i l, (s.links ++ [({} : Link)])[i]? = some l → s.links[i]? = some l ∨ (i = s.links.length ∧ l = {}) := by
    intro i l hi
    rw [List.getElem?_append] at hi
    split at hi
    · left; exact hi
    · right
      have : i - s.links.length = 0 := by
        by_cases h0 : i - s.links.length = 0
        · exact h0
        · rw [List.getElem?_eq_none (by simp; omega)] at hi
          cases hi
      rw [this] at hi
      simp at hi
      exact ⟨by omega, hi.symm⟩
  refine { fine := h.fine, cur := ?_, single := ?_, phase := ?_, prefixed := h.prefixed, whole := ?_, fresh := ?_, bound := ?_, new := ?_ }
  · simp
  · intro k p hk hp
    rw [List.getElem?_append] at hk
    split at hk
    · exact absurd (hd p (List.mem_of_getElem? hk)) hp
    · by_cases h0 : k - s.calls.length = 0
      · simp; omega
      · rw [List.getElem?_eq_none (by simp; omega)] at hk
        cases hk
  · rw [hlast]
    refine ⟨by simp, by simp⟩
  · intro i l hi hu
    rw [hlast]
    obtain hi | ⟨_, rfl⟩ := get i l hi
    · have := h.whole i l hi hu
      rw [hl] at this
      exact this
    · cases hu
  · intro i l hi hu
    obtain hi | ⟨rfl, rfl⟩ := get i l hi
    · exact h.fresh i l hi hu
    · exact ⟨rfl, h.new _ (Nat.le_refl _)⟩
  · intro i l hi
    rw [hlast]
    obtain hi | ⟨_, rfl⟩ := get i l hi
    · have := h.bound i l hi
      rw [hl] at this
      exact this
    · exact ⟨by decide, by intro _; simp [busy, cap]⟩
  · intro i hi
    simp at hi
    exact h.new i (by omega)

/-- A call returns without a connection. -/
theorem inv_done {s : State} (h : Inv s) {k own : Nat} (hk : s.calls[k]? = some (.dialing own)) :
    Inv { s with calls := s.calls.set k .done } := by
  obtain ⟨hl, hk1⟩ := last_of h hk (by intro h0; cases h0)
  have hlast : State.last { s with calls := s.calls.set k .done } = .done := last_set _ _ _ hk1
  refine { h with single := single_set h k .done hk1, phase := (by rw [hlast]; trivial), whole := ?_, bound := ?_ }
  · intro i l hi hu
    rw [hlast]
    have := h.whole i l hi hu
    rw [hl] at this
    exact this
  · intro i l hi
    rw [hlast]
    have := h.bound i l hi
    rw [hl] at this
    exact this

/-- The dial succeeded: the link is up and has one writer. -/
theorem inv_dialed {s : State} (h : Inv s) {k own : Nat} (hk : s.calls[k]? = some (.dialing own)) :
    Inv { s with links := s.links.set own { ws := .up, writers := 1 }, calls := s.calls.set k (.reading own) } := by
  obtain ⟨hl, hk1⟩ := last_of h hk (by intro h0; cases h0)
  have hlast : State.last { s with links := s.links.set own { ws := .up, writers := 1 }, calls := s.calls.set k (.reading own) } = .reading own :=
    last_set _ _ _ hk1
  have hp := h.phase
  rw [hl] at hp
  have hlt : own < s.links.length := by have := hp.1; omega
  have hsh : shownOn own s.log = [] := (h.fresh own _ hp.2 rfl).2
  have get : ∀ (c : Nat) (l : Link), (s.links.set own { ws := .up, writers := 1 })[c]? = some l →
      (c ≠ own ∧ s.links[c]? = some l) ∨ (c = own ∧ l = { ws := .up, writers := 1 }) := by
    intro c l hc
    rw [List.getElem?_set] at hc
    split at hc
    · right; exact ⟨by omega, by cases hc; rfl⟩
    · left; exact ⟨by omega, hc⟩
  refine { h with cur := ?_, single := single_set h k _ hk1, phase := ?_, whole := ?_, fresh := ?_, bound := ?_, new := ?_ }
  · show s.cur = _
    rw [h.cur]
    have h1 : s.links ≠ [] := by intro h0; rw [h0] at hlt; exact absurd hlt (by simp)
    have h2 : s.links.set own { ws := .up, writers := 1 } ≠ [] := by intro h0; apply h1; have := congrArg List.length h0; simpa using this
    rw [if_neg h1, if_neg h2, List.length_set]
  · rw [hlast]
    refine ⟨by rw [List.length_set]; exact hp.1, { ws := .up, writers := 1 }, ?_, by decide⟩
    rw [List.getElem?_set, if_pos rfl, if_pos hlt]
  · intro i l hi hu
    rw [hlast]
    obtain ⟨_, hi⟩ | ⟨rfl, rfl⟩ := get i l hi
    · have := h.whole i l hi hu
      rw [hl] at this
      exact this
    · refine ⟨?_, by decide⟩
      show ackedOn i s.log ++ [] ++ [] = shownOn i s.log
      have := h.prefixed i
      rw [hsh] at this ⊢
      rw [List.prefix_nil.mp this]
      rfl
  · intro i l hi hu
    obtain ⟨_, hi⟩ | ⟨rfl, rfl⟩ := get i l hi
    · exact h.fresh i l hi hu
    · cases hu
  · intro i l hi
    rw [hlast]
    obtain ⟨_, hi⟩ | ⟨rfl, rfl⟩ := get i l hi
    · have := h.bound i l hi
      rw [hl] at this
      exact this
    · exact ⟨by decide, by intro h0; cases h0⟩
  · intro i hi
    rw [List.length_set] at hi
    exact h.new i hi

/-- A frame is read. -/
theorem inv_frame {s : State} (h : Inv s) {k id c : Nat} (hk : s.calls[k]? = some (.reading c)) (hu : s.ws c = .up) :
    Inv { s with calls := s.calls.set k (.handling c id c) } := by
  obtain ⟨hl, hk1⟩ := last_of h hk (by intro h0; cases h0)
  have hlast : State.last { s with calls := s.calls.set k (.handling c id c) } = .handling c id c := last_set _ _ _ hk1
  have hp := h.phase
  rw [hl] at hp
  refine { h with single := single_set h k _ hk1, phase := (by rw [hlast]; exact ⟨rfl, hp⟩), whole := ?_, bound := ?_ }
  · intro i l hi hu
    rw [hlast]
    have := h.whole i l hi hu
    rw [hl] at this
    exact this
  · intro i l hi
    rw [hlast]
    have := h.bound i l hi
    refine ⟨this.1, ?_⟩
    intro hw
    by_cases hc : c = i
    · subst hc
      have hup : l.ws = .up := by unfold State.ws at hu; rw [hi] at hu; exact hu
      have := (h.whole c l hi hup).2
      omega
    · have := this.2 hw
      rw [hl] at this
      simp only [busy, if_neg hc] at this ⊢
      exact this

/-- It is shown. -/
theorem inv_shows {s : State} (h : Inv s) {k i id c : Nat} (hk : s.calls[k]? = some (.handling i id c)) :
    Inv { s with calls := s.calls.set k (.acking i id c), log := s.log ++ [.shown i id] } := by
  obtain ⟨hl, hk1⟩ := last_of h hk (by intro h0; cases h0)
  have hlast : State.last { s with calls := s.calls.set k (.acking i id c), log := s.log ++ [.shown i id] } = .acking i id c :=
    last_set _ _ _ hk1
  have hp := h.phase
  rw [hl] at hp
  obtain ⟨rfl, hp1, l0, hl0, hn0⟩ := hp
  have h1 : ∀ j, ackedOn j (s.log ++ [.shown i id]) = ackedOn j s.log := by intro j; simp [ackedOn]
  have h2 : shownOn i (s.log ++ [.shown i id]) = shownOn i s.log ++ [id] := by simp [shownOn]
  have h3 : ∀ j, j ≠ i → shownOn j (s.log ++ [.shown i id]) = shownOn j s.log := by
    intro j hj; simp [shownOn, Ne.symm hj]
  refine { h with single := single_set h k _ hk1, phase := ?_, prefixed := ?_, whole := ?_, fresh := ?_, bound := ?_, new := ?_ }
  · rw [hlast]; exact ⟨rfl, hp1, l0, hl0, hn0⟩
  · intro j
    show ackedOn j (s.log ++ _) <+: shownOn j (s.log ++ _)
    rw [h1]
    by_cases hj : j = i
    · subst hj; rw [h2]; exact (h.prefixed j).trans (List.prefix_append _ _)
    · rw [h3 j hj]; exact h.prefixed j
  · intro j l hi hu
    rw [hlast]
    show ackedOn j (s.log ++ _) ++ _ ++ _ = shownOn j (s.log ++ _) ∧ _
    have := h.whole j l hi hu
    rw [hl] at this
    refine ⟨?_, this.2⟩
    rw [h1]
    have h4 := this.1
    by_cases hj : j = i
    · subst hj
      rw [h2, ← h4]
      simp [pend]
    · rw [h3 j hj, ← h4]
      simp [pend, Ne.symm hj]
  · intro j l hi hu
    show _ ∧ shownOn j (s.log ++ _) = _
    by_cases hj : j = i
    · subst hj
      have hi' : s.links[j]? = some l := hi
      rw [hl0] at hi'
      cases hi'
      exact absurd hu hn0
    · rw [h3 j hj]; exact h.fresh j l hi hu
  · intro j l hi
    rw [hlast]
    have := h.bound j l hi
    rw [hl] at this
    exact this
  · intro j hj
    show shownOn j (s.log ++ _) = _
    have hj' : s.links.length ≤ j := hj
    rw [h3 j (by omega)]
    exact h.new j hj

/-- It is acknowledged. -/
theorem inv_ack {s : State} (h : Inv s) {k i id c : Nat} (hk : s.calls[k]? = some (.acking i id c)) {l : Link}
    (hc : s.links[c]? = some l) (hb : l.buf.length < cap) :
    Inv { s with links := s.links.set c { l with buf := l.buf ++ [id] }, calls := s.calls.set k (.reading c) } := by
  obtain ⟨hl, hk1⟩ := last_of h hk (by intro h0; cases h0)
  have hlast : State.last { s with links := s.links.set c { l with buf := l.buf ++ [id] }, calls := s.calls.set k (.reading c) } = .reading c :=
    last_set _ _ _ hk1
  have hp := h.phase
  rw [hl] at hp
  obtain ⟨rfl, hp1, l0, hl0, hn0⟩ := hp
  rw [hc] at hl0
  cases hl0
  have hlt : i < s.links.length := by omega
  have get : ∀ (j : Nat) (m : Link), (s.links.set i { l with buf := l.buf ++ [id] })[j]? = some m →
      (j ≠ i ∧ s.links[j]? = some m) ∨ (j = i ∧ m = { l with buf := l.buf ++ [id] }) := by
    intro j m hj
    rw [List.getElem?_set] at hj
    split at hj
    · right; exact ⟨by omega, by cases hj; rfl⟩
    · left; exact ⟨by omega, hj⟩
  refine { h with cur := ?_, single := single_set h k _ hk1, phase := ?_, whole := ?_, fresh := ?_, bound := ?_, new := ?_ }
  · show s.cur = _
    rw [h.cur]
    have h1 : s.links ≠ [] := by intro h0; rw [h0] at hlt; exact absurd hlt (by simp)
    have h2 : s.links.set i { l with buf := l.buf ++ [id] } ≠ [] := by intro h0; apply h1; have := congrArg List.length h0; simpa using this
    rw [if_neg h1, if_neg h2, List.length_set]
  · rw [hlast]
    refine ⟨by rw [List.length_set]; exact hp1, { l with buf := l.buf ++ [id] }, ?_, hn0⟩
    rw [List.getElem?_set, if_pos rfl, if_pos hlt]
  · intro j m hj hu
    rw [hlast]
    obtain ⟨hne, hj⟩ | ⟨rfl, rfl⟩ := get j m hj
    · have := h.whole j m hj hu
      rw [hl] at this
      simp only [pend, if_neg (Ne.symm hne)] at this
      exact this
    · have := h.whole j l hc hu
      rw [hl] at this
      simp only [pend, if_pos] at this
      refine ⟨?_, this.2⟩
      rw [← this.1]
      simp [pend]
  · intro j m hj hu
    obtain ⟨_, hj⟩ | ⟨rfl, rfl⟩ := get j m hj
    · exact h.fresh j m hj hu
    · exact absurd hu hn0
  · intro j m hj
    rw [hlast]
    obtain ⟨hne, hj⟩ | ⟨rfl, rfl⟩ := get j m hj
    · have := h.bound j m hj
      rw [hl] at this
      simp only [busy, if_neg (Ne.symm hne)] at this
      exact this
    · have hb' := h.bound j l hc
      rw [hl] at hb'
      refine ⟨by simp; omega, ?_⟩
      intro hw
      have := hb'.2 hw
      simp [busy] at this ⊢
      omega
  · intro j hj
    rw [List.length_set] at hj
    exact h.new j hj

/-- A call finds its connection closed. -/
theorem inv_fails {s : State} (h : Inv s) {k c : Nat} (hk : s.calls[k]? = some (.reading c)) :
    Inv { s with links := s.links.modify c Link.close, calls := s.calls.set k .done } := by
  obtain ⟨hl, hk1⟩ := last_of h hk (by intro h0; cases h0)
  have h' := inv_close h c
  have hlast : State.last { s with links := s.links.modify c Link.close, calls := s.calls.set k .done } = .done :=
    last_set _ _ _ hk1
  have hl' : State.last { s with links := s.links.modify c Link.close } = .reading c := hl
  refine { h' with single := single_set h k .done hk1, phase := (by rw [hlast]; trivial), whole := ?_, bound := ?_ }
  · intro i l hi hu
    rw [hlast]
    have := h'.whole i l hi hu
    rw [hl'] at this
    exact this
  · intro i l hi
    rw [hlast]
    have := h'.bound i l hi
    rw [hl'] at this
    exact this

/-- A writer takes an acknowledgement: `m` is the link afterwards. -/
theorem inv_write {s : State} (h : Inv s) {i a : Nat} {l : Link} {rest : List Nat} (hi : s.links[i]? = some l)
    (hb : l.buf = a :: rest) (hw : l.writers ≠ 0) :
    (l.ws = .up → Inv { s with links := s.links.set i { l with buf := rest }, log := s.log ++ [.acked i a] }) ∧
    (l.ws ≠ .up → Inv { s with links := s.links.set i { l with buf := rest, writers := l.writers - 1 } }) := by
  have hlt : i < s.links.length := (List.getElem?_eq_some_iff.mp hi).1
  have hcur : ∀ m, s.cur = if s.links.set i m = [] then none else some ((s.links.set i m).length - 1) := by
    intro m
    rw [h.cur]
    have h1 : s.links ≠ [] := by intro h0; rw [h0] at hlt; exact absurd hlt (by simp)
    have h2 : s.links.set i m ≠ [] := by intro h0; apply h1; have := congrArg List.length h0; simpa using this
    rw [if_neg h1, if_neg h2, List.length_set]
  have hphase : ∀ m : Link, l.ws ≠ .nil → m.ws = l.ws → PhaseOk (s.links.set i m) s.last := by
    intro m hn hm
    have key : ∀ (c : Nat), (∃ l : Link, s.links[c]? = some l ∧ l.ws ≠ .nil) → ∃ l : Link, (s.links.set i m)[c]? = some l ∧ l.ws ≠ .nil := by
      rintro c ⟨l1, h1, h2⟩
      by_cases hc : i = c
      · subst hc
        exact ⟨m, by rw [List.getElem?_set, if_pos rfl, if_pos hlt], by rw [hm]; exact hn⟩
      · exact ⟨l1, by rw [List.getElem?_set, if_neg hc]; exact h1, h2⟩
    have hp := h.phase
    cases hl : s.last with
    | dialing own =>
      rw [hl] at hp
      refine ⟨by rw [List.length_set]; exact hp.1, ?_⟩
      rw [List.getElem?_set, if_neg]
      · exact hp.2
      · rintro rfl
        rw [hp.2] at hi
        cases hi
        exact hn rfl
    | reading c => rw [hl] at hp; exact ⟨by rw [List.length_set]; exact hp.1, key c hp.2⟩
    | handling j id c => rw [hl] at hp; exact ⟨hp.1, by rw [List.length_set]; exact hp.2.1, key c hp.2.2⟩
    | acking j id c => rw [hl] at hp; exact ⟨hp.1, by rw [List.length_set]; exact hp.2.1, key c hp.2.2⟩
    | done => trivial
  have get : ∀ (m : Link) (j : Nat) (x : Link), (s.links.set i m)[j]? = some x →
      (j ≠ i ∧ s.links[j]? = some x) ∨ (j = i ∧ x = m) := by
    intro m j x hj
    rw [List.getElem?_set] at hj
    split at hj
    · right; exact ⟨by omega, by cases hj; rfl⟩
    · left; exact ⟨by omega, hj⟩
  have hnil : l.ws ≠ .nil := by
    intro h0
    have := (h.fresh i l hi h0).1
    rw [this] at hb
    cases hb
  constructor
  · intro hu
    have hwh := h.whole i l hi hu
    have h1 : ackedOn i (s.log ++ [.acked i a]) = ackedOn i s.log ++ [a] := by simp [ackedOn]
    have h2 : ∀ j, j ≠ i → ackedOn j (s.log ++ [.acked i a]) = ackedOn j s.log := by
      intro j hj; simp [ackedOn, Ne.symm hj]
    have h3 : ∀ j, shownOn j (s.log ++ [.acked i a]) = shownOn j s.log := by intro j; simp [shownOn]
    have hwh2 : ackedOn i s.log ++ [a] ++ rest ++ pend i s.last = shownOn i s.log := by
      rw [← hwh.1, hb]; simp
    refine { h with cur := hcur _, phase := hphase _ hnil rfl, prefixed := ?_, whole := ?_, fresh := ?_, bound := ?_, new := ?_ }
    · intro j
      show ackedOn j (s.log ++ _) <+: shownOn j (s.log ++ _)
      rw [h3]
      by_cases hj : j = i
      · subst hj
        rw [h1]
        exact ⟨rest ++ pend j s.last, by rw [← hwh2]; simp⟩
      · rw [h2 j hj]; exact h.prefixed j
    · intro j x hj hx
      show ackedOn j (s.log ++ _) ++ x.buf ++ pend j s.last = shownOn j (s.log ++ _) ∧ _
      rw [h3]
      obtain ⟨hne, hj⟩ | ⟨rfl, rfl⟩ := get _ j x hj
      · rw [h2 j hne]; exact h.whole j x hj hx
      · rw [h1]; exact ⟨hwh2, hwh.2⟩
    · intro j x hj hx
      show _ ∧ shownOn j (s.log ++ _) = _
      rw [h3]
      obtain ⟨hne, hj⟩ | ⟨rfl, rfl⟩ := get _ j x hj
      · exact h.fresh j x hj hx
      · exact absurd hx hnil
    · intro j x hj
      show _ ∧ (_ → _ + busy j s.last ≤ _)
      obtain ⟨hne, hj⟩ | ⟨rfl, rfl⟩ := get _ j x hj
      · exact h.bound j x hj
      · have := h.bound j l hi
        rw [hb] at this
        simp at this ⊢
        refine ⟨by omega, by intro h0; exact absurd h0 hw⟩
    · intro j hj
      rw [List.length_set] at hj
      show shownOn j (s.log ++ _) = _
      rw [h3]
      exact h.new j hj
  · intro hu
    refine { h with cur := hcur _, phase := hphase _ hnil rfl, whole := ?_, fresh := ?_, bound := ?_, new := ?_ }
    · intro j x hj hx
      show ackedOn j s.log ++ x.buf ++ pend j s.last = shownOn j s.log ∧ _
      obtain ⟨hne, hj⟩ | ⟨rfl, rfl⟩ := get _ j x hj
      · exact h.whole j x hj hx
      · exact absurd hx hu
    · intro j x hj hx
      obtain ⟨hne, hj⟩ | ⟨rfl, rfl⟩ := get _ j x hj
      · exact h.fresh j x hj hx
      · exact absurd hx hnil
    · intro j x hj
      show _ ∧ (_ → _ + busy j s.last ≤ _)
      obtain ⟨hne, hj⟩ | ⟨rfl, rfl⟩ := get _ j x hj
      · exact h.bound j x hj
      · have h1 := h.bound j l hi
        rw [hb] at h1
        simp at h1 ⊢
        have hbusy : busy j s.last ≤ 1 := by
          unfold busy
          split <;> (try split) <;> omega
        refine ⟨by omega, by intro _; omega⟩
    · intro j hj
      rw [List.length_set] at hj
      exact h.new j hj

/-- Every action of an orderly run keeps the invariant. -/
theorem inv_step {s s' : State} {a : Action} (h : Inv s) (h1 : a = .start → ∀ p ∈ s.calls, p = .done)
    (hs : step s a = some s') : Inv s' := by
  have hf : ¬ (s.crashed = true) := by rw [h.fine]; decide
  cases a with
  | start =>
    simp only [step, if_neg hf, Option.some.injEq] at hs
    subst hs
    exact inv_start h (h1 rfl)
  | dialed k ok =>
    simp only [step, if_neg hf] at hs
    split at hs
    · rename_i own hk
      split at hs
      · obtain ⟨hl, hk1⟩ := last_of h hk (by intro h0; cases h0)
        have hp := h.phase
        rw [hl] at hp
        have hlt : own < s.links.length := by have := hp.1; omega
        have hmod : s.links.modify own (fun l => { l with ws := .up }) = s.links.set own { ws := .up } := by
          exact modify_set _ hp.2
        have hmod2 : (s.links.set own { ws := .up }).modify own (fun l => { l with writers := l.writers + 1 })
            = s.links.set own { ws := .up, writers := 1 } := by
          rw [modify_set (a := { ws := .up }) _ (by rw [List.getElem?_set, if_pos rfl, if_pos hlt])]
          simp
        have hcur := cur_last h hp.1
        rw [hcur] at hs
        simp only [hmod] at hs
        rw [if_neg (by rw [List.getElem?_set, if_pos rfl, if_pos hlt]; decide), hmod2] at hs
        cases hs
        have := inv_dialed h hk
        rw [hcur] at this
        exact this
      · cases hs
        exact inv_done h hk
    · cases hs
  | frame k id =>
    simp only [step, if_neg hf] at hs
    split at hs
    · rename_i c j hk hj
      obtain ⟨hl, hk1⟩ := last_of h hk (by intro h0; cases h0)
      have hp := h.phase
      rw [hl] at hp
      have hcj : j = c := by have := cur_last h hp.1; rw [this] at hj; cases hj; rfl
      subst hcj
      split at hs
      · rename_i hu
        cases hs
        exact inv_frame h hk hu
      · cases hs
    · cases hs
  | shows k =>
    simp only [step, if_neg hf] at hs
    split at hs
    · rename_i i id c hk
      cases hs
      exact inv_shows h hk
    · cases hs
  | ack k =>
    simp only [step, if_neg hf] at hs
    split at hs
    · rename_i i id c j hk hj
      obtain ⟨hl, hk1⟩ := last_of h hk (by intro h0; cases h0)
      have hp := h.phase
      rw [hl] at hp
      obtain ⟨_, hp1, l, hc, _⟩ := hp
      have hcj : j = c := by have := cur_last h hp1; rw [this] at hj; cases hj; rfl
      subst hcj
      split at hs
      · rename_i hb
        rw [hc] at hb
        cases hs
        have := inv_ack h hk hc hb
        have hm : s.links.modify j (fun l => { l with buf := l.buf ++ [id] }) = s.links.set j { l with buf := l.buf ++ [id] } := by
          exact modify_set _ hc
        rw [hm]
        exact this
      · cases hs
    · cases hs
  | fails k =>
    simp only [step, if_neg hf] at hs
    split at hs
    · rename_i c j hk hj
      obtain ⟨hl, hk1⟩ := last_of h hk (by intro h0; cases h0)
      have hp := h.phase
      rw [hl] at hp
      obtain ⟨hp1, l, hc, hn⟩ := hp
      have hcj : j = c := by have := cur_last h hp1; rw [this] at hj; cases hj; rfl
      subst hcj
      split at hs
      · rename_i hw
        unfold State.ws at hw
        rw [hc] at hw
        exact absurd hw hn
      · split at hs
        · cases hs
          exact inv_fails h hk
        · cases hs
    · cases hs
  | write i =>
    simp only [step, if_neg hf] at hs
    split at hs
    · cases hs
    · rename_i l hi
      split at hs
      · cases hs
      · rename_i a rest hb
        split at hs
        · cases hs
        · rename_i hw
          split at hs
          · rename_i hu
            cases hs
            exact (inv_write h hi hb hw).1 hu
          · rename_i hu
            cases hs
            exact (inv_write h hi hb hw).2 hu
  | drop i =>
    simp only [step, if_neg hf, Option.some.injEq] at hs
    subst hs
    exact inv_close h i
  | stop =>
    simp only [step, if_neg hf] at hs
    split at hs
    · cases hs
      exact inv_stopped h false
    · rename_i j _
      cases hs
      exact inv_stopped (inv_close h j) true

theorem inv_run : ∀ {acts : List Action} {s s' : State}, Inv s → Orderly s acts → run s acts = some s' → Inv s'
  | [], s, s', h, _, hr => by cases hr; exact h
  | a :: as, s, s', h, ho, hr => by
    simp only [run, Option.bind_eq_some_iff] at hr
    obtain ⟨s1, h1, h2⟩ := hr
    exact inv_run (inv_step h ho.1 h1) (ho.2.2 s1 h1) h2

theorem run_append : ∀ (as bs : List Action) (s : State), run s (as ++ bs) = (run s as).bind (fun s' => run s' bs)
  | [], _, _ => rfl
  | a :: as, bs, s => by
    show (step s a).bind _ = ((step s a).bind _).bind _
    cases step s a with
    | none => rfl
    | some s1 => exact run_append as bs s1

theorem orderly_append : ∀ {as bs : List Action} {s s' : State}, Orderly s (as ++ bs) → run s as = some s' →
    Orderly s as ∧ Orderly s' bs
  | [], bs, s, s', h, hr => by cases hr; exact ⟨trivial, h⟩
  | a :: as, bs, s, s', h, hr => by
    simp only [run, Option.bind_eq_some_iff] at hr
    obtain ⟨s1, h1, h2⟩ := hr
    have h3 := orderly_append (h.2.2 s1 h1) h2
    refine ⟨⟨h.1, h.2.1, ?_⟩, h3.2⟩
    intro s'' hs''
    rw [h1] at hs''
    cases hs''
    exact h3.1

/-- After `StopListening`: nothing is connecting and the connection is closed. -/
structure Stopped (s : State) : Prop where
  calls : ∀ p ∈ s.calls, p.isDialing = false
  cur : ∀ j, s.cur = some j → s.ws j ≠ .up

/-- The frame read and not shown yet. -/
def unshown : Phase → List (Nat × Nat)
  | .handling i id _ => [(i, id)]
  | _ => []

/-- Nothing was shown, or the frame that was being handled. -/
def Rest (s s' : State) : Prop :=
  (shownAll s'.log = shownAll s.log ∧ unshown s'.last = unshown s.last) ∨
  (shownAll s'.log = shownAll s.log ++ unshown s.last ∧ unshown s'.last = [])

theorem Rest.trans {a b c : State} (h1 : Rest a b) (h2 : Rest b c) : Rest a c := by
  obtain ⟨h1, h1'⟩ | ⟨h1, h1'⟩ := h1 <;> obtain ⟨h2, h2'⟩ | ⟨h2, h2'⟩ := h2
  · exact Or.inl ⟨h2.trans h1, h2'.trans h1'⟩
  · exact Or.inr ⟨by rw [h2, h1, h1'], h2'⟩
  · exact Or.inr ⟨h2.trans h1, h2'.trans h1'⟩
  · exact Or.inr ⟨by rw [h2, h1, h1', List.append_nil], h2'⟩

theorem ws_modify_close (s : State) (i j : Nat) (h : s.ws j ≠ .up) :
    State.ws { s with links := s.links.modify i Link.close } j ≠ .up := by
  unfold State.ws at h ⊢
  simp only [List.getElem?_modify]
  cases hj : s.links[j]? with
  | none => rw [hj] at h; exact h
  | some l =>
    rw [hj] at h
    simp only [Option.map_eq_map, Option.map_some, Option.getD_some] at h ⊢
    split
    · simp only [Link.close, if_neg h]; exact h
    · exact h

theorem mem_set {calls : List Phase} {k : Nat} {p q : Phase} (h : p ∈ calls.set k q) : p ∈ calls ∨ p = q :=
  List.mem_or_eq_of_mem_set h

/-- A step after `StopListening`. -/
theorem stopped_step {s s' : State} {a : Action} (h : Inv s) (hS : Stopped s) (ha : a ≠ .start)
    (hs : step s a = some s') : Stopped s' ∧ Rest s s' := by
  have hf : ¬ (s.crashed = true) := by rw [h.fine]; decide
  have dial : ∀ (k own : Nat), s.calls[k]? ≠ some (.dialing own) := by
    intro k own hk
    have := hS.calls _ (List.mem_of_getElem? hk)
    cases this
  cases a with
  | start => exact absurd rfl ha
  | dialed k ok =>
    simp only [step, if_neg hf] at hs
    split at hs
    · rename_i own hk
      exact absurd hk (dial k own)
    · cases hs
  | frame k id =>
    simp only [step, if_neg hf] at hs
    split at hs
    · rename_i c j hk hj
      rw [if_neg (hS.cur j hj)] at hs
      cases hs
    · cases hs
  | shows k =>
    simp only [step, if_neg hf] at hs
    split at hs
    · rename_i i id c hk
      obtain ⟨hl, hk1⟩ := last_of h hk (by intro h0; cases h0)
      cases hs
      refine ⟨⟨?_, hS.cur⟩, ?_⟩
      · intro p hp
        obtain hp | rfl := mem_set hp
        · exact hS.calls p hp
        · rfl
      · have hlast : State.last { s with calls := s.calls.set k (.acking i id c), log := s.log ++ [.shown i id] } = .acking i id c :=
          last_set _ _ _ hk1
        right
        rw [hlast, hl]
        simp [shownAll, unshown]
    · cases hs
  | ack k =>
    simp only [step, if_neg hf] at hs
    split at hs
    · rename_i i id c j hk hj
      obtain ⟨hl, hk1⟩ := last_of h hk (by intro h0; cases h0)
      split at hs
      · cases hs
        refine ⟨⟨?_, ?_⟩, ?_⟩
        · intro p hp
          obtain hp | rfl := mem_set hp
          · exact hS.calls p hp
          · rfl
        · intro j' hj'
          have h1 := hS.cur j' hj'
          unfold State.ws at h1 ⊢
          simp only [List.getElem?_modify]
          cases hj2 : s.links[j']? with
          | none => intro h0; cases h0
          | some l =>
            rw [hj2] at h1
            simp only [Option.map_eq_map, Option.map_some, Option.getD_some] at h1 ⊢
            split
            · exact h1
            · exact h1
        · have hlast : (s.calls.set k (.reading c)).getLastD .done = .reading c := last_set _ _ _ hk1
          left
          refine ⟨rfl, ?_⟩
          show unshown ((s.calls.set k (.reading c)).getLastD .done) = _
          rw [hlast, hl]
          rfl
      · cases hs
    · cases hs
  | fails k =>
    simp only [step, if_neg hf] at hs
    split at hs
    · rename_i c j hk hj
      obtain ⟨hl, hk1⟩ := last_of h hk (by intro h0; cases h0)
      split at hs
      · cases hs
        exact ⟨⟨hS.calls, hS.cur⟩, Or.inl ⟨rfl, rfl⟩⟩
      · split at hs
        · cases hs
          refine ⟨⟨?_, ?_⟩, ?_⟩
          · intro p hp
            obtain hp | rfl := mem_set hp
            · exact hS.calls p hp
            · rfl
          · intro j' hj'
            exact ws_modify_close s c j' (hS.cur j' hj')
          · have hlast : (s.calls.set k .done).getLastD .done = .done := last_set _ _ _ hk1
            left
            refine ⟨rfl, ?_⟩
            show unshown ((s.calls.set k .done).getLastD .done) = _
            rw [hlast, hl]
            rfl
        · cases hs
    · cases hs
  | write i =>
    simp only [step, if_neg hf] at hs
    split at hs
    · cases hs
    · rename_i l hi
      have hws : ∀ (m : Link) j, m.ws = l.ws → (((s.links.set i m)[j]?).map Link.ws).getD .nil = s.ws j := by
        intro m j hm
        unfold State.ws
        rw [List.getElem?_set]
        have := (List.getElem?_eq_some_iff.mp hi).1
        split
        · rename_i hij
          subst hij
          rw [hi]
          simp [this, hm]
        · rfl
      split at hs
      · cases hs
      · rename_i a rest hb
        split at hs
        · cases hs
        · split at hs
          · cases hs
            refine ⟨⟨hS.calls, ?_⟩, ?_⟩
            · intro j hj
              show (((s.links.set i _)[j]?).map Link.ws).getD .nil ≠ _
              rw [hws { l with buf := rest } j rfl]
              exact hS.cur j hj
            · exact Or.inl ⟨by simp [shownAll], rfl⟩
          · cases hs
            refine ⟨⟨hS.calls, ?_⟩, Or.inl ⟨rfl, rfl⟩⟩
            intro j hj
            show (((s.links.set i _)[j]?).map Link.ws).getD .nil ≠ _
            rw [hws { l with buf := rest, writers := l.writers - 1 } j rfl]
            exact hS.cur j hj
  | drop i =>
    simp only [step, if_neg hf, Option.some.injEq] at hs
    subst hs
    exact ⟨⟨hS.calls, fun j hj => ws_modify_close s i j (hS.cur j hj)⟩, Or.inl ⟨rfl, rfl⟩⟩
  | stop =>
    simp only [step, if_neg hf] at hs
    split at hs
    · cases hs
      refine ⟨⟨hS.calls, hS.cur⟩, ?_⟩
      exact Or.inl ⟨by simp [shownAll], rfl⟩
    · rename_i i _
      cases hs
      refine ⟨⟨hS.calls, fun j hj => ws_modify_close s i j (hS.cur j hj)⟩, ?_⟩
      exact Or.inl ⟨by simp [shownAll], rfl⟩

theorem stopped_run : ∀ {acts : List Action} {s s' : State}, Inv s → Stopped s → .start ∉ acts →
    run s acts = some s' → Stopped s' ∧ Inv s' ∧ Rest s s'
  | [], s, s', h, hS, _, hr => by cases hr; exact ⟨hS, h, Or.inl ⟨rfl, rfl⟩⟩
  | a :: as, s, s', h, hS, hn, hr => by
    simp only [run, Option.bind_eq_some_iff] at hr
    obtain ⟨s1, h1, h2⟩ := hr
    have ha : a ≠ .start := by rintro rfl; exact hn List.mem_cons_self
    have h3 := stopped_step h hS ha h1
    have h4 := stopped_run (inv_step h (by intro h0; exact absurd h0 ha) h1) h3.1
      (fun h5 => hn (List.mem_cons_of_mem _ h5)) h2
    exact ⟨h4.1, h4.2.1, h3.2.trans h4.2.2⟩

/-- `StopListening` itself. -/
theorem stop_stops {s s' : State} (h : Inv s) (hd : ∀ p ∈ s.calls, p.isDialing = false)
    (hs : step s .stop = some s') : Stopped s' ∧ shownAll s'.log = shownAll s.log ∧ s'.calls = s.calls := by
  have hf : ¬ (s.crashed = true) := by rw [h.fine]; decide
  simp only [step, if_neg hf] at hs
  split at hs
  · rename_i hc
    cases hs
    refine ⟨⟨hd, ?_⟩, by simp [shownAll], rfl⟩
    intro j hj
    rw [hc] at hj
    cases hj
  · rename_i i hc
    cases hs
    refine ⟨⟨hd, ?_⟩, by simp [shownAll], rfl⟩
    intro j hj
    have hj' : some i = some j := by rw [← hc]; exact hj
    cases hj'
    unfold State.ws
    simp only [List.getElem?_modify]
    cases hi : s.links[i]? with
    | none => intro h0; cases h0
    | some l =>
      simp only [if_true, Option.map_eq_map, Option.map_some, Option.getD_some, Link.close]
      split
      · intro h0; cases h0
      · assumption

/-- A call whose connection is closed can return. -/
theorem returns {s : State} (h : Inv s) {k : Nat} {p : Phase} (hk : s.calls[k]? = some p) (hd : p.isDialing = false)
    (hc : ∀ j, s.cur = some j → s.ws j = .closed) :
    ∃ more s', (∀ a ∈ more, a = .shows k ∨ a = .ack k ∨ a = .fails k ∨ ∃ j, a = .write j) ∧
      run s more = some s' ∧ s'.calls[k]? = some .done := by
  have hlt : k < s.calls.length := (List.getElem?_eq_some_iff.mp hk).1
  -- reading
  have rd : ∀ (s : State), s.crashed = false → k < s.calls.length → ∀ (c j : Nat), s.calls[k]? = some (.reading c) → s.cur = some j →
      s.ws j = .closed → ∃ s', step s (.fails k) = some s' ∧ s'.calls[k]? = some .done := by
    intro s hf hlt c j hk hj hw
    refine ⟨{ s with links := s.links.modify c Link.close, calls := s.calls.set k .done }, ?_, ?_⟩
    · simp [step, hf, hk, hj, hw]
    · simp [List.getElem?_set, hlt]
  -- acknowledging, with room
  have ak : ∀ (s : State), s.crashed = false → k < s.calls.length → ∀ (i id c j : Nat) (l : Link), s.calls[k]? = some (.acking i id c) →
      s.cur = some j → s.links[j]? = some l → l.ws = .closed → l.buf.length < cap →
      ∃ s', run s [.ack k, .fails k] = some s' ∧ s'.calls[k]? = some .done := by
    intro s hf hlt i id c j l hk hj hl hw hb
    obtain ⟨s1, hs1⟩ : ∃ s1 : State, s1 = { s with links := s.links.modify j (fun l => { l with buf := l.buf ++ [id] }), calls := s.calls.set k (.reading c) } := ⟨_, rfl⟩
    have h1 : step s (.ack k) = some s1 := by
      simp [step, hf, hk, hj, hl, hb, hs1]
    obtain ⟨s2, h2, h3⟩ := rd s1 (by rw [hs1]; exact hf) (by rw [hs1]; simpa using hlt) c j
      (by rw [hs1]; simp [List.getElem?_set, hlt]) (by rw [hs1]; exact hj)
      (by rw [hs1]; simp [State.ws, List.getElem?_modify, hl, hw])
    exact ⟨s2, by simp [run, h1, h2], h3⟩
  -- acknowledging
  have ak2 : ∀ (s : State), s.crashed = false → k < s.calls.length → ∀ (i id c j : Nat) (l : Link), s.calls[k]? = some (.acking i id c) →
      s.cur = some j → s.links[j]? = some l → l.ws = .closed → l.buf.length ≤ cap → (l.writers = 0 → l.buf.length < cap) →
      ∃ more s', (∀ a ∈ more, a = .shows k ∨ a = .ack k ∨ a = .fails k ∨ ∃ j, a = .write j) ∧
        run s more = some s' ∧ s'.calls[k]? = some .done := by
    intro s hf hlt i id c j l hk hj hl hw hb hz
    by_cases hfull : l.buf.length < cap
    · obtain ⟨s', h1, h2⟩ := ak s hf hlt i id c j l hk hj hl hw hfull
      refine ⟨[.ack k, .fails k], s', ?_, h1, h2⟩
      intro a ha
      simp at ha
      rcases ha with rfl | rfl <;> simp
    · have hwz : l.writers ≠ 0 := fun h0 => hfull (hz h0)
      cases hbuf : l.buf with
      | nil => rw [hbuf] at hfull; exact absurd (by decide) hfull
      | cons x rest =>
        have hjl : j < s.links.length := (List.getElem?_eq_some_iff.mp hl).1
        obtain ⟨s1, hs1⟩ : ∃ s1 : State, s1 = { s with links := s.links.set j { l with buf := rest, writers := l.writers - 1 } } := ⟨_, rfl⟩
        have h1 : step s (.write j) = some s1 := by
          simp [step, hf, hl, hbuf, hwz, hw, hs1]
        obtain ⟨s2, h2, h3⟩ := ak s1 (by rw [hs1]; exact hf) (by rw [hs1]; exact hlt) i id c j
          { l with buf := rest, writers := l.writers - 1 } (by rw [hs1]; exact hk) (by rw [hs1]; exact hj)
          (by rw [hs1]; simp [List.getElem?_set, hjl]) hw
          (by rw [hbuf] at hb; simp at hb ⊢; omega)
        refine ⟨[.write j, .ack k, .fails k], s2, ?_, by simp only [run] at h2 ⊢; rw [h1]; exact h2, h3⟩
        intro a ha
        simp at ha
        rcases ha with rfl | rfl | rfl <;> simp
  have hws : ∀ (c : Nat) (l : Link), c + 1 = s.links.length → s.links[c]? = some l → l.ws = .closed := by
    intro c l h1 h2
    have := hc c (cur_last h h1)
    unfold State.ws at this
    rw [h2] at this
    exact this
  cases p with
  | dialing own => cases hd
  | done => exact ⟨[], s, (by intro a ha; cases ha), rfl, hk⟩
  | reading c =>
    obtain ⟨hl, -⟩ := last_of h hk (by intro h0; cases h0)
    have hp := h.phase
    rw [hl] at hp
    obtain ⟨s', h1, h2⟩ := rd s h.fine hlt c c hk (cur_last h hp.1) (hc c (cur_last h hp.1))
    refine ⟨[.fails k], s', ?_, by simp [run, h1], h2⟩
    intro a ha
    simp at ha
    subst ha
    simp
  | acking i id c =>
    obtain ⟨hl, -⟩ := last_of h hk (by intro h0; cases h0)
    have hp := h.phase
    rw [hl] at hp
    obtain ⟨rfl, hp1, l, hl2, _⟩ := hp
    have hb := h.bound i l hl2
    rw [hl] at hb
    simp only [busy, if_pos] at hb
    exact ak2 s h.fine hlt i id i i l hk (cur_last h hp1) hl2 (hws i l hp1 hl2) hb.1 (by intro h0; have := hb.2 h0; omega)
  | handling i id c =>
    obtain ⟨hl, -⟩ := last_of h hk (by intro h0; cases h0)
    have hp := h.phase
    rw [hl] at hp
    obtain ⟨rfl, hp1, l, hl2, _⟩ := hp
    have hb := h.bound i l hl2
    rw [hl] at hb
    simp only [busy, if_pos] at hb
    obtain ⟨s1, hs1⟩ : ∃ s1 : State, s1 = { s with calls := s.calls.set k (.acking i id i), log := s.log ++ [.shown i id] } := ⟨_, rfl⟩
    have h1 : step s (.shows k) = some s1 := by
      simp [step, h.fine, hk, hs1]
    obtain ⟨more, s2, h2, h3, h4⟩ := ak2 s1 (by rw [hs1]; exact h.fine) (by rw [hs1]; simpa using hlt) i id i i l
      (by rw [hs1]; simp [List.getElem?_set, hlt]) (by rw [hs1]; exact cur_last h hp1) (by rw [hs1]; exact hl2)
      (hws i l hp1 hl2) hb.1 (by intro h0; have := hb.2 h0; omega)
    refine ⟨.shows k :: more, s2, ?_, by simp only [run]; rw [h1]; exact h3, h4⟩
    intro a ha
    simp at ha
    rcases ha with rfl | ha
    · simp
    · exact h2 a ha

end Verif.Listening
