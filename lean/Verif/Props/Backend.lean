import Verif.Model.Backend
/-!
# C140-C143: starting the companion process, requests to it, whose messages it opens
-/
namespace Verif.Props.Backend
open Verif Verif.Backend

/-! ## C140: a missing configuration is reported -/

/-- **C140 (part).** With a configuration, `Run` does not crash in making the instance. -/
theorem C140_configured_partial (s : State) (u : String) (h : s.cfg = some u) (s' : State) (hs : step s .begin = some s') :
    s'.crashed = false ∧ s'.inst = some u := by
  simp only [step, h] at hs
  split at hs
  · cases hs
  · rename_i hc
    injection hs with hs
    subst hs
    simp only [not_or] at hc
    exact ⟨by simpa using hc.1, rfl⟩

/-- What can happen before the instance exists, without a configuration. -/
theorem none_invariant : ∀ (as : List Action) (s s' : State), s.cfg = none → s.inst = none → s.cur = none →
    s.listener = .off → s.links = [] → exec s as = some s' → s'.crashed = true ∨
      (s'.crashed = s.crashed ∧ s'.inst = none ∧ as = []) := by
  intro as
  induction as with
  | nil =>
    intro s s' _ hi _ _ _ h
    injection h with h
    subst h
    exact Or.inr ⟨rfl, hi, rfl⟩
  | cons a as ih =>
    intro s s' hc hi hu hl hk h
    left
    obtain ⟨s1, h1, h2⟩ := Option.bind_eq_some_iff.mp h
    by_cases hcr : s.crashed = true
    · cases a <;> simp [step, hcr, hc, hi, hu, hl, hk] at h1
    · have hs1 : s1 = { s with crashed := true } := by
        obtain ⟨cfg, inst, lis, links, cur, sent, arr, cr⟩ := s
        simp only at hc hi hu hl hk hcr
        subst hc hi hu hl hk
        cases a <;> simp [step, hcr] at h1 <;> exact h1.symm
      have := ih s1 s' (by rw [hs1]; exact hc) (by rw [hs1]; exact hi) (by rw [hs1]; exact hu) (by rw [hs1]; exact hl)
        (by rw [hs1]; exact hk) h2
      rcases this with h | ⟨h, _, _⟩
      · exact h
      · rw [h, hs1]

/-- **C140 refuted.** If the configuration could not be loaded, then whatever happens next, it is a crash: `Setup`
returns its error, but the goroutine it started dereferences nil. -/
theorem C140_crash (a : Action) (as : List Action) (s' : State) (h : exec (start none) (a :: as) = some s') :
    s'.crashed = true := by
  rcases none_invariant (a :: as) _ s' rfl rfl rfl rfl rfl h with h | ⟨_, _, h⟩
  · exact h
  · cases h

/-- And that goroutine can always take its step. -/
theorem C140_can_crash : ∃ s', exec (start none) [.begin] = some s' ∧ s'.crashed = true := ⟨_, rfl, rfl⟩

/-! ## C141: the companion is found -/

/-- The programs there are. -/
def There (p : Place) : Prog → Prop
  | .inPath => p.inPath = true
  | .here => p.here = .file true
  | .debug => p.debug = .file true

/-- **C141 (part).** What is started is there; a program in the search path is started, and nothing else changes then;
the one in the source tree is started if there is none in the search path and `./crayfish` is a directory. Missing:
`./crayfish` itself. -/
theorem C141_found_partial (p : Place) :
    (∀ g, (locate p).1 = some g → There p g) ∧
    (p.inPath = true → locate p = (some .inPath, p.here)) ∧
    (p.inPath = false → p.here = .dir → p.debug = .file true → locate p = (some .debug, p.here)) := by
  refine ⟨?_, ?_, ?_⟩
  · intro g hg
    obtain ⟨ip, he, cc, de⟩ := p
    cases ip <;> cases cc <;> rcases he with _ | _ | (_ | _) <;> rcases de with _ | _ | (_ | _) <;>
      simp [locate, choose] at hg <;> subst hg <;> simp [There]
  · intro h; simp [locate, choose, h]
  · intro h1 h2 h3; simp [locate, choose, h1, h2, h3]

/-- **C141 refuted.** A program at `./crayfish` is never started. -/
theorem C141_here_ignored (p : Place) : (locate p).1 ≠ some .here := by
  obtain ⟨ip, he, cc, de⟩ := p
  cases ip <;> cases cc <;> rcases he with _ | _ | (_ | _) <;> rcases de with _ | _ | (_ | _) <;> decide

/-- **C141 refuted (litter).** With nothing in the search path and nothing at `./crayfish`, an empty file is made
there and the client ends, also if there is a program in the source tree's place; at the next start that file is in
the way and the client ends again unless `target/debug` has the program. -/
theorem C141_litter (p : Place) (h1 : p.inPath = false) (h2 : p.here = .absent) (h3 : p.canCreate = true) :
    locate p = (none, .file false) ∧
    locate { p with here := .file false } = (if p.debug = .file true then some .debug else none, .file false) := by
  constructor
  · simp [locate, choose, h1, h2, h3]
  · by_cases h4 : p.debug = .absent
    · simp [locate, choose, h1, h4]
    · simp [locate, choose, h1, h4]

/-! ## C142: requests arrive -/

/-- States of a run with a configuration. -/
inductive Reach (u : String) : State → Prop where
  | start : Reach u (start (some u))
  | step {s s' : State} {a : Action} : Reach u s → Backend.step s a = some s' → Reach u s'

/-- The connection in use. -/
def link (s : State) : Option Link := s.cur.bind (fun i => s.links[i]?)

/-- It delivers, or will if connecting succeeds. -/
def Hope (s : State) : Prop := (∃ l, link s = some l ∧ l.up = true) ∨ s.listener = .dialing

/-- The requests that may still be delivered. -/
def hopeful (lis : Listener) (l : Link) : List Req := if l.up = true ∨ lis = .dialing then l.buf else []

/-- Before the first connection, or with older connections `old` and the one in use, `l`. -/
inductive Shape (s : State) : Prop where
  | before (cur : s.cur = none) (links : s.links = []) (lis : s.listener = .off ∨ s.listener = .idle ∧ s.inst ≠ none)
      (order : s.arrived.Sublist s.sent)
  | later (old : List Link) (l : Link) (links : s.links = old ++ [l]) (cur : s.cur = some old.length)
      (down : ∀ o ∈ old, o.up = false) (inst : s.inst ≠ none) (on : s.listener ≠ .off)
      (fresh : s.listener = .dialing → l.up = false ∧ l.writer = false)
      (idle : s.listener = .idle → l.up = false) (works : l.up = true → l.writer = true)
      (order : (s.arrived ++ hopeful s.listener l).Sublist s.sent)

theorem shape_link {s : State} {old : List Link} {l : Link} (h1 : s.links = old ++ [l]) (h2 : s.cur = some old.length) :
    link s = some l := by
  simp [link, h1, h2]

theorem modify_last {α : Type} (old : List α) (l : α) (f : α → α) :
    (old ++ [l]).modify old.length f = old ++ [f l] := by
  induction old with
  | nil => rfl
  | cons a old ih => simp [List.modify_succ_cons, ih]

theorem set_last {α : Type} (old : List α) (l x : α) : (old ++ [l]).set old.length x = old ++ [x] := by
  simp

theorem set_old {α : Type} (old : List α) (l x : α) (i : Nat) (h : i < old.length) :
    (old ++ [l]).set i x = old.set i x ++ [l] := by
  rw [List.set_append_left _ _ h]

theorem get_last {α : Type} (old : List α) (l : α) : (old ++ [l])[old.length]? = some l := by simp

theorem shape_step {s s' : State} {a : Action} (hI : Shape s) (h : step s a = some s') : Shape s' := by
  obtain ⟨cfg, inst, lis, links, cur, sent, arr, cr⟩ := s
  cases hI with
  | before hc hl hlis ho =>
    simp only at hc hl hlis ho
    subst hc hl
    cases a with
    | begin =>
      simp only [step] at h
      split at h
      · cases h
      · split at h
        · injection h with h; subst h; exact .before rfl rfl hlis ho
        · injection h with h
          subst h
          exact .before rfl rfl (hlis.imp id (fun x => ⟨x.1, by simp⟩)) ho
    | spawn =>
      simp only [step] at h
      split at h
      · cases h
      · rename_i hx
        simp only [not_or] at hx
        injection h with h; subst h; exact .before rfl rfl (Or.inr ⟨rfl, hx.2.1⟩) ho
    | make =>
      simp only [step] at h
      split at h
      · cases h
      · rename_i hx
        simp only [not_or, Decidable.not_not] at hx
        injection h with h
        subst h
        refine .later [] {} rfl rfl (by simp) ?_ (by simp) (by simp) (by simp) (by simp) ?_
        · rcases hlis with h | h
          · rw [h] at hx; cases hx.2
          · exact h.2
        · simpa [hopeful] using ho
    | dial ok => simp only [step] at h; split at h <;> cases h
    | drop => simp [step] at h
    | readFails => simp [step] at h
    | request n =>
      simp only [step] at h
      split at h
      · cases h
      · split at h <;> injection h with h <;> subst h <;> exact .before rfl rfl hlis ho
    | write i => simp [step] at h
    | registered u =>
      simp only [step] at h
      split at h
      · cases h
      · split at h <;> injection h with h <;> subst h <;> exact .before rfl rfl hlis ho
  | later old l hl hc hd hi hon hf hid hw ho =>
    simp only at hl hc hd hi hon hf hid hw ho
    subst hc hl
    cases a with
    | begin =>
      simp only [step] at h
      split at h
      · cases h
      · split at h
        · injection h with h; subst h; exact .later old l rfl rfl hd hi hon hf hid hw ho
        · injection h with h; subst h; exact .later old l rfl rfl hd (by simp) hon hf hid hw ho
    | spawn =>
      simp only [step] at h
      split at h
      · cases h
      · rename_i hx
        simp only [not_or, Decidable.not_not] at hx
        exact absurd hx.2.2 hon
    | make =>
      simp only [step] at h
      split at h
      · cases h
      · rename_i hx
        simp only [not_or, Decidable.not_not] at hx
        injection h with h
        subst h
        refine .later (old ++ [l]) {} rfl rfl ?_ hi (by simp) (by simp) (by simp) (by simp) ?_
        · intro o ho
          rcases List.mem_append.mp ho with ho | ho
          · exact hd o ho
          · rw [List.mem_singleton.mp ho]; exact hid hx.2
        · have := (List.sublist_append_left arr (hopeful lis l)).trans ho
          simpa [hopeful] using this
    | dial ok =>
      simp only [step] at h
      split at h
      · cases h
      · rename_i hx
        simp only [not_or, Decidable.not_not] at hx
        have hff := hf hx.2
        have ho' : (arr ++ l.buf).Sublist sent := by simpa [hopeful, hx.2] using ho
        split at h
        · injection h with h
          subst h
          refine .later old { l with up := true, writer := true } (modify_last _ _ _) rfl hd hi (by simp) (by simp)
            (by simp) (by simp) ?_
          simpa [hopeful] using ho'
        · injection h with h
          subst h
          refine .later old l rfl rfl hd hi (by simp) (by simp) (fun _ => hff.1) hw ?_
          have := (List.sublist_append_left arr l.buf).trans ho'
          simpa [hopeful, hff.1] using this
    | drop =>
      simp only [step] at h
      split at h
      · cases h
      · injection h with h
        subst h
        refine .later old { l with up := false } (modify_last _ _ _) rfl hd hi hon (fun hx => ⟨rfl, (hf hx).2⟩)
          (fun _ => rfl) (by simp) ?_
        by_cases hdl : lis = .dialing
        · simpa [hopeful, hdl] using ho
        · have := (List.sublist_append_left arr (hopeful lis l)).trans ho
          simpa [hopeful, hdl] using this
    | readFails =>
      simp only [step, get_last] at h
      split at h
      · cases h
      · rename_i hx
        simp only [not_or, Decidable.not_not, Option.map_some, Option.getD_some, Bool.not_eq_true] at hx
        injection h with h
        subst h
        refine .later old l rfl rfl hd hi (by simp) (by simp) (fun _ => hx.2.2) hw ?_
        have := (List.sublist_append_left arr (hopeful lis l)).trans ho
        simpa [hopeful, hx.2.2] using this
    | request n =>
      simp only [step, get_last] at h
      split at h
      · cases h
      · split at h
        · exact absurd rfl hi
        · rename_i u
          split at h
          · cases h
          · injection h with h
            subst h
            refine .later old { l with buf := l.buf ++ [⟨n, u⟩] } (set_last _ _ _) rfl hd hi hon hf hid hw ?_
            by_cases hh : l.up = true ∨ lis = .dialing
            · have h1 : hopeful lis { l with buf := l.buf ++ [⟨n, u⟩] } = hopeful lis l ++ [⟨n, u⟩] := by
                simp [hopeful, hh]
              simp only [h1, ← List.append_assoc]
              exact ho.append (List.Sublist.refl _)
            · have h1 : hopeful lis { l with buf := l.buf ++ [⟨n, u⟩] } = [] := by simp only [hopeful, hh, if_false]
              simp only [h1, List.append_nil]
              exact ((List.sublist_append_left arr _).trans ho).trans (List.sublist_append_left _ _)
    | write i =>
      simp only [step] at h
      split at h
      · cases h
      · split at h
        · cases h
        · rename_i m hm
          split at h
          · cases h
          · rename_i hwr
            split at h
            · cases h
            · rename_i r rest hb
              by_cases hio : i < old.length
              · have hm' : old[i]? = some m := by rw [List.getElem?_append_left hio] at hm; exact hm
                have hmo : m ∈ old := List.mem_of_getElem? hm'
                have hup := hd m hmo
                rw [if_neg (by rw [hup]; simp)] at h
                injection h with h
                subst h
                refine .later (old.set i { m with buf := rest, writer := false }) l (set_old _ _ _ _ hio) (by simp) ?_ hi
                  hon hf hid hw ho
                intro o ho'
                rcases List.mem_or_eq_of_mem_set ho' with h | h
                · exact hd o h
                · rw [h]; exact hup
              · have hi' : i = old.length := by
                  have := (List.getElem?_eq_some_iff.mp hm).1
                  simp at this
                  omega
                subst hi'
                rw [get_last] at hm
                injection hm with hm
                subst hm
                have hnd : lis ≠ .dialing := by
                  intro hx
                  rw [(hf hx).2] at hwr
                  exact hwr rfl
                split at h
                · rename_i hup
                  injection h with h
                  subst h
                  refine .later old { l with buf := rest } (set_last _ _ _) rfl hd hi hon (fun x => absurd x hnd) hid hw ?_
                  simpa [hopeful, hup, hb] using ho
                · rename_i hup
                  injection h with h
                  subst h
                  refine .later old { l with buf := rest, writer := false } (set_last _ _ _) rfl hd hi hon
                    (fun x => absurd x hnd) hid (fun x => absurd x hup) ?_
                  have := (List.sublist_append_left arr (hopeful lis l)).trans ho
                  simpa [hopeful, hup, hnd] using this
    | registered u =>
      simp only [step] at h
      split at h
      · cases h
      · split at h <;> injection h with h <;> subst h <;> exact .later old l rfl rfl hd hi hon hf hid hw ho

theorem reach_shape {u : String} {s : State} (h : Reach u s) : Shape s := by
  induction h with
  | start => exact .before rfl rfl (Or.inl rfl) (by simp [start])
  | step _ hs ih => exact shape_step ih hs

/-- **C142 (part, order).** In every run: the requests that arrive are a subsequence of those made, so none arrives
twice and none overtakes another. -/
theorem C142_in_order_partial (u : String) (s : State) (h : Reach u s) : s.arrived.Sublist s.sent := by
  cases reach_shape h with
  | before _ _ _ ho => exact ho
  | later old l _ _ _ _ _ _ _ _ ho => exact (List.sublist_append_left _ _).trans ho

/-- The requests waiting in the connection in use. -/
def waiting (s : State) : List Req := ((link s).map Link.buf).getD []

theorem exec_append (s : State) (as bs : List Action) : exec s (as ++ bs) = (exec s as).bind (fun s' => exec s' bs) := by
  induction as generalizing s with
  | nil => rfl
  | cons a as ih =>
    simp only [List.cons_append, exec]
    rcases step s a with _ | s1
    · rfl
    · exact ih s1

theorem reach_exec {u : String} {s s' : State} (as : List Action) (h : Reach u s) (he : exec s as = some s') : Reach u s' := by
  induction as generalizing s with
  | nil => injection he with he; subst he; exact h
  | cons a as ih =>
    obtain ⟨s1, h1, h2⟩ := Option.bind_eq_some_iff.mp he
    exact ih (.step h h1) h2

/-- A step of a connection that is up, without a break. -/
theorem up_step {s s' : State} {a : Action} {old : List Link} {l : Link} (hl : s.links = old ++ [l])
    (hc : s.cur = some old.length) (hup : l.up = true) (hd : ∀ o ∈ old, o.up = false) (hi : s.inst ≠ none)
    (hlis : s.listener = .reading) (ha : a ≠ .drop) (h : step s a = some s') :
    ∃ old' l' new, s'.links = old' ++ [l'] ∧ s'.cur = some old'.length ∧ l'.up = true ∧ (∀ o ∈ old', o.up = false) ∧
      s'.inst ≠ none ∧ s'.listener = .reading ∧ s'.sent = s.sent ++ new ∧
      s'.arrived ++ l'.buf = s.arrived ++ l.buf ++ new := by
  obtain ⟨cfg, inst, lis, links, cur, sent, arr, cr⟩ := s
  simp only at hl hc hi hlis
  subst hc hl hlis
  cases a with
  | begin =>
    simp only [step] at h
    split at h
    · cases h
    · split at h
      · injection h with h; subst h; exact ⟨old, l, [], rfl, rfl, hup, hd, hi, rfl, by simp, by simp⟩
      · injection h with h; subst h; exact ⟨old, l, [], rfl, rfl, hup, hd, by simp, rfl, by simp, by simp⟩
  | spawn => simp [step] at h
  | make => simp [step] at h
  | dial ok => simp [step] at h
  | drop => exact absurd rfl ha
  | readFails => simp [step, hup] at h
  | request n =>
    simp only [step, get_last] at h
    split at h
    · cases h
    · split at h
      · exact absurd rfl hi
      · rename_i u
        split at h
        · cases h
        · injection h with h
          subst h
          exact ⟨old, { l with buf := l.buf ++ [⟨n, u⟩] }, [⟨n, u⟩], set_last _ _ _, rfl, hup, hd, hi, rfl, rfl, by simp⟩
  | write i =>
    simp only [step] at h
    split at h
    · cases h
    · split at h
      · cases h
      · rename_i m hm
        split at h
        · cases h
        · split at h
          · cases h
          · rename_i r rest hb
            by_cases hio : i < old.length
            · have hm' : old[i]? = some m := by rw [List.getElem?_append_left hio] at hm; exact hm
              have hmup := hd m (List.mem_of_getElem? hm')
              rw [if_neg (by rw [hmup]; simp)] at h
              injection h with h
              subst h
              refine ⟨old.set i { m with buf := rest, writer := false }, l, [], set_old _ _ _ _ hio, by simp, hup, ?_, hi,
                rfl, by simp, by simp⟩
              intro o ho'
              rcases List.mem_or_eq_of_mem_set ho' with h | h
              · exact hd o h
              · rw [h]; exact hmup
            · have hi' : i = old.length := by
                have := (List.getElem?_eq_some_iff.mp hm).1
                simp at this
                omega
              subst hi'
              rw [get_last] at hm
              injection hm with hm
              subst hm
              rw [if_pos hup] at h
              injection h with h
              subst h
              exact ⟨old, { l with buf := rest }, [], set_last _ _ _, rfl, hup, hd, hi, rfl, by simp, by simp [hb]⟩
  | registered u =>
    simp only [step] at h
    split at h
    · cases h
    · split at h <;> injection h with h <;> subst h <;>
        exact ⟨old, l, [], rfl, rfl, hup, hd, hi, rfl, by simp, by simp⟩

theorem up_exec (as : List Action) : ∀ {s s' : State} {old : List Link} {l : Link}, s.links = old ++ [l] →
    s.cur = some old.length → l.up = true → (∀ o ∈ old, o.up = false) → s.inst ≠ none → s.listener = .reading →
    (∀ a ∈ as, a ≠ .drop) → exec s as = some s' →
    ∃ old' l' new, s'.links = old' ++ [l'] ∧ s'.cur = some old'.length ∧ l'.up = true ∧ s'.sent = s.sent ++ new ∧
      s'.arrived ++ l'.buf = s.arrived ++ l.buf ++ new := by
  induction as with
  | nil =>
    intro s s' old l hl hc hup hd hi hlis _ h
    injection h with h
    subst h
    exact ⟨old, l, [], hl, hc, hup, by simp, by simp⟩
  | cons a as ih =>
    intro s s' old l hl hc hup hd hi hlis ha h
    obtain ⟨s1, h1, h2⟩ := Option.bind_eq_some_iff.mp h
    obtain ⟨o1, l1, n1, a1, a2, a3, a4, a5, a6, a7, a8⟩ :=
      up_step hl hc hup hd hi hlis (ha a List.mem_cons_self) h1
    obtain ⟨o2, l2, n2, b1, b2, b3, b4, b5⟩ := ih a1 a2 a3 a4 a5 a6 (fun x hx => ha x (List.mem_cons_of_mem _ hx)) h2
    exact ⟨o2, l2, n1 ++ n2, b1, b2, b3, by rw [b4, a7, List.append_assoc], by rw [b5, a8, List.append_assoc]⟩

/-- A connection that is up belongs to a listener that reads. -/
theorem up_reading {u : String} {s : State} (h : Reach u s) {l : Link} (hl : link s = some l) (hup : l.up = true) :
    ∃ old, s.links = old ++ [l] ∧ s.cur = some old.length ∧ (∀ o ∈ old, o.up = false) ∧ s.inst ≠ none ∧
      s.listener = .reading ∧ l.writer = true := by
  cases reach_shape h with
  | before hc _ _ _ => simp [link, hc] at hl
  | later old l' h1 h2 h3 h4 h5 h6 h7 h8 _ =>
    rw [shape_link h1 h2] at hl
    injection hl with hl
    subst hl
    refine ⟨old, h1, h2, h3, h4, ?_, h8 hup⟩
    cases hs : s.listener with
    | off => exact absurd hs h5
    | idle => rw [h7 hs] at hup; cases hup
    | dialing => rw [(h6 hs).1] at hup; cases hup
    | reading => rfl

/-- **C142 (part, nothing lost).** As long as the connection does not break: every request made is delivered or waits
in it, in order; and while one waits, the writer can deliver it. -/
theorem C142_kept_partial (u : String) (s s' : State) (h : Reach u s) (l : Link) (hl : link s = some l) (hup : l.up = true)
    (as : List Action) (ha : ∀ a ∈ as, a ≠ .drop) (he : exec s as = some s') :
    (∃ new, s'.sent = s.sent ++ new ∧ s'.arrived ++ waiting s' = s.arrived ++ waiting s ++ new) ∧
    (waiting s' ≠ [] → s'.crashed = false → ∃ i s2 r, step s' (.write i) = some s2 ∧ s2.arrived = s'.arrived ++ [r]) := by
  obtain ⟨old, h1, h2, h3, h4, h5, _⟩ := up_reading h hl hup
  obtain ⟨o', l', new, b1, b2, b3, b4, b5⟩ := up_exec as h1 h2 hup h3 h4 h5 ha he
  have hlk := shape_link b1 b2
  refine ⟨⟨new, b4, by simpa [waiting, hlk, hl] using b5⟩, ?_⟩
  intro hne hcr
  have hw := up_reading (reach_exec as h he) hlk b3
  obtain ⟨_, _, _, _, _, _, hwr⟩ := hw
  rcases hb : l'.buf with _ | ⟨r, rest⟩
  · simp [waiting, hlk, hb] at hne
  · refine ⟨o'.length, { s' with links := o' ++ [{ l' with buf := rest }], arrived := s'.arrived ++ [r] }, r, ?_, rfl⟩
    have hg : s'.links[o'.length]? = some l' := by rw [b1]; exact get_last _ _
    simp only [step, hcr, hg, hwr, hb, b3]
    rw [b1, set_last]
    simp

/-- The number is not among those that arrived or may still arrive. -/
def Gone (n : Nat) (s : State) : Prop :=
  (∀ r ∈ s.arrived, r.no ≠ n) ∧ (∀ l, link s = some l → ∀ r ∈ hopeful s.listener l, r.no ≠ n)

theorem gone_step {s s' : State} {a : Action} (n : Nat) (hS : Shape s) (hG : Gone n s) (ha : a ≠ .request n)
    (h : step s a = some s') : Gone n s' := by
  obtain ⟨cfg, inst, lis, links, cur, sent, arr, cr⟩ := s
  cases hS with
  | before hc hl hlis ho =>
    simp only at hc hl hlis
    subst hc hl
    cases a with
    | begin =>
      simp only [step] at h
      split at h
      · cases h
      · split at h <;> injection h with h <;> subst h <;> exact hG
    | spawn =>
      simp only [step] at h
      split at h
      · cases h
      · injection h with h; subst h; exact ⟨hG.1, by simp [link]⟩
    | make =>
      simp only [step] at h
      split at h
      · cases h
      · injection h with h; subst h; exact ⟨hG.1, by simp [link, hopeful]⟩
    | dial ok => simp only [step] at h; split at h <;> cases h
    | drop => simp [step] at h
    | readFails => simp [step] at h
    | request n =>
      simp only [step] at h
      split at h
      · cases h
      · split at h <;> injection h with h <;> subst h <;> exact hG
    | write i => simp [step] at h
    | registered u =>
      simp only [step] at h
      split at h
      · cases h
      · split at h <;> injection h with h <;> subst h <;> exact hG
  | later old l hl hc hd hi hon hf hid hw ho =>
    simp only at hl hc hd hi hon hf hid hw ho
    subst hc hl
    have g1 := hG.1
    have g2 : ∀ r ∈ hopeful lis l, r.no ≠ n := hG.2 l (shape_link rfl rfl)
    clear hG
    have mk : ∀ (old' : List Link) (l' : Link) (s1 : State), s1.links = old' ++ [l'] → s1.cur = some old'.length →
        (∀ r ∈ s1.arrived, r.no ≠ n) → (∀ r ∈ hopeful s1.listener l', r.no ≠ n) → Gone n s1 := by
      intro old' l' s1 a1 a2 a3 a4
      refine ⟨a3, ?_⟩
      intro l2 hl2
      rw [shape_link a1 a2] at hl2
      injection hl2 with hl2
      subst hl2
      exact a4
    cases a with
    | begin =>
      simp only [step] at h
      split at h
      · cases h
      · split at h <;> injection h with h <;> subst h <;> exact mk old l _ rfl rfl g1 g2
    | spawn =>
      simp only [step] at h
      split at h
      · cases h
      · rename_i hx
        simp only [not_or, Decidable.not_not] at hx
        exact absurd hx.2.2 hon
    | make =>
      simp only [step] at h
      split at h
      · cases h
      · injection h with h
        subst h
        exact mk (old ++ [l]) {} _ rfl rfl g1 (by simp [hopeful])
    | dial ok =>
      simp only [step] at h
      split at h
      · cases h
      · rename_i hx
        simp only [not_or, Decidable.not_not] at hx
        have hff := hf hx.2
        split at h
        · injection h with h
          subst h
          refine mk old { l with up := true, writer := true } _ (modify_last _ _ _) rfl g1 ?_
          simpa [hopeful, hx.2] using g2
        · injection h with h
          subst h
          exact mk old l _ rfl rfl g1 (by simp [hopeful, hff.1])
    | drop =>
      simp only [step] at h
      split at h
      · cases h
      · injection h with h
        subst h
        refine mk old { l with up := false } _ (modify_last _ _ _) rfl g1 ?_
        by_cases hdl : lis = .dialing
        · simpa [hopeful, hdl] using g2
        · simp [hopeful, hdl]
    | readFails =>
      simp only [step, get_last] at h
      split at h
      · cases h
      · rename_i hx
        simp only [not_or, Decidable.not_not, Option.map_some, Option.getD_some, Bool.not_eq_true] at hx
        injection h with h
        subst h
        exact mk old l _ rfl rfl g1 (by simp [hopeful, hx.2.2])
    | request k =>
      simp only [step, get_last] at h
      split at h
      · cases h
      · split at h
        · exact absurd rfl hi
        · rename_i u
          split at h
          · cases h
          · injection h with h
            subst h
            refine mk old { l with buf := l.buf ++ [⟨k, u⟩] } _ (set_last _ _ _) rfl g1 ?_
            intro r hr
            simp only [hopeful] at hr
            split at hr
            · rename_i hh
              rcases List.mem_append.mp hr with hr | hr
              · exact g2 r (by simpa [hopeful, hh] using hr)
              · rw [List.mem_singleton.mp hr]
                intro e
                exact ha (by rw [← e])
            · cases hr
    | write i =>
      simp only [step] at h
      split at h
      · cases h
      · split at h
        · cases h
        · rename_i m hm
          split at h
          · cases h
          · rename_i hwr
            split at h
            · cases h
            · rename_i r rest hb
              by_cases hio : i < old.length
              · have hm' : old[i]? = some m := by rw [List.getElem?_append_left hio] at hm; exact hm
                have hup := hd m (List.mem_of_getElem? hm')
                rw [if_neg (by rw [hup]; simp)] at h
                injection h with h
                subst h
                exact mk (old.set i { m with buf := rest, writer := false }) l _ (set_old _ _ _ _ hio) (by simp) g1 g2
              · have hi' : i = old.length := by
                  have := (List.getElem?_eq_some_iff.mp hm).1
                  simp at this
                  omega
                subst hi'
                rw [get_last] at hm
                injection hm with hm
                subst hm
                have hnd : lis ≠ .dialing := by
                  intro hx
                  rw [(hf hx).2] at hwr
                  exact hwr rfl
                split at h
                · rename_i hup
                  injection h with h
                  subst h
                  have g3 : ∀ r' ∈ r :: rest, r'.no ≠ n := by simpa [hopeful, hup, hb] using g2
                  refine mk old { l with buf := rest } _ (set_last _ _ _) rfl ?_ ?_
                  · intro x hx
                    rcases List.mem_append.mp hx with hx | hx
                    · exact g1 x hx
                    · rw [List.mem_singleton.mp hx]; exact g3 r List.mem_cons_self
                  · simp only [hopeful, hup, true_or, if_true]
                    exact fun x hx => g3 x (List.mem_cons_of_mem _ hx)
                · rename_i hup
                  injection h with h
                  subst h
                  exact mk old { l with buf := rest, writer := false } _ (set_last _ _ _) rfl g1 (by simp [hopeful, hup, hnd])
    | registered u =>
      simp only [step] at h
      split at h
      · cases h
      · split at h <;> injection h with h <;> subst h <;> exact mk old l _ rfl rfl g1 g2

/-- **C142 refuted (lost).** A request made while there is no connection, nor one being made, is accepted without an
error, and never arrives, whatever happens afterwards; the caller waits for the reply. -/
theorem C142_lost (u : String) (s s1 s' : State) (h : Reach u s) (hno : ¬ Hope s) (n : Nat)
    (hn : ∀ r ∈ s.sent, r.no ≠ n) (h1 : step s (.request n) = some s1) (as : List Action)
    (ha : ∀ a ∈ as, a ≠ .request n) (he : exec s1 as = some s') : ∀ r ∈ s'.arrived, r.no ≠ n := by
  have hS := reach_shape h
  have hS1 := shape_step hS h1
  have hG : Gone n s1 := by
    have ho := C142_in_order_partial u s h
    obtain ⟨cfg, inst, lis, links, cur, sent, arr, cr⟩ := s
    have harr : ∀ r ∈ arr, r.no ≠ n := fun r hr => hn r (ho.subset hr)
    cases hS with
    | before hc hl hlis _ =>
      simp only at hc hl
      subst hc hl
      simp only [step] at h1
      split at h1
      · cases h1
      · split at h1 <;> injection h1 with h1 <;> subst h1 <;> exact ⟨harr, by simp [link]⟩
    | later old l hl hc hd hi hon hf hid hw _ =>
      simp only at hl hc hi
      subst hc hl
      have hup : ¬ l.up = true := fun hx => hno (Or.inl ⟨l, shape_link rfl rfl, hx⟩)
      have hdl : ¬ lis = .dialing := fun hx => hno (Or.inr hx)
      simp only [step, get_last] at h1
      split at h1
      · cases h1
      · split at h1
        · exact absurd rfl hi
        · rename_i u _
          split at h1
          · cases h1
          · injection h1 with h1
            subst h1
            refine ⟨harr, ?_⟩
            intro l2 hl2
            rw [shape_link (old := old) (l := { l with buf := l.buf ++ [⟨n, u⟩] }) (set_last _ _ _) rfl] at hl2
            injection hl2 with hl2
            subst hl2
            simp [hopeful, hup, hdl]
  have key : ∀ (as : List Action) (s1 : State), Shape s1 → Gone n s1 → (∀ a ∈ as, a ≠ .request n) → exec s1 as = some s' →
      Gone n s' := by
    intro as
    induction as with
    | nil => intro s1 _ hG _ he; injection he with he; subst he; exact hG
    | cons a as ih =>
      intro s1 hS hG ha he
      obtain ⟨s2, h2, h3⟩ := Option.bind_eq_some_iff.mp he
      exact ih s2 (shape_step hS h2) (gone_step n hS hG (ha a List.mem_cons_self) h2)
        (fun x hx => ha x (List.mem_cons_of_mem _ hx)) h3
  exact (key as s1 hS1 hG ha he).1

/-- **C142 refuted (early).** A request made before the listener made its first connection, which it does a second
after the start, crashes the client. -/
theorem C142_early (u : String) (s : State) (h : Reach u s) (hc : s.crashed = false) (hcur : s.cur = none) (n : Nat) :
    ∃ s', step s (.request n) = some s' ∧ s'.crashed = true := by
  rcases hi : s.inst with _ | v
  · exact ⟨{ s with crashed := true }, by simp [step, hc, hi], rfl⟩
  · exact ⟨{ s with crashed := true }, by simp [step, hc, hi, hcur], rfl⟩

/-! ## C143: whose messages the companion opens -/

theorem uuid_step {u : String} {s s' : State} {a : Action} (h1 : ∀ v, s.inst = some v → v = u)
    (h2 : ∀ r ∈ s.sent, r.uuid = u) (h3 : s.inst = none → ∃ c, s.cfg = some c ∧ c = u)
    (ha : ∀ v, a = .registered v → s.inst ≠ none) (h : step s a = some s') :
    (∀ v, s'.inst = some v → v = u) ∧ (∀ r ∈ s'.sent, r.uuid = u) ∧ (s'.inst = none → ∃ c, s'.cfg = some c ∧ c = u) := by
  obtain ⟨cfg, inst, lis, links, cur, sent, arr, cr⟩ := s
  simp only at h1 h2 h3 ha
  cases a with
  | begin =>
    simp only [step] at h
    split at h
    · cases h
    · rename_i hx
      simp only [not_or, Decidable.not_not] at hx
      obtain ⟨c, e1, e2⟩ := h3 hx.2
      subst e1 e2
      injection h with h
      subst h
      exact ⟨by intro v hv; injection hv with hv; exact hv.symm, h2, by simp⟩
  | spawn =>
    simp only [step] at h
    split at h
    · cases h
    · injection h with h; subst h; exact ⟨h1, h2, h3⟩
  | make =>
    simp only [step] at h
    split at h
    · cases h
    · injection h with h; subst h; exact ⟨h1, h2, h3⟩
  | dial ok =>
    simp only [step] at h
    split at h
    · cases h
    · split at h
      · cases h
      · split at h <;> injection h with h <;> subst h <;> exact ⟨h1, h2, h3⟩
  | drop =>
    simp only [step] at h
    split at h
    · cases h
    · split at h
      · cases h
      · injection h with h; subst h; exact ⟨h1, h2, h3⟩
  | readFails =>
    simp only [step] at h
    split at h
    · cases h
    · split at h
      · cases h
      · injection h with h; subst h; exact ⟨h1, h2, h3⟩
  | request n =>
    simp only [step] at h
    split at h
    · cases h
    · split at h
      · injection h with h; subst h; exact ⟨h1, h2, h3⟩
      · rename_i v
        split at h
        · injection h with h; subst h; exact ⟨h1, h2, h3⟩
        · split at h
          · cases h
          · split at h
            · cases h
            · injection h with h
              subst h
              refine ⟨h1, ?_, h3⟩
              intro r hr
              rcases List.mem_append.mp hr with hr | hr
              · exact h2 r hr
              · rw [List.mem_singleton.mp hr]; exact h1 v rfl
  | write i =>
    simp only [step] at h
    split at h
    · cases h
    · split at h
      · cases h
      · split at h
        · cases h
        · split at h
          · cases h
          · split at h <;> injection h with h <;> subst h <;> exact ⟨h1, h2, h3⟩
  | registered v =>
    have hne := ha v rfl
    simp only [step] at h
    split at h
    · cases h
    · split at h <;> injection h with h <;> subst h <;> exact ⟨h1, h2, fun hx => absurd hx hne⟩

/-- Registration needs the companion, so it comes after the instance was made (textsecure.go:415-425). -/
def Ordered : State → List Action → Prop
  | _, [] => True
  | s, a :: as => (∀ v, a = .registered v → s.inst ≠ none) ∧ ∀ s', step s a = some s' → Ordered s' as

theorem uuid_exec (u : String) (as : List Action) : ∀ (s s' : State), (∀ v, s.inst = some v → v = u) →
    (∀ r ∈ s.sent, r.uuid = u) → (s.inst = none → ∃ c, s.cfg = some c ∧ c = u) → Ordered s as → exec s as = some s' →
    ∀ r ∈ s'.sent, r.uuid = u := by
  induction as with
  | nil => intro s s' _ h2 _ _ h; injection h with h; subst h; exact h2
  | cons a as ih =>
    intro s s' h1 h2 h3 ho h
    obtain ⟨s1, e1, e2⟩ := Option.bind_eq_some_iff.mp h
    obtain ⟨a1, a2, a3⟩ := uuid_step h1 h2 h3 ho.1 e1
    exact ih s1 s' a1 a2 a3 (ho.2 s1 e1) e2

/-- **C143 refuted.** The account named to the companion is the one of the configuration at the start, in every
request; after a registration in the same run, which gives another, messages are still opened for the old one. -/
theorem C143_old_account (u : String) (as : List Action) (s : State) (ho : Ordered (start (some u)) as)
    (h : exec (start (some u)) as = some s) : ∀ r ∈ s.sent, r.uuid = u :=
  uuid_exec u as _ s (by intro v hv; cases hv) (by intro r hr; cases hr) (fun _ => ⟨u, rfl, rfl⟩) ho h

/-- The configuration changes only by registration. -/
theorem cfg_step {s s' : State} {a : Action} (ha : ∀ v, a ≠ .registered v) (h : step s a = some s') : s'.cfg = s.cfg := by
  cases a with
  | registered v => exact absurd rfl (ha v)
  | _ =>
    simp only [step] at h
    repeat' split at h
    all_goals first
      | cases h; done
      | (injection h with h; subst h; first | rfl | (rename_i hx; exact hx.symm) | simp_all)

/-- **C143 (part).** In a run without a registration every request names the account of the configuration. -/
theorem C143_account_partial (u : String) (as : List Action) (s : State) (ha : ∀ a ∈ as, ∀ v, a ≠ .registered v)
    (h : exec (start (some u)) as = some s) : ∀ r ∈ s.sent, s.cfg = some r.uuid := by
  have ho : ∀ (as : List Action) (s : State), (∀ a ∈ as, ∀ v, a ≠ .registered v) → Ordered s as := by
    intro as
    induction as with
    | nil => intro s _; trivial
    | cons a as ih =>
      intro s ha
      exact ⟨fun v hv => absurd hv (ha a List.mem_cons_self v), fun s' _ => ih s' (fun x hx => ha x (List.mem_cons_of_mem _ hx))⟩
  have hc : ∀ (as : List Action) (s s' : State), (∀ a ∈ as, ∀ v, a ≠ .registered v) → exec s as = some s' → s'.cfg = s.cfg := by
    intro as
    induction as with
    | nil => intro s s' _ h; injection h with h; rw [h]
    | cons a as ih =>
      intro s s' ha h
      obtain ⟨s1, e1, e2⟩ := Option.bind_eq_some_iff.mp h
      rw [ih s1 s' (fun x hx => ha x (List.mem_cons_of_mem _ hx)) e2, cfg_step (ha a List.mem_cons_self) e1]
  intro r hr
  rw [hc as _ s ha h, C143_old_account u as s (ho as _ ha) h r hr]
  rfl

/-! ## Examples -/

/-- Two requests arrive; the third is made while the connection is broken, the fourth after the next one is made. -/
def story : List Action :=
  [.begin, .spawn, .make, .dial true, .request 1, .request 2, .write 0, .write 0, .drop, .request 3, .readFails, .make,
    .dial true, .write 0, .request 4, .write 1]

example : (exec (start (some "u")) story).map (fun s => (s.sent.map Req.no, s.arrived.map Req.no, s.crashed)) =
    some ([1, 2, 3, 4], [1, 2, 4], false) := by decide

/-- A first start: the account is given after the instance was made. -/
def first : List Action :=
  [.begin, .spawn, .make, .dial true, .request 1, .write 0, .registered "u", .request 2, .write 0]

example : Ordered (start (some "")) first := by
  refine ⟨by simp, ?_⟩
  intro s h; cases h
  refine ⟨by simp, ?_⟩
  intro s h; cases h
  refine ⟨by simp, ?_⟩
  intro s h; cases h
  refine ⟨by simp, ?_⟩
  intro s h; cases h
  refine ⟨by simp, ?_⟩
  intro s h; cases h
  refine ⟨by simp, ?_⟩
  intro s h; cases h
  refine ⟨by simp, ?_⟩
  intro s h; cases h
  refine ⟨by simp, ?_⟩
  intro s h; cases h
  refine ⟨by simp, ?_⟩
  intro s h; trivial

example : (exec (start (some "")) first).map (fun s => (s.cfg, s.arrived)) = some (some "u", [⟨1, ""⟩, ⟨2, ""⟩]) := by decide

/-- The program in the current directory is there, and `Run` ends the client. -/
example : locate { here := .file true } = (none, .file true) := by decide
example : locate { here := .absent, debug := .file true } = (none, .file false) := by decide

end Verif.Props.Backend
