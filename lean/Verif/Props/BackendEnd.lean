import Verif.Model.BackendEnd
import Verif.Props.Backend
/-!
# C176: the output and the end of the companion process
-/
namespace Verif.Props.BackendEnd
open Verif Verif.BackendEnd

/-! ## Specification -/

/-- The reads of a pipe up to its end: `out` is all it gave, in order, and `last` the read that ended it. -/
structure Ends (rs : List Read) (out : Bytes) (last : Read) (e : RdErr) : Prop where
  split : ∃ pre post, rs = pre ++ last :: post ∧ (∀ r ∈ pre, r.err = none) ∧ out = (pre ++ [last]).flatMap Read.data
  err : last.err = some e

/-- The pipe ends as pipes of the operating system do: the end comes in a read of its own. -/
def Plain (rs : List Read) (out : Bytes) : Prop := Ends rs out ⟨[], some .eof⟩ .eof

/-- The pipe ends in a way that `Run` takes for a failure. -/
def Bad (rs : List Read) : Prop := ∃ out last e, Ends rs out last e ∧ (e = .fail ∨ last.data ≠ [])

/-! ## Proofs -/

theorem copy_ends {rs : List Read} {out : Bytes} {last : Read} {e : RdErr} (h : Ends rs out last e) (acc : Bytes) :
    copyAndCapture acc rs = some (acc ++ out, if e = .fail ∨ last.data ≠ [] then some e else none) := by
  obtain ⟨⟨pre, post, rfl, hp, rfl⟩, he⟩ := h
  induction pre generalizing acc with
  | nil =>
    by_cases hd : last.data = []
    · cases e <;> simp [copyAndCapture, he, hd]
    · simp [copyAndCapture, he, hd]
  | cons r pre ih =>
    have hr := hp r List.mem_cons_self
    have hi := fun a => ih a (fun x hx => hp x (List.mem_cons_of_mem _ hx))
    by_cases hd : r.data = []
    · simp only [List.cons_append, copyAndCapture, hr, hd, List.flatMap_cons]
      simpa using hi acc
    · simp only [List.cons_append, copyAndCapture, hr, List.flatMap_cons]
      simpa [hd] using hi (acc ++ r.data)

theorem copy_cases (rs : List Read) : (∃ out last e, Ends rs out last e) ∨ ∀ acc, copyAndCapture acc rs = none := by
  induction rs with
  | nil => exact Or.inr (fun _ => rfl)
  | cons r rs ih =>
    cases he : r.err with
    | some e => exact Or.inl ⟨r.data, r, e, ⟨[], rs, rfl, by simp, by simp⟩, he⟩
    | none =>
      rcases ih with ⟨out, last, e, ⟨⟨pre, post, rfl, hp, ho⟩, h2⟩⟩ | h
      · refine Or.inl ⟨r.data ++ out, last, e, ⟨r :: pre, post, rfl, ?_, by simp [ho]⟩, h2⟩
        intro x hx
        rcases List.mem_cons.mp hx with rfl | hx
        · exact he
        · exact hp x hx
      · exact Or.inr (fun acc => by simp [copyAndCapture, he, h])

theorem ends_unique {rs : List Read} {o o' : Bytes} {l l' : Read} {e e' : RdErr} (h : Ends rs o l e) (h' : Ends rs o' l' e') :
    (e = .fail ∨ l.data ≠ []) ↔ (e' = .fail ∨ l'.data ≠ []) := by
  have h1 := copy_ends h []
  rw [copy_ends h' []] at h1
  injection h1 with h1
  have h2 := (Prod.mk.inj h1).2
  constructor <;> intro hx
  · rw [if_pos hx] at h2
    apply Classical.byContradiction
    intro hn
    rw [if_neg hn] at h2
    cases h2
  · rw [if_pos hx] at h2
    apply Classical.byContradiction
    intro hn
    rw [if_neg hn] at h2
    cases h2

/-! ## C176 -/

/-- **C176 (part, the output).** If both pipes end as pipes of the operating system do, then however the output was cut
into reads, the client goes on, whatever the program's exit status: after status 0 it has logged all of both outputs,
after another one the failure. Missing: pipes that end otherwise (`C176_fatal_iff`), and a program that serves again
(`C176_not_restarted`). -/
theorem C176_goes_on_partial (so se : List Read) (out err : Bytes) (h1 : Plain so out) (h2 : Plain se err) :
    tail so se true = .done out err ∧ tail so se false = .failed := by
  have e1 := copy_ends h1 []
  have e2 := copy_ends h2 []
  simp at e1 e2
  simp [tail, e1, e2]

/-- **C176 refuted (the client ends).** Exactly when: the program has ended well, both pipes have ended, and one of them
with an error other than the end, or with the end in the same read as the last bytes, which readers are free to do.
So a program that fails does not end the client, and one that ends well may. -/
theorem C176_fatal_iff (so se : List Read) (exitOk : Bool) :
    tail so se exitOk = .fatal ↔ exitOk = true ∧ (∃ out last e, Ends so out last e) ∧ (∃ out last e, Ends se out last e) ∧
      (Bad so ∨ Bad se) := by
  rcases copy_cases so with ⟨o1, l1, x1, g1⟩ | g1
  · rcases copy_cases se with ⟨o2, l2, x2, g2⟩ | g2
    · have e1 := copy_ends g1 []
      have e2 := copy_ends g2 []
      have b1 : Bad so ↔ (x1 = .fail ∨ l1.data ≠ []) :=
        ⟨fun ⟨_, _, _, h, hb⟩ => (ends_unique h g1).mp hb, fun h => ⟨_, _, _, g1, h⟩⟩
      have b2 : Bad se ↔ (x2 = .fail ∨ l2.data ≠ []) :=
        ⟨fun ⟨_, _, _, h, hb⟩ => (ends_unique h g2).mp hb, fun h => ⟨_, _, _, g2, h⟩⟩
      rw [b1, b2]
      cases exitOk
      · simp [tail, e1, e2]
      · by_cases c1 : x1 = .fail ∨ l1.data ≠ []
        · simp only [tail, e1, e2, if_pos c1]
          simp only [Option.isSome_some, true_or, if_true, true_and, c1, and_true]
          exact ⟨fun _ => ⟨⟨_, _, _, g1⟩, _, _, _, g2⟩, fun _ => by simp⟩
        · by_cases c2 : x2 = .fail ∨ l2.data ≠ []
          · simp only [tail, e1, e2, if_pos c2]
            simp only [Option.isSome_some, or_true, if_true, true_and, c2, and_true]
            exact ⟨fun _ => ⟨⟨_, _, _, g1⟩, _, _, _, g2⟩, fun _ => by simp⟩
          · simp only [tail, e1, e2, if_neg c1, if_neg c2]
            simp [c1, c2]
    · constructor
      · intro h
        simp only [tail, g2] at h
        split at h
        · next h' => cases h'
        · cases h
      · rintro ⟨_, _, ⟨o, l, x, h⟩, _⟩
        have := copy_ends h []
        rw [g2] at this
        cases this
  · constructor
    · intro h
      simp only [tail, g1] at h
      cases h
    · rintro ⟨_, ⟨o, l, x, h⟩, _⟩
      have := copy_ends h []
      rw [g1] at this
      cases this

open Verif.Backend in
/-- No connection is up. -/
theorem down_step {s s' : State} {a : Action} (hd : ∀ l ∈ s.links, l.up = false) (ha : a ≠ .dial true)
    (h : step s a = some s') : (∀ l ∈ s'.links, l.up = false) ∧ s'.arrived = s.arrived := by
  have hmod : ∀ i, ∀ l ∈ s.links.modify i (fun l => { l with up := false }), l.up = false := by
    intro i l hl
    obtain ⟨j, hj, rfl⟩ := List.mem_iff_getElem.mp hl
    rw [List.getElem_modify]
    split
    · rfl
    · exact hd _ (List.getElem_mem _)
  cases a with
  | begin =>
    simp only [step] at h
    split at h
    · cases h
    · split at h <;> injection h with h <;> subst h <;> exact ⟨hd, rfl⟩
  | spawn =>
    simp only [step] at h
    split at h
    · cases h
    · injection h with h; subst h; exact ⟨hd, rfl⟩
  | make =>
    simp only [step] at h
    split at h
    · cases h
    · injection h with h
      subst h
      refine ⟨?_, rfl⟩
      intro l hl
      rcases List.mem_append.mp hl with hl | hl
      · exact hd l hl
      · rw [List.mem_singleton.mp hl]
  | dial ok =>
    cases ok with
    | true => exact absurd rfl ha
    | false =>
      simp only [step] at h
      split at h
      · cases h
      · split at h
        · cases h
        · rw [if_neg (by simp)] at h; injection h with h; subst h; exact ⟨hd, rfl⟩
  | drop =>
    simp only [step] at h
    split at h
    · cases h
    · split at h
      · cases h
      · injection h with h; subst h; exact ⟨hmod _, rfl⟩
  | readFails =>
    simp only [step] at h
    split at h
    · cases h
    · split at h
      · cases h
      · injection h with h; subst h; exact ⟨hd, rfl⟩
  | request n =>
    simp only [step] at h
    split at h
    · cases h
    · split at h
      · injection h with h; subst h; exact ⟨hd, rfl⟩
      · split at h
        · injection h with h; subst h; exact ⟨hd, rfl⟩
        · split at h
          · cases h
          · rename_i l hl
            split at h
            · cases h
            · injection h with h
              subst h
              refine ⟨?_, rfl⟩
              intro x hx
              rcases List.mem_or_eq_of_mem_set hx with hx | rfl
              · exact hd x hx
              · exact hd l (List.mem_of_getElem? hl)
  | write i =>
    simp only [step] at h
    split at h
    · cases h
    · split at h
      · cases h
      · rename_i l hl
        have hl' := hd l (List.mem_of_getElem? hl)
        split at h
        · cases h
        · split at h
          · cases h
          · rw [if_neg (by simp [hl'])] at h
            injection h with h
            subst h
            refine ⟨?_, rfl⟩
            intro x hx
            rcases List.mem_or_eq_of_mem_set hx with hx | rfl
            · exact hd x hx
            · exact hl'
  | registered u =>
    simp only [step] at h
    split at h
    · cases h
    · split at h <;> injection h with h <;> subst h <;> exact ⟨hd, rfl⟩

open Verif.Backend Verif.Props.Backend in
/-- **C176 refuted (not restarted).** Once the program has ended, so that the connection is down and no new one is made,
no request reaches it any more in any schedule, however many are made; and as long as fewer than 256 wait, each is
taken without an error, so that its caller waits for a reply that does not come. -/
theorem C176_not_restarted (u : String) (s : State) (h : Reach u s) (hd : ∀ l, link s = some l → l.up = false)
    (as : List Action) (ha : ∀ a ∈ as, a ≠ .dial true) (s' : State) (he : exec s as = some s') :
    s'.arrived = s.arrived ∧ ∀ n l, s'.crashed = false → link s' = some l → l.buf.length < 256 → s'.inst ≠ none →
      ∃ s'', step s' (.request n) = some s'' ∧ s''.crashed = false ∧ s''.arrived = s.arrived ∧
        ∃ r ∈ s''.sent, r.no = n := by
  have h0 : ∀ l ∈ s.links, l.up = false := by
    cases reach_shape h with
    | before _ hl _ _ => rw [hl]; simp
    | later old l hl hc hold _ _ _ _ _ _ =>
      intro x hx
      rw [hl] at hx
      rcases List.mem_append.mp hx with hx | hx
      · exact hold x hx
      · rw [List.mem_singleton.mp hx]; exact hd l (shape_link hl hc)
  have key : ∀ (as : List Action) (s : State), (∀ l ∈ s.links, l.up = false) → (∀ a ∈ as, a ≠ .dial true) →
      exec s as = some s' → (∀ l ∈ s'.links, l.up = false) ∧ s'.arrived = s.arrived := by
    intro as
    induction as with
    | nil => intro s h _ he; injection he with he; subst he; exact ⟨h, rfl⟩
    | cons a as ih =>
      intro s h ha he
      obtain ⟨s2, h2, h3⟩ := Option.bind_eq_some_iff.mp he
      obtain ⟨g1, g2⟩ := down_step h (ha a List.mem_cons_self) h2
      obtain ⟨g3, g4⟩ := ih s2 g1 (fun x hx => ha x (List.mem_cons_of_mem _ hx)) h3
      exact ⟨g3, g4.trans g2⟩
  obtain ⟨-, k2⟩ := key as s h0 ha he
  refine ⟨k2, ?_⟩
  intro n l hc hl hb hi
  obtain ⟨v, hv⟩ := Option.ne_none_iff_exists'.mp hi
  obtain ⟨i, hi, hl'⟩ := Option.bind_eq_some_iff.mp hl
  have hb' : ¬ 256 ≤ l.buf.length := by omega
  refine ⟨{ s' with links := s'.links.set i { l with buf := l.buf ++ [⟨n, v⟩] }, sent := s'.sent ++ [⟨n, v⟩] }, ?_,
    hc, k2, ⟨n, v⟩, by simp, rfl⟩
  simp [step, hc, hv, hi, hl', hb']

/-! ## Concrete cases -/

/-- Output in two reads, then the end. -/
example : Plain [⟨[104, 105], none⟩, ⟨[], none⟩, ⟨[33], none⟩, ⟨[], some .eof⟩] [104, 105, 33] ∧ Plain [⟨[], some .eof⟩] [] :=
  ⟨⟨⟨[⟨[104, 105], none⟩, ⟨[], none⟩, ⟨[33], none⟩], [], rfl, by simp, rfl⟩, rfl⟩, ⟨⟨[], [], rfl, by simp, rfl⟩, rfl⟩⟩

example : tail [⟨[104, 105], none⟩, ⟨[33], some .eof⟩] [⟨[], some .eof⟩] true = .fatal ∧
    tail [⟨[104, 105], none⟩, ⟨[33], some .eof⟩] [⟨[], some .eof⟩] false = .failed ∧
    tail [⟨[104, 105], none⟩] [⟨[], some .eof⟩] true = .waiting := by decide

open Verif.Backend Verif.Props.Backend in
/-- One request is delivered, the program ends, and three more are made. -/
example : ∃ s s', exec (start (some "u")) [.begin, .spawn, .make, .dial true, .request 1, .write 0, .drop] = some s ∧
    (∀ l, link s = some l → l.up = false) ∧
    exec s [.request 2, .write 0, .readFails, .make, .request 3, .dial false, .make, .dial false, .request 4] = some s' ∧
    s'.arrived.map Req.no = [1] ∧ s'.sent.map Req.no = [1, 2, 3, 4] := by
  refine ⟨_, _, rfl, ?_, rfl, by decide, by decide⟩
  intro l hl
  injection hl with hl
  rw [← hl]

end Verif.Props.BackendEnd
