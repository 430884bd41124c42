import Verif.Spec.Maps
/-!
# Lemmas about shared maps
-/
namespace Verif.Proof.Maps
open Verif.Maps Verif.Spec.Maps

/-- What is left of a goroutine stays within what it may read (`r`) and write (`w`), if the maps in `frozen` have the
keys in `known` and others any. -/
def Calm (r w frozen : Map → Prop) (known : Map → String → Bool) : Prog → Prop
  | .done => True
  | .read m key k => r m ∧ (frozen m → Calm r w frozen known (k (known m key))) ∧
      (¬ frozen m → ∀ b, Calm r w frozen known (k b))
  | .write m _ k => w m ∧ Calm r w frozen known k

/-- The goroutine is inside the access it makes next, if any. -/
def Fits (t : Thread) : Prop :=
  ∀ m w, t.inside = some (m, w) →
    match t.prog with
    | .done => False
    | .read m' _ _ => m' = m ∧ w = false
    | .write m' _ _ => m' = m ∧ w = true

structure Inv (r w : Nat → Map → Prop) (frozen : Map → Prop) (known : Map → String → Bool) (s : State) : Prop where
  same : ∀ m, frozen m → s.known m = known m
  calm : ∀ i, Calm (r i) (w i) frozen known (s.threads i).prog
  fits : ∀ i, Fits (s.threads i)

theorem inv_step {r w : Nat → Map → Prop} {frozen : Map → Prop} {known : Map → String → Bool} {s : State}
    (hf : ∀ i m, w i m → ¬ frozen m) (h : Inv r w frozen known s) (i : Nat) : Inv r w frozen known (step s i) := by
  obtain ⟨hs, hc, hfit⟩ := h
  have hci := hc i
  have hfi := hfit i
  have lift : ∀ (k' : Map → String → Bool) (t' : Thread), stepThread s.known (s.threads i) = (k', t') →
      (∀ m, frozen m → k' m = known m) → Calm (r i) (w i) frozen known t'.prog → Fits t' →
      Inv r w frozen known (step s i) := by
    intro k' t' he h1 h2 h3
    unfold step
    rw [he]
    refine ⟨h1, fun j => ?_, fun j => ?_⟩
    · by_cases hj : j = i
      · subst hj; simpa using h2
      · simpa [hj] using hc j
    · by_cases hj : j = i
      · subst hj; simpa using h3
      · simpa [hj] using hfit j
  generalize ht : s.threads i = t at hci hfi
  obtain ⟨ins, p⟩ := t
  cases p with
  | done =>
    refine lift s.known ⟨none, .done⟩ ?_ hs trivial (fun m w' h => by simp at h)
    rw [ht]; cases ins <;> rfl
  | read m key k =>
    cases ins with
    | none =>
      refine lift s.known ⟨some (m, false), .read m key k⟩ (by rw [ht]; rfl) hs hci ?_
      intro m' w' h
      simp only [Option.some.injEq, Prod.mk.injEq] at h
      exact ⟨h.1, h.2.symm⟩
    | some x =>
      refine lift s.known ⟨none, k (s.known m key)⟩ (by rw [ht]; rfl) hs ?_ (fun m w' h => by simp at h)
      obtain ⟨_, h1, h2⟩ := hci
      by_cases hm : frozen m
      · show Calm _ _ _ _ (k (s.known m key))
        rw [hs m hm]
        exact h1 hm
      · exact h2 hm _
  | write m key k =>
    cases ins with
    | none =>
      refine lift s.known ⟨some (m, true), .write m key k⟩ (by rw [ht]; rfl) hs hci ?_
      intro m' w' h
      simp only [Option.some.injEq, Prod.mk.injEq] at h
      exact ⟨h.1, h.2.symm⟩
    | some x =>
      refine lift (withKey s.known m key) ⟨none, k⟩ (by rw [ht]; rfl) ?_ hci.2 (fun m w' h => by simp at h)
      intro m' hm'
      have hne : m' ≠ m := fun e => hf i m hci.1 (e ▸ hm')
      funext key'
      simp [withKey, hne, hs m' hm']

theorem inv_run {r w : Nat → Map → Prop} {frozen : Map → Prop} {known : Map → String → Bool}
    (hf : ∀ i m, w i m → ¬ frozen m) : ∀ (sched : List Nat) (s : State), Inv r w frozen known s →
      Inv r w frozen known (run s sched)
  | [], _, h => h
  | i :: l, s, h => inv_run hf l (step s i) (inv_step hf h i)

theorem inv_safe {r w : Nat → Map → Prop} {frozen : Map → Prop} {known : Map → String → Bool} {s : State}
    (hx : ∀ i j m, w i m → i ≠ j → ¬ r j m ∧ ¬ w j m) (h : Inv r w frozen known s) : ¬ Clash s := by
  rintro ⟨i, j, m, b, hij, hi, hj⟩
  have h1 := h.fits i m true hi
  have h2 := h.fits j m b hj
  have c1 := h.calm i
  have c2 := h.calm j
  revert h1 c1
  cases (s.threads i).prog with
  | done => exact fun h => h.elim
  | read m' _ _ => exact fun h => absurd h.2 (by simp)
  | write m' key k =>
    intro e1 c1
    rw [e1.1] at c1
    have hw := hx i j m c1.1 hij
    revert h2 c2
    cases (s.threads j).prog with
    | done => exact fun h => h.elim
    | read m2 _ _ => intro e c; rw [e.1] at c; exact hw.1 c.1
    | write m2 _ _ => intro e c; rw [e.1] at c; exact hw.2 c.1

/-- Goroutines whose calls stay apart are safe. -/
theorem safe_of_calm (self : String) (known : Map → String → Bool) (ts : Nat → List Call) (r w : Nat → Map → Prop)
    (frozen : Map → Prop) (hf : ∀ i m, w i m → ¬ frozen m) (hx : ∀ i j m, w i m → i ≠ j → ¬ r j m ∧ ¬ w j m)
    (hc : ∀ i, Calm (r i) (w i) frozen known (calls self (ts i))) : Safe (start self known ts) := by
  intro sched
  refine inv_safe hx (inv_run hf sched _ ⟨fun _ _ => rfl, hc, fun i m w' h => ?_⟩)
  simp [start] at h

/-- A goroutine that may do anything. -/
theorem calm_any (known : Map → String → Bool) : ∀ p : Prog, Calm (fun _ => True) (fun _ => True) (fun _ => False) known p
  | .done => trivial
  | .read m key k => ⟨trivial, fun h => h.elim, fun _ b => calm_any known (k b)⟩
  | .write m key k => ⟨trivial, calm_any known k⟩

theorem calm_attempts {r w frozen : Map → Prop} {known : Map → String → Bool} {u : String} {ok no : Prog}
    (hr : r .devices) (hfz : frozen .devices) (h1 : Calm r w frozen known ok) (h2 : Calm r w frozen known no) :
    ∀ l, Smooth l → Calm r w frozen known (attempts u ok no l)
  | [], _ => ⟨hr, fun _ => h2, fun h => absurd hfz h⟩
  | .accepted :: _, _ => ⟨hr, fun _ => h1, fun h => absurd hfz h⟩
  | .refused :: _, _ => ⟨hr, fun _ => h2, fun h => absurd hfz h⟩
  | .mismatched :: _, hs => absurd rfl (hs _ List.mem_cons_self)
  | .stale :: l, hs => ⟨hr, fun _ => calm_attempts hr hfz h1 h2 l fun a ha => hs a (List.mem_cons_of_mem _ ha),
      fun h => absurd hfz h⟩

theorem calm_deliver {r w frozen : Map → Prop} {known : Map → String → Bool} {u : String} {ok no : Prog}
    (hr : r .devices) (hfz : frozen .devices) (h1 : Calm r w frozen known ok) (h2 : Calm r w frozen known no)
    (l : List Answer) (hs : Smooth l) (hk : known .devices u = true) :
    Calm r w frozen known (deliver u l ok no) := by
  refine ⟨hr, fun _ => ?_, fun h => absurd hfz h⟩
  simp only [hk, if_true]
  exact calm_attempts hr hfz h1 h2 l hs

theorem calm_easy {r w frozen : Map → Prop} {known : Map → String → Bool} {self : String}
    (hr : r .devices) (hfz : frozen .devices) : ∀ (l : List Call), (∀ c ∈ l, Easy self known c) →
      Calm r w frozen known (calls self l)
  | [], _ => trivial
  | c :: l, h => by
      have ih : Calm r w frozen known (calls self l) := calm_easy hr hfz l fun c' hc' => h c' (List.mem_cons_of_mem _ hc')
      have hc := h c List.mem_cons_self
      cases c with
      | send u a y =>
        obtain ⟨hk, hs, hy⟩ := hc
        refine calm_deliver hr hfz ?_ ih a hs hk
        cases y with
        | none => exact ih
        | some l' => exact calm_deliver hr hfz ih ih l' (hy l' rfl).2 (hy l' rfl).1
      | gotText => exact ih
      | sendGroup _ _ => exact hc.elim
      | newGroup _ _ => exact hc.elim
      | refresh _ => exact hc.elim
      | gotProfileKey _ => exact hc.elim
      | gotContactsRequest _ _ => exact hc.elim
      | gotGroupsRequest _ => exact hc.elim

theorem calm_send {r w frozen : Map → Prop} {known : Map → String → Bool} {self u : String} {a : List Answer}
    {y : Option (List Answer)} {ok no : Prog} (hr : r .devices) (hfz : frozen .devices) (hc : Easy self known (.send u a y))
    (h1 : Calm r w frozen known ok) (h2 : Calm r w frozen known no) :
    Calm r w frozen known (sendMessage self u a y ok no) := by
  obtain ⟨hk, hs, hy⟩ := hc
  refine calm_deliver hr hfz ?_ h2 a hs hk
  cases y with
  | none => exact h1
  | some l' => exact calm_deliver hr hfz h1 h1 l' (hy l' rfl).2 (hy l' rfl).1

theorem calm_all {r w frozen : Map → Prop} {known : Map → String → Bool} {self : String} {look : Bool} {k : Prog}
    (hr : ∀ m, r m) (hfz : ∀ m, frozen m) (hk : Calm r w frozen known k) :
    ∀ ms : List (String × List Answer × Option (List Answer)), (∀ m ∈ ms, Easy self known (.send m.1 m.2.1 m.2.2)) →
      Calm r w frozen known (sendAll self look ms k)
  | [], _ => hk
  | (u, l, y) :: ms, h => by
      have ih := calm_all (look := look) hr hfz hk ms fun m hm => h m (List.mem_cons_of_mem _ hm)
      have one := calm_send (hr _) (hfz _) (h (u, l, y) List.mem_cons_self) ih hk
      simp only [sendAll]
      split
      · exact ⟨hr _, fun _ => one, fun h => absurd (hfz _) h⟩
      · exact one

theorem calm_known {r w frozen : Map → Prop} {known : Map → String → Bool} {self : String}
    (hr : ∀ m, r m) (hfz : ∀ m, frozen m) : ∀ (l : List Call), (∀ c ∈ l, Known self known c) →
      Calm r w frozen known (calls self l)
  | [], _ => trivial
  | c :: l, h => by
      have ih : Calm r w frozen known (calls self l) := calm_known hr hfz l fun c' hc' => h c' (List.mem_cons_of_mem _ hc')
      have hc := h c List.mem_cons_self
      cases c with
      | send u a y => exact calm_send (hr _) (hfz _) hc ih ih
      | sendGroup g ms =>
        refine ⟨hr _, fun _ => ?_, fun h => absurd (hfz _) h⟩
        show Calm _ _ _ _ (if known .groups g = true then _ else _)
        split
        · exact calm_all hr hfz ih ms hc
        · exact ih
      | gotText => exact ih
      | gotGroupsRequest a =>
        exact ⟨hr _, fun _ => calm_deliver (hr _) (hfz _) ih ih a hc.2 hc.1, fun h => absurd (hfz _) h⟩
      | newGroup _ _ => exact hc.elim
      | refresh _ => exact hc.elim
      | gotProfileKey _ => exact hc.elim
      | gotContactsRequest _ _ => exact hc.elim

theorem calm_received {r w frozen : Map → Prop} {known : Map → String → Bool} {self : String}
    (hr : r .contacts) (hw : w .contacts) (hfz : ¬ frozen .contacts) : ∀ (l : List Call), (∀ c ∈ l, Received c) →
      Calm r w frozen known (calls self l)
  | [], _ => trivial
  | c :: l, h => by
      have ih : Calm r w frozen known (calls self l) :=
        calm_received hr hw hfz l fun c' hc' => h c' (List.mem_cons_of_mem _ hc')
      have hc := h c List.mem_cons_self
      cases c with
      | gotProfileKey src =>
        exact ⟨hr, fun h => absurd h hfz, fun _ _ => ⟨hw, hr, fun h => absurd h hfz, fun _ _ => ih⟩⟩
      | gotText => exact ih
      | send _ _ _ => exact hc.elim
      | sendGroup _ _ => exact hc.elim
      | newGroup _ _ => exact hc.elim
      | refresh _ => exact hc.elim
      | gotContactsRequest _ _ => exact hc.elim
      | gotGroupsRequest _ => exact hc.elim

end Verif.Proof.Maps
