import Verif.Model.ContactFile
import Verif.Proof.Contacts
/-!
# The file of contacts over several starts: C173
-/
namespace Verif.Props.ContactFile
open Verif Verif.Contacts Verif.ContactFile

/-- Sources of messages: texts other than `0` that do not begin with a zero byte. -/
def Source (src : Bytes) : Prop := src ≠ [] ∧ src ≠ [48] ∧ src.head? ≠ some 0

/-- The ordinary course of things: the file can be read, and writing it succeeds or fails without touching it. -/
def Quiet : Op → Prop
  | .read r => r = true
  | .key src _ (.done _) => Source src
  | .key src _ (.fails none) => Source src
  | .key _ _ _ => False
  | .restart => True

/-- The contact `c`, with its key or one that was announced in its name. -/
def Follows (ops : List Op) (c c' : Contact) : Prop :=
  ∃ k, c' = { c with profileKey := k } ∧ (k = c.profileKey ∨ ∃ f, .key (loadKey c) k f ∈ ops)

/-- A contact made for somebody who announced a key. -/
def Made (ops : List Op) (c : Contact) : Prop :=
  ∃ src k f, c = { uuid := src, tel := [], name := src, profileKey := k } ∧ .key src k f ∈ ops

/-- Contacts are told apart by the key they are loaded under. -/
def Distinct (l : List Contact) : Prop := ∀ c ∈ l, ∀ d ∈ l, loadKey c = loadKey d → c = d

theorem loadKey_source {src k : Bytes} (h : Source src) :
    loadKey { uuid := src, tel := [], name := src, profileKey := k } = src := by
  obtain ⟨h1, h2, h3⟩ := h
  have : hasUuid src = true := by
    simp only [hasUuid, Bool.and_eq_true, bne_iff_ne, ne_eq, Bool.or_eq_true]
    exact ⟨⟨h1, h2⟩, .inl h3⟩
  simp only [loadKey, this, if_true]

theorem loadKey_follows {ops : List Op} {c c' : Contact} (h : Follows ops c c') : loadKey c' = loadKey c := by
  obtain ⟨k, rfl, -⟩ := h
  rfl

/-- Where contacts come from. -/
def Known (F : List Contact) (ops : List Op) (c' : Contact) : Prop := (∃ c ∈ F, Follows ops c c') ∨ Made ops c'

structure Inv (F : List Contact) (ops : List Op) (s : State) : Prop where
  keyed : Keyed s.book
  filed : ∀ e ∈ s.book, loadKey e.2 = e.1
  known : ∀ e ∈ s.book, Known F ops e.2
  held : s.path = true → ∀ c ∈ F, ∃ c', get s.book (loadKey c) = some c' ∧ Follows ops c c'
  disk : ∃ G, s.disk = .list G ∧ Distinct G ∧ (∀ c' ∈ G, Known F ops c') ∧ ∀ c ∈ F, ∃ c' ∈ G, Follows ops c c'

theorem inv_file {F : List Contact} {ops : List Op} {s : State} (h : Inv F ops s) (hp : s.path = true) (o : Order) :
    Inv F ops { s with disk := .list (o.run (fileOf s.book)) } := by
  refine ⟨h.keyed, h.filed, h.known, h.held, o.run (fileOf s.book), rfl, ?_, ?_, ?_⟩
  · intro c hc d hd hcd
    have hc := (o.perm _).mem_iff.mp hc
    have hd := (o.perm _).mem_iff.mp hd
    simp only [fileOf, List.mem_map] at hc hd
    obtain ⟨e, he, rfl⟩ := hc
    obtain ⟨e', he', rfl⟩ := hd
    have h1 := get_of_mem h.keyed (k := e.1) (c := e.2) he
    have h2 := get_of_mem h.keyed (k := e'.1) (c := e'.2) he'
    rw [h.filed e he, h.filed e' he'] at hcd
    rw [hcd, h2] at h1
    exact (Option.some.inj h1).symm
  · intro c hc
    have hc := (o.perm _).mem_iff.mp hc
    simp only [fileOf, List.mem_map] at hc
    obtain ⟨e, he, rfl⟩ := hc
    exact h.known e he
  · intro c hc
    obtain ⟨c', h1, h2⟩ := h.held hp c hc
    refine ⟨c', (o.perm _).mem_iff.mpr ?_, h2⟩
    exact List.mem_map.mpr ⟨_, get_mem h1, rfl⟩

theorem inv_update {F : List Contact} {ops : List Op} {s : State} (h : Inv F ops s) {src k : Bytes} {f : Fate}
    (hs : Source src) (hop : .key src k f ∈ ops) :
    Inv F ops { s with book := updateProfileKey s.book src k } := by
  obtain ⟨c0, hc0, hk, hf, hkn, hh⟩ : ∃ c0, updateProfileKey s.book src k = put s.book src c0 ∧ c0.profileKey = k ∧
      loadKey c0 = src ∧ Known F ops c0 ∧ (∀ c ∈ F, loadKey c = src → s.path = true → Follows ops c c0) := by
    unfold updateProfileKey
    cases hg : get s.book src with
    | none =>
      refine ⟨_, rfl, rfl, loadKey_source hs, .inr ⟨src, k, f, rfl, hop⟩, ?_⟩
      intro c hc hcs hp
      obtain ⟨c', h1, -⟩ := h.held hp c hc
      rw [hcs, hg] at h1
      cases h1
    | some d =>
      have hm := get_mem hg
      have hd : loadKey d = src := h.filed _ hm
      refine ⟨_, rfl, rfl, hd, ?_, ?_⟩
      · rcases h.known _ hm with ⟨c, hc, k', rfl, -⟩ | ⟨src', k', f', h1, h2⟩
        · exact .inl ⟨c, hc, k, rfl, .inr ⟨f, by rw [show loadKey c = src from hd]; exact hop⟩⟩
        · simp only at h1
          subst h1
          by_cases hs' : src' = src
          · subst hs'
            exact .inr ⟨src', k, f, rfl, hop⟩
          · exfalso
            simp only [loadKey] at hd
            split at hd
            · exact hs' hd
            · exact hs.1 hd.symm
      · intro c hc hcs hp
        obtain ⟨c', h1, k', rfl, -⟩ := h.held hp c hc
        rw [hcs, hg] at h1
        cases h1
        exact ⟨k, rfl, .inr ⟨f, by rw [hcs]; exact hop⟩⟩
  have key := hc0
  refine ⟨?_, ?_, ?_, ?_, h.disk⟩
  · show Keyed (updateProfileKey s.book src k)
    rw [key]
    exact keyed_put h.keyed _ _
  · show ∀ e ∈ updateProfileKey s.book src k, _
    rw [key]
    intro e he
    rcases mem_put.mp he with rfl | ⟨he, -⟩
    · exact hf
    · exact h.filed e he
  · show ∀ e ∈ updateProfileKey s.book src k, _
    rw [key]
    intro e he
    rcases mem_put.mp he with rfl | ⟨he, -⟩
    · exact hkn
    · exact h.known e he
  · intro hp c hc
    show ∃ c', get (updateProfileKey s.book src k) _ = _ ∧ _
    rw [key, get_put]
    by_cases hcs : src = loadKey c
    · rw [if_pos hcs]
      exact ⟨c0, rfl, hh c hc hcs.symm hp⟩
    · rw [if_neg hcs]
      exact h.held hp c hc

theorem inv_step {F : List Contact} {ops : List Op} {s : State} (h : Inv F ops s) (op : Op) (hop : op ∈ ops)
    (hq : Quiet op) : Inv F ops (step s op) := by
  cases op with
  | read r =>
    obtain ⟨G, hG, hd, hk, hc⟩ := h.disk
    have hr : r = true := hq
    subst hr
    have he : step s (.read true) = { s with path := true, book := loadContacts s.book G } := by
      simp only [step, readContacts, hG, if_true]
    rw [he]
    refine ⟨keyed_load h.keyed G, ?_, ?_, ?_, G, hG, hd, hk, hc⟩
    · intro e he
      rcases mem_load he with he | ⟨-, he⟩
      · exact h.filed e he
      · exact he.symm
    · intro e he
      rcases mem_load he with he | ⟨he, -⟩
      · exact h.known e he
      · exact hk _ he
    · intro _ c hcF
      obtain ⟨c', h1, h2⟩ := hc c hcF
      refine ⟨c', ?_, h2⟩
      rw [← loadKey_follows h2]
      exact get_load h1 (fun d hd' hk' => hd d hd' c' h1 hk')
  | restart => exact ⟨List.nodup_nil, (fun _ h => (List.not_mem_nil h).elim), (fun _ h => (List.not_mem_nil h).elim), (fun h => (Bool.false_ne_true h).elim), h.disk⟩
  | key src k f =>
    cases f with
    | dies l => exact hq.elim
    | fails l =>
      cases l with
      | some l => exact hq.elim
      | none =>
        have hu := inv_update h (f := .fails none) hq hop
        have : step s (.key src k (.fails none)) = { s with book := updateProfileKey s.book src k } := by
          simp only [step, updateKey, writeContacts, Option.getD_none]
          split <;> rfl
        rw [this]
        exact hu
    | done o =>
      have hu := inv_update h (f := .done o) hq hop
      simp only [step, updateKey, writeContacts]
      split
      · next hp => exact inv_file hu hp o
      · exact hu

/-- **C173 (part).** However often the program is started, contacts are asked for and profile keys are announced,
every contact that was in the file stays in it, with everything but its profile key as it was; the profile key is the
old one or one announced in the name of this contact. Others in the file are those who announced a key. This holds
when the contacts can be told apart, the file can be read and no write of it breaks off. Missing: see below. -/
theorem C173_kept_partial (F : List Contact) (hF : Distinct F) (ops : List Op) (hq : ∀ op ∈ ops, Quiet op) :
    ∃ G, (run ⟨[], false, .list F⟩ ops).disk = .list G ∧ (∀ c ∈ F, ∃ c' ∈ G, Follows ops c c') ∧
      (∀ c' ∈ G, (∃ c ∈ F, Follows ops c c') ∨ Made ops c') := by
  have : ∀ l : List Op, (∀ op ∈ l, op ∈ ops) → ∀ s, Inv F ops s → Inv F ops (run s l) := by
    intro l
    induction l with
    | nil => intro _ s hs; exact hs
    | cons op l ih =>
      intro hl s hs
      exact ih (fun o ho => hl o (by simp [ho])) _ (inv_step hs op (hl op (by simp)) (hq op (hl op (by simp))))
  have h0 : Inv F ops ⟨[], false, .list F⟩ :=
    ⟨List.nodup_nil, by simp, by simp, fun h => by simp at h, F, rfl, hF,
      fun c hc => .inl ⟨c, hc, c.profileKey, rfl, .inl rfl⟩, fun c hc => ⟨c, hc, c.profileKey, rfl, .inl rfl⟩⟩
  obtain ⟨G, h1, -, h2, h3⟩ := (this ops (fun _ h => h) _ h0).disk
  exact ⟨G, h1, h3, h2⟩

/-- A key that is announced after the contacts were read is in the file when the update reports success, and is what
a later start finds. -/
theorem C173_stored (s : State) (src k : Bytes) (f : Fate) (h : (updateKey src k f s).2 = .ok ()) :
    ∃ G, (updateKey src k f s).1.disk = .list G ∧ ∃ c ∈ G, c.profileKey = k ∧
      get (updateKey src k f s).1.book src = some c := by
  unfold updateKey writeContacts at *
  cases f with
  | dies l => simp at h
  | fails l => simp at h
  | done o =>
    simp only at h ⊢
    split at h
    · next hp =>
      rw [if_pos hp]
      obtain ⟨c0, h1, h2⟩ : ∃ c0, updateProfileKey s.book src k = put s.book src c0 ∧ c0.profileKey = k := by
        unfold updateProfileKey
        cases get s.book src with
        | none => exact ⟨_, rfl, rfl⟩
        | some d => exact ⟨_, rfl, rfl⟩
      have hg : get (put s.book src c0) src = some c0 := by rw [get_put, if_pos rfl]
      refine ⟨_, rfl, c0, (o.perm _).mem_iff.mpr ?_, h2, ?_⟩
      · simp only [h1]
        exact List.mem_map.mpr ⟨_, get_mem hg, rfl⟩
      · simp only [h1]
        exact hg
    · cases h

/-- What is left of any file after a key of `src` was written by a program that knew no contacts. -/
def only (src k : Bytes) : Disk := .list [{ uuid := src, tel := [], name := src, profileKey := k }]

theorem order_one (o : Order) (c : Contact) : o.run [c] = [c] := List.perm_singleton.mp (o.perm [c])

/-- **C173 refuted (unreadable).** When the file cannot be read at a start, this counts as having no contacts, without
an error; the first profile key that is announced then replaces the whole file, whatever was in it. -/
theorem C173_unreadable (d : Disk) (src k : Bytes) (o : Order) :
    (readContacts false ⟨[], false, d⟩).2 = .ok [] ∧
    (run ⟨[], false, d⟩ [.read false, .key src k (.done o)]).disk = only src k := by
  refine ⟨rfl, ?_⟩
  show Disk.list (o.run [{ uuid := src, tel := [], name := src, profileKey := k }]) = _
  rw [order_one]
  rfl

/-- **C173 refuted (damaged).** A file that is not proper YAML (a slip in editing it, or a write that broke off) is
reported, but the next profile key that is announced replaces it all the same. -/
theorem C173_damaged (src k : Bytes) (o : Order) :
    (readContacts true ⟨[], false, .damaged⟩).2 = .err .other ∧
    (run ⟨[], false, .damaged⟩ [.read true, .key src k (.done o)]).disk = only src k := by
  refine ⟨rfl, ?_⟩
  show Disk.list (o.run [{ uuid := src, tel := [], name := src, profileKey := k }]) = _
  rw [order_one]
  rfl

/-- **C173 refuted (death).** So a death in the middle of a write, followed by a new start and another key, loses
every contact. -/
theorem C173_death (F : List Contact) (s1 k1 src k : Bytes) (o : Order) :
    (run ⟨[], false, .list F⟩ [.read true, .key s1 k1 (.dies .damaged), .read true, .key src k (.done o)]).disk =
      only src k := by
  have : run ⟨[], false, .list F⟩ [.read true, .key s1 k1 (.dies .damaged), .read true, .key src k (.done o)] =
      run ⟨[], false, .damaged⟩ [.read true, .key src k (.done o)] := rfl
  rw [this]
  exact (C173_damaged src k o).2

/-- **C173 refuted (too early).** As long as the contacts have not been read — in echo mode never — no profile key
reaches the file, whatever happens; each update is reported as failed. -/
theorem C173_unread (ops : List Op) (h : ∀ op ∈ ops, ∀ r, op ≠ .read r) (d : Disk) :
    (run ⟨[], false, d⟩ ops).disk = d ∧ (run ⟨[], false, d⟩ ops).path = false ∧
    ∀ src k f, (updateKey src k f (run ⟨[], false, d⟩ ops)).2 ≠ .ok () := by
  have key : ∀ s : State, s.path = false → (∀ op ∈ ops, ∀ r, op ≠ .read r) →
      (run s ops).disk = s.disk ∧ (run s ops).path = false := by
    induction ops with
    | nil => intro s hs _; exact ⟨rfl, hs⟩
    | cons op ops ih =>
      intro s hs hn
      have hstep : (step s op).disk = s.disk ∧ (step s op).path = false := by
        cases op with
        | read r => exact absurd rfl (hn _ (by simp) r)
        | restart => exact ⟨rfl, rfl⟩
        | key src k f => cases f <;> simp [step, updateKey, writeContacts, hs]
      obtain ⟨h1, h2⟩ := ih (fun o ho => h o (by simp [ho])) (step s op) hstep.2 (fun o ho => hn o (by simp [ho]))
      exact ⟨h1.trans hstep.1, h2⟩
  obtain ⟨h1, h2⟩ := key ⟨[], false, d⟩ rfl h
  refine ⟨h1, h2, ?_⟩
  intro src k f
  cases f <;> simp [updateKey, writeContacts, h2]

/-- **C173, reading.** Only new profile keys change the file: however often the program is started and the contacts are read,
whether or not the file can be read or understood, it stays what it was. -/
theorem C173_reading (ops : List Op) (h : ∀ op ∈ ops, ∀ src k f, op ≠ .key src k f) (s : State) :
    (run s ops).disk = s.disk := by
  induction ops generalizing s with
  | nil => rfl
  | cons op ops ih =>
    have hstep : (step s op).disk = s.disk := by
      cases op with
      | key src k f => exact absurd rfl (h _ (by simp) src k f)
      | restart => rfl
      | read r => simp only [step, readContacts]; split <;> rfl
    exact (ih (fun o ho => h o (by simp [ho])) (step s op)).trans hstep

/-- And once they are read, the key in the file is put back in place of the newer one. -/
theorem C173_put_back (F : List Contact) (hF : Distinct F) (c : Contact) (hc : c ∈ F) (k : Bytes) (f : Fate) :
    get (run ⟨[], false, .list F⟩ [.key (loadKey c) k f, .read true]).book (loadKey c) = some c := by
  have : ∃ b, (run ⟨[], false, .list F⟩ [.key (loadKey c) k f, .read true]).book = loadContacts b F := by
    cases f <;> exact ⟨_, rfl⟩
  obtain ⟨b, hb⟩ := this
  rw [hb]
  exact get_load hc (fun d hd hk => hF d hd c hc hk)

/-! ## Concrete cases -/

/-- A file that cannot be read is still there at the next start. -/
example : (run ⟨[], false, .list [{ uuid := [97], tel := [49], name := [65] }]⟩ [.read false, .restart]).disk =
    .list [{ uuid := [97], tel := [49], name := [65] }] := C173_reading _ (by simp) _

def anna : Contact := { uuid := [97], tel := [49], name := [65], profileKey := [1] }
def bert : Contact := { uuid := [98], tel := [50], name := [66] }
def asIs : Order := ⟨id, fun _ => .refl _⟩
def backwards : Order := ⟨List.reverse, fun l => List.reverse_perm l⟩

/-- Two starts; anna announces a key, once while the disk is full, and so does a stranger. -/
def days : List Op := [.read true, .key [97] [2] (.fails none), .key [99] [3] (.done backwards), .restart,
  .read true, .key [97] [4] (.done asIs)]

instance : DecidablePred Quiet := fun op => by
  unfold Quiet Source
  split <;> infer_instance

example : Distinct [anna, bert] ∧ (∀ op ∈ days, Quiet op) ∧
    (run ⟨[], false, .list [anna, bert]⟩ days).disk =
      .list [{ anna with profileKey := [4] }, { uuid := [99], tel := [], name := [99], profileKey := [3] }, bert] := by
  refine ⟨?_, by decide, by decide⟩
  intro c hc d hd h
  simp only [List.mem_cons, List.not_mem_nil, or_false] at hc hd
  rcases hc with rfl | rfl <;> rcases hd with rfl | rfl <;> first | rfl | exact absurd h (by decide)

example : (updateKey [97] [5] (.done asIs) (run ⟨[], false, .list [anna, bert]⟩ days)).2 = .ok () := by decide

end Verif.Props.ContactFile
