import Verif.Model.Config
/-!
# C137-C139: the configuration file, refreshing it, the authority of the server
-/
namespace Verif.Props.Config
open Verif Verif.Config

/-! ## Specification -/

/-- Every write succeeds. -/
def Complete : Ev → Prop
  | .change _ o => o.opens = true ∧ o.bytes = none
  | .refresh o => o.opens = true ∧ o.bytes = none
  | .edit .. => False
  | _ => True

/-- What a variable that needs no files would hold: the configuration on paper, and the one in use (nothing while
the program has not loaded it). -/
structure Paper where
  saved : Config
  used : Option Config

/-- What events should do. -/
def Paper.step (p : Paper) : Ev → Paper
  | .load => { p with used := some (defaults p.saved) }
  | .change c _ =>
    match p.used with
    | some m => ⟨c.apply m, some (c.apply m)⟩
    | none => p
  | .refresh _ => { p with saved := defaults p.saved }
  | .restart => { p with used := none }
  | .edit .. => p

/-- The file says what the paper says. -/
structure Agrees (Y : Yaml) (f : String) (s : Sys) (p : Paper) : Prop where
  file : ∃ b, s.files f = some b ∧ Y.unmarshal b = some p.saved
  mem : s.mem = p.used
  name : p.used.isSome → s.configFile = f

theorem write_complete (Y : Yaml) (hY : ∀ c, (Y.marshal c).isSome) (fs : Files) (f : String) (hf : f ≠ "") (c : Config)
    (o : Outcome) (h : o.opens = true ∧ o.bytes = none) :
    ∃ b, Y.marshal c = some b ∧ writeConfig Y fs f c o = (fs.set f b, .ok ()) := by
  obtain ⟨b, hb⟩ := Option.isSome_iff_exists.mp (hY c)
  refine ⟨b, hb, ?_⟩
  simp [writeConfig, hb, writeFile, hf, h.1, h.2]

theorem agrees_step (Y : Yaml) (hY : ∀ c, (Y.marshal c).isSome) (f : String) (hf : f ≠ "") (s : Sys) (p : Paper)
    (e : Ev) (he : Complete e) (h : Agrees Y f s p) : Agrees Y f (step Y (.file f) s e).1 (p.step e) := by
  obtain ⟨b, hb, hu⟩ := h.file
  have hl : loadConfig Y (.file f) s = (f, .ok (defaults p.saved)) := by
    simp only [loadConfig, readConfig, hb, hu]
  cases e with
  | load =>
    refine ⟨⟨b, ?_, hu⟩, ?_, ?_⟩ <;> simp [step, load, hl, Paper.step, hb]
  | change c o =>
    rcases hm : p.used with _ | m
    · have hm' : s.mem = none := by rw [h.mem, hm]
      have e1 : (step Y (.file f) s (.change c o)).1 = s := by simp [step, Config.change, hm']
      have e2 : p.step (.change c o) = p := by simp [Paper.step, hm]
      rw [e1, e2]; exact h
    · have hm' : s.mem = some m := by rw [h.mem, hm]
      have hn : s.configFile = f := h.name (by rw [hm]; rfl)
      obtain ⟨b', hb', hw⟩ := write_complete Y hY s.files f hf (c.apply m) o he
      have e1 : (step Y (.file f) s (.change c o)).1 = { s with files := s.files.set f b', mem := some (c.apply m) } := by
        simp only [step, Config.change, hm', saveConfig, hn, hw]
        cases c <;> simp [hn]
      have e2 : p.step (.change c o) = ⟨c.apply m, some (c.apply m)⟩ := by simp [Paper.step, hm]
      rw [e1, e2]
      exact ⟨⟨b', by simp [Files.set], Y.round _ _ hb'⟩, rfl, fun _ => hn⟩
  | refresh o =>
    obtain ⟨b', hb', hw⟩ := write_complete Y hY s.files f hf (defaults p.saved) o he
    have e1 : (step Y (.file f) s (.refresh o)).1 = { s with files := s.files.set f b', configFile := f } := by
      simp only [step, refreshConfig, hl, saveConfig, hw]
    rw [e1]
    exact ⟨⟨b', by simp [Files.set], Y.round _ _ hb'⟩, h.mem, fun _ => rfl⟩
  | restart => exact ⟨⟨b, hb, hu⟩, rfl, by intro h; cases h⟩
  | edit _ _ => exact he.elim

theorem agrees_run (Y : Yaml) (hY : ∀ c, (Y.marshal c).isSome) (f : String) (hf : f ≠ "") (evs : List Ev) :
    ∀ (s : Sys) (p : Paper), (∀ e ∈ evs, Complete e) → Agrees Y f s p →
      Agrees Y f (run Y (.file f) s evs) (evs.foldl Paper.step p) := by
  induction evs with
  | nil => intro s p _ h; exact h
  | cons e evs ih =>
    intro s p he h
    exact ih _ _ (fun x hx => he x (List.mem_cons_of_mem _ hx))
      (agrees_step Y hY f hf s p e (he e List.mem_cons_self) h)

/-! ## C137 -/

/-- **C137 (part).** An application that reads its configuration with `ReadConfig`, any history of changes, refreshes
and restarts in which the writes succeed: the configuration in use is always the one a variable that outlives the
program would hold. Missing: interrupted writes, and applications with a configuration of their own (refuted
below). -/
theorem C137_survives_partial (Y : Yaml) (hY : ∀ c, (Y.marshal c).isSome) (f : String) (hf : f ≠ "") (fs : Files) (b : Bytes)
    (c : Config) (hb : fs f = some b) (hc : Y.unmarshal b = some c) (evs : List Ev) (he : ∀ e ∈ evs, Complete e) :
    (run Y (.file f) { files := fs } evs).mem = (evs.foldl Paper.step ⟨c, none⟩).used :=
  (agrees_run Y hY f hf evs _ _ he ⟨⟨b, hb, hc⟩, rfl, by intro h; cases h⟩).mem

/-- The events do not register anew. -/
def NoRegistration : Ev → Prop
  | .change (.registered ..) _ => False
  | _ => True

theorem defaults_account (c : Config) : (defaults c).tel = c.tel ∧ (defaults c).uuid = c.uuid := by
  unfold defaults
  simp only
  split <;> split <;> split <;> exact ⟨rfl, rfl⟩

/-- The account on paper. -/
def Account (t u : String) (p : Paper) : Prop :=
  p.saved.tel = t ∧ p.saved.uuid = u ∧ ∀ m, p.used = some m → m.tel = t ∧ m.uuid = u

theorem account_step (t u : String) (p : Paper) (e : Ev) (hn : NoRegistration e) (h : Account t u p) :
    Account t u (p.step e) := by
  obtain ⟨h1, h2, h3⟩ := h
  have hd := defaults_account p.saved
  cases e with
  | load =>
    refine ⟨h1, h2, ?_⟩
    intro m hm
    injection hm with hm
    subst hm
    exact ⟨hd.1.trans h1, hd.2.trans h2⟩
  | change c o =>
    rcases hu : p.used with _ | m
    · have : p.step (.change c o) = p := by simp [Paper.step, hu]
      rw [this]; exact ⟨h1, h2, h3⟩
    · have e2 : p.step (.change c o) = ⟨c.apply m, some (c.apply m)⟩ := by simp [Paper.step, hu]
      have h4 : (c.apply m).tel = t ∧ (c.apply m).uuid = u := by
        cases c with
        | registered _ _ _ => exact hn.elim
        | _ => exact h3 m hu
      rw [e2]
      refine ⟨h4.1, h4.2, ?_⟩
      intro m' hm
      injection hm with hm
      subst hm
      exact h4
  | refresh o => exact ⟨hd.1.trans h1, hd.2.trans h2, h3⟩
  | restart => exact ⟨h1, h2, by intro m hm; cases hm⟩
  | edit _ _ => exact ⟨h1, h2, h3⟩

/-- **C137 (part, the account).** The number and the UUID given at registration are the ones in use ever after,
through any number of restarts, until the next registration. -/
theorem C137_account_partial (Y : Yaml) (hY : ∀ c, (Y.marshal c).isSome) (f : String) (hf : f ≠ "") (s : Sys)
    (b : Bytes) (c0 m : Config) (hb : s.files f = some b) (hc : Y.unmarshal b = some c0) (hm : s.mem = some m)
    (hn : s.configFile = f) (t u n : String) (o : Outcome) (ho : Complete (.change (.registered t u n) o))
    (evs : List Ev) (he : ∀ e ∈ evs, Complete e ∧ NoRegistration e) (m' : Config)
    (hm' : (run Y (.file f) s (.change (.registered t u n) o :: evs)).mem = some m') : m'.tel = t ∧ m'.uuid = u := by
  have h0 : Agrees Y f s ⟨c0, some m⟩ := ⟨⟨b, hb, hc⟩, hm, fun _ => hn⟩
  have h1 := agrees_run Y hY f hf (.change (.registered t u n) o :: evs) s _
    (by intro e h; rcases List.mem_cons.mp h with rfl | h
        · exact ho
        · exact (he e h).1) h0
  have h2 : ∀ (evs : List Ev) (p : Paper), (∀ e ∈ evs, NoRegistration e) → Account t u p →
      Account t u (evs.foldl Paper.step p) := by
    intro evs
    induction evs with
    | nil => intro p _ h; exact h
    | cons e evs ih =>
      intro p he h
      exact ih _ (fun x hx => he x (List.mem_cons_of_mem _ hx)) (account_step t u p e (he e List.mem_cons_self) h)
  rw [h1.mem] at hm'
  have h3 := h2 evs (Paper.step ⟨c0, some m⟩ (.change (.registered t u n) o)) (fun e h => (he e h).2)
    ⟨rfl, rfl, by intro m1 h; injection h with h; subst h; exact ⟨rfl, rfl⟩⟩
  exact h3.2.2 m' hm'

/-- What a configuration has after a change, field by field. -/
def Says : Change → Config → Prop
  | .registered t u n, m => m.tel = t ∧ m.uuid = u ∧ m.name = n
  | .profileKey k, m => m.profileKey = k
  | .name n, m => m.name = n
  | .certificate b, m => m.certificate = b
  | .credential b, m => m.credential = b
  | .capabilities n, m => m.capabilities = n

/-- Two changes of the same setting; registration also sets the name and the capabilities. -/
def Clash : Change → Change → Prop
  | .registered .., .registered .. => True
  | .registered .., .name _ => True
  | .name _, .registered .. => True
  | .capabilities _, .registered .. => True
  | .profileKey _, .profileKey _ => True
  | .name _, .name _ => True
  | .certificate _, .certificate _ => True
  | .credential _, .credential _ => True
  | .capabilities _, .capabilities _ => True
  | _, _ => False

/-- The event does not change what `c` has set. -/
def Spares (c : Change) : Ev → Prop
  | .change d _ => ¬ Clash c d
  | _ => True

theorem says_defaults (c : Change) (m : Config) (h : Says c m) : Says c (defaults m) := by
  unfold defaults
  simp only
  cases c <;> split <;> split <;> split <;> exact h

theorem says_step (c : Change) (p : Paper) (e : Ev) (he : Spares c e)
    (h : Says c p.saved ∧ ∀ m, p.used = some m → Says c m) :
    Says c (p.step e).saved ∧ ∀ m, (p.step e).used = some m → Says c m := by
  obtain ⟨h1, h2⟩ := h
  cases e with
  | load =>
    refine ⟨h1, ?_⟩
    intro m hm
    injection hm with hm
    rw [← hm]
    exact says_defaults c _ h1
  | change d o =>
    rcases hu : p.used with _ | m
    · simp only [Paper.step, hu]
      exact ⟨h1, by intro m hm; cases hm⟩
    · have h3 := h2 m hu
      simp only [Paper.step, hu]
      have h4 : Says c (d.apply m) := by
        cases c <;> cases d <;> first | exact h3 | exact absurd trivial he
      exact ⟨h4, by intro m' hm; injection hm with hm; rw [← hm]; exact h4⟩
  | refresh o => exact ⟨says_defaults c _ h1, h2⟩
  | restart => exact ⟨h1, by intro m hm; cases hm⟩
  | edit _ _ => exact ⟨h1, h2⟩

/-- **C137 (part, every setting).** What a change has set - the account, the name, the profile key, its credential, the
certificate or the capabilities - is what is in use ever after, through any number of restarts, refreshes and changes
of other settings, until the same setting is changed again. -/
theorem C137_last_value_partial (Y : Yaml) (hY : ∀ c, (Y.marshal c).isSome) (f : String) (hf : f ≠ "") (s : Sys)
    (b : Bytes) (c0 m : Config) (hb : s.files f = some b) (hc : Y.unmarshal b = some c0) (hm : s.mem = some m)
    (hn : s.configFile = f) (c : Change) (o : Outcome) (ho : Complete (.change c o))
    (evs : List Ev) (he : ∀ e ∈ evs, Complete e ∧ Spares c e) (m' : Config)
    (hm' : (run Y (.file f) s (.change c o :: evs)).mem = some m') : Says c m' := by
  have h0 : Agrees Y f s ⟨c0, some m⟩ := ⟨⟨b, hb, hc⟩, hm, fun _ => hn⟩
  have h1 := agrees_run Y hY f hf (.change c o :: evs) s _
    (by intro e h; rcases List.mem_cons.mp h with rfl | h
        · exact ho
        · exact (he e h).1) h0
  have h2 : ∀ (evs : List Ev) (p : Paper), (∀ e ∈ evs, Spares c e) →
      (Says c p.saved ∧ ∀ m, p.used = some m → Says c m) →
      (Says c (evs.foldl Paper.step p).saved ∧ ∀ m, (evs.foldl Paper.step p).used = some m → Says c m) := by
    intro evs
    induction evs with
    | nil => intro p _ h; exact h
    | cons e evs ih =>
      intro p he h
      exact ih _ (fun x hx => he x (List.mem_cons_of_mem _ hx)) (says_step c p e (he e List.mem_cons_self) h)
  rw [h1.mem] at hm'
  have hs : Says c (c.apply m) := by
    cases c with
    | registered t u n => exact ⟨rfl, rfl, rfl⟩
    | _ => exact (rfl : _ = _)
  have h3 := h2 evs (Paper.step ⟨c0, some m⟩ (.change c o)) (fun e h => (he e h).2)
    ⟨hs, by intro m1 h; injection h with h; rw [← h]; exact hs⟩
  exact h3.2 m' hm'

/-- **C137 (part, loading).** Loading succeeds exactly if the file is there and can be parsed; otherwise there is an
error, and no configuration is in use. -/
theorem C137_loading_partial (Y : Yaml) (f : String) (s : Sys) :
    ((∃ b c, s.files f = some b ∧ Y.unmarshal b = some c ∧ (step Y (.file f) s .load).1.mem = some (defaults c)) ∧
      (step Y (.file f) s .load).2 = .ok ()) ∨
    ((∀ b c, s.files f = some b → Y.unmarshal b ≠ some c) ∧ (step Y (.file f) s .load).1.mem = none ∧
      ∃ e, (step Y (.file f) s .load).2 = .err e) := by
  rcases hb : s.files f with _ | b
  · exact Or.inr ⟨(by intro b c h; cases h), by simp [step, load, loadConfig, readConfig, hb],
      .storeRead, by simp [step, load, loadConfig, readConfig, hb]⟩
  · rcases hc : Y.unmarshal b with _ | c
    · refine Or.inr ⟨?_, by simp [step, load, loadConfig, readConfig, hb, hc],
        .other, by simp [step, load, loadConfig, readConfig, hb, hc]⟩
      intro b' c h
      cases h
      rw [hc]
      simp
    · exact Or.inl ⟨⟨b, c, rfl, hc, by simp [step, load, loadConfig, readConfig, hb, hc]⟩,
        by simp [step, load, loadConfig, readConfig, hb, hc]⟩

/-- **C137 (part, registration).** Registration reports success exactly if all of the new configuration is in the
file. -/
theorem C137_registration_partial (Y : Yaml) (app : App) (s : Sys) (m : Config) (hm : s.mem = some m) (b : Bytes)
    (t u n : String) (hb : Y.marshal ((Change.registered t u n).apply m) = some b) (o : Outcome) :
    (step Y app s (.change (.registered t u n) o)).2 = .ok () ↔
      s.configFile ≠ "" ∧ o.opens = true ∧ ∀ k, o.bytes = some k → b.length ≤ k := by
  simp only [step, Config.change, hm, saveConfig, writeConfig, hb, writeFile]
  by_cases h1 : s.configFile = ""
  · simp [h1]
  · cases h2 : o.opens
    · simp
    · cases h3 : o.bytes with
      | none => simp [h1]
      | some k =>
        simp only [h1, Bool.true_eq_false, or_self, if_false, Option.getD_some]
        by_cases h4 : k < b.length
        · simp [h4]
        · simp [h1, h4, Nat.le_of_not_lt h4]

/-- **C137 refuted (interrupted writes).** Whatever the configuration, if the program ends while a change is saved,
before the first byte is written, the next start finds an empty configuration: no number, no UUID, no profile key,
and no error. -/
theorem C137_interrupted (Y : Yaml) (hY : ∀ c, (Y.marshal c).isSome) (f : String) (hf : f ≠ "") (s : Sys) (m : Config)
    (hm : s.mem = some m) (hn : s.configFile = f) (c : Change) :
    (step Y (.file f) (run Y (.file f) s [.change c ⟨true, some 0⟩, .restart]) .load) =
      ({ files := s.files.set f [], configFile := f, mem := some (defaults {}) }, .ok ()) := by
  obtain ⟨b, hb⟩ := Option.isSome_iff_exists.mp (hY (c.apply m))
  have e1 : (run Y (.file f) s [.change c ⟨true, some 0⟩, .restart]) = { files := s.files.set f [] } := by
    cases c <;> simp [run, step, Config.change, hm, saveConfig, hn, writeConfig, hb, writeFile, hf]
  rw [e1]
  simp [step, load, loadConfig, readConfig, Files.set, Y.empty]

/-- The only names of files are those of the events. -/
theorem own_files (Y : Yaml) (c : Config) (evs : List Ev) (hne : ∀ e ∈ evs, ∀ f b, e ≠ .edit f b) :
    ∀ s : Sys, s.configFile = "" → (run Y (.own c) s evs).files = s.files ∧ (run Y (.own c) s evs).configFile = "" := by
  induction evs with
  | nil => intro s h; exact ⟨rfl, h⟩
  | cons e evs ih =>
    intro s h
    obtain ⟨fs, cf, mem⟩ := s
    have h : cf = "" := h
    subst h
    have hsave : ∀ (x : Config) (o : Outcome) (mem : Option Config),
        (saveConfig Y ⟨fs, "", mem⟩ x o).1 = ⟨fs, "", mem⟩ := by
      intro x o mem
      unfold saveConfig writeConfig
      rcases Y.marshal x with _ | b <;> simp [writeFile]
    have hs : (step Y (.own c) ⟨fs, "", mem⟩ e).1.files = fs ∧ (step Y (.own c) ⟨fs, "", mem⟩ e).1.configFile = "" := by
      cases e with
      | load => simp [step, load, loadConfig]
      | change x o =>
        rcases mem with _ | m
        · simp [step, Config.change]
        · cases x <;> simp [step, Config.change, hsave]
      | refresh o => simp [step, refreshConfig, loadConfig, hsave]
      | restart => exact ⟨rfl, rfl⟩
      | edit f b => exact absurd rfl (hne _ List.mem_cons_self f b)
    obtain ⟨h1, h2⟩ := ih (fun e he => hne e (List.mem_cons_of_mem _ he)) _ hs.2
    exact ⟨h1.trans hs.1, h2⟩

/-- **C137 refuted (own configuration).** An application that does not use `ReadConfig`: no history changes any file,
so after a restart the configuration is again the one the application gives; and registration, once the server has
given the account, fails. -/
theorem C137_own_not_saved (Y : Yaml) (c : Config) (fs : Files) (evs : List Ev) (hne : ∀ e ∈ evs, ∀ f b, e ≠ .edit f b)
    (t u n : String) (o : Outcome) :
    (run Y (.own c) { files := fs } (evs ++ [.restart, .load])).mem = some (defaults c) ∧
    (run Y (.own c) { files := fs } evs).files = fs ∧
    (step Y (.own c) (run Y (.own c) { files := fs } evs) (.change (.registered t u n) o)).2 ≠ .ok () := by
  have h := own_files Y c evs hne { files := fs } rfl
  refine ⟨?_, h.1, ?_⟩
  · simp [run, List.foldl_append, step, load, loadConfig]
  · simp only [step, Config.change]
    rcases (run Y (.own c) { files := fs } evs).mem with _ | m
    · simp
    · simp only [saveConfig, writeConfig, h.2]
      rcases Y.marshal (Change.apply (.registered t u n) m) with _ | b <;> simp [writeFile]

/-! ## C138 -/

/-- **C138 (part).** A refresh writes to the file what the file says, with the defaults; refreshing again changes
nothing. Missing: that the refreshed configuration is used, which is refuted. -/
theorem C138_file_partial (Y : Yaml) (hY : ∀ c, (Y.marshal c).isSome) (f : String) (hf : f ≠ "") (s : Sys) (b : Bytes)
    (c : Config) (hb : s.files f = some b) (hc : Y.unmarshal b = some c) (o o' : Outcome)
    (ho : Complete (.refresh o)) (ho' : Complete (.refresh o')) :
    (∃ b', (run Y (.file f) s [.refresh o]).files = s.files.set f b' ∧ Y.unmarshal b' = some (defaults c)) ∧
    (run Y (.file f) s [.refresh o, .refresh o']).files = (run Y (.file f) s [.refresh o]).files := by
  obtain ⟨b', hb', hw⟩ := write_complete Y hY s.files f hf (defaults c) o ho
  have e1 : (step Y (.file f) s (.refresh o)).1 = { s with files := s.files.set f b', configFile := f } := by
    simp only [step, refreshConfig, loadConfig, readConfig, hb, hc, saveConfig, hw]
  have hdd : defaults (defaults c) = defaults c := by
    unfold defaults
    simp only
    by_cases h1 : c.server = "" <;> by_cases h2 : c.verificationType = "" <;> by_cases h3 : c.storageDir = "" <;>
      simp [h1, h2, h3]
  refine ⟨⟨b', by simp only [run, List.foldl, e1], Y.round _ _ hb'⟩, ?_⟩
  obtain ⟨b2, hb2, hw2⟩ := write_complete Y hY (s.files.set f b') f hf (defaults (defaults c)) o' ho'
  have hu : Y.unmarshal b' = some (defaults c) := Y.round _ _ hb'
  have hs : (s.files.set f b') f = some b' := by simp [Files.set]
  have e2 : (step Y (.file f) { s with files := s.files.set f b', configFile := f } (.refresh o')).1 =
      { s with files := (s.files.set f b').set f b2, configFile := f } := by
    simp only [step, refreshConfig, loadConfig, readConfig, hs, hu, saveConfig, hw2]
  simp only [run, List.foldl, e1, e2]
  rw [hdd, hb'] at hb2
  injection hb2 with hb2
  subst hb2
  funext g
  simp only [Files.set]
  split <;> rfl

/-- **C138 refuted.** Whatever the user wrote into the file: a refresh does not change the configuration in use, and
the next change that is saved overwrites the file with the old one. -/
theorem C138_not_used (Y : Yaml) (hY : ∀ c, (Y.marshal c).isSome) (f : String) (hf : f ≠ "") (s : Sys) (m : Config)
    (hm : s.mem = some m) (hn : s.configFile = f) (b : Bytes) (o o' : Outcome) (c : Change)
    (ho : Complete (.change c o')) :
    (run Y (.file f) s [.edit f b, .refresh o]).mem = some m ∧
    ∃ b', (run Y (.file f) s [.edit f b, .refresh o, .change c o']).files f = some b' ∧
      Y.unmarshal b' = some (c.apply m) := by
  obtain ⟨s2, hs2⟩ : ∃ s2, s2 = run Y (.file f) s [.edit f b, .refresh o] := ⟨_, rfl⟩
  have h2 : s2.mem = some m ∧ s2.configFile = f := by
    rw [hs2]
    simp only [run, List.foldl, step, refreshConfig, loadConfig, readConfig, Files.set, if_true]
    rcases Y.unmarshal b with _ | c <;> simp [saveConfig, hm]
  refine ⟨by rw [← hs2]; exact h2.1, ?_⟩
  have e : run Y (.file f) s [.edit f b, .refresh o, .change c o'] = (step Y (.file f) s2 (.change c o')).1 := by
    rw [hs2]; rfl
  obtain ⟨b', hb', hw⟩ := write_complete Y hY s2.files f hf (c.apply m) o' ho
  refine ⟨b', ?_, Y.round _ _ hb'⟩
  rw [e]
  simp only [step, Config.change, h2.1, saveConfig, h2.2, hw]
  cases c <;> simp [Files.set]

/-! ## C139 -/

variable {Cert Chain : Type}

/-- The text of the authority the user asked for: the file named, or the built-in one if none is named. -/
def Asked (T : Tls Cert Chain) (disk : String → CaFile) (rootca : String) (b : Bytes) : Prop :=
  (rootca = "" ∧ b = T.rootPEM) ∨ (rootca ≠ "" ∧ disk rootca = .text b)

/-- **C139 (part).** If no authority is named, or its file can be read: the connection for messages, which carries
the password, is made exactly to servers that the authority asked for vouches for, whatever was set up before.
Missing: files that are absent or cannot be read. -/
theorem C139_authority_partial (T : Tls Cert Chain) (disk : String → CaFile) (rootca : String) (b : Bytes)
    (h : Asked T disk rootca b) (p : Pools Cert) (host : String) (c : Chain) :
    connects T (setupCA T disk rootca p) host c = T.verifies (T.certs b) host c := by
  rcases h with ⟨h, hb⟩ | ⟨h, hb⟩
  · simp [connects, accepts, setupCA, h, hb]
  · simp [connects, accepts, setupCA, h, hb]

/-- **C139 refuted (absent).** If the file named is not there, servers of the built-in authority are accepted. -/
theorem C139_absent (T : Tls Cert Chain) (disk : String → CaFile) (rootca : String) (hr : rootca ≠ "")
    (hd : disk rootca = .absent) (p : Pools Cert) (host : String) (c : Chain) :
    connects T (setupCA T disk rootca p) host c = T.verifies (T.certs T.rootPEM) host c := by
  simp [connects, accepts, setupCA, hr, hd]

/-- **C139 refuted (unreadable).** If the file named cannot be read, then at the first start every server is accepted
that any authority of the operating system vouches for. -/
theorem C139_unreadable (T : Tls Cert Chain) (disk : String → CaFile) (rootca : String) (hr : rootca ≠ "")
    (hd : disk rootca = .unreadable) (host : String) (c : Chain) :
    connects T (setupCA T disk rootca {}) host c = T.verifies T.system host c := by
  simp [connects, accepts, setupCA, hr, hd]

/-! ## Examples -/
namespace Demo

/-- A toy YAML: twelve lists of numbers, each number in unary. -/
def encN (n : Nat) : Bytes := List.replicate n 1 ++ [0]

def decN : Bytes → Option (Nat × Bytes)
  | [] => none
  | b :: r => if b = 0 then some (0, r) else (decN r).map (fun p => (p.1 + 1, p.2))

theorem decN_encN (n : Nat) (r : Bytes) : decN (encN n ++ r) = some (n, r) := by
  induction n with
  | zero => simp [encN, decN]
  | succ n ih =>
    have : encN (n + 1) ++ r = 1 :: (encN n ++ r) := by simp [encN, List.replicate_succ]
    rw [this, decN, if_neg (by decide), ih]
    rfl

def decMany : Nat → Bytes → Option (List Nat × Bytes)
  | 0, r => some ([], r)
  | k + 1, b => (decN b).bind (fun p => (decMany k p.2).map (fun q => (p.1 :: q.1, q.2)))

theorem decMany_enc (l : List Nat) (r : Bytes) : decMany l.length (l.flatMap encN ++ r) = some (l, r) := by
  induction l with
  | nil => rfl
  | cons a l ih => simp [decMany, List.append_assoc, decN_encN, ih]

def encL (l : List Nat) : Bytes := encN l.length ++ l.flatMap encN
def decL (b : Bytes) : Option (List Nat × Bytes) := (decN b).bind (fun p => decMany p.1 p.2)

theorem decL_encL (l : List Nat) (r : Bytes) : decL (encL l ++ r) = some (l, r) := by
  simp [decL, encL, List.append_assoc, decN_encN, decMany_enc]

def decLs : Nat → Bytes → Option (List (List Nat))
  | 0, _ => some []
  | k + 1, b => (decL b).bind (fun p => (decLs k p.2).map (fun q => p.1 :: q))

theorem decLs_enc (ls : List (List Nat)) : decLs ls.length (ls.flatMap encL) = some ls := by
  induction ls with
  | nil => rfl
  | cons a l ih => simp [decLs, decL_encL, ih]

def ofS (s : String) : List Nat := s.toList.map Char.toNat
def toS (l : List Nat) : String := String.ofList (l.map Char.ofNat)

theorem toS_ofS (s : String) : toS (ofS s) = s := by
  have : (s.toList.map Char.toNat).map Char.ofNat = s.toList := by
    rw [List.map_map]
    refine (List.map_congr_left (g := id) (fun c _ => Char.ofNat_toNat c)).trans ?_
    simp
  simp only [toS, ofS, this, String.ofList_toList]

def ofB (b : Bytes) : List Nat := b.map UInt8.toNat
def toB (l : List Nat) : Bytes := l.map UInt8.ofNat

theorem toB_ofB (b : Bytes) : toB (ofB b) = b := by
  unfold toB ofB
  rw [List.map_map]
  refine (List.map_congr_left (g := id) (fun c _ => UInt8.ofNat_toNat)).trans ?_
  simp

def fields (c : Config) : List (List Nat) :=
  [ofS c.tel, ofS c.uuid, ofS c.server, ofS c.rootCA, ofS c.verificationType, ofS c.storageDir, ofS c.name,
    ofB c.profileKey, ofB c.credential, ofB c.certificate, [c.capabilities], ofB c.rest]

def unfields : List (List Nat) → Option Config
  | [a, b, c, d, e, f, g, h, i, j, [k], l] =>
    some ⟨toS a, toS b, toS c, toS d, toS e, toS f, toS g, toB h, toB i, toB j, k, toB l⟩
  | _ => none

def yaml : Yaml where
  marshal c := some ((fields c).flatMap encL)
  unmarshal b := if b = [] then some {} else (decLs 12 b).bind unfields
  round := by
    intro c b h
    injection h with h
    have hne : b ≠ [] := by
      rw [← h]
      simp [fields, encL, encN]
    rw [if_neg hne, ← h, show (12 : Nat) = (fields c).length from rfl, decLs_enc]
    simp [fields, unfields, toS_ofS, toB_ofB]
  empty := rfl

/-- A configuration as a user writes it, the registration, the certificate, two restarts and a refresh. -/
def c0 : Config := { storageDir := "d" }
def disk : Files := fun f => if f = "config.yml" then yaml.marshal c0 else none

def complete : Outcome := ⟨true, none⟩

def history : List Ev :=
  [.load, .change (.registered "+1" "u" "me") complete, .change (.profileKey [1, 2]) complete, .restart, .load,
    .change (.certificate [9]) complete, .refresh complete, .restart, .load]

example : ((run yaml (.file "config.yml") { files := disk } history).mem) =
    some { tel := "+1", uuid := "u", name := "me", server := "https://chat.signal.org:443", verificationType := "sms"
           storageDir := "d", profileKey := [1, 2], certificate := [9], capabilities := 1 } := by decide +kernel

/-- The hypotheses of the theorems. -/
example : ∃ b, disk "config.yml" = some b ∧ yaml.unmarshal b = some c0 ∧ (∀ c, (yaml.marshal c).isSome) ∧
    (∀ e ∈ history, Complete e) :=
  ⟨_, rfl, yaml.round _ _ rfl, fun _ => rfl, by
    intro e he
    simp only [history, List.mem_cons, List.not_mem_nil, or_false] at he
    rcases he with rfl | rfl | rfl | rfl | rfl | rfl | rfl | rfl | rfl <;> simp [Complete, complete]⟩

/-- The profile key of `history` survives what follows it, by the theorem. -/
example (m' : Config) (h : (run yaml (.file "config.yml") ⟨disk, "config.yml", some (defaults c0)⟩
    (.change (.profileKey [1, 2]) complete :: [.restart, .load, .change (.certificate [9]) complete,
      .refresh complete, .restart, .load])).mem = some m') : m'.profileKey = [1, 2] := by
  refine C137_last_value_partial yaml (fun _ => rfl) "config.yml" (by decide) _ _ c0 (defaults c0) rfl (yaml.round _ _ rfl)
    rfl rfl (.profileKey [1, 2]) complete ⟨rfl, rfl⟩ _ ?_ m' h
  intro e he
  simp only [List.mem_cons, List.not_mem_nil, or_false] at he
  rcases he with rfl | rfl | rfl | rfl | rfl | rfl <;> simp [Complete, complete, Spares, Clash]

/-- Interrupted after half of the text: the configuration cannot be read at all. -/
example : (step yaml (.file "config.yml") (run yaml (.file "config.yml") { files := disk }
    [.load, .change (.name "me") ⟨true, some 30⟩, .restart]) .load).2 = .err .other := by decide +kernel

example : (step yaml (.own c0) (run yaml (.own c0) { files := disk } [.load]) (.change (.registered "+1" "u" "me") complete)).2
    = .err .storeWrite := by decide +kernel

/-- Registration with a full disk. -/
example : (step yaml (.file "config.yml") (run yaml (.file "config.yml") { files := disk } [.load])
    (.change (.registered "+1" "u" "me") ⟨true, some 30⟩)).2 = .err .storeWrite ∧
    (step yaml (.file "config.yml") (run yaml (.file "config.yml") { files := disk } [.load])
      (.change (.registered "+1" "u" "me") complete)).2 = .ok () ∧
    (step yaml (.file "other.yml") { files := disk } .load).2 = .err .storeRead := by decide +kernel

/-- Two authorities, one of the built-in text and one of the system. -/
def tls : Tls Nat Nat where
  certs b := b.map UInt8.toNat
  verifies l _ c := l.contains c
  system := [7, 8]
  rootPEM := [1]
  directoryPEM := [2]

example : (connects tls (setupCA tls (fun _ => .text [5]) "ca.pem" {}) "h" 5, connects tls (setupCA tls (fun _ => .text [5]) "ca.pem" {}) "h" 1,
    connects tls (setupCA tls (fun _ => .unreadable) "ca.pem" {}) "h" 7, connects tls (setupCA tls (fun _ => .absent) "ca.pem" {}) "h" 1)
    = (true, false, true, true) := by decide

end Demo

end Verif.Props.Config
