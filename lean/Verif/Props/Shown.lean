import Verif.Model.Shown
import Verif.Proof.Receive
import Verif.Props.Receive
/-!
# C170: what the command line shows of a message
-/
namespace Verif.Props.Shown
open Verif Verif.Keys Verif.Shown Verif.Receive Verif.Props.Receive

/-! ## Time -/

/-- A number below a hundred as it is written with two digits. -/
def pad (n : Nat) : String := if n < 10 then "0" ++ toString n else toString n

/-- The days of the week. -/
def week : List String := ["Sun", "Mon", "Tue", "Wed", "Thu", "Fri", "Sat"]

theorem two_pad : ∀ n : Fin 60, two n.val = ascii (pad n.val) := by decide +kernel

theorem dayName_week : ∀ d : Fin 7, dayName d.val = ascii (week.getD d.val "") := by decide +kernel

theorem hour12_lt (h : Nat) : hour12 h < 60 := by
  unfold hour12
  split <;> omega

theorem ascii_append (a b : String) : ascii (a ++ b) = ascii a ++ ascii b := by
  simp [ascii]

/-- C170, what is shown as the time: the day of the week, the hour as on a clock with twelve hours, and the minute. The
moment is given in weeks, days, hours, minutes and seconds since Sunday the 28th of December 1969. -/
theorem C170_time (w : Int) (d h m s : Nat) (hd : d < 7) (hh : h < 24) (hm : m < 60) (hs : s < 60) (t : Int)
    (ht : t + 345600 = w * 604800 + d * 86400 + h * 3600 + m * 60 + s) :
    format t = ascii (week.getD d "" ++ " " ++ pad (if h = 0 ∨ h = 12 then 12 else h % 12) ++ ":" ++ pad m) := by
  have e1 : ((t / 86400 + 4) % 7).toNat = d := by omega
  have e2 : (t % 86400).toNat / 3600 = h := by omega
  have e3 : (t % 86400).toNat / 60 % 60 = m := by omega
  have e4 : hour12 h = (if h = 0 ∨ h = 12 then 12 else h % 12) := by
    unfold hour12
    split <;> split <;> omega
  unfold format
  simp only [e1, e2, e3]
  rw [← e4, ascii_append, ascii_append, ascii_append, ascii_append, ← two_pad ⟨hour12 h, hour12_lt h⟩, ← two_pad ⟨m, hm⟩,
    ← dayName_week ⟨d, hd⟩]
  rfl

/-- Ten past nine in the evening of a Monday. -/
example : format (1 * 604800 + 1 * 86400 + 21 * 3600 + 10 * 60 + 7 - 345600) = ascii "Mon 09:10" := by decide +kernel

theorem two_inj {a b : Nat} (ha : a < 100) (hb : b < 100) (h : two a = two b) : a = b := by
  have key : ∀ n : Fin 100, ((two n.val).getD 0 0).toNat * 10 + ((two n.val).getD 1 0).toNat = n.val + 528 := by
    decide +kernel
  have h1 := key ⟨a, ha⟩
  have h2 := key ⟨b, hb⟩
  simp only at h1 h2
  rw [h] at h1
  omega

theorem dayName_inj : ∀ a b : Fin 7, dayName a.val = dayName b.val → a.val = b.val := by decide +kernel

theorem dayName_length : ∀ a : Fin 7, (dayName a.val).length = 3 := by decide +kernel

theorem format_length (t : Int) : (format t).length = 9 := by
  have hd : ((t / 86400 + 4) % 7).toNat < 7 := by omega
  have := dayName_length ⟨_, hd⟩
  simp only at this
  simp [format, two, this]

/-- C170, which moments look alike: exactly those on the same day of the week whose minutes are the same or half a day
apart. -/
theorem C170_alike (t t' : Int) : format t = format t' ↔
    t / 86400 % 7 = t' / 86400 % 7 ∧ t % 43200 / 60 = t' % 43200 / 60 := by
  obtain ⟨d, hd⟩ : ∃ d, d = ((t / 86400 + 4) % 7).toNat := ⟨_, rfl⟩
  obtain ⟨d', hd'⟩ : ∃ d, d = ((t' / 86400 + 4) % 7).toNat := ⟨_, rfl⟩
  obtain ⟨c, hc⟩ : ∃ c, c = (t % 86400).toNat := ⟨_, rfl⟩
  obtain ⟨c', hc'⟩ : ∃ c, c = (t' % 86400).toNat := ⟨_, rfl⟩
  have l1 : d < 7 := by omega
  have l2 : d' < 7 := by omega
  have n1 := dayName_length ⟨d, l1⟩
  have n2 := dayName_length ⟨d', l2⟩
  simp only at n1 n2
  have hf : format t = dayName d ++ ([32] ++ (two (hour12 (c / 3600)) ++ ([58] ++ two (c / 60 % 60)))) := by
    simp [format, ← hd, ← hc]
  have hf' : format t' = dayName d' ++ ([32] ++ (two (hour12 (c' / 3600)) ++ ([58] ++ two (c' / 60 % 60)))) := by
    simp [format, ← hd', ← hc']
  have key : format t = format t' ↔ d = d' ∧ hour12 (c / 3600) = hour12 (c' / 3600) ∧ c / 60 % 60 = c' / 60 % 60 := by
    constructor
    · intro h
      rw [hf, hf'] at h
      obtain ⟨h1, h2⟩ := List.append_inj h (by rw [n1, n2])
      obtain ⟨_, h2⟩ := List.append_inj h2 rfl
      obtain ⟨h3, h4⟩ := List.append_inj h2 rfl
      obtain ⟨_, h4⟩ := List.append_inj h4 rfl
      refine ⟨dayName_inj ⟨d, l1⟩ ⟨d', l2⟩ h1, two_inj ?_ ?_ h3, two_inj (by omega) (by omega) h4⟩
      · have := hour12_lt (c / 3600); omega
      · have := hour12_lt (c' / 3600); omega
    · rintro ⟨h1, h2, h3⟩
      rw [hf, hf', h1, h2, h3]
  rw [key]
  have e : hour12 (c / 3600) = hour12 (c' / 3600) ↔ c / 3600 % 12 = c' / 3600 % 12 := by
    unfold hour12
    split <;> split <;> omega
  rw [e]
  omega

/-- Refuted, that the time can be told: what is sent in the morning is shown with the time of the afternoon, and the
other way round. -/
theorem C170_half_day (t : Int) (h : t % 86400 < 43200) : format (t + 43200) = format t := by
  rw [C170_alike]
  omega

/-- Shortly after midnight, and shortly after noon. -/
example : (1040000 : Int) % 86400 < 43200 ∧ format 1040000 = ascii "Tue 12:53" ∧ format (1040000 + 43200) = ascii "Tue 12:53" := by
  decide +kernel

/-- C170, the moment: up to the year 2262 it is the second at which the sender says the message was written. Missing:
all later ones, which `C170_far` refutes. -/
theorem C170_moment_partial (ts : Nat) (h : ts ≤ 9223372036854) : seconds ts = (ts : Int) / 1000 := by
  have e : nanos ts = (ts : Int) * 1000000 := by
    unfold nanos
    rw [Int.bmod_def]
    have h64 : ((2 ^ 64 : Nat) : Int) = 18446744073709551616 := by decide
    rw [h64]
    split <;> omega
  unfold seconds
  rw [e]
  omega

example : seconds 1600000000123 = 1600000000 := by decide +kernel

/-- Refuted: later moments, which a sender is free to claim, are shown as moments of the past. -/
theorem C170_far : seconds 9223372036855 = -9223372037 := by decide +kernel

/-! ## Lines -/

/-- A text in one line. -/
def Plain (l : Bytes) : Prop := (10 : UInt8) ∉ l

theorem first_split {c : UInt8} {a b r r' : Bytes} (ha : c ∉ a) (hb : c ∉ b) (h : a ++ c :: r = b ++ c :: r') :
    a = b ∧ r = r' := by
  induction a generalizing b with
  | nil =>
    cases b with
    | nil => simpa using h
    | cons x b =>
      simp only [List.nil_append, List.cons_append, List.cons.injEq] at h
      exact absurd h.1 (fun e => hb (e ▸ List.mem_cons_self))
  | cons x a ih =>
    cases b with
    | nil =>
      simp only [List.nil_append, List.cons_append, List.cons.injEq] at h
      exact absurd h.1.symm (fun e => ha (e ▸ List.mem_cons_self))
    | cons y b =>
      simp only [List.cons_append, List.cons.injEq] at h
      have := ih (fun hm => ha (List.mem_cons_of_mem _ hm)) (fun hm => hb (List.mem_cons_of_mem _ hm)) h.2
      exact ⟨by rw [h.1, this.1], this.2⟩

theorem printed_split {a b r r' : Bytes} (ha : Plain a) (hb : Plain b) (h : printed a ++ r = printed b ++ r') :
    a = b ∧ r = r' := by
  have h : a ++ 10 :: (62 :: r) = b ++ 10 :: (62 :: r') := by simpa [printed] using h
  have := first_split ha hb h
  exact ⟨this.1, (List.cons.inj this.2).2⟩

theorem output_lines (raw : Bool) (f : Item → Bytes) (ms ms' : List Item) (h1 : ∀ m ∈ ms, Plain (f m))
    (h2 : ∀ m ∈ ms', Plain (f m)) (h : output raw f ms = output raw f ms') :
    (ms.filter (fun m => m.text ≠ [])).map f = (ms'.filter (fun m => m.text ≠ [])).map f := by
  induction ms generalizing ms' with
  | nil =>
    induction ms' with
    | nil => rfl
    | cons m' ms' ih =>
      by_cases ht : m'.text = []
      · simp only [output, ht, if_true, List.nil_append] at h
        have := ih (fun m hm => h2 m (List.mem_cons_of_mem _ hm)) h
        rw [this]
        simp [ht]
      · simp [output, ht, printed] at h
  | cons m ms ih =>
    by_cases ht : m.text = []
    · simp only [output, ht, if_true, List.nil_append] at h
      rw [← ih ms' (fun m hm => h1 m (List.mem_cons_of_mem _ hm)) h2 h]
      simp [ht]
    · induction ms' with
      | nil => simp [output, ht, printed] at h
      | cons m' ms' ih' =>
        by_cases ht' : m'.text = []
        · have h : output raw f (m :: ms) = output raw f ms' := by
            rw [h]
            simp only [output, ht', if_true, List.nil_append]
          rw [ih' (fun m hm => h2 m (List.mem_cons_of_mem _ hm)) h]
          simp [ht']
        · have p1 := h1 m List.mem_cons_self
          have p2 := h2 m' List.mem_cons_self
          simp only [output, ht, ht', if_false, List.append_assoc] at h
          have s1 := printed_split p1 p2 h
          have s2 : output raw f ms = output raw f ms' := by
            cases raw with
            | true => simpa using s1.2
            | false =>
              have := s1.2
              simp only [Bool.false_eq_true, if_false] at this
              exact (printed_split p1 p2 this).2
          have := ih ms' (fun m hm => h1 m (List.mem_cons_of_mem _ hm)) (fun m hm => h2 m (List.mem_cons_of_mem _ hm)) s2
          rw [List.filter_cons_of_pos (by simpa using ht), List.filter_cons_of_pos (by simpa using ht'), List.map_cons,
            List.map_cons, s1.1, this]

/-- C170, one line for each message: if no line has a line break in it, what is on the terminal tells the lines, one for
each message that has a text, in the order in which they arrived. Missing: line breaks, for which `C170_forged` refutes
it. -/
theorem C170_screen_partial (raw : Bool) (zone : Int → Int) (cs : List Shown.Contact) (ms ms' : List Item)
    (h1 : ∀ m ∈ ms, Plain (pretty zone cs m)) (h2 : ∀ m ∈ ms', Plain (pretty zone cs m))
    (h : screen raw zone cs ms = screen raw zone cs ms') :
    (ms.filter (fun m => m.text ≠ [])).map (pretty zone cs) = (ms'.filter (fun m => m.text ≠ [])).map (pretty zone cs) :=
  output_lines raw _ ms ms' h1 h2 h

/-- Two messages, one of them without text. -/
example : (∀ m ∈ [⟨ascii "u", none, ascii "hi", 0⟩, ⟨ascii "u", none, [], 0⟩], Plain (pretty (fun _ => 3600) [] m)) ∧
    screen true (fun _ => 3600) [] [⟨ascii "u", none, ascii "hi", 0⟩, ⟨ascii "u", none, [], 0⟩] =
      ascii "\rThu 01:00 u hi\n>" := by
  unfold Plain
  decide +kernel

/-- A text that shows as the text `a` followed by what is shown for another message. -/
def forge (zone : Int → Int) (cs : List Shown.Contact) (a : Bytes) (b : Item) : Bytes :=
  a ++ [10, 62] ++ (13 :: pretty zone cs b)

theorem pretty_text (zone : Int → Int) (cs : List Shown.Contact) (a : Item) :
    ∃ hd, ∀ t, pretty zone cs { a with text := t } = hd ++ t :=
  ⟨compose (timestamp zone a.timestamp) (getName cs a.source) a.group [], fun t => by
    unfold pretty
    simp only
    generalize timestamp zone a.timestamp = time
    simp [compose]⟩

theorem forged_lines (f : Item → Bytes) (a b : Item) (ha : a.text ≠ []) (hb : b.text ≠ [])
    (hf : ∃ hd, ∀ t, f { a with text := t } = hd ++ t) :
    output true f [{ a with text := a.text ++ [10, 62] ++ (13 :: f b) }] = output true f [a, b] := by
  obtain ⟨hd, h⟩ := hf
  simp only [output, ha, hb, if_false, printed, h]
  simp

/-- Refuted, that a line comes from whom it names: whatever anybody can write, anybody else can make appear in a single
message of their own, after a line of theirs. Nothing on the terminal tells the difference. -/
theorem C170_forged (zone : Int → Int) (cs : List Shown.Contact) (a b : Item) (ha : a.text ≠ []) (hb : b.text ≠ []) :
    screen true zone cs [{ a with text := forge zone cs a.text b }] = screen true zone cs [a, b] :=
  forged_lines _ a b ha hb (pretty_text zone cs a)

theorem forged_lines_twice (f : Item → Bytes) (a b : Item) (ha : a.text ≠ []) (hb : b.text ≠ [])
    (hf : ∃ hd, ∀ t, f { a with text := t } = hd ++ t) :
    output false f [{ a with text := ((a.text ++ [10, 62] ++ (13 :: f a)) ++ [10, 62] ++ (13 :: f b)) ++ [10, 62] ++ (13 :: f b) }] =
      output false f [a, b, a, b] := by
  obtain ⟨hd, h⟩ := hf
  simp only [output, ha, hb, if_false, printed, h]
  simp

/-- The same where each message is shown twice: one message shows as four. -/
theorem C170_forged_twice (zone : Int → Int) (cs : List Shown.Contact) (a b : Item) (ha : a.text ≠ []) (hb : b.text ≠ []) :
    screen false zone cs [{ a with text := forge zone cs (forge zone cs (forge zone cs a.text a) b) b }] =
      screen false zone cs [a, b, a, b] :=
  forged_lines_twice _ a b ha hb (pretty_text zone cs a)

example : screen true (fun _ => 0) [] [{ source := ascii "mallory", timestamp := 0
                                         text := forge (fun _ => 0) [] (ascii "hi") ⟨ascii "alice", none, ascii "pay mallory", 0⟩ }] =
    ascii "\rThu 12:00 mallory hi\n>\rThu 12:00 alice pay mallory\n>" := by decide +kernel

/-! ## Who and what -/

/-- C170, what a line tells: of two lines of private messages from people whose names have no spaces, equal lines have
the same time, the same name and the same text. Missing: names with spaces, for which `C170_ambiguous` refutes it. -/
theorem C170_line_partial (zone : Int → Int) (cs : List Shown.Contact) (a b : Item) (h1 : a.group = none) (h2 : b.group = none)
    (n1 : (32 : UInt8) ∉ getName cs a.source) (n2 : (32 : UInt8) ∉ getName cs b.source)
    (h : pretty zone cs a = pretty zone cs b) :
    timestamp zone a.timestamp = timestamp zone b.timestamp ∧ getName cs a.source = getName cs b.source ∧ a.text = b.text := by
  have l : (timestamp zone a.timestamp).length = (timestamp zone b.timestamp).length := by
    unfold timestamp
    rw [format_length, format_length]
  have h : timestamp zone a.timestamp ++ (32 :: (getName cs a.source ++ 32 :: a.text)) =
      timestamp zone b.timestamp ++ (32 :: (getName cs b.source ++ 32 :: b.text)) := by
    unfold pretty at h
    rw [h1, h2] at h
    generalize timestamp zone a.timestamp = ta at h ⊢
    generalize timestamp zone b.timestamp = tb at h ⊢
    simpa [compose] using h
  have s := List.append_inj h l
  have := first_split n1 n2 (List.cons.inj s.2).2
  exact ⟨s.1, this⟩

/-- C170, the line: local time, the name, the group in brackets if there is one, and the text. Missing: moments after
the year 2262 (`C170_far`), and that name and group are there to be shown (`C170_nameless`). -/
theorem C170_whole_partial (zone : Int → Int) (cs : List Shown.Contact) (m : Item) (hm : m.timestamp ≤ 9223372036854) (w : Int)
    (d h mi s : Nat) (hd : d < 7) (hh : h < 24) (hmi : mi < 60) (hs : s < 60)
    (ht : (m.timestamp : Int) / 1000 + zone ((m.timestamp : Int) / 1000) + 345600 =
      w * 604800 + d * 86400 + h * 3600 + mi * 60 + s) :
    pretty zone cs m =
      ascii (week.getD d "" ++ " " ++ pad (if h = 0 ∨ h = 12 then 12 else h % 12) ++ ":" ++ pad mi) ++ ascii " " ++
        getName cs m.source ++ (if m.group.isSome then ascii "[" ++ m.group.getD [] ++ ascii "]" else []) ++ ascii " " ++ m.text := by
  have e : timestamp zone m.timestamp = format ((m.timestamp : Int) / 1000 + zone ((m.timestamp : Int) / 1000)) := by
    unfold timestamp
    rw [C170_moment_partial _ hm]
  unfold pretty
  rw [e, C170_time w d h mi s hd hh hmi hs _ ht]
  generalize ascii (week.getD d "" ++ " " ++ pad (if h = 0 ∨ h = 12 then 12 else h % 12) ++ ":" ++ pad mi) = time
  cases m.group <;> simp [compose, ascii]

/-- An hour east of Greenwich, in a group. -/
example : pretty (fun _ => 3600) [⟨ascii "+1", ascii "Ann"⟩] ⟨ascii "+1", some (ascii "us"), ascii "hi", 1605500000000⟩ =
    ascii "Mon 05:13 Ann[us] hi" := by decide +kernel

/-- Two contacts, one named by a first name only. -/
def bobs (n s : Bytes) : List Shown.Contact := [⟨ascii "+1", n⟩, ⟨ascii "+2", n ++ 32 :: s⟩]

/-- Refuted: if one contact's name begins with another's, one can write what shows as written by the other. -/
theorem C170_ambiguous (zone : Int → Int) (n s t : Bytes) (ts : Nat) :
    pretty zone (bobs n s) ⟨ascii "+1", none, s ++ 32 :: t, ts⟩ = pretty zone (bobs n s) ⟨ascii "+2", none, t, ts⟩ := by
  have e1 : getName (bobs n s) (ascii "+1") = n := by simp [getName, bobs, ascii]
  have e2 : getName (bobs n s) (ascii "+2") = n ++ 32 :: s := by simp [getName, bobs, ascii]
  unfold pretty
  rw [e1, e2]
  generalize timestamp zone ts = time
  simp [compose]

example : pretty (fun _ => 0) (bobs (ascii "Bob") (ascii "Smith")) ⟨ascii "+2", none, ascii "hi", 0⟩ =
    ascii "Thu 12:00 Bob Smith hi" := by decide +kernel

/-- C170, the name: somebody whose number is the source of the message is shown under the name of the contact with that
number. Missing: that the source ever is a number, which `C170_nameless` refutes. -/
theorem C170_name_partial (cs : List Shown.Contact) (c : Shown.Contact) (hc : c ∈ cs) (hu : ∀ c' ∈ cs, c'.tel = c.tel → c' = c) :
    getName cs c.tel = c.name := by
  unfold getName
  cases hf : cs.reverse.find? (fun d => d.tel == c.tel) with
  | none =>
    rw [List.find?_eq_none] at hf
    exact absurd (hf c (List.mem_reverse.mpr hc)) (by simp)
  | some d =>
    have h1 := List.find?_some hf
    have h2 := List.mem_of_find?_eq_some hf
    rw [hu d (List.mem_reverse.mp h2) (by simpa using h1)]

example : getName (bobs (ascii "Ann") (ascii "Lee")) (ascii "+1") = ascii "Ann" := by decide +kernel

/-- Messages are handed over under this source only. -/
def From (src : String) : Ev → Prop := fun e => ∀ m, e = .onMessage m → m.source = src

theorem from_message (P : Prims) (X : Ext) (src uuid : String) (ts : Nat) (b : Bytes) :
    Appends (From src) (handleMessage P X src uuid ts b) := by
  have other : ∀ e, (∀ m, e ≠ Ev.onMessage m) → From src e := fun e h m he => absurd he (h m)
  have mine : ∀ m : AppMsg, m.source = src → From src (.onMessage m) := by
    intro m h m' he
    injection he with he
    rw [← he, h]
  unfold handleMessage
  split
  · exact appends_lift _ _
  · unfold dispatch
    split
    · refine appends_bind _ _ _ (appends_emit _ _ (other _ (by simp))) fun _ => ?_
      unfold handleData
      refine appends_bind _ _ _ (appends_handleFlags _ _ _ _) fun _ => ?_
      refine appends_bind _ _ _ (appends_lift _ _) fun _ => ?_
      refine appends_bind _ _ _ (appends_lift _ _) fun _ => ?_
      refine appends_bind _ _ _ (appends_lift _ _) fun _ => ?_
      exact appends_callback _ _ _ (mine _ rfl)
    · split
      · exact appends_bind _ _ _ (appends_emit _ _ (other _ (by simp))) fun _ =>
          appends_handleSync _ _ _ _ _ (fun _ _ => other _ (by simp)) (fun _ _ => other _ (by simp)) (fun _ => other _ (by simp))
            (fun _ => other _ (by simp))
      · split
        · exact appends_bind _ _ _ (appends_emit _ _ (other _ (by simp))) fun _ => appends_callback _ _ _ (mine _ rfl)
        · split
          · exact appends_bind _ _ _ (appends_emit _ _ (other _ (by simp))) fun _ =>
              appends_handleReceiptMsg _ _ _ _ _ fun _ => other _ (by simp)
          · split
            · exact appends_bind _ _ _ (appends_emit _ _ (other _ (by simp))) fun _ =>
                appends_callback _ _ _ (other _ (by simp))
            · split
              · exact appends_emit _ _ (other _ (by simp))
              · exact appends_pure _ _

theorem from_received (P : Prims) (X : Ext) (env : Envelope) :
    Appends (From (if env.type = some 6 then "" else env.sourceUuid)) (handleReceived P X (some env)) := by
  obtain ⟨src, hsrc⟩ : ∃ src, src = (if env.type = some 6 then "" else env.sourceUuid) := ⟨_, rfl⟩
  rw [← hsrc]
  unfold handleReceived
  simp only
  split
  · exact appends_lift _ _
  · refine appends_callback _ _ _ ?_
    intro m h
    cases h
  · rename_i h
    rw [if_neg (by rw [h]; decide)] at hsrc
    subst hsrc
    unfold handleCiphertext
    split
    · exact appends_lift _ _
    · refine appends_bind _ _ _ (appends_lift _ _) fun wm => ?_
      refine appends_bind _ _ _ (appends_cipher _ _) fun r => ?_
      split
      · exact appends_lift _ _
      · exact appends_pure _ _
      · refine appends_bind _ _ _ (appends_cipher _ _) fun r' => ?_
        split
        · exact appends_pure _ _
        · exact appends_lift _ _
      · exact appends_lift _ _
      · exact from_message _ _ _ _ _ _
  · rename_i h
    rw [if_neg (by rw [h]; decide)] at hsrc
    subst hsrc
    unfold handlePreKey
    refine appends_bind _ _ _ (appends_lift _ _) fun m => ?_
    refine appends_bind _ _ _ (appends_cipher _ _) fun r => ?_
    split
    · exact appends_lift _ _
    · split
      · exact appends_pure _ _
      · exact appends_lift _ _
    · exact from_message _ _ _ _ _ _
  · rename_i h
    rw [if_pos h] at hsrc
    subst hsrc
    unfold handleSealed
    split
    · exact appends_lift _ _
    · exact appends_lift _ _
    · refine appends_bind _ _ _ (appends_lift _ _) fun r => ?_
      obtain ⟨a, b, c⟩ := r
      simp only
      split
      · exact appends_lift _ _
      · exact from_message _ _ _ _ _ _
  · exact appends_lift _ _

/-- Refuted, that people are shown by name: whatever arrives, if every contact has a number and no number is the id of the
account the message comes from, the line has that id where the name should be, and nothing at all there if the message
came from a sender who hides from the server. The group the message belongs to is not shown either. -/
theorem C170_nameless (P : Prims) (X : Ext) (env : Envelope) (w : World) (zone : Int → Int) (cs : List Shown.Contact)
    (hn : ∀ c ∈ cs, c.tel ≠ [] ∧ c.tel ≠ ascii env.sourceUuid) :
    ∃ d, (handleReceived P X (some env) w).1.log = w.log ++ d ∧ ∀ m, .onMessage m ∈ d → ∃ time,
      pretty zone cs (ofApp m) =
        time ++ [32] ++ (if env.type = some 6 then [] else ascii env.sourceUuid) ++ [32] ++ m.message := by
  obtain ⟨d, hd, hp⟩ := from_received P X env w
  refine ⟨d, hd, fun m hm => ⟨timestamp zone m.timestamp, ?_⟩⟩
  have hs := hp _ hm m rfl
  have hg : getName cs (ascii m.source) = (if env.type = some 6 then [] else ascii env.sourceUuid) := by
    have hnone : cs.reverse.find? (fun c => c.tel == ascii m.source) = none := by
      rw [List.find?_eq_none]
      intro c hc
      have := hn c (List.mem_reverse.mp hc)
      simp only [beq_iff_eq]
      rw [hs]
      split
      · exact this.1
      · exact this.2
    unfold getName
    rw [hnone]
    simp only [hs]
    by_cases h6 : env.type = some 6
    · rw [if_pos h6, if_pos h6]
      rfl
    · rw [if_neg h6, if_neg h6]
  unfold pretty ofApp
  simp only
  rw [hg]
  generalize timestamp zone m.timestamp = time
  simp [compose]

/-- Bob's reply, Bob being a contact with a name; and a sealed message, with the sender the companion found. -/
example : (handleReceived Demo.P replyExt (some (replyEnv "bob")) (world Demo.a1.1)).1.log =
      [.enter .data, .onMessage { source := "bob", sourceUuid := "bob", message := ascii "hi", timestamp := 5 }] ∧
    (∀ c ∈ [(⟨ascii "+49", ascii "Bob"⟩ : Shown.Contact)], c.tel ≠ [] ∧ c.tel ≠ ascii (replyEnv "bob").sourceUuid) ∧
    pretty (fun _ => 0) [⟨ascii "+49", ascii "Bob"⟩] (ofApp { source := "bob", sourceUuid := "bob", message := ascii "hi", timestamp := 5 }) =
      ascii "Thu 12:00 bob hi" := by decide +kernel

/-- The sealed message of Carol. -/
def sealedExt : Ext :=
  { replyExt with signalingKey := [1], crayfish := fun _ => .ok ("carol", 7, [42]) }

/-- Its envelope. -/
def sealedEnv : Envelope := { type := some 6, destinationUuid := some "alice" }

example : (handleReceived Demo.P sealedExt (some sealedEnv) (world Demo.a1.1)).1.log =
      [.enter .data, .onMessage { source := "", sourceUuid := "carol", message := ascii "hi", timestamp := 5 }] ∧
    pretty (fun _ => 0) [⟨ascii "+49", ascii "Carol"⟩] (ofApp { source := "", sourceUuid := "carol", message := ascii "hi", timestamp := 5 }) =
      ascii "Thu 12:00  hi" := by decide +kernel

/-- C131, refuted for senders who hide from the server: in echo mode each of their messages is answered to nobody, and
otherwise none of them gives a conversation its peer, so that each begins another one. -/
theorem C131_sealed (P : Prims) (X : Ext) (env : Envelope) (w : World) (F : Gateway.Flags) (h6 : env.type = some 6) :
    ∃ d, (handleReceived P X (some env) w).1.log = w.log ++ d ∧ ∀ m, .onMessage m ∈ d →
      (F.echo = true → ∀ peer, (Gateway.messageHandler F peer (msgOfApp m)).2 = [.send ⟨false, [], m.message, none⟩]) ∧
      (F.echo = false → F.redis = false → (Gateway.messageHandler F [] (msgOfApp m)).1 = [] ∧
        .converse false ∈ (Gateway.messageHandler F [] (msgOfApp m)).2) := by
  obtain ⟨d, hd, hp⟩ := from_received P X env w
  refine ⟨d, hd, fun m hm => ?_⟩
  have hs := hp _ hm m rfl
  rw [if_pos h6] at hs
  have hs' : ascii m.source = [] := by rw [hs]; rfl
  constructor
  · intro he peer
    simp [Gateway.messageHandler, msgOfApp, he, hs']
  · intro he hr
    simp [Gateway.messageHandler, msgOfApp, he, hr, hs']

end Verif.Props.Shown
