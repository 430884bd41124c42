import Verif.Model.Account
import Verif.Proof.Profile
import Verif.Proof.Content
import Verif.Props.Config
import Verif.Props.Answers
/-!
# Account attributes (C150), asking for contacts (C151)
-/
namespace Verif.Props
open Verif Verif.Account Verif.Profile Verif.Start

/-! ## C150 -/

/-- How a contact that has the profile key computes the access key (C88). -/
def contactsKey (g : Gcm) (profileKey : Bytes) : Res Bytes := targetKey g [] (some profileKey)

theorem derive_ok (g : Gcm) (k : Bytes) (h : k.length = 32) :
    deriveAccessKey g k = .ok ((g.lock k (List.replicate 12 0) (List.replicate 16 0) []).take 16) := by
  simp [deriveAccessKey, aesKeyOk, h]

/-- Once the client is set up, the server is told once, whatever it answers: the key and number of the registration,
the name in the configuration, the capabilities asked for, and that messages are fetched. -/
theorem C150_told_partial (g : Gcm) (Y : Config.Yaml) (own : Own) (caps : Nat) (srv : Attributes → Answer)
    (profile : Res Unit) (o : Config.Outcome) (s : Config.Sys) (priv : Bytes) (cfg : Config.Config)
    (hi : own.identity = some priv) (hp : priv.length = 32) (hs : s.mem = some cfg) :
    ∃ a, (setCapabilities g Y own caps srv profile o s).2.1 = [a] ∧
      Encoding.b64Decode a.signalingKey = some own.signalingKey ∧ a.registrationId = own.registrationId ∧
      a.name = cfg.name ∧ a.capabilities = caps ∧ a.fetchesMessages = true ∧ a.accessKey.length = 16 := by
  simp only [setCapabilities, hi, derive_ok g priv hp, hs]
  split
  · exact ⟨_, rfl, b64Decode_encode _, rfl, rfl, rfl, rfl, by simp [g.lock_len]⟩
  · exact ⟨_, rfl, b64Decode_encode _, rfl, rfl, rfl, rfl, by simp [g.lock_len]⟩
  · split
    · exact ⟨_, rfl, b64Decode_encode _, rfl, rfl, rfl, rfl, by simp [g.lock_len]⟩
    · exact ⟨_, rfl, b64Decode_encode _, rfl, rfl, rfl, rfl, by simp [g.lock_len]⟩
    · exact ⟨_, rfl, b64Decode_encode _, rfl, rfl, rfl, rfl, by simp [g.lock_len]⟩

/-- Success: the server has accepted the capabilities, and the configuration has them and is otherwise as it was; so has
its file, if it could be written. -/
theorem C150_success_partial (g : Gcm) (Y : Config.Yaml) (own : Own) (caps : Nat) (srv : Attributes → Answer)
    (profile : Res Unit) (o : Config.Outcome) (s : Config.Sys)
    (h : (setCapabilities g Y own caps srv profile o s).2.2 = .ok ()) :
    ∃ a cfg, (setCapabilities g Y own caps srv profile o s).2.1 = [a] ∧ srv a = .ok ∧ a.capabilities = caps ∧
      s.mem = some cfg ∧ (setCapabilities g Y own caps srv profile o s).1.mem = some { cfg with capabilities := caps } ∧
      ∀ b, Y.marshal { cfg with capabilities := caps } = some b → s.configFile ≠ "" → o = {} →
        (setCapabilities g Y own caps srv profile o s).1.files s.configFile = some b := by
  obtain ⟨x, hx⟩ : ∃ x, x = setCapabilities g Y own caps srv profile o s := ⟨_, rfl⟩
  rw [← hx] at h ⊢
  unfold setCapabilities at hx
  split at hx
  · subst hx; cases h
  · split at hx
    · subst hx; cases h
    · subst hx; cases h
    · split at hx
      · subst hx; cases h
      · rename_i cfg hc
        simp only at hx
        split at hx
        · subst hx; cases h
        · subst hx; cases h
        · rename_i hsrv
          split at hx
          · subst hx; cases h
          · subst hx; cases h
          · subst hx
            refine ⟨_, cfg, rfl, hsrv, rfl, hc, ?_, ?_⟩
            · simp [Config.change, hc, Config.saveConfig, Config.Change.apply]
            · intro b hb hf ho
              subst ho
              simp [Config.change, hc, Config.saveConfig, Config.Change.apply, Config.writeConfig, hb, Config.writeFile, hf,
                Config.Files.set]

/-- Failure: the configuration is as it was. -/
theorem C150_failure_partial (g : Gcm) (Y : Config.Yaml) (own : Own) (caps : Nat) (srv : Attributes → Answer)
    (profile : Res Unit) (o : Config.Outcome) (s : Config.Sys)
    (h : (setCapabilities g Y own caps srv profile o s).2.2 ≠ .ok ()) :
    (setCapabilities g Y own caps srv profile o s).1 = s := by
  obtain ⟨x, hx⟩ : ∃ x, x = setCapabilities g Y own caps srv profile o s := ⟨_, rfl⟩
  rw [← hx] at h ⊢
  unfold setCapabilities at hx
  split at hx
  · subst hx; rfl
  · split at hx
    · subst hx; rfl
    · subst hx; rfl
    · split at hx
      · subst hx; rfl
      · rename_i cfg hc
        simp only at hx
        split at hx
        · subst hx; rfl
        · subst hx; rfl
        · split at hx
          · subst hx; rfl
          · subst hx; rfl
          · subst hx
            exact absurd (by simp [Config.change, hc]) h

/-- The code refutes that the server is told the access key which contacts compute: of any two profile keys whose access
keys differ, with one at least it is told another. (It is told one that is computed from the private identity key.) -/
theorem C150_wrong_access_key (g : Gcm) (Y : Config.Yaml) (own : Own) (caps : Nat) (srv : Attributes → Answer)
    (profile : Res Unit) (o : Config.Outcome) (s : Config.Sys) (priv : Bytes) (cfg : Config.Config)
    (hi : own.identity = some priv) (hp : priv.length = 32) (k k' : Bytes)
    (hd : contactsKey g k ≠ contactsKey g k') :
    ∃ pk ∈ [k, k'], ∀ a ∈ (setCapabilities g Y own caps srv profile o
        { s with mem := some { cfg with profileKey := pk } }).2.1, contactsKey g pk ≠ .ok a.accessKey := by
  have hall : ∀ pk, ∀ a ∈ (setCapabilities g Y own caps srv profile o
      { s with mem := some { cfg with profileKey := pk } }).2.1, deriveAccessKey g priv = .ok a.accessKey := by
    intro pk a ha
    simp only [setCapabilities, hi, derive_ok g priv hp] at ha ⊢
    split at ha
    · rw [List.mem_singleton.1 ha]
    · rw [List.mem_singleton.1 ha]
    · split at ha
      all_goals rw [List.mem_singleton.1 ha]
  by_cases hk : contactsKey g k = deriveAccessKey g priv
  · refine ⟨k', by simp, fun a ha => ?_⟩
    rw [← hall _ a ha, ← hk]
    exact fun h => hd h.symm
  · refine ⟨k, by simp, fun a ha => ?_⟩
    rw [← hall _ a ha]
    exact hk

/-- That the user is found by their number, whatever they chose in the configuration. -/
theorem C150_found_by_number (g : Gcm) (Y : Config.Yaml) (own : Own) (caps : Nat) (srv : Attributes → Answer)
    (profile : Res Unit) (o : Config.Outcome) (s : Config.Sys) :
    ∀ a ∈ (setCapabilities g Y own caps srv profile o s).2.1, a.discoverable = true := by
  intro a ha
  unfold setCapabilities at ha
  split at ha
  · cases ha
  · split at ha
    · cases ha
    · cases ha
    · split at ha
      · cases ha
      · simp only at ha
        split at ha
        · rw [List.mem_singleton.1 ha]
        · rw [List.mem_singleton.1 ha]
        · split at ha
          all_goals rw [List.mem_singleton.1 ha]

/-- That an error means that nothing has changed: if the server accepts the capabilities and then fails to give the
user's own profile, the server has the new ones and the configuration the old. -/
theorem C150_accepted_but_error (g : Gcm) (Y : Config.Yaml) (own : Own) (caps : Nat) (srv : Attributes → Answer)
    (e : Err) (o : Config.Outcome) (s : Config.Sys) (priv : Bytes) (cfg : Config.Config)
    (hi : own.identity = some priv) (hp : priv.length = 32) (hs : s.mem = some cfg) (hsrv : ∀ a, srv a = .ok) :
    ∃ a, setCapabilities g Y own caps srv (.err e) o s = (s, [a], .err e) ∧ a.capabilities = caps := by
  simp only [setCapabilities, hi, derive_ok g priv hp, hs, hsrv]
  exact ⟨_, rfl, rfl⟩

/-- Before the client is set up the call crashes. -/
theorem C150_before_setup (g : Gcm) (Y : Config.Yaml) (own : Own) (caps : Nat) (srv : Attributes → Answer)
    (profile : Res Unit) (o : Config.Outcome) (s : Config.Sys) (hi : own.identity = none) :
    (setCapabilities g Y own caps srv profile o s).2.2 = .panic := by
  simp [setCapabilities, hi]

/-! ## C151 -/

open Verif.Answers Verif.Keys

/-- The user's devices are asked for their contacts, if a message to them can be built; they read it as such a request
(which C148 says they answer). -/
theorem C151_asked_partial (P : Prims) (A : Answers.Ext) (s : Send.State) (hf : 0 < A.fuel) (st1 : Api.Store)
    (ms : List Send.JMsg)
    (hb : Send.buildMessage P (A.D 0) s.store A.self (Files.padMessage askContent)
      ((s.devices A.self).getD [1]) = (st1, .ok ms)) :
    (∃ rest, (syncContacts P A s).1.log = s.log ++ ⟨A.self, A.now, ms⟩ :: rest ∧ ∀ r ∈ rest, r.dest = A.self) ∧
    Content.parseContent askContent = some { sync := some { request := some 1 } } := by
  refine ⟨?_, Content.parse_request 1 (by decide)⟩
  obtain ⟨fuel, hfu⟩ : ∃ n, A.fuel = n + 1 := ⟨A.fuel - 1, by omega⟩
  have hdev : (Send.withDefault s A.self).devs A.self = (s.devices A.self).getD [1] := by
    simp [Send.withDefault, Send.State.devs]
  have hst : (Send.withDefault s A.self).store = s.store := rfl
  unfold syncContacts
  simp only [hfu]
  unfold Send.sendLoop
  rw [hdev, hst]
  simp only [hb]
  split
  · exact ⟨[], rfl, by simp⟩
  · exact ⟨[], rfl, by simp⟩
  · exact ⟨[], rfl, by simp⟩
  · obtain ⟨l, hl, hd⟩ := (reach_sendLoop P A.D A.srv A.self (Files.padMessage askContent) A.now fuel 1 _).1
    exact ⟨l, by rw [hl]; simp [Send.withDefault], hd⟩
  · obtain ⟨l, hl, hd⟩ := (reach_sendLoop P A.D A.srv A.self (Files.padMessage askContent) A.now fuel 1 _).1
    exact ⟨l, by rw [hl]; simp [Send.withDefault], hd⟩

/-- The code refutes that this brings contacts: whatever a device answers, and whoever does, nothing becomes of it. -/
theorem C151_ignored (P : Prims) (X : Receive.Ext) (src uuid : String) (ts t : Nat) (a : Send.OutAtt) (w : Receive.World)
    (hX : X.parseContent = Content.parseContent) (hs : a.size < u32) (hn : a.cdnNr < u32)
    (hl : (updateContent t a).length < 2 ^ 64) :
    Receive.handleMessage P X src uuid ts (updateContent t a) w =
      ({ w with log := w.log ++ [.enter .sync] }, .ok ()) := by
  have hp := (C148_update_read t a hs hn hl).1
  rw [← hX] at hp
  simp only [Receive.handleMessage, hp, Receive.dispatch, Receive.bind_run, Receive.emit_run, Receive.handleSync]
  by_cases ht : t = 1
  · simp [ht]
    rfl
  · simp [ht]
    rfl

/-- And that a failure is reported: it ends the program. -/
theorem C151_crashes (P : Prims) (A : Answers.Ext) (s : Send.State) (e : Err)
    (hf : (Send.sendLoop P A.D A.srv A.self (Files.padMessage askContent) A.now A.fuel 0
      (Send.withDefault s A.self)).2 = some (.err e)) :
    (syncContacts P A s).2 = .panic := by
  simp only [syncContacts, hf]

/-! ## Cases -/

namespace Demo

/-- An instance where the access key depends on the profile key. -/
def xorGcm : Gcm where
  lock k _ p _ := p.map (· ^^^ k.headD 0) ++ List.replicate 16 7
  unlock k _ c _ := if 16 ≤ c.length ∧ c.drop (c.length - 16) = List.replicate 16 7 then
    some ((c.take (c.length - 16)).map (· ^^^ k.headD 0)) else none
  lock_len := by simp
  unlock_lock := by
    intro k n p a
    simp [Function.comp_def, UInt8.xor_assoc]
  unlock_len := by
    intro k n c a p h
    split at h
    · rename_i hc
      injection h with h
      rw [← h]
      simp
      omega
    · cases h

def bobsOwn : Own := ⟨some (List.replicate 32 9), List.replicate 52 1, 1001⟩

example : ∃ pk ∈ [List.replicate 32 (5 : UInt8), List.replicate 32 6], ∀ a ∈ (setCapabilities xorGcm Verif.Props.Config.Demo.yaml bobsOwn 3
    (fun _ => .ok) (.ok ()) {} { files := fun _ => none, configFile := "c.yml", mem := some { profileKey := pk } }).2.1,
    contactsKey xorGcm pk ≠ .ok a.accessKey :=
  C150_wrong_access_key xorGcm Verif.Props.Config.Demo.yaml bobsOwn 3 (fun _ => .ok) (.ok ()) {}
    { files := fun _ => none, configFile := "c.yml" } (List.replicate 32 9) {} rfl (by decide) _ _ (by decide +kernel)

/-- What is told, and what the configuration has afterwards. -/
example : ((setCapabilities xorGcm Verif.Props.Config.Demo.yaml bobsOwn 3 (fun _ => .ok) (.ok ()) {}
      { files := fun _ => none, configFile := "c.yml", mem := some { name := "Bob" } }).2.1.map
        (fun a => (a.registrationId, a.name, a.capabilities, a.accessKey)),
    (setCapabilities xorGcm Verif.Props.Config.Demo.yaml bobsOwn 3 (fun _ => .ok) (.ok ()) {}
      { files := fun _ => none, configFile := "c.yml", mem := some { name := "Bob" } }).1.mem) =
    ([(1001, "Bob", 3, List.replicate 16 9)], some { name := "Bob", capabilities := 3 }) := by decide +kernel

set_option maxRecDepth 100000 in
/-- Bob asks his devices for contacts; the server does not answer. -/
example : ((syncContacts P { answers with srv := fun _ _ => .netErr } bobC.send).1.log.map (·.dest),
    (syncContacts P { answers with srv := fun _ _ => .netErr } bobC.send).2) = (["bob"], .panic) := by
  decide +kernel

/-- The answer of a device with one contact, or of anybody else. -/
example (w : Receive.World) : Receive.handleMessage P (hearExt 93) "carol" "carol" 5 (updateContent 1
      ⟨ascii "k", 2, ascii "application/octet-stream", List.replicate 64 1, List.replicate 32 2, 5, false⟩) w =
    ({ w with log := w.log ++ [.enter .sync] }, .ok ()) :=
  C151_ignored P (hearExt 93) "carol" "carol" 5 1 _ w rfl (by decide) (by decide) (by decide +kernel)

end Demo
end Verif.Props
