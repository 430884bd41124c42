import Verif.Props.Store
import Verif.Props.Conversation
import Verif.Props.Register
/-!
# C161: first contact at any later time; C162: the supply of prekeys

C161, full claim: whatever the client did and received since it was registered, a person who has never written to it can
write to it for the first time. C162, full claim: prekeys that were used are replaced by new ones, and the signed one is
changed from time to time.
-/
namespace Verif.Props
open Verif Verif.Keys Verif.Messages Verif.Session Verif.Api Verif.Names Verif.Conv

/-- No message of the history used up the prekey: those that name it were refused (and not because a file could not be
written). -/
def Spared (P : Prims) (id : Nat) : Store → List Event → Prop
  | _, [] => True
  | st, e :: es =>
    (∀ rnd m, e.call = .decryptP rnd m → m.preKeyId = id →
      e.env.storeOk = true ∧ ∀ pt, (decryptPreKey P e.env rnd st e.peer e.dev m).res ≠ .ok pt) ∧
    Spared P id (step P st e) es

/-! ## Lemmas -/

/-- Which prekeys a message removes. -/
theorem removed_cases (P : Prims) (env : Env) (rnd : Nat → Bytes) (st : Store) (rec : String) (dev : Nat) (m : PreKeyMsg)
    (n : Nat) (h : .removePreKey n ∈ (decryptPreKey P env rnd st rec dev m).writes) :
    n ≠ 0xFFFFFF ∧ (n = 0 ∨ n = m.preKeyId ∧
      (env.storeOk = false ∨ ∃ pt, (decryptPreKey P env rnd st rec dev m).res = .ok pt)) := by
  rcases decryptPreKey_cases P env rnd st rec dev m with
    ⟨hw | ⟨hw, _⟩, hr⟩ | ⟨sr0, w, sr1, pkid, sr', pt, hl', hb, _, hw, hr⟩
  · rw [hw] at h; simp at h
  · rw [hw] at h; simp at h
  · have hwr : ∀ x ∈ w, ∀ i, x ≠ .removePreKey i := by
      rcases buildReceiver_cases P env st rec sr0 m with
        ⟨_, _, h⟩ | ⟨_, _, _, h⟩ | ⟨_, _, _, _, _, _, _, _, _, _, _, _, h⟩
      · rw [hb] at h; simp at h
      · rw [hb] at h
        injection h with h1 _
        rw [h1]; simp
      · rw [hb] at h
        injection h with h1 _
        rw [h1]; simp
    have hid : pkid = 0 ∨ pkid = m.preKeyId := by
      rcases buildReceiver_cases P env st rec sr0 m with
        ⟨_, _, h⟩ | ⟨_, _, _, h⟩ | ⟨_, _, _, _, _, _, _, _, _, _, _, _, h⟩
      · rw [hb] at h; simp at h
      · rw [hb] at h
        injection h with _ h2
        injection h2 with h2
        injection h2 with _ h3
        exact Or.inl h3
      · rw [hb] at h
        injection h with _ h2
        injection h2 with h2
        injection h2 with _ h3
        exact Or.inr h3
    rw [hw] at h
    have hn : pkid ≠ 0xFFFFFF ∧ n = pkid := by
      rcases List.mem_append.1 h with h | h
      · rcases List.mem_append.1 h with h | h
        · exact absurd rfl (hwr _ h n)
        · split at h
          · next hp => exact ⟨hp, by simpa using h⟩
          · simp at h
      · split at h <;> simp at h
    refine ⟨by rw [hn.2]; exact hn.1, ?_⟩
    rw [hn.2]
    rcases hid with hid | hid
    · exact Or.inl hid
    · refine Or.inr ⟨hid, ?_⟩
      cases hs : env.storeOk
      · exact Or.inl rfl
      · exact Or.inr ⟨pt, by rw [hr, hs]; rfl⟩

theorem removePreKey_of (P : Prims) (st : Store) (e : Event) (n : Nat) (h : .removePreKey n ∈ e.writes P st) :
    ∃ rnd m, e.call = .decryptP rnd m ∧ .removePreKey n ∈ (decryptPreKey P e.env rnd st e.peer e.dev m).writes := by
  unfold Event.writes at h
  cases hc : e.call with
  | build rb rr b =>
    rw [hc] at h
    simp only at h
    rcases buildSender_cases P e.env st rb rr e.peer e.dev b with ⟨hw, _⟩ | ⟨_, _, _, _, _, _, _, _, _, _, _, hw⟩
    · rw [hw] at h; simp at h
    · rw [hw] at h
      split at h <;> simp at h
  | encrypt pt =>
    rw [hc] at h
    simp only at h
    rcases encryptMsg_cases P e.env st e.peer e.dev pt with ⟨hw, _⟩ | ⟨_, _, _, _, _, _, _, hw⟩
    · rw [hw] at h; simp at h
    · rw [hw] at h; simp at h
  | decryptW rnd m =>
    rw [hc] at h
    simp only at h
    rcases decryptWhisper_cases P e.env rnd st e.peer e.dev m with ⟨hw, _⟩ | ⟨_, _, _, _, _, _, hw⟩
    · rw [hw] at h; simp at h
    · rw [hw] at h; simp at h
  | decryptP rnd m => rw [hc] at h; exact ⟨rnd, m, rfl, h⟩
  | delete => rw [hc] at h; simp at h

/-- What a call leaves alone. -/
theorem applyWrites_fixed (ws : List Write) : ∀ st : Store,
    (applyWrites st ws).signedPreKeys = st.signedPreKeys ∧ (applyWrites st ws).identity = st.identity ∧
    (applyWrites st ws).regId = st.regId ∧ (applyWrites st ws).alwaysTrust = st.alwaysTrust := by
  induction ws with
  | nil => exact fun _ => ⟨rfl, rfl, rfl, rfl⟩
  | cons w ws ih =>
    intro st
    rw [applyWrites_cons]
    obtain ⟨a, b, c, d⟩ := ih (applyWrite st w)
    rw [a, b, c, d]
    cases w <;> exact ⟨rfl, rfl, rfl, rfl⟩

theorem step_fixed (P : Prims) (st : Store) (e : Event) :
    (step P st e).signedPreKeys = st.signedPreKeys ∧ (step P st e).identity = st.identity ∧
    (step P st e).regId = st.regId ∧ (step P st e).alwaysTrust = st.alwaysTrust := by
  rw [step_eq]
  split
  · exact ⟨rfl, rfl, rfl, rfl⟩
  · exact applyWrites_fixed _ _

theorem step_preKeys (P : Prims) (st : Store) (e : Event) (i : Nat) :
    (step P st e).preKeys i = st.preKeys i ∨ ((step P st e).preKeys i = none ∧ .removePreKey i ∈ e.writes P st) := by
  rw [step_eq]
  split
  · exact Or.inl rfl
  · rw [applyWrites_preKeys]
    split
    · next h =>
      refine Or.inr ⟨rfl, Event.done_sub P st e _ ?_⟩
      simpa [removes] using h
    · exact Or.inl rfl

theorem applyWrites_ids (ws : List Write) (id : String) (h : ∀ w ∈ ws, ∀ k, w ≠ .saveIdentity id k) : ∀ st : Store,
    (applyWrites st ws).identities id = st.identities id := by
  induction ws with
  | nil => exact fun _ => rfl
  | cons w ws ih =>
    intro st
    rw [applyWrites_cons, ih (fun x hx => h x (List.mem_cons_of_mem _ hx))]
    cases w with
    | saveIdentity a k =>
      simp only [applyWrite]
      rw [if_neg]
      rintro rfl
      exact h _ List.mem_cons_self k rfl
    | removePreKey n => rfl
    | storeSession a b c => rfl

theorem step_ids (P : Prims) (st : Store) (e : Event) (id : String) (h : e.peer ≠ id) :
    (step P st e).identities id = st.identities id := by
  rw [step_eq]
  split
  · rfl
  · refine applyWrites_ids _ _ ?_ _
    rintro w hw k rfl
    exact h (Event.writes_scope P st e _ (Event.done_sub P st e _ hw)).symm

/-- Over a history: what it leaves alone. -/
theorem run_fixed (P : Prims) (es : List Event) : ∀ st : Store,
    (run P st es).signedPreKeys = st.signedPreKeys ∧ (run P st es).identity = st.identity ∧
    (run P st es).regId = st.regId ∧ (run P st es).alwaysTrust = st.alwaysTrust := by
  induction es with
  | nil => exact fun _ => ⟨rfl, rfl, rfl, rfl⟩
  | cons e es ih =>
    intro st
    obtain ⟨a, b, c, d⟩ := ih (step P st e)
    obtain ⟨a', b', c', d'⟩ := step_fixed P st e
    exact ⟨a.trans a', b.trans b', c.trans c', d.trans d'⟩

theorem run_ids (P : Prims) (id : String) (es : List Event) (h : ∀ e ∈ es, e.peer ≠ id) : ∀ st : Store,
    (run P st es).identities id = st.identities id := by
  induction es with
  | nil => exact fun _ => rfl
  | cons e es ih =>
    intro st
    exact (ih (fun x hx => h x (List.mem_cons_of_mem _ hx)) (step P st e)).trans
      (step_ids P st e id (h e List.mem_cons_self))

theorem run_sess (P : Prims) (r : String) (d : Nat) (es : List Event) (h : ∀ e ∈ es, e.peer ≠ r) : ∀ st : Store,
    (run P st es).sessions (sessName r d) = st.sessions (sessName r d) := by
  induction es with
  | nil => exact fun _ => rfl
  | cons e es ih =>
    intro st
    refine (ih (fun x hx => h x (List.mem_cons_of_mem _ hx)) (step P st e)).trans (step_sessions P st e _ ?_)
    exact fun he => h e List.mem_cons_self (sessName_inj he).1.symm

theorem run_preKey (P : Prims) (id : Nat) (h0 : id ≠ 0) (es : List Event) : ∀ st : Store,
    (id = 0xFFFFFF ∨ Spared P id st es) → (run P st es).preKeys id = st.preKeys id := by
  induction es with
  | nil => exact fun _ _ => rfl
  | cons e es ih =>
    intro st h
    have h1 : (step P st e).preKeys id = st.preKeys id := by
      rcases step_preKeys P st e id with hs | ⟨_, hw⟩
      · exact hs
      · exfalso
        obtain ⟨rnd, m, hc, hm⟩ := removePreKey_of P st e id hw
        obtain ⟨hl, hz | ⟨hid, hx⟩⟩ := removed_cases P e.env rnd st e.peer e.dev m id hm
        · exact h0 hz
        · rcases h with h | h
          · exact hl h
          · obtain ⟨hs, hr⟩ := h.1 rnd m hc hid.symm
            rcases hx with hx | ⟨pt, hx⟩
            · rw [hs] at hx; exact absurd hx (by decide)
            · exact hr pt hx
    exact (ih (step P st e) (h.imp_right (fun h => h.2))).trans h1

/-! ## C161 -/

/-- The same two parties, the responder after a history of calls. -/
def later (P : Prims) (S : Setup) (es : List Event) : Setup := { S with responder := run P S.responder es }

/-- Whatever calls the responder made for others - sessions built, messages sent, received, refused, sessions deleted,
writes that failed, deaths and restarts - it is as ready for the initiator as it was: with the bundle's prekey if no other
message used it, always with the prekey of last resort, and always with no prekey. -/
theorem C161_ready (P : Prims) (S : Setup) (hS : S.Ok P) (es : List Event) (hp : ∀ e ∈ es, e.peer ≠ S.nameI)
    (hk : S.opk = none ∨ S.pkId = 0xFFFFFF ∨ Spared P S.pkId S.responder es) : (later P S es).Ok P := by
  obtain ⟨f1, f2, f3, f4⟩ := run_fixed P es S.responder
  refine { hS with
    rIdent := f2.trans hS.rIdent
    rReg := f3.trans hS.rReg
    rTrust := ?_
    rNone := (run_sess P _ _ es hp _).trans hS.rNone
    rSpk := (congrFun f1 _).trans hS.rSpk
    rOpk := ?_ }
  · have := hS.rTrust
    simp only [isTrusted, later] at this ⊢
    rw [f4, run_ids P _ es hp]
    exact this
  · intro k hok
    have hok' : S.opk = some k := hok
    have h0 : S.pkId ≠ 0 := fun h => by
      rw [hS.pkId.2.1 h] at hok'
      cases hok'
    refine (run_preKey P _ h0 es _ ?_).trans (hS.rOpk k hok)
    rcases hk with h | h
    · rw [h] at hok'
      cases hok'
    · exact h

/-- A first message is delivered after any history of calls for others. -/
theorem C161_first_contact (P : Prims) (S : Setup) (hS : S.Ok P) (es : List Event) (hp : ∀ e ∈ es, e.peer ≠ S.nameI)
    (hk : S.opk = none ∨ S.pkId = 0xFFFFFF ∨ Spared P S.pkId S.responder es)
    (pt : Bytes) (hpt : pt.length < 2 ^ 60) (rnd : Nat → Bytes) (hr : (rnd 0).length = 32)
    (hn : [S.spk.pub, (newPair P S.rr).pub, (newPair P (rnd 0)).pub].Nodup) :
    (buildSender P {} S.initiator S.rb S.rr S.nameR S.devR S.bundle).res = .ok () ∧
    ∃ b ty, (encryptMsg P {} (applyWrites S.initiator (buildSender P {} S.initiator S.rb S.rr S.nameR S.devR S.bundle).writes)
        S.nameR S.devR pt).res = .ok (b, ty) ∧
      (receive P rnd (run P S.responder es) S.nameI S.devI b ty).res = .ok pt := by
  obtain ⟨h1, h2, _⟩ := C01_first_contact P _ (C161_ready P S hS es hp hk) pt hpt rnd hr hn
  refine ⟨h1, ?_⟩
  simp only [firstContact, World.gots, World.step, World.init, later] at h2
  cases h : (encryptMsg P {} (applyWrites S.initiator (buildSender P {} S.initiator S.rb S.rr S.nameR S.devR S.bundle).writes)
      S.nameR S.devR pt).res with
  | ok x =>
    rw [h] at h2
    simp at h2
    exact ⟨x.1, x.2, rfl, h2⟩
  | err e => rw [h] at h2; simp at h2
  | panic => rw [h] at h2; simp at h2

/-- So is every conversation: whatever is sent, lost, delayed or repeated. -/
theorem C161_conversation (P : Prims) (S : Setup) (hS : S.Ok P) (es : List Event) (hp : ∀ e ∈ es, e.peer ≠ S.nameI)
    (hk : S.opk = none ∨ S.pkId = 0xFFFFFF ∨ Spared P S.pkId S.responder es)
    (evs : List Ev) (hl : Legal {} evs) (hn : (ratchetKeys P S evs).Nodup) (hlen : evs.length < 2 ^ 32 - 1)
    (hf : NoForgery P (later P S es) {} (World.init P (later P S es)) evs) :
    List.Forall₂ Agree (wants {} evs) (World.gots P (later P S es) (World.init P (later P S es)) evs) :=
  C02_conversation P (later P S es) (C161_ready P S hS es hp hk) evs hl hn hlen hf

/-- From the first start on: after any interrupted starts, a start that got through and any calls for others, a person who
asks the server for a bundle - with a prekey that nobody used since, the one of last resort, or none - reaches the client. -/
theorem C161_registered {P : Prims} (E : Sign.Ed P) (hv : ∀ k m s, P.verify k m s = (Sign.verify E k m s).1)
    (l : List (Register.Env × Option Nat)) (e : Register.Env) (L : Register.Loaded)
    (hl : ∀ x ∈ l, Register.Allowed x) (he : Register.Allowed (e, none))
    (hok : (Register.start E e (Register.history E {} l)).2 = .ok L) :
    ∃ st, (Register.history E {} (l ++ [(e, none)])).server = some st ∧
      (st.signed.id ≠ 0 → ∀ pk : Option PreKeys.Entity,
        (∀ x, pk = some x → x ∈ st.preKeys ++ [st.lastResort] ∧ x.id ≠ 0) → ∀ dev reg,
        ∃ b idR spk, Send.makeBundle (Register.reply st dev reg pk) = .ok (dev, b) ∧
          ∀ (c : Register.Caller) (always : Bool) (es : List Event), c.Ok P idR → (∀ e ∈ es, e.peer ≠ c.name) →
            (b.preKeyId = 0 ∨ b.preKeyId = 0xFFFFFF ∨
              Spared P b.preKeyId (Register.storeOf (Register.history E {} (l ++ [(e, none)])).disk always) es) →
            ∀ (pt : Bytes) (rnd : Nat → Bytes), pt.length < 2 ^ 60 → (rnd 0).length = 32 →
            [spk, (Keys.newPair P c.rr).pub, (Keys.newPair P (rnd 0)).pub].Nodup →
            (buildSender P {} c.store c.rb c.rr c.nameR c.devR b).res = .ok () ∧
            ∃ bytes ty, (encryptMsg P {} (applyWrites c.store (buildSender P {} c.store c.rb c.rr c.nameR c.devR b).writes)
                c.nameR c.devR pt).res = .ok (bytes, ty) ∧
              (receive P rnd (run P (Register.storeOf (Register.history E {} (l ++ [(e, none)])).disk always) es)
                c.name c.dev bytes ty).res = .ok pt) := by
  obtain ⟨st, hs, hm⟩ := Register.C92_finished_partial E l e L hl he hok
  refine ⟨st, hs, ?_⟩
  intro hz pk hpk dev reg
  obtain ⟨b, idR, spk, opk, regR, h1, _, _, _, h3⟩ := Register.contact E hv hm hz pk hpk dev reg
  refine ⟨b, idR.pub, spk.pub, h1, ?_⟩
  intro c always es hc hp hsp pt rnd hpt hr hn
  have hS := h3 c hc always
  exact C161_first_contact P _ hS es hp (hsp.imp_left (fun h => hS.pkId.2.1 h)) pt hpt rnd hr hn

/-! ## C162 -/

/-- No call makes a prekey: over any history the prekeys only become fewer, and the signed ones stay as they are. -/
theorem C162_only_fewer (P : Prims) (st : Store) (es : List Event) :
    (∀ i k, (run P st es).preKeys i = some k → st.preKeys i = some k) ∧
    (run P st es).signedPreKeys = st.signedPreKeys := by
  refine ⟨?_, (run_fixed P es st).1⟩
  induction es generalizing st with
  | nil => exact fun _ _ h => h
  | cons e es ih =>
    intro i k h
    have := ih (step P st e) i k h
    rcases step_preKeys P st e i with hs | ⟨hs, _⟩
    · exact hs ▸ this
    · rw [hs] at this; cases this

/-- Nor does a start after the first: over any number of later starts, interrupted or not, the server and the disk keep the
prekeys of the registration. -/
theorem C162_never_renewed {P : Prims} (E : Sign.Ed P) (e : Register.Env) (w : Register.World) (L : Register.Loaded)
    (h : (Register.start E e w).2 = .ok L) (l : List (Register.Env × Option Nat)) :
    Register.history E (Register.applyEffs P w (Register.start E e w).1) l =
      Register.applyEffs P w (Register.start E e w).1 := by
  have key := Register.C93_restart E e w L h
  induction l with
  | nil => rfl
  | cons x l ih =>
    obtain ⟨e', _ | k⟩ := x
    · show Register.history E (Register.applyEffs P _ (Register.start E e' _).1) l = _
      rw [key e']
      exact ih
    · show Register.history E (Register.applyEffs P _ ((Register.start E e' _).1.take k)) l = _
      rw [key e', List.take_nil]
      exact ih

/-- What keeps the client reachable all the same: the prekey of last resort and the signed prekey stay through every
history. Missing: new prekeys. -/
theorem C162_reachable_partial (P : Prims) (st : Store) (es : List Event) :
    (run P st es).preKeys 0xFFFFFF = st.preKeys 0xFFFFFF ∧ (run P st es).signedPreKeys = st.signedPreKeys :=
  ⟨run_preKey P _ (by decide) es st (Or.inl rfl), (run_fixed P es st).1⟩

/-! ## Concrete cases -/
namespace Demo

/-- Alice's first message with its last byte changed. -/
def forged : PreKeyMsg := { parseP a1.2 with message := { (parseP a1.2).message with serialized := (parseP a1.2).message.serialized.dropLast ++ [0] } }

/-- Bob builds a session with Carol and writes to Carol, a forged message that names prekey 7 comes from Eve, and the session
with Carol is deleted. -/
def hist : List Event :=
  [⟨"carol", 1, {}, none, .build (List.replicate 32 3) (List.replicate 32 4) { bundle 7 with identityKey := bobId.pub }⟩,
   ⟨"carol", 1, {}, none, .encrypt [1, 2]⟩,
   ⟨"eve", 1, {}, none, .decryptP (rnd 9) forged⟩,
   ⟨"carol", 1, {}, some 0, .delete⟩]

/-- A message that uses the prekey comes from another first (here the server gave it out twice): it is gone, and Alice's
first message is refused. -/
def used : List Event := [⟨"mallory", 1, {}, none, .decryptP (rnd 9) (parseP a1.2)⟩]

end Demo

theorem not_ok (r : Res Bytes) (h : (match r with | .ok _ => true | _ => false) = false) : ∀ pt, r ≠ .ok pt := by
  rintro pt rfl
  cases h

example : (∀ e ∈ Demo.hist, e.peer ≠ Demo.setup.nameI) ∧ Spared Demo.P Demo.setup.pkId Demo.setup.responder Demo.hist := by
  refine ⟨by decide, ?_, ?_, ?_, ?_, trivial⟩
  · intro _ _ h; cases h
  · intro _ _ h; cases h
  · intro r m h _
    injection h with h1 h2
    subst h1 h2
    exact ⟨rfl, fun pt => not_ok _ (by decide +kernel) pt⟩
  · intro _ _ h; cases h

/-- The forged message names the prekey, and the calls for Carol do something. -/
example : Demo.forged.preKeyId = 7 ∧ containsSession (run Demo.P Demo.bob0 (Demo.hist.take 2)) "carol" 1 = true ∧
    (decryptPreKey Demo.P {} (Demo.rnd 9) Demo.bob0 "eve" 1 Demo.forged).res = .err .invalidMessage := by
  decide +kernel

example : (run Demo.P Demo.bob0 Demo.used).preKeys 7 = none ∧
    (receive Demo.P (Demo.rnd 83) (run Demo.P Demo.bob0 Demo.used) "alice" 1 Demo.a1.2 .prekey).res ≠ .ok [1] ∧
    (receive Demo.P (Demo.rnd 83) Demo.bob0 "alice" 1 Demo.a1.2 .prekey).res = .ok [1] := by
  decide +kernel

end Verif.Props
