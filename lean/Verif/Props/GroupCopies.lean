import Verif.Props.GroupTalk
/-!
# C168: a message to a group is shown once, in that group, on the sender's other devices
-/
namespace Verif.Props.GroupCopies
open Verif Verif.Wire Verif.Record Verif.Encoding Verif.GroupStore Verif.GroupTalk Verif.Props.GroupStore
  Verif.Props.GroupTalk

/-- The transcript is the one `sendMessage` gives to `sendSyncMessage`. -/
theorem sendMessage_transcript (P : Prims) (X : Send.SendExt) (fuel : Nat) (m : Send.OutMsg) (s s' : Send.State) (b : Bytes)
    (hb : X.marshal (Send.createMessage X.now X.profileKey m) = .ok b) (r)
    (hr : Send.sendLoop P X.D X.srv m.destination (Files.padMessage b) (Send.createMessage X.now X.profileKey m).timestamp fuel 0
      (Send.withDefault s m.destination) = (s', some (.ok r))) (hn : r.needsSync = true) :
    (Send.sendMessage P X fuel m s).1 =
      (Send.sendSync P X fuel (transcript m.destination (Send.createMessage X.now X.profileKey m)) s').1 := by
  simp only [Send.sendMessage, hb, hr, hn, transcript]
  rw [if_neg (by decide)]
  generalize Send.sendSync P X fuel _ s' = q
  obtain ⟨q1, q2⟩ := q
  cases q2 with
  | none => rfl
  | some q2 => cases q2 <;> rfl

theorem find_again (k : Bytes) (w : World) : (find k (find k w).1).2 = (find k w).2 := by
  unfold find
  by_cases h : w.mem.length = 0
  · simp only [h, if_true]
    unfold load
    cases hf : w.files k with
    | none => simp only [h, if_true, hf]
    | some g =>
      have : ¬ (w.set k g).mem.length = 0 := by simp [World.set, put]
      simp only [this, if_false]
      exact get_put_same w.mem k g
  · simp only [h, if_false]

theorem hexDigit_not_plus (n : Nat) (h : n < 16) : hexDigit n ≠ 43 := by
  have : ∀ n < 16, hexDigit n ≠ 43 := by decide
  exact this n h

theorem uuid_not_number (u : Bytes) (h : u.length = 16) :
    ¬ (Content.text (hexToUUID (hexEncode u))).toList.head? = some '+' := by
  have hl : ∀ u : Bytes, (hexEncode u).length = 2 * u.length := by
    intro u
    induction u with
    | nil => rfl
    | cons a u ih => simp only [hexEncode, List.length_cons, ih]; omega
  have hlen : (hexEncode u).length = 32 := by rw [hl, h]
  cases u with
  | nil => cases h
  | cons a u =>
    have hd := hexDigit_not_plus (a.toNat / 16) (by have := a.toNat_lt; omega)
    rw [hexToUUID, if_neg (by simpa using hlen), dashed, hexEncode]
    simp only [Content.text, String.toList_ofList, List.take_succ_cons, List.cons_append, List.map_cons, List.head?_cons,
      Option.some.injEq]
    intro he
    generalize hexDigit (a.toNat / 16) = c at hd he
    have hc : c.toNat = 43 := by
      have h1 := congrArg Char.toNat he
      have hv : c.toNat.isValidChar := Or.inl (by have := c.toNat_lt; omega)
      have h2 : (Char.ofNat c.toNat).toNat = c.toNat := by
        simp [Char.ofNat, hv, Char.toNat, Char.ofNatAux]
      rw [h2] at h1
      exact h1
    exact hd (UInt8.toNat_inj.mp hc)

/-- What the application on another device is shown of a message to a group: the member as the one it was sent to. -/
def copy (files : List Bytes) (msg : Bytes) (timer now : Nat) (pk : Bytes) (group : Option Bytes) (m : DMember) : Receive.AppMsg :=
  { source := "", sourceUuid := Content.text (hexToUUID (hexEncode m.uuid)), message := msg, timestamp := now
    attachments := files, group := group, expireTimer := timer, profileKey := pk }

theorem lookup_wire (pk : Bytes) (att : Option Send.OutAtt) (dest msg : Bytes) (timer now : Nat) (mk : Bytes) (rev : Nat)
    (hm : mk.length < 2 ^ 64) (hr : rev < u32) (gw : World) :
    lookup (Content.seen (wire pk att ⟨dest, msg, timer, now, mk, rev⟩)) gw = find (hexid mk) gw := by
  have hr' : rev < 2 ^ 32 := hr
  have hv : ∀ f ∈ [((1, .len mk) : Field), (2, .varint rev)], Field.valid f := by
    intro f hf
    simp only [List.mem_cons, List.not_mem_nil, or_false] at hf
    rcases hf with rfl | rfl
    · simp only [Field.valid]; omega
    · simp only [Field.valid]; omega
  simp only [lookup, Content.seen, wire, Send.createMessage, outMsg, ctxBytes, decFields_enc _ hv]
  simp [bytesOr, getBytes]

/-- The contents on their way to the other device, with the server's times. -/
def contents (times : Nat → Nat) (ts : List (Nat × Send.Transcript)) : List (Nat × Bytes) :=
  ts.map (fun t => (times t.1, Content.marshalSync t.2))

theorem device_copies (P : Prims) (X : Receive.Ext) (src uuid : String) (times : Nat → Nat) (pk : Bytes)
    (att : Option Send.OutAtt) (msg mk : Bytes) (timer now rev : Nat) (files : List Bytes) (hx : X.parseContent = Content.parseContent)
    (hcb : X.cb.syncSent = true) (hml : mk.length < 2 ^ 64) (hrev : rev < u32)
    (hatt : ∀ d, Files.handleAttachments P X.fetch Receive.AttPtr.key
      (Content.seen (wire pk att ⟨d, msg, timer, now, mk, rev⟩)).attachments = .ok files) (found : Option Bytes) :
    ∀ (l : List (DMember × Nat)) (gw : World) (w : Receive.World),
      (find (hexid mk) gw).2.map (fun g => hexid g.masterKey) = found → (∀ p ∈ l, p.1.uuid.length = 16) →
      (∀ p ∈ l, Content.FitsT (transcript (Content.text (hexToUUID (hexEncode p.1.uuid)))
        (wire pk att ⟨hexToUUID (hexEncode p.1.uuid), msg, timer, now, mk, rev⟩))) →
      (device P X src uuid (l.map (fun p => (times p.2, Content.marshalSync
        (transcript (Content.text (hexToUUID (hexEncode p.1.uuid)))
          (wire pk att ⟨hexToUUID (hexEncode p.1.uuid), msg, timer, now, mk, rev⟩))))) gw w).log =
        w.log ++ l.flatMap (fun p => [.enter .sync, .onSyncSent (copy files msg timer now pk found p.1) (times p.2)]) := by
  intro l
  induction l with
  | nil => intro gw w _ _ _; simp [device]
  | cons p l ih =>
    intro gw w hf hl hfit
    obtain ⟨m, i⟩ := p
    have hfit1 := hfit (m, i) (by simp)
    have hlen := hl (m, i) (by simp)
    have hplus := uuid_not_number m.uuid hlen
    simp only at hfit1 hlen
    generalize ht : transcript (Content.text (hexToUUID (hexEncode m.uuid)))
      (wire pk att ⟨hexToUUID (hexEncode m.uuid), msg, timer, now, mk, rev⟩) = t at hfit1
    have htm : t.message = wire pk att ⟨hexToUUID (hexEncode m.uuid), msg, timer, now, mk, rev⟩ := by rw [← ht]; rfl
    have hte : t.destE164 = none := by rw [← ht]; simp only [transcript, hplus, if_false]
    have htu : t.destUuid = some (Content.text (hexToUUID (hexEncode m.uuid))) := by
      rw [← ht]; simp only [transcript, hplus, if_false]
    simp only [List.map_cons, ht, device, List.flatMap_cons]
    have hparse : X.parseContent (Content.marshalSync t) = some { sync := some { sent := some (Content.seenSent t) } } := by
      rw [hx]; exact Content.parse_sync t hfit1
    have hlook := lookup_wire pk att (hexToUUID (hexEncode m.uuid)) msg timer now mk rev hml hrev
    have hmsg : (Content.seenSent t).message =
        some (Content.seen (wire pk att ⟨hexToUUID (hexEncode m.uuid), msg, timer, now, mk, rev⟩)) := by
      simp only [Content.seenSent, htm]
    simp only [hparse, Option.bind_some, hmsg]
    rw [ih _ _ ?_ (fun p hp => hl p (List.mem_cons_of_mem _ hp)) (fun p hp => hfit p (List.mem_cons_of_mem _ hp))]
    · have hbody : (Content.seen (wire pk att ⟨hexToUUID (hexEncode m.uuid), msg, timer, now, mk, rev⟩)).body = msg := by
        show ((if msg = [] then none else some msg : Option Bytes)).getD [] = msg
        split
        · next e => rw [e]; rfl
        · rfl
      have hstep : (Receive.handleMessage P { X with syncGroupsV2 := fun _ dm => .ok ((lookup dm gw).2.map (fun g => hexid g.masterKey)) }
          src uuid (times i) (Content.marshalSync t) w).1.log =
          w.log ++ [.enter .sync, .onSyncSent (copy files msg timer now pk found m) (times i)] := by
        simp only [Receive.handleMessage, hparse, Receive.dispatch, Receive.handleSync, Receive.handleSyncSent, hmsg]
        have hflag : Receive.handleFlags { X with syncGroupsV2 := fun _ dm => .ok ((lookup dm gw).2.map (fun g => hexid g.masterKey)) }
            (Content.seenSent t).destE164
            (Content.seen (wire pk att ⟨hexToUUID (hexEncode m.uuid), msg, timer, now, mk, rev⟩)) = pure 0 := rfl
        simp only [hflag, bind, Receive.M.emit, pure, Receive.M.lift, hatt, hlook, hf, Receive.derefTs, hcb]
        simp only [Content.seenSent, hte, htu, Option.getD_none, Option.getD_some, List.append_assoc]
        have hts : (Content.seen (wire pk att ⟨hexToUUID (hexEncode m.uuid), msg, timer, now, mk, rev⟩)).timestamp = some now := rfl
        simp only [copy, hbody, hts]
        show (w.log ++ [_]) ++ [_] = _
        rw [List.append_assoc]
        rfl
      rw [hstep, List.append_assoc]
    · rw [hlook, find_again]; exact hf

/-- Part of **C168**: when a message to a group has been sent, another device of the sender, in whatever state, shows one copy for
each member for whom the server asked for a transcript, in order, with text, timer, time and attachments as sent, as sent
to that member; in the group if the device finds it in its map, else in no group. Missing: that it is shown
once, and in the group always (`C168_shown_for_each_member`). -/
theorem C168_copies_partial (Z : Zk) (E : Env) (net : Nat → Res Nat) (now timer t : Nat) (k msg : Bytes) (w : World)
    (g : G) (d : DGroup) (hg : (find k w).2 = some g) (hk : k = hexid g.masterKey) (hd : g.decrypted = some d)
    (hlen : ∀ m ∈ d.members, m.uuid.length = 16) (hnet : ∀ i, net i ≠ .panic)
    (h : (send Z E net now k msg timer w).2.2 = .ok t) (hrev : d.revision < u32) (hml : g.masterKey.length < 2 ^ 64)
    (pk : Bytes) (att : Option Send.OutAtt) (sync : Nat → Bool) (times : Nat → Nat)
    (P : Prims) (X : Receive.Ext) (src uuid : String) (files : List Bytes) (hx : X.parseContent = Content.parseContent)
    (hcb : X.cb.syncSent = true)
    (hatt : ∀ o ∈ (send Z E net now k msg timer w).2.1, Files.handleAttachments P X.fetch Receive.AttPtr.key
      (Content.seen (wire pk att o)).attachments = .ok files)
    (hfit : ∀ c ∈ transcripts sync pk att (send Z E net now k msg timer w).2.1, Content.FitsT c.2)
    (gw : World) (hgw : ∀ g', (find k gw).2 = some g' → hexid g'.masterKey = k) (rw' : Receive.World) :
    (device P X src uuid (contents times (transcripts sync pk att (send Z E net now k msg timer w).2.1)) gw rw').log =
      rw'.log ++ (d.members.zipIdx.filter (fun p => sync p.2)).flatMap (fun p =>
        [.enter .sync, .onSyncSent (copy files msg timer now pk ((find k gw).2.map (fun _ => k)) p.1) (times p.2)]) := by
  obtain ⟨⟨j, h1⟩, -, h3, -⟩ := C97_send_partial Z E net now timer k msg w g d hg hd hlen hnet
  have hl : (send Z E net now k msg timer w).2.1.length = d.members.length := by
    have := congrArg List.length (h3 ⟨t, h⟩)
    simpa using this
  have hj : d.members.take j = d.members := by
    rw [h1, List.length_map] at hl
    have := List.length_take (i := j) (l := d.members)
    exact List.take_of_length_le (by omega)
  rw [hj] at h1
  have hts : transcripts sync pk att (send Z E net now k msg timer w).2.1 =
      (d.members.zipIdx.filter (fun p => sync p.2)).map (fun p => (p.2,
        transcript (Content.text (hexToUUID (hexEncode p.1.uuid)))
          (wire pk att ⟨hexToUUID (hexEncode p.1.uuid), msg, timer, now, g.masterKey, d.revision⟩))) := by
    rw [transcripts, h1, List.zipIdx_map, List.filter_map, List.map_map]
    rfl
  rw [hts] at hfit ⊢
  rw [contents, List.map_map]
  have hne : ∀ p ∈ d.members.zipIdx.filter (fun p => sync p.2), p.1 ∈ d.members := by
    intro p hp
    have := (List.mem_filter.mp hp).1
    obtain ⟨i, hi, he⟩ := List.mem_iff_getElem.mp this
    rw [List.getElem_zipIdx] at he
    rw [← he]
    exact List.getElem_mem _
  have hmem : d.members ≠ [] := by
    intro he
    have h2 := C97_send_partial Z E net now timer k msg w g d hg hd hlen hnet
    obtain ⟨⟨m, hm, -⟩, -⟩ := h2.2.1.mp ⟨t, h⟩
    rw [he] at hm; cases hm
  have hatt' : ∀ dd, Files.handleAttachments P X.fetch Receive.AttPtr.key
      (Content.seen (wire pk att ⟨dd, msg, timer, now, g.masterKey, d.revision⟩)).attachments = .ok files := by
    intro dd
    obtain ⟨m, ms, hms⟩ := List.exists_cons_of_ne_nil hmem
    exact hatt ⟨hexToUUID (hexEncode m.uuid), msg, timer, now, g.masterKey, d.revision⟩ (by rw [h1, hms]; simp)
  have hfound : (find (hexid g.masterKey) gw).2.map (fun g => hexid g.masterKey) = (find k gw).2.map (fun _ => k) := by
    rw [← hk]
    cases hq : (find k gw).2 with
    | none => rfl
    | some g' => simp only [Option.map_some, hgw g' hq]
  exact device_copies P X src uuid times pk att msg g.masterKey timer now d.revision files hx hcb hml hrev hatt' _
    (d.members.zipIdx.filter (fun p => sync p.2)) gw rw' hfound (fun p hp => hlen _ (hne p hp))
    (fun p hp => hfit _ (List.mem_map.mpr ⟨p, hp, rfl⟩))

/-- What the application is shown. -/
def shownIn (l : List Receive.Ev) : List Receive.AppMsg := l.filterMap (fun e => match e with | .onSyncSent m _ => some m | _ => none)

theorem shownIn_copies (files : List Bytes) (msg : Bytes) (timer now : Nat) (pk : Bytes) (group : Option Bytes) (times : Nat → Nat) :
    ∀ l : List (DMember × Nat), shownIn (l.flatMap (fun p =>
      [.enter .sync, .onSyncSent (copy files msg timer now pk group p.1) (times p.2)])) =
      l.map (fun p => copy files msg timer now pk group p.1) := by
  intro l
  induction l with
  | nil => rfl
  | cons p l ih =>
    simp only [shownIn, List.flatMap_cons, List.filterMap_append, List.map_cons] at ih ⊢
    rw [ih]
    rfl

/-- Against **C168**: with a server that asks for transcripts, as it does for an account with several devices, the other
device shows the message as many times as the group has members, each time as sent to another of them; and in no
group at all if the device does not find the group in its map, as when it holds it on disk but other groups were used
first. -/
theorem C168_shown_for_each_member (Z : Zk) (E : Env) (net : Nat → Res Nat) (now timer t : Nat) (k msg : Bytes) (w : World)
    (g : G) (d : DGroup) (hg : (find k w).2 = some g) (hk : k = hexid g.masterKey) (hd : g.decrypted = some d)
    (hlen : ∀ m ∈ d.members, m.uuid.length = 16) (hnet : ∀ i, net i ≠ .panic)
    (h : (send Z E net now k msg timer w).2.2 = .ok t) (hrev : d.revision < u32) (hml : g.masterKey.length < 2 ^ 64)
    (pk : Bytes) (times : Nat → Nat) (P : Prims) (X : Receive.Ext) (src uuid : String)
    (hx : X.parseContent = Content.parseContent) (hcb : X.cb.syncSent = true)
    (hfit : ∀ c ∈ transcripts (fun _ => true) pk none (send Z E net now k msg timer w).2.1, Content.FitsT c.2)
    (gw : World) (hgw : ∀ g', (find k gw).2 = some g' → hexid g'.masterKey = k) (rw' : Receive.World) (hlog : rw'.log = []) :
    let shown := shownIn (device P X src uuid
      (contents times (transcripts (fun _ => true) pk none (send Z E net now k msg timer w).2.1)) gw rw').log
    shown.map (fun m => (m.message, m.timestamp, m.sourceUuid)) =
      d.members.map (fun m => (msg, now, Content.text (hexToUUID (hexEncode m.uuid)))) ∧
    ((find k gw).2 = none → ∀ m ∈ shown, m.group = none) := by
  intro shown
  have hs : shown = d.members.map (fun m => copy [] msg timer now pk ((find k gw).2.map (fun _ => k)) m) := by
    have hc := C168_copies_partial Z E net now timer t k msg w g d hg hk hd hlen hnet h hrev hml pk none (fun _ => true) times P X
      src uuid [] hx hcb (fun o _ => rfl) hfit gw hgw rw'
    show shownIn _ = _
    rw [hc, hlog, List.nil_append, shownIn_copies, List.filter_eq_self.mpr (by simp)]
    have hz : d.members.zipIdx.map Prod.fst = d.members := by simp
    conv => rhs; rw [← hz, List.map_map]
    rfl
  rw [hs]
  refine ⟨by rw [List.map_map]; rfl, ?_⟩
  intro hn m hm
  obtain ⟨x, -, rfl⟩ := List.mem_map.mp hm
  simp only [copy, hn, Option.map_none]

namespace Demo
open Verif.Props.GroupTalk.Demo Verif.Props.GroupStore.Demo

/-- The transcripts of the message to the two members of the demonstration group. -/
def ts : List (Nat × Send.Transcript) := transcripts (fun _ => true) [7] none outs

theorem ts_fit (c : Nat × Send.Transcript) (h : c ∈ ts) : Content.FitsT c.2 where
  message := by
    obtain ⟨p, hp, rfl⟩ := List.mem_map.mp h
    have := (List.mem_filter.mp hp).1
    obtain ⟨i, hi, he⟩ := List.mem_iff_getElem.mp this
    rw [List.getElem_zipIdx] at he
    rw [← he]
    exact out_fits _ (List.getElem_mem _)
  timestamp := by
    have : ∀ c ∈ ts, c.2.timestamp < 2 ^ 64 := by decide +kernel
    exact this c h
  e164 := by
    have : ∀ c ∈ ts, c.2.destE164 = none := by decide +kernel
    intro s hs
    rw [this c h] at hs; cases hs
  uuid := by
    have : ∀ c ∈ ts, ∀ x ∈ ((c.2.destUuid.getD "").toList), x.toNat < 256 := by decide +kernel
    intro s hs x hx
    exact this c h x (by rw [hs]; exact hx)
  size := by
    have : ∀ c ∈ ts, (Content.marshalSync c.2).length < 2 ^ 59 := by decide +kernel
    exact this c h

/-- A device that has used another group, and has this one on disk. -/
def busy : World := { other with mem := [(hexid [16], { masterKey := [16] })] }

/-- Before anything came. -/
def quiet : Receive.World := { store := Verif.Props.Demo.alice0, contacts := fun _ => none, log := [] }

end Demo
open Verif.Props.GroupTalk.Demo Verif.Props.GroupStore.Demo Verif.Props.GroupCopies.Demo

/-- The message is shown twice, in the group; on a device that used another group first, twice in none. -/
example : (∀ c ∈ ts, Content.FitsT c.2) ∧
    (shownIn (device Verif.Props.Demo.P (Verif.Props.Demo.hearExt 1) "me" "me" (contents (fun i => i) ts) other quiet).log).map
      (fun m => (m.message, m.group)) = [([104, 105], some (hexid mk)), ([104, 105], some (hexid mk))] ∧
    (busy.files (hexid mk)).isSome ∧
    (shownIn (device Verif.Props.Demo.P (Verif.Props.Demo.hearExt 1) "me" "me" (contents (fun i => i) ts) busy quiet).log).map
      (fun m => (m.message, m.group)) = [([104, 105], none), ([104, 105], none)] := by
  refine ⟨ts_fit, by decide +kernel, by decide +kernel, by decide +kernel⟩

end Verif.Props.GroupCopies
