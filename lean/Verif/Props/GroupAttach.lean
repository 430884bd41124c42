import Verif.Model.GroupAttach
import Verif.Props.GroupTalk
import Verif.Props.Http
/-!
# C175: a file sent to a group
-/
namespace Verif.Props.GroupAttach
open Verif Verif.Keys Verif.Encoding Verif.Http Verif.GroupStore Verif.GroupTalk Verif.GroupAttach
  Verif.Props.GroupStore Verif.Props.GroupTalk Verif.Props.Http

variable {W : Type}

/-- What C175 assumes of the servers and of the others who use them: what C108 assumes. -/
structure Served (P : Prims) (J : Json) (pl : Plan) (acc : Account) (others : Nat → List Req) (w : Server) (n : Nat)
    (keys iv : Bytes) : Prop where
  sound : pl.Sound J
  keys : keys.length = 64
  iv : iv.length = 16
  member : pl.member (basic acc.uuid acc.password)
  quiet : ∀ m, ∀ q ∈ others m, ¬ (q.method = "PUT" ∧ q.url = pl.loc (w.serves pl (others n)).issued)

/-- What a member of the group gets out of the message `m` at any later time, if nobody overwrites the file: exactly
the file `b`. `qs` are the requests of others until then. -/
def Fetches (P : Prims) (pl : Plan) (others : Nat → List Req) (loc : Bytes) (sv : Server) (b : Bytes)
    (dm : Receive.DataMsg) : Prop :=
  ∀ qs k lg, (∀ q ∈ qs, ¬ (q.method = "PUT" ∧ q.url = loc)) →
    Files.handleAttachments P
      (fun p => (download (crowd pl others) p.location ⟨(sv.serves pl qs, k), lg⟩).2)
      Receive.AttPtr.key dm.attachments = .ok [b]

/-- The upload, with the number of its requests. -/
theorem uploaded {P : Prims} {J : Json} {pl : Plan} {acc : Account} {others : Nat → List Req} {sv : Server} {n : Nat}
    {keys iv : Bytes} (h : Served P J pl acc others sv n keys iv) (log : List Req) (b ct : Bytes) (voice : Bool) :
    ∃ a st, (if voice then uploadVoiceNote P (crowd pl others) J (setup acc) keys iv (some b) ct
        else upload P (crowd pl others) J (setup acc) keys iv (some b) ct false) ⟨(sv, n), log⟩ = (st, .ok a) ∧
      a.contentType = (if voice then ascii "audio/mpeg" else ct) ∧ a.voiceNote = voice ∧
      (∃ r1 r2 r3 u, st.log = log ++ [r1, r2, r3] ∧ r1.method = "GET" ∧ r2.method = "POST" ∧ r3.method = "PUT" ∧
        Files.uploadAttachment P keys iv b = .ok u ∧ r3.body = u.blob) ∧
      ∀ now pk m, m.attachment = some a → Content.Fits (Send.createMessage now pk m) →
        ∃ dm, Content.parseContent (Content.marshalData (Send.createMessage now pk m)) = some { data := some dm } ∧
          Fetches P pl others (pl.loc (sv.serves pl (others n)).issued) st.world.1 b dm := by
  obtain ⟨a, st, hu, hct, hv, -, hf⟩ := C108_sent_is_received P J pl h.sound acc others sv n log keys iv b ct voice
    h.keys h.iv h.member h.quiet
  refine ⟨a, st, hu, hct, hv, ?_, hf⟩
  have : ∃ ct v, upload P (crowd pl others) J (setup acc) keys iv (some b) ct v ⟨(sv, n), log⟩ = (st, .ok a) := by
    cases voice
    · exact ⟨ct, false, hu⟩
    · exact ⟨_, true, hu⟩
  obtain ⟨ct', v', hu'⟩ := this
  obtain ⟨u, r1, x1, r2, x2, r3, x3, body, path, loc, w1, w2, h1, h2, h3, -, -, -, -, h4, -, -, -, -, -, h5, -, h6, -⟩ :=
    C109_success_partial P _ J _ keys iv b ct' v' _ log st a hu'
  exact ⟨r1, r2, r3, u, h2, h3, h4, h5, h1, h6⟩

/-- Part of **C175**: when a file sent to a group is reported as sent, it was uploaded once, with three requests, and for
each member of the group as the sender knows it one message was sent to that member, in which they find the text, the
timer and the time, from which they get exactly the file at any later time, and which is shown in that group or crashes
their client (C94). Missing: that nothing is uploaded for a group that cannot be written to (`C175_uploaded_first`). -/
theorem C175_everyone_partial (P : Prims) (J : Json) (pl : Plan) (acc : Account) (others : Nat → List Req) (sv : Server)
    (n : Nat) (log : List Req) (keys iv b ct : Bytes) (voice : Bool) (hs : Served P J pl acc others sv n keys iv)
    (Z : Zk) (E : Env) (net : Nat → Res Nat) (now timer t : Nat) (k msg : Bytes) (w : GroupStore.World)
    (g : G) (d : DGroup) (hg : (find k w).2 = some g) (hk : k = hexid g.masterKey) (hd : g.decrypted = some d)
    (hlen : ∀ m ∈ d.members, m.uuid.length = 16) (hnet : ∀ i, net i ≠ .panic)
    (hrev : d.revision < u32) (hml : g.masterKey.length < 2 ^ 64)
    (st : St (Server × Nat)) (w' : GroupStore.World) (outs : List Send.OutMsg)
    (h : sendGroupAttachment P (crowd pl others) J (setup acc) Z E net now voice keys iv k msg (some b) ct timer
      ⟨(sv, n), log⟩ w = (st, w', outs, .ok t)) :
    (∃ r1 r2 r3, st.log = log ++ [r1, r2, r3] ∧ r1.method = "GET" ∧ r2.method = "POST" ∧ r3.method = "PUT") ∧
    outs.length = d.members.length ∧
    ∀ (i : Nat) (m : DMember), d.members[i]? = some m → ∃ o, outs[i]? = some o ∧
      o.destination = Content.text (hexToUUID (hexEncode m.uuid)) ∧
      (∃ a, o.attachment = some a ∧ a.contentType = (if voice then ascii "audio/mpeg" else ct) ∧ a.voiceNote = voice) ∧
      ∀ pk, Content.Fits (Send.createMessage 0 pk o) →
        ∃ dm, Content.parseContent (Content.marshalData (Send.createMessage 0 pk o)) = some { data := some dm } ∧
          dm.body = msg ∧ dm.expireTimer = timer ∧ dm.timestamp = some now ∧
          Fetches P pl others (pl.loc (sv.serves pl (others n)).issued) st.world.1 b dm ∧
          ∀ (Zr : Zk) (parse : Bytes → Actions) (broken : Bytes → Bytes × Bytes) (Er : Env) (src : Bytes)
            (wr : GroupStore.World), Named wr →
            (receive Zr parse broken Er src dm wr).2 = .panic ∨
              ∃ g', (receive Zr parse broken Er src dm wr).2 = .ok (some g') ∧ hexid g'.masterKey = k := by
  obtain ⟨a, st', hu, hct, hv, ⟨r1, r2, r3, u, hl, h1, h2, h3, -, -⟩, hf⟩ := uploaded hs log b ct voice
  simp only [sendGroupAttachment, hu, Prod.mk.injEq] at h
  obtain ⟨rfl, rfl, rfl, hr⟩ := h
  have ht : (send Z E net now k msg timer w).2.2 = .ok t := by
    split at hr
    · next t' e => rw [e]; exact hr
    · cases hr
    · cases hr
  obtain ⟨hn, _⟩ := C166_same_group_partial Z E net now timer t k msg w g d hg hk hd hlen hnet ht hrev hml [] (some a)
  refine ⟨⟨r1, r2, r3, hl, h1, h2, h3⟩, by rw [List.length_map]; exact hn, ?_⟩
  intro i m hi
  obtain ⟨-, hall⟩ := C166_same_group_partial Z E net now timer t k msg w g d hg hk hd hlen hnet ht hrev hml [] (some a)
  obtain ⟨o, ho, hdest, -⟩ := hall i m hi
  refine ⟨outMsg (some a) o, by rw [List.getElem?_map, ho]; rfl, hdest, ⟨a, rfl, hct, hv⟩, ?_⟩
  intro pk hfit
  obtain ⟨-, hall⟩ := C166_same_group_partial Z E net now timer t k msg w g d hg hk hd hlen hnet ht hrev hml pk (some a)
  obtain ⟨o', ho', -, hgo⟩ := hall i m hi
  rw [ho] at ho'
  obtain rfl := Option.some.inj ho'
  obtain ⟨dm, hp, hb, htm, hts, -, -, hrec⟩ := hgo hfit
  obtain ⟨dm', hp', hfe⟩ := hf 0 pk (outMsg (some a) o) rfl hfit
  have : dm' = dm := by
    have e := hp'.symm.trans hp
    injection e with e
    injection e with e
    exact Option.some.inj e
  subst this
  exact ⟨dm', hp, hb, htm, hts, hfe, fun Zr parse broken Er src wr hw => (hrec Zr parse broken Er src wr hw).1⟩

/-- C175 fails: the file is uploaded before the group is looked at. For a group that is not known, or of which the
sender is no member, the encrypted file is given to the content server all the same; then no message is sent, and the
call fails. -/
theorem C175_uploaded_first (P : Prims) (J : Json) (pl : Plan) (acc : Account) (others : Nat → List Req) (sv : Server)
    (n : Nat) (log : List Req) (keys iv b ct : Bytes) (voice : Bool) (hs : Served P J pl acc others sv n keys iv)
    (Z : Zk) (E : Env) (net : Nat → Res Nat) (now timer : Nat) (k msg : Bytes) (w : GroupStore.World)
    (hg : (find k w).2 = none ∨ ∃ g d, (find k w).2 = some g ∧ g.decrypted = some d ∧
      ¬ ∃ m ∈ d.members, hexToUUID (hexEncode m.uuid) = E.me) :
    ∃ st w' r1 r2 r3 u, sendGroupAttachment P (crowd pl others) J (setup acc) Z E net now voice keys iv k msg (some b) ct
        timer ⟨(sv, n), log⟩ w = (st, w', [], .err .other) ∧
      st.log = log ++ [r1, r2, r3] ∧ r3.method = "PUT" ∧ Files.uploadAttachment P keys iv b = .ok u ∧ r3.body = u.blob := by
  obtain ⟨a, st', hu, -, -, ⟨r1, r2, r3, u, hl, h1, h2, h3, h4, h5⟩, -⟩ := uploaded hs log b ct voice
  have hsend : ∃ w' e, send Z E net now k msg timer w = (w', [], .err e) := by
    rcases hg with hg | ⟨g, d, hg, hd, hm⟩
    · obtain ⟨w1, hw1⟩ : ∃ w1, w1 = (find k w).1 := ⟨_, rfl⟩
      have hfind : find k w = (w1, none) := by rw [hw1, ← hg]
      exact ⟨_, _, by unfold send; rw [hfind]⟩
    · obtain ⟨w1, hw1⟩ : ∃ w1, w1 = (find k w).1 := ⟨_, rfl⟩
      have hfind : find k w = (w1, some g) := by rw [hw1, ← hg]
      have hst := checkJoin_status Z E.me g d hd
      exact ⟨_, _, by unfold send; rw [hfind]; simp only; rw [if_pos (fun h => hm (hst.mp h))]⟩
  obtain ⟨w', e, hsend⟩ := hsend
  exact ⟨st', w', r1, r2, r3, u, by simp only [sendGroupAttachment, hu, hsend, List.map_nil], hl, h3, h4, h5⟩

/-- C175, the other direction: a message to a member, a change of the sender's groups, or success only after the content
server has taken the whole encrypted file, whatever the servers answer; and every message
has a pointer with the keys and the digest of that file. -/
theorem C175_only_if_uploaded (P : Prims) (serve : Serve W) (J : Json) (T : Transports) (Z : Zk) (E : Env)
    (net : Nat → Res Nat) (now timer : Nat) (voice : Bool) (keys iv k msg ct : Bytes) (src : Option Bytes) (w0 : W)
    (log : List Req) (w w' : GroupStore.World) (st : St W) (outs : List Send.OutMsg) (r : Res Nat)
    (h : sendGroupAttachment P serve J T Z E net now voice keys iv k msg src ct timer ⟨w0, log⟩ w = (st, w', outs, r))
    (hr : outs ≠ [] ∨ w' ≠ w ∨ ∃ t, r = .ok t) :
    ∃ b u r1 r2 r3 x w2, src = some b ∧ Files.uploadAttachment P keys iv b = .ok u ∧ st.log = log ++ [r1, r2, r3] ∧
      r3.method = "PUT" ∧ r3.body = u.blob ∧ serve w2 r3 = (st.world, some x) ∧ x.isError = false ∧
      ∀ o ∈ outs, ∃ a, o.attachment = some a ∧ a.keys = u.keys ∧ a.digest = u.digest ∧ a.size = u.size := by
  obtain ⟨q, hq⟩ : ∃ q, q = (if voice then uploadVoiceNote P serve J T keys iv src ct
    else upload P serve J T keys iv src ct false) ⟨w0, log⟩ := ⟨_, rfl⟩
  rcases q with ⟨n', ra⟩
  simp only [sendGroupAttachment, ← hq] at h
  cases ra with
  | err e =>
    simp only [Prod.mk.injEq] at h
    obtain ⟨-, rfl, rfl, rfl⟩ := h
    rcases hr with hr | hr | ⟨t, hr⟩
    · exact absurd rfl hr
    · exact absurd rfl hr
    · cases hr
  | panic =>
    simp only [Prod.mk.injEq] at h
    obtain ⟨-, rfl, rfl, rfl⟩ := h
    rcases hr with hr | hr | ⟨t, hr⟩
    · exact absurd rfl hr
    · exact absurd rfl hr
    · cases hr
  | ok a =>
    simp only [Prod.mk.injEq] at h
    obtain ⟨rfl, -, rfl, -⟩ := h
    have : ∃ ct v, upload P serve J T keys iv src ct v ⟨w0, log⟩ = (n', .ok a) := by
      cases voice
      · exact ⟨ct, false, hq.symm⟩
      · exact ⟨_, true, hq.symm⟩
    obtain ⟨ct', v', hu⟩ := this
    cases src with
    | none => cases hu
    | some b =>
      obtain ⟨u, x1, x2, x3, body, f, path, loc, w1, w2, h1, h2, -, -, -, -, -, -, -, h7, h8, rfl⟩ := upload_ok hu
      refine ⟨b, u, _, _, _, x3, w2, rfl, h1, h2, rfl, rfl, h7, h8, ?_⟩
      intro o ho
      obtain ⟨o', -, rfl⟩ := List.mem_map.mp ho
      exact ⟨_, rfl, rfl, rfl, rfl⟩

/-! ## A concrete case: the servers and the other user of C108, the group of C166 with its two members -/

namespace Demo
open Verif.Props.GroupStore.Demo

theorem served : Served Prims.toy Http.Demo.json Http.Demo.plan Http.Demo.alice Http.Demo.bob ⟨3, fun _ => none⟩ 0
    (List.replicate 64 1) (List.replicate 16 2) :=
  ⟨Http.Demo.sound, by decide, by decide, by decide +kernel, Http.Demo.bob_quiet⟩

/-- The file `[9, 9]` is sent to the group with key `k`. -/
def run (k : Bytes) : St (Server × Nat) × GroupStore.World × List Send.OutMsg × Res Nat :=
  sendGroupAttachment Prims.toy (crowd Http.Demo.plan Http.Demo.bob) Http.Demo.json (setup Http.Demo.alice) toyZ env
    (fun _ => .ok 9) 1000 false (List.replicate 64 1) (List.replicate 16 2) k [104, 105] (some [9, 9])
    (ascii "text/plain") 60 ⟨(⟨3, fun _ => none⟩, 0), []⟩ GroupTalk.Demo.sender

end Demo

/-- The call succeeds with two messages and three requests (so that the hypotheses of `C175_only_if_uploaded` hold). -/
example : (Demo.run (hexid GroupStore.Demo.mk)).2.2.2 = .ok 9 ∧
    (Demo.run (hexid GroupStore.Demo.mk)).2.2.1.length = 2 ∧
    (Demo.run (hexid GroupStore.Demo.mk)).1.log.map (·.method) = ["GET", "POST", "PUT"] := by
  decide +kernel

/-- The messages fit on the wire. -/
example : ∀ o ∈ (Demo.run (hexid GroupStore.Demo.mk)).2.2.1, Content.Fits (Send.createMessage 0 [7] o) := by
  intro o h
  refine ⟨?_, ?_, ?_, ?_, ?_, ?_⟩
  · have : ∀ o ∈ (Demo.run (hexid GroupStore.Demo.mk)).2.2.1, (Send.createMessage 0 [7] o).timestamp < 2 ^ 64 := by
      decide +kernel
    exact this o h
  · have : ∀ o ∈ (Demo.run (hexid GroupStore.Demo.mk)).2.2.1, (Send.createMessage 0 [7] o).flags < u32 := by
      decide +kernel
    exact this o h
  · have : ∀ o ∈ (Demo.run (hexid GroupStore.Demo.mk)).2.2.1, (Send.createMessage 0 [7] o).expireTimer < u32 := by
      decide +kernel
    exact this o h
  · have : ∀ o ∈ (Demo.run (hexid GroupStore.Demo.mk)).2.2.1, ∀ a ∈ (Send.createMessage 0 [7] o).attachments,
        a.size < u32 ∧ a.cdnNr < u32 ∧ a.flags.all (· < u32) = true := by decide +kernel
    intro a ha
    obtain ⟨h1, h2, h3⟩ := this o h a ha
    exact ⟨h1, h2, fun f hf => by rw [hf] at h3; simpa using h3⟩
  · have : ∀ o ∈ (Demo.run (hexid GroupStore.Demo.mk)).2.2.1,
        (Send.createMessage 0 [7] o).groupV2.all (fun g => (Wire.decFields g).isSome) = true := by decide +kernel
    intro g hg
    have := this o h
    rw [hg] at this
    exact this
  · have : ∀ o ∈ (Demo.run (hexid GroupStore.Demo.mk)).2.2.1,
        (Content.marshalData (Send.createMessage 0 [7] o)).length < 2 ^ 59 := by decide +kernel
    exact this o h

/-- A server that refuses the last request: no message, although the group is known. -/
example : (sendGroupAttachment Prims.toy
    (fun w r => if r.method = "PUT" then (w, none) else crowd Http.Demo.plan Http.Demo.bob w r) Http.Demo.json
    (setup Http.Demo.alice) GroupStore.Demo.toyZ GroupStore.Demo.env (fun _ => .ok 9) 1000 false (List.replicate 64 1)
    (List.replicate 16 2) (hexid GroupStore.Demo.mk) [104, 105] (some [9, 9]) (ascii "text/plain") 60
    ⟨(⟨3, fun _ => none⟩, 0), []⟩ GroupTalk.Demo.sender).2.2.1.length = 0 := by
  decide +kernel

/-- To a group nobody knows, nothing is sent, after the same three requests. -/
example : (find (ascii "00") GroupTalk.Demo.sender).2 = none ∧ (Demo.run (ascii "00")).2.2.2 = .err .other ∧
    (Demo.run (ascii "00")).2.2.1.length = 0 ∧
    (Demo.run (ascii "00")).1.log.map (·.method) = ["GET", "POST", "PUT"] := by
  decide +kernel

end Verif.Props.GroupAttach
