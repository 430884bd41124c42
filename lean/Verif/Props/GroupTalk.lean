import Verif.Model.GroupTalk
import Verif.Props.GroupStore
import Verif.Props.Clients
/-!
# C166: a message to a group is shown to the others in that group
-/
namespace Verif.Props.GroupTalk
open Verif Verif.Wire Verif.Record Verif.Encoding Verif.GroupStore Verif.GroupTalk Verif.Props.GroupStore

theorem readCtx_ctxBytes (broken : Bytes → Bytes × Bytes) (mk : Bytes) (rev : Nat) (hm : mk.length < 2 ^ 64) (hr : rev < u32) :
    readCtx broken (ctxBytes mk rev) = some { masterKey := mk, revision := rev } := by
  have hr' : rev < 2 ^ 32 := hr
  have hv : ∀ f ∈ [((1, .len mk) : Field), (2, .varint rev)], Field.valid f := by
    intro f hf
    simp only [List.mem_cons, List.not_mem_nil, or_false] at hf
    rcases hf with rfl | rfl
    · simp only [Field.valid]; omega
    · simp only [Field.valid]; omega
  unfold readCtx ctxBytes
  rw [decFields_enc _ hv]
  simp [bytesOr, numOr, getBytes, getU32, Nat.mod_eq_of_lt hr]

/-- The message as the wire carries it. -/
def wire (pk : Bytes) (att : Option Send.OutAtt) (o : Out) : Send.WireData := Send.createMessage 0 pk (outMsg att o)

/-- Part of **C166**: when a message to a group has been sent, then for each member of the group as the sender knows it
one message was sent to that member, and whatever the state of the member's client, the content that arrives has the text,
timer and time that were given, and is shown in the group the sender wrote to, or the client crashes; it does not if it
has the group on disk with a title and its members. The way between, sessions and envelopes, is C106. Missing: that
the client never crashes (C94), and that the sender gets no copy (C97). -/
theorem C166_same_group_partial (Z : Zk) (E : Env) (net : Nat → Res Nat) (now timer t : Nat) (k msg : Bytes) (w : World)
    (g : G) (d : DGroup) (hg : (find k w).2 = some g) (hk : k = hexid g.masterKey) (hd : g.decrypted = some d)
    (hlen : ∀ m ∈ d.members, m.uuid.length = 16) (hnet : ∀ i, net i ≠ .panic)
    (h : (send Z E net now k msg timer w).2.2 = .ok t) (hrev : d.revision < u32) (hml : g.masterKey.length < 2 ^ 64)
    (pk : Bytes) (att : Option Send.OutAtt) :
    (send Z E net now k msg timer w).2.1.length = d.members.length ∧
    ∀ (i : Nat) (m : DMember), d.members[i]? = some m → ∃ o, (send Z E net now k msg timer w).2.1[i]? = some o ∧
      (outMsg att o).destination = Content.text (hexToUUID (hexEncode m.uuid)) ∧
      (Content.Fits (wire pk att o) →
        ∃ dm, Content.parseContent (Content.marshalData (wire pk att o)) = some { data := some dm } ∧
          dm.body = msg ∧ dm.expireTimer = timer ∧ dm.timestamp = some now ∧ dm.flags = 0 ∧
          dm.attachments.length = (if att.isSome then 1 else 0) ∧
          ∀ (Zr : Zk) (parse : Bytes → Actions) (broken : Bytes → Bytes × Bytes) (Er : Env) (src : Bytes) (wr : World),
            Named wr →
            ((receive Zr parse broken Er src dm wr).2 = .panic ∨
              ∃ g', (receive Zr parse broken Er src dm wr).2 = .ok (some g') ∧ hexid g'.masterKey = k) ∧
            (∀ f, wr.files k = some f → f.context.title ≠ [] → f.decrypted ≠ none →
              ∃ g', (receive Zr parse broken Er src dm wr).2 = .ok (some g') ∧ hexid g'.masterKey = k)) := by
  obtain ⟨⟨j, h1⟩, -, h3, -⟩ := C97_send_partial Z E net now timer k msg w g d hg hd hlen hnet
  have hl : (send Z E net now k msg timer w).2.1.length = d.members.length := by
    have := congrArg List.length (h3 ⟨t, h⟩)
    simpa using this
  refine ⟨hl, ?_⟩
  intro i m hi
  have hj : d.members.take j = d.members := by
    rw [h1, List.length_map] at hl
    have := List.length_take (i := j) (l := d.members)
    exact List.take_of_length_le (by omega)
  rw [hj] at h1
  refine ⟨⟨hexToUUID (hexEncode m.uuid), msg, timer, now, g.masterKey, d.revision⟩, by rw [h1, List.getElem?_map, hi]; rfl, rfl, ?_⟩
  intro hfit
  refine ⟨_, Props.C107_data _ hfit, ?_, rfl, rfl, rfl, ?_, ?_⟩
  · show ((if msg = [] then none else some msg : Option Bytes)).getD [] = msg
    split
    · next e => rw [e]; rfl
    · rfl
  · cases att <;> rfl
  · intro Zr parse broken Er src wr hw
    have hrc := readCtx_ctxBytes broken g.masterKey d.revision hml hrev
    have hrec : (receive Zr parse broken Er src (Content.seen (wire pk att
          ⟨hexToUUID (hexEncode m.uuid), msg, timer, now, g.masterKey, d.revision⟩)) wr).2 =
        (match (handle Zr parse Er src { masterKey := g.masterKey, revision := d.revision } wr).2 with
          | .ok g => .ok (some g) | .err e => .err e | .panic => .panic) := by
      simp only [receive, Content.seen, wire, Send.createMessage, outMsg, hrc]
      generalize handle Zr parse Er src { masterKey := g.masterKey, revision := d.revision } wr = r
      obtain ⟨w1, r⟩ := r
      cases r <;> rfl
    rw [hrec]
    have hkey := fun g' => C101_group_of_key_partial Zr parse Er src { masterKey := g.masterKey, revision := d.revision } wr g' hw
    have hcr := C94_crash_iff_partial Zr parse Er src { masterKey := g.masterKey, revision := d.revision } wr hw
    have hne : ∀ e, (handle Zr parse Er src { masterKey := g.masterKey, revision := d.revision } wr).2 ≠ .err e := by
      intro e he
      obtain ⟨g0, hg0, -, -⟩ := handleStart_mem Zr Er { masterKey := g.masterKey, revision := d.revision } wr (hw g.masterKey)
      rw [handle_eq Zr parse Er src _ wr g0 hg0] at he
      simp only [rest] at he
      split at he
      · cases he
      · split at he <;> cases he
    cases hr : (handle Zr parse Er src { masterKey := g.masterKey, revision := d.revision } wr).2 with
    | ok g' =>
      have := hkey g' hr
      exact ⟨Or.inr ⟨g', rfl, by rw [this, hk]⟩, fun _ _ _ _ => ⟨g', rfl, by rw [this, hk]⟩⟩
    | err e => exact absurd hr (hne e)
    | panic =>
      refine ⟨Or.inl rfl, ?_⟩
      intro f hf ht hdn
      obtain ⟨-, hc⟩ := hcr.mp hr
      rw [hk] at hf
      rcases hc with ⟨hc, -⟩ | ⟨f', hf', hc⟩
      · rw [hf] at hc; cases hc
      · rw [hf] at hf'
        rw [← Option.some.inj hf'] at hc
        rcases hc with ⟨-, hc⟩ | ⟨hc, -⟩ | ⟨hc, -⟩
        · exact absurd hc hdn
        · exact absurd hc ht
        · exact absurd hc ht

namespace Demo
open Verif.Props.GroupStore.Demo

/-- The sender's client after it fetched the group, and a message of two bytes to its two members. -/
def sender : World := (update toyZ env 0 mk {}).1
def outs : List Out := (send toyZ env (fun _ => .ok 9) 1000 (hexid mk) [104, 105] 60 sender).2.1
/-- The client of the other member, which has the group at an older revision. -/
def other : World := (update toyZ { me := hexToUUID (hexEncode id2), query := fun _ => .ok (server 4) } 0 mk {}).1
def theirs (dm : Receive.DataMsg) : Res (Option G) :=
  (receive toyZ parse (fun _ => ([], [])) { me := hexToUUID (hexEncode id2), query := fun _ => .ok (server 5) } [] dm other).2

theorem out_fits (o : Out) (h : o ∈ outs) : Content.Fits (wire [7] none o) where
  timestamp := by
    have : ∀ o ∈ outs, o.timestamp < 2 ^ 64 := by decide +kernel
    exact this o h
  flags := by show 0 < u32; decide
  expireTimer := by
    have : ∀ o ∈ outs, o.timer < u32 := by decide +kernel
    exact this o h
  atts := by intro a ha; cases ha
  group := by
    intro g hg
    have : ∀ o ∈ outs, (decFields (ctxBytes o.masterKey o.revision)).isSome = true := by decide +kernel
    rw [← Option.some.inj hg]
    exact this o h
  size := by
    have : ∀ o ∈ outs, (Content.marshalData (wire [7] none o)).length < 2 ^ 59 := by decide +kernel
    exact this o h

end Demo
open Verif.Props.GroupTalk.Demo Verif.Props.GroupStore.Demo

/-- Two messages are sent; the content of each is shown in the group, and the older copy is brought up to the
revision of the sender's. -/
example : (send toyZ env (fun _ => .ok 9) 1000 (hexid mk) [104, 105] 60 sender).2.2 = .ok 9 ∧ outs.length = 2 ∧
    (∀ o ∈ outs, Content.Fits (wire [7] none o)) ∧
    (∀ o ∈ outs, ((Content.parseContent (Content.marshalData (wire [7] none o))).bind (·.data)).map
      (fun dm => (dm.body, (match theirs dm with | .ok (some g) => some (hexid g.masterKey, g.decrypted.map (·.revision)) | _ => none))) =
        some ([104, 105], some (hexid mk, some 5))) ∧
    (other.files (hexid mk)).map (fun f => f.decrypted.map (·.revision)) = some (some 4) := by
  refine ⟨by decide +kernel, by decide +kernel, fun o h => out_fits o h, by decide +kernel, by decide +kernel⟩

end Verif.Props.GroupTalk
