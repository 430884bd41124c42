import Verif.Proof.Reader
import Verif.Props.Http
/-!
# Files that cannot be read (C149)
-/
namespace Verif.Props
open Verif Verif.Http Verif.Reader Verif.Props.Http

variable {W : Type}

/-- A reader that never fails: all of its bytes are sent, with the type found in the first 1024; what becomes of them
is said by C108 and C109. -/
theorem C149_whole_partial (P : Prims) (serve : Serve W) (J : Json) (T : Transports) (magic : Bytes → Bytes)
    (X : Send.SendExt) (fuel : Nat) (voice : Bool) (keys iv : Bytes) (uuid : String) (msg : Bytes) (r : Reader)
    (timer : Nat) (n : St W) (s : Send.State) (h : Sound r) :
    Reader.send P serve J T magic X fuel voice keys iv uuid msg r timer n s =
      sendAttachment P serve J T X fuel voice keys iv uuid msg (some (bytes r)) (magic ((bytes r).take 1024)) timer n s := by
  obtain ⟨h1, h2⟩ := mimeType_sound magic r h
  simp only [Reader.send, h1, h2]

/-- Reading the file fails: an error is returned, no request is made. -/
theorem failed_read (P : Prims) (serve : Serve W) (J : Json) (T : Transports) (X : Send.SendExt) (fuel : Nat)
    (voice : Bool) (keys iv : Bytes) (uuid : String) (msg ct : Bytes) (timer : Nat) (n : St W) (s : Send.State) :
    sendAttachment P serve J T X fuel voice keys iv uuid msg none ct timer n s = (n, s, some (.err .other)) := by
  cases voice <;> rfl

/-- A failure after 1024 bytes is reported, and nothing is requested or sent. -/
theorem C149_late_partial (P : Prims) (serve : Serve W) (J : Json) (T : Transports) (magic : Bytes → Bytes)
    (X : Send.SendExt) (fuel : Nat) (voice : Bool) (keys iv : Bytes) (uuid : String) (msg : Bytes) (pre post : Reader)
    (timer : Nat) (n : St W) (s : Send.State) (h : Sound pre) (hn : 1024 ≤ (bytes pre).length) :
    Reader.send P serve J T magic X fuel voice keys iv uuid msg (pre ++ .fail :: post) timer n s =
      (n, s, some (.err .other)) := by
  rw [Reader.send, mimeType_late magic pre post h hn]
  exact failed_read P serve J T X fuel voice keys iv uuid msg _ timer n s

/-- So is one that is met again when reading goes on. -/
theorem C149_again_partial (P : Prims) (serve : Serve W) (J : Json) (T : Transports) (magic : Bytes → Bytes)
    (X : Send.SendExt) (fuel : Nat) (voice : Bool) (keys iv : Bytes) (uuid : String) (msg : Bytes) (pre mid post : Reader)
    (timer : Nat) (n : St W) (s : Send.State) (h : Sound pre) :
    Reader.send P serve J T magic X fuel voice keys iv uuid msg (pre ++ .fail :: (mid ++ .fail :: post)) timer n s =
      (n, s, some (.err .other)) := by
  by_cases hn : 1024 ≤ (bytes pre).length
  · exact C149_late_partial P serve J T magic X fuel voice keys iv uuid msg pre _ timer n s h hn
  · rw [Reader.send, mimeType_skip magic pre _ h (by omega)]
    simp only [readAll, readAll_fail, Option.map_none]
    exact failed_read P serve J T X fuel voice keys iv uuid msg _ timer n s

/-- The code refutes the rest: after a single failure within the first 1024 bytes, what was read before it and what the
reader gives after it is sent as if it were the file. -/
theorem C149_gap (P : Prims) (serve : Serve W) (J : Json) (T : Transports) (magic : Bytes → Bytes)
    (X : Send.SendExt) (fuel : Nat) (voice : Bool) (keys iv : Bytes) (uuid : String) (msg : Bytes) (pre post : Reader)
    (timer : Nat) (n : St W) (s : Send.State) (h : Sound pre) (h' : Sound post) (hn : (bytes pre).length < 1024) :
    Reader.send P serve J T magic X fuel voice keys iv uuid msg (pre ++ .fail :: post) timer n s =
      sendAttachment P serve J T X fuel voice keys iv uuid msg (some (bytes pre ++ bytes post)) (magic (bytes pre))
        timer n s := by
  rw [Reader.send, mimeType_skip magic pre post h hn]
  simp only [readAll, readAll_sound post h', Option.map_some]

/-- A recipient gets that as the file, when the servers work. -/
theorem C149_gap_received (P : Prims) (J : Json) (pl : Plan) (S : pl.Sound J) (acc : Account)
    (others : Nat → List Req) (w : Server) (n : Nat) (log : List Req) (keys iv : Bytes) (magic : Bytes → Bytes)
    (X : Send.SendExt) (fuel : Nat) (uuid : String) (msg : Bytes) (timer : Nat) (s : Send.State) (pre post : Reader)
    (hk : keys.length = 64) (hiv : iv.length = 16) (hmem : pl.member (basic acc.uuid acc.password))
    (quiet : ∀ m, ∀ q ∈ others m, ¬ (q.method = "PUT" ∧ q.url = pl.loc (w.serves pl (others n)).issued))
    (h : Sound pre) (h' : Sound post) (hn : (bytes pre).length < 1024) :
    ∃ a st, Reader.send P (crowd pl others) J (setup acc) magic X fuel false keys iv uuid msg (pre ++ .fail :: post)
        timer ⟨(w, n), log⟩ s =
      (st, (Send.sendMessage P X fuel { destination := uuid, msg := msg, attachment := some a, expireTimer := timer } s)) ∧
      ∀ now pk m, m.attachment = some a → Content.Fits (Send.createMessage now pk m) →
        ∃ dm, Content.parseContent (Content.marshalData (Send.createMessage now pk m)) = some { data := some dm } ∧
          ∀ qs k lg, (∀ q ∈ qs, ¬ (q.method = "PUT" ∧ q.url = pl.loc (w.serves pl (others n)).issued)) →
            Files.handleAttachments P
              (fun p => (download (crowd pl others) p.location ⟨(st.world.1.serves pl qs, k), lg⟩).2)
              Receive.AttPtr.key dm.attachments = .ok [bytes pre ++ bytes post] := by
  obtain ⟨a, st, hu, -, -, -, hr⟩ := C108_sent_is_received P J pl S acc others w n log keys iv (bytes pre ++ bytes post)
    (magic (bytes pre)) false hk hiv hmem quiet
  refine ⟨a, st, ?_, hr⟩
  rw [C149_gap P (crowd pl others) J (setup acc) magic X fuel false keys iv uuid msg pre post timer _ s h h' hn]
  simp only [sendAttachment, hu]

/-! A file of which the disk gives the first two bytes and then, once, an error: those two bytes are sent as the file. -/
namespace Demo
open Verif.Props.Http.Demo

def broken : Reader := [.data [104, 105], .fail]

example (P : Prims) (X : Send.SendExt) (s : Send.State) (keys iv : Bytes) (hk : keys.length = 64) (hiv : iv.length = 16) :=
  C149_gap_received P json plan sound alice bob ⟨3, fun _ => none⟩ 0 [] keys iv id X 1 "dave" [] 0 s
    [.data [104, 105]] [] hk hiv (by decide +kernel) bob_quiet (by decide) (by decide) (by decide)

example : mimeType id broken = ([104, 105], [.data [104, 105]]) := by decide

/-- Read whole: three pieces; the type is found in the first 1024 bytes, which end within the third. -/
def pieces : Reader := [.data (List.replicate 1000 1), .data [2, 3], .data (List.replicate 30 4)]

example : Sound pieces ∧ readAll (mimeType id pieces).2 = some (bytes pieces) ∧
    (mimeType id pieces).1 = List.replicate 1000 1 ++ [2, 3] ++ List.replicate 22 4 := by decide +kernel

/-- The same with a failure at the end. -/
example : Sound pieces ∧ 1024 ≤ (bytes pieces).length ∧ readAll (mimeType id (pieces ++ [.fail])).2 = none := by
  decide +kernel

end Demo
end Verif.Props
