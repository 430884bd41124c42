import Verif.Proof.Growth
import Verif.Props.Theft
import Verif.Props.Store
/-!
# C158: what is kept for skipped messages

The key of a message that has not arrived when a later one is read is kept, so that it can still be read
(axolotl/session.go:742-763). Full claim: the number of keys kept for an address has a bound that does not depend on
what was received.
-/
namespace Verif.Props
open Verif Verif.Keys Verif.Messages Verif.Session Verif.Api Verif.Names Verif.Conv Verif.Growth

/-- C158, in part: whatever calls are made, the stored sessions of an address gain at most 2000 keys for each message of
that address that is accepted, in each of at most 41 states. So without an accepted message nothing more is kept, and
nobody else can make the record grow. Missing: a bound that does not grow with the messages accepted
(`C158_unbounded`). -/
theorem C158_kept_keys_partial (P : Prims) (st : Store) (es : List Event) (rec : String) (dev : Nat) (B : Nat)
    (h0 : ∀ n r, st.sessions n = .good r → r.prev.length ≤ 40 ∧ ∀ s ∈ r.cur :: r.prev, s.recv.length ≤ 5)
    (hB : ∀ r, st.sessions (sessName rec dev) = .good r → ∀ s ∈ r.cur :: r.prev, keysIn s ≤ B)
    (r : SRecord) (hr : (run P st es).sessions (sessName rec dev) = .good r) :
    (∀ s ∈ r.cur :: r.prev, keysIn s ≤ B + 2000 * accepted P rec dev st es) ∧
    kept r ≤ 41 * (B + 2000 * accepted P rec dev st es) := by
  have hall : ∀ s ∈ r.cur :: r.prev, keysIn s ≤ B + 2000 * accepted P rec dev st es := by
    have := run_atMost P rec dev es st B
      (fun r hr => ⟨hB r hr _ List.mem_cons_self, fun s hs => hB r hr s (List.mem_cons_of_mem _ hs)⟩) r hr
    intro s hs
    rcases List.mem_cons.mp hs with rfl | hs
    · exact this.1
    · exact this.2 s hs
  refine ⟨hall, ?_⟩
  have hlen := (C07_bounded_state P st es h0 _ r hr).1
  have : ∀ (l : List SState) (M : Nat), (∀ s ∈ l, keysIn s ≤ M) → (l.map keysIn).sum ≤ l.length * M := by
    intro l M
    induction l with
    | nil => intro _; simp
    | cons a l ih =>
      intro h
      have h1 := h a List.mem_cons_self
      have h2 := ih (fun s hs => h s (List.mem_cons_of_mem _ hs))
      simp only [List.map_cons, List.sum_cons, List.length_cons, Nat.succ_mul]
      omega
  refine Nat.le_trans (this _ _ hall) (Nat.mul_le_mul_right _ ?_)
  simp only [List.length_cons]
  omega

/-- Bob accepts Alice's third message before any other: one message accepted and two keys kept. -/
example : (∀ n r, Demo.bob0.sessions n = .good r → r.prev.length ≤ 40 ∧ ∀ s ∈ r.cur :: r.prev, s.recv.length ≤ 5) ∧
    (∀ r, Demo.bob0.sessions (sessName "alice" 1) = .good r → ∀ s ∈ r.cur :: r.prev, keysIn s ≤ 0) ∧
    accepted Demo.P "alice" 1 Demo.bob0
      [{ peer := "alice", dev := 1, call := .decryptP (Demo.rnd 83) (Demo.parseP Demo.a3.2) }] = 1 ∧
    (match (run Demo.P Demo.bob0
        [{ peer := "alice", dev := 1, call := .decryptP (Demo.rnd 83) (Demo.parseP Demo.a3.2) }]).sessions
          (sessName "alice" 1) with
      | .good r => kept r
      | _ => 0) = 2 :=
  ⟨by intro n r h; simp [Demo.bob0, Demo.client] at h, by intro r h; simp [Demo.bob0, Demo.client] at h,
    by decide +kernel, by decide +kernel⟩

/-- C158: how many keys are kept after a schedule of sends and deliveries of two clients: of each epoch whose chain is
still there, the messages that are older than the newest one read and have not been read. In particular every key is
given up when its message is read. -/
theorem C158_kept_exactly (P : Prims) (S : Setup) (evs : List Ev) (h : Scheduled P S evs) :
    (∃ r, (worldRun P S (World.init P S) evs).I.sessions (sessName S.nameR S.devR) = .good r ∧
      kept r = ((ret (absRun evs).lvI).map (missing (absRun evs).acc)).sum) ∧
    ((absRun evs).lvR ≠ 0 → ∃ r, (worldRun P S (World.init P S) evs).R.sessions (sessName S.nameI S.devI) = .good r ∧
      kept r = ((ret (absRun evs).lvR).map (missing (absRun evs).acc)).sum) := by
  obtain ⟨G, hr⟩ := h.rel
  have hacc := rel_acc hr (by have := h.short; unfold u32; omega)
  refine ⟨?_, fun hl => ?_⟩
  · obtain ⟨r, hs, hat⟩ := hr.sessI
    exact ⟨r, hs, sessAt_kept hr.chain hacc hat⟩
  · obtain ⟨r, hs, hat⟩ := hr.sessR hl
    exact ⟨r, hs, sessAt_kept hr.chain hacc hat⟩

/-- C158 fails: there is no bound. Who sends `n + 1` messages (`n` at most 2000) and lets only the last arrive makes the
other side keep `n` keys, and again with the next `n + 1` in the same chain: after `k` rounds, `k` messages having
arrived, `n * k` keys are kept (axolotl/session.go:742-763 limits the step from one message to the next, and not what is
kept). -/
theorem C158_unbounded (P : Prims) (S : Setup) (hS : S.Ok P) (rnd : Nat → Nat → Bytes) (n k : Nat) (hn : n ≤ 2000)
    (hk : 0 < k) (hr : ∀ i, (rnd i 0).length = 32) (hkeys : (ratchetKeys P S (flood rnd n k)).Nodup)
    (hlen : (n + 2) * k < 2 ^ 32 - 1) :
    ∃ r, (worldRun P S (World.init P S) (flood rnd n k)).R.sessions (sessName S.nameI S.devI) = .good r ∧
      kept r = n * k := by
  have hsch : Scheduled P S (flood rnd n k) :=
    ⟨hS, flood_legal rnd hr n k, hkeys, by rw [flood_length]; exact hlen, flood_noForgery rnd _ n hn k⟩
  have hf := flooded rnd n hn k
  have hlv : (absRun (flood rnd n k)).lvR = 2 := by
    have := hf.lvR
    rw [if_neg (by omega)] at this
    exact this
  obtain ⟨r, hs, hkr⟩ := (C158_kept_exactly P S _ hsch).2 (by rw [hlv]; decide)
  refine ⟨r, hs, ?_⟩
  rw [hkr, hlv]
  have : missing (absRun (flood rnd n k)).acc 1 = n * k := hf.missing
  simp [ret, last5, this]

/-- The hypotheses are met by three rounds of six messages, after which fifteen keys are kept, and by two rounds of the
largest size. -/
example : Demo.setup.Ok Demo.P ∧ (∀ i, (Demo.rnd (100 + 20 * UInt8.ofNat i) 0).length = 32) ∧
    (ratchetKeys Demo.P Demo.setup (flood (fun i => Demo.rnd (100 + 20 * UInt8.ofNat i)) 5 3)).Nodup ∧
    (ratchetKeys Demo.P Demo.setup (flood (fun i => Demo.rnd (100 + 20 * UInt8.ofNat i)) 2000 2)).Nodup ∧
    (match (worldRun Demo.P Demo.setup (World.init Demo.P Demo.setup)
        (flood (fun i => Demo.rnd (100 + 20 * UInt8.ofNat i)) 5 3)).R.sessions
          (sessName Demo.setup.nameI Demo.setup.devI) with
      | .good r => kept r
      | _ => 0) = 15 :=
  ⟨Demo.setup_ok, fun i => by simp [Demo.rnd], by decide +kernel, by decide +kernel, by decide +kernel⟩

end Verif.Props
