import Verif.Model.Record
import Verif.Proof.Wire
import Mathlib.Data.List.Induction
/-! # Field access on lists of fields, and decoding of encoded records -/
namespace Verif.Record
open Verif Verif.Wire Verif.Session

theorem getBytes_snoc (fs : List Field) (n num : Nat) (v : WVal) : getBytes (fs ++ [(n, v)]) num =
    match v with
    | .len b => if n = num then some b else getBytes fs num
    | _ => getBytes fs num := by
  unfold getBytes
  rw [List.foldl_append]
  cases v <;> rfl

theorem getBytes_append (a b : List Field) (num : Nat) :
    getBytes (a ++ b) num = (getBytes b num).or (getBytes a num) := by
  induction b using List.reverseRecOn with
  | nil => simp; rfl
  | append_singleton b f ih =>
    obtain ⟨n, v⟩ := f
    rw [← List.append_assoc, getBytes_snoc, getBytes_snoc, ih]
    cases v <;> simp only
    split <;> simp

theorem getU32_snoc (fs : List Field) (n num : Nat) (v : WVal) : getU32 (fs ++ [(n, v)]) num =
    match v with
    | .varint b => if n = num then some (b % u32) else getU32 fs num
    | _ => getU32 fs num := by
  unfold getU32
  rw [List.foldl_append]
  cases v <;> rfl

theorem getU32_append (a b : List Field) (num : Nat) :
    getU32 (a ++ b) num = (getU32 b num).or (getU32 a num) := by
  induction b using List.reverseRecOn with
  | nil => simp; rfl
  | append_singleton b f ih =>
    obtain ⟨n, v⟩ := f
    rw [← List.append_assoc, getU32_snoc, getU32_snoc, ih]
    cases v <;> simp only
    split <;> simp

theorem getAll_append (a b : List Field) (num : Nat) :
    getAll (a ++ b) num = getAll a num ++ getAll b num := by
  unfold getAll; exact List.filterMap_append

@[simp] theorem getBytes_nil (num : Nat) : getBytes [] num = none := rfl
@[simp] theorem getU32_nil (num : Nat) : getU32 [] num = none := rfl
@[simp] theorem getAll_nil (num : Nat) : getAll [] num = [] := rfl

theorem getBytes_optVar (n v num : Nat) : getBytes (optVar n v) num = none := by
  unfold optVar; split <;> rfl
theorem getU32_optLen (n : Nat) (b : Bytes) (num : Nat) : getU32 (optLen n b) num = none := by
  unfold optLen; split <;> rfl
theorem getAll_optVar (n v num : Nat) : getAll (optVar n v) num = [] := by
  unfold optVar; split <;> rfl

theorem getBytes_optLen_ne (n : Nat) (b : Bytes) (num : Nat) (h : n ≠ num) :
    getBytes (optLen n b) num = none := by
  unfold optLen; split
  · rfl
  · simp [getBytes, h]
theorem getAll_optLen_ne (n : Nat) (b : Bytes) (num : Nat) (h : n ≠ num) :
    getAll (optLen n b) num = [] := by
  unfold optLen; split
  · rfl
  · simp [getAll, h]
theorem getU32_optVar_ne (n v num : Nat) (h : n ≠ num) : getU32 (optVar n v) num = none := by
  unfold optVar; split
  · rfl
  · simp [getU32, h]

theorem getBytes_optLen (n : Nat) (b : Bytes) : (getBytes (optLen n b) n).getD [] = b := by
  unfold optLen; split
  · simp [*]
  · simp [getBytes]
theorem getU32_optVar (n v : Nat) : (getU32 (optVar n v) n).getD 0 = v % u32 := by
  unfold optVar; split
  · simp [*]
  · simp [getU32]

theorem getBytes_subs {α : Type} (n : Nat) (l : List α) (f : α → List Field) (num : Nat) (h : n ≠ num) :
    getBytes (l.map (fun a => sub n (f a))) num = none := by
  induction l with
  | nil => rfl
  | cons a l ih =>
    rw [List.map_cons, ← List.singleton_append, getBytes_append, ih]
    simp [getBytes, sub, h]
theorem getU32_subs {α : Type} (n : Nat) (l : List α) (f : α → List Field) (num : Nat) :
    getU32 (l.map (fun a => sub n (f a))) num = none := by
  induction l with
  | nil => rfl
  | cons a l ih =>
    rw [List.map_cons, ← List.singleton_append, getU32_append, ih]
    simp [getU32, sub]
theorem getAll_subs_ne {α : Type} (n : Nat) (l : List α) (f : α → List Field) (num : Nat) (h : n ≠ num) :
    getAll (l.map (fun a => sub n (f a))) num = [] := by
  induction l with
  | nil => rfl
  | cons a l ih =>
    rw [List.map_cons, ← List.singleton_append, getAll_append, ih]
    simp [getAll, sub, h]
theorem getAll_subs {α : Type} (n : Nat) (l : List α) (f : α → List Field) :
    getAll (l.map (fun a => sub n (f a))) n = l.map (fun a => encFields (f a)) := by
  induction l with
  | nil => rfl
  | cons a l ih =>
    rw [List.map_cons, ← List.singleton_append, getAll_append, ih]
    simp [getAll, sub]

theorem getBytes_sub_ne (n : Nat) (fs : List Field) (num : Nat) (h : n ≠ num) :
    getBytes [sub n fs] num = none := by simp [getBytes, sub, h]
theorem getU32_sub (n : Nat) (fs : List Field) (num : Nat) : getU32 [sub n fs] num = none := rfl
theorem getAll_sub_ne (n : Nat) (fs : List Field) (num : Nat) (h : n ≠ num) :
    getAll [sub n fs] num = [] := by simp [getAll, sub, h]
theorem getAll_sub (n : Nat) (fs : List Field) : getAll [sub n fs] n = [encFields fs] := by
  simp [getAll, sub]

theorem mapM_dec {α : Type} (l : List α) (f : α → List Field)
    (h : ∀ a ∈ l, ∀ x ∈ f a, Field.valid x) :
    (l.map (fun a => encFields (f a))).mapM decFields = some (l.map f) := by
  induction l with
  | nil => rfl
  | cons a l ih =>
    rw [List.map_cons, List.mapM_cons, decFields_enc _ (h a List.mem_cons_self),
      ih (fun b hb => h b (List.mem_cons_of_mem _ hb))]
    rfl

theorem mapM_some {α β : Type} (l : List α) (g : α → β) (f : β → Option α)
    (h : ∀ a ∈ l, f (g a) = some a) : (l.map g).mapM f = some l := by
  induction l with
  | nil => rfl
  | cons a l ih =>
    rw [List.map_cons, List.mapM_cons, h a List.mem_cons_self,
      ih (fun b hb => h b (List.mem_cons_of_mem _ hb))]
    rfl

/-! ## Well-formed records -/

/-- All numbers of the record are 32-bit values, as in the Go types. -/
structure StateOk (s : SState) : Prop where
  version : s.version < u32
  prevCounter : s.prevCounter < u32
  remoteReg : s.remoteReg < u32
  localReg : s.localReg < u32
  sender : ∀ c, s.sender = some c → c.ck.idx < u32
  recv : ∀ c ∈ s.recv, c.ck.idx < u32 ∧ ∀ m ∈ c.mks, m.idx < u32
  pending : ∀ p, s.pending = some p → p.preKeyId < u32 ∧ p.signedPreKeyId < u32

structure RecordOk (r : SRecord) : Prop where
  cur : StateOk r.cur
  prev : ∀ s ∈ r.prev, StateOk s

theorem u32_lt : u32 < 2 ^ 64 := by decide

/-! ## Validity of the fields: only lengths have to be bounded, and they are by the total length. -/

theorem encField_len_le (num : Nat) (b : Bytes) : b.length ≤ (encField (num, .len b)).length := by
  simp only [encField, List.length_append]; omega

theorem encFields_mem_le {f : Field} {fs : List Field} (h : f ∈ fs) :
    (encField f).length ≤ (encFields fs).length := by
  unfold encFields
  induction fs with
  | nil => simp at h
  | cons a l ih =>
    simp only [List.map_cons, List.flatten_cons, List.length_append]
    rcases List.mem_cons.mp h with rfl | h
    · omega
    · have := ih h; omega

/-- A list of fields is fine if the numbers are in range. -/
def NumOk : Field → Prop
  | (n, .varint v) => 1 ≤ n ∧ n ≤ 100 ∧ v < 2 ^ 64
  | (n, .len _) => 1 ≤ n ∧ n ≤ 100
  | _ => False

theorem valid_of {fs : List Field} (h : ∀ f ∈ fs, NumOk f) (hl : (encFields fs).length < 2 ^ 64) :
    ∀ f ∈ fs, Field.valid f := by
  intro f hf
  have h1 := h f hf
  have h2 := encFields_mem_le hf
  obtain ⟨n, v⟩ := f
  cases v with
  | varint v => simp only [NumOk] at h1; simp only [Field.valid]; omega
  | len b =>
    have := encField_len_le n b
    simp only [NumOk] at h1; simp only [Field.valid]; omega
  | fixed64 b => exact h1.elim
  | group => exact h1.elim
  | fixed32 b => exact h1.elim

theorem sub_len_lt {n : Nat} {fs gs : List Field} (h : sub n gs ∈ fs)
    (hl : (encFields fs).length < 2 ^ 64) : (encFields gs).length < 2 ^ 64 := by
  have h1 := encFields_mem_le h
  have h2 := encField_len_le n (encFields gs)
  unfold sub at h1
  omega

theorem numOk_optVar {n v : Nat} (h1 : 1 ≤ n) (h2 : n ≤ 100) (hv : v < 2 ^ 64) : ∀ f ∈ optVar n v, NumOk f := by
  intro f hf
  unfold optVar at hf
  split at hf
  · simp at hf
  · simp at hf; subst hf; exact ⟨h1, h2, hv⟩
theorem numOk_optLen {n : Nat} {b : Bytes} (h1 : 1 ≤ n) (h2 : n ≤ 100) : ∀ f ∈ optLen n b, NumOk f := by
  intro f hf
  unfold optLen at hf
  split at hf
  · simp at hf
  · simp at hf; subst hf; exact ⟨h1, h2⟩
theorem numOk_sub {n : Nat} {fs : List Field} (h1 : 1 ≤ n) (h2 : n ≤ 100) : NumOk (sub n fs) := ⟨h1, h2⟩
theorem numOk_subs {α : Type} {n : Nat} {l : List α} {g : α → List Field} (h1 : 1 ≤ n) (h2 : n ≤ 100) :
    ∀ f ∈ l.map (fun a => sub n (g a)), NumOk f := by
  intro f hf
  obtain ⟨a, _, rfl⟩ := List.mem_map.mp hf
  exact ⟨h1, h2⟩
theorem numOk_append {a b : List Field} (ha : ∀ f ∈ a, NumOk f) (hb : ∀ f ∈ b, NumOk f) :
    ∀ f ∈ a ++ b, NumOk f := by
  intro f hf
  rcases List.mem_append.mp hf with h | h
  · exact ha f h
  · exact hb f h
theorem numOk_one {f : Field} (h : NumOk f) : ∀ g ∈ [f], NumOk g := by
  intro g hg; simp at hg; subst hg; exact h

theorem chainKey_numOk (c : ChainKey) (h : c.idx < u32) : ∀ f ∈ chainKeyFields c, NumOk f :=
  numOk_append (numOk_optVar (by omega) (by omega) (by have := u32_lt; omega))
    (numOk_optLen (by omega) (by omega))

theorem msgKey_numOk (m : MsgKeys) (h : m.idx < u32) : ∀ f ∈ msgKeyFields m, NumOk f :=
  numOk_append (numOk_append (numOk_append
    (numOk_optVar (by omega) (by omega) (by have := u32_lt; omega))
    (numOk_optLen (by omega) (by omega))) (numOk_optLen (by omega) (by omega)))
    (numOk_optLen (by omega) (by omega))

theorem recv_numOk (c : RecvChain) : ∀ f ∈ recvFields c, NumOk f :=
  numOk_append (numOk_append (numOk_optLen (by omega) (by omega))
    (numOk_one (numOk_sub (by omega) (by omega)))) (numOk_subs (by omega) (by omega))

theorem send_numOk (c : SendChain) : ∀ f ∈ sendFields c, NumOk f :=
  numOk_append (numOk_append (numOk_optLen (by omega) (by omega))
    (numOk_optLen (by omega) (by omega))) (numOk_one (numOk_sub (by omega) (by omega)))

theorem signExtend_lt (n : Nat) (h : n < u32) : signExtend n < 2 ^ 64 := by
  unfold signExtend; unfold u32 at h; split <;> omega
theorem signExtend_mod (n : Nat) (h : n < u32) : signExtend n % u32 = n := by
  unfold signExtend; unfold u32 at *; split <;> omega

theorem pending_numOk (p : Pending) (h : p.preKeyId < u32 ∧ p.signedPreKeyId < u32) :
    ∀ f ∈ pendingFields p, NumOk f :=
  numOk_append (numOk_append (numOk_optVar (by omega) (by omega) (by have := u32_lt; omega))
    (numOk_optLen (by omega) (by omega)))
    (numOk_optVar (by omega) (by omega) (signExtend_lt _ h.2))

theorem state_numOk (s : SState) (h : StateOk s) : ∀ f ∈ stateFields s, NumOk f := by
  have hu := u32_lt
  have h1 := h.version
  have h2 := h.prevCounter
  have h3 := h.remoteReg
  have h4 := h.localReg
  unfold stateFields
  refine numOk_append (numOk_append (numOk_append (numOk_append (numOk_append (numOk_append
    (numOk_append (numOk_append (numOk_append (numOk_append ?_ ?_) ?_) ?_) ?_) ?_) ?_) ?_) ?_) ?_) ?_
  · exact numOk_optVar (by omega) (by omega) (by omega)
  · exact numOk_optLen (by omega) (by omega)
  · exact numOk_optLen (by omega) (by omega)
  · exact numOk_optLen (by omega) (by omega)
  · exact numOk_optVar (by omega) (by omega) (by omega)
  · cases s.sender with
    | none => simp
    | some c => exact numOk_one (numOk_sub (by omega) (by omega))
  · exact numOk_subs (by omega) (by omega)
  · cases s.pending with
    | none => simp
    | some c => exact numOk_one (numOk_sub (by omega) (by omega))
  · exact numOk_optVar (by omega) (by omega) (by omega)
  · exact numOk_optVar (by omega) (by omega) (by omega)
  · exact numOk_optLen (by omega) (by omega)

/-! ## Round trips -/

local macro "fields" : tactic => `(tactic| simp only [getAll_append, getAll_optVar, getAll_optLen_ne,
  getAll_sub_ne, getAll_sub, getAll_subs_ne, getAll_subs, getBytes_append, getBytes_optVar,
  getBytes_optLen_ne, getBytes_sub_ne, getBytes_subs, getBytes_optLen, getU32_append, getU32_optLen,
  getU32_optVar_ne, getU32_sub, getU32_subs, getU32_optVar, ne_eq, Nat.reduceEqDiff, not_false_eq_true,
  List.nil_append, List.append_nil, Option.or_none, Option.none_or, getAll_nil, getBytes_nil, getU32_nil])

theorem decChainKey_fields (c : ChainKey) (h : c.idx < u32) : decChainKey (chainKeyFields c) = c := by
  obtain ⟨key, idx⟩ := c
  unfold decChainKey chainKeyFields bytesOr numOr
  simp only [getBytes_append, getU32_append, getBytes_optVar, getU32_optLen, Option.or_none,
    Option.none_or, getBytes_optLen, getU32_optVar]
  rw [Nat.mod_eq_of_lt h]

theorem decMsgKey_fields (m : MsgKeys) (h : m.idx < u32) : decMsgKey (msgKeyFields m) = m := by
  obtain ⟨a, b, c, idx⟩ := m
  unfold decMsgKey msgKeyFields bytesOr numOr
  simp [getBytes_append, getU32_append, getBytes_optVar, getU32_optLen,
    getBytes_optLen_ne, getBytes_optLen, getU32_optVar]
  exact Nat.mod_eq_of_lt h

theorem subs_empty (fs : List Field) (num : Nat) (h : getAll fs num = []) : subs fs num = some [] := by
  unfold subs; rw [h]; rfl

theorem subOne_single (fs gs : List Field) (num : Nat) (h : getAll fs num = [encFields gs])
    (hv : ∀ f ∈ gs, Field.valid f) : subOne fs num = some (some gs) := by
  unfold subOne subs
  rw [h]
  have : [encFields gs].mapM decFields = some [gs] := by
    rw [List.mapM_cons, decFields_enc _ hv]; rfl
  rw [this]
  simp

theorem subOne_absent (fs : List Field) (num : Nat) (h : getAll fs num = []) :
    subOne fs num = some none := by
  unfold subOne; rw [subs_empty fs num h]

theorem decRecv_fields (c : RecvChain) (h1 : c.ck.idx < u32) (h2 : ∀ m ∈ c.mks, m.idx < u32)
    (hl : (encFields (recvFields c)).length < 2 ^ 64) : decRecv (recvFields c) = some c := by
  have g3 : getAll (recvFields c) 3 = [encFields (chainKeyFields c.ck)] := by
    unfold recvFields
    fields
  have g4 : getAll (recvFields c) 4 = c.mks.map (fun m => encFields (msgKeyFields m)) := by
    unfold recvFields
    fields
  have hsub3 : (encFields (chainKeyFields c.ck)).length < 2 ^ 64 :=
    sub_len_lt (n := 3) (by simp [recvFields]) hl
  have hsub4 : ∀ m ∈ c.mks, (encFields (msgKeyFields m)).length < 2 ^ 64 := fun m hm =>
    sub_len_lt (n := 4) (by
      unfold recvFields
      exact List.mem_append_right _ (List.mem_map.mpr ⟨m, hm, rfl⟩)) hl
  have e1 := subOne_single _ _ 3 g3 (valid_of (chainKey_numOk c.ck h1) hsub3)
  have e2 : subs (recvFields c) 4 = some (c.mks.map msgKeyFields) := by
    unfold subs
    rw [g4]
    exact mapM_dec c.mks msgKeyFields (fun m hm => valid_of (msgKey_numOk m (h2 m hm)) (hsub4 m hm))
  have e3 : bytesOr (recvFields c) 1 = c.ratchet := by
    unfold bytesOr recvFields
    fields
  have e4 : (c.mks.map msgKeyFields).map decMsgKey = c.mks := by
    rw [List.map_map]
    conv => rhs; rw [← List.map_id c.mks]
    apply List.map_congr_left
    intro m hm
    exact decMsgKey_fields m (h2 m hm)
  unfold decRecv
  simp only [e1, e2, e3, e4, Option.bind_eq_bind, Option.bind_some, decChainKey_fields c.ck h1]

theorem decSend_fields (c : SendChain) (h1 : c.ck.idx < u32)
    (hl : (encFields (sendFields c)).length < 2 ^ 64) : decSend (sendFields c) = some c := by
  have g3 : getAll (sendFields c) 3 = [encFields (chainKeyFields c.ck)] := by
    unfold sendFields
    fields
  have g4 : getAll (sendFields c) 4 = [] := by
    unfold sendFields
    fields
  have hsub3 : (encFields (chainKeyFields c.ck)).length < 2 ^ 64 :=
    sub_len_lt (n := 3) (by simp [sendFields]) hl
  have e1 := subOne_single _ _ 3 g3 (valid_of (chainKey_numOk c.ck h1) hsub3)
  have e2 := subs_empty _ 4 g4
  have e3 : bytesOr (sendFields c) 1 = c.pub := by
    unfold bytesOr sendFields
    fields
  have e4 : bytesOr (sendFields c) 2 = c.priv := by
    unfold bytesOr sendFields
    fields
  unfold decSend
  simp only [e1, e2, e3, e4, Option.bind_eq_bind, Option.bind_some, decChainKey_fields c.ck h1]

theorem decPending_fields (p : Pending) (h : p.preKeyId < u32 ∧ p.signedPreKeyId < u32) :
    decPending (pendingFields p) = p := by
  obtain ⟨a, b, c⟩ := p
  unfold decPending pendingFields bytesOr numOr
  simp only at h
  simp [getBytes_append, getU32_append, getBytes_optVar, getU32_optLen, getU32_optVar_ne,
    getBytes_optLen, getU32_optVar, signExtend_mod _ h.2, Nat.mod_eq_of_lt h.1]

/-- The fields of the sender chain, or none. -/
def sndFields : Option SendChain → List Field
  | some c => [sub 6 (sendFields c)]
  | none => []
def pndFields : Option Pending → List Field
  | some c => [sub 9 (pendingFields c)]
  | none => []

theorem stateFields_eq (s : SState) : stateFields s =
    optVar 1 s.version ++ optLen 2 s.localId ++ optLen 3 s.remoteId ++ optLen 4 s.rootKey
    ++ optVar 5 s.prevCounter ++ sndFields s.sender ++ s.recv.map (fun c => sub 7 (recvFields c))
    ++ pndFields s.pending
    ++ optVar 10 s.remoteReg ++ optVar 11 s.localReg ++ optLen 13 s.aliceBase := by
  unfold stateFields sndFields pndFields; rfl

theorem getAll_snd_ne (o : Option SendChain) (n : Nat) (h : 6 ≠ n) : getAll (sndFields o) n = [] := by
  cases o with
  | none => rfl
  | some c => exact getAll_sub_ne _ _ _ h
theorem getBytes_snd_ne (o : Option SendChain) (n : Nat) (h : 6 ≠ n) : getBytes (sndFields o) n = none := by
  cases o with
  | none => rfl
  | some c => exact getBytes_sub_ne _ _ _ h
theorem getU32_snd (o : Option SendChain) (n : Nat) : getU32 (sndFields o) n = none := by
  cases o <;> rfl
theorem getAll_pnd_ne (o : Option Pending) (n : Nat) (h : 9 ≠ n) : getAll (pndFields o) n = [] := by
  cases o with
  | none => rfl
  | some c => exact getAll_sub_ne _ _ _ h
theorem getBytes_pnd_ne (o : Option Pending) (n : Nat) (h : 9 ≠ n) : getBytes (pndFields o) n = none := by
  cases o with
  | none => rfl
  | some c => exact getBytes_sub_ne _ _ _ h
theorem getU32_pnd (o : Option Pending) (n : Nat) : getU32 (pndFields o) n = none := by
  cases o <;> rfl

theorem decState_fields (s : SState) (h : StateOk s)
    (hl : (encFields (stateFields s)).length < 2 ^ 64) : decState (stateFields s) = some s := by
  have h6 : ∀ c, s.sender = some c → sub 6 (sendFields c) ∈ stateFields s := by
    intro c hc; rw [stateFields_eq, hc]; simp [sndFields]
  have h7 : ∀ c ∈ s.recv, sub 7 (recvFields c) ∈ stateFields s := by
    intro c hc
    have : sub 7 (recvFields c) ∈ s.recv.map (fun c => sub 7 (recvFields c)) :=
      List.mem_map.mpr ⟨c, hc, rfl⟩
    rw [stateFields_eq]; simp only [List.mem_append]; exact .inl (.inl (.inl (.inl (.inr this))))
  have h9 : ∀ c, s.pending = some c → sub 9 (pendingFields c) ∈ stateFields s := by
    intro c hc; rw [stateFields_eq, hc]; simp [pndFields]
  have e6 : (subOne (stateFields s) 6).bind (fun o => optional o decSend) = some s.sender := by
    have g : getAll (stateFields s) 6 = getAll (sndFields s.sender) 6 := by
      rw [stateFields_eq]
      simp only [getAll_append, getAll_pnd_ne _ 6 (by decide)]
      fields
    cases hs : s.sender with
    | none => rw [subOne_absent _ _ (g.trans (by rw [hs]; rfl))]; rfl
    | some c =>
      have hl' := sub_len_lt (h6 c hs) hl
      rw [subOne_single _ _ _ (g.trans (by rw [hs]; exact getAll_sub _ _))
        (valid_of (send_numOk c) hl')]
      simp only [Option.bind_some, optional, decSend_fields c (h.sender c hs) hl', Option.map_some]
  have e9 : (subOne (stateFields s) 9).bind (fun o => optional o (fun fs => some (decPending fs)))
      = some s.pending := by
    have g : getAll (stateFields s) 9 = getAll (pndFields s.pending) 9 := by
      rw [stateFields_eq]
      simp only [getAll_append, getAll_snd_ne _ 9 (by decide)]
      fields
    cases hs : s.pending with
    | none => rw [subOne_absent _ _ (g.trans (by rw [hs]; rfl))]; rfl
    | some c =>
      have hl' := sub_len_lt (h9 c hs) hl
      rw [subOne_single _ _ _ (g.trans (by rw [hs]; exact getAll_sub _ _))
        (valid_of (pending_numOk c (h.pending c hs)) hl')]
      simp only [Option.bind_some, optional, decPending_fields c (h.pending c hs), Option.map_some]
  have e7 : subs (stateFields s) 7 = some (s.recv.map recvFields) := by
    have g : getAll (stateFields s) 7 = s.recv.map (fun c => encFields (recvFields c)) := by
      rw [stateFields_eq]
      simp only [getAll_append, getAll_snd_ne _ 7 (by decide), getAll_pnd_ne _ 7 (by decide)]
      fields
    unfold subs
    rw [g]
    exact mapM_dec s.recv recvFields (fun c hc => valid_of (recv_numOk c) (sub_len_lt (h7 c hc) hl))
  have e7' : (s.recv.map recvFields).mapM decRecv = some s.recv :=
    mapM_some _ _ _ (fun c hc =>
      decRecv_fields c (h.recv c hc).1 (h.recv c hc).2 (sub_len_lt (h7 c hc) hl))
  have b (n : Nat) (x : Bytes) (hx : (getBytes (stateFields s) n).getD [] = x) :
      bytesOr (stateFields s) n = x := hx
  unfold decState
  rw [← Option.bind_eq_bind] at e6 e9
  have n1 : numOr (stateFields s) 1 = s.version := by
    unfold numOr; rw [stateFields_eq]
    simp only [getU32_append, getU32_snd, getU32_pnd]; fields; exact Nat.mod_eq_of_lt h.version
  have n5 : numOr (stateFields s) 5 = s.prevCounter := by
    unfold numOr; rw [stateFields_eq]
    simp only [getU32_append, getU32_snd, getU32_pnd]; fields; exact Nat.mod_eq_of_lt h.prevCounter
  have n10 : numOr (stateFields s) 10 = s.remoteReg := by
    unfold numOr; rw [stateFields_eq]
    simp only [getU32_append, getU32_snd, getU32_pnd]; fields; exact Nat.mod_eq_of_lt h.remoteReg
  have n11 : numOr (stateFields s) 11 = s.localReg := by
    unfold numOr; rw [stateFields_eq]
    simp only [getU32_append, getU32_snd, getU32_pnd]; fields; exact Nat.mod_eq_of_lt h.localReg
  have b2 : bytesOr (stateFields s) 2 = s.localId := by
    unfold bytesOr; rw [stateFields_eq]
    simp only [getBytes_append, getBytes_snd_ne _ 2 (by decide), getBytes_pnd_ne _ 2 (by decide)]; fields
  have b3 : bytesOr (stateFields s) 3 = s.remoteId := by
    unfold bytesOr; rw [stateFields_eq]
    simp only [getBytes_append, getBytes_snd_ne _ 3 (by decide), getBytes_pnd_ne _ 3 (by decide)]; fields
  have b4 : bytesOr (stateFields s) 4 = s.rootKey := by
    unfold bytesOr; rw [stateFields_eq]
    simp only [getBytes_append, getBytes_snd_ne _ 4 (by decide), getBytes_pnd_ne _ 4 (by decide)]; fields
  have b13 : bytesOr (stateFields s) 13 = s.aliceBase := by
    unfold bytesOr; rw [stateFields_eq]
    simp only [getBytes_append, getBytes_snd_ne _ 13 (by decide), getBytes_pnd_ne _ 13 (by decide)]; fields
  obtain ⟨o6, ho6, ho6'⟩ := Option.bind_eq_some_iff.mp e6
  obtain ⟨o9, ho9, ho9'⟩ := Option.bind_eq_some_iff.mp e9
  simp only [ho6, ho6', e7, e7', ho9, ho9', Option.bind_eq_bind, Option.bind_some, n1, n5, n10, n11,
    b2, b3, b4, b13]

theorem load_serialize (r : SRecord) (h : RecordOk r) (hl : (serialize r).length < 2 ^ 64) :
    loadRecord (serialize r) = .ok { r with fresh := false } := by
  have hv : ∀ f ∈ recordFields r, NumOk f := by
    intro f hf
    rcases List.mem_cons.mp hf with rfl | hf
    · exact numOk_sub (by omega) (by omega)
    · exact numOk_subs (by omega) (by omega) f hf
  have d : decFields (serialize r) = some (recordFields r) := decFields_enc _ (valid_of hv hl)
  have m1 : sub 1 (stateFields r.cur) ∈ recordFields r := List.mem_cons_self
  have m2 : ∀ s ∈ r.prev, sub 2 (stateFields s) ∈ recordFields r := fun s hs =>
    List.mem_cons_of_mem _ (List.mem_map.mpr ⟨s, hs, rfl⟩)
  have eq : recordFields r = [sub 1 (stateFields r.cur)] ++ r.prev.map (fun s => sub 2 (stateFields s)) := rfl
  have e1 : subOne (recordFields r) 1 = some (some (stateFields r.cur)) :=
    subOne_single _ _ _ (by rw [eq]; fields)
      (valid_of (state_numOk _ h.cur) (sub_len_lt m1 hl))
  have e2 : subs (recordFields r) 2 = some (r.prev.map stateFields) := by
    unfold subs
    have : getAll (recordFields r) 2 = r.prev.map (fun s => encFields (stateFields s)) := by
      rw [eq]; fields
    rw [this]
    exact mapM_dec _ _ (fun s hs => valid_of (state_numOk s (h.prev s hs)) (sub_len_lt (m2 s hs) hl))
  have e3 : (r.prev.map stateFields).mapM decState = some r.prev :=
    mapM_some _ _ _ (fun s hs => decState_fields s (h.prev s hs) (sub_len_lt (m2 s hs) hl))
  unfold loadRecord
  simp only [d, e1, e2, e3, Option.bind_eq_bind, Option.bind_some, Option.getD_some,
    decState_fields _ h.cur (sub_len_lt m1 hl)]

end Verif.Record
