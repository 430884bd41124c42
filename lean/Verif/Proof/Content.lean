import Verif.Model.Content
import Verif.Proof.Record
import Verif.Proof.Messages
import Verif.Spec.Clients
/-! # Reading back what was written -/
namespace Verif.Content
open Verif Verif.Wire Verif.Record Verif.Keys

theorem getU64_snoc (fs : List Field) (n num : Nat) (v : WVal) : getU64 (fs ++ [(n, v)]) num =
    match v with
    | .varint b => if n = num then some b else getU64 fs num
    | _ => getU64 fs num := by
  unfold getU64
  rw [List.foldl_append]
  cases v <;> rfl

theorem getU64_append (a b : List Field) (num : Nat) :
    getU64 (a ++ b) num = (getU64 b num).or (getU64 a num) := by
  induction b using List.reverseRecOn with
  | nil => simp; rfl
  | append_singleton b f ih =>
    obtain ⟨n, v⟩ := f
    rw [← List.append_assoc, getU64_snoc, getU64_snoc, ih]
    cases v <;> simp only
    split <;> simp

@[simp] theorem getU64_nil (num : Nat) : getU64 [] num = none := rfl

theorem getU64_subs {α : Type} (n : Nat) (l : List α) (f : α → List Field) (num : Nat) :
    getU64 (l.map (fun a => sub n (f a))) num = none := by
  induction l with
  | nil => rfl
  | cons a l ih =>
    rw [List.map_cons, ← List.singleton_append, getU64_append, ih]
    simp [getU64, sub]

theorem getU64_optLen (n : Nat) (b : Bytes) (num : Nat) : getU64 (optLen n b) num = none := by
  unfold optLen; split <;> rfl

theorem getBytes_optBytes (n : Nat) (o : Option Bytes) : getBytes (optBytes n o) n = o := by
  cases o <;> simp [optBytes, getBytes]
theorem getBytes_optBytes_ne (n : Nat) (o : Option Bytes) (num : Nat) (h : n ≠ num) :
    getBytes (optBytes n o) num = none := by
  cases o <;> simp [optBytes, getBytes, h]
theorem getU32_optBytes (n : Nat) (o : Option Bytes) (num : Nat) : getU32 (optBytes n o) num = none := by
  cases o <;> rfl
theorem getU64_optBytes (n : Nat) (o : Option Bytes) (num : Nat) : getU64 (optBytes n o) num = none := by
  cases o <;> rfl
theorem getAll_optBytes (n : Nat) (o : Option Bytes) : getAll (optBytes n o) n = o.toList := by
  cases o <;> simp [optBytes, getAll]
theorem getAll_optBytes_ne (n : Nat) (o : Option Bytes) (num : Nat) (h : n ≠ num) :
    getAll (optBytes n o) num = [] := by
  cases o <;> simp [optBytes, getAll, h]

theorem numOk_optBytes {n : Nat} {o : Option Bytes} (h1 : 1 ≤ n) (h2 : n ≤ 100) : ∀ f ∈ optBytes n o, NumOk f := by
  intro f hf
  cases o with
  | none => simp [optBytes] at hf
  | some b => simp [optBytes] at hf; subst hf; exact ⟨h1, h2⟩

theorem rawOne_absent (fs : List Field) (num : Nat) (h : getAll fs num = []) : rawOne fs num = some none := by
  unfold rawOne; rw [h]
theorem rawMany_absent (fs : List Field) (num : Nat) (h : getAll fs num = []) : rawMany fs num = some none := by
  unfold rawMany; rw [h]
theorem checked_absent (fs : List Field) (nums : List Nat) (h : ∀ n ∈ nums, getAll fs n = []) :
    checked fs nums = some () := by
  unfold checked
  rw [if_pos]
  rw [List.all_eq_true]
  intro n hn
  rw [rawOne_absent fs n (h n hn)]
  rfl

theorem attPtr_fields (a : Send.WireAtt) (h : a.cdnNr < u32) :
    attPtr (attFields a) = ⟨a.keys, location 0 a.cdnKey a.cdnNr⟩ := by
  unfold attPtr attFields bytesOr numOr
  cases a.flags <;> simp [getBytes, getU32, identifier, Nat.mod_eq_of_lt h]

theorem att_numOk (a : Send.WireAtt) (h : a.size < u32 ∧ a.cdnNr < u32 ∧ ∀ f, a.flags = some f → f < u32) :
    ∀ f ∈ attFields a, NumOk f := by
  have := u32_lt
  intro f hf
  unfold attFields at hf
  cases ha : a.flags with
  | none =>
    rw [ha] at hf
    simp at hf
    rcases hf with rfl | rfl | rfl | rfl | rfl | rfl | rfl <;> simp [NumOk] <;> omega
  | some x =>
    have := h.2.2 x ha
    rw [ha] at hf
    simp at hf
    rcases hf with rfl | rfl | rfl | rfl | rfl | rfl | rfl | rfl <;> simp [NumOk] <;> omega

theorem data_numOk (d : Send.WireData) (h : Fits d) : ∀ f ∈ dataFields d, NumOk f := by
  have := u32_lt
  have h1 := h.flags
  have h2 := h.expireTimer
  have h3 := h.timestamp
  unfold dataFields
  refine numOk_append (numOk_append (numOk_append (numOk_append (numOk_append
    (numOk_optBytes (by omega) (by omega)) (numOk_subs (by omega) (by omega))) ?_)
    (numOk_optLen (by omega) (by omega))) ?_) (numOk_optBytes (by omega) (by omega))
  · intro f hf
    simp at hf
    rcases hf with rfl | rfl <;> simp [NumOk] <;> omega
  · intro f hf
    simp at hf
    subst hf
    simp [NumOk]; omega

theorem dataMsg_fields (d : Send.WireData) (h : Fits d) (hl : (encFields (dataFields d)).length < 2 ^ 64) :
    dataMsg (dataFields d) = some (seen d) := by
  have g : ∀ n, n ≠ 1 → n ≠ 2 → n ≠ 6 → n ≠ 15 → getAll (dataFields d) n = [] := by
    intro n h1 h2 h6 h15
    unfold dataFields
    simp only [getAll_append, getAll_optBytes_ne _ _ _ h1.symm, getAll_subs_ne _ _ _ _ h2.symm,
      getAll_optLen_ne _ _ _ h6.symm, getAll_optBytes_ne _ _ _ h15.symm]
    simp [getAll]
  have g2 : getAll (dataFields d) 2 = d.attachments.map (fun a => encFields (attFields a)) := by
    unfold dataFields
    simp only [getAll_append, getAll_optBytes_ne 1 _ 2 (by omega), getAll_subs,
      getAll_optLen_ne 6 _ 2 (by omega), getAll_optBytes_ne 15 _ 2 (by omega)]
    simp [getAll]
  have g15 : getAll (dataFields d) 15 = d.groupV2.toList := by
    unfold dataFields
    simp only [getAll_append, getAll_optBytes_ne 1 _ 15 (by omega), getAll_subs_ne 2 _ _ 15 (by omega),
      getAll_optLen_ne 6 _ 15 (by omega), getAll_optBytes]
    simp [getAll]
  have e2 : subs (dataFields d) 2 = some (d.attachments.map attFields) := by
    unfold subs
    rw [g2]
    refine mapM_dec d.attachments attFields (fun a ha => valid_of (att_numOk a (h.atts a ha)) ?_)
    refine sub_len_lt (n := 2) (fs := dataFields d) ?_ hl
    unfold dataFields
    simp only [List.mem_append]
    exact Or.inl (Or.inl (Or.inl (Or.inl (Or.inr (List.mem_map.mpr ⟨a, ha, rfl⟩)))))
  have e15 : rawOne (dataFields d) 15 = some d.groupV2 := by
    unfold rawOne
    rw [g15]
    cases hg : d.groupV2 with
    | none => rfl
    | some b => simp [h.group b hg]
  have b1 : bytesOr (dataFields d) 1 = d.body.getD [] := by
    unfold bytesOr dataFields
    simp only [getBytes_append, getBytes_optBytes, getBytes_subs 2 _ _ 1 (by omega),
      getBytes_optLen_ne 6 _ 1 (by omega), getBytes_optBytes_ne 15 _ 1 (by omega)]
    simp [getBytes]
  have b6 : bytesOr (dataFields d) 6 = d.profileKey := by
    unfold bytesOr dataFields
    simp only [getBytes_append, getBytes_optBytes_ne 1 _ 6 (by omega), getBytes_subs 2 _ _ 6 (by omega),
      getBytes_optBytes_ne 15 _ 6 (by omega)]
    have := getBytes_optLen 6 d.profileKey
    simp [getBytes] at this ⊢
    exact this
  have n4 : numOr (dataFields d) 4 = d.flags := by
    unfold numOr dataFields
    simp only [getU32_append, getU32_optBytes, getU32_subs, getU32_optLen]
    simp [getU32, Nat.mod_eq_of_lt h.flags]
  have n5 : numOr (dataFields d) 5 = d.expireTimer := by
    unfold numOr dataFields
    simp only [getU32_append, getU32_optBytes, getU32_subs, getU32_optLen]
    simp [getU32, Nat.mod_eq_of_lt h.expireTimer]
  have n7 : getU64 (dataFields d) 7 = some d.timestamp := by
    unfold dataFields
    simp only [getU64_append, getU64_optBytes, getU64_subs, getU64_optLen]
    simp [getU64]
  have ha : (d.attachments.map attFields).map attPtr =
      d.attachments.map (fun a => ⟨a.keys, location 0 a.cdnKey a.cdnNr⟩) := by
    rw [List.map_map]
    apply List.map_congr_left
    intro a ha
    exact attPtr_fields a (h.atts a ha).2.1
  unfold dataMsg
  simp only [e2, e15, rawOne_absent _ _ (g 8 (by omega) (by omega) (by omega) (by omega)),
    rawMany_absent _ _ (g 9 (by omega) (by omega) (by omega) (by omega)),
    rawOne_absent _ _ (g 11 (by omega) (by omega) (by omega) (by omega)),
    rawOne_absent _ _ (g 16 (by omega) (by omega) (by omega) (by omega)),
    checked_absent _ [10, 17, 18, 19, 20, 21, 22] (by
      intro n hn
      simp at hn
      exact g n (by omega) (by omega) (by omega) (by omega)),
    Option.bind_eq_bind, Option.bind_some, b1, b6, n4, n5, n7, ha]
  rfl

theorem inner_lt (d : Send.WireData) (h : Fits d) : (encFields (dataFields d)).length < 2 ^ 64 := by
  have := h.size
  exact sub_len_lt (n := 1) (fs := [sub 1 (dataFields d)]) (by simp) (by unfold marshalData at this; omega)

theorem parse_data (d : Send.WireData) (h : Fits d) :
    parseContent (marshalData d) = some { data := some (seen d) } := by
  have hl := inner_lt d h
  have hv := valid_of (data_numOk d h) hl
  have htop : ∀ f ∈ [sub 1 (dataFields d)], Field.valid f := by
    refine valid_of (numOk_one (numOk_sub (by omega) (by omega))) ?_
    have := h.size
    unfold marshalData at this
    omega
  have g : ∀ n, n ≠ 1 → getAll [sub 1 (dataFields d)] n = [] := fun n hn => getAll_sub_ne 1 _ n hn.symm
  unfold parseContent marshalData
  rw [decFields_enc _ htop]
  simp only [Option.bind_eq_bind, Option.bind_some, subOne_single _ _ 1 (getAll_sub 1 (dataFields d)) hv,
    subOne_absent _ _ (g 2 (by omega)), subOne_absent _ _ (g 3 (by omega)), subOne_absent _ _ (g 4 (by omega)),
    subOne_absent _ _ (g 5 (by omega)), subOne_absent _ _ (g 6 (by omega)),
    checked_absent _ [9] (by intro n hn; simp at hn; exact g n (by omega)), Record.optional, dataMsg_fields d h hl,
    Option.map_some]
  rfl

/-! ## Transcripts -/

theorem text_ascii (s : String) (h : ∀ c ∈ s.toList, c.toNat < 256) : text (ascii s) = s := by
  unfold text ascii
  apply String.ext
  rw [String.toList_ofList, List.map_map]
  conv => rhs; rw [← List.map_id s.toList]
  apply List.map_congr_left
  intro c hc
  have := h c hc
  simp only [Function.comp, UInt8.toNat_ofNat', id]
  rw [Nat.mod_eq_of_lt (by omega)]
  exact Char.ofNat_toNat c

theorem text_opt (o : Option String) (h : ∀ s, o = some s → OneByte s) :
    text ((o.map ascii).getD []) = o.getD "" := by
  cases o with
  | none => rfl
  | some s => exact text_ascii s (h s rfl)

theorem parse_sync (t : Send.Transcript) (h : FitsT t) :
    parseContent (marshalSync t) = some { sync := some { sent := some (seenSent t) } } := by
  have hl0 : (encFields [sub 2 [sub 1 (sentFields t)]]).length < 2 ^ 64 := by
    have := h.size; unfold marshalSync at this; omega
  have hl1 : (encFields [sub 1 (sentFields t)]).length < 2 ^ 64 := sub_len_lt (n := 2) (by simp) hl0
  have hl2 : (encFields (sentFields t)).length < 2 ^ 64 := sub_len_lt (n := 1) (by simp) hl1
  have hl3 : (encFields (dataFields t.message)).length < 2 ^ 64 :=
    sub_len_lt (n := 3) (by simp [sentFields]) hl2
  have v0 := valid_of (numOk_one (numOk_sub (n := 2) (by omega) (by omega))) hl0
  have v1 := valid_of (numOk_one (numOk_sub (n := 1) (by omega) (by omega))) hl1
  have v2 : ∀ f ∈ sentFields t, Field.valid f := by
    refine valid_of ?_ hl2
    unfold sentFields
    refine numOk_append (numOk_append (numOk_optBytes (by omega) (by omega)) ?_) (numOk_optBytes (by omega) (by omega))
    intro f hf
    have := h.timestamp
    simp at hf
    rcases hf with rfl | rfl
    · simp [NumOk]; omega
    · exact numOk_sub (by omega) (by omega)
  have v3 := valid_of (data_numOk t.message h.message) hl3
  have g0 : ∀ n, n ≠ 2 → getAll [sub 2 [sub 1 (sentFields t)]] n = [] := fun n hn => getAll_sub_ne 2 _ n hn.symm
  have g1 : ∀ n, n ≠ 1 → getAll [sub 1 (sentFields t)] n = [] := fun n hn => getAll_sub_ne 1 _ n hn.symm
  have g2 : ∀ n, n ≠ 1 → n ≠ 3 → n ≠ 7 → getAll (sentFields t) n = [] := by
    intro n h1 h3 h7
    unfold sentFields
    simp only [getAll_append, getAll_optBytes_ne _ _ _ h1.symm, getAll_optBytes_ne _ _ _ h7.symm]
    simp [getAll, sub, h3.symm]
  have g3 : getAll (sentFields t) 3 = [encFields (dataFields t.message)] := by
    unfold sentFields
    simp only [getAll_append, getAll_optBytes_ne 1 _ 3 (by omega), getAll_optBytes_ne 7 _ 3 (by omega)]
    simp [getAll, sub]
  have b1 : textOr (sentFields t) 1 = t.destE164.getD "" := by
    rw [← text_opt t.destE164 h.e164]
    unfold textOr bytesOr sentFields
    simp only [getBytes_append, getBytes_optBytes, getBytes_optBytes_ne 7 _ 1 (by omega)]
    simp [getBytes, sub]
  have b7 : textOr (sentFields t) 7 = t.destUuid.getD "" := by
    rw [← text_opt t.destUuid h.uuid]
    unfold textOr bytesOr sentFields
    simp only [getBytes_append, getBytes_optBytes, getBytes_optBytes_ne 1 _ 7 (by omega)]
    simp [getBytes, sub]
  have hsent : sentMsg (sentFields t) = some (seenSent t) := by
    unfold sentMsg
    simp only [Option.bind_eq_bind, Option.bind_some, subOne_single _ _ 3 g3 v3, Record.optional,
      dataMsg_fields t.message h.message hl3, Option.map_some, b1, b7,
      checked_absent (sentFields t) [5, 8, 9] (by intro n hn; simp at hn; exact g2 n (by omega) (by omega) (by omega))]
    rfl
  have hsync : syncMsg [sub 1 (sentFields t)] = some { sent := some (seenSent t) } := by
    unfold syncMsg
    simp only [Option.bind_eq_bind, Option.bind_some, subOne_single _ _ 1 (getAll_sub 1 (sentFields t)) v2,
      Record.optional, hsent, Option.map_some, subOne_absent _ _ (g1 2 (by omega)),
      subOne_absent _ _ (g1 3 (by omega)), subOne_absent _ _ (g1 4 (by omega)), subs_empty _ _ (g1 5 (by omega)),
      subOne_absent _ _ (g1 6 (by omega)), rawOne_absent _ _ (g1 7 (by omega)), Option.getD_none,
      checked_absent ([] : List Field) [1] (by intros; rfl),
      checked_absent [sub 1 (sentFields t)] [9, 10, 11, 12, 13, 14, 15, 16, 17, 18]
        (by intro n hn; simp at hn; exact g1 n (by omega))]
    rfl
  unfold parseContent marshalSync
  rw [decFields_enc _ v0]
  simp only [Option.bind_eq_bind, Option.bind_some, subOne_single _ _ 2 (getAll_sub 2 [sub 1 (sentFields t)]) v1,
    subOne_absent _ _ (g0 1 (by omega)), subOne_absent _ _ (g0 3 (by omega)), subOne_absent _ _ (g0 4 (by omega)),
    subOne_absent _ _ (g0 5 (by omega)), subOne_absent _ _ (g0 6 (by omega)), Record.optional, hsync,
    Option.map_some, checked_absent [sub 2 [sub 1 (sentFields t)]] [9] (by intro n hn; simp at hn; exact g0 n (by omega))]
  rfl

/-! ## Acknowledgements, frames, envelopes -/

theorem readAck_ack (id : Nat) (h : id < 2 ^ 64) :
    Clients.readAck (ackBytes id) = some (2, id, 200, ascii "OK") := by
  obtain ⟨rs, hrs⟩ : ∃ rs : List Field, rs = [(1, .varint id), (2, .varint 200), (3, .len (ascii "OK"))] := ⟨_, rfl⟩
  have hnr : ∀ f ∈ rs, NumOk f := by
    rw [hrs]
    intro f hf
    simp at hf
    rcases hf with rfl | rfl | rfl
    · exact ⟨by omega, by omega, h⟩
    · exact ⟨by omega, by omega, by omega⟩
    · exact ⟨by omega, by omega⟩
  have hid := Messages.encVarint_length_le id 10 (by omega) (Nat.lt_of_lt_of_le h (by decide))
  have hlen : (encFields rs).length ≤ 18 := by
    have e1 : encTag 1 0 = [8] := by decide +kernel
    have e2 : encField (2, .varint 200) = [16, 200, 1] := by decide +kernel
    have e3 : encField (3, .len (ascii "OK")) = [26, 2, 79, 75] := by decide +kernel
    have e : encFields rs = encTag 1 0 ++ encVarint id ++ (encField (2, .varint 200) ++
        (encField (3, .len (ascii "OK")) ++ [])) := by
      rw [hrs]; rfl
    rw [e, e1, e2, e3]
    simp only [List.length_append, List.length_cons, List.length_nil]
    omega
  have hlen2 : (encFields [(1, .varint 2), sub 3 rs]).length < 2 ^ 64 := by
    have e1 : encField (1, .varint 2) = [8, 2] := by decide +kernel
    have e2 : encTag 3 2 = [26] := by decide +kernel
    have := Messages.encVarint_length_le (encFields rs).length 1 (by omega) (by omega)
    have e : encFields [(1, .varint 2), sub 3 rs] = encField (1, .varint 2) ++
        (encTag 3 2 ++ (encVarint (encFields rs).length ++ encFields rs) ++ []) := rfl
    rw [e, e1, e2]
    simp only [List.length_append, List.length_cons, List.length_nil]
    omega
  have hnt : ∀ f ∈ [(1, .varint 2), sub 3 rs], NumOk f := by
    intro f hf
    simp at hf
    rcases hf with rfl | rfl
    · exact ⟨by omega, by omega, by omega⟩
    · exact numOk_sub (by omega) (by omega)
  have g3 : getAll [(1, .varint 2), sub 3 rs] 3 = [encFields rs] := by simp [getAll, sub]
  unfold Clients.readAck ackBytes
  rw [← hrs, decFields_enc _ (valid_of hnt hlen2)]
  simp only [Option.bind_eq_bind, Option.bind_some, subOne_single _ _ 3 g3 (valid_of hnr (by omega)), Option.getD_some]
  rw [hrs]
  simp [getU32, getU64, bytesOr, getBytes, sub, u32]

theorem parse_frame (id : Nat) (body : Bytes) (hid : id < 2 ^ 64)
    (hl : (Clients.frameBytes id body).length < 2 ^ 64) :
    parseFrame (Clients.frameBytes id body) = .msg id body := by
  unfold Clients.frameBytes at hl ⊢
  obtain ⟨rs, hrs⟩ : ∃ rs : List Field, rs = [(1, .len (ascii "PUT")), (2, .len (ascii "/api/v1/message")),
    (3, .len body), (4, .varint id)] := ⟨_, rfl⟩
  rw [← hrs] at hl ⊢
  have hnr : ∀ f ∈ rs, NumOk f := by
    rw [hrs]
    intro f hf
    simp at hf
    rcases hf with rfl | rfl | rfl | rfl
    · exact ⟨by omega, by omega⟩
    · exact ⟨by omega, by omega⟩
    · exact ⟨by omega, by omega⟩
    · exact ⟨by omega, by omega, hid⟩
  have hnt : ∀ f ∈ [(1, .varint 1), sub 2 rs], NumOk f := by
    intro f hf
    simp at hf
    rcases hf with rfl | rfl
    · exact ⟨by omega, by omega, by omega⟩
    · exact numOk_sub (by omega) (by omega)
  have g2 : getAll [(1, .varint 1), sub 2 rs] 2 = [encFields rs] := by simp [getAll, sub]
  have g3 : ∀ n ∈ [3], getAll [(1, .varint 1), sub 2 rs] n = [] := by
    intro n hn; simp at hn; subst hn; simp [getAll, sub]
  have hlr : (encFields rs).length < 2 ^ 64 := sub_len_lt (n := 2) (by simp) hl
  unfold parseFrame
  rw [decFields_enc _ (valid_of hnt hl)]
  simp only [Option.bind_eq_bind, Option.bind_some, subOne_single _ _ 2 g2 (valid_of hnr hlr), Option.getD_some,
    checked_absent _ _ g3]
  rw [hrs]
  simp [getU64, bytesOr, getBytes]

theorem parse_envelope (type dev ts sts : Nat) (name : String) (content : Bytes) (h1 : type < u32)
    (h2 : dev < u32) (h3 : ts < 2 ^ 64) (h4 : sts < 2 ^ 64) (hn : OneByte name)
    (hl : (Clients.envelopeBytes type dev ts sts name content).length < 2 ^ 64) :
    parseEnvelope (Clients.envelopeBytes type dev ts sts name content) =
      some { type := some type, sourceUuid := name, sourceDevice := dev, timestamp := ts, serverTimestamp := sts
             content := some content } := by
  have := u32_lt
  unfold Clients.envelopeBytes at hl ⊢
  unfold parseEnvelope
  rw [decFields_enc _ (valid_of (by
    intro f hf
    simp at hf
    rcases hf with rfl | rfl | rfl | rfl | rfl | rfl <;> simp [NumOk] <;> omega) hl)]
  simp [getU64, getU32, numOr, textOr, bytesOr, getBytes, Nat.mod_eq_of_lt h1, Nat.mod_eq_of_lt h2, text_ascii name hn]

/-! ## What other clients write -/

theorem getU64s_append (a b : List Field) (num : Nat) : getU64s (a ++ b) num = (do
    let x ← getU64s a num
    let y ← getU64s b num
    some (x ++ y)) := by
  induction a with
  | nil => simp [getU64s]
  | cons f a ih =>
    obtain ⟨n, v⟩ := f
    rw [List.cons_append]
    cases v <;> simp only [getU64s, ih]
    · split
      · cases getU64s a num <;> simp
        cases getU64s b num <;> simp
      · rfl
    · split
      · cases unpack _ _ <;> simp
        cases getU64s a num <;> simp
        cases getU64s b num <;> simp
      · rfl

theorem getU64s_times (ts : List Nat) : getU64s (ts.map (fun t => (2, .varint t))) 2 = some ts := by
  induction ts with
  | nil => rfl
  | cons t ts ih => simp [getU64s, ih]

/-- Contents with one part. -/
theorem parse_one (n : Nat) (fs : List Field) (hn : n ∈ [3, 5, 6]) (hv : ∀ f ∈ fs, Field.valid f)
    (hl : (encFields [sub n fs]).length < 2 ^ 64) : parseContent (encFields [sub n fs]) = (do
      let call ← if n = 3 then (callMsg fs).map some else some none
      let receipt ← if n = 5 then (receiptMsg fs).map some else some none
      some { call := call, receipt := receipt, typing := decide (n = 6) }) := by
  have htop : ∀ f ∈ [sub n fs], Field.valid f :=
    valid_of (numOk_one (numOk_sub (by simp at hn; omega) (by simp at hn; omega))) hl
  have g : ∀ m, n ≠ m → getAll [sub n fs] m = [] := fun m hm => getAll_sub_ne n _ m hm
  have h1 := subOne_single _ _ n (getAll_sub n fs) hv
  unfold parseContent
  rw [decFields_enc _ htop]
  simp only [Option.bind_eq_bind, Option.bind_some]
  simp only [List.mem_cons, List.not_mem_nil, or_false] at hn
  rcases hn with rfl | rfl | rfl <;>
    simp [h1, subOne_absent, g, checked_absent, Record.optional]

theorem parse_receipt (ty : Nat) (ts : List Nat) (hty : ty < u32) (hts : ∀ t ∈ ts, t < 2 ^ 64)
    (hl : (receiptBytes ty ts).length < 2 ^ 64) :
    parseContent (receiptBytes ty ts) = some { receipt := some ⟨some ty, ts⟩ } := by
  have := u32_lt
  unfold receiptBytes at hl ⊢
  rw [parse_one 5 _ (by simp) (valid_of ?_ (sub_len_lt (n := 5) (by simp) hl)) hl]
  · have e : getU64s ((1, .varint ty) :: ts.map (fun t => (2, .varint t))) 2 = some ts := by
      simp [getU64s, getU64s_times]
    have e1 : getU32 ((1, .varint ty) :: ts.map (fun t => (2, .varint t))) 1 = some ty := by
      rw [← List.singleton_append, getU32_append]
      have : getU32 (ts.map (fun t => ((2, .varint t) : Field))) 1 = none := by
        clear e hl hts
        induction ts using List.reverseRecOn with
        | nil => rfl
        | append_singleton ts t ih => rw [List.map_append, List.map_singleton, getU32_snoc, ih]; simp
      rw [this]
      simp [getU32, Nat.mod_eq_of_lt hty]
    simp [receiptMsg, e, e1]
  · intro f hf
    simp at hf
    rcases hf with rfl | ⟨t, ht, rfl⟩
    · simp [NumOk]; omega
    · have := hts t ht
      simp [NumOk]; omega

theorem unpack_flatten (ts : List Nat) (hts : ∀ t ∈ ts, t < 2 ^ 64) (fuel : Nat)
    (hf : (ts.map encVarint).flatten.length < fuel) : unpack fuel (ts.map encVarint).flatten = some ts := by
  induction ts generalizing fuel with
  | nil => cases fuel with
    | zero => simp at hf
    | succ n => rfl
  | cons t ts ih =>
    cases fuel with
    | zero => simp at hf
    | succ n =>
      rw [List.map_cons, List.flatten_cons] at hf ⊢
      have hd := decVarint_enc t (ts.map encVarint).flatten (hts t (by simp))
      have hpos : 0 < (encVarint t).length := by
        rw [encVarint]; split <;> simp
      unfold unpack
      cases hb : encVarint t ++ (ts.map encVarint).flatten with
      | nil =>
        have := congrArg List.length hb
        simp only [List.length_append, List.length_nil] at this
        omega
      | cons x xs =>
        rw [hb] at hd
        simp only [hd]
        rw [ih (fun t ht => hts t (by simp [ht])) n (by simp only [List.length_append] at hf; omega)]
        rfl

theorem parse_receipt_packed (ty : Nat) (ts : List Nat) (hty : ty < u32) (hts : ∀ t ∈ ts, t < 2 ^ 64)
    (hl : (receiptPacked ty ts).length < 2 ^ 64) :
    parseContent (receiptPacked ty ts) = some { receipt := some ⟨some ty, ts⟩ } := by
  have := u32_lt
  unfold receiptPacked at hl ⊢
  rw [parse_one 5 _ (by simp) (valid_of ?_ (sub_len_lt (n := 5) (by simp) hl)) hl]
  · simp [receiptMsg, getU64s, unpack_flatten ts hts, getU32, Nat.mod_eq_of_lt hty]
  · intro f hf
    simp at hf
    rcases hf with rfl | rfl <;> simp [NumOk]
    omega

theorem parse_call (part : Nat) (fs : List Field) (hp : part ∈ [1, 2, 3, 4, 5, 7]) (hv : ∀ f ∈ fs, Field.valid f)
    (hl : (callBytes part fs).length < 2 ^ 64) :
    parseContent (callBytes part fs) = some { call := some (seenCall part) } := by
  unfold callBytes at hl ⊢
  have hl1 : (encFields [sub part fs]).length < 2 ^ 64 := sub_len_lt (n := 3) (by simp) hl
  have hb : 1 ≤ part ∧ part ≤ 100 := by
    simp only [List.mem_cons, List.not_mem_nil, or_false] at hp
    omega
  rw [parse_one 3 _ (by simp) (valid_of (numOk_one (numOk_sub hb.1 hb.2)) hl1) hl]
  have g : ∀ m, part ≠ m → getAll [sub part fs] m = [] := fun m hm => getAll_sub_ne part _ m hm
  have h1 := subOne_single _ _ part (getAll_sub part fs) hv
  have h2 : subs [sub part fs] part = some [fs] := by
    unfold subs
    rw [getAll_sub]
    simp [decFields_enc _ hv]
  simp only [List.mem_cons, List.not_mem_nil, or_false] at hp
  rcases hp with rfl | rfl | rfl | rfl | rfl | rfl <;>
    simp [callMsg, seenCall, h1, h2, subOne_absent, subs_empty, g, checked_absent]

theorem parse_typing (fs : List Field) (hv : ∀ f ∈ fs, Field.valid f) (hl : (typingBytes fs).length < 2 ^ 64) :
    parseContent (typingBytes fs) = some { typing := true } := by
  unfold typingBytes at hl ⊢
  rw [parse_one 6 _ (by simp) hv hl]
  rfl

/-- Sync messages. -/
theorem parse_syncPart (fs : List Field) (hf : ∀ f ∈ fs, NumOk f)
    (hl : (encFields [sub 2 fs]).length < 2 ^ 64) :
    parseContent (encFields [sub 2 fs]) = (syncMsg fs).map (fun s => { sync := some s }) := by
  have hv := valid_of hf (sub_len_lt (n := 2) (fs := [sub 2 fs]) (by simp) hl)
  have htop : ∀ f ∈ [sub 2 fs], Field.valid f := valid_of (numOk_one (numOk_sub (by omega) (by omega))) hl
  have g : ∀ m, 2 ≠ m → getAll [sub 2 fs] m = [] := fun m hm => getAll_sub_ne 2 _ m hm
  have h1 := subOne_single _ _ 2 (getAll_sub 2 fs) hv
  unfold parseContent
  rw [decFields_enc _ htop]
  simp only [Option.bind_eq_bind, Option.bind_some, h1]
  cases hs : syncMsg fs <;> simp [subOne_absent, g, checked_absent, Record.optional, hs]

theorem checked_nil : checked [] [1] = some () := by decide

theorem parse_reads (l : List (String × Nat)) (hn : ∀ r ∈ l, OneByte r.1 ∧ r.2 < 2 ^ 64)
    (hl : (readsBytes l).length < 2 ^ 64) :
    parseContent (readsBytes l) = some { sync := some { read := l } } := by
  unfold readsBytes at hl ⊢
  obtain ⟨rf, hrf⟩ : ∃ rf : String × Nat → List Field,
    rf = fun r => [(2, .varint r.2), (3, .len (ascii r.1))] := ⟨_, rfl⟩
  have hm : (fun r : String × Nat => sub 5 [(2, .varint r.2), (3, .len (ascii r.1))]) = fun r => sub 5 (rf r) := by
    rw [hrf]
  rw [hm] at hl ⊢
  have hok : ∀ r ∈ l, ∀ f ∈ rf r, NumOk f := by
    intro r hr f hf
    rw [hrf] at hf
    simp at hf
    have := (hn r hr).2
    rcases hf with rfl | rfl <;> simp [NumOk]
    omega
  have hl1 : (encFields (l.map (fun r => sub 5 (rf r)))).length < 2 ^ 64 := sub_len_lt (n := 2) (by simp) hl
  rw [parse_syncPart _ (numOk_subs (by omega) (by omega)) hl]
  have g : ∀ m, 5 ≠ m → getAll (l.map (fun r => sub 5 (rf r))) m = [] := fun m hm => getAll_subs_ne 5 _ _ m hm
  have hs : subs (l.map (fun r => sub 5 (rf r))) 5 = some (l.map rf) := by
    unfold subs
    rw [getAll_subs]
    refine mapM_dec l rf (fun r hr => valid_of (hok r hr) ?_)
    exact sub_len_lt (n := 5) (List.mem_map.mpr ⟨r, hr, rfl⟩) hl1
  have hr : (l.map rf).map readMsg = l := by
    rw [List.map_map]
    conv => rhs; rw [← List.map_id l]
    apply List.map_congr_left
    intro r hr
    rw [hrf]
    simp [readMsg, textOr, bytesOr, getBytes, getU64, text_ascii r.1 (hn r hr).1]
  simp [syncMsg, subOne_absent, g, hs, rawOne_absent, checked_absent, Record.optional, hr, checked_nil]

theorem parse_request (ty : Nat) (h : ty < u32) :
    parseContent (requestBytes ty) = some { sync := some { request := some ty } } := by
  have := u32_lt
  unfold requestBytes
  have hok : ∀ f ∈ ([(1, .varint ty)] : List Field), NumOk f := numOk_one (by simp [NumOk]; omega)
  have e1 : encFields [(1, .varint ty)] = encTag 1 0 ++ encVarint ty := by simp [encFields, encField]
  have h1 : encTag 1 0 = [8] := by decide +kernel
  have hlen := Messages.encVarint_length_le ty 10 (by omega) (by unfold u32 at h; omega)
  have l1 : (encFields [(1, .varint ty)]).length ≤ 11 := by
    rw [e1, h1]; simp only [List.length_append, List.length_cons, List.length_nil]; omega
  have l2 : (encFields [sub 4 [(1, .varint ty)]]).length ≤ 13 := by
    have e : encFields [sub 4 [(1, .varint ty)]] = encTag 4 2 ++ (encVarint (encFields [(1, .varint ty)]).length ++
      encFields [(1, .varint ty)]) ++ [] := rfl
    have e4 : encTag 4 2 = [34] := by decide +kernel
    have := Messages.encVarint_length_le (encFields [(1, .varint ty)]).length 1 (by omega) (by omega)
    rw [e, e4]
    simp only [List.length_append, List.length_cons, List.length_nil]
    omega
  have l3 : (encFields [sub 2 [sub 4 [(1, .varint ty)]]]).length < 2 ^ 64 := by
    have e : encFields [sub 2 [sub 4 [(1, .varint ty)]]] = encTag 2 2 ++
      (encVarint (encFields [sub 4 [(1, .varint ty)]]).length ++ encFields [sub 4 [(1, .varint ty)]]) ++ [] := rfl
    have e4 : encTag 2 2 = [18] := by decide +kernel
    have := Messages.encVarint_length_le (encFields [sub 4 [(1, .varint ty)]]).length 1 (by omega) (by omega)
    rw [e, e4]
    simp only [List.length_append, List.length_cons, List.length_nil]
    omega
  rw [parse_syncPart _ (numOk_one (numOk_sub (by omega) (by omega))) l3]
  have g : ∀ m, 4 ≠ m → getAll [sub 4 [(1, .varint ty)]] m = [] := fun m hm => getAll_sub_ne 4 _ m hm
  have hs := subOne_single _ _ 4 (getAll_sub 4 [(1, .varint ty)]) (valid_of hok (by omega))
  simp [syncMsg, subOne_absent, subs_empty, g, hs, rawOne_absent, checked_absent, Record.optional, checked_nil, numOr, getU32,
    Nat.mod_eq_of_lt h]


theorem leNat_le8 (n : Nat) (h : n < 2 ^ 64) : leNat (le8 n) = n := by
  simp only [le8, List.range_eq_range', List.range', List.map_cons, List.map_nil, leNat, UInt8.toNat_ofNat']
  omega

theorem getAll_lens (num : Nat) (l : List Bytes) : getAll (l.map (fun c => ((num, .len c) : Field))) num = l := by
  induction l with
  | nil => rfl
  | cons c l ih =>
    rw [List.map_cons, ← List.singleton_append, getAll_append, ih]
    simp [getAll]
theorem getAll_lens_ne (n num : Nat) (l : List Bytes) (h : n ≠ num) :
    getAll (l.map (fun c => ((n, .len c) : Field))) num = [] := by
  induction l with
  | nil => rfl
  | cons c l ih =>
    rw [List.map_cons, ← List.singleton_append, getAll_append, ih]
    simp [getAll, h]
theorem getBytes_lens_ne (n num : Nat) (l : List Bytes) (h : n ≠ num) :
    getBytes (l.map (fun c => ((n, .len c) : Field))) num = none := by
  induction l using List.reverseRecOn with
  | nil => rfl
  | append_singleton l c ih =>
    rw [List.map_append, getBytes_append, ih]
    simp [getBytes, h]
theorem getU32_lens (n num : Nat) (l : List Bytes) :
    getU32 (l.map (fun c => ((n, .len c) : Field))) num = none := by
  induction l using List.reverseRecOn with
  | nil => rfl
  | append_singleton l c ih =>
    rw [List.map_append, getU32_append, ih]
    simp [getU32]
theorem getU64_lens (n num : Nat) (l : List Bytes) :
    getU64 (l.map (fun c => ((n, .len c) : Field))) num = none := by
  induction l using List.reverseRecOn with
  | nil => rfl
  | append_singleton l c ih =>
    rw [List.map_append, getU64_append, ih]
    simp [getU64]

theorem identifier_snoc (fs : List Field) (f : Field) : identifier (fs ++ [f]) =
    match f with
    | (n, .fixed64 b) => if n = 1 then (leNat b, []) else identifier fs
    | (n, .len b) => if n = 15 then (0, b) else identifier fs
    | _ => identifier fs := by
  unfold identifier
  rw [List.foldl_append]
  rfl

theorem identifier_skip (fs hs : List Field) (h : ∀ f ∈ hs, f.1 ≠ 1 ∧ f.1 ≠ 15) :
    identifier (fs ++ hs) = identifier fs := by
  induction hs using List.reverseRecOn with
  | nil => simp
  | append_singleton hs f ih =>
    rw [← List.append_assoc, identifier_snoc, ih (fun f hf => h f (by simp [hf]))]
    obtain ⟨h1, h2⟩ := h f (by simp)
    rcases f with ⟨n, v⟩
    cases v <;> simp_all

def numFields (a : ByNumber) : List Field := [(1, .fixed64 (le8 a.cdnId)), (3, .len a.keys), (14, .varint a.cdnNr)]

theorem numFields_valid (a : ByNumber) (h : a.cdnNr < u32) (hl : (encFields (numFields a)).length < 2 ^ 64) :
    ∀ f ∈ numFields a, Field.valid f := by
  have := u32_lt
  intro f hf
  have hk : a.keys.length ≤ (encFields (numFields a)).length :=
    Nat.le_trans (encField_len_le 3 a.keys) (encFields_mem_le (f := (3, .len a.keys)) (by simp [numFields]))
  simp [numFields] at hf
  rcases hf with rfl | rfl | rfl
  · simp [Field.valid, le8]
  · simp [Field.valid]; omega
  · simp [Field.valid]; omega

theorem rawOne_single (fs : List Field) (num : Nat) (b : Bytes) (h : getAll fs num = [b])
    (hb : (decFields b).isSome) : rawOne fs num = some (some b) := by
  unfold rawOne
  rw [h]
  simp [hb]

theorem parse_foreign (d : Foreign) (h : FitsF d) :
    parseContent (foreignBytes d) = some { data := some (seenForeign d) } := by
  have := u32_lt
  have hsz := h.size
  unfold foreignBytes at hsz ⊢
  have hl := sub_len_lt (n := 1) (gs := foreignFields d) (by simp) hsz
  have e0 : foreignFields d = [(1, .len d.body)] ++ d.atts.map (fun a => sub 2 (numFields a)) ++
      [(4, .varint d.flags), (5, .varint d.expireTimer), (6, .len d.profileKey), (7, .varint d.timestamp),
       (8, .len d.quote)] ++ d.contacts.map (fun c => (9, .len c)) ++
      [(11, .len d.sticker), (15, .len d.group), (16, .len d.reaction)] := rfl
  have hok : ∀ f ∈ foreignFields d, NumOk f := by
    rw [e0]
    refine numOk_append (numOk_append (numOk_append (numOk_append ?_ (numOk_subs (by omega) (by omega))) ?_) ?_) ?_
    · exact numOk_one ⟨by omega, by omega⟩
    · intro f hf
      have h1 := h.flags
      have h2 := h.expireTimer
      have h3 := h.timestamp
      simp at hf
      rcases hf with rfl | rfl | rfl | rfl | rfl <;> simp [NumOk] <;> omega
    · intro f hf
      simp at hf
      obtain ⟨c, _, rfl⟩ := hf
      exact ⟨by omega, by omega⟩
    · intro f hf
      simp at hf
      rcases hf with rfl | rfl | rfl <;> simp [NumOk]
  have hv := valid_of hok hl
  have g : ∀ n, n ∉ [1, 2, 6, 8, 9, 11, 15, 16] → getAll (foreignFields d) n = [] := by
    intro n hn
    simp at hn
    obtain ⟨n1, n2, n6, n8, n9, n11, n15, n16⟩ := hn
    rw [e0]
    simp only [getAll_append, getAll_subs_ne 2 _ _ n (Ne.symm n2), getAll_lens_ne 9 n _ (Ne.symm n9)]
    simp [getAll, Ne.symm n1, Ne.symm n6, Ne.symm n8, Ne.symm n11, Ne.symm n15, Ne.symm n16]
  have gr : ∀ n, n ∈ [8, 11, 15, 16] → getAll (foreignFields d) n =
      [if n = 8 then d.quote else if n = 11 then d.sticker else if n = 15 then d.group else d.reaction] := by
    intro n hn
    have n2 : 2 ≠ n := by simp at hn; omega
    have n9 : 9 ≠ n := by simp at hn; omega
    rw [e0]
    simp only [getAll_append, getAll_subs_ne 2 _ _ n n2, getAll_lens_ne 9 n _ n9]
    simp only [List.mem_cons, List.not_mem_nil, or_false] at hn
    rcases hn with rfl | rfl | rfl | rfl <;> simp [getAll]
  have g2 : getAll (foreignFields d) 2 = d.atts.map (fun a => encFields (numFields a)) := by
    rw [e0]
    simp only [getAll_append, getAll_subs, getAll_lens_ne 9 2 _ (by omega)]
    simp [getAll]
  have g9 : getAll (foreignFields d) 9 = d.contacts := by
    rw [e0]
    simp only [getAll_append, getAll_subs_ne 2 _ _ 9 (by omega), getAll_lens]
    simp [getAll]
  have e2 : subs (foreignFields d) 2 = some (d.atts.map numFields) := by
    unfold subs
    rw [g2]
    refine mapM_dec d.atts numFields (fun a ha => numFields_valid a (h.atts a ha).2.2 ?_)
    refine sub_len_lt (n := 2) (fs := foreignFields d) ?_ hl
    rw [e0]
    simp only [List.mem_append]
    exact Or.inl (Or.inl (Or.inl (Or.inr (List.mem_map.mpr ⟨a, ha, rfl⟩))))
  have b1 : bytesOr (foreignFields d) 1 = d.body := by
    unfold bytesOr
    rw [e0]
    simp only [getBytes_append, getBytes_subs 2 _ _ 1 (by omega), getBytes_lens_ne 9 1 _ (by omega)]
    simp [getBytes]
  have b6 : bytesOr (foreignFields d) 6 = d.profileKey := by
    unfold bytesOr
    rw [e0]
    simp only [getBytes_append, getBytes_subs 2 _ _ 6 (by omega), getBytes_lens_ne 9 6 _ (by omega)]
    simp [getBytes]
  have n4 : numOr (foreignFields d) 4 = d.flags := by
    unfold numOr
    rw [e0]
    simp only [getU32_append, getU32_subs, getU32_lens]
    simp [getU32, Nat.mod_eq_of_lt h.flags]
  have n5 : numOr (foreignFields d) 5 = d.expireTimer := by
    unfold numOr
    rw [e0]
    simp only [getU32_append, getU32_subs, getU32_lens]
    simp [getU32, Nat.mod_eq_of_lt h.expireTimer]
  have n7 : getU64 (foreignFields d) 7 = some d.timestamp := by
    rw [e0]
    simp only [getU64_append, getU64_subs, getU64_lens]
    simp [getU64]
  have r8 := rawOne_single _ _ _ (gr 8 (by simp)) h.quote
  have r11 := rawOne_single _ _ _ (gr 11 (by simp)) h.sticker
  have r15 := rawOne_single _ _ _ (gr 15 (by simp)) h.group
  have r16 := rawOne_single _ _ _ (gr 16 (by simp)) h.reaction
  simp only [if_true, Nat.reduceEqDiff, if_false] at r8 r11 r15 r16
  have r9 : rawMany (foreignFields d) 9 =
      some (if d.contacts = [] then none else some (encFields (d.contacts.map (fun c => (9, .len c))))) := by
    unfold rawMany
    rw [g9]
    cases hc : d.contacts with
    | nil => rfl
    | cons c cs =>
      rw [if_neg (by simp)]
      have : ((c :: cs).all fun b => (decFields b).isSome) = true := by
        rw [List.all_eq_true]
        intro x hx
        exact h.contacts x (hc ▸ hx)
      simp only [this, if_true]
  have ha : (d.atts.map numFields).map attPtr = (seenForeign d).attachments := by
    unfold seenForeign
    rw [List.map_map]
    apply List.map_congr_left
    intro a ha
    obtain ⟨h1, h2, h3⟩ := h.atts a ha
    have hn : leNat (le8 a.cdnId) ≠ 0 := by rw [leNat_le8 _ h2]; omega
    simp only [Function.comp, attPtr, numFields, bytesOr, numOr, getBytes, getU32, identifier, List.foldl_cons,
      List.foldl_nil, location]
    simp [Nat.mod_eq_of_lt h3, leNat_le8 _ h2, Nat.ne_of_gt h1]
  have hd : dataMsg (foreignFields d) = some (seenForeign d) := by
    unfold dataMsg
    simp only [e2, r8, r9, r11, r15, r16, checked_absent (foreignFields d) [10, 17, 18, 19, 20, 21, 22] (by
      intro n hn
      simp at hn
      apply g
      simp
      omega), Option.bind_eq_bind, Option.bind_some, b1, b6, n4, n5, n7, ha]
    rfl
  have htop : ∀ f ∈ [sub 1 (foreignFields d)], Field.valid f :=
    valid_of (numOk_one (numOk_sub (by omega) (by omega))) hsz
  have gt : ∀ n, n ≠ 1 → getAll [sub 1 (foreignFields d)] n = [] := fun n hn => getAll_sub_ne 1 _ n hn.symm
  unfold parseContent
  rw [decFields_enc _ htop]
  simp only [Option.bind_eq_bind, Option.bind_some, subOne_single _ _ 1 (getAll_sub 1 (foreignFields d)) hv,
    subOne_absent _ _ (gt 2 (by omega)), subOne_absent _ _ (gt 3 (by omega)), subOne_absent _ _ (gt 4 (by omega)),
    subOne_absent _ _ (gt 5 (by omega)), subOne_absent _ _ (gt 6 (by omega)),
    checked_absent _ [9] (by intro n hn; simp at hn; exact gt n (by omega)), Record.optional, hd, Option.map_some]
  rfl

end Verif.Content
