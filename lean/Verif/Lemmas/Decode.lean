import Verif.Lemmas.Wire
import Verif.Lemmas.Crc
/-
What `decode` computes, in closed form.
-/
namespace NR
open Spec Dialect

/-- Field values obtained from a payload of the right size. -/
def payloadFields (m : MsgClass) (mbuf : List Byte) : List FieldVal :=
  match structFmt m.format with
  | none => []
  | some fmt =>
    match (do let l ← reorder m (unpackItems fmt mbuf); terminateStrings m l) with
    | .ok l => l
    | .error _ => []

/-- Wire size of a class. -/
def wireSize (m : MsgClass) : Nat := (structFmt m.format).elim 0 calcsize

/-- Zero-padded / truncated payload. -/
def fitPayload (m : MsgClass) (p : List Byte) : List Byte :=
  (p ++ List.replicate (wireSize m - p.length) 0).take (wireSize m)

theorem fitPayload_length (m : MsgClass) (p : List Byte) : (fitPayload m p).length = wireSize m := by
  simp [fitPayload]; omega

theorem fitPayload_self {m : MsgClass} {p : List Byte} (h : p.length = wireSize m) : fitPayload m p = p := by
  simp [fitPayload, h]
  rw [← h]; simp

theorem unpackItems_flatMap (js : List Nat) (I : Nat → List FmtItem) (b : List Byte)
    (h : b.length = calcsize (js.flatMap I)) (hn : js.Nodup) :
    ∃ V : Nat → List Val, unpackItems (js.flatMap I) b = js.flatMap V ∧ ∀ j ∈ js, (V j).length = (I j).length := by
  induction js generalizing b with
  | nil => exact ⟨fun _ => [], rfl, by simp⟩
  | cons j js ih =>
    rw [List.flatMap_cons, calcsize_append] at h
    simp only [List.nodup_cons] at hn
    obtain ⟨V, hV, hl⟩ := ih (b.drop (calcsize (I j))) (by rw [List.length_drop]; omega) hn.2
    refine ⟨fun k => if k = j then unpackItems (I j) (b.take (calcsize (I j))) else V k, ?_, ?_⟩
    · conv => lhs; rw [← List.take_append_drop (calcsize (I j)) b]
      rw [List.flatMap_cons, unpackItems_append _ _ _ _ (by rw [List.length_take]; omega), hV, List.flatMap_cons]
      simp only [if_true]
      congr 1
      have : ∀ k ∈ js, V k = if k = j then unpackItems (I j) (b.take (calcsize (I j))) else V k := by
        intro k hk
        rw [if_neg]
        intro he; subst he; exact hn.1 hk
      rw [List.flatMap_def, List.flatMap_def, List.map_congr_left this]
    · intro k hk
      rcases List.mem_cons.1 hk with rfl | hk'
      · simp [unpackItems_length]
      · have hkj : k ≠ j := by intro he; subst he; exact hn.1 hk'
        simp only [hkj, if_false]
        exact hl k hk'

theorem ClassOK.itemsLength {m : MsgClass} (ok : ClassOK m) {j : Nat} (hj : j < m.fieldnames.length) :
    (fieldItems (wireType m j) (m.arrayLengths.getD j 0)).length = m.lengths.getD j 0 := by
  rw [ok.lengthsEq j hj]
  unfold fieldItems
  by_cases hc : wireType m j = .char
  · simp [hc]; split <;> rfl
  · by_cases hz : m.arrayLengths.getD j 0 = 0
    · rw [if_neg hc, if_pos hz, if_pos (Or.inr hz)]; rfl
    · rw [if_neg hc, if_neg hz, if_neg (by rintro (h | h); exact hc h; exact hz h), List.length_replicate]

/-- For every payload of the class's size the fields are obtained without error. -/
theorem ClassOK.payloadFields_ok {m : MsgClass} (ok : ClassOK m) {fmt : List FmtItem}
    (hf : structFmt m.format = some fmt) {b : List Byte} (hb : b.length = calcsize fmt) :
    (do let l ← reorder m (unpackItems fmt b); terminateStrings m l) = .ok (payloadFields m b) ∧
    (payloadFields m b).length = m.fieldnames.length := by
  have hfmt := ok.fmt
  rw [hf] at hfmt
  have hfmt := Option.some.inj hfmt
  obtain ⟨V, hV, hl⟩ := unpackItems_flatMap _ _ b (hfmt ▸ hb) List.nodup_range
  have h1 : (do let l ← reorder m (unpackItems fmt b); terminateStrings m l) =
      .ok (((List.range m.fieldnames.length).map (reordered m V)).mapIdx fun i v =>
        if m.fieldtypes.getD i .char = .char then .text (mavString (toStringPy v)) else v) := by
    rw [hfmt, hV, ok.reorder_ok V (fun j hj => by rw [hl j (by simpa using hj)]; exact ok.itemsLength hj)]
    simp only [bind, Except.bind]
    rw [ok.terminate_ok _ (by simp)]
  have h2 : payloadFields m b = (((List.range m.fieldnames.length).map (reordered m V)).mapIdx fun i v =>
        if m.fieldtypes.getD i .char = .char then .text (mavString (toStringPy v)) else v) := by
    simp only [payloadFields, hf, h1]
  rw [h2]
  exact ⟨h1, by simp⟩

theorem ClassOK.wireSize_eq {m : MsgClass} {fmt : List FmtItem} (hf : structFmt m.format = some fmt) :
    wireSize m = calcsize fmt := by simp [wireSize, hf]

theorem ClassOK.wireSize_lt {m : MsgClass} (ok : ClassOK m) : wireSize m < 256 := by
  rw [wireSize, ok.fmt]; exact ok.size

/-- Closed form of the second half of `decode`. -/
theorem decodeBody_eq (f : List Byte) (hl magic mlen inc comp seq sys cmp id : Nat) :
    decodeBody f hl magic mlen inc comp seq sys cmp id =
      let sig := if inc % 2 = 1 then 13 else 0
      let body := f.length - (2 + sig)
      match lookupMsg id with
      | none => .error .mavError
      | some m =>
        if (magic = 254 ∨ magic = 253) ∧ f.length = mlen + hl + 2 + sig ∧
            leNat ((f.drop body).take 2) = (x25 (pySlice f 1 body ++ [BitVec.ofNat 8 m.crcExtra])).toNat then
          .ok { cls := m, msgId := id, incompat := inc, compat := comp, mlen := mlen, seq := seq,
                srcSystem := sys, srcComponent := cmp,
                fields := payloadFields m (fitPayload m (pySlice f hl body)),
                payload := pySlice f 6 body, crc := leNat ((f.drop body).take 2) }
        else .error .mavError := by
  simp only
  unfold decodeBody
  generalize hsig : (if inc % 2 = 1 then 13 else 0) = sig
  by_cases hmag : magic = 254 ∨ magic = 253
  · rw [if_neg (by rintro ⟨h1, h2⟩; rcases hmag with h | h; exact h1 h; exact h2 h)]
    by_cases hlen : f.length = mlen + hl + 2 + sig
    · rw [if_neg (by rw [hlen]; omega)]
      cases hm : lookupMsg id with
      | none => rfl
      | some m =>
        have ok := classOK (lookupMsg_eq_some.1 hm).1
        have hcl : ((f.drop (f.length - (2 + sig))).take 2).length = 2 := by
          rw [List.length_take, List.length_drop]; omega
        simp only
        rw [if_neg (by rw [hcl]; simp)]
        by_cases hcrc : leNat ((f.drop (f.length - (2 + sig))).take 2) =
            (x25 (pySlice f 1 (f.length - (2 + sig)) ++ [BitVec.ofNat 8 m.crcExtra])).toNat
        · rw [if_neg (by rw [hcrc]; simp), if_pos ⟨hmag, hlen, hcrc⟩]
          obtain ⟨fmt, hf⟩ : ∃ fmt, structFmt m.format = some fmt := ⟨_, ok.fmt⟩
          rw [hf]
          simp only
          have hw : calcsize fmt = wireSize m := (ClassOK.wireSize_eq hf).symm
          have hfit : (pySlice f hl (f.length - (2 + sig)) ++
              List.replicate (calcsize fmt - (pySlice f hl (f.length - (2 + sig))).length) 0).take (calcsize fmt)
              = fitPayload m (pySlice f hl (f.length - (2 + sig))) := by
            rw [fitPayload, hw]
          rw [hfit]
          have hsz : (fitPayload m (pySlice f hl (f.length - (2 + sig)))).length = calcsize fmt := by
            rw [fitPayload_length, hw]
          rw [structUnpack, if_pos hsz]
          simp only
          obtain ⟨h1, h2⟩ := ok.payloadFields_ok hf hsz
          simp only [bind, Except.bind] at h1 ⊢
          cases hr : reorder m (unpackItems fmt (fitPayload m (pySlice f hl (f.length - (2 + sig))))) with
          | error e => rw [hr] at h1; cases h1
          | ok l =>
            rw [hr] at h1
            simp only at h1 ⊢
            rw [h1]
            simp only [h2, ne_eq, not_true, if_false]
        · rw [if_pos hcrc, if_neg (by rintro ⟨_, _, h⟩; exact hcrc h)]
    · rw [if_pos (by omega)]
      cases lookupMsg id with
      | none => rfl
      | some m => simp only; rw [if_neg (by rintro ⟨_, h, _⟩; exact hlen h)]
  · rw [if_pos (by constructor <;> (intro h; exact hmag (by simp [h])))]
    cases lookupMsg id with
    | none => rfl
    | some m => simp only; rw [if_neg (by rintro ⟨h, _⟩; exact hmag h)]

/-- The six header bytes and the rest. -/
theorem decode_v1 (mlen seq sys cmp id : Byte) (rest : List Byte) :
    decode (254 :: mlen :: seq :: sys :: cmp :: id :: rest) =
      decodeBody (254 :: mlen :: seq :: sys :: cmp :: id :: rest) 6 254 mlen.toNat 0 0 seq.toNat sys.toNat
        cmp.toNat id.toNat := by
  simp [decode]

theorem decode_short (f : List Byte) (h : f.length < 6) (h0 : f ≠ []) : decode f = .error .mavError := by
  unfold decode
  match f, h, h0 with
  | [a], _, _ => simp
  | [a, b], _, _ => simp
  | [a, b, c], _, _ => simp
  | [a, b, c, d], _, _ => simp
  | [a, b, c, d, e], _, _ => simp
  | a :: b :: c :: d :: e :: g :: r, h, _ => simp at h; omega

/-- Every version-1 byte string of at least six bytes has this shape. -/
theorem v1_shape {f : List Byte} (h : f.head? = some 254) (h6 : 6 ≤ f.length) :
    ∃ mlen seq sys cmp id rest, f = 254 :: mlen :: seq :: sys :: cmp :: id :: rest := by
  match f, h, h6 with
  | a :: b :: c :: d :: e :: g :: r, h, _ =>
    simp at h; subst h; exact ⟨_, _, _, _, _, _, rfl⟩

theorem decodeBody_err (f : List Byte) (hl magic mlen inc comp seq sys cmp id : Nat) :
    Returns (decodeBody f hl magic mlen inc comp seq sys cmp id) ∨
      decodeBody f hl magic mlen inc comp seq sys cmp id = .error .mavError := by
  rw [decodeBody_eq]
  generalize (if inc % 2 = 1 then 13 else 0) = sig
  simp only
  split
  · exact Or.inr rfl
  · split
    · exact Or.inl ⟨_, rfl⟩
    · exact Or.inr rfl

end NR
