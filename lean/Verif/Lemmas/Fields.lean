import Verif.Lemmas.Decode
/-
Where the values of the fields come from in a payload.
-/
namespace NR
open Spec Dialect

/-- Start offset of the `j`-th group of items. -/
def groupOff (I : Nat → List FmtItem) (j : Nat) : Nat := calcsize ((List.range j).flatMap I)

theorem groupOff_succ (I : Nat → List FmtItem) (j : Nat) : groupOff I (j + 1) = groupOff I j + calcsize (I j) := by
  simp only [groupOff, List.range_succ, List.flatMap_append, calcsize_append, List.flatMap_cons, List.flatMap_nil,
    List.append_nil]

theorem groupOff_mono (I : Nat → List FmtItem) {i j : Nat} (h : i ≤ j) : groupOff I i ≤ groupOff I j := by
  induction h with
  | refl => exact Nat.le_refl _
  | step _ ih => rw [groupOff_succ]; omega

/-- Unpacking grouped items is unpacking each group from its own slice of the bytes. -/
theorem unpackItems_groups (n : Nat) (I : Nat → List FmtItem) (b : List Byte) (h : b.length = groupOff I n) :
    unpackItems ((List.range n).flatMap I) b =
      (List.range n).flatMap fun j => unpackItems (I j) (pySlice b (groupOff I j) (groupOff I (j + 1))) := by
  induction n generalizing b with
  | zero => rfl
  | succ n ih =>
    have hle : groupOff I n ≤ b.length := by rw [h]; exact groupOff_mono I (Nat.le_succ n)
    rw [List.range_succ, List.flatMap_append, List.flatMap_append]
    conv => lhs; rw [← List.take_append_drop (groupOff I n) b]
    rw [unpackItems_append _ _ _ _ (by rw [List.length_take, Nat.min_eq_left hle]; rfl)]
    congr 1
    · rw [ih _ (by rw [List.length_take, Nat.min_eq_left hle])]
      rw [List.flatMap_def, List.flatMap_def]
      congr 1
      apply List.map_congr_left
      intro j hj
      rw [List.mem_range] at hj
      have := groupOff_mono I (show j + 1 ≤ n from hj)
      simp only [pySlice, List.take_take]
      rw [Nat.min_eq_left this]
    · simp only [List.flatMap_cons, List.flatMap_nil, List.append_nil]
      congr 1
      rw [pySlice, ← h, List.take_length]

/-- Items of the `j`-th wire field of a class. -/
def classItems (m : MsgClass) (j : Nat) : List FmtItem := fieldItems (wireType m j) (m.arrayLengths.getD j 0)

/-- The values of the `j`-th wire field in a payload. -/
def fieldVals (m : MsgClass) (b : List Byte) (j : Nat) : List Val :=
  unpackItems (classItems m j) (pySlice b (groupOff (classItems m) j) (groupOff (classItems m) (j + 1)))

theorem ClassOK.wireSize_groupOff {m : MsgClass} (ok : ClassOK m) :
    wireSize m = groupOff (classItems m) m.fieldnames.length := by
  rw [wireSize, ok.fmt]; rfl

/-- The fields decoded from a payload, each from its own bytes. -/
theorem ClassOK.payloadFields_eq {m : MsgClass} (ok : ClassOK m) {b : List Byte} (hb : b.length = wireSize m) :
    payloadFields m b = (((List.range m.fieldnames.length).map (reordered m (fieldVals m b))).mapIdx fun i v =>
        if m.fieldtypes.getD i .char = .char then .text (mavString (toStringPy v)) else v) := by
  have hg := unpackItems_groups m.fieldnames.length (classItems m) b (by rw [hb, ok.wireSize_groupOff])
  have h1 : (do let l ← reorder m (unpackItems ((List.range m.fieldnames.length).flatMap (classItems m)) b);
                terminateStrings m l) =
      .ok (((List.range m.fieldnames.length).map (reordered m (fieldVals m b))).mapIdx fun i v =>
        if m.fieldtypes.getD i .char = .char then .text (mavString (toStringPy v)) else v) := by
    rw [hg]
    rw [show (fun j => unpackItems (classItems m j) (pySlice b (groupOff (classItems m) j)
      (groupOff (classItems m) (j + 1)))) = fieldVals m b from rfl]
    rw [ok.reorder_ok (fieldVals m b) (fun j hj => by
      rw [fieldVals, unpackItems_length]; exact ok.itemsLength hj)]
    simp only [bind, Except.bind]
    rw [ok.terminate_ok _ (by simp)]
  simp only [payloadFields, ok.fmt]
  rw [show (fun j => fieldItems (wireType m j) (m.arrayLengths.getD j 0)) = classItems m from rfl, h1]

theorem unpackScalar_not_raw {t : CType} (ht : t ≠ .char) (bs bs' : List Byte) : unpackScalar t bs ≠ .raw bs' := by
  unfold unpackScalar
  split
  · simp
  · exact absurd rfl ht
  · simp only; split <;> simp

theorem unpackItems_replicate_not_raw {t : CType} (ht : t ≠ .char) (k : Nat) (b : List Byte) :
    ∀ v ∈ unpackItems (List.replicate k (.scalar t)) b, ∀ bs, v ≠ .raw bs := by
  induction k generalizing b with
  | zero => intro v hv; simp [unpackItems] at hv
  | succ k ih =>
    intro v hv bs
    rw [List.replicate_succ, unpackItems] at hv
    rcases List.mem_cons.1 hv with rfl | hv
    · exact unpackScalar_not_raw ht _ _
    · exact ih _ v hv bs

/-- No decoded field is a bare byte string: text fields have become `str`. -/
theorem payloadFields_not_raw {m : MsgClass} (ok : ClassOK m) {b : List Byte} (hb : b.length = wireSize m) (bs : List Byte) :
    FieldVal.num (.raw bs) ∉ payloadFields m b := by
  rw [ok.payloadFields_eq hb]
  intro h
  obtain ⟨i, hi, he⟩ := List.getElem_of_mem h
  simp only [List.length_mapIdx, List.length_map, List.length_range] at hi
  simp only [List.getElem_mapIdx, List.getElem_map, List.getElem_range] at he
  split at he
  · cases he
  · rename_i hc
    unfold reordered at he
    simp only at he
    split at he
    · injection he with he
      have ho := ok.ordersLt i hi
      have hwt : wireType m (m.orders.getD i 0) ≠ .char := by rw [ok.wireType_orders hi]; exact hc
      have hlen : (fieldVals m b (m.orders.getD i 0)).length = m.lengths.getD (m.orders.getD i 0) 0 := by
        rw [fieldVals, unpackItems_length]; exact ok.itemsLength ho
      have hpos : 0 < (fieldVals m b (m.orders.getD i 0)).length := by omega
      have hmem : Val.raw bs ∈ fieldVals m b (m.orders.getD i 0) := by
        generalize fieldVals m b (m.orders.getD i 0) = l at he hpos ⊢
        rw [← he, List.getD_eq_getElem?_getD, List.getElem?_eq_getElem hpos]
        exact List.getElem_mem _
      unfold fieldVals classItems fieldItems at hmem
      rw [if_neg hwt] at hmem
      exact unpackItems_replicate_not_raw hwt _ _ _ hmem bs rfl
    · cases he

end NR
