import Verif.Props.C10_C13
/-
C08: payload length metadata. C09: field metadata.
-/
namespace NR
open Spec Dialect

/-! ### C08 -/

/-- Wire size against the metadata, over the whole table. -/
def sizesOKb (m : MsgClass) : Bool :=
  match structFmt m.format with
  | none => false
  | some fmt => if NoArrays m then calcsize fmt == msgLen m else decide (msgLen m < calcsize fmt)

theorem table_sizes : mavlinkMap.all sizesOKb = true := by decide +kernel

theorem structPack_header_length {vs : List Val} {h : List Byte}
    (hh : structPack (List.replicate 6 (.scalar .u8)) vs = .ok h) : h.length = 6 := by
  rw [structPack_length hh]; decide

/-- A packed frame is as long as its class's format says. -/
theorem packMsg_length {m : MsgClass} {fields : List FieldVal} {seq sys comp : Int} {f : List Byte}
    (h : packMsg m fields seq sys comp = .ok f) : ∃ fmt, structFmt m.format = some fmt ∧ f.length = calcsize fmt + 8 := by
  unfold packMsg at h
  cases hp : packPayload m fields with
  | error e => rw [hp] at h; simp [bind, Except.bind] at h
  | ok p =>
    rw [hp] at h
    simp only [bind, Except.bind, packFrame] at h
    split at h
    · cases h
    · rename_i hd hhd
      injection h with h
      subst h
      unfold packPayload at hp
      cases ha : (List.range m.orderedFieldnames.length).mapM (packField m fields) with
      | error e => rw [ha] at hp; simp [bind, Except.bind] at hp
      | ok args =>
        rw [ha] at hp
        simp only [bind, Except.bind] at hp
        split at hp
        · cases hp
        · rename_i fmt hf
          refine ⟨fmt, hf, ?_⟩
          simp only [List.length_append, structPack_length hp, structPack_header_length hhd, leBytes_length]
          omega

/-- C08: for a message type without array fields the metadata length is the payload length of every frame the packer
emits (a frame is 6 header bytes, the payload and 2 checksum bytes). -/
theorem c08_no_arrays (m : MsgClass) (hm : m ∈ mavlinkMap) (hn : NoArrays m) (fields : List FieldVal)
    (seq sys comp : Int) (f : List Byte) (h : packMsg m fields seq sys comp = .ok f) :
    payloadLen m.id = some (f.length - 8) := by
  obtain ⟨fmt, hf, hl⟩ := packMsg_length h
  have hs := List.all_eq_true.1 table_sizes m hm
  simp only [sizesOKb, hf, hn, if_true, beq_iff_eq] at hs
  rw [payloadLen_mem hm, hl, hs]
  rfl

/-- C08, the converse: for a message type with an array field the metadata length is smaller than the payload of
every frame the packer emits. -/
theorem c08_arrays (m : MsgClass) (hm : m ∈ mavlinkMap) (hn : ¬ NoArrays m) (fields : List FieldVal)
    (seq sys comp : Int) (f : List Byte) (h : packMsg m fields seq sys comp = .ok f) :
    ∃ L, payloadLen m.id = some L ∧ L < f.length - 8 := by
  obtain ⟨fmt, hf, hl⟩ := packMsg_length h
  have hs := List.all_eq_true.1 table_sizes m hm
  simp only [sizesOKb, hf, hn, if_false, decide_eq_true_eq] at hs
  exact ⟨_, payloadLen_mem hm, by omega⟩

/-- C08: the message types concerned, over the whole dialect. -/
theorem c08_array_types : ∀ m ∈ mavlinkMap, (¬ NoArrays m) ↔ m.id ∈ [5, 7, 20, 22, 23, 25, 50, 61, 63, 64, 82, 83,
    110, 115, 120, 123, 126, 131, 134, 138, 139, 140, 142, 146, 147, 148, 242, 243, 246, 248, 249, 250, 251, 252, 253,
    221, 227, 238] := by decide +kernel

/-- C08: the claim for the whole dialect is false. -/
theorem c08_all_types_false : ¬ ∀ m ∈ mavlinkMap, ∀ fields (seq sys comp : Int) f,
    packMsg m fields seq sys comp = .ok f → payloadLen m.id = some (f.length - 8) := by
  intro h
  have h1 : msg253 ∈ mavlinkMap := by decide +kernel
  obtain ⟨f, hf⟩ : Returns (packMsg msg253 [.num (.int 6), .num (.raw [72, 105])] 0 1 1) := by decide +kernel
  have h2 := h _ h1 _ _ _ _ _ hf
  obtain ⟨L, h3, h4⟩ := c08_arrays _ h1 (by decide) _ _ _ _ _ hf
  rw [h2] at h3
  injection h3 with h3
  omega

example : msg0 ∈ mavlinkMap ∧ NoArrays msg0 ∧ Returns (packMsg msg0
    [.num (.int 2), .num (.int 3), .num (.int 81), .num (.int 4294967295), .num (.int 4), .num (.int 3)] 7 1 1) := by
  refine ⟨by decide +kernel, by decide, by decide +kernel⟩

/-! ### C09 -/

theorem msgFields_eq {m : MsgClass} (ok : ClassOK m) :
    msgFields m = (List.range m.fieldnames.length).map fun j =>
      (m.fieldnames.getD (m.orders.idxOf j) "", some (wireType m j)) := by
  unfold msgFields
  apply List.map_congr_left
  intro j hj
  have hj : j < m.fieldnames.length := by simpa using hj
  simp only [ok.ordered_eq hj]
  rw [← ok.ordered_eq hj, ok.lookup_type hj]

/-- C09: the metadata lists the fields of the message, each once. -/
theorem c09_each_once (m : MsgClass) (hm : m ∈ mavlinkMap) :
    ((msgFields m).map Prod.fst).Perm m.fieldnames ∧ ((msgFields m).map Prod.fst).Nodup := by
  have ok := classOK hm
  have hnd : ((msgFields m).map Prod.fst).Nodup := by
    rw [msgFields_eq ok, List.map_map]
    rw [List.nodup_iff_pairwise_ne, List.pairwise_map]
    apply List.Pairwise.imp_of_mem _ (List.nodup_range (n := m.fieldnames.length))
    intro i j hi hj hne heq
    have hi : i < m.fieldnames.length := by simpa using hi
    have hj : j < m.fieldnames.length := by simpa using hj
    simp only [Function.comp] at heq
    rw [getD_lt _ _ (ok.idx_lt hi), getD_lt _ _ (ok.idx_lt hj)] at heq
    have := (List.getElem_inj ok.namesNodup).1 heq
    have h2 := ok.orders_idx hi
    rw [this, ok.orders_idx hj] at h2
    exact hne h2.symm
  refine ⟨?_, hnd⟩
  apply (List.perm_ext_iff_of_nodup hnd ok.namesNodup).2
  intro nm
  rw [msgFields_eq ok]
  simp only [List.map_map, List.mem_map, List.mem_range, Function.comp]
  constructor
  · rintro ⟨j, hj, rfl⟩
    rw [getD_lt _ _ (ok.idx_lt hj)]; exact List.getElem_mem _
  · intro hmem
    obtain ⟨i, hi, rfl⟩ := List.mem_iff_getElem.1 hmem
    exact ⟨m.orders.getD i 0, ok.ordersLt i hi, by rw [ok.idx_orders hi, getD_lt _ _ hi]⟩

theorem flatMap_chunks (js : List Nat) (I : Nat → List FmtItem) (V : Nat → List Val) (C : Nat → List Byte)
    (h : ∀ j ∈ js, structPack (I j) (V j) = .ok (C j)) :
    structPack (js.flatMap I) (js.flatMap V) = .ok (js.flatMap C) := by
  induction js with
  | nil => rfl
  | cons j js ih =>
    simp only [List.flatMap_cons]
    exact structPack_append (h j List.mem_cons_self) (ih fun k hk => h k (List.mem_cons_of_mem _ hk))

theorem packScalar_bytes {t : CType} {v : Val} {bs : List Byte} (h : packScalar t v = .ok bs) : ScalarBytes t bs v := by
  have hfit := packScalar_ok h
  have hlen := packScalar_length h
  cases t <;> cases v <;> simp only [FitsScalar] at hfit <;>
    simp only [packScalar, CType.isUInt, CType.isSInt, if_true, Bool.false_eq_true, if_false] at h
  case f32.flt b =>
    injection h with h; subst h
    refine ⟨hlen, ?_⟩
    rw [leNat_leBytes]
    have := b.isLt
    omega
  case char.raw s =>
    match s, hfit with
    | [b], _ => simp at h; exact h.symm
  all_goals
    split at h
    · injection h with h; subst h
      refine ⟨hlen, ?_⟩
      rw [leNat_leBytes]
      simp only [width, CType.size]
      omega
    · cases h

theorem structPack_scalars {t : CType} {vs : List Val} {bs : List Byte}
    (h : structPack (List.replicate vs.length (.scalar t)) vs = .ok bs) :
    ∃ cs : List (List Byte), bs = cs.flatten ∧ List.Forall₂ (ScalarBytes t) cs vs := by
  induction vs generalizing bs with
  | nil =>
    simp [structPack] at h
    exact ⟨[], by simp [← h], .nil⟩
  | cons v vs ih =>
    simp only [List.length_cons, List.replicate_succ, structPack, packItem, bind, Except.bind] at h
    split at h
    · cases h
    · rename_i a ha
      split at h
      · cases h
      · rename_i b hb
        injection h with h; subst h
        obtain ⟨cs, rfl, hcs⟩ := ih hb
        exact ⟨a :: cs, rfl, .cons (packScalar_bytes ha) hcs⟩

theorem field_bytes {t : CType} {n : Nat} {fv : FieldVal} (hf : FitsField t n fv) {bs : List Byte}
    (h : structPack (fieldItems t n) (flatVals fv) = .ok bs) : FieldBytes t n bs fv := by
  match fv, hf with
  | .num (.int i), ⟨ht, hn, hv⟩ =>
    subst hn
    simp only [fieldItems, ht, if_false, if_true, flatVals] at h
    obtain ⟨cs, rfl, hc⟩ := structPack_scalars (vs := [.int i]) h
    match cs, hc with
    | [c], .cons h1 .nil => simpa [FieldBytes] using h1
  | .num (.flt i), ⟨ht, hn, hv⟩ =>
    subst hn
    simp only [fieldItems, ht, if_false, if_true, flatVals] at h
    obtain ⟨cs, rfl, hc⟩ := structPack_scalars (vs := [.flt i]) h
    match cs, hc with
    | [c], .cons h1 .nil => simpa [FieldBytes] using h1
  | .num (.raw s), ⟨ht, hb⟩ =>
    subst ht
    by_cases hn : n = 0
    · subst hn
      have := hb rfl
      match s, this with
      | [b], _ =>
        simp only [fieldItems, if_true, flatVals, structPack, packItem, packScalar, bind, Except.bind] at h
        injection h with h
        simp [FieldBytes, ← h]
    · simp only [fieldItems, if_true, hn, if_false, flatVals, structPack, packItem, bind, Except.bind] at h
      injection h with h
      simp [FieldBytes, hn, ← h]
  | .arr vs, ⟨ht, hn, hl, hv⟩ =>
    have hn0 : n ≠ 0 := by omega
    simp only [fieldItems, ht, if_false, hn0, flatVals] at h
    rw [← hl] at h
    exact structPack_scalars h

/-- C09: for in-range field values the payload on the wire is the concatenation, in metadata order, of one chunk per
listed field, and each chunk is the encoding of the value of the field of that name in the listed type. -/
theorem c09_wire_order (m : MsgClass) (hm : m ∈ mavlinkMap) (fields : List FieldVal) (hw : WellTyped m fields)
    (seq sys cmp : Nat) (h2 : seq ≤ 255) (h3 : sys ≤ 255) (h4 : cmp ≤ 255) :
    ∃ (hdr : List Byte) (chunks : List (List Byte)) (sum : List Byte), packMsg m fields seq sys cmp = .ok (hdr ++ chunks.flatten ++ sum) ∧ hdr.length = 6 ∧
      sum.length = 2 ∧ chunks.length = (msgFields m).length ∧
      ∀ j (hj : j < (msgFields m).length), ∃ (i : Nat) (t : CType) (n : Nat) (fv : FieldVal), m.fieldnames[i]? = some (msgFields m)[j].1 ∧
        m.fieldtypes[i]? = some t ∧ (msgFields m)[j].2 = some t ∧ m.arrayLengths[j]? = some n ∧
        fields[i]? = some fv ∧ FieldBytes t n (chunks.getD j []) fv := by
  have ok := classOK hm
  let J := List.range m.fieldnames.length
  let V := fun j => flatVals (fields.getD (m.orders.idxOf j) (.text []))
  let I := fun j => fieldItems (wireType m j) (m.arrayLengths.getD j 0)
  have hc : ∀ j, ∃ c, j < m.fieldnames.length → structPack (I j) (V j) = .ok c := by
    intro j
    by_cases hj : j < m.fieldnames.length
    · obtain ⟨c, hc, _⟩ := field_pack (ok.fits hw hj)
      exact ⟨c, fun _ => hc⟩
    · exact ⟨[], fun h => absurd h hj⟩
  let C := fun j => (hc j).choose
  have hC : ∀ j < m.fieldnames.length, structPack (I j) (V j) = .ok (C j) := fun j hj => (hc j).choose_spec hj
  have hpack := flatMap_chunks J I V C (fun j hj => hC j (by simpa [J] using hj))
  obtain ⟨p, fmt, hf, hp, hl, h256, _, hpm⟩ :=
    packMsg_ok hm hw (seq := seq) (sys := sys) (cmp := cmp) (by omega) (by omega) (by omega)
  have hpp : p = J.flatMap C := by
    have hp' := hp
    unfold packPayload at hp'
    rw [ok.lenOrdered, mapM_ok (g := V) (fun j hj => ok.packField_ok hw (by simpa using hj))] at hp'
    simp only [bind, Except.bind, ok.fmt] at hp'
    rw [← List.flatMap_def] at hp'
    have := hp'.symm.trans hpack
    injection this
  have hlen : (msgFields m).length = m.fieldnames.length := by simp [msgFields]
  refine ⟨[254, BitVec.ofNat 8 p.length, BitVec.ofNat 8 seq, BitVec.ofNat 8 sys, BitVec.ofNat 8 cmp,
    BitVec.ofNat 8 m.id], J.map C, leBytes 2 (x25 (([BitVec.ofNat 8 p.length, BitVec.ofNat 8 seq, BitVec.ofNat 8 sys,
    BitVec.ofNat 8 cmp, BitVec.ofNat 8 m.id] ++ p) ++ [BitVec.ofNat 8 m.crcExtra])).toNat, ?_, rfl, leBytes_length _ _, by simp [hlen, J], ?_⟩
  · rw [hpm, ← List.flatMap_def, ← hpp]
  · intro j hj
    rw [hlen] at hj
    have hi := ok.idx_lt hj
    have hit : m.orders.idxOf j < m.fieldtypes.length := by rw [ok.lenTypes]; exact hi
    have hif : m.orders.idxOf j < fields.length := by rw [hw.1]; exact hi
    have hja : j < m.arrayLengths.length := by rw [ok.lenArr]; exact hj
    have hmf : (msgFields m)[j] = (m.fieldnames.getD (m.orders.idxOf j) "", some (wireType m j)) := by
      simp [msgFields_eq ok]
    refine ⟨m.orders.idxOf j, wireType m j, m.arrayLengths.getD j 0, fields.getD (m.orders.idxOf j) (.text []),
      ?_, ?_, ?_, ?_, ?_, ?_⟩
    · rw [hmf, getD_lt _ _ hi, List.getElem?_eq_getElem hi]
    · unfold wireType; rw [getD_lt _ _ hit, List.getElem?_eq_getElem hit]
    · rw [hmf]
    · rw [getD_lt _ _ hja, List.getElem?_eq_getElem hja]
    · rw [getD_lt _ _ hif, List.getElem?_eq_getElem hif]
    · have hjc : j < (J.map C).length := by simpa [J] using hj
      rw [getD_lt _ _ hjc]
      have : (J.map C)[j] = C j := by simp [J]
      rw [this]
      exact field_bytes (ok.fits hw hj) (hC j hj)

/-- STATUSTEXT with a short text meets the hypotheses. -/
example : msg253 ∈ mavlinkMap ∧ WellTyped msg253 [.num (.int 6), .num (.raw [72, 105])] := by
  refine ⟨by decide +kernel, by decide +kernel⟩

end NR
