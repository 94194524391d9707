import Verif.Lemmas.Struct
import Verif.Lemmas.Table
/-
Consistency of the class attributes, over the whole table, and the payload round trip.
-/
namespace NR
open Spec Dialect

/-- Format items of one wire field. -/
def fieldItems (t : CType) (n : Nat) : List FmtItem :=
  if t = .char then (if n = 0 then [.scalar .char] else [.str n])
  else List.replicate (if n = 0 then 1 else n) (.scalar t)

/-- Type of the `j`-th wire field: the type of the constructor field whose order is `j`. -/
def wireType (m : MsgClass) (j : Nat) : CType := m.fieldtypes.getD (m.orders.idxOf j) .char

/-- Consistency of the attributes of a message class. -/
structure ClassOK (m : MsgClass) : Prop where
  lenTypes : m.fieldtypes.length = m.fieldnames.length
  lenOrdered : m.orderedFieldnames.length = m.fieldnames.length
  lenOrders : m.orders.length = m.fieldnames.length
  lenLengths : m.lengths.length = m.fieldnames.length
  lenArr : m.arrayLengths.length = m.fieldnames.length
  namesNodup : m.fieldnames.Nodup
  ordersOnto : ∀ j < m.fieldnames.length, j ∈ m.orders
  ordersNodup : m.orders.Nodup
  orderedEq : ∀ i < m.fieldnames.length,
    m.orderedFieldnames.getD (m.orders.getD i 0) "" = m.fieldnames.getD i ""
  ordersLt : ∀ i < m.fieldnames.length, m.orders.getD i 0 < m.fieldnames.length
  lengthsEq : ∀ j < m.fieldnames.length, m.lengths.getD j 0 =
    if wireType m j = .char ∨ m.arrayLengths.getD j 0 = 0 then 1 else m.arrayLengths.getD j 0
  arrNeOne : ∀ j < m.fieldnames.length, m.arrayLengths.getD j 0 ≠ 1
  noPlainChar : ∀ j < m.fieldnames.length, wireType m j = .char → m.arrayLengths.getD j 0 ≠ 0
  fmt : structFmt m.format =
    some ((List.range m.fieldnames.length).flatMap fun j => fieldItems (wireType m j) (m.arrayLengths.getD j 0))
  size : calcsize ((List.range m.fieldnames.length).flatMap fun j =>
    fieldItems (wireType m j) (m.arrayLengths.getD j 0)) < 256
  nonempty : 0 < m.fieldnames.length
  extra : m.crcExtra < 256
  idLt : m.id < 256

/-- Decidable form of `ClassOK`. -/
def classOKb (m : MsgClass) : Bool :=
  decide (m.fieldtypes.length = m.fieldnames.length) &&
  decide (m.orderedFieldnames.length = m.fieldnames.length) &&
  decide (m.orders.length = m.fieldnames.length) &&
  decide (m.lengths.length = m.fieldnames.length) &&
  decide (m.arrayLengths.length = m.fieldnames.length) &&
  decide (m.fieldnames.Nodup) &&
  decide (∀ j < m.fieldnames.length, j ∈ m.orders) &&
  decide (m.orders.Nodup) &&
  decide (∀ i < m.fieldnames.length,
    m.orderedFieldnames.getD (m.orders.getD i 0) "" = m.fieldnames.getD i "") &&
  decide (∀ i < m.fieldnames.length, m.orders.getD i 0 < m.fieldnames.length) &&
  decide (∀ j < m.fieldnames.length, m.lengths.getD j 0 =
    if wireType m j = .char ∨ m.arrayLengths.getD j 0 = 0 then 1 else m.arrayLengths.getD j 0) &&
  decide (∀ j < m.fieldnames.length, m.arrayLengths.getD j 0 ≠ 1) &&
  decide (∀ j < m.fieldnames.length, wireType m j = .char → m.arrayLengths.getD j 0 ≠ 0) &&
  decide (structFmt m.format =
    some ((List.range m.fieldnames.length).flatMap fun j => fieldItems (wireType m j) (m.arrayLengths.getD j 0))) &&
  decide (calcsize ((List.range m.fieldnames.length).flatMap fun j =>
    fieldItems (wireType m j) (m.arrayLengths.getD j 0)) < 256) &&
  decide (0 < m.fieldnames.length) &&
  decide (m.crcExtra < 256) &&
  decide (m.id < 256)

theorem classOK_of_b {m : MsgClass} (h : classOKb m = true) : ClassOK m := by
  simp only [classOKb, Bool.and_eq_true, decide_eq_true_eq] at h
  obtain ⟨⟨⟨⟨⟨⟨⟨⟨⟨⟨⟨⟨⟨⟨⟨⟨⟨h1, h2⟩, h3⟩, h4⟩, h5⟩, h6⟩, h7⟩, h8⟩, h9⟩, h10⟩, h11⟩, h12⟩, h13⟩, h14⟩, h15⟩, h16⟩, h17⟩, h18⟩ := h
  exact ⟨h1, h2, h3, h4, h5, h6, h7, h8, h9, h10, h11, h12, h13, h14, h15, h16, h17, h18⟩

theorem table_classOKb : mavlinkMap.all classOKb = true := by decide +kernel

/-- Every class of the dialect is consistent (kernel evaluation over the whole table). -/
theorem classOK {m : MsgClass} (hm : m ∈ mavlinkMap) : ClassOK m :=
  classOK_of_b (List.all_eq_true.1 table_classOKb m hm)

/-! ### Payload round trip -/

/-- Values handed to `struct.pack` for one field. -/
def flatVals : FieldVal → List Val
  | .num v => [v]
  | .arr vs => vs
  | .text _ => []

/-- Values obtained back from `struct.unpack` for one field. -/
def flatRecv (n : Nat) : FieldVal → List Val
  | .num (.raw bs) => [.raw ((bs ++ List.replicate n 0).take (if n = 0 then 1 else n))]
  | .num v => [v]
  | .arr vs => vs
  | .text _ => []

theorem structPack_replicate {t : CType} {vs : List Val} (h : ∀ v ∈ vs, FitsScalar t v) :
    ∃ bs, structPack (List.replicate vs.length (.scalar t)) vs = .ok bs ∧
      unpackItems (List.replicate vs.length (.scalar t)) bs = vs := by
  induction vs with
  | nil => exact ⟨[], rfl, rfl⟩
  | cons v vs ih =>
    obtain ⟨b, hb, hl, hu⟩ := packScalar_fits (h v List.mem_cons_self)
    obtain ⟨bs, hbs, hus⟩ := ih (fun w hw => h w (List.mem_cons_of_mem _ hw))
    refine ⟨b ++ bs, ?_, ?_⟩
    · simp only [List.length_cons, List.replicate_succ, structPack, packItem, hb, hbs, bind, Except.bind]
    · have := unpackItems_append [.scalar t] (List.replicate vs.length (.scalar t)) b bs
        (by simp [calcsize, FmtItem.size, hl])
      simp only [List.length_cons, List.replicate_succ]
      rw [show FmtItem.scalar t :: List.replicate vs.length (FmtItem.scalar t)
        = [FmtItem.scalar t] ++ List.replicate vs.length (FmtItem.scalar t) from rfl, this, hus]
      simp only [unpackItems, FmtItem.size, unpackItem]
      rw [List.take_of_length_le (by omega), hu]
      rfl

theorem field_pack {t : CType} {n : Nat} {fv : FieldVal} (h : FitsField t n fv) :
    ∃ bs, structPack (fieldItems t n) (flatVals fv) = .ok bs ∧
      unpackItems (fieldItems t n) bs = flatRecv n fv := by
  have scal : ∀ v : Val, t ≠ .char → n = 0 → FitsScalar t v →
      ∃ bs, structPack (fieldItems t n) [v] = .ok bs ∧ unpackItems (fieldItems t n) bs = [v] := by
    intro v ht hn hv
    have := structPack_replicate (t := t) (vs := [v]) (by simpa using hv)
    simpa [fieldItems, ht, hn] using this
  match fv, h with
  | .num (.int i), ⟨ht, hn, hv⟩ => exact scal _ ht hn hv
  | .num (.flt i), ⟨ht, hn, hv⟩ => exact scal _ ht hn hv
  | .arr vs, ⟨ht, hn, hl, hv⟩ =>
    have := structPack_replicate hv
    rw [hl] at this
    simpa [fieldItems, ht, Nat.pos_iff_ne_zero.1 hn, flatVals, flatRecv] using this
  | .num (.raw bs), ⟨ht, hb⟩ =>
    subst ht
    by_cases hn : n = 0
    · subst hn
      have := hb rfl
      match bs, this with
      | [b], _ =>
        exact ⟨[b], rfl, rfl⟩
    · refine ⟨(bs ++ List.replicate n 0).take n, ?_, ?_⟩
      · simp [fieldItems, hn, flatVals, structPack, packItem, bind, Except.bind]
      · simp [fieldItems, hn, flatRecv, unpackItems, unpackItem, FmtItem.size, List.take_take]

theorem flatMap_pack (js : List Nat) (I : Nat → List FmtItem) (V V' : Nat → List Val)
    (h : ∀ j ∈ js, ∃ bs, structPack (I j) (V j) = .ok bs ∧ unpackItems (I j) bs = V' j) :
    ∃ bs, structPack (js.flatMap I) (js.flatMap V) = .ok bs ∧
      unpackItems (js.flatMap I) bs = js.flatMap V' := by
  induction js with
  | nil => exact ⟨[], rfl, rfl⟩
  | cons j js ih =>
    obtain ⟨b, hb, hu⟩ := h j List.mem_cons_self
    obtain ⟨bs, hbs, hus⟩ := ih (fun k hk => h k (List.mem_cons_of_mem _ hk))
    refine ⟨b ++ bs, ?_, ?_⟩
    · simpa using structPack_append hb hbs
    · rw [List.flatMap_cons, List.flatMap_cons, unpackItems_append _ _ _ _ (structPack_length hb), hu, hus]

theorem lookup_zip {β : Type _} [Inhabited β] {ks : List String} {vs : List β} (hn : ks.Nodup)
    (hl : vs.length = ks.length) {i : Nat} (hi : i < ks.length) (d : β) :
    (ks.zip vs).lookup (ks.getD i "") = some (vs.getD i d) := by
  induction ks generalizing vs i with
  | nil => simp at hi
  | cons k ks ih =>
    cases vs with
    | nil => simp at hl
    | cons v vs =>
      simp only [List.nodup_cons] at hn
      cases i with
      | zero => simp [List.lookup_cons]
      | succ i =>
        simp only [List.length_cons] at hi hl
        have hi' : i < ks.length := by omega
        have hne : ks.getD i "" ≠ k := by
          intro he
          apply hn.1
          rw [← he, getD_lt _ _ hi']
          exact List.getElem_mem _
        have hb : (ks.getD i "" == k) = false := by simpa using hne
        simp only [List.getD_cons_succ, List.zip_cons_cons, List.lookup_cons, hb]
        exact ih hn.2 (by omega) hi'

theorem idxOf_getElem_nodup {l : List Nat} (hn : l.Nodup) {i : Nat} (hi : i < l.length) : l.idxOf l[i] = i := by
  have h := List.idxOf_lt_length_iff.2 (List.getElem_mem hi)
  exact (List.getElem_inj hn).1 (List.getElem_idxOf h)

namespace ClassOK
variable {m : MsgClass} (ok : ClassOK m)
include ok

theorem idx_lt {j : Nat} (hj : j < m.fieldnames.length) : m.orders.idxOf j < m.fieldnames.length := by
  rw [← ok.lenOrders]; exact List.idxOf_lt_length_iff.2 (ok.ordersOnto j hj)

theorem orders_idx {j : Nat} (hj : j < m.fieldnames.length) : m.orders.getD (m.orders.idxOf j) 0 = j := by
  have h := List.idxOf_lt_length_iff.2 (ok.ordersOnto j hj)
  rw [getD_lt _ _ h]
  exact List.getElem_idxOf h

theorem idx_orders {i : Nat} (hi : i < m.fieldnames.length) : m.orders.idxOf (m.orders.getD i 0) = i := by
  have h : i < m.orders.length := by rw [ok.lenOrders]; exact hi
  rw [getD_lt _ _ h]
  exact idxOf_getElem_nodup ok.ordersNodup h

theorem wireType_orders {i : Nat} (hi : i < m.fieldnames.length) :
    wireType m (m.orders.getD i 0) = m.fieldtypes.getD i .char := by
  unfold wireType; rw [ok.idx_orders hi]

theorem ordered_eq {j : Nat} (hj : j < m.fieldnames.length) :
    m.orderedFieldnames.getD j "" = m.fieldnames.getD (m.orders.idxOf j) "" := by
  have := ok.orderedEq _ (ok.idx_lt hj)
  rw [ok.orders_idx hj] at this
  exact this

theorem lookup_type {j : Nat} (hj : j < m.fieldnames.length) :
    (m.fieldnames.zip m.fieldtypes).lookup (m.orderedFieldnames.getD j "") = some (wireType m j) := by
  haveI : Inhabited CType := ⟨.char⟩
  rw [ok.ordered_eq hj]
  exact lookup_zip ok.namesNodup ok.lenTypes (ok.idx_lt hj) .char

theorem lookup_field {fields : List FieldVal} (hl : fields.length = m.fieldnames.length)
    {j : Nat} (hj : j < m.fieldnames.length) :
    (m.fieldnames.zip fields).lookup (m.orderedFieldnames.getD j "")
      = some (fields.getD (m.orders.idxOf j) (.text [])) := by
  haveI : Inhabited FieldVal := ⟨.text []⟩
  rw [ok.ordered_eq hj]
  exact lookup_zip ok.namesNodup hl (ok.idx_lt hj) _

theorem fits {fields : List FieldVal} (hw : WellTyped m fields) {j : Nat} (hj : j < m.fieldnames.length) :
    FitsField (wireType m j) (m.arrayLengths.getD j 0) (fields.getD (m.orders.idxOf j) (.text [])) := by
  have := hw.2 _ (ok.idx_lt hj)
  rw [ok.orders_idx hj] at this
  exact this

theorem packField_ok {fields : List FieldVal} (hw : WellTyped m fields) {j : Nat}
    (hj : j < m.fieldnames.length) :
    packField m fields j = .ok (flatVals (fields.getD (m.orders.idxOf j) (.text []))) := by
  have hf := ok.fits hw hj
  unfold packField
  simp only [ok.lookup_field hw.1 hj, ok.lookup_type hj, Option.some.injEq]
  revert hf
  generalize fields.getD (m.orders.idxOf j) (.text []) = fv
  intro hf
  match fv, hf with
  | .num (.int i), ⟨ht, hn, hv⟩ => rw [if_pos (Or.inl hn)]; rfl
  | .num (.flt i), ⟨ht, hn, hv⟩ => rw [if_pos (Or.inl hn)]; rfl
  | .num (.raw bs), ⟨ht, hb⟩ => rw [if_pos (Or.inr ht)]; rfl
  | .arr vs, ⟨ht, hn, hl, hv⟩ =>
    rw [if_neg (by intro h; rcases h with h | h; omega; exact ht h)]
    rw [← hl]
    rw [mapM_ok (g := fun i => vs.getD i (.int 0))]
    · congr 1
      simp only [flatVals]
      apply List.ext_getElem
      · simp
      · intro i h1 h2
        simp only [List.getElem_map, List.getElem_range]
        exact getD_lt _ _ h2
    · intro i hi
      have hi' : i < vs.length := by simpa using hi
      simp [FieldVal.index, List.getElem?_eq_getElem hi', getD_lt _ _ hi']

/-- Packing well-typed fields succeeds; unpacking the payload gives back the (padded) values in wire order. -/
theorem payload_ok {fields : List FieldVal} (hw : WellTyped m fields) :
    ∃ fmt p, structFmt m.format = some fmt ∧ packPayload m fields = .ok p ∧ p.length = calcsize fmt ∧
      p.length < 256 ∧
      unpackItems fmt p = (List.range m.fieldnames.length).flatMap fun j =>
        flatRecv (m.arrayLengths.getD j 0) (fields.getD (m.orders.idxOf j) (.text [])) := by
  obtain ⟨p, hp, hu⟩ := flatMap_pack (List.range m.fieldnames.length)
    (fun j => fieldItems (wireType m j) (m.arrayLengths.getD j 0))
    (fun j => flatVals (fields.getD (m.orders.idxOf j) (.text [])))
    (fun j => flatRecv (m.arrayLengths.getD j 0) (fields.getD (m.orders.idxOf j) (.text [])))
    (fun j hj => field_pack (ok.fits hw (by simpa using hj)))
  refine ⟨_, p, ok.fmt, ?_, structPack_length hp, ?_, hu⟩
  · unfold packPayload
    rw [ok.lenOrdered, mapM_ok (g := fun j => flatVals (fields.getD (m.orders.idxOf j) (.text [])))
      (fun j hj => ok.packField_ok hw (by simpa using hj))]
    simp only [bind, Except.bind, ok.fmt]
    rw [← List.flatMap_def]
    exact hp
  · rw [structPack_length hp]; exact ok.size

end ClassOK

/-- Slices of a concatenation indexed by `range`. -/
theorem flatMap_range_slice {α : Type _} (n o : Nat) (V : Nat → List α) (ho : o < n) :
    (((List.range n).flatMap V).drop (((List.range n).map fun j => (V j).length).take o).sum).take (V o).length
      = V o := by
  have e : List.range n = (List.range n).take o ++ o :: (List.range n).drop (o + 1) := by
    conv => lhs; rw [← List.take_append_drop o (List.range n)]
    rw [List.drop_eq_getElem_cons (by simpa using ho)]
    simp
  have hs : (((List.range n).map fun j => (V j).length).take o).sum
      = (((List.range n).take o).flatMap V).length := by
    rw [← List.map_take, List.length_flatMap]
  rw [hs]
  conv => lhs; rw [e]
  have e2 : (List.take o (List.take o (List.range n) ++ o :: List.drop (o + 1) (List.range n)))
      = List.take o (List.range n) := by rw [← e]
  rw [e2, List.flatMap_append, List.drop_left, List.flatMap_cons, List.take_left]

theorem flatMap_range_getElem? {α : Type _} (n o : Nat) (V : Nat → List α) (ho : o < n) (h : 0 < (V o).length) :
    ((List.range n).flatMap V)[(((List.range n).map fun j => (V j).length).take o).sum]? = (V o)[0]? := by
  have := flatMap_range_slice n o V ho
  conv => rhs; rw [← this]
  rw [List.getElem?_take_of_lt h, List.getElem?_drop]
  simp

theorem all_one_of_sum {l : List Nat} (h1 : ∀ x ∈ l, 1 ≤ x) (hs : l.sum = l.length) : ∀ x ∈ l, x = 1 := by
  have ge : ∀ l : List Nat, (∀ x ∈ l, 1 ≤ x) → l.length ≤ l.sum := by
    intro l h
    induction l with
    | nil => simp
    | cons a l ih =>
      have := ih (fun x hx => h x (List.mem_cons_of_mem _ hx))
      have := h a List.mem_cons_self
      simp only [List.length_cons, List.sum_cons]; omega
  induction l with
  | nil => simp
  | cons a l ih =>
    have h2 := ge l (fun x hx => h1 x (List.mem_cons_of_mem _ hx))
    have h3 := h1 a List.mem_cons_self
    simp only [List.length_cons, List.sum_cons] at hs
    intro x hx
    rcases List.mem_cons.1 hx with rfl | hx
    · omega
    · exact ih (fun x hx => h1 x (List.mem_cons_of_mem _ hx)) (by omega) x hx

theorem sum_take_ones {l : List Nat} (h : ∀ x ∈ l, x = 1) (k : Nat) (hk : k ≤ l.length) : (l.take k).sum = k := by
  have : l = List.replicate l.length 1 := List.eq_replicate_iff.2 ⟨rfl, h⟩
  rw [this, List.take_replicate]
  simp
  omega

/-- Result of the reordering loop on the concatenation of per-field values `V j` (wire order). -/
def reordered (m : MsgClass) (V : Nat → List Val) (i : Nat) : FieldVal :=
  let o := m.orders.getD i 0
  if m.lengths.getD o 0 = 1 then .num ((V o).getD 0 (.int 0)) else .arr (V o)

theorem ClassOK.reorder_ok {m : MsgClass} (ok : ClassOK m) (V : Nat → List Val)
    (hV : ∀ j < m.fieldnames.length, (V j).length = m.lengths.getD j 0) :
    reorder m ((List.range m.fieldnames.length).flatMap V) =
      .ok ((List.range m.fieldnames.length).map (reordered m V)) := by
  have hlen : m.lengths = (List.range m.fieldnames.length).map fun j => (V j).length := by
    apply List.ext_getElem
    · simp [ok.lenLengths]
    · intro i h1 h2
      have hi : i < m.fieldnames.length := by rw [← ok.lenLengths]; exact h1
      simp only [List.getElem_map, List.getElem_range]
      rw [hV i hi, getD_lt _ _ h1]
  have hpos : ∀ j < m.fieldnames.length, 1 ≤ m.lengths.getD j 0 := by
    intro j hj
    rw [ok.lengthsEq j hj]
    split
    · omega
    · rename_i h
      have : m.arrayLengths.getD j 0 ≠ 0 := fun hc => h (Or.inr hc)
      omega
  have hget : ∀ o < m.fieldnames.length,
      ((List.range m.fieldnames.length).flatMap V)[(m.lengths.take o).sum]? = some ((V o).getD 0 (.int 0)) := by
    intro o ho
    have h0 : 0 < (V o).length := by rw [hV o ho]; exact hpos o ho
    rw [hlen, flatMap_range_getElem? _ _ _ ho h0, List.getElem?_eq_getElem h0, getD_lt _ _ h0]
  have hslice : ∀ o < m.fieldnames.length,
      pySlice ((List.range m.fieldnames.length).flatMap V) (m.lengths.take o).sum
        ((m.lengths.take o).sum + m.lengths.getD o 0) = V o := by
    intro o ho
    unfold pySlice
    rw [List.drop_take, ← hV o ho, show ∀ a b : Nat, a + b - a = b from by omega]
    conv => lhs; rw [hlen]
    exact flatMap_range_slice _ _ _ ho
  have hord : ∀ i < m.fieldnames.length, m.orders[i]? = some (m.orders.getD i 0) := by
    intro i hi
    have h : i < m.orders.length := by rw [ok.lenOrders]; exact hi
    rw [List.getElem?_eq_getElem h, getD_lt _ _ h]
  unfold reorder
  split
  · rename_i hs
    have ones : ∀ x ∈ m.lengths, x = 1 := by
      apply all_one_of_sum _ hs
      intro x hx
      obtain ⟨j, hj, rfl⟩ := List.mem_iff_getElem.1 hx
      have := hpos j (by rw [← ok.lenLengths]; exact hj)
      rwa [getD_lt _ _ hj] at this
    have hone : ∀ j < m.fieldnames.length, m.lengths.getD j 0 = 1 := by
      intro j hj
      have hj' : j < m.lengths.length := by rw [ok.lenLengths]; exact hj
      rw [getD_lt _ _ hj']
      exact ones _ (List.getElem_mem _)
    have htl : ((List.range m.fieldnames.length).flatMap V).length = m.fieldnames.length := by
      rw [List.length_flatMap, ← hlen, hs, ok.lenLengths]
    rw [htl]
    apply mapM_ok
    intro i hi
    have hi' : i < m.fieldnames.length := by simpa using hi
    have ho := ok.ordersLt i hi'
    have := hget _ ho
    rw [sum_take_ones ones _ (by rw [ok.lenLengths]; omega)] at this
    simp only [hord i hi', this]
    rw [reordered, if_pos (hone _ ho)]
  · have e : m.orders = (List.range m.fieldnames.length).map fun i => m.orders.getD i 0 := by
      apply List.ext_getElem
      · simp [ok.lenOrders]
      · intro i h1 h2
        simp only [List.getElem_map, List.getElem_range]
        rw [getD_lt _ _ h1]
    rw [e, List.mapM_map]
    apply mapM_ok
    intro i hi
    have hi' : i < m.fieldnames.length := by simpa using hi
    have ho := ok.ordersLt i hi'
    have hL : m.lengths[m.orders.getD i 0]? = some (m.lengths.getD (m.orders.getD i 0) 0) := by
      have h : m.orders.getD i 0 < m.lengths.length := by rw [ok.lenLengths]; exact ho
      rw [List.getElem?_eq_getElem h, getD_lt _ _ h]
    simp only [Function.comp, hL, hget _ ho, hslice _ ho]
    simp only [reordered]
    split <;> rfl

theorem ClassOK.terminate_ok {m : MsgClass} (ok : ClassOK m) (l : List FieldVal)
    (hl : l.length = m.fieldnames.length) :
    terminateStrings m l = .ok (l.mapIdx fun i v =>
      if m.fieldtypes.getD i .char = .char then .text (mavString (toStringPy v)) else v) := by
  unfold terminateStrings
  rw [mapM_ok (g := fun i => if m.fieldtypes.getD i .char = .char then
    .text (mavString (toStringPy (l.getD i (.num (.int 0))))) else l.getD i (.num (.int 0)))]
  · congr 1
    apply List.ext_getElem
    · simp
    · intro i h1 h2
      have hi : i < l.length := by simpa using h1
      simp only [List.getElem_map, List.getElem_range, List.getElem_mapIdx, getD_lt _ _ hi]
  · intro i hi
    have hi' : i < m.fieldtypes.length := by rw [ok.lenTypes, ← hl]; simpa using hi
    simp only [List.getElem?_eq_getElem hi', getD_lt _ _ hi']
    split <;> rfl

theorem flatRecv_length {m : MsgClass} (ok : ClassOK m) {fields : List FieldVal} (hw : WellTyped m fields)
    {j : Nat} (hj : j < m.fieldnames.length) :
    (flatRecv (m.arrayLengths.getD j 0) (fields.getD (m.orders.idxOf j) (.text []))).length
      = m.lengths.getD j 0 := by
  have hf := ok.fits hw hj
  rw [ok.lengthsEq j hj]
  revert hf
  generalize fields.getD (m.orders.idxOf j) (.text []) = fv
  intro hf
  match fv, hf with
  | .num (.int i), ⟨ht, hn, hv⟩ => rw [if_pos (Or.inr hn)]; rfl
  | .num (.flt i), ⟨ht, hn, hv⟩ => rw [if_pos (Or.inr hn)]; rfl
  | .num (.raw bs), ⟨ht, hb⟩ => rw [if_pos (Or.inl ht)]; rfl
  | .arr vs, ⟨ht, hn, hl, hv⟩ =>
    rw [if_neg (by intro h; rcases h with h | h; exact ht h; omega)]
    exact hl

/-- Unpacked values are reordered and terminated into the received field values. -/
theorem ClassOK.fields_back {m : MsgClass} (ok : ClassOK m) {fields : List FieldVal} (hw : WellTyped m fields) :
    (do
      let l ← reorder m ((List.range m.fieldnames.length).flatMap fun j =>
        flatRecv (m.arrayLengths.getD j 0) (fields.getD (m.orders.idxOf j) (.text [])))
      terminateStrings m l) = .ok (receivedFields m fields) := by
  rw [ok.reorder_ok _ (fun j hj => flatRecv_length ok hw hj)]
  simp only [bind, Except.bind]
  rw [ok.terminate_ok _ (by simp)]
  congr 1
  apply List.ext_getElem
  · simp [receivedFields, hw.1]
  · intro i h1 h2
    have hi : i < m.fieldnames.length := by simpa using h1
    have hif : i < fields.length := by rw [hw.1]; exact hi
    simp only [receivedFields, List.getElem_mapIdx, List.getElem_map, List.getElem_range, reordered,
      ok.idx_orders hi]
    have hf := hw.2 i hi
    have hL := ok.lengthsEq _ (ok.ordersLt i hi)
    rw [ok.wireType_orders hi] at hL
    have h1' := ok.arrNeOne _ (ok.ordersLt i hi)
    rw [getD_lt _ _ hif] at hf ⊢
    revert hf hL h1'
    generalize fields[i] = fv
    generalize m.arrayLengths.getD (m.orders.getD i 0) 0 = n
    generalize m.fieldtypes.getD i .char = t
    generalize m.lengths.getD (m.orders.getD i 0) 0 = L
    intro hf hL h1'
    match fv, hf with
    | .num (.int i), ⟨ht, hn, hv⟩ => simp [hL, hn, flatRecv, received, ht]
    | .num (.flt i), ⟨ht, hn, hv⟩ => simp [hL, hn, flatRecv, received, ht]
    | .num (.raw bs), ⟨ht, hb⟩ =>
      simp only [hL, ht, true_or, if_true, flatRecv, received, toStringPy, List.getD_cons_zero, mavString]
      congr 1
      generalize (bs ++ List.replicate n 0).take (if n = 0 then 1 else n) = q
      cases utf8Valid q <;> rfl
    | .arr vs, ⟨ht, hn, hl, hv⟩ =>
      have : ¬ n = 0 := by omega
      simp [hL, ht, this, h1', flatRecv, received]

end NR
