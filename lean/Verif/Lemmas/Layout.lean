import Verif.Model.BufferModel
import Verif.Spec.Layout
import Verif.Lemmas.Wire
/-
The bit-to-field map and the unpacked values in terms of the field layout.
-/
namespace NR
open Spec Dialect

theorem width_size (t : CType) : width t = t.size := by cases t <;> rfl
theorem width_fieldLength (t : CType) : width t = fieldLength t := by cases t <;> rfl
theorem width_pos (t : CType) : 0 < width t := by cases t <;> decide

/-- Total width. -/
def widthSum (l : List (String × CType)) : Nat := (l.map fun p => width p.2).sum

theorem placeFrom_append (o : Nat) (a b : List (String × CType)) :
    placeFrom o (a ++ b) = placeFrom o a ++ placeFrom (o + widthSum a) b := by
  induction a generalizing o with
  | nil => simp [placeFrom, widthSum]
  | cons x a ih =>
    obtain ⟨n, t⟩ := x
    simp only [List.cons_append, placeFrom, ih]
    simp only [widthSum, List.map_cons, List.sum_cons, Nat.add_assoc]

theorem placeFrom_names (o : Nat) (l : List (String × CType)) : (placeFrom o l).map Place.name = l.map Prod.fst := by
  induction l generalizing o with
  | nil => rfl
  | cons x l ih => obtain ⟨n, t⟩ := x; simp [placeFrom, ih]

theorem placeFrom_types (o : Nat) (l : List (String × CType)) : (placeFrom o l).map Place.type = l.map Prod.snd := by
  induction l generalizing o with
  | nil => rfl
  | cons x l ih => obtain ⟨n, t⟩ := x; simp [placeFrom, ih]

theorem placeFrom_length (o : Nat) (l : List (String × CType)) : (placeFrom o l).length = l.length := by
  have := congrArg List.length (placeFrom_names o l)
  simpa using this

/-- The fields tile the stretch they occupy. -/
theorem placeFrom_cover (o : Nat) (l : List (String × CType)) (k : Nat) :
    (∃ p ∈ placeFrom o l, p.Has k) ↔ o ≤ k ∧ k < o + widthSum l := by
  induction l generalizing o with
  | nil => simp [placeFrom, widthSum]
  | cons x l ih =>
    obtain ⟨n, t⟩ := x
    simp only [placeFrom, List.mem_cons, exists_eq_or_imp, ih]
    simp only [Place.Has, widthSum, List.map_cons, List.sum_cons]
    omega

theorem placeFrom_pairwise (o : Nat) (l : List (String × CType)) :
    (placeFrom o l).Pairwise fun p q => ∀ k, ¬ (p.Has k ∧ q.Has k) := by
  induction l generalizing o with
  | nil => exact List.Pairwise.nil
  | cons x l ih =>
    obtain ⟨n, t⟩ := x
    refine List.Pairwise.cons ?_ (ih _)
    rintro q hq k ⟨h1, h2⟩
    have := (placeFrom_cover (o + width t) l k).1 ⟨q, hq, h2⟩
    simp only [Place.Has] at h1
    omega

/-! ### Facts about the array-free classes -/

/-- Names and types of the payload fields. -/
def payloadList (m : MsgClass) : List (String × CType) :=
  m.orderedFieldnames.map fun nm => (m.name ++ "_" ++ nm, ((m.fieldnames.zip m.fieldtypes).lookup nm).getD .char)

/-- Wire types of a class. -/
def wireTypes (m : MsgClass) : List CType :=
  m.orderedFieldnames.map fun nm => ((m.fieldnames.zip m.fieldtypes).lookup nm).getD .char

theorem payloadList_types (m : MsgClass) : (payloadList m).map Prod.snd = wireTypes m := by
  simp [payloadList, wireTypes, Function.comp_def]

/-- Facts used below, as a decidable test. -/
def plainOKb (m : MsgClass) : Bool :=
  decide (structTypes m = .ok (wireTypes m)) &&
  if NoArrays m then
    decide ((m.format.drop 1).map codeType = (wireTypes m).map some) &&
    decide (structFmt m.format = some ((wireTypes m).map FmtItem.scalar)) &&
    decide (((wireTypes m).map width).sum = msgLen m)
  else
    (m.format.drop 1).any (fun c => decide (codeType c = none)) &&
    (match structFmt m.format with
      | none => false
      | some f => decide (msgLen m < calcsize f))

theorem table_plainOKb : mavlinkMap.all plainOKb = true := by decide +kernel

theorem structTypes_ok {m : MsgClass} (hm : m ∈ mavlinkMap) : structTypes m = .ok (wireTypes m) := by
  have := List.all_eq_true.1 table_plainOKb m hm
  simp only [plainOKb, Bool.and_eq_true, decide_eq_true_eq] at this
  exact this.1

theorem plain_facts {m : MsgClass} (hm : m ∈ mavlinkMap) (hn : NoArrays m) :
    (m.format.drop 1).map codeType = (wireTypes m).map some ∧
      structFmt m.format = some ((wireTypes m).map FmtItem.scalar) ∧ ((wireTypes m).map width).sum = msgLen m := by
  have := List.all_eq_true.1 table_plainOKb m hm
  simp only [plainOKb, Bool.and_eq_true, decide_eq_true_eq, hn, if_true] at this
  exact ⟨this.2.1.1, this.2.1.2, this.2.2⟩

theorem array_facts {m : MsgClass} (hm : m ∈ mavlinkMap) (hn : ¬ NoArrays m) :
    (∃ c ∈ m.format.drop 1, codeType c = none) ∧ ∃ f, structFmt m.format = some f ∧ msgLen m < calcsize f := by
  have := List.all_eq_true.1 table_plainOKb m hm
  simp only [plainOKb, Bool.and_eq_true, hn, if_false, List.any_eq_true, decide_eq_true_eq] at this
  refine ⟨this.2.1, ?_⟩
  have h2 := this.2.2
  cases hf : structFmt m.format with
  | none => simp [hf] at h2
  | some f => exact ⟨f, rfl, by simpa [hf] using h2⟩

/-- Header names and types. -/
def headerList (m : MsgClass) : List (String × CType) :=
  [("magic", .u8), (m.name ++ "_mlen", .u8), ("seq", .u8), ("srcSystem", .u8), (m.name ++ "_srcComponent", .u8),
    (m.name ++ "_msgId", .u8)]

theorem msgFieldList_eq (m : MsgClass) : msgFieldList m = headerList m ++ payloadList m := rfl

theorem widthSum_header (m : MsgClass) : widthSum (headerList m) = 6 := rfl

theorem widthSum_payload {m : MsgClass} (hm : m ∈ mavlinkMap) (hn : NoArrays m) :
    widthSum (payloadList m) = msgLen m := by
  rw [← (plain_facts hm hn).2.2, ← payloadList_types, List.map_map]
  rfl

theorem msgPlaces_eq {m : MsgClass} (hm : m ∈ mavlinkMap) (i : Nat) :
    msgPlaces (i, m.id) = placeFrom i (headerList m) ++ placeFrom (i + 6) (payloadList m) := by
  simp only [msgPlaces, lookupMsg_mem hm]
  rw [msgFieldList_eq, placeFrom_append, widthSum_header]

/-- The fields of a message tile its header and payload. -/
theorem msgPlaces_cover {m : MsgClass} (hm : m ∈ mavlinkMap) (hn : NoArrays m) (i k : Nat) :
    (∃ p ∈ msgPlaces (i, m.id), p.Has k) ↔ Occupies (i, m.id) k := by
  have h1 : msgPlaces (i, m.id) = placeFrom i (msgFieldList m) := by
    simp only [msgPlaces, lookupMsg_mem hm]
  rw [h1, placeFrom_cover]
  have : widthSum (msgFieldList m) = 6 + msgLen m := by
    rw [msgFieldList_eq, ← widthSum_header m, ← widthSum_payload hm hn]
    simp [widthSum]
  simp only [Occupies, payloadLen_mem hm, Option.getD_some]
  omega

/-! ### The bit map -/

/-- Index of the last field covering byte `k`, or -1. -/
def coverIdx (ps : List Place) (k : Nat) : Int :=
  ps.zipIdx.foldl (fun acc pj => if pj.1.Has k then (pj.2 : Int) else acc) (-1)

theorem coverIdx_append (ps : List Place) (p : Place) (k : Nat) :
    coverIdx (ps ++ [p]) k = if p.Has k then (ps.length : Int) else coverIdx ps k := by
  unfold coverIdx
  rw [List.zipIdx_append]
  simp

/-- The array is the map of the fields seen so far. -/
structure MapOK (len : Nat) (arr : List Int) (ps : List Place) : Prop where
  length : arr.length = len * 8
  value : ∀ b, b < len * 8 → arr[b]? = some (coverIdx ps (b / 8))

theorem mapOK_init (len : Nat) : MapOK len (List.replicate (len * 8) (-1)) [] := by
  refine ⟨by simp, ?_⟩
  intro b hb
  simp [List.getElem?_replicate, hb, coverIdx]

theorem assign_ok {len : Nat} {arr : List Int} {ps : List Place} (h : MapOK len arr ps) (p : Place)
    (hp : p.start + width p.type ≤ len) :
    ∃ arr', assignSlice arr (p.start * 8) (width p.type * 8) ps.length = .ok arr' ∧ MapOK len arr' (ps ++ [p]) := by
  have hl : (pySlice arr (p.start * 8) (p.start * 8 + width p.type * 8)).length = width p.type * 8 := by
    simp only [pySlice, List.length_drop, List.length_take, h.length]
    omega
  refine ⟨_, by rw [assignSlice, if_pos hl], ?_, ?_⟩
  · simp [setSlice, h.length]
  · intro b hb
    rw [coverIdx_append]
    simp only [setSlice, List.getElem?_mapIdx, h.value b hb, Option.map_some]
    congr 1
    have : (p.start * 8 ≤ b ∧ b < p.start * 8 + width p.type * 8) ↔ p.Has (b / 8) := by
      simp only [Place.Has]; omega
    simp only [this]

theorem assign_fail (arr : List Int) (start w : Nat) (v : Int) (hw : 0 < w) (h : arr.length < start + w) :
    assignSlice arr start w v = .error .valueError := by
  rw [assignSlice, if_neg]
  simp only [pySlice, List.length_drop, List.length_take]
  omega

/-- Writing a list of consecutive header bytes. -/
theorem writeHeader_ok {len : Nat} (l : List (String × CType)) (hu : ∀ x ∈ l, x.2 = .u8) {arr : List Int}
    {ps : List Place} (h : MapOK len arr ps) (o : Nat) (ho : o + l.length ≤ len) :
    ∃ arr', writeHeader arr (o * 8) ps.length l.length = .ok (arr', ps.length + l.length) ∧
      MapOK len arr' (ps ++ placeFrom o l) := by
  induction l generalizing arr ps o with
  | nil => exact ⟨arr, rfl, by simpa [placeFrom] using h⟩
  | cons x l ih =>
    obtain ⟨n, t⟩ := x
    have ht : t = .u8 := hu (n, t) List.mem_cons_self
    subst ht
    simp only [List.length_cons] at ho
    obtain ⟨a1, h1, h2⟩ := assign_ok h ⟨n, .u8, o⟩ (by simp only [width]; omega)
    obtain ⟨a2, h3, h4⟩ := ih (fun x hx => hu x (List.mem_cons_of_mem _ hx)) h2 (o + 1) (by omega)
    refine ⟨a2, ?_, ?_⟩
    · simp only [width, Nat.one_mul] at h1
      simp only [List.length_cons, writeHeader, h1, bind, Except.bind]
      have e1 : o * 8 + 8 = (o + 1) * 8 := by omega
      have e2 : ps.length + 1 = (ps ++ [(⟨n, .u8, o⟩ : Place)]).length := by simp
      rw [e1, e2, h3]
      congr 2
      simp; omega
    · simpa [placeFrom, width] using h4

theorem writeChars_ok {len : Nat} (l : List (String × CType)) (cs : List Char)
    (hc : cs.map codeType = (l.map Prod.snd).map some) {arr : List Int} {ps : List Place} (h : MapOK len arr ps)
    (o : Nat) (ho : o + widthSum l ≤ len) :
    ∃ arr', writeChars arr (o * 8) ps.length cs = .ok (arr', ps.length + l.length) ∧
      MapOK len arr' (ps ++ placeFrom o l) := by
  induction l generalizing arr ps o cs with
  | nil =>
    have : cs = [] := by simpa using hc
    subst this
    exact ⟨arr, rfl, by simpa [placeFrom] using h⟩
  | cons x l ih =>
    obtain ⟨n, t⟩ := x
    cases cs with
    | nil => simp at hc
    | cons c cs =>
      simp only [List.map_cons, List.cons.injEq] at hc
      simp only [widthSum, List.map_cons, List.sum_cons] at ho
      obtain ⟨a1, h1, h2⟩ := assign_ok h ⟨n, t, o⟩ (by simp only; omega)
      obtain ⟨a2, h3, h4⟩ := ih cs hc.2 h2 (o + width t) (by simp only [widthSum]; omega)
      refine ⟨a2, ?_, ?_⟩
      · simp only at h1
        simp only [writeChars, hc.1, ← width_fieldLength, h1, bind, Except.bind]
        have e1 : o * 8 + width t * 8 = (o + width t) * 8 := by omega
        have e2 : ps.length + 1 = (ps ++ [(⟨n, t, o⟩ : Place)]).length := by simp
        rw [e1, e2, h3]
        congr 2
        simp; omega
      · simpa [placeFrom] using h4

/-- A round of the loop, for any known class: names and types. -/
theorem structStep_names {m : MsgClass} (hm : m ∈ mavlinkMap) (st : StructState) (i : Nat) :
    structStep false st (i, m.id) = .ok ⟨st.bits, st.names ++ (msgFieldList m).map Prod.fst,
      st.types ++ (msgFieldList m).map Prod.snd, st.idx⟩ := by
  simp only [structStep, lookupMsg_mem hm, structTypes_ok hm, bind, Except.bind]
  simp [msgFieldList, wireTypes, Function.comp_def]

/-- Round of the loop when the message fits. -/
theorem structStep_ok {len : Nat} {m : MsgClass} (hm : m ∈ mavlinkMap) (hn : NoArrays m) (st : StructState)
    (ps : List Place) (i : Nat) (hi : i + 6 + msgLen m ≤ len) (h : MapOK len st.bits ps) (hidx : st.idx = ps.length) :
    ∃ st', structStep true st (i, m.id) = .ok st' ∧ MapOK len st'.bits (ps ++ msgPlaces (i, m.id)) ∧
      st'.idx = (ps ++ msgPlaces (i, m.id)).length ∧
      st'.names = st.names ++ (msgPlaces (i, m.id)).map Place.name ∧
      st'.types = st.types ++ (msgPlaces (i, m.id)).map Place.type := by
  obtain ⟨f1, f2, f3⟩ := plain_facts hm hn
  obtain ⟨a1, h1, h2⟩ := writeHeader_ok (headerList m) (by intro x hx; simp [headerList] at hx; aesop) h i
    (by simp only [headerList, List.length_cons, List.length_nil]; omega)
  have e0 : (headerList m).length = 6 := rfl
  rw [e0] at h1
  obtain ⟨a2, h3, h4⟩ := writeChars_ok (payloadList m) (m.format.drop 1) (by rw [payloadList_types]; exact f1) h2
    (i + 6) (by rw [widthSum_payload hm hn]; omega)
  have hpl : msgPlaces (i, m.id) = placeFrom i (msgFieldList m) := by simp only [msgPlaces, lookupMsg_mem hm]
  have hlen : (ps ++ placeFrom i (headerList m)).length = ps.length + 6 := by
    rw [List.length_append, placeFrom_length, e0]
  rw [hlen] at h3
  have hstep : structStep true st (i, m.id) = .ok ⟨a2, st.names ++ (msgFieldList m).map Prod.fst,
      st.types ++ (msgFieldList m).map Prod.snd, ps.length + 6 + (payloadList m).length⟩ := by
    simp only [structStep, lookupMsg_mem hm, structTypes_ok hm, bind, Except.bind, hidx, if_true]
    rw [show headerLen = 6 from rfl, h1]
    simp only
    rw [h3]
    simp [msgFieldList, wireTypes, Function.comp_def]
  refine ⟨_, hstep, ?_, ?_, ?_, ?_⟩
  · rw [msgPlaces_eq hm, ← List.append_assoc]; exact h4
  · rw [msgPlaces_eq hm]
    simp only [List.length_append, placeFrom_length, e0]
    omega
  · rw [hpl, placeFrom_names]
  · rw [hpl, placeFrom_types]

/-- The whole bit map. -/
theorem unpackStructure_ok {len : Nat} {s : List (Nat × Nat)} (hs : InRange len s) :
    ∃ arr, unpackStructure true len s = .ok (arr, (fieldPlaces s).map Place.name, (fieldPlaces s).map Place.type) ∧
      MapOK len arr (fieldPlaces s) := by
  have key : ∀ (s : List (Nat × Nat)), InRange len s → ∀ (st : StructState) (ps : List Place),
      MapOK len st.bits ps → st.idx = ps.length →
      ∃ st', s.foldlM (structStep true) st = .ok st' ∧ MapOK len st'.bits (ps ++ fieldPlaces s) ∧
        st'.names = st.names ++ (fieldPlaces s).map Place.name ∧
        st'.types = st.types ++ (fieldPlaces s).map Place.type := by
    intro s
    induction s with
    | nil => intro _ st ps h _; exact ⟨st, rfl, by simpa [fieldPlaces] using h, by simp [fieldPlaces], by simp [fieldPlaces]⟩
    | cons r s ih =>
      intro hs st ps h hidx
      obtain ⟨i, id⟩ := r
      obtain ⟨m, hm, hid, hn, hi⟩ := hs (i, id) List.mem_cons_self
      simp only at hid hi
      subst hid
      obtain ⟨st1, g1, g2, g3, g4, g5⟩ := structStep_ok hm hn st ps i hi h hidx
      obtain ⟨st2, k1, k2, k3, k4⟩ := ih (fun r hr => hs r (List.mem_cons_of_mem _ hr)) st1 _ g2 g3
      refine ⟨st2, ?_, ?_, ?_, ?_⟩
      · rw [List.foldlM_cons, g1]; exact k1
      · simpa [fieldPlaces] using k2
      · rw [k3, g4]; simp [fieldPlaces]
      · rw [k4, g5]; simp [fieldPlaces]
  obtain ⟨st', h1, h2, h3, h4⟩ := key s hs ⟨List.replicate (len * 8) (-1), [], [], 0⟩ [] (mapOK_init len) rfl
  refine ⟨st'.bits, ?_, by simpa using h2⟩
  simp only [unpackStructure, if_true, h1, bind, Except.bind]
  simp only [List.nil_append] at h3 h4
  rw [h3, h4]

/-- Names and types without the bit map. -/
theorem unpackStructure_names {s : List (Nat × Nat)} (hs : ∀ r ∈ s, ∃ m ∈ mavlinkMap, m.id = r.2) (len : Nat) :
    unpackStructure false len s = .ok ([], (fieldPlaces s).map Place.name, (fieldPlaces s).map Place.type) := by
  have key : ∀ (s : List (Nat × Nat)), (∀ r ∈ s, ∃ m ∈ mavlinkMap, m.id = r.2) → ∀ st : StructState,
      s.foldlM (structStep false) st = .ok ⟨st.bits, st.names ++ (fieldPlaces s).map Place.name,
        st.types ++ (fieldPlaces s).map Place.type, st.idx⟩ := by
    intro s
    induction s with
    | nil => intro _ st; simp [fieldPlaces, pure, Except.pure]
    | cons r s ih =>
      intro hs st
      obtain ⟨i, id⟩ := r
      obtain ⟨m, hm, hid⟩ := hs (i, id) List.mem_cons_self
      simp only at hid
      subst hid
      rw [List.foldlM_cons, structStep_names hm]
      simp only [bind, Except.bind]
      rw [ih (fun r hr => hs r (List.mem_cons_of_mem _ hr))]
      have hpl : msgPlaces (i, m.id) = placeFrom i (msgFieldList m) := by simp only [msgPlaces, lookupMsg_mem hm]
      simp only [fieldPlaces, List.flatMap_cons, hpl, List.map_append, placeFrom_names, placeFrom_types,
        List.append_assoc]
  simp only [unpackStructure, key s hs, bind, Except.bind]
  simp

/-! ### Values -/

theorem calcsize_scalars (ts : List CType) : calcsize (ts.map FmtItem.scalar) = (ts.map width).sum := by
  simp only [calcsize, List.map_map]
  congr 1
  apply List.map_congr_left
  intro t _
  exact (width_size t).symm

/-- Unpacking scalars is reading each from its own bytes. -/
theorem unpackItems_places (l : List (String × CType)) (buf : List Byte) (o : Nat) :
    unpackItems ((l.map Prod.snd).map FmtItem.scalar) ((buf.drop o).take (widthSum l)) =
      (placeFrom o l).map fun p => unpackScalar p.type (p.bytes buf) := by
  induction l generalizing o with
  | nil => rfl
  | cons x l ih =>
    obtain ⟨n, t⟩ := x
    simp only [List.map_cons, unpackItems, placeFrom, unpackItem, FmtItem.size, List.cons.injEq]
    have hw : widthSum ((n, t) :: l) = width t + widthSum l := by simp [widthSum]
    constructor
    · simp only [Place.bytes]
      rw [List.take_take, ← width_size, hw, Nat.min_eq_left (by omega)]
    · rw [← ih, ← width_size, hw, List.drop_take, List.drop_drop]
      congr 2
      omega

theorem pySlice_eq {α : Type _} (l : List α) (i n : Nat) : pySlice l i (i + n) = (l.drop i).take n := by
  rw [pySlice, List.drop_take]
  congr 1
  omega

theorem unpackLoop_ok {buf : List Byte} {s : List (Nat × Nat)} (hs : InRange buf.length s) :
    unpackLoop buf s = .ok ((fieldPlaces s).map fun p => unpackScalar p.type (p.bytes buf)) := by
  induction s with
  | nil => rfl
  | cons r s ih =>
    obtain ⟨i, id⟩ := r
    obtain ⟨m, hm, hid, hn, hi⟩ := hs (i, id) List.mem_cons_self
    simp only at hid hi
    subst hid
    obtain ⟨f1, f2, f3⟩ := plain_facts hm hn
    have ih := ih (fun r hr => hs r (List.mem_cons_of_mem _ hr))
    have e1 : structUnpack (List.replicate 6 (.scalar .u8)) (pySlice buf i (i + headerLen)) =
        .ok ((placeFrom i (headerList m)).map fun p => unpackScalar p.type (p.bytes buf)) := by
      rw [← unpackItems_places, widthSum_header, show headerLen = 6 from rfl, pySlice_eq, structUnpack, if_pos]
      · rfl
      · simp only [List.length_take, List.length_drop]
        rw [show calcsize (List.replicate 6 (FmtItem.scalar .u8)) = 6 from rfl]
        omega
    have e2 : structUnpack ((wireTypes m).map FmtItem.scalar)
        (pySlice buf (i + headerLen) (i + headerLen + msgLen m)) =
        .ok ((placeFrom (i + 6) (payloadList m)).map fun p => unpackScalar p.type (p.bytes buf)) := by
      rw [← unpackItems_places, widthSum_payload hm hn, show headerLen = 6 from rfl, pySlice_eq, structUnpack, if_pos]
      · rw [payloadList_types]
      · rw [calcsize_scalars, f3]
        simp only [List.length_take, List.length_drop]
        omega
    simp only [unpackLoop, e1, lookupMsg_mem hm, payloadLen_mem hm, f2, e2, ih, bind, Except.bind]
    simp only [fieldPlaces, List.flatMap_cons, msgPlaces_eq hm, List.map_append, List.append_assoc]

/-- A message that sticks out, is unknown or has an array makes the unpacking raise. -/
theorem unpackLoop_fail {buf : List Byte} {s : List (Nat × Nat)} (hs : ¬ InRange buf.length s) :
    ∃ e, unpackLoop buf s = .error e := by
  induction s with
  | nil => exact absurd (fun r hr => by simp at hr) hs
  | cons r s ih =>
    obtain ⟨i, id⟩ := r
    simp only [unpackLoop]
    cases h1 : structUnpack (List.replicate 6 (.scalar .u8)) (pySlice buf i (i + headerLen)) with
    | error e => exact ⟨e, rfl⟩
    | ok h =>
      simp only [bind, Except.bind]
      cases hm : lookupMsg id with
      | none => exact ⟨_, rfl⟩
      | some m =>
        obtain ⟨hmem, rfl⟩ := lookupMsg_eq_some.1 hm
        clear hm
        have hm := hmem
        simp only [payloadLen_mem hm]
        by_cases hn : NoArrays m
        · obtain ⟨f1, f2, f3⟩ := plain_facts hm hn
          simp only [f2]
          by_cases hi : i + 6 + msgLen m ≤ buf.length
          · obtain ⟨e, he⟩ := ih (by
              intro hall
              apply hs
              intro r hr
              rcases List.mem_cons.1 hr with rfl | hr
              · exact ⟨m, hm, rfl, hn, hi⟩
              · exact hall r hr)
            rw [he]
            cases structUnpack ((wireTypes m).map FmtItem.scalar) (pySlice buf (i + headerLen)
              (i + headerLen + msgLen m)) with
            | error e => exact ⟨e, rfl⟩
            | ok _ => exact ⟨e, rfl⟩
          · -- the payload is truncated, unless it is empty and the header itself is
            have hh : (pySlice buf i (i + headerLen)).length = 6 := by
              rw [structUnpack] at h1
              split at h1
              · rename_i h; simpa [calcsize, FmtItem.size, CType.size] using h
              · cases h1
            refine ⟨.structError, ?_⟩
            rw [structUnpack, if_neg]
            rw [calcsize_scalars, f3]
            rw [show headerLen = 6 from rfl, pySlice_eq] at hh ⊢
            simp only [List.length_take, List.length_drop] at hh ⊢
            omega
        · obtain ⟨_, f, f2, f3⟩ := array_facts hm hn
          refine ⟨.structError, ?_⟩
          simp only [f2]
          rw [structUnpack, if_neg]
          rw [pySlice_eq]
          simp only [List.length_take, List.length_drop]
          omega

end NR
