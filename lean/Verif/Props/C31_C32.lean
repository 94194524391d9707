import Verif.Lemmas.Layout
import Mathlib.Data.List.Induction
import Verif.Lemmas.Crc
import Verif.Props.C08_C09
/-
C31: the bit-to-field map. C32: unpacked values.
-/
namespace NR
open Spec Dialect

/-! ### C31 -/

theorem coverIdx_spec (ps : List Place) (k : Nat) :
    (coverIdx ps k = -1 ∧ ∀ p ∈ ps, ¬ p.Has k) ∨
    ∃ (j : Nat) (p : Place), coverIdx ps k = (j : Int) ∧ ps[j]? = some p ∧ p.Has k ∧
      ∀ j' q, j < j' → ps[j']? = some q → ¬ q.Has k := by
  induction ps using List.reverseRecOn with
  | nil => left; simp [coverIdx]
  | append_singleton ps p ih =>
    rw [coverIdx_append]
    by_cases hp : p.Has k
    · rw [if_pos hp]
      right
      refine ⟨ps.length, p, rfl, by simp, hp, ?_⟩
      intro j' q hj hq
      rw [List.getElem?_eq_none (by simp; omega)] at hq
      cases hq
    · rw [if_neg hp]
      rcases ih with ⟨h1, h2⟩ | ⟨j, q, h1, h2, h3, h4⟩
      · left
        refine ⟨h1, ?_⟩
        intro q hq
        rcases List.mem_append.1 hq with hq | hq
        · exact h2 q hq
        · rw [List.mem_singleton.1 hq]; exact hp
      · right
        have hj : j < ps.length := (List.getElem?_eq_some_iff.1 h2).1
        refine ⟨j, q, h1, by rw [List.getElem?_append_left hj]; exact h2, h3, ?_⟩
        intro j' q' hjj hq'
        by_cases hlt : j' < ps.length
        · rw [List.getElem?_append_left hlt] at hq'
          exact h4 j' q' hjj hq'
        · by_cases he : j' = ps.length
          · subst he
            simp at hq'
            rw [← hq']; exact hp
          · rw [List.getElem?_eq_none (by simp; omega)] at hq'
            cases hq'

/-- Fields of a structure that do not overlap. -/
theorem fieldPlaces_pairwise {len : Nat} {s : List (Nat × Nat)} (hs : InRange len s) (hn : NonOverlapping s) :
    (fieldPlaces s).Pairwise fun p q => ∀ k, ¬ (p.Has k ∧ q.Has k) := by
  induction s with
  | nil => exact List.Pairwise.nil
  | cons r s ih =>
    obtain ⟨i, id⟩ := r
    obtain ⟨m, hm, hid, hna, _⟩ := hs (i, id) List.mem_cons_self
    simp only at hid
    subst hid
    rw [NonOverlapping, List.pairwise_cons] at hn
    simp only [fieldPlaces, List.flatMap_cons]
    rw [List.pairwise_append]
    refine ⟨?_, ih (fun r hr => hs r (List.mem_cons_of_mem _ hr)) hn.2, ?_⟩
    · have hpl : msgPlaces (i, m.id) = placeFrom i (msgFieldList m) := by simp only [msgPlaces, lookupMsg_mem hm]
      rw [hpl]; exact placeFrom_pairwise _ _
    · rintro p hp q hq k ⟨h1, h2⟩
      obtain ⟨r', hr', hq'⟩ := List.mem_flatMap.1 hq
      obtain ⟨i', id'⟩ := r'
      obtain ⟨m', hm', hid', hna', _⟩ := hs (i', id') (List.mem_cons_of_mem _ hr')
      simp only at hid'
      subst hid'
      exact hn.1 _ hr' k ⟨(msgPlaces_cover hm hna i k).1 ⟨p, hp, h1⟩, (msgPlaces_cover hm' hna' i' k).1 ⟨q, hq', h2⟩⟩

theorem pairwise_unique {ps : List Place} (h : ps.Pairwise fun p q => ∀ k, ¬ (p.Has k ∧ q.Has k)) {i j : Nat}
    {p q : Place} {k : Nat} (hi : ps[i]? = some p) (hj : ps[j]? = some q) (hp : p.Has k) (hq : q.Has k) : i = j := by
  rw [List.pairwise_iff_getElem] at h
  obtain ⟨hi1, hi2⟩ := List.getElem?_eq_some_iff.1 hi
  obtain ⟨hj1, hj2⟩ := List.getElem?_eq_some_iff.1 hj
  rcases Nat.lt_trichotomy i j with hlt | he | hlt
  · exact absurd ⟨hi2 ▸ hp, hj2 ▸ hq⟩ (h i j hi1 hj1 hlt k)
  · exact he
  · exact absurd ⟨hj2 ▸ hq, hi2 ▸ hp⟩ (h j i hj1 hi1 hlt k)

theorem coverIdx_iff {ps : List Place} (h : ps.Pairwise fun p q => ∀ k, ¬ (p.Has k ∧ q.Has k)) (k j : Nat) :
    coverIdx ps k = (j : Int) ↔ ∃ p, ps[j]? = some p ∧ p.Has k := by
  rcases coverIdx_spec ps k with ⟨h1, h2⟩ | ⟨j', p', h1, h2, h3, _⟩
  · constructor
    · intro h'; rw [h1] at h'; omega
    · rintro ⟨p, hp, hh⟩
      exact absurd hh (h2 p (List.mem_of_getElem? hp))
  · constructor
    · intro h'
      have : j' = j := by rw [h1] at h'; omega
      subst this
      exact ⟨p', h2, h3⟩
    · rintro ⟨p, hp, hh⟩
      rw [h1, pairwise_unique h h2 hp h3 hh]

theorem coverIdx_neg {len : Nat} {s : List (Nat × Nat)} (hs : InRange len s) (k : Nat) :
    coverIdx (fieldPlaces s) k = -1 ↔ ∀ r ∈ s, ¬ Occupies r k := by
  have hcov : (∃ p ∈ fieldPlaces s, p.Has k) ↔ ∃ r ∈ s, Occupies r k := by
    constructor
    · rintro ⟨p, hp, hh⟩
      obtain ⟨⟨i, id⟩, hr, hp'⟩ := List.mem_flatMap.1 hp
      obtain ⟨m, hm, hid, hna, _⟩ := hs (i, id) hr
      simp only at hid
      subst hid
      exact ⟨_, hr, (msgPlaces_cover hm hna i k).1 ⟨p, hp', hh⟩⟩
    · rintro ⟨⟨i, id⟩, hr, ho⟩
      obtain ⟨m, hm, hid, hna, _⟩ := hs (i, id) hr
      simp only at hid
      subst hid
      obtain ⟨p, hp, hh⟩ := (msgPlaces_cover hm hna i k).2 ho
      exact ⟨p, List.mem_flatMap.2 ⟨_, hr, hp⟩, hh⟩
  rcases coverIdx_spec (fieldPlaces s) k with ⟨h1, h2⟩ | ⟨j', p', h1, h2, h3, _⟩
  · constructor
    · intro _ r hr ho
      obtain ⟨p, hp, hh⟩ := hcov.2 ⟨r, hr, ho⟩
      exact h2 p hp hh
    · intro _; exact h1
  · constructor
    · intro h'; rw [h1] at h'; omega
    · intro hno
      obtain ⟨r, hr, ho⟩ := hcov.1 ⟨p', List.mem_of_getElem? h2, h3⟩
      exact absurd ho (hno r hr)

/-- C31: for non-overlapping array-free messages inside the buffer, the map has one entry per bit; the entry is `j`
exactly for the bits of the `j`-th field, and -1 exactly for the bits outside the headers and payloads of all
messages. The name and type lists are those of the fields, in order. -/
theorem c31_map (len : Nat) (s : List (Nat × Nat)) (hs : InRange len s) (hn : NonOverlapping s) :
    ∃ map, unpackStructure true len s = .ok (map, (fieldPlaces s).map Place.name, (fieldPlaces s).map Place.type) ∧
      map.length = 8 * len ∧
      ∀ b, b < 8 * len →
        (∀ j : Nat, map[b]? = some (j : Int) ↔ ∃ p, (fieldPlaces s)[j]? = some p ∧ p.Has (b / 8)) ∧
        (map[b]? = some (-1) ↔ ∀ r ∈ s, ¬ Occupies r (b / 8)) := by
  obtain ⟨arr, h1, h2⟩ := unpackStructure_ok hs
  refine ⟨arr, h1, by rw [h2.length]; omega, fun b hb => ?_⟩
  rw [h2.value b (by omega)]
  constructor
  · intro j
    rw [Option.some_inj]
    exact coverIdx_iff (fieldPlaces_pairwise hs hn) _ _
  · rw [Option.some_inj]
    exact coverIdx_neg hs _

/-- C31, overlapping messages: a bit belongs to the last listed field containing it. -/
theorem c31_overlap (len : Nat) (s : List (Nat × Nat)) (hs : InRange len s) :
    ∃ map, unpackStructure true len s = .ok (map, (fieldPlaces s).map Place.name, (fieldPlaces s).map Place.type) ∧
      map.length = 8 * len ∧
      ∀ b, b < 8 * len → ∀ j : Nat, map[b]? = some (j : Int) ↔
        (∃ p, (fieldPlaces s)[j]? = some p ∧ p.Has (b / 8)) ∧
          ∀ j' q, j < j' → (fieldPlaces s)[j']? = some q → ¬ q.Has (b / 8) := by
  obtain ⟨arr, h1, h2⟩ := unpackStructure_ok hs
  refine ⟨arr, h1, by rw [h2.length]; omega, fun b hb j => ?_⟩
  rw [h2.value b (by omega), Option.some_inj]
  rcases coverIdx_spec (fieldPlaces s) (b / 8) with ⟨g1, g2⟩ | ⟨j', p', g1, g2, g3, g4⟩
  · constructor
    · intro h'; rw [g1] at h'; omega
    · rintro ⟨⟨p, hp, hh⟩, _⟩
      exact absurd hh (g2 p (List.mem_of_getElem? hp))
  · constructor
    · intro h'
      have : j' = j := by rw [g1] at h'; omega
      subst this
      exact ⟨⟨p', g2, g3⟩, g4⟩
    · rintro ⟨⟨p, hp, hh⟩, hlast⟩
      rw [g1]
      rcases Nat.lt_trichotomy j j' with hlt | he | hlt
      · exact absurd g3 (hlast j' p' hlt g2)
      · rw [he]
      · exact absurd hh (g4 j p hlt hp)

theorem assignSlice_ok {arr arr' : List Int} {start w : Nat} {v : Int} (h : assignSlice arr start w v = .ok arr') :
    arr'.length = arr.length ∧ (0 < w → start + w ≤ arr.length) := by
  unfold assignSlice at h
  split at h
  · rename_i hl
    injection h with h
    subst h
    refine ⟨by simp [setSlice], ?_⟩
    intro hw
    simp only [pySlice, List.length_drop, List.length_take] at hl
    omega
  · cases h

theorem writeHeader_inv {arr arr' : List Int} {start idx n idx' : Nat} (h : writeHeader arr start idx n = .ok (arr', idx')) :
    arr'.length = arr.length ∧ (0 < n → start + 8 * n ≤ arr.length) := by
  induction n generalizing arr start idx with
  | zero => simp only [writeHeader] at h; injection h with h; injection h with h; subst h; simp
  | succ n ih =>
    simp only [writeHeader, bind, Except.bind] at h
    split at h
    · cases h
    · rename_i a ha
      obtain ⟨h1, h2⟩ := assignSlice_ok ha
      obtain ⟨h3, h4⟩ := ih h
      refine ⟨h3.trans h1, fun _ => ?_⟩
      have := h2 (by omega)
      rcases Nat.eq_zero_or_pos n with rfl | hn
      · omega
      · have := h4 hn; omega

theorem writeChars_inv {arr arr' : List Int} {start idx idx' : Nat} {cs : List Char}
    (h : writeChars arr start idx cs = .ok (arr', idx')) :
    arr'.length = arr.length ∧ (∀ c ∈ cs, codeType c ≠ none) ∧
      (cs ≠ [] → start + 8 * (cs.map fun c => ((codeType c).map width).getD 0).sum ≤ arr.length) := by
  induction cs generalizing arr start idx with
  | nil => simp only [writeChars] at h; injection h with h; injection h with h; subst h; simp
  | cons c cs ih =>
    simp only [writeChars] at h
    cases hc : codeType c with
    | none => rw [hc] at h; cases h
    | some t =>
      rw [hc] at h
      simp only [bind, Except.bind] at h
      split at h
      · cases h
      · rename_i a ha
        obtain ⟨h1, h2⟩ := assignSlice_ok ha
        obtain ⟨h3, h4, h5⟩ := ih h
        refine ⟨h3.trans h1, ?_, fun _ => ?_⟩
        · intro c' hc'
          rcases List.mem_cons.1 hc' with rfl | hc'
          · rw [hc]; simp
          · exact h4 c' hc'
        · rw [← width_fieldLength] at h2 h5
          have := h2 (by have := width_pos t; omega)
          simp only [List.map_cons, List.sum_cons, hc, Option.map_some, Option.getD_some]
          rcases eq_or_ne cs [] with rfl | hne
          · simp only [List.map_nil, List.sum_nil]; omega
          · have := h5 hne; omega

/-- C31: the map is computed exactly for known array-free messages whose header and payload lie inside the buffer;
in all other cases the call raises. -/
theorem c31_returns_iff (len : Nat) (s : List (Nat × Nat)) : Returns (unpackStructure true len s) ↔ InRange len s := by
  constructor
  · rintro ⟨r, h⟩
    have key : ∀ (s : List (Nat × Nat)) (st st' : StructState), st.bits.length = len * 8 →
        s.foldlM (structStep true) st = .ok st' → InRange len s := by
      intro s
      induction s with
      | nil => intro _ _ _ _ r hr; simp at hr
      | cons r s ih =>
        intro st st' hlen hf
        obtain ⟨i, id⟩ := r
        rw [List.foldlM_cons] at hf
        cases h1 : structStep true st (i, id) with
        | error e => rw [h1] at hf; simp [bind, Except.bind] at hf
        | ok st1 =>
          rw [h1] at hf
          simp only [bind, Except.bind] at hf
          simp only [structStep] at h1
          cases hm : lookupMsg id with
          | none => rw [hm] at h1; cases h1
          | some m =>
            rw [hm] at h1
            obtain ⟨hmem, rfl⟩ := lookupMsg_eq_some.1 hm
            simp only [structTypes_ok hmem, bind, Except.bind, if_true] at h1
            split at h1
            · cases h1
            · rename_i p1 hw1
              split at h1
              · cases h1
              · rename_i p2 hw2
                injection h1 with h1
                obtain ⟨a1, k1⟩ := p1
                obtain ⟨a2, k2⟩ := p2
                obtain ⟨g1, g2⟩ := writeHeader_inv hw1
                obtain ⟨g3, g4, g5⟩ := writeChars_inv hw2
                have hl1 : st1.bits.length = len * 8 := by
                  rw [← h1]; simp only at g3 ⊢; omega
                intro r hr
                rcases List.mem_cons.1 hr with rfl | hr
                · have hna : NoArrays m := by
                    by_contra hcon
                    obtain ⟨⟨c, hc, hcn⟩, _⟩ := array_facts hmem hcon
                    exact g4 c hc hcn
                  refine ⟨m, hmem, rfl, hna, ?_⟩
                  obtain ⟨f1, f2, f3⟩ := plain_facts hmem hna
                  have hsum : ((m.format.drop 1).map fun c => ((codeType c).map width).getD 0).sum = msgLen m := by
                    rw [← f3]
                    have : (m.format.drop 1).map (fun c => ((codeType c).map width).getD 0) =
                        ((m.format.drop 1).map codeType).map (fun o => (o.map width).getD 0) := by
                      rw [List.map_map]; rfl
                    rw [this, f1, List.map_map]
                    rfl
                  have hh := g2 (by decide)
                  simp only [headerLen] at hh g5
                  rcases eq_or_ne (m.format.drop 1) [] with he | hne
                  · rw [he] at hsum
                    simp at hsum
                    simp only; omega
                  · have := g5 hne
                    simp only; omega
                · exact ih st1 st' hl1 hf r hr
    unfold unpackStructure at h
    simp only [if_true] at h
    cases hf : s.foldlM (structStep true) ⟨List.replicate (len * 8) (-1), [], [], 0⟩ with
    | error e => rw [hf] at h; simp [bind, Except.bind] at h
    | ok st' => exact key s _ st' (by simp) hf
  · intro hs
    obtain ⟨arr, h, _⟩ := unpackStructure_ok hs
    exact ⟨_, h⟩

/-- Two heartbeats (9 payload bytes) in a 40-byte buffer. -/
example : InRange 40 [(2, 0), (20, 0)] ∧ NonOverlapping [(2, 0), (20, 0)] := by
  constructor
  · intro r hr
    refine ⟨msg0, by decide +kernel, ?_, by decide, ?_⟩
    · simp at hr; rcases hr with rfl | rfl <;> decide
    · have : msgLen msg0 = 9 := by decide
      simp at hr
      rcases hr with rfl | rfl <;> simp only [this] <;> decide
  · have hp : payloadLen 0 = some 9 := by decide +kernel
    simp only [NonOverlapping, List.pairwise_cons, List.mem_singleton, forall_eq, List.not_mem_nil, false_imp_iff,
      implies_true, List.Pairwise.nil, and_true, Occupies, hp, Option.getD_some]
    intro k
    omega

/-! ### C32 -/

theorem unpackScalar_bytes {t : CType} {bs : List Byte} (h : bs.length = width t) :
    ScalarBytes t bs (unpackScalar t bs) ∧ FitsScalar t (unpackScalar t bs) := by
  rw [width_size] at h
  have := packScalar_unpackScalar h
  exact ⟨packScalar_bytes this, packScalar_ok this⟩

theorem placeFrom_bound (o : Nat) (l : List (String × CType)) {p : Place} (hp : p ∈ placeFrom o l) :
    p.start + width p.type ≤ o + widthSum l := by
  have := (placeFrom_cover o l (p.start + width p.type - 1)).1 ⟨p, hp, by
    have := width_pos p.type
    simp only [Place.Has]; omega⟩
  have := width_pos p.type
  omega

theorem fieldPlaces_bound {len : Nat} {s : List (Nat × Nat)} (hs : InRange len s) {p : Place} (hp : p ∈ fieldPlaces s) :
    p.start + width p.type ≤ len := by
  obtain ⟨⟨i, id⟩, hr, hp'⟩ := List.mem_flatMap.1 hp
  obtain ⟨m, hm, hid, hna, hl⟩ := hs (i, id) hr
  simp only at hid hl
  subst hid
  have hpl : msgPlaces (i, m.id) = placeFrom i (msgFieldList m) := by simp only [msgPlaces, lookupMsg_mem hm]
  rw [hpl] at hp'
  have h1 := placeFrom_bound _ _ hp'
  have : widthSum (msgFieldList m) = 6 + msgLen m := by
    rw [msgFieldList_eq, ← widthSum_header m, ← widthSum_payload hm hna]
    simp [widthSum]
  omega

/-- C32: one value per listed field, and the `j`-th value is the one whose little-endian encoding in the field's type
are the bytes of the `j`-th field. -/
theorem c32_values (buf : List Byte) (s : List (Nat × Nat)) (hs : InRange buf.length s) :
    ∃ vals, unpackValues (.bytes buf) s = .ok vals ∧
      List.Forall₂ (fun (p : Place) v => ScalarBytes p.type (p.bytes buf) v ∧ FitsScalar p.type v) (fieldPlaces s) vals := by
  refine ⟨_, unpackLoop_ok hs, ?_⟩
  rw [List.forall₂_map_right_iff, List.forall₂_same]
  intro p hp
  apply unpackScalar_bytes
  have := fieldPlaces_bound hs hp
  simp only [Place.bytes, List.length_take, List.length_drop]
  omega

/-- C32: the values are aligned with the names and types of `unpack_structure`. -/
theorem c32_aligned (buf : List Byte) (s : List (Nat × Nat)) (vals : List Val) (h : unpackValues (.bytes buf) s = .ok vals)
    (bitwise : Bool) : ∃ map names types, unpackStructure bitwise buf.length s = .ok (map, names, types) ∧
      names.length = vals.length ∧ types.length = vals.length := by
  have hs : InRange buf.length s := by
    by_contra hcon
    obtain ⟨e, he⟩ := unpackLoop_fail hcon
    rw [unpackValues, he] at h
    cases h
  have hv : vals = (fieldPlaces s).map fun p => unpackScalar p.type (p.bytes buf) := by
    rw [unpackValues, unpackLoop_ok hs] at h
    injection h with h
    exact h.symm
  subst hv
  cases bitwise with
  | true =>
    obtain ⟨arr, h1, _⟩ := unpackStructure_ok hs
    exact ⟨_, _, _, h1, by simp, by simp⟩
  | false =>
    have := unpackStructure_names (s := s) (fun r hr => by
      obtain ⟨m, hm, hid, _⟩ := hs r hr
      exact ⟨m, hm, hid⟩) buf.length
    exact ⟨_, _, _, this, by simp, by simp⟩

theorem bitsVal_byteBits : ∀ b : Byte, bitsVal (byteBits b) = b.toNat := by decide +kernel

theorem bytesBits_len (bs : List Byte) : (bytesBits bs).length = 8 * bs.length := by
  induction bs with
  | nil => rfl
  | cons b bs ih =>
    have : bytesBits (b :: bs) = byteBits b ++ bytesBits bs := rfl
    rw [this, List.length_append, ih]
    simp [byteBits]; omega

theorem bytesBits_slice (bs : List Byte) (i : Nat) (h : i < bs.length) :
    pySlice (bytesBits bs) (8 * i) (8 * i + 8) = byteBits bs[i] := by
  rw [pySlice_eq]
  induction bs generalizing i with
  | nil => simp at h
  | cons b bs ih =>
    have hb : bytesBits (b :: bs) = byteBits b ++ bytesBits bs := rfl
    have hl : (byteBits b).length = 8 := by simp [byteBits]
    cases i with
    | zero => simp [hb, hl]
    | succ i =>
      rw [hb, show 8 * (i + 1) = (byteBits b).length + 8 * i by omega, List.drop_append]
      simp only [List.getElem_cons_succ]
      rw [List.drop_eq_nil_of_le (by omega), List.nil_append]
      rw [show (byteBits b).length + 8 * i - (byteBits b).length = 8 * i by omega]
      exact ih i (by simpa using h)

/-- Packing the bits of a byte string gives it back. -/
theorem bitsToBytes_bytesBits (bs : List Byte) : bitsToBytes (bytesBits bs) = bs := by
  unfold bitsToBytes
  rw [bytesBits_len, show (8 * bs.length + 7) / 8 = bs.length by omega]
  apply List.ext_getElem
  · simp
  · intro i h1 h2
    simp only [List.getElem_map, List.getElem_range]
    rw [bytesBits_slice bs i h2, bitsVal_byteBits]
    simp

/-- C32: an array of bits gives the same values as the bytes it packs to (most significant bit first). -/
theorem c32_bits (buf : List Byte) (s : List (Nat × Nat)) :
    unpackValues (.bits (bytesBits buf)) s = unpackValues (.bytes buf) s := by
  simp only [unpackValues, bitsToBytes_bytesBits]

/-- C32: a truncated, unknown or array message anywhere in the structure makes the call raise. -/
theorem c32_raises (buf : List Byte) (s : List (Nat × Nat)) (hs : ¬ InRange buf.length s) :
    ∃ e, Raises (unpackValues (.bytes buf) s) e := unpackLoop_fail hs

/-- A structure of one heartbeat is unpacked to twelve values. -/
example : (unpackValues (.bytes ([0, 0, 254, 9, 7, 1, 1, 0] ++ [1, 2, 3, 4, 5, 6, 7, 8, 9] ++ [0, 0])) [(2, 0)]) =
    .ok [.int 254, .int 9, .int 7, .int 1, .int 1, .int 0, .int 67305985, .int 5, .int 6, .int 7, .int 8, .int 9] := by
  decide +kernel

end NR
