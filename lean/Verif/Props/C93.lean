import Verif.Model.Train
import Verif.Spec.Train
import Verif.Props.C30
import Verif.Props.C64
import Verif.Props.C78
/-
C93: training a buffer model from recorded transmissions.
-/
namespace NR
open Spec Dialect

variable {μ : Type} (O : StatOps Val μ)

theorem bitsToBytes_bytesOf (l : List Bool) (h : l.length % 8 = 0) : bitsToBytes l = bytesOf l := by
  rw [← packBits_eq]
  unfold bitsToBytes packBits
  apply List.map_congr_left
  intro i hi
  rw [List.mem_range] at hi
  have hl : (pySlice l (8 * i) (8 * i + 8)).length = 8 := by
    simp [pySlice]; omega
  rw [List.take_left' hl]

theorem rowBits_eq (row : List Nat) : (row.take 984).map (· != 0) = rowBits row := by
  unfold rowBits
  apply List.map_congr_left
  intro v _
  by_cases h : v = 0 <;> simp [h]

theorem rowBits_length (row : List Nat) (h : 984 ≤ row.length) : (rowBits row).length = 984 := by
  simp [rowBits, h]

theorem startsFrame_iff (row : List Nat) (h : 984 ≤ row.length) :
    (packBits ((row.take 8).map (· != 0))).head? = some 254 ↔ StartsFrame row := by
  have h8 : (row.take 8).map (· != 0) = (rowBits row).take 8 := by
    rw [← rowBits_eq, ← List.map_take, List.take_take]
    simp
  rw [h8]
  unfold StartsFrame
  have hl : ((rowBits row).take 8).length = 8 := by rw [List.length_take, rowBits_length row h]; rfl
  generalize (rowBits row).take 8 = l at hl
  match l, hl with
  | [a, b, c, d, e, f, g, k], _ =>
    revert a b c d e f g k
    decide +kernel

/-- The arguments of the calls of `add_buffer`. -/
def trainArgs (s : List (Nat × Nat)) (rows : List (List Nat)) : List (BufArg × List (Nat × Nat)) :=
  (learned rows).map fun r => (.bits (rowBits r), s)

/-- Rows set aside, counting from `i`. -/
def asideFrom (i : Nat) (rows : List (List Nat)) : List Nat :=
  ((List.range rows.length).filter fun k => Identified (rows.getD k []) ∧ ¬ StartsFrame (rows.getD k [])).map (i + ·)

theorem asideFrom_cons (i : Nat) (row : List Nat) (rows : List (List Nat)) :
    asideFrom i (row :: rows) = (if Identified row ∧ ¬ StartsFrame row then [i] else []) ++ asideFrom (i + 1) rows := by
  unfold asideFrom
  rw [List.length_cons, List.range_succ_eq_map, List.filter_cons, List.filter_map]
  have : ((fun k => decide (Identified ((row :: rows).getD k []) ∧ ¬ StartsFrame ((row :: rows).getD k []))) ∘ Nat.succ) =
      fun k => decide (Identified (rows.getD k []) ∧ ¬ StartsFrame (rows.getD k [])) := by
    funext k; simp
  rw [this]
  split
  · rename_i h
    rw [if_pos (by simpa using h)]
    simp [Function.comp_def, Nat.add_assoc, Nat.add_comm 1]
  · rename_i h
    rw [if_neg (by simpa using h)]
    simp [Function.comp_def, Nat.add_assoc, Nat.add_comm 1]

theorem trainStep_eq (s : List (Nat × Nat)) (st : BufferModel μ × List Nat) (row : List Nat) (i : Nat)
    (h : 984 ≤ row.length) :
    trainStep O s st row i =
      if Identified row then
        if StartsFrame row then
          if ∀ v ∈ row.take 984, v < 2 then
            ((((st.1.addBuffer O (.bits (rowBits row)) s).1, st.2), (st.1.addBuffer O (.bits (rowBits row)) s).2))
          else (st, .error .valueError)
        else ((st.1, st.2 ++ [i]), .ok ())
      else (st, .ok ()) := by
  cases row with
  | nil => simp at h
  | cons v r =>
    have hi : Identified (v :: r) ↔ v < 2 := by simp [Identified]
    unfold trainStep
    simp only [hi, rowBits_eq]
    by_cases hv : v < 2
    · rw [if_pos hv, if_pos hv]
      by_cases hs : StartsFrame (v :: r)
      · rw [if_neg (not_not.2 ((startsFrame_iff _ h).2 hs)), if_pos hs]
        simp only [List.all_eq_true, decide_eq_true_eq]
      · rw [if_pos (fun e => hs ((startsFrame_iff _ h).1 e)), if_neg hs]
    · rw [if_neg hv, if_neg hv]

/-- Every row to be learned consists of zeros and ones where the messages are. -/
def AllBits (rows : List (List Nat)) : Prop := ∀ r ∈ learned rows, ∀ v ∈ r.take 984, v < 2

theorem learned_cons (row : List Nat) (rows : List (List Nat)) :
    learned (row :: rows) = (if Identified row ∧ StartsFrame row then [row] else []) ++ learned rows := by
  unfold learned
  rw [List.filter_cons]
  split
  · rename_i h
    rw [if_pos (by simpa using h)]; rfl
  · rename_i h
    rw [if_neg (by simpa using h)]; rfl

theorem trainLoop_ok (s : List (Nat × Nat)) (hs : InRange 123 s) (rows : List (List Nat)) (hw : ∀ r ∈ rows, 984 ≤ r.length)
    (hb : AllBits rows) (done : List (BufArg × List (Nat × Nat))) (bad : List Nat) (i : Nat) :
    trainLoop O s (addAll O (BufferModel.new none) done, bad) i rows =
      ((addAll O (BufferModel.new none) (done ++ trainArgs s rows), bad ++ asideFrom i rows), .ok ()) := by
  induction rows generalizing done bad i with
  | nil => simp [trainLoop, trainArgs, learned, asideFrom]
  | cons row rows ih =>
    have hrow := hw row List.mem_cons_self
    have hw' : ∀ r ∈ rows, 984 ≤ r.length := fun r hr => hw r (List.mem_cons_of_mem _ hr)
    have hb' : AllBits rows := fun r hr => hb r (by rw [learned_cons]; exact List.mem_append_right _ hr)
    unfold trainLoop
    rw [trainStep_eq O s _ row i hrow, asideFrom_cons, trainArgs, learned_cons]
    by_cases hi : Identified row
    · by_cases hf : StartsFrame row
      · have hbit : ∀ v ∈ row.take 984, v < 2 := hb row (by
          rw [learned_cons, if_pos ⟨hi, hf⟩]; exact List.mem_append_left _ (List.mem_singleton.2 rfl))
        rw [if_pos hi, if_pos hf, if_pos hbit, if_pos ⟨hi, hf⟩, if_neg (fun h => h.2 hf)]
        have hadd : Addable (.bits (rowBits row), s) :=
          ⟨_, rfl, by
            have : (bitsToBytes (rowBits row)).length = 123 := by
              simp [bitsToBytes, rowBits_length row hrow]
            rw [this]; exact hs⟩
        rcases c30_calls O none done (.bits (rowBits row), s) with ⟨_, h⟩ | ⟨h, _⟩
        · simp only at h
          rw [h]
          have := ih hw' hb' (done ++ [(.bits (rowBits row), s)]) bad (i + 1)
          simp only [addAll, List.foldl_append, List.foldl_cons, List.foldl_nil] at this
          simp only [addAll, List.nil_append, List.map_append, List.map_cons, List.map_nil, List.foldl_append,
            List.foldl_cons, List.foldl_nil, trainArgs] at this ⊢
          exact this
        · exact absurd hadd h
      · rw [if_pos hi, if_neg hf, if_neg (fun h => hf h.2), if_pos ⟨hi, hf⟩]
        have := ih hw' hb' done (bad ++ [i]) (i + 1)
        simpa [trainArgs] using this
    · rw [if_neg hi, if_neg (fun h => hi h.1), if_neg (fun h => hi h.1)]
      have := ih hw' hb' done bad (i + 1)
      simpa [trainArgs] using this

theorem segment_inRange (buf : List Byte) (st : SegState) (h : segmentBuffer decode buf = .ok st)
    (ha : ∀ r ∈ st.struct, ∀ m ∈ mavlinkMap, m.id = r.2 → NoArrays m) : InRange buf.length st.struct := by
  rintro ⟨i, id⟩ hr
  obtain ⟨L, hh, _, hfit, _⟩ := c16_fits buf st h i id hr
  obtain ⟨m, hm, hid, hl⟩ := payloadLen_eq_some.1 hh.known
  exact ⟨m, hm, hid, ha _ hr m hm hid, by simp only; omega⟩

open Classical in
/-- C93: training on a table of whole transmissions, where the messages of the first row have no arrays and the rows to be
learned hold zeros and ones, ends without an exception. The model then holds for each field exactly the values that field
has, at its place in the first row, in every identified row that starts a frame, in order; `bad_idx` lists the other
identified rows. -/
theorem c93_trained (first : List Nat) (rest : List (List Nat)) (hw : ∀ r ∈ first :: rest, 984 ≤ r.length) (st : SegState)
    (hst : segmentBuffer decode (bytesOf (rowBits first)) = .ok st)
    (ha : ∀ r ∈ st.struct, ∀ m ∈ mavlinkMap, m.id = r.2 → NoArrays m)
    (hb : ∀ r ∈ learned (first :: rest), ∀ v ∈ r.take 984, v < 2) :
    ∃ bm bad, train O (first :: rest) = ((bm, bad), .ok ()) ∧
      bm.modelSize = (learned (first :: rest)).length ∧
      bad = (List.range (rest.length + 1)).filter (fun k =>
        Identified ((first :: rest).getD k []) ∧ ¬ StartsFrame ((first :: rest).getD k [])) ∧
      ∀ name, ((bm.models.lookup name).map FieldModel.samples).getD [] =
          (learned (first :: rest)).flatMap (fun r => takes name (.bytes (bytesOf (rowBits r)), st.struct)) ∧
        ((bm.models.lookup name).isSome ↔
          learned (first :: rest) ≠ [] ∧ ∃ p ∈ fieldPlaces st.struct, p.name = name) := by
  have hlen : (bytesOf (rowBits first)).length = 123 := by
    simp [bytesOf, rowBits_length first (hw _ List.mem_cons_self)]
  have hs : InRange 123 st.struct := hlen ▸ segment_inRange _ st hst ha
  have hloop := trainLoop_ok O st.struct hs (first :: rest) hw hb [] [] 0
  refine ⟨addAll O (BufferModel.new none) (trainArgs st.struct (first :: rest)), asideFrom 0 (first :: rest), ?_, ?_, ?_, ?_⟩
  · unfold train
    simp only [rowBits_eq, packBits_eq, hst]
    simpa [addAll] using hloop
  all_goals
    have hadd : ∀ a ∈ trainArgs st.struct (first :: rest), Addable a := by
      intro a ha
      simp only [trainArgs, List.mem_map] at ha
      obtain ⟨r, hr, rfl⟩ := ha
      have hr' : r ∈ first :: rest := (List.mem_filter.1 hr).1
      refine ⟨_, rfl, ?_⟩
      have : (bitsToBytes (rowBits r)).length = 123 := by simp [bitsToBytes, rowBits_length r (hw r hr')]
      rw [this]; exact hs
    have hfil : (trainArgs st.struct (first :: rest)).filter (fun a => Addable a) = trainArgs st.struct (first :: rest) :=
      List.filter_eq_self.2 fun a h => by simpa using hadd a h
    obtain ⟨g1, g2⟩ := c30_history O none (trainArgs st.struct (first :: rest)) _ rfl
    rw [hfil] at g1 g2
  · rw [g1]; simp [sizeAfter, trainArgs]
  · simp [asideFrom]
  · intro name
    have htake : ∀ r ∈ learned (first :: rest), takes name (.bits (rowBits r), st.struct) =
        takes name (.bytes (bytesOf (rowBits r)), st.struct) := by
      intro r hr
      have hr' : r ∈ first :: rest := (List.mem_filter.1 hr).1
      simp only [takes, argBytes]
      rw [bitsToBytes_bytesOf _ (by rw [rowBits_length r (hw r hr')])]
    obtain ⟨k1, k2⟩ := g2 name
    constructor
    · rw [k1]
      simp only [windowed, trainArgs, List.flatMap_map]
      exact List.flatMap_congr htake
    · rw [k2]
      simp only [trainArgs, List.mem_map]
      constructor
      · rintro ⟨a, ⟨r, hr, rfl⟩, _, hne⟩
        refine ⟨List.ne_nil_of_mem hr, ?_⟩
        rw [htake r hr] at hne
        simp only [takes, argBytes, ne_eq, List.map_eq_nil_iff, List.filter_eq_nil_iff, not_forall] at hne
        obtain ⟨p, hp, hn⟩ := hne
        exact ⟨p, hp, by simpa using hn⟩
      · rintro ⟨hne, p, hp, hn⟩
        obtain ⟨r, hr⟩ := List.exists_mem_of_ne_nil _ hne
        refine ⟨_, ⟨r, hr, rfl⟩, hadd _ (List.mem_map.2 ⟨r, hr, rfl⟩), ?_⟩
        simp only [takes, argBytes, ne_eq, List.map_eq_nil_iff, List.filter_eq_nil_iff, not_forall]
        exact ⟨p, hp, by simpa using hn⟩

theorem trainLoop_err (s : List (Nat × Nat)) (hs : InRange 123 s) (rows : List (List Nat)) (hw : ∀ r ∈ rows, 984 ≤ r.length)
    (hb : ¬ AllBits rows) (done : List (BufArg × List (Nat × Nat))) (bad : List Nat) (i : Nat) :
    (trainLoop O s (addAll O (BufferModel.new none) done, bad) i rows).2 = .error .valueError := by
  induction rows generalizing done bad i with
  | nil => exact absurd (fun r hr => by simp [learned] at hr) hb
  | cons row rows ih =>
    have hrow := hw row List.mem_cons_self
    have hw' : ∀ r ∈ rows, 984 ≤ r.length := fun r hr => hw r (List.mem_cons_of_mem _ hr)
    unfold trainLoop
    rw [trainStep_eq O s _ row i hrow]
    by_cases hi : Identified row
    · by_cases hf : StartsFrame row
      · by_cases hbit : ∀ v ∈ row.take 984, v < 2
        · have hb' : ¬ AllBits rows := by
            intro h
            apply hb
            intro r hr
            rw [learned_cons, if_pos ⟨hi, hf⟩] at hr
            rcases List.mem_append.1 hr with hr | hr
            · rw [List.mem_singleton.1 hr]; exact hbit
            · exact h r hr
          rw [if_pos hi, if_pos hf, if_pos hbit]
          have hadd : Addable (.bits (rowBits row), s) :=
            ⟨_, rfl, by
              have : (bitsToBytes (rowBits row)).length = 123 := by
                simp [bitsToBytes, rowBits_length row hrow]
              rw [this]; exact hs⟩
          rcases c30_calls O none done (.bits (rowBits row), s) with ⟨_, h⟩ | ⟨h, _⟩
          · simp only at h
            rw [h]
            have := ih hw' hb' (done ++ [(.bits (rowBits row), s)]) bad (i + 1)
            simpa only [addAll, List.foldl_append, List.foldl_cons, List.foldl_nil] using this
          · exact absurd hadd h
        · rw [if_pos hi, if_pos hf, if_neg hbit]
      · have hb' : ¬ AllBits rows := by
          intro h
          apply hb
          intro r hr
          rw [learned_cons, if_neg (fun h => hf h.2)] at hr
          exact h r hr
        rw [if_pos hi, if_neg hf]
        exact ih hw' hb' done (bad ++ [i]) (i + 1)
    · have hb' : ¬ AllBits rows := by
        intro h
        apply hb
        intro r hr
        rw [learned_cons, if_neg (fun h => hi h.1)] at hr
        exact h r hr
      rw [if_neg hi]
      exact ih hw' hb' done bad (i + 1)

/-- C93: one row that is identified, starts a frame and holds a filler further on ends the training with ValueError, before
anything is saved. -/
theorem c93_stops (first : List Nat) (rest : List (List Nat)) (hw : ∀ r ∈ first :: rest, 984 ≤ r.length) (st : SegState)
    (hst : segmentBuffer decode (bytesOf (rowBits first)) = .ok st)
    (ha : ∀ r ∈ st.struct, ∀ m ∈ mavlinkMap, m.id = r.2 → NoArrays m)
    (row : List Nat) (hr : row ∈ learned (first :: rest)) (v : Nat) (hv : v ∈ row.take 984) (h2 : 2 ≤ v) :
    (train O (first :: rest)).2 = .error .valueError := by
  have hlen : (bytesOf (rowBits first)).length = 123 := by
    simp [bytesOf, rowBits_length first (hw _ List.mem_cons_self)]
  have hs : InRange 123 st.struct := hlen ▸ segment_inRange _ st hst ha
  unfold train
  simp only [rowBits_eq, packBits_eq, hst]
  refine trainLoop_err O st.struct hs (first :: rest) hw ?_ [] [] 0
  intro h
  have := h row hr v hv
  omega

theorem bytesOf_ones (l : List Bool) (h : ∀ b ∈ l, b = true) (h8 : l.length % 8 = 0) : ∀ x ∈ bytesOf l, x = 255 := by
  intro x hx
  simp only [bytesOf, List.mem_map, List.mem_range] at hx
  obtain ⟨i, hi, rfl⟩ := hx
  have : ∀ j ∈ List.range 8, (if l.getD (8 * i + j) false then BitVec.ofNat 8 (2 ^ (7 - j)) else 0) =
      BitVec.ofNat 8 (2 ^ (7 - j)) := by
    intro j hj
    rw [List.mem_range] at hj
    have hlt : 8 * i + j < l.length := by omega
    rw [List.getD, List.getElem?_eq_getElem hlt, Option.getD_some, h _ (List.getElem_mem _), if_pos rfl]
  rw [List.map_congr_left this]
  decide +kernel

/-- C93: if the first transmission of the recording is one that was not identified, its row being filled with a non-zero
filler, nothing is learned from any row: the model has no fields. -/
theorem c93_first_unidentified (first : List Nat) (rest : List (List Nat)) (hw : ∀ r ∈ first :: rest, 984 ≤ r.length)
    (hf : ∀ v ∈ first.take 984, v ≠ 0)
    (hb : ∀ r ∈ learned (first :: rest), ∀ v ∈ r.take 984, v < 2) :
    ∃ bm bad, train O (first :: rest) = ((bm, bad), .ok ()) ∧ bm.models = [] ∧
      bm.modelSize = (learned (first :: rest)).length := by
  obtain ⟨st, hst, _⟩ := c20_never_raises (bytesOf (rowBits first))
  have hnil : st.struct = [] := by
    cases hs : st.struct with
    | nil => rfl
    | cons r l =>
      obtain ⟨i, id⟩ := r
      obtain ⟨L, hh, _, hfit, _⟩ := c16_fits _ st hst i id (by rw [hs]; exact List.mem_cons_self)
      have hm := hh.marker
      have hlt : i < (bytesOf (rowBits first)).length := by omega
      have h255 := bytesOf_ones (rowBits first) (by
        intro b hb
        simp only [rowBits, List.mem_map] at hb
        obtain ⟨v, hv, rfl⟩ := hb
        simpa using hf v hv) (by rw [rowBits_length first (hw _ List.mem_cons_self)]) _ (List.getElem_mem hlt)
      rw [List.getD, List.getElem?_eq_getElem hlt, Option.getD_some, h255] at hm
      exact absurd hm (by decide)
  obtain ⟨bm, bad, h1, h2, _, h4⟩ := c93_trained O first rest hw st hst (by rw [hnil]; simp) hb
  refine ⟨bm, bad, h1, ?_, h2⟩
  cases hm : bm.models with
  | nil => rfl
  | cons p l =>
    have := (h4 p.1).2
    rw [hm, hnil] at this
    simp [fieldPlaces] at this

/-- A transmission with one heartbeat, sequence number 7. -/
def oneBeat : List Nat :=
  (bytesBits [254, 9, 7, 1, 1, 0, 255, 255, 255, 255, 2, 3, 81, 4, 3, 241, 77]).map Bool.toNat ++ List.replicate 848 0

/-- A transmission that starts a frame but was damaged: its checksum is wrong. -/
def damagedBeat : List Nat :=
  (bytesBits [254, 9, 8, 1, 1, 0, 255, 255, 255, 255, 2, 3, 81, 4, 3, 241, 77]).map Bool.toNat ++ List.replicate 848 0

theorem beat_bytes (b : List Byte) (hl : b.length = 17) :
    bytesOf (rowBits ((bytesBits b).map Bool.toNat ++ List.replicate 848 0)) = b ++ List.replicate 106 0 := by
  have h1 : rowBits ((bytesBits b).map Bool.toNat ++ List.replicate 848 0) = bytesBits (b ++ List.replicate 106 0) := by
    have h2 : bytesBits (b ++ List.replicate 106 0) = bytesBits b ++ List.replicate 848 false := by
      have : bytesBits (List.replicate 106 0) = List.replicate 848 false := by decide +kernel
      rw [← this]
      simp [bytesBits]
    have h3 : (bytesBits b).length = 136 := by rw [bytesBits_length, hl]
    rw [h2, rowBits, List.take_of_length_le (by rw [List.length_append, List.length_map, h3, List.length_replicate]), List.map_append, List.map_map, List.map_replicate]
    congr 1
    have : ((fun v : Nat => decide (v ≠ 0)) ∘ Bool.toNat) = id := by funext x; cases x <;> rfl
    rw [this, List.map_id]
  rw [h1, ← packBits_eq, packBits_bytesBits]

theorem lone_marker (b : List Byte) (hb : ∀ i : Nat, b.getD i 0 = 254 → i = 0) (st : SegState)
    (h : segmentBuffer decode b = .ok st) : st.struct = [] ∨ ∃ id, st.struct = [(0, id)] := by
  have h0 : ∀ r ∈ st.struct, r.1 = 0 := by
    rintro ⟨i, id⟩ hr
    obtain ⟨L, hh, _⟩ := c16_fits b st h i id hr
    exact hb i (BitVec.eq_of_toNat_eq (by simpa using hh.marker))
  have hp := c17_ordered_disjoint decode b st h
  match hs : st.struct with
  | [] => exact Or.inl rfl
  | [(i, id)] =>
    have := h0 (i, id) (by rw [hs]; simp)
    simp only at this
    subst this
    exact Or.inr ⟨id, rfl⟩
  | x :: y :: l =>
    rw [hs] at hp
    have h1 := (List.pairwise_cons.1 hp).1 y (by simp)
    have h2 := h0 x (by rw [hs]; simp)
    have h3 := h0 y (by rw [hs]; simp)
    omega

theorem padded_marker (b : List Byte) (h : ∀ i < b.length, b.getD i 0 = 254 → i = 0) (n i : Nat)
    (hi : (b ++ List.replicate n 0).getD i 0 = 254) : i = 0 := by
  by_cases hlt : i < b.length
  · apply h i hlt
    rw [← hi, List.getD, List.getD, List.getElem?_append_left hlt]
  · rw [List.getD, List.getElem?_append_right (by omega), List.getElem?_replicate] at hi
    split at hi <;> exact absurd hi (by decide)

theorem oneBeat_struct : ∃ st, segmentBuffer decode (bytesOf (rowBits oneBeat)) = .ok st ∧ st.struct = [(0, 0)] := by
  obtain ⟨st, hst, _⟩ := c20_never_raises (bytesOf (rowBits oneBeat))
  have hbytes := beat_bytes [254, 9, 7, 1, 1, 0, 255, 255, 255, 255, 2, 3, 81, 4, 3, 241, 77] rfl
  refine ⟨st, hst, ?_⟩
  unfold oneBeat at hst
  rw [hbytes] at hst
  have hm : (0, 0) ∈ st.struct := by
    rw [c19_greedy decode _ st hst]
    refine ⟨⟨9, ⟨by decide +kernel, by decide +kernel, by decide +kernel, by decide +kernel, by decide +kernel⟩, by decide +kernel,
      by decide +kernel⟩, ?_⟩
    intro r _ hr
    omega
  rcases lone_marker _ (padded_marker _ (by decide) 106) st hst with h | ⟨id, h⟩
  · rw [h] at hm; simp at hm
  · rw [h] at hm
    simp only [List.mem_singleton, Prod.mk.injEq, true_and] at hm
    rw [h, hm]

/-- The damaged transmission holds no message. -/
theorem damagedBeat_struct : ∃ st, segmentBuffer decode (bytesOf (rowBits damagedBeat)) = .ok st ∧ st.struct = [] := by
  obtain ⟨st, hst, _⟩ := c20_never_raises (bytesOf (rowBits damagedBeat))
  have hbytes := beat_bytes [254, 9, 8, 1, 1, 0, 255, 255, 255, 255, 2, 3, 81, 4, 3, 241, 77] rfl
  refine ⟨st, hst, ?_⟩
  unfold damagedBeat at hst
  rw [hbytes] at hst
  rcases lone_marker _ (padded_marker _ (by decide) 106) st hst with h | ⟨id, h⟩
  · exact h
  · exfalso
    obtain ⟨L, hh, hd, _⟩ := c16_fits _ st hst 0 id (by rw [h]; simp)
    have hL := hh.lenByte
    have : L = 9 := by rw [← hL]; decide
    subst this
    revert hd
    decide +kernel

/-- C93: so it is false that a recording with an intact transmission in it teaches the model something. -/
theorem c93_learns_false : ¬ ∀ rows : List (List Nat), (∀ r ∈ rows, r.length = 984) → (∃ r ∈ rows, r ∈ learned rows ∧
    ∃ st, segmentBuffer decode (bytesOf (rowBits r)) = .ok st ∧ st.struct ≠ []) →
    ∀ bm bad, train O rows = ((bm, bad), .ok ()) → bm.models ≠ [] := by
  intro h
  have hl : learned [List.replicate 984 2, oneBeat] = [oneBeat] := by decide +kernel
  have hlen : oneBeat.length = 984 := by decide +kernel
  obtain ⟨bm, bad, h1, h2, _⟩ := c93_first_unidentified O (List.replicate 984 2) [oneBeat]
    (by intro r hr; rcases List.mem_cons.1 hr with rfl | hr
        · rw [List.length_replicate]
        · rw [List.mem_singleton.1 hr, hlen])
    (by intro v hv; have := List.eq_of_mem_replicate (List.mem_of_mem_take hv); omega)
    (by rw [hl]; intro r hr; rw [List.mem_singleton.1 hr]; decide +kernel)
  refine h [List.replicate 984 2, oneBeat] ?_ ⟨oneBeat, List.mem_cons_of_mem _ (List.mem_singleton.2 rfl),
    by rw [hl]; exact List.mem_singleton.2 rfl, ?_⟩ bm bad h1 h2
  · intro r hr
    rcases List.mem_cons.1 hr with rfl | hr
    · rw [List.length_replicate]
    · rw [List.mem_singleton.1 hr, hlen]
  · obtain ⟨st, g1, g2⟩ := oneBeat_struct
    exact ⟨st, g1, by rw [g2]; simp⟩

/-- C93: it is also false that every learned value comes from a message with a correct checksum: of a row only the first
byte is looked at. -/
theorem c93_checked_false : ∃ bm bad, train O [oneBeat, damagedBeat] = ((bm, bad), .ok ()) ∧ bad = [] ∧
    (∃ st, segmentBuffer decode (bytesOf (rowBits damagedBeat)) = .ok st ∧ st.struct = []) ∧
    ((bm.models.lookup "seq").map FieldModel.samples).getD [] = [.int 7, .int 8] := by
  obtain ⟨st, g1, g2⟩ := oneBeat_struct
  have hl : learned [oneBeat, damagedBeat] = [oneBeat, damagedBeat] := by decide +kernel
  obtain ⟨bm, bad, h1, _, h3, h4⟩ := c93_trained O oneBeat [damagedBeat]
    (by intro r hr; rcases List.mem_cons.1 hr with rfl | hr
        · decide +kernel
        · rw [List.mem_singleton.1 hr]; decide +kernel) st g1
    (by rw [g2]; intro r hr; rw [List.mem_singleton.1 hr]; decide +kernel)
    (by rw [hl]; intro r hr; rcases List.mem_cons.1 hr with rfl | hr
        · decide +kernel
        · rw [List.mem_singleton.1 hr]; decide +kernel)
  refine ⟨bm, bad, h1, ?_, damagedBeat_struct, ?_⟩
  · rw [h3]; decide +kernel
  · rw [(h4 "seq").1, hl, g2]; decide +kernel

/-- A filler inside an identified row: the case of `c93_stops`. -/
example : ∃ first rest st row v, (∀ r ∈ first :: rest, 984 ≤ List.length r) ∧
    segmentBuffer decode (bytesOf (rowBits first)) = .ok st ∧ (∀ r ∈ st.struct, ∀ m ∈ mavlinkMap, m.id = r.2 → NoArrays m) ∧
    row ∈ learned (first :: rest) ∧ v ∈ row.take 984 ∧ 2 ≤ v := by
  obtain ⟨st, g1, g2⟩ := oneBeat_struct
  refine ⟨oneBeat, [oneBeat.take 900 ++ List.replicate 84 2], st, oneBeat.take 900 ++ List.replicate 84 2, 2, ?_, g1, ?_, ?_, ?_,
    le_refl 2⟩
  · decide +kernel
  · rw [g2]; intro r hr; rw [List.mem_singleton.1 hr]; decide +kernel
  · decide +kernel
  · decide +kernel

end NR
