import Verif.Props.C120
/-
C121: what damage to one message does to the segmentation of a buffer of back-to-back messages.
-/
namespace NR.C121
open NR NR.Spec Dialect
open NR.C120 (wire)

theorem frameHead_marker {acc : List Byte → Bool} {b : Byte} (h : b ≠ 254) (s : List Byte) : frameHead acc (b :: s) = none := by
  unfold frameHead
  rw [if_neg]
  rintro ⟨_, hv, _⟩
  obtain ⟨b0, b1, b2, b3, b4, b5, hb⟩ := six_bytes (isValidHeader_length hv)
  have h0 : b0 = b := by
    have : ((b :: s).take 6).head? = some b := rfl
    rw [hb] at this
    simpa using this
  rw [hb, isValidHeader_six] at hv
  apply h
  rw [← h0]
  apply BitVec.eq_of_toNat_eq
  simpa using hv.1

theorem scan_noise (acc : List Byte → Bool) (n q : List Byte) (h : ∀ b ∈ n, b ≠ 254) :
    scanL acc (n ++ q) = List.replicate n.length .unknown ++ scanL acc q ∧
      ∀ off, scanS acc (n ++ q) off = scanS acc q (off + n.length) := by
  induction n with
  | nil => simp
  | cons b n ih =>
    obtain ⟨i1, i2⟩ := ih (fun c hc => h c (List.mem_cons_of_mem _ hc))
    have hf : frameHead acc (b :: (n ++ q)) = none := frameHead_marker (h b List.mem_cons_self) _
    refine ⟨?_, fun off => ?_⟩
    · rw [List.cons_append, scanL, hf]
      simp only [i1, List.length_cons, List.replicate_succ, List.cons_append]
    · rw [List.cons_append, scanS, hf]
      simp only [i2, List.length_cons]
      congr 1
      omega

/-- A frame head of the scan is a frame in the sense of the specification. -/
theorem frameAt_of_head {s : List Byte} {id L : Nat} (h : frameHead (fun c => decide (Returns (decode c))) s = some (id, L)) :
    FrameAt (fun c => Returns (decode c)) s 0 id L := by
  unfold frameHead at h
  split at h
  · rename_i hc
    obtain ⟨h8, hv, hd⟩ := hc
    injection h with h
    injection h with h1 h2
    obtain ⟨b0, b1, b2, b3, b4, b5, hb⟩ := six_bytes (isValidHeader_length hv)
    have hg : ∀ j < 6, s.getD j 0 = (s.take 6).getD j 0 := by
      intro j hj
      simp only [List.getD, List.getElem?_take_of_lt hj]
    have g0 := hg 0 (by omega)
    have g1 := hg 1 (by omega)
    have g5 := hg 5 (by omega)
    rw [hb] at g0 g1 g5 hv
    simp only [List.getD_cons_zero, List.getD_cons_succ] at g0 g1 g5
    rw [isValidHeader_six] at hv
    rw [g5] at h1
    rw [g1] at h2
    refine ⟨⟨by omega, by rw [g0]; exact hv.1, by rw [Nat.zero_add, g1]; exact h2, by rw [Nat.zero_add, g5]; exact h1, ?_⟩,
      by omega, ?_⟩
    · rw [← h1, ← h2]; exact hv.2
    · have := of_decide_eq_true hd
      rw [g1, h2] at this
      exact this
  · cases h

theorem layout_shift (off d : Nat) (l : List (MsgClass × List Byte)) :
    layout (off + d) l = (layout off l).map fun r => (r.1 + d, r.2) := by
  induction l generalizing off with
  | nil => rfl
  | cons x l ih =>
    obtain ⟨m, f⟩ := x
    simp only [layout, List.map_cons]
    rw [← ih]
    congr 2
    omega

/-- Of the messages `before`, `n` bytes and the messages `after`, exactly the `n` bytes are lost: every message is reported at its place,
nothing else is reported, exactly these bytes are labelled unknown, and exactly their bits are marked as not valid. -/
structure ExactlyLost (before : List (MsgClass × List Byte)) (n : Nat) (after : List (MsgClass × List Byte)) (st : SegState) : Prop where
  messages : st.struct = layout 0 before ++ layout ((wire before).length + n) after
  labels : ∀ k : Nat, st.parts[k]? = some .unknown ↔ (wire before).length ≤ k ∧ k < (wire before).length + n
  bits : ∀ k : Nat, st.validity[k]? = some 0 ↔ (wire before).length ≤ k / 8 ∧ k / 8 < (wire before).length + n

/-- C121: if no acceptable frame starts with the damaged bytes `g` and none of them but the first is a marker, exactly these bytes are
lost. -/
theorem c121_lost (before after : List (MsgClass × List Byte)) (g : List Byte)
    (hp : ∀ x ∈ before ++ after, PackedFrame x.1 x.2 ∧ NoArrays x.1) (hg : ∀ b ∈ g.tail, b ≠ 254)
    (hrej : ∀ id L, ¬ FrameAt (fun c => Returns (decode c)) (g ++ wire after) 0 id L) :
    ∃ st, segmentBuffer decode (wire before ++ g ++ wire after) = .ok st ∧ ExactlyLost before g.length after st := by
  obtain ⟨sb, b1, b2, b3, b4⟩ := c21_concatenation before (fun x hx => hp x (by simp [hx]))
  obtain ⟨sa, a1, a2, a3, a4⟩ := c21_concatenation after (fun x hx => hp x (by simp [hx]))
  obtain ⟨sx, x1, _⟩ := c20_never_raises (g ++ wire after)
  obtain ⟨st, s1, _⟩ := c20_never_raises (wire before ++ (g ++ wire after))
  obtain ⟨t1, _, t3⟩ := c22_prefix (wire before) (g ++ wire after) sb sx st b1 x1 s1 b3
  obtain ⟨p1, _, p3⟩ := segment_scan decode _ sx x1
  obtain ⟨q1, _, q3⟩ := segment_scan decode _ sa a1
  obtain ⟨_, v2, _⟩ := segment_scan decode _ st s1
  change sa.parts = scanL _ (wire after) at q1
  change sa.struct = scanS _ (wire after) 0 at q3
  have hskip : scanL (fun c => decide (Returns (decode c))) (g ++ wire after) =
        List.replicate g.length .unknown ++ scanL (fun c => decide (Returns (decode c))) (wire after) ∧
      ∀ off, scanS (fun c => decide (Returns (decode c))) (g ++ wire after) off =
        scanS (fun c => decide (Returns (decode c))) (wire after) (off + g.length) := by
    match g, hg, hrej with
    | [], _, _ => simp
    | b :: t, hg, hrej =>
      obtain ⟨i1, i2⟩ := scan_noise (fun c => decide (Returns (decode c))) t (wire after) hg
      have hf : frameHead (fun c => decide (Returns (decode c))) (b :: (t ++ wire after)) = none := by
        cases hh : frameHead (fun c => decide (Returns (decode c))) (b :: (t ++ wire after)) with
        | none => rfl
        | some v => exact absurd (frameAt_of_head hh) (hrej v.1 v.2)
      refine ⟨?_, fun off => ?_⟩
      · rw [List.cons_append, scanL, hf]
        simp only [i1, List.length_cons, List.replicate_succ, List.cons_append]
      · rw [List.cons_append, scanS, hf]
        simp only [i2, List.length_cons]
        congr 1
        omega
  have hlb : sb.parts.length = (wire before).length := by
    obtain ⟨r1, _, _⟩ := segment_scan decode _ sb b1
    rw [r1, scanL_length]; rfl
  have hparts : st.parts = sb.parts ++ (List.replicate g.length .unknown ++ sa.parts) := by
    rw [t1, p1, hskip.1, q1]
  have hk : ∀ k : Nat, st.parts[k]? = some .unknown ↔ (wire before).length ≤ k ∧ k < (wire before).length + g.length := by
    intro k
    rw [hparts, List.getElem?_append]
    split
    · rename_i h
      constructor
      · intro e; exact absurd rfl (b3 _ (List.mem_of_getElem? e))
      · intro e; omega
    · rename_i h
      rw [List.getElem?_append]
      simp only [List.length_replicate, List.getElem?_replicate]
      split
      · rename_i h'
        simp only [true_iff]
        omega
      · rename_i h'
        constructor
        · intro e; exact absurd rfl (a3 _ (List.mem_of_getElem? e))
        · intro e; omega
  refine ⟨st, by rw [List.append_assoc]; exact s1, ⟨?_, hk, ?_⟩⟩
  · rw [t3, b2, p3, hskip.2, Nat.zero_add]
    congr 1
    have hsh := scanS_shift (fun c => decide (Returns (decode c))) (wire after) 0 g.length
    rw [Nat.zero_add] at hsh
    rw [hsh, ← q3, a2, ← layout_shift, ← layout_shift]
    congr 1
    omega
  · intro k
    rw [v2, validOf_get, ← hk (k / 8)]
    cases hx : st.parts[k / 8]? with
    | none => simp
    | some p => simp

/-- Damage that the decoder notices, and that leaves the length byte or the id byte as it was, leaves no acceptable frame at the start of
the message. -/
theorem no_frame {m : MsgClass} {f g : List Byte} (hp : PackedFrame m f) (hn : NoArrays m) (hlen : g.length = f.length)
    (hd : ¬ Returns (decode g)) (hkeep : g.getD 1 0 = f.getD 1 0 ∨ g.getD 5 0 = f.getD 5 0) (q : List Byte) (id L : Nat) :
    ¬ FrameAt (fun c => Returns (decode c)) (g ++ q) 0 id L := by
  rintro ⟨⟨_, _, h1, h5, hk⟩, _, hacc⟩
  obtain ⟨h8, _, _, f1, f5, _⟩ := packed_head hp
  obtain ⟨hm, fields, seq, sys, comp, hpk⟩ := hp
  have hl := c08_no_arrays m hm hn fields seq sys comp f hpk
  have hg : ∀ i, i < g.length → (g ++ q).getD i 0 = g.getD i 0 := by
    intro i hi
    simp only [List.getD, List.getElem?_append_left hi]
  rw [Nat.zero_add, hg 1 (by omega)] at h1
  rw [Nat.zero_add, hg 5 (by omega)] at h5
  have hL : L = f.length - 8 := by
    rcases hkeep with e | e
    · rw [e, f1] at h1; exact h1.symm
    · rw [e, f5] at h5
      rw [← h5, hl] at hk
      exact (Option.some.inj hk).symm
  apply hd
  have : frameBytes (g ++ q) 0 L = g := by
    unfold frameBytes
    rw [List.drop_zero, List.take_append_of_le_length (by omega), List.take_of_length_le (by omega)]
  rw [← this]
  exact hacc

/-- C121: a message that is damaged so that the decoder refuses it, with its length byte or its id byte intact and no marker among its
bytes but the first, is lost and nothing else. -/
theorem c121_damaged (before after : List (MsgClass × List Byte)) (m : MsgClass) (f g : List Byte)
    (hp : ∀ x ∈ before ++ (m, f) :: after, PackedFrame x.1 x.2 ∧ NoArrays x.1) (hlen : g.length = f.length)
    (hd : ¬ Returns (decode g)) (hkeep : g.getD 1 0 = f.getD 1 0 ∨ g.getD 5 0 = f.getD 5 0) (hg : ∀ b ∈ g.tail, b ≠ 254) :
    ∃ st, segmentBuffer decode (wire before ++ g ++ wire after) = .ok st ∧ ExactlyLost before f.length after st := by
  obtain ⟨hpf, hn⟩ := hp (m, f) (by simp)
  rw [← hlen]
  exact c121_lost before after g
    (fun x hx => hp x (by rw [List.mem_append] at hx ⊢; exact hx.imp id (List.mem_cons_of_mem _)))
    hg (no_frame hpf hn hlen hd hkeep _)

/-- C121: one inverted bit in a message without markers but its first byte costs that message and nothing else, provided it does not
make a marker. -/
theorem c121_single_bit (before after : List (MsgClass × List Byte)) (m : MsgClass) (f : List Byte) (k b : Nat)
    (hp : ∀ x ∈ before ++ (m, f) :: after, PackedFrame x.1 x.2 ∧ NoArrays x.1) (hk : k < f.length) (hb : b < 8)
    (hg : ∀ c ∈ (flipBit f k b).tail, c ≠ 254) :
    ∃ st, segmentBuffer decode (wire before ++ flipBit f k b ++ wire after) = .ok st ∧ ExactlyLost before f.length after st := by
  obtain ⟨hpf, hn⟩ := hp (m, f) (by simp)
  obtain ⟨h8, _, f0, _, f5, hdec⟩ := packed_head hpf
  have hhead : f.head? = some 254 := by
    cases f with
    | nil => simp at h8
    | cons x r => simp only [List.getD_cons_zero] at f0; rw [f0]; rfl
  have hexc : ¬ (k = 5 ∧ f.length = 216 ∧ (((f.getD 5 0).toNat = 4 ∧ b = 1) ∨ ((f.getD 5 0).toNat = 6 ∧ b = 1))) := by
    rintro ⟨_, h216, h⟩
    obtain ⟨hm, fields, seq, sys, comp, hpk⟩ := hpf
    have hl := c08_no_arrays m hm hn fields seq sys comp f hpk
    rw [h216, ← f5] at hl
    rcases h with ⟨h, _⟩ | ⟨h, _⟩ <;> rw [h] at hl <;> revert hl <;> decide +kernel
  have hr := c11_single_bit f hdec hhead k b hk hb hexc
  refine c121_damaged before after m f (flipBit f k b) hp (flipBit_length f k b) ?_ ?_ hg
  · rintro ⟨x, hx⟩
    unfold Raises at hr
    rw [hx] at hr
    cases hr
  · by_cases h1 : k = 1
    · right
      simp only [List.getD, flipBit_get f k b 5 (by omega)]
    · left
      simp only [List.getD, flipBit_get f k b 1 (by omega)]

/-! ### when the damage uncovers a frame -/

/-- The origin of the map, twice. The last six bytes of the first payload happen to look like the header of a heartbeat, and two
bytes of the second payload like its checksum. -/
def first : List FieldVal := [.num (.int 0), .num (.int 167641088), .num (.int 65792)]
def second : List FieldVal := [.num (.int 11674115), .num (.int 0), .num (.int 0)]
def frame₁ : List Byte := [254, 12, 0, 1, 1, 49, 0, 0, 0, 0, 0, 0, 254, 9, 0, 1, 1, 0, 35, 61]
def frame₂ : List Byte := [254, 12, 1, 1, 1, 49, 3, 34, 178, 0, 0, 0, 0, 0, 0, 0, 0, 0, 66, 210]

theorem frames_packed : ∀ x ∈ [(msg49, frame₁), (msg49, frame₂)], PackedFrame x.1 x.2 ∧ NoArrays x.1 := by
  intro x hx
  simp only [List.mem_cons, List.not_mem_nil, or_false] at hx
  rcases hx with rfl | rfl
  · exact ⟨⟨by decide +kernel, first, 0, 1, 1, by decide +kernel⟩, by decide⟩
  · exact ⟨⟨by decide +kernel, second, 1, 1, 1, by decide +kernel⟩, by decide⟩

/-- With one inverted bit in the first byte, a heartbeat is reported at byte 12 and nothing at byte 20. -/
theorem uncovered : (segmentBuffer decode (flipBit frame₁ 0 0 ++ frame₂)).map (fun st => st.struct) = .ok [(12, 0)] := by
  decide +kernel

/-- C121: without the condition on markers an inverted bit may cost an intact message: not every message that no bit was inverted in is
reported. -/
theorem c121_intact_false : ¬ ∀ (before after : List (MsgClass × List Byte)) (m : MsgClass) (f : List Byte) (k b : Nat) (st : SegState),
    (∀ x ∈ before ++ (m, f) :: after, PackedFrame x.1 x.2 ∧ NoArrays x.1) → k < f.length → b < 8 →
    segmentBuffer decode (wire before ++ flipBit f k b ++ wire after) = .ok st →
    ∀ r ∈ layout ((wire before).length + f.length) after, r ∈ st.struct := by
  intro h
  obtain ⟨st, hst, _⟩ := c20_never_raises (flipBit frame₁ 0 0 ++ frame₂)
  have hu := uncovered
  rw [hst] at hu
  have hu : st.struct = [(12, 0)] := Except.ok.inj hu
  have := h [] [(msg49, frame₂)] msg49 frame₁ 0 0 st frames_packed (by decide) (by decide)
    (by simpa [wire] using hst) (20, 49) (by decide)
  rw [hu] at this
  revert this
  decide

/-- C121: and a message may be reported that nobody sent. -/
theorem c121_sent_false : ¬ ∀ (before after : List (MsgClass × List Byte)) (m : MsgClass) (f : List Byte) (k b : Nat) (st : SegState),
    (∀ x ∈ before ++ (m, f) :: after, PackedFrame x.1 x.2 ∧ NoArrays x.1) → k < f.length → b < 8 →
    segmentBuffer decode (wire before ++ flipBit f k b ++ wire after) = .ok st →
    ∀ r ∈ st.struct, r ∈ layout 0 (before ++ (m, f) :: after) := by
  intro h
  obtain ⟨st, hst, _⟩ := c20_never_raises (flipBit frame₁ 0 0 ++ frame₂)
  have hu := uncovered
  rw [hst] at hu
  have hu : st.struct = [(12, 0)] := Except.ok.inj hu
  have := h [] [(msg49, frame₂)] msg49 frame₁ 0 0 st frames_packed (by decide) (by decide)
    (by simpa [wire] using hst) (12, 0) (by rw [hu]; decide)
  revert this
  decide

/-- Undamaged, the same two messages are reported. -/
example : (segmentBuffer decode (frame₁ ++ frame₂)).map (fun st => st.struct) = .ok [(0, 49), (20, 49)] := by decide +kernel

/-- `c121_single_bit` for the second of three heartbeats, and a bit of its mode. -/
example : ∃ st, segmentBuffer decode (wire [(msg0, C120.beat)] ++ flipBit C120.beat 12 3 ++ wire [(msg0, C120.beat)]) = .ok st ∧
    ExactlyLost [(msg0, C120.beat)] 17 [(msg0, C120.beat)] st := by
  refine c121_single_bit [(msg0, C120.beat)] [(msg0, C120.beat)] msg0 C120.beat 12 3 ?_ (by decide) (by decide) (by decide)
  intro x hx
  simp only [List.cons_append, List.nil_append, List.mem_cons, List.not_mem_nil, or_false] at hx
  rcases hx with rfl | rfl | rfl <;> exact ⟨C120.beat_packed, by decide⟩

end NR.C121
