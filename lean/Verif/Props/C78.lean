import Verif.Props.C77
import Verif.Props.C31_C32
/-
C78: cutting the buffers of a mission into information words.
-/
namespace NR
open Spec Dialect

/-! ### Bits and bytes -/

theorem packBits_cons (b : Byte) (l : List Bool) : packBits (byteBits b ++ l) = b :: packBits l := by
  unfold packBits
  have hlen : ((byteBits b ++ l).length + 7) / 8 = (l.length + 7) / 8 + 1 := by
    rw [List.length_append, byteBits_length]; omega
  rw [hlen, List.range_succ_eq_map, List.map_cons, List.map_map]
  congr 1
  · have h : (pySlice (byteBits b ++ l) (8 * 0) (8 * 0 + 8) ++ List.replicate 8 false).take 8 = byteBits b := by
      simp only [pySlice, Nat.mul_zero, Nat.zero_add, List.drop_zero]
      have e : (byteBits b ++ l).take 8 = byteBits b := by
        rw [List.take_append_of_le_length (by rw [byteBits_length]), List.take_of_length_le (by rw [byteBits_length])]
      rw [e, List.take_append_of_le_length (by rw [byteBits_length]), List.take_of_length_le (by rw [byteBits_length])]
    rw [h, bitsVal_byteBits]
    simp

/-- Whole bytes followed by bits are packed to those bytes followed by the packed bits. -/
theorem packBits_bytes (a : List Byte) (l : List Bool) : packBits (bytesBits a ++ l) = a ++ packBits l := by
  induction a with
  | nil => rfl
  | cons b a ih => rw [bytesBits_cons, List.append_assoc, packBits_cons, ih]; rfl

theorem packBits_bytesBits (a : List Byte) : packBits (bytesBits a) = a := by
  have := packBits_bytes a []
  rw [List.append_nil] at this
  rw [this, show packBits [] = [] from rfl, List.append_nil]

/-! ### C78 -/

/-- Messages of the parts of a buffer, counted from the start of the part, for each number of clusters. -/
def partLayouts : Nat → List (List (Nat × Nat))
  | 1 => [fiveLayout]
  | 2 => [[(0, 33), (52, 234)], [(0, 30), (36, 212), (63, 218)]]
  | 3 => [[(0, 33)], [(0, 234), (20, 30)], [(0, 212), (27, 218)]]
  | _ => []

/-- Segmenting the bytes finds these messages, and every byte belongs to one. -/
def SegmentsTo (bytes : List Byte) (layout : List (Nat × Nat)) : Prop :=
  ∃ st, segmentBuffer decode bytes = .ok st ∧ st.struct = layout ∧ ∀ p ∈ st.parts, p ≠ .unknown

theorem segments_of_frames (msgs : List (MsgClass × List Byte)) (hp : ∀ x ∈ msgs, PackedFrame x.1 x.2 ∧ NoArrays x.1) :
    SegmentsTo (msgs.map Prod.snd).flatten (layout 0 msgs) := by
  obtain ⟨st, hs, hl, hk, _⟩ := c21_concatenation msgs hp
  exact ⟨st, hs, hl, hk⟩

theorem cut_bits (a b : List Byte) (n : Nat) (hn : n = 8 * a.length) :
    (bytesBits (a ++ b)).take n = bytesBits a ∧ (bytesBits (a ++ b)).drop n = bytesBits b := by
  subst hn
  rw [bytesBits_append]
  have := bytesBits_length a
  constructor
  · rw [List.take_append_of_le_length (by omega), List.take_of_length_le (by omega)]
  · rw [List.drop_append_of_le_length (by omega), List.drop_of_length_le (by omega)]; rfl

/-- C78: for one, two or three clusters the scripts cut every buffer of a mission between messages: the parts joined are the
buffer, and segmenting each part finds exactly its messages. Another number of clusters raises. -/
theorem c78_parts (r : Recording) (hr : RecordingFits r) (t : Int) (seq : Nat) (hseq : seq ≤ 255) (seq' : Nat)
    (buf : List Byte) (hb : createBuffer r t seq = .ok (seq', buf)) (n : Nat) :
    (1 ≤ n ∧ n ≤ 3 → ∃ parts, clusterParts n (bytesBits buf) = .ok parts ∧ parts.flatten = bytesBits buf ∧
      List.Forall₂ (fun p l => SegmentsTo (packBits p) l) parts (partLayouts n)) ∧
    (¬ (1 ≤ n ∧ n ≤ 3) → Raises (clusterParts n (bytesBits buf)) .valueError) := by
  obtain ⟨f1, f2, f3, f4, f5, h, ⟨l1, l2, l3, l4, l5, _⟩, p1, p2, p3, p4, p5⟩ := five_ok r hr t seq hseq
  rw [hb] at h; cases h
  have q1 : PackedFrame msg33 f1 ∧ NoArrays msg33 := ⟨p1, by decide⟩
  have q2 : PackedFrame msg234 f2 ∧ NoArrays msg234 := ⟨p2, by decide⟩
  have q3 : PackedFrame msg30 f3 ∧ NoArrays msg30 := ⟨p3, by decide⟩
  have q4 : PackedFrame msg212 f4 ∧ NoArrays msg212 := ⟨p4, by decide⟩
  have q5 : PackedFrame msg218 f5 ∧ NoArrays msg218 := ⟨p5, by decide⟩
  have s1 := segments_of_frames [(msg33, f1)] (by simpa using q1)
  have s12 := segments_of_frames [(msg33, f1), (msg234, f2)] (by simpa using ⟨q1, q2⟩)
  have s23 := segments_of_frames [(msg234, f2), (msg30, f3)] (by simpa using ⟨q2, q3⟩)
  have s45 := segments_of_frames [(msg212, f4), (msg218, f5)] (by simpa using ⟨q4, q5⟩)
  have s345 := segments_of_frames [(msg30, f3), (msg212, f4), (msg218, f5)] (by simpa using ⟨q3, q4, q5⟩)
  have sall := segments_of_frames [(msg33, f1), (msg234, f2), (msg30, f3), (msg212, f4), (msg218, f5)]
    (by simpa using ⟨q1, q2, q3, q4, q5⟩)
  simp only [List.map_cons, List.map_nil, List.flatten_cons, List.flatten_nil, List.append_nil, layout, l1, l2, l3, l4,
    Nat.zero_add] at s1 s12 s23 s45 s345 sall
  refine ⟨?_, ?_⟩
  · rintro ⟨h1, h3⟩
    have hn : n = 1 ∨ n = 2 ∨ n = 3 := by omega
    rcases hn with rfl | rfl | rfl
    · refine ⟨[_], rfl, by simp, ?_⟩
      refine List.Forall₂.cons ?_ List.Forall₂.nil
      rw [packBits_bytesBits]
      rw [List.append_assoc, List.append_assoc, List.append_assoc]; exact sall
    · have hc := cut_bits (f1 ++ f2) (f3 ++ f4 ++ f5) 576 (by simp [l1, l2])
      rw [show f1 ++ f2 ++ (f3 ++ f4 ++ f5) = f1 ++ f2 ++ f3 ++ f4 ++ f5 by simp] at hc
      refine ⟨[_, _], rfl, by simp [List.take_append_drop], ?_⟩
      rw [hc.1, hc.2]
      refine List.Forall₂.cons ?_ (List.Forall₂.cons ?_ List.Forall₂.nil)
      · rw [packBits_bytesBits]; exact s12
      · rw [packBits_bytesBits]; rw [List.append_assoc]; exact s345
    · have hc := cut_bits f1 (f2 ++ f3 ++ f4 ++ f5) 416 (by simp [l1])
      rw [show f1 ++ (f2 ++ f3 ++ f4 ++ f5) = f1 ++ f2 ++ f3 ++ f4 ++ f5 by simp] at hc
      have hd := cut_bits (f1 ++ (f2 ++ f3)) (f4 ++ f5) 864 (by simp [l1, l2, l3])
      rw [show f1 ++ (f2 ++ f3) ++ (f4 ++ f5) = f1 ++ f2 ++ f3 ++ f4 ++ f5 by simp] at hd
      have he := cut_bits f1 (f2 ++ f3) 416 (by simp [l1])
      refine ⟨[_, _, _], rfl, ?_, ?_⟩
      · simp only [pySlice, hd.1, hd.2, he.2, hc.1, List.flatten_cons, List.flatten_nil, List.append_nil]
        simp only [← bytesBits_append, List.append_assoc]
      · simp only [pySlice, hd.1, hd.2, he.2, hc.1]
        refine List.Forall₂.cons ?_ (List.Forall₂.cons ?_ (List.Forall₂.cons ?_ List.Forall₂.nil))
        · rw [packBits_bytesBits]; exact s1
        · rw [packBits_bytesBits]; exact s23
        · rw [packBits_bytesBits]; exact s45
  · intro hn
    match n, hn with
    | 0, _ => rfl
    | 1, hn => omega
    | 2, hn => omega
    | 3, hn => omega
    | n + 4, _ => rfl

/-- C78: for every buffer of 153 bytes the words handed to the encoder have exactly the number of information bits of the
code, and consist of the parts of the buffer followed by random bits. -/
theorem c78_words {G : Type} (rng : G → Nat → G × (Nat → Bool)) (g : G) (data : List Bool) (hl : data.length = 1224)
    (n : Nat) (h1 : 1 ≤ n) (h3 : n ≤ 3) :
    ∃ k parts pads, infoBits n = .ok k ∧ clusterParts n data = .ok parts ∧
      (infoWords rng g n k data).2 = .ok (List.zipWith (· ++ ·) parts pads) ∧ pads.length = parts.length ∧
      ∀ w ∈ List.zipWith (· ++ ·) parts pads, w.length = k := by
  have hn : n = 1 ∨ n = 2 ∨ n = 3 := by omega
  have draw : ∀ (g : G) (m : Nat), ∃ g' pad, drawBits rng g (m : Int) = (g', .ok pad) ∧ pad.length = m := by
    intro g m
    refine ⟨(rng g m).1, (List.range m).map (rng g m).2, ?_, by simp⟩
    unfold drawBits
    rw [if_neg (by omega)]
    simp
  rcases hn with rfl | rfl | rfl
  · obtain ⟨g', pad, hd, hp⟩ := draw g 72
    refine ⟨1296, [data], [pad], rfl, rfl, ?_, rfl, ?_⟩
    · simp only [infoWords, hl]
      rw [show ((1296 : Nat) : Int) - (1224 : Nat) = (72 : Nat) by omega, hd]
      rfl
    · simp [hl, hp]
  · obtain ⟨g', pad, hd, hp⟩ := draw g 72
    refine ⟨648, [data.take 576, data.drop 576], [pad, []], rfl, rfl, ?_, rfl, ?_⟩
    · simp only [infoWords]
      rw [show ((648 : Nat) : Int) - 576 = (72 : Nat) by omega, hd]
      simp
    · simp [hl, hp]
  · obtain ⟨g1, pad1, hd1, hp1⟩ := draw g 70
    obtain ⟨g2, pad2, hd2, hp2⟩ := draw g1 38
    obtain ⟨g3, pad3, hd3, hp3⟩ := draw g2 126
    refine ⟨486, [data.take 416, pySlice data 416 864, data.drop 864], [pad1, pad2, pad3], rfl, rfl, ?_, rfl, ?_⟩
    · simp only [infoWords]
      rw [show ((486 : Nat) : Int) - 416 = (70 : Nat) by omega, hd1]
      simp only
      rw [show ((486 : Nat) : Int) - (864 - 416) = (38 : Nat) by omega, hd2]
      simp only
      rw [show ((486 : Nat) : Int) - (1224 - 864) = (126 : Nat) by omega, hd3]
      rfl
    · simp [hl, hp1, hp2, hp3, pySlice]

/-- C78: a part longer than the words of the code raises ValueError, as the number of random bits would be negative; with one or two
clusters nothing is drawn before. -/
theorem c78_too_long {G : Type} (rng : G → Nat → G × (Nat → Bool)) (g : G) (data : List Bool) (k : Nat) :
    (k < data.length → infoWords rng g 1 k data = (g, .error .valueError)) ∧
    (k < 576 → infoWords rng g 2 k data = (g, .error .valueError)) ∧
    (k < 448 → (infoWords rng g 3 k data).2 = .error .valueError) := by
  refine ⟨fun h => ?_, fun h => ?_, fun h => ?_⟩
  · simp only [infoWords, drawBits]
    rw [if_pos (by omega)]
  · simp only [infoWords, drawBits]
    rw [if_pos (by omega)]
  · by_cases h4 : k < 416
    · simp only [infoWords, drawBits]
      rw [if_pos (by omega)]
    · simp only [infoWords, drawBits]
      rw [if_neg (by omega)]
      simp only
      rw [if_pos (by omega)]

theorem payloadLen_pos {id L : Nat} (h : payloadLen id = some L) : 1 ≤ L := by
  have hall : ∀ x ∈ msgsPayloadLength, 1 ≤ x.2 := by
    have : msgsPayloadLength.all (fun x => decide (1 ≤ x.2)) = true := by decide +kernel
    intro x hx
    simpa using List.all_eq_true.1 this x hx
  obtain ⟨l1, l2, he, _⟩ := List.lookup_eq_some_iff.1 h
  exact hall (id, L) (by rw [msgsPayloadLength] at *; rw [he]; simp)

/-- C78: in the padded words the messages of the part are found first, where they are in the part; further ones lie wholly in
the padding, so with fewer than nine bytes of padding there are none. -/
theorem c78_padding (a : List Byte) (l : List (Nat × Nat)) (ha : SegmentsTo a l) (pad : List Bool) :
    ∃ st extra, segmentBuffer decode (packBits (bytesBits a ++ pad)) = .ok st ∧ st.struct = l ++ extra ∧
      (∀ x ∈ extra, ∃ L, payloadLen x.2 = some L ∧ a.length ≤ x.1 ∧ x.1 + L + 8 ≤ a.length + (packBits pad).length) ∧
      (pad.length ≤ 64 → extra = []) := by
  obtain ⟨sa, hsa, hl, hk⟩ := ha
  obtain ⟨sb, hsb, _⟩ := c20_never_raises (packBits pad)
  obtain ⟨st, hst, _⟩ := c20_never_raises (a ++ packBits pad)
  obtain ⟨_, _, h3⟩ := c22_prefix a (packBits pad) sa sb st hsa hsb hst hk
  have hin : ∀ x ∈ sb.struct, ∃ L, payloadLen x.2 = some L ∧ x.1 + L + 8 ≤ (packBits pad).length := by
    intro x hx
    obtain ⟨L, hh, _, hle, _⟩ := c16_fits _ sb hsb x.1 x.2 hx
    exact ⟨L, hh.known, hle⟩
  refine ⟨st, _, by rw [packBits_bytes]; exact hst, by rw [h3, hl], ?_, ?_⟩
  · intro x hx
    obtain ⟨y, hy, rfl⟩ := List.mem_map.1 hx
    obtain ⟨L, h1, h2⟩ := hin y hy
    exact ⟨L, h1, by simp, by simp only; omega⟩
  · intro hp
    have hlen := packBits_length pad
    cases hs : sb.struct with
    | nil => rfl
    | cons x xs =>
      obtain ⟨L, h1, h2⟩ := hin x (by rw [hs]; simp)
      have := payloadLen_pos h1
      omega

/-- A nine-byte AUTH_KEY frame (id 7), which may come up as random padding. -/
def paddingFrame : List Byte := [254, 1, 0, 1, 1, 7, 0, 152, 112]

/-- C78: expectation that fails ("the last 9 bytes are padding and not messages"): the random padding can itself be a message,
and is then reported. -/
theorem c78_padding_false : ¬ ∀ (r : Recording) (t : Int) (seq' : Nat) (buf : List Byte) (pad : List Bool) (st : SegState),
    RecordingFits r → createBuffer r t 0 = .ok (seq', buf) → pad.length = 72 →
    segmentBuffer decode (packBits (bytesBits buf ++ pad)) = .ok st → st.struct = fiveLayout := by
  intro h
  have hr : RecordingFits sampleRecording := by decide +kernel
  obtain ⟨f1, f2, f3, f4, f5, hc, _⟩ := c77_buffer sampleRecording hr 100 0 (by omega)
  obtain ⟨hlen, sa, hsa, hl, hk⟩ := c77_segment sampleRecording hr 100 0 (by omega) _ _ hc
  obtain ⟨st, hst, _⟩ := c20_never_raises ((f1 ++ f2 ++ f3 ++ f4 ++ f5) ++ paddingFrame)
  obtain ⟨sb, hsb⟩ : Returns (segmentBuffer decode paddingFrame) := by decide +kernel
  have hb : (segmentBuffer decode paddingFrame).toOption.map (·.struct) = some [(0, 7)] := by decide +kernel
  rw [hsb] at hb
  obtain ⟨_, _, h3⟩ := c22_prefix _ _ sa sb st hsa hsb hst hk
  have := h sampleRecording 100 _ _ (bytesBits paddingFrame) st hr hc (by decide)
    (by rw [packBits_bytes, packBits_bytesBits]; exact hst)
  rw [h3, hl] at this
  have hsb' : sb.struct = [(0, 7)] := by simpa [Except.toOption] using hb
  rw [hsb'] at this
  have := congrArg List.length this
  simp at this

/-- C78: `multiply_data = m` repeats the code words `2 ^ m` times in the same order. -/
theorem c78_multiply {α : Type} (l : List α) (m : Nat) :
    (multiplyData l m).length = l.length * 2 ^ m ∧
    ∀ i < l.length * 2 ^ m, (multiplyData l m)[i]? = l[i % l.length]? := by
  induction m generalizing l with
  | zero =>
    refine ⟨by simp [multiplyData], ?_⟩
    intro i hi
    rw [multiplyData, Nat.mod_eq_of_lt (by simpa using hi)]
  | succ m ih =>
    obtain ⟨h1, h2⟩ := ih (l ++ l)
    have hp : (l ++ l).length * 2 ^ m = l.length * 2 ^ (m + 1) := by
      rw [List.length_append, Nat.pow_succ, Nat.mul_comm (2 ^ m) 2, ← Nat.mul_assoc, Nat.mul_two]
    refine ⟨by rw [multiplyData, h1, hp], ?_⟩
    intro i hi
    rw [multiplyData, h2 i (by rw [hp]; exact hi)]
    have hpos : 0 < l.length := by
      rcases Nat.eq_zero_or_pos l.length with h | h
      · rw [h] at hi; simp at hi
      · exact h
    have hlt : i % (l ++ l).length < (l ++ l).length := Nat.mod_lt _ (by simp; omega)
    have hmod : i % (l ++ l).length % l.length = i % l.length :=
      Nat.mod_mod_of_dvd _ (by rw [List.length_append]; exact ⟨2, by omega⟩)
    by_cases hc : i % (l ++ l).length < l.length
    · rw [List.getElem?_append_left hc, ← hmod, Nat.mod_eq_of_lt hc]
    · rw [List.getElem?_append_right (by omega), ← hmod]
      congr 1
      generalize i % (l ++ l).length = j at *
      rw [List.length_append] at hlt
      rw [Nat.mod_eq_sub_mod (by omega), Nat.mod_eq_of_lt (by omega)]

/-- The sample recording has a buffer, which is cut into three parts. -/
example : ∃ seq' buf parts, createBuffer sampleRecording 100 0 = .ok (seq', buf) ∧ clusterParts 3 (bytesBits buf) = .ok parts ∧
    SegmentsTo (packBits (parts.getD 1 [])) [(0, 234), (20, 30)] := by
  have hr : RecordingFits sampleRecording := by decide +kernel
  obtain ⟨f1, f2, f3, f4, f5, hc, _⟩ := c77_buffer sampleRecording hr 100 0 (by omega)
  obtain ⟨parts, hp, _, hall⟩ := (c78_parts sampleRecording hr 100 0 (by omega) _ _ hc 3).1 (by omega)
  refine ⟨_, _, parts, hc, hp, ?_⟩
  cases hall with
  | cons _ t => cases t with
    | cons h _ => exact h

example : multiplyData [1, 2, 3] 2 = [1, 2, 3, 1, 2, 3, 1, 2, 3, 1, 2, 3] := by decide

end NR
