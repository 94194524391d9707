import Verif.Spec.Recording
import Verif.Props.C16_C24
import Verif.Props.C64
/-
C77: buffers made from a recorded mission.
-/
namespace NR
open Spec Dialect

/-! ### Helper lemmas -/

theorem findIdx?_first {p : Int → Bool} {l : List Int} {i : Nat} (h : l.findIdx? p = some i) :
    i < l.length ∧ p (l.getD i 0) = true ∧ ∀ k < i, p (l.getD k 0) = false := by
  obtain ⟨hi, hp, hlt⟩ := List.findIdx?_eq_some_iff_getElem.1 h
  refine ⟨hi, by rw [getD_lt _ _ hi]; exact hp, ?_⟩
  intro k hk
  rw [getD_lt _ _ (by omega)]
  simpa using hlt k hk

/-- C77: the row taken for time `t` is the first one at or after `t`; a sensor that ended before `t` contributes its very
first row; a sensor without rows raises. -/
theorem c77_row (times : List Int) (t : Int) :
    (times = [] ∧ Raises (sampleIndex times t) .valueError) ∨ ∃ i, sampleIndex times t = .ok i ∧ RowFor times t i := by
  unfold sampleIndex
  by_cases h : times = []
  · left; exact ⟨h, by rw [if_pos h]⟩
  · right
    rw [if_neg h]
    cases hf : times.findIdx? (fun x => decide (t ≤ x)) with
    | some i =>
      obtain ⟨h1, h2, h3⟩ := findIdx?_first hf
      refine ⟨i, rfl, Or.inl ⟨h1, by simpa using h2, ?_⟩⟩
      intro k hk
      have := h3 k hk
      simpa using this
    | none =>
      refine ⟨0, rfl, Or.inr ⟨rfl, h, ?_⟩⟩
      intro x hx
      have := List.findIdx?_eq_none_iff.1 hf x hx
      simpa using this

theorem rowFor_lt {times : List Int} {t : Int} {i : Nat} (h : RowFor times t i) : i < times.length := by
  rcases h with h | ⟨rfl, hne, _⟩
  · exact h.1
  · exact List.length_pos_of_ne_nil hne

theorem sensorColumn_ok {m : MsgClass} {s : Sensor} (hs : SensorFits m s) {j i : Nat} (hj : j < m.orderedFieldnames.length)
    (hi : i < s.times.length) : s.column j i = .ok (recorded s j i) := by
  cases j with
  | zero => simp [Sensor.column, recorded, List.getElem?_eq_getElem hi, List.getD]
  | succ j =>
    have hj' : j < s.cols.length := by have := hs.2.1; omega
    have hc : i < (s.cols[j]).length := by rw [hs.2.2.1 _ (List.getElem_mem hj')]; exact hi
    simp [Sensor.column, recorded, List.getElem?_eq_getElem hj', List.getElem?_eq_getElem hc, List.getD]

theorem args_ok {m : MsgClass} (hm : m ∈ mavlinkMap) (hn : NoArrays m) {s : Sensor} (hs : SensorFits m s) (t : Int) :
    ∃ i, RowFor s.times t i ∧ messageArgs s m.orders t = .ok (m.orders.map fun j => recorded s j i) ∧
      WellTyped m (m.orders.map fun j => recorded s j i) := by
  have ok := classOK hm
  rcases c77_row s.times t with ⟨h, _⟩ | ⟨i, hi, hr⟩
  · exact absurd h hs.1
  · refine ⟨i, hr, ?_, ?_, ?_⟩
    · simp only [messageArgs, hi, bind, Except.bind]
      apply mapM_ok
      intro j hj
      apply sensorColumn_ok hs _ (rowFor_lt hr)
      obtain ⟨k, hk, rfl⟩ := List.getElem_of_mem hj
      have := ok.ordersLt k (by rw [← ok.lenOrders]; exact hk)
      rw [getD_lt _ _ hk] at this
      rw [ok.lenOrdered]; exact this
    · simp [ok.lenOrders]
    · intro k hk
      have hko : k < m.orders.length := by rw [ok.lenOrders]; exact hk
      have h0 : m.arrayLengths.getD (m.orders.getD k 0) 0 = 0 := by
        have hl : m.orders.getD k 0 < m.arrayLengths.length := by rw [ok.lenArr]; exact ok.ordersLt k hk
        rw [getD_lt _ _ hl]
        exact hn _ (List.getElem_mem _)
      have he : (m.orders.map fun j => recorded s j i).getD k (.text []) = recorded s (m.orders.getD k 0) i := by
        rw [getD_lt _ _ (by simpa using hko), List.getElem_map, ← getD_lt m.orders 0 hko]
      rw [h0, he]
      exact hs.2.2.2 k hk i (rowFor_lt hr)

theorem append_ok {m : MsgClass} (hm : m ∈ mavlinkMap) (hn : NoArrays m) (hc : CType.char ∉ m.fieldtypes) {s : Sensor}
    (hs : SensorFits m s) (t : Int) (seq : Nat) (hseq : seq ≤ 255) (b : List Byte) {L : Nat} (hL : payloadLen m.id = some L) :
    ∃ f, appendMessage t (seq, b) (m, m.orders, s) = .ok ((seq + 1) % 256, b ++ f) ∧ f.length = L + 8 ∧
      CarriesRow m s t seq f ∧ PackedFrame m f := by
  have ok := classOK hm
  obtain ⟨i, hr, ha, hw⟩ := args_ok hm hn hs t
  obtain ⟨f, msg, hp, hd, e1, _, e2, e3, e4, _⟩ := c10_round_trip m hm _ hw seq 1 1 hseq (by omega) (by omega)
  obtain ⟨f', msg', hp', hd', e5⟩ := c10_round_trip_exact m hm hc _ hw seq 1 1 hseq (by omega) (by omega)
  rw [hp] at hp'; cases hp'
  rw [hd] at hd'; cases hd'
  have hpf : PackedFrame m f := ⟨hm, _, _, _, _, hp⟩
  refine ⟨f, ?_, ?_, ⟨msg, i, hd, e1, e2, e3, e4, hr, ?_⟩, hpf⟩
  · simp only [Nat.cast_one] at hp
    simp only [appendMessage, ha, bind, Except.bind, hp]
  · have h1 := c08_no_arrays m hm hn _ _ _ _ f hp
    have h2 := (packed_head hpf).1
    rw [hL] at h1
    have := Option.some.inj h1
    omega
  · intro j hj
    rw [ok.lenOrdered] at hj
    unfold MavMsg.attr
    rw [e1, e5, ok.lookup_field (by simp [ok.lenOrders]) hj]
    have hl : m.orders.idxOf j < m.orders.length := by rw [ok.lenOrders]; exact ok.idx_lt hj
    rw [getD_lt _ _ (by simpa using hl), List.getElem_map, ← getD_lt m.orders 0 hl, ok.orders_idx hj]

theorem five_ok (r : Recording) (hr : RecordingFits r) (t : Int) (seq : Nat) (hseq : seq ≤ 255) :
    ∃ f1 f2 f3 f4 f5, createBuffer r t seq = .ok ((seq + 5) % 256, f1 ++ f2 ++ f3 ++ f4 ++ f5) ∧
      FiveFrames r t seq f1 f2 f3 f4 f5 ∧ PackedFrame msg33 f1 ∧ PackedFrame msg234 f2 ∧ PackedFrame msg30 f3 ∧
      PackedFrame msg212 f4 ∧ PackedFrame msg218 f5 := by
  obtain ⟨r1, r2, r3, r4, r5⟩ := hr
  obtain ⟨f1, a1, l1, c1, p1⟩ := append_ok (m := msg33) (by decide +kernel) (by decide) (by decide) r1 t seq hseq []
    (L := 44) (by decide +kernel)
  obtain ⟨f2, a2, l2, c2, p2⟩ := append_ok (m := msg234) (by decide +kernel) (by decide) (by decide) r2 t
    ((seq + 1) % 256) (by omega) ([] ++ f1) (L := 12) (by decide +kernel)
  obtain ⟨f3, a3, l3, c3, p3⟩ := append_ok (m := msg30) (by decide +kernel) (by decide) (by decide) r3 t
    ((seq + 2) % 256) (by omega) ([] ++ f1 ++ f2) (L := 28) (by decide +kernel)
  obtain ⟨f4, a4, l4, c4, p4⟩ := append_ok (m := msg212) (by decide +kernel) (by decide) (by decide) r4 t
    ((seq + 3) % 256) (by omega) ([] ++ f1 ++ f2 ++ f3) (L := 19) (by decide +kernel)
  obtain ⟨f5, a5, l5, c5, p5⟩ := append_ok (m := msg218) (by decide +kernel) (by decide) (by decide) r5 t
    ((seq + 4) % 256) (by omega) ([] ++ f1 ++ f2 ++ f3 ++ f4) (L := 10) (by decide +kernel)
  have s2 : ((seq + 1) % 256 + 1) % 256 = (seq + 2) % 256 := by omega
  have s3 : ((seq + 2) % 256 + 1) % 256 = (seq + 3) % 256 := by omega
  have s4 : ((seq + 3) % 256 + 1) % 256 = (seq + 4) % 256 := by omega
  have s5 : ((seq + 4) % 256 + 1) % 256 = (seq + 5) % 256 := by omega
  rw [s2] at a2; rw [s3] at a3; rw [s4] at a4; rw [s5] at a5
  have hm : r.messages = [(msg33, msg33.orders, r.position), (msg234, msg234.orders, r.pinger),
    (msg30, msg30.orders, r.attitude), (msg212, msg212.orders, r.svs), (msg218, msg218.orders, r.chamber)] := rfl
  refine ⟨f1, f2, f3, f4, f5, ?_, ⟨l1, l2, l3, l4, l5, ?_, c2, c3, c4, c5⟩, p1, p2, p3, p4, p5⟩
  · unfold createBuffer
    rw [hm]
    simp only [List.foldlM_cons, List.foldlM_nil, bind, Except.bind, a1, a2, a3, a4, a5]
    rfl
  · rw [Nat.mod_eq_of_lt (by omega)]; exact c1

/-- C77: for every recording whose values fit, every time and every sequence number the buffer is built; it consists of the
five frames, 153 bytes, each with the numbers recorded under the field's name in the row for that time. -/
theorem c77_buffer (r : Recording) (hr : RecordingFits r) (t : Int) (seq : Nat) (hseq : seq ≤ 255) :
    ∃ f1 f2 f3 f4 f5, createBuffer r t seq = .ok ((seq + 5) % 256, f1 ++ f2 ++ f3 ++ f4 ++ f5) ∧
      FiveFrames r t seq f1 f2 f3 f4 f5 := by
  obtain ⟨f1, f2, f3, f4, f5, h, hf, _⟩ := five_ok r hr t seq hseq
  exact ⟨f1, f2, f3, f4, f5, h, hf⟩

/-- C77: segmenting the buffer finds exactly the five messages, and every byte belongs to one. -/
theorem c77_segment (r : Recording) (hr : RecordingFits r) (t : Int) (seq : Nat) (hseq : seq ≤ 255) (seq' : Nat)
    (buf : List Byte) (hb : createBuffer r t seq = .ok (seq', buf)) :
    buf.length = 153 ∧ ∃ st, segmentBuffer decode buf = .ok st ∧ st.struct = fiveLayout ∧ ∀ p ∈ st.parts, p ≠ .unknown := by
  obtain ⟨f1, f2, f3, f4, f5, h, hf, p1, p2, p3, p4, p5⟩ := five_ok r hr t seq hseq
  rw [hb] at h; cases h
  obtain ⟨l1, l2, l3, l4, l5, _⟩ := hf
  refine ⟨by simp [l1, l2, l3, l4, l5], ?_⟩
  obtain ⟨st, hs, hl, hk, _⟩ := c21_concatenation [(msg33, f1), (msg234, f2), (msg30, f3), (msg212, f4), (msg218, f5)] (by
    intro x hx
    simp only [List.mem_cons, List.not_mem_nil, or_false] at hx
    rcases hx with rfl | rfl | rfl | rfl | rfl
    · exact ⟨p1, show NoArrays msg33 by decide⟩
    · exact ⟨p2, show NoArrays msg234 by decide⟩
    · exact ⟨p3, show NoArrays msg30 by decide⟩
    · exact ⟨p4, show NoArrays msg212 by decide⟩
    · exact ⟨p5, show NoArrays msg218 by decide⟩)
  refine ⟨st, ?_, ?_, hk⟩
  · rw [← hs]; simp
  · rw [hl]; simp only [layout, l1, l2, l3, l4]; rfl

/-- C77: the sequence numbers run through all buffers: the first message of buffer number `i` has number `5 i`, modulo 256. -/
theorem c77_sequence (r : Recording) (hr : RecordingFits r) (ts : List Int) (seq : Nat) (hseq : seq ≤ 255) :
    ∃ bufs, createBuffers r ts seq = .ok ((seq + 5 * ts.length) % 256, bufs) ∧ bufs.length = ts.length ∧
      ∀ i < ts.length, ∃ f1 f2 f3 f4 f5, bufs.getD i [] = f1 ++ f2 ++ f3 ++ f4 ++ f5 ∧
        FiveFrames r (ts.getD i 0) (seq + 5 * i) f1 f2 f3 f4 f5 := by
  induction ts generalizing seq with
  | nil => exact ⟨[], by simp [createBuffers, Nat.mod_eq_of_lt (show seq < 256 by omega)], rfl, by simp⟩
  | cons t ts ih =>
    obtain ⟨f1, f2, f3, f4, f5, h, hf⟩ := c77_buffer r hr t seq hseq
    obtain ⟨bufs, hb, hl, hall⟩ := ih ((seq + 5) % 256) (by omega)
    refine ⟨(f1 ++ f2 ++ f3 ++ f4 ++ f5) :: bufs, ?_, by simp [hl], ?_⟩
    · simp only [createBuffers, h, bind, Except.bind, hb, List.length_cons]
      congr 2
      omega
    · intro i hi
      cases i with
      | zero => exact ⟨f1, f2, f3, f4, f5, rfl, hf⟩
      | succ i =>
        obtain ⟨g1, g2, g3, g4, g5, hg, hfg⟩ := hall i (by simpa using hi)
        refine ⟨g1, g2, g3, g4, g5, hg, ?_⟩
        obtain ⟨l1, l2, l3, l4, l5, k1, k2, k3, k4, k5⟩ := hfg
        have e : ∀ j, ((seq + 5) % 256 + 5 * i + j) % 256 = (seq + 5 * (i + 1) + j) % 256 := by intro j; omega
        have e0 := e 0
        simp only [Nat.add_zero] at e0
        rw [e0] at k1
        rw [e 1] at k2; rw [e 2] at k3; rw [e 3] at k4; rw [e 4] at k5
        exact ⟨l1, l2, l3, l4, l5, k1, k2, k3, k4, k5⟩

/-- C77: the time vector is the arithmetic sequence from the first time, as long as it stays before the final one. -/
theorem c77_times (first final : Int) (delay : Nat) (hd : 0 < delay) (x : Int) :
    x ∈ timeVec first final delay ↔ ∃ i : Nat, x = first + i * delay ∧ x < final := by
  unfold timeVec
  simp only [List.mem_map, List.mem_range]
  have hd' : (0 : Int) < delay := by omega
  have key : ∀ i : Nat, i < ((final - first + delay - 1) / delay).toNat ↔ first + i * delay < final := by
    intro i
    rw [Int.lt_toNat]
    have h1 : (i : Int) < (final - first + delay - 1) / delay ↔ ((i : Int) + 1) ≤ (final - first + delay - 1) / delay := by
      omega
    rw [h1, Int.le_ediv_iff_mul_le hd', Int.add_mul]
    omega
  constructor
  · rintro ⟨i, hi, rfl⟩
    exact ⟨i, rfl, (key i).1 hi⟩
  · rintro ⟨i, rfl, hi⟩
    exact ⟨i, (key i).2 hi, rfl⟩

/-- A recording with two rows per sensor meets the hypotheses. -/
def sampleRecording : Recording where
  position := ⟨[100, 200], [[.int 32, .int 33], [.int 34, .int (-35)]] ++ List.replicate 8 [.flt 0x3F800000, .flt 0]⟩
  pinger := ⟨[90, 150], [[.flt 1, .flt 2], [.flt 3, .flt 4]]⟩
  attitude := ⟨[100, 110], List.replicate 6 [.flt 5, .flt 6]⟩
  svs := ⟨[100, 300], [[.flt 5, .flt 6], [.flt 5, .flt 6], [.flt 5, .flt 6], [.int 65535, .int 1], [.int 255, .int 2]]⟩
  chamber := ⟨[100, 300], [[.int 1000, .int 2], [.int 65535, .int 2], [.int 255, .int 2], [.int 7, .int 8]]⟩

example : RecordingFits sampleRecording := by decide +kernel

/-- C77: expectation that fails: the row used for a time is not always at or after it, or the latest one: when the sensor
ended before, its first row is sent. -/
theorem c77_latest_false : ¬ ∀ (times : List Int) (t : Int) (i : Nat), times.Pairwise (· < ·) → sampleIndex times t = .ok i →
    t ≤ times.getD i 0 ∨ i + 1 = times.length := by
  intro h
  exact absurd (h [1, 2] 3 0 (by decide) rfl) (by decide)

end NR
