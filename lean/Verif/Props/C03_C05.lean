import Verif.Lemmas.Table
import Verif.Lemmas.Bits
/-!
C03-C05: `FrameHeader`, `is_valid_header`, `FrameHeader.from_buffer` (protocol_meta/msg_header.py).
-/
namespace NR
open Dialect

/-- The integer fits in an unsigned byte. -/
def U8 (i : Int) : Prop := 0 ≤ i ∧ i ≤ 255

/-- The integer is a message id of the dialect. -/
def KnownId (i : Int) : Prop := ∃ m ∈ mavlinkMap, (m.id : Int) = i

theorem payloadLenInt_eq_some {i : Int} {l : Nat} :
    payloadLenInt i = some l ↔ ∃ m ∈ mavlinkMap, (m.id : Int) = i ∧ msgLen m = l := by
  unfold payloadLenInt
  by_cases h : 0 ≤ i
  · rw [if_pos h, payloadLen_eq_some]
    constructor
    · rintro ⟨m, hm, he, hl⟩; exact ⟨m, hm, by omega, hl⟩
    · rintro ⟨m, hm, he, hl⟩; exact ⟨m, hm, by omega, hl⟩
  · rw [if_neg h]
    constructor
    · intro h; cases h
    · rintro ⟨m, _, he, _⟩; omega

theorem payloadLenInt_eq_none {i : Int} : payloadLenInt i = none ↔ ¬ KnownId i := by
  constructor
  · rintro h ⟨m, hm, he⟩
    have := payloadLenInt_eq_some.2 ⟨m, hm, he, rfl⟩
    rw [h] at this; cases this
  · intro h
    cases hp : payloadLenInt i with
    | none => rfl
    | some l =>
      obtain ⟨m, hm, he, _⟩ := payloadLenInt_eq_some.1 hp
      exact absurd ⟨m, hm, he⟩ h

/-- C03: on in-range parameters and a known id, the header is the six expected bytes. -/
theorem c03_buffer (m : MsgClass) (hm : m ∈ mavlinkMap) (sysId compId seq : Byte) :
    mkFrameHeader m.id sysId.toNat compId.toNat seq.toNat
      = .ok ⟨[254, BitVec.ofNat 8 (msgLen m), seq, sysId, compId, BitVec.ofNat 8 m.id]⟩ := by
  have hb := table_bounds m hm
  have hs := sysId.isLt
  have hc := compId.isLt
  have hq := seq.isLt
  unfold mkFrameHeader
  rw [if_neg (by omega), payloadLenInt_eq_some.2 ⟨m, hm, rfl, rfl⟩]
  have : pyBytes [(stx : Int), (msgLen m : Int), (seq.toNat : Int), (sysId.toNat : Int), (compId.toNat : Int), (m.id : Int)]
      = .ok [254, BitVec.ofNat 8 (msgLen m), seq, sysId, compId, BitVec.ofNat 8 m.id] := by
    unfold pyBytes
    rw [if_pos]
    · simp only [List.map_cons, List.map_nil, BitVec.ofInt_natCast, BitVec.ofNat_toNat, stx]
      simp
    · simp only [List.all_cons, List.all_nil, stx, Bool.and_true, Bool.and_eq_true, decide_eq_true_eq]
      omega
  simp only [this]
  rfl

example : ∃ m ∈ mavlinkMap, m.id = 0 ∧ msgLen m = 9 := by decide +kernel

/-- C03: which parameters are accepted. -/
theorem c03_accepts_iff (msgId sysId compId seq : Int) :
    Returns (mkFrameHeader msgId sysId compId seq) ↔
      U8 sysId ∧ U8 compId ∧ U8 seq ∧ KnownId msgId := by
  unfold U8
  constructor
  · rintro ⟨h, hh⟩
    unfold mkFrameHeader at hh
    split at hh
    · cases hh
    · split at hh
      next l hl =>
        obtain ⟨m, hm, he, _⟩ := payloadLenInt_eq_some.1 hl
        exact ⟨by omega, by omega, by omega, m, hm, he⟩
      next => split at hh <;> cases hh
  · rintro ⟨hs, hc, hq, m, hm, rfl⟩
    have := c03_buffer m hm (BitVec.ofInt 8 sysId) (BitVec.ofInt 8 compId) (BitVec.ofInt 8 seq)
    have e : ∀ i : Int, 0 ≤ i ∧ i ≤ 255 → ((BitVec.ofInt 8 i).toNat : Int) = i := by
      intro i hi
      rw [BitVec.toNat_ofInt]; omega
    rw [e _ hs, e _ hc, e _ hq] at this
    exact ⟨_, this⟩

/-- C03: the properties of a constructed header read back the parameters and the payload length. -/
theorem c03_reads_back (msgId sysId compId seq : Int) (h : FrameHeader)
    (hh : mkFrameHeader msgId sysId compId seq = .ok h) :
    h.buffer.length = 6 ∧ h.buffer[0]? = some 254 ∧ (h.msgId : Int) = msgId ∧ (h.sysId : Int) = sysId ∧
    (h.compId : Int) = compId ∧ (h.sequence : Int) = seq ∧
    ∃ m ∈ mavlinkMap, (m.id : Int) = msgId ∧ h.length = msgLen m := by
  obtain ⟨hs, hc, hq, m, hm, rfl⟩ := (c03_accepts_iff _ _ _ _).1 ⟨h, hh⟩
  have := c03_buffer m hm (BitVec.ofInt 8 sysId) (BitVec.ofInt 8 compId) (BitVec.ofInt 8 seq)
  have e : ∀ i : Int, 0 ≤ i ∧ i ≤ 255 → ((BitVec.ofInt 8 i).toNat : Int) = i := by
    intro i hi
    rw [BitVec.toNat_ofInt]; omega
  have hb := table_bounds m hm
  rw [e _ hs, e _ hc, e _ hq, hh] at this
  cases this
  refine ⟨rfl, rfl, ?_, ?_, ?_, ?_, m, hm, rfl, ?_⟩
  · simp [FrameHeader.msgId]; omega
  · simpa [FrameHeader.sysId] using e _ hs
  · simpa [FrameHeader.compId] using e _ hc
  · simpa [FrameHeader.sequence] using e _ hq
  · simp [FrameHeader.length]; omega

/-- C03: NonUint8 is raised exactly when one of the four integers is not a byte. -/
theorem c03_nonUint8_iff (msgId sysId compId seq : Int) :
    Raises (mkFrameHeader msgId sysId compId seq) .nonUint8 ↔
      ¬ U8 sysId ∨ ¬ U8 compId ∨ ¬ U8 seq ∨ ¬ U8 msgId := by
  unfold U8 Raises
  constructor
  · intro hh
    unfold mkFrameHeader at hh
    split at hh
    · omega
    · split at hh
      next l hl =>
        exfalso
        obtain ⟨m, hm, he, hl'⟩ := payloadLenInt_eq_some.1 hl
        have : Returns (mkFrameHeader msgId sysId compId seq) :=
          (c03_accepts_iff _ _ _ _).2 ⟨by unfold U8; omega, by unfold U8; omega, by unfold U8; omega, m, hm, he⟩
        obtain ⟨x, hx⟩ := this
        unfold mkFrameHeader at hx
        rw [if_neg (by assumption), hl] at hx
        simp only [] at hx
        rw [hx] at hh; cases hh
      next => split at hh
              · omega
              · cases hh
  · intro h
    unfold mkFrameHeader
    by_cases h1 : sysId < 0 ∨ compId < 0 ∨ seq < 0 ∨ sysId > 255 ∨ compId > 255 ∨ seq > 255
    · rw [if_pos h1]
    · have hk : payloadLenInt msgId = none := by
        rw [payloadLenInt_eq_none]
        rintro ⟨m, hm, he⟩
        have := table_bounds m hm
        omega
      rw [if_neg h1, hk]
      simp only []
      rw [if_pos (by omega)]

/-- C03: NonExistentMsdId is raised exactly for in-range parameters with an unknown id. -/
theorem c03_nonExistent_iff (msgId sysId compId seq : Int) :
    Raises (mkFrameHeader msgId sysId compId seq) .nonExistentMsdId ↔
      U8 sysId ∧ U8 compId ∧ U8 seq ∧ U8 msgId ∧ ¬ KnownId msgId := by
  constructor
  · intro hh
    have h1 : ¬ Returns (mkFrameHeader msgId sysId compId seq) := by
      rintro ⟨x, hx⟩; rw [Raises, hx] at hh; cases hh
    have h2 : ¬ Raises (mkFrameHeader msgId sysId compId seq) .nonUint8 := by
      intro h; rw [Raises, h] at hh; cases hh
    rw [c03_nonUint8_iff] at h2
    rw [c03_accepts_iff] at h1
    unfold U8 at *
    refine ⟨by omega, by omega, by omega, by omega, fun hk => h1 ⟨by omega, by omega, by omega, hk⟩⟩
  · rintro ⟨hs, hc, hq, hm, hk⟩
    unfold U8 at *
    unfold Raises mkFrameHeader
    rw [if_neg (by omega), payloadLenInt_eq_none.2 hk]
    simp only []
    rw [if_neg (by omega)]

example : U8 15 ∧ ¬ KnownId 15 := by
  refine ⟨by unfold U8; omega, ?_⟩
  have : ∀ m ∈ mavlinkMap, (m.id : Int) ≠ 15 := by decide +kernel
  rintro ⟨m, hm, he⟩; exact this m hm he

/-- The six bytes of a buffer of length six. -/
theorem six_bytes {b : List Byte} (h : b.length = 6) :
    ∃ b0 b1 b2 b3 b4 b5, b = [b0, b1, b2, b3, b4, b5] := by
  match b, h with
  | [b0, b1, b2, b3, b4, b5], _ => exact ⟨b0, b1, b2, b3, b4, b5, rfl⟩

theorem isValidHeader_six (b0 b1 b2 b3 b4 b5 : Byte) :
    isValidHeader [b0, b1, b2, b3, b4, b5] = true ↔
      b0.toNat = 254 ∧ payloadLen b5.toNat = some b1.toNat := by
  simp only [isValidHeader, headerLen, List.length_cons, List.length_nil, stx]
  simp only [List.getD_cons_zero, List.getD_cons_succ]
  constructor
  · intro h
    simp at h
    exact ⟨h.1.1, h.2⟩
  · rintro ⟨h0, h1⟩
    have : ((msgsPayloadLength.map Prod.fst).contains b5.toNat) = true := by
      obtain ⟨m, hm, he, _⟩ := payloadLen_eq_some.1 h1
      rw [List.contains_iff_mem]
      simp only [msgsPayloadLength, List.map_map, List.mem_map]
      exact ⟨m, hm, he⟩
    rw [this, h0, h1]
    simp

theorem isValidHeader_length {b : List Byte} (h : isValidHeader b = true) : b.length = 6 := by
  unfold isValidHeader at h
  split at h
  · cases h
  · simp_all [headerLen]

/-- C04: `is_valid_header` accepts exactly the buffers of constructible `FrameHeader`s. -/
theorem c04_valid_iff_constructible (b : List Byte) :
    isValidHeader b = true ↔
      ∃ (msgId sysId compId seq : Int) (h : FrameHeader),
        mkFrameHeader msgId sysId compId seq = .ok h ∧ h.buffer = b := by
  constructor
  · intro hv
    obtain ⟨b0, b1, b2, b3, b4, b5, rfl⟩ := six_bytes (isValidHeader_length hv)
    obtain ⟨h0, h1⟩ := (isValidHeader_six _ _ _ _ _ _).1 hv
    obtain ⟨m, hm, he, hl⟩ := payloadLen_eq_some.1 h1
    refine ⟨m.id, b3.toNat, b4.toNat, b2.toNat, _, c03_buffer m hm b3 b4 b2, ?_⟩
    have e0 : b0 = 254 := by apply BitVec.eq_of_toNat_eq; simpa using h0
    simp [hl, he, e0]
  · rintro ⟨msgId, sysId, compId, seq, h, hh, rfl⟩
    obtain ⟨hlen, h0, hid, hsy, hco, hse, m, hm, he, hl⟩ := c03_reads_back _ _ _ _ h hh
    obtain ⟨b0, b1, b2, b3, b4, b5, hb⟩ := six_bytes hlen
    rw [hb] at h0 ⊢
    rw [isValidHeader_six]
    simp only [FrameHeader.msgId, FrameHeader.length, hb, List.getD_cons_zero, List.getD_cons_succ] at hid hl
    refine ⟨by simp at h0; simp [h0], ?_⟩
    rw [payloadLen_eq_some]
    exact ⟨m, hm, by omega, hl.symm⟩

example : isValidHeader [254, 9, 7, 1, 1, 0] = true := by decide +kernel

/-- C05: `from_buffer` on the bytes of a constructible header rebuilds that header. -/
theorem c05_round_trip (msgId sysId compId seq : Int) (h : FrameHeader)
    (hh : mkFrameHeader msgId sysId compId seq = .ok h) :
    FrameHeader.fromBuffer h.buffer = .ok h := by
  obtain ⟨hlen, h0, hid, hsy, hco, hse, m, hm, he, hl⟩ := c03_reads_back _ _ _ _ h hh
  unfold FrameHeader.fromBuffer
  rw [if_neg (by simp [hlen, headerLen])]
  simp only [FrameHeader.msgId, FrameHeader.sysId, FrameHeader.compId, FrameHeader.sequence] at hid hsy hco hse
  simp only [hid, hsy, hco, hse]
  exact hh

/-- C05: repairing any six bytes with known id: the result is a valid header that keeps sequence, system and
component bytes and the id, and it is the input itself iff the input was already a valid header. -/
theorem c05_repair (b0 b1 b2 b3 b4 b5 : Byte) (hk : KnownId b5.toNat) :
    ∃ h, FrameHeader.fromBuffer [b0, b1, b2, b3, b4, b5] = .ok h ∧ isValidHeader h.buffer = true ∧
      h.buffer.drop 2 = [b2, b3, b4, b5] ∧
      (h.buffer = [b0, b1, b2, b3, b4, b5] ↔ isValidHeader [b0, b1, b2, b3, b4, b5] = true) := by
  obtain ⟨m, hm, he⟩ := hk
  have he' : m.id = b5.toNat := by exact_mod_cast he
  have hf : FrameHeader.fromBuffer [b0, b1, b2, b3, b4, b5]
      = .ok ⟨[254, BitVec.ofNat 8 (msgLen m), b2, b3, b4, b5]⟩ := by
    unfold FrameHeader.fromBuffer
    rw [if_neg (by simp [headerLen])]
    simp only [List.getD_cons_zero, List.getD_cons_succ]
    have := c03_buffer m hm b3 b4 b2
    rw [he'] at this
    simpa using this
  refine ⟨_, hf, ?_, rfl, ?_⟩
  · rw [isValidHeader_six]
    refine ⟨rfl, payloadLen_eq_some.2 ⟨m, hm, he', ?_⟩⟩
    have := table_bounds m hm
    simp; omega
  · rw [isValidHeader_six, payloadLen_eq_some]
    have hb := table_bounds m hm
    constructor
    · intro h
      simp only [List.cons.injEq, and_true] at h
      obtain ⟨rfl, rfl⟩ := h
      exact ⟨rfl, m, hm, he', by simp; omega⟩
    · rintro ⟨h0, m', hm', he'', hl'⟩
      have : m' = m := by
        have h1 := lookupMsg_eq_some.2 ⟨hm', he''⟩
        have h2 := lookupMsg_eq_some.2 ⟨hm, he'⟩
        rw [h1] at h2; exact Option.some.inj h2
      subst this
      have e0 : b0 = 254 := by apply BitVec.eq_of_toNat_eq; simpa using h0
      simp [e0, hl']

/-- C05: forcing a known id: sequence, system and component bytes are kept, the id and length are those of the
forced message; the id byte of the buffer is ignored. -/
theorem c05_forced (m : MsgClass) (hm : m ∈ mavlinkMap) (b0 b1 b2 b3 b4 b5 : Byte) :
    FrameHeader.fromBuffer [b0, b1, b2, b3, b4, b5] (some m.id)
      = .ok ⟨[254, BitVec.ofNat 8 (msgLen m), b2, b3, b4, BitVec.ofNat 8 m.id]⟩ := by
  unfold FrameHeader.fromBuffer
  rw [if_neg (by simp [headerLen])]
  simp only [List.getD_cons_zero, List.getD_cons_succ]
  exact c03_buffer m hm b3 b4 b2

theorem mkFrameHeader_ne_headerLength (a b c d : Int) : mkFrameHeader a b c d ≠ .error .headerLength := by
  intro h
  unfold mkFrameHeader at h
  split at h
  · cases h
  · split at h
    · unfold pyBytes at h
      split at h <;> cases h
    · split at h <;> cases h

/-- C05: a wrong length raises HeaderLength, with or without forced id. -/
theorem c05_wrong_length (b : List Byte) (f : Option Int) :
    Raises (FrameHeader.fromBuffer b f) .headerLength ↔ b.length ≠ 6 := by
  constructor
  · intro h hl
    unfold Raises FrameHeader.fromBuffer at h
    rw [if_neg (by simp [headerLen, hl])] at h
    exact mkFrameHeader_ne_headerLength _ _ _ _ h
  · intro h
    unfold Raises FrameHeader.fromBuffer
    rw [if_pos (by simp [headerLen, h])]

/-- C05: an unknown id raises: NonExistentMsdId if it is a byte value (always so without forcing), NonUint8
otherwise. -/
theorem c05_unknown_id (b0 b1 b2 b3 b4 b5 : Byte) (f : Option Int)
    (hu : ¬ KnownId (f.getD b5.toNat)) :
    FrameHeader.fromBuffer [b0, b1, b2, b3, b4, b5] f
      = .error (if 0 ≤ f.getD b5.toNat ∧ f.getD b5.toNat ≤ 255 then .nonExistentMsdId else .nonUint8) := by
  have h2 := b2.isLt
  have h3 := b3.isLt
  have h4 := b4.isLt
  unfold FrameHeader.fromBuffer
  rw [if_neg (by simp [headerLen])]
  simp only [List.getD_cons_zero, List.getD_cons_succ]
  split
  next h =>
    exact (c03_nonExistent_iff _ _ _ _).2 ⟨by unfold U8; omega, by unfold U8; omega, by unfold U8; omega, h, hu⟩
  next h =>
    exact (c03_nonUint8_iff _ _ _ _).2 (Or.inr (Or.inr (Or.inr h)))

example : FrameHeader.fromBuffer [0, 0, 7, 1, 2, 30] = .ok ⟨[254, 28, 7, 1, 2, 30]⟩ := by decide +kernel

end NR
