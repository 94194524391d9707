import Verif.Props.C10_C13
/-
C123: decoding frames of protocol version 2, and byte strings that start with neither marker.
-/
namespace NR.C123
open NR Spec Dialect

/-- The bytes between the marker and the check sum: length, sequence number, system, component, id, payload. -/
def body1 (m : MsgClass) (seq sys cmp : Byte) (p : List Byte) : List Byte :=
  [BitVec.ofNat 8 p.length, seq, sys, cmp, BitVec.ofNat 8 m.id] ++ p

/-- The same for version 2: two bytes of flags after the length, and an id of three bytes. -/
def body2 (m : MsgClass) (inc comp seq sys cmp : Byte) (p : List Byte) : List Byte :=
  [BitVec.ofNat 8 p.length, inc, comp, seq, sys, cmp, BitVec.ofNat 8 m.id, BitVec.ofNat 8 (m.id / 256),
    BitVec.ofNat 8 (m.id / 65536)] ++ p

/-- The check sum, low byte first: X.25 over the bytes and the extra byte of the class. -/
def sumOf (m : MsgClass) (body : List Byte) : List Byte :=
  leBytes 2 (crcOfBits (txBits (body ++ [BitVec.ofNat 8 m.crcExtra]))).toNat

/-- A version-1 frame. -/
def frame1 (m : MsgClass) (seq sys cmp : Byte) (p : List Byte) : List Byte :=
  254 :: body1 m seq sys cmp p ++ sumOf m (body1 m seq sys cmp p)

/-- A version-2 frame; `sig` is the signature block. -/
def frame2 (m : MsgClass) (inc comp seq sys cmp : Byte) (p sig : List Byte) : List Byte :=
  253 :: body2 m inc comp seq sys cmp p ++ sumOf m (body2 m inc comp seq sys cmp p) ++ sig

/-- The size of the signature block: 13 bytes if the lowest bit of the flags is set. -/
def sigSize (inc : Byte) : Nat := if inc.toNat % 2 = 1 then 13 else 0

/-- What two messages have in common when they say the same. -/
def SameContent (a b : MavMsg) : Prop :=
  a.cls = b.cls ∧ a.msgId = b.msgId ∧ a.seq = b.seq ∧ a.srcSystem = b.srcSystem ∧ a.srcComponent = b.srcComponent ∧
    a.fields = b.fields

theorem decode_v2 (mlen inc comp seq sys cmp i0 i1 i2 : Byte) (rest : List Byte) :
    decode (253 :: mlen :: inc :: comp :: seq :: sys :: cmp :: i0 :: i1 :: i2 :: rest) =
      decodeBody (253 :: mlen :: inc :: comp :: seq :: sys :: cmp :: i0 :: i1 :: i2 :: rest) 10 253 mlen.toNat inc.toNat
        comp.toNat seq.toNat sys.toNat cmp.toNat (i0.toNat + 256 * i1.toNat + 65536 * i2.toNat) := by
  have h : ∀ a b c : Byte, (a.toNat + 256 * b.toNat) ||| (c.toNat <<< 16) = a.toNat + 256 * b.toNat + 65536 * c.toNat := by
    intro a b c
    have ha := a.isLt
    have hb := b.isLt
    rw [Nat.or_comm, Nat.shiftLeft_eq, Nat.mul_comm, ← Nat.two_pow_add_eq_or_of_lt (i := 16) (by omega)]
    omega
  unfold decode
  simp only [h]
  rw [if_pos (by decide)]
  rfl

theorem decode_v2_short (f : List Byte) (hm : f.head? = some 253) (h : f.length < 10) : decode f = .error .mavError := by
  cases f with
  | nil => simp at hm
  | cons b0 r =>
    simp at hm
    subst hm
    unfold decode
    simp only
    rw [if_pos (by decide)]
    split
    · rename_i heq
      have := congrArg List.length heq
      simp at this h
      omega
    · rfl

theorem v2_shape {f : List Byte} (h : f.head? = some 253) (h10 : 10 ≤ f.length) :
    ∃ mlen inc comp seq sys cmp i0 i1 i2 rest, f = 253 :: mlen :: inc :: comp :: seq :: sys :: cmp :: i0 :: i1 :: i2 :: rest := by
  match f, h, h10 with
  | a :: b :: c :: d :: e :: g :: i :: j :: k :: l :: r, h, _ =>
    simp at h; subst h; exact ⟨_, _, _, _, _, _, _, _, _, _, rfl⟩

/-- C123: a byte string with the version-2 marker is accepted iff, with 13 bytes at its end set aside if the lowest bit of its
third byte is set, it has at least 12 bytes, its length byte is its size minus 12, its three id bytes are the id of a message of
the dialect, and its last two bytes are the X.25 checksum of the bytes in between followed by the class's extra byte. -/
theorem c123_accept_iff (f : List Byte) (h : f.head? = some 253) :
    Returns (decode f) ↔
      12 + sigSize (f.getD 2 0) ≤ f.length ∧ (f.getD 1 0).toNat = f.length - 12 - sigSize (f.getD 2 0) ∧
      ∃ m ∈ mavlinkMap, m.id = (f.getD 7 0).toNat + 256 * (f.getD 8 0).toNat + 65536 * (f.getD 9 0).toNat ∧
        leNat ((f.drop (f.length - 2 - sigSize (f.getD 2 0))).take 2) =
          (crcOfBits (txBits ((f.take (f.length - 2 - sigSize (f.getD 2 0))).drop 1 ++ [BitVec.ofNat 8 m.crcExtra]))).toNat := by
  by_cases h10 : 10 ≤ f.length
  · obtain ⟨mlen, inc, comp, seq, sys, cmp, i0, i1, i2, rest, rfl⟩ := v2_shape h h10
    rw [decode_v2, decodeBody_eq]
    simp only [List.getD_cons_zero, List.getD_cons_succ, or_true, true_and]
    change Returns (match lookupMsg _ with | none => _ | some m => if _ = mlen.toNat + 10 + 2 + sigSize inc ∧ _ then _ else _) ↔ _
    rw [show ∀ n : Nat, n - (2 + (if inc.toNat % 2 = 1 then 13 else 0)) = n - 2 - sigSize inc from fun n => by
      unfold sigSize; omega]
    generalize (253 :: mlen :: inc :: comp :: seq :: sys :: cmp :: i0 :: i1 :: i2 :: rest : List Byte) = f
    generalize sigSize inc = sg
    constructor
    · rintro ⟨a, ha⟩
      split at ha
      · cases ha
      · rename_i m hm
        obtain ⟨hm1, hm2⟩ := lookupMsg_eq_some.1 hm
        split at ha
        · rename_i hc
          refine ⟨by omega, by omega, m, hm1, hm2, ?_⟩
          rw [← x25_eq_bits]
          exact hc.2
        · cases ha
    · rintro ⟨h8, hl, m, hm, hid, hcrc⟩
      rw [← hid, lookupMsg_mem hm]
      simp only
      rw [if_pos]
      · exact ⟨_, rfl⟩
      · refine ⟨by omega, ?_⟩
        rw [x25_eq_bits]
        exact hcrc
  · constructor
    · intro hr
      rw [decode_v2_short f h (by omega)] at hr
      obtain ⟨a, ha⟩ := hr; cases ha
    · rintro ⟨h8, _⟩; omega

/-- C123: a byte string that starts with neither marker is refused. -/
theorem c123_other (f : List Byte) (h0 : f ≠ []) (h1 : f.head? ≠ some 254) (h2 : f.head? ≠ some 253) :
    Raises (decode f) .mavError := by
  cases f with
  | nil => exact absurd rfl h0
  | cons b r => exact decode_bad_marker b r (by simpa using h1) (by simpa using h2)

theorem sumOf_eq (m : MsgClass) (b : List Byte) : sumOf m b = leBytes 2 (x25 (b ++ [BitVec.ofNat 8 m.crcExtra])).toNat := by
  rw [sumOf, ← x25_eq_bits]

/-- What a version-2 frame decodes to. -/
theorem decode_frame2 {m : MsgClass} (hm : m ∈ mavlinkMap) (inc comp seq sys cmp : Byte) (p sig : List Byte)
    (hp : p.length < 256) (hs : sig.length = sigSize inc) :
    ∃ msg, decode (frame2 m inc comp seq sys cmp p sig) = .ok msg ∧ msg.cls = m ∧ msg.msgId = m.id ∧ msg.seq = seq.toNat ∧
      msg.srcSystem = sys.toNat ∧ msg.srcComponent = cmp.toNat ∧ msg.fields = payloadFields m (fitPayload m p) ∧
      msg.incompat = inc.toNat ∧ msg.compat = comp.toNat ∧ msg.mlen = p.length ∧
      msg.payload = [cmp, BitVec.ofNat 8 m.id, BitVec.ofNat 8 (m.id / 256), BitVec.ofNat 8 (m.id / 65536)] ++ p ∧
      msg.crc = (x25 (body2 m inc comp seq sys cmp p ++ [BitVec.ofNat 8 m.crcExtra])).toNat := by
  have hidl := (classOK hm).idLt
  have hid : (BitVec.ofNat 8 m.id).toNat + 256 * (BitVec.ofNat 8 (m.id / 256)).toNat +
      65536 * (BitVec.ofNat 8 (m.id / 65536)).toNat = m.id := by
    simp only [BitVec.toNat_ofNat]
    omega
  have hpl : (BitVec.ofNat 8 p.length).toNat = p.length := by
    rw [BitVec.toNat_ofNat]; exact Nat.mod_eq_of_lt hp
  unfold frame2
  rw [sumOf_eq]
  generalize hc : x25 (body2 m inc comp seq sys cmp p ++ [BitVec.ofNat 8 m.crcExtra]) = c
  have hcl : (leBytes 2 c.toNat).length = 2 := leBytes_length _ _
  have hbl : (253 :: body2 m inc comp seq sys cmp p).length = p.length + 10 := by simp [body2]
  have hlen : (253 :: body2 m inc comp seq sys cmp p ++ leBytes 2 c.toNat ++ sig).length = p.length + 12 + sigSize inc := by
    rw [List.length_append, List.length_append, hbl, hcl, hs]
  have hsub : p.length + 12 + sigSize inc - (2 + sigSize inc) = p.length + 10 := by omega
  have htake : (253 :: body2 m inc comp seq sys cmp p ++ leBytes 2 c.toNat ++ sig).take (p.length + 10) =
      253 :: body2 m inc comp seq sys cmp p := by
    rw [List.append_assoc, List.take_left' hbl]
  have hdrop : ((253 :: body2 m inc comp seq sys cmp p ++ leBytes 2 c.toNat ++ sig).drop (p.length + 10)).take 2 =
      leBytes 2 c.toNat := by
    rw [List.append_assoc, List.drop_left' hbl, List.take_left' hcl]
  have hdec : decode (253 :: body2 m inc comp seq sys cmp p ++ leBytes 2 c.toNat ++ sig) = decodeBody
      (253 :: body2 m inc comp seq sys cmp p ++ leBytes 2 c.toNat ++ sig) 10 253 p.length inc.toNat comp.toNat seq.toNat sys.toNat
      cmp.toNat m.id := by
    have := decode_v2 (BitVec.ofNat 8 p.length) inc comp seq sys cmp (BitVec.ofNat 8 m.id) (BitVec.ofNat 8 (m.id / 256))
      (BitVec.ofNat 8 (m.id / 65536)) (p ++ (leBytes 2 c.toNat ++ sig))
    rw [hid, hpl] at this
    simpa [body2] using this
  rw [hdec, decodeBody_eq]
  simp only [lookupMsg_mem hm]
  rw [show (if inc.toNat % 2 = 1 then 13 else 0) = sigSize inc from rfl, hlen, hsub, hdrop]
  simp only [pySlice, htake]
  have hd1 : (253 :: body2 m inc comp seq sys cmp p).drop 1 = body2 m inc comp seq sys cmp p := rfl
  rw [hd1, hc, leNat_leBytes2, if_pos ⟨Or.inr trivial, trivial, rfl⟩]
  exact ⟨_, rfl, rfl, rfl, rfl, rfl, rfl, by simp [body2], rfl, rfl, rfl, by simp [body2], rfl⟩

theorem decode_frame1 {m : MsgClass} (hm : m ∈ mavlinkMap) (seq sys cmp : Byte) (p : List Byte) (hp : p.length < 256) :
    ∃ msg, decode (frame1 m seq sys cmp p) = .ok msg ∧ msg.cls = m ∧ msg.msgId = m.id ∧ msg.seq = seq.toNat ∧
      msg.srcSystem = sys.toNat ∧ msg.srcComponent = cmp.toNat ∧ msg.fields = payloadFields m (fitPayload m p) ∧
      msg.payload = p := by
  have := decode_frame hm p hp seq sys cmp
  unfold frame1
  rw [sumOf_eq]
  exact ⟨_, this, rfl, rfl, rfl, rfl, rfl, rfl, rfl⟩

/-- C123: a version-2 frame says what the version-1 frame with the same numbers and payload says, whatever its flags are. -/
theorem c123_same {m : MsgClass} (hm : m ∈ mavlinkMap) (inc comp seq sys cmp : Byte) (p sig : List Byte) (hp : p.length < 256)
    (hs : sig.length = sigSize inc) :
    ∃ a b, decode (frame1 m seq sys cmp p) = .ok a ∧ decode (frame2 m inc comp seq sys cmp p sig) = .ok b ∧ SameContent a b := by
  obtain ⟨a, h1, h2, h3, h4, h5, h6, h7, _⟩ := decode_frame1 hm seq sys cmp p hp
  obtain ⟨b, k1, k2, k3, k4, k5, k6, k7, _⟩ := decode_frame2 hm inc comp seq sys cmp p sig hp hs
  exact ⟨a, b, h1, k1, by rw [h2, k2], by rw [h3, k3], by rw [h4, k4], by rw [h5, k5], by rw [h6, k6], by rw [h7, k7]⟩

theorem fit_zeros (m : MsgClass) (p : List Byte) (k : Nat) : fitPayload m (p ++ List.replicate k 0) = fitPayload m p := by
  apply List.ext_getElem?
  intro i
  by_cases hi : i < wireSize m
  · unfold fitPayload
    rw [List.getElem?_take_of_lt hi, List.getElem?_take_of_lt hi]
    by_cases h1 : i < p.length
    · rw [List.append_assoc, List.getElem?_append_left h1, List.getElem?_append_left h1]
    · rw [List.append_assoc, ← List.replicate_add, List.getElem?_append_right (by omega), List.getElem?_append_right (by omega),
        List.getElem?_replicate, List.getElem?_replicate, List.length_append, List.length_replicate, if_pos (by omega),
        if_pos (by omega)]
  · rw [List.getElem?_eq_none (by rw [fitPayload_length]; omega), List.getElem?_eq_none (by rw [fitPayload_length]; omega)]

theorem fit_surplus (m : MsgClass) (p q : List Byte) (h : wireSize m ≤ p.length) : fitPayload m (p ++ q) = fitPayload m p := by
  unfold fitPayload
  rw [List.append_assoc, List.take_append_of_le_length h, List.take_append_of_le_length h]

/-- The size of a message: the sum over its fields, an array counting once for each element. -/
def fullSize (m : MsgClass) : Nat :=
  ((List.range m.fieldnames.length).map fun j => width (wireType m j) * max 1 (m.arrayLengths.getD j 0)).sum

theorem wireSize_full : ∀ m ∈ mavlinkMap, wireSize m = fullSize m := by decide +kernel

/-- C123: zeros at the end of a payload may be left out or added, and bytes behind the size of the message do not count, in
frames of either version. -/
theorem c123_padding {m : MsgClass} (hm : m ∈ mavlinkMap) (inc comp seq sys cmp : Byte) (p q sig : List Byte)
    (hp : (p ++ q).length < 256) (hq : (∀ x ∈ q, x = 0) ∨ fullSize m ≤ p.length) (hs : sig.length = sigSize inc) :
    (∃ a b, decode (frame1 m seq sys cmp p) = .ok a ∧ decode (frame1 m seq sys cmp (p ++ q)) = .ok b ∧ SameContent a b) ∧
    ∃ a b, decode (frame2 m inc comp seq sys cmp p sig) = .ok a ∧ decode (frame2 m inc comp seq sys cmp (p ++ q) sig) = .ok b ∧
      SameContent a b := by
  have hpl : p.length < 256 := by rw [List.length_append] at hp; omega
  have hfit : fitPayload m (p ++ q) = fitPayload m p := by
    rcases hq with hq | hq
    · rw [List.eq_replicate_iff.2 ⟨rfl, hq⟩, fit_zeros]
    · exact fit_surplus m p q (by rw [wireSize_full m hm]; exact hq)
  obtain ⟨a, h1, h2, h3, h4, h5, h6, h7, _⟩ := decode_frame1 hm seq sys cmp p hpl
  obtain ⟨b, k1, k2, k3, k4, k5, k6, k7, _⟩ := decode_frame1 hm seq sys cmp (p ++ q) hp
  obtain ⟨c, i1, i2, i3, i4, i5, i6, i7, _⟩ := decode_frame2 hm inc comp seq sys cmp p sig hpl hs
  obtain ⟨d, j1, j2, j3, j4, j5, j6, j7, _⟩ := decode_frame2 hm inc comp seq sys cmp (p ++ q) sig hp hs
  rw [hfit] at k7 j7
  exact ⟨⟨a, b, h1, k1, by rw [h2, k2], by rw [h3, k3], by rw [h4, k4], by rw [h5, k5], by rw [h6, k6], by rw [h7, k7]⟩,
    c, d, i1, j1, by rw [i2, j2], by rw [i3, j3], by rw [i4, j4], by rw [i5, j5], by rw [i6, j6], by rw [i7, j7]⟩

/-- C123: every accepted version-2 string is such a frame, so the three theorems above cover all of them. -/
theorem c123_only_frames (f : List Byte) (h : f.head? = some 253) (hr : Returns (decode f)) :
    ∃ m ∈ mavlinkMap, ∃ inc comp seq sys cmp p sig, p.length < 256 ∧ sig.length = sigSize inc ∧
      f = frame2 m inc comp seq sys cmp p sig := by
  obtain ⟨h1, h2, m, hm, h3, h4⟩ := (c123_accept_iff f h).1 hr
  obtain ⟨mlen, inc, comp, seq, sys, cmp, i0, i1, i2, rest, rfl⟩ := v2_shape h (by omega)
  simp only [List.getD_cons_zero, List.getD_cons_succ] at h1 h2 h3 h4
  have hml := mlen.isLt
  have hidl := (classOK hm).idLt
  simp only [List.length_cons] at h1 h2 h4
  have hrl : rest.length = mlen.toNat + 2 + sigSize inc := by omega
  have e1 : BitVec.ofNat 8 (rest.take mlen.toNat).length = mlen := by
    rw [List.length_take, Nat.min_eq_left (by omega)]
    exact BitVec.eq_of_toNat_eq (by simp)
  have b0 := i0.isLt
  have b1 := i1.isLt
  have b2 := i2.isLt
  have e2 : BitVec.ofNat 8 m.id = i0 ∧ BitVec.ofNat 8 (m.id / 256) = i1 ∧ BitVec.ofNat 8 (m.id / 65536) = i2 := by
    refine ⟨BitVec.eq_of_toNat_eq ?_, BitVec.eq_of_toNat_eq ?_, BitVec.eq_of_toNat_eq ?_⟩ <;>
      (rw [BitVec.toNat_ofNat]; omega)
  have hbody : body2 m inc comp seq sys cmp (rest.take mlen.toNat) =
      mlen :: inc :: comp :: seq :: sys :: cmp :: i0 :: i1 :: i2 :: rest.take mlen.toNat := by
    rw [body2, e1, e2.1, e2.2.1, e2.2.2]; rfl
  refine ⟨m, hm, inc, comp, seq, sys, cmp, rest.take mlen.toNat, rest.drop (mlen.toNat + 2), ?_, ?_, ?_⟩
  · rw [List.length_take]; omega
  · rw [List.length_drop]; omega
  · rw [frame2, hbody]
    have hn : rest.length + 1 + 1 + 1 + 1 + 1 + 1 + 1 + 1 + 1 + 1 - 2 - sigSize inc = mlen.toNat + 10 := by omega
    rw [hn] at h4
    simp only [List.take_succ_cons, List.drop_succ_cons, List.drop_zero] at h4
    have hsum : sumOf m (mlen :: inc :: comp :: seq :: sys :: cmp :: i0 :: i1 :: i2 :: rest.take mlen.toNat) =
        (rest.drop mlen.toNat).take 2 := by
      rw [sumOf, ← h4]
      have h2l : ((rest.drop mlen.toNat).take 2).length = 2 := by rw [List.length_take, List.length_drop]; omega
      have := leBytes_leNat ((rest.drop mlen.toNat).take 2)
      rw [h2l] at this
      exact this
    rw [hsum]
    simp only [List.cons_append, List.append_assoc]
    have : rest = rest.take mlen.toNat ++ ((rest.drop mlen.toNat).take 2 ++ rest.drop (mlen.toNat + 2)) := by
      rw [← List.drop_drop, List.take_append_drop, List.take_append_drop]
    rw [← this]

/-- C123: expectation that fails: a signed frame is taken only with its signature. Without a key any 13 bytes do, and the message
is the same. -/
theorem c123_signature_false {m : MsgClass} (hm : m ∈ mavlinkMap) (inc comp seq sys cmp : Byte) (p sig sig' : List Byte)
    (hp : p.length < 256) (hinc : inc.toNat % 2 = 1) (hs : sig.length = 13) (hs' : sig'.length = 13) :
    ∃ a, decode (frame2 m inc comp seq sys cmp p sig) = .ok a ∧ decode (frame2 m inc comp seq sys cmp p sig') = .ok a := by
  have hz : sigSize inc = 13 := if_pos hinc
  obtain ⟨a, h1, h2, h3, h4, h5, h6, h7, h8, h9, h10, h11, h12⟩ := decode_frame2 hm inc comp seq sys cmp p sig hp (by omega)
  obtain ⟨b, k1, k2, k3, k4, k5, k6, k7, k8, k9, k10, k11, k12⟩ := decode_frame2 hm inc comp seq sys cmp p sig' hp (by omega)
  refine ⟨a, h1, ?_⟩
  rw [k1]
  congr 1
  obtain ⟨_, _, _, _, _, _, _, _, _, _, _⟩ := a
  obtain ⟨_, _, _, _, _, _, _, _, _, _, _⟩ := b
  simp only at *
  simp_all

/-- C123: expectation that fails: `get_payload` of a decoded message is its payload. For a version-2 frame four bytes of the
header stand before it: the component and the three bytes of the id. -/
theorem c123_payload_false {m : MsgClass} (hm : m ∈ mavlinkMap) (inc comp seq sys cmp : Byte) (p sig : List Byte)
    (hp : p.length < 256) (hs : sig.length = sigSize inc) :
    ∃ a b, decode (frame1 m seq sys cmp p) = .ok a ∧ a.payload = p ∧
      decode (frame2 m inc comp seq sys cmp p sig) = .ok b ∧ b.payload = [cmp, BitVec.ofNat 8 m.id, 0, 0] ++ p ∧ b.payload ≠ p := by
  obtain ⟨a, h1, _, _, _, _, _, _, h8⟩ := decode_frame1 hm seq sys cmp p hp
  obtain ⟨b, k1, _, _, _, _, _, _, _, _, _, k11, _⟩ := decode_frame2 hm inc comp seq sys cmp p sig hp hs
  have hidl := (classOK hm).idLt
  rw [Nat.div_eq_of_lt hidl, Nat.div_eq_of_lt (by omega)] at k11
  refine ⟨a, b, h1, h8, k1, k11, ?_⟩
  intro h
  rw [k11] at h
  have := congrArg List.length h
  simp only [List.length_append, List.length_cons, List.length_nil] at this
  omega

/-- A HEARTBEAT in a version-2 frame, the zeros at the end of its payload left out, with a signature of thirteen sevens. -/
def signedBeat : List Byte := frame2 msg0 1 0 5 1 2 [0, 0, 0, 0, 6, 8] (List.replicate 13 7)

example : Returns (decode signedBeat) ∧ (decode signedBeat).toOption.map MavMsg.fields =
    (decode (frame1 msg0 5 1 2 [0, 0, 0, 0, 6, 8, 0, 0, 0])).toOption.map MavMsg.fields ∧
    ¬ Returns (decode (signedBeat.take 18)) := by
  refine ⟨?_, by decide +kernel, ?_⟩
  · obtain ⟨a, h, _⟩ := decode_frame2 (m := msg0) (by decide +kernel) 1 0 5 1 2 [0, 0, 0, 0, 6, 8] (List.replicate 13 7) (by decide)
      (by decide)
    exact ⟨a, h⟩
  · rw [c123_accept_iff _ (by decide +kernel)]
    rintro ⟨h, _⟩
    revert h
    decide +kernel

end NR.C123
