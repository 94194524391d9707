import Verif.Lemmas.Decode
/-!
C10-C13: packing and decoding frames (mavlink_utils/HC_dialect.py).
-/
namespace NR
open Spec Dialect

/-! ### C12 -/

/-- C12: on every non-empty byte string `decode` returns or raises MAVError. -/
theorem c12_only_maverror (f : List Byte) (h : f ≠ []) : Returns (decode f) ∨ Raises (decode f) .mavError := by
  by_cases hs : f.length < 6
  · exact Or.inr (decode_short f hs h)
  · cases f with
    | nil => exact absurd rfl h
    | cons b0 rest =>
      unfold decode
      simp only
      split
      · split
        · exact decodeBody_err _ _ _ _ _ _ _ _ _ _
        · exact Or.inr rfl
      · split
        · exact decodeBody_err _ _ _ _ _ _ _ _ _ _
        · exact Or.inr rfl

/-- C12: the empty array raises IndexError (not MAVError). -/
theorem c12_empty : Raises (decode []) .indexError := rfl

/-! ### C13 -/

/-- The frame fields a version-1 decoder looks at: length byte, id byte, checksummed bytes, checksum bytes. -/
def frameBody (f : List Byte) : List Byte := (f.take (f.length - 2)).drop 1

/-- C13: a byte string with the v1 marker is accepted iff it has at least 8 bytes, its length byte is its size minus
8, its id byte is in the dialect and its last two bytes (little endian) are the X.25 checksum of the bytes in
between followed by the class's extra byte. -/
theorem c13_accept_iff (f : List Byte) (h : f.head? = some 254) :
    Returns (decode f) ↔
      8 ≤ f.length ∧ (f.getD 1 0).toNat = f.length - 8 ∧
      ∃ m ∈ mavlinkMap, m.id = (f.getD 5 0).toNat ∧
        leNat (f.drop (f.length - 2)) =
          (crcOfBits (txBits (frameBody f ++ [BitVec.ofNat 8 m.crcExtra]))).toNat := by
  by_cases h6 : 6 ≤ f.length
  · obtain ⟨mlen, seq, sys, cmp, id, rest, rfl⟩ := v1_shape h h6
    rw [decode_v1, decodeBody_eq]
    simp only [List.getD_cons_zero, List.getD_cons_succ, Nat.zero_mod, Nat.add_zero, Nat.zero_ne_one, if_false,
      true_or, true_and]
    have htk : ∀ l : List Byte, ((l.drop (l.length - 2)).take 2) = l.drop (l.length - 2) := by
      intro l; apply List.take_of_length_le; rw [List.length_drop]; omega
    rw [htk]
    constructor
    · rintro ⟨a, ha⟩
      split at ha
      · cases ha
      · rename_i m hm
        obtain ⟨hm1, hm2⟩ := lookupMsg_eq_some.1 hm
        split at ha
        · rename_i hc
          refine ⟨by omega, by omega, m, hm1, hm2, ?_⟩
          rw [← x25_eq_bits]
          exact hc.2
        · cases ha
    · rintro ⟨h8, hl, m, hm, hid, hcrc⟩
      rw [← hid, lookupMsg_mem hm]
      simp only
      rw [if_pos]
      · exact ⟨_, rfl⟩
      · refine ⟨by omega, ?_⟩
        rw [x25_eq_bits]
        exact hcrc
  · constructor
    · intro hr
      rw [decode_short f (by omega) (by intro h0; subst h0; simp at h)] at hr
      obtain ⟨a, ha⟩ := hr; cases ha
    · rintro ⟨h8, _⟩; omega

/-- C13 (corollary): the outcome on an unacceptable v1 string is MAVError. -/
theorem c13_reject (f : List Byte) (h : f.head? = some 254) (hn : ¬ Returns (decode f)) :
    Raises (decode f) .mavError := by
  rcases c12_only_maverror f (by intro h0; subst h0; simp at h) with h' | h'
  · exact absurd h' hn
  · exact h'

/-! ### C10 -/

theorem structPack_header (len seq sys cmp id : Nat) (h1 : len < 256) (h2 : seq < 256) (h3 : sys < 256)
    (h4 : cmp < 256) (h5 : id < 256) :
    structPack (List.replicate 6 (.scalar .u8))
      [.int 254, .int len, .int seq, .int sys, .int cmp, .int id] =
      .ok [254, BitVec.ofNat 8 len, BitVec.ofNat 8 seq, BitVec.ofNat 8 sys, BitVec.ofNat 8 cmp, BitVec.ofNat 8 id] := by
  have key : ∀ n : Nat, n < 256 → packScalar .u8 (.int n) = .ok [BitVec.ofNat 8 n] := by
    intro n hn
    simp only [packScalar, CType.isUInt, if_true]
    rw [if_pos (by simp only [CType.size]; omega)]
    simp [CType.size, leBytes]
  have h254 : packScalar .u8 (.int 254) = .ok [254] := by decide
  simp only [List.replicate, structPack, packItem, key _ h1, key _ h2, key _ h3, key _ h4, key _ h5, h254, bind,
    Except.bind]
  rfl

/-- The bytes of a packed frame. -/
theorem packMsg_ok {m : MsgClass} (hm : m ∈ mavlinkMap) {fields : List FieldVal} (hw : WellTyped m fields)
    {seq sys cmp : Nat} (h2 : seq < 256) (h3 : sys < 256) (h4 : cmp < 256) :
    ∃ p fmt, structFmt m.format = some fmt ∧ packPayload m fields = .ok p ∧ p.length = calcsize fmt ∧
      p.length < 256 ∧ payloadFields m p = receivedFields m fields ∧
      packMsg m fields seq sys cmp = .ok
        (([254, BitVec.ofNat 8 p.length, BitVec.ofNat 8 seq, BitVec.ofNat 8 sys, BitVec.ofNat 8 cmp,
          BitVec.ofNat 8 m.id] ++ p) ++ leBytes 2 (x25 (([BitVec.ofNat 8 p.length, BitVec.ofNat 8 seq,
          BitVec.ofNat 8 sys, BitVec.ofNat 8 cmp, BitVec.ofNat 8 m.id] ++ p) ++ [BitVec.ofNat 8 m.crcExtra])).toNat) := by
  have ok := classOK hm
  obtain ⟨fmt, p, hf, hp, hl, h256, hu⟩ := ok.payload_ok hw
  refine ⟨p, fmt, hf, hp, hl, h256, ?_, ?_⟩
  · have := ok.fields_back hw
    rw [← hu] at this
    unfold payloadFields
    simp only [hf, this]
  · unfold packMsg packFrame
    simp only [hp, bind, Except.bind, structPack_header _ _ _ _ _ h256 h2 h3 h4 ok.idLt]
    rfl

theorem leNat_leBytes2 (c : BitVec 16) : leNat (leBytes 2 c.toNat) = c.toNat := by
  rw [leNat_leBytes]
  have := c.isLt
  omega

/-- Decoding a frame assembled from header bytes, payload and matching checksum. -/
theorem decode_frame {m : MsgClass} (hm : m ∈ mavlinkMap) (p : List Byte) (hp : p.length < 256) (seq sys cmp : Byte) :
    decode (([254, BitVec.ofNat 8 p.length, seq, sys, cmp, BitVec.ofNat 8 m.id] ++ p) ++
      leBytes 2 (x25 (([BitVec.ofNat 8 p.length, seq, sys, cmp, BitVec.ofNat 8 m.id] ++ p) ++
        [BitVec.ofNat 8 m.crcExtra])).toNat) =
      .ok { cls := m, msgId := m.id, incompat := 0, compat := 0, mlen := p.length, seq := seq.toNat,
            srcSystem := sys.toNat, srcComponent := cmp.toNat, fields := payloadFields m (fitPayload m p),
            payload := p,
            crc := (x25 (([BitVec.ofNat 8 p.length, seq, sys, cmp, BitVec.ofNat 8 m.id] ++ p) ++
              [BitVec.ofNat 8 m.crcExtra])).toNat } := by
  have hid : (BitVec.ofNat 8 m.id).toNat = m.id := by
    rw [BitVec.toNat_ofNat]; exact Nat.mod_eq_of_lt (classOK hm).idLt
  have hpl : (BitVec.ofNat 8 p.length).toNat = p.length := by
    rw [BitVec.toNat_ofNat]; exact Nat.mod_eq_of_lt hp
  generalize hc : x25 (([BitVec.ofNat 8 p.length, seq, sys, cmp, BitVec.ofNat 8 m.id] ++ p) ++
        [BitVec.ofNat 8 m.crcExtra]) = c
  have hcl : (leBytes 2 c.toNat).length = 2 := leBytes_length _ _
  simp only [List.cons_append, List.nil_append] at hc ⊢
  rw [decode_v1, decodeBody_eq]
  simp only [hid, lookupMsg_mem hm, Nat.zero_mod, Nat.zero_ne_one, if_false, true_or, true_and, Nat.add_zero]
  have hlen : ((254 : Byte) :: BitVec.ofNat 8 p.length :: seq :: sys :: cmp :: BitVec.ofNat 8 m.id ::
      (p ++ leBytes 2 c.toNat)).length = p.length + 8 := by
    simp [hcl]
  rw [hlen]
  have hb : p.length + 8 - 2 = p.length + 6 := by omega
  rw [hb]
  have hdrop : List.drop (p.length + 6) ((254 : Byte) :: BitVec.ofNat 8 p.length :: seq :: sys :: cmp ::
      BitVec.ofNat 8 m.id :: (p ++ leBytes 2 c.toNat)) = leBytes 2 c.toNat := by
    simp
  have htake : List.take (p.length + 6) ((254 : Byte) :: BitVec.ofNat 8 p.length :: seq :: sys :: cmp ::
      BitVec.ofNat 8 m.id :: (p ++ leBytes 2 c.toNat)) = (254 : Byte) :: BitVec.ofNat 8 p.length :: seq :: sys :: cmp ::
      BitVec.ofNat 8 m.id :: p := by
    simp
  have hcrc : leNat (List.take 2 (leBytes 2 c.toNat)) = c.toNat := by
    rw [List.take_of_length_le (by omega), leNat_leBytes2]
  simp only [pySlice, hdrop, htake]
  simp only [hcrc, List.drop_succ_cons, List.drop_zero, List.cons_append, hc, hpl]
  simp

/-- C10: decoding a packed message succeeds and returns the same id, sequence, system, component and field values
(character arrays as text up to the first NUL). -/
theorem c10_round_trip (m : MsgClass) (hm : m ∈ mavlinkMap) (fields : List FieldVal) (hw : WellTyped m fields)
    (seq sys cmp : Nat) (h2 : seq ≤ 255) (h3 : sys ≤ 255) (h4 : cmp ≤ 255) :
    ∃ frame msg, packMsg m fields seq sys cmp = .ok frame ∧ decode frame = .ok msg ∧
      msg.cls = m ∧ msg.msgId = m.id ∧ msg.seq = seq ∧ msg.srcSystem = sys ∧ msg.srcComponent = cmp ∧
      msg.fields = receivedFields m fields := by
  obtain ⟨p, fmt, hf, hp, hl, h256, hfb, hpack⟩ := packMsg_ok hm hw (seq := seq) (sys := sys) (cmp := cmp)
    (by omega) (by omega) (by omega)
  have hd := decode_frame hm p h256 (BitVec.ofNat 8 seq) (BitVec.ofNat 8 sys) (BitVec.ofNat 8 cmp)
  have hfit : fitPayload m p = p := fitPayload_self (by rw [hl, ClassOK.wireSize_eq hf])
  rw [hfit, hfb] at hd
  refine ⟨_, _, hpack, hd, rfl, rfl, ?_, ?_, ?_, rfl⟩ <;>
    (simp only [BitVec.toNat_ofNat]; apply Nat.mod_eq_of_lt; omega)

/-- C10: without character arrays the values come back unchanged. -/
theorem c10_round_trip_exact (m : MsgClass) (hm : m ∈ mavlinkMap) (hc : CType.char ∉ m.fieldtypes)
    (fields : List FieldVal) (hw : WellTyped m fields)
    (seq sys cmp : Nat) (h2 : seq ≤ 255) (h3 : sys ≤ 255) (h4 : cmp ≤ 255) :
    ∃ frame msg, packMsg m fields seq sys cmp = .ok frame ∧ decode frame = .ok msg ∧ msg.fields = fields := by
  obtain ⟨frame, msg, h1, h2, _, _, _, _, _, h5⟩ := c10_round_trip m hm fields hw seq sys cmp h2 h3 h4
  refine ⟨frame, msg, h1, h2, ?_⟩
  rw [h5]
  apply List.ext_getElem
  · simp [receivedFields]
  · intro i h1 h2
    simp only [receivedFields, List.getElem_mapIdx]
    have hi : i < m.fieldnames.length := by rw [← hw.1]; exact h2
    have hf := hw.2 i hi
    rw [getD_lt _ _ h2] at hf
    have hit : i < m.fieldtypes.length := by rw [(classOK hm).lenTypes]; exact hi
    have hne : m.fieldtypes.getD i .char ≠ .char := by
      intro he
      apply hc
      rw [getD_lt _ _ hit] at he
      rw [← he]; exact List.getElem_mem _
    revert hf
    generalize fields[i] = fv
    intro hf
    match fv, hf with
    | .num (.int i), _ => rfl
    | .num (.flt i), _ => rfl
    | .num (.raw bs), ⟨ht, hb⟩ => exact absurd ht hne
    | .arr vs, _ => rfl

/-- A heartbeat with concrete values meets the hypotheses (and comes back). -/
example : msg0 ∈ mavlinkMap ∧ CType.char ∉ msg0.fieldtypes ∧ WellTyped msg0
    [.num (.int 2), .num (.int 3), .num (.int 81), .num (.int 4294967295), .num (.int 4), .num (.int 3)] := by
  refine ⟨by decide +kernel, by decide, by decide +kernel⟩

/-- A message with character arrays meets them too (STATUSTEXT, id 253). -/
example : msg253 ∈ mavlinkMap ∧ WellTyped msg253 [.num (.int 6), .num (.raw [72, 105])] := by
  refine ⟨by decide +kernel, by decide +kernel⟩

/-! ### C11 -/

theorem leNat_inj {a b : List Byte} (hl : a.length = b.length) (h : leNat a = leNat b) : a = b := by
  have := leBytes_leNat a
  rw [hl, h, leBytes_leNat b] at this
  exact this.symm

/-- C11: an accepted v1 frame and a different byte string of the same length with the same marker, message id and
checksum bytes, the transmitted bits of which differ only inside one window of 16 consecutive bits: the latter is
rejected with MAVError. -/
theorem c11_burst (f g : List Byte) (hf : Returns (decode f)) (hv1 : f.head? = some 254) (hv1' : g.head? = some 254)
    (hlen : g.length = f.length) (hid : g.getD 5 0 = f.getD 5 0)
    (hsum : g.drop (g.length - 2) = f.drop (f.length - 2))
    (hburst : BurstApart 16 (txBits (frameBody f)) (txBits (frameBody g))) (hne : g ≠ f) :
    Raises (decode g) .mavError := by
  apply c13_reject g hv1'
  intro hg
  obtain ⟨h8, hl, m, hm, hmid, hcrc⟩ := (c13_accept_iff f hv1).1 hf
  obtain ⟨h8', hl', m', hm', hmid', hcrc'⟩ := (c13_accept_iff g hv1').1 hg
  have hmm : m' = m := by
    have h1 := lookupMsg_eq_some.2 ⟨hm, rfl⟩
    have h2 := lookupMsg_eq_some.2 ⟨hm', rfl⟩
    rw [hmid', hid, ← hmid, h1] at h2
    exact (Option.some.inj h2).symm
  subst hmm
  rw [hsum, hcrc] at hcrc'
  have hcrc' := BitVec.eq_of_toNat_eq hcrc'
  have hbody : frameBody f ≠ frameBody g := by
    intro he
    apply hne
    have split : ∀ l : List Byte, 8 ≤ l.length → l.head? = some 254 →
        l = 254 :: (frameBody l ++ l.drop (l.length - 2)) := by
      intro l h8 hh
      have h1 : l.take (l.length - 2) = 254 :: frameBody l := by
        unfold frameBody
        match l, hh, h8 with
        | a :: b :: c :: r, hh, _ =>
          simp at hh; subst hh
          simp
      conv => lhs; rw [← List.take_append_drop (l.length - 2) l]
      rw [h1]; rfl
    rw [split f h8 hv1, split g h8' hv1', he, hsum]
  have hbits : txBits (frameBody f) ≠ txBits (frameBody g) := fun h => hbody (txBits_inj h)
  rw [txBits_append, txBits_append, crcOfBits, crcOfBits, List.foldl_append, List.foldl_append] at hcrc'
  exact crc_burst hburst hbits _ (crcFold_inj hcrc')

/-- C11: altering only the two checksum bytes is always detected. -/
theorem c11_checksum (f g : List Byte) (hf : Returns (decode f)) (hv1 : f.head? = some 254)
    (hlen : g.length = f.length) (hsame : g.take (g.length - 2) = f.take (f.length - 2)) (hne : g ≠ f) :
    Raises (decode g) .mavError := by
  obtain ⟨h8, hl, m, hm, hmid, hcrc⟩ := (c13_accept_iff f hv1).1 hf
  have hget : ∀ i < f.length - 2, g.getD i 0 = f.getD i 0 := by
    intro i hi
    have h1 : (g.take (g.length - 2))[i]? = (f.take (f.length - 2))[i]? := by rw [hsame]
    rw [List.getElem?_take_of_lt (by omega), List.getElem?_take_of_lt (by omega)] at h1
    simp only [List.getD, h1]
  have hv1' : g.head? = some 254 := by
    have h1 : (g.take (g.length - 2))[0]? = (f.take (f.length - 2))[0]? := by rw [hsame]
    rw [List.getElem?_take_of_lt (by omega), List.getElem?_take_of_lt (by omega)] at h1
    rw [List.head?_eq_getElem?, h1, ← List.head?_eq_getElem?, hv1]
  apply c13_reject g hv1'
  intro hg
  obtain ⟨h8', hl', m', hm', hmid', hcrc'⟩ := (c13_accept_iff g hv1').1 hg
  have hmm : m' = m := by
    have h1 := lookupMsg_eq_some.2 ⟨hm, rfl⟩
    have h2 := lookupMsg_eq_some.2 ⟨hm', rfl⟩
    rw [hmid', hget 5 (by omega), ← hmid, h1] at h2
    exact (Option.some.inj h2).symm
  subst hmm
  have hfb : frameBody g = frameBody f := by unfold frameBody; rw [hsame]
  rw [hfb, ← hcrc] at hcrc'
  apply hne
  have hd := leNat_inj (by simp only [List.length_drop]; omega) hcrc'
  rw [← List.take_append_drop (g.length - 2) g, ← List.take_append_drop (f.length - 2) f, hsame, hd]

/-- A concrete accepted frame (heartbeat) and a corrupted copy meet the hypotheses of `c11_burst`. -/
example : Returns (decode [254, 9, 0, 1, 1, 0, 0, 0, 0, 0, 6, 8, 0, 0, 3, 0xF1, 0x20]) ∧
    BurstApart 16 (txBits (frameBody [254, 9, 0, 1, 1, 0, 0, 0, 0, 0, 6, 8, 0, 0, 3, 0xF1, 0x20]))
      (txBits (frameBody [254, 9, 0, 1, 1, 0, 0, 0, 0, 0x81, 0x17, 8, 0, 0, 3, 0xF1, 0x20])) := by
  refine ⟨by decide +kernel, ?_⟩
  exact ⟨txBits [9, 0, 1, 1, 0, 0, 0, 0], txBits [0, 6], txBits [0x81, 0x17], txBits [8, 0, 0, 3],
    by decide, by decide, by decide, by decide⟩

/-! Single-bit errors. -/

/-- `f` with bit `b` of byte `k` inverted. -/
def flipBit (f : List Byte) (k b : Nat) : List Byte := f.modify k (· ^^^ (1#8 <<< b))

theorem flipBit_length (f : List Byte) (k b : Nat) : (flipBit f k b).length = f.length := by simp [flipBit]

theorem flipBit_get (f : List Byte) (k b i : Nat) (h : i ≠ k) : (flipBit f k b)[i]? = f[i]? := by
  have : ¬ k = i := fun e => h e.symm
  unfold flipBit
  rw [List.getElem?_modify]
  simp [this]

theorem one_shift_ne_zero (b : Nat) (hb : b < 8) : 1#8 <<< b ≠ 0 := by
  match b, hb with
  | 0, _ | 1, _ | 2, _ | 3, _ | 4, _ | 5, _ | 6, _ | 7, _ => decide

theorem xor_ne_self (x y : Byte) (h : y ≠ 0) : x ^^^ y ≠ x := by
  intro he
  apply h
  have : x ^^^ (x ^^^ y) = x ^^^ x := by rw [he]
  rw [← BitVec.xor_assoc, BitVec.xor_self, BitVec.zero_xor] at this
  exact this

theorem decode_bad_marker (b0 : Byte) (r : List Byte) (h1 : b0 ≠ 254) (h2 : b0 ≠ 253) :
    decode (b0 :: r) = .error .mavError := by
  unfold decode
  simp only [h1, ne_eq, not_false_eq_true, if_true]
  split
  · rename_i heq
    simp only [List.cons.injEq] at heq
    obtain ⟨rfl, _⟩ := heq
    have t1 : b0.toNat ≠ 254 := fun h => h1 (BitVec.eq_of_toNat_eq (by simpa using h))
    have t2 : b0.toNat ≠ 253 := fun h => h2 (BitVec.eq_of_toNat_eq (by simpa using h))
    unfold decodeBody
    simp only
    rw [if_pos ⟨t1, t2⟩]
  · rfl

theorem flip_marker : ∀ b < 8, (254#8 ^^^ (1#8 <<< b)) ≠ 254 ∧ (254#8 ^^^ (1#8 <<< b)) ≠ 253 := by decide

theorem crcStep_shifts (r : BitVec 16) (b : Byte) : crcStep r b = crcShifts 8 (r ^^^ b.setWidth 16) := by
  rw [crcShifts_xor, table_lo, crcStep_eq]
  congr 1
  conv => rhs; rw [split16 r]
  rw [crcShifts_xor, table_hi, table_lo, shift8]

theorem crcShifts_add (a b : Nat) (x : BitVec 16) : crcShifts (a + b) x = crcShifts b (crcShifts a x) := by
  induction a generalizing x with
  | zero => simp [crcShifts]
  | succ a ih => rw [Nat.succ_add]; simp only [crcShifts]; exact ih _

/-- Feeding the same bytes into two registers: the difference evolves by itself. -/
theorem crcFold_diff (p : List Byte) (r s : BitVec 16) :
    p.foldl crcStep r ^^^ p.foldl crcStep s = crcShifts (8 * p.length) (r ^^^ s) := by
  induction p generalizing r s with
  | nil => simp [crcShifts]
  | cons b p ih =>
    rw [List.foldl_cons, List.foldl_cons, ih, crcStep_shifts, crcStep_shifts, ← crcShifts_xor]
    rw [List.length_cons, show 8 * (p.length + 1) = 8 + 8 * p.length by omega, crcShifts_add]
    congr 2
    rw [show r ^^^ b.setWidth 16 ^^^ (s ^^^ b.setWidth 16) = r ^^^ s ^^^ (b.setWidth 16 ^^^ b.setWidth 16) by ac_rfl]
    simp

/-- States reached from `d` by shifting whole bytes. -/
def statesFrom (d : BitVec 16) : Nat → List (BitVec 16)
  | 0 => []
  | k + 1 => d :: statesFrom (crcShifts 8 d) k

theorem statesFrom_get (d : BitVec 16) (k L : Nat) (h : L < k) :
    (statesFrom d k)[L]? = some (crcShifts (8 * L) d) := by
  induction k generalizing d L with
  | zero => omega
  | succ k ih =>
    cases L with
    | zero => rfl
    | succ L =>
      simp only [statesFrom, List.getElem?_cons_succ]
      rw [ih _ _ (by omega), show 8 * (L + 1) = 8 + 8 * L by omega, crcShifts_add]

/-- The (bit, payload length) pairs for which the difference fits in a byte. -/
def smallDiffs : List (Nat × Nat × Nat) :=
  (List.range 8).flatMap fun b =>
    (statesFrom (crcShifts 8 ((1#8 <<< b).setWidth 16)) 256).zipIdx.filterMap fun (d, L) =>
      if d.toNat < 256 then some (b, L, d.toNat) else none

/-- Is the collision for ids differing in bit `b` at payload length `L` with difference `d` possible? -/
def collides (b L d : Nat) : Bool :=
  mavlinkMap.any fun m => match lookupMsg (m.id ^^^ (1 <<< b)) with
    | none => false
    | some m' => (m.crcExtra ^^^ m'.crcExtra == d) &&
        !((L == 208) && ((m.id == 4 && m'.id == 6) || (m.id == 6 && m'.id == 4)))

theorem no_collision : smallDiffs.all (fun x => !collides x.1 x.2.1 x.2.2) = true := by decide +kernel

theorem setWidth_xor_toNat (a b : Nat) (ha : a < 256) (hb : b < 256) :
    ((BitVec.ofNat 8 a).setWidth 16 ^^^ (BitVec.ofNat 8 b).setWidth 16).toNat = a ^^^ b := by
  simp only [BitVec.toNat_xor, BitVec.toNat_setWidth, BitVec.toNat_ofNat]
  congr 1 <;> omega

theorem id_flip_collision {m m' : MsgClass} (hm : m ∈ mavlinkMap) (hm' : m' ∈ mavlinkMap) {b L : Nat} (hb : b < 8)
    (hL : L < 256) (hid : m'.id = m.id ^^^ (1 <<< b))
    (hc : crcShifts (8 * L) (crcShifts 8 ((1#8 <<< b).setWidth 16)) =
      (BitVec.ofNat 8 m.crcExtra).setWidth 16 ^^^ (BitVec.ofNat 8 m'.crcExtra).setWidth 16) :
    L = 208 ∧ ((m.id = 4 ∧ m'.id = 6) ∨ (m.id = 6 ∧ m'.id = 4)) := by
  have hx := (classOK hm).extra
  have hx' := (classOK hm').extra
  have hd := congrArg BitVec.toNat hc
  rw [setWidth_xor_toNat _ _ hx hx'] at hd
  have hlt : m.crcExtra ^^^ m'.crcExtra < 256 := Nat.xor_lt_two_pow (n := 8) hx hx'
  have hmem : (b, L, m.crcExtra ^^^ m'.crcExtra) ∈ smallDiffs := by
    unfold smallDiffs
    rw [List.mem_flatMap]
    refine ⟨b, by simpa using hb, ?_⟩
    rw [List.mem_filterMap]
    refine ⟨(_, L), List.mem_zipIdx_iff_getElem?.2 (statesFrom_get _ 256 L hL), ?_⟩
    simp only [hd, hlt, if_true]
  have := List.all_eq_true.1 no_collision _ hmem
  simp only [Bool.not_eq_true'] at this
  unfold collides at this
  rw [List.any_eq_false] at this
  have := this m hm
  rw [← hid, lookupMsg_mem hm'] at this
  simp only [beq_self_eq_true, Bool.true_and, Bool.not_eq_true', Bool.not_eq_false, Bool.and_eq_true,
    beq_iff_eq, Bool.or_eq_true] at this
  simpa using this

/-- C11: inverting any single bit of an accepted v1 frame makes it rejected with MAVError, except that a frame with a
208-byte payload may survive when its id changes between 4 and 6. -/
theorem c11_single_bit (f : List Byte) (hf : Returns (decode f)) (hv1 : f.head? = some 254) (k b : Nat)
    (hk : k < f.length) (hb : b < 8)
    (hexc : ¬ (k = 5 ∧ f.length = 216 ∧ (((f.getD 5 0).toNat = 4 ∧ b = 1) ∨ ((f.getD 5 0).toNat = 6 ∧ b = 1)))) :
    Raises (decode (flipBit f k b)) .mavError := by
  obtain ⟨h8, hl, m, hm, hmid, hcrc⟩ := (c13_accept_iff f hv1).1 hf
  have hlen := flipBit_length f k b
  have hne : flipBit f k b ≠ f := by
    intro he
    have h1 : (flipBit f k b)[k]? = f[k]? := by rw [he]
    unfold flipBit at h1
    rw [List.getElem?_modify, List.getElem?_eq_getElem hk] at h1
    simp at h1
    exact xor_ne_self _ _ (one_shift_ne_zero b hb) h1
  by_cases hk0 : k = 0
  · subst hk0
    match f, hv1 with
    | a :: r, hv1 =>
      simp at hv1; subst hv1
      have := flip_marker b hb
      simp only [flipBit, List.modify_zero_cons]
      exact decode_bad_marker _ _ this.1 this.2
  have hv1' : (flipBit f k b).head? = some 254 := by
    rw [List.head?_eq_getElem?, flipBit, List.getElem?_modify]
    simp only [hk0, if_false]
    rw [← List.head?_eq_getElem?, hv1]; rfl
  have hget : ∀ i, i ≠ k → (flipBit f k b).getD i 0 = f.getD i 0 := by
    intro i hi
    simp only [List.getD, flipBit_get f k b i hi]
  by_cases hk2 : f.length - 2 ≤ k
  · apply c11_checksum f _ hf hv1 hlen _ hne
    rw [hlen]
    apply List.ext_getElem?
    intro i
    by_cases hi : i < f.length - 2
    · rw [List.getElem?_take_of_lt hi, List.getElem?_take_of_lt hi, flipBit_get _ _ _ _ (by omega)]
    · rw [List.getElem?_eq_none (by simp; omega), List.getElem?_eq_none (by simp; omega)]
  by_cases hk1 : k = 1
  · apply c13_reject _ hv1'
    intro hg
    obtain ⟨_, hl', _⟩ := (c13_accept_iff _ hv1').1 hg
    rw [hlen, ← hl] at hl'
    have := BitVec.eq_of_toNat_eq hl'
    subst hk1
    unfold flipBit at this
    simp only [List.getD, List.getElem?_modify, if_true, List.getElem?_eq_getElem hk] at this
    exact xor_ne_self _ _ (one_shift_ne_zero b hb) (by simpa using this)
  -- split the frame around byte k
  have hsplit : f = f.take k ++ f[k] :: f.drop (k + 1) := by
    conv => lhs; rw [← List.take_append_drop k f, List.drop_eq_getElem_cons hk]
  have hfl : flipBit f k b = f.take k ++ (f[k] ^^^ (1#8 <<< b)) :: f.drop (k + 1) := by
    unfold flipBit
    rw [List.modify_eq_take_cons_drop hk]
  have hbody : ∀ x : Byte, frameBody (f.take k ++ x :: f.drop (k + 1)) =
      (f.take k).drop 1 ++ x :: (f.drop (k + 1)).take (f.length - 3 - k) := by
    intro x
    unfold frameBody
    have hL : (f.take k ++ x :: f.drop (k + 1)).length = f.length := by simp; omega
    rw [hL, List.take_append, List.take_of_length_le (by simp; omega)]
    have : f.length - 2 - (f.take k).length = (f.length - 3 - k) + 1 := by simp; omega
    rw [this, List.take_succ_cons, List.drop_append_of_le_length (by simp; omega)]
  by_cases hk5 : k = 5
  · subst hk5
    apply c13_reject _ hv1'
    intro hg
    obtain ⟨_, _, m', hm', hmid', hcrc'⟩ := (c13_accept_iff _ hv1').1 hg
    apply hexc
    have hsum : (flipBit f 5 b).drop ((flipBit f 5 b).length - 2) = f.drop (f.length - 2) := by
      apply List.ext_getElem?
      intro i
      rw [hlen, List.getElem?_drop, List.getElem?_drop, flipBit_get _ _ _ _ (by omega)]
    rw [hsum, hcrc] at hcrc'
    have hcrc' := BitVec.eq_of_toNat_eq hcrc'
    rw [← x25_eq_bits, ← x25_eq_bits, hfl, hbody] at hcrc'
    have hb1 := hbody f[5]
    rw [← hsplit] at hb1
    rw [hb1] at hcrc'
    have hidb : m'.id = m.id ^^^ (1 <<< b) := by
      rw [hmid', hmid, hfl]
      have e5 : (f.take 5 ++ (f[5] ^^^ (1#8 <<< b)) :: f.drop 6).getD 5 0 = f[5] ^^^ (1#8 <<< b) := by
        simp [List.getD, List.getElem?_append, Nat.min_eq_left (show 5 ≤ f.length by omega)]
      rw [e5, getD_lt _ _ hk, BitVec.toNat_xor]
      congr 1
      match b, hb with
      | 0, _ | 1, _ | 2, _ | 3, _ | 4, _ | 5, _ | 6, _ | 7, _ => rfl
    generalize hP : (f.drop (5 + 1)).take (f.length - 3 - 5) = P at hcrc'
    have hPl : P.length = f.length - 8 := by rw [← hP]; simp; omega
    simp only [x25, List.foldl_append, List.foldl_cons, List.foldl_nil] at hcrc'
    rw [crcStep_shifts _ (BitVec.ofNat 8 m.crcExtra), crcStep_shifts _ (BitVec.ofNat 8 m'.crcExtra)] at hcrc'
    have hcrc' := crcShifts_inj hcrc'
    have hdiff := crcFold_diff P (crcStep (List.foldl crcStep 65535#16 ((f.take 5).drop 1)) f[5])
      (crcStep (List.foldl crcStep 65535#16 ((f.take 5).drop 1)) (f[5] ^^^ 1#8 <<< b))
    have hin : crcStep (List.foldl crcStep 65535#16 ((f.take 5).drop 1)) f[5] ^^^
        crcStep (List.foldl crcStep 65535#16 ((f.take 5).drop 1)) (f[5] ^^^ 1#8 <<< b)
        = crcShifts 8 ((1#8 <<< b).setWidth 16) := by
      rw [crcStep_shifts, crcStep_shifts, ← crcShifts_xor, BitVec.setWidth_xor]
      congr 1
      generalize List.foldl crcStep 65535#16 ((f.take 5).drop 1) = s
      generalize (f[5]).setWidth 16 = i
      generalize (1#8 <<< b).setWidth 16 = e
      rw [show s ^^^ i ^^^ (s ^^^ (i ^^^ e)) = (s ^^^ s) ^^^ (i ^^^ i) ^^^ e by ac_rfl]
      simp
    rw [hin] at hdiff
    have hfin : crcShifts (8 * P.length) (crcShifts 8 ((1#8 <<< b).setWidth 16)) =
        (BitVec.ofNat 8 m.crcExtra).setWidth 16 ^^^ (BitVec.ofNat 8 m'.crcExtra).setWidth 16 := by
      rw [← hdiff]
      have key : ∀ A B x y : BitVec 16, A ^^^ x = B ^^^ y → A ^^^ B = x ^^^ y := by
        intro A B x y h
        have : A ^^^ B = (A ^^^ x) ^^^ x ^^^ B := by
          rw [show (A ^^^ x) ^^^ x ^^^ B = A ^^^ B ^^^ (x ^^^ x) by ac_rfl]; simp
        rw [this, h, show B ^^^ y ^^^ x ^^^ B = (B ^^^ B) ^^^ (x ^^^ y) by ac_rfl]; simp
      exact key _ _ _ _ hcrc'
    have hL256 : P.length < 256 := by
      have := (f.getD 1 0).isLt; omega
    obtain ⟨h208, hids⟩ := id_flip_collision hm hm' hb hL256 hidb hfin
    refine ⟨rfl, by omega, ?_⟩
    rw [← hmid]
    have hb1' : ∀ b < 8, (6 = 4 ^^^ (1 <<< b) → b = 1) ∧ (4 = 6 ^^^ (1 <<< b) → b = 1) := by decide
    rcases hids with ⟨h4, h6⟩ | ⟨h6, h4⟩
    · rw [h4, h6] at hidb
      exact Or.inl ⟨h4, (hb1' b hb).1 hidb⟩
    · rw [h4, h6] at hidb
      exact Or.inr ⟨h6, (hb1' b hb).2 hidb⟩
  · apply c11_burst f _ hf hv1 hv1' hlen (hget 5 (by omega)) _ _ hne
    · apply List.ext_getElem?
      intro i
      rw [hlen, List.getElem?_drop, List.getElem?_drop, flipBit_get _ _ _ _ (by omega)]
    · have hb1 := hbody f[k]
      rw [← hsplit] at hb1
      rw [hfl, hbody, hb1]
      refine ⟨txBits ((f.take k).drop 1), lsbBits f[k], lsbBits (f[k] ^^^ (1#8 <<< b)),
        txBits ((f.drop (k + 1)).take (f.length - 3 - k)), ?_, ?_, by simp [lsbBits], by simp [lsbBits]⟩
      · simp [txBits]
      · simp [txBits]

/-- A heartbeat frame with any bit of its payload selected meets the hypotheses of `c11_single_bit`. -/
example : Returns (decode [254, 9, 0, 1, 1, 0, 0, 0, 0, 0, 6, 8, 0, 0, 3, 0xF1, 0x20]) ∧
    Raises (decode (flipBit [254, 9, 0, 1, 1, 0, 0, 0, 0, 0, 6, 8, 0, 0, 3, 0xF1, 0x20] 10 3)) .mavError :=
  ⟨by decide +kernel, c11_single_bit _ (by decide +kernel) rfl 10 3 (by decide) (by decide) (by decide)⟩

/-- A PING frame carrying a 208-byte payload. -/
def longPing : List Byte := [254, 208, 0, 1, 1, 4] ++ List.replicate 208 0 ++ [64, 124]

/-- C11, the exception is real: inverting one bit of the id of an accepted frame can leave it accepted. -/
theorem c11_single_bit_false : ¬ ∀ (f : List Byte) (k b : Nat), Returns (decode f) → f.head? = some 254 →
    k < f.length → b < 8 → Raises (decode (flipBit f k b)) .mavError := by
  intro h
  have h1 : Returns (decode longPing) := by decide +kernel
  have h2 : Returns (decode (flipBit longPing 5 1)) := by decide +kernel
  have h3 := h longPing 5 1 h1 rfl (by decide +kernel) (by decide)
  rw [h3] at h2
  obtain ⟨_, h2⟩ := h2
  exact absurd h2 (by simp)

end NR
