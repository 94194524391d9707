import Verif.Spec.HeaderRepair
import Verif.Props.C06_C07
/-
C141: which damaged headers the nearest-header search repairs.
-/
namespace NR.C141
open NR NR.Spec Dialect

theorem pop_triangle (n a b c : Nat) : popcount n (a ^^^ c) ≤ popcount n (a ^^^ b) + popcount n (b ^^^ c) := by
  induction n with
  | zero => simp [popcount]
  | succ n ih =>
    rw [popcount_succ, popcount_succ, popcount_succ]
    simp only [Nat.testBit_xor]
    cases a.testBit n <;> cases b.testBit n <;> cases c.testBit n <;> simp <;> omega

theorem errors_triangle (a b c : List Byte) : typeErrors a c ≤ typeErrors a b + typeErrors b c := by
  have h1 := pop_triangle 8 (a.getD 1 0).toNat (b.getD 1 0).toNat (c.getD 1 0).toNat
  have h5 := pop_triangle 8 (a.getD 5 0).toNat (b.getD 5 0).toNat (c.getD 5 0).toNat
  unfold typeErrors
  omega

theorem errors_comm (a b : List Byte) : typeErrors a b = typeErrors b a := by
  unfold typeErrors
  rw [Nat.xor_comm (a.getD 1 0).toNat, Nat.xor_comm (a.getD 5 0).toNat]

/-- What the search finds is, in length and id, at least as near as any valid header. -/
theorem found_near (h b : List Byte) (hv : isValidHeader h = true) (hb : b.length = 6) :
    ∃ (d c : Nat) (h' : List Byte), hammingDistance2ValidHeader b = .ok (d, (c : Int)) ∧ isValidHeader h' = true ∧ (h'.getD 5 0).toNat = c ∧
      typeErrors h' b ≤ typeErrors h b ∧
      (ListedBefore (h.getD 5 0).toNat c → typeErrors h' b < typeErrors h b) := by
  obtain ⟨d, c, hr, ⟨g, gv, gc, gd⟩, hmin⟩ := c06_nearest b hb
  obtain ⟨b0, b1, b2, b3, b4, b5, rfl⟩ := six_bytes hb
  obtain ⟨h0, h1, h2, h3, h4, h5, rfl⟩ := six_bytes (isValidHeader_length hv)
  obtain ⟨g0, g1, g2, g3, g4, g5, rfl⟩ := six_bytes (isValidHeader_length gv)
  obtain ⟨e0, e1⟩ := (isValidHeader_six _ _ _ _ _ _).1 hv
  obtain ⟨k0, k1⟩ := (isValidHeader_six _ _ _ _ _ _).1 gv
  have hv' : isValidHeader [h0, h1, b2, b3, b4, h5] = true := (isValidHeader_six _ _ _ _ _ _).2 ⟨e0, e1⟩
  have h1' := hmin _ _ hv' (six_dist _ _ _ _ _ _ _ _ _ _ _ _)
  have hfirst := fun e => c06_first [b0, b1, b2, b3, b4, b5] rfl none d c hr [h0, h1, b2, b3, b4, h5] e hv' (by simp)
  simp only [List.getD_cons_zero, List.getD_cons_succ] at hfirst
  rw [six_dist] at gd
  have gd := Except.ok.inj gd
  simp only [popcount_self] at h1'
  rw [e0] at h1'
  rw [k0] at gd
  refine ⟨d, c, [g0, g1, g2, g3, g4, g5], hr, gv, gc, ?_, ?_⟩
  · simp only [typeErrors, List.getD_cons_zero, List.getD_cons_succ]
    omega
  · intro hl
    have := hfirst _ hl (six_dist _ _ _ _ _ _ _ _ _ _ _ _)
    simp only [popcount_self] at this
    rw [e0] at this
    simp only [typeErrors, List.getD_cons_zero, List.getD_cons_succ]
    omega

theorem same_type {h h' : List Byte} (hv : isValidHeader h = true) (hv' : isValidHeader h' = true)
    (hi : (h'.getD 5 0).toNat = (h.getD 5 0).toNat) : h'.getD 1 0 = h.getD 1 0 ∧ h'.getD 5 0 = h.getD 5 0 := by
  obtain ⟨h0, h1, h2, h3, h4, h5, rfl⟩ := six_bytes (isValidHeader_length hv)
  obtain ⟨g0, g1, g2, g3, g4, g5, rfl⟩ := six_bytes (isValidHeader_length hv')
  obtain ⟨e0, e1⟩ := (isValidHeader_six _ _ _ _ _ _).1 hv
  obtain ⟨k0, k1⟩ := (isValidHeader_six _ _ _ _ _ _).1 hv'
  simp only [List.getD_cons_zero, List.getD_cons_succ] at hi ⊢
  rw [hi, e1] at k1
  exact ⟨(BitVec.eq_of_toNat_eq (Option.some.inj k1)).symm, BitVec.eq_of_toNat_eq hi⟩

/-- C141: fewer errors in length and id than half the distance to the next message type are repaired: the search reports the type that was
sent, and a header built from the received bytes with that type has the length and id that were sent, and the other bytes as received. -/
theorem c141_repairs (h b : List Byte) (hv : isValidHeader h = true) (hb : b.length = 6)
    (hfar : ∀ h', isValidHeader h' = true → (h'.getD 5 0).toNat ≠ (h.getD 5 0).toNat → 2 * typeErrors h b < typeErrors h h') :
    ∃ d : Nat, hammingDistance2ValidHeader b = .ok (d, ((h.getD 5 0).toNat : Int)) ∧
      FrameHeader.fromBuffer b (some (h.getD 5 0).toNat) = .ok ⟨[254, h.getD 1 0, b.getD 2 0, b.getD 3 0, b.getD 4 0, h.getD 5 0]⟩ := by
  obtain ⟨d, c, h', hr, hv', hc, hle, _⟩ := found_near h b hv hb
  refine ⟨d, ?_, ?_⟩
  · by_cases hne : c = (h.getD 5 0).toNat
    · rw [hr, hne]
    · exfalso
      have h1 := hfar h' hv' (by rw [hc]; exact hne)
      have h2 := errors_triangle h b h'
      rw [errors_comm b h'] at h2
      omega
  · obtain ⟨h0, h1, h2, h3, h4, h5, rfl⟩ := six_bytes (isValidHeader_length hv)
    obtain ⟨b0, b1, b2, b3, b4, b5, rfl⟩ := six_bytes hb
    obtain ⟨e0, e1⟩ := (isValidHeader_six _ _ _ _ _ _).1 hv
    obtain ⟨m, hm, he, hl⟩ := payloadLen_eq_some.1 e1
    simp only [List.getD_cons_zero, List.getD_cons_succ]
    rw [← he, c05_forced m hm, he]
    rw [hl]
    simp

/-- C141: so with intact sequence number and sender the header that was sent comes back whole. -/
theorem c141_header (h b : List Byte) (hv : isValidHeader h = true) (hb : b.length = 6)
    (hmid : ∀ i, 2 ≤ i → i ≤ 4 → b.getD i 0 = h.getD i 0)
    (hfar : ∀ h', isValidHeader h' = true → (h'.getD 5 0).toNat ≠ (h.getD 5 0).toNat → 2 * typeErrors h b < typeErrors h h') :
    ∃ (d : Nat) (c : Int), hammingDistance2ValidHeader b = .ok (d, c) ∧ FrameHeader.fromBuffer b (some c) = .ok ⟨h⟩ := by
  obtain ⟨d, h1, h2⟩ := c141_repairs h b hv hb hfar
  refine ⟨d, _, h1, ?_⟩
  rw [h2, hmid 2 (by omega) (by omega), hmid 3 (by omega) (by omega), hmid 4 (by omega) (by omega)]
  obtain ⟨h0, h1, h2, h3, h4, h5, rfl⟩ := six_bytes (isValidHeader_length hv)
  obtain ⟨e0, e1⟩ := (isValidHeader_six _ _ _ _ _ _).1 hv
  simp only [List.getD_cons_zero, List.getD_cons_succ]
  rw [show h0 = 254 from BitVec.eq_of_toNat_eq (by simpa using e0)]

/-- The distance of two message types, given by id and length. -/
def dist (e e' : Nat × Nat) : Nat := popcount 8 (e.2 ^^^ e'.2) + popcount 8 (e.1 ^^^ e'.1)

/-- Of two types in the order of the list: if the first is robust they are 2 apart, if the second is they are 3 apart. -/
def apart (e e' : Nat × Nat) : Bool :=
  (!robust.contains e.1 || Nat.ble 2 (dist e e')) && (!robust.contains e'.1 || Nat.ble 3 (dist e e'))

def allApart : List (Nat × Nat) → Bool
  | [] => true
  | e :: L => L.all (apart e) && allApart L

theorem allApart_split {P Q : List (Nat × Nat)} {e : Nat × Nat} (h : allApart (P ++ e :: Q) = true) :
    (∀ e' ∈ P, apart e' e = true) ∧ ∀ e' ∈ Q, apart e e' = true := by
  induction P with
  | nil =>
    simp only [List.nil_append, allApart, Bool.and_eq_true, List.all_eq_true] at h
    exact ⟨by simp, h.1⟩
  | cons a P ih =>
    simp only [List.cons_append, allApart, Bool.and_eq_true, List.all_eq_true] at h
    obtain ⟨i1, i2⟩ := ih h.2
    refine ⟨?_, i2⟩
    intro e' he'
    rcases List.mem_cons.1 he' with rfl | he'
    · exact h.1 e (by simp)
    · exact i1 e' he'

theorem robust_table : allApart msgsPayloadLength = true := by decide +kernel

/-- For the others, an id, a length and an id that one error makes of its header, and the type then reported. -/
def fragile : List (Nat × Nat × Nat × Nat) :=
  [(4, 14, 132, 132), (7, 3, 7, 6), (23, 10, 23, 22), (25, 6, 27, 11), (28, 16, 29, 29), (29, 16, 28, 28), (34, 22, 35, 35), (35,
   22, 34, 34), (37, 4, 37, 5), (38, 22, 38, 34), (40, 4, 41, 41), (41, 4, 40, 40), (42, 2, 43, 43), (43, 6, 43, 11), (44, 4, 45,
   41), (45, 6, 45, 37), (46, 6, 46, 38), (47, 2, 47, 43), (49, 13, 49, 48), (50, 22, 51, 35), (55, 27, 55, 54), (61, 16, 61, 29),
   (62, 27, 62, 54), (67, 6, 67, 66), (76, 33, 92, 92), (77, 11, 77, 69), (83, 27, 83, 82), (84, 53, 86, 86), (85, 51, 87, 87), (86,
   53, 84, 84), (87, 51, 85, 85), (90, 40, 90, 26), (92, 33, 76, 76), (102, 32, 103, 101), (110, 4, 108, 44), (111, 20, 111, 103),
   (112, 13, 112, 48), (114, 12, 114, 112), (115, 36, 115, 113), (117, 6, 125, 125), (119, 14, 119, 118), (120, 12, 120, 112), (122,
   2, 123, 121), (124, 33, 124, 92), (125, 2, 125, 121), (126, 14, 126, 118), (127, 35, 126, 124), (130, 12, 130, 2), (132, 14, 4,
   4), (134, 13, 130, 130), (135, 8, 151, 23), (140, 13, 142, 134), (142, 13, 142, 134), (143, 16, 141, 137), (241, 36, 241, 113),
   (242, 44, 242, 114), (243, 40, 243, 242), (244, 6, 245, 117), (245, 6, 245, 117), (246, 14, 246, 118), (248, 6, 252, 244), (251,
   41, 251, 243), (252, 9, 254, 254), (253, 6, 253, 125), (254, 9, 255, 251), (212, 19, 213, 213), (213, 51, 213, 85), (214, 19, 215,
   215), (215, 51, 215, 87), (216, 6, 217, 217), (217, 6, 216, 216), (219, 18, 211, 147), (221, 2, 221, 253), (223, 32, 223, 222),
   (227, 12, 243, 211), (228, 26, 228, 100), (231, 24, 231, 230), (233, 5, 233, 249), (234, 44, 234, 106), (237, 28, 237, 236), (238,
   9, 238, 254)]

def fragileOk (x : Nat × Nat × Nat × Nat) : Bool :=
  match payloadLen x.1, payloadLen x.2.2.2 with
  | some l, some l' =>
    decide (x.2.1 < 256) && decide (x.2.2.1 < 256) && Nat.beq (dist (x.1, l) (x.2.2.1, x.2.1)) 1 &&
      (Nat.beq (dist (x.2.2.2, l') (x.2.2.1, x.2.1)) 0 ||
        (Nat.beq (dist (x.2.2.2, l') (x.2.2.1, x.2.1)) 1 && decide (ListedBefore x.2.2.2 x.1)))
  | _, _ => false

theorem fragile_table : fragile.all fragileOk = true := by decide +kernel

theorem all_types : (msgsPayloadLength.all fun e => robust.contains e.1 || (fragile.map Prod.fst).contains e.1) = true := by decide +kernel

theorem errors_dist {h h' : List Byte} : typeErrors h h' = dist ((h.getD 5 0).toNat, (h.getD 1 0).toNat) ((h'.getD 5 0).toNat, (h'.getD 1 0).toNat) := rfl

theorem valid_type {h : List Byte} (hv : isValidHeader h = true) : payloadLen (h.getD 5 0).toNat = some (h.getD 1 0).toNat := by
  obtain ⟨h0, h1, h2, h3, h4, h5, rfl⟩ := six_bytes (isValidHeader_length hv)
  exact ((isValidHeader_six _ _ _ _ _ _).1 hv).2

theorem listed_total {a c l l' : Nat} (ha : payloadLen a = some l) (hc : payloadLen c = some l') (hne : c ≠ a) (hn : ¬ ListedBefore c a) : ListedBefore a c := by
  unfold ListedBefore at *
  rcases Nat.lt_trichotomy ((mavlinkMap.map fun m => m.id).idxOf a) ((mavlinkMap.map fun m => m.id).idxOf c) with h | h | h
  · exact h
  · exfalso
    obtain ⟨m, hm, rfl, _⟩ := payloadLen_eq_some.1 ha
    have hin : m.id ∈ mavlinkMap.map fun m => m.id := List.mem_map.2 ⟨m, hm, rfl⟩
    have g1 := List.getElem_idxOf (List.idxOf_lt_length_of_mem hin)
    obtain ⟨m', hm', rfl, _⟩ := payloadLen_eq_some.1 hc
    have hin' : m'.id ∈ mavlinkMap.map fun m => m.id := List.mem_map.2 ⟨m', hm', rfl⟩
    have g2 := List.getElem_idxOf (List.idxOf_lt_length_of_mem hin')
    exact hne (by rw [← g1, ← g2]; simp only [h])
  · exact absurd h hn

/-- Single errors in a robust type are repaired. -/
theorem robust_found (h b : List Byte) (hv : isValidHeader h = true) (hb : b.length = 6) (hr : (h.getD 5 0).toNat ∈ robust)
    (he : typeErrors h b ≤ 1) : ∃ d : Nat, hammingDistance2ValidHeader b = .ok (d, ((h.getD 5 0).toNat : Int)) := by
  obtain ⟨d, c, h', hf, hv', hc, hle, hfirst⟩ := found_near h b hv hb
  by_cases hne : c = (h.getD 5 0).toNat
  · exact ⟨d, by rw [hf, hne]⟩
  · exfalso
    have ht := errors_triangle h b h'
    rw [errors_comm b h'] at ht
    have p := valid_type hv
    have p' := valid_type hv'
    rw [hc] at p'
    obtain ⟨P, Q, hPQ, hP⟩ := listed_split p
    have htab := robust_table
    rw [hPQ] at htab
    obtain ⟨t1, t2⟩ := allApart_split htab
    have hr' : robust.contains (h.getD 5 0).toNat = true := by simpa using hr
    by_cases hl : ListedBefore c (h.getD 5 0).toNat
    · have := t1 _ ((hP (c, (h'.getD 1 0).toNat)).2 ⟨p', hl⟩)
      simp only [apart, hr', Bool.and_eq_true, Bool.not_true, Bool.false_or] at this
      have := Nat.le_of_ble_eq_true this.2
      rw [← hc, ← errors_dist, errors_comm] at this
      omega
    · have hf' := hfirst (listed_total p p' hne hl)
      have hin : (c, (h'.getD 1 0).toNat) ∈ Q := by
        have hm := mem_payload_entries.2 p'
        rw [hPQ] at hm
        rcases List.mem_append.1 hm with hm | hm
        · exact absurd ((hP _).1 hm).2 hl
        · rcases List.mem_cons.1 hm with hm | hm
          · exact absurd (congrArg Prod.fst hm) hne
          · exact hm
      have := t2 _ hin
      simp only [apart, hr', Bool.and_eq_true, Bool.not_true, Bool.false_or] at this
      have := Nat.le_of_ble_eq_true this.1
      rw [← hc, ← errors_dist] at this
      omega

/-- In the other types some single error is not. -/
theorem fragile_missed (h : List Byte) (hv : isValidHeader h = true) (hr : (h.getD 5 0).toNat ∉ robust) :
    ∃ b : List Byte, b.length = 6 ∧ typeErrors h b = 1 ∧ (∀ i, i ≠ 1 → i ≠ 5 → b.getD i 0 = h.getD i 0) ∧
      ∀ d : Nat, hammingDistance2ValidHeader b ≠ .ok (d, ((h.getD 5 0).toNat : Int)) := by
  have p := valid_type hv
  have hall := List.all_eq_true.1 all_types _ (mem_payload_entries.2 p)
  have hin : (h.getD 5 0).toNat ∈ fragile.map Prod.fst := by
    rcases (Bool.or_eq_true_iff).1 hall with h1 | h1
    · exact absurd (by simpa using h1) hr
    · simpa using h1
  obtain ⟨x, hx, hx1⟩ := List.mem_map.1 hin
  have hok := List.all_eq_true.1 fragile_table x hx
  obtain ⟨i, bl, bi, ri⟩ := x
  simp only at hx1
  subst hx1
  unfold fragileOk at hok
  simp only [p] at hok
  cases p' : payloadLen ri with
  | none => simp [p'] at hok
  | some l' =>
    simp only [p', Bool.and_eq_true, decide_eq_true_eq, Bool.or_eq_true, Nat.beq_eq] at hok
    obtain ⟨⟨⟨hbl, hbi⟩, h1⟩, h2⟩ := hok
    have hl' := payload_entries_lt _ (mem_payload_entries.2 p')
    obtain ⟨h0, h1', h2', h3, h4, h5, rfl⟩ := six_bytes (isValidHeader_length hv)
    have e1 := (isValidHeader_six _ _ _ _ _ _).1 hv
    have hg : isValidHeader [254, BitVec.ofNat 8 l', 0, 0, 0, BitVec.ofNat 8 ri] = true := by
      refine (isValidHeader_six _ _ _ _ _ _).2 ⟨by simp, ?_⟩
      rw [BitVec.toNat_ofNat, BitVec.toNat_ofNat, Nat.mod_eq_of_lt hl'.1, Nat.mod_eq_of_lt hl'.2]
      exact p'
    have hlen : [h0, BitVec.ofNat 8 bl, h2', h3, h4, BitVec.ofNat 8 bi].length = 6 := rfl
    have et : typeErrors [h0, h1', h2', h3, h4, h5] [h0, BitVec.ofNat 8 bl, h2', h3, h4, BitVec.ofNat 8 bi] = 1 := by
      rw [errors_dist]
      simpa [Nat.mod_eq_of_lt hbl, Nat.mod_eq_of_lt hbi] using h1
    refine ⟨_, hlen, et, ?_, ?_⟩
    · intro j j1 j5
      rcases j with _ | _ | _ | _ | _ | _ | j <;> simp at j1 j5 ⊢
    · intro d hd
      obtain ⟨d', c, h', hf, hv', hc, hle, hfirst⟩ := found_near _ _ hg hlen
      rw [hf] at hd
      have hcc : c = h5.toNat := by
        have := (Prod.mk.inj (Except.ok.inj hd)).2
        have : (c : Int) = (h5.toNat : Int) := by simpa using this
        omega
      have hs := same_type hv hv' (by rw [hc, hcc]; rfl)
      have e2 : typeErrors h' [h0, BitVec.ofNat 8 bl, h2', h3, h4, BitVec.ofNat 8 bi] = 1 := by
        rw [← et]
        unfold typeErrors
        rw [hs.1, hs.2]
      have e3 : typeErrors [254, BitVec.ofNat 8 l', 0, 0, 0, BitVec.ofNat 8 ri] [h0, BitVec.ofNat 8 bl, h2', h3, h4, BitVec.ofNat 8 bi]
          = dist (ri, l') (bi, bl) := by
        rw [errors_dist]
        simp [Nat.mod_eq_of_lt hbl, Nat.mod_eq_of_lt hbi, Nat.mod_eq_of_lt hl'.1, Nat.mod_eq_of_lt hl'.2]
      rw [e2, e3] at hle hfirst
      rcases h2 with h2 | ⟨h2, h3⟩
      · omega
      · have := hfirst (by rw [hcc]; simpa [Nat.mod_eq_of_lt hl'.1] using h3)
        omega

/-- C141: for exactly 74 of the 155 message types a header with at most one wrong bit in its length and id is always reported as its own type. -/
theorem c141_single_iff (h : List Byte) (hv : isValidHeader h = true) :
    (∀ b : List Byte, b.length = 6 → typeErrors h b ≤ 1 → ∃ d : Nat, hammingDistance2ValidHeader b = .ok (d, ((h.getD 5 0).toNat : Int)))
      ↔ (h.getD 5 0).toNat ∈ robust := by
  constructor
  · intro hall
    by_cases hr : (h.getD 5 0).toNat ∈ robust
    · exact hr
    · obtain ⟨b, hb, he, -, hno⟩ := fragile_missed h hv hr
      obtain ⟨d, hd⟩ := hall b hb (by omega)
      exact absurd hd (hno d)
  · exact fun hr b hb he => robust_found h b hv hb hr he

theorem c141_count : robust.length = 74 ∧ robust.Nodup ∧ mavlinkMap.length = 155 := by decide +kernel

/-- C141 (limits): in every other type some header with one wrong bit, all its other bytes as sent, is reported as another type, and the header
then built from it has that other id. -/
theorem c141_wrong (h : List Byte) (hv : isValidHeader h = true) (hr : (h.getD 5 0).toNat ∉ robust) :
    ∃ (b h' : List Byte) (d : Nat) (c : Int), b.length = 6 ∧ typeErrors h b = 1 ∧ (∀ i, i ≠ 1 → i ≠ 5 → b.getD i 0 = h.getD i 0) ∧
      hammingDistance2ValidHeader b = .ok (d, c) ∧ FrameHeader.fromBuffer b (some c) = .ok ⟨h'⟩ ∧ isValidHeader h' = true ∧
      h'.getD 5 0 ≠ h.getD 5 0 := by
  obtain ⟨b, hb, he, hmid, hno⟩ := fragile_missed h hv hr
  obtain ⟨d, c, g, hf, hv', hc, -, -⟩ := found_near h b hv hb
  obtain ⟨m, hm, hme, hml⟩ := payloadLen_eq_some.1 (valid_type hv')
  obtain ⟨g0, g1, g2, g3, g4, g5, rfl⟩ := six_bytes (isValidHeader_length hv')
  obtain ⟨b0, b1, b2, b3, b4, b5, rfl⟩ := six_bytes hb
  simp only [List.getD_cons_zero, List.getD_cons_succ] at hme hml hc
  refine ⟨_, [254, g1, b2, b3, b4, g5], d, c, hb, he, hmid, hf, ?_, ?_, ?_⟩
  · rw [← hc, ← hme, c05_forced m hm, hme, hml]
    simp
  · exact (isValidHeader_six _ _ _ _ _ _).2 ⟨rfl, ((isValidHeader_six _ _ _ _ _ _).1 hv').2⟩
  · intro hq
    simp only [List.getD_cons_zero, List.getD_cons_succ] at hq
    exact hno d (by rw [hf, ← hc, hq])

theorem far0 : (msgsPayloadLength.all fun e => Nat.beq e.1 0 || Nat.ble 3 (dist (0, 9) e)) = true := by decide +kernel

/-- A heartbeat's header meets the hypotheses with its marker broken and a bit of its id wrong: the whole header comes back. -/
example : ∃ (d : Nat) (c : Int), hammingDistance2ValidHeader [190, 9, 7, 1, 1, 16] = .ok (d, c) ∧
    FrameHeader.fromBuffer [190, 9, 7, 1, 1, 16] (some c) = .ok ⟨[254, 9, 7, 1, 1, 0]⟩ := by
  refine c141_header [254, 9, 7, 1, 1, 0] _ (by decide +kernel) rfl ?_ ?_
  · intro i h2 h4
    rcases i with _ | _ | _ | _ | _ | i <;> simp at h2 h4 ⊢
  · intro h' hv' hne
    have := List.all_eq_true.1 far0 _ (mem_payload_entries.2 (valid_type hv'))
    simp only [Bool.or_eq_true, Nat.beq_eq] at this
    rcases this with h | h
    · exact absurd h hne
    · have := Nat.le_of_ble_eq_true h
      have e : typeErrors [254, 9, 7, 1, 1, 0] [190, 9, 7, 1, 1, 16] = 1 := by decide
      rw [e]
      exact this

/-- Both kinds of type exist: 30 and 28. -/
example : isValidHeader [254, 28, 0, 1, 1, 30] = true ∧ 30 ∈ robust ∧ isValidHeader [254, 16, 0, 1, 1, 28] = true ∧ 28 ∉ robust := by decide +kernel

end NR.C141
