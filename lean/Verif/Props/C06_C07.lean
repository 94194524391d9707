import Verif.Props.C01_C02
import Verif.Props.C03_C05
/-!
C06, C07: `hamming_distance_2_valid_header` (protocol_meta/msg_header.py:37-65).
-/
namespace NR
open Spec Dialect

/-- Distance of a table entry (id, len) from the received length and id bytes. -/
def entryDist (b1 b5 : Nat) (e : Nat × Nat) : Nat := popcount 8 (e.2 ^^^ b1) + popcount 8 (e.1 ^^^ b5)

/-- The payload length limit. -/
def Permitted (maxLen : Option Int) (len : Nat) : Prop := ∀ m, maxLen = some m → (len : Int) ≤ m

theorem nearestLoop_spec (b1 b5 : Nat) (h1 : b1 < 256) (h5 : b5 < 256) (maxLen : Option Int)
    (L : List (Nat × Nat)) (hL : ∀ e ∈ L, e.1 < 256 ∧ e.2 < 256) (minDist : Nat) (chosen : Int) :
    ∃ d c, nearestLoop b1 b5 maxLen L minDist chosen = .ok (d, c) ∧ d ≤ minDist ∧
      ((d = minDist ∧ c = chosen) ∨
        ∃ e ∈ L, Permitted maxLen e.2 ∧ entryDist b1 b5 e = d ∧ c = e.1) ∧
      ((∀ e ∈ L, entryDist b1 b5 e = 0 → Permitted maxLen e.2) →
        ∀ e ∈ L, Permitted maxLen e.2 → d ≤ entryDist b1 b5 e) := by
  induction L generalizing minDist chosen with
  | nil => exact ⟨minDist, chosen, rfl, Nat.le_refl _, Or.inl ⟨rfl, rfl⟩, by simp⟩
  | cons e L ih =>
    obtain ⟨id, len⟩ := e
    have hb := hL (id, len) (by simp)
    have e1 := c01_int_popcount len b1 8 (by omega) (by simpa using hb.2) (by simpa using h1)
    have e2 := c01_int_popcount id b5 8 (by omega) (by simpa using hb.1) (by simpa using h5)
    have hL' : ∀ e ∈ L, e.1 < 256 ∧ e.2 < 256 := fun e he => hL e (List.mem_cons_of_mem _ he)
    have hperm : lenAllowed maxLen len = true
        ↔ Permitted maxLen len := by
      cases maxLen <;> simp [Permitted, lenAllowed]
    simp only [nearestLoop, e1, e2, bind, Except.bind]
    have hcand : popcount 8 (len ^^^ b1) + popcount 8 (id ^^^ b5) = entryDist b1 b5 (id, len) := rfl
    rw [hcand]
    by_cases hlt : entryDist b1 b5 (id, len) < minDist ∧ Permitted maxLen len
    · have hc : (decide (entryDist b1 b5 (id, len) < minDist) &&
          lenAllowed maxLen len) = true := by
        rw [Bool.and_eq_true, hperm]; simpa using hlt
      rw [hc]
      simp only [if_true]
      by_cases h0 : entryDist b1 b5 (id, len) = 0
      · rw [if_pos h0]
        refine ⟨_, _, rfl, by omega, Or.inr ⟨_, List.mem_cons_self, hlt.2, rfl, rfl⟩, ?_⟩
        intro _ e _ _; omega
      · rw [if_neg h0]
        obtain ⟨d, c, hr, hle, hor, hmin⟩ := ih hL' (entryDist b1 b5 (id, len)) id
        refine ⟨d, c, hr, by omega, ?_, ?_⟩
        · rcases hor with ⟨rfl, rfl⟩ | ⟨e, he, hp, hd, hc⟩
          · exact Or.inr ⟨_, List.mem_cons_self, hlt.2, rfl, rfl⟩
          · exact Or.inr ⟨e, List.mem_cons_of_mem _ he, hp, hd, hc⟩
        · intro hz e he hp
          rcases List.mem_cons.1 he with rfl | he
          · exact hle
          · exact hmin (fun e he => hz e (List.mem_cons_of_mem _ he)) e he hp
    · have hc : (decide (entryDist b1 b5 (id, len) < minDist) &&
          lenAllowed maxLen len) = false := by
        rw [Bool.eq_false_iff]
        intro h
        rw [Bool.and_eq_true, hperm] at h
        exact hlt (by simpa using h)
      rw [hc]
      simp only [Bool.false_eq_true, if_false]
      by_cases h0 : entryDist b1 b5 (id, len) = 0
      · rw [if_pos h0]
        refine ⟨_, _, rfl, Nat.le_refl _, Or.inl ⟨rfl, rfl⟩, ?_⟩
        intro hz e _ _
        have := hz (id, len) List.mem_cons_self h0
        have : ¬ entryDist b1 b5 (id, len) < minDist := fun h => hlt ⟨h, this⟩
        omega
      · rw [if_neg h0]
        obtain ⟨d, c, hr, hle, hor, hmin⟩ := ih hL' minDist chosen
        refine ⟨d, c, hr, by omega, ?_, ?_⟩
        · rcases hor with h | ⟨e, he, hp, hd, hc⟩
          · exact Or.inl h
          · exact Or.inr ⟨e, List.mem_cons_of_mem _ he, hp, hd, hc⟩
        · intro hz e he hp
          rcases List.mem_cons.1 he with rfl | he
          · have : ¬ entryDist b1 b5 (id, len) < minDist := fun h => hlt ⟨h, hp⟩
            omega
          · exact hmin (fun e he => hz e (List.mem_cons_of_mem _ he)) e he hp

theorem payload_entries_lt : ∀ e ∈ msgsPayloadLength, e.1 < 256 ∧ e.2 < 256 := by
  intro e he
  simp only [msgsPayloadLength, List.mem_map] at he
  obtain ⟨m, hm, rfl⟩ := he
  exact table_bounds m hm

theorem mem_payload_entries {id l : Nat} : (id, l) ∈ msgsPayloadLength ↔ payloadLen id = some l := by
  rw [payloadLen_eq_some]; simp [msgsPayloadLength]

/-- Hamming distance between two six-byte strings, from the published function. -/
theorem six_dist (a0 a1 a2 a3 a4 a5 b0 b1 b2 b3 b4 b5 : Byte) :
    hammingDistance (.bytes [a0, a1, a2, a3, a4, a5]) (.bytes [b0, b1, b2, b3, b4, b5])
      = .ok (popcount 8 (a0.toNat ^^^ b0.toNat) + (popcount 8 (a1.toNat ^^^ b1.toNat) +
          (popcount 8 (a2.toNat ^^^ b2.toNat) + (popcount 8 (a3.toNat ^^^ b3.toNat) +
          (popcount 8 (a4.toNat ^^^ b4.toNat) + popcount 8 (a5.toNat ^^^ b5.toNat)))))) := by
  rw [c01_bytes_popcount _ _ _ (by simp)]
  simp [List.zipWith]

theorem popcount_self (n v : Nat) : popcount n (v ^^^ v) = 0 := by
  simp [popcount]

theorem popcount_le (n v : Nat) : popcount n v ≤ n := by
  unfold popcount
  refine Nat.le_trans (List.length_filter_le _ _) (by simp)

/-- What the search computes, for any limit: the result is attained by a permitted valid header (or nothing was
chosen), and it is minimal provided no exactly matching entry is excluded by the limit. -/
theorem nearest_core (b0 b1 b2 b3 b4 b5 : Byte) (maxLen : Option Int) :
    ∃ d c, hammingDistance2ValidHeader [b0, b1, b2, b3, b4, b5] maxLen = .ok (d, c) ∧
      ((c = -1 ∧ d = popcount 8 (254 ^^^ b0.toNat) + 17) ∨
        ∃ len, payloadLen c.toNat = some len ∧ 0 ≤ c ∧ Permitted maxLen len ∧
          hammingDistance (.bytes [254, BitVec.ofNat 8 len, b2, b3, b4, BitVec.ofNat 8 c.toNat])
            (.bytes [b0, b1, b2, b3, b4, b5]) = .ok d) ∧
      ((∀ len, payloadLen b5.toNat = some len → len = b1.toNat → Permitted maxLen len) →
        ∀ (h : List Byte) (e : Nat), isValidHeader h = true → Permitted maxLen (h.getD 1 0).toNat →
          hammingDistance (.bytes h) (.bytes [b0, b1, b2, b3, b4, b5]) = .ok e → d ≤ e) := by
  have hb1 := b1.isLt
  have hb5 := b5.isLt
  have hb0 := b0.isLt
  obtain ⟨d, c, hr, hle, hor, hmin⟩ := nearestLoop_spec b1.toNat b5.toNat hb1 hb5 maxLen msgsPayloadLength
    payload_entries_lt 17 (-1)
  have e0 := c01_int_popcount 254 b0.toNat 8 (by omega) (by omega) (by simpa using hb0)
  refine ⟨popcount 8 (254 ^^^ b0.toNat) + d, c, ?_, ?_, ?_⟩
  · unfold hammingDistance2ValidHeader
    rw [if_neg (by simp [headerLen])]
    simp only [List.getD_cons_zero, List.getD_cons_succ, stx, bind, Except.bind]
    rw [show ((254 : Nat) : Int) = 254 from rfl] at e0
    erw [e0]
    simp only [hr]
  · rcases hor with ⟨rfl, rfl⟩ | ⟨⟨id, len⟩, he, hp, hd, rfl⟩
    · exact Or.inl ⟨rfl, rfl⟩
    · right
      have hbd := payload_entries_lt _ he
      simp only at hbd hp
      refine ⟨len, by simpa using mem_payload_entries.1 he, by simp, hp, ?_⟩
      rw [six_dist]
      simp only [popcount_self, entryDist] at *
      rw [← hd]
      simp only [BitVec.toNat_ofNat, Int.toNat_natCast]
      rw [Nat.mod_eq_of_lt (by simpa using hbd.2), Nat.mod_eq_of_lt (by simpa using hbd.1)]
      simp
  · intro hz h e hv hp hd
    obtain ⟨h0, h1, h2, h3, h4, h5, rfl⟩ := six_bytes (isValidHeader_length hv)
    obtain ⟨hv0, hv1⟩ := (isValidHeader_six _ _ _ _ _ _).1 hv
    rw [six_dist] at hd
    have hd' := Except.ok.inj hd
    have := hmin ?_ (h5.toNat, h1.toNat) (mem_payload_entries.2 hv1) (by simpa using hp)
    · simp only [entryDist] at this
      rw [hv0] at hd'
      omega
    · rintro ⟨id, len⟩ he h0'
      have hbd := payload_entries_lt _ he
      have hb1 := b1.isLt
      have hb5 := b5.isLt
      have z : ∀ a b : Nat, a < 256 → b < 256 → popcount 8 (a ^^^ b) = 0 → a = b := by
        intro a b ha hb hz
        have h1 := c01_int_popcount a b 8 (by omega) (by simpa using ha) (by simpa using hb)
        rw [hz] at h1
        have h2 := c01_int_byte_agree (BitVec.ofNat 8 a) (BitVec.ofNat 8 b)
        simp only [BitVec.toNat_ofNat] at h2
        rw [Nat.mod_eq_of_lt (by simpa using ha), Nat.mod_eq_of_lt (by simpa using hb), h1] at h2
        have h3 := (c01_zero_iff_eq_bytes _ _ _).1 h2.symm
        have h4 := congrArg BitVec.toNat (List.cons.inj h3).1
        simp only [BitVec.toNat_ofNat] at h4
        omega
      simp only [entryDist] at h0' hbd
      have hlen := z len b1.toNat hbd.2 (by omega) (by omega)
      have hid := z id b5.toNat hbd.1 (by omega) (by omega)
      have := mem_payload_entries.1 he
      rw [hid] at this
      exact hz len this hlen

/-- C06: without a limit, the reported distance is attained by a valid header carrying the reported message id
and no valid header is closer. -/
theorem c06_nearest (b : List Byte) (hb : b.length = 6) :
    ∃ (d : Nat) (c : Nat), hammingDistance2ValidHeader b = .ok (d, (c : Int)) ∧
      (∃ h, isValidHeader h = true ∧ (h.getD 5 0).toNat = c ∧ hammingDistance (.bytes h) (.bytes b) = .ok d) ∧
      (∀ h e, isValidHeader h = true → hammingDistance (.bytes h) (.bytes b) = .ok e → d ≤ e) := by
  obtain ⟨b0, b1, b2, b3, b4, b5, rfl⟩ := six_bytes hb
  obtain ⟨d, c, hr, hor, hmin⟩ := nearest_core b0 b1 b2 b3 b4 b5 none
  have hp : ∀ l, Permitted none l := by intro l m hm; cases hm
  have hmin' := fun h e hv hd => hmin (fun l _ _ => hp l) h e hv (hp _) hd
  rcases hor with ⟨rfl, rfl⟩ | ⟨len, hl, hc, _, hd⟩
  · -- impossible: some valid header is at distance at most 16 plus the marker distance
    exfalso
    have hv : isValidHeader [254, 9, b2, b3, b4, 0] = true := by
      rw [isValidHeader_six]; exact ⟨rfl, by decide +kernel⟩
    have := hmin' _ _ hv (six_dist _ _ _ _ _ _ _ _ _ _ _ _)
    simp only [popcount_self] at this
    have h1 := popcount_le 8 (BitVec.toNat (9 : Byte) ^^^ b1.toNat)
    have h5 := popcount_le 8 (BitVec.toNat (0 : Byte) ^^^ b5.toNat)
    have h254 : BitVec.toNat (254 : Byte) = 254 := rfl
    rw [h254] at this
    omega
  · refine ⟨d, c.toNat, ?_, ⟨_, ?_, ?_, hd⟩, hmin'⟩
    · rw [hr, Int.toNat_of_nonneg hc]
    · have hbd := payloadLen_lt hl
      rw [isValidHeader_six]
      refine ⟨rfl, ?_⟩
      simp only [BitVec.toNat_ofNat]
      rw [Nat.mod_eq_of_lt (by simpa using hbd.1), Nat.mod_eq_of_lt (by simpa using hbd.2)]
      exact hl
    · have hbd := payloadLen_lt hl
      simp only [List.getD_cons_zero, List.getD_cons_succ, BitVec.toNat_ofNat]
      exact Nat.mod_eq_of_lt (by simpa using hbd.1)

example : hammingDistance2ValidHeader [254, 8, 0, 1, 1, 0] = .ok (1, 0) := by decide +kernel

/-- C06: distance zero means the input is a valid header. -/
theorem c06_zero_iff_valid (b : List Byte) (hb : b.length = 6) :
    (∃ c, hammingDistance2ValidHeader b = .ok (0, c)) ↔ isValidHeader b = true := by
  obtain ⟨d, c, hr, ⟨h, hv, _, hd⟩, hmin⟩ := c06_nearest b hb
  constructor
  · rintro ⟨c', hc'⟩
    rw [hr] at hc'
    have : d = 0 := congrArg Prod.fst (Except.ok.inj hc')
    rw [this, c01_zero_iff_eq_bytes] at hd
    rw [← hd]; exact hv
  · intro hb'
    have := hmin b 0 hb' ((c01_zero_iff_eq_bytes _ _ _).2 rfl)
    have : d = 0 := by omega
    exact ⟨_, by rw [hr, this]⟩

/-- C06: any other length raises HeaderLength, with or without limit. -/
theorem c06_wrong_length (b : List Byte) (maxLen : Option Int) (hb : b.length ≠ 6) :
    Raises (hammingDistance2ValidHeader b maxLen) .headerLength := by
  unfold Raises hammingDistance2ValidHeader
  rw [if_pos (by simp [headerLen, hb])]

/-- C07, when no exactly matching message is excluded by the limit (the other case is `c07_limited_excluded`): with a
limit, the result is a nearest valid header among those within the limit, and `-1` is reported exactly when none is within
the limit. -/
theorem c07_limited_nearest (b : List Byte) (hb : b.length = 6) (limit : Int)
    (hne : isValidHeader (254 :: b.tail) = true → ((b.getD 1 0).toNat : Int) ≤ limit) :
    ∃ (d : Nat) (c : Int), hammingDistance2ValidHeader b (some limit) = .ok (d, c) ∧
      (∀ h e, isValidHeader h = true → ((h.getD 1 0).toNat : Int) ≤ limit →
        hammingDistance (.bytes h) (.bytes b) = .ok e → d ≤ e) ∧
      (c ≠ -1 → ∃ h, isValidHeader h = true ∧ ((h.getD 1 0).toNat : Int) ≤ limit ∧
        ((h.getD 5 0).toNat : Int) = c ∧ hammingDistance (.bytes h) (.bytes b) = .ok d) ∧
      (c = -1 ↔ ∀ h, isValidHeader h = true → ¬ ((h.getD 1 0).toNat : Int) ≤ limit) := by
  obtain ⟨b0, b1, b2, b3, b4, b5, rfl⟩ := six_bytes hb
  obtain ⟨d, c, hr, hor, hmin⟩ := nearest_core b0 b1 b2 b3 b4 b5 (some limit)
  have hp : ∀ l : Nat, Permitted (some limit) l ↔ (l : Int) ≤ limit := by
    intro l; constructor
    · intro h; exact h _ rfl
    · intro h m hm; cases hm; exact h
  have hz : ∀ len, payloadLen b5.toNat = some len → len = b1.toNat → Permitted (some limit) len := by
    rintro len hl rfl
    rw [hp]
    exact hne ((isValidHeader_six _ _ _ _ _ _).2 ⟨rfl, hl⟩)
  have hmin' := fun h e hv hl hd => hmin hz h e hv ((hp _).2 hl) hd
  refine ⟨d, c, hr, hmin', ?_, ?_⟩
  · intro hc
    rcases hor with ⟨rfl, _⟩ | ⟨len, hl, hc0, hpl, hd⟩
    · exact absurd rfl hc
    · have hbd := payloadLen_lt hl
      refine ⟨_, ?_, ?_, ?_, hd⟩
      · rw [isValidHeader_six]
        refine ⟨rfl, ?_⟩
        simp only [BitVec.toNat_ofNat]
        rw [Nat.mod_eq_of_lt (by simpa using hbd.1), Nat.mod_eq_of_lt (by simpa using hbd.2)]
        exact hl
      · simp only [List.getD_cons_zero, List.getD_cons_succ, BitVec.toNat_ofNat]
        rw [Nat.mod_eq_of_lt (by simpa using hbd.2)]
        exact (hp _).1 hpl
      · simp only [List.getD_cons_zero, List.getD_cons_succ, BitVec.toNat_ofNat]
        rw [Nat.mod_eq_of_lt (by simpa using hbd.1)]
        omega
  · constructor
    · intro hc h hv hl
      obtain ⟨h0, h1, h2, h3, h4, h5, rfl⟩ := six_bytes (isValidHeader_length hv)
      rcases hor with ⟨_, hd⟩ | ⟨len, _, hc0, _, _⟩
      · obtain ⟨hv0, hv1⟩ := (isValidHeader_six _ _ _ _ _ _).1 hv
        have hv' : isValidHeader [254, h1, b2, b3, b4, h5] = true :=
          (isValidHeader_six _ _ _ _ _ _).2 ⟨rfl, hv1⟩
        have := hmin' _ _ hv' hl (six_dist _ _ _ _ _ _ _ _ _ _ _ _)
        simp only [popcount_self] at this
        have h1 := popcount_le 8 (h1.toNat ^^^ b1.toNat)
        have h5 := popcount_le 8 (h5.toNat ^^^ b5.toNat)
        have h254 : BitVec.toNat (254 : Byte) = 254 := rfl
        rw [h254] at this
        omega
      · omega
    · intro hnone
      rcases hor with ⟨h, _⟩ | ⟨len, hl, hc0, hpl, hd⟩
      · exact h
      · exfalso
        have hbd := payloadLen_lt hl
        refine hnone [254, BitVec.ofNat 8 len, b2, b3, b4, BitVec.ofNat 8 c.toNat] ?_ ?_
        · rw [isValidHeader_six]
          refine ⟨rfl, ?_⟩
          simp only [BitVec.toNat_ofNat]
          rw [Nat.mod_eq_of_lt (by simpa using hbd.1), Nat.mod_eq_of_lt (by simpa using hbd.2)]
          exact hl
        · simp only [List.getD_cons_zero, List.getD_cons_succ, BitVec.toNat_ofNat]
          rw [Nat.mod_eq_of_lt (by simpa using hbd.2)]
          exact (hp _).1 hpl

example : isValidHeader (254 :: [254, 8, 0, 1, 1, 0].tail) = true →
    (([254, 8, 0, 1, 1, 0] : List Byte).getD 1 0).toNat ≤ (6 : Int) := by decide +kernel

/-- C07 is false in general: for this input and limit 1 the code reports distance 17 and "no message" although a
valid header within the limit is at distance 4 (the scan stops at the exact but too long match). -/
theorem c07_limited_nearest_false :
    ∃ (b : List Byte) (limit : Int) (d : Nat) (c : Int) (h : List Byte) (e : Nat),
      b.length = 6 ∧ hammingDistance2ValidHeader b (some limit) = .ok (d, c) ∧
      isValidHeader h = true ∧ ((h.getD 1 0).toNat : Int) ≤ limit ∧
      hammingDistance (.bytes h) (.bytes b) = .ok e ∧ e < d :=
  ⟨[254, 9, 0, 0, 0, 0], 1, 17, -1, [254, 1, 0, 0, 0, 7], 4,
    by decide +kernel, by decide +kernel, by decide +kernel, by decide +kernel, by decide +kernel, by decide⟩

/-- The loop over a list without exact match followed by an exact match that the limit excludes. -/
theorem nearestLoop_stop (b1 b5 : Nat) (h1 : b1 < 256) (h5 : b5 < 256) (maxLen : Option Int) (hx : ¬ Permitted maxLen b1)
    (Q : List (Nat × Nat)) (P : List (Nat × Nat)) (hP : ∀ e ∈ P, e.1 < 256 ∧ e.2 < 256 ∧ entryDist b1 b5 e ≠ 0)
    (minDist : Nat) (chosen : Int) :
    nearestLoop b1 b5 maxLen (P ++ (b5, b1) :: Q) minDist chosen = nearestLoop b1 b5 maxLen P minDist chosen := by
  induction P generalizing minDist chosen with
  | nil =>
    have e1 := c01_int_popcount b1 b1 8 (by omega) (by simpa using h1) (by simpa using h1)
    have e2 := c01_int_popcount b5 b5 8 (by omega) (by simpa using h5) (by simpa using h5)
    have hl : lenAllowed maxLen b1 = false := by
      rw [Bool.eq_false_iff]
      intro h
      apply hx
      cases maxLen <;> simp_all [Permitted, lenAllowed]
    rw [popcount_self] at e1 e2
    simp [nearestLoop, e1, e2, bind, Except.bind, hl]
  | cons e P ih =>
    obtain ⟨id, len⟩ := e
    have hb := hP (id, len) (by simp)
    have e1 := c01_int_popcount len b1 8 (by omega) (by simpa using hb.2.1) (by simpa using h1)
    have e2 := c01_int_popcount id b5 8 (by omega) (by simpa using hb.1) (by simpa using h5)
    have hcand : popcount 8 (len ^^^ b1) + popcount 8 (id ^^^ b5) ≠ 0 := hb.2.2
    simp only [List.cons_append, nearestLoop, e1, e2, bind, Except.bind]
    rw [if_neg hcand, if_neg hcand]
    exact ih (fun e he => hP e (List.mem_cons_of_mem _ he)) _ _

/-- Message `a` comes before message `b` in the dict of message types. -/
def ListedBefore (a b : Nat) : Prop := (mavlinkMap.map fun m => m.id).idxOf a < (mavlinkMap.map fun m => m.id).idxOf b

instance (a b : Nat) : Decidable (ListedBefore a b) := by unfold ListedBefore; infer_instance

/-- The message types before a given one are the part of the table in front of it. -/
theorem listed_split {id len : Nat} (h : payloadLen id = some len) :
    ∃ P Q, msgsPayloadLength = P ++ (id, len) :: Q ∧ (∀ e, e ∈ P ↔ payloadLen e.1 = some e.2 ∧ ListedBefore e.1 id) := by
  have hm := mem_payload_entries.2 h
  obtain ⟨P, Q, hPQ⟩ := List.append_of_mem hm
  refine ⟨P, Q, hPQ, ?_⟩
  have hids : (mavlinkMap.map fun m => m.id) = msgsPayloadLength.map Prod.fst := by
    simp [msgsPayloadLength, Function.comp_def]
  have hnd : (msgsPayloadLength.map Prod.fst).Nodup := by
    rw [← hids]; decide +kernel
  have hsplit : msgsPayloadLength.map Prod.fst = P.map Prod.fst ++ id :: Q.map Prod.fst := by rw [hPQ]; simp
  rw [hsplit] at hnd
  have hid : id ∉ P.map Prod.fst := by
    intro hc
    exact (List.nodup_append.1 hnd).2.2 id hc id (by simp) rfl
  have hidx : (P.map Prod.fst ++ id :: Q.map Prod.fst).idxOf id = P.length := by
    rw [List.idxOf_append, if_neg hid]; simp
  intro e
  unfold ListedBefore
  rw [hids, hsplit, hidx]
  constructor
  · intro he
    refine ⟨mem_payload_entries.1 (by rw [hPQ]; simp [he]), ?_⟩
    have : e.1 ∈ P.map Prod.fst := List.mem_map_of_mem he
    rw [List.idxOf_append, if_pos this]
    have := List.idxOf_lt_length_iff.2 this
    simpa using this
  · rintro ⟨he, hlt⟩
    have he' := mem_payload_entries.2 he
    rw [hPQ] at he'
    rcases List.mem_append.1 he' with h | h
    · exact h
    · exfalso
      have hn : e.1 ∉ P.map Prod.fst := by
        intro hc
        refine (List.nodup_append.1 hnd).2.2 e.1 hc e.1 ?_ rfl
        rcases List.mem_cons.1 h with h | h
        · rw [show e.1 = id from congrArg Prod.fst h]; exact List.mem_cons_self
        · exact List.mem_cons_of_mem _ (List.mem_map_of_mem h)
      rw [List.idxOf_append, if_neg hn] at hlt
      simp at hlt
      omega

/-- C07, when the received length and id match a message exactly but the limit excludes it: the search stops there, so the
result is a nearest valid header within the limit among the message types listed before that one, and `-1` is reported
exactly when there is none. -/
theorem c07_limited_excluded (b : List Byte) (hb : b.length = 6) (limit : Int)
    (hv : isValidHeader (254 :: b.tail) = true) (hlim : limit < ((b.getD 1 0).toNat : Int)) :
    ∃ (d : Nat) (c : Int), hammingDistance2ValidHeader b (some limit) = .ok (d, c) ∧
      (∀ h e, isValidHeader h = true → ((h.getD 1 0).toNat : Int) ≤ limit →
        ListedBefore (h.getD 5 0).toNat (b.getD 5 0).toNat → hammingDistance (.bytes h) (.bytes b) = .ok e → d ≤ e) ∧
      (c ≠ -1 → ∃ h, isValidHeader h = true ∧ ((h.getD 1 0).toNat : Int) ≤ limit ∧
        ListedBefore (h.getD 5 0).toNat (b.getD 5 0).toNat ∧
        ((h.getD 5 0).toNat : Int) = c ∧ hammingDistance (.bytes h) (.bytes b) = .ok d) ∧
      (c = -1 ↔ ∀ h, isValidHeader h = true → ((h.getD 1 0).toNat : Int) ≤ limit →
        ¬ ListedBefore (h.getD 5 0).toNat (b.getD 5 0).toNat) := by
  obtain ⟨b0, b1, b2, b3, b4, b5, rfl⟩ := six_bytes hb
  obtain ⟨_, hpl⟩ := (isValidHeader_six _ _ _ _ _ _).1 hv
  simp only [List.getD_cons_zero, List.getD_cons_succ] at hlim hpl ⊢
  have hp : ∀ l : Nat, Permitted (some limit) l ↔ (l : Int) ≤ limit := by
    intro l; constructor
    · intro h; exact h _ rfl
    · intro h m hm; cases hm; exact h
  have hx : ¬ Permitted (some limit) b1.toNat := by rw [hp]; omega
  obtain ⟨P, Q, hPQ, hbefore⟩ := listed_split hpl
  have hb1 := b1.isLt
  have hb5 := b5.isLt
  have hb0 := b0.isLt
  have hnx : ¬ ListedBefore b5.toNat b5.toNat := by unfold ListedBefore; omega
  have hPb : ∀ e ∈ P, e.1 < 256 ∧ e.2 < 256 := fun e he => payload_entries_lt e (by rw [hPQ]; simp [he])
  have hz : ∀ a b : Nat, a < 256 → b < 256 → popcount 8 (a ^^^ b) = 0 → a = b := by
    intro a b ha hb hz
    have h1 := c01_int_popcount a b 8 (by omega) (by simpa using ha) (by simpa using hb)
    rw [hz] at h1
    have h2 := c01_int_byte_agree (BitVec.ofNat 8 a) (BitVec.ofNat 8 b)
    simp only [BitVec.toNat_ofNat] at h2
    rw [Nat.mod_eq_of_lt (by simpa using ha), Nat.mod_eq_of_lt (by simpa using hb), h1] at h2
    have h3 := (c01_zero_iff_eq_bytes _ _ _).1 h2.symm
    have h4 := congrArg BitVec.toNat (List.cons.inj h3).1
    simp only [BitVec.toNat_ofNat] at h4
    omega
  have hPd : ∀ e ∈ P, e.1 < 256 ∧ e.2 < 256 ∧ entryDist b1.toNat b5.toNat e ≠ 0 := by
    intro e he
    refine ⟨(hPb e he).1, (hPb e he).2, fun h0 => ?_⟩
    have : e.1 = b5.toNat := hz _ _ (hPb e he).1 hb5 (by unfold entryDist at h0; omega)
    have h2 := ((hbefore e).1 he).2
    rw [this] at h2
    exact hnx h2
  obtain ⟨d, c, hr, hle, hor, hmin⟩ := nearestLoop_spec b1.toNat b5.toNat hb1 hb5 (some limit) P hPb 17 (-1)
  have hmin' := hmin (fun e he h0 => absurd h0 (hPd e he).2.2)
  have e0 := c01_int_popcount 254 b0.toNat 8 (by omega) (by omega) (by simpa using hb0)
  have h254 : BitVec.toNat (254 : Byte) = 254 := rfl
  -- a candidate in front of the exact match
  have hcand : ∀ h1 h5 : Byte, payloadLen h5.toNat = some h1.toNat → ((h1.toNat : Nat) : Int) ≤ limit →
      ListedBefore h5.toNat b5.toNat → d ≤ popcount 8 (h1.toNat ^^^ b1.toNat) + popcount 8 (h5.toNat ^^^ b5.toNat) := by
    intro h1 h5 hv hl hbf
    exact hmin' (h5.toNat, h1.toNat) ((hbefore _).2 ⟨hv, hbf⟩) ((hp _).2 hl)
  have hchosen : ∀ id len : Nat, (id, len) ∈ P → Permitted (some limit) len →
      isValidHeader [254, BitVec.ofNat 8 len, b2, b3, b4, BitVec.ofNat 8 id] = true ∧
      (BitVec.ofNat 8 len).toNat = len ∧ (BitVec.ofNat 8 id).toNat = id := by
    intro id len he _
    have hbd := hPb _ he
    simp only at hbd
    have hl : (BitVec.ofNat 8 len).toNat = len := by simp only [BitVec.toNat_ofNat]; omega
    have hi : (BitVec.ofNat 8 id).toNat = id := by simp only [BitVec.toNat_ofNat]; omega
    refine ⟨?_, hl, hi⟩
    rw [isValidHeader_six]
    refine ⟨rfl, ?_⟩
    rw [hl, hi]
    exact ((hbefore _).1 he).1
  refine ⟨popcount 8 (254 ^^^ b0.toNat) + d, c, ?_, ?_, ?_, ?_⟩
  · unfold hammingDistance2ValidHeader
    rw [if_neg (by simp [headerLen])]
    simp only [List.getD_cons_zero, List.getD_cons_succ, stx, bind, Except.bind]
    rw [show ((254 : Nat) : Int) = 254 from rfl] at e0
    erw [e0]
    rw [hPQ, nearestLoop_stop _ _ hb1 hb5 _ hx Q P hPd]
    simp only [hr]
  · intro h e hvh hl hbf hd
    obtain ⟨h0, h1, h2, h3, h4, h5, rfl⟩ := six_bytes (isValidHeader_length hvh)
    obtain ⟨hv0, hv1⟩ := (isValidHeader_six _ _ _ _ _ _).1 hvh
    rw [six_dist] at hd
    have hd' := Except.ok.inj hd
    simp only [List.getD_cons_zero, List.getD_cons_succ] at hl hbf
    have := hcand h1 h5 hv1 hl hbf
    rw [hv0] at hd'
    omega
  · intro hc
    rcases hor with ⟨_, h⟩ | ⟨⟨id, len⟩, he, hpe, hd, rfl⟩
    · exact absurd h hc
    · obtain ⟨hv', hl, hi⟩ := hchosen id len he hpe
      refine ⟨_, hv', ?_, ?_, ?_, ?_⟩
      · simp only [List.getD_cons_zero, List.getD_cons_succ, hl]
        exact (hp _).1 hpe
      · simp only [List.getD_cons_zero, List.getD_cons_succ, hi]
        exact ((hbefore _).1 he).2
      · simp only [List.getD_cons_zero, List.getD_cons_succ, hi]
      · rw [six_dist, hl, hi, ← hd]
        simp only [popcount_self, entryDist, h254, Except.ok.injEq]
        omega
  · constructor
    · intro hc h hvh hl hbf
      obtain ⟨h0, h1, h2, h3, h4, h5, rfl⟩ := six_bytes (isValidHeader_length hvh)
      obtain ⟨_, hv1⟩ := (isValidHeader_six _ _ _ _ _ _).1 hvh
      simp only [List.getD_cons_zero, List.getD_cons_succ] at hl hbf
      rcases hor with ⟨hd, _⟩ | ⟨e, _, _, _, h⟩
      · have := hcand h1 h5 hv1 hl hbf
        have := popcount_le 8 (h1.toNat ^^^ b1.toNat)
        have := popcount_le 8 (h5.toNat ^^^ b5.toNat)
        omega
      · omega
    · intro hnone
      rcases hor with ⟨_, h⟩ | ⟨⟨id, len⟩, he, hpe, _, _⟩
      · exact h
      · exfalso
        obtain ⟨hv', hl, hi⟩ := hchosen id len he hpe
        refine hnone _ hv' ?_ ?_
        · simp only [List.getD_cons_zero, List.getD_cons_succ, hl]
          exact (hp _).1 hpe
        · simp only [List.getD_cons_zero, List.getD_cons_succ, hi]
          exact ((hbefore _).1 he).2

/-- An exact match (id 30, 28 bytes) beyond the limit 12: the nearest permitted message in front of it is chosen. -/
example : ∃ d c, isValidHeader (254 :: ([254, 28, 0, 1, 1, 30] : List Byte).tail) = true ∧
    hammingDistance2ValidHeader [254, 28, 0, 1, 1, 30] (some 12) = .ok (d, c) ∧ c ≠ -1 ∧ ListedBefore c.toNat 30 :=
  ⟨4, 2, by decide +kernel, by decide +kernel, by decide, by decide +kernel⟩

/-- The loop keeps the first of the nearest entries. -/
theorem nearestLoop_first (b1 b5 : Nat) (h1 : b1 < 256) (h5 : b5 < 256) (maxLen : Option Int)
    (L : List (Nat × Nat)) (hL : ∀ e ∈ L, e.1 < 256 ∧ e.2 < 256) (minDist : Nat) (chosen : Int) (d : Nat) (c : Int)
    (hr : nearestLoop b1 b5 maxLen L minDist chosen = .ok (d, c)) :
    (d = minDist ∧ c = chosen) ∨ ∃ P e Q, L = P ++ e :: Q ∧ entryDist b1 b5 e = d ∧ d < minDist ∧ c = (e.1 : Int) ∧
      ∀ e' ∈ P, Permitted maxLen e'.2 → d < entryDist b1 b5 e' := by
  induction L generalizing minDist chosen with
  | nil =>
    simp only [nearestLoop, Except.ok.injEq, Prod.mk.injEq] at hr
    exact Or.inl ⟨hr.1.symm, hr.2.symm⟩
  | cons e L ih =>
    obtain ⟨id, len⟩ := e
    have hb := hL (id, len) (by simp)
    have e1 := c01_int_popcount len b1 8 (by omega) (by simpa using hb.2) (by simpa using h1)
    have e2 := c01_int_popcount id b5 8 (by omega) (by simpa using hb.1) (by simpa using h5)
    have hL' : ∀ e ∈ L, e.1 < 256 ∧ e.2 < 256 := fun e he => hL e (List.mem_cons_of_mem _ he)
    have hperm : lenAllowed maxLen len = true ↔ Permitted maxLen len := by
      cases maxLen <;> simp [Permitted, lenAllowed]
    simp only [nearestLoop, e1, e2, bind, Except.bind] at hr
    have hcand : popcount 8 (len ^^^ b1) + popcount 8 (id ^^^ b5) = entryDist b1 b5 (id, len) := rfl
    rw [hcand] at hr
    by_cases hlt : entryDist b1 b5 (id, len) < minDist ∧ Permitted maxLen len
    · have hc : (decide (entryDist b1 b5 (id, len) < minDist) && lenAllowed maxLen len) = true := by
        rw [Bool.and_eq_true, hperm]; simpa using hlt
      rw [hc] at hr
      simp only [if_true] at hr
      have hhead : d = entryDist b1 b5 (id, len) → c = (id : Int) → ∃ P e Q, (id, len) :: L = P ++ e :: Q ∧
          entryDist b1 b5 e = d ∧ d < minDist ∧ c = (e.1 : Int) ∧
          ∀ e' ∈ P, Permitted maxLen e'.2 → d < entryDist b1 b5 e' := by
        intro h1 h2
        exact ⟨[], (id, len), L, rfl, h1.symm, by omega, h2, by simp⟩
      by_cases h0 : entryDist b1 b5 (id, len) = 0
      · rw [if_pos h0] at hr
        simp only [Except.ok.injEq, Prod.mk.injEq] at hr
        exact Or.inr (hhead hr.1.symm hr.2.symm)
      · rw [if_neg h0] at hr
        rcases ih hL' _ _ hr with ⟨hd, hc⟩ | ⟨P, e, Q, hPQ, hd, hlt', hc, hP⟩
        · exact Or.inr (hhead hd hc)
        · refine Or.inr ⟨(id, len) :: P, e, Q, by rw [hPQ]; rfl, hd, by omega, hc, ?_⟩
          intro e' he' hp
          rcases List.mem_cons.1 he' with rfl | he'
          · exact hlt'
          · exact hP e' he' hp
    · have hc : (decide (entryDist b1 b5 (id, len) < minDist) && lenAllowed maxLen len) = false := by
        rw [Bool.eq_false_iff]
        intro h
        rw [Bool.and_eq_true, hperm] at h
        exact hlt (by simpa using h)
      rw [hc] at hr
      simp only [Bool.false_eq_true, if_false] at hr
      by_cases h0 : entryDist b1 b5 (id, len) = 0
      · rw [if_pos h0] at hr
        simp only [Except.ok.injEq, Prod.mk.injEq] at hr
        exact Or.inl ⟨hr.1.symm, hr.2.symm⟩
      · rw [if_neg h0] at hr
        rcases ih hL' _ _ hr with h | ⟨P, e, Q, hPQ, hd, hlt', hc, hP⟩
        · exact Or.inl h
        · refine Or.inr ⟨(id, len) :: P, e, Q, by rw [hPQ]; rfl, hd, hlt', hc, ?_⟩
          intro e' he' hp
          rcases List.mem_cons.1 he' with rfl | he'
          · have : ¬ entryDist b1 b5 (id, len) < minDist := fun h => hlt ⟨h, hp⟩
            omega
          · exact hP e' he' hp

/-- C06/C07: among equally near headers the message type listed first is reported: every valid header (within the limit, if
there is one) of a type listed before the reported one is strictly farther away. -/
theorem c06_first (b : List Byte) (hb : b.length = 6) (limit : Option Int) (d : Nat) (c : Nat)
    (hr : hammingDistance2ValidHeader b limit = .ok (d, (c : Int))) (h : List Byte) (e : Nat)
    (hv : isValidHeader h = true) (hlim : ∀ l, limit = some l → ((h.getD 1 0).toNat : Int) ≤ l)
    (hbf : ListedBefore (h.getD 5 0).toNat c) (hd : hammingDistance (.bytes h) (.bytes b) = .ok e) : d < e := by
  obtain ⟨b0, b1, b2, b3, b4, b5, rfl⟩ := six_bytes hb
  obtain ⟨h0, h1, h2, h3, h4, h5, rfl⟩ := six_bytes (isValidHeader_length hv)
  obtain ⟨hv0, hv1⟩ := (isValidHeader_six _ _ _ _ _ _).1 hv
  simp only [List.getD_cons_zero, List.getD_cons_succ] at hlim hbf
  have hb1 := b1.isLt
  have hb5 := b5.isLt
  have hb0 := b0.isLt
  have e0 := c01_int_popcount 254 b0.toNat 8 (by omega) (by omega) (by simpa using hb0)
  obtain ⟨d', c', hr', -, -, -⟩ := nearestLoop_spec b1.toNat b5.toNat hb1 hb5 limit msgsPayloadLength
    payload_entries_lt 17 (-1)
  have heq : hammingDistance2ValidHeader [b0, b1, b2, b3, b4, b5] limit = .ok (popcount 8 (254 ^^^ b0.toNat) + d', c') := by
    unfold hammingDistance2ValidHeader
    rw [if_neg (by simp [headerLen])]
    simp only [List.getD_cons_zero, List.getD_cons_succ, stx, bind, Except.bind]
    rw [show ((254 : Nat) : Int) = 254 from rfl] at e0
    erw [e0]
    simp only [hr']
  rw [heq] at hr
  simp only [Except.ok.injEq, Prod.mk.injEq] at hr
  obtain ⟨hd1, hc1⟩ := hr
  rcases nearestLoop_first _ _ hb1 hb5 limit _ payload_entries_lt 17 (-1) d' c' hr' with
    ⟨_, hc⟩ | ⟨P, ⟨id, len⟩, Q, hPQ, hde, _, hc, hP⟩
  · omega
  · have hid : id = c := by simp only at hc; omega
    subst hid
    have hmem : payloadLen id = some len := mem_payload_entries.1 (by rw [hPQ]; simp)
    obtain ⟨P', Q', hPQ', hbefore⟩ := listed_split hmem
    have hin := (hbefore (h5.toNat, h1.toNat)).2 ⟨hv1, hbf⟩
    have hPP : P = P' := by
      have hnd : (msgsPayloadLength.map Prod.fst).Nodup := by
        rw [show msgsPayloadLength.map Prod.fst = mavlinkMap.map fun m => m.id by
          simp [msgsPayloadLength, Function.comp_def]]
        decide +kernel
      have hx := congrArg (fun L => L.takeWhile fun x : Nat × Nat => decide (x.1 ≠ id)) (hPQ.symm.trans hPQ')
      have key : ∀ (A B : List (Nat × Nat)), msgsPayloadLength = A ++ (id, len) :: B →
          (A ++ (id, len) :: B).takeWhile (fun x : Nat × Nat => decide (x.1 ≠ id)) = A := by
        intro A B hAB
        rw [List.takeWhile_append_of_pos]
        · simp
        · intro x hx
          rw [hAB, List.map_append, List.nodup_append] at hnd
          simpa using hnd.2.2 x.1 (List.mem_map_of_mem hx) id (by simp)
      exact (key P Q hPQ).symm.trans (hx.trans (key P' Q' hPQ'))
    have hlt := hP _ (hPP ▸ hin) (by intro m hm; exact hlim m hm)
    rw [six_dist] at hd
    have hd' := Except.ok.inj hd
    rw [hv0] at hd'
    simp only [entryDist] at hlt
    omega

/-- Two message types are equally near here; the one listed first is reported. -/
example : hammingDistance2ValidHeader [254, 28, 0, 1, 1, 30] (some 12) = .ok (4, 2) ∧
    isValidHeader [254, 9, 0, 1, 1, 0] = true ∧ ListedBefore 0 2 := by
  refine ⟨?_, ?_, ?_⟩ <;> decide +kernel

end NR
