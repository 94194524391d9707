import Verif.Lemmas.Bits
/-!
C01, C02: `hamming_distance` (utils/bit_operations.py).
-/
namespace NR
open Spec

/-- C01: on bit strings of equal length the result is the number of differing positions. -/
theorem c01_counts_differences (x y : List Bool) (n : Nat) (h : x.length = y.length) :
    hammingDistance (.bits x) (.bits y) n = .ok (diffCount x y) := by
  simp [hammingDistance, toBits, h, count_xor_eq_diffCount, bind, Except.bind]

example : hammingDistance (.bits [true, false, true]) (.bits [false, false, false]) = .ok 2 := by decide

/-- What a successful call computes, for any operand kinds: the number of differing positions of the two bit
expansions, which then have equal length. -/
theorem hammingDistance_ok_iff (a b : HamArg) (n d : Nat) :
    hammingDistance a b n = .ok d ↔
      ∃ x y, toBits n a = .ok x ∧ toBits n b = .ok y ∧ x.length = y.length ∧ d = diffCount x y := by
  have key : ∀ a b : HamArg, (a ≠ .other) →
      (hammingDistance a b n = .ok d ↔
      ∃ x y, toBits n a = .ok x ∧ toBits n b = .ok y ∧ x.length = y.length ∧ d = diffCount x y) := by
    intro a b hne
    have e : hammingDistance a b n = (do
        let x ← toBits n a
        let y ← toBits n b
        if x.length = y.length then .ok ((List.zipWith xor x y).count true) else .error .valueError) := by
      unfold hammingDistance
      cases a <;> first | rfl | exact absurd rfl hne
    rw [e]
    cases hx : toBits n a with
    | error e => simp [bind, Except.bind]
    | ok x =>
      cases hy : toBits n b with
      | error e => simp [bind, Except.bind]
      | ok y =>
        by_cases hl : x.length = y.length
        · simp [bind, Except.bind, hl, count_xor_eq_diffCount x y hl, eq_comm]
        · simp [bind, Except.bind, hl]
  by_cases ha : a = .other
  · subst ha
    cases b with
    | int i =>
      simp only [hammingDistance, toBits, bind, Except.bind]
      split <;> simp_all
    | _ => simp [hammingDistance, toBits, bind, Except.bind]
  · exact key a b ha

/-- C01: symmetry, for operands of any kind. -/
theorem c01_symmetric (a b : HamArg) (n d : Nat) :
    hammingDistance a b n = .ok d ↔ hammingDistance b a n = .ok d := by
  rw [hammingDistance_ok_iff, hammingDistance_ok_iff]
  constructor <;> rintro ⟨x, y, hx, hy, hl, hd⟩ <;>
    exact ⟨y, x, hy, hx, hl.symm, by rw [diffCount_comm]; exact hd⟩

example : hammingDistance (.int 5) (.bytes [7]) = .ok 1 := by decide

/-- C01: distance zero means equality, for bit strings. -/
theorem c01_zero_iff_eq (x y : List Bool) (n : Nat) :
    hammingDistance (.bits x) (.bits y) n = .ok 0 ↔ x = y := by
  rw [hammingDistance_ok_iff]
  constructor
  · rintro ⟨x', y', hx, hy, _, hd⟩
    simp only [toBits, Except.ok.injEq] at hx hy
    subst hx; subst hy
    exact (diffCount_eq_zero _ _).1 hd.symm
  · rintro rfl
    exact ⟨x, x, rfl, rfl, rfl, ((diffCount_eq_zero _ _).2 rfl).symm⟩

/-- C01: distance zero means equality, for byte strings. -/
theorem c01_zero_iff_eq_bytes (x y : List Byte) (n : Nat) :
    hammingDistance (.bytes x) (.bytes y) n = .ok 0 ↔ x = y := by
  rw [hammingDistance_ok_iff]
  constructor
  · rintro ⟨x', y', hx, hy, _, hd⟩
    simp only [toBits, Except.ok.injEq] at hx hy
    subst hx; subst hy
    exact bytesBits_inj ((diffCount_eq_zero _ _).1 hd.symm)
  · rintro rfl
    exact ⟨_, _, rfl, rfl, rfl, ((diffCount_eq_zero _ _).2 rfl).symm⟩

/-- C01: triangle inequality, for operands of any kind. -/
theorem c01_triangle (a b c : HamArg) (n dab dbc : Nat)
    (hab : hammingDistance a b n = .ok dab) (hbc : hammingDistance b c n = .ok dbc) :
    ∃ dac, hammingDistance a c n = .ok dac ∧ dac ≤ dab + dbc := by
  rw [hammingDistance_ok_iff] at hab hbc
  obtain ⟨x, y, hx, hy, hl, rfl⟩ := hab
  obtain ⟨y', z, hy', hz, hl', rfl⟩ := hbc
  obtain rfl : y = y' := by rw [hy] at hy'; exact Except.ok.inj hy'
  exact ⟨diffCount x z, (hammingDistance_ok_iff _ _ _ _).2 ⟨x, z, hx, hz, hl.trans hl', rfl⟩,
    diffCount_triangle x y z hl hl'⟩

example : hammingDistance (.int 1) (.int 2) = .ok 2 ∧ hammingDistance (.int 2) (.bytes [6]) = .ok 1 := by decide

/-- C01: the distance of bit strings never exceeds their length. -/
theorem c01_le_length (x y : List Bool) (n d : Nat) (h : hammingDistance (.bits x) (.bits y) n = .ok d) :
    d ≤ x.length := by
  rw [hammingDistance_ok_iff] at h
  obtain ⟨x', y', hx, hy, hl, rfl⟩ := h
  simp only [toBits, Except.ok.injEq] at hx hy
  subst hx; subst hy
  exact diffCount_le _ _ hl

/-- C01: for byte strings of equal length the distance is the total number of one bits in the bytewise XORs. -/
theorem c01_bytes_popcount (x y : List Byte) (n : Nat) (h : x.length = y.length) :
    hammingDistance (.bytes x) (.bytes y) n
      = .ok ((List.zipWith (fun a b => popcount 8 (a.toNat ^^^ b.toNat)) x y).sum) := by
  rw [hammingDistance_ok_iff]
  refine ⟨_, _, rfl, rfl, by simp [bytesBits_length, h], ?_⟩
  induction x generalizing y with
  | nil => cases y with
    | nil => simp [bytesBits, diffCount_nil]
    | cons _ _ => simp at h
  | cons a x ih => cases y with
    | nil => simp at h
    | cons b y =>
      rw [bytesBits_cons, bytesBits_cons, diffCount_append _ _ _ _ (by simp [byteBits_length]),
        List.zipWith_cons_cons, List.sum_cons, ih y (by simpa using h),
        byteBits_eq_uintBits, byteBits_eq_uintBits, diffCount_uintBits]

example : hammingDistance (.bytes [0xF0, 1]) (.bytes [0, 3]) = .ok 5 := by decide

/-- C01: integers below `2^len` are compared through the one bits of their XOR. -/
theorem c01_int_popcount (a b len : Nat) (hl : 0 < len) (ha : a < 2 ^ len) (hb : b < 2 ^ len) :
    hammingDistance (.int a) (.int b) len = .ok (popcount len (a ^^^ b)) := by
  rw [hammingDistance_ok_iff]
  have ha' : ((a : Int) < 2 ^ len) := by exact_mod_cast ha
  have hb' : ((b : Int) < 2 ^ len) := by exact_mod_cast hb
  refine ⟨uintBits len a, uintBits len b, ?_, ?_, by simp [uintBits_length], (diffCount_uintBits _ _ _).symm⟩
  · simp [toBits, hl, ha']
  · simp [toBits, hl, hb']

/-- C01: an integer byte and the one-byte string holding it are interchangeable. -/
theorem c01_int_byte_agree (a b : Byte) :
    hammingDistance (.int a.toNat) (.int b.toNat) = hammingDistance (.bytes [a]) (.bytes [b]) := by
  rw [c01_int_popcount _ _ _ (by omega) (by simpa using a.isLt) (by simpa using b.isLt),
    c01_bytes_popcount [a] [b] _ rfl]
  simp

/-- C01: the distance of concatenations is the sum of the distances. -/
theorem c01_append (x y u v : List Byte) (n d e : Nat)
    (h1 : hammingDistance (.bytes x) (.bytes y) n = .ok d)
    (h2 : hammingDistance (.bytes u) (.bytes v) n = .ok e) :
    hammingDistance (.bytes (x ++ u)) (.bytes (y ++ v)) n = .ok (d + e) := by
  rw [hammingDistance_ok_iff] at *
  obtain ⟨x', y', hx, hy, hl, rfl⟩ := h1
  obtain ⟨u', v', hu, hv, hl', rfl⟩ := h2
  simp only [toBits, Except.ok.injEq] at hx hy hu hv
  subst hx; subst hy; subst hu; subst hv
  refine ⟨_, _, rfl, rfl, ?_, ?_⟩
  · rw [bytesBits_append, bytesBits_append, List.length_append, List.length_append, hl, hl']
  · rw [bytesBits_append, bytesBits_append, diffCount_append _ _ _ _ hl]

/-- C01: arrays of numbers are compared by which entries are non-zero. -/
theorem c01_arrays (x y : List Int) (n : Nat) (h : x.length = y.length) :
    hammingDistance (.array x) (.array y) n
      = .ok ((List.range x.length).filter fun i => decide (¬ (x.getD i 0 = 0 ↔ y.getD i 0 = 0))).length := by
  rw [hammingDistance_ok_iff]
  refine ⟨_, _, rfl, rfl, by simpa using h, ?_⟩
  unfold diffCount
  rw [List.length_map, List.length_map, ← h, Nat.max_self]
  congr 1
  apply List.filter_congr
  intro i hi
  rw [List.mem_range] at hi
  rw [List.getElem?_map, List.getElem?_map, List.getElem?_eq_getElem hi,
    List.getElem?_eq_getElem (show i < y.length by omega), List.getD_eq_getElem?_getD, List.getD_eq_getElem?_getD,
    List.getElem?_eq_getElem hi, List.getElem?_eq_getElem (show i < y.length by omega), Option.getD_some, Option.getD_some]
  by_cases h1 : x[i] = 0 <;> by_cases h2 : y[i]'(by omega) = 0 <;> simp [h1, h2, bne, beq_eq_false_iff_ne.2]

example : hammingDistance (.array [0, 2, 1, -1]) (.array [1, 0, 5, -1]) = .ok 2 := by decide

/-- C01: a bit string may be given as such or as an array of zeros and ones, and a byte string as its bits, most significant
first in each byte: the result against any other operand is the same. -/
theorem c01_representations (b : List Bool) (bs : List Byte) (y : HamArg) (n : Nat) :
    hammingDistance (.array (b.map fun x => if x then 1 else 0)) y n = hammingDistance (.bits b) y n ∧
    hammingDistance y (.array (b.map fun x => if x then 1 else 0)) n = hammingDistance y (.bits b) n ∧
    hammingDistance (.bytes bs) y n = hammingDistance (.bits (bs.flatMap fun v =>
      (List.range 8).map fun i => v.getLsbD (7 - i))) y n ∧
    hammingDistance y (.bytes bs) n = hammingDistance y (.bits (bs.flatMap fun v =>
      (List.range 8).map fun i => v.getLsbD (7 - i))) n := by
  have h1 : toBits n (.array (b.map fun x => if x then 1 else 0)) = toBits n (.bits b) := by
    simp only [toBits, List.map_map]
    congr 1
    induction b with
    | nil => rfl
    | cons x b ih => cases x <;> simp [ih]
  have h2 : toBits n (.bytes bs) = toBits n (.bits (bs.flatMap fun v =>
      (List.range 8).map fun i => v.getLsbD (7 - i))) := by
    simp only [toBits, bytesBits]
    rfl
  refine ⟨?_, ?_, ?_, ?_⟩
  · simp only [hammingDistance, h1]
  · cases y <;> simp only [hammingDistance, h1] <;> rfl
  · simp only [hammingDistance, h2]
  · cases y <;> simp only [hammingDistance, h2] <;> rfl

example : hammingDistance (.array [1, 0, 0, 0, 0, 0, 0, 1]) (.bytes [0x80]) = .ok 1 := by decide

/-- C02: operands whose bit expansions have different lengths raise ValueError. -/
theorem c02_length_mismatch (x y : List Bool) (n : Nat) (h : x.length ≠ y.length) :
    Raises (hammingDistance (.bits x) (.bits y) n) .valueError := by
  simp [Raises, hammingDistance, toBits, h, bind, Except.bind]

theorem c02_length_mismatch_bytes (x y : List Byte) (n : Nat) (h : x.length ≠ y.length) :
    Raises (hammingDistance (.bytes x) (.bytes y) n) .valueError := by
  simp [Raises, hammingDistance, toBits, bytesBits_length, bind, Except.bind]
  omega

/-- C02: an integer that does not fit in `uint_len` bits raises CreationError on either side, whatever the other operand is
(also when that one is of an unsupported type). -/
theorem c02_int_out_of_range (i : Int) (b : HamArg) (n : Nat) (h : i < 0 ∨ 2 ^ n ≤ i) :
    Raises (hammingDistance (.int i) b n) .creationError ∧
    Raises (hammingDistance b (.int i) n) .creationError := by
  have hb : toBits n (.int i) = .error .creationError := by
    simp only [toBits]; rw [if_neg]; omega
  constructor
  · simp [Raises, hammingDistance, hb, bind, Except.bind]
  · cases b with
    | int j =>
      by_cases hj : 0 < n ∧ 0 ≤ j ∧ j < 2 ^ n
      · have e : toBits n (.int j) = .ok (uintBits n j.toNat) := by simp only [toBits]; rw [if_pos hj]
        simp [Raises, hammingDistance, hb, e, bind, Except.bind]
      · have e : toBits n (.int j) = .error .creationError := by simp only [toBits]; rw [if_neg hj]
        simp [Raises, hammingDistance, e, bind, Except.bind]
    | other => simp [Raises, hammingDistance, hb, bind, Except.bind]
    | _ =>
      simp only [Raises, hammingDistance, hb, bind, Except.bind]
      rfl

example : Raises (hammingDistance .other (.int 256)) .creationError := by decide

example : Raises (hammingDistance (.int 256) (.bytes [0])) .creationError := by decide

/-- C02: an operand of an unsupported type raises TypeError when the other operand is itself convertible. -/
theorem c02_unsupported (b : HamArg) (n : Nat) (x : List Bool) (hb : toBits n b = .ok x) :
    Raises (hammingDistance .other b n) .typeError ∧ Raises (hammingDistance b .other n) .typeError := by
  constructor
  · unfold Raises hammingDistance
    cases b <;> simp_all [toBits, bind, Except.bind]
  · have : b ≠ .other := by rintro rfl; simp [toBits] at hb
    have e : hammingDistance b .other n = (do
        let x ← toBits n b
        let y ← toBits n .other
        if x.length = y.length then .ok ((List.zipWith xor x y).count true) else .error .valueError) := by
      unfold hammingDistance
      cases b <;> first | rfl | exact absurd rfl this
    rw [Raises, e, hb]; rfl

/-- C02: the calls that return are exactly those with convertible operands of equal bit length. -/
theorem c02_returns_iff (a b : HamArg) (n : Nat) :
    Returns (hammingDistance a b n) ↔
      ∃ x y, toBits n a = .ok x ∧ toBits n b = .ok y ∧ x.length = y.length := by
  constructor
  · rintro ⟨d, hd⟩
    obtain ⟨x, y, hx, hy, hl, _⟩ := (hammingDistance_ok_iff _ _ _ _).1 hd
    exact ⟨x, y, hx, hy, hl⟩
  · rintro ⟨x, y, hx, hy, hl⟩
    exact ⟨_, (hammingDistance_ok_iff _ _ _ _).2 ⟨x, y, hx, hy, hl, rfl⟩⟩

/-- C02: which operands are convertible, and to how many bits. -/
theorem c02_convertible (n : Nat) (a : HamArg) :
    (∃ x, toBits n a = .ok x ∧ x.length = (match a with
      | .bits b => b.length | .bytes b => 8 * b.length | .int _ => n | .array l => l.length | .other => 0))
    ↔ (match a with
      | .int i => 0 < n ∧ 0 ≤ i ∧ i < 2 ^ n
      | .other => False
      | _ => True) := by
  cases a with
  | bits b => simp [toBits]
  | bytes b => simp [toBits, bytesBits_length]
  | int i =>
    simp only [toBits]
    by_cases h : 0 < n ∧ 0 ≤ i ∧ i < 2 ^ n
    · simp [h, uintBits_length]
    · simp [h]
  | array l => simp [toBits]
  | other => simp [toBits]

end NR
