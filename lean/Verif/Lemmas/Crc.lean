import Verif.Spec.Crc
import Verif.Model.Crc
/-
The byte-wise checksum equals the bit-wise register; linearity, injectivity, bursts.
-/
namespace NR
open Spec

theorem crcShift_xor (x y : BitVec 16) : crcShift (x ^^^ y) = crcShift x ^^^ crcShift y := by
  unfold crcShift
  rw [BitVec.getLsbD_xor, BitVec.ushiftRight_xor_distrib]
  cases x.getLsbD 0 <;> cases y.getLsbD 0 <;>
    simp only [Bool.xor_false, Bool.xor_true, Bool.not_false, Bool.not_true, if_true, if_false, Bool.false_eq_true,
      Bool.xor_self]
  · ac_rfl
  · ac_rfl
  · have h : ∀ a b c : BitVec 16, a ^^^ b = a ^^^ c ^^^ (b ^^^ c) := by
      intro a b c
      rw [show a ^^^ c ^^^ (b ^^^ c) = a ^^^ b ^^^ (c ^^^ c) by ac_rfl]
      simp
    exact h _ _ _

theorem crcShift_zero : crcShift 0 = 0 := by decide

theorem crcShift_eq_zero {x : BitVec 16} (h : crcShift x = 0) : x = 0 := by
  unfold crcShift at h
  split at h
  · exfalso
    have := congrArg (fun v : BitVec 16 => v.getLsbD 15) h
    simp at this
  · rename_i h0
    apply BitVec.eq_of_getLsbD_eq
    intro i hi
    cases i with
    | zero => simpa using h0
    | succ i =>
      have := congrArg (fun v : BitVec 16 => v.getLsbD i) h
      simp only [BitVec.getLsbD_ushiftRight] at this
      rw [Nat.add_comm] at this
      simpa using this

theorem crcShift_inj {x y : BitVec 16} (h : crcShift x = crcShift y) : x = y := by
  have : crcShift (x ^^^ y) = 0 := by rw [crcShift_xor, h]; simp
  have := crcShift_eq_zero this
  exact BitVec.xor_eq_zero_iff.1 this

theorem crcBit_inj {x y : BitVec 16} {b : Bool} (h : crcBit x b = crcBit y b) : x = y := by
  have := crcShift_inj h
  exact BitVec.xor_left_inj _ |>.1 this

theorem crcFold_inj {x y : BitVec 16} {bits : List Bool} (h : bits.foldl crcBit x = bits.foldl crcBit y) :
    x = y := by
  induction bits generalizing x y with
  | nil => exact h
  | cons b bs ih => exact crcBit_inj (ih h)

/-- `k` shifts. -/
def crcShifts : Nat → BitVec 16 → BitVec 16
  | 0, r => r
  | k + 1, r => crcShifts k (crcShift r)

theorem crcShifts_xor (k : Nat) (x y : BitVec 16) : crcShifts k (x ^^^ y) = crcShifts k x ^^^ crcShifts k y := by
  induction k generalizing x y with
  | zero => rfl
  | succ k ih => simp only [crcShifts, crcShift_xor, ih]

theorem crcShifts_inj {k : Nat} {x y : BitVec 16} (h : crcShifts k x = crcShifts k y) : x = y := by
  induction k generalizing x y with
  | zero => exact h
  | succ k ih => exact crcShift_inj (ih h)

/-- Bits as a register value, first bit in the least significant place. -/
def ofBits : List Bool → BitVec 16
  | [] => 0
  | b :: bs => (if b then (1 : BitVec 16) else 0) ^^^ (ofBits bs <<< 1)

theorem ofBits_getLsbD (bs : List Bool) (i : Nat) (hi : i < 16) : (ofBits bs).getLsbD i = bs.getD i false := by
  induction bs generalizing i with
  | nil => simp [ofBits]
  | cons b bs ih =>
    cases i with
    | zero => cases b <;> simp [ofBits]
    | succ i =>
      have := ih i (by omega)
      cases b <;> simp_all [ofBits, BitVec.getLsbD_one] <;> omega

theorem crcShift_ofBits (bs : List Bool) (h : bs.length ≤ 15) : crcShift (ofBits bs <<< 1) = ofBits bs := by
  unfold crcShift
  rw [if_neg (by simp)]
  apply BitVec.eq_of_getLsbD_eq
  intro i hi
  simp only [BitVec.getLsbD_ushiftRight, BitVec.getLsbD_shiftLeft]
  by_cases h15 : i = 15
  · subst h15
    have := ofBits_getLsbD bs 15 (by omega)
    rw [this]
    have : bs.getD 15 false = false := by
      rw [List.getD, List.getElem?_eq_none (by omega)]; rfl
    rw [this]; simp
  · simp only [show 1 + i < 16 by omega, decide_true, Bool.true_and]
    simp

theorem crcFold_short (bs : List Bool) (h : bs.length ≤ 16) (r : BitVec 16) :
    bs.foldl crcBit r = crcShifts bs.length (r ^^^ ofBits bs) := by
  induction bs generalizing r with
  | nil => simp [crcShifts, ofBits]
  | cons b bs ih =>
    simp only [List.length_cons] at h
    rw [List.foldl_cons, ih (by omega)]
    simp only [List.length_cons, crcShifts, crcBit, ofBits]
    rw [← BitVec.xor_assoc, crcShift_xor (r ^^^ _), crcShift_ofBits bs (by omega)]

theorem ofBits_inj {a b : List Bool} (hl : a.length = b.length) (h16 : a.length ≤ 16) (h : ofBits a = ofBits b) :
    a = b := by
  apply List.ext_getElem hl
  intro i h1 h2
  have ha := ofBits_getLsbD a i (by omega)
  have hb := ofBits_getLsbD b i (by omega)
  rw [h, hb] at ha
  simpa [List.getD, List.getElem?_eq_getElem h1, List.getElem?_eq_getElem h2] using ha.symm

/-- A burst of at most 16 bits changes the register, whatever precedes and follows. -/
theorem crc_burst {a b : List Bool} (h : BurstApart 16 a b) (hne : a ≠ b) (r : BitVec 16) :
    a.foldl crcBit r ≠ b.foldl crcBit r := by
  obtain ⟨pre, x, y, post, rfl, rfl, hl, h16⟩ := h
  intro he
  simp only [List.foldl_append] at he
  have he := crcFold_inj he
  rw [crcFold_short x h16, crcFold_short y (by omega), hl] at he
  have he := crcShifts_inj he
  have he : ofBits x = ofBits y := BitVec.xor_right_inj _ |>.1 he
  exact hne (by rw [ofBits_inj hl h16 he])

/-- The byte table: contribution of the byte index. -/
def crcT (t : BitVec 8) : BitVec 16 :=
  let u : BitVec 8 := t ^^^ (t <<< 4)
  let w : BitVec 16 := u.setWidth 16
  (w <<< 8) ^^^ (w <<< 3) ^^^ (w >>> 4)

theorem crcT_xor (x y : BitVec 8) : crcT (x ^^^ y) = crcT x ^^^ crcT y := by
  simp only [crcT, BitVec.shiftLeft_xor_distrib, BitVec.setWidth_xor, BitVec.ushiftRight_xor_distrib]
  ac_rfl

theorem crcStep_eq (r : BitVec 16) (b : Byte) : crcStep r b = (r >>> 8) ^^^ crcT (r.setWidth 8) ^^^ crcT b := by
  have h : crcStep r b = (r >>> 8) ^^^ crcT (b ^^^ r.setWidth 8) := by
    simp only [crcStep, crcT]; ac_rfl
  rw [h, crcT_xor]
  ac_rfl

theorem table_T : ∀ b : BitVec 8, (lsbBits b).foldl crcBit 0 = crcT b := by decide +kernel
theorem table_lo : ∀ b : BitVec 8, crcShifts 8 (b.setWidth 16) = crcT b := by decide +kernel
theorem table_hi : ∀ b : BitVec 8, crcShifts 8 (b.setWidth 16 <<< 8) = b.setWidth 16 := by decide +kernel

theorem crcFold_linear (bits : List Bool) (r : BitVec 16) :
    bits.foldl crcBit r = crcShifts bits.length r ^^^ bits.foldl crcBit 0 := by
  induction bits generalizing r with
  | nil => simp [crcShifts]
  | cons b bs ih =>
    rw [List.foldl_cons, ih, List.foldl_cons, ih (crcBit 0 b)]
    simp only [List.length_cons, crcShifts, crcBit]
    have e : ∀ c : BitVec 16, crcShift (r ^^^ c) = crcShift r ^^^ crcShift (0 ^^^ c) := by
      intro c; rw [show (0 : BitVec 16) ^^^ c = c from BitVec.zero_xor, crcShift_xor]
    rw [e, crcShifts_xor]
    ac_rfl

theorem split16 (r : BitVec 16) : r = ((r >>> 8).setWidth 8).setWidth 16 <<< 8 ^^^ (r.setWidth 8).setWidth 16 := by
  apply BitVec.eq_of_getLsbD_eq
  intro i hi
  simp only [BitVec.getLsbD_xor, BitVec.getLsbD_shiftLeft, BitVec.getLsbD_setWidth, BitVec.getLsbD_ushiftRight]
  by_cases h : i < 8
  · simp [h, hi]
  · have : 8 + (i - 8) = i := by omega
    simp [h, hi, this, show i - 8 < 8 by omega, show i - 8 < 16 by omega]

theorem shift8 (r : BitVec 16) : ((r >>> 8).setWidth 8).setWidth 16 = r >>> 8 := by
  apply BitVec.eq_of_getLsbD_eq
  intro i hi
  simp only [BitVec.getLsbD_setWidth, BitVec.getLsbD_ushiftRight]
  by_cases h : i < 8
  · simp [h, hi]
  · have : r.getLsbD (8 + i) = false := BitVec.getLsbD_of_ge _ _ (by omega)
    simp [this]

theorem crcStep_bits (r : BitVec 16) (b : Byte) : crcStep r b = (lsbBits b).foldl crcBit r := by
  rw [crcFold_linear, table_T, crcStep_eq]
  congr 1
  have h8 : (lsbBits b).length = 8 := rfl
  rw [h8]
  conv => rhs; rw [split16 r]
  rw [crcShifts_xor, table_hi, table_lo, shift8]

theorem x25_fold (bs : List Byte) (r : BitVec 16) : bs.foldl crcStep r = (txBits bs).foldl crcBit r := by
  induction bs generalizing r with
  | nil => rfl
  | cons b bs ih =>
    rw [List.foldl_cons, ih, crcStep_bits]
    simp [txBits]

theorem x25_eq_bits (bs : List Byte) : x25 bs = crcOfBits (txBits bs) := x25_fold bs _

theorem txBits_append (a b : List Byte) : txBits (a ++ b) = txBits a ++ txBits b := by simp [txBits]

theorem lsbBits_inj {a b : Byte} (h : lsbBits a = lsbBits b) : a = b := by
  apply BitVec.eq_of_getLsbD_eq
  intro i hi
  simp only [lsbBits, List.cons.injEq] at h
  match i, hi with
  | 0, _ => exact h.1
  | 1, _ => exact h.2.1
  | 2, _ => exact h.2.2.1
  | 3, _ => exact h.2.2.2.1
  | 4, _ => exact h.2.2.2.2.1
  | 5, _ => exact h.2.2.2.2.2.1
  | 6, _ => exact h.2.2.2.2.2.2.1
  | 7, _ => exact h.2.2.2.2.2.2.2.1

theorem txBits_length (a : List Byte) : (txBits a).length = 8 * a.length := by
  induction a with
  | nil => rfl
  | cons x a ih =>
    have : txBits (x :: a) = lsbBits x ++ txBits a := by simp [txBits]
    rw [this, List.length_append, ih, List.length_cons]
    have : (lsbBits x).length = 8 := rfl
    omega

theorem txBits_inj {a b : List Byte} (h : txBits a = txBits b) : a = b := by
  induction a generalizing b with
  | nil =>
    have := congrArg List.length h
    rw [txBits_length, txBits_length] at this
    exact (List.eq_nil_of_length_eq_zero (by simp at this; omega)).symm
  | cons x a ih =>
    cases b with
    | nil =>
      have := congrArg List.length h
      rw [txBits_length, txBits_length] at this
      simp at this
    | cons y b =>
      have h' : lsbBits x ++ txBits a = lsbBits y ++ txBits b := by simpa [txBits] using h
      obtain ⟨h1, h2⟩ := List.append_inj h' rfl
      rw [lsbBits_inj h1, ih h2]

end NR
