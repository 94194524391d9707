import Verif.Model.Num2Bits
import Verif.Props.C27_C28
import Verif.Lemmas.Struct
import Verif.Lemmas.Layout
import Mathlib.Tactic.Linarith
import Mathlib.Tactic.Push
import Mathlib.Algebra.Order.Floor.Ring
import Mathlib.Tactic.Ring
import Mathlib.Tactic.NormNum
import Mathlib.Tactic.FieldSimp
/-
C33: num2bits.
-/
namespace NR
open Spec

/-- `i` is a nearest integer to `q`, and the even one if there are two. -/
def NearestEven (q : ℚ) (i : Int) : Prop := |q - i| ≤ 1 / 2 ∧ (|q - i| = 1 / 2 → 2 ∣ i)

theorem nearestEven_unique {q : ℚ} {i j : Int} (hi : NearestEven q i) (hj : NearestEven q j) : i = j := by
  obtain ⟨h1, h2⟩ := hi
  obtain ⟨h3, h4⟩ := hj
  obtain ⟨a1, a2⟩ := abs_le.1 h1
  obtain ⟨b1, b2⟩ := abs_le.1 h3
  have c1 : (i : ℚ) ≤ j + 1 := by linarith
  have c2 : (j : ℚ) ≤ i + 1 := by linarith
  have d1 : i ≤ j + 1 := by exact_mod_cast c1
  have d2 : j ≤ i + 1 := by exact_mod_cast c2
  by_contra hne
  rcases lt_or_gt_of_ne hne with h | h
  · have e : j = i + 1 := by omega
    have hq : q - i = 1 / 2 := by
      subst e; push_cast at b1; linarith
    have hq' : q - j = -(1 / 2) := by subst e; push_cast; linarith
    have e1 := h2 (by rw [hq]; norm_num)
    have e2 := h4 (by rw [hq']; norm_num)
    omega
  · have e : i = j + 1 := by omega
    have hq : q - j = 1 / 2 := by
      subst e; push_cast at a1; linarith
    have hq' : q - i = -(1 / 2) := by subst e; push_cast; linarith
    have e1 := h4 (by rw [hq]; norm_num)
    have e2 := h2 (by rw [hq']; norm_num)
    omega

theorem roundHalfEven_spec (q : ℚ) : NearestEven q (roundHalfEven q) := by
  have h1 := Int.floor_le q
  have h2 := Int.lt_floor_add_one q
  unfold roundHalfEven
  simp only
  split
  · rename_i h
    refine ⟨abs_le.2 ⟨by linarith, by linarith⟩, fun he => ?_⟩
    rw [abs_of_nonneg (by linarith)] at he
    linarith
  · rename_i h
    split
    · rename_i h'
      have hc : ((⌊q⌋ + 1 : Int) : ℚ) = (⌊q⌋ : ℚ) + 1 := by push_cast; rfl
      refine ⟨abs_le.2 ⟨by linarith, by linarith⟩, fun he => ?_⟩
      rw [abs_of_nonpos (by linarith)] at he
      linarith
    · rename_i h'
      have e : q - (⌊q⌋ : ℚ) = 1 / 2 := by linarith
      split
      · rename_i hev
        exact ⟨by rw [e]; norm_num, fun _ => by omega⟩
      · rename_i hev
        refine ⟨?_, fun _ => by omega⟩
        push_cast
        rw [show q - ((⌊q⌋ : ℚ) + 1) = -(1 / 2) by linarith]
        norm_num

theorem roundHalfEven_int (i : Int) : roundHalfEven i = i :=
  nearestEven_unique (roundHalfEven_spec _) ⟨by simp, by simp⟩

variable (toF32 : NumArg → Except PyErr (BitVec 32))

/-- The integer an integer field stores for a number: 0 for a negative number in an unsigned field, otherwise the
nearest integer, ties to even. -/
def Stored (t : CType) (q : ℚ) (i : Int) : Prop := if t.isUInt ∧ q < 0 then i = 0 else NearestEven q i

theorem num2bits_int (t : CType) (ht : t.isUInt ∨ t.isSInt) (q : ℚ) :
    num2bits toF32 (.num q) t.cname =
      (packScalar t (.int (if t.isUInt ∧ q < 0 then 0 else roundHalfEven q))).map bytesBits := by
  have hu : ∀ t : CType, t.isUInt → t.cname ≠ "char" ∧ hasSub "uint" t.cname = true := by
    intro t; cases t <;> decide
  have hs : ∀ t : CType, t.isSInt → t.isUInt = false ∧ t.cname ≠ "char" ∧ hasSub "uint" t.cname = false ∧
      hasSub "int" t.cname = true := by
    intro t; cases t <;> decide
  have hn : typeOfName t.cname = some t := by cases t <;> decide
  unfold num2bits castNum
  rcases ht with h | h
  · obtain ⟨h1, h2⟩ := hu t h
    by_cases hq : 0 ≤ q
    · have : ¬ q < 0 := not_lt.2 hq
      simp only [h1, h2, if_true, if_false, nonNeg, hq, decide_true, pyRound, Except.map, bind, Except.bind, hn, this,
        and_false]
    · have : q < 0 := not_le.1 hq
      simp only [h1, h2, if_true, if_false, nonNeg, hq, decide_false, bind, Except.bind, hn, this, h, and_self]
  · obtain ⟨h0, h1, h2, h3⟩ := hs t h
    simp only [h0, h1, h2, h3, if_true, if_false, pyRound, Except.map, bind, Except.bind, hn, Bool.false_eq_true, false_and]

/-- C33: for an integer field and any finite number, `num2bits` gives the bits of the little-endian bytes of the stored
integer (see `Stored`) when that integer fits the field, and raises `struct.error` otherwise. Unpacking the bytes gives
the stored integer back. -/
theorem c33_number (t : CType) (ht : t.isUInt ∨ t.isSInt) (q : ℚ) :
    ∃ i, Stored t q i ∧ (∀ j, Stored t q j → j = i) ∧
      (FitsScalar t (.int i) → ∃ bs, num2bits toF32 (.num q) t.cname = .ok (bytesBits bs) ∧ bs.length = width t ∧
        unpackScalar t bs = .int i) ∧
      (¬ FitsScalar t (.int i) → num2bits toF32 (.num q) t.cname = .error .structError) := by
  refine ⟨if t.isUInt ∧ q < 0 then 0 else roundHalfEven q, ?_, ?_, ?_, ?_⟩
  · unfold Stored
    split
    · rfl
    · exact roundHalfEven_spec q
  · unfold Stored
    intro j hj
    split at hj
    · rename_i h; rw [if_pos h]; exact hj
    · rename_i h; rw [if_neg h]; exact nearestEven_unique hj (roundHalfEven_spec q)
  · intro hf
    obtain ⟨bs, h1, h2, h3⟩ := packScalar_fits hf
    exact ⟨bs, by rw [num2bits_int toF32 t ht, h1]; rfl, by rw [h2, width_size], h3⟩
  · intro hf
    rw [num2bits_int toF32 t ht]
    generalize (if t.isUInt ∧ q < 0 then 0 else roundHalfEven q) = i at hf ⊢
    cases hp : packScalar t (.int i) with
    | ok bs => exact absurd (packScalar_ok hp) hf
    | error e =>
      have : e = .structError := by
        cases t <;> simp only [packScalar, CType.isUInt, CType.isSInt, if_true, Bool.false_eq_true, if_false] at hp <;>
          (try split at hp) <;> cases hp <;> rfl
      rw [this]; rfl

/-- C33: an integer that fits the field comes out as exactly the bits it is transmitted as. -/
theorem c33_integer (t : CType) (i : Int) (hf : FitsScalar t (.int i)) :
    ∃ bs, packScalar t (.int i) = .ok bs ∧ num2bits toF32 (.num i) t.cname = .ok (bytesBits bs) ∧
      ScalarBytes t bs (.int i) ∧ unpackScalar t bs = .int i := by
  have ht : t.isUInt ∨ t.isSInt := by cases t <;> simp [FitsScalar, CType.isUInt, CType.isSInt] at hf ⊢
  obtain ⟨bs, h1, h2, h3⟩ := packScalar_fits hf
  refine ⟨bs, h1, ?_, ?_, h3⟩
  · rw [num2bits_int toF32 t ht, roundHalfEven_int]
    have : ¬ (t.isUInt ∧ (i : ℚ) < 0) := by
      rintro ⟨hu, hneg⟩
      have hneg : i < 0 := by exact_mod_cast hneg
      cases t <;> simp [FitsScalar, CType.isUInt] at hf hu <;> omega
    rw [if_neg this, h1]; rfl
  · refine ⟨by rw [h2, width_size], ?_⟩
    have hlt := leNat_lt bs
    rw [h2] at hlt
    cases t <;> simp only [FitsScalar] at hf <;>
      simp only [unpackScalar, CType.isSInt, CType.size, Bool.false_eq_true, false_and, if_false, true_and] at h3 hlt <;>
      simp only [width] <;>
      first
        | (injection h3 with h3; omega)
        | (split at h3 <;> (injection h3 with h3; omega))

/-- C33: a float field stores the pattern the conversion to single precision gives, bit for bit. -/
theorem c33_float (x : NumArg) (hx : ∀ s, x ≠ .str s) :
    num2bits toF32 x "float" = (toF32 x).map fun b => bytesBits (leBytes 4 b.toNat) := by
  have h1 : hasSub "uint" "float" = false := by decide
  have h2 : hasSub "int" "float" = false := by decide
  have h3 : typeOfName "float" = some .f32 := by decide
  unfold num2bits castNum
  simp only [show ("float" : String) ≠ "char" by decide, h1, h2, if_false, Bool.false_eq_true, ne_eq, not_true_eq_false,
    bind, Except.bind, h3]
  cases x with
  | str s => exact absurd rfl (hx s)
  | num q => cases toF32 (.num q) <;> rfl
  | inf q => cases toF32 (.inf q) <;> rfl
  | nan => cases toF32 .nan <;> rfl

/-- C33: `char` always raises; so do strings for every type, unknown types, infinities in signed integer fields and
positive infinities in unsigned ones, NaN in signed integer fields. NaN and minus infinity in an unsigned field
silently become 0. -/
theorem c33_raises :
    (∀ x, ¬ Returns (num2bits toF32 x "char")) ∧
    (∀ s ty, ¬ Returns (num2bits toF32 (.str s) ty)) ∧
    (∀ x ty, typeOfName ty = none → ¬ Returns (num2bits toF32 x ty)) ∧
    (∀ t : CType, t.isSInt → num2bits toF32 .nan t.cname = .error .valueError ∧
      ∀ s, num2bits toF32 (.inf s) t.cname = .error .overflowError) ∧
    (∀ t : CType, t.isUInt → num2bits toF32 (.inf false) t.cname = .error .overflowError ∧
      num2bits toF32 .nan t.cname = num2bits toF32 (.num 0) t.cname ∧
      num2bits toF32 (.inf true) t.cname = num2bits toF32 (.num 0) t.cname) := by
  have nr : ∀ e : PyErr, ¬ Returns (Except.error e : Except PyErr (List Bool)) := by rintro e ⟨_, h⟩; cases h
  have hchar : typeOfName "char" = some .char := by decide
  have c1 : ∀ x, ¬ Returns (num2bits toF32 x "char") := by
    intro x
    unfold num2bits castNum
    simp only [if_true, bind, Except.bind, hchar]
    cases x <;> simp only
    case str s =>
      split
      · exact nr _
      · rename_i h
        split at h
        · injection h with h; subst h; exact nr .structError
        · cases h
    all_goals exact nr _
  have c2 : ∀ x ty, typeOfName ty = none → ¬ Returns (num2bits toF32 x ty) := by
    intro x ty h
    unfold num2bits
    simp only [bind, Except.bind, h]
    split <;> exact nr _
  refine ⟨c1, ?_, c2, ?_, ?_⟩
  · intro s ty
    by_cases hc : ty = "char"
    · subst hc; exact c1 _
    · cases ht : typeOfName ty with
      | none => exact c2 _ _ ht
      | some t =>
        unfold num2bits castNum
        simp only [hc, if_false, nonNeg, pyRound, bind, Except.bind, ht, Except.map]
        by_cases hu : hasSub "uint" ty
        · simp only [hu, if_true]; exact nr _
        · by_cases hi : hasSub "int" ty
          · simp only [hu, hi, if_true]; exact nr _
          · by_cases hf : ty ≠ "float"
            · simp only [hu, hi]
              rw [if_neg (by decide), if_neg (by decide), if_pos hf]
              exact nr _
            · simp only [hu, hi, hf]; exact nr _
  · intro t ht
    have : ∀ t : CType, t.isSInt → t.cname ≠ "char" ∧ hasSub "uint" t.cname = false ∧ hasSub "int" t.cname = true := by
      intro t; cases t <;> decide
    obtain ⟨h1, h2, h3⟩ := this t ht
    constructor
    · unfold num2bits castNum
      simp only [h1, h2, h3, if_true, if_false, Bool.false_eq_true, pyRound, Except.map, bind, Except.bind]
    · intro s
      unfold num2bits castNum
      simp only [h1, h2, h3, if_true, if_false, Bool.false_eq_true, pyRound, Except.map, bind, Except.bind]
  · intro t ht
    have : ∀ t : CType, t.isUInt → t.cname ≠ "char" ∧ hasSub "uint" t.cname = true := by
      intro t; cases t <;> decide
    obtain ⟨h1, h2⟩ := this t ht
    have h0 : roundHalfEven 0 = 0 := by simpa using roundHalfEven_int 0
    refine ⟨?_, ?_, ?_⟩ <;> unfold num2bits castNum <;>
      simp [h1, h2, nonNeg, pyRound, Except.map, bind, Except.bind, h0]

/-! ### A constant field is reproduced -/

/-- The number a sample stands for; `fval` is the value of a single precision pattern. Bytes are not numbers. -/
def numVal (fval : BitVec 32 → ℚ) : Val → Except PyErr ℚ
  | .int i => .ok i
  | .flt b => .ok (fval b)
  | .raw _ => .error .typeError

/-- A statistics package over the rationals: the mean is exact, everything else arbitrary. -/
def ratOps (fval : BitVec 32 → ℚ) (fitStd : List ℚ → ℚ) (score pdf cdf : ℚ → ℚ → Val → ℚ) : StatOps Val ℚ where
  zero := 0
  one := 1
  fit := fun l => (l.mapM (numVal fval)).map fun xs => (xs.sum / xs.length, fitStd xs)
  nonPos := fun s => decide (s ≤ 0)
  eqMean := fun v m => match numVal fval v with
    | .ok q => decide (q = m)
    | .error _ => false
  score := score
  pdf := pdf
  cdf := cdf
  toBits := fun x t => num2bits toF32 (.num x) t.cname

theorem ratOps_fit_const (fval : BitVec 32 → ℚ) (fitStd : List ℚ → ℚ) (score pdf cdf : ℚ → ℚ → Val → ℚ)
    (v : Val) (q : ℚ) (hv : numVal fval v = .ok q) (l : List Val) (hne : l ≠ []) (hl : ∀ x ∈ l, x = v) :
    ∃ s, (ratOps toF32 fval fitStd score pdf cdf).fit l = .ok (q, s) := by
  have hm : l.mapM (numVal fval) = .ok (List.replicate l.length q) := by
    clear hne
    induction l with
    | nil => rfl
    | cons x l ih =>
      rw [List.mapM_cons, hl x List.mem_cons_self, hv, ih fun y hy => hl y (List.mem_cons_of_mem _ hy)]
      rfl
  refine ⟨fitStd (List.replicate l.length q), ?_⟩
  simp only [ratOps, hm, Except.map, List.sum_replicate, List.length_replicate]
  have : (l.length : ℚ) ≠ 0 := by
    simpa using hne
  congr 2
  rw [nsmul_eq_mul]
  field_simp

/-- C33: if every sample a field model keeps is the same in-range integer, `bitwise_mean` is exactly the bits that
integer is transmitted as. -/
theorem c33_constant_field (fval : BitVec 32 → ℚ) (fitStd : List ℚ → ℚ) (score pdf cdf : ℚ → ℚ → Val → ℚ)
    (name : String) (w : Option Nat) (t : CType) (i : Int) (hf : FitsScalar t (.int i)) (m : FieldModel Val ℚ)
    (hm : FieldModel.new (ratOps toF32 fval fitStd score pdf cdf) name t.cname w = .ok m) (ops : List (FieldOp Val))
    (hne : added ops ≠ []) (hc : ∀ v ∈ windowed w (added ops), v = .int i) :
    ∃ bs, packScalar t (.int i) = .ok bs ∧
      ((runOps (ratOps toF32 fval fitStd score pdf cdf) m ops).1.read (ratOps toF32 fval fitStd score pdf cdf)
        .bitwiseMean).2 = .ok (.bits (bytesBits bs)) := by
  obtain ⟨bs, h1, h2, _⟩ := c33_integer toF32 t i hf
  refine ⟨bs, h1, ?_⟩
  have hn : typeOfName t.cname = some t := by cases t <;> decide
  obtain ⟨m', g1, g2, _⟩ := inv_new (ratOps toF32 fval fitStd score pdf cdf) (name := name) (w := w) hn
  rw [hm] at g1
  injection g1 with g1
  subst g1
  have hi := (runOps_spec (ratOps toF32 fval fitStd score pdf cdf) ops [] m g2).1
  simp only [List.nil_append] at hi
  have hw : windowed w (added ops) ≠ [] := by rw [ne_eq, windowed_eq_nil]; exact hne
  obtain ⟨s, hs⟩ := ratOps_fit_const toF32 fval fitStd score pdf cdf (.int i) i rfl _ hw hc
  rw [(inv_read _ hi .bitwiseMean).2]
  simp only [statsOf, if_neg hw, hs, Except.bind, FieldModel.answer]
  show Except.map _ (num2bits toF32 (.num i) t.cname) = _
  rw [h2]
  rfl

/-- 2.5 is stored as 2 (ties to even), -1 in an unsigned field as 0, 300 does not fit a byte. -/
example : NearestEven (5 / 2) 2 ∧ Stored .u8 (-1) 0 ∧ ¬ FitsScalar .u8 (.int 300) := by
  refine ⟨⟨by norm_num [abs_le], fun _ => by decide⟩, by norm_num [Stored, CType.isUInt], by decide⟩

end NR
