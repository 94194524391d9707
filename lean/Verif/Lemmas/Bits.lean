import Verif.Model.BitOps
import Verif.Spec.Bits

namespace NR
open Spec

theorem filter_range_succ_length (p : Nat → Bool) (n : Nat) :
    ((List.range (n+1)).filter p).length
      = (if p 0 then 1 else 0) + ((List.range n).filter (fun i => p (i+1))).length := by
  rw [List.range_succ_eq_map, List.filter_cons]
  simp only [List.filter_map]
  split <;> simp [Function.comp_def, Nat.add_comm]

theorem diffCount_nil {α} [DecidableEq α] : diffCount ([] : List α) [] = 0 := by simp [diffCount]

theorem diffCount_cons {α} [DecidableEq α] (a b : α) (x y : List α) :
    diffCount (a :: x) (b :: y) = (if a = b then 0 else 1) + diffCount x y := by
  unfold diffCount
  have : max (a :: x).length (b :: y).length = max x.length y.length + 1 := by
    simp only [List.length_cons]; omega
  rw [this, filter_range_succ_length]
  simp only [List.getElem?_cons_zero, List.getElem?_cons_succ]
  by_cases h : a = b <;> simp [h]

theorem count_xor_eq_diffCount (x y : List Bool) (h : x.length = y.length) :
    (List.zipWith xor x y).count true = diffCount x y := by
  induction x generalizing y with
  | nil => cases y with
    | nil => simp [diffCount_nil]
    | cons _ _ => simp at h
  | cons a x ih => cases y with
    | nil => simp at h
    | cons b y =>
      rw [diffCount_cons, List.zipWith_cons_cons, List.count_cons, ih y (by simpa using h)]
      cases a <;> cases b <;> simp <;> omega

theorem diffCount_comm {α} [DecidableEq α] (x y : List α) : diffCount x y = diffCount y x := by
  unfold diffCount
  rw [Nat.max_comm]
  congr 1
  apply List.filter_congr
  intro i _
  simp [eq_comm]

theorem diffCount_eq_zero {α} [DecidableEq α] (x y : List α) : diffCount x y = 0 ↔ x = y := by
  constructor
  · intro h
    unfold diffCount at h
    rw [List.length_eq_zero_iff, List.filter_eq_nil_iff] at h
    apply List.ext_getElem?
    intro i
    by_cases hi : i < max x.length y.length
    · have := h i (by simpa using hi)
      simpa using this
    · rw [List.getElem?_eq_none (by omega), List.getElem?_eq_none (by omega)]
  · rintro rfl; simp [diffCount]

theorem diffCount_triangle {α} [DecidableEq α] (x y z : List α) (h1 : x.length = y.length)
    (h2 : y.length = z.length) : diffCount x z ≤ diffCount x y + diffCount y z := by
  induction x generalizing y z with
  | nil =>
    cases y with
    | nil => cases z with
      | nil => simp [diffCount_nil]
      | cons _ _ => simp at h2
    | cons _ _ => simp at h1
  | cons a x ih =>
    cases y with
    | nil => simp at h1
    | cons b y => cases z with
      | nil => simp at h2
      | cons c z =>
        simp only [diffCount_cons]
        have := ih y z (by simpa using h1) (by simpa using h2)
        split <;> split <;> split <;> first | omega | (exfalso; subst_vars; contradiction)

theorem diffCount_le {α} [DecidableEq α] (x y : List α) (h1 : x.length = y.length) :
    diffCount x y ≤ x.length := by
  unfold diffCount
  refine Nat.le_trans (List.length_filter_le _ _) ?_
  simp [h1]

theorem diffCount_append {α} [DecidableEq α] (x y u v : List α) (h1 : x.length = y.length) :
    diffCount (x ++ u) (y ++ v) = diffCount x y + diffCount u v := by
  induction x generalizing y with
  | nil => cases y with
    | nil => simp [diffCount_nil]
    | cons _ _ => simp at h1
  | cons a x ih => cases y with
    | nil => simp at h1
    | cons b y =>
      simp only [List.cons_append, diffCount_cons, ih y (by simpa using h1)]; omega

theorem byteBits_length (b : Byte) : (byteBits b).length = 8 := rfl

theorem bytesBits_length (bs : List Byte) : (bytesBits bs).length = 8 * bs.length := by
  induction bs with
  | nil => rfl
  | cons b bs ih =>
    simp only [bytesBits, List.flatMap_cons, List.length_append, List.length_cons] at *
    rw [ih, byteBits_length]; omega

theorem bytesBits_cons (b : Byte) (bs : List Byte) : bytesBits (b :: bs) = byteBits b ++ bytesBits bs := rfl

theorem bytesBits_append (a b : List Byte) : bytesBits (a ++ b) = bytesBits a ++ bytesBits b := by
  simp [bytesBits]

theorem byteBits_inj {a b : Byte} (h : byteBits a = byteBits b) : a = b := by
  simp only [byteBits, List.cons.injEq] at h
  apply BitVec.eq_of_getLsbD_eq
  intro i hi
  have : i = 0 ∨ i = 1 ∨ i = 2 ∨ i = 3 ∨ i = 4 ∨ i = 5 ∨ i = 6 ∨ i = 7 := by omega
  obtain ⟨h7, h6, h5, h4, h3, h2, h1, h0, _⟩ := h
  rcases this with h | h | h | h | h | h | h | h <;> subst h <;> assumption

theorem bytesBits_inj {a b : List Byte} (h : bytesBits a = bytesBits b) : a = b := by
  induction a generalizing b with
  | nil =>
    cases b with
    | nil => rfl
    | cons x b => simp [bytesBits, byteBits] at h
  | cons x a ih =>
    cases b with
    | nil => simp [bytesBits, byteBits] at h
    | cons y b =>
      rw [bytesBits_cons, bytesBits_cons] at h
      have h' := List.append_inj h (by simp [byteBits_length])
      rw [byteBits_inj h'.1, ih h'.2]

theorem uintBits_length (k n : Nat) : (uintBits k n).length = k := by
  induction k with
  | zero => rfl
  | succ k ih => simp [uintBits, ih]

theorem popcount_succ (k v : Nat) :
    popcount (k+1) v = (if v.testBit k then 1 else 0) + popcount k v := by
  unfold popcount
  rw [List.range_succ, List.filter_append, List.length_append]
  by_cases h : v.testBit k <;> simp [h] <;> omega

theorem diffCount_uintBits (k a b : Nat) : diffCount (uintBits k a) (uintBits k b) = popcount k (a ^^^ b) := by
  induction k with
  | zero => simp [uintBits, popcount, diffCount_nil]
  | succ k ih =>
    rw [uintBits, uintBits, diffCount_cons, ih, popcount_succ, Nat.testBit_xor]
    cases a.testBit k <;> cases b.testBit k <;> simp

theorem byteBits_eq_uintBits (b : Byte) : byteBits b = uintBits 8 b.toNat := by
  simp [byteBits, uintBits, BitVec.testBit_toNat, -Nat.testBit_zero]

end NR
