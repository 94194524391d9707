import Verif.Model.Perf
import Verif.Lemmas.Bits
import Verif.Props.C47_C50
import Mathlib.Data.Rat.Floor
import Mathlib.Algebra.Order.Field.Rat
import Mathlib.Tactic.Linarith
import Mathlib.Tactic.FieldSimp
import Mathlib.Tactic.Ring
import Mathlib.Tactic.Positivity
/-
C61: bit error rate. C62: stats. C63: Markov samples.
-/
namespace NR
open Spec

/-! ### C61 -/

/-- Bits as numbers. -/
def bitsInt (l : List Bool) : List Int := l.map fun b => if b then 1 else 0

/-- Number of positions where the first word has `a` and the second `b`. -/
def pairCount (a b : Bool) (x y : List Bool) : Nat := (x.zip y).count (a, b)

theorem ber_sum (dt : BitDtype) (x y : List Bool) (h : x.length = y.length) :
    ((List.zipWith (npSub dt) (bitsInt x) (bitsInt y)).map fun z => (|z| : Int)).sum =
      |npSub dt 0 0| * pairCount false false x y + |npSub dt 1 1| * pairCount true true x y +
      |npSub dt 1 0| * pairCount true false x y + |npSub dt 0 1| * pairCount false true x y := by
  induction x generalizing y with
  | nil => cases y with
    | nil => simp [bitsInt, pairCount]
    | cons _ _ => simp at h
  | cons a x ih => cases y with
    | nil => simp at h
    | cons b y =>
      have := ih y (by simpa using h)
      simp only [bitsInt, pairCount, List.map_cons, List.zipWith_cons_cons, List.sum_cons, List.zip_cons_cons,
        List.count_cons] at this ⊢
      rw [this]
      cases a <;> cases b <;> simp <;> ring

theorem pairCount_diff (x y : List Bool) (h : x.length = y.length) :
    pairCount true false x y + pairCount false true x y = diffCount x y := by
  induction x generalizing y with
  | nil => cases y with
    | nil => simp [pairCount, diffCount_nil]
    | cons _ _ => simp at h
  | cons a x ih => cases y with
    | nil => simp at h
    | cons b y =>
      have := ih y (by simpa using h)
      simp only [pairCount] at this
      rw [diffCount_cons, ← this]
      simp only [pairCount, List.zip_cons_cons, List.count_cons]
      cases a <;> cases b <;> simp <;> omega

theorem ber_val (dt : BitDtype) (hdt : dt ≠ .bool) (x y : List Bool) (h : x.length = y.length) (hx : x ≠ []) :
    ber dt (bitsInt x) (bitsInt y) = .ok (some
      (((((List.zipWith (npSub dt) (bitsInt x) (bitsInt y)).map fun z => (|z| : Int)).sum : Int) : ℚ) / x.length)) := by
  have hl : (bitsInt x).length = (bitsInt y).length := by simp [bitsInt, h]
  have hb : bcastWith (npSub dt) (bitsInt x) (bitsInt y) = .ok (List.zipWith (npSub dt) (bitsInt x) (bitsInt y)) := by
    unfold bcastWith; rw [if_pos hl]
  have hx0 : ¬ (bitsInt x).length = 0 := by
    simp only [bitsInt, List.length_map]
    exact fun h => hx (List.length_eq_zero_iff.1 h)
  have hlen : (bitsInt x).length = x.length := by simp [bitsInt]
  cases dt with
  | bool => exact absurd rfl hdt
  | signed =>
    unfold ber
    simp only [hb, bind, Except.bind]
    rw [if_neg hx0, hlen]
  | uint8 =>
    unfold ber
    simp only [hb, bind, Except.bind]
    rw [if_neg hx0, hlen]

/-- C61. For signed arrays the bit error rate is the share of differing bits, between 0 and 1, and 0 exactly for equal
words. -/
theorem c61_signed (truth predicted : List Bool) (h : truth.length = predicted.length) (hx : truth ≠ []) :
    ∃ r : ℚ, ber .signed (bitsInt truth) (bitsInt predicted) = .ok (some r) ∧
      r = (diffCount truth predicted : ℚ) / truth.length ∧ 0 ≤ r ∧ r ≤ 1 ∧ (r = 0 ↔ truth = predicted) := by
  refine ⟨_, ber_val .signed (by simp) truth predicted h hx, ?_⟩
  have hsum := ber_sum .signed truth predicted h
  have hd := pairCount_diff truth predicted h
  have e : ((List.zipWith (npSub .signed) (bitsInt truth) (bitsInt predicted)).map fun z => (|z| : Int)).sum =
      diffCount truth predicted := by
    rw [hsum, ← hd]
    simp [npSub]
  rw [e]
  have hpos : (0 : ℚ) < truth.length := by
    exact_mod_cast List.length_pos_iff.2 hx
  refine ⟨by push_cast; rfl, by positivity, ?_, ?_⟩
  · rw [div_le_one hpos]
    exact_mod_cast diffCount_le truth predicted h
  · rw [div_eq_zero_iff, or_iff_left (ne_of_gt hpos)]
    rw [← diffCount_eq_zero truth predicted]
    exact_mod_cast Iff.rfl

/-- C61. For unsigned bytes every wrongly predicted 1 counts 255 times: the result is the bit error rate only if no 0 was
predicted as 1. -/
theorem c61_uint8 (truth predicted : List Bool) (h : truth.length = predicted.length) (hx : truth ≠ []) :
    ∃ r : ℚ, ber .uint8 (bitsInt truth) (bitsInt predicted) = .ok (some r) ∧
      r = (pairCount true false truth predicted + 255 * pairCount false true truth predicted : ℚ) / truth.length ∧
      (r = (diffCount truth predicted : ℚ) / truth.length ↔ pairCount false true truth predicted = 0) := by
  refine ⟨_, ber_val .uint8 (by simp) truth predicted h hx, ?_⟩
  have hsum := ber_sum .uint8 truth predicted h
  have hd := pairCount_diff truth predicted h
  have e : ((List.zipWith (npSub .uint8) (bitsInt truth) (bitsInt predicted)).map fun z => (|z| : Int)).sum =
      pairCount true false truth predicted + 255 * pairCount false true truth predicted := by
    rw [hsum]
    simp [npSub]
  rw [e]
  have hpos : (0 : ℚ) < truth.length := by
    exact_mod_cast List.length_pos_iff.2 hx
  refine ⟨by push_cast; rfl, ?_⟩
  rw [div_left_inj' (ne_of_gt hpos), ← hd]
  push_cast
  constructor
  · intro h
    have : (254 : ℚ) * pairCount false true truth predicted = 0 := by linarith
    have := (mul_eq_zero.1 this).resolve_left (by norm_num)
    exact_mod_cast this
  · intro h
    rw [h]; simp

/-- C61. For unsigned bytes the result can exceed 1; for booleans the call raises; two empty arrays give NaN; arrays of
different lengths raise (lengths 1 aside, which are broadcast). -/
theorem c61_uint8_false : (∃ truth predicted : List Bool, truth.length = predicted.length ∧
      ∃ r : ℚ, ber .uint8 (bitsInt truth) (bitsInt predicted) = .ok (some r) ∧ 1 < r) ∧
    (∀ truth predicted, ber .bool truth predicted = .error .typeError) ∧ ber .signed [] [] = .ok none ∧
    (∀ truth predicted, truth.length ≠ predicted.length → truth.length ≠ 1 → predicted.length ≠ 1 →
      ber .signed truth predicted = .error .valueError) := by
  refine ⟨⟨[false, true], [true, true], rfl, 255 / 2, ?_, by norm_num⟩, fun _ _ => rfl, rfl, fun x y h h1 h2 => ?_⟩
  · obtain ⟨r, hr, e, _⟩ := c61_uint8 [false, true] [true, true] rfl (by simp)
    rw [hr, e]
    simp [pairCount]
  · unfold ber
    have : bcastWith (npSub .signed) x y = .error .valueError := by
      unfold bcastWith
      rw [if_neg h]
      split
      · simp at h1
      · simp at h2
      · rfl
    simp only [this]
    rfl

example : ∃ r : ℚ, ber .signed (bitsInt [true, false, true]) (bitsInt [true, true, true]) = .ok (some r) ∧ r = 1 / 3 := by
  obtain ⟨r, h1, h2, _⟩ := c61_signed [true, false, true] [true, true, true] rfl (by simp)
  exact ⟨r, h1, by rw [h2]; norm_num [show diffCount [true, false, true] [true, true, true] = 1 from by decide]⟩

/-! ### C62 -/

theorem diag_le_row (cm : List (List Nat)) {i : Nat} (hi : i < cm.length) : cmAt cm i i ≤ rowSum cm i :=
  List.single_le_sum (by simp) _ (List.mem_map.2 ⟨i, List.mem_range.2 hi, rfl⟩)

theorem diag_le_col (cm : List (List Nat)) {i : Nat} (hi : i < cm.length) : cmAt cm i i ≤ colSum cm i :=
  List.single_le_sum (by simp) _ (List.mem_map.2 ⟨i, List.mem_range.2 hi, rfl⟩)

/-- C62. Recall of a class: its correct predictions over its samples, in [0,1]; NaN for a class without samples. -/
theorem c62_recall (cm : List (List Nat)) (i : Nat) (hi : i < cm.length) :
    (0 < rowSum cm i → ∃ r : ℚ, (stats cm).recall[i]? = some (some r) ∧ r = (cmAt cm i i : ℚ) / rowSum cm i ∧
      0 ≤ r ∧ r ≤ 1) ∧
    (rowSum cm i = 0 → (stats cm).recall[i]? = some none) := by
  have e : (stats cm).recall[i]? = some (npDiv (cmAt cm i i) (rowSum cm i)) := by
    simp [stats, List.getElem?_map, List.getElem?_range hi]
  refine ⟨fun h => ?_, fun h => ?_⟩
  · have hpos : (0 : ℚ) < rowSum cm i := by exact_mod_cast h
    refine ⟨(cmAt cm i i : ℚ) / rowSum cm i, ?_, rfl, by positivity, ?_⟩
    · rw [e, npDiv, if_neg (ne_of_gt hpos)]
    · rw [div_le_one hpos]
      exact_mod_cast diag_le_row cm hi
  · rw [e, npDiv, if_pos (by exact_mod_cast h)]

/-- The precision returned for class `i`. -/
def precisionOf (cm : List (List Nat)) (i : Nat) : ℚ := if colSum cm i = 0 then 0 else (cmAt cm i i : ℚ) / colSum cm i

theorem precision_val (cm : List (List Nat)) (i : Nat) (hi : i < cm.length) :
    (statsPrecision cm)[i]? = some (some (precisionOf cm i)) := by
  have hn : colSum cm i ≠ 0 → npDiv (cmAt cm i i) (colSum cm i) = some (precisionOf cm i) := by
    intro h
    rw [npDiv, if_neg (by exact_mod_cast h), precisionOf, if_neg h]
  unfold statsPrecision
  split
  · rename_i hall
    rw [List.all_eq_true] at hall
    have := hall i (List.mem_range.2 hi)
    simp only [bne_iff_ne, ne_eq] at this
    rw [List.getElem?_map, List.getElem?_range hi, Option.map_some, hn this]
  · rw [List.getElem?_map, List.getElem?_range hi, Option.map_some]
    split
    · rename_i h; rw [precisionOf, if_pos h]
    · rename_i h; rw [hn h]

/-- C62. Precision of a class: its correct predictions over all predictions of it, in [0,1]; 0 for a class never
predicted, even if it has no samples (the branch meant to give 1 there is never taken). -/
theorem c62_precision (cm : List (List Nat)) (i : Nat) (hi : i < cm.length) :
    ∃ p : ℚ, (stats cm).precision[i]? = some (some p) ∧ 0 ≤ p ∧ p ≤ 1 ∧
      (0 < colSum cm i → p = (cmAt cm i i : ℚ) / colSum cm i) ∧ (colSum cm i = 0 → p = 0) := by
  refine ⟨precisionOf cm i, precision_val cm i hi, ?_, ?_, fun h => ?_, fun h => ?_⟩
  · unfold precisionOf; split <;> positivity
  · unfold precisionOf
    split
    · norm_num
    · rename_i h
      rw [div_le_one (by exact_mod_cast Nat.pos_of_ne_zero h)]
      exact_mod_cast diag_le_col cm hi
  · rw [precisionOf, if_neg (by omega)]
  · rw [precisionOf, if_pos h]

theorem recall_val (cm : List (List Nat)) (i : Nat) (hi : i < cm.length) :
    (stats cm).recall[i]? = some (npDiv (cmAt cm i i) (rowSum cm i)) := by
  simp [stats, List.getElem?_map, List.getElem?_range hi]

/-- No class has precision plus recall exactly 0. -/
def denOk (cm : List (List Nat)) : Bool := (List.range cm.length).all fun j =>
  nanAdd (some (precisionOf cm j)) (npDiv (cmAt cm j j) (rowSum cm j)) != some 0

theorem f1_val (cm : List (List Nat)) (i : Nat) (hi : i < cm.length) :
    (stats cm).f1[i]? = some (
      let r := npDiv (cmAt cm i i) (rowSum cm i)
      let d := nanAdd (some (precisionOf cm i)) r
      if denOk cm then f1Of (some (precisionOf cm i)) r d
      else match d with
        | some x => if 0 < x then f1Of (some (precisionOf cm i)) r d else some 0
        | none => some 0) := by
  have hp : statsPrecision cm = (List.range cm.length).map fun j => some (precisionOf cm j) := by
    apply List.ext_getElem?
    intro j
    by_cases hj : j < cm.length
    · rw [precision_val cm j hj, List.getElem?_map, List.getElem?_range hj, Option.map_some]
    · rw [List.getElem?_eq_none, List.getElem?_eq_none]
      · simp; omega
      · unfold statsPrecision
        split <;> simp <;> omega
  have hden : List.zipWith nanAdd (statsPrecision cm) ((List.range cm.length).map fun j =>
      npDiv (cmAt cm j j) (rowSum cm j)) = (List.range cm.length).map fun j =>
      nanAdd (some (precisionOf cm j)) (npDiv (cmAt cm j j) (rowSum cm j)) := by
    rw [hp, List.zipWith_map, List.zipWith_self]
  simp only [stats, statsF1]
  rw [hden, hp]
  rw [List.all_map]
  have hok : (List.range cm.length).all ((fun d => d != some 0) ∘ fun j =>
      nanAdd (some (precisionOf cm j)) (npDiv (cmAt cm j j) (rowSum cm j))) = denOk cm := rfl
  rw [hok]
  split
  · rw [List.zip_map', List.zipWith_map, List.zipWith_self, List.getElem?_map, List.getElem?_range hi]
    rfl
  · rw [List.zip_map', List.zipWith_map, List.zipWith_self, List.getElem?_map, List.getElem?_range hi]
    rfl

/-- C62. F1 of a class with samples: the harmonic mean of precision and recall, which is twice its correct predictions
over its samples plus its predictions; 0 without correct predictions. -/
theorem c62_f1 (cm : List (List Nat)) (i : Nat) (hi : i < cm.length) (h : 0 < rowSum cm i) :
    ∃ f p r : ℚ, (stats cm).f1[i]? = some (some f) ∧ (stats cm).precision[i]? = some (some p) ∧
      (stats cm).recall[i]? = some (some r) ∧ (0 < p + r → f = 2 * (p * r) / (p + r)) ∧ (p + r = 0 → f = 0) ∧
      f = 2 * (cmAt cm i i : ℚ) / (rowSum cm i + colSum cm i) ∧ 0 ≤ f ∧ f ≤ 1 := by
  have hpos : (0 : ℚ) < rowSum cm i := by exact_mod_cast h
  have hr : npDiv (cmAt cm i i) (rowSum cm i) = some ((cmAt cm i i : ℚ) / rowSum cm i) := by
    rw [npDiv, if_neg (ne_of_gt hpos)]
  have hd1 : (cmAt cm i i : ℚ) ≤ rowSum cm i := by exact_mod_cast diag_le_row cm hi
  have hd2 : (cmAt cm i i : ℚ) ≤ colSum cm i := by exact_mod_cast diag_le_col cm hi
  have hd0 : (0 : ℚ) ≤ cmAt cm i i := by positivity
  have hc0 : (0 : ℚ) ≤ colSum cm i := by positivity
  have hv := f1_val cm i hi
  rw [hr] at hv
  simp only [nanAdd] at hv
  -- the value
  have hclosed : 0 < precisionOf cm i + (cmAt cm i i : ℚ) / rowSum cm i →
      2 * (precisionOf cm i * ((cmAt cm i i : ℚ) / rowSum cm i)) / (precisionOf cm i + (cmAt cm i i : ℚ) / rowSum cm i) =
        2 * (cmAt cm i i : ℚ) / (rowSum cm i + colSum cm i) := by
    intro hs
    by_cases hc : colSum cm i = 0
    · exfalso
      have : (cmAt cm i i : ℚ) = 0 := by
        have : (colSum cm i : ℚ) = 0 := by exact_mod_cast hc
        linarith
      rw [precisionOf, if_pos hc, this] at hs
      simp at hs
    · have hcp : (0 : ℚ) < colSum cm i := by exact_mod_cast Nat.pos_of_ne_zero hc
      rw [precisionOf, if_neg hc] at hs ⊢
      have hne : (cmAt cm i i : ℚ) ≠ 0 := by
        intro h0
        rw [h0] at hs
        simp at hs
      field_simp
  have hzero : precisionOf cm i + (cmAt cm i i : ℚ) / rowSum cm i = 0 → (cmAt cm i i : ℚ) = 0 := by
    intro hs
    have h1 : 0 ≤ precisionOf cm i := by unfold precisionOf; split <;> positivity
    have h2 : 0 ≤ (cmAt cm i i : ℚ) / rowSum cm i := by positivity
    have h3 : (cmAt cm i i : ℚ) / rowSum cm i = 0 := by linarith
    rcases div_eq_zero_iff.1 h3 with h | h
    · exact h
    · exact absurd h (ne_of_gt hpos)
  have hsum0 : 0 ≤ precisionOf cm i + (cmAt cm i i : ℚ) / rowSum cm i := by
    have h1 : 0 ≤ precisionOf cm i := by unfold precisionOf; split <;> positivity
    positivity
  have hf : (stats cm).f1[i]? = some (some (2 * (cmAt cm i i : ℚ) / (rowSum cm i + colSum cm i))) := by
    rw [hv]
    rcases hsum0.lt_or_eq with hs | hs
    · have hne := ne_of_gt hs
      rw [if_pos hs, ite_self, f1Of, npDiv, if_neg hne, hclosed hs]
    · have hbad : denOk cm = false := by
        rw [Bool.eq_false_iff]
        intro hall
        have := List.all_eq_true.1 hall i (List.mem_range.2 hi)
        rw [hr] at this
        simp only [nanAdd, ← hs] at this
        simp at this
      rw [hbad, ← hs, if_neg (by simp), if_neg (lt_irrefl 0), hzero hs.symm]
      simp
  refine ⟨_, precisionOf cm i, (cmAt cm i i : ℚ) / rowSum cm i, hf, precision_val cm i hi, ?_, fun hs => (hclosed hs).symm,
    fun hs => ?_, rfl, by positivity, ?_⟩
  · rw [recall_val cm i hi, hr]
  · rw [hzero hs]; simp
  · rw [div_le_one (by positivity)]
    linarith

/-- C62. A class without samples: its F1 is NaN if every class with samples has a correct prediction and 0 otherwise; never
1, although the code means to give 1. -/
theorem c62_absent_class (cm : List (List Nat)) (i : Nat) (hi : i < cm.length) (h : rowSum cm i = 0) :
    ((stats cm).f1[i]? = some none ∨ (stats cm).f1[i]? = some (some 0)) ∧
    ((stats cm).f1[i]? = some none ↔ ∀ j, j < cm.length → 0 < rowSum cm j → 0 < cmAt cm j j) := by
  have hr : npDiv (cmAt cm i i) (rowSum cm i) = none := by rw [npDiv, if_pos (by exact_mod_cast h)]
  have hv := f1_val cm i hi
  rw [hr] at hv
  simp only [nanAdd, f1Of] at hv
  rw [hv]
  have hiff : denOk cm = true ↔ ∀ j, j < cm.length → 0 < rowSum cm j → 0 < cmAt cm j j := by
    rw [denOk, List.all_eq_true]
    constructor
    · intro hall j hj hrow
      have hpos : (0 : ℚ) < rowSum cm j := by exact_mod_cast hrow
      have := hall j (List.mem_range.2 hj)
      rw [npDiv, if_neg (ne_of_gt hpos)] at this
      simp only [nanAdd, bne_iff_ne, ne_eq, Option.some.injEq] at this
      by_contra h0
      have h0 : cmAt cm j j = 0 := by omega
      apply this
      rw [precisionOf, h0]
      split <;> simp
    · intro hall j hj
      have hj := List.mem_range.1 hj
      by_cases hrow : 0 < rowSum cm j
      · have hpos : (0 : ℚ) < rowSum cm j := by exact_mod_cast hrow
        have hc : (0 : ℚ) < cmAt cm j j := by exact_mod_cast hall j hj hrow
        have h1 : 0 ≤ precisionOf cm j := by unfold precisionOf; split <;> positivity
        rw [npDiv, if_neg (ne_of_gt hpos)]
        simp only [nanAdd, bne_iff_ne, ne_eq, Option.some.injEq]
        have : 0 < (cmAt cm j j : ℚ) / rowSum cm j := by positivity
        exact ne_of_gt (add_pos_of_nonneg_of_pos h1 this)
      · rw [npDiv, if_pos (by exact_mod_cast Nat.eq_zero_of_not_pos hrow)]
        rfl
  constructor
  · split
    · exact Or.inl rfl
    · exact Or.inr rfl
  · rw [← hiff]
    split
    · rename_i hall; simp [hall]
    · rename_i hall; simp [hall]

theorem sum_countP_key {α : Type} (labels : List Int) (hn : labels.Nodup) (key : α → Int) (q : α → Bool) (z : List α)
    (h : ∀ p ∈ z, q p = true → key p ∈ labels) :
    (labels.map fun a => z.countP fun p => q p && key p == a).sum = z.countP q := by
  have one : ∀ (labels : List Int), labels.Nodup → ∀ x ∈ labels,
      (labels.map fun a => if x = a then 1 else 0).sum = 1 := by
    intro labels
    induction labels with
    | nil => simp
    | cons a labels ih =>
      intro hn x hx
      rw [List.nodup_cons] at hn
      rw [List.map_cons, List.sum_cons]
      by_cases hxa : x = a
      · have : (labels.map fun b => if x = b then 1 else 0) = labels.map fun _ => 0 := by
          apply List.map_congr_left
          intro b hb
          rw [if_neg]
          rintro rfl
          exact hn.1 (hxa ▸ hb)
        rw [this, if_pos hxa]
        simp
      · rw [if_neg hxa, ih hn.2 x ((List.mem_cons.1 hx).resolve_left hxa)]
  induction z with
  | nil => simp
  | cons p z ih =>
    rw [List.countP_cons, ← ih fun r hr => h r (List.mem_cons_of_mem _ hr)]
    have : (labels.map fun a => (p :: z).countP fun p => q p && key p == a) =
        labels.map fun a => (z.countP fun p => q p && key p == a) + if q p && key p == a then 1 else 0 := by
      apply List.map_congr_left
      intro a _
      rw [List.countP_cons]
    rw [this, List.sum_map_add]
    congr 1
    by_cases hq : q p = true
    · have := one labels hn (key p) (h p (List.mem_cons_self ..) hq)
      simpa [hq] using this
    · simp [hq]

theorem map_range_getD {β : Type} (labels : List Int) (f : Int → β) :
    ((List.range labels.length).map fun j => f (labels.getD j 0)) = labels.map f := by
  apply List.ext_getElem?
  intro j
  by_cases hj : j < labels.length
  · simp [List.getElem?_map, List.getElem?_range hj, List.getElem?_eq_getElem hj]
  · rw [List.getElem?_eq_none (by simp; omega), List.getElem?_eq_none (by simp; omega)]

/-- C62. From label sequences: the rows of the matrix sum to the number of samples of a class, the columns to the number
of its predictions, and the accuracy is the share of samples predicted correctly. -/
theorem c62_labels (actual predicted : List Int) (h : actual.length = predicted.length) (hne : actual ≠ []) :
    ∃ cm, confusionMatrix actual predicted = .ok cm ∧
      (stats cm).accuracy = some (((actual.zip predicted).countP fun p => p.1 == p.2 : ℕ) / (actual.length : ℚ)) ∧
      cm.length = (npUnique (actual ++ predicted)).length ∧
      ∀ i l, (npUnique (actual ++ predicted))[i]? = some l →
        rowSum cm i = actual.count l ∧ colSum cm i = predicted.count l ∧
        cmAt cm i i = (actual.zip predicted).count (l, l) := by
  have hn := npUnique_nodup (actual ++ predicted)
  have hmem := (npUnique_spec (actual ++ predicted)).2
  generalize hlab : npUnique (actual ++ predicted) = labels at hn hmem
  generalize hz : actual.zip predicted = z
  have hz1 : z.map Prod.fst = actual := by rw [← hz, List.map_fst_zip (by omega)]
  have hz2 : z.map Prod.snd = predicted := by rw [← hz, List.map_snd_zip (by omega)]
  have hm1 : ∀ p ∈ z, p.1 ∈ labels := by
    intro p hp
    rw [hmem, List.mem_append, ← hz1]
    exact Or.inl (List.mem_map.2 ⟨p, hp, rfl⟩)
  have hm2 : ∀ p ∈ z, p.2 ∈ labels := by
    intro p hp
    rw [hmem, List.mem_append, ← hz2]
    exact Or.inr (List.mem_map.2 ⟨p, hp, rfl⟩)
  have hcount : ∀ a b : Int, z.count (a, b) = z.countP fun p => p.1 == a && p.2 == b := by
    intro a b
    rw [List.count]
    apply List.countP_congr
    intro p _
    obtain ⟨x, y⟩ := p
    simp
  have hat : ∀ i j, i < labels.length → j < labels.length →
      cmAt (labels.map fun a => labels.map fun b => z.count (a, b)) i j = z.count (labels.getD i 0, labels.getD j 0) := by
    intro i j hi hj
    simp [cmAt, List.getElem?_map, List.getElem?_eq_getElem hi, List.getElem?_eq_getElem hj]
  have hlen : (labels.map fun a => labels.map fun b => z.count (a, b)).length = labels.length := by simp
  have hrow : ∀ i, i < labels.length →
      rowSum (labels.map fun a => labels.map fun b => z.count (a, b)) i = actual.count (labels.getD i 0) := by
    intro i hi
    unfold rowSum
    rw [hlen]
    have e : ((List.range labels.length).map fun j =>
        cmAt (labels.map fun a => labels.map fun b => z.count (a, b)) i j) =
        (List.range labels.length).map fun j =>
          (fun b => z.countP fun p => (p.1 == labels.getD i 0) && p.2 == b) (labels.getD j 0) := by
      apply List.map_congr_left
      intro j hj
      rw [hat i j hi (List.mem_range.1 hj), hcount]
    rw [e, map_range_getD labels (fun b => z.countP fun p => (p.1 == labels.getD i 0) && p.2 == b),
      sum_countP_key labels hn (fun p : Int × Int => p.2) (fun p => p.1 == labels.getD i 0) z (fun p hp _ => hm2 p hp),
      ← hz1, List.count, List.countP_map]
    rfl
  have hcol : ∀ i, i < labels.length →
      colSum (labels.map fun a => labels.map fun b => z.count (a, b)) i = predicted.count (labels.getD i 0) := by
    intro i hi
    unfold colSum
    rw [hlen]
    have e : ((List.range labels.length).map fun j =>
        cmAt (labels.map fun a => labels.map fun b => z.count (a, b)) j i) =
        (List.range labels.length).map fun j =>
          (fun a => z.countP fun p => (p.2 == labels.getD i 0) && p.1 == a) (labels.getD j 0) := by
      apply List.map_congr_left
      intro j hj
      rw [hat j i (List.mem_range.1 hj) hi, hcount]
      apply List.countP_congr
      intro p _
      simp [and_comm]
    rw [e, map_range_getD labels (fun a => z.countP fun p => (p.2 == labels.getD i 0) && p.1 == a),
      sum_countP_key labels hn (fun p : Int × Int => p.1) (fun p => p.2 == labels.getD i 0) z (fun p hp _ => hm1 p hp),
      ← hz2, List.count, List.countP_map]
    rfl
  refine ⟨labels.map fun a => labels.map fun b => z.count (a, b), ?_, ?_, hlen, fun i l hl => ?_⟩
  · unfold confusionMatrix
    rw [if_neg (by omega)]
    simp only [hlab, hz]
  · have htrace : ((List.range labels.length).map fun i =>
        cmAt (labels.map fun a => labels.map fun b => z.count (a, b)) i i).sum = z.countP fun p => p.1 == p.2 := by
      have e : ((List.range labels.length).map fun i =>
          cmAt (labels.map fun a => labels.map fun b => z.count (a, b)) i i) =
          (List.range labels.length).map fun i =>
            (fun a => z.countP fun p => (p.1 == p.2) && p.1 == a) (labels.getD i 0) := by
        apply List.map_congr_left
        intro i hi
        rw [hat i i (List.mem_range.1 hi) (List.mem_range.1 hi), hcount]
        apply List.countP_congr
        intro p _
        simp only [Bool.and_eq_true, beq_iff_eq]
        constructor
        · rintro ⟨h1, h2⟩; exact ⟨by rw [h1, h2], h1⟩
        · rintro ⟨h1, h2⟩; exact ⟨h2, by rw [← h1, h2]⟩
      rw [e, map_range_getD labels (fun a => z.countP fun p => (p.1 == p.2) && p.1 == a),
        sum_countP_key labels hn (fun p : Int × Int => p.1) (fun p => p.1 == p.2) z (fun p hp _ => hm1 p hp)]
    have htotal : ((List.range labels.length).map fun i =>
        rowSum (labels.map fun a => labels.map fun b => z.count (a, b)) i).sum = actual.length := by
      have e : ((List.range labels.length).map fun i =>
          rowSum (labels.map fun a => labels.map fun b => z.count (a, b)) i) =
          (List.range labels.length).map fun i =>
            (fun a => actual.countP fun p => true && p == a) (labels.getD i 0) := by
        apply List.map_congr_left
        intro i hi
        rw [hrow i (List.mem_range.1 hi)]
        simp [List.count]
      rw [e, map_range_getD labels (fun a => actual.countP fun p => true && p == a),
        sum_countP_key labels hn (fun p : Int => p) (fun _ => true) actual (by
          intro p hp _
          rw [hmem, List.mem_append]
          exact Or.inl hp)]
      simp
    simp only [stats]
    rw [hlen]
    rw [htrace, htotal, npDiv, if_neg]
    intro h0
    exact hne (List.length_eq_zero_iff.1 (by exact_mod_cast h0))
  · obtain ⟨hi, hl'⟩ := List.getElem?_eq_some_iff.1 hl
    have hg : labels.getD i 0 = l := by
      rw [List.getD_eq_getElem?_getD, hl]; rfl
    exact ⟨by rw [hrow i hi, hg], by rw [hcol i hi, hg], by rw [hat i i hi hi, hg]⟩

example : (stats [[2, 1], [0, 3]]).accuracy = some (5 / 6) := by
  norm_num [stats, npDiv, cmAt, rowSum, List.range, List.range.loop]

-- A class without samples whose F1 is NaN, and one whose F1 is 0.
example : (stats [[2, 1], [0, 0]]).f1[1]? = some none :=
  (c62_absent_class [[2, 1], [0, 0]] 1 (by decide) (by decide)).2.2 (by decide)

example : (stats [[0, 1], [0, 0]]).f1[1]? = some (some 0) :=
  ((c62_absent_class [[0, 1], [0, 0]] 1 (by decide) (by decide)).1).resolve_left fun h =>
    absurd ((c62_absent_class [[0, 1], [0, 0]] 1 (by decide) (by decide)).2.1 h 0 (by decide) (by decide)) (by decide)

/-! ### C63 -/

/-- The loop never changes earlier entries; the tuple used for sample `i` is made of the last `order` entries of the array
at that time: samples already drawn, and zeros. -/
theorem markovLoop_spec {G : Type} (choose : Chooser G) (T : Transition) (order : Nat) :
    ∀ (left i : Nat) (g : G) (states : List Nat), i + left = states.length →
      (∀ j, i ≤ j → j < states.length → states[j]? = some 0) →
      ∀ g' used final, markovLoop choose T order left i g states = (g', used, .ok final) →
        final.length = states.length ∧ used.length = left ∧ (∀ j, j < i → final[j]? = states[j]?) ∧
        ∀ k, k < left → used[k]? = some ((List.range' (states.length - order) (min order states.length)).map fun j =>
          if j < i + k then final.getD j 0 else 0) := by
  intro left
  induction left with
  | zero =>
    intro i g states _ _ g' used final h
    simp only [markovLoop, Prod.mk.injEq, Except.ok.injEq] at h
    obtain ⟨_, rfl, rfl⟩ := h
    simp
  | succ left ih =>
    intro i g states hlen hz g' used final h
    simp only [markovLoop] at h
    cases hrow : T.row (states.drop (states.length - order)) with
    | error e => rw [hrow] at h; simp at h
    | ok p =>
      rw [hrow] at h
      simp only at h
      rcases hch : choose g p with ⟨g1, r⟩
      rw [hch] at h
      simp only at h
      cases r with
      | error e => simp at h
      | ok v =>
        simp only at h
        rcases hrec : markovLoop choose T order left (i + 1) g1 (states.set i v) with ⟨g2, used2, r2⟩
        rw [hrec] at h
        simp only [Prod.mk.injEq] at h
        obtain ⟨_, rfl, rfl⟩ := h
        obtain ⟨a1, a2, a3, a4⟩ := ih (i + 1) g1 (states.set i v) (by simp; omega) (by
          intro j hj hj'
          rw [List.getElem?_set_ne (by omega)]
          exact hz j (by omega) (by simpa using hj')) g2 used2 final hrec
        rw [List.length_set] at a1 a4
        have hpre : ∀ j, j < i → final[j]? = states[j]? := by
          intro j hj
          rw [a3 j (by omega), List.getElem?_set_ne (by omega)]
        refine ⟨a1, by simp [a2], hpre, fun k hk => ?_⟩
        cases k with
        | zero =>
          simp only [List.getElem?_cons_zero, Option.some.injEq, Nat.add_zero]
          apply List.ext_getElem?
          intro m
          rw [List.getElem?_drop, List.getElem?_map]
          by_cases hm : m < min order states.length
          · rw [List.getElem?_range' hm]
            simp only [Option.map_some]
            rw [Nat.one_mul]
            by_cases hlt : states.length - order + m < i
            · rw [if_pos hlt, ← hpre _ hlt, List.getD_eq_getElem?_getD,
                List.getElem?_eq_getElem (by rw [a1]; omega)]
              rfl
            · rw [if_neg hlt, hz _ (by omega) (by omega)]
          · rw [List.getElem?_eq_none (by omega), List.getElem?_eq_none (by simp; omega)]
            rfl
        | succ k =>
          rw [List.getElem?_cons_succ, a4 k (by omega)]
          congr 1
          apply List.map_congr_left
          intro j _
          rw [show i + 1 + k = i + (k + 1) by omega]

/-- C63. What is drawn: sample `i` (from `order` on) is drawn from the row of the last `order` entries of the output array
as it is then, that is of the entries at `n - order, ..., n - 1` with zeros for those not yet drawn. -/
theorem c63_rows {G : Type} (choose : Chooser G) (T : Transition) (init : MarkovInit) (n : Nat) (g g' : G)
    (used : List (List Nat)) (final : List Nat) (h : generateMarkov choose T init n g = (g', used, .ok final)) :
    let order := T.shape.length - 1
    final.length = n ∧ used.length = n - order ∧
      ∀ i, order ≤ i → i < n → used[i - order]? = some ((List.range' (n - order) order).map fun j =>
        if j < i then final.getD j 0 else 0) := by
  intro order
  unfold generateMarkov at h
  simp only at h
  split at h
  · simp at h
  · rename_i l hl
    have hll : l.length = order := by
      cases init with
      | int s =>
        simp only at hl
        split at hl
        · cases hl; simp only [List.length_cons, List.length_nil]; omega
        · cases hl
      | seq x =>
        simp only at hl
        split at hl
        · cases hl
        · rename_i hx; cases hl; exact (not_not.1 hx).symm
    split at h
    · simp at h
    · rename_i h0
      split at h
      · simp at h
      · split at h
        · simp at h
        · rename_i hno
          by_cases hn : n < order
          · have : order = 1 := by
              by_contra h1; exact hno ⟨hn, h1⟩
            have hn0 : n = 0 := by omega
            subst hn0
            simp only [Nat.zero_sub, markovLoop, List.take_zero, Prod.mk.injEq, Except.ok.injEq] at h
            obtain ⟨_, rfl, rfl⟩ := h
            refine ⟨rfl, by simp, fun i _ hi => absurd hi (by omega)⟩
          · have htake : (l ++ List.replicate (n - order) 0).take n = l ++ List.replicate (n - order) 0 := by
              rw [List.take_of_length_le]
              simp [hll]; omega
            have hlen : (l ++ List.replicate (n - order) 0).length = n := by simp [hll]; omega
            change markovLoop choose T order (n - order) order g _ = _ at h
            rw [htake] at h
            obtain ⟨a1, a2, _, a4⟩ := markovLoop_spec choose T order (n - order) order g _ (by rw [hlen]; omega) (by
              intro j hj hj'
              rw [List.getElem?_append_right (by omega), List.getElem?_replicate_of_lt (by
                rw [hlen] at hj'; omega)]) g' used final h
            rw [hlen] at a1 a4
            refine ⟨a1, a2, fun i hi1 hi2 => ?_⟩
            rw [a4 (i - order) (by omega), show order + (i - order) = i by omega, min_eq_left (by omega)]

/-- C63. In particular all samples up to the last `order` are drawn from the row of the all-zero tuple, whatever was drawn
before; for a first-order chain this is so for all samples: they do not depend on each other. -/
theorem c63_all_zero {G : Type} (choose : Chooser G) (T : Transition) (init : MarkovInit) (n : Nat) (g g' : G)
    (used : List (List Nat)) (final : List Nat) (h : generateMarkov choose T init n g = (g', used, .ok final)) (i : Nat)
    (h1 : T.shape.length - 1 ≤ i) (h2 : i < n) (h3 : i ≤ n - (T.shape.length - 1)) :
    used[i - (T.shape.length - 1)]? = some (List.replicate (T.shape.length - 1) 0) := by
  obtain ⟨_, _, h4⟩ := c63_rows choose T init n g g' used final h
  rw [h4 i h1 h2]
  congr 1
  rw [List.eq_replicate_iff]
  refine ⟨by simp, fun x hx => ?_⟩
  obtain ⟨j, hj, rfl⟩ := List.mem_map.1 hx
  have := List.mem_range'_1.1 hj
  rw [if_neg (by omega)]

/-- A deterministic "random" choice: the last state of positive probability. -/
def pickLast : Chooser Unit := fun g p =>
  (g, .ok (((List.range p.length).filter fun i => decide (0 < p.getD i 0)).getLastD 0))

/-- A first-order chain with two states that always changes its state. -/
def flipChain : Transition :=
  ⟨[2, 2], fun l => if l = [0] then .ok [0, 1] else if l = [1] then .ok [1, 0] else .error .indexError⟩

/-- C63. The claim that a sample is drawn from the row of the preceding samples is false: the chain that always changes
its state yields 0, 1, 1, 1. -/
theorem c63_false : ¬ ∀ (T : Transition) (n : Nat) (used : List (List Nat)) (final : List Nat),
    (generateMarkov pickLast T (.int 0) n ()).2 = (used, .ok final) →
    ∀ i, 1 ≤ i → i < n → T.shape.length = 2 → used[i - 1]? = some [final.getD (i - 1) 0] := by
  intro hall
  have := hall flipChain 4 [[0], [0], [0]] [0, 1, 1, 1] (by decide +kernel) 2 (by decide) (by decide) rfl
  exact absurd this (by decide)

end NR
