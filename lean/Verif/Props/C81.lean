import Verif.Spec.Simulation
import Verif.Props.C73_C74
import Mathlib.Data.List.Sort
/-
C81: what the analysis of the field classifier (scripts/classifier_analysis.py) counts.
-/
namespace NR
open Spec

theorem mem_positions {n : Nat} {P : Nat → Prop} {i : Nat} : i ∈ positions n P ↔ i < n ∧ P i := by
  simp [positions]

theorem positions_nodup (n : Nat) (P : Nat → Prop) : (positions n P).Nodup := List.Nodup.filter _ List.nodup_range

theorem positions_congr {n : Nat} {P Q : Nat → Prop} (h : ∀ i < n, P i ↔ Q i) : positions n P = positions n Q := by
  unfold positions
  apply List.filter_congr
  intro i hi
  simp [h i (List.mem_range.1 hi)]

theorem positions_sorted (n : Nat) (P : Nat → Prop) : (positions n P).Pairwise (· ≤ ·) :=
  List.Pairwise.filter _ (List.pairwise_le_range)

/-- A sorted list of distinct positions is determined by its elements. -/
theorem eq_positions {n : Nat} {P : Nat → Prop} {l : List Nat} (hs : l.Pairwise (· ≤ ·)) (hn : l.Nodup)
    (h : ∀ i, i ∈ l ↔ i < n ∧ P i) : l = positions n P := by
  refine List.Perm.eq_of_pairwise' hs (positions_sorted n P) ?_
  rw [List.perm_ext_iff_of_nodup hn (positions_nodup n P)]
  intro i
  rw [h, mem_positions]

theorem sortDedup_eq {n : Nat} {P : Nat → Prop} {l : List Nat} (h : ∀ i, i ∈ l ↔ i < n ∧ P i) :
    l.dedup.mergeSort (· ≤ ·) = positions n P := by
  refine eq_positions ?_ ?_ ?_
  · have := List.pairwise_mergeSort (le := fun a b : Nat => decide (a ≤ b)) (by simp; omega) (by simp; omega) l.dedup
    exact this.imp (by simp)
  · exact (List.mergeSort_perm _ _).nodup_iff.2 (List.nodup_dedup l)
  · intro i
    rw [(List.mergeSort_perm _ _).mem_iff, List.mem_dedup, h]

theorem npIntersect_eq {n : Nat} {a b : List Nat} (ha : ∀ i ∈ a, i < n) :
    npIntersect a b = positions n fun i => i ∈ a ∧ i ∈ b :=
  sortDedup_eq fun i => by
    simp only [List.mem_filter, decide_eq_true_eq]
    exact ⟨fun h => ⟨ha i h.1, h⟩, fun h => h.2⟩

theorem npSetdiff_eq {n : Nat} {a b : List Nat} (ha : ∀ i ∈ a, i < n) :
    npSetdiff a b = positions n fun i => i ∈ a ∧ i ∉ b :=
  sortDedup_eq fun i => by
    simp only [List.mem_filter, decide_eq_true_eq]
    exact ⟨fun h => ⟨ha i h.1, h⟩, fun h => h.2⟩

theorem positions_split (n : Nat) (P Q : Nat → Prop) :
    (positions n P).length = (positions n fun i => Q i ∧ P i).length + (positions n fun i => ¬ Q i ∧ P i).length := by
  classical
  unfold positions
  simp only [← List.countP_eq_length_filter]
  induction List.range n with
  | nil => rfl
  | cons a l ih =>
    simp only [List.countP_cons, ih]
    by_cases hq : Q a <;> by_cases hp : P a <;> simp [hp, hq] <;> omega

theorem positions_total (n : Nat) (P : Nat → Prop) :
    (positions n P).length + (positions n fun i => ¬ P i).length = n := by
  classical
  unfold positions
  simp only [← List.countP_eq_length_filter]
  induction n with
  | zero => rfl
  | succ n ih =>
    simp only [List.range_succ, List.countP_append, List.countP_cons, List.countP_nil]
    by_cases hp : P n <;> simp [hp] <;> simp at ih <;> omega

/-- The six numbers are a table when true and false positives, positives and negatives are counted rightly. -/
theorem performance_eq {n tp fp : Nat} {positive negative : Int} {pred act : Nat → Prop}
    (h1 : tp = (positions n fun i => pred i ∧ act i).length) (h2 : fp = (positions n fun i => pred i ∧ ¬ act i).length)
    (h3 : positive = (positions n act).length) (h4 : negative = (n : Int) - (positions n act).length) :
    performance tp fp positive negative = tableOf n pred act := by
  have e1 := positions_split n act pred
  have e2 := positions_split n (fun i => ¬ act i) pred
  have e3 := positions_total n act
  unfold performance tableOf
  subst h1 h2 h3 h4
  simp only [List.cons.injEq, and_true, true_and]
  refine ⟨by omega, by omega, by omega⟩

theorem tableOf_congr {n : Nat} {p p' a a' : Nat → Prop} (hp : ∀ i < n, p i ↔ p' i) (ha : ∀ i < n, a i ↔ a' i) :
    tableOf n p a = tableOf n p' a' := by
  unfold tableOf
  rw [positions_congr fun i hi => and_congr (hp i hi) (ha i hi),
    positions_congr fun i hi => and_congr (hp i hi) (not_congr (ha i hi)),
    positions_congr fun i hi => and_congr (not_congr (hp i hi)) (not_congr (ha i hi)),
    positions_congr fun i hi => and_congr (not_congr (hp i hi)) (ha i hi),
    positions_congr ha, positions_congr fun i hi => not_congr (ha i hi)]

/-! ### C81: the classifier -/

theorem fieldsWhere_positions (cond : ℝ → Prop) (fields : List (Option (String × ℝ × ℝ))) (h : none ∉ fields) :
    fieldsWhere cond fields = .ok (positions fields.length (FieldSays fields fun x _ => cond x)) := by
  unfold fieldsWhere
  have hn : fields.any Option.isNone = false := by
    rw [List.any_eq_false]
    intro x hx hn
    cases x with
    | none => exact h hx
    | some x => cases hn
  rw [hn]
  simp only [Bool.false_eq_true, if_false]
  congr 1
  unfold positions
  apply List.filter_congr
  intro i hi
  have hi := List.mem_range.1 hi
  rw [List.getD_eq_getElem?_getD, List.getElem?_eq_getElem hi, Option.getD_some]
  rcases hf : fields[i] with _ | ⟨name, x, s⟩
  · exact absurd (hf ▸ List.getElem_mem hi) h
  · apply decide_eq_decide.2
    simp [FieldSays, List.getElem?_eq_getElem hi, hf]

theorem forcedFields_positions (fields : List (Option (String × ℝ × ℝ))) (h : none ∉ fields) :
    forcedFields fields = .ok (positions fields.length (FieldSays fields fun x s => x ≤ 0 ∧ s = 0)) := by
  unfold forcedFields
  have hn : fields.any Option.isNone = false := by
    rw [List.any_eq_false]
    intro x hx hn
    cases x with
    | none => exact h hx
    | some x => cases hn
  rw [hn]
  simp only [Bool.false_eq_true, if_false]
  congr 1
  unfold positions
  apply List.filter_congr
  intro i hi
  have hi := List.mem_range.1 hi
  rw [List.getD_eq_getElem?_getD, List.getElem?_eq_getElem hi, Option.getD_some]
  rcases hf : fields[i] with _ | ⟨name, x, s⟩
  · exact absurd (hf ▸ List.getElem_mem hi) h
  · simp [FieldSays, List.getElem?_eq_getElem hi, hf, Bool.and_comm]

theorem countP_positions (n : Nat) (P : Nat → Prop) (l : List Nat) :
    (positions n P).countP (fun i => decide (i ∈ l)) = (positions n fun i => P i ∧ i ∈ l).length ∧
    (positions n P).countP (fun i => decide (i ∉ l)) = (positions n fun i => P i ∧ i ∉ l).length := by
  unfold positions
  constructor
  · rw [List.countP_filter, ← List.countP_eq_length_filter]
    apply List.countP_congr
    intro i _
    simp [and_comm]
  · rw [List.countP_filter, ← List.countP_eq_length_filter]
    apply List.countP_congr
    intro i _
    simp [and_comm]

theorem length_positions {n : Nat} {l : List Nat} (hn : l.Nodup) (hl : ∀ i ∈ l, i < n) :
    l.length = (positions n (· ∈ l)).length := by
  refine List.Perm.length_eq ((List.perm_ext_iff_of_nodup hn (positions_nodup _ _)).2 fun i => ?_)
  rw [mem_positions]
  exact ⟨fun h => ⟨hl i h, h⟩, fun h => h.2⟩

/-- C81: the classifier. With a model for every field, the fields called good are those with a score above `1 - thr`, the bad
ones those below `thr`, and the two arrays are the confusion tables of "good" against "undamaged" and of "bad" against
"damaged", over all fields. -/
theorem c81_classifier (fields : List (Option (String × ℝ × ℝ))) (h : none ∉ fields) (bitProb : List (BufferModel.Score ℝ))
    (thr : ℝ) (damaged : List Nat) (hd : damaged.Nodup) (hlt : ∀ i ∈ damaged, i < fields.length) :
    ∃ r, characterize fields bitProb thr damaged = .ok r ∧
      r.goodFields = positions fields.length (FieldSays fields fun x _ => 1 - thr < x) ∧
      r.badFields = positions fields.length (FieldSays fields fun x _ => x < thr) ∧
      r.nFields = fields.length ∧ r.nDamaged = damaged.length ∧
      r.goodPerformance = tableOf fields.length (FieldSays fields fun x _ => 1 - thr < x) (· ∉ damaged) ∧
      r.badPerformance = tableOf fields.length (FieldSays fields fun x _ => x < thr) (· ∈ damaged) := by
  have hlen := length_positions hd hlt
  have htot := positions_total fields.length (· ∈ damaged)
  have hnn : positions fields.length (fun i => ¬ i ∉ damaged) = positions fields.length (· ∈ damaged) :=
    positions_congr fun i _ => not_not
  obtain ⟨g1, g2⟩ := countP_positions fields.length (FieldSays fields fun x _ => 1 - thr < x) damaged
  obtain ⟨b1, b2⟩ := countP_positions fields.length (FieldSays fields fun x _ => x < thr) damaged
  unfold characterize
  rw [fieldsWhere_positions _ _ h, fieldsWhere_positions _ _ h]
  refine ⟨_, rfl, rfl, rfl, rfl, rfl, ?_, ?_⟩
  · refine performance_eq g2 (g1.trans (congrArg _ (positions_congr fun _ _ => and_congr_right fun _ => not_not.symm))) ?_ ?_
    · omega
    · omega
  · refine performance_eq b1 b2 ?_ ?_
    · omega
    · omega

/-- C81: a field without a model makes the analysis raise. -/
theorem c81_unmodelled (fields : List (Option (String × ℝ × ℝ))) (h : none ∈ fields) (bitProb : List (BufferModel.Score ℝ))
    (thr : ℝ) (damaged : List Nat) : characterize fields bitProb thr damaged = .error .typeError := by
  unfold characterize fieldsWhere
  have hn : fields.any Option.isNone = true := List.any_eq_true.2 ⟨none, h, rfl⟩
  rw [hn]
  rfl

example : ∃ r, characterize [some ("a", 0, 0), some ("b", 1 / 2, 1), some ("c", 1, 1)] [] (1 / 4) [0, 1] = .ok r ∧
    r.goodFields = positions 3 (FieldSays [some ("a", 0, 0), some ("b", 1 / 2, 1), some ("c", 1, 1)] fun x _ => 1 - 1 / 4 < x) := by
  obtain ⟨r, h, hg, _⟩ := c81_classifier [some ("a", 0, 0), some ("b", 1 / 2, 1), some ("c", 1, 1)] (by simp) [] (1 / 4) [0, 1]
    (by decide) (by decide)
  exact ⟨r, h, hg⟩

/-! ### C81: the forcing -/

theorem flipAt_length (w : List Bool) (errors : List Nat) : (flipAt w errors).length = w.length := by
  unfold flipAt; rw [List.length_mapIdx]

theorem flipAt_getD (w : List Bool) (errors : List Nat) {i : Nat} (hi : i < w.length) :
    (flipAt w errors).getD i false = if i ∈ errors then !w.getD i false else w.getD i false := by
  unfold flipAt
  rw [List.getD_eq_getElem?_getD, List.getD_eq_getElem?_getD, List.getElem?_mapIdx, List.getElem?_eq_getElem hi]
  rfl

/-- The received word is the word sent with the bits at the errors inverted. -/
theorem invertAt_eq (w : List Bool) (errors : List Nat) (hn : errors.Nodup) (hl : ∀ e ∈ errors, e < w.length) :
    invertAt w errors = .ok (flipAt w errors) := by
  unfold invertAt
  rw [if_pos (by simpa using hl)]
  congr 1
  induction errors generalizing w with
  | nil =>
    apply List.ext_getElem
    · rw [flipAt_length]; rfl
    · intro i h1 h2
      simp [flipAt]
  | cons e es ih =>
    obtain ⟨he, hn⟩ := List.nodup_cons.1 hn
    rw [List.foldl_cons, ih _ hn (fun x hx => by rw [List.length_set]; exact hl x (List.mem_cons_of_mem _ hx))]
    apply List.ext_getElem
    · simp [flipAt_length]
    · intro i h1 h2
      have hi : i < w.length := by simpa [flipAt_length] using h1
      simp only [flipAt, List.getElem_mapIdx, List.getElem_set]
      by_cases h : e = i
      · subst h
        simp [he, List.getD_eq_getElem?_getD, List.getElem?_eq_getElem hi]
      · have h' : ¬ i = e := fun x => h x.symm
        simp [h, h']

theorem zip_self_map (l : List Nat) (m : Nat → Bool) : l.zip (l.map m) = l.map fun i => (i, m i) := by
  induction l with
  | nil => rfl
  | cons a l ih => simp [ih]

theorem filter_positions (n : Nat) (P Q : Nat → Prop) [DecidablePred Q] :
    (positions n P).filter (fun i => decide (Q i)) = positions n fun i => P i ∧ Q i := by
  unfold positions
  rw [List.filter_filter]
  apply List.filter_congr
  intro i _
  rw [Bool.eq_iff_iff]
  simp [and_comm]

theorem inter_positions (n : Nat) (P : Nat → Prop) (l : List Nat) :
    npIntersect (positions n P) l = positions n fun i => P i ∧ i ∈ l := by
  rw [npIntersect_eq (fun i hi => (mem_positions.1 hi).1)]
  exact positions_congr fun i hi => by simp [mem_positions, hi]

theorem diff_positions (n : Nat) (P : Nat → Prop) (l : List Nat) :
    npSetdiff (positions n P) l = positions n fun i => P i ∧ i ∉ l := by
  rw [npSetdiff_eq (fun i hi => (mem_positions.1 hi).1)]
  exact positions_congr fun i hi => by simp [mem_positions, hi]

theorem diff_positions' {n : Nat} {P : Nat → Prop} {l : List Nat} (hl : ∀ i ∈ l, i < n) :
    npSetdiff l (positions n P) = positions n fun i => i ∈ l ∧ ¬ P i := by
  rw [npSetdiff_eq hl]
  exact positions_congr fun i hi => by simp [mem_positions, hi]

/-- C81: the forcing. `forced` are the positions `F` of the word, `m` are the model's values and the received word is the word sent
with the bits at `errors` inverted. The lists are those positions that the names promise, the arrays are confusion tables over
all fields and all bits of the word, and the quality is made of the numbers of errors, of forced bits, of bits that forcing would
flip, of those rightly and wrongly flipped and of the share of forced bits that the model gets wrong. -/
theorem c81_forcing (fields : List (Option (String × ℝ × ℝ))) (h : none ∉ fields) (F : Nat → Prop) (m : Nat → Bool)
    (tx : List Bool) (damaged errors : List Nat) (hd : damaged.Nodup) (hdl : ∀ i ∈ damaged, i < fields.length)
    (he : errors.Nodup) (hel : ∀ i ∈ errors, i < tx.length) :
    ∃ r share, forcingChar fields (positions tx.length F) damaged errors (flipAt tx errors) tx
        ((positions tx.length F).map m) = .ok r ∧
      r.forcedFields = positions fields.length (FieldSays fields fun x s => x ≤ 0 ∧ s = 0) ∧
      r.forcedBits = positions tx.length F ∧
      r.correctBits = positions tx.length (fun i => F i ∧ i ∈ errors) ∧
      r.incorrectBits = positions tx.length (fun i => F i ∧ i ∉ errors) ∧
      r.missedBits = positions tx.length (fun i => i ∈ errors ∧ ¬ F i) ∧
      r.correctFields = positions fields.length (fun j => FieldSays fields (fun x s => x ≤ 0 ∧ s = 0) j ∧ j ∈ damaged) ∧
      r.incorrectFields = positions fields.length (fun j => FieldSays fields (fun x s => x ≤ 0 ∧ s = 0) j ∧ j ∉ damaged) ∧
      r.missedFields = positions fields.length (fun j => j ∈ damaged ∧ ¬ FieldSays fields (fun x s => x ≤ 0 ∧ s = 0) j) ∧
      r.bitsPerformance = tableOf tx.length F (· ∈ errors) ∧
      r.fieldsPerformance = tableOf fields.length (FieldSays fields fun x s => x ≤ 0 ∧ s = 0) (· ∈ damaged) ∧
      r.flippedPerformance =
        tableOf tx.length (fun i => F i ∧ m i ≠ (flipAt tx errors).getD i false) (· ∈ errors) ∧
      r.quality = [(errors.length : ℚ), ((positions tx.length F).length : ℚ),
        ((positions tx.length fun i => F i ∧ m i ≠ (flipAt tx errors).getD i false).length : ℚ),
        ((positions tx.length fun i => (F i ∧ m i ≠ (flipAt tx errors).getD i false) ∧ i ∈ errors).length : ℚ),
        ((positions tx.length fun i => (F i ∧ m i ≠ (flipAt tx errors).getD i false) ∧ i ∉ errors).length : ℚ), share] ∧
      share * (positions tx.length F).length = (positions tx.length fun i => F i ∧ m i ≠ tx.getD i false).length ∧
      (positions tx.length F = [] → share = 0) := by
  have hlt : ∀ i ∈ positions tx.length F, i < tx.length := fun i hi => (mem_positions.1 hi).1
  have hflip : (((positions tx.length F).zip ((positions tx.length F).map m)).filter fun x =>
      x.2 != (flipAt tx errors).getD x.1 false).map Prod.fst =
      positions tx.length fun i => F i ∧ m i ≠ (flipAt tx errors).getD i false := by
    rw [zip_self_map, List.filter_map, List.map_map]
    rw [show (Prod.fst ∘ fun i => (i, m i)) = (id : Nat → Nat) from rfl, List.map_id,
      ← filter_positions tx.length F fun i => m i ≠ (flipAt tx errors).getD i false]
    apply List.filter_congr
    intro i _
    simp only [Function.comp]
    rw [Bool.eq_iff_iff]
    simp
  have hwrong : (((positions tx.length F).zip ((positions tx.length F).map m)).countP fun x => tx.getD x.1 false != x.2) =
      (positions tx.length fun i => F i ∧ m i ≠ tx.getD i false).length := by
    rw [zip_self_map, List.countP_map, ← filter_positions tx.length F fun i => m i ≠ tx.getD i false,
      List.countP_eq_length_filter]
    congr 1
    apply List.filter_congr
    intro i _
    simp only [Function.comp]
    rw [Bool.eq_iff_iff]
    simp
    exact ⟨fun h e => h e.symm, fun h e => h e.symm⟩
  have hle := length_positions he hel
  have hld := length_positions hd hdl
  have e1 := inter_positions tx.length F errors
  have e2 := diff_positions tx.length F errors
  have e3 := diff_positions' (P := F) hel
  have e4 := inter_positions fields.length (FieldSays fields fun x s => x ≤ 0 ∧ s = 0) damaged
  have e5 := diff_positions fields.length (FieldSays fields fun x s => x ≤ 0 ∧ s = 0) damaged
  have e6 := diff_positions' (P := FieldSays fields fun x s => x ≤ 0 ∧ s = 0) hdl
  have e7 := inter_positions tx.length (fun i => F i ∧ m i ≠ (flipAt tx errors).getD i false) errors
  have e8 := diff_positions tx.length (fun i => F i ∧ m i ≠ (flipAt tx errors).getD i false) errors
  unfold forcingChar
  rw [forcedFields_positions _ h]
  simp only [bind, Except.bind]
  rw [if_pos (by
    rw [List.all_eq_true]
    intro i hi
    have := hlt i hi
    simp [flipAt_length, this])]
  rw [hflip, hwrong, e1, e2, e3, e4, e5, e6, e7, e8, flipAt_length]
  refine ⟨_, _, rfl, rfl, rfl, rfl, rfl, rfl, rfl, rfl, rfl, ?_, ?_, ?_, rfl, ?_, ?_⟩
  · exact performance_eq rfl rfl (by omega) (by omega)
  · exact performance_eq rfl rfl (by omega) (by omega)
  · exact performance_eq rfl rfl (by omega) (by omega)
  · split
    · rename_i hpos
      exact div_mul_cancel₀ _ (by exact_mod_cast hpos.ne')
    · rename_i hpos
      have : (positions tx.length F) = [] := List.length_eq_zero_iff.1 (by omega)
      have h0 : (positions tx.length fun i => F i ∧ m i ≠ tx.getD i false) = [] := by
        rw [← filter_positions tx.length F fun i => m i ≠ tx.getD i false, this]; rfl
      rw [this, h0]
      simp
  · intro h0
    rw [h0]
    rfl

/-- C81: replacing the forced bits by the model's leaves as many errors as there were, less those rightly flipped, plus those
wrongly flipped. -/
theorem c81_residual (fields : List (Option (String × ℝ × ℝ))) (h : none ∉ fields) (F : Nat → Prop) (m : Nat → Bool)
    (tx : List Bool) (damaged errors : List Nat) (hd : damaged.Nodup) (hdl : ∀ i ∈ damaged, i < fields.length)
    (he : errors.Nodup) (hel : ∀ i ∈ errors, i < tx.length) (r : ForcingChar)
    (hr : forcingChar fields (positions tx.length F) damaged errors (flipAt tx errors) tx
      ((positions tx.length F).map m) = .ok r) (repaired : Nat → Bool) (hF : ∀ i, F i → repaired i = m i)
    (hR : ∀ i, ¬ F i → repaired i = (flipAt tx errors).getD i false) :
    ((positions tx.length fun i => repaired i ≠ tx.getD i false).length : ℚ) + r.quality.getD 3 0 =
      r.quality.getD 0 0 + r.quality.getD 4 0 := by
  obtain ⟨r', share, hr', -, -, -, -, -, -, -, -, -, -, -, hq, -⟩ := c81_forcing fields h F m tx damaged errors hd hdl he hel
  rw [hr] at hr'
  cases hr'
  rw [hq]
  simp only [List.getD_cons_zero, List.getD_cons_succ]
  have hle := length_positions he hel
  have a1 := positions_split tx.length (· ∈ errors) fun i => F i ∧ m i ≠ (flipAt tx errors).getD i false
  have a2 := positions_split tx.length (fun i => repaired i ≠ tx.getD i false) (· ∈ errors)
  have b1 : positions tx.length (fun i => i ∈ errors ∧ repaired i ≠ tx.getD i false) =
      positions tx.length fun i => ¬ (F i ∧ m i ≠ (flipAt tx errors).getD i false) ∧ i ∈ errors := by
    refine positions_congr fun i hi => ?_
    have hg := flipAt_getD tx errors hi
    by_cases hf : F i
    · rw [hF i hf, hg]
      by_cases hie : i ∈ errors
      · simp [hie, hf]
      · simp [hie]
    · rw [hR i hf, hg]
      by_cases hie : i ∈ errors
      · simp [hie, hf]
      · simp [hie]
  have b2 : positions tx.length (fun i => ¬ i ∈ errors ∧ repaired i ≠ tx.getD i false) =
      positions tx.length fun i => (F i ∧ m i ≠ (flipAt tx errors).getD i false) ∧ i ∉ errors := by
    refine positions_congr fun i hi => ?_
    have hg := flipAt_getD tx errors hi
    by_cases hf : F i
    · rw [hF i hf, hg]
      by_cases hie : i ∈ errors
      · simp [hie]
      · simp [hie, hf]
    · rw [hR i hf, hg]
      by_cases hie : i ∈ errors
      · simp [hie]
      · simp [hie, hf]
  rw [b1, b2] at a2
  rw [hle]
  rw [← Nat.cast_add, ← Nat.cast_add, Nat.cast_inj]
  omega

example : ∃ (r : ForcingChar) (share : ℚ), forcingChar [some ("a", 0, 0), some ("b", 1, 1)] (positions 4 (· < 2)) [0] [0, 3]
      (flipAt [true, false, true, true] [0, 3]) [true, false, true, true] ((positions 4 (· < 2)).map fun _ => true) = .ok r ∧
    share * (positions 4 (· < 2)).length = (positions 4 fun i => i < 2 ∧ true ≠ [true, false, true, true].getD i false).length ∧
    r.bitsPerformance = tableOf 4 (· < 2) (· ∈ [0, 3]) := by
  obtain ⟨r, s, h, h1⟩ := c81_forcing [some ("a", 0, 0), some ("b", 1, 1)] (by simp) (· < 2) (fun _ => true)
    [true, false, true, true] [0] [0, 3] (by decide) (by decide) (by decide) (by decide)
  exact ⟨r, s, h, h1.2.2.2.2.2.2.2.2.2.2.2.2.1, h1.2.2.2.2.2.2.2.2.1⟩

end NR
