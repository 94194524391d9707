import Verif.Model.OldStudies
import Verif.Props.C102
/-
C104: what the oldest comparisons count as success.
-/
namespace NR
open Spec OldStudies

theorem rows_ok (row : Answer → Nat → List Cell) (words : List (List Bool)) (ans : List Answer)
    (h : ∀ x ∈ words.zip ans, x.2.estimate.length = x.1.length) :
    rows row (words.zip ans) = .ok ((words.zip ans).map fun x => row x.2 (diffCount x.2.estimate x.1)) := by
  generalize words.zip ans = l at h
  induction l with
  | nil => rfl
  | cons x l ih =>
    obtain ⟨tx, a⟩ := x
    have h1 : a.estimate.length = tx.length := h (tx, a) (by simp)
    simp only [rows, c01_counts_differences _ _ 8 h1, ih fun y hy => h y (List.mem_cons_of_mem _ hy), bind, Except.bind, List.map_cons]

theorem wrong_ok (words : List (List Bool)) (ans : List Answer) (h : ∀ x ∈ words.zip ans, x.2.estimate.length = x.1.length) :
    wrong (words.zip ans) = .ok (((words.zip ans).map fun x => diffCount x.2.estimate x.1).sum) := by
  generalize words.zip ans = l at h
  induction l with
  | nil => rfl
  | cons x l ih =>
    obtain ⟨tx, a⟩ := x
    have h1 : a.estimate.length = tx.length := h (tx, a) (by simp)
    simp only [wrong, c01_counts_differences _ _ 8 h1.symm, ih fun y hy => h y (List.mem_cons_of_mem _ hy), bind, Except.bind, List.map_cons,
      List.sum_cons, diffCount_comm tx]

theorem swap_sum (words : List (List Bool)) (ans : List Answer) :
    ((words.zip ans).map fun x => diffCount x.2.estimate x.1) =
      (((ans.map Answer.estimate).zip words).map fun x => diffCount x.1 x.2) := by
  induction words generalizing ans with
  | nil => simp
  | cons w ws ih => cases ans with
    | nil => rfl
    | cons a as => simp [ih]

/-- Counting by an entry that is the number of wrong bits. -/
theorem oldSuccesses_ok (pick : Pick) (row : Answer → Nat → List Cell) (hp : ∀ a n, pick (row a n) = .ok (.count n)) (words : List (List Bool))
    (ans : List Answer) :
    successes pick ((words.zip ans).map fun x => row x.2 (diffCount x.2.estimate x.1)) = .ok (exact (ans.map Answer.estimate) words) := by
  rw [← estimates_spec, ← swap_sum]
  generalize words.zip ans = l
  induction l with
  | nil => rfl
  | cons x l ih =>
    simp only [List.map_cons, successes, hp, ih, bind, Except.bind, Cell.isZero, List.countP_cons]
    by_cases h : diffCount x.2.estimate x.1 = 0 <;> simp [h, Nat.add_comm]

theorem pickLast_plain (a : Answer) (n : Nat) : pickLast (a.plainRow n) = .ok (.count n) := rfl
theorem pickLast_model (a : Answer) (n : Nat) : pickLast (a.modelRow n) = .ok (.count n) := rfl
theorem pickFive_model (a : Answer) (n : Nat) : pickFive (a.modelRow n) = .ok (.count n) := rfl
theorem pickFive_plain (a : Answer) (n : Nat) : pickFive (a.plainRow n) = .ok (.array a.validity) := rfl

/-- C104: a study that takes the last entry reports, for every one of the three decoders, the number of words decoded exactly and the
number of wrong bits, as shares of all words and of all bits. -/
theorem c104_last (N : Nat) (hN : 0 < N) (p : ℚ) (words : List (List Bool)) (hne : words ≠ []) (hw : ∀ w ∈ words, w.length = N)
    (plain entropy flipping : List Answer) (h1 : plain.length = words.length) (h2 : entropy.length = words.length)
    (h3 : flipping.length = words.length) (he : ∀ a ∈ plain ++ entropy ++ flipping, a.estimate.length = N) :
    ∃ r, study pickLast N p words plain entropy flipping = .ok r ∧ r.bufferLen = N ∧ r.number = words.length ∧
      r.rawBer * N = errorCount N p ∧
      ∀ x ∈ [(r.ldpc, plain), (r.entropy, entropy), (r.flipping, flipping)],
        x.1.success * words.length = exact (x.2.map Answer.estimate) words ∧
        x.1.ber * (words.length * N) = wrongBits (x.2.map Answer.estimate) words := by
  have hz : ∀ ans : List Answer, (∀ a ∈ ans, a.estimate.length = N) → ∀ x ∈ words.zip ans, x.2.estimate.length = x.1.length := by
    intro ans ha x hx
    rw [ha _ (List.of_mem_zip hx).2, hw _ (List.of_mem_zip hx).1]
  have za := hz plain fun a ha => he a (by simp [ha])
  have zb := hz entropy fun a ha => he a (by simp [ha])
  have zc := hz flipping fun a ha => he a (by simp [ha])
  cases words with
  | nil => exact absurd rfl hne
  | cons w ws =>
    have hwl : w.length = N := hw w (by simp)
    have hN' : (N : ℚ) ≠ 0 := by positivity
    have hl' : ((ws.length : ℚ) + 1) ≠ 0 := by positivity
    refine ⟨_, (by
      unfold study
      rw [rows_ok _ _ _ za, rows_ok _ _ _ zb, rows_ok _ _ _ zc]
      simp only [bind, Except.bind]
      rw [oldSuccesses_ok _ _ pickLast_plain, oldSuccesses_ok _ _ pickLast_model, oldSuccesses_ok _ _ pickLast_model]
      simp only [hwl, if_neg (by omega : ¬ N = 0)]
      rw [wrong_ok _ _ za, wrong_ok _ _ zb, wrong_ok _ _ zc]), rfl, rfl, by field_simp, ?_⟩
    · intro x hx
      simp only [List.mem_cons, List.not_mem_nil, or_false] at hx
      unfold wrongBits
      rcases hx with rfl | rfl | rfl <;> (rw [← swap_sum, List.length_cons]; push_cast; constructor <;> field_simp)

/-- C104: a study that takes entry number five is lost with a TypeError after all words have been decoded, whatever the decoders
answer: for the plain decoder that entry is an array with one value for each bit. -/
theorem c104_five (N : Nat) (hN : 1 < N) (p : ℚ) (words : List (List Bool)) (hne : words ≠ []) (hw : ∀ w ∈ words, w.length = N)
    (plain entropy flipping : List Answer) (h1 : plain.length = words.length)
    (he : ∀ a ∈ plain ++ entropy ++ flipping, a.estimate.length = N) (hv : ∀ a ∈ plain, a.validity.length = N) :
    study pickFive N p words plain entropy flipping = .error .typeError := by
  have hz : ∀ ans : List Answer, (∀ a ∈ ans, a.estimate.length = N) → ∀ x ∈ words.zip ans, x.2.estimate.length = x.1.length := by
    intro ans ha x hx
    rw [ha _ (List.of_mem_zip hx).2, hw _ (List.of_mem_zip hx).1]
  unfold study
  rw [rows_ok _ _ _ (hz plain fun a ha => he a (by simp [ha])), rows_ok _ _ _ (hz entropy fun a ha => he a (by simp [ha])),
    rows_ok _ _ _ (hz flipping fun a ha => he a (by simp [ha]))]
  cases words with
  | nil => exact absurd rfl hne
  | cons w ws => cases plain with
    | nil => simp at h1
    | cons a as =>
      have : a.validity.length = N := hv a (by simp)
      have e : (Cell.array a.validity).isZero = .error .typeError := by
        match hl : a.validity with
        | [] => rfl
        | [x] => rw [hl] at this; simp at this; omega
        | _ :: _ :: _ => rfl
      simp only [List.zip_cons_cons, List.map_cons, successes, pickFive_plain, e, bind, Except.bind]

/-- C104: for the decoders with a model entry number five is the last one, so their counts alone would be right. -/
theorem c104_five_models (words : List (List Bool)) (ans : List Answer) (h : ∀ x ∈ words.zip ans, x.2.estimate.length = x.1.length) :
    ∃ rs, rows Answer.modelRow (words.zip ans) = .ok rs ∧ successes pickFive rs = .ok (exact (ans.map Answer.estimate) words) :=
  ⟨_, rows_ok _ _ _ h, oldSuccesses_ok _ _ pickFive_model _ _⟩

/-! ### A case -/

/-- An answer of the plain decoder for a word of two bits. -/
def exAnswer (e : List Bool) (ok : Bool) : Answer := ⟨e, [1, 2], ok, 3, [0], [0, 0], 1⟩

/-- Two words of two bits; the plain decoder misses the second one. -/
theorem c104_example :
    ∃ r, study pickLast 2 (1 / 2) [[true, false], [false, false]] [exAnswer [true, false] true, exAnswer [true, true] false]
        [exAnswer [true, false] true, exAnswer [false, false] true] [exAnswer [true, true] false, exAnswer [false, false] true] = .ok r ∧
      r.ldpc = ⟨1 / 2, 1 / 2⟩ ∧ r.entropy = ⟨1, 0⟩ ∧ r.flipping = ⟨1 / 2, 1 / 4⟩ ∧ r.rawBer = 1 / 2 := by
  obtain ⟨r, h, -, -, h4, h5⟩ := c104_last 2 (by decide) (1 / 2) [[true, false], [false, false]] (by simp) (by simp)
    [exAnswer [true, false] true, exAnswer [true, true] false]
    [exAnswer [true, false] true, exAnswer [false, false] true] [exAnswer [true, true] false, exAnswer [false, false] true]
    rfl rfl rfl (by simp [exAnswer])
  refine ⟨r, h, ?_⟩
  have a1 := h5 _ (.head _)
  have a2 := h5 _ (.tail _ (.head _))
  have a3 := h5 _ (.tail _ (.tail _ (.head _)))
  rw [show exact (List.map Answer.estimate [exAnswer [true, false] true, exAnswer [true, true] false]) [[true, false], [false, false]] = 1
      by decide, show wrongBits (List.map Answer.estimate [exAnswer [true, false] true, exAnswer [true, true] false])
      [[true, false], [false, false]] = 2 by decide] at a1
  rw [show exact (List.map Answer.estimate [exAnswer [true, false] true, exAnswer [false, false] true]) [[true, false], [false, false]] = 2
      by decide, show wrongBits (List.map Answer.estimate [exAnswer [true, false] true, exAnswer [false, false] true])
      [[true, false], [false, false]] = 0 by decide] at a2
  rw [show exact (List.map Answer.estimate [exAnswer [true, true] false, exAnswer [false, false] true]) [[true, false], [false, false]] = 1
      by decide, show wrongBits (List.map Answer.estimate [exAnswer [true, true] false, exAnswer [false, false] true])
      [[true, false], [false, false]] = 1 by decide] at a3
  rw [show errorCount 2 (1 / 2) = 1 by norm_num [errorCount]; rfl] at h4
  simp only [List.length_cons, List.length_nil] at a1 a2 a3
  push_cast at a1 a2 a3
  refine ⟨?_, ?_, ?_, ?_⟩
  · cases hr : r.ldpc with
    | mk s b => rw [hr] at a1; simp only [Rates.mk.injEq]; constructor <;> linarith [a1.1, a1.2]
  · cases hr : r.entropy with
    | mk s b => rw [hr] at a2; simp only [Rates.mk.injEq]; constructor <;> linarith [a2.1, a2.2]
  · cases hr : r.flipping with
    | mk s b => rw [hr] at a3; simp only [Rates.mk.injEq]; constructor <;> linarith [a3.1, a3.2]
  · push_cast at h4; linarith

/-- The claim that a comparison in which every decoder answers is reported does not hold for a study that takes entry number five. -/
theorem c104_false : ¬ ∀ (N : Nat) (words : List (List Bool)) (plain entropy flipping : List Answer), 0 < N → words ≠ [] →
    (∀ w ∈ words, w.length = N) → plain.length = words.length → entropy.length = words.length → flipping.length = words.length →
    (∀ a ∈ plain ++ entropy ++ flipping, a.estimate.length = N) → (∀ a ∈ plain, a.validity.length = N) →
    ∃ r, study pickFive N (1 / 2) words plain entropy flipping = .ok r := by
  intro h
  obtain ⟨r, hr⟩ := h 2 [[true, false]] [exAnswer [true, false] true] [exAnswer [true, false] true] [exAnswer [true, false] true]
    (by decide) (by simp) (by simp) rfl rfl rfl (by simp [exAnswer]) (by simp [exAnswer])
  rw [c104_five 2 (by decide) _ _ (by simp) (by simp) _ _ _ rfl (by simp [exAnswer]) (by simp [exAnswer])] at hr
  cases hr

end NR
