import Verif.Model.Recording
import Mathlib.Tactic.FieldSimp
import Mathlib.Tactic.Positivity
import Mathlib.Algebra.Order.Field.Rat
/-
C79: the bit distribution learned from encoded words (train_estimator.py).
-/
namespace NR

namespace Spec

/-- Number of words whose bit `j` is one. -/
def oneBits (words : List (List Bool)) (j : Nat) : Nat := words.countP fun w => w[j]? = some true

/-- Number of words whose bit `j` is zero. -/
def zeroBits (words : List (List Bool)) (j : Nat) : Nat := words.countP fun w => w[j]? = some false

end Spec

open Spec

theorem sum_wrapped (l : List (List Bool)) (j a : Nat) (ha : a < 65536) :
    (l.map fun w => if w.getD j false then 1 else 0).foldl (fun a b => (a + b) % 65536) a = (a + oneBits l j) % 65536 := by
  induction l generalizing a with
  | nil => simp [oneBits, Nat.mod_eq_of_lt ha]
  | cons w l ih =>
    rw [List.map_cons, List.foldl_cons, ih _ (Nat.mod_lt _ (by omega))]
    have h : oneBits (w :: l) j = oneBits l j + if w.getD j false then 1 else 0 := by
      rw [oneBits, List.countP_cons, List.getD_eq_getElem?_getD]
      cases hw : w[j]? with
      | none => simp [oneBits]
      | some b => cases b <;> simp [oneBits]
    rw [h]
    omega

theorem ones_zeros (l : List (List Bool)) (n j : Nat) (hl : ∀ w ∈ l, w.length = n) (hj : j < n) :
    oneBits l j + zeroBits l j = l.length := by
  induction l with
  | nil => rfl
  | cons w l ih =>
    have := ih fun w hw => hl w (by simp [hw])
    have hw := hl w (by simp)
    rw [oneBits, zeroBits, List.countP_cons, List.countP_cons, List.length_cons]
    rw [oneBits, zeroBits] at this
    rw [List.getElem?_eq_getElem (by omega)]
    cases w[j] <;> simp <;> omega

/-- C79: for every non-empty collection of fewer than 65536 words of `n` bits, row `j` of the learned distribution is the share
of the words whose bit `j` is zero and the share of those whose bit `j` is one. -/
theorem c79_shares (words : List (List Bool)) (n : Nat) (hl : ∀ w ∈ words, w.length = n) (h0 : words ≠ [])
    (hw : words.length < 65536) :
    ∃ dist, trainDist words n = .ok dist ∧ dist.length = n ∧ ∀ j, j < n →
      dist[j]? = some ((zeroBits words j : ℚ) / words.length, (oneBits words j : ℚ) / words.length) := by
  refine ⟨_, by rw [trainDist, if_neg h0], by simp, ?_⟩
  intro j hj
  rw [List.getElem?_map, List.getElem?_range hj, Option.map_some]
  simp only [Option.some.injEq]
  rw [sum_wrapped _ _ _ (by omega), Nat.zero_add]
  have hz := ones_zeros words n j hl hj
  rw [Nat.mod_eq_of_lt (by omega)]
  have hpos : (words.length : ℚ) ≠ 0 := by
    have : words.length ≠ 0 := by simpa using h0
    exact_mod_cast this
  have hq : (oneBits words j : ℚ) + zeroBits words j = words.length := by exact_mod_cast hz
  refine Prod.ext ?_ rfl
  simp only
  field_simp
  rw [← hq]; simp

/-- C79: every row is a probability distribution, whatever the number of words. -/
theorem c79_distribution (words : List (List Bool)) (n : Nat) (dist : List (ℚ × ℚ)) (hd : trainDist words n = .ok dist) :
    ∀ r ∈ dist, 0 ≤ r.1 ∧ 0 ≤ r.2 ∧ r.1 + r.2 = 1 := by
  unfold trainDist at hd
  split at hd
  · cases hd
  · rename_i h0
    cases hd
    intro r hr
    obtain ⟨j, _, rfl⟩ := List.mem_map.1 hr
    simp only
    rw [sum_wrapped _ _ _ (by omega), Nat.zero_add]
    have hpos : (0 : ℚ) < words.length := by
      have : 0 < words.length := by
        rcases Nat.eq_zero_or_pos words.length with h | h
        · exact absurd (List.length_eq_zero_iff.1 h) h0
        · exact h
      exact_mod_cast this
    have hle : ((oneBits words j % 65536 : Nat) : ℚ) ≤ words.length := by
      have : oneBits words j ≤ words.length := List.countP_le_length
      exact_mod_cast Nat.le_trans (Nat.mod_le _ _) this
    refine ⟨?_, by positivity, by simp⟩
    have := (div_le_one hpos).2 hle
    exact sub_nonneg.2 this

/-- C79: no words raise ZeroDivisionError. -/
theorem c79_empty (n : Nat) : trainDist [] n = .error .zeroDivisionError := rfl

/-- C79: expectation that fails: with 65536 words the 16-bit sums wrap around, so a bit that is always one is learned to be
always zero. -/
theorem c79_shares_false : ¬ ∀ (words : List (List Bool)) (n : Nat) (dist : List (ℚ × ℚ)), (∀ w ∈ words, w.length = n) →
    trainDist words n = .ok dist → ∀ j, j < n → (dist[j]?).map Prod.snd = some ((oneBits words j : ℚ) / words.length) := by
  intro h
  have hne : List.replicate 65536 [true] ≠ [] := by rw [ne_eq, List.replicate_eq_nil_iff]; omega
  have hones : oneBits (List.replicate 65536 [true]) 0 = 65536 := by
    rw [oneBits, List.countP_replicate]; rfl
  have := h (List.replicate 65536 [true]) 1 _ (fun w hw => by rw [List.eq_of_mem_replicate hw]; rfl)
    (by rw [trainDist, if_neg hne]) 0 (by omega)
  rw [List.getElem?_map, List.getElem?_range (by omega), Option.map_some, Option.map_some] at this
  simp only [Option.some.injEq] at this
  rw [sum_wrapped _ _ _ (by omega), hones, List.length_replicate] at this
  revert this
  decide +kernel

/-- Three words of two bits: the first bit is one in two of them. -/
example : trainDist [[true, false], [true, true], [false, false]] 2 = .ok [(1 / 3, 2 / 3), (2 / 3, 1 / 3)] := by
  decide +kernel

end NR
