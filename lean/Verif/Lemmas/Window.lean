import Verif.Spec.Window
import Verif.Model.Py
/-
Lemmas about sliding windows.
-/
namespace NR
open Spec

theorem lastN_length {α : Type _} (w : Nat) (l : List α) : (lastN w l).length = min l.length w := by
  simp [lastN]; omega

theorem lastN_of_le {α : Type _} {w : Nat} {l : List α} (h : l.length ≤ w) : lastN w l = l := by
  simp [lastN, Nat.sub_eq_zero_of_le h]

theorem lastN_lastN_append {α : Type _} (w : Nat) (l x : List α) : lastN w (lastN w l ++ x) = lastN w (l ++ x) := by
  simp only [lastN, List.length_append, List.length_drop]
  rw [← List.drop_append_of_le_length (by omega), List.drop_drop]
  congr 1
  omega

theorem windowed_append {α : Type _} (w : Option Nat) (l x : List α) :
    windowed w (windowed w l ++ x) = windowed w (l ++ x) := by
  match w with
  | none => rfl
  | some 0 => rfl
  | some (w + 1) => exact lastN_lastN_append _ _ _

theorem windowed_idem {α : Type _} (w : Option Nat) (l : List α) : windowed w (windowed w l) = windowed w l := by
  simpa using windowed_append w l []

/-- The trimming step of the code. -/
theorem trim_eq {α : Type _} (w : Option Nat) (l : List α) :
    (match w with
      | some w => if l.length > w then pyLast l w else l
      | none => l) = windowed w l := by
  match w with
  | none => rfl
  | some 0 =>
    simp only [pyLast, if_true, windowed]
    split <;> rfl
  | some (w + 1) =>
    simp only [pyLast, windowed, lastN]
    split
    · rfl
    · rename_i h
      simp [Nat.sub_eq_zero_of_le (Nat.le_of_not_lt h)]

theorem windowed_eq_nil {α : Type _} {w : Option Nat} {l : List α} : windowed w l = [] ↔ l = [] := by
  match w with
  | none => rfl
  | some 0 => rfl
  | some (w + 1) =>
    rw [← List.length_eq_zero_iff, ← List.length_eq_zero_iff]
    simp only [windowed, lastN_length]
    omega

theorem windowed_mem {α : Type _} {w : Option Nat} {l : List α} {x : α} (h : x ∈ windowed w l) : x ∈ l := by
  match w with
  | none => exact h
  | some 0 => exact h
  | some (w + 1) => exact List.mem_of_mem_drop h

end NR
