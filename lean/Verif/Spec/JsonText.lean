import Verif.Model.JsonText
/-
What is assumed about Python's floats in saved files.
-/
namespace NR.Spec
open NR.JsonText

/-- One or more decimal digits. -/
def IsDigits (t : Text) : Prop := t ≠ [] ∧ ∀ c ∈ t, c ∈ "0123456789".toList

/-- The text of a float: an optional minus sign, digits without a leading zero, a point with digits or an exponent or both (`-12.5`, `1e-07`). -/
def FloatText (t : Text) : Prop :=
  ∃ sign int frac exp, t = sign ++ int ++ frac ++ exp ∧ (sign = [] ∨ sign = ['-']) ∧
    (int = ['0'] ∨ IsDigits int ∧ int.head? ≠ some '0') ∧
    (frac = [] ∨ ∃ ds, IsDigits ds ∧ frac = '.' :: ds) ∧
    (exp = [] ∨ ∃ s ds, (s = [] ∨ s = ['-'] ∨ s = ['+']) ∧ IsDigits ds ∧ exp = 'e' :: (s ++ ds)) ∧ ¬ (frac = [] ∧ exp = [])

/-- A telemetry float that is neither infinite nor NaN: not all exponent bits are set. -/
def Finite32 (b : BitVec 32) : Prop := b.toNat / 2 ^ 23 % 256 ≠ 255

/-- Python's floats: `repr` writes NaN, Infinity, -Infinity or a number that `float` reads back as the same float, and a finite telemetry
float is that float again after it has been made a Python float and back. -/
structure FloatIO.Lawful {F μ : Type} (io : FloatIO F μ) : Prop where
  text : ∀ x, io.repr x = "NaN".toList ∧ x = io.nan ∨ io.repr x = "Infinity".toList ∧ x = io.inf ∨
    io.repr x = "-Infinity".toList ∧ x = io.negInf ∨ FloatText (io.repr x) ∧ io.read (io.repr x) = x
  narrow : ∀ b, Finite32 b → io.narrow (io.widen b) = b

/-- A sample that is an integer or a finite float. -/
def Number (v : Val) : Prop := (∃ i, v = .int i) ∨ ∃ b, v = .flt b ∧ Finite32 b

/-- A loaded model stands for a saved one: the same window, size, description and field names, the fields in alphabetical order with the
same type, window and samples, and the same answers to every question. -/
def Restores {μ : Type} (O : StatOps Val μ) (bm ld : BufferModel μ) : Prop :=
  ld.windowSize = bm.windowSize ∧ ld.modelSize = bm.modelSize ∧ ld.description = bm.description ∧ ld.orderedFieldNames = bm.orderedFieldNames ∧
    (ld.models.map Prod.fst).Perm (bm.models.map Prod.fst) ∧ (ld.models.map Prod.fst).Pairwise (· ≤ ·) ∧
    ∀ name,
      (ld.models.lookup name).map (fun m => (m.name, m.fieldType, m.windowSize, m.samples)) =
        (bm.models.lookup name).map (fun m => (m.name, m.fieldType, m.windowSize, m.samples)) ∧
      ∀ r, (ld.models.lookup name).map (fun m => (m.read O r).2) = (bm.models.lookup name).map (fun m => (m.read O r).2)

/-- A history of calls of `save` with the same filename, each with how far it came before the process stopped. -/
def fileAfter {F μ : Type} (io : FloatIO F μ) (O : StatOps Val μ) (calls : List (BufferModel μ × Progress)) : Option Text :=
  calls.foldl (fun old c => saveFile io O c.1 old c.2) none

/-- A call that came to open the file. -/
def Opened {μ : Type} (O : StatOps Val μ) (c : BufferModel μ × Progress) : Prop := (∃ j, (c.1.save O).2 = .ok j) ∧ c.2 ≠ .before

end NR.Spec
