import Verif.Model.CommandTables
/-
What it means that a recorded command repeats a run.
-/
namespace NR.Spec
open NR.Command

/-- `float` inverts `str` of a float, and reads an integer as that number. -/
structure LawfulFloats {F : Type} (fl : Floats F) : Prop where
  round : ∀ x, fl.read (fl.text x) = some x
  ints : ∀ i : Int, fl.read (textI i) = some (fl.lit i)

/-- A negative decimal number without exponent. -/
def NegDecimal (w : Word) : Prop := ∃ d e : Word, e ≠ [] ∧ (∀ c ∈ d ++ e, '0' ≤ c ∧ c ≤ '9') ∧
  (w = '-' :: e ∨ w = '-' :: (d ++ '.' :: e))

/-- A word that can stand behind an option. -/
def OneWord (w : Word) : Prop := w ≠ [] ∧ ' ' ∉ w ∧ (w.head? = some '-' → NegDecimal w)

/-- The arguments of a run: every option has a value of its type (options for floats may hold an integer, as their defaults
sometimes do), printed as one word. -/
def Runnable {F : Type} (fl : Floats F) (s : Script) (a : Args F) : Prop := ∀ o ∈ s.opts, match o.ty, a o.name with
  | .int, .int _ => True
  | .float, .int _ => True
  | .float, .float x => OneWord (fl.text x)
  | .str, .str w => OneWord w
  | _, _ => False

/-- The same setting: the same value, the same number as a float, or, where zero and negative numbers mean that a feature is
off, two such numbers. -/
def SameSetting {F : Type} (fl : Floats F) (name : String) (v v' : Val F) : Prop :=
  v' = v ∨ (∃ i : Int, v = .int i ∧ v' = .float (fl.lit i)) ∨
    (name ∈ ["window_len", "processes", "multiply_data"] ∧ ∃ i j : Int, i ≤ 0 ∧ j ≤ 0 ∧ v = .int i ∧ v' = .int j)

/-- Scripts whose command argparse does not accept. -/
def unusable : List String :=
  ["runs/HC_eilat_July_2018/classifying_entropy_decoder_over_awgn_channel.py", "runs/HC_eilat_July_2018/simulated_data_pretrained_model.py",
    "runs/clsutering_analysis/clustering_analysis.py"]

/-- Options that are not, or not always, in the command. -/
def forgotten : List (String × String) :=
  [("runs/Feb_2022/experimental_data_unified_decoder.py", "cluster"), ("runs/Feb_2023/experimental_data_unified_decoder.py", "cluster"),
    ("runs/Feb_2023/experimental_data_run_feb_23.py", "separate_models"), ("runs/Feb_2023/experimental_mavlink_based.py", "separate_models"),
    ("runs/HC_eilat_July_2018/simulated_data_entropy_bitwise_decoder_weighted_model_averaged.py", "window_len"),
    ("runs/HC_eilat_July_2018/simulated_data_entropy_bitwise_decoder_weighted_model.py", "processes")]

/-- When an option of `forgotten` is missing: a window length that is off, and the number of processes if `N` is. -/
def Missing {F : Type} (a : Args F) (x : String) : Prop :=
  (x = "window_len" → num a "window_len" ≤ 0) ∧ (x = "processes" → num a "N" ≤ 0)

end NR.Spec
