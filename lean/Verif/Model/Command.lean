import Mathlib.Data.Nat.Digits.Defs
import Mathlib.Data.Rat.Defs
import Mathlib.Logic.Function.Basic
/-
Model of the command that every run script writes to `cmd.txt`, and of running it again: the shell cuts it into words and
`argparse` reads them. The tables of the scripts are in `CommandTables`. Words are lists of characters.
Simplifications: the shell only cuts at blanks (no quoting and no special characters), option words hold no `=`, the path
of the script holds no blanks, and of `float` and `str(float)` it is only used that they invert each other.
-/
namespace NR.Command

abbrev Word := List Char

/-- The `type` of an option. -/
inductive Ty where
  | int | float | str
  deriving DecidableEq

/-- A default. -/
inductive Dflt where
  | int (i : Int) | float (q : ℚ) | str (s : String)
  deriving DecidableEq

/-- `parser.add_argument("--name", default=..., type=...)`. -/
structure Opt where
  name : String
  ty : Ty
  dflt : Dflt
  deriving DecidableEq

/-- The conditions under which a part is appended to `cmd`: none, `args.N > 0`, `window_len is not None`, its negation,
`processes is not None`, both of the former, `args.multiply_data > 0`. -/
inductive Cond where
  | always | nPos | win | noWin | procs | nPosProcs | mulPos
  deriving DecidableEq

/-- What is printed behind an option: `args.x` (or a name for it), `n` (when it is `len(encoded)`), `window_len`,
`processes`, `bool(args.x)`, the text `0`. -/
inductive Src where
  | arg (name : String) | count | window | procs | truth (name : String) | zero
  deriving DecidableEq

/-- ` --flag {src}`, appended under a condition. -/
structure Piece where
  cond : Cond
  flag : String
  src : Src
  deriving DecidableEq

/-- A script: its options and its command. -/
structure Script where
  file : String
  opts : List Opt
  pieces : List Piece
  deriving DecidableEq

/-- A value of an option. -/
inductive Val (F : Type) where
  | int (i : Int) | float (x : F) | str (w : Word)

/-- Floats: `str(x)`, `float(w)` and literals. -/
structure Floats (F : Type) where
  text : F → Word
  read : Word → Option F
  lit : ℚ → F

/-- The namespace returned by `parse_args`. -/
abbrev Args (F : Type) := String → Val F

def digitChar (d : Nat) : Char := Char.ofNat (48 + d)

/-- `str(n)` for a natural number. -/
def textN (n : Nat) : Word := if n = 0 then ['0'] else (Nat.digits 10 n).reverse.map digitChar

/-- `str(i)`. -/
def textI (i : Int) : Word := if i < 0 then '-' :: textN i.natAbs else textN i.natAbs

def isDigit (c : Char) : Bool := 48 ≤ c.toNat && c.toNat ≤ 57

def digits (w : Word) : Bool := !w.isEmpty && w.all isDigit

/-- A number without its sign. -/
def unsigned : Word → Word
  | '-' :: r => r
  | '+' :: r => r
  | r => r

/-- The value of digits. -/
def value (w : Word) : Nat := Nat.ofDigits 10 (w.reverse.map fun c => c.toNat - 48)

/-- `int(w)`. Simplification: no blanks or underscores around or between the digits. -/
def readI (w : Word) : Option Int :=
  if digits (unsigned w) then some (if w.head? = some '-' then -(value (unsigned w) : Int) else value (unsigned w)) else none

/-- The number of option `x`, 0 if it is not an integer. -/
def num {F : Type} (a : Args F) (x : String) : Int := match a x with
  | .int i => i
  | _ => 0

/-- Whether a part is appended. `window_len` and `processes` are `None` unless the argument is positive. -/
def Cond.holds {F : Type} (a : Args F) : Cond → Bool
  | .always => true
  | .nPos => decide (num a "N" > 0)
  | .win => decide (num a "window_len" > 0)
  | .noWin => !decide (num a "window_len" > 0)
  | .procs => decide (num a "processes" > 0)
  | .nPosProcs => decide (num a "N" > 0) && decide (num a "processes" > 0)
  | .mulPos => decide (num a "multiply_data" > 0)

/-- `str` of a value. -/
def Val.text {F : Type} (fl : Floats F) : Val F → Word
  | .int i => textI i
  | .float x => fl.text x
  | .str w => w

/-- What stands behind an option; `n` is the number of words of the run. -/
def Src.text {F : Type} (fl : Floats F) (a : Args F) (n : Nat) : Src → Word
  | .arg x => (a x).text fl
  | .count => textN n
  | .window => if num a "window_len" > 0 then textI (num a "window_len") else "None".toList
  | .procs => if num a "processes" > 0 then textI (num a "processes") else "None".toList
  | .truth x => if num a x = 0 then "False".toList else "True".toList
  | .zero => ['0']

/-- `--name`. -/
def flagWord (name : String) : Word := '-' :: '-' :: name.toList

/-- The text in `cmd.txt`; the lines of each script are cited in `CommandTables`. Double blanks are written as one. -/
def command {F : Type} (fl : Floats F) (s : Script) (a : Args F) (n : Nat) : List Char :=
  "python".toList ++ ' ' :: s.file.toList ++ (s.pieces.filter fun p => p.cond.holds a).flatMap fun p =>
    ' ' :: flagWord p.flag ++ ' ' :: p.src.text fl a n

/-- The words of a command line. -/
def words (cs : List Char) : List Word := (cs.splitOnP (· == ' ')).filter fun w => !w.isEmpty

/-- `^-\d+$|^-\d*\.\d+$`, by which argparse tells negative numbers from options. -/
def negNumber : Word → Bool
  | '-' :: r => digits r || match r.dropWhile isDigit with
    | '.' :: e => digits e
    | _ => false
  | _ => false

/-- What argparse takes a word for: an argument, an option, or an error. -/
inductive Kind where
  | arg | flag (o : Opt) | bad

/-- `_parse_optional` of argparse: options may be abbreviated. -/
def kind (opts : List Opt) (w : Word) : Kind :=
  if w.head? ≠ some '-' ∨ w = ['-'] then .arg
  else match opts.find? fun o => decide (flagWord o.name = w) with
    | some o => .flag o
    | none => match opts.filter fun o => decide (['-', '-'] <+: w ∧ w <+: flagWord o.name) with
      | [o] => .flag o
      | _ :: _ :: _ => .bad
      | [] => if negNumber w then .arg else .bad

/-- `type(word)`. -/
def convert {F : Type} (fl : Floats F) (w : Word) : Ty → Option (Val F)
  | .int => (readI w).map .int
  | .float => (fl.read w).map .float
  | .str => some (.str w)

/-- argparse ends the program when it cannot read its arguments. -/
inductive Exit where
  | systemExit
  deriving DecidableEq

/-- `parser.parse_args`: options with one argument each, the last one counting; everything else ends the program
(`SystemExit`). -/
def parse {F : Type} (fl : Floats F) (opts : List Opt) : List Word → Args F → Except Exit (Args F)
  | [], a => .ok a
  | w :: ws, a => match kind opts w with
    | .flag o => match ws with
      | [] => .error .systemExit
      | v :: ws => match kind opts v with
        | .arg => match convert fl v o.ty with
          | some x => parse fl opts ws (Function.update a o.name x)
          | none => .error .systemExit
        | _ => .error .systemExit
    | _ => .error .systemExit

/-- A default as a value. Only defaults that are strings are converted, to strings in these scripts. -/
def Dflt.val {F : Type} (fl : Floats F) : Dflt → Val F
  | .int i => .int i
  | .float q => .float (fl.lit q)
  | .str s => .str s.toList

/-- The defaults of all options. -/
def defaults {F : Type} (fl : Floats F) (opts : List Opt) : Args F := fun x =>
  match opts.find? fun o => decide (o.name = x) with
  | some o => o.dflt.val fl
  | none => .str []

/-- Running the recorded command: what `parse_args` returns for it. -/
def replay {F : Type} (fl : Floats F) (s : Script) (a : Args F) (n : Nat) : Except Exit (Args F) :=
  parse fl s.opts ((words (command fl s a n)).drop 2) (defaults fl s.opts)

/-- The words a run works on, e.g. simulate_gallager_bf.py:44-62: those of the first `N` buffers, or of all, with `cut` being
the words made of one buffer; the list is then appended to itself `m` times. -/
def encoded {β ω : Type} (cut : β → List ω) (data : List β) (N : Int) (m : Nat) : List ω :=
  (fun (e : List ω) => e ++ e)^[m] ((data.take (if N > 0 then N.toNat else data.length)).flatMap cut)

end NR.Command
