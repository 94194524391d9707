import Verif.Model.Py
/-
Model of the reader of the ship's logs, runs/Feb_2022/data/ship_log_reader.py:6-22 (`break_down`) and 31-36. `int(...)` and
`datetime.strptime(...)` of the decoded bytes are parameters: `none` means that they (or the decoding) raise a ValueError.
-/
namespace NR

/-- The bytes of an ASCII literal. -/
def ascii (s : String) : List Byte := s.toList.map fun c => BitVec.ofNat 8 c.toNat

/-- `b.find(sep)`: the first position, `none` for -1. -/
def bytesFind (sep : List Byte) : List Byte → Option Nat
  | [] => if sep.isEmpty then some 0 else none
  | b :: l => if sep.isPrefixOf (b :: l) then some 0 else (bytesFind sep l).map (· + 1)

/-- The value of `b.find(sep)`. -/
def bytesFindInt (sep b : List Byte) : Int :=
  match bytesFind sep b with
  | some i => i
  | none => -1

/-- `b[i:j]` for any integers. -/
def sliceInt (b : List Byte) (i j : Int) : List Byte :=
  let norm (k : Int) : Nat := if k < 0 then (k + b.length).toNat else k.toNat
  pySlice b (norm i) (norm j)

/-- `b.split(sep)` for a non-empty separator: `skip` bytes of a separator are still to be passed over, `acc` is the current
piece, reversed. -/
def bytesSplitGo (sep : List Byte) (skip : Nat) (acc : List Byte) : List Byte → List (List Byte)
  | [] => [acc.reverse]
  | b :: l =>
    match skip with
    | skip + 1 => bytesSplitGo sep skip acc l
    | 0 => if sep.isPrefixOf (b :: l) then acc.reverse :: bytesSplitGo sep (sep.length - 1) [] l
      else bytesSplitGo sep 0 (b :: acc) l

/-- `b.split(sep)`. -/
def bytesSplit (sep b : List Byte) : List (List Byte) := bytesSplitGo sep 0 [] b

/-- One element of the result of `break_down`, ship_log_reader.py:13-19. -/
structure Acquisition (τ : Type) where
  rTime : τ
  size : Int
  success : Int
  payload : List Byte
  deriving DecidableEq, Repr

/-- The external parsers. -/
structure LogParsers (τ : Type) where
  time : List Byte → Option τ
  int : List Byte → Option Int

/-- A ValueError when the parser fails. -/
def orValueError {α : Type} : Option α → Except PyErr α
  | some a => .ok a
  | none => .error .valueError

/-- The body of the loop of `break_down`, ship_log_reader.py:9-21: `none` when the buffer is passed over. -/
def breakOne {τ : Type} (P : LogParsers τ) (buffer : List Byte) : Except PyErr (Option (Acquisition τ)) :=
  if 0 ≤ bytesFindInt (ascii "time: ") buffer then
    match (bytesSplit (ascii "data success: ") buffer)[1]? with
    | none => .error .indexError
    | some t => do
      let rTime ← orValueError (P.time (sliceInt buffer (bytesFindInt (ascii "time: ") buffer + 5)
        (bytesFindInt (ascii "\r\n") buffer)))
      let size ← orValueError (P.int (sliceInt buffer (bytesFindInt (ascii "data size: ") buffer + 11)
        (bytesFindInt (ascii "data success") buffer)))
      let success ← orValueError (P.int ((t.take 3).take 1))
      .ok (some ⟨rTime, size, success, (t.drop 3).take 123⟩)
  else .ok none

/-- `break_down`, ship_log_reader.py:6-22: an exception leaves no result. -/
def breakDown {τ : Type} (P : LogParsers τ) (buffers : List (List Byte)) : Except PyErr (List (Acquisition τ)) := do
  let rs ← buffers.mapM (breakOne P)
  .ok (rs.filterMap id)

/-- Reading one log file, ship_log_reader.py:32-36. -/
def readLog {τ : Type} (P : LogParsers τ) (log : List Byte) : Except PyErr (List (Acquisition τ)) :=
  breakDown P (bytesSplit (ascii "Aquisition ") log)

end NR
