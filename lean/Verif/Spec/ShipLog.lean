import Verif.Model.Py
/-
The log the receiver on the ship writes, as far as the reader depends on it.
-/
namespace NR.Spec

/-- The bytes of a text. -/
def text (s : String) : List Byte := s.toList.map fun c => BitVec.ofNat 8 c.toNat

/-- One acquisition: its number, the time, any text, the size, the success flag and the received bytes. -/
structure LogEntry where
  num : List Byte
  time : List Byte
  between : List Byte
  size : List Byte
  flag : Byte
  payload : List Byte

/-- What is written for an acquisition up to the received bytes. -/
def LogEntry.header (e : LogEntry) : List Byte :=
  text "Aquisition " ++ e.num ++ text "time: " ++ e.time ++ text "\r\n" ++ e.between ++ text "data size: " ++ e.size ++
    text "data success: "

/-- What is written for an acquisition. -/
def LogEntry.written (e : LogEntry) : List Byte := e.header ++ e.flag :: text "\r\n" ++ e.payload

/-- Text that cannot be taken for a marker: no `A`, `d`, `t` and no carriage return. -/
def Plain (l : List Byte) : Prop := ∀ b ∈ l, b ∉ text "Adt\r"

/-- The texts are plain and the received bytes contain no marker. -/
structure LogEntry.Clean (e : LogEntry) : Prop where
  num : Plain e.num
  time : Plain e.time
  between : Plain e.between
  size : Plain e.size
  flag : Plain [e.flag]
  noStart : ¬ text "Aquisition " <:+: e.payload
  noData : ¬ text "data success: " <:+: e.payload

end NR.Spec
