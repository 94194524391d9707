import Verif.Model.Recording
import Verif.Model.MsgFields
import Verif.Spec.Wire
/-
Specification vocabulary for buffers made from a recording.
-/
namespace NR.Spec
open NR

/-- Number in column `j` (column 0 is the time) of row `i` of a recorded sensor. -/
def recorded (s : Sensor) (j i : Nat) : FieldVal := .num (((s.times.map Val.int :: s.cols).getD j []).getD i (.int 0))

/-- Row `i` is the first one at or after time `t`. -/
def FirstAtOrAfter (times : List Int) (t : Int) (i : Nat) : Prop :=
  i < times.length ∧ t ≤ times.getD i 0 ∧ ∀ k < i, times.getD k 0 < t

/-- The row used for time `t`: the first one at or after `t` or, if the sensor has none, row 0. -/
def RowFor (times : List Int) (t : Int) (i : Nat) : Prop :=
  FirstAtOrAfter times t i ∨ (i = 0 ∧ times ≠ [] ∧ ∀ x ∈ times, x < t)

/-- The recording has a column for every wire field of the message class, with a value of the right type in each row. -/
def SensorFits (m : MsgClass) (s : Sensor) : Prop :=
  s.times ≠ [] ∧ s.cols.length + 1 = m.orderedFieldnames.length ∧ (∀ c ∈ s.cols, c.length = s.times.length) ∧
  ∀ i < m.fieldnames.length, ∀ row < s.times.length,
    FitsField (m.fieldtypes.getD i .char) 0 (recorded s (m.orders.getD i 0) row)

instance (m : MsgClass) (s : Sensor) : Decidable (SensorFits m s) := by unfold SensorFits; infer_instance

/-- All five sensors fit their message classes. -/
def RecordingFits (r : Recording) : Prop :=
  SensorFits Dialect.msg33 r.position ∧ SensorFits Dialect.msg234 r.pinger ∧ SensorFits Dialect.msg30 r.attitude ∧
  SensorFits Dialect.msg212 r.svs ∧ SensorFits Dialect.msg218 r.chamber

instance (r : Recording) : Decidable (RecordingFits r) := by unfold RecordingFits; infer_instance

/-- `f` is a frame of class `m` from system 1, component 1 with sequence number `seq`, and the receiver reads under the name
of wire field `j` the number in column `j` of the row for time `t`. -/
def CarriesRow (m : MsgClass) (s : Sensor) (t : Int) (seq : Nat) (f : List Byte) : Prop :=
  ∃ msg i, decode f = .ok msg ∧ msg.cls = m ∧ msg.seq = seq ∧ msg.srcSystem = 1 ∧ msg.srcComponent = 1 ∧
    RowFor s.times t i ∧
    ∀ j < m.orderedFieldnames.length, msg.attr (m.orderedFieldnames.getD j "") = some (recorded s j i)

/-- `fs` are the five frames of the buffer for time `t`, with sequence numbers from `seq` on. -/
structure FiveFrames (r : Recording) (t : Int) (seq : Nat) (f1 f2 f3 f4 f5 : List Byte) : Prop where
  len1 : f1.length = 52
  len2 : f2.length = 20
  len3 : f3.length = 36
  len4 : f4.length = 27
  len5 : f5.length = 18
  position : CarriesRow Dialect.msg33 r.position t (seq % 256) f1
  pinger : CarriesRow Dialect.msg234 r.pinger t ((seq + 1) % 256) f2
  attitude : CarriesRow Dialect.msg30 r.attitude t ((seq + 2) % 256) f3
  svs : CarriesRow Dialect.msg212 r.svs t ((seq + 3) % 256) f4
  chamber : CarriesRow Dialect.msg218 r.chamber t ((seq + 4) % 256) f5

/-- Where the five messages of a buffer start, in bytes, and their ids. -/
def fiveLayout : List (Nat × Nat) := [(0, 33), (52, 234), (72, 30), (108, 212), (135, 218)]

end NR.Spec
