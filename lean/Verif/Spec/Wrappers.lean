import Verif.Model.Wrappers
/-
What a caller of the generated `*_encode` and `*_send` methods expects.
-/
namespace NR.Spec
open Dialect

/-- The name of the method for a message type: its name in lower case, followed by the suffix. -/
def methodName (m : MsgClass) (suffix : String) : String :=
  String.ofList (m.name.toList.map Char.toLower ++ suffix.toList)

/-- The only field with a default: the version in a heartbeat, which is 3. -/
def fieldDefault (m : MsgClass) (name : String) : Option FieldVal :=
  if m.name = "HEARTBEAT" ∧ name = "mavlink_version" then some (.num (.int 3)) else none

/-- A call with positional arguments `pos` and keyword arguments `kw` gives the names the values `vals`: the first names by
position, the others by keyword or default, and there is no other keyword. -/
def Gives (names : List String) (default : String → Option FieldVal) (pos : List FieldVal)
    (kw : List (String × FieldVal)) (vals : List FieldVal) : Prop :=
  pos.length ≤ names.length ∧ vals.length = names.length ∧
  (∀ a ∈ kw, ∃ i, pos.length ≤ i ∧ names[i]? = some a.1) ∧
  ∀ i name v, names[i]? = some name → vals[i]? = some v →
    pos[i]? = some v ∨ (pos.length ≤ i ∧ (name, v) ∈ kw) ∨
    (pos.length ≤ i ∧ (∀ a ∈ kw, a.1 ≠ name) ∧ default name = some v)

/-- The keywords of a call are distinct. -/
def Keywords (kw : List (String × FieldVal)) : Prop := (kw.map Prod.fst).Nodup

/-- The names a `*_send` method accepts: the fields and `force_mavlink1`, which is `False` by default. -/
def sendNames (m : MsgClass) : List String := m.fieldnames ++ ["force_mavlink1"]

def sendDefault (m : MsgClass) (name : String) : Option FieldVal :=
  if name = "force_mavlink1" then some (.num (.int 0)) else fieldDefault m name

end NR.Spec
