import Verif.Model.XmlTables
/-
The enumerations of the generated dialects.
-/
namespace NR

/-- mavlink_utils/HC_dialect.py:267-2029, minimal_dialect.py:267-2029: `enums[name][value].name`; the entries are assigned one after the
other, so that of two assignments to the same key the later one stays. `none`: KeyError. -/
def enumEntry (enums : List PyEnum) (name : String) (value : Nat) : Option String :=
  (enums.find? fun p => p.name == name).bind fun e => e.entries.reverse.lookup value

/-- mavlink_utils/HC_dialect.py:267-2029, minimal_dialect.py:267-2029: the constants of the module (`MAV_TYPE_GENERIC = 0`, …), the last
assignment to a name being the one that stays. -/
def constantOf (constants : List (String × Nat)) (name : String) : Option Nat := constants.reverse.lookup name

end NR
