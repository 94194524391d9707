import Verif.Model.MsgFields
import Verif.Spec.Wire
/-
Names of messages and fields are ASCII; messages without arrays have no field called `name`.
-/
namespace NR
open Dialect Spec

theorem table_ascii :
    (mavlinkMap.all fun m => (m.name :: m.orderedFieldnames).all fun s => s.toList.all fun c => decide (c.toNat < 128)) = true := by
  decide +kernel

theorem table_name : (mavlinkMap.all fun m => decide (NoArrays m → "name" ∉ m.fieldnames)) = true := by decide +kernel

end NR
