import Verif.Spec.XmlDefs
import Verif.Lemmas.NodupText
/-
The tables of the enumerations against the definition files, by evaluation in the kernel.
-/
namespace NR.XmlLemmas
open NR Spec

/-- Insertion by value. -/
def putN (p : Nat × String) : List (Nat × String) → List (Nat × String)
  | [] => [p]
  | q :: l => if Nat.ble p.1 q.1 then p :: q :: l else q :: putN p l

theorem mem_putN {p q : Nat × String} : ∀ {l : List (Nat × String)}, q ∈ putN p l ↔ q = p ∨ q ∈ l
  | [] => by simp [putN]
  | r :: l => by
    rw [putN]
    split
    · simp
    · rw [List.mem_cons, mem_putN, List.mem_cons]
      constructor
      · rintro (h | h | h) <;> simp [h]
      · rintro (h | h | h) <;> simp [h]

def sortN (l : List (Nat × String)) : List (Nat × String) := l.foldr putN []

theorem mem_sortN {q : Nat × String} : ∀ {l : List (Nat × String)}, q ∈ sortN l ↔ q ∈ l
  | [] => Iff.rfl
  | r :: l => by
    show q ∈ putN r (sortN l) ↔ _
    rw [mem_putN, mem_sortN, List.mem_cons]

theorem hc_enums : HcXml.pyEnums = HcXml.enums.map fun e => ⟨e.name, sortN (XmlValues e)⟩ := by decide +kernel
theorem minimal_enums : MinimalXml.pyEnums = MinimalXml.enums.map fun e => ⟨e.name, sortN (XmlValues e)⟩ := by decide +kernel
theorem hc_consts : HcXml.constants = HcXml.pyEnums.flatMap fun e => e.entries.map fun p => (p.2, p.1) := by decide +kernel
theorem minimal_consts : MinimalXml.constants = MinimalXml.pyEnums.flatMap fun e => e.entries.map fun p => (p.2, p.1) := by
  decide +kernel
theorem hc_nodup : (HcXml.constants.map Prod.fst).Nodup := nodup_texts (by decide +kernel)
theorem minimal_nodup : (MinimalXml.constants.map Prod.fst).Nodup := nodup_texts (by decide +kernel)
theorem hc_values : ∀ e ∈ HcXml.pyEnums, (e.entries.map Prod.fst).Nodup := by
  have : HcXml.pyEnums.all (fun e => nodupN (e.entries.map Prod.fst)) = true := by decide +kernel
  exact fun e he => nodup_of (List.all_eq_true.1 this e he)
theorem minimal_values : ∀ e ∈ MinimalXml.pyEnums, (e.entries.map Prod.fst).Nodup := by
  have : MinimalXml.pyEnums.all (fun e => nodupN (e.entries.map Prod.fst)) = true := by decide +kernel
  exact fun e he => nodup_of (List.all_eq_true.1 this e he)
theorem hc_names : (HcXml.pyEnums.map PyEnum.name).Nodup := nodup_texts (by decide +kernel)
theorem minimal_names : (MinimalXml.pyEnums.map PyEnum.name).Nodup := nodup_texts (by decide +kernel)

end NR.XmlLemmas
