import Mathlib.Data.List.Nodup
/-
Distinctness of texts and numbers, for evaluation in the kernel.
-/
namespace NR.XmlLemmas

def hashN : List Nat → Nat → Nat
  | [], c => c
  | b :: bs, c => hashN bs (Nat.add (Nat.mul c 256) b)

/-- A number for a text. -/
def textN (s : String) : Nat := hashN (s.toUTF8.data.toList.map UInt8.toNat) 1

def nodupN : List Nat → Bool
  | [] => true
  | a :: l => l.all (fun b => !(Nat.beq a b)) && nodupN l

theorem nodup_of : ∀ {l : List Nat}, nodupN l = true → l.Nodup
  | [], _ => List.nodup_nil
  | a :: l, h => by
    rw [nodupN, Bool.and_eq_true] at h
    refine List.nodup_cons.2 ⟨fun hm => ?_, nodup_of h.2⟩
    have := List.all_eq_true.1 h.1 a hm
    rw [Nat.beq_refl] at this
    cases this

/-- The same with the numbers put into buckets first. -/
def nodupB : Nat → List Nat → Bool
  | 0, l => nodupN l
  | k + 1, l => nodupB k (l.filter fun n => Nat.beq (Nat.mod (Nat.div n (Nat.pow 2 k)) 2) 0) &&
      nodupB k (l.filter fun n => !(Nat.beq (Nat.mod (Nat.div n (Nat.pow 2 k)) 2) 0))

theorem nodup_filters {p : Nat → Bool} {l : List Nat} (h1 : (l.filter p).Nodup) (h2 : (l.filter fun n => !(p n)).Nodup) : l.Nodup := by
  induction l with
  | nil => exact List.nodup_nil
  | cons a l ih =>
    cases hp : p a with
    | true =>
      rw [List.filter_cons_of_pos hp, List.nodup_cons] at h1
      rw [List.filter_cons_of_neg (by simp [hp])] at h2
      exact List.nodup_cons.2 ⟨fun hm => h1.1 (List.mem_filter.2 ⟨hm, hp⟩), ih h1.2 h2⟩
    | false =>
      rw [List.filter_cons_of_neg (by simp [hp])] at h1
      rw [List.filter_cons_of_pos (by simp [hp]), List.nodup_cons] at h2
      exact List.nodup_cons.2 ⟨fun hm => h2.1 (List.mem_filter.2 ⟨hm, by simp [hp]⟩), ih h1 h2.2⟩

theorem nodupB_of : ∀ {k : Nat} {l : List Nat}, nodupB k l = true → l.Nodup
  | 0, _, h => nodup_of h
  | k + 1, _, h => by
    rw [nodupB, Bool.and_eq_true] at h
    exact nodup_filters (nodupB_of h.1) (nodupB_of h.2)

theorem nodup_texts {l : List String} (h : nodupB 5 (l.map textN) = true) : l.Nodup := List.Nodup.of_map _ (nodupB_of h)

end NR.XmlLemmas
