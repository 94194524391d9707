import Verif.Model.Mavlink
/-
Padding with NULs does not change whether a byte string is UTF-8.
-/
namespace NR

set_option linter.unusedSimpArgs false in
theorem utf8_pad1 (l : List Byte) : utf8Valid (l ++ [0]) = utf8Valid l := by
  have hz : ∀ hi, utf8Valid.cont (0#8) 0x80 hi = false := by intro hi; simp [utf8Valid.cont]
  have step : ∀ (a : Byte) (r s : List Byte), r = s → utf8Valid (a :: r) = _ := fun a r s h =>
    h ▸ utf8Valid.eq_def (a :: s)
  simp only at step
  induction l using utf8Valid.induct with
  | case1 => simp [utf8Valid]
  | case2 a rest n h ih =>
    change a.toNat < 128 at h
    rw [List.cons_append, step a _ _ rfl, step a (rest) _ rfl]; simp only [if_pos h, ih]
  | case3 a n h1 h2 b rest ih =>
    change ¬ a.toNat < 128 at h1; change 194 ≤ a.toNat ∧ a.toNat ≤ 223 at h2
    rw [List.cons_append, step a _ _ rfl, step a (b :: rest) _ rfl]; simp only [if_neg h1, if_pos h2, List.cons_append, ih]
  | case4 a rest n h1 h2 x =>
    change ¬ a.toNat < 128 at h1; change 194 ≤ a.toNat ∧ a.toNat ≤ 223 at h2
    cases rest with
    | nil => rw [List.cons_append, step a _ _ rfl, step a ([]) _ rfl]; simp [if_neg h1, List.nil_append, hz]
    | cons b r => exact (x _ _ rfl).elim
  | case5 a n h1 h2 h3 b c rest ih =>
    change ¬ a.toNat < 128 at h1; change ¬ (194 ≤ a.toNat ∧ a.toNat ≤ 223) at h2; change 224 ≤ a.toNat ∧ a.toNat ≤ 239 at h3
    rw [List.cons_append, step a _ _ rfl, step a (b :: c :: rest) _ rfl]
    simp only [if_neg h1, if_neg h2, if_pos h3, List.cons_append, ih]
  | case6 a rest n h1 h2 h3 x =>
    change ¬ a.toNat < 128 at h1; change ¬ (194 ≤ a.toNat ∧ a.toNat ≤ 223) at h2; change 224 ≤ a.toNat ∧ a.toNat ≤ 239 at h3
    match rest, x with
    | [], _ => rw [List.cons_append, step a _ _ rfl, step a ([]) _ rfl]; simp [if_neg h1, if_neg h2, if_pos h3]
    | [b], _ =>
      rw [List.cons_append, step a _ _ rfl, step a ([b]) _ rfl]; simp [if_neg h1, if_neg h2, if_pos h3, hz]
    | b :: c :: r, x => exact (x _ _ _ rfl).elim
  | case7 a n h1 h2 h3 h4 b c d rest ih =>
    change ¬ a.toNat < 128 at h1; change ¬ (194 ≤ a.toNat ∧ a.toNat ≤ 223) at h2; change ¬ (224 ≤ a.toNat ∧ a.toNat ≤ 239) at h3; change 240 ≤ a.toNat ∧ a.toNat ≤ 244 at h4
    rw [List.cons_append, step a _ _ rfl, step a (b :: c :: d :: rest) _ rfl]
    simp only [if_neg h1, if_neg h2, if_neg h3, if_pos h4, List.cons_append, ih]
  | case8 a rest n h1 h2 h3 h4 x =>
    change ¬ a.toNat < 128 at h1; change ¬ (194 ≤ a.toNat ∧ a.toNat ≤ 223) at h2; change ¬ (224 ≤ a.toNat ∧ a.toNat ≤ 239) at h3; change 240 ≤ a.toNat ∧ a.toNat ≤ 244 at h4
    match rest, x with
    | [], _ => rw [List.cons_append, step a _ _ rfl, step a ([]) _ rfl]; simp [if_neg h1, if_neg h2, if_neg h3, if_pos h4]
    | [b], _ =>
      rw [List.cons_append, step a _ _ rfl, step a ([b]) _ rfl]; simp [if_neg h1, if_neg h2, if_neg h3, if_pos h4]
    | [b, c], _ =>
      rw [List.cons_append, step a _ _ rfl, step a ([b, c]) _ rfl]; simp [if_neg h1, if_neg h2, if_neg h3, if_pos h4, hz]
    | b :: c :: d :: r, x => exact (x _ _ _ _ rfl).elim
  | case9 a rest n h1 h2 h3 h4 =>
    change ¬ a.toNat < 128 at h1; change ¬ (194 ≤ a.toNat ∧ a.toNat ≤ 223) at h2; change ¬ (224 ≤ a.toNat ∧ a.toNat ≤ 239) at h3; change ¬ (240 ≤ a.toNat ∧ a.toNat ≤ 244) at h4
    rw [List.cons_append, step a _ _ rfl, step a (rest) _ rfl]; simp only [if_neg h1, if_neg h2, if_neg h3, if_neg h4]

theorem utf8_pad (l : List Byte) (k : Nat) : utf8Valid (l ++ List.replicate k 0) = utf8Valid l := by
  induction k with
  | zero => simp
  | succ k ih => rw [List.replicate_succ', ← List.append_assoc, utf8_pad1, ih]

end NR
