import Verif.Spec.MsgEq
/-
Equality of single-precision patterns is equality of the numbers they stand for.
-/
namespace NR
open Spec

/-- Magnitude of a finite pattern with exponent bits `e` and fraction bits `m`. -/
def f32Mag (e m : Nat) : Nat := if e = 0 then m else (2 ^ 23 + m) * 2 ^ (e - 1)

theorem f32Mag_lt {e e' m m' : Nat} (hm : m < 2 ^ 23) (h : e < e') : f32Mag e m < f32Mag e' m' := by
  have h1 : 2 ^ 23 * 2 ^ (e' - 1) ≤ f32Mag e' m' := by
    rw [f32Mag, if_neg (by omega)]
    exact Nat.mul_le_mul_right _ (by omega)
  by_cases h0 : e = 0
  · subst h0
    rw [f32Mag, if_pos rfl]
    have : 0 < 2 ^ (e' - 1) := Nat.pow_pos (by omega)
    have : 2 ^ 23 * 1 ≤ 2 ^ 23 * 2 ^ (e' - 1) := Nat.mul_le_mul_left _ this
    omega
  · rw [f32Mag, if_neg h0]
    have hp : 0 < 2 ^ (e - 1) := Nat.pow_pos (by omega)
    have h2 : (2 ^ 23 + m) * 2 ^ (e - 1) < 2 ^ 24 * 2 ^ (e - 1) := Nat.mul_lt_mul_of_pos_right (by omega) hp
    have h3 : 2 ^ 24 * 2 ^ (e - 1) = 2 ^ 23 * 2 ^ e := by
      rw [← Nat.pow_add, ← Nat.pow_add]; congr 1; omega
    have h4 : 2 ^ 23 * 2 ^ e ≤ 2 ^ 23 * 2 ^ (e' - 1) := Nat.mul_le_mul_left _ (Nat.pow_le_pow_right (by omega) (by omega))
    omega

theorem f32Mag_inj {e e' m m' : Nat} (hm : m < 2 ^ 23) (hm' : m' < 2 ^ 23) (h : f32Mag e m = f32Mag e' m') :
    e = e' ∧ m = m' := by
  rcases Nat.lt_trichotomy e e' with hlt | heq | hgt
  · have := f32Mag_lt (m' := m') hm hlt; omega
  · subst heq
    refine ⟨rfl, ?_⟩
    unfold f32Mag at h
    split at h
    · exact h
    · have hp : 0 < 2 ^ (e - 1) := Nat.pow_pos (by omega)
      have := Nat.eq_of_mul_eq_mul_right hp h
      omega
  · have := f32Mag_lt (m' := m) hm' hgt; omega

theorem f32Mag_zero {e m : Nat} (h : f32Mag e m = 0) : e = 0 ∧ m = 0 := by
  unfold f32Mag at h
  split at h
  · exact ⟨‹_›, h⟩
  · have hp : 0 < 2 ^ (e - 1) := Nat.pow_pos (by omega)
    rcases Nat.mul_eq_zero.1 h with h | h <;> omega

theorem f32Value_eq (b : BitVec 32) : f32Value b =
    if b.toNat / 2 ^ 23 % 256 = 255 then
      (if b.toNat % 2 ^ 23 = 0 then .inf (b.toNat / 2 ^ 31 = 1) else .nan)
    else .fin ((if b.toNat / 2 ^ 31 = 1 then -1 else 1) * (f32Mag (b.toNat / 2 ^ 23 % 256) (b.toNat % 2 ^ 23) : Nat)) := by
  unfold f32Value f32Mag
  simp only
  split
  · rfl
  · split <;> rfl

theorem f32IsNaN_iff (b : BitVec 32) : f32IsNaN b = true ↔ f32Value b = .nan := by
  rw [f32Value_eq]
  unfold f32IsNaN
  simp only [Bool.and_eq_true, decide_eq_true_eq]
  split
  · split <;> simp_all
  · simp_all

theorem valEq_flt (a b : BitVec 32) : valEq (.flt a) (.flt b) = true ↔ SameNumber (.flt a) (.flt b) := by
  have ha := f32IsNaN_iff a
  have hb := f32IsNaN_iff b
  simp only [valEq, SameNumber, Bool.and_eq_true, Bool.not_eq_true', Bool.or_eq_true, decide_eq_true_eq, f32IsZero]
  constructor
  · rintro ⟨⟨h1, h2⟩, h⟩
    refine ⟨(fun hn => by rw [ha.2 hn] at h1; cases h1), ?_⟩
    rcases h with h | ⟨hz, hz'⟩
    · rw [h]
    · rw [f32Value_eq, f32Value_eq]
      have e1 : a.toNat / 2 ^ 23 % 256 = 0 := by omega
      have e2 : b.toNat / 2 ^ 23 % 256 = 0 := by omega
      have e3 : a.toNat % 2 ^ 23 = 0 := by omega
      have e4 : b.toNat % 2 ^ 23 = 0 := by omega
      rw [e1, e2, e3, e4]
      simp [f32Mag]
  · rintro ⟨h1, h⟩
    have hna : f32IsNaN a = false := by
      cases hh : f32IsNaN a with
      | false => rfl
      | true => exact absurd (ha.1 hh) h1
    have hnb : f32IsNaN b = false := by
      cases hh : f32IsNaN b with
      | false => rfl
      | true => exact absurd (h.trans (hb.1 hh)) h1
    refine ⟨⟨hna, hnb⟩, ?_⟩
    have la : a.toNat < 2 ^ 32 := a.isLt
    have lb : b.toNat < 2 ^ 32 := b.isLt
    have key : a.toNat = b.toNat ∨ (a.toNat % 2 ^ 31 = 0 ∧ b.toNat % 2 ^ 31 = 0) := by
      rw [f32Value_eq, f32Value_eq] at h
      by_cases e1 : a.toNat / 2 ^ 23 % 256 = 255
      · by_cases e2 : b.toNat / 2 ^ 23 % 256 = 255
        · rw [if_pos e1, if_pos e2] at h
          rw [f32Value_eq, if_pos e1] at h1
          by_cases m1 : a.toNat % 2 ^ 23 = 0
          · by_cases m2 : b.toNat % 2 ^ 23 = 0
            · rw [if_pos m1, if_pos m2] at h
              have hs := F32.inf.inj h
              simp only [decide_eq_decide] at hs
              left; omega
            · rw [if_pos m1, if_neg m2] at h; cases h
          · rw [if_neg m1] at h1; exact absurd rfl h1
        · rw [if_pos e1, if_neg e2] at h
          split at h <;> cases h
      · by_cases e2 : b.toNat / 2 ^ 23 % 256 = 255
        · rw [if_neg e1, if_pos e2] at h
          by_cases m2 : b.toNat % 2 ^ 23 = 0
          · rw [if_pos m2] at h; cases h
          · rw [if_neg m2] at h; cases h
        · rw [if_neg e1, if_neg e2] at h
          have hs := F32.fin.inj h
          have hmag : f32Mag (a.toNat / 2 ^ 23 % 256) (a.toNat % 2 ^ 23) =
              f32Mag (b.toNat / 2 ^ 23 % 256) (b.toNat % 2 ^ 23) := by
            revert hs
            generalize f32Mag (a.toNat / 2 ^ 23 % 256) (a.toNat % 2 ^ 23) = M
            generalize f32Mag (b.toNat / 2 ^ 23 % 256) (b.toNat % 2 ^ 23) = N
            intro hs
            split at hs <;> split at hs <;> omega
          obtain ⟨he, hm⟩ := f32Mag_inj (Nat.mod_lt _ (by omega)) (Nat.mod_lt _ (by omega)) hmag
          by_cases hz : f32Mag (a.toNat / 2 ^ 23 % 256) (a.toNat % 2 ^ 23) = 0
          · have z1 := f32Mag_zero hz
            have z2 := f32Mag_zero (hmag ▸ hz)
            right
            exact ⟨by omega, by omega⟩
          · left
            have hsg : (a.toNat / 2 ^ 31 = 1 ↔ b.toNat / 2 ^ 31 = 1) := by
              rw [← hmag] at hs
              revert hs hz
              generalize f32Mag (a.toNat / 2 ^ 23 % 256) (a.toNat % 2 ^ 23) = M
              intro hs hz
              split at hs <;> split at hs <;> omega
            omega
    rcases key with k | k
    · exact Or.inl (BitVec.eq_of_toNat_eq k)
    · exact Or.inr k

end NR
