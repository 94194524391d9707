import Verif.Model.Float64
import Mathlib.Data.Int.Interval
import Mathlib.Data.Int.Log
import Mathlib.Tactic.NormNum
/-
Doubles and rounding to the nearest one.
-/
namespace NR.C128
open NR Spec

/-! ### Doubles -/

theorem double_int (i : ℤ) (h : |i| < 2 ^ 53) : IsDouble i := ⟨i, 0, h, by omega, by omega, by simp⟩

theorem double_zero : IsDouble 0 := ⟨0, 0, by norm_num, by omega, by omega, by simp⟩

theorem double_pow (e : ℤ) (h1 : -1074 ≤ e) (h2 : e ≤ 971) : IsDouble ((2 : ℝ) ^ e) := ⟨1, e, by norm_num, h1, h2, by simp⟩

theorem double_neg {x : ℝ} (h : IsDouble x) : IsDouble (-x) := by
  obtain ⟨k, e, h1, h2, h3, rfl⟩ := h
  exact ⟨-k, e, by rwa [abs_neg], h2, h3, by push_cast; ring⟩

theorem double_rat {x : ℝ} (h : IsDouble x) : ∃ q : ℚ, (q : ℝ) = x := by
  obtain ⟨k, e, _, _, _, rfl⟩ := h
  exact ⟨k * (2 : ℚ) ^ e, by push_cast; rfl⟩

variable {rnd : ℝ → ℝ}

theorem rnd_double (R : Rounding rnd) {x : ℝ} (h : IsDouble x) : rnd x = x := by
  have := R.nearest x x h
  rw [sub_self, abs_zero] at this
  have := abs_nonpos_iff.1 this
  linarith

theorem rnd_ge (R : Rounding rnd) {x y : ℝ} (h : IsDouble y) (hle : y ≤ x) : y ≤ rnd x := by
  by_contra hlt
  push Not at hlt
  have := R.nearest x y h
  rw [abs_of_nonpos (by linarith), abs_of_nonpos (by linarith)] at this
  linarith

theorem rnd_le (R : Rounding rnd) {x y : ℝ} (h : IsDouble y) (hle : x ≤ y) : rnd x ≤ y := by
  by_contra hlt
  push Not at hlt
  have := R.nearest x y h
  rw [abs_of_nonneg (by linarith), abs_of_nonneg (by linarith)] at this
  linarith

/-- Rounding exists: there are finitely many doubles. -/
theorem rounding_exists : ∃ rnd, Rounding rnd := by
  have hfin : (Set.ofPred IsDouble).Finite := by
    have : Set.ofPred IsDouble ⊆ (fun p : ℤ × ℤ => (p.1 : ℝ) * (2 : ℝ) ^ p.2) ''
        ((Set.Icc (-2 ^ 53) (2 ^ 53)) ×ˢ (Set.Icc (-1074) 971)) := by
      rintro x ⟨k, e, h1, h2, h3, rfl⟩
      rw [abs_lt] at h1
      exact ⟨(k, e), ⟨⟨h1.1.le, h1.2.le⟩, h2, h3⟩, rfl⟩
    exact ((Set.finite_Icc _ _).prod (Set.finite_Icc _ _)).image _ |>.subset this
  have h : ∀ x : ℝ, ∃ y, IsDouble y ∧ ∀ z, IsDouble z → |y - x| ≤ |z - x| := by
    intro x
    obtain ⟨y, hy, hm⟩ := hfin.exists_minimalFor (fun y => |y - x|) _ ⟨0, double_zero⟩
    exact ⟨y, hy, fun z hz => by
      by_contra hlt
      push Not at hlt
      have := hm hz hlt.le
      linarith⟩
  choose f h1 h2 using h
  exact ⟨f, h1, h2⟩

theorem double_step {d : ℝ} (h : IsDouble d) (p : ℤ) (hp : (2 : ℝ) ^ p ≤ |d|) : ∃ m : ℤ, d = m * (2 : ℝ) ^ (p - 52) := by
  obtain ⟨k, e, h1, _, _, rfl⟩ := h
  have h1' : |(k : ℝ)| < 2 ^ (53 : ℤ) := by
    have : ((|k| : ℤ) : ℝ) < ((2 ^ 53 : ℤ) : ℝ) := by exact_mod_cast h1
    rw [Int.cast_abs] at this
    calc |(k : ℝ)| < ((2 ^ 53 : ℤ) : ℝ) := this
      _ = 2 ^ (53 : ℤ) := by norm_cast
  rw [abs_mul, abs_of_pos (by positivity : (0 : ℝ) < 2 ^ e)] at hp
  have hlt : (2 : ℝ) ^ p < 2 ^ (53 + e) := by
    rw [zpow_add₀ (by norm_num)]
    exact lt_of_le_of_lt hp (mul_lt_mul_of_pos_right h1' (by positivity))
  have := (zpow_lt_zpow_iff_right₀ (by norm_num : (1 : ℝ) < 2)).1 hlt
  obtain ⟨j, hj⟩ : ∃ j : Nat, e = (p - 52) + j := ⟨(e - (p - 52)).toNat, by omega⟩
  refine ⟨k * 2 ^ j, ?_⟩
  rw [hj, zpow_add₀ (by norm_num), zpow_natCast]
  push_cast
  ring

theorem rnd_abs (R : Rounding rnd) {x y : ℝ} (h : IsDouble y) (hle : y ≤ |x|) : y ≤ |rnd x| := by
  rcases le_abs.1 hle with h1 | h1
  · exact le_trans (rnd_ge R h h1) (le_abs_self _)
  · have := rnd_le R (x := x) (double_neg h) (by linarith)
    exact le_trans (by linarith) (neg_le_abs _)

/-- Between two neighbouring doubles of the same binary order rounding is determined away from the middle. -/
theorem rnd_grid (R : Rounding rnd) {x : ℝ} (p m : ℤ) (h1 : -1022 ≤ p) (h2 : p ≤ 971) (hm : |m| < 2 ^ 53)
    (hx : (2 : ℝ) ^ p ≤ x) (hd : |(m : ℝ) * (2 : ℝ) ^ (p - 52) - x| < (2 : ℝ) ^ (p - 52) / 2) :
    rnd x = m * (2 : ℝ) ^ (p - 52) := by
  have hg : (0 : ℝ) < 2 ^ (p - 52) := by positivity
  have hp : (0 : ℝ) < 2 ^ p := by positivity
  have hge : (2 : ℝ) ^ p ≤ rnd x := rnd_ge R (double_pow p (by omega) h2) hx
  obtain ⟨m', hm'⟩ := double_step (R.double x) p (by rw [abs_of_pos (by linarith)]; exact hge)
  have hn := R.nearest x _ ⟨m, p - 52, hm, by omega, by omega, rfl⟩
  rw [hm'] at hn ⊢
  have hlt : |((m' : ℝ) - m) * (2 : ℝ) ^ (p - 52)| < (2 : ℝ) ^ (p - 52) := by
    have h3 : ((m' : ℝ) - m) * (2 : ℝ) ^ (p - 52) = ((m' : ℝ) * (2 : ℝ) ^ (p - 52) - x) - ((m : ℝ) * (2 : ℝ) ^ (p - 52) - x) := by ring
    rw [h3]
    exact lt_of_le_of_lt (abs_sub _ _) (by linarith)
  rw [abs_mul, abs_of_pos hg] at hlt
  have h4 : |((m' - m : ℤ) : ℝ)| < 1 := by
    push_cast
    by_contra hge'
    push Not at hge'
    have := mul_le_mul_of_nonneg_right hge' hg.le
    linarith
  have h5 : |m' - m| < 1 := by exact_mod_cast h4
  have h6 : m' = m := by
    have := abs_lt.1 h5
    omega
  rw [h6]

/-- Rounding of a number below a power of two. -/
theorem rnd_near (R : Rounding rnd) {x : ℝ} (j : ℤ) (h1 : -1000 ≤ j) (h2 : j ≤ 900) (hx : |x| ≤ (2 : ℝ) ^ j) :
    |rnd x - x| ≤ (2 : ℝ) ^ (j - 54) := by
  have hg : (0 : ℝ) < 2 ^ (j - 53) := by positivity
  have hsplit : (2 : ℝ) ^ j = 2 ^ (53 : ℕ) * 2 ^ (j - 53) := by
    rw [← zpow_natCast, ← zpow_add₀ (by norm_num)]
    congr 1
    omega
  have hhalf : (2 : ℝ) ^ (j - 54) = 2 ^ (j - 53) / 2 := by
    rw [show j - 53 = (j - 54) + 1 by omega, zpow_add₀ (by norm_num)]
    norm_num
  set k := round (x / 2 ^ (j - 53)) with hk
  have hr : |x / 2 ^ (j - 53) - k| ≤ 1 / 2 := abs_sub_round _
  have hdist : |(k : ℝ) * 2 ^ (j - 53) - x| ≤ 2 ^ (j - 54) := by
    have h3 : (k : ℝ) * 2 ^ (j - 53) - x = -((x / 2 ^ (j - 53) - k) * 2 ^ (j - 53)) := by
      field_simp
      ring
    rw [h3, abs_neg, abs_mul, abs_of_pos hg, hhalf]
    have := mul_le_mul_of_nonneg_right hr hg.le
    linarith
  have hkb : |k| ≤ 2 ^ 53 := by
    have h4 : |x / 2 ^ (j - 53)| ≤ 2 ^ (53 : ℕ) := by
      rw [abs_div, abs_of_pos hg, div_le_iff₀ hg, ← hsplit]
      exact hx
    have h5 : |(k : ℝ)| ≤ 2 ^ (53 : ℕ) + 1 / 2 := by
      have : (k : ℝ) = x / 2 ^ (j - 53) - (x / 2 ^ (j - 53) - k) := by ring
      rw [this]
      exact le_trans (abs_sub _ _) (by linarith)
    have h6 : ((|k| : ℤ) : ℝ) < ((2 ^ 53 + 1 : ℤ) : ℝ) := by
      push_cast
      norm_num at h5 ⊢
      linarith
    have h7 : |k| < 2 ^ 53 + 1 := by exact_mod_cast h6
    omega
  have hdbl : IsDouble ((k : ℝ) * 2 ^ (j - 53)) := by
    by_cases hlt : |k| < 2 ^ 53
    · exact ⟨k, j - 53, hlt, by omega, by omega, rfl⟩
    · have heq : |k| = 2 ^ 53 := le_antisymm hkb (not_lt.1 hlt)
      rcases abs_eq (by norm_num : (0 : ℤ) ≤ 2 ^ 53) |>.1 heq with h | h
      · have : (k : ℝ) * 2 ^ (j - 53) = 2 ^ j := by rw [h, hsplit]; push_cast; norm_num
        rw [this]
        exact double_pow j (by omega) (by omega)
      · have : (k : ℝ) * 2 ^ (j - 53) = -2 ^ j := by rw [h, hsplit]; push_cast; ring
        rw [this]
        exact double_neg (double_pow j (by omega) (by omega))
  exact le_trans (R.nearest x _ hdbl) hdist

/-- The relative error of rounding. -/
theorem rnd_rel (R : Rounding rnd) {x : ℝ} (h1 : (2 : ℝ) ^ (-1000 : ℤ) ≤ x) (h2 : x ≤ 2 ^ (800 : ℤ)) :
    |rnd x - x| ≤ x * 2 ^ (-53 : ℤ) := by
  have hx : 0 < x := lt_of_lt_of_le (by positivity) h1
  set l := Int.log 2 x with hl
  have h3 : ((2 : ℕ) : ℝ) ^ l ≤ x := Int.zpow_log_le_self (by norm_num) hx
  have h4 : x < ((2 : ℕ) : ℝ) ^ (l + 1) := Int.lt_zpow_succ_log_self (by norm_num) x
  push_cast at h3 h4
  have h5 : -1000 < l + 1 := (zpow_lt_zpow_iff_right₀ (by norm_num : (1 : ℝ) < 2)).1 (lt_of_le_of_lt h1 h4)
  have h6 : l ≤ 800 := (zpow_le_zpow_iff_right₀ (by norm_num : (1 : ℝ) < 2)).1 (le_trans h3 h2)
  have h7 := rnd_near R (l + 1) (by omega) (by omega) (by rw [abs_of_pos hx]; exact h4.le)
  refine le_trans h7 ?_
  rw [show l + 1 - 54 = l + (-53) by omega, zpow_add₀ (by norm_num)]
  exact mul_le_mul_of_nonneg_right h3 (by positivity)

/-- Rounding never reverses an order. -/
theorem rnd_mono (R : Rounding rnd) {x y : ℝ} (h : x ≤ y) : rnd x ≤ rnd y := by
  by_contra hlt
  push Not at hlt
  have h1 := R.nearest x _ (R.double y)
  have h2 := R.nearest y _ (R.double x)
  rcases lt_or_ge (rnd y) x with hy | hy
  · have := rnd_ge R (R.double x) (le_refl (rnd x))
    rcases le_or_gt (rnd x) y with hx | hx
    · have := rnd_ge R (R.double x) hx
      linarith
    · rw [abs_of_nonpos (by linarith : rnd y - y ≤ 0), abs_of_pos (by linarith : 0 < rnd x - y)] at h2
      rcases le_or_gt (rnd x) x with hxx | hxx
      · linarith
      · rw [abs_of_pos (by linarith : 0 < rnd x - x), abs_of_neg (by linarith : rnd y - x < 0)] at h1
        have : x = y := by linarith
        subst this
        linarith
  · have := rnd_le R (R.double y) hy
    linarith

end NR.C128
