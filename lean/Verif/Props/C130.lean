import Verif.Lemmas.Double
import Verif.Model.FlipCount
import Verif.Model.Averaged
/-
C130: the points of a simulation and their numbers of errors in floating point.
-/
namespace NR.C130
open NR Spec NR.C128 NR.FlipCount

/-- What is assumed of the range asked for: doubles between 0 and 1 in order, equal or not absurdly close, and not absurdly many
points. -/
structure Asked (a b : ℝ) (num : Nat) : Prop where
  low : IsDouble a
  high : IsDouble b
  nonneg : 0 ≤ a
  order : a ≤ b
  le_one : b ≤ 1
  gap : a = b ∨ (2 : ℝ) ^ (-900 : ℤ) ≤ b - a
  one : 1 ≤ num
  few : num ≤ 2 ^ 50

/-- The point asked for. -/
noncomputable def ideal (a b : ℝ) (num i : Nat) : ℝ := a + i * ((b - a) / ((num : ℝ) - 1))

variable {rnd : ℝ → ℝ} {a b : ℝ} {num : Nat}

theorem rnd_zero (R : Rounding rnd) : rnd 0 = 0 := rnd_double R double_zero

/-- What is added to `a` for point `i`. -/
noncomputable def inc (rnd : ℝ → ℝ) (a b : ℝ) (num i : Nat) : ℝ := rnd (i * rnd (rnd (b - a) / ((num - 1 : Nat) : ℝ)))

/-- Entries but the last. -/
theorem entry (R : Rounding rnd) (h : Asked a b num) (i : Nat) (hi : i < num) (hl : i + 1 < num ∨ num = 1) :
    (linspaceF rnd a b num)[i]? = some (rnd (inc rnd a b num i + a)) := by
  unfold linspaceF inc
  simp only
  have key : (if num - 1 = 0 then rnd ((i : ℝ) * rnd (b - a))
      else if rnd (rnd (b - a) / ((num - 1 : Nat) : ℝ)) = 0 then rnd (rnd ((i : ℝ) / ((num - 1 : Nat) : ℝ)) * rnd (b - a))
      else rnd (i * rnd (rnd (b - a) / ((num - 1 : Nat) : ℝ)))) =
      rnd (i * rnd (rnd (b - a) / ((num - 1 : Nat) : ℝ))) := by
    split
    · rename_i h0
      have : i = 0 := by omega
      simp [this]
    · rename_i h0
      split
      · rename_i hs
        have hd : rnd (b - a) = 0 := by
          rcases h.gap with hg | hg
          · rw [hg, sub_self, rnd_zero R]
          · exfalso
            have hpos : (0 : ℝ) < ((num - 1 : Nat) : ℝ) := by
              have : 0 < num - 1 := by omega
              exact_mod_cast this
            have h1 : (2 : ℝ) ^ (-900 : ℤ) ≤ rnd (b - a) := rnd_ge R (double_pow _ (by omega) (by omega)) hg
            have hle : ((num - 1 : Nat) : ℝ) ≤ 2 ^ (50 : ℤ) := by
              have : num - 1 ≤ 2 ^ 50 := le_trans (Nat.sub_le _ _) h.few
              have : ((num - 1 : Nat) : ℝ) ≤ ((2 ^ 50 : Nat) : ℝ) := by exact_mod_cast this
              refine le_trans this (le_of_eq ?_)
              norm_num
            have h2 : (2 : ℝ) ^ (-950 : ℤ) ≤ rnd (b - a) / ((num - 1 : Nat) : ℝ) := by
              rw [le_div_iff₀ hpos]
              calc (2 : ℝ) ^ (-950 : ℤ) * ((num - 1 : Nat) : ℝ) ≤ (2 : ℝ) ^ (-950 : ℤ) * 2 ^ (50 : ℤ) := by gcongr
                _ = (2 : ℝ) ^ (-900 : ℤ) := by rw [← zpow_add₀ (by norm_num)]; norm_num
                _ ≤ _ := h1
            have h3 := rnd_ge R (double_pow (-950) (by omega) (by omega)) h2
            rw [hs] at h3
            have : (0 : ℝ) < 2 ^ (-950 : ℤ) := by positivity
            linarith
        rw [hd]
        simp [rnd_zero R]
      · rfl
  split
  · rw [List.getElem?_set_ne (by omega)]
    simp only [List.getElem?_map, List.getElem?_range hi, Option.map_some, Option.some.injEq]
    rw [key]
  · simp only [List.getElem?_map, List.getElem?_range hi, Option.map_some, Option.some.injEq]
    rw [key]

theorem length_eq (rnd : ℝ → ℝ) (a b : ℝ) (num : Nat) : (linspaceF rnd a b num).length = num := by
  unfold linspaceF
  simp only
  split <;> simp

theorem last_entry (rnd : ℝ → ℝ) (a b : ℝ) (num : Nat) (h : 2 ≤ num) : (linspaceF rnd a b num)[num - 1]? = some b := by
  unfold linspaceF
  simp only
  rw [if_pos (by omega), List.getElem?_set_self (by simp; omega)]

theorem inc_mono (R : Rounding rnd) (h : Asked a b num) {i j : Nat} (hij : i ≤ j) : inc rnd a b num i ≤ inc rnd a b num j := by
  unfold inc
  apply rnd_mono R
  have h0 : 0 ≤ rnd (b - a) := rnd_ge R double_zero (by linarith [h.order])
  have h1 : 0 ≤ rnd (rnd (b - a) / ((num - 1 : Nat) : ℝ)) := rnd_ge R double_zero (by positivity)
  have : (i : ℝ) ≤ j := by exact_mod_cast hij
  exact mul_le_mul_of_nonneg_right this h1

theorem inc_nonneg (R : Rounding rnd) (h : Asked a b num) (i : Nat) : 0 ≤ inc rnd a b num i := by
  have : inc rnd a b num 0 = 0 := by simp [inc, rnd_zero R]
  rw [← this]
  exact inc_mono R h (Nat.zero_le i)

/-- Before the last point the increment is at most the width of the range. -/
theorem inc_le (R : Rounding rnd) (h : Asked a b num) (i : Nat) (hi : i + 1 < num ∨ i = 0) : inc rnd a b num i ≤ b - a := by
  rcases Nat.eq_zero_or_pos i with h0 | h0
  · have : inc rnd a b num 0 = 0 := by simp [inc, rnd_zero R]
    rw [h0, this]
    linarith [h.order]
  replace hi : i + 1 < num := by omega
  rcases h.gap with hg | hg
  · simp [inc, hg, rnd_zero R]
  set w := b - a with hw
  set m := num - 1 with hm
  have hwpos : 0 < w := lt_of_lt_of_le (by positivity) hg
  have hw1 : w ≤ 1 := by linarith [h.le_one, h.nonneg]
  have hm2 : 2 ≤ m := by omega
  have hmpos : (0 : ℝ) < m := by
    have : 0 < m := by omega
    exact_mod_cast this
  have hmle : (m : ℝ) ≤ 2 ^ (50 : ℤ) := by
    have : m ≤ 2 ^ 50 := le_trans (Nat.sub_le _ _) h.few
    have : (m : ℝ) ≤ ((2 ^ 50 : Nat) : ℝ) := by exact_mod_cast this
    refine le_trans this (le_of_eq ?_)
    norm_num
  have hub : ∀ x : ℝ, (2 : ℝ) ^ (-1000 : ℤ) ≤ x → x ≤ 2 ^ (800 : ℤ) → rnd x ≤ x * (1 + 2 ^ (-53 : ℤ)) := by
    intro x h1 h2
    have := abs_le.1 (rnd_rel R h1 h2)
    linarith [this.2]
  have hbig : (4 : ℝ) ≤ 2 ^ (800 : ℤ) := by
    calc (4 : ℝ) = 2 ^ (2 : ℤ) := by norm_num
      _ ≤ 2 ^ (800 : ℤ) := zpow_le_zpow_right₀ (by norm_num) (by norm_num)
  have hε : (2 : ℝ) ^ (-53 : ℤ) = 1 / 2 ^ 53 := by
    rw [zpow_neg, one_div]
    norm_cast
  have hsm : ∀ e : ℤ, -1000 ≤ e → (2 : ℝ) ^ (-1000 : ℤ) ≤ 2 ^ e := fun e he => zpow_le_zpow_right₀ (by norm_num) he
  -- the width
  have hd1 : rnd w ≤ w * (1 + 2 ^ (-53 : ℤ)) := hub w (le_trans (hsm _ (by norm_num)) hg) (le_trans hw1 (le_trans (by norm_num) hbig))
  have hd0 : (2 : ℝ) ^ (-900 : ℤ) ≤ rnd w := rnd_ge R (double_pow _ (by omega) (by omega)) hg
  have hd2 : rnd w ≤ 2 := by
    refine le_trans hd1 ?_
    rw [hε]
    nlinarith
  -- the step
  have hs0 : (2 : ℝ) ^ (-950 : ℤ) ≤ rnd w / m := by
    rw [le_div_iff₀ hmpos]
    calc (2 : ℝ) ^ (-950 : ℤ) * m ≤ (2 : ℝ) ^ (-950 : ℤ) * 2 ^ (50 : ℤ) := by gcongr
      _ = (2 : ℝ) ^ (-900 : ℤ) := by rw [← zpow_add₀ (by norm_num)]; norm_num
      _ ≤ _ := hd0
  have hm1 : (1 : ℝ) ≤ m := by
    have : 1 ≤ m := by omega
    exact_mod_cast this
  have hs2 : rnd w / m ≤ 2 := by
    rw [div_le_iff₀ hmpos]
    nlinarith
  have hs1 : rnd (rnd w / m) ≤ rnd w / m * (1 + 2 ^ (-53 : ℤ)) :=
    hub _ (le_trans (hsm _ (by norm_num)) hs0) (le_trans hs2 (le_trans (by norm_num) hbig))
  have hs3 : (2 : ℝ) ^ (-950 : ℤ) ≤ rnd (rnd w / m) := rnd_ge R (double_pow _ (by omega) (by omega)) hs0
  -- the product
  have hi1 : (1 : ℝ) ≤ i := by exact_mod_cast h0
  have him : (i : ℝ) + 1 ≤ m := by
    have : i + 1 ≤ m := by omega
    exact_mod_cast this
  have hq0 : (2 : ℝ) ^ (-950 : ℤ) ≤ i * rnd (rnd w / m) := by
    have : (0 : ℝ) < rnd (rnd w / m) := lt_of_lt_of_le (by positivity) hs3
    nlinarith
  have hs4 : rnd (rnd w / m) ≤ w * (1 + 2 ^ (-53 : ℤ)) / m * (1 + 2 ^ (-53 : ℤ)) := by
    refine le_trans hs1 ?_
    gcongr
  have hq1 : i * rnd (rnd w / m) ≤ w * (1 + 2 ^ (-53 : ℤ)) ^ 2 * (i / m) := by
    calc i * rnd (rnd w / m) ≤ i * (w * (1 + 2 ^ (-53 : ℤ)) / m * (1 + 2 ^ (-53 : ℤ))) := by gcongr
      _ = _ := by field_simp
  have hfrac : (i : ℝ) / m ≤ 1 - 1 / 2 ^ 50 := by
    rw [div_le_iff₀ hmpos]
    have hmle' : (m : ℝ) ≤ 2 ^ (50 : ℕ) := by exact_mod_cast hmle
    have : (m : ℝ) / 2 ^ 50 ≤ 1 := by rw [div_le_one (by positivity)]; exact hmle'
    have : (1 - 1 / 2 ^ 50) * (m : ℝ) = m - m / 2 ^ 50 := by ring
    linarith
  have hq2 : i * rnd (rnd w / m) ≤ 4 := by
    refine le_trans hq1 ?_
    have h5 : (i : ℝ) / m ≤ 1 := le_trans hfrac (by norm_num)
    have h6 : w * (1 + 2 ^ (-53 : ℤ)) ^ 2 ≤ 4 := by
      rw [hε]
      nlinarith
    have h7 : 0 ≤ (i : ℝ) / m := by positivity
    nlinarith
  have hfin : inc rnd a b num i ≤ w * (1 + 2 ^ (-53 : ℤ)) ^ 2 * (i / m) * (1 + 2 ^ (-53 : ℤ)) := by
    unfold inc
    refine le_trans (hub _ (le_trans (hsm _ (by norm_num)) hq0) (le_trans hq2 hbig)) ?_
    gcongr
  refine le_trans hfin ?_
  calc w * (1 + 2 ^ (-53 : ℤ)) ^ 2 * (i / m) * (1 + 2 ^ (-53 : ℤ))
      = w * ((i / m) * (1 + 2 ^ (-53 : ℤ)) ^ 3) := by ring
    _ ≤ w * ((1 - 1 / 2 ^ 50) * (1 + 2 ^ (-53 : ℤ)) ^ 3) := by gcongr
    _ ≤ w * 1 := by
        apply mul_le_mul_of_nonneg_left _ hwpos.le
        rw [hε]
        norm_num
    _ = w := mul_one w

/-- C130, the points: there are as many as asked for, the first is the lowest and the last of two or more the highest share asked
for, they never decrease and stay in the range. -/
theorem c130_points (R : Rounding rnd) (h : Asked a b num) (ps : List ℝ) (hps : ps = linspaceF rnd a b num) :
    ps.length = num ∧ ps[0]? = some a ∧ (2 ≤ num → ps[num - 1]? = some b) ∧
    (∀ i j (hi : i < ps.length) (hj : j < ps.length), i ≤ j → ps[i] ≤ ps[j]) ∧
    ∀ p ∈ ps, IsDouble p ∧ a ≤ p ∧ p ≤ b := by
  subst hps
  have hlen := length_eq rnd a b num
  have hone := h.one
  have hent : ∀ i (hi : i < (linspaceF rnd a b num).length), (i + 1 < num ∨ i = 0 ∧ num = 1) →
      (linspaceF rnd a b num)[i] = rnd (inc rnd a b num i + a) := by
    intro i hi hl
    have := entry R h i (by omega) (by omega)
    rw [List.getElem?_eq_getElem hi] at this
    exact Option.some.inj this
  have hlast : ∀ (h2 : 2 ≤ num) (hi : num - 1 < (linspaceF rnd a b num).length), (linspaceF rnd a b num)[num - 1] = b := by
    intro h2 hi
    have := last_entry rnd a b num h2
    rw [List.getElem?_eq_getElem hi] at this
    exact Option.some.inj this
  have hle : ∀ i, i + 1 < num ∨ i = 0 → rnd (inc rnd a b num i + a) ≤ b := fun i hi =>
    rnd_le R h.high (by linarith [inc_le R h i hi])
  have hge : ∀ i, a ≤ rnd (inc rnd a b num i + a) := fun i => rnd_ge R h.low (by linarith [inc_nonneg R h i])
  refine ⟨hlen, ?_, last_entry rnd a b num, ?_, ?_⟩
  · rcases Nat.lt_or_ge 1 num with h2 | h2
    · rw [entry R h 0 (by omega) (Or.inl h2)]
      simp [inc, rnd_zero R, rnd_double R h.low]
    · rw [entry R h 0 (by omega) (Or.inr (by omega))]
      simp [inc, rnd_zero R, rnd_double R h.low]
  · intro i j hi hj hij
    rcases eq_or_lt_of_le hij with rfl | hlt
    · exact le_refl _
    · rw [hent i hi (by omega)]
      rcases Nat.lt_or_ge (j + 1) num with hj2 | hj2
      · rw [hent j hj (by omega)]
        exact rnd_mono R (by linarith [inc_mono R h hij])
      · have hj3 : j = num - 1 := by omega
        subst hj3
        rw [hlast (by omega) hj]
        exact hle i (by omega)
  · intro p hp
    obtain ⟨i, hi, rfl⟩ := List.getElem_of_mem hp
    rcases Nat.lt_or_ge (i + 1) num with hi2 | hi2
    · rw [hent i hi (by omega)]
      exact ⟨R.double _, hge i, hle i (Or.inl hi2)⟩
    · rcases Nat.lt_or_ge 1 num with h2 | h2
      · have hi3 : i = num - 1 := by omega
        subst hi3
        rw [hlast (by omega) hi]
        exact ⟨h.high, h.order, le_refl b⟩
      · rw [hent i hi (by omega)]
        exact ⟨R.double _, hge i, hle i (by omega)⟩

/-- C130, the numbers of errors: for words of `n` bits the number never decreases with the share, is 0 for share 0, all bits for
share 1, and the exact number of errors rounded down or up. -/
theorem c130_count (R : Rounding rnd) (n : Nat) (hn : n < 2 ^ 53) :
    errorCountF rnd n 0 = 0 ∧ errorCountF rnd n 1 = n ∧
    (∀ p q : ℝ, p ≤ q → errorCountF rnd n p ≤ errorCountF rnd n q) ∧
    ∀ p : ℝ, 0 ≤ p → p ≤ 1 → (⌊(n : ℝ) * p⌋ ≤ (errorCountF rnd n p : ℤ) ∧ (errorCountF rnd n p : ℤ) ≤ ⌈(n : ℝ) * p⌉ ∧
      errorCountF rnd n p ≤ n) := by
  have hdn : IsDouble (n : ℝ) := by
    have := double_int (n : ℤ) (by rw [Nat.abs_cast]; exact_mod_cast hn)
    exact_mod_cast this
  have hmono : ∀ p q, p ≤ q → errorCountF rnd n p ≤ errorCountF rnd n q := by
    intro p q hpq
    unfold errorCountF
    apply Int.toNat_le_toNat
    apply Int.floor_le_floor
    apply rnd_mono R
    exact mul_le_mul_of_nonneg_left hpq (by positivity)
  have h1 : errorCountF rnd n 1 = n := by simp [errorCountF, rnd_double R hdn]
  refine ⟨by simp [errorCountF, rnd_zero R], h1, hmono, ?_⟩
  intro p hp0 hp1
  have hnp : (0 : ℝ) ≤ n * p := by positivity
  have hnp1 : (n : ℝ) * p ≤ n := mul_le_of_le_one_right (by positivity) hp1
  have hfl0 : 0 ≤ ⌊(n : ℝ) * p⌋ := Int.floor_nonneg.2 hnp
  have hfl1 : ⌊(n : ℝ) * p⌋ ≤ n := by
    have : ((⌊(n : ℝ) * p⌋ : ℤ) : ℝ) ≤ ((n : ℤ) : ℝ) := le_trans (Int.floor_le _) (by exact_mod_cast hnp1)
    exact_mod_cast this
  have hce1 : ⌈(n : ℝ) * p⌉ ≤ n := Int.ceil_le.2 (by exact_mod_cast hnp1)
  have hce0 : 0 ≤ ⌈(n : ℝ) * p⌉ := Int.ceil_nonneg hnp
  have hn' : (n : ℤ) < 2 ^ 53 := by exact_mod_cast hn
  have hlo : ((⌊(n : ℝ) * p⌋ : ℤ) : ℝ) ≤ rnd ((n : ℝ) * p) :=
    rnd_ge R (double_int _ (by rw [abs_of_nonneg hfl0]; omega)) (Int.floor_le _)
  have hhi : rnd ((n : ℝ) * p) ≤ ((⌈(n : ℝ) * p⌉ : ℤ) : ℝ) :=
    rnd_le R (double_int _ (by rw [abs_of_nonneg hce0]; omega)) (Int.le_ceil _)
  have hr0 : 0 ≤ rnd ((n : ℝ) * p) := rnd_ge R double_zero hnp
  have hcast : (errorCountF rnd n p : ℤ) = ⌊rnd ((n : ℝ) * p)⌋ := by
    unfold errorCountF
    exact Int.toNat_of_nonneg (Int.floor_nonneg.2 hr0)
  refine ⟨?_, ?_, ?_⟩
  · rw [hcast]
    exact Int.le_floor.2 hlo
  · rw [hcast]
    have : ((⌊rnd ((n : ℝ) * p)⌋ : ℤ) : ℝ) ≤ ((⌈(n : ℝ) * p⌉ : ℤ) : ℝ) := le_trans (Int.floor_le _) hhi
    exact_mod_cast this
  · have := hmono p 1 hp1
    omega

/-- C130: over the points of a simulation the numbers of errors never decrease, so that with the positions drawn once for the last
point, each point uses an initial part of them of the full length, and the errors of a point are among those of the next. -/
theorem c130_nested (R : Rounding rnd) (h : Asked a b num) (n : Nat) (hn : n < 2 ^ 53) (ps : List ℝ)
    (hps : ps = linspaceF rnd a b num) (row : List Nat) (last : ℝ) (hlast : ps.getLast? = some last)
    (hrow : row.length = errorCountF rnd n last) :
    (∀ p ∈ ps, (row.take (errorCountF rnd n p)).length = errorCountF rnd n p) ∧
    ∀ i j (hi : i < ps.length) (hj : j < ps.length), i ≤ j →
      row.take (errorCountF rnd n ps[i]) <+: row.take (errorCountF rnd n ps[j]) := by
  obtain ⟨hlen, _, _, hmono, _⟩ := c130_points R h ps hps
  obtain ⟨_, _, hcm, _⟩ := c130_count R n hn
  constructor
  · intro p hp
    obtain ⟨i, hi, rfl⟩ := List.getElem_of_mem hp
    rw [List.getLast?_eq_getElem?] at hlast
    have hlt : ps.length - 1 < ps.length := by omega
    rw [List.getElem?_eq_getElem hlt] at hlast
    have hle := hcm _ _ (hmono i (ps.length - 1) hi hlt (by omega))
    rw [Option.some.inj hlast] at hle
    rw [List.length_take, hrow]
    exact Nat.min_eq_left hle
  · intro i j hi hj hij
    exact List.take_prefix_take_left (hcm _ _ (hmono i j hi hj hij))

/-- C130: every point is within 2^-51 of the point asked for. -/
theorem c130_near (R : Rounding rnd) (h : Asked a b num) (h2 : 2 ≤ num) (i : Nat) (hi : i < num) (p : ℝ)
    (hp : (linspaceF rnd a b num)[i]? = some p) : |p - ideal a b num i| ≤ 2 ^ (-51 : ℤ) := by
  have hmcast : ((num - 1 : Nat) : ℝ) = (num : ℝ) - 1 := by
    rw [Nat.cast_sub (by omega)]
    simp
  set m := num - 1 with hm
  have hmpos : (0 : ℝ) < m := by
    have : 0 < m := by omega
    exact_mod_cast this
  by_cases hl : i = m
  · have := last_entry rnd a b num h2
    rw [hl] at hp
    rw [← hm, hp] at this
    have hpb : p = b := Option.some.inj this
    have : ideal a b num i = b := by
      unfold ideal
      rw [hl, ← hmcast]
      field_simp
      ring
    rw [hpb, this, sub_self, abs_zero]
    positivity
  have him : i + 1 < num := by omega
  rw [entry R h i hi (Or.inl him)] at hp
  have hpe : p = rnd (inc rnd a b num i + a) := (Option.some.inj hp).symm
  set w := b - a with hw
  have hw0 : 0 ≤ w := by linarith [h.order]
  have hw1 : w ≤ 1 := by linarith [h.le_one, h.nonneg]
  -- the scale of the number of points
  obtain ⟨j, hj1, hj2⟩ : ∃ j : ℕ, 2 ^ j ≤ m ∧ m < 2 ^ (j + 1) :=
    ⟨Nat.log 2 m, Nat.pow_log_le_self 2 (by omega), Nat.lt_pow_succ_log_self (by norm_num) m⟩
  have hj3 : j ≤ 50 := by
    have : 2 ^ j ≤ 2 ^ 50 := le_trans hj1 (le_trans (Nat.sub_le _ _) h.few)
    exact (Nat.pow_le_pow_iff_right (by norm_num)).1 this
  have hj1' : (2 : ℝ) ^ (j : ℤ) ≤ m := by exact_mod_cast hj1
  have hj2' : (m : ℝ) ≤ 2 ^ ((j : ℤ) + 1) := by
    have : (m : ℝ) ≤ ((2 ^ (j + 1) : Nat) : ℝ) := by exact_mod_cast hj2.le
    refine le_trans this (le_of_eq ?_)
    push_cast
    norm_cast
  have e1 : |rnd w - w| ≤ 2 ^ (-54 : ℤ) := by
    have := rnd_near R 0 (by omega) (by omega) (x := w) (by rw [abs_of_nonneg hw0]; simpa using hw1)
    simpa using this
  have hd0 : 0 ≤ rnd w := rnd_ge R double_zero hw0
  have hd1 : rnd w ≤ 1 := rnd_le R (by simpa using double_int 1 (by norm_num)) hw1
  have e2 : |rnd (rnd w / m) - rnd w / m| ≤ 2 ^ (-(j : ℤ) - 54) := by
    apply rnd_near R (-(j : ℤ)) (by omega) (by omega)
    rw [abs_of_nonneg (by positivity), div_le_iff₀ hmpos, zpow_neg]
    calc rnd w ≤ 1 := hd1
      _ = ((2 : ℝ) ^ (j : ℤ))⁻¹ * 2 ^ (j : ℤ) := by field_simp
      _ ≤ _ := by gcongr
  have hi0 : (0 : ℝ) ≤ i := by positivity
  have him' : (i : ℝ) ≤ m := by
    have : i ≤ m := by omega
    exact_mod_cast this
  have e3 : |i * rnd (rnd w / m) - i * (w / m)| ≤ 2 ^ (-53 : ℤ) + 2 ^ (-54 : ℤ) := by
    have h3 : i * rnd (rnd w / m) - i * (w / m) = i * (rnd (rnd w / m) - rnd w / m) + i / m * (rnd w - w) := by
      field_simp
      ring
    rw [h3]
    refine le_trans (abs_add_le _ _) (add_le_add ?_ ?_)
    · rw [abs_mul, abs_of_nonneg hi0]
      calc i * |rnd (rnd w / m) - rnd w / m| ≤ 2 ^ ((j : ℤ) + 1) * 2 ^ (-(j : ℤ) - 54) := by
            apply mul_le_mul (le_trans him' hj2') e2 (abs_nonneg _) (by positivity)
        _ = 2 ^ (-53 : ℤ) := by
            rw [← zpow_add₀ (by norm_num)]
            congr 1
            omega
    · rw [abs_mul, abs_of_nonneg (by positivity)]
      calc i / m * |rnd w - w| ≤ 1 * 2 ^ (-54 : ℤ) := by
            apply mul_le_mul _ e1 (abs_nonneg _) zero_le_one
            rw [div_le_one hmpos]
            exact him'
        _ = _ := one_mul _
  have hinc1 := inc_le R h i (Or.inl him)
  have hinc0 := inc_nonneg R h i
  have hs0 : 0 ≤ rnd (rnd w / m) := rnd_ge R double_zero (by positivity)
  have hprod : i * rnd (rnd w / m) ≤ 2 := by
    have h4 := (abs_le.1 e3).2
    have h5 : i * (w / m) ≤ 1 := by
      rw [mul_div_assoc', div_le_one hmpos]
      nlinarith
    have h6 : (2 : ℝ) ^ (-53 : ℤ) + 2 ^ (-54 : ℤ) ≤ 1 := by norm_num
    linarith
  have e4 : |inc rnd a b num i - i * rnd (rnd w / m)| ≤ 2 ^ (-53 : ℤ) := by
    have := rnd_near R 1 (by omega) (by omega) (x := i * rnd (rnd w / m)) (by
      rw [abs_of_nonneg (by positivity)]
      simpa using hprod)
    exact this
  have e5 : |p - (inc rnd a b num i + a)| ≤ 2 ^ (-54 : ℤ) := by
    rw [hpe]
    have := rnd_near R 0 (by omega) (by omega) (x := inc rnd a b num i + a) (by
      rw [abs_of_nonneg (by linarith [h.nonneg])]
      simp only [zpow_zero]
      linarith [h.le_one])
    simpa using this
  have hid : ideal a b num i = a + i * (w / m) := by
    unfold ideal
    rw [← hmcast]
  rw [hid]
  have h7 : p - (a + i * (w / m)) = (p - (inc rnd a b num i + a)) + (inc rnd a b num i - i * rnd (rnd w / m)) +
      (i * rnd (rnd w / m) - i * (w / m)) := by ring
  rw [h7]
  refine le_trans (abs_add_le _ _) (le_trans (add_le_add (le_trans (abs_add_le _ _) (add_le_add e5 e4)) e3) ?_)
  norm_num

/-- C130: the share of errors made is within one error of the share asked for, and it is the exact number of errors rounded down,
that of `errorCount` over the rationals, unless that number is within a 2^50th of the word length of an integer. -/
theorem c130_share (R : Rounding rnd) (a b : ℚ) (h : Asked (a : ℝ) b num) (h2 : 2 ≤ num) (n : Nat) (hn : n < 2 ^ 53)
    (i : Nat) (p : ℝ) (hp : (linspaceF rnd a b num)[i]? = some p) (q : ℚ)
    (hq : (Averaged.linspace a b num)[i]? = some q) :
    |(errorCountF rnd n p : ℝ) - n * q| ≤ 1 + n * 2 ^ (-50 : ℤ) ∧
    ((∀ j : ℤ, (n : ℝ) * 2 ^ (-50 : ℤ) < |(n * q : ℝ) - j|) → errorCountF rnd n p = errorCount n q) := by
  have hi : i < num := by
    have := (List.getElem?_eq_some_iff.1 hp).1
    rwa [length_eq] at this
  have hqi : (q : ℝ) = ideal a b num i := by
    unfold Averaged.linspace at hq
    simp only [List.getElem?_map, List.getElem?_range hi, Option.map_some, Option.some.injEq] at hq
    rw [if_neg (by omega)] at hq
    rw [← hq, ideal]
    push_cast
    rfl
  have hnear := c130_near R h h2 i hi p hp
  rw [← hqi] at hnear
  have hmem : p ∈ linspaceF rnd a b num := List.mem_of_getElem? hp
  obtain ⟨_, hp0, hp1⟩ := (c130_points R h _ rfl).2.2.2.2 p hmem
  have hp0' : 0 ≤ p := le_trans h.nonneg hp0
  have hp1' : p ≤ 1 := le_trans hp1 h.le_one
  have hn0 : (0 : ℝ) ≤ n := by positivity
  have hround : |rnd (n * p) - n * p| ≤ n * 2 ^ (-53 : ℤ) := by
    rcases Nat.eq_zero_or_pos n with h0 | h0
    · simp [h0, rnd_zero R]
    obtain ⟨j, hj1, hj2⟩ : ∃ j : ℕ, 2 ^ j ≤ n ∧ n < 2 ^ (j + 1) :=
      ⟨Nat.log 2 n, Nat.pow_log_le_self 2 (by omega), Nat.lt_pow_succ_log_self (by norm_num) n⟩
    have hj3 : j < 53 := (Nat.pow_lt_pow_iff_right (by norm_num : 1 < 2)).1 (lt_of_le_of_lt hj1 hn)
    have hj1' : (2 : ℝ) ^ (j : ℤ) ≤ n := by exact_mod_cast hj1
    have hj2' : (n : ℝ) ≤ 2 ^ ((j : ℤ) + 1) := by
      have : (n : ℝ) ≤ ((2 ^ (j + 1) : Nat) : ℝ) := by exact_mod_cast hj2.le
      refine le_trans this (le_of_eq ?_)
      push_cast
      norm_cast
    have := rnd_near R ((j : ℤ) + 1) (by omega) (by omega) (x := n * p) (by
      rw [abs_of_nonneg (by positivity)]
      exact le_trans (mul_le_of_le_one_right hn0 hp1') hj2')
    refine le_trans this ?_
    rw [show (j : ℤ) + 1 - 54 = j + (-53) by omega, zpow_add₀ (by norm_num)]
    exact mul_le_mul_of_nonneg_right hj1' (by positivity)
  have htot : |rnd (n * p) - n * q| ≤ n * 2 ^ (-50 : ℤ) := by
    have h3 : rnd (n * p) - n * q = (rnd (n * p) - n * p) + n * (p - q) := by ring
    rw [h3]
    refine le_trans (abs_add_le _ _) ?_
    rw [abs_mul, abs_of_nonneg hn0]
    have h4 : (n : ℝ) * |p - q| ≤ n * 2 ^ (-51 : ℤ) := by gcongr
    have h5 : (2 : ℝ) ^ (-53 : ℤ) + 2 ^ (-51 : ℤ) ≤ 2 ^ (-50 : ℤ) := by norm_num
    nlinarith
  have hr0 : 0 ≤ rnd (n * p) := rnd_ge R double_zero (by positivity)
  have hcast : (errorCountF rnd n p : ℤ) = ⌊rnd (n * p)⌋ := by
    unfold errorCountF
    exact Int.toNat_of_nonneg (Int.floor_nonneg.2 hr0)
  have hcast' : (errorCountF rnd n p : ℝ) = ((⌊rnd (n * p)⌋ : ℤ) : ℝ) := by rw [← hcast]; simp
  constructor
  · rw [hcast']
    have h6 := Int.floor_le (rnd (n * p))
    have h7 := Int.lt_floor_add_one (rnd (n * p))
    obtain ⟨h8, h9⟩ := abs_le.1 htot
    rw [abs_le]
    constructor <;> linarith
  · intro hfar
    have hfl : ⌊rnd (n * p)⌋ = ⌊(n * q : ℝ)⌋ := by
      obtain ⟨h8, h9⟩ := abs_le.1 htot
      rw [Int.floor_eq_iff]
      constructor
      · by_contra hlt
        push Not at hlt
        have h10 := hfar ⌊(n * q : ℝ)⌋
        rw [abs_of_nonneg (by linarith [Int.floor_le (n * q : ℝ)])] at h10
        linarith
      · by_contra hge
        push Not at hge
        have h10 := hfar (⌊(n * q : ℝ)⌋ + 1)
        push_cast at h10
        rw [abs_of_neg (by linarith [Int.lt_floor_add_one (n * q : ℝ)])] at h10
        linarith
    have h11 : (errorCountF rnd n p : ℤ) = ⌊(n * q : ℝ)⌋ := by rw [hcast, hfl]
    have h12 : ⌊(n * q : ℝ)⌋ = (n * q : ℚ).floor := by
      have : (n * q : ℝ) = (((n : ℚ) * q : ℚ) : ℝ) := by push_cast; rfl
      rw [this, Rat.floor_cast]
      rfl
    unfold errorCount
    rw [← h12, ← h11]
    simp

/-- C130: a share that is a whole number of errors is not always met. Between 0 and 1/4 in steps of 1/24, words of 1944 bits get 404
errors at the sixth point, which asks for 405. -/
theorem c130_whole_false (R : Rounding rnd) : Asked 0 (1 / 4) 7 ∧
    ∃ p, (linspaceF rnd 0 (1 / 4) 7)[5]? = some p ∧ errorCountF rnd 1944 p = 404 ∧
      (Averaged.linspace 0 (1 / 4) 7)[5]? = some (5 / 24) ∧ (1944 : ℚ) * (5 / 24) = 405 ∧ errorCount 1944 (5 / 24) = 405 := by
  have hq : IsDouble (1 / 4) := ⟨1, -2, by norm_num, by omega, by omega, by norm_num⟩
  have hA : Asked 0 (1 / 4) 7 := by
    refine ⟨double_zero, hq, le_refl _, by norm_num, by norm_num, Or.inr ?_, by norm_num, by norm_num⟩
    rw [sub_zero]
    calc (2 : ℝ) ^ (-900 : ℤ) ≤ 2 ^ (-2 : ℤ) := zpow_le_zpow_right₀ (by norm_num) (by norm_num)
      _ = 1 / 4 := by norm_num
  refine ⟨hA, _, entry R hA 5 (by norm_num) (Or.inl (by norm_num)), ?_, ?_, by norm_num, ?_⟩
  · have h1 : rnd ((1 : ℝ) / 4 - 0) = 1 / 4 := by rw [sub_zero, rnd_double R hq]
    have h2 : rnd ((1 : ℝ) / 4 / ((7 - 1 : Nat) : ℝ)) = (6004799503160661 : ℤ) * (2 : ℝ) ^ (-5 - 52 : ℤ) := by
      apply rnd_grid R (-5) _ (by norm_num) (by norm_num) (by norm_num)
      · norm_num
      · rw [abs_lt]
        constructor <;> norm_num
    have h3 : inc rnd 0 (1 / 4) 7 5 = (7505999378950826 : ℤ) * (2 : ℝ) ^ (-3 - 52 : ℤ) := by
      unfold inc
      rw [h1, h2]
      apply rnd_grid R (-3) _ (by norm_num) (by norm_num) (by norm_num)
      · norm_num
      · rw [abs_lt]
        constructor <;> norm_num
    have h4 : rnd (inc rnd 0 (1 / 4) 7 5 + 0) = (7505999378950826 : ℤ) * (2 : ℝ) ^ (-3 - 52 : ℤ) := by
      rw [add_zero, h3]
      exact rnd_double R ⟨7505999378950826, -3 - 52, by norm_num, by norm_num, by norm_num, rfl⟩
    rw [h4]
    have h5 : rnd (((1944 : Nat) : ℝ) * ((7505999378950826 : ℤ) * (2 : ℝ) ^ (-3 - 52 : ℤ))) =
        (7124835347988479 : ℤ) * (2 : ℝ) ^ (8 - 52 : ℤ) := by
      apply rnd_grid R 8 _ (by norm_num) (by norm_num) (by norm_num)
      · norm_num
      · rw [abs_lt]
        constructor <;> norm_num
    unfold errorCountF
    rw [h5]
    have h6 : ⌊((7124835347988479 : ℤ) : ℝ) * (2 : ℝ) ^ (8 - 52 : ℤ)⌋ = 404 := by
      rw [Int.floor_eq_iff]
      constructor <;> norm_num
    rw [h6]
    rfl
  · simp [Averaged.linspace]
    norm_num
  · unfold errorCount
    norm_num [Rat.floor]
    rfl

/-- Rounding exists, and the range of the example of the scripts, 1 to 5 percent in doubles, meets the assumptions. -/
example : (∃ rnd, Rounding rnd) ∧ ∀ rnd, Rounding rnd → Asked (rnd (1 / 100)) (rnd (5 / 100)) 20 := by
  refine ⟨rounding_exists, fun rnd R => ⟨R.double _, R.double _, rnd_ge R double_zero (by norm_num), rnd_mono R (by norm_num),
    ?_, Or.inr ?_, by norm_num, by norm_num⟩⟩
  · exact rnd_le R (by simpa using double_int 1 (by norm_num)) (by norm_num)
  · have h1 : rnd (1 / 100) ≤ 2 ^ (-6 : ℤ) := rnd_le R (double_pow _ (by omega) (by omega)) (by norm_num)
    have h2 : (2 : ℝ) ^ (-5 : ℤ) ≤ rnd (5 / 100) := rnd_ge R (double_pow _ (by omega) (by omega)) (by norm_num)
    have h3 : (2 : ℝ) ^ (-900 : ℤ) ≤ 2 ^ (-6 : ℤ) := zpow_le_zpow_right₀ (by norm_num) (by norm_num)
    have h4 : (2 : ℝ) ^ (-5 : ℤ) - 2 ^ (-6 : ℤ) = 2 ^ (-6 : ℤ) := by norm_num
    exact le_trans (le_trans h3 (le_of_eq h4.symm)) (sub_le_sub h2 h1)

end NR.C130
