import Verif.Model.Mission
import Mathlib.Tactic.Linarith
import Mathlib.Tactic.NormNum
import Mathlib.Tactic.Ring
/-
C132: the simulated mission profile: every channel has a value for each of the 500 messages, and what the values are.
-/
namespace NR.C132
open NR NR.Mission

/-- As many draws as the script asks for. -/
structure Enough (z : Draws) : Prop where
  range : z.range.length = 450
  azimuth : z.azimuth.length = 500
  chamberPressure : z.chamberPressure.length = 500
  chamberTemp : z.chamberTemp.length = 500
  depth : z.depth.length = 500
  waterTemp : z.waterTemp.length = 500

/-- The true range of message `i`: nothing on the surface, 5 metres more per message for 200 messages, a leg at right angles, a leg back
at 5 metres per message, and rest. -/
noncomputable def trueRange (i : Nat) : ℝ :=
  if i < 50 then 0
  else if i < 250 then 50 + 5 * (i - 50)
  else if i < 350 then 1045 + (√(1045 ^ 2 + 495 ^ 2) - 1045) * (i - 250) / 99
  else if i < 450 then √(1045 ^ 2 + 495 ^ 2) - 5 * (i - 350)
  else √(1045 ^ 2 + 495 ^ 2) - 495

/-- The true depth of message `i` in metres. -/
noncomputable def trueDepth (i : Nat) : ℝ :=
  if i < 50 then 0
  else if i < 145 then (i - 50) / 2
  else if i < 164 then 95 / 2 + (i - 145) / 4
  else if i < 450 then 52
  else 52 - 52 * (i - 450) / 49

/-- The true temperature of the chamber. -/
noncomputable def trueTemp (i : Nat) : ℝ :=
  if i < 50 then 39 + 2 * i / 49
  else if i < 350 then 41 - 4 * (i - 50) / 299
  else if i < 465 then 37
  else 37 + 2 * (i - 465) / 34

/-- The deviation of the depth sensor meant by the script. -/
noncomputable def meantSigma (i : Nat) : ℝ := if i < 60 then 1 / 4 else if i < 470 then 3 / 20 else 1 / 4

theorem full_get (x : ℝ) (n i : Nat) (h : i < n) : (full x n)[i]? = some x := by
  unfold full; rw [List.getElem?_replicate_of_lt h]

theorem full_length (x : ℝ) (n : Nat) : (full x n).length = n := by simp [full]

theorem lin_get (a b : ℝ) (n i : Nat) (h : i < n) : (linspace a b n)[i]? = some (a + (b - a) * i / (n - 1 : ℝ)) := by
  unfold linspace; rw [List.getElem?_map, List.getElem?_range h]; rfl

theorem lin_length (a b : ℝ) (n : Nat) : (linspace a b n).length = n := by simp [linspace]

attribute [local irreducible] full linspace

theorem sin_dive : Real.sin divingAngle = 1 / 2 := by
  unfold divingAngle
  rw [show 30 * Real.pi / 180 = Real.pi / 6 by ring, Real.sin_pi_div_six]

theorem zip_get (f : ℝ → ℝ → ℝ) (a b : List ℝ) (i : Nat) (x y : ℝ) (ha : a[i]? = some x) (hb : b[i]? = some y) :
    (List.zipWith f a b)[i]? = some (f x y) := by
  rw [List.getElem?_zipWith, ha, hb]

theorem get_of_lt (z : List ℝ) (i : Nat) (h : i < z.length) : z[i]? = some (z.getD i 0) := by
  rw [List.getD_eq_getElem?_getD, List.getElem?_eq_getElem h]; rfl

theorem range_get (i : Nat) (hi : i < 500) :
    (full 0 50 ++ linspace 50 firstRange 200 ++ linspace firstRange secondRange 100 ++ linspace secondRange thirdRange 100 ++
      full thirdRange 50)[i]? = some (trueRange i) := by
  have h1 : firstRange = 1045 := by unfold firstRange; norm_num
  have h2 : secondRange = √(1045 ^ 2 + 495 ^ 2) := by unfold secondRange; rw [h1]; norm_num
  have h3 : thirdRange = √(1045 ^ 2 + 495 ^ 2) - 495 := by unfold thirdRange; rw [h2]; norm_num
  rw [h1, h2, h3]
  simp only [List.getElem?_append, List.length_append, full_length, lin_length]
  unfold trueRange
  split_ifs <;> first | omega | skip
  · exact full_get _ _ _ (by omega)
  · rw [lin_get _ _ _ _ (by omega), Nat.cast_sub (by omega)]; push_cast; congr 1; ring
  · rw [lin_get _ _ _ _ (by omega), Nat.cast_sub (by omega)]; push_cast; congr 1; ring
  · rw [lin_get _ _ _ _ (by omega), Nat.cast_sub (by omega)]; push_cast; congr 1; ring
  · exact full_get _ _ _ (by omega)

theorem depth_get (i : Nat) (hi : i < 500) : cleanDepth[i]? = some (trueDepth i) := by
  unfold cleanDepth
  rw [sin_dive]
  simp only [List.getElem?_append, List.length_append, full_length, lin_length]
  unfold trueDepth
  split_ifs <;> first | omega | skip
  · exact full_get _ _ _ (by omega)
  · rw [lin_get _ _ _ _ (by omega), Nat.cast_sub (by omega)]; push_cast; congr 1; ring
  · rw [lin_get _ _ _ _ (by omega), Nat.cast_sub (by omega)]; push_cast; congr 1; ring
  · rw [full_get _ _ _ (by omega)]; norm_num
  · rw [lin_get _ _ _ _ (by omega), Nat.cast_sub (by omega)]; push_cast; congr 1; ring

theorem cleanDepth_length : cleanDepth.length = 500 := by
  simp only [cleanDepth, List.length_append, full_length, lin_length]

theorem sigma_get (i : Nat) (hi : i < 500) : depthSigma[i]? = some (meantSigma i) := by
  unfold depthSigma
  simp only [List.getElem?_append, List.length_append, full_length]
  unfold meantSigma
  split_ifs <;> first | omega | exact full_get _ _ _ (by omega)

theorem add_ok {a b : List ℝ} (h : a.length = b.length) : addV a b = .ok (List.zipWith (· + ·) a b) := by unfold addV; rw [if_pos h]
theorem mul_ok {a b : List ℝ} (h : a.length = b.length) : mulV a b = .ok (List.zipWith (· * ·) a b) := by unfold mulV; rw [if_pos h]

/-- What the channels hold for message `i`. -/
structure Holds (z : Draws) (p : Profile) (i : Nat) : Prop where
  range : p.range[i]? = some (trueRange i + if i < 50 then 0 else 2 * z.range.getD (i - 50) 0)
  azimuth : p.azimuth[i]? = some ((if i < 250 then 0 else if i < 350 then 90 else 120) + 3 * z.azimuth.getD i 0)
  mode : p.mode[i]? = some (if i < 50 then 0 else if i < 450 then 2 else 4)
  status : p.status[i]? = some (if i < 50 then 0 else if i < 150 then 1 else if i < 450 then 2 else 4)
  err : p.err[i]? = some (if i < 450 then 0 else 8)
  chamberPressure : p.chamberPressure[i]? = some (19 / 2 + 1 / 20 * z.chamberPressure.getD i 0)
  chamberTemp : p.chamberTemp[i]? = some (trueTemp i + 3 / 20 * z.chamberTemp.getD i 0)
  depth : p.depth[i]? = some (trueDepth i + meantSigma i ^ 2 * z.depth.getD i 0)
  waterTemp : p.waterTemp[i]? = some (5 + 25 * Real.exp (-trueDepth i / 200) +
    (if i < 60 then 2 / 5 else if i < 480 then 3 / 20 else 3 / 10) * z.waterTemp.getD i 0)
  pressure : p.pressure[i]? = some (101325 / 1000 + 1025 * (981 / 100) * (trueDepth i + meantSigma i ^ 2 * z.depth.getD i 0) / 1000)

/-- **C132.** Whatever is drawn, the script does not raise, every channel has exactly 500 values, and the value for each message is the
one specified. -/
theorem c132_profile (z : Draws) (h : Enough z) : ∃ p, profile z = .ok p ∧
    p.range.length = 500 ∧ p.azimuth.length = 500 ∧ p.mode.length = 500 ∧ p.status.length = 500 ∧ p.err.length = 500 ∧
    p.chamberPressure.length = 500 ∧ p.chamberTemp.length = 500 ∧ p.depth.length = 500 ∧ p.waterTemp.length = 500 ∧
    p.pressure.length = 500 ∧ ∀ i, i < 500 → Holds z p i := by
  have e1 : pingerRange z.range = .ok _ := add_ok (by
    simp only [List.length_append, full_length, lin_length, List.length_map, h.range])
  have e2 : azimuth z.azimuth = .ok _ := add_ok (by simp only [List.length_append, full_length, List.length_map, h.azimuth])
  have e3 : chamberPressure z.chamberPressure = .ok _ := add_ok (by simp only [full_length, List.length_map, h.chamberPressure])
  have e4 : chamberTemp z.chamberTemp = .ok _ := add_ok (by
    simp only [List.length_append, full_length, lin_length, List.length_map, h.chamberTemp])
  have hs : depthSigma.length = 500 := by simp only [depthSigma, List.length_append, full_length]
  have e5 : depthNoise z.depth = .ok (List.zipWith (· * ·) depthSigma (List.zipWith (· * ·) depthSigma z.depth)) := by
    unfold depthNoise
    rw [mul_ok (by rw [hs, h.depth])]
    exact mul_ok (by rw [List.length_zipWith, hs, h.depth, Nat.min_self])
  have hwn : (full (2 / 5) 60 ++ full (3 / 20) 420 ++ full (3 / 10) 20).length = 500 := by
    simp only [List.length_append, full_length]
  have e6 : waterTemp z.waterTemp = .ok (List.zipWith (· + ·) (cleanDepth.map fun d => 5 + 25 * Real.exp (-d / 200))
      (List.zipWith (· * ·) (full (2 / 5) 60 ++ full (3 / 20) 420 ++ full (3 / 10) 20) z.waterTemp)) := by
    unfold waterTemp
    rw [mul_ok (by rw [hwn, h.waterTemp])]
    exact add_ok (by rw [List.length_map, cleanDepth_length, List.length_zipWith, hwn, h.waterTemp, Nat.min_self])
  have e7 : addV cleanDepth (List.zipWith (· * ·) depthSigma (List.zipWith (· * ·) depthSigma z.depth)) = .ok _ :=
    add_ok (by simp only [cleanDepth_length, List.length_zipWith, hs, h.depth, Nat.min_self])
  refine ⟨_, by unfold profile; rw [e1, e2, e3, e4, e5, e6]; simp only [bind, Except.bind]; rw [e7], ?_, ?_, ?_, ?_, ?_, ?_, ?_, ?_, ?_, ?_, ?_⟩
  any_goals simp only [List.length_zipWith, List.length_append, full_length, lin_length, List.length_map, h.range, h.azimuth,
    h.chamberPressure, h.chamberTemp, h.depth, h.waterTemp, cleanDepth_length, hs, mode, status, err, hwn, Nat.min_self]
  intro i hi
  have hdepth : (List.zipWith (· + ·) cleanDepth (List.zipWith (· * ·) depthSigma (List.zipWith (· * ·) depthSigma z.depth)))[i]? =
      some (trueDepth i + meantSigma i ^ 2 * z.depth.getD i 0) := by
    rw [zip_get _ _ _ _ _ _ (depth_get i hi) (zip_get _ _ _ _ _ _ (sigma_get i hi) (zip_get _ _ _ _ _ _ (sigma_get i hi)
      (get_of_lt _ _ (by rw [h.depth]; exact hi))))]
    congr 1; ring
  refine ⟨?_, ?_, ?_, ?_, ?_, ?_, ?_, ?_, ?_, ?_⟩
  · refine zip_get _ _ _ _ _ _ (range_get i hi) ?_
    simp only [List.getElem?_append, full_length]
    split_ifs
    · exact full_get _ _ _ (by omega)
    · rw [List.getElem?_map, get_of_lt _ _ (by rw [h.range]; omega)]; rfl
  · refine zip_get _ _ _ _ _ _ ?_ ?_
    · simp only [List.getElem?_append, List.length_append, full_length]
      split_ifs <;> first | omega | exact full_get _ _ _ (by omega)
    · rw [List.getElem?_map, get_of_lt _ _ (by rw [h.azimuth]; omega)]; rfl
  · simp only [List.getElem?_append, List.length_append, full_length]
    split_ifs <;> first | omega | exact full_get _ _ _ (by omega)
  · simp only [List.getElem?_append, List.length_append, full_length]
    split_ifs <;> first | omega | exact full_get _ _ _ (by omega)
  · simp only [List.getElem?_append, full_length]
    split_ifs <;> first | omega | exact full_get _ _ _ (by omega)
  · refine zip_get _ _ _ _ _ _ (full_get _ _ _ (by omega)) ?_
    rw [List.getElem?_map, get_of_lt _ _ (by rw [h.chamberPressure]; omega)]; rfl
  · refine zip_get _ _ _ _ _ _ ?_ (by rw [List.getElem?_map, get_of_lt _ _ (by rw [h.chamberTemp]; omega)]; rfl)
    simp only [List.getElem?_append, List.length_append, full_length, lin_length]
    unfold trueTemp
    split_ifs <;> first | omega | skip
    · rw [lin_get _ _ _ _ (by omega)]; push_cast; congr 1; ring
    · rw [lin_get _ _ _ _ (by omega), Nat.cast_sub (by omega)]; push_cast; congr 1; ring
    · exact full_get _ _ _ (by omega)
    · rw [lin_get _ _ _ _ (by omega), Nat.cast_sub (by omega)]; push_cast; congr 1; ring
  · exact hdepth
  · refine zip_get _ _ _ _ _ _ (by rw [List.getElem?_map, depth_get i hi]; rfl) (zip_get _ _ _ _ _ _ ?_
      (get_of_lt _ _ (by rw [h.waterTemp]; exact hi)))
    simp only [List.getElem?_append, List.length_append, full_length]
    split_ifs <;> first | omega | exact full_get _ _ _ (by omega)
  · rw [List.getElem?_map, hdepth]; rfl

/-- The status says that the dive is over from message 150 on, but until message 162 the true depth is still short of the depth of the
cruise: the dive of the depth channel takes 114 messages, not the 100 of the description. -/
theorem c132_dive_false (z : Draws) (h : Enough z) : ∃ p, profile z = .ok p ∧
    ∀ i, 150 ≤ i → i ≤ 162 → p.status[i]? = some 2 ∧ p.cleanDepth[i]? = some (trueDepth i) ∧ trueDepth i < 52 := by
  obtain ⟨p, hp, -, -, -, -, -, -, -, -, -, -, hh⟩ := c132_profile z h
  refine ⟨p, hp, fun i h1 h2 => ⟨?_, ?_, ?_⟩⟩
  · rw [(hh i (by omega)).status, if_neg (by omega), if_neg (by omega), if_pos (by omega)]
  · have : p.cleanDepth = cleanDepth := by
      unfold profile at hp
      simp only [bind, Except.bind] at hp
      repeat' split at hp
      all_goals first | exact (congrArg Profile.cleanDepth (Except.ok.inj hp)).symm | cases hp
    rw [this, depth_get i (by omega)]
  · unfold trueDepth
    rw [if_neg (by omega), if_neg (by omega), if_pos (by omega)]
    have : (i : ℝ) ≤ 162 := by exact_mod_cast h2
    linarith

/-- On the way down each message is 5 metres further out and half a metre deeper: a slope of one in ten, not the sine of 30 degrees (one
half) of the distance covered between two messages, which would be 2.5 metres. -/
theorem c132_slope_false (i : Nat) (h1 : 50 ≤ i) (h2 : i < 144) :
    trueRange (i + 1) - trueRange i = 5 ∧ trueDepth (i + 1) - trueDepth i = 1 / 2 ∧
      trueDepth (i + 1) - trueDepth i ≠ 1 * 5 * Real.sin (30 * Real.pi / 180) := by
  have hd : trueDepth (i + 1) - trueDepth i = 1 / 2 := by
    unfold trueDepth
    rw [if_neg (by omega), if_pos (by omega), if_neg (by omega), if_pos (by omega)]
    push_cast; ring
  refine ⟨?_, hd, ?_⟩
  · unfold trueRange
    rw [if_neg (by omega), if_pos (by omega), if_neg (by omega), if_pos (by omega)]
    push_cast; ring
  · rw [hd, show 30 * Real.pi / 180 = divingAngle from rfl, sin_dive]; norm_num

/-- The legs join: no jump of the true range at either turn nor at the end of the last leg. The start of the first leg is a jump to 50
metres. -/
theorem c132_joints : trueRange 250 = trueRange 249 ∧ trueRange 350 = trueRange 349 ∧ trueRange 450 = trueRange 449 ∧
    trueRange 49 = 0 ∧ trueRange 50 = 50 := by
  refine ⟨?_, ?_, ?_, ?_, ?_⟩ <;> · unfold trueRange; norm_num

/-- Before the dive the depth sensor shows a negative depth, and a pressure below that of the air, whenever its draw is negative. -/
theorem c132_negative (z : Draws) (h : Enough z) (i : Nat) (hi : i < 50) (hz : z.depth.getD i 0 < 0) : ∃ p d q, profile z = .ok p ∧
    p.depth[i]? = some d ∧ p.pressure[i]? = some q ∧ d < 0 ∧ q < 101325 / 1000 := by
  obtain ⟨p, hp, -, -, -, -, -, -, -, -, -, -, hh⟩ := c132_profile z h
  have ht : trueDepth i = 0 := by unfold trueDepth; rw [if_pos hi]
  have hs : meantSigma i = 1 / 4 := by unfold meantSigma; rw [if_pos (by omega)]
  refine ⟨p, _, _, hp, (hh i (by omega)).depth, (hh i (by omega)).pressure, ?_, ?_⟩ <;> rw [ht, hs] <;> nlinarith

/-- The noise of the depth channel is not `depth_noise_sig` times a standard draw: it is smaller for every draw but 0, at most a quarter. -/
theorem c132_noise_false (z : Draws) (h : Enough z) (i : Nat) (hi : i < 500) (hz : z.depth.getD i 0 ≠ 0) : ∃ p d, profile z = .ok p ∧
    p.depth[i]? = some d ∧ d - trueDepth i ≠ meantSigma i * z.depth.getD i 0 ∧
      |d - trueDepth i| ≤ 1 / 4 * |meantSigma i * z.depth.getD i 0| := by
  obtain ⟨p, hp, -, -, -, -, -, -, -, -, -, -, hh⟩ := c132_profile z h
  have hs : 0 < meantSigma i ∧ meantSigma i ≤ 1 / 4 := by unfold meantSigma; split_ifs <;> norm_num
  refine ⟨p, _, hp, (hh i hi).depth, ?_, ?_⟩
  · rw [add_sub_cancel_left, pow_two, mul_assoc]
    intro e
    have : meantSigma i * z.depth.getD i 0 ≠ 0 := mul_ne_zero hs.1.ne' hz
    have h1 : meantSigma i = 1 := by
      have := mul_right_cancel₀ this (e.trans (one_mul _).symm)
      exact this
    linarith [hs.2]
  · rw [add_sub_cancel_left, pow_two, mul_assoc, abs_mul, abs_of_pos hs.1]
    exact mul_le_mul_of_nonneg_right hs.2 (abs_nonneg _)

/-- The hypotheses are met, for draws that are not all zero. -/
noncomputable def demo : Draws where
  range := full 1 450
  azimuth := full (-1) 500
  chamberPressure := full 1 500
  chamberTemp := full 1 500
  depth := full (-2) 500
  waterTemp := full 1 500

example : Enough demo ∧ demo.depth.getD 7 0 < 0 := by
  refine ⟨⟨?_, ?_, ?_, ?_, ?_, ?_⟩, ?_⟩
  any_goals exact full_length _ _
  rw [List.getD_eq_getElem?_getD, show demo.depth[7]? = some (-2 : ℝ) from full_get _ _ _ (by norm_num)]; norm_num

example : ∃ p, profile demo = .ok p ∧ p.depth[7]? = some (-1 / 8 : ℝ) := by
  obtain ⟨p, hp, -, -, -, -, -, -, -, -, -, -, hh⟩ := c132_profile demo
    ⟨full_length _ _, full_length _ _, full_length _ _, full_length _ _, full_length _ _, full_length _ _⟩
  refine ⟨p, hp, ?_⟩
  have e : demo.depth.getD 7 0 = -2 := by
    rw [List.getD_eq_getElem?_getD, show demo.depth[7]? = some (-2 : ℝ) from full_get _ _ _ (by norm_num)]; rfl
  rw [(hh 7 (by norm_num)).depth, e]
  norm_num [trueDepth, meantSigma]

end NR.C132
