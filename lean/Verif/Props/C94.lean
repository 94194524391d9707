import Verif.Model.NoisyBernoulli
import Verif.Spec.NoisyBernoulli
import Verif.Props.C86
/-
C94: the study of estimating a bit probability through a noisy channel.
-/
namespace NR
open Spec

theorem noisyShare_eq (draws : List (Bool × Bool)) :
    noisyShare draws = ((seenBits draws).count true : ℝ) / (seenBits draws).length := by
  unfold noisyShare meanR seenBits
  have : (draws.map fun d => (((d.1.toNat + d.2.toNat) % 2 : Nat) : ℝ)).sum =
      (((draws.map fun d => if d.2 then !d.1 else d.1).count true : Nat) : ℝ) := by
    induction draws with
    | nil => simp
    | cons d l ih =>
      obtain ⟨a, b⟩ := d
      simp only [List.map_cons, List.sum_cons, ih, List.count_cons]
      cases a <;> cases b <;> simp <;> ring
  rw [this]
  simp

/-- C94: what the study reports for a source and a channel. Each error is that of the corrected share, each "ignorant" error
that of the plain share of ones seen; the maxima are attained and the mean squares are averages of the squares. -/
theorem c94_row (p1 f : ℝ) (trials : List (List (Bool × Bool))) (hne : trials ≠ []) :
    ∃ r, studyRow p1 f trials = .ok r ∧
      r.error = trials.map (fun t => |flipCorrected f (seenBits t) - p1|) ∧
      r.ignorantError = trials.map (fun t => |((seenBits t).count true : ℝ) / (seenBits t).length - p1|) ∧
      (r.maxError ∈ r.error ∧ ∀ e ∈ r.error, e ≤ r.maxError) ∧
      (r.ignorantMaxError ∈ r.ignorantError ∧ ∀ e ∈ r.ignorantError, e ≤ r.ignorantMaxError) ∧
      r.mse * trials.length = (r.error.map fun e => e * e).sum ∧
      r.ignorantMse * trials.length = (r.ignorantError.map fun e => e * e).sum := by
  have hmax : ∀ l : List ℝ, l ≠ [] → ∃ m, listMax l = .ok m ∧ m ∈ l ∧ ∀ e ∈ l, e ≤ m := by
    intro l hl
    match l with
    | x :: xs =>
      refine ⟨xs.foldl max x, rfl, ?_⟩
      have : ∀ (xs : List ℝ) (x : ℝ), xs.foldl max x ∈ x :: xs ∧ ∀ e ∈ x :: xs, e ≤ xs.foldl max x := by
        intro xs
        induction xs with
        | nil => intro x; simp
        | cons y ys ih =>
          intro x
          obtain ⟨h1, h2⟩ := ih (max x y)
          rw [List.foldl_cons]
          constructor
          · rcases List.mem_cons.1 h1 with h | h
            · rw [h]
              rcases max_choice x y with h | h <;> rw [h] <;> simp
            · exact List.mem_cons_of_mem _ (List.mem_cons_of_mem _ h)
          · intro e he
            rcases List.mem_cons.1 he with rfl | he
            · exact le_trans (le_max_left _ _) (h2 _ List.mem_cons_self)
            · rcases List.mem_cons.1 he with rfl | he
              · exact le_trans (le_max_right _ _) (h2 _ List.mem_cons_self)
              · exact h2 e (List.mem_cons_of_mem _ he)
      exact this xs x
  have e1 : ((trials.map noisyShare).map fun v => |v - p1|) =
      trials.map (fun t => |((seenBits t).count true : ℝ) / (seenBits t).length - p1|) := by
    rw [List.map_map]
    exact List.map_congr_left fun t _ => by simp only [Function.comp_apply, noisyShare_eq]
  have e2 : (((trials.map noisyShare).map fun v => npClip 0 1 ((v - f) / (1 - 2 * f))).map fun p => |p - p1|) =
      trials.map (fun t => |flipCorrected f (seenBits t) - p1|) := by
    rw [List.map_map, List.map_map]
    exact List.map_congr_left fun t _ => by simp only [Function.comp_apply, noisyShare_eq, npClip, flipCorrected]
  obtain ⟨m1, g1, g2, g3⟩ := hmax (trials.map (fun t => |((seenBits t).count true : ℝ) / (seenBits t).length - p1|)) (by simpa using hne)
  obtain ⟨m2, k1, k2, k3⟩ := hmax (trials.map (fun t => |flipCorrected f (seenBits t) - p1|)) (by simpa using hne)
  have hl : (trials.length : ℝ) ≠ 0 := by
    rw [Nat.cast_ne_zero]; simpa using hne
  unfold studyRow
  simp only [e1, e2, g1, k1, bind, Except.bind]
  refine ⟨_, rfl, rfl, rfl, ⟨k2, k3⟩, ⟨g2, g3⟩, ?_, ?_⟩
  · simp only [meanR, List.length_map, pow_two]
    rw [div_mul_cancel₀ _ hl]
  · simp only [meanR, List.length_map, pow_two]
    rw [div_mul_cancel₀ _ hl]

theorem c94_no_trials (p1 f : ℝ) : studyRow p1 f [] = .error .valueError := rfl

/-- C94: the corrected share is the maximum-likelihood estimate from the seen bits. -/
theorem c94_most_likely (f : ℝ) (hf : 0 ≤ f) (hf1 : f ≤ 1) (hhalf : f ≠ 1 / 2) (draws : List (Bool × Bool)) (hd : draws ≠ []) :
    MostLikely f ((seenBits draws).map fun b => [b]) 0 (flipCorrected f (seenBits draws)) := by
  have h := c86_estimate f hf hf1 hhalf ((seenBits draws).map fun b => [b]) (by simpa [seenBits] using hd) 0
  have : oneShare ((seenBits draws).map fun b => [b]) 0 = ((seenBits draws).count true : ℝ) / (seenBits draws).length := by
    unfold oneShare
    rw [List.countP_map, List.length_map, List.count_eq_countP]
    congr 3
    funext b
    cases b <;> rfl
  rw [this] at h
  exact h

/-- Expected values of affine and quadratic functions of the number of ones. -/
theorem bscMean_quad (p f : ℝ) (n : Nat) : ∀ a b c : ℝ,
    bscMean p f n (fun l => a + b * ((seenBits l).count true : ℝ) + c * ((seenBits l).count true : ℝ) ^ 2) =
      a + b * (n * throughBsc f p) +
        c * (n * throughBsc f p * (1 - throughBsc f p) + (n * throughBsc f p) ^ 2) := by
  induction n with
  | zero => intro a b c; simp [bscMean, seenBits]
  | succ n ih =>
    intro a b c
    have h1 : ∀ (x y : Bool), (if y then !x else x) = true →
        (bscMean p f n fun l => a + b * ((seenBits ((x, y) :: l)).count true : ℝ) +
          c * ((seenBits ((x, y) :: l)).count true : ℝ) ^ 2) =
        bscMean p f n fun l => (a + b + c) + (b + 2 * c) * ((seenBits l).count true : ℝ) +
          c * ((seenBits l).count true : ℝ) ^ 2 := by
      intro x y hxy
      congr 1
      funext l
      have : (seenBits ((x, y) :: l)).count true = (seenBits l).count true + 1 := by
        simp only [seenBits, List.map_cons, hxy, List.count_cons_self]
      rw [this]
      push_cast
      ring
    have h0 : ∀ (x y : Bool), (if y then !x else x) = false →
        (bscMean p f n fun l => a + b * ((seenBits ((x, y) :: l)).count true : ℝ) +
          c * ((seenBits ((x, y) :: l)).count true : ℝ) ^ 2) =
        bscMean p f n fun l => a + b * ((seenBits l).count true : ℝ) + c * ((seenBits l).count true : ℝ) ^ 2 := by
      intro x y hxy
      congr 1
      funext l
      have : (seenBits ((x, y) :: l)).count true = (seenBits l).count true := by
        simp only [seenBits, List.map_cons, hxy]
        exact List.count_cons_of_ne (by decide)
      rw [this]
    rw [bscMean, h0 true true rfl, h1 true false rfl, h1 false true rfl, h0 false false rfl, ih, ih]
    simp only [bitProb, if_true, Bool.false_eq_true, if_false, throughBsc]
    push_cast
    ring

theorem bscMean_congr (p f : ℝ) (n : Nat) (g h : List (Bool × Bool) → ℝ) (hgh : ∀ l, l.length = n → g l = h l) :
    bscMean p f n g = bscMean p f n h := by
  induction n generalizing g h with
  | zero => exact hgh [] rfl
  | succ n ih =>
    rw [bscMean, bscMean]
    have : ∀ d, bscMean p f n (fun l => g (d :: l)) = bscMean p f n (fun l => h (d :: l)) := fun d =>
      ih _ _ fun l hl => hgh _ (by simp [hl])
    rw [this, this, this, this]

theorem bscMean_mono (p f : ℝ) (hp : 0 ≤ p ∧ p ≤ 1) (hf : 0 ≤ f ∧ f ≤ 1) (n : Nat) (g h : List (Bool × Bool) → ℝ)
    (hgh : ∀ l, l.length = n → g l ≤ h l) : bscMean p f n g ≤ bscMean p f n h := by
  induction n generalizing g h with
  | zero => exact hgh [] rfl
  | succ n ih =>
    rw [bscMean, bscMean]
    have key : ∀ d, bscMean p f n (fun l => g (d :: l)) ≤ bscMean p f n (fun l => h (d :: l)) := fun d =>
      ih _ _ fun l hl => hgh _ (by simp [hl])
    have hb : ∀ (q : ℝ), 0 ≤ q ∧ q ≤ 1 → ∀ b, 0 ≤ bitProb q b := by
      intro q hq b
      cases b <;> simp [bitProb] <;> linarith [hq.1, hq.2]
    have hm : ∀ x y, 0 ≤ bitProb p x * bitProb f y := fun x y => mul_nonneg (hb p hp x) (hb f hf y)
    have := mul_le_mul_of_nonneg_left (key (true, true)) (hm true true)
    have := mul_le_mul_of_nonneg_left (key (true, false)) (hm true false)
    have := mul_le_mul_of_nonneg_left (key (false, true)) (hm false true)
    have := mul_le_mul_of_nonneg_left (key (false, false)) (hm false false)
    linarith

/-- C94: the plain share of ones is on average what the channel makes of `p`, not `p`: its expected squared error has the
variance of the seen bits and a bias `f (1 - 2 p)` that no number of bits removes. -/
theorem c94_ignorant (p f : ℝ) (n : Nat) (hn : 0 < n) :
    bscMean p f n (fun l => noisyShare l) = throughBsc f p ∧
    bscMean p f n (fun l => |noisyShare l - p| ^ 2) =
      throughBsc f p * (1 - throughBsc f p) / n + (f * (1 - 2 * p)) ^ 2 := by
  have hn0 : (n : ℝ) ≠ 0 := by exact_mod_cast hn.ne'
  constructor
  · rw [bscMean_congr p f n _ (fun l => 0 + (1 / n) * ((seenBits l).count true : ℝ) + 0 * ((seenBits l).count true : ℝ) ^ 2)
      (fun l hl => by
        rw [noisyShare_eq, show (seenBits l).length = n by simp [seenBits, hl]]; ring), bscMean_quad]
    field_simp
    ring
  · rw [bscMean_congr p f n _ (fun l => p ^ 2 + (-2 * p / n) * ((seenBits l).count true : ℝ) +
        (1 / n ^ 2) * ((seenBits l).count true : ℝ) ^ 2)
      (fun l hl => by
        rw [noisyShare_eq, sq_abs, show (seenBits l).length = n by simp [seenBits, hl]]; field_simp; ring), bscMean_quad]
    simp only [throughBsc]
    field_simp
    ring

/-- C94: the corrected share has no such bias: its expected squared error falls with the number of bits, however strong the
channel. -/
theorem c94_corrected (p f : ℝ) (hp : 0 ≤ p ∧ p ≤ 1) (hf : 0 ≤ f ∧ f ≤ 1) (hhalf : f ≠ 1 / 2) (n : Nat) (hn : 0 < n) :
    bscMean p f n (fun l => |flipCorrected f (seenBits l) - p| ^ 2) ≤
      throughBsc f p * (1 - throughBsc f p) / (n * (1 - 2 * f) ^ 2) := by
  have hn0 : (n : ℝ) ≠ 0 := by exact_mod_cast hn.ne'
  have hs : (1 - 2 * f) ≠ 0 := fun h => hhalf (by linarith)
  have hclip : ∀ x : ℝ, |min 1 (max 0 x) - p| ≤ |x - p| := by
    intro x
    rcases le_total x 0 with h | h
    · rw [max_eq_left h, min_eq_right zero_le_one, abs_of_nonpos (by linarith [hp.1]), abs_of_nonpos (by linarith [hp.1])]
      linarith
    · rw [max_eq_right h]
      rcases le_total x 1 with h1 | h1
      · rw [min_eq_right h1]
      · rw [min_eq_left h1, abs_of_nonneg (by linarith [hp.2]), abs_of_nonneg (by linarith [hp.2])]
        linarith
  refine le_trans (bscMean_mono p f hp hf n _ (fun l => (f / (1 - 2 * f) + p) ^ 2 +
    (-2 * (f / (1 - 2 * f) + p) / (n * (1 - 2 * f))) * ((seenBits l).count true : ℝ) +
    (1 / (n * (1 - 2 * f)) ^ 2) * ((seenBits l).count true : ℝ) ^ 2) ?_) ?_
  · intro l hl
    have h := pow_le_pow_left₀ (abs_nonneg _) (hclip (((seenBits l).count true / (seenBits l).length - f) / (1 - 2 * f))) 2
    refine le_trans h (le_of_eq ?_)
    rw [sq_abs, show (seenBits l).length = n by simp [seenBits, hl]]
    generalize 1 - 2 * f = s at hs
    field_simp
    ring
  · rw [bscMean_quad]
    apply le_of_eq
    simp only [throughBsc]
    obtain ⟨s, hs2⟩ : ∃ s, 1 - 2 * f = s := ⟨_, rfl⟩
    rw [hs2] at hs ⊢
    have hf' : f = (1 - s) / 2 := by linarith
    rw [hf']
    field_simp
    ring

/-- A case with a noisy channel: 7 flips per 100 and 50 bits, as in the study. -/
example : (0 : ℝ) ≤ 3 / 10 ∧ (3 / 10 : ℝ) ≤ 1 ∧ (0 : ℝ) ≤ 7 / 100 ∧ (7 / 100 : ℝ) ≤ 1 ∧ (7 / 100 : ℝ) ≠ 1 / 2 ∧ 0 < 50 := by
  norm_num

/-- One trial of four bits, one of them flipped: three ones are seen. -/
example : seenBits [(true, false), (false, true), (true, false), (false, false)] = [true, true, true, false] ∧
    noisyShare [(true, false), (false, true), (true, false), (false, false)] = 3 / 4 := by
  refine ⟨rfl, ?_⟩
  rw [noisyShare_eq, show seenBits [(true, false), (false, true), (true, false), (false, false)] = [true, true, true, false] from rfl]
  norm_num [List.count_cons]

end NR
