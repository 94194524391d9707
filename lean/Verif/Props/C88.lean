import Mathlib.MeasureTheory.Integral.Pi
import Mathlib.Analysis.SpecialFunctions.Gaussian.GaussianIntegral
import Verif.Spec.Awgn
import Verif.Props.C83
/-
C88: the simulation over a channel with Gaussian noise (runs/HC_eilat_July_2018).
-/
namespace NR
open Spec MeasureTheory ProbabilityTheory

/-! ### The ratios -/

theorem density_pos (σ : ℝ) (h : 0 < σ) (b : Bool) (y : ℝ) : 0 < density σ b y :=
  gaussianPDFReal_pos _ _ _ (by simp; positivity)

/-- C88: the ratio computed for a received value is the logarithm of the ratio of the densities of this value for a zero and for a
one. -/
theorem c88_llr (σ : ℝ) (h : 0 < σ) (y : ℝ) : Awgn.llr σ y = Real.log (density σ false y / density σ true y) := by
  have hv : (((σ ^ 2).toNNReal : NNReal) : ℝ) = σ ^ 2 := Real.coe_toNNReal _ (by positivity)
  have hs : (√(2 * Real.pi * σ ^ 2))⁻¹ ≠ 0 := by positivity
  unfold density gaussianPDFReal Awgn.llr
  rw [hv, mul_div_mul_left _ _ hs, ← Real.exp_sub, Real.log_exp]
  simp only [symbol, if_true, Bool.false_eq_true, if_false]
  field_simp
  ring

/-- C88: so a negative ratio means that a one is more likely. -/
theorem c88_hard (σ : ℝ) (h : 0 < σ) (y : ℝ) :
    (Awgn.llr σ y < 0 ↔ density σ false y < density σ true y) ∧ (Awgn.llr σ y < 0 ↔ y < 0) := by
  constructor
  · rw [c88_llr σ h, Real.log_neg_iff (div_pos (density_pos σ h _ y) (density_pos σ h _ y)), div_lt_one (density_pos σ h _ y)]
  · unfold Awgn.llr
    rw [div_neg_iff]
    constructor
    · rintro (⟨_, h2⟩ | ⟨h1, _⟩)
      · nlinarith [sq_nonneg σ]
      · linarith
    · exact fun hy => Or.inr ⟨by linarith, by positivity⟩

theorem likelyBit_eq (σ : ℝ) (h : 0 < σ) (y : ℝ) : likelyBit σ y = true ↔ y < 0 := by
  unfold likelyBit
  rw [decide_eq_true_iff, ← (c88_hard σ h y).1, (c88_hard σ h y).2]

/-! ### The error probability -/

theorem gauss_integrable_sq : Integrable fun t : ℝ => Real.exp (-t ^ 2) := by
  simpa using integrable_exp_neg_mul_sq (b := 1) one_pos

theorem erfc_zero : Awgn.erfc 0 = 1 := by
  have h := integral_gaussian_Ioi 1
  simp only [neg_mul, one_mul, div_one] at h
  unfold Awgn.erfc
  rw [h]
  have : √Real.pi ≠ 0 := by positivity
  field_simp

theorem erfc_anti : StrictAnti Awgn.erfc := by
  intro x y hxy
  unfold Awgn.erfc
  apply mul_lt_mul_of_pos_left _ (by positivity)
  have hsplit : Set.Ioi x = Set.Ioc x y ∪ Set.Ioi y := (Set.Ioc_union_Ioi_eq_Ioi hxy.le).symm
  rw [hsplit, setIntegral_union (Set.Ioc_disjoint_Ioi le_rfl) measurableSet_Ioi gauss_integrable_sq.integrableOn gauss_integrable_sq.integrableOn]
  have : 0 < ∫ t in Set.Ioc x y, Real.exp (-t ^ 2) := by
    rw [← intervalIntegral.integral_of_le hxy.le]
    exact intervalIntegral.intervalIntegral_pos_of_pos (gauss_integrable_sq.intervalIntegrable) (fun _ => Real.exp_pos _) hxy
  linarith

theorem erfc_pos (x : ℝ) : 0 < Awgn.erfc x := by
  have h := erfc_anti (lt_add_one x)
  have : 0 ≤ Awgn.erfc (x + 1) := by
    unfold Awgn.erfc
    apply mul_nonneg (by positivity)
    exact setIntegral_nonneg measurableSet_Ioi fun _ _ => (Real.exp_pos _).le
  linarith

theorem normal_tail (a : ℝ) : ∫ x in Set.Ioi a, gaussianPDFReal 0 1 x = 1 / 2 * Awgn.erfc (a / √2) := by
  have h2 : (0 : ℝ) < √2 := by positivity
  have h := integral_comp_mul_left_Ioi (fun t : ℝ => Real.exp (-t ^ 2)) a (b := (√2)⁻¹) (by positivity)
  simp only [smul_eq_mul, inv_inv] at h
  have hpt : ∀ x : ℝ, gaussianPDFReal 0 1 x = (√(2 * Real.pi))⁻¹ * Real.exp (-((√2)⁻¹ * x) ^ 2) := by
    intro x
    unfold gaussianPDFReal
    simp only [NNReal.coe_one, mul_one, sub_zero, mul_pow, inv_pow, Real.sq_sqrt (by norm_num : (0 : ℝ) ≤ 2)]
    congr 2
    ring
  simp only [hpt]
  rw [integral_const_mul, h, Awgn.erfc, Real.sqrt_mul (by norm_num)]
  rw [show a / √2 = (√2)⁻¹ * a from by rw [div_eq_inv_mul]]
  have : √Real.pi ≠ 0 := by positivity
  field_simp

theorem sigma_pos (snr : ℝ) (h : 0 < snr) : 0 < Awgn.sigma snr := by
  unfold Awgn.sigma
  positivity

theorem sigma_tail (snr : ℝ) (h : 0 < snr) : 1 / Awgn.sigma snr / √2 = √snr := by
  have hs := sigma_pos snr h
  rw [div_div, eq_comm, eq_div_iff (by positivity), Awgn.sigma, ← Real.sqrt_mul (by positivity), ← Real.sqrt_mul h.le]
  rw [show snr * (1 / snr / 2 * 2) = 1 from by field_simp, Real.sqrt_one]

/-- C88: with `delta` equal to one, the error probability the entropy decoder is told is the probability that a bit is received
wrong, whichever bit is sent; `normal` is the distribution of the random numbers drawn. -/
theorem c88_bit_flip (snr : ℝ) (h : 0 < snr) (b : Bool) :
    gaussianReal 0 1 {z | likelyBit (Awgn.sigma snr) (receive (Awgn.sigma snr) b z) ≠ b} = ENNReal.ofReal (Awgn.bitFlip 1 snr) := by
  have hs := sigma_pos snr h
  have hone : (1 : NNReal) ≠ 0 := one_ne_zero
  rw [gaussianReal_apply_eq_integral 0 hone]
  congr 1
  have key : ∫ x in Set.Ioi (1 / Awgn.sigma snr), gaussianPDFReal 0 1 x = Awgn.bitFlip 1 snr := by
    rw [normal_tail, sigma_tail snr h, Awgn.bitFlip, one_mul]
  cases b
  · have hset : {z | likelyBit (Awgn.sigma snr) (receive (Awgn.sigma snr) false z) ≠ false} = Set.Iio (-(1 / Awgn.sigma snr)) := by
      ext z
      simp only [Set.mem_ofPred_eq, Set.mem_Iio, ne_eq, Bool.not_eq_false, likelyBit_eq _ hs, receive, symbol, Bool.false_eq_true, if_false]
      rw [← neg_div, lt_div_iff₀ hs]
      constructor <;> intro hh <;> nlinarith
    rw [hset, ← integral_Iic_eq_integral_Iio, ← key, ← integral_comp_neg_Ioi]
    congr 1
    ext x
    simp [gaussianPDFReal]
  · have hset : {z | likelyBit (Awgn.sigma snr) (receive (Awgn.sigma snr) true z) ≠ true} = Set.Ici (1 / Awgn.sigma snr) := by
      ext z
      simp only [Set.mem_ofPred_eq, Set.mem_Ici, ne_eq, likelyBit_eq _ hs, receive, symbol, if_true, not_lt]
      rw [div_le_iff₀ hs]
      constructor <;> intro hh <;> nlinarith
    rw [hset, integral_Ici_eq_integral_Ioi, key]

/-- C88: this probability lies strictly between zero and one half, and falls when `delta` or the ratio grows; so with `delta` above
one (the default is two) the decoder is told less than the probability of an error, and below one more. -/
theorem c88_delta (snr : ℝ) (h : 0 < snr) (δ : ℝ) (hδ : 0 < δ) :
    0 < Awgn.bitFlip δ snr ∧ Awgn.bitFlip δ snr < 1 / 2 ∧ (∀ δ', δ < δ' ↔ (Awgn.bitFlip δ' snr < Awgn.bitFlip δ snr)) ∧
    ∀ snr', snr < snr' → Awgn.bitFlip δ snr' < Awgn.bitFlip δ snr := by
  have hmul : 0 < δ * snr := by positivity
  refine ⟨?_, ?_, ?_, ?_⟩
  · unfold Awgn.bitFlip
    have := erfc_pos (√(δ * snr))
    linarith
  · unfold Awgn.bitFlip
    have h1 := erfc_anti (Real.sqrt_pos.2 hmul)
    rw [erfc_zero] at h1
    linarith
  · intro δ'
    unfold Awgn.bitFlip
    rw [mul_lt_mul_iff_right₀ (by norm_num), erfc_anti.lt_iff_gt, Real.sqrt_lt_sqrt_iff hmul.le, mul_lt_mul_iff_left₀ h]
  · intro snr' hs
    unfold Awgn.bitFlip
    rw [mul_lt_mul_iff_right₀ (by norm_num), erfc_anti.lt_iff_gt, Real.sqrt_lt_sqrt_iff hmul.le, mul_lt_mul_iff_right₀ hδ]
    exact hs

/-! ### The errors -/

theorem errorRow_eq (σ : ℝ) (h : 0 < σ) (w : List Bool × List ℝ) :
    Awgn.errorRow σ w = (w.1.zip w.2).map fun x => likelyBit σ (receive σ x.1 x.2) != x.1 := by
  obtain ⟨tx, z⟩ := w
  unfold Awgn.errorRow Awgn.noisy Awgn.corrupted
  simp only
  induction tx generalizing z with
  | nil => rfl
  | cons b tx ih =>
    cases z with
    | nil => rfl
    | cons v z =>
      simp only [List.zip_cons_cons, List.map_cons, List.zipWith_cons_cons, ih]
      congr 1
      have hb : (1 - 2 * (if b then 1 else 0) + σ * v : ℝ) = receive σ b v := by
        cases b <;> simp [receive, symbol] <;> ring
      rw [hb]
      have hl := likelyBit_eq σ h (receive σ b v)
      by_cases hneg : receive σ b v < 0
      · rw [hl.2 hneg]; simp only [hneg, decide_true]; cases b <;> rfl
      · have : likelyBit σ (receive σ b v) = false := by
          rw [← Bool.not_eq_true]; exact fun hc => hneg (hl.1 hc)
        rw [this]; simp only [hneg, decide_false]; cases b <;> rfl

open Classical in
theorem positions_succ (n : Nat) (P : Nat → Prop) :
    (positions (n + 1) P).length = (if P 0 then 1 else 0) + (positions n fun i => P (i + 1)).length := by
  unfold positions
  rw [List.range_succ_eq_map, List.filter_cons]
  have hm : ((List.map Nat.succ (List.range n)).filter fun i => decide (P i)).length =
      ((List.range n).filter fun i => decide (P (i + 1))).length := by
    rw [List.filter_map, List.length_map]
    rfl
  by_cases h0 : P 0
  · simp only [h0, decide_true, if_true, List.length_cons, hm]; omega
  · simp only [h0, decide_false, Bool.false_eq_true, if_false, hm]; omega

theorem count_take (l : List Bool) (k : Nat) :
    (l.take k).count true = (positions l.length fun i => i < k ∧ l.getD i false = true).length := by
  induction l generalizing k with
  | nil => simp [positions]
  | cons b l ih =>
    rw [List.length_cons, positions_succ]
    cases k with
    | zero =>
      have := ih 0
      simp only [List.take_zero, List.count_nil, Nat.not_lt_zero, false_and, if_false, zero_add] at this ⊢
      exact this
    | succ k =>
      simp only [List.take_succ_cons, List.count_cons, ih k, List.getD_cons_zero, List.getD_cons_succ, Nat.succ_lt_succ_iff,
        Nat.zero_lt_succ, true_and]
      cases b <;> simp <;> omega

theorem count_drop (l : List Bool) (k : Nat) :
    (l.drop k).count true = (positions l.length fun i => k ≤ i ∧ l.getD i false = true).length := by
  induction l generalizing k with
  | nil => simp [positions]
  | cons b l ih =>
    rw [List.length_cons, positions_succ]
    cases k with
    | zero =>
      have := ih 0
      simp only [List.drop_zero, Nat.zero_le, true_and] at this ⊢
      simp only [List.count_cons, this, List.getD_cons_zero, List.getD_cons_succ]
      cases b <;> simp <;> omega
    | succ k =>
      simp only [List.drop_succ_cons, ih k, List.getD_cons_succ, Nat.succ_le_succ_iff]
      simp

theorem errorRow_length (σ : ℝ) (h : 0 < σ) (w : List Bool × List ℝ) (hl : w.2.length = w.1.length) :
    (Awgn.errorRow σ w).length = w.1.length := by
  rw [errorRow_eq σ h]; simp [hl]

theorem errorRow_get (σ : ℝ) (h : 0 < σ) (w : List Bool × List ℝ) (hl : w.2.length = w.1.length) (i : Nat) (hi : i < w.1.length) :
    (Awgn.errorRow σ w).getD i false = true ↔ likelyBit σ ((receiveWord σ w).getD i 0) ≠ w.1.getD i false := by
  rw [errorRow_eq σ h]
  unfold receiveWord
  simp [List.getD_eq_getElem?_getD, hi, hl]

theorem receivedWrong_eq (σ : ℝ) (h : 0 < σ) (w : List Bool × List ℝ) (hl : w.2.length = w.1.length) (P : Nat → Prop) :
    receivedWrong σ w P = (positions (Awgn.errorRow σ w).length fun i => P i ∧ (Awgn.errorRow σ w).getD i false = true).length := by
  unfold receivedWrong
  rw [errorRow_length σ h w hl]
  congr 1
  apply positions_congr
  intro i hi
  rw [errorRow_get σ h w hl i hi]

/-- C88: the other two scripts count, for each word, the information bits and the parity bits received wrong. -/
theorem c88_slices (σ : ℝ) (h : 0 < σ) (k : Nat) (words : List (List Bool × List ℝ)) (hw : ∀ w ∈ words, w.2.length = w.1.length) :
    Awgn.infoSlice k (words.map (Awgn.errorRow σ)) = words.map (fun w => receivedWrong σ w (· < k)) ∧
    Awgn.paritySlice k (words.map (Awgn.errorRow σ)) = words.map fun w => receivedWrong σ w (k ≤ ·) := by
  unfold Awgn.infoSlice Awgn.paritySlice
  constructor <;> rw [List.map_map] <;> apply List.map_congr_left <;> intro w hm
  · rw [receivedWrong_eq σ h w (hw w hm)]; exact count_take _ _
  · rw [receivedWrong_eq σ h w (hw w hm)]; exact count_drop _ _

/-- C88, refuted for the numbers of information and parity errors: they are the length of the word and zero, whatever was received. -/
theorem c88_errors_false (σ : ℝ) (h : 0 < σ) (N k : Nat) (hk : 2 ≤ k) (words : List (List Bool × List ℝ))
    (hw : ∀ w ∈ words, w.1.length = N ∧ w.2.length = N) :
    Awgn.infoErrors k (words.map (Awgn.errorRow σ)) = List.replicate words.length N ∧
    Awgn.parityErrors k (words.map (Awgn.errorRow σ)) = List.replicate words.length 0 := by
  have hb : ∀ b : Bool, b.toNat < k := fun b => by cases b <;> simp <;> omega
  unfold Awgn.infoErrors Awgn.parityErrors
  constructor
  · rw [List.eq_replicate_iff]
    refine ⟨by simp, fun x hx => ?_⟩
    simp only [List.map_map, List.mem_map, Function.comp] at hx
    obtain ⟨w, hm, rfl⟩ := hx
    have : (Awgn.errorRow σ w).countP (fun b => decide (b.toNat < k)) = (Awgn.errorRow σ w).length := by
      rw [List.countP_eq_length]
      intro b _
      simpa using hb b
    rw [this, errorRow_length σ h w (by rw [(hw w hm).1, (hw w hm).2]), (hw w hm).1]
  · rw [List.eq_replicate_iff]
    refine ⟨by simp, fun x hx => ?_⟩
    simp only [List.map_map, List.mem_map, Function.comp] at hx
    obtain ⟨w, hm, rfl⟩ := hx
    rw [List.countP_eq_zero]
    intro b _
    have := hb b
    simp; omega

theorem count_all (σ : ℝ) (h : 0 < σ) (words : List (List Bool × List ℝ)) (hw : ∀ w ∈ words, w.2.length = w.1.length) :
    ((words.map (Awgn.errorRow σ)).map (·.count true)).sum = (words.map fun w => receivedWrong σ w fun _ => True).sum := by
  rw [List.map_map]
  congr 1
  apply List.map_congr_left
  intro w hm
  rw [receivedWrong_eq σ h w (hw w hm)]
  have := count_drop (Awgn.errorRow σ w) 0
  simpa using this

/-! ### The step -/

variable {α β : Type}

theorem noisy_eq (σ : ℝ) (w : List Bool × List ℝ) : Awgn.noisy σ w.1 w.2 = receiveWord σ w := by
  unfold Awgn.noisy receiveWord
  apply List.map_congr_left
  rintro ⟨b, v⟩ _
  cases b <;> simp only [receive, symbol, if_true, Bool.false_eq_true, if_false] <;> ring

theorem llrs_eq (σ : ℝ) (h : 0 < σ) (w : List Bool × List ℝ) :
    (Awgn.noisy σ w.1 w.2).map (Awgn.llr σ) = (receiveWord σ w).map fun y => Real.log (density σ false y / density σ true y) := by
  rw [noisy_eq]
  exact List.map_congr_left fun y _ => c88_llr σ h y

theorem awgn_loop_ok (A : Coder α) (B : Coder β) (σ : ℝ) (h : 0 < σ) (words : List (List Bool × List ℝ)) (a : α) (b : β)
    (oa ob : List (List Bool × Bool)) (hA : outputs A a (awgnInputs σ words) = oa.map .ok)
    (hB : outputs B b (awgnInputs σ words) = ob.map .ok)
    (hla : List.Forall₂ (fun o w => o.1.length = w.1.length) oa words)
    (hlb : List.Forall₂ (fun o w => o.1.length = w.1.length) ob words) :
    Awgn.loop A B σ a b words =
      .ok ((oa.zip (ob.zip words)).map fun x => (diffCount x.1.1 x.2.2.1, diffCount x.2.1.1 x.2.2.1)) := by
  induction words generalizing a b oa ob with
  | nil =>
    cases hla
    rfl
  | cons w words ih =>
    obtain ⟨tx, z⟩ := w
    cases hla with
    | cons ha hla =>
      cases hlb with
      | cons hb hlb =>
        rename_i xa la xb lb
        simp only [awgnInputs, List.map_cons, outputs, List.cons.injEq] at hA hB
        have hi := ih _ _ la lb hA.2 hB.2 hla hlb
        have h1 : hammingDistance (.bits xa.1) (.bits tx) = .ok (diffCount xa.1 tx) :=
          (hammingDistance_ok_iff _ _ _ _).2 ⟨_, _, rfl, rfl, ha, rfl⟩
        have h2 : hammingDistance (.bits xb.1) (.bits tx) = .ok (diffCount xb.1 tx) :=
          (hammingDistance_ok_iff _ _ _ _).2 ⟨_, _, rfl, rfl, hb, rfl⟩
        unfold Awgn.loop
        simp only [llrs_eq σ h (tx, z), bind, Except.bind, hA.1, hB.1, h1, h2, hi]
        rfl

theorem distances_awgn (o : List (List Bool × Bool)) (words : List (List Bool × List ℝ)) :
    ((o.zip words).map fun x => diffCount x.1.1 x.2.1).sum = wrongBits (o.map Prod.fst) (words.map Prod.fst) ∧
    ((o.zip words).map fun x => diffCount x.1.1 x.2.1).countP (· = 0) = exact (o.map Prod.fst) (words.map Prod.fst) := by
  unfold wrongBits exact
  rw [List.zip_map, List.map_map, List.countP_map, List.countP_map]
  refine ⟨rfl, ?_⟩
  congr 1
  ext x
  simp [diffCount_eq_zero]

/-- C88: a step over words of `N` bits, for a positive signal to noise ratio. If no decoder raises and the estimates have the length
of the words, both decoders are handed the log likelihood ratios of what was received, nothing else, the entropy decoder being made
for the error probability of `delta`; the mean raw error rate times the number of bits is the number of bits received wrong; the
success rate times the number of words is the number of words decoded exactly and the error rate times the number of bits the number
of wrong bits. -/
theorem c88_step (A : Coder α) (B : Coder β) (a : α) (b : ℝ → β) (N k : Nat) (hN : 0 < N) (scale : Awgn.Scale) (delta snr lin : ℝ)
    (hs : Awgn.snrLinear scale snr = .ok lin) (hlin : 0 < lin) (words : List (List Bool × List ℝ)) (hne : words ≠ [])
    (hw : ∀ w ∈ words, w.1.length = N ∧ w.2.length = N) (oa ob : List (List Bool × Bool))
    (hA : outputs A a (awgnInputs (Awgn.sigma lin) words) = oa.map .ok)
    (hB : outputs B (b (Awgn.bitFlip delta lin)) (awgnInputs (Awgn.sigma lin) words) = ob.map .ok)
    (hla : ∀ o ∈ oa, o.1.length = N) (hlb : ∀ o ∈ ob, o.1.length = N) :
    ∃ r, Awgn.step A B a b N k scale delta snr words = .ok r ∧ r.bufferLen = N ∧ r.number = words.length ∧
      r.rawBer * (words.length * N) = (words.map fun w => receivedWrong (Awgn.sigma lin) w fun _ => True).sum ∧
      r.ldpc.success * words.length = exact (oa.map Prod.fst) (words.map Prod.fst) ∧
      r.entropy.success * words.length = exact (ob.map Prod.fst) (words.map Prod.fst) ∧
      r.ldpc.ber * (words.length * N) = wrongBits (oa.map Prod.fst) (words.map Prod.fst) ∧
      r.entropy.ber * (words.length * N) = wrongBits (ob.map Prod.fst) (words.map Prod.fst) := by
  have hσ := sigma_pos lin hlin
  have la : oa.length = words.length := by
    have := congrArg List.length hA
    rw [outputs_length] at this
    simpa [awgnInputs] using this.symm
  have lb : ob.length = words.length := by
    have := congrArg List.length hB
    rw [outputs_length] at this
    simpa [awgnInputs] using this.symm
  have fa : List.Forall₂ (fun (o : List Bool × Bool) (w : List Bool × List ℝ) => o.1.length = w.1.length) oa words :=
    forall₂_of la fun o ho w hm => by rw [hla o ho, (hw w hm).1]
  have fb : List.Forall₂ (fun (o : List Bool × Bool) (w : List Bool × List ℝ) => o.1.length = w.1.length) ob words :=
    forall₂_of lb fun o ho w hm => by rw [hlb o ho, (hw w hm).1]
  have hloop := awgn_loop_ok A B _ hσ words a _ oa ob hA hB fa fb
  obtain ⟨a1, a2⟩ := distances_awgn oa words
  obtain ⟨b1, b2⟩ := distances_awgn ob words
  have e1 : ((oa.zip (ob.zip words)).map fun x => (diffCount x.1.1 x.2.2.1, diffCount x.2.1.1 x.2.2.1)).map Prod.fst =
      (oa.zip words).map fun x => diffCount x.1.1 x.2.1 := by
    rw [List.map_map]
    exact zip3_fst (fun (o : List Bool × Bool) (w : List Bool × List ℝ) => diffCount o.1 w.1) oa ob words lb
  have e2 : ((oa.zip (ob.zip words)).map fun x => (diffCount x.1.1 x.2.2.1, diffCount x.2.1.1 x.2.2.1)).map Prod.snd =
      (ob.zip words).map fun x => diffCount x.1.1 x.2.1 := by
    rw [List.map_map]
    exact zip3_snd (fun (o : List Bool × Bool) (w : List Bool × List ℝ) => diffCount o.1 w.1) oa ob words (by omega)
  obtain ⟨w, ws, rfl⟩ := List.exists_cons_of_ne_nil hne
  have hlen : w.1.length = N := (hw w (by simp)).1
  have hpos : (((w :: ws).length : ℕ) : ℚ) ≠ 0 := by simp; positivity
  have hNq : (N : ℚ) ≠ 0 := by exact_mod_cast hN.ne'
  have hposN : (((w :: ws).length * N : ℕ) : ℚ) ≠ 0 := by
    push_cast
    exact mul_ne_zero hpos hNq
  unfold Awgn.step
  simp only [hs, hloop, bind, Except.bind]
  refine ⟨_, rfl, hlen, rfl, ?_, ?_, ?_, ?_, ?_⟩
  · simp only [Awgn.meanRawBer]
    rw [count_all _ hσ _ fun w hm => by rw [(hw w hm).1, (hw w hm).2]]
    rw [div_div, mul_comm ((w :: ws).length : ℚ) (N : ℚ)]
    exact div_mul_cancel₀ _ (mul_ne_zero hNq hpos)
  · simp only [ratesOf, e1, a2]
    exact div_mul_cancel₀ _ hpos
  · simp only [ratesOf, e2, b2]
    exact div_mul_cancel₀ _ hpos
  · simp only [ratesOf, e1, a1, hlen]
    rw [← Nat.cast_mul]
    exact div_mul_cancel₀ _ hposN
  · simp only [ratesOf, e2, b1, hlen]
    rw [← Nat.cast_mul]
    exact div_mul_cancel₀ _ hposN

/-- C88: the scale. A ratio given in decibel is always positive as a linear ratio; a scale that is neither raises. -/
theorem c88_scale (A : Coder α) (B : Coder β) (a : α) (b : ℝ → β) (N k : Nat) (delta snr : ℝ) (words : List (List Bool × List ℝ)) :
    (∃ lin, Awgn.snrLinear .db snr = .ok lin ∧ 0 < lin ∧ 10 * Real.logb 10 lin = snr) ∧
    Awgn.snrLinear .linear snr = .ok snr ∧ Awgn.step A B a b N k .other delta snr words = .error .valueError := by
  refine ⟨⟨_, rfl, by positivity, ?_⟩, rfl, rfl⟩
  rw [Real.logb_rpow (by norm_num) (by norm_num)]
  ring

/-! ### The expected error rate -/

/-- The words of a run: word `i` has the bits `tx i`, and bit `j` of it gets the normal number `z (i, j)`. -/
def wordsOf {n N : Nat} (tx : Fin n → Fin N → Bool) (z : Fin n × Fin N → ℝ) : List (List Bool × List ℝ) :=
  List.ofFn fun i => (List.ofFn (tx i), List.ofFn fun j => z (i, j))

theorem zip_ofFn {γ δ : Type} {N : Nat} (f : Fin N → γ) (g : Fin N → δ) :
    (List.ofFn f).zip (List.ofFn g) = List.ofFn fun j => (f j, g j) := by
  induction N with
  | zero => simp
  | succ N ih => simp [List.ofFn_succ, ih]

theorem count_ofFn {N : Nat} (f : Fin N → Bool) : (List.ofFn f).count true = ∑ j, if f j = true then 1 else 0 := by
  induction N with
  | zero => simp
  | succ N ih =>
    rw [List.ofFn_succ, List.count_cons, ih, Fin.sum_univ_succ, add_comm]
    congr 1
    cases f 0 <;> rfl

theorem likelyBit_measurable (σ : ℝ) (h : 0 < σ) (b : Bool) : MeasurableSet {v : ℝ | likelyBit σ (receive σ b v) ≠ b} := by
  have hm : Measurable fun v : ℝ => receive σ b v := by unfold receive; fun_prop
  have : MeasurableSet {v : ℝ | receive σ b v < 0} := measurableSet_lt hm measurable_const
  cases b
  · simpa only [ne_eq, Bool.not_eq_false, likelyBit_eq σ h] using this
  · simp only [ne_eq, likelyBit_eq σ h]
    exact this.compl

/-- C88: the mean raw error rate of a step, averaged over independent standard normal numbers, is the error probability for `delta`
equal to one, whatever words are sent. -/
theorem c88_expected (snr : ℝ) (h : 0 < snr) (n N : Nat) (hn : 0 < n) (hN : 0 < N) (tx : Fin n → Fin N → Bool) :
    ∫ z, ((Awgn.meanRawBer N n ((wordsOf tx z).map (Awgn.errorRow (Awgn.sigma snr))) : ℚ) : ℝ)
      ∂(Measure.pi fun _ : Fin n × Fin N => gaussianReal 0 1) = Awgn.bitFlip 1 snr := by
  have hs := sigma_pos snr h
  set σ := Awgn.sigma snr with hσ
  set μ := Measure.pi fun _ : Fin n × Fin N => gaussianReal 0 1 with hμ
  have hsum : ∀ z : Fin n × Fin N → ℝ, ((Awgn.meanRawBer N n ((wordsOf tx z).map (Awgn.errorRow σ)) : ℚ) : ℝ) =
      (∑ x : Fin n × Fin N, {v : ℝ | likelyBit σ (receive σ (tx x.1 x.2) v) ≠ tx x.1 x.2}.indicator 1 (z x)) / N / n := by
    intro z
    unfold Awgn.meanRawBer wordsOf
    rw [List.map_map, List.map_ofFn, List.sum_ofFn, Fintype.sum_prod_type]
    push_cast
    congr 2
    apply Finset.sum_congr rfl
    intro i _
    simp only [Function.comp, errorRow_eq σ hs, zip_ofFn, List.map_ofFn, count_ofFn]
    push_cast
    apply Finset.sum_congr rfl
    intro j _
    simp [Set.indicator_apply]
  have hmeas : ∀ x : Fin n × Fin N, MeasurableSet {v : ℝ | likelyBit σ (receive σ (tx x.1 x.2) v) ≠ tx x.1 x.2} :=
    fun x => likelyBit_measurable σ hs _
  have hint : ∀ x : Fin n × Fin N,
      Integrable (fun z : Fin n × Fin N → ℝ => {v : ℝ | likelyBit σ (receive σ (tx x.1 x.2) v) ≠ tx x.1 x.2}.indicator
        (1 : ℝ → ℝ) (z x)) μ := fun x =>
    ((measurePreserving_eval (fun _ : Fin n × Fin N => gaussianReal 0 1) x).integrable_comp_of_integrable
      ((integrable_const (1 : ℝ)).indicator (hmeas x)))
  have hval : ∀ x : Fin n × Fin N,
      ∫ z : Fin n × Fin N → ℝ, {v : ℝ | likelyBit σ (receive σ (tx x.1 x.2) v) ≠ tx x.1 x.2}.indicator (1 : ℝ → ℝ) (z x) ∂μ =
        Awgn.bitFlip 1 snr := by
    intro x
    have hp := measurePreserving_eval (fun _ : Fin n × Fin N => gaussianReal 0 1) x
    have := integral_map (μ := μ) hp.measurable.aemeasurable
      (f := {v : ℝ | likelyBit σ (receive σ (tx x.1 x.2) v) ≠ tx x.1 x.2}.indicator (1 : ℝ → ℝ))
      ((stronglyMeasurable_one.indicator (hmeas x)).aestronglyMeasurable)
    rw [hp.map_eq, integral_indicator_one (hmeas x)] at this
    have hb := c88_bit_flip snr h (tx x.1 x.2)
    rw [← this, measureReal_def, hb, ENNReal.toReal_ofReal]
    have := (c88_delta snr h 1 one_pos).1
    exact this.le
  simp only [hsum]
  rw [integral_div, integral_div, integral_finsetSum _ fun x _ => hint x]
  simp only [hval, Finset.sum_const, Finset.card_univ, Fintype.card_prod, Fintype.card_fin, nsmul_eq_mul]
  have h1 : (n : ℝ) ≠ 0 := by exact_mod_cast hn.ne'
  have h2 : (N : ℝ) ≠ 0 := by exact_mod_cast hN.ne'
  push_cast
  field_simp

/-- C88: a step without words raises. -/
theorem c88_empty (A : Coder α) (B : Coder β) (a : α) (b : ℝ → β) (N k : Nat) (scale : Awgn.Scale) (delta snr : ℝ)
    (h : scale ≠ .other) : Awgn.step A B a b N k scale delta snr [] = .error .indexError := by
  cases scale <;> first | rfl | exact absurd rfl h

/-- C88: the hard decisions on the ratios handed to the decoders are the more likely bits. -/
theorem c88_inputs (σ : ℝ) (h : 0 < σ) (w : List Bool × List ℝ) :
    hardBits ((receiveWord σ w).map fun y => Real.log (density σ false y / density σ true y)) = (receiveWord σ w).map (likelyBit σ) := by
  unfold hardBits
  rw [List.map_map]
  apply List.map_congr_left
  intro y _
  have h1 := c88_llr σ h y
  have h2 := c88_hard σ h y
  simp only [Function.comp, ← h1]
  have h3 := likelyBit_eq σ h y
  by_cases hy : y < 0
  · rw [h3.2 hy]; simpa using h2.2.2 hy
  · have : likelyBit σ y = false := by rw [← Bool.not_eq_true]; exact fun hc => hy (h3.1 hc)
    rw [this]; simpa using fun hc => hy (h2.2.1 hc)

theorem sigma_one : Awgn.sigma 1 = √2 / 2 := by
  unfold Awgn.sigma
  rw [show (1 : ℝ) / 1 / 2 = 2 / 2 ^ 2 by norm_num, Real.sqrt_div (by norm_num), Real.sqrt_sq (by norm_num)]

theorem demo_bits :
    (receiveWord (Awgn.sigma 1) ([true, false], [0, -2])).map (likelyBit (Awgn.sigma 1)) = [true, true] ∧
    (receiveWord (Awgn.sigma 1) ([false, true], [0, 0])).map (likelyBit (Awgn.sigma 1)) = [false, true] := by
  have hs := sigma_pos 1 one_pos
  have h2 : (1 : ℝ) < √2 := by rw [Real.lt_sqrt] <;> norm_num
  have e1 : likelyBit (Awgn.sigma 1) (receive (Awgn.sigma 1) true 0) = true := (likelyBit_eq _ hs _).2 (by simp [receive, symbol])
  have e2 : likelyBit (Awgn.sigma 1) (receive (Awgn.sigma 1) false (-2)) = true :=
    (likelyBit_eq _ hs _).2 (by simp only [receive, symbol, Bool.false_eq_true, if_false, sigma_one]; linarith)
  have e3 : likelyBit (Awgn.sigma 1) (receive (Awgn.sigma 1) false 0) = false := by
    rw [← Bool.not_eq_true, likelyBit_eq _ hs]
    simp [receive, symbol]
  simp [receiveWord, e1, e2, e3]

/-- Two words of two bits at 0 dB: the second bit of the first word is received wrong; both decoders take the hard decisions. All
bits of both words count as information errors. -/
example : ∃ r, Awgn.step (fun (_ : Unit) llr _ => ((), .ok (hardBits llr, true))) (fun (_ : Unit) llr _ => ((), .ok (hardBits llr, true)))
      () (fun _ => ()) 2 2 .db 2 0 [([true, false], [0, -2]), ([false, true], [0, 0])] = .ok r ∧
    r.ldpc.success = 1 / 2 ∧ r.ldpc.ber = 1 / 4 := by
  have hlin : Awgn.snrLinear .db 0 = .ok 1 := by simp [Awgn.snrLinear]
  have hi := fun w => c88_inputs (Awgn.sigma 1) (sigma_pos 1 one_pos) w
  obtain ⟨r, h, -, -, -, s1, -, b1, -⟩ := c88_step (fun (_ : Unit) llr _ => ((), .ok (hardBits llr, true)))
    (fun (_ : Unit) llr _ => ((), .ok (hardBits llr, true))) () (fun _ => ()) 2 2 (by omega) .db 2 0 1 hlin one_pos
    [([true, false], [0, -2]), ([false, true], [0, 0])] (by simp) (by simp)
    [([true, true], true), ([false, true], true)] [([true, true], true), ([false, true], true)]
    (by simp only [awgnInputs, List.map_cons, List.map_nil, outputs, hi, demo_bits])
    (by simp only [awgnInputs, List.map_cons, List.map_nil, outputs, hi, demo_bits]) (by simp) (by simp)
  have d1 : exact [[true, true], [false, true]] [[true, false], [false, true]] = 1 := by decide
  have d3 : wrongBits [[true, true], [false, true]] [[true, false], [false, true]] = 1 := by decide
  simp only [List.map_cons, List.map_nil, d1, d3, List.length_cons, List.length_nil] at s1 b1
  refine ⟨r, h, ?_, ?_⟩ <;> push_cast at * <;> linarith

/-- The hypotheses of `c88_errors_false` and `c88_slices` hold for these words, of which one bit is received wrong: the first script
says two information errors each. -/
example : Awgn.infoErrors 2 ([([true, false], [0, -2]), ([false, true], [0, 0])].map (Awgn.errorRow (Awgn.sigma 1))) = [2, 2] ∧
    Awgn.infoSlice 2 ([([true, false], [0, -2]), ([false, true], [0, 0])].map (Awgn.errorRow (Awgn.sigma 1))) = [1, 0] := by
  refine ⟨(c88_errors_false _ (sigma_pos 1 one_pos) 2 2 (by omega) _ (by simp)).1, ?_⟩
  have hs := sigma_pos 1 one_pos
  obtain ⟨e1, e2⟩ := demo_bits
  simp only [receiveWord, List.zip_cons_cons, List.zip_nil_right, List.map_cons, List.map_nil, List.cons.injEq, and_true] at e1 e2
  simp [Awgn.infoSlice, errorRow_eq _ hs, e1.1, e1.2, e2.1]

end NR
