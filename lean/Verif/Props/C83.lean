import Verif.Spec.Runs
import Verif.Props.C82
import Verif.Props.C01_C02
/-
C83: what the rates of a simulation (runs/HC_eilat_July_2018) mean.
-/
namespace NR
open Spec

variable {σ τ : Type}

/-! ### The loop -/

theorem simLoop_ok (A : Coder σ) (B : Coder τ) (p : ℝ) (words : List (List Bool × List Nat))
    (hw : ∀ x ∈ words, x.2.Nodup ∧ ∀ e ∈ x.2, e < x.1.length) (a : σ) (b : τ) (oa ob : List (List Bool × Bool))
    (hA : outputs A a (simInputs p words) = oa.map .ok) (hB : outputs B b (simInputs p words) = ob.map .ok)
    (hla : List.Forall₂ (fun o w => o.1.length = w.1.length) oa words)
    (hlb : List.Forall₂ (fun o w => o.1.length = w.1.length) ob words) :
    simLoop A B p a b words = .ok ((oa.zip (ob.zip words)).map fun x => (diffCount x.1.1 x.2.2.1, diffCount x.2.1.1 x.2.2.1)) := by
  induction words generalizing a b oa ob with
  | nil =>
    cases hla
    rfl
  | cons w words ih =>
    obtain ⟨tx, errors⟩ := w
    obtain ⟨w1, w2⟩ := hw (tx, errors) (by simp)
    cases hla with
    | cons ha hla =>
      cases hlb with
      | cons hb hlb =>
        rename_i xa la xb lb
        simp only [simInputs, List.map_cons, outputs, List.cons.injEq] at hA hB
        have hi := ih (fun x hx => hw x (List.mem_cons_of_mem _ hx)) _ _ la lb hA.2 hB.2 hla hlb
        have h1 : hammingDistance (.bits xa.1) (.bits tx) = .ok (diffCount xa.1 tx) :=
          (hammingDistance_ok_iff _ _ _ _).2 ⟨_, _, rfl, rfl, ha, rfl⟩
        have h2 : hammingDistance (.bits xb.1) (.bits tx) = .ok (diffCount xb.1 tx) :=
          (hammingDistance_ok_iff _ _ _ _).2 ⟨_, _, rfl, rfl, hb, rfl⟩
        unfold simLoop
        rw [invertAt_eq tx errors w1 w2]
        simp only [bind, Except.bind, hA.1, hB.1, h1, h2, hi]
        rfl

theorem zip3_fst {α β γ : Type} (f : α → γ → Nat) (l : List α) (m : List β) (n : List γ) (h : m.length = n.length) :
    (l.zip (m.zip n)).map (fun x => f x.1 x.2.2) = (l.zip n).map fun x => f x.1 x.2 := by
  induction l generalizing m n with
  | nil => rfl
  | cons a l ih =>
    cases m with
    | nil => cases n with
      | nil => rfl
      | cons _ _ => simp at h
    | cons b m => cases n with
      | nil => simp at h
      | cons c n => simp [ih m n (by simpa using h)]

theorem zip3_snd {α β γ : Type} (f : β → γ → Nat) (l : List α) (m : List β) (n : List γ) (h : l.length = m.length) :
    (l.zip (m.zip n)).map (fun x => f x.2.1 x.2.2) = (m.zip n).map fun x => f x.1 x.2 := by
  induction l generalizing m n with
  | nil => cases m with
    | nil => rfl
    | cons _ _ => simp at h
  | cons a l ih =>
    cases m with
    | nil => simp at h
    | cons b m => cases n with
      | nil => rfl
      | cons c n => simp [ih m n (by simpa using h)]

theorem distances_spec (o : List (List Bool × Bool)) (words : List (List Bool × List Nat))
    (hl : List.Forall₂ (fun o w => o.1.length = w.1.length) o words) :
    ((o.zip words).map fun x => diffCount x.1.1 x.2.1).sum = wrongBits (o.map Prod.fst) (words.map Prod.fst) ∧
    ((o.zip words).map fun x => diffCount x.1.1 x.2.1).countP (· = 0) = exact (o.map Prod.fst) (words.map Prod.fst) := by
  induction hl with
  | nil => exact ⟨rfl, rfl⟩
  | cons h _ ih =>
    obtain ⟨i1, i2⟩ := ih
    simp only [wrongBits, exact] at i1 i2
    constructor
    · simp only [wrongBits, List.zip_cons_cons, List.map_cons, List.sum_cons, i1]
    · simp only [exact, List.zip_cons_cons, List.map_cons, List.countP_cons, i2]
      congr 1
      simp [diffCount_eq_zero]

theorem forall₂_of {α β : Type} {R : α → β → Prop} {l : List α} {m : List β} (hl : l.length = m.length)
    (h : ∀ x ∈ l, ∀ y ∈ m, R x y) : List.Forall₂ R l m := by
  induction l generalizing m with
  | nil => cases m with
    | nil => exact .nil
    | cons _ _ => simp at hl
  | cons a l ih => cases m with
    | nil => simp at hl
    | cons b m =>
      exact .cons (h a (by simp) b (by simp))
        (ih (by simpa using hl) fun x hx y hy => h x (List.mem_cons_of_mem _ hx) y (List.mem_cons_of_mem _ hy))

theorem outputs_length (A : Coder σ) (a : σ) (l : List (List ℝ × Option (List Nat))) : (outputs A a l).length = l.length := by
  induction l generalizing a with
  | nil => rfl
  | cons x l ih => simp [outputs, ih]

/-- C83: the rates. If no decoder raises and the estimates have the length of the words, the success rate times the number of words
is the number of words decoded exactly, and the bit error rate times the number of bits is the number of wrong bits; both decoders
get the same ratios, those of the words with their errors inverted. The recover rate is the gain in exactly decoded words over the
words that the pure decoder missed, and zero if it missed none. -/
theorem c83_step (A : Coder σ) (B : Coder τ) (a : σ) (b : τ) (n N : Nat) (p : ℚ) (words : List (List Bool × List Nat))
    (hne : words ≠ []) (hN : 0 < N) (hw : ∀ x ∈ words, x.1.length = N ∧ x.2.Nodup ∧ ∀ e ∈ x.2, e < N)
    (oa ob : List (List Bool × Bool)) (hA : outputs A a (simInputs p words) = oa.map .ok)
    (hB : outputs B b (simInputs p words) = ob.map .ok) (hla : ∀ o ∈ oa, o.1.length = N) (hlb : ∀ o ∈ ob, o.1.length = N) :
    ∃ r, simStep A B a b n p words = .ok r ∧ r.bufferLen = N ∧ r.number = words.length ∧
      r.pure.success * words.length = exact (oa.map Prod.fst) (words.map Prod.fst) ∧
      r.rect.success * words.length = exact (ob.map Prod.fst) (words.map Prod.fst) ∧
      r.pure.ber * (words.length * N) = wrongBits (oa.map Prod.fst) (words.map Prod.fst) ∧
      r.rect.ber * (words.length * N) = wrongBits (ob.map Prod.fst) (words.map Prod.fst) ∧
      r.recover * (words.length - exact (oa.map Prod.fst) (words.map Prod.fst)) =
        (if exact (oa.map Prod.fst) (words.map Prod.fst) < words.length then
          (exact (ob.map Prod.fst) (words.map Prod.fst) : ℚ) - exact (oa.map Prod.fst) (words.map Prod.fst) else 0) ∧
      (words.length ≤ exact (oa.map Prod.fst) (words.map Prod.fst) → r.recover = 0) := by
  have la : oa.length = words.length := by
    have := congrArg List.length hA
    rw [outputs_length] at this
    simpa [simInputs] using this.symm
  have lb : ob.length = words.length := by
    have := congrArg List.length hB
    rw [outputs_length] at this
    simpa [simInputs] using this.symm
  have fa : List.Forall₂ (fun (o : List Bool × Bool) (w : List Bool × List Nat) => o.1.length = w.1.length) oa words :=
    forall₂_of la fun o ho w hm => by rw [hla o ho, (hw w hm).1]
  have fb : List.Forall₂ (fun (o : List Bool × Bool) (w : List Bool × List Nat) => o.1.length = w.1.length) ob words :=
    forall₂_of lb fun o ho w hm => by rw [hlb o ho, (hw w hm).1]
  have hloop := simLoop_ok A B p words (fun x hx => ⟨(hw x hx).2.1, fun e he => by rw [(hw x hx).1]; exact (hw x hx).2.2 e he⟩)
    a b oa ob hA hB fa fb
  obtain ⟨a1, a2⟩ := distances_spec oa words fa
  obtain ⟨b1, b2⟩ := distances_spec ob words fb
  have e1 : ((oa.zip (ob.zip words)).map fun x => (diffCount x.1.1 x.2.2.1, diffCount x.2.1.1 x.2.2.1)).map Prod.fst =
      (oa.zip words).map fun x => diffCount x.1.1 x.2.1 := by
    rw [List.map_map]
    exact zip3_fst (fun (o : List Bool × Bool) (w : List Bool × List Nat) => diffCount o.1 w.1) oa ob words lb
  have e2 : ((oa.zip (ob.zip words)).map fun x => (diffCount x.1.1 x.2.2.1, diffCount x.2.1.1 x.2.2.1)).map Prod.snd =
      (ob.zip words).map fun x => diffCount x.1.1 x.2.1 := by
    rw [List.map_map]
    exact zip3_snd (fun (o : List Bool × Bool) (w : List Bool × List Nat) => diffCount o.1 w.1) oa ob words (by omega)
  obtain ⟨w, ws, rfl⟩ := List.exists_cons_of_ne_nil hne
  have hlen : w.1.length = N := (hw w (by simp)).1
  have hpos : ((ws.length + 1 : ℕ) : ℚ) ≠ 0 := by positivity
  have hposN : (((ws.length + 1) * N : ℕ) : ℚ) ≠ 0 := by
    have : 0 < (ws.length + 1) * N := Nat.mul_pos (by omega) hN
    exact_mod_cast this.ne'
  have hlw : (w :: ws).length = ws.length + 1 := rfl
  unfold simStep
  simp only [hloop, bind, Except.bind]
  refine ⟨_, rfl, hlen, rfl, ?_, ?_, ?_, ?_, ?_, ?_⟩
  · simp only [ratesOf, e1, a2, hlw]
    exact div_mul_cancel₀ _ hpos
  · simp only [ratesOf, e2, b2, hlw]
    exact div_mul_cancel₀ _ hpos
  · simp only [ratesOf, e1, a1, hlw, hlen]
    rw [← Nat.cast_mul]
    exact div_mul_cancel₀ _ hposN
  · simp only [ratesOf, e2, b1, hlw, hlen]
    rw [← Nat.cast_mul]
    exact div_mul_cancel₀ _ hposN
  · simp only [e1, e2, a2, b2, hlw]
    by_cases hlt : exact (oa.map Prod.fst) ((w :: ws).map Prod.fst) < ws.length + 1
    · rw [if_pos (by omega), if_pos hlt]
      refine div_mul_cancel₀ _ ?_
      have : ((exact (oa.map Prod.fst) ((w :: ws).map Prod.fst) : ℕ) : ℚ) < ((ws.length + 1 : ℕ) : ℚ) := by exact_mod_cast hlt
      exact sub_ne_zero.2 this.ne'
    · rw [if_neg (by omega), if_neg hlt, zero_mul]
  · intro hle
    simp only [e1, a2]
    rw [hlw] at hle
    rw [if_neg (by omega)]

/-! ### Whatever the decoders do -/

theorem simLoop_inv (A : Coder σ) (B : Coder τ) (p : ℝ) (N : Nat) (words : List (List Bool × List Nat))
    (hw : ∀ x ∈ words, x.1.length = N) (a : σ) (b : τ) (h : List (Nat × Nat)) (hr : simLoop A B p a b words = .ok h) :
    h.length = words.length ∧ ∀ x ∈ h, x.1 ≤ N ∧ x.2 ≤ N := by
  induction words generalizing a b h with
  | nil => cases hr; simp
  | cons w words ih =>
    obtain ⟨tx, errors⟩ := w
    have hN : tx.length = N := hw (tx, errors) (by simp)
    unfold simLoop at hr
    rcases h1 : invertAt tx errors with e | rx
    · rw [h1] at hr; cases hr
    rw [h1] at hr
    simp only [bind, Except.bind] at hr
    rcases h2 : (A a (channelLlr p rx) (some errors)).2 with e | ea
    · rw [h2] at hr; cases hr
    rw [h2] at hr
    simp only at hr
    rcases h3 : hammingDistance (.bits ea.1) (.bits tx) with e | da
    · rw [h3] at hr; cases hr
    rw [h3] at hr
    simp only at hr
    rcases h4 : (B b (channelLlr p rx) (some errors)).2 with e | eb
    · rw [h4] at hr; cases hr
    rw [h4] at hr
    simp only at hr
    rcases h5 : hammingDistance (.bits eb.1) (.bits tx) with e | db
    · rw [h5] at hr; cases hr
    rw [h5] at hr
    simp only at hr
    rcases h6 : simLoop A B p (A a (channelLlr p rx) (some errors)).1 (B b (channelLlr p rx) (some errors)).1 words with e | t
    · rw [h6] at hr; cases hr
    rw [h6] at hr
    cases hr
    obtain ⟨i1, i2⟩ := ih (fun x hx => hw x (List.mem_cons_of_mem _ hx)) _ _ t h6
    obtain ⟨_, _, q1, q2, q3, rfl⟩ := (hammingDistance_ok_iff _ _ _ _).1 h3
    obtain ⟨_, _, r1, r2, r3, rfl⟩ := (hammingDistance_ok_iff _ _ _ _).1 h5
    cases q1; cases q2; cases r1; cases r2
    refine ⟨by simp [i1], ?_⟩
    intro x hx
    rcases List.mem_cons.1 hx with rfl | hx
    · exact ⟨(diffCount_le _ _ q3).trans (by rw [q3, hN]), (diffCount_le _ _ r3).trans (by rw [r3, hN])⟩
    · exact i2 x hx

theorem sum_bounds (N : Nat) (l : List Nat) (h : ∀ x ∈ l, x ≤ N) :
    l.countP (· = 0) ≤ l.length ∧ l.length ≤ l.sum + l.countP (· = 0) ∧ l.sum + l.countP (· = 0) * N ≤ l.length * N := by
  induction l with
  | nil => simp
  | cons a l ih =>
    obtain ⟨i1, i2, i3⟩ := ih fun x hx => h x (List.mem_cons_of_mem _ hx)
    have ha := h a (by simp)
    simp only [List.countP_cons, List.length_cons, List.sum_cons]
    by_cases h0 : a = 0
    · simp only [h0, decide_true, if_true, Nat.add_mul]
      omega
    · simp only [h0, decide_false, Bool.false_eq_true, if_false, Nat.add_zero, Nat.add_mul]
      omega

theorem rates_bounds (n N : Nat) (hn : 0 < n) (hN : 0 < N) (l : List Nat) (hl : l.length = n) (h : ∀ x ∈ l, x ≤ N) :
    0 ≤ (ratesOf n N l).success ∧ (ratesOf n N l).success ≤ 1 ∧ 0 ≤ (ratesOf n N l).ber ∧
      (ratesOf n N l).ber ≤ 1 - (ratesOf n N l).success ∧ 1 - (ratesOf n N l).success ≤ (ratesOf n N l).ber * N := by
  obtain ⟨s1, s2, s3⟩ := sum_bounds N l h
  have hnq : (0 : ℚ) < n := by exact_mod_cast hn
  have hNq : (0 : ℚ) < N := by exact_mod_cast hN
  have t1 : ((l.countP (· = 0) : ℕ) : ℚ) ≤ n := by rw [← hl]; exact_mod_cast s1
  have t2 : (n : ℚ) ≤ (l.sum : ℚ) + (l.countP (· = 0) : ℕ) := by rw [← hl]; exact_mod_cast s2
  have t3 : (l.sum : ℚ) + (l.countP (· = 0) : ℕ) * N ≤ n * N := by rw [← hl]; exact_mod_cast s3
  simp only [ratesOf, Nat.cast_mul]
  refine ⟨by positivity, ?_, by positivity, ?_, ?_⟩
  · rw [div_le_one hnq]; exact t1
  · rw [div_le_iff₀ (by positivity), sub_mul, one_mul]
    have : ((l.countP (· = 0) : ℕ) : ℚ) / n * (n * N) = (l.countP (· = 0) : ℕ) * N := by field_simp
    rw [this]; linarith
  · have : (l.sum : ℚ) / (n * N) * N = l.sum / n := by field_simp
    rw [this, ← sub_nonneg]
    have : (l.sum : ℚ) / n - (1 - ((l.countP (· = 0) : ℕ) : ℚ) / n) = (l.sum + (l.countP (· = 0) : ℕ) - n) / n := by
      field_simp; ring
    rw [this]
    apply div_nonneg _ hnq.le
    linarith

/-- C83: whatever the decoders do, if the step reports at all then its rates lie between zero and one, the bit error rate lies
between the share of missed words divided by the length of a word and that share, and no bit is wrong exactly if all words are
decoded exactly. -/
theorem c83_bounds (A : Coder σ) (B : Coder τ) (a : σ) (b : τ) (n N : Nat) (hN : 0 < N) (p : ℚ)
    (words : List (List Bool × List Nat)) (hw : ∀ x ∈ words, x.1.length = N) (r : SimSummary)
    (hr : simStep A B a b n p words = .ok r) (q : Rates) (hq : q = r.pure ∨ q = r.rect) :
    0 ≤ q.success ∧ q.success ≤ 1 ∧ 0 ≤ q.ber ∧ q.ber ≤ 1 - q.success ∧ 1 - q.success ≤ q.ber * N ∧
      (q.ber = 0 ↔ q.success = 1) := by
  have key : 0 ≤ q.success ∧ q.success ≤ 1 ∧ 0 ≤ q.ber ∧ q.ber ≤ 1 - q.success ∧ 1 - q.success ≤ q.ber * N := by
    cases words with
    | nil => cases hr
    | cons w ws =>
      unfold simStep at hr
      rcases hloop : simLoop A B p a b (w :: ws) with e | h
      · simp only [hloop, bind, Except.bind] at hr; cases hr
      simp only [hloop, bind, Except.bind] at hr
      cases hr
      obtain ⟨hl, hle⟩ := simLoop_inv A B p N (w :: ws) hw a b h hloop
      have hlen : w.1.length = N := hw w (by simp)
      rcases hq with rfl | rfl
      · simp only [hlen]
        exact rates_bounds _ N (by omega) hN _ (by simp [hl]) fun x hx => by
          obtain ⟨y, hy, rfl⟩ := List.mem_map.1 hx
          exact (hle y hy).1
      · simp only [hlen]
        exact rates_bounds _ N (by omega) hN _ (by simp [hl]) fun x hx => by
          obtain ⟨y, hy, rfl⟩ := List.mem_map.1 hx
          exact (hle y hy).2
  obtain ⟨k1, k2, k3, k4, k5⟩ := key
  refine ⟨k1, k2, k3, k4, k5, fun h => ?_, fun h => ?_⟩
  · rw [h] at k5; linarith
  · rw [h] at k4; linarith

/-- C83: a step without words raises. -/
theorem c83_empty (A : Coder σ) (B : Coder τ) (a : σ) (b : τ) (n : Nat) (p : ℚ) :
    simStep A B a b n p [] = .error .valueError := rfl

/-! ### The channel -/

/-- C83: for an error probability between zero and one half, the hard decisions of the ratios handed to the decoders are the bits
of the received word, and all ratios have the same magnitude. -/
theorem c83_channel (p : ℝ) (h0 : 0 < p) (h1 : p < 1 / 2) (tx : List Bool) (errors : List Nat) :
    hardBits (channelLlr p (flipAt tx errors)) = flipAt tx errors ∧
    ∀ x ∈ channelLlr p (flipAt tx errors), |x| = Real.log ((1 - p) / p) := by
  have hpos : 0 < Real.log ((1 - p) / p) := by
    apply Real.log_pos
    rw [lt_div_iff₀ h0]
    linarith
  unfold channelLlr bscLlr hardBits
  constructor
  · rw [List.map_map, List.map_map]
    nth_rewrite 2 [← List.map_id (flipAt tx errors)]
    apply List.map_congr_left
    intro c _
    cases c
    · simp [hpos.le]
    · simp [hpos]
  · intro x hx
    rw [List.map_map] at hx
    obtain ⟨c, _, rfl⟩ := List.mem_map.1 hx
    cases c
    · simp [abs_of_pos hpos]
    · simp [abs_of_pos hpos]

/-! ### The options -/

/-- C83, refuted for learning with clustering: with both switched on the model handed to the decoder is a name that was never
assigned, and only then. -/
theorem c83_options_false {α : Type} (cluster learn : Bool) (loaded : α) :
    (dataModelGlobal cluster learn loaded = none ↔ cluster = true ∧ learn = true) ∧
    (learn = false → dataModelGlobal cluster learn loaded = some (some loaded)) ∧
    (cluster = false → learn = true → dataModelGlobal cluster learn loaded = some none) := by
  cases cluster <;> cases learn <;> simp [dataModelGlobal]

/-- Two words of three bits; the pure decoder takes the hard decisions, the other one always says three ones. -/
example : ∃ r, simStep (fun (_ : Unit) llr _ => ((), .ok (hardBits llr, true))) (fun (_ : Unit) _ _ => ((), .ok ([true, true, true], true)))
      () () 3 (1 / 3) [([true, true, true], [1]), ([true, false, false], [])] = .ok r ∧
    r.pure.success = 1 / 2 ∧ r.rect.success = 1 / 2 ∧ r.pure.ber = 1 / 6 ∧ r.rect.ber = 1 / 3 := by
  have hc := fun tx errors => (c83_channel (((1 : ℚ) / 3 : ℚ) : ℝ) (by norm_num) (by norm_num) tx errors).1
  obtain ⟨r, h, -, -, s1, s2, b1, b2, -⟩ := c83_step (fun (_ : Unit) llr _ => ((), .ok (hardBits llr, true)))
    (fun (_ : Unit) _ _ => ((), .ok ([true, true, true], true))) () () 3 3 (1 / 3)
    [([true, true, true], [1]), ([true, false, false], [])] (by simp) (by omega) (by simp)
    [([true, false, true], true), ([true, false, false], true)] [([true, true, true], true), ([true, true, true], true)]
    (by simp only [simInputs, List.map_cons, List.map_nil, outputs, hc]; rfl) (by simp [simInputs, outputs]) (by simp) (by simp)
  have d1 : exact [[true, false, true], [true, false, false]] [[true, true, true], [true, false, false]] = 1 := by decide
  have d2 : exact [[true, true, true], [true, true, true]] [[true, true, true], [true, false, false]] = 1 := by decide
  have d3 : wrongBits [[true, false, true], [true, false, false]] [[true, true, true], [true, false, false]] = 1 := by decide
  have d4 : wrongBits [[true, true, true], [true, true, true]] [[true, true, true], [true, false, false]] = 2 := by decide
  simp only [List.map_cons, List.map_nil, d1, d2, d3, d4, List.length_cons, List.length_nil] at s1 s2 b1 b2
  refine ⟨r, h, ?_, ?_, ?_, ?_⟩ <;> push_cast at * <;> linarith

end NR
