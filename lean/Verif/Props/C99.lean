import Verif.Spec.Averaged
import Verif.Props.C83
import Verif.Props.C89
/-
C99: the averaged simulation of the weighted decoder, and the success counts of the simulations before it.
-/
namespace NR
open NR.Averaged NR.Spec

variable {σ τ : Type}

theorem linspace_sorted (a b : ℚ) (h : a ≤ b) (num : Nat) : (linspace a b num).Pairwise (· ≤ ·) := by
  rcases Nat.eq_zero_or_pos num with rfl | h0
  · exact List.Pairwise.nil
  unfold linspace
  refine List.Pairwise.map _ ?_ List.pairwise_lt_range
  intro i j hij
  split
  · exact le_rfl
  · have hi : (i : ℚ) ≤ j := by exact_mod_cast hij.le
    have h1 : (0 : ℚ) ≤ (num : ℚ) - 1 := by
      have : (1 : ℚ) ≤ num := by exact_mod_cast h0
      linarith
    have := mul_le_mul_of_nonneg_right hi (div_nonneg (sub_nonneg.2 h) h1)
    linarith

theorem linspace_head (a b : ℚ) (num : Nat) (h : 0 < num) : (linspace a b num).head? = some a := by
  obtain ⟨m, rfl⟩ : ∃ m, num = m + 1 := ⟨num - 1, by omega⟩
  simp [linspace, List.range_succ_eq_map]

theorem linspace_last (a b : ℚ) (num : Nat) (h : 2 ≤ num) : (linspace a b num).getLast? = some b := by
  obtain ⟨m, rfl⟩ : ∃ m, num = m + 2 := ⟨num - 2, by omega⟩
  have hm : ((m : ℚ) + 1) ≠ 0 := by positivity
  unfold linspace
  rw [List.range_succ, List.map_append]
  simp only [List.map_cons, List.map_nil, List.getLast?_append, List.getLast?_singleton, Option.some_or, Option.some.injEq]
  rw [if_neg (by omega)]
  push_cast
  rw [show (m : ℚ) + 2 - 1 = m + 1 by ring, mul_div_cancel₀ _ hm]
  ring

theorem linspace_one (a b : ℚ) : linspace a b 1 = [a] := by simp [linspace]

theorem le_last {l : List ℚ} (h : l.Pairwise (· ≤ ·)) {p q : ℚ} (hp : p ∈ l) (hq : l.getLast? = some q) : p ≤ q := by
  obtain ⟨l', rfl⟩ : ∃ l', l = l' ++ [q] := ⟨l.dropLast, (List.dropLast_append_getLast? q hq).symm⟩
  rw [List.pairwise_append] at h
  rcases List.mem_append.1 hp with hp | hp
  · exact h.2.2 p hp q (by simp)
  · simp at hp; exact hp.le

theorem errorCount_eq (n : Nat) (p : ℚ) : errorCount n p = toInvert n p := rfl

theorem toInvert_mono (n : Nat) {p q : ℚ} (h : p ≤ q) : toInvert n p ≤ toInvert n q :=
  Int.toNat_le_toNat (Int.floor_le_floor (mul_le_mul_of_nonneg_left h (Nat.cast_nonneg n)))

/-- What `globals` returns. -/
theorem globals_ok {n : Nat} {encoded : List (List Bool)} {lo hi : ℚ} {num : Nat} {draw : Nat → Nat → List Nat} {g : Globals}
    (h : globals n encoded lo hi num draw = .ok g) :
    encoded ≠ [] ∧ ∃ q, (linspace lo hi num).getLast? = some q ∧ toInvert n q ≤ n ∧
      g = ⟨n, encoded, linspace lo hi num, (List.range encoded.length).map fun i => draw i (toInvert n q)⟩ := by
  unfold globals at h
  simp only at h
  split at h
  · cases h
  next hne =>
    split at h
    · cases h
    next q hq =>
      split at h
      · cases h
      next hle =>
        cases h
        exact ⟨by rintro rfl; simp at hne, q, hq, by rw [← errorCount_eq]; omega, rfl⟩

/-- C99: the flip probabilities: as many as asked for, increasing, from the smallest to the largest. -/
theorem c99_probabilities (n : Nat) (encoded : List (List Bool)) (lo hi : ℚ) (hlo : lo ≤ hi) (num : Nat)
    (draw : Nat → Nat → List Nat) (g : Globals) (hg : globals n encoded lo hi num draw = .ok g) :
    g.bitFlipP.length = num ∧ 0 < num ∧ g.bitFlipP.Pairwise (· ≤ ·) ∧ g.bitFlipP.head? = some lo ∧
    (2 ≤ num → g.bitFlipP.getLast? = some hi) := by
  obtain ⟨-, q, hq, -, rfl⟩ := globals_ok hg
  have hn : 0 < num := by
    rcases Nat.eq_zero_or_pos num with rfl | h
    · simp [linspace] at hq
    · exact h
  exact ⟨by simp [linspace], hn, linspace_sorted lo hi hlo num, linspace_head lo hi num hn, linspace_last lo hi num⟩

/-- C99: with increasing flip probabilities, the words of each step are received with exactly the number of errors that belongs to
its flip probability, at different positions; the errors of a step are among those of every step with a larger flip probability; the
rates reported are those of the estimates (as in C83), the raw bit error rate is the share of inverted bits. -/
theorem c99_step (A : Coder σ) (B : Coder τ) (a : σ) (b : τ) (n : Nat) (hn : 0 < n) (encoded : List (List Bool))
    (he : ∀ w ∈ encoded, w.length = n) (lo hi : ℚ) (hlo : lo ≤ hi) (num : Nat) (draw : Nat → Nat → List Nat) (hd : ProperDraws n draw)
    (g : Globals) (hg : globals n encoded lo hi num draw = .ok g) :
    ∃ errs : ℚ → List (List Nat),
      (∀ p ∈ g.bitFlipP, (errs p).length = encoded.length ∧ ∀ e ∈ errs p, Positions n (toInvert n p) e) ∧
      (∀ p ∈ g.bitFlipP, ∀ p' ∈ g.bitFlipP, p ≤ p' → List.Forall₂ (fun e e' => e <+: e') (errs p) (errs p')) ∧
      ∀ p ∈ g.bitFlipP, ∀ oa ob : List (List Bool × Bool), outputs A a (simInputs p (encoded.zip (errs p))) = oa.map .ok →
        outputs B b (simInputs p (encoded.zip (errs p))) = ob.map .ok → (∀ o ∈ oa, o.1.length = n) → (∀ o ∈ ob, o.1.length = n) →
        ∃ pt, step A B a b g p = .ok pt ∧ pt.rawBer * n = toInvert n p ∧
          pt.ldpc.success * encoded.length = exact (oa.map Prod.fst) encoded ∧
          pt.entropy.success * encoded.length = exact (ob.map Prod.fst) encoded ∧
          pt.ldpc.ber * (encoded.length * n) = wrongBits (oa.map Prod.fst) encoded ∧
          pt.entropy.ber * (encoded.length * n) = wrongBits (ob.map Prod.fst) encoded := by
  obtain ⟨hne, q, hq, hqn, rfl⟩ := globals_ok hg
  have hle : ∀ p ∈ linspace lo hi num, toInvert n p ≤ toInvert n q := fun p hp =>
    toInvert_mono n (le_last (linspace_sorted lo hi hlo num) hp hq)
  have hpos : ∀ p ∈ linspace lo hi num, ∀ e ∈ ((List.range encoded.length).map fun i => (draw i (toInvert n q)).take (toInvert n p)),
      Positions n (toInvert n p) e := by
    intro p hp e hmem
    obtain ⟨i, -, rfl⟩ := List.mem_map.1 hmem
    obtain ⟨d1, d2, d3⟩ := hd i _ hqn
    exact ⟨d1.sublist (List.take_sublist _ _), by rw [List.length_take, d2]; exact min_eq_left (hle p hp),
      fun x hx => d3 x (List.mem_of_mem_take hx)⟩
  refine ⟨fun p => (List.range encoded.length).map fun i => (draw i (toInvert n q)).take (toInvert n p), ?_, ?_, ?_⟩
  · exact fun p hp => ⟨by simp, hpos p hp⟩
  · intro p hp p' hp' hpp
    rw [List.forall₂_map_left_iff, List.forall₂_map_right_iff, List.forall₂_same]
    exact fun i _ => List.take_prefix_take_left (toInvert_mono n hpp)
  · intro p hp oa ob hA hB hla hlb
    have hzip : (encoded.zip ((List.range encoded.length).map fun i => (draw i (toInvert n q)).take (toInvert n p))).map Prod.fst =
        encoded := List.map_fst_zip (by simp)
    have hzl : (encoded.zip ((List.range encoded.length).map fun i => (draw i (toInvert n q)).take (toInvert n p))).length =
        encoded.length := by simp
    obtain ⟨r, hr, -, -, h1, h2, h3, h4, -⟩ := c83_step A B a b n n p
      (encoded.zip ((List.range encoded.length).map fun i => (draw i (toInvert n q)).take (toInvert n p)))
      (by intro h; rw [h] at hzl; exact hne (List.length_eq_zero_iff.1 hzl.symm)) hn
      (by
        rintro ⟨w, e⟩ hx
        have := List.of_mem_zip hx
        obtain ⟨p1, p2, p3⟩ := hpos p hp e this.2
        exact ⟨he w this.1, p1, p3⟩) oa ob hA hB hla hlb
    rw [hzip, hzl] at h1 h2 h3 h4
    refine ⟨⟨r.rawBer, r.pure, r.rect⟩, ?_, ?_, h1, h2, h3, h4⟩
    · unfold step
      simp only [List.map_map, errorCount_eq] at hr ⊢
      have hcomp : ((fun row : List Nat => row.take (toInvert n p)) ∘ fun i => draw i (toInvert n q)) =
          fun i => (draw i (toInvert n q)).take (toInvert n p) := rfl
      rw [hcomp, hr]
      rfl
    · unfold simStep at hr
      split at hr
      · cases hr
      · simp only [bind, Except.bind] at hr
        split at hr
        · cases hr
        · cases hr
          simp only [errorCount_eq]
          rw [div_mul_cancel₀]
          exact_mod_cast hn.ne'

theorem simLoop_no (B : Coder τ) (p : ℝ) (h0 : 0 < p) (h1 : p < 1 / 2) : ∀ (words : List (List Bool × List Nat)) (b : τ)
    (h : List (Nat × Nat)), (∀ x ∈ words, x.2.Nodup ∧ ∀ e ∈ x.2, e < x.1.length) → simLoop noDecoder B p () b words = .ok h →
    h.map Prod.fst = words.map fun w => w.2.length
  | [], b, h, _, hl => by cases hl; rfl
  | (tx, errors) :: words, b, h, hw, hl => by
    obtain ⟨w1, w2⟩ := hw (tx, errors) (by simp)
    have hd : hammingDistance (.bits (flipAt tx errors)) (.bits tx) = .ok errors.length := by
      rw [← diffCount_flipAt tx errors w1 w2]
      exact (hammingDistance_ok_iff _ _ _ _).2 ⟨_, _, rfl, rfl, flipAt_length _ _, rfl⟩
    unfold simLoop at hl
    rw [invertAt_eq tx errors w1 w2] at hl
    simp only [bind, Except.bind, noDecoder, (c83_channel p h0 h1 tx errors).1, hd] at hl
    split at hl
    · cases hl
    · split at hl
      · cases hl
      · split at hl
        · cases hl
        next t ht =>
          cases hl
          have := simLoop_no B p h0 h1 words _ t (fun x hx => hw x (by simp [hx])) ht
          simp [this]

/-- A step with a decoder that returns the received word, each with `m` errors. -/
theorem step_no (B : Coder τ) (b : τ) (n : Nat) (hn : 0 < n) (p : ℚ) (h0 : 0 < p) (h1 : p < 1 / 2) (m : Nat)
    (words : List (List Bool × List Nat)) (hw : ∀ x ∈ words, x.1.length = n ∧ Positions n m x.2) (r : SimSummary)
    (hr : simStep noDecoder B () b n p words = .ok r) : r.rawBer = toInvert n p / n ∧ r.pure.ber = m / n := by
  cases words with
  | nil => cases hr
  | cons w ws =>
    unfold simStep at hr
    rcases hloop : simLoop noDecoder B p () b (w :: ws) with e | h
    · simp only [hloop, bind, Except.bind] at hr; cases hr
    simp only [hloop, bind, Except.bind] at hr
    cases hr
    have hs := simLoop_no B p (by exact_mod_cast h0) (by
      have : ((p : ℚ) : ℝ) < ((1 / 2 : ℚ) : ℝ) := by exact_mod_cast h1
      simpa using this) (w :: ws) b h
      (fun x hx => ⟨(hw x hx).2.nodup, fun e he => by rw [(hw x hx).1]; exact (hw x hx).2.range e he⟩) hloop
    refine ⟨by rw [errorCount_eq], ?_⟩
    simp only [ratesOf, hs]
    have hsum : ∀ l : List (List Bool × List Nat), (∀ x ∈ l, x.1.length = n ∧ Positions n m x.2) →
        (l.map fun w => w.2.length).sum = l.length * m := by
      intro l hl
      induction l with
      | nil => simp
      | cons x l ih =>
        simp only [List.map_cons, List.sum_cons, List.length_cons, ih (fun y hy => hl y (by simp [hy])),
          (hl x (by simp)).2.count]
        ring
    rw [hsum _ hw, (hw w (by simp)).1, List.length_cons]
    have hnq : (n : ℚ) ≠ 0 := by exact_mod_cast hn.ne'
    have hlq : ((ws.length + 1 : ℕ) : ℚ) ≠ 0 := by positivity
    push_cast at hlq ⊢
    field_simp

theorem linspace_mem {lo hi p : ℚ} {num : Nat} (hlo : lo ≤ hi) (hp : p ∈ linspace lo hi num) : lo ≤ p ∧ p ≤ hi := by
  unfold linspace at hp
  obtain ⟨i, hi', rfl⟩ := List.mem_map.1 hp
  have hlt := List.mem_range.1 hi'
  split
  · exact ⟨le_rfl, hlo⟩
  · have h1 : (0 : ℚ) < (num : ℚ) - 1 := by
      have : (1 : ℚ) < num := by exact_mod_cast (by omega : 1 < num)
      linarith
    have hi1 : (i : ℚ) ≤ (num : ℚ) - 1 := by
      have : ((i : ℚ)) + 1 ≤ num := by exact_mod_cast hlt
      linarith
    have h2 := div_nonneg (sub_nonneg.2 hlo) h1.le
    have h3 := mul_le_mul_of_nonneg_right hi1 h2
    have h4 := mul_nonneg (Nat.cast_nonneg (α := ℚ) i) h2
    rw [mul_div_cancel₀ _ h1.ne'] at h3
    constructor <;> linarith

/-- C99: the raw bit error rate is the error rate of a decoder that returns the received word. -/
theorem c99_raw (B : Coder τ) (b : τ) (n : Nat) (hn : 0 < n) (encoded : List (List Bool)) (he : ∀ w ∈ encoded, w.length = n)
    (lo hi : ℚ) (h0 : 0 < lo) (hlo : lo ≤ hi) (h1 : hi < 1 / 2) (num : Nat) (draw : Nat → Nat → List Nat) (hd : ProperDraws n draw)
    (g : Globals) (hg : globals n encoded lo hi num draw = .ok g) (p : ℚ) (hp : p ∈ g.bitFlipP) (pt : Point)
    (hs : step noDecoder B () b g p = .ok pt) : pt.ldpc.ber = pt.rawBer ∧ pt.rawBer = toInvert n p / n := by
  obtain ⟨hne, q, hq, hqn, rfl⟩ := globals_ok hg
  obtain ⟨l1, l2⟩ := linspace_mem hlo hp
  have hle : toInvert n p ≤ toInvert n q := toInvert_mono n (le_last (linspace_sorted lo hi hlo num) hp hq)
  unfold step at hs
  simp only [bind, Except.bind] at hs
  split at hs
  · cases hs
  next r hr =>
    cases hs
    obtain ⟨e1, e2⟩ := step_no B b n hn p (by linarith) (by linarith) (toInvert n p) _ (by
      rintro ⟨w, e⟩ hx
      obtain ⟨m1, m2⟩ := List.of_mem_zip hx
      refine ⟨he w m1, ?_⟩
      simp only [List.map_map, List.mem_map, Function.comp] at m2
      obtain ⟨i, -, rfl⟩ := m2
      obtain ⟨d1, d2, d3⟩ := hd i _ hqn
      exact ⟨d1.sublist (List.take_sublist _ _), by rw [List.length_take, d2]; exact min_eq_left hle,
        fun x hx => d3 x (List.mem_of_mem_take hx)⟩) r hr
    exact ⟨by rw [e1, e2], e1⟩

/-- C99, refuted for decreasing flip probabilities: the errors are drawn for the last one, so a step with a larger one has fewer
errors than it reports; the decoder that returns the received word seems to correct the others. -/
theorem c99_reversed_false (B : Coder τ) (b : τ) (n : Nat) (hn : 0 < n) (encoded : List (List Bool)) (he : ∀ w ∈ encoded, w.length = n)
    (lo hi : ℚ) (h0 : 0 < lo) (_hhi : hi < lo) (h1 : lo < 1 / 2) (hm : toInvert n hi < toInvert n lo) (num : Nat) (h2 : 2 ≤ num)
    (draw : Nat → Nat → List Nat) (hd : ProperDraws n draw) (g : Globals) (hg : globals n encoded lo hi num draw = .ok g) (pt : Point)
    (hs : step noDecoder B () b g lo = .ok pt) :
    lo ∈ g.bitFlipP ∧ pt.rawBer = toInvert n lo / n ∧ pt.ldpc.ber = toInvert n hi / n ∧ pt.ldpc.ber < pt.rawBer := by
  obtain ⟨hne, q, hq, hqn, rfl⟩ := globals_ok hg
  rw [linspace_last lo hi num h2, Option.some.injEq] at hq
  subst hq
  have hmem : lo ∈ linspace lo hi num := List.mem_of_mem_head? (linspace_head lo hi num (by omega))
  unfold step at hs
  simp only [bind, Except.bind] at hs
  split at hs
  · cases hs
  next r hr =>
    cases hs
    obtain ⟨e1, e2⟩ := step_no B b n hn lo h0 h1 (toInvert n hi) _ (by
      rintro ⟨w, e⟩ hx
      obtain ⟨m1, m2⟩ := List.of_mem_zip hx
      refine ⟨he w m1, ?_⟩
      simp only [List.map_map, List.mem_map, Function.comp] at m2
      obtain ⟨i, -, rfl⟩ := m2
      rw [errorCount_eq, List.take_of_length_le (by rw [(hd i _ hqn).count]; exact hm.le)]
      exact hd i _ hqn) r hr
    refine ⟨hmem, e1, e2, ?_⟩
    simp only [e1, e2]
    have : ((toInvert n hi : ℕ) : ℚ) < (toInvert n lo : ℕ) := by exact_mod_cast hm
    exact div_lt_div_of_pos_right this (by exact_mod_cast hn)

theorem mapM_const_ok {α ε : Type} {l : List Nat} {f : Except ε α} {r : List α}
    (h : l.mapM (fun _ => f) = .ok r) : r.length = l.length ∧ ∀ x ∈ r, f = .ok x := by
  induction l generalizing r with
  | nil => cases h; simp
  | cons a l ih =>
    rw [List.mapM_cons] at h
    cases hf : f with
    | error e => rw [hf] at h; cases h
    | ok y =>
      rcases ht : l.mapM (fun _ => f) with e | t
      · rw [ht, hf] at h; cases h
      · rw [ht, hf] at h
        cases h
        obtain ⟨i1, i2⟩ := ih ht
        refine ⟨by simp [i1], ?_⟩
        intro x hx
        rcases List.mem_cons.1 hx with rfl | hx
        · rfl
        · exact hf ▸ i2 x hx

/-- C99: averaging does not average: every run repeats the first one, point by point. -/
theorem c99_same (A : Coder σ) (B : Coder τ) (a : σ) (b : τ) (g : Globals) (k : Nat) (stats : List (List Point))
    (h : main A B a b g k = .ok stats) :
    0 < k ∧ stats.length = k ∧ ∃ run, stats = List.replicate k run ∧ g.bitFlipP.mapM (step A B a b g) = .ok run := by
  unfold main at h
  rcases hm : (List.range k).mapM (fun _ => g.bitFlipP.mapM (step A B a b g)) with e | st
  · rw [hm] at h; cases h
  rw [hm] at h
  simp only [bind, Except.bind] at h
  split at h
  · cases h
  next hk =>
    cases h
    obtain ⟨m1, m2⟩ := mapM_const_ok hm
    rw [List.length_range] at m1
    obtain ⟨run, hrun⟩ : ∃ run, run ∈ stats := by
      cases stats with
      | nil => simp at m1; omega
      | cons x _ => exact ⟨x, by simp⟩
    refine ⟨by omega, m1, run, ?_, m2 run hrun⟩
    rw [List.eq_replicate_iff]
    refine ⟨m1, fun x hx => ?_⟩
    have := (m2 x hx).symm.trans (m2 run hrun)
    cases this
    rfl

/-- C99: with no run there is no time stamp to save under: NameError. -/
theorem c99_none (A : Coder σ) (B : Coder τ) (a : σ) (b : τ) (g : Globals) : main A B a b g 0 = .error .nameError := rfl

theorem successes_ok (i : Nat) (words : List (List Entry × Nat × Nat)) (h : ∀ w ∈ words, w.1.length + 1 = i) :
    successes i (words.map fun w => Averaged.keep w.1 w.2.1 w.2.2) = .ok (words.countP fun w => w.2.2 = 0) := by
  induction words with
  | nil => rfl
  | cons w ws ih =>
    have hw := h w (by simp)
    have ih := ih fun x hx => h x (by simp [hx])
    have hg : (Averaged.keep w.1 w.2.1 w.2.2)[i]? = some (.num w.2.2) := by
      unfold Averaged.keep
      rw [List.getElem?_append_right (by omega), show i - w.1.length = 1 by omega]
      rfl
    unfold successes at ih ⊢
    simp only [bind, Except.bind] at ih ⊢
    rw [List.map_cons, List.mapM_cons]
    split at ih
    · cases ih
    next l hl =>
      rw [hl]
      simp only [Except.ok.injEq] at ih
      simp only [hg, Entry.isZero, bind, Except.bind, pure, Except.pure, List.sum_cons, ih, List.countP_cons, Int.natCast_eq_zero,
        decide_eq_true_eq, Nat.add_comm]

/-- C99: the averaged simulation counts the words without wrong bits if decoders return six entries; the scripts before it count them
if decoders return four. -/
theorem c99_index (words : List (List Entry × Nat × Nat)) :
    ((∀ w ∈ words, w.1.length = 6) → successes 7 (words.map fun w => Averaged.keep w.1 w.2.1 w.2.2) = .ok (words.countP fun w => w.2.2 = 0)) ∧
    ((∀ w ∈ words, w.1.length = 4) → successes 5 (words.map fun w => Averaged.keep w.1 w.2.1 w.2.2) = .ok (words.countP fun w => w.2.2 = 0)) :=
  ⟨fun h => successes_ok 7 words fun w hw => by rw [h w hw], fun h => successes_ok 5 words fun w hw => by rw [h w hw]⟩

/-- C99, refuted for the earlier scripts: with six entries, the last of which is an array over the bits of the word, they raise
TypeError. -/
theorem c99_index_false (words : List (List Entry × Nat × Nat)) (hne : words ≠ [])
    (h : ∀ w ∈ words, w.1.length = 6 ∧ ∃ l : List Int, w.1[5]? = some (.arr l) ∧ 2 ≤ l.length) :
    successes 5 (words.map fun w => Averaged.keep w.1 w.2.1 w.2.2) = .error .typeError := by
  obtain ⟨w, ws, rfl⟩ := List.exists_cons_of_ne_nil hne
  obtain ⟨h6, l, hl, h2⟩ := h w (by simp)
  have hg : (Averaged.keep w.1 w.2.1 w.2.2)[5]? = some (.arr l) := by
    unfold Averaged.keep
    rw [List.getElem?_append_left (by omega), hl]
  have hz : (Entry.arr l).isZero = .error .typeError := by
    match l, h2 with
    | _ :: _ :: _, _ => rfl
  unfold successes
  rw [List.map_cons, List.mapM_cons]
  simp only [hg, hz, bind, Except.bind]

theorem outputs_noDecoder (p : ℝ) (h0 : 0 < p) (h1 : p < 1 / 2) (words : List (List Bool × List Nat)) :
    outputs noDecoder () (simInputs p words) = (words.map fun w => (flipAt w.1 w.2, true)).map .ok := by
  induction words with
  | nil => rfl
  | cons w ws ih =>
    simp only [simInputs, List.map_cons, outputs, noDecoder] at ih ⊢
    rw [(c83_channel p h0 h1 w.1 w.2).1]
    congr 1

/-- Steps without decoding do not raise. -/
theorem step_no_ok (n : Nat) (hn : 0 < n) (encoded : List (List Bool)) (he : ∀ w ∈ encoded, w.length = n) (lo hi : ℚ) (num : Nat)
    (draw : Nat → Nat → List Nat) (hd : ProperDraws n draw) (g : Globals) (hg : globals n encoded lo hi num draw = .ok g) (p : ℚ)
    (h0 : 0 < p) (h1 : p < 1 / 2) : ∃ pt, step noDecoder noDecoder () () g p = .ok pt := by
  obtain ⟨hne, q, -, hqn, rfl⟩ := globals_ok hg
  have h0' : (0 : ℝ) < p := by exact_mod_cast h0
  have h1' : (p : ℝ) < 1 / 2 := by
    have : ((p : ℚ) : ℝ) < ((1 / 2 : ℚ) : ℝ) := by exact_mod_cast h1
    simpa using this
  unfold step
  simp only
  generalize hws : encoded.zip (((List.range encoded.length).map fun i => draw i (toInvert n q)).map fun row =>
    row.take (errorCount n p)) = ws
  have hmem : ∀ x ∈ ws, x.1.length = n ∧ x.2.Nodup ∧ ∀ e ∈ x.2, e < n := by
    rintro ⟨w, e⟩ hx
    rw [← hws] at hx
    obtain ⟨m1, m2⟩ := List.of_mem_zip hx
    simp only [List.map_map, List.mem_map, Function.comp] at m2
    obtain ⟨i, -, rfl⟩ := m2
    obtain ⟨d1, d2, d3⟩ := hd i _ hqn
    exact ⟨he w m1, d1.sublist (List.take_sublist _ _), fun x hx => d3 x (List.mem_of_mem_take hx)⟩
  have ho := outputs_noDecoder p h0' h1' ws
  have hlen : ∀ o ∈ ws.map (fun w => (flipAt w.1 w.2, true)), o.1.length = n := by
    intro o hx
    obtain ⟨w, hw, rfl⟩ := List.mem_map.1 hx
    simp only [flipAt_length, (hmem w hw).1]
  obtain ⟨r, hr, -⟩ := c83_step noDecoder noDecoder () () n n p ws
    (by rintro rfl
        have := congrArg List.length hws
        simp at this
        exact hne this) hn hmem _ _ ho ho hlen hlen
  rw [hr]
  exact ⟨_, rfl⟩

/-- A word of ten zeros, three flip probabilities, increasing or decreasing. -/
def firstPositions : Nat → Nat → List Nat := fun _ m => List.range m

theorem firstPositions_proper (n : Nat) : ProperDraws n firstPositions := fun _ m hm =>
  ⟨List.nodup_range, by simp [firstPositions], fun e he => by simp [firstPositions] at he; omega⟩

theorem toInvert_ex : toInvert 10 (1 / 10) = 1 ∧ toInvert 10 (3 / 10) = 3 := by
  constructor
  · simp only [toInvert]; norm_num
  · simp only [toInvert]; norm_num; rfl

/-- The hypotheses of C99 hold of a word of ten bits and increasing or decreasing probabilities. -/
example : ∃ g g' pt pt', globals 10 [List.replicate 10 false] (1 / 10) (3 / 10) 3 firstPositions = .ok g ∧
    globals 10 [List.replicate 10 false] (3 / 10) (1 / 10) 3 firstPositions = .ok g' ∧
    step noDecoder noDecoder () () g (1 / 10) = .ok pt ∧ step noDecoder noDecoder () () g' (3 / 10) = .ok pt' ∧
    pt.ldpc.ber = 1 / 10 ∧ pt.rawBer = 1 / 10 ∧ pt'.ldpc.ber = 1 / 10 ∧ pt'.rawBer = 3 / 10 := by
  obtain ⟨t1, t3⟩ := toInvert_ex
  have hg : globals 10 [List.replicate 10 false] (1 / 10) (3 / 10) 3 firstPositions =
      .ok ⟨10, [List.replicate 10 false], linspace (1 / 10) (3 / 10) 3, [List.range 3]⟩ := by
    unfold globals
    simp only [linspace_last (1 / 10) (3 / 10) 3 (by omega), errorCount_eq, t3]
    rfl
  have hg' : globals 10 [List.replicate 10 false] (3 / 10) (1 / 10) 3 firstPositions =
      .ok ⟨10, [List.replicate 10 false], linspace (3 / 10) (1 / 10) 3, [List.range 1]⟩ := by
    unfold globals
    simp only [linspace_last (3 / 10) (1 / 10) 3 (by omega), errorCount_eq, t1]
    rfl
  obtain ⟨pt, hpt⟩ := step_no_ok 10 (by omega) _ (by simp) _ _ _ _ (firstPositions_proper 10) _ hg (1 / 10) (by norm_num) (by norm_num)
  obtain ⟨pt', hpt'⟩ := step_no_ok 10 (by omega) _ (by simp) _ _ _ _ (firstPositions_proper 10) _ hg' (3 / 10) (by norm_num) (by norm_num)
  obtain ⟨a1, a2⟩ := c99_raw noDecoder () 10 (by omega) _ (by simp) _ _ (by norm_num) (by norm_num) (by norm_num) _ _
    (firstPositions_proper 10) _ hg (1 / 10) (List.mem_of_mem_head? (linspace_head _ _ _ (by omega))) pt hpt
  obtain ⟨-, b1, b2, -⟩ := c99_reversed_false noDecoder () 10 (by omega) _ (by simp) _ _ (by norm_num) (by norm_num) (by norm_num)
    (by rw [t1, t3]; omega) 3 (by omega) _ (firstPositions_proper 10) _ hg' pt' hpt'
  rw [t1] at a2 b2
  rw [t3] at b1
  refine ⟨_, _, pt, pt', hg, hg', hpt, hpt', ?_, ?_, ?_, ?_⟩
  · rw [a1, a2]; norm_num
  · rw [a2]; norm_num
  · rw [b2]; norm_num
  · rw [b1]; norm_num

/-- Tuples of decoders with six entries, as the later scripts name them. -/
example : successes 7 [Averaged.keep [.arr [1, 0], .arr [1, -1], .num 1, .num 3, .arr [0], .arr [1, 1]] 5 0] = .ok 1 ∧
    successes 5 [Averaged.keep [.arr [1, 0], .arr [1, -1], .num 1, .num 3, .arr [0], .arr [1, 1]] 5 0] = .error .typeError :=
  ⟨rfl, rfl⟩

end NR
