import Verif.Spec.Pool
import Verif.Props.C102
/-
C103: the points of a simulation are handled by several processes.
-/
namespace NR
open Spec Studies Pool

variable {G P R σ : Type}

/-! ### Any step -/

theorem earlier_zero (worker : Nat → Nat) (points : List P) : earlier worker points 0 = [] := rfl

theorem earlier_succ (worker : Nat → Nat) (p : P) (points : List P) (i : Nat) :
    earlier worker (p :: points) (i + 1) =
      (if worker 0 = worker (i + 1) then [p] else []) ++ earlier (fun j => worker (j + 1)) points i := by
  unfold earlier
  rw [List.range_succ_eq_map, List.filterMap_cons]
  by_cases h : worker 0 = worker (i + 1)
  · simp only [h, if_true, List.getElem?_cons_zero, List.filterMap_map]
    rfl
  · simp only [h, if_false, List.filterMap_map]
    rfl

theorem mapLoop_get (step : G → P → G × R) (worker : Nat → Nat) (g : Nat → G) (k : Nat) (points : List P) (i : Nat) :
    (mapLoop step worker g k points)[i]? = points[i]?.map fun p =>
      (step (globalsAfter step (g (worker (k + i))) (earlier (fun j => worker (k + j)) points i)) p).2 := by
  induction points generalizing g k i with
  | nil => simp [mapLoop]
  | cons p points ih =>
    cases i with
    | zero => simp [mapLoop, earlier_zero, globalsAfter]
    | succ i =>
      have h1 := ih (Function.update g (worker k) (step (g (worker k)) p).1) (k + 1) i
      simp only [mapLoop, List.getElem?_cons_succ]
      rw [h1]
      congr 1
      funext q
      congr 2
      rw [earlier_succ, show k + (i + 1) = k + 1 + i from by omega]
      have hw : (fun j => worker (k + 1 + j)) = fun j => worker (k + (j + 1)) := by
        funext j; congr 1; omega
      rw [hw]
      by_cases hc : worker k = worker (k + 1 + i)
      · rw [← hc, Function.update_self, if_pos (by simp [hc])]
        rfl
      · rw [Function.update_of_ne (Ne.symm hc), if_neg (by simpa using hc)]
        rfl

/-- C103: one result for every point, in the order of the points. The result of a point is that of the step in a process that has
handled the earlier points assigned to the same process, and no others. -/
theorem c103_history (step : G → P → G × R) (worker : Nat → Nat) (init : Nat → G) (points : List P) :
    (poolMap step worker init points).length = points.length ∧
    ∀ i p, points[i]? = some p → (poolMap step worker init points)[i]? =
      some (step (globalsAfter step (init (worker i)) (earlier worker points i)) p).2 := by
  have key := mapLoop_get step worker init 0 points
  constructor
  · apply le_antisymm
    · by_contra hc
      have := key points.length
      simp only [List.getElem?_eq_none (le_refl points.length), Option.map_none, List.getElem?_eq_none_iff] at this
      exact hc this
    · by_contra hc
      have := key (poolMap step worker init points).length
      rw [show mapLoop step worker init 0 points = poolMap step worker init points from rfl, List.getElem?_eq_none (le_refl _)] at this
      have := this.symm
      simp only [Option.map_eq_none_iff, List.getElem?_eq_none_iff] at this
      omega
  · intro i p hp
    have := key i
    rw [hp] at this
    simp only [Nat.zero_add, Option.map_some] at this
    exact this

/-- C103: if the result of a step does not depend on the globals that steps leave behind, the results do not depend on how many processes
there are and which process handles which point. -/
theorem c103_schedule (step : G → P → G × R) (I : G → Prop) (f : P → R) (points : List P)
    (hI : ∀ g p, p ∈ points → I g → I (step g p).1 ∧ (step g p).2 = f p) (worker : Nat → Nat) (init : Nat → G) (h0 : ∀ w, I (init w)) :
    poolMap step worker init points = points.map f := by
  obtain ⟨h1, h2⟩ := c103_history step worker init points
  have hg : ∀ l : List P, (∀ p ∈ l, p ∈ points) → ∀ g, I g → I (globalsAfter step g l) := by
    intro l
    induction l with
    | nil => exact fun _ g hg => hg
    | cons a l ih =>
      intro hl g hg
      exact ih (fun p hp => hl p (List.mem_cons_of_mem _ hp)) _ (hI g a (hl a (by simp)) hg).1
  apply List.ext_getElem?
  intro i
  by_cases hi : i < points.length
  · have hp : points[i]? = some points[i] := List.getElem?_eq_getElem hi
    rw [h2 i _ hp, List.getElem?_map, hp]
    have hm : ∀ p ∈ earlier worker points i, p ∈ points := by
      intro p hp
      simp only [earlier, List.mem_filterMap] at hp
      obtain ⟨j, _, hj⟩ := hp
      split at hj
      · exact List.mem_of_getElem? hj
      · cases hj
    simp only [Option.map_some]
    rw [(hI _ _ (List.getElem_mem hi) (hg _ hm _ (h0 _))).2]
  · rw [List.getElem?_eq_none (by omega), List.getElem?_eq_none (by simp; omega)]

/-! ### The iteration limit -/

theorem globalsAfter_bf (normal : Nat → ℝ) (make : Nat → ℝ → List (Contender σ)) (N k : Nat) (tx : List (List Bool)) (g : Globals)
    (l : List ℝ) : globalsAfter (bfStep normal make N k tx) g l =
      ⟨l.foldl (fun a s => max (need N s) a) g.iterations, g.drawn + l.length * (tx.length * N)⟩ := by
  induction l generalizing g with
  | nil => simp [globalsAfter]
  | cons s l ih =>
    have := ih (bfStep normal make N k tx g s).1
    simp only [globalsAfter, List.foldl_cons] at this ⊢
    rw [this]
    simp only [bfStep, Globals.mk.injEq, List.length_cons, true_and]
    ring

theorem foldl_max_greatest (N : Nat) (l : List ℝ) (a : Nat) :
    IsGreatest (insert a {x | ∃ s ∈ l, x = need N s}) (l.foldl (fun a s => max (need N s) a) a) := by
  induction l generalizing a with
  | nil => simp
  | cons s l ih =>
    obtain ⟨h1, h2⟩ := ih (max (need N s) a)
    rw [List.foldl_cons]
    constructor
    · rcases h1 with h1 | ⟨s', hs', h1⟩
      · rw [h1]
        rcases max_choice (need N s) a with h | h <;> rw [h]
        · exact Or.inr ⟨s, by simp, rfl⟩
        · exact Or.inl rfl
      · exact Or.inr ⟨s', by simp [hs'], h1⟩
    · have hb := h2 (Or.inl rfl)
      rintro x (rfl | ⟨s', hs', rfl⟩)
      · exact le_trans (le_max_right _ _) hb
      · rcases List.mem_cons.1 hs' with rfl | hs'
        · exact le_trans (le_max_left _ _) hb
        · exact h2 (Or.inr ⟨s', hs', rfl⟩)

/-- C103: the limit on the iterations with which a point is simulated, and which is reported for it, is the largest of the limit that was
configured, of three times the expected number of errors in a word at this point, and of the same for all earlier points of the same
process. -/
theorem c103_limit (normal : Nat → ℝ) (make : Nat → ℝ → List (Contender σ)) (N k : Nat) (tx : List (List Bool)) (worker : Nat → Nat)
    (init : Nat → Globals) (points : List ℝ) (i : Nat) (snr : ℝ) (hi : points[i]? = some snr) :
    ∃ o start, (poolMap (bfStep normal make N k tx) worker init points)[i]? = some o ∧
      o.report = awgnStudy (make o.iterations (Awgn.bitFlip 1 snr)) N k snr (noiseRows normal N start tx) ∧
      IsGreatest (insert (init (worker i)).iterations {x | ∃ s ∈ snr :: earlier worker points i, x = ⌊3 * Awgn.bitFlip 1 s * N⌋₊})
        o.iterations := by
  have h := (c103_history (bfStep normal make N k tx) worker init points).2 i snr hi
  rw [globalsAfter_bf] at h
  refine ⟨_, _, h, rfl, ?_⟩
  simp only [bfStep]
  have hg := foldl_max_greatest N (earlier worker points i ++ [snr]) (init (worker i)).iterations
  rw [List.foldl_append] at hg
  simp only [List.foldl_cons, List.foldl_nil] at hg
  convert hg using 2
  ext x
  simp only [Set.mem_ofPred_eq, List.mem_cons, List.mem_append, List.not_mem_nil, or_false, need]
  exact ⟨fun ⟨s, hs, hx⟩ => ⟨s, hs.symm, hx⟩, fun ⟨s, hs, hx⟩ => ⟨s, hs.symm, hx⟩⟩

/-- C103: a limit that is large enough for every point is used at every point, whatever the processes do. -/
theorem c103_limit_enough (normal : Nat → ℝ) (make : Nat → ℝ → List (Contender σ)) (N k : Nat) (tx : List (List Bool)) (worker : Nat → Nat)
    (init : Nat → Globals) (points : List ℝ) (limit : Nat) (h0 : ∀ w, (init w).iterations = limit)
    (h : ∀ s ∈ points, 3 * Awgn.bitFlip 1 s * N < limit + 1) :
    ∀ o ∈ poolMap (bfStep normal make N k tx) worker init points, o.iterations = limit := by
  intro o ho
  obtain ⟨i, hi⟩ := List.mem_iff_getElem?.1 ho
  have hlen := (c103_history (bfStep normal make N k tx) worker init points).1
  have hil : i < points.length := by
    rw [← hlen]
    exact (List.getElem?_eq_some_iff.1 hi).1
  obtain ⟨o', start, h1, h2, h3⟩ := c103_limit normal make N k tx worker init points i points[i] (List.getElem?_eq_getElem hil)
  rw [hi] at h1
  cases h1
  apply le_antisymm
  · rcases h3.1 with h4 | ⟨s, hs, h4⟩
    · rw [h4, h0]
    · have hm : s ∈ points := by
        rcases List.mem_cons.1 hs with rfl | hs
        · exact List.getElem_mem hil
        · simp only [earlier, List.mem_filterMap] at hs
          obtain ⟨j, _, hj⟩ := hs
          split at hj
          · exact List.mem_of_getElem? hj
          · cases hj
      rw [h4]
      have := h s hm
      by_contra hc
      have h5 : limit + 1 ≤ ⌊3 * Awgn.bitFlip 1 s * N⌋₊ := by omega
      rw [Nat.le_floor_iff' (by omega)] at h5
      push_cast at h5
      linarith
  · have := h3.2 (Or.inl (h0 (worker i)).symm)
    exact this

theorem need_anti (N : Nat) (s t : ℝ) (h : s ≤ t) : need N t ≤ need N s := by
  unfold need Awgn.bitFlip
  apply Nat.floor_mono
  have h1 : √(1 * s) ≤ √(1 * t) := Real.sqrt_le_sqrt (by linarith)
  have h2 := erfc_anti.antitone h1
  have : (0 : ℝ) ≤ N := by positivity
  nlinarith

/-- C103: if the points are sorted by growing signal to noise ratio, as the script produces them, every point is simulated with the limit
of the first point of its process. -/
theorem c103_limit_first (normal : Nat → ℝ) (make : Nat → ℝ → List (Contender σ)) (N k : Nat) (tx : List (List Bool))
    (worker : Nat → Nat) (init : Nat → Globals) (points : List ℝ) (hs : points.Pairwise (· ≤ ·)) (i : Nat) (hi : i < points.length) :
    ∃ (o : Outcome) (f : Nat) (s : ℝ), (poolMap (bfStep normal make N k tx) worker init points)[i]? = some o ∧
      f ≤ i ∧ worker f = worker i ∧ (∀ j < f, worker j ≠ worker i) ∧ points[f]? = some s ∧
      o.iterations = max (init (worker i)).iterations ⌊3 * Awgn.bitFlip 1 s * N⌋₊ := by
  have hex : ∃ f, worker f = worker i := ⟨i, rfl⟩
  have hf := Nat.find_spec hex
  have hle : Nat.find hex ≤ i := Nat.find_min' hex rfl
  have hmin : ∀ j < Nat.find hex, worker j ≠ worker i := fun j hj => Nat.find_min hex hj
  generalize Nat.find hex = f at hf hle hmin
  have hfl : f < points.length := by omega
  obtain ⟨o, start, h1, h2, h3⟩ := c103_limit normal make N k tx worker init points i points[i] (List.getElem?_eq_getElem hi)
  refine ⟨o, f, points[f], h1, hle, hf, hmin, List.getElem?_eq_getElem hfl, ?_⟩
  have hle' : ∀ j (hj : j < points.length), f ≤ j → points[f] ≤ points[j] := by
    intro j hj hfj
    rcases Nat.lt_or_eq_of_le hfj with h | rfl
    · exact List.pairwise_iff_getElem.1 hs f j hfl hj h
    · exact le_refl _
  apply le_antisymm
  · rcases h3.1 with h4 | ⟨s, hs', h4⟩
    · rw [h4]; exact le_max_left _ _
    · apply le_max_of_le_right
      rw [h4]
      apply need_anti
      rcases List.mem_cons.1 hs' with rfl | hs'
      · exact hle' i hi hle
      · simp only [earlier, List.mem_filterMap, List.mem_range] at hs'
        obtain ⟨j, hj, hj'⟩ := hs'
        by_cases hw : worker j = worker i
        · rw [if_pos hw] at hj'
          obtain ⟨hjl, rfl⟩ := List.getElem?_eq_some_iff.1 hj'
          refine hle' j hjl ?_
          by_contra hc
          exact hmin j (by omega) hw
        · rw [if_neg hw] at hj'
          cases hj'
  · apply max_le
    · exact h3.2 (Or.inl rfl)
    · apply h3.2
      refine Or.inr ⟨points[f], ?_, rfl⟩
      rcases Nat.lt_or_eq_of_le hle with h | rfl
      · apply List.mem_cons_of_mem
        simp only [earlier, List.mem_filterMap, List.mem_range]
        exact ⟨f, h, by rw [if_pos hf, List.getElem?_eq_getElem hfl]⟩
      · simp

/-- C103: so the limits depend on which process handles which point. -/
theorem c103_limit_false : ¬ ∀ (N : Nat) (points : List ℝ) (g : Globals) (worker worker' : Nat → Nat),
    (poolMap (bfStep (fun _ => 0) (fun _ _ => ([] : List (Contender Nat))) N 0 []) worker (fun _ => g) points).map (·.iterations) =
    (poolMap (bfStep (fun _ => 0) (fun _ _ => ([] : List (Contender Nat))) N 0 []) worker' (fun _ => g) points).map (·.iterations) := by
  intro h
  have hp : Awgn.bitFlip 1 2 < Awgn.bitFlip 1 1 := (c88_delta 1 (by norm_num) 1 (by norm_num)).2.2.2 2 (by norm_num)
  have hp2 : 0 < Awgn.bitFlip 1 2 := (c88_delta 2 (by norm_num) 1 (by norm_num)).1
  obtain ⟨N, hN⟩ := exists_nat_gt (1 / (3 * (Awgn.bitFlip 1 1 - Awgn.bitFlip 1 2)))
  rw [div_lt_iff₀ (by linarith)] at hN
  have hneed : need N 2 < need N 1 := by
    unfold need
    rw [Nat.lt_iff_add_one_le, Nat.le_floor_iff' (by omega)]
    have := Nat.floor_le (a := 3 * Awgn.bitFlip 1 2 * N) (by positivity)
    push_cast
    nlinarith
  have := h N [1, 2] ⟨0, 0⟩ (fun _ => 0) id
  simp only [poolMap, mapLoop, bfStep, List.map_cons, List.map_nil, Function.update_self, List.cons.injEq, and_true, true_and, id_eq,
    Nat.zero_add, Function.update_of_ne (show (1 : Nat) ≠ 0 from by omega), max_eq_right hneed.le, Nat.zero_le, max_eq_left] at this
  omega

/-! ### The random numbers -/

/-- C103: the noise of a point consists of the numbers of the generator that follow those drawn for the earlier points of the same
process. -/
theorem c103_noise (normal : Nat → ℝ) (make : Nat → ℝ → List (Contender σ)) (N k : Nat) (tx : List (List Bool)) (worker : Nat → Nat)
    (init : Nat → Globals) (points : List ℝ) (i : Nat) (snr : ℝ) (hi : points[i]? = some snr) :
    ∃ o, (poolMap (bfStep normal make N k tx) worker init points)[i]? = some o ∧
      o.report = awgnStudy (make o.iterations (Awgn.bitFlip 1 snr)) N k snr
        (tx.mapIdx fun t w => (w, (List.range N).map fun b =>
          normal ((init (worker i)).drawn + (earlier worker points i).length * (tx.length * N) + t * N + b))) := by
  have h := (c103_history (bfStep normal make N k tx) worker init points).2 i snr hi
  rw [globalsAfter_bf] at h
  exact ⟨_, h, rfl⟩

theorem sigma_anti (s t : ℝ) (hs : 0 < s) (h : s ≤ t) : Awgn.sigma t ≤ Awgn.sigma s := by
  unfold Awgn.sigma
  apply Real.sqrt_le_sqrt
  have := one_div_le_one_div_of_le hs h
  linarith

/-- A bit that is wrong with little noise is wrong with the same noise amplified. -/
theorem wrong_mono (σ τ : ℝ) (hσ : 0 < σ) (h : σ ≤ τ) (b : Bool) (z : ℝ) (hw : likelyBit σ (receive σ b z) ≠ b) :
    likelyBit τ (receive τ b z) ≠ b := by
  have hτ : 0 < τ := lt_of_lt_of_le hσ h
  have e1 := likelyBit_eq σ hσ (receive σ b z)
  have e2 := likelyBit_eq τ hτ (receive τ b z)
  cases b
  · simp only [ne_eq, Bool.not_eq_false] at hw ⊢
    rw [e1] at hw
    rw [e2]
    simp only [receive, symbol, Bool.false_eq_true, if_false] at hw ⊢
    have hz : z < 0 := by
      by_contra hc
      have : 0 ≤ σ * z := mul_nonneg hσ.le (not_lt.1 hc)
      linarith
    nlinarith
  · simp only [ne_eq, Bool.not_eq_true] at hw ⊢
    rw [Bool.eq_false_iff, ne_eq, e1] at hw
    rw [Bool.eq_false_iff, ne_eq, e2]
    simp only [receive, symbol, if_true, not_lt] at hw ⊢
    have hz : 0 < z := by
      by_contra hc
      have : σ * z ≤ 0 := mul_nonpos_of_nonneg_of_nonpos hσ.le (not_lt.1 hc)
      linarith
    nlinarith

theorem errorRow_mono (σ τ : ℝ) (hσ : 0 < σ) (h : σ ≤ τ) (w : List Bool × List ℝ) :
    List.Forall₂ (fun a b : Bool => a = true → b = true) (Awgn.errorRow σ w) (Awgn.errorRow τ w) := by
  rw [errorRow_eq σ hσ, errorRow_eq τ (lt_of_lt_of_le hσ h)]
  rw [List.forall₂_map_left_iff, List.forall₂_map_right_iff]
  apply List.forall₂_same.2
  rintro ⟨b, z⟩ _ hx
  simp only [bne_iff_ne] at hx ⊢
  exact wrong_mono σ τ hσ h b z hx

theorem count_mono {l m : List Bool} (h : List.Forall₂ (fun a b : Bool => a = true → b = true) l m) : l.count true ≤ m.count true := by
  induction h with
  | nil => simp
  | cons h _ ih =>
    rename_i a b _ _ _
    cases a <;> cases b <;> simp_all
    omega

/-- C103: with processes that start as copies of one process, two points that come equally late in their processes get the very same
noise, up to its amplitude. So at the better of the two points no word has more errors, neither in the information bits nor in the parity
bits, and the raw error rate is not larger: the points are not independent. -/
theorem c103_same_noise (normal : Nat → ℝ) (make : Nat → ℝ → List (Contender σ)) (N k : Nat) (tx : List (List Bool)) (worker : Nat → Nat)
    (g : Globals) (points : List ℝ) (i j : Nat) (s t : ℝ) (hi : points[i]? = some s) (hj : points[j]? = some t) (hs : 0 < s) (hst : s ≤ t)
    (hrank : (earlier worker points i).length = (earlier worker points j).length) (o o' : Outcome) (r r' : Report)
    (ho : (poolMap (bfStep normal make N k tx) worker (fun _ => g) points)[i]? = some o) (hr : o.report = .ok r)
    (ho' : (poolMap (bfStep normal make N k tx) worker (fun _ => g) points)[j]? = some o') (hr' : o'.report = .ok r') :
    List.Forall₂ (· ≤ ·) r'.info r.info ∧ List.Forall₂ (· ≤ ·) r'.parity r.parity ∧ r'.rawBer ≤ r.rawBer := by
  obtain ⟨o1, h1, e1⟩ := c103_noise normal make N k tx worker (fun _ => g) points i s hi
  obtain ⟨o2, h2, e2⟩ := c103_noise normal make N k tx worker (fun _ => g) points j t hj
  rw [ho] at h1
  rw [ho'] at h2
  cases h1
  cases h2
  rw [← hrank, hr'] at e2
  rw [hr] at e1
  obtain ⟨w, ws, rows, hw, _, rfl⟩ := (awgnStudy_iff ..).1 e1.symm
  obtain ⟨w', ws', rows', hw', _, rfl⟩ := (awgnStudy_iff ..).1 e2.symm
  generalize (tx.mapIdx fun t w => (w, (List.range N).map fun b =>
          normal (g.drawn + (earlier worker points i).length * (tx.length * N) + t * N + b))) = words at *
  have hσ := sigma_pos t (lt_of_lt_of_le hs hst)
  have hle := sigma_anti s t hs hst
  have hrows : ∀ w : List Bool × List ℝ, List.Forall₂ (fun a b : Bool => a = true → b = true)
      (Awgn.errorRow (Awgn.sigma t) w) (Awgn.errorRow (Awgn.sigma s) w) := fun w => errorRow_mono _ _ hσ hle w
  refine ⟨?_, ?_, ?_⟩
  · simp only [Awgn.infoSlice, List.map_map]
    rw [List.forall₂_map_left_iff, List.forall₂_map_right_iff]
    exact List.forall₂_same.2 fun w _ => count_mono (List.forall₂_take k (hrows w))
  · simp only [Awgn.paritySlice, List.map_map]
    rw [List.forall₂_map_left_iff, List.forall₂_map_right_iff]
    exact List.forall₂_same.2 fun w _ => count_mono (List.forall₂_drop k (hrows w))
  · simp only [Awgn.meanRawBer, List.map_map]
    apply div_le_div_of_nonneg_right _ (by positivity)
    apply div_le_div_of_nonneg_right _ (by positivity)
    norm_cast
    apply List.sum_le_sum
    intro w _
    exact count_mono (hrows w)

/-! ### Cases -/

/-- The hypotheses of `c103_schedule` are met by a step that counts its calls and returns the square of its point. -/
example (worker : Nat → Nat) : poolMap (fun (g p : Nat) => (g + 1, p ^ 2)) worker (fun _ => 7) [1, 2, 3] = [1, 4, 9] :=
  c103_schedule _ (7 ≤ ·) (· ^ 2) [1, 2, 3] (fun _ _ _ h => ⟨Nat.le_succ_of_le h, rfl⟩) worker _ fun _ => le_refl _

/-- Without that hypothesis the results depend on the processes. -/
example : poolMap (fun (g p : Nat) => (g + 1, p ^ g)) (fun _ => 0) (fun _ => 1) [2, 3, 4] = [2, 9, 64] ∧
    poolMap (fun (g p : Nat) => (g + 1, p ^ g)) id (fun _ => 1) [2, 3, 4] = [2, 3, 4] ∧
    poolMap (fun (g p : Nat) => (g + 1, p ^ g)) (· % 2) (fun _ => 1) [2, 3, 4] = [2, 3, 16] := by decide

/-- The hypotheses of `c103_limit_enough` are met: words of ten bits never need more than fifteen iterations. -/
example (normal : Nat → ℝ) (tx : List (List Bool)) (worker : Nat → Nat) :
    ∀ o ∈ poolMap (bfStep normal (fun _ _ => ([] : List (Contender Nat))) 10 5 tx) worker (fun _ => ⟨15, 0⟩) [1, 2, 4],
      o.iterations = 15 := by
  apply c103_limit_enough _ _ _ _ _ _ _ _ _ fun _ => rfl
  intro s hs
  have : 0 < s := by
    simp only [List.mem_cons, List.not_mem_nil, or_false] at hs
    rcases hs with rfl | rfl | rfl <;> norm_num
  have := (c88_delta s this 1 one_pos).2.1
  push_cast
  linarith

/-- The hypotheses of `c103_same_noise` are met: two points, each in its own process, one word. -/
example (normal : Nat → ℝ) : ∃ (o o' : Outcome) (r r' : Report),
    (poolMap (bfStep normal (fun _ _ => [exAnswers .samples [[true, false, true]]]) 3 2 [[true, false, true]]) id (fun _ => ⟨300, 0⟩)
      [1, 2])[0]? = some o ∧ o.report = .ok r ∧
    (poolMap (bfStep normal (fun _ _ => [exAnswers .samples [[true, false, true]]]) 3 2 [[true, false, true]]) id (fun _ => ⟨300, 0⟩)
      [1, 2])[1]? = some o' ∧ o'.report = .ok r' ∧ r'.rawBer ≤ r.rawBer := by
  have ok : ∀ (snr : ℝ), 0 < snr → ∀ z : List ℝ, z.length = 3 →
      ∃ r, awgnStudy [exAnswers .samples [[true, false, true]]] 3 2 snr [([true, false, true], z)] = .ok r := by
    intro snr hs z hz
    obtain ⟨r, hr, _⟩ := c102_awgn [exAnswers .samples [[true, false, true]]] 3 2 (by norm_num) snr hs [([true, false, true], z)]
      (by simp) (by simpa using hz) (fun _ => [[true, false, true]]) (by
        intro j c hc
        match j with
        | 0 =>
          cases hc
          exact ⟨⟨[true], rfl, rfl⟩, by simp⟩
        | j + 1 => simp at hc)
    exact ⟨r, hr⟩
  have g1 := c103_noise normal (fun _ _ => [exAnswers .samples [[true, false, true]]]) 3 2 [[true, false, true]] id (fun _ => ⟨300, 0⟩)
    [1, 2] 0 1 rfl
  have g2 := c103_noise normal (fun _ _ => [exAnswers .samples [[true, false, true]]]) 3 2 [[true, false, true]] id (fun _ => ⟨300, 0⟩)
    [1, 2] 1 2 rfl
  obtain ⟨o, h1, e1⟩ := g1
  obtain ⟨o', h2, e2⟩ := g2
  obtain ⟨r, hr⟩ := ok 1 (by norm_num) ((List.range 3).map fun b => normal (0 + 0 * (1 * 3) + 0 * 3 + b)) (by simp)
  obtain ⟨r', hr'⟩ := ok 2 (by norm_num) ((List.range 3).map fun b => normal (0 + 0 * (1 * 3) + 0 * 3 + b)) (by simp)
  have e1' : o.report = .ok r := e1.trans hr
  have e2' : o'.report = .ok r' := e2.trans hr'
  exact ⟨o, o', r, r', h1, e1', h2, e2', (c103_same_noise normal _ 3 2 _ id _ [1, 2] 0 1 1 2 rfl rfl (by norm_num) (by norm_num) rfl
    o o' r r' h1 e1' h2 e2').2.2⟩

end NR
