import Verif.Props.C145
/-
C145: the condition on the weights cannot be left out.
-/
namespace NR.C145
open NR Spec

/-! ### Rational distances of clusters of copies -/

/-- The buffer of which a cluster holds copies. -/
def bitsOf (c : Cluster) : List Bool := c.data.map fun r => r[1]? != some 0

def rowOf (n : Nat) (b : Bool) : List Int := if b then [0, (n : Int)] else [(n : Int), 0]

/-- The distance of two clusters of copies with linear weights. -/
def copiesDist (c d : Cluster) : Except PyErr ℚ :=
  if c.data = (bitsOf c).map (rowOf c.n) ∧ d.data = (bitsOf d).map (rowOf d.n) ∧ 0 < c.n ∧ 0 < d.n ∧ c.data.length = d.data.length then
    .ok (((c.n : ℚ) + d.n) / 2 * (((((bitsOf c).zip (bitsOf d)).countP fun p => p.1 != p.2 : Nat) : ℚ) / (c.data.length : ℚ)))
  else .error .valueError

theorem dist_copies {c : Cluster} (h : c.data = (bitsOf c).map (rowOf c.n)) (hn : 0 < c.n) :
    c.dist = (bitsOf c).map fun b => if b then [0, 1] else [1, 0] := by
  unfold Cluster.dist
  rw [h, List.map_map]
  apply List.map_congr_left
  intro b _
  have : (c.n : ℚ) ≠ 0 := by exact_mod_cast hn.ne'
  cases b <;> simp [rowOf, this]

theorem sum_count : ∀ l : List (Bool × Bool),
    (l.map fun p => if p.1 = p.2 then (0 : ℝ) else 1).sum = (l.countP fun p => p.1 != p.2 : Nat)
  | [] => by simp
  | (a, b) :: l => by
    rw [List.map_cons, List.sum_cons, sum_count l, List.countP_cons]
    cases a <;> cases b <;> simp [add_comm]

theorem copies_ok {c d : Cluster} {q : ℚ} (h : copiesDist c d = .ok q) : hellingerMerge .linear c d = .ok (q : ℝ) := by
  unfold copiesDist at h
  split at h
  · rename_i hp
    obtain ⟨h1, h2, h3, h4, h5⟩ := hp
    have hq := Except.ok.inj h
    unfold hellingerMerge
    rw [if_neg (by rw [h5]; simp), dist_copies h1 h3, dist_copies h2 h4, List.zip_map, List.mapM_map]
    have e : ∀ l : List (Bool × Bool), (l.mapM fun p : Bool × Bool => do
        let (x, y) ← bcast ((if p.1 then [(0 : ℚ), 1] else [1, 0]).map fun (x : ℚ) => (x : ℝ))
          ((if p.2 then [(0 : ℚ), 1] else [1, 0]).map fun (x : ℚ) => (x : ℝ))
        Except.ok (ε := PyErr) (hellingerVec x y)) = .ok (l.map fun p => if p.1 = p.2 then (0 : ℝ) else 1) := by
      intro l
      induction l with
      | nil => rfl
      | cons p l ih =>
        obtain ⟨a, b⟩ := p
        rw [List.mapM_cons, ih]
        cases a <;> cases b <;> simp [bcast, hellingerVec, bind, Except.bind, pure, Except.pure]
    have e' := e ((bitsOf c).zip (bitsOf d))
    simp only [bind, Except.bind] at e' ⊢
    erw [e']
    have hl : ((bitsOf c).zip (bitsOf d)).length = c.data.length := by simp [bitsOf, h5]
    simp only [meanR, List.length_map, hl, sum_count, Weight.of]
    rw [← hq]
    push_cast
    rfl
  · cases h

/-! ### The run with rational distances is the run with real ones -/

theorem pick_cast {α : Type} {score' : α → Except PyErr ℚ} {score : α → Except PyErr ℝ} {less : ℝ → ℝ → Bool}
    (hless : ∀ x y, less x y = true ↔ x < y) (h : ∀ x q, score' x = .ok q → score x = .ok (q : ℝ)) :
    ∀ xs best r, pickBest score' (fun a b => decide (a < b)) xs best = .ok r →
      pickBest score less xs (best.map fun p => ((p.1 : ℝ), p.2)) = .ok (r.map fun p => ((p.1 : ℝ), p.2))
  | [], best, r, hr => by
    rw [pickBest] at hr ⊢
    rw [Except.ok.inj hr]
  | x :: xs, best, r, hr => by
    rw [pickBest] at hr ⊢
    cases hs : score' x with
    | error e => rw [hs] at hr; cases hr
    | ok q =>
      rw [hs] at hr
      rw [h x q hs]
      cases best with
      | none => exact pick_cast hless h xs (some (q, x)) r hr
      | some p =>
        obtain ⟨m, y⟩ := p
        have e : less (q : ℝ) (m : ℝ) = decide (q < m) := by
          rw [Bool.eq_iff_iff, hless, decide_eq_true_iff]
          exact_mod_cast Iff.rfl
        show (if less (q : ℝ) (m : ℝ) then _ else _) = _
        change (if decide (q < m) then _ else _) = _ at hr
        rw [e]
        split at hr
        · rename_i hlt
          rw [if_pos hlt]
          exact pick_cast hless h xs (some (q, x)) r hr
        · rename_i hlt
          rw [if_neg hlt]
          exact pick_cast hless h xs (some (m, y)) r hr

variable {μ : Type} {score : List Bool → Cluster → Except PyErr μ} {better : μ → μ → Bool} {less : ℝ → ℝ → Bool}

/-- With rational distances. -/
abbrev quick (score : List Bool → Cluster → Except PyErr μ) (better : μ → μ → Bool) : Metrics μ ℚ :=
  ⟨score, better, copiesDist, fun a b => decide (a < b)⟩

theorem step_cast (hless : ∀ x y, less x y = true ↔ x < y) {pair cs r} (h : mergeStep (quick score better) pair cs = .ok r) :
    mergeStep ⟨score, better, MergeDist.of .hellinger .linear, less⟩ pair cs = .ok r := by
  unfold mergeStep at h ⊢
  cases hp : pickBest ((quick score better).pairDist cs) (quick score better).less (pairs cs.length) none with
  | error e => rw [hp] at h; cases h
  | ok best =>
    rw [hp] at h
    have := pick_cast (score := (⟨score, better, MergeDist.of .hellinger .linear, less⟩ : Metrics μ ℝ).pairDist cs) hless (by
      intro x q hq
      unfold Metrics.pairDist at hq ⊢
      split at hq
      · exact copies_ok hq
      · cases hq) _ _ _ hp
    rw [Option.map_none] at this
    rw [this]
    cases best <;> exact h

theorem loop_cast (hless : ∀ x y, less x y = true ↔ x < y) {k : Int} : ∀ {fuel pair cs r},
    mergeLoop (quick score better) k fuel pair cs = .ok r →
    mergeLoop ⟨score, better, MergeDist.of .hellinger .linear, less⟩ k fuel pair cs = .ok r
  | 0, _, _, _, h => h
  | fuel + 1, pair, cs, r, h => by
    rw [mergeLoop] at h ⊢
    split at h
    · rename_i hc
      rw [if_pos hc]
      cases hs : mergeStep (quick score better) pair cs with
      | error e => rw [hs] at h; cases h
      | ok r' =>
        rw [hs] at h
        rw [step_cast hless hs]
        exact loop_cast hless h
    · rename_i hc
      rw [if_neg hc]
      exact h

theorem classify_cast (hless : ∀ x y, less x y = true ↔ x < y) {st : Classifier} {b : List Bool} {r}
    (h : st.classify (quick score better) b = .ok r) :
    st.classify (⟨score, better, MergeDist.of .hellinger .linear, less⟩ : Metrics μ ℝ) b = .ok r := by
  unfold Classifier.classify at h ⊢
  simp only at h ⊢
  split at h
  · rename_i hc
    rw [if_pos hc]
    exact h
  · rename_i hc
    rw [if_neg hc]
    unfold Classifier.ready mergeClusters at h ⊢
    simp only at h ⊢
    split at h
    · rename_i hi
      rw [if_pos hi]
      exact h
    · rename_i hi
      rw [if_neg hi]
      cases hm : mergeLoop (quick score better) st.k (st.clusters.length + 1) none st.clusters with
      | error e => rw [hm] at h; cases h
      | ok cs =>
        rw [hm] at h
        rw [loop_cast hless hm]
        exact h

theorem all_cast (hless : ∀ x y, less x y = true ↔ x < y) : ∀ {bs : List (List Bool)} {st : Classifier} {r},
    classifyAll (quick score better) st bs = .ok r →
    classifyAll (⟨score, better, MergeDist.of .hellinger .linear, less⟩ : Metrics μ ℝ) st bs = .ok r
  | [], _, _, h => h
  | b :: bs, st, r, h => by
    rw [classifyAll] at h ⊢
    cases hc : st.classify (quick score better) b with
    | error e => rw [hc] at h; cases h
    | ok p =>
      rw [hc] at h
      rw [classify_cast hless hc]
      cases hr : classifyAll (quick score better) p.2 bs with
      | error e =>
        simp only [bind, Except.bind] at h
        rw [hr] at h; cases h
      | ok q =>
        simp only [bind, Except.bind] at h ⊢
        rw [hr] at h
        rw [all_cast hless hr]
        exact h

/-! ### The witness -/

/-- Three kinds; one bit of kind 0 varies. -/
def threeKinds : Nat → Template
  | 0 => [some true, some false, some false, some false, some false, none]
  | 1 => [some false, some true, some true, some true, some false, some false]
  | _ => [some false, some true, some true, some false, some true, some false]

def kindA (x : Bool) : List Bool := [true, false, false, false, false, x]
def kindB : List Bool := [false, true, true, true, false, false]
def kindC : List Bool := [false, true, true, false, true, false]

def heavyTrain : List (List Bool) :=
  [kindA false, kindA true, kindA false, kindA true, kindA false, kindA true, kindB, kindC]

theorem heavy_train : List.Forall₂ (fun b g => Mixed b ∧ Fits (threeKinds g) b) heavyTrain [0, 0, 0, 0, 0, 0, 1, 2] :=
  .cons (by decide) (.cons (by decide) (.cons (by decide) (.cons (by decide) (.cons (by decide) (.cons (by decide)
    (.cons (by decide) (.cons (by decide) .nil)))))))

/-- C145 without the condition on the weights is false: with linear weights two kinds that differ in two fixed bits are merged, and a
kind with a single varying bit is split, because its clusters are larger. -/
theorem c145_weights_false (less : ℝ → ℝ → Bool) (hless : ∀ x y, less x y = true ↔ x < y) :
    List.Forall₂ (fun b g => Mixed b ∧ Fits (threeKinds g) b) heavyTrain [0, 0, 0, 0, 0, 0, 1, 2] ∧
    (∀ g ∈ [0, 1, 2], varying (threeKinds g) ≤ 1) ∧
    (∀ g ∈ [0, 1, 2], ∀ h ∈ [0, 1, 2], g ≠ h → 2 ≤ clash (threeKinds g) (threeKinds h)) ∧
    ∃ st, classifyAll ⟨hammingScore, fun a b => decide (a < b), MergeDist.of .hellinger .linear, less⟩ { minData := 9, k := 3 }
      (heavyTrain ++ [kindA false, kindA true, kindB, kindC]) = .ok (List.replicate 8 (-1) ++ [0, 1, 2, 2], st) := by
  refine ⟨heavy_train, by decide +kernel, by decide +kernel, ?_⟩
  have h : (classifyAll (quick hammingScore fun a b => decide (a < b)) { minData := 9, k := 3 }
      (heavyTrain ++ [kindA false, kindA true, kindB, kindC])).map Prod.fst = .ok (List.replicate 8 (-1) ++ [0, 1, 2, 2]) := by
    decide +kernel
  cases hr : classifyAll (quick hammingScore fun a b => decide (a < b)) { minData := 9, k := 3 }
      (heavyTrain ++ [kindA false, kindA true, kindB, kindC]) with
  | error e => rw [hr] at h; cases h
  | ok r =>
    rw [hr] at h
    have := all_cast hless hr
    refine ⟨r.2, this.trans ?_⟩
    rw [← Except.ok.inj h]

end NR.C145
