import Verif.Model.InfoTheory
import Verif.Spec.Prob
import Mathlib.Analysis.SpecialFunctions.Log.Base
import Mathlib.Tactic.Linarith
import Mathlib.Tactic.Positivity
import Mathlib.Tactic.FieldSimp
import Mathlib.Tactic.Ring
import Mathlib.Algebra.Order.BigOperators.Group.List
import Mathlib.Data.List.Count
/-
C47: prob. C48: entropy. C49: Hellinger distance. C50: typical set bounds.
-/
namespace NR
open Spec

/-! ### C47 -/

theorem insertU_spec (x : Int) (l : List Int) (h : l.Pairwise (· < ·)) :
    (insertU x l).Pairwise (· < ·) ∧ ∀ y, y ∈ insertU x l ↔ y = x ∨ y ∈ l := by
  induction l with
  | nil => simp [insertU]
  | cons a l ih =>
    rw [List.pairwise_cons] at h
    obtain ⟨i1, i2⟩ := ih h.2
    unfold insertU
    split
    · rename_i hlt
      refine ⟨?_, by simp⟩
      rw [List.pairwise_cons, List.pairwise_cons]
      refine ⟨?_, h⟩
      intro y hy
      rcases List.mem_cons.1 hy with rfl | hy
      · exact hlt
      · exact lt_trans hlt (h.1 y hy)
    · split
      · rename_i he
        subst he
        rw [List.pairwise_cons]
        exact ⟨h, by simp⟩
      · rename_i h1 h2
        refine ⟨?_, ?_⟩
        · rw [List.pairwise_cons]
          refine ⟨?_, i1⟩
          intro y hy
          rcases (i2 y).1 hy with rfl | hy
          · omega
          · exact h.1 y hy
        · intro y
          simp only [List.mem_cons, i2]
          tauto

theorem npUnique_spec (l : List Int) : (npUnique l).Pairwise (· < ·) ∧ ∀ y, y ∈ npUnique l ↔ y ∈ l := by
  induction l with
  | nil => simp [npUnique]
  | cons x l ih =>
    obtain ⟨h1, h2⟩ := insertU_spec x (npUnique l) ih.1
    refine ⟨h1, ?_⟩
    intro y
    rw [show npUnique (x :: l) = insertU x (npUnique l) from rfl, h2, ih.2, List.mem_cons]

theorem npUnique_nodup (l : List Int) : (npUnique l).Nodup :=
  (npUnique_spec l).1.imp fun h => ne_of_lt h

theorem countRow_ok {alphabet row : List Int} (hn : alphabet.Nodup) (hsub : ∀ v ∈ row, v ∈ alphabet) :
    countRow alphabet row (List.replicate alphabet.length 0) = .ok (alphabet.map fun v => (row.count v : ℚ)) := by
  have key : ∀ (us : List Int) (done : List Int), (∀ v ∈ us, v ∈ alphabet) →
      us.foldlM (fun pr v =>
        if v ∈ alphabet then (Except.ok (pr.set (alphabet.idxOf v) (row.count v : ℚ)) : Except PyErr (List ℚ)) else .error .valueError)
        (alphabet.map fun v => if v ∈ done then (row.count v : ℚ) else 0) =
      .ok (alphabet.map fun v => if v ∈ done ∨ v ∈ us then (row.count v : ℚ) else 0) := by
    intro us
    induction us with
    | nil => intro done _; simp [pure, Except.pure]
    | cons u us ih =>
      intro done hus
      have hu := hus u List.mem_cons_self
      rw [List.foldlM_cons, if_pos hu]
      simp only [bind, Except.bind]
      have hset : (alphabet.map fun v => if v ∈ done then (row.count v : ℚ) else 0).set (alphabet.idxOf u) (row.count u : ℚ) =
          alphabet.map fun v => if v ∈ u :: done then (row.count v : ℚ) else 0 := by
        apply List.ext_getElem
        · simp
        · intro i h1 h2
          simp at h1 h2
          rw [List.getElem_set]
          by_cases hi : alphabet.idxOf u = i
          · subst hi
            simp
          · rw [if_neg hi]
            have hi2 : i < alphabet.length := by simpa using h2
            have : alphabet[i] ≠ u := by
              rintro rfl
              exact hi (hn.idxOf_getElem i hi2)
            simp [this]
      rw [hset, ih (u :: done) fun v hv => hus v (List.mem_cons_of_mem _ hv)]
      congr 1
      apply List.map_congr_left
      intro v _
      simp only [List.mem_cons]
      congr 1
      apply propext
      tauto
  have := key (npUnique row) [] fun v hv => hsub v ((npUnique_spec row).2 v |>.1 hv)
  have hrep : (List.replicate alphabet.length (0 : ℚ)) = alphabet.map fun v => if v ∈ ([] : List Int) then (row.count v : ℚ) else 0 := by
    simp
  unfold countRow
  rw [hrep, this]
  congr 1
  apply List.map_congr_left
  intro v _
  simp only [List.not_mem_nil, false_or, (npUnique_spec row).2]
  split
  · rfl
  · rename_i h
    rw [List.count_eq_zero_of_not_mem h]
    simp

theorem sum_count_eq_length {alphabet row : List Int} (hn : alphabet.Nodup) (hsub : ∀ v ∈ row, v ∈ alphabet) :
    (alphabet.map fun v => row.count v).sum = row.length := by
  induction row with
  | nil => simp
  | cons x row ih =>
    have hx := hsub x List.mem_cons_self
    have h1 : (alphabet.map fun v => (x :: row).count v) = alphabet.map fun v => row.count v + if v = x then 1 else 0 := by
      apply List.map_congr_left
      intro v _
      rw [List.count_cons]
      by_cases h : x = v
      · simp [h]
      · simp [h, Ne.symm h]
    have h2 : (alphabet.map fun v => if v = x then 1 else 0).sum = alphabet.count x := by
      clear ih hsub hx hn h1
      induction alphabet with
      | nil => rfl
      | cons a l ih =>
        rw [List.map_cons, List.sum_cons, ih, List.count_cons]
        simp only [beq_iff_eq]
        omega
    rw [h1, List.sum_map_add, ih fun v hv => hsub v (List.mem_cons_of_mem _ hv), h2, List.count_eq_one_of_mem hn hx]
    rfl

theorem freq_row {alphabet row : List Int} (hn : alphabet.Nodup) (hsub : ∀ v ∈ row, v ∈ alphabet) (hne : row ≠ []) :
    (alphabet.map fun v => freq v row).sum = 1 ∧ ∀ v, 0 ≤ freq v row ∧ freq v row ≤ 1 := by
  have hl : (0 : ℚ) < row.length := by
    have : 0 < row.length := List.length_pos_iff.2 hne
    exact_mod_cast this
  constructor
  · have : (alphabet.map fun v => freq v row) = (alphabet.map fun v => ((row.count v : ℕ) : ℚ)).map (· / (row.length : ℚ)) := by
      rw [List.map_map]; rfl
    rw [this]
    have hdiv : ∀ (l : List ℚ) (c : ℚ), (l.map (· / c)).sum = l.sum / c := by
      intro l c
      induction l with
      | nil => simp
      | cons a l ih => simp [ih, add_div]
    rw [hdiv]
    have hc : (alphabet.map fun v => ((row.count v : ℕ) : ℚ)).sum = ((alphabet.map fun v => row.count v).sum : ℕ) := by
      rw [Nat.cast_list_sum, List.map_map]; rfl
    rw [hc, sum_count_eq_length hn hsub]
    exact div_self hl.ne'
  · intro v
    unfold freq
    refine ⟨by positivity, ?_⟩
    rw [div_le_one hl]
    exact_mod_cast List.count_le_length

/-- C47, 2-D data: the alphabet is the strictly increasing list of the values occurring anywhere; the matrix has a row
per data row, whose entries are the relative frequencies of the letters in that row. -/
theorem c47_prob2 (n : Nat) (hn : 0 < n) (rows : List (List Int)) (hrows : ∀ r ∈ rows, r.length = n) :
    ∃ alphabet pr, probWithAlphabet (.d2 n rows) = .ok (pr, alphabet) ∧ prob (.d2 n rows) = .ok pr ∧
      alphabet.Pairwise (· < ·) ∧ (∀ v, v ∈ alphabet ↔ ∃ r ∈ rows, v ∈ r) ∧
      pr = rows.map (fun r => alphabet.map fun v => freq v r) ∧
      ∀ p ∈ pr, p.sum = 1 ∧ ∀ x ∈ p, 0 ≤ x ∧ x ≤ 1 := by
  obtain ⟨h1, h2⟩ := npUnique_spec rows.flatten
  have hmem : ∀ r ∈ rows, ∀ v ∈ r, v ∈ npUnique rows.flatten := fun r hr v hv =>
    (h2 v).2 (List.mem_flatten.2 ⟨r, hr, hv⟩)
  have hmap : rows.mapM (fun row => countRow (npUnique rows.flatten) row (List.replicate (npUnique rows.flatten).length 0)) =
      .ok (rows.map fun r => (npUnique rows.flatten).map fun v => (r.count v : ℚ)) := by
    have : ∀ rs : List (List Int), (∀ r ∈ rs, r ∈ rows) →
        rs.mapM (fun row => countRow (npUnique rows.flatten) row (List.replicate (npUnique rows.flatten).length 0)) =
        .ok (rs.map fun r => (npUnique rows.flatten).map fun v => (r.count v : ℚ)) := by
      intro rs hrs
      induction rs with
      | nil => rfl
      | cons r rs ih =>
        rw [List.mapM_cons, countRow_ok (npUnique_nodup _) (hmem r (hrs r List.mem_cons_self)),
          ih fun r hr => hrs r (List.mem_cons_of_mem _ hr)]
        rfl
    exact this rows fun _ h => h
  have hpr : (rows.map fun r => (npUnique rows.flatten).map fun v => (r.count v : ℚ)).map (fun r => r.map (· / (n : ℚ))) =
      rows.map fun r => (npUnique rows.flatten).map fun v => freq v r := by
    rw [List.map_map]
    apply List.map_congr_left
    intro r hr
    simp only [Function.comp, List.map_map]
    apply List.map_congr_left
    intro v _
    simp only [Function.comp, freq, hrows r hr]
  have hpa : probWithAlphabet (.d2 n rows) = .ok (rows.map (fun r => (npUnique rows.flatten).map fun v => freq v r), npUnique rows.flatten) := by
    simp only [probWithAlphabet, hmap, bind, Except.bind, hpr]
  refine ⟨_, _, hpa, by simp only [prob, hpa, bind, Except.bind], h1, ?_, rfl, ?_⟩
  · intro v; rw [h2, List.mem_flatten]
  · intro p hp
    obtain ⟨r, hr, rfl⟩ := List.mem_map.1 hp
    have hne : r ≠ [] := by
      intro h0
      have := hrows r hr
      rw [h0] at this
      simp at this
      omega
    obtain ⟨f1, f2⟩ := freq_row (npUnique_nodup rows.flatten) (hmem r hr) hne
    refine ⟨f1, ?_⟩
    intro x hx
    obtain ⟨v, _, rfl⟩ := List.mem_map.1 hx
    exact f2 v

/-- C47, 1-D data. -/
theorem c47_prob1 (l : List Int) (hne : l ≠ []) :
    ∃ alphabet p, probWithAlphabet (.d1 l) = .ok ([p], alphabet) ∧ prob (.d1 l) = .ok [p] ∧ alphabet.Pairwise (· < ·) ∧
      (∀ v, v ∈ alphabet ↔ v ∈ l) ∧ p = alphabet.map (fun v => freq v l) ∧ p.sum = 1 ∧ ∀ x ∈ p, 0 ≤ x ∧ x ≤ 1 := by
  obtain ⟨h1, h2⟩ := npUnique_spec l
  obtain ⟨f1, f2⟩ := freq_row (npUnique_nodup l) (fun v hv => (h2 v).2 hv) hne
  refine ⟨npUnique l, _, rfl, rfl, h1, h2, rfl, f1, ?_⟩
  intro x hx
  obtain ⟨v, _, rfl⟩ := List.mem_map.1 hx
  exact f2 v

/-- C47: binary data give two columns exactly when both symbols occur, otherwise one. -/
theorem c47_binary_columns (n : Nat) (hn : 0 < n) (rows : List (List Int)) (hrows : ∀ r ∈ rows, r.length = n)
    (hbin : ∀ r ∈ rows, ∀ v ∈ r, v = 0 ∨ v = 1) (hne : rows ≠ []) (pr : List (List ℚ)) (h : prob (.d2 n rows) = .ok pr) :
    ((∀ p ∈ pr, p.length = 2) ↔ (∃ r ∈ rows, 0 ∈ r) ∧ ∃ r ∈ rows, 1 ∈ r) ∧
      ((∀ p ∈ pr, p.length = 1) ↔ ¬ ((∃ r ∈ rows, 0 ∈ r) ∧ ∃ r ∈ rows, 1 ∈ r)) := by
  obtain ⟨al, pr', h1, h2, h3, h4, h5, _⟩ := c47_prob2 n hn rows hrows
  rw [h] at h2
  injection h2 with h2
  subst h2
  have hlen : ∀ p ∈ pr, p.length = al.length := by
    intro p hp
    rw [h5] at hp
    obtain ⟨r, _, rfl⟩ := List.mem_map.1 hp
    simp
  obtain ⟨r0, hr0⟩ := List.exists_mem_of_ne_nil _ hne
  have hp0 : (al.map fun v => freq v r0) ∈ pr := by rw [h5]; exact List.mem_map_of_mem hr0
  have hsome : ∃ v, v ∈ al := by
    have := hrows r0 hr0
    obtain ⟨v, hv⟩ := List.exists_mem_of_length_pos (l := r0) (by omega)
    exact ⟨v, (h4 v).2 ⟨r0, hr0, hv⟩⟩
  have hal : ∀ v ∈ al, v = 0 ∨ v = 1 := by
    intro v hv
    obtain ⟨r, hr, hv⟩ := (h4 v).1 hv
    exact hbin r hr v hv
  have cases : (al = [0, 1] ∧ 0 ∈ al ∧ 1 ∈ al) ∨ (al.length = 1 ∧ ¬ (0 ∈ al ∧ 1 ∈ al)) := by
    match al, hsome, hal, h3 with
    | [], ⟨_, h⟩, _, _ => simp at h
    | [a], _, _, _ =>
      right
      refine ⟨rfl, ?_⟩
      rintro ⟨a0, a1⟩
      simp at a0 a1
      omega
    | [a, b], _, hal, h3 =>
      left
      have ha := hal a (by simp)
      have hb := hal b (by simp)
      have hab : a < b := by simpa using h3
      have ha0 : a = 0 := by omega
      have hb1 : b = 1 := by omega
      subst ha0 hb1
      simp
    | a :: b :: c :: l, _, hal, h3 =>
      exfalso
      have ha := hal a (by simp)
      have hb := hal b (by simp)
      have hc := hal c (by simp)
      simp only [List.pairwise_cons, List.mem_cons] at h3
      have h1 := h3.1 b (by simp)
      have h2 := h3.2.1 c (by simp)
      omega
  have e0 : (∃ r ∈ rows, 0 ∈ r) ↔ 0 ∈ al := (h4 0).symm
  have e1 : (∃ r ∈ rows, 1 ∈ r) ↔ 1 ∈ al := (h4 1).symm
  rw [e0, e1]
  have hiff : ∀ k, (∀ p ∈ pr, p.length = k) ↔ al.length = k := by
    intro k
    constructor
    · intro h; rw [← hlen _ hp0]; exact h _ hp0
    · intro h p hp; rw [hlen p hp]; exact h
  rw [hiff, hiff]
  rcases cases with ⟨c1, c2, c3⟩ | ⟨c1, c2⟩
  · simp [c1]
  · simp [c1, c2]

/-- C47: float arrays and arrays with other numbers of dimensions raise. -/
theorem c47_raises : prob .float = .error .unsupportedDtype ∧ prob .other = .error .valueError := ⟨rfl, rfl⟩

/-- Two rows over the letters 0, 3 and 7. -/
example : prob (.d2 4 [[3, 0, 3, 7], [0, 0, 0, 0]]) = .ok [[1 / 4, 2 / 4, 1 / 4], [4 / 4, 0, 0]] := by
  decide +kernel

/-! ### C48 -/

theorem negMulLog_le {n : ℝ} (hn : 0 < n) {p : ℝ} (hp : 0 ≤ p) :
    Real.negMulLog p ≤ 1 / n - p + p * Real.log n ∧ (Real.negMulLog p = 1 / n - p + p * Real.log n → p = 1 / n) := by
  rcases hp.eq_or_lt with rfl | hp
  · simp only [Real.negMulLog_zero, sub_zero, zero_mul, add_zero]
    have : 0 < 1 / n := by positivity
    exact ⟨this.le, fun h => h⟩
  · have key : 1 / n - p + p * Real.log n - Real.negMulLog p = p * ((1 / (n * p)) - 1 - Real.log (1 / (n * p))) := by
      rw [Real.negMulLog, Real.log_div one_ne_zero (by positivity), Real.log_one, Real.log_mul hn.ne' hp.ne']
      field_simp
      ring
    have hx : 0 < 1 / (n * p) := by positivity
    constructor
    · have h1 := Real.log_le_sub_one_of_pos hx
      have : 0 ≤ p * ((1 / (n * p)) - 1 - Real.log (1 / (n * p))) := mul_nonneg hp.le (by linarith)
      linarith
    · intro he
      by_contra hne
      have hx1 : 1 / (n * p) ≠ 1 := by
        intro h
        apply hne
        field_simp at h ⊢
        linarith
      have h1 := Real.log_lt_sub_one_of_pos hx hx1
      have : 0 < p * ((1 / (n * p)) - 1 - Real.log (1 / (n * p))) := mul_pos hp (by linarith)
      linarith

theorem sum_le_eq {α : Type} (l : List α) (f g : α → ℝ) (h : ∀ x ∈ l, f x ≤ g x) :
    (l.map f).sum ≤ (l.map g).sum ∧ ((l.map f).sum = (l.map g).sum → ∀ x ∈ l, f x = g x) := by
  induction l with
  | nil => simp
  | cons a l ih =>
    obtain ⟨i1, i2⟩ := ih fun x hx => h x (List.mem_cons_of_mem _ hx)
    have ha := h a List.mem_cons_self
    simp only [List.map_cons, List.sum_cons]
    refine ⟨by linarith, ?_⟩
    intro he x hx
    rcases List.mem_cons.1 hx with rfl | hx
    · linarith
    · exact i2 (by linarith) x hx

theorem probVec_le_one {p : List ℝ} (hp : ProbVec p) : ∀ x ∈ p, x ≤ 1 := by
  intro x hx
  rw [← hp.2]
  exact List.single_le_sum hp.1 x hx

theorem scipyEntropy_prob {p : List ℝ} (hp : ProbVec p) (b : ℝ) :
    scipyEntropy p b = (p.map Real.negMulLog).sum / Real.log b := by
  unfold scipyEntropy
  rw [hp.2]
  simp

theorem log_two_pos : 0 < Real.log 2 := Real.log_pos (by norm_num)

/-- C48: the entropy (in bits) of a probability vector is at least 0, with equality exactly for point masses, and at
most `log2` of its length, with equality exactly for the uniform distribution. -/
theorem c48_entropy (p : List ℝ) (hp : ProbVec p) :
    ∃ h, entropyPy 2 (.d1 p) = .ok [h] ∧ 0 ≤ h ∧ (h = 0 ↔ ∀ x ∈ p, x = 0 ∨ x = 1) ∧ h ≤ Real.logb 2 p.length ∧
      (h = Real.logb 2 p.length ↔ ∀ x ∈ p, x = 1 / p.length) := by
  have hne : p ≠ [] := by
    rintro rfl
    simp [ProbVec] at hp
  have hn : (0 : ℝ) < p.length := by
    have : 0 < p.length := List.length_pos_iff.2 hne
    exact_mod_cast this
  refine ⟨_, rfl, ?_⟩
  rw [scipyEntropy_prob hp]
  have hl2 := log_two_pos
  have hnn : ∀ x ∈ p, 0 ≤ Real.negMulLog x := fun x hx => Real.negMulLog_nonneg (hp.1 x hx) (probVec_le_one hp x hx)
  have hsum0 : (p.map Real.negMulLog).sum = 0 ↔ ∀ x ∈ p, x = 0 ∨ x = 1 := by
    obtain ⟨_, s2⟩ := sum_le_eq p (fun _ => 0) Real.negMulLog hnn
    have z : (p.map fun _ => (0 : ℝ)).sum = 0 := by simp
    rw [z] at s2
    constructor
    · intro h x hx
      have := s2 h.symm x hx
      rw [Real.negMulLog] at this
      rcases mul_eq_zero.1 this.symm with h0 | h0
      · left; linarith
      · rcases Real.log_eq_zero.1 h0 with h | h | h
        · left; exact h
        · right; exact h
        · have := hp.1 x hx; linarith
    · intro h
      have : p.map Real.negMulLog = p.map fun _ => (0 : ℝ) := by
        apply List.map_congr_left
        intro x hx
        rcases h x hx with rfl | rfl <;> simp
      rw [this, z]
  obtain ⟨b1, b2⟩ := sum_le_eq p Real.negMulLog (fun x => 1 / (p.length : ℝ) - x + x * Real.log p.length)
    fun x hx => (negMulLog_le hn (hp.1 x hx)).1
  have hg : (p.map fun x => 1 / (p.length : ℝ) - x + x * Real.log p.length).sum = Real.log p.length := by
    have : ∀ (c d : ℝ) (l : List ℝ), (l.map fun x => c - x + x * d).sum = l.length * c - l.sum + l.sum * d := by
      intro c d l
      induction l with
      | nil => simp
      | cons a l ih => simp only [List.map_cons, List.sum_cons, ih, List.length_cons]; push_cast; ring
    rw [this, hp.2]
    field_simp
    ring
  rw [hg] at b1 b2
  refine ⟨by apply div_nonneg _ hl2.le; exact List.sum_nonneg (by simpa using hnn), ?_, ?_, ?_⟩
  · rw [div_eq_zero_iff, hsum0]
    constructor
    · rintro (h | h)
      · exact h
      · linarith
    · exact Or.inl
  · rw [Real.logb]
    exact div_le_div_of_nonneg_right b1 hl2.le
  · rw [Real.logb, div_left_inj' hl2.ne']
    constructor
    · intro h x hx
      exact (negMulLog_le hn (hp.1 x hx)).2 (b2 h x hx)
    · intro h
      rw [← hg]
      congr 1
      apply List.map_congr_left
      intro x hx
      rw [h x hx, Real.negMulLog, Real.log_div one_ne_zero hn.ne', Real.log_one]
      ring

/-- C48: the entropies of a matrix are those of its rows, each computed as for a single vector; arrays with other numbers
of dimensions raise. -/
theorem c48_rows (rows : List (List ℝ)) (b : ℝ) :
    (∃ hs, entropyPy b (.d2 rows) = .ok hs ∧ hs.length = rows.length ∧
      ∀ i, (hi : i < rows.length) → ∀ h, hs[i]? = some h ↔ entropyPy b (.d1 rows[i]) = .ok [h]) ∧
    entropyPy b .other = .error .valueError := by
  refine ⟨⟨_, rfl, by simp, ?_⟩, rfl⟩
  intro i hi h
  simp only [entropyPy, List.getElem?_map, List.getElem?_eq_getElem hi, Option.map_some, Option.some.injEq, Except.ok.injEq,
    List.cons.injEq, and_true]

/-- C48: the input need not be normalised. -/
theorem c48_scale (p : List ℝ) (c : ℝ) (hc : 0 < c) (b : ℝ) : scipyEntropy (p.map (c * ·)) b = scipyEntropy p b := by
  unfold scipyEntropy
  have : (p.map (c * ·)).sum = c * p.sum := by
    induction p with
    | nil => simp
    | cons a l ih => simp only [List.map_cons, List.sum_cons, ih]; ring
  rw [this, List.map_map]
  congr 2
  apply List.map_congr_left
  intro x _
  simp only [Function.comp]
  rw [mul_div_mul_left _ _ hc.ne']

example : ProbVec [1 / 4, 3 / 4] := by constructor <;> norm_num

/-! ### C49 -/

theorem sqrt_mul_le {a b : ℝ} (ha : 0 ≤ a) (hb : 0 ≤ b) : √(a * b) ≤ (a + b) / 2 ∧ (√(a * b) = (a + b) / 2 → a = b) := by
  have h1 := Real.sq_sqrt ha
  have h2 := Real.sq_sqrt hb
  rw [Real.sqrt_mul ha]
  constructor
  · nlinarith [sq_nonneg (√a - √b)]
  · intro h
    have : (√a - √b) ^ 2 = 0 := by nlinarith
    have : √a = √b := by
      have := pow_eq_zero_iff (two_ne_zero) |>.1 this
      linarith
    rw [← h1, ← h2, this]

theorem zipWith_sum_bound (p q : List ℝ) (hl : p.length = q.length) (hp : ∀ x ∈ p, 0 ≤ x) (hq : ∀ x ∈ q, 0 ≤ x) :
    (p.zipWith (fun a b => √(a * b)) q).sum ≤ (p.sum + q.sum) / 2 ∧
    ((p.zipWith (fun a b => √(a * b)) q).sum = (p.sum + q.sum) / 2 → p = q) ∧
    0 ≤ (p.zipWith (fun a b => √(a * b)) q).sum := by
  induction p generalizing q with
  | nil =>
    cases q with
    | nil => simp
    | cons => simp at hl
  | cons a p ih =>
    cases q with
    | nil => simp at hl
    | cons b q =>
      obtain ⟨i1, i2, i3⟩ := ih q (by simpa using hl) (fun x hx => hp x (List.mem_cons_of_mem _ hx))
        (fun x hx => hq x (List.mem_cons_of_mem _ hx))
      obtain ⟨s1, s2⟩ := sqrt_mul_le (hp a List.mem_cons_self) (hq b List.mem_cons_self)
      simp only [List.zipWith_cons_cons, List.sum_cons]
      refine ⟨by linarith, ?_, by have := Real.sqrt_nonneg (a * b); linarith⟩
      intro h
      rw [s2 (by linarith), i2 (by linarith)]

/-- C49: for probability vectors of equal length the radicand is not negative, and the distance is in [0, 1], symmetric,
and zero exactly for equal vectors. -/
theorem c49_hellinger (p q : List ℝ) (hp : ProbVec p) (hq : ProbVec q) (hl : p.length = q.length) :
    0 ≤ 1 - (p.zipWith (fun a b => √(a * b)) q).sum ∧
    ∃ d, hellinger (.d1 p) (.d1 q) = .ok [d] ∧ hellinger (.d1 q) (.d1 p) = .ok [d] ∧ 0 ≤ d ∧ d ≤ 1 ∧ (d = 0 ↔ p = q) := by
  obtain ⟨h1, h2, h3⟩ := zipWith_sum_bound p q hl hp.1 hq.1
  rw [hp.2, hq.2] at h1 h2
  have hrad : 0 ≤ 1 - (p.zipWith (fun a b => √(a * b)) q).sum := by linarith
  have hsym : hellingerVec q p = hellingerVec p q := by
    unfold hellingerVec
    congr 3
    rw [List.zipWith_comm]
    congr 1
    funext a b
    rw [mul_comm]
  refine ⟨hrad, hellingerVec p q, rfl, by simp only [hellinger, hsym], Real.sqrt_nonneg _, ?_, ?_⟩
  · unfold hellingerVec
    rw [Real.sqrt_le_one]
    linarith
  · unfold hellingerVec
    rw [Real.sqrt_eq_zero hrad]
    constructor
    · intro h; exact h2 (by linarith)
    · rintro rfl
      have : (p.zipWith (fun a b => √(a * b)) p) = p := by
        have key : ∀ l : List ℝ, (∀ x ∈ l, 0 ≤ x) → l.zipWith (fun a b => √(a * b)) l = l := by
          intro l
          induction l with
          | nil => simp
          | cons a l ih =>
            intro h
            rw [List.zipWith_cons_cons, ih fun x hx => h x (List.mem_cons_of_mem _ hx),
              Real.sqrt_mul_self (h a List.mem_cons_self)]
        exact key p hp.1
      rw [this, hp.2, sub_self]

/-- C49: the rows of two matrices are compared one by one; arrays of different dimension raise. -/
theorem c49_rows (ps qs : List (List ℝ)) (hl : ps.length = qs.length) (p : List ℝ) :
    (∃ ds, hellinger (.d2 ps) (.d2 qs) = .ok ds ∧ ds.length = ps.length ∧
      ∀ i, (hi : i < ps.length) → ∀ d, ds[i]? = some d ↔ hellinger (.d1 ps[i]) (.d1 qs[i]) = .ok [d]) ∧
    hellinger (.d1 p) (.d2 qs) = .error .valueError ∧ hellinger (.d2 qs) (.d1 p) = .error .valueError ∧
    (∀ a, hellinger .other a = .error .valueError) ∧ ∀ a, hellinger a .other = .error .valueError := by
  refine ⟨⟨_, rfl, by simp [hl], ?_⟩, rfl, rfl, fun a => ?_, fun a => ?_⟩
  · intro i hi d
    simp only [hellinger, List.getElem?_zipWith, List.getElem?_eq_getElem hi, List.getElem?_eq_getElem (by omega : i < qs.length),
      Option.some.injEq, Except.ok.injEq, List.cons.injEq, and_true]
  all_goals cases a <;> rfl

/-- Disjoint point masses are at distance one. -/
example : hellinger (.d1 [1, 0]) (.d1 [0, 1]) = .ok [1] := by simp [hellinger, hellingerVec]

/-! ### C50 -/

/-- C50: the call returns exactly when `n > 0`, `eps > 0` and an entropy, or a distribution with one row, is given;
then the entropy used is the given one (the distribution being ignored) or that of the distribution, the bounds are
`(1 - eps) 2^(n (h - eps))` and `2^(n (h + eps))`, and the first is below the second. -/
theorem c50_typical (n : Int) (pk : Option RealArr) (ent : Option ℝ) (eps : ℝ) :
    (0 < n ∧ 0 < eps ∧ (ent ≠ none ∨ ∃ a h, pk = some a ∧ entropyPy 2 a = .ok [h]) →
      ∃ h, (∀ e, ent = some e → h = e) ∧ (ent = none → ∃ a, pk = some a ∧ entropyPy 2 a = .ok [h]) ∧
        ∃ lb ub, typicalSet n pk ent eps = .ok (lb, ub) ∧ lb = (1 - eps) * 2 ^ ((n : ℝ) * (h - eps)) ∧
          ub = 2 ^ ((n : ℝ) * (h + eps)) ∧ lb < ub) ∧
    (¬ (0 < n ∧ 0 < eps ∧ (ent ≠ none ∨ ∃ a h, pk = some a ∧ entropyPy 2 a = .ok [h])) →
      ¬ Returns (typicalSet n pk ent eps)) := by
  have hlt : ∀ h : ℝ, 0 < n → 0 < eps → (1 - eps) * 2 ^ ((n : ℝ) * (h - eps)) < (2 : ℝ) ^ ((n : ℝ) * (h + eps)) := by
    intro h h1 h2
    have hn : (0 : ℝ) < n := by exact_mod_cast h1
    have p1 : (0 : ℝ) < 2 ^ ((n : ℝ) * (h - eps)) := Real.rpow_pos_of_pos (by norm_num) _
    have p2 : (2 : ℝ) ^ ((n : ℝ) * (h - eps)) < 2 ^ ((n : ℝ) * (h + eps)) := by
      apply Real.rpow_lt_rpow_of_exponent_lt (by norm_num)
      nlinarith
    nlinarith
  constructor
  · rintro ⟨h1, h2, h3⟩
    have hc : ¬ (n ≤ 0 ∨ eps ≤ 0) := by
      rintro (h | h)
      · omega
      · linarith
    cases ent with
    | some e =>
      refine ⟨e, by simp, by simp, _, _, ?_, rfl, rfl, hlt e h1 h2⟩
      simp only [typicalSet, if_neg hc, bind, Except.bind]
    | none =>
      obtain ⟨a, h, ha, hh⟩ : ∃ a h, pk = some a ∧ entropyPy 2 a = .ok [h] := by simpa using h3
      subst ha
      refine ⟨h, by simp, fun _ => ⟨a, rfl, hh⟩, _, _, ?_, rfl, rfl, hlt h h1 h2⟩
      simp only [typicalSet, if_neg hc, bind, Except.bind, hh]
  · intro hno
    unfold typicalSet
    by_cases hc : n ≤ 0 ∨ eps ≤ 0
    · rw [if_pos hc]
      rintro ⟨_, h⟩
      cases h
    · rw [if_neg hc]
      have h1 : 0 < n := by
        by_contra h; exact hc (Or.inl (by omega))
      have h2 : 0 < eps := by
        by_contra h; exact hc (Or.inr (by linarith))
      cases ent with
      | some e => exact absurd ⟨h1, h2, Or.inl (by simp)⟩ hno
      | none =>
        cases pk with
        | none =>
          rintro ⟨_, h⟩
          cases h
        | some a =>
          simp only [bind, Except.bind]
          cases he : entropyPy 2 a with
          | error e =>
            rintro ⟨_, h⟩
            cases h
          | ok hs =>
            match hs with
            | [] => rintro ⟨_, h⟩; cases h
            | [h] => exact absurd ⟨h1, h2, Or.inr ⟨a, h, rfl, he⟩⟩ hno
            | _ :: _ :: _ => rintro ⟨_, h⟩; cases h

/-- With `eps > 1` the lower bound is negative; with `eps < 1` positive. -/
example : ∃ lb ub, typicalSet 3 none (some 1) (1 / 2) = .ok (lb, ub) ∧ lb < ub := by
  obtain ⟨h, _, _, lb, ub, h1, _, _, h2⟩ := (c50_typical 3 none (some 1) (1 / 2)).1 ⟨by norm_num, by norm_num, by simp⟩
  exact ⟨lb, ub, h1, h2⟩

end NR
