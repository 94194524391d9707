import Verif.Spec.Cluster
import Verif.Spec.Bits
import Verif.Props.C47_C50
import Mathlib.Data.List.Forall2
import Mathlib.Data.List.Induction
/-
C37: cluster counts. C40: hard bits.
-/
namespace NR
open Spec

/-! ### C37 -/

/-- The count matrix of a list of samples of length `L`. -/
def countMatrix (L : Nat) (s : List (List Bool)) : List (List Int) :=
  (List.range L).map fun i => [(zerosAt s i : Int), (onesAt s i : Int)]

theorem alphabet_mixed {al : List Int} (h : al.Pairwise (· < ·)) (hm : ∀ v, v ∈ al ↔ v = 0 ∨ v = 1) : al = [0, 1] := by
  have hs : ([0, 1] : List Int).Pairwise (· < ·) := by simp
  apply List.Perm.eq_of_pairwise (le := (· < ·)) _ h hs
  · rw [List.perm_ext_iff_of_nodup (h.imp fun h => ne_of_lt h) (by simp)]
    intro v; rw [hm]; simp
  · intro a b _ _ h1 h2; omega

theorem prob_mixed {b : List Bool} (hb : Mixed b) :
    prob (columnOf b) = .ok (b.map fun x => if x then [0, 1] else [1, 0]) := by
  have hrows : ∀ r ∈ b.map (fun x => [if x then (1 : Int) else 0]), r.length = 1 := by
    intro r hr
    obtain ⟨x, _, rfl⟩ := List.mem_map.1 hr
    rfl
  obtain ⟨al, pr, _, h2, h3, h4, h5, _⟩ := c47_prob2 1 (by norm_num) _ hrows
  have hal : al = [0, 1] := by
    apply alphabet_mixed h3
    intro v
    rw [h4]
    constructor
    · rintro ⟨r, hr, hv⟩
      obtain ⟨x, _, rfl⟩ := List.mem_map.1 hr
      cases x <;> simp at hv <;> simp [hv]
    · rintro (rfl | rfl)
      · exact ⟨[0], List.mem_map.2 ⟨false, hb.2, rfl⟩, by simp⟩
      · exact ⟨[1], List.mem_map.2 ⟨true, hb.1, rfl⟩, by simp⟩
  unfold columnOf
  rw [h2, h5, hal, List.map_map]
  congr 1
  apply List.map_congr_left
  intro x _
  cases x <;> simp [freq]

theorem map_eq_range {α β : Type} (l : List α) (f : α → β) :
    l.map f = (List.range l.length).attach.map fun i => f (l[i.1]'(List.mem_range.1 i.2)) := by
  apply List.ext_getElem
  · simp
  · intro i h1 h2
    simp

theorem countMatrix_start {b : List Bool} (uid : Int) :
    (Cluster.new (b.map fun x => if x then [0, 1] else [1, 0]) uid) = ⟨countMatrix b.length [b], uid, 1⟩ := by
  unfold Cluster.new countMatrix
  congr 1
  apply List.ext_getElem
  · simp
  · intro i h1 h2
    have hi : i < b.length := by simpa using h2
    simp only [List.getElem_map, List.getElem_range, zerosAt, onesAt, List.countP_cons, List.countP_nil,
      List.getElem?_eq_getElem hi]
    cases hx : b[i] <;> simp [truncQ]

theorem mapM_map_ok {α β : Type} (l : List α) (f : α → Except PyErr β) (g : α → β) (h : ∀ x ∈ l, f x = .ok (g x)) :
    l.mapM f = .ok (l.map g) := by
  induction l with
  | nil => rfl
  | cons a l ih =>
    rw [List.mapM_cons, h a List.mem_cons_self, ih fun x hx => h x (List.mem_cons_of_mem _ hx)]
    rfl

theorem countMatrix_length (L : Nat) (s : List (List Bool)) : (countMatrix L s).length = L := by simp [countMatrix]

theorem zip_range_map {α β : Type} (f : Nat → α) (l : List β) :
    ((List.range l.length).map f).zip l = (List.range l.length).attach.map fun i => (f i.1, l[i.1]'(List.mem_range.1 i.2)) := by
  apply List.ext_getElem
  · simp
  · intro i h1 h2
    simp

theorem addSample_counts {L : Nat} {s : List (List Bool)} {uid : Int} {n : Nat} {b : List Bool} (hb : b.length = L) :
    Cluster.addSample ⟨countMatrix L s, uid, n⟩ b = .ok ⟨countMatrix L (s ++ [b]), uid, n + 1⟩ := by
  subst hb
  unfold Cluster.addSample
  rw [if_neg (by simp [countMatrix_length])]
  have : ((countMatrix b.length s).zip b).mapM (fun rx => addRow rx.2 rx.1) = .ok (countMatrix b.length (s ++ [b])) := by
    unfold countMatrix
    rw [zip_range_map, mapM_map_ok _ _ (fun rx => match rx.1 with
      | z :: o :: rest => (z + if rx.2 = false then 1 else 0) :: (o + if rx.2 = true then 1 else 0) :: rest
      | _ => [])]
    · congr 1
      apply List.ext_getElem
      · simp
      · intro i h1 h2
        have hi : i < b.length := by simpa using h2
        simp only [List.getElem_map, List.getElem_attach, List.getElem_range, zerosAt, onesAt, List.countP_append,
          List.countP_cons, List.countP_nil, List.getElem?_eq_getElem hi]
        cases hx : b[i] <;> simp
    · intro x hx
      obtain ⟨i, _, rfl⟩ := List.mem_map.1 hx
      rfl
  simp only [this, bind, Except.bind]

theorem merge_counts {L : Nat} {s t : List (List Bool)} {u v : Int} {n m : Nat} :
    Cluster.merge ⟨countMatrix L s, u, n⟩ ⟨countMatrix L t, v, m⟩ = .ok ⟨countMatrix L (s ++ t), u, n + m⟩ := by
  unfold Cluster.merge
  rw [if_neg (by simp [countMatrix_length])]
  have : ((countMatrix L s).zip (countMatrix L t)).mapM (fun rs => mergeRow rs.1 rs.2) = .ok (countMatrix L (s ++ t)) := by
    rw [mapM_map_ok _ _ (fun rs => rs.1.zipWith (· + ·) rs.2)]
    · congr 1
      apply List.ext_getElem
      · simp [countMatrix]
      · intro i h1 h2
        simp [countMatrix, zerosAt, onesAt]
    · intro x hx
      obtain ⟨i, hi, rfl⟩ := List.getElem_of_mem hx
      simp [countMatrix, mergeRow]
  simp only [this, bind, Except.bind]

theorem addSample_length {c c' : Cluster} {b : List Bool} (h : c.addSample b = .ok c') : b.length = c.data.length := by
  unfold Cluster.addSample at h
  by_contra hne
  rw [if_pos hne] at h
  cases h

theorem merge_length {c d c' : Cluster} (h : c.merge d = .ok c') : c.data.length = d.data.length := by
  unfold Cluster.merge at h
  by_contra hne
  rw [if_pos hne] at h
  cases h

/-- The state of a cluster built from non-constant buffers. -/
theorem built_mixed {c : Cluster} {s : List (List Bool)} (h : Built Mixed c s) :
    ∃ L, (∀ b ∈ s, b.length = L) ∧ s ≠ [] ∧ c.data = countMatrix L s ∧ c.n = s.length := by
  induction h with
  | start b dist uid hb hd =>
    rw [prob_mixed hb] at hd
    injection hd with hd
    subst hd
    rw [countMatrix_start]
    exact ⟨b.length, by simp, by simp, rfl, rfl⟩
  | add c c' s b _ hadd ih =>
    obtain ⟨L, h1, h2, h3, h4⟩ := ih
    obtain ⟨data, uid, n⟩ := c
    simp only at h3 h4
    subst h3 h4
    have hl := addSample_length hadd
    rw [countMatrix_length] at hl
    rw [addSample_counts hl] at hadd
    injection hadd with hadd
    subst hadd
    refine ⟨L, ?_, by simp, rfl, by simp⟩
    intro x hx
    rcases List.mem_append.1 hx with hx | hx
    · exact h1 x hx
    · rw [List.mem_singleton.1 hx]; exact hl
  | merge c d c' s t _ _ hm ih1 ih2 =>
    obtain ⟨L, h1, h2, h3, h4⟩ := ih1
    obtain ⟨M, g1, g2, g3, g4⟩ := ih2
    have hl := merge_length hm
    rw [h3, g3, countMatrix_length, countMatrix_length] at hl
    subst hl
    obtain ⟨data, uid, n⟩ := c
    obtain ⟨data', uid', n'⟩ := d
    simp only at h3 h4 g3 g4
    subst h3 h4 g3 g4
    rw [merge_counts] at hm
    injection hm with hm
    subst hm
    refine ⟨L, ?_, by simp [h2], rfl, by simp⟩
    intro x hx
    rcases List.mem_append.1 hx with hx | hx
    · exact h1 x hx
    · exact g1 x hx
  | renumber c s uid _ ih => exact ih

theorem zeros_add_ones {s : List (List Bool)} {i : Nat} (h : ∀ b ∈ s, i < b.length) : zerosAt s i + onesAt s i = s.length := by
  induction s with
  | nil => rfl
  | cons b s ih =>
    have hb := h b List.mem_cons_self
    have := ih fun x hx => h x (List.mem_cons_of_mem _ hx)
    simp only [zerosAt, onesAt, List.countP_cons, List.length_cons, List.getElem?_eq_getElem hb] at this ⊢
    cases b[i] <;> simp <;> omega

/-- C37: a cluster started from non-constant buffers, after any sequence of additions and merges: `n_samples` is the number of
samples absorbed, there is a row per bit position holding exactly the numbers of zeros and ones among those samples,
which add up to `n_samples`, and the corresponding row of `dist` is a probability vector. -/
theorem c37_counts (c : Cluster) (s : List (List Bool)) (h : Built Mixed c s) :
    c.n = s.length ∧ 0 < c.n ∧ (∀ b ∈ s, b.length = c.data.length) ∧ c.dist.length = c.data.length ∧
    ∀ i, (hi : i < c.data.length) → c.data[i] = [(zerosAt s i : Int), (onesAt s i : Int)] ∧ zerosAt s i + onesAt s i = c.n ∧
      c.dist[i]? = some [(zerosAt s i : ℚ) / c.n, (onesAt s i : ℚ) / c.n] ∧
      (zerosAt s i : ℚ) / c.n + (onesAt s i : ℚ) / c.n = 1 ∧ 0 ≤ (zerosAt s i : ℚ) / c.n ∧ 0 ≤ (onesAt s i : ℚ) / c.n := by
  obtain ⟨L, h1, h2, h3, h4⟩ := built_mixed h
  have hn : 0 < c.n := by rw [h4]; exact List.length_pos_iff.2 h2
  have hL : c.data.length = L := by rw [h3, countMatrix_length]
  refine ⟨h4, hn, by rw [hL]; exact h1, by simp [Cluster.dist], ?_⟩
  intro i hi
  have hiL : i < L := by omega
  have hrow : c.data[i] = [(zerosAt s i : Int), (onesAt s i : Int)] := by
    simp only [h3]
    simp [countMatrix]
  have hz : zerosAt s i + onesAt s i = c.n := by
    rw [h4]; exact zeros_add_ones fun b hb => by rw [h1 b hb]; exact hiL
  have hq : (0 : ℚ) < c.n := by exact_mod_cast hn
  refine ⟨hrow, hz, ?_, ?_, by positivity, by positivity⟩
  · unfold Cluster.dist
    rw [List.getElem?_map, List.getElem?_eq_getElem hi, hrow]
    simp
  · rw [← add_div, div_eq_one_iff_eq hq.ne', ← hz]
    push_cast
    rfl

/-- C37: buffers of the same length as the cluster can always be added, and clusters of the same length merged. -/
theorem c37_no_raise (c d : Cluster) (s t : List (List Bool)) (hc : Built Mixed c s) (hd : Built Mixed d t) (b : List Bool) :
    (Returns (c.addSample b) ↔ b.length = c.data.length) ∧ (Returns (c.merge d) ↔ c.data.length = d.data.length) := by
  obtain ⟨L, h1, h2, h3, h4⟩ := built_mixed hc
  obtain ⟨M, g1, g2, g3, g4⟩ := built_mixed hd
  obtain ⟨data, uid, n⟩ := c
  obtain ⟨data', uid', n'⟩ := d
  simp only at h3 g3
  subst h3 g3
  constructor
  · constructor
    · rintro ⟨_, h⟩; exact addSample_length h
    · intro h
      rw [countMatrix_length] at h
      exact ⟨_, addSample_counts h⟩
  · constructor
    · rintro ⟨_, h⟩; exact merge_length h
    · intro h
      simp only [countMatrix_length] at h
      subst h
      exact ⟨_, merge_counts⟩

/-- C37 fails for constant first buffers: nothing can be added to such a cluster, and merging it into another one
counts its bits both as zeros and as ones. -/
theorem c37_constant_false :
    ∃ c d e : Cluster, Built (fun _ => True) c [[true, true]] ∧ Raises (c.addSample [true, false]) .indexError ∧
      Built Mixed d [[true, false]] ∧ d.merge c = .ok e ∧ e.n = 2 ∧ e.data = [[1, 2], [2, 1]] := by
  refine ⟨Cluster.new [[1], [1]] 0, Cluster.new [[0, 1], [1, 0]] 0, ⟨[[1, 2], [2, 1]], 0, 2⟩,
    .start _ _ _ trivial ?_, ?_, .start _ _ _ ⟨by simp, by simp⟩ ?_, ?_, rfl, rfl⟩
  all_goals decide +kernel

/-- A cluster of three samples. -/
example : ∃ c, Built Mixed c [[true, false], [true, true], [false, true]] ∧ c.data = [[1, 2], [1, 2]] := by
  refine ⟨_, .add _ ⟨[[1, 2], [1, 2]], 0, 3⟩ [[true, false], [true, true]] [false, true]
    (.add _ ⟨[[0, 2], [1, 1]], 0, 2⟩ [[true, false]] [true, true]
      (.start [true, false] [[0, 1], [1, 0]] 0 ⟨by simp, by simp⟩ (by decide +kernel)) (by decide +kernel)) (by decide +kernel), rfl⟩

/-! ### C40 -/

theorem column_ok {α : Type} (j : Nat) (l : List (List α)) (g : List α → α) (h : ∀ r ∈ l, r[j]? = some (g r)) :
    column j l = .ok (l.map g) := by
  unfold column
  apply mapM_map_ok
  intro r hr
  rw [h r hr]

theorem hardBits_ok {c : Cluster} {s : List (List Bool)} (h : Built Mixed c s) :
    c.hardBits = .ok ((List.range c.data.length).map fun i => if 0 < onesAt s i then 1 else 0) := by
  obtain ⟨h4, hn, _, hdl, hrow⟩ := c37_counts c s h
  unfold Cluster.hardBits
  have e1 : column 1 c.data = .ok (c.data.map fun r => r.getD 1 0) := by
    apply column_ok
    intro r hr
    obtain ⟨i, hi, rfl⟩ := List.getElem_of_mem hr
    rw [(hrow i hi).1]
    rfl
  have e0 : column 0 c.dist = .ok (c.dist.map fun r => r.getD 0 0) := by
    apply column_ok
    intro r hr
    obtain ⟨i, hi, hr⟩ := List.getElem_of_mem hr
    have := (hrow i (by omega)).2.2.1
    rw [List.getElem?_eq_getElem hi] at this
    injection this with this
    rw [← hr, this]
    rfl
  simp only [e1, e0, bind, Except.bind]
  congr 1
  apply List.ext_getElem
  · simp [hdl]
  · intro i k1 k2
    have hi : i < c.data.length := by simpa using k2
    obtain ⟨r1, r2, r3, r4, r5, r6⟩ := hrow i hi
    rw [List.getElem?_eq_getElem (by omega)] at r3
    injection r3 with r3
    simp only [List.getElem_zipWith, List.getElem_map, r1, r3, List.getElem_range]
    simp only [List.getD_cons_succ, List.getD_cons_zero, Int.cast_natCast]
    have hq : (0 : ℚ) < c.n := by exact_mod_cast hn
    by_cases h0 : 0 < onesAt s i
    · rw [if_pos h0, if_pos]
      have h1 : (1 : ℚ) ≤ onesAt s i := by exact_mod_cast h0
      have h2 : (0 : ℚ) < (onesAt s i : ℚ) / c.n := by positivity
      linarith
    · rw [if_neg h0, if_neg]
      have hz : onesAt s i = 0 := by omega
      rw [hz] at r4 ⊢
      simp at r4 ⊢
      linarith

/-- C40, what holds: for a cluster started from non-constant buffers, the hard bit at a position is 1 exactly when some
sample has a one there. -/
theorem c40_hard_bits_any (c : Cluster) (s : List (List Bool)) (h : Built Mixed c s) :
    ∃ hb, c.hardBits = .ok hb ∧ hb.length = c.data.length ∧ ∀ i, (hi : i < hb.length) →
      (hb[i] = 1 ↔ ∃ b ∈ s, b[i]? = some true) ∧ (hb[i] = 0 ∨ hb[i] = 1) := by
  refine ⟨_, hardBits_ok h, by simp, ?_⟩
  intro i hi
  simp only [List.getElem_map, List.getElem_range]
  have e : 0 < onesAt s i ↔ ∃ b ∈ s, b[i]? = some true := by
    unfold onesAt
    rw [List.countP_pos_iff]
    simp
  rw [← e]
  constructor
  · split <;> simp_all
  · split <;> simp

/-- C40 is false: a cluster with one 1 and two 0s at a position has hard bit 1 there. -/
theorem c40_majority_false :
    ∃ (c : Cluster) (s : List (List Bool)), Built Mixed c s ∧ c.hardBits = .ok [1, 1] ∧ 2 * onesAt s 0 < s.length := by
  refine ⟨_, [[true, false], [false, true], [false, true]], .add _ ⟨[[2, 1], [1, 2]], 0, 3⟩ [[true, false], [false, true]] [false, true]
    (.add _ ⟨[[1, 1], [1, 1]], 0, 2⟩ [[true, false]] [false, true]
      (.start [true, false] [[0, 1], [1, 0]] 0 ⟨by simp, by simp⟩ (by decide +kernel)) (by decide +kernel)) (by decide +kernel), by decide +kernel, by decide⟩

end NR
