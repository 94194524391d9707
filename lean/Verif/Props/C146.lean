import Verif.Spec.Repair
import Verif.Lemmas.Bits
import Verif.Props.C41_C44
import Mathlib.Tactic.NormNum
import Mathlib.Algebra.Order.BigOperators.Group.Finset
/-
C146: what the DUDE denoisers repair in a signal with isolated errors.
-/
namespace NR.C146
open NR Spec

/-- The hard decisions for a binary symmetric channel with flip probability `f`. -/
noncomputable def hard (f : ℝ) : Decide Int :=
  ⟨fun x => x, fun m x => (hardDecision (bsc f) hammingLoss m (if x = 1 then 1 else 0)).1⟩

/-! ### One decision -/

theorem coeffs {f : ℝ} (h0 : 0 ≤ f) (hf : f < 1 / 2) : 0 ≤ 2 * f * (1 - f) ∧ 2 * f * (1 - f) < (1 - f) ^ 2 + f ^ 2 := by
  constructor
  · have : 0 ≤ 1 - f := by linarith
    positivity
  · nlinarith [sq_pos_of_pos (by linarith : 0 < 1 - 2 * f)]

theorem decides {f : ℝ} (hf : f < 1 / 2) {v x : Int} (hv : v = 0 ∨ v = 1) (hx : x = 0 ∨ x = 1) (m : Nat → Nat)
    (h1 : x = v → 2 * f * (1 - f) * m (1 - v).toNat < ((1 - f) ^ 2 + f ^ 2) * m v.toNat)
    (h2 : x ≠ v → m (1 - v).toNat * ((1 - f) ^ 2 + f ^ 2) < 2 * f * (1 - f) * m v.toNat) :
    (hard f).dec ((List.range 2).map m) x = v := by
  classical
  obtain ⟨t0, t1⟩ := c42_threshold f hf (m 0) (m 1) hammingLoss rfl
  have e : (List.range 2).map m = [m 0, m 1] := rfl
  rw [e]
  show (hardDecision (bsc f) hammingLoss [m 0, m 1] (if x = 1 then 1 else 0)).1 = v
  rcases hv with rfl | rfl <;> rcases hx with rfl | rfl
  · have := h1 rfl
    norm_num at this
    rw [if_neg (by decide), t0, if_pos (by nlinarith)]
  · have := h2 (by decide)
    norm_num at this
    rw [if_pos rfl, t1, if_neg (by linarith)]
  · have := h2 (by decide)
    norm_num at this
    rw [if_neg (by decide), t0, if_neg (by linarith)]
  · have := h1 rfl
    norm_num at this
    rw [if_pos rfl, t1, if_pos (by linarith)]

/-! ### Contexts in general -/

/-- Contexts of the signal and of what was received, at the positions in `I`. -/
structure Contexts (s r : List Int) (I : Nat → Prop) (cS cR : Nat → List Int) : Prop where
  inside : ∀ i, I i → i < s.length
  length : ∀ i j, I i → I j → (cS i).length = (cS j).length ∧ (cR i).length = (cS j).length
  one : ∀ i, I i → diffCount (cS i) (cR i) ≤ 1
  clean : ∀ i, I i → r[i]? ≠ s[i]? → cR i = cS i
  tell : ∀ i j, I i → I j → diffCount (cS i) (cS j) ≤ 2 → cS i = cS j ∧ s[i]? = s[j]?

variable {s r : List Int} {I : Nat → Prop} {cS cR : Nat → List Int}

theorem Contexts.same (h : Contexts s r I cS cR) {i j : Nat} (hi : I i) (hj : I j) (e : cR j = cR i) : cS j = cS i ∧ s[j]? = s[i]? := by
  apply h.tell j i hj hi
  have h1 := diffCount_triangle (cS j) (cR j) (cS i) ((h.length j j hj hj).2.symm) (h.length j i hj hi).2
  have h2 := h.one j hj
  have h3 := h.one i hi
  rw [diffCount_comm] at h3
  rw [e] at h1 h2
  omega

theorem Contexts.equal (h : Contexts s r I cS cR) {i j : Nat} (hi : I i) (hj : I j) (e : cS j = cS i) : s[j]? = s[i]? :=
  (h.tell j i hj hi (by rw [(diffCount_eq_zero _ _).2 e]; omega)).2

theorem Contexts.spoiled (h : Contexts s r I cS cR) {i j : Nat} (hi : I i) (hj : I j) (e : cR j = cR i) (hne : cR i ≠ cS i) :
    r[j]? = s[i]? := by
  obtain ⟨h1, h2⟩ := h.same hi hj e
  by_contra hc
  rw [← h2] at hc
  have := h.clean j hj hc
  exact hne (e.symm.trans (this.trans h1))

theorem Contexts.right_iff (h : Contexts s r I cS cR) {i j : Nat} (hi : I i) (hc : cR i = cS i) :
    (I j ∧ cR j = cR i ∧ r[j]? = s[i]?) ↔ (I j ∧ cS j = cS i ∧ cR j = cS j ∧ r[j]? = s[j]?) := by
  constructor
  · rintro ⟨hj, h1, h2⟩
    obtain ⟨h3, h4⟩ := h.same hi hj h1
    exact ⟨hj, h3, h1.trans (hc.trans h3.symm), h2.trans h4.symm⟩
  · rintro ⟨hj, h1, h2, h3⟩
    exact ⟨hj, h2.trans (h1.trans hc.symm), h3.trans (h.equal hi hj h1)⟩

theorem binary_get {l : List Int} (h : Binary l) {i : Nat} (hi : i < l.length) : l[i]? = some 0 ∨ l[i]? = some 1 := by
  rw [List.getElem?_eq_getElem hi]
  rcases h _ (List.getElem_mem hi) with e | e <;> simp [e]

theorem Contexts.wrong_iff (h : Contexts s r I cS cR) (hr : Binary r) (hl : r.length = s.length) {i j : Nat} (hi : I i)
    (hc : cR i = cS i) {v : Int} (hs : s[i]? = some v) (hv : v = 0 ∨ v = 1) :
    (I j ∧ cR j = cR i ∧ r[j]? = some (1 - v)) ↔ (I j ∧ cS j = cS i ∧ r[j]? ≠ s[j]?) := by
  constructor
  · rintro ⟨hj, h1, h2⟩
    obtain ⟨h3, h4⟩ := h.same hi hj h1
    refine ⟨hj, h3, ?_⟩
    rw [h2, h4, hs]
    rcases hv with rfl | rfl <;> decide
  · rintro ⟨hj, h1, h2⟩
    refine ⟨hj, (h.clean j hj h2).trans (h1.trans hc.symm), ?_⟩
    rw [h.equal hi hj h1, hs] at h2
    rcases binary_get hr (hl ▸ h.inside j hj) with e | e <;> rw [e] at h2 ⊢ <;> rcases hv with rfl | rfl <;> simp_all

/-- The decision at a position, from counts of what was received. -/
theorem Contexts.decision (h : Contexts s r I cS cR) [DecidablePred I] (hs : Binary s) (hr : Binary r) (hl : r.length = s.length) {f : ℝ}
    (h0 : 0 ≤ f) (hf : f < 1 / 2) {N i : Nat} (hiN : i < N) (hi : I i) (m : Nat → Nat)
    (hm : ∀ a, m a = (List.range N).countP fun j => decide (I j ∧ cR j = cR i ∧ r[j]? = some (a : Int))) (x : Int) (hx : r[i]? = some x)
    (hw : r[i]? ≠ s[i]? → ((List.range N).countP fun j => decide (I j ∧ cS j = cS i ∧ r[j]? ≠ s[j]?)) * ((1 - f) ^ 2 + f ^ 2) <
      2 * f * (1 - f) * ((List.range N).countP fun j => decide (I j ∧ cS j = cS i ∧ cR j = cS j ∧ r[j]? = s[j]?)))
    (hg : r[i]? = s[i]? → cR i = cS i → 2 * f * (1 - f) * ((List.range N).countP fun j => decide (I j ∧ cS j = cS i ∧ r[j]? ≠ s[j]?)) <
      ((1 - f) ^ 2 + f ^ 2) * ((List.range N).countP fun j => decide (I j ∧ cS j = cS i ∧ cR j = cS j ∧ r[j]? = s[j]?))) :
    s[i]? = some ((hard f).dec ((List.range 2).map m) x) := by
  have hin := h.inside i hi
  obtain ⟨v, hv, hv'⟩ : ∃ v : Int, s[i]? = some v ∧ (v = 0 ∨ v = 1) := by
    rcases binary_get hs hin with e | e
    · exact ⟨0, e, .inl rfl⟩
    · exact ⟨1, e, .inr rfl⟩
  have hx' : x = 0 ∨ x = 1 := by
    rcases binary_get hr (hl ▸ hin) with e | e <;> rw [e] at hx <;> simp at hx <;> omega
  have c1 : ((v.toNat : Nat) : Int) = v := by rcases hv' with rfl | rfl <;> decide
  have c2 : (((1 - v).toNat : Nat) : Int) = 1 - v := by rcases hv' with rfl | rfl <;> decide
  obtain ⟨q1, q2⟩ := coeffs h0 hf
  rw [hv, decides hf hv' hx' m]
  · intro e
    subst e
    by_cases hc : cR i = cS i
    · have e1 : m (1 - x).toNat = (List.range N).countP fun j => decide (I j ∧ cS j = cS i ∧ r[j]? ≠ s[j]?) := by
        rw [hm, c2]
        apply List.countP_congr
        intro j _
        rw [decide_eq_true_iff, decide_eq_true_iff]
        exact h.wrong_iff hr hl hi hc hv hv'
      have e2 : m x.toNat = (List.range N).countP fun j => decide (I j ∧ cS j = cS i ∧ cR j = cS j ∧ r[j]? = s[j]?) := by
        rw [hm, c1, ← hv]
        apply List.countP_congr
        intro j _
        rw [decide_eq_true_iff, decide_eq_true_iff]
        exact h.right_iff hi hc
      rw [e1, e2]
      exact hg (hx.trans hv.symm) hc
    · have e1 : m (1 - x).toNat = 0 := by
        rw [hm, c2, List.countP_eq_zero]
        intro j _ hj
        rw [decide_eq_true_iff] at hj
        have := h.spoiled hi hj.1 hj.2.1 hc
        rw [hj.2.2, hv] at this
        rcases hv' with rfl | rfl <;> simp at this
      have e2 : 0 < m x.toNat := by
        rw [hm, c1, List.countP_pos_iff]
        exact ⟨i, List.mem_range.2 hiN, by rw [decide_eq_true_iff]; exact ⟨hi, rfl, hx⟩⟩
      have e2' : (0 : ℝ) < m x.toNat := by exact_mod_cast e2
      rw [e1, Nat.cast_zero, mul_zero]
      exact mul_pos (by linarith) e2'
  · intro e
    have hne : r[i]? ≠ s[i]? := by rw [hx, hv]; simpa using e
    have hc := h.clean i hi hne
    have e1 : m (1 - v).toNat = (List.range N).countP fun j => decide (I j ∧ cS j = cS i ∧ r[j]? ≠ s[j]?) := by
      rw [hm, c2]
      apply List.countP_congr
      intro j _
      rw [decide_eq_true_iff, decide_eq_true_iff]
      exact h.wrong_iff hr hl hi hc hv hv'
    have e2 : m v.toNat = (List.range N).countP fun j => decide (I j ∧ cS j = cS i ∧ cR j = cS j ∧ r[j]? = s[j]?) := by
      rw [hm, c1, ← hv]
      apply List.countP_congr
      intro j _
      rw [decide_eq_true_iff, decide_eq_true_iff]
      exact h.right_iff hi hc
    rw [e1, e2]
    exact hw hne

/-! ### Windows -/

theorem before_length {l : List Int} {k i : Nat} (h : k ≤ i) (hi : i ≤ l.length) : (before l k i).length = k := by
  unfold before
  rw [List.length_take, List.length_drop]
  omega

theorem after_length {l : List Int} {k i : Nat} (h : i + k < l.length) : (after l k i).length = k := by
  unfold after
  rw [List.length_take, List.length_drop]
  omega

theorem before_get {l : List Int} {k i p : Nat} (hp : p < k) : (before l k i)[p]? = l[i - k + p]? := by
  unfold before
  rw [List.getElem?_take, if_pos hp, List.getElem?_drop]

theorem after_get {l : List Int} {k i p : Nat} (hp : p < k) : (after l k i)[p]? = l[i + 1 + p]? := by
  unfold after
  rw [List.getElem?_take, if_pos hp, List.getElem?_drop]

theorem window_get {l : List Int} {k i p : Nat} (h : k ≤ i) (hi : i ≤ l.length) (hp : p < k + k) :
    (before l k i ++ after l k i)[p]? = l[i - k + p + if p < k then 0 else 1]? := by
  by_cases hk : p < k
  · rw [List.getElem?_append_left (by rw [before_length h hi]; exact hk), before_get hk, if_pos hk, Nat.add_zero]
  · rw [List.getElem?_append_right (by rw [before_length h hi]; omega), before_length h hi, after_get (by omega), if_neg hk]
    congr 1
    omega

theorem diff_le_one {x y : List Int} {L : Nat} (hx : x.length = L) (hy : y.length = L)
    (h : ∀ p q, p < q → q < L → x[p]? ≠ y[p]? → x[q]? ≠ y[q]? → False) : diffCount x y ≤ 1 := by
  unfold diffCount
  rw [hx, hy, max_self]
  show ((Finset.range L).filter fun i => x[i]? ≠ y[i]?).card ≤ 1
  rw [Finset.card_le_one]
  intro p hp q hq
  rw [Finset.mem_filter, Finset.mem_range] at hp hq
  by_contra hne
  rcases Nat.lt_or_gt_of_ne hne with hlt | hlt
  · exact h p q hlt hq.1 hp.2 hq.2
  · exact h q p hlt hp.1 hq.2 hp.2

theorem two_sided {k : Nat} (hl : r.length = s.length) (ht : Telling s k) (hi : Isolated s r (2 * k)) :
    Contexts s r (fun i => k ≤ i ∧ i + k < s.length) (fun i => before s k i ++ after s k i) (fun i => before r k i ++ after r k i) where
  inside := fun i h => by omega
  length := fun i j hi hj => by
    have e1 := before_length (l := s) hi.1 (by omega)
    have e2 := after_length (l := s) hi.2
    have e3 := before_length (l := s) hj.1 (by omega)
    have e4 := after_length (l := s) hj.2
    have e5 := before_length (l := r) hi.1 (by omega)
    have e6 := after_length (l := r) (k := k) (i := i) (by omega)
    simp only [List.length_append]
    omega
  one := fun i h => by
    have e1 := before_length (l := s) h.1 (by omega)
    have e2 := after_length (l := s) h.2
    have e5 := before_length (l := r) h.1 (by omega)
    have e6 := after_length (l := r) (k := k) (i := i) (by omega)
    apply diff_le_one (L := k + k) (by simp only [List.length_append]; omega) (by simp only [List.length_append]; omega)
    intro p q hpq hq h1 h2
    rw [window_get h.1 (by omega) (by omega), window_get h.1 (by omega) (by omega)] at h1 h2
    have := hi _ _ (by split <;> split <;> omega) (Ne.symm h1) (Ne.symm h2)
    split at this <;> split at this <;> omega
  clean := fun i h hne => by
    apply List.ext_getElem?
    intro p
    by_cases hp : p < k + k
    · show (before r k i ++ after r k i)[p]? = (before s k i ++ after s k i)[p]?
      rw [window_get h.1 (by omega) hp, window_get h.1 (by omega) hp]
      by_contra hc
      by_cases hk : p < k
      · rw [if_pos hk] at hc
        have := hi _ _ (by omega) hc hne
        omega
      · rw [if_neg hk] at hc
        have := hi _ _ (by omega) hne hc
        omega
    · have e1 := before_length (l := s) h.1 (by omega)
      have e2 := after_length (l := s) h.2
      have e5 := before_length (l := r) h.1 (by omega)
      have e6 := after_length (l := r) (k := k) (i := i) (by omega)
      rw [List.getElem?_eq_none (by simp only [List.length_append]; omega), List.getElem?_eq_none (by simp only [List.length_append]; omega)]
  tell := fun i j hi hj h => by
    obtain ⟨h1, h2⟩ := ht i j hi.1 hi.2 hj.1 hj.2 h
    exact ⟨(diffCount_eq_zero _ _).1 h1, h2⟩

theorem one_sided {k : Nat} (hl : r.length = s.length) (ht : Foretelling s k) (hi : Isolated s r k) :
    Contexts s r (fun i => k ≤ i ∧ i < s.length) (fun i => before s k i) (fun i => before r k i) where
  inside := fun i h => h.2
  length := fun i j hi hj => by
    rw [before_length (l := s) hi.1 (by omega), before_length (l := s) hj.1 (by omega), before_length (l := r) hi.1 (by omega)]
    exact ⟨rfl, rfl⟩
  one := fun i h => by
    apply diff_le_one (L := k) (before_length h.1 (by omega)) (before_length h.1 (by omega))
    intro p q hpq hq h1 h2
    rw [before_get (by omega), before_get (by omega)] at h1 h2
    have := hi _ _ (by omega) (Ne.symm h1) (Ne.symm h2)
    omega
  clean := fun i h hne => by
    apply List.ext_getElem?
    intro p
    by_cases hp : p < k
    · show (before r k i)[p]? = (before s k i)[p]?
      rw [before_get hp, before_get hp]
      by_contra hc
      have := hi _ _ (by omega) hc hne
      omega
    · rw [List.getElem?_eq_none (by rw [before_length h.1 (by omega)]; omega),
        List.getElem?_eq_none (by rw [before_length h.1 (by omega)]; omega)]
  tell := fun i j hi hj h => ht i j hi.1 hi.2 hj.1 hj.2 h

/-! ### The two-sided denoiser -/

theorem window_eq {a b : List Int} {k i j : Nat} (hi : k ≤ i) (hi' : i + k < a.length) (hj : k ≤ j) (hj' : j + k < b.length) :
    before a k i ++ after a k i = before b k j ++ after b k j ↔ before a k i = before b k j ∧ after a k i = after b k j := by
  constructor
  · intro h
    exact List.append_inj h (by rw [before_length hi (by omega), before_length hj (by omega)])
  · rintro ⟨h1, h2⟩
    rw [h1, h2]

theorem mistakes_eq (s r : List Int) {k i : Nat} (hi : k ≤ i) (hi' : i + k < s.length) :
    mistakes s r k i = (List.range s.length).countP fun j => decide ((k ≤ j ∧ j + k < s.length) ∧
      before s k j ++ after s k j = before s k i ++ after s k i ∧ r[j]? ≠ s[j]?) := by
  unfold mistakes
  apply List.countP_congr
  intro j _
  rw [decide_eq_true_iff, decide_eq_true_iff]
  constructor
  · rintro ⟨h1, h2, h3, h4, h5⟩
    exact ⟨⟨h1, h2⟩, (window_eq h1 h2 hi hi').2 ⟨h3, h4⟩, h5⟩
  · rintro ⟨⟨h1, h2⟩, h3, h5⟩
    obtain ⟨h3, h4⟩ := (window_eq h1 h2 hi hi').1 h3
    exact ⟨h1, h2, h3, h4, h5⟩

theorem intact_eq {s r : List Int} (hl : r.length = s.length) {k i : Nat} (hi : k ≤ i) (hi' : i + k < s.length) :
    intact s r k i = (List.range s.length).countP fun j => decide ((k ≤ j ∧ j + k < s.length) ∧
      before s k j ++ after s k j = before s k i ++ after s k i ∧ before r k j ++ after r k j = before s k j ++ after s k j ∧
      r[j]? = s[j]?) := by
  unfold intact
  apply List.countP_congr
  intro j _
  rw [decide_eq_true_iff, decide_eq_true_iff]
  constructor
  · rintro ⟨h1, h2, h3, h4, h5, h6, h7⟩
    exact ⟨⟨h1, h2⟩, (window_eq h1 h2 hi hi').2 ⟨h3, h4⟩, (window_eq h1 (by omega) h1 h2).2 ⟨h5, h6⟩, h7⟩
  · rintro ⟨⟨h1, h2⟩, h3, h5, h7⟩
    obtain ⟨h3, h4⟩ := (window_eq h1 h2 hi hi').1 h3
    obtain ⟨h5, h6⟩ := (window_eq h1 (by omega) h1 h2).1 h5
    exact ⟨h1, h2, h3, h4, h5, h6, h7⟩

theorem inside_eq {s r : List Int} (hl : r.length = s.length) {k i : Nat} (hi : k ≤ i) (hi' : i + k < s.length) (a : Nat) :
    insideCount r k i a = (List.range s.length).countP fun j => decide ((k ≤ j ∧ j + k < s.length) ∧
      before r k j ++ after r k j = before r k i ++ after r k i ∧ r[j]? = some (a : Int)) := by
  unfold insideCount
  rw [hl]
  apply List.countP_congr
  intro j _
  rw [decide_eq_true_iff, decide_eq_true_iff]
  constructor
  · rintro ⟨h1, h2, h3, h4, h5⟩
    exact ⟨⟨h1, h2⟩, (window_eq h1 (by omega) hi (by omega)).2 ⟨h3, h4⟩, h5⟩
  · rintro ⟨⟨h1, h2⟩, h3, h5⟩
    obtain ⟨h3, h4⟩ := (window_eq h1 (by omega) hi (by omega)).1 h3
    exact ⟨h1, h2, h3, h4, h5⟩

theorem binary_range {l : List Int} (h : Binary l) : ∀ o ∈ l, 0 ≤ o ∧ o < (2 : Nat) := by
  intro o ho
  rcases h o ho with rfl | rfl <;> decide

/-- **C146.** Let the surroundings of a symbol tell it even if two of them are wrong, let errors be more than `2 k` apart, and let, for
each error, the symbols with the same surroundings that were received correctly outnumber those received wrongly by the factor of the
threshold rule. Then `DUDE` corrects every error that has full surroundings, and introduces none. -/
theorem c146_two_sided (f : ℝ) (h0 : 0 ≤ f) (hf : f < 1 / 2) (k : Nat) (s r : List Int) (hs : Binary s) (hr : Binary r)
    (hl : r.length = s.length) (ht : Telling s k) (hi : Isolated s r (2 * k))
    (hm : ∀ i, k ≤ i → i + k < s.length → r[i]? ≠ s[i]? →
      mistakes s r k i * ((1 - f) ^ 2 + f ^ 2) < 2 * f * (1 - f) * intact s r k i) :
    ∃ out, dudeSequence (hard f) 0 2 k r = .ok out ∧ out.length = s.length ∧
      ∀ i, i < s.length → out[i]? = if k ≤ i ∧ i + k < s.length then s[i]? else r[i]? := by
  obtain ⟨out, h1, h2, h3⟩ := c44_counts (hard f) 0 k 2 r (binary_range hr)
  refine ⟨out, h1, h2.trans hl, fun i hin => ?_⟩
  have hir : i < r.length := by omega
  rw [h3 i hir]
  by_cases hI : k ≤ i ∧ i + k < s.length
  · rw [if_pos (by omega), if_pos hI]
    obtain ⟨q1, q2⟩ := coeffs h0 hf
    refine ((two_sided hl ht hi).decision hs hr hl h0 hf hin hI (insideCount r k i) (inside_eq hl hI.1 hI.2) r[i]
      (List.getElem?_eq_getElem hir) ?_ ?_).symm
    · intro hne
      have := hm i hI.1 hI.2 hne
      rw [mistakes_eq s r hI.1 hI.2, intact_eq hl hI.1 hI.2] at this
      exact this
    · intro he hc
      rw [← mistakes_eq s r hI.1 hI.2, ← intact_eq hl hI.1 hI.2]
      by_cases hz : mistakes s r k i = 0
      · have : 0 < intact s r k i := by
          rw [intact_eq hl hI.1 hI.2, List.countP_pos_iff]
          exact ⟨i, List.mem_range.2 hin, by rw [decide_eq_true_iff]; exact ⟨hI, rfl, hc, he⟩⟩
        have : (0 : ℝ) < intact s r k i := by exact_mod_cast this
        rw [hz, Nat.cast_zero, mul_zero]
        exact mul_pos (by linarith) this
      · obtain ⟨j, _, hj⟩ := List.countP_pos_iff.1 (Nat.pos_of_ne_zero hz)
        rw [decide_eq_true_iff] at hj
        obtain ⟨j1, j2, j3, j4, j5⟩ := hj
        have e1 : mistakes s r k j = mistakes s r k i := by unfold mistakes; rw [j3, j4]
        have e2 : intact s r k j = intact s r k i := by unfold intact; rw [j3, j4]
        have := hm j j1 j2 j5
        rw [e1, e2] at this
        have p1 : (0 : ℝ) ≤ mistakes s r k i := by positivity
        have p2 : (0 : ℝ) ≤ intact s r k i := by positivity
        nlinarith
  · rw [if_neg (by omega), if_neg hI, List.getElem?_eq_getElem hir]
    rfl

theorem decides_only {f : ℝ} (hf : f < 1 / 2) {v x : Int} (hv : v = 0 ∨ v = 1) (hx : x = 0 ∨ x = 1) (hne : x ≠ v) (m : Nat → Nat)
    (h : (hard f).dec ((List.range 2).map m) x = v) : m (1 - v).toNat * ((1 - f) ^ 2 + f ^ 2) ≤ 2 * f * (1 - f) * m v.toNat := by
  classical
  obtain ⟨t0, t1⟩ := c42_threshold f hf (m 0) (m 1) hammingLoss rfl
  change (hardDecision (bsc f) hammingLoss [m 0, m 1] (if x = 1 then 1 else 0)).1 = v at h
  rcases hv with rfl | rfl <;> rcases hx with rfl | rfl
  · exact absurd rfl hne
  · rw [if_pos rfl, t1] at h
    split at h
    · cases h
    · norm_num
      linarith
  · rw [if_neg (by decide), t0] at h
    split at h
    · cases h
    · norm_num
      linarith
  · exact absurd rfl hne

/-- **C146**: the condition on the numbers is needed, up to equality. -/
theorem c146_needed (f : ℝ) (hf : f < 1 / 2) (k : Nat) (s r : List Int) (hs : Binary s) (hr : Binary r)
    (hl : r.length = s.length) (ht : Telling s k) (hi : Isolated s r (2 * k)) (i : Nat) (hk : k ≤ i) (hin : i + k < s.length)
    (hne : r[i]? ≠ s[i]?) (out : List Int) (ho : dudeSequence (hard f) 0 2 k r = .ok out) (hc : out[i]? = s[i]?) :
    mistakes s r k i * ((1 - f) ^ 2 + f ^ 2) ≤ 2 * f * (1 - f) * intact s r k i := by
  obtain ⟨out', h1, h2, h3⟩ := c44_counts (hard f) 0 k 2 r (binary_range hr)
  have e := Except.ok.inj (h1.symm.trans ho)
  subst e
  have hir : i < r.length := by omega
  have h := two_sided hl ht hi
  rw [h3 i hir, if_pos (by omega)] at hc
  obtain ⟨v, hv, hv'⟩ : ∃ v : Int, s[i]? = some v ∧ (v = 0 ∨ v = 1) := by
    rcases binary_get hs (by omega : i < s.length) with e | e
    · exact ⟨0, e, .inl rfl⟩
    · exact ⟨1, e, .inr rfl⟩
  have hx' : r[i] = 0 ∨ r[i] = 1 := hr _ (List.getElem_mem hir)
  have c1 : ((v.toNat : Nat) : Int) = v := by rcases hv' with rfl | rfl <;> decide
  have c2 : (((1 - v).toNat : Nat) : Int) = 1 - v := by rcases hv' with rfl | rfl <;> decide
  rw [hv] at hc
  have hcc := h.clean i ⟨hk, hin⟩ hne
  have := decides_only hf hv' hx' (by
    intro e
    apply hne
    rw [List.getElem?_eq_getElem hir, e, hv]) _ (Option.some.inj hc)
  have e1 : insideCount r k i (1 - v).toNat = mistakes s r k i := by
    rw [inside_eq hl hk hin, mistakes_eq s r hk hin, c2]
    apply List.countP_congr
    intro j _
    rw [decide_eq_true_iff, decide_eq_true_iff]
    exact h.wrong_iff hr hl ⟨hk, hin⟩ hcc hv hv'
  have e2 : insideCount r k i v.toNat = intact s r k i := by
    rw [inside_eq hl hk hin, intact_eq hl hk hin, c1, ← hv]
    apply List.countP_congr
    intro j _
    rw [decide_eq_true_iff, decide_eq_true_iff]
    exact h.right_iff ⟨hk, hin⟩ hcc
  rw [e1, e2] at this
  exact this

/-! ### The online denoiser -/

/-- **C146**, for `OnlineDude`: let the `k` symbols before a symbol tell it even if two of them are wrong, and let errors be more than
`k` apart. Then a wrong symbol is corrected if, up to there, the correct ones after the same `k` symbols outnumber the wrong ones by the
factor of the threshold rule. A correct symbol stays if they are not outnumbered by it, and always if one of the `k` symbols before it
is wrong. -/
theorem c146_online (f : ℝ) (h0 : 0 ≤ f) (hf : f < 1 / 2) (k : Nat) (hk : 1 ≤ k) (s r : List Int) (hs : Binary s) (hr : Binary r)
    (hl : r.length = s.length) (ht : Foretelling s k) (hi : Isolated s r k) :
    ∃ out st, OnlineDude.denoiseSequence (hard f) { k := k, A := 2 } r = .ok (out, st) ∧ out.length = s.length ∧
      (∀ i, i < k → out[i]? = r[i]?) ∧
      ∀ i, k ≤ i → i < s.length →
        (r[i]? ≠ s[i]? → mistakesSoFar s r k i * ((1 - f) ^ 2 + f ^ 2) < 2 * f * (1 - f) * intactSoFar s r k i → out[i]? = s[i]?) ∧
        (r[i]? = s[i]? → 2 * f * (1 - f) * mistakesSoFar s r k i < ((1 - f) ^ 2 + f ^ 2) * intactSoFar s r k i → out[i]? = s[i]?) ∧
        (r[i]? = s[i]? → before r k i ≠ before s k i → out[i]? = s[i]?) := by
  obtain ⟨out, st, h1, h2, h3⟩ := c41_counts (hard f) k 2 hk r (binary_range hr)
  refine ⟨out, st, h1, h2.trans hl, fun i hik => ?_, fun i hik hin => ?_⟩
  · by_cases hir : i < r.length
    · rw [h3 i hir, if_pos hik, List.getElem?_eq_getElem hir]
      rfl
    · rw [List.getElem?_eq_none (by omega), List.getElem?_eq_none (by omega)]
  have hir : i < r.length := by omega
  rw [h3 i hir, if_neg (by omega)]
  have em : ∀ a, followCount r k i a = (List.range (i + 1)).countP fun j => decide ((k ≤ j ∧ j < s.length) ∧ before r k j = before r k i ∧
      r[j]? = some (a : Int)) := by
    intro a
    unfold followCount
    apply List.countP_congr
    intro j hj
    have := List.mem_range.1 hj
    rw [decide_eq_true_iff, decide_eq_true_iff]
    exact ⟨fun h => ⟨⟨h.1, by omega⟩, h.2⟩, fun h => ⟨h.1.1, h.2⟩⟩
  have e1 : mistakesSoFar s r k i = (List.range (i + 1)).countP fun j => decide ((k ≤ j ∧ j < s.length) ∧ before s k j = before s k i ∧
      r[j]? ≠ s[j]?) := by
    unfold mistakesSoFar
    apply List.countP_congr
    intro j hj
    have := List.mem_range.1 hj
    rw [decide_eq_true_iff, decide_eq_true_iff]
    exact ⟨fun h => ⟨⟨h.1, by omega⟩, h.2⟩, fun h => ⟨h.1.1, h.2⟩⟩
  have e2 : intactSoFar s r k i = (List.range (i + 1)).countP fun j => decide ((k ≤ j ∧ j < s.length) ∧ before s k j = before s k i ∧
      before r k j = before s k j ∧ r[j]? = s[j]?) := by
    unfold intactSoFar
    apply List.countP_congr
    intro j hj
    have := List.mem_range.1 hj
    rw [decide_eq_true_iff, decide_eq_true_iff]
    exact ⟨fun h => ⟨⟨h.1, by omega⟩, h.2⟩, fun h => ⟨h.1.1, h.2⟩⟩
  rw [e1, e2]
  have D := (one_sided hl ht hi).decision hs hr hl h0 hf (Nat.lt_succ_self i) ⟨hik, hin⟩ (followCount r k i) em r[i]
    (List.getElem?_eq_getElem hir)
  refine ⟨fun hne h => (D (fun _ => h) fun he => absurd he hne).symm, fun he h => (D (fun hne => absurd he hne) fun _ _ => h).symm,
    fun he hc => (D (fun hne => absurd he hne) fun _ hc' => absurd hc' hc).symm⟩

/-! ### Constant signals -/

theorem before_replicate {n k i : Nat} {v : Int} (h : k ≤ i) (hi : i ≤ n) : before (List.replicate n v) k i = List.replicate k v := by
  unfold before
  rw [List.drop_replicate, List.take_replicate]
  congr 1
  omega

theorem after_replicate {n k i : Nat} {v : Int} (hi : i + k < n) : after (List.replicate n v) k i = List.replicate k v := by
  unfold after
  rw [List.drop_replicate, List.take_replicate]
  congr 1
  omega

theorem countP_card (n : Nat) (p : Nat → Prop) [DecidablePred p] : (List.range n).countP (fun i => decide (p i)) =
    ((Finset.range n).filter p).card := by
  rw [List.countP_eq_length_filter]
  rfl

theorem intact_ge {n k i : Nat} {v : Int} {r : List Int} (hl : r.length = n) (hk : k ≤ i) (hi : i + k < n) :
    n ≤ 2 * k + (2 * k + 1) * ((List.range n).countP fun j => decide (r[j]? ≠ some v)) + intact (List.replicate n v) r k i := by
  have hsub : Finset.Ico k (n - k) ⊆
      (((Finset.range n).filter fun j => r[j]? ≠ some v).biUnion fun e => Finset.Icc (e - k) (e + k)) ∪
      (Finset.range n).filter fun j => k ≤ j ∧ j + k < n ∧ before (List.replicate n v) k j = before (List.replicate n v) k i ∧
        after (List.replicate n v) k j = after (List.replicate n v) k i ∧ before r k j = before (List.replicate n v) k j ∧
        after r k j = after (List.replicate n v) k j ∧ r[j]? = (List.replicate n v)[j]? := by
    intro j hj
    rw [Finset.mem_Ico] at hj
    rw [Finset.mem_union]
    by_cases hb : ∃ e, e < n ∧ r[e]? ≠ some v ∧ e - k ≤ j ∧ j ≤ e + k
    · left
      obtain ⟨e, h1, h2, h3, h4⟩ := hb
      rw [Finset.mem_biUnion]
      exact ⟨e, by rw [Finset.mem_filter, Finset.mem_range]; exact ⟨h1, h2⟩, by rw [Finset.mem_Icc]; exact ⟨h3, h4⟩⟩
    · right
      have hb' : ∀ e, e < n → e - k ≤ j → j ≤ e + k → r[e]? = some v := by
        intro e h1 h2 h3
        by_contra hc
        exact hb ⟨e, h1, hc, h2, h3⟩
      rw [Finset.mem_filter, Finset.mem_range]
      refine ⟨by omega, hj.1, by omega, ?_, ?_, ?_, ?_, ?_⟩
      · rw [before_replicate hj.1 (by omega), before_replicate hk (by omega)]
      · rw [after_replicate (by omega), after_replicate hi]
      · rw [before_replicate hj.1 (by omega)]
        apply List.ext_getElem?
        intro p
        by_cases hp : p < k
        · rw [before_get hp, hb' _ (by omega) (by omega) (by omega)]
          simp [hp]
        · rw [List.getElem?_eq_none (by rw [before_length hj.1 (by omega)]; omega), List.getElem?_eq_none (by simp; omega)]
      · rw [after_replicate (by omega)]
        apply List.ext_getElem?
        intro p
        by_cases hp : p < k
        · rw [after_get hp, hb' _ (by omega) (by omega) (by omega)]
          simp [hp]
        · rw [List.getElem?_eq_none (by rw [after_length (by omega)]; omega), List.getElem?_eq_none (by simp; omega)]
      · rw [hb' j (by omega) (by omega) (by omega)]
        simp only [List.getElem?_replicate]
        rw [if_pos (by omega)]
  have h1 := (Finset.card_le_card hsub).trans (Finset.card_union_le _ _)
  have h2 : (((Finset.range n).filter fun j => r[j]? ≠ some v).biUnion fun e => Finset.Icc (e - k) (e + k)).card ≤
      ((Finset.range n).filter fun j => r[j]? ≠ some v).card * (2 * k + 1) := by
    apply Finset.card_biUnion_le_card_mul
    intro e _
    rw [Nat.card_Icc]
    omega
  rw [Nat.card_Ico] at h1
  unfold intact
  rw [List.length_replicate, countP_card, countP_card, Nat.mul_comm (2 * k + 1)]
  omega

/-- **C146**, for a constant signal: all `m` errors are corrected if they are more than `2 k` apart and
`m ((1-f)² + f²) < 2 f (1-f) (n - 2 k - (2 k + 1) m)`. -/
theorem c146_constant (f : ℝ) (h0 : 0 ≤ f) (hf : f < 1 / 2) (n k : Nat) (v : Int) (hv : v = 0 ∨ v = 1) (r : List Int) (hr : Binary r)
    (hl : r.length = n) (hi : Isolated (List.replicate n v) r (2 * k)) (m : Nat)
    (hm : m = (List.range n).countP fun j => decide (r[j]? ≠ some v))
    (hc : (m : ℝ) * ((1 - f) ^ 2 + f ^ 2) < 2 * f * (1 - f) * (n - 2 * k - (2 * k + 1) * m)) :
    ∃ out, dudeSequence (hard f) 0 2 k r = .ok out ∧ out.length = n ∧ ∀ i, k ≤ i → i + k < n → out[i]? = some v := by
  have hsl : (List.replicate n v).length = n := List.length_replicate
  obtain ⟨out, h1, h2, h3⟩ := c146_two_sided f h0 hf k (List.replicate n v) r (fun x hx => by rw [List.eq_of_mem_replicate hx]; exact hv) hr
    (by rw [hsl, hl]) (by
      intro i j i1 i2 j1 j2 _
      rw [hsl] at i2 j2
      refine ⟨?_, ?_⟩
      · unfold distance
        rw [before_replicate i1 (by omega), before_replicate j1 (by omega), after_replicate i2, after_replicate j2,
          (diffCount_eq_zero _ _).2 rfl]
      · rw [List.getElem?_replicate, List.getElem?_replicate, if_pos (by omega), if_pos (by omega)]) hi (by
      intro i i1 i2 _
      rw [hsl] at i2
      have g1 := intact_ge (v := v) hl i1 i2
      rw [← hm] at g1
      have g2 : mistakes (List.replicate n v) r k i ≤ m := by
        rw [hm]
        unfold mistakes
        rw [hsl]
        apply List.countP_mono_left
        intro j hj h
        rw [decide_eq_true_iff] at h ⊢
        have := h.2.2.2.2
        rw [List.getElem?_replicate, if_pos (List.mem_range.1 hj)] at this
        exact this
      have g1' : (n : ℝ) - 2 * k - (2 * k + 1) * m ≤ intact (List.replicate n v) r k i := by
        have : (n : ℝ) ≤ 2 * k + (2 * k + 1) * m + intact (List.replicate n v) r k i := by exact_mod_cast g1
        linarith
      have g2' : (mistakes (List.replicate n v) r k i : ℝ) ≤ m := by exact_mod_cast g2
      obtain ⟨q1, q2⟩ := coeffs h0 hf
      calc _ ≤ (m : ℝ) * ((1 - f) ^ 2 + f ^ 2) := mul_le_mul_of_nonneg_right g2' (by linarith)
        _ < _ := hc
        _ ≤ _ := mul_le_mul_of_nonneg_left g1' q1)
  refine ⟨out, h1, by rw [h2, hsl], fun i i1 i2 => ?_⟩
  rw [h3 i (by omega), if_pos ⟨i1, by omega⟩, List.getElem?_replicate, if_pos (by omega)]

/-! ### A case that meets the hypotheses, and one where the surroundings do not tell the symbol -/

theorem telling_iff (s : List Int) (k : Nat) : Telling s k ↔ ∀ i ∈ List.range s.length, ∀ j ∈ List.range s.length,
    (k ≤ i ∧ i + k < s.length ∧ k ≤ j ∧ j + k < s.length ∧ distance s k i j ≤ 2) → distance s k i j = 0 ∧ s[i]? = s[j]? :=
  ⟨fun h i _ j _ a => h i j a.1 a.2.1 a.2.2.1 a.2.2.2.1 a.2.2.2.2, fun h i j i1 i2 j1 j2 a =>
    h i (List.mem_range.2 (by omega)) j (List.mem_range.2 (by omega)) ⟨i1, i2, j1, j2, a⟩⟩

theorem isolated_iff {s r : List Int} (hl : r.length = s.length) (gap : Nat) : Isolated s r gap ↔ ∀ i ∈ List.range s.length,
    ∀ j ∈ List.range s.length, (i < j ∧ r[i]? ≠ s[i]? ∧ r[j]? ≠ s[j]?) → gap < j - i := by
  have hb : ∀ i, r[i]? ≠ s[i]? → i < s.length := by
    intro i h
    by_contra hc
    rw [List.getElem?_eq_none (by omega), List.getElem?_eq_none (by omega)] at h
    exact h rfl
  exact ⟨fun h i _ j _ a => h i j a.1 a.2.1 a.2.2, fun h i j hij hi hj =>
    h i (List.mem_range.2 (hb i hi)) j (List.mem_range.2 (hb j hj)) ⟨hij, hi, hj⟩⟩

/-- A signal of period seven; windows at different phases differ in at least three symbols. -/
def periodic : List Int := (List.replicate 4 [1, 1, 1, 0, 1, 0, 0]).flatten

example : ∃ out, dudeSequence (hard 0.4) 0 2 3 (periodic.set 12 1) = .ok out ∧ out.length = 28 ∧
    ∀ i, i < 28 → out[i]? = if 3 ≤ i ∧ i + 3 < 28 then periodic[i]? else (periodic.set 12 1)[i]? := by
  refine c146_two_sided 0.4 (by norm_num) (by norm_num) 3 periodic (periodic.set 12 1) (by unfold Binary; decide +kernel)
    (by unfold Binary; decide +kernel) (by decide +kernel) ((telling_iff _ _).2 (by decide +kernel))
    ((isolated_iff (by decide +kernel) _).2 (by decide +kernel)) ?_
  intro i _ h2 h3
  have h28 : i < 28 := by
    have : periodic.length = 28 := by decide +kernel
    omega
  have : ∀ i < 28, (periodic.set 12 1)[i]? ≠ periodic[i]? → mistakes periodic (periodic.set 12 1) 3 i = 1 ∧
      intact periodic (periodic.set 12 1) 3 i = 2 := by decide +kernel
  obtain ⟨e1, e2⟩ := this i h28 h3
  rw [e1, e2]
  norm_num

/-- Eleven zeros with an error in the middle. -/
example : ∃ out, dudeSequence (hard 0.3) 0 2 1 [0, 0, 0, 0, 0, 1, 0, 0, 0, 0, 0] = .ok out ∧ out.length = 11 ∧
    ∀ i, 1 ≤ i → i + 1 < 11 → out[i]? = some 0 :=
  c146_constant 0.3 (by norm_num) (by norm_num) 11 1 0 (.inl rfl) _ (by unfold Binary; decide) rfl
    ((isolated_iff (by decide) _).2 (by decide)) 1 (by decide) (by norm_num)

/-- The same for the online denoiser: the hypotheses hold at the error. -/
example : Foretelling (List.replicate 11 0) 1 ∧ Isolated (List.replicate 11 0) [0, 0, 0, 0, 0, 1, 0, 0, 0, 0, 0] 1 ∧
    mistakesSoFar (List.replicate 11 0) [0, 0, 0, 0, 0, 1, 0, 0, 0, 0, 0] 1 5 * ((1 - 0.3) ^ 2 + 0.3 ^ 2 : ℝ) <
      2 * 0.3 * (1 - 0.3) * intactSoFar (List.replicate 11 0) [0, 0, 0, 0, 0, 1, 0, 0, 0, 0, 0] 1 5 := by
  refine ⟨?_, (isolated_iff (by decide) _).2 (by decide), ?_⟩
  · intro i j i1 i2 j1 j2 _
    rw [List.length_replicate] at i2 j2
    rw [before_replicate i1 (by omega), before_replicate j1 (by omega), List.getElem?_replicate, List.getElem?_replicate, if_pos i2, if_pos j2]
    exact ⟨rfl, rfl⟩
  · have e1 : mistakesSoFar (List.replicate 11 0) [0, 0, 0, 0, 0, 1, 0, 0, 0, 0, 0] 1 5 = 1 := by decide
    have e2 : intactSoFar (List.replicate 11 0) [0, 0, 0, 0, 0, 1, 0, 0, 0, 0, 0] 1 5 = 4 := by decide
    rw [e1, e2]
    norm_num

/-- A signal that alternates, and three errors. -/
def alternating : List Int := (List.replicate 12 [0, 1]).flatten
def received : List Int := ((alternating.set 3 0).set 7 0).set 10 1

/-- C146 without `Telling` is false: here all errors are isolated and rare among the symbols with the same surroundings, but the denoiser
turns a correct symbol into a wrong one, because its surroundings with one error are those of another symbol with one error. -/
theorem c146_telling_false : Binary alternating ∧ Binary received ∧ received.length = alternating.length ∧
    Isolated alternating received (2 * 1) ∧
    (∀ i, 1 ≤ i → i + 1 < alternating.length → received[i]? ≠ alternating[i]? →
      mistakes alternating received 1 i * ((1 - 0.4) ^ 2 + 0.4 ^ 2 : ℝ) < 2 * 0.4 * (1 - 0.4) * intact alternating received 1 i) ∧
    received[11]? = alternating[11]? ∧
    ∃ out, dudeSequence (hard 0.4) 0 2 1 received = .ok out ∧ out[11]? = some 0 ∧ alternating[11]? = some 1 := by
  have hl : received.length = alternating.length := by decide +kernel
  have hb : Binary received := by unfold Binary; decide +kernel
  refine ⟨by unfold Binary; decide +kernel, hb, hl, (isolated_iff hl _).2 (by decide +kernel), ?_, by decide +kernel, ?_⟩
  · intro i _ h2 h3
    have h24 : i < 24 := by
      have : alternating.length = 24 := by decide +kernel
      omega
    have : ∀ i < 24, received[i]? ≠ alternating[i]? → mistakes alternating received 1 i ≤ 2 ∧
        5 ≤ intact alternating received 1 i := by decide +kernel
    obtain ⟨e1, e2⟩ := this i h24 h3
    have e1' : (mistakes alternating received 1 i : ℝ) ≤ 2 := by exact_mod_cast e1
    have e2' : (5 : ℝ) ≤ intact alternating received 1 i := by exact_mod_cast e2
    norm_num
    linarith
  · obtain ⟨out, h1, h2, h3⟩ := c44_counts (hard 0.4) 0 1 2 received (binary_range hb)
    refine ⟨out, h1, ?_, by decide +kernel⟩
    have h11 : 11 < received.length := by decide +kernel
    have hx : received[11] = 1 := by
      have : received[11]? = some 1 := by decide +kernel
      rw [List.getElem?_eq_getElem h11] at this
      exact Option.some.inj this
    rw [h3 11 h11, if_pos (by decide +kernel), hx]
    have e : (List.range 2).map (insideCount received 1 11) = [2, 1] := by decide +kernel
    rw [e]
    obtain ⟨_, t1⟩ := c42_threshold 0.4 (by norm_num) 2 1 hammingLoss rfl
    show some (hardDecision (bsc 0.4) hammingLoss [2, 1] (if (1 : Int) = 1 then 1 else 0)).1 = some 0
    rw [if_pos rfl, t1, if_neg (by norm_num)]

end NR.C146
