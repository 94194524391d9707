import Verif.Spec.ClusterRun
import Verif.Props.C82
import Verif.Props.C33
import Verif.Props.C61_C63
import Verif.Props.C66_C67
/-
C89: the clustering analysis of runs/clsutering_analysis/clustering_analysis.py.
-/
namespace NR
open Spec ClusterRun

/-! ### The buffers -/

theorem errorCount_le (k : Nat) (p : ℚ) (h1 : p ≤ 1) : errorCount k p ≤ k := by
  unfold errorCount
  have h : (k * p : ℚ) ≤ ((k : ℤ) : ℚ) := by
    have : (0 : ℚ) ≤ k := by positivity
    push_cast
    nlinarith
  have : (k * p : ℚ).floor ≤ (k : ℤ) := by
    have := Int.floor_mono h
    rwa [Int.floor_intCast] at this
  omega

theorem part_eq (n : Nat) (hn : 0 < n) (tx : List Bool) (hd : n ∣ tx.length) (c : Nat) :
    pySlice tx (c * tx.length / n) ((c + 1) * tx.length / n) = part n tx c := by
  obtain ⟨m, hm⟩ := hd
  have e : ∀ x, x * tx.length / n = x * m := fun x => by
    rw [hm, Nat.mul_left_comm, Nat.mul_div_cancel_left _ hn]
  have e1 : tx.length / n = m := by rw [hm, Nat.mul_div_cancel_left _ hn]
  unfold part pySlice
  rw [e, e, e1, List.drop_take]
  congr 1
  rw [Nat.add_mul]; omega

theorem part_length (n : Nat) (hn : 0 < n) (tx : List Bool) (hd : n ∣ tx.length) (c : Nat) (hc : c < n) :
    (part n tx c).length = tx.length / n := by
  obtain ⟨m, hm⟩ := hd
  have e1 : tx.length / n = m := by rw [hm, Nat.mul_div_cancel_left _ hn]
  unfold part
  rw [e1, List.length_take, List.length_drop, hm]
  have : (c + 1) * m ≤ n * m := Nat.mul_le_mul_right m hc
  rw [Nat.add_mul] at this
  omega

/-- C89: the parts of a transmission, one after the other, are the transmission. -/
theorem c89_parts (n : Nat) (tx : List Bool) (hd : n ∣ tx.length) :
    ((List.range n).map (part n tx)).flatten = tx := by
  have h := (chunks_flatten tx (tx.length / n) n (Nat.mul_div_le tx.length n |>.trans le_rfl)).1
  rw [Nat.mul_div_cancel' hd, List.take_length] at h
  refine Eq.trans ?_ h
  congr 1
  apply List.map_congr_left
  intro c _
  unfold part pySlice
  rw [List.drop_take]
  congr 1
  rw [Nat.add_mul]; omega

theorem padded_length (n k : Nat) (hn : 0 < n) (tx : List Bool) (hd : n ∣ tx.length) (hk : tx.length / n ≤ k) (c : Nat) (hc : c < n)
    (d : Draw) : (padded n k tx c d).length = k := by
  unfold padded
  rw [List.length_append, part_length n hn tx hd c hc]
  simp; omega

theorem flipAt_eq (w : List Bool) (errors : List Nat) : (w.mapIdx fun i x => xor x (decide (i ∈ errors))) = flipAt w errors := by
  unfold flipAt
  congr 1
  funext i b
  by_cases h : i ∈ errors <;> simp [h]

theorem flipAt_nil (w : List Bool) : flipAt w [] = w := by
  unfold flipAt
  apply List.ext_getElem?
  intro i
  rw [List.getElem?_mapIdx]
  cases w[i]? <;> simp

theorem row_eq (n k : Nat) (hn : 0 < n) (p : ℚ) (h1 : p ≤ 1) (noisy : Bool) (tx : List Bool) (hd : n ∣ tx.length)
    (hk : tx.length / n ≤ k) (c : Nat) (hc : c < n) (d : Draw) (hD : Drawn n k p d) :
    row n k p noisy tx c d = .ok (flipAt (padded n k tx c d) (if noisy then d.errors else [])) := by
  unfold row
  rw [if_neg (by omega), part_eq n hn tx hd c]
  have hl := padded_length n k hn tx hd hk c hc d
  unfold padded at hl ⊢
  simp only [assignRow, hl, if_true, bind, Except.bind]
  have hle : ¬ k / n < errorCount k p / n := by
    have := Nat.div_le_div_right (c := n) (errorCount_le k p h1)
    omega
  rw [if_neg hle, flipAt_eq]
  by_cases hz : 0 < errorCount k p ∧ noisy = true
  · rw [if_pos hz, if_pos hz.2]
  · rw [if_neg hz]
    by_cases hno : noisy = true
    · have : errorCount k p = 0 := by
        by_contra h0
        exact hz ⟨Nat.pos_of_ne_zero h0, hno⟩
      have he : d.errors = [] := by
        have := hD.count
        rw [‹errorCount k p = 0›, Nat.zero_div] at this
        exact List.length_eq_zero_iff.1 this
      rw [if_pos hno, he, flipAt_nil]
    · rw [if_neg hno, flipAt_nil]

theorem grid_length (T n : Nat) : ((List.range T).flatMap fun t => (List.range n).map fun c => (t, c)).length = T * n := by
  induction T with
  | zero => simp
  | succ T ih => rw [List.range_succ, List.flatMap_append, List.length_append, ih]; simp [Nat.add_mul]

theorem grid_get (T n t c : Nat) (ht : t < T) (hc : c < n) :
    ((List.range T).flatMap fun t => (List.range n).map fun c => (t, c))[t * n + c]? = some (t, c) := by
  induction T with
  | zero => omega
  | succ T ih =>
    rw [List.range_succ, List.flatMap_append]
    by_cases h : t < T
    · rw [List.getElem?_append_left, ih h]
      rw [grid_length]
      have := Nat.mul_le_mul_right n (Nat.succ_le_of_lt h)
      rw [Nat.succ_mul] at this
      omega
    · have ht' : t = T := by omega
      subst ht'
      rw [List.getElem?_append_right (by rw [grid_length]; omega), grid_length]
      simp [hc]

/-- The hypotheses on a run: at least one class, transmissions of equal length that `n` divides and whose parts fit into `k` bits, a
probability, and positions as the generator draws them. -/
structure Sound (o : Opts) (k : Nat) (txs : List (List Bool)) (d : Nat → Nat → Draw) : Prop where
  classes : 0 < o.nClasses
  small : o.p ≤ 1
  divides : ∀ tx ∈ txs, o.nClasses ∣ tx.length
  fits : ∀ tx ∈ txs, tx.length / o.nClasses ≤ k
  drawn : ∀ t < txs.length, ∀ c < o.nClasses, Drawn o.nClasses k o.p (d t c)

/-- C89: buffer number `t * n + c` is part `c` of transmission `t`, padded, with the bits at the positions drawn inverted when the
transmission is to be damaged, and its class is `c`. -/
theorem c89_buffers (o : Opts) (k : Nat) (txs : List (List Bool)) (d : Nat → Nat → Draw) (h : Sound o k txs d) :
    ∃ data, build o k txs d = .ok data ∧ data.length = txs.length * o.nClasses ∧
      ∀ t < txs.length, ∀ c < o.nClasses, data[t * o.nClasses + c]? = some (bufferOf o k txs d t c, c) ∧
        (bufferOf o k txs d t c).length = k := by
  have hrow : ∀ x ∈ (List.range txs.length).flatMap fun t => (List.range o.nClasses).map fun c => (t, c),
      (do let r ← row o.nClasses k o.p (o.trainWithErrors || decide (o.nTraining ≤ x.1)) (txs.getD x.1 []) x.2 (d x.1 x.2)
          .ok (r, x.2) : Except PyErr (List Bool × Nat)) = .ok (bufferOf o k txs d x.1 x.2, x.2) := by
    rintro ⟨t, c⟩ hx
    simp only [List.mem_flatMap, List.mem_range, List.mem_map, Prod.mk.injEq] at hx
    obtain ⟨t', ht, c', hc, rfl, rfl⟩ := hx
    have hm : txs.getD t' [] ∈ txs := by
      rw [List.getD_eq_getElem?_getD, List.getElem?_eq_getElem ht]
      exact List.getElem_mem ht
    have := row_eq o.nClasses k h.classes o.p h.small (o.trainWithErrors || decide (o.nTraining ≤ t')) (txs.getD t' [])
      (h.divides _ hm) (h.fits _ hm) c' hc (d t' c') (h.drawn t' ht c' hc)
    simp only [this, bind, Except.bind, bufferOf, damagedAt]
    congr 4
    simp
  refine ⟨_, mapM_ok_map _ _ _ hrow, ?_, ?_⟩
  · rw [List.length_map, grid_length]
  · intro t ht c hc
    have hm : txs.getD t [] ∈ txs := by
      rw [List.getD_eq_getElem?_getD, List.getElem?_eq_getElem ht]
      exact List.getElem_mem ht
    refine ⟨by rw [List.getElem?_map, grid_get _ _ _ _ ht hc]; rfl, ?_⟩
    rw [bufferOf, flipAt_length, padded_length _ _ h.classes _ (h.divides _ hm) (h.fits _ hm) c hc]

/-! ### What is not as expected -/

theorem section_step (R n c : Nat) (hn : 0 < n) :
    (c + 1) * R / n - c * R / n = R / n ∨ (c + 1) * R / n - c * R / n = R / n + 1 := by
  rw [Nat.add_mul, one_mul, Nat.add_div hn]
  generalize c * R / n = a
  generalize R / n = b
  split <;> omega

theorem section_exists (R n : Nat) (hn : 0 < n) (hd : ¬ n ∣ R) : ∃ c < n, (c + 1) * R / n - c * R / n = R / n + 1 := by
  by_contra hno
  have hall : ∀ c, c < n → (c + 1) * R / n = c * R / n + R / n := by
    intro c hc
    have h1 := section_step R n c hn
    have h2 : ¬ ((c + 1) * R / n - c * R / n = R / n + 1) := fun h => hno ⟨c, hc, h⟩
    have h3 : c * R / n ≤ (c + 1) * R / n := Nat.div_le_div_right (by rw [Nat.add_mul]; omega)
    omega
  have hsum : ∀ c, c ≤ n → c * R / n = c * (R / n) := by
    intro c
    induction c with
    | zero => simp
    | succ c ih =>
      intro hc
      rw [hall c (by omega), ih (by omega), Nat.add_mul, one_mul]
  have := hsum n le_rfl
  rw [Nat.mul_div_cancel_left _ hn] at this
  exact hd ⟨_, this⟩

theorem row_error (n k : Nat) (p : ℚ) (noisy : Bool) (tx : List Bool) (c : Nat) (d : Draw) :
    (∃ r, row n k p noisy tx c d = .ok r) ∨ row n k p noisy tx c d = .error .valueError := by
  unfold row
  split
  · exact Or.inr rfl
  · unfold assignRow
    simp only [bind, Except.bind]
    split
    · rename_i e he
      split at he
      · cases he
      · split at he
        · cases he
        · cases he; exact Or.inr rfl
    · split
      · split
        · exact Or.inr rfl
        · exact Or.inl ⟨_, rfl⟩
      · exact Or.inl ⟨_, rfl⟩

theorem row_ragged (n k : Nat) (hn : 0 < n) (hk : 0 < k) (p : ℚ) (noisy : Bool) (tx : List Bool) (c : Nat) (hc : c < n)
    (hs : (c + 1) * tx.length / n - c * tx.length / n = tx.length / n + 1) (d : Draw) :
    row n k p noisy tx c d = .error .valueError := by
  unfold row
  split
  · rfl
  · rename_i hfit
    have hle : (c + 1) * tx.length / n ≤ tx.length := by
      rw [Nat.div_le_iff_le_mul_add_pred hn]
      have := Nat.mul_le_mul_right tx.length (Nat.succ_le_of_lt hc)
      rw [Nat.succ_eq_add_one] at this
      omega
    have hl : (pySlice tx (c * tx.length / n) ((c + 1) * tx.length / n) ++ (List.range (k - tx.length / n)).map d.pad).length = k + 1 := by
      unfold pySlice
      rw [List.length_append, List.length_drop, List.length_take, List.length_map, List.length_range]
      omega
    unfold assignRow
    rw [hl, if_neg (by omega), if_neg (by omega)]
    rfl

theorem mapM_error {α β : Type} (f : α → Except PyErr β) (e : PyErr) (l : List α)
    (hall : ∀ x ∈ l, (∃ r, f x = .ok r) ∨ f x = .error e) (hx : ∃ x ∈ l, f x = .error e) : l.mapM f = .error e := by
  induction l with
  | nil => obtain ⟨x, hx, _⟩ := hx; cases hx
  | cons a l ih =>
    rw [List.mapM_cons]
    rcases hall a (by simp) with ⟨r, hr⟩ | hr
    · rw [hr]
      simp only [bind, Except.bind]
      rw [ih (fun x hm => hall x (List.mem_cons_of_mem _ hm))]
      obtain ⟨x, hm, he⟩ := hx
      rcases List.mem_cons.1 hm with rfl | hm
      · rw [hr] at he; cases he
      · exact ⟨x, hm, he⟩
    · rw [hr]; rfl

/-- C89, refuted for lengths that the number of classes does not divide: the parts then have different lengths, and building the
buffers raises. -/
theorem c89_ragged_false (o : Opts) (k : Nat) (hk : 0 < k) (hn : 0 < o.nClasses) (txs : List (List Bool)) (d : Nat → Nat → Draw)
    (h : ∃ tx ∈ txs, ¬ o.nClasses ∣ tx.length) : build o k txs d = .error .valueError := by
  obtain ⟨tx, hm, hd⟩ := h
  obtain ⟨t, ht, rfl⟩ := List.getElem_of_mem hm
  obtain ⟨c, hc, hs⟩ := section_exists _ _ hn hd
  unfold build
  apply mapM_error
  · intro x _
    rcases row_error o.nClasses k o.p (o.trainWithErrors || decide (o.nTraining ≤ x.1)) (txs.getD x.1 []) x.2 (d x.1 x.2) with
      ⟨r, hr⟩ | hr
    · exact Or.inl ⟨(r, x.2), by rw [hr]; rfl⟩
    · exact Or.inr (by rw [hr]; rfl)
  · refine ⟨(t, c), ?_, ?_⟩
    · simp only [List.mem_flatMap, List.mem_range, List.mem_map, Prod.mk.injEq]
      exact ⟨t, ht, c, hc, rfl, rfl⟩
    · have hg : txs.getD t [] = txs[t] := by rw [List.getD_eq_getElem?_getD, List.getElem?_eq_getElem ht]; rfl
      simp only [hg, row_ragged o.nClasses k hn hk o.p _ txs[t] c hc hs]
      rfl

theorem diffCount_flipAt (w : List Bool) (errors : List Nat) (hn : errors.Nodup) (hl : ∀ e ∈ errors, e < w.length) :
    diffCount (flipAt w errors) w = errors.length := by
  unfold diffCount
  rw [flipAt_length, Nat.max_self]
  have : (List.range w.length).filter (fun i => decide ((flipAt w errors)[i]? ≠ w[i]?)) = (List.range w.length).filter (· ∈ errors) := by
    apply List.filter_congr
    intro i hi
    rw [List.mem_range] at hi
    unfold flipAt
    rw [List.getElem?_mapIdx, List.getElem?_eq_getElem hi]
    by_cases he : i ∈ errors
    · simp [he]
    · simp [he]
  rw [this]
  apply List.Perm.length_eq
  rw [List.perm_ext_iff_of_nodup (List.nodup_range.filter _) hn]
  intro a
  simp only [List.mem_filter, List.mem_range, decide_eq_true_eq]
  exact ⟨fun h => h.2, fun h => ⟨hl a h, h⟩⟩

/-- C89, refuted for the share of inverted bits: with `n` classes a damaged buffer has `int(k * p) // n` of its `k` bits inverted, a
share of at most `p / n` and not `p`, and none from position `k // n` on. -/
theorem c89_rate_false (o : Opts) (k : Nat) (txs : List (List Bool)) (d : Nat → Nat → Draw) (h : Sound o k txs d) (h0 : 0 ≤ o.p)
    (t : Nat) (ht : t < txs.length) (c : Nat) (hc : c < o.nClasses) (hdam : o.trainWithErrors = true ∨ o.nTraining ≤ t) :
    diffCount (bufferOf o k txs d t c) (padded o.nClasses k (txs.getD t []) c (d t c)) = errorCount k o.p / o.nClasses ∧
    (diffCount (bufferOf o k txs d t c) (padded o.nClasses k (txs.getD t []) c (d t c)) : ℚ) / k ≤ o.p / o.nClasses ∧
    ∀ i, k / o.nClasses ≤ i →
      (bufferOf o k txs d t c)[i]? = (padded o.nClasses k (txs.getD t []) c (d t c))[i]? := by
  have hm : txs.getD t [] ∈ txs := by
    rw [List.getD_eq_getElem?_getD, List.getElem?_eq_getElem ht]
    exact List.getElem_mem ht
  have hD := h.drawn t ht c hc
  have hl := padded_length _ _ h.classes _ (h.divides _ hm) (h.fits _ hm) c hc (d t c)
  have hcount : diffCount (bufferOf o k txs d t c) (padded o.nClasses k (txs.getD t []) c (d t c)) = errorCount k o.p / o.nClasses := by
    unfold bufferOf damagedAt
    rw [if_pos hdam, diffCount_flipAt _ _ hD.nodup, hD.count]
    intro e he
    rw [hl]
    exact (hD.range e he).trans_le (Nat.div_le_self _ _)
  refine ⟨hcount, ?_, ?_⟩
  · rw [hcount]
    have hnq : (0 : ℚ) < o.nClasses := by exact_mod_cast h.classes
    rcases Nat.eq_zero_or_pos k with hk | hk
    · rw [hk]; simp; positivity
    have hkq : (0 : ℚ) < k := by exact_mod_cast hk
    rw [div_le_div_iff₀ hkq hnq]
    have e1 : ((errorCount k o.p / o.nClasses : ℕ) : ℚ) * o.nClasses ≤ errorCount k o.p := by
      exact_mod_cast Nat.div_mul_le_self _ _
    have e2 : (errorCount k o.p : ℚ) ≤ k * o.p := by
      unfold errorCount
      have hf : 0 ≤ (k * o.p : ℚ).floor := Rat.le_floor_iff.2 (by push_cast; positivity)
      have : (((k * o.p : ℚ).floor.toNat : ℤ) : ℚ) = ((k * o.p : ℚ).floor : ℚ) := by rw [Int.toNat_of_nonneg hf]
      have h3 : (((k * o.p : ℚ).floor : ℤ) : ℚ) ≤ k * o.p := Int.floor_le (k * o.p : ℚ)
      calc (((k * o.p : ℚ).floor.toNat : ℕ) : ℚ) = (((k * o.p : ℚ).floor.toNat : ℤ) : ℚ) := by norm_cast
        _ = ((k * o.p : ℚ).floor : ℚ) := this
        _ ≤ k * o.p := h3
    linarith
  · intro i hi
    unfold bufferOf flipAt
    rw [List.getElem?_mapIdx]
    have hni : i ∉ damagedAt o d t c := by
      unfold damagedAt
      rw [if_pos hdam]
      intro hc'
      exact absurd (hD.range i hc') (by omega)
    cases (padded o.nClasses k (txs.getD t []) c (d t c))[i]? <;> simp [hni]

/-- C89, refuted for clean training and damaged test buffers: without shuffling, the first `n_training` transmissions are left
undamaged, not the first `n_training` buffers, so the test buffers up to number `n_training * n` have no errors. -/
theorem c89_clean_test_false (o : Opts) (k : Nat) (txs : List (List Bool)) (d : Nat → Nat → Draw) (h : Sound o k txs d)
    (perm : List (List Bool × Nat) → List (List Bool × Nat)) (hs : o.shuffle = false) (he : o.trainWithErrors = false)
    (h0 : 0 < o.nTraining) (t : Nat) (ht : t < txs.length) (c : Nat) (hc : c < o.nClasses) (hclean : t < o.nTraining)
    (htest : o.nTraining ≤ t * o.nClasses + c) :
    ∃ data tt, build o k txs d = .ok data ∧ split o perm data = .ok tt ∧
      tt.2[t * o.nClasses + c - o.nTraining]? = some (padded o.nClasses k (txs.getD t []) c (d t c), c) := by
  obtain ⟨data, hb, hl, hg⟩ := c89_buffers o k txs d h
  have hlt : t * o.nClasses + c < data.length := by
    rw [hl]
    have := Nat.mul_le_mul_right o.nClasses (Nat.succ_le_of_lt ht)
    rw [Nat.succ_mul] at this
    omega
  refine ⟨data, (data.take o.nTraining, data.drop o.nTraining), hb, ?_, ?_⟩
  · unfold split
    rw [if_pos ⟨h0, by omega⟩, hs]
    rfl
  · rw [List.getElem?_drop, show o.nTraining + (t * o.nClasses + c - o.nTraining) = t * o.nClasses + c by omega, (hg t ht c hc).1]
    unfold bufferOf damagedAt
    rw [if_neg (by rw [he]; simp; omega), flipAt_nil]

/-! ### The scores -/

theorem classifyAll_length {σ : Type} (C : Classifier σ) (bs : List (List Bool)) :
    ∀ s l, classifyAll C s bs = .ok l → l.length = bs.length := by
  induction bs with
  | nil => intro s l h; cases h; rfl
  | cons b bs ih =>
    intro s l h
    unfold classifyAll at h
    simp only [bind, Except.bind] at h
    split at h
    · cases h
    · split at h
      · cases h
      · rename_i t ht
        cases h
        simp [ih _ _ ht]

/-- What `analyze` does once the labels are there: the labels of the test buffers are those of the classifier run over all buffers,
training buffers first. -/
theorem analyze_inv {σ : Type} (C : Classifier σ) (s : σ) (o : Opts) (txs : List (List Bool)) (d : Nat → Nat → Draw)
    (perm : List (List Bool × Nat) → List (List Bool × Nat)) (hperm : ∀ l, (perm l).Perm l) (cm : List (List Nat))
    (h : analyze C s o txs d perm = .ok cm) :
    ∃ k data labels out map, ClusterRun.infoBits o.nClasses = .ok k ∧ build o k txs d = .ok data ∧ 0 < o.nTraining ∧ o.nTraining < data.length ∧
      classifyAll C s ((if o.shuffle then perm data else data).map Prod.fst) = .ok labels ∧
      relabel (labels.drop o.nTraining) o.nClasses
        (some (((if o.shuffle then perm data else data).drop o.nTraining).map fun x => Int.ofNat x.2)) = .ok (out, map) ∧
      confusionMatrix (((if o.shuffle then perm data else data).drop o.nTraining).map fun x => Int.ofNat x.2) out = .ok cm ∧
      (if o.shuffle then perm data else data).length = data.length := by
  unfold analyze at h
  simp only [bind, Except.bind] at h
  cases hk : ClusterRun.infoBits o.nClasses with
  | error e => rw [hk] at h; cases h
  | ok k =>
    rw [hk] at h
    simp only at h
    cases hb : build o k txs d with
    | error e => rw [hb] at h; cases h
    | ok data =>
      rw [hb] at h
      simp only at h
      unfold split at h
      by_cases ht : 0 < o.nTraining ∧ o.nTraining < data.length
      · rw [if_pos ht] at h
        simp only [List.take_append_drop] at h
        unfold analyzeMine at h
        simp only [bind, Except.bind] at h
        cases hc : classifyAll C s ((if o.shuffle then perm data else data).map Prod.fst) with
        | error e => rw [hc] at h; cases h
        | ok labels =>
          rw [hc] at h
          simp only at h
          cases hr : relabel (labels.drop o.nTraining) o.nClasses
              (some (((if o.shuffle then perm data else data).drop o.nTraining).map fun x => Int.ofNat x.2)) with
          | error e => rw [hr] at h; cases h
          | ok r =>
            rw [hr] at h
            obtain ⟨out, map⟩ := r
            refine ⟨k, data, labels, out, map, rfl, hb, ht.1, ht.2, hc, hr, h, ?_⟩
            split
            · exact (hperm data).length_eq
            · rfl
      · rw [if_neg ht] at h; cases h

/-- The total of the matrix. -/
theorem confusion_total (actual predicted : List Int) (hl : actual.length = predicted.length) (cm : List (List Nat))
    (h : confusionMatrix actual predicted = .ok cm) : total cm = actual.length := by
  unfold confusionMatrix at h
  rw [if_neg (by omega)] at h
  simp only [Except.ok.injEq] at h
  by_cases hne : actual = []
  · subst hne
    have : predicted = [] := List.length_eq_zero_iff.1 (by simpa using hl.symm)
    subst this
    subst h
    rfl
  · obtain ⟨cm', h1, h2, h3, h4⟩ := c62_labels actual predicted hl hne
    unfold confusionMatrix at h1
    rw [if_neg (by omega)] at h1
    simp only [Except.ok.injEq] at h1
    have hcm : cm' = cm := by rw [← h1, ← h]
    subst hcm
    unfold total
    have hu := npUnique_nodup (actual ++ predicted)
    have hmem := (npUnique_spec (actual ++ predicted)).2
    generalize npUnique (actual ++ predicted) = labels at *
    have e1 : (List.range cm'.length).map (fun i => rowSum cm' i) = labels.map fun l => actual.count l := by
      apply List.ext_getElem
      · simp [h3]
      · intro i h5 h6
        rw [List.length_map] at h6
        rw [List.getElem_map, List.getElem_map, List.getElem_range]
        exact (h4 i _ (List.getElem?_eq_getElem h6)).1
    rw [e1]
    have e2 := sum_countP_key labels hu (fun x : Int => x) (fun _ => true) actual
      (fun p hp _ => (hmem p).2 (List.mem_append_left _ hp))
    simp only [Bool.true_and, List.countP_true] at e2
    exact e2

/-- C89. When the analysis succeeds, the matrix counts the test buffers, and its accuracy is the share of the test buffers whose label
was mapped to the part of the transmission the buffer came from. -/
theorem c89_scores {σ : Type} (C : Classifier σ) (s : σ) (o : Opts) (hn : 0 < o.nClasses) (txs : List (List Bool))
    (d : Nat → Nat → Draw) (perm : List (List Bool × Nat) → List (List Bool × Nat)) (hperm : ∀ l, (perm l).Perm l)
    (cm : List (List Nat)) (h : analyze C s o txs d perm = .ok cm) :
    ∃ k data labels out map, ClusterRun.infoBits o.nClasses = .ok k ∧ build o k txs d = .ok data ∧
      classifyAll C s ((if o.shuffle then perm data else data).map Prod.fst) = .ok labels ∧ labels.length = data.length ∧
      relabel (labels.drop o.nTraining) o.nClasses
        (some (((if o.shuffle then perm data else data).drop o.nTraining).map fun x => Int.ofNat x.2)) = .ok (out, map) ∧
      total cm = data.length - o.nTraining ∧ 0 < total cm ∧
      (stats cm).accuracy = some (((((if o.shuffle then perm data else data).drop o.nTraining).zip out).countP
        fun x => Int.ofNat x.1.2 == x.2 : ℕ) / (total cm : ℚ)) := by
  obtain ⟨k, data, labels, out, map, h1, h2, h3, h4, h5, h6, h7, h8⟩ := analyze_inv C s o txs d perm hperm cm h
  have hlab : labels.length = data.length := by rw [classifyAll_length C _ _ _ h5, List.length_map, h8]
  have hL : Labelled (labels.drop o.nTraining) o.nClasses
      (some (((if o.shuffle then perm data else data).drop o.nTraining).map fun x => Int.ofNat x.2)) := by
    show _ = _
    rw [List.length_map, List.length_drop, List.length_drop, h8, hlab]
  obtain ⟨out', map', r1, -, -, r2, -⟩ := c67_total _ _ hn _ hL
  rw [h6] at r1
  obtain ⟨rfl, rfl⟩ := Prod.mk.injEq .. ▸ Except.ok.inj r1
  have hlen : (((if o.shuffle then perm data else data).drop o.nTraining).map fun x => Int.ofNat x.2).length = out.length := by
    rw [r2, List.length_map, List.length_drop, List.length_drop, h8, hlab]
  have htot := confusion_total _ _ hlen _ h7
  have htot' : total cm = data.length - o.nTraining := by rw [htot, List.length_map, List.length_drop, h8]
  refine ⟨k, data, labels, out, map, h1, h2, h5, hlab, h6, htot', by omega, ?_⟩
  obtain ⟨cm', c1, c2, -, -⟩ := c62_labels _ out hlen (by
    intro h0
    have := congrArg List.length h0
    rw [List.length_map, List.length_drop, h8] at this
    simp at this
    omega)
  rw [h7] at c1
  obtain rfl := Except.ok.inj c1
  rw [c2, htot, List.zip_map_left, List.countP_map]
  rfl

theorem data_classes (o : Opts) (k : Nat) (txs : List (List Bool)) (d : Nat → Nat → Draw) (h : Sound o k txs d)
    (data : List (List Bool × Nat)) (hb : build o k txs d = .ok data) : ∀ x ∈ data, x.2 < o.nClasses := by
  obtain ⟨data', hb', hl, hg⟩ := c89_buffers o k txs d h
  rw [hb] at hb'
  obtain rfl := Except.ok.inj hb'
  intro x hx
  obtain ⟨i, hi, rfl⟩ := List.getElem_of_mem hx
  have ht : i / o.nClasses < txs.length := by
    rw [Nat.div_lt_iff_lt_mul h.classes]; omega
  have hc : i % o.nClasses < o.nClasses := Nat.mod_lt _ h.classes
  have := (hg _ ht _ hc).1
  rw [Nat.div_add_mod', List.getElem?_eq_getElem hi] at this
  rw [Option.some.inj this]
  exact hc

/-- C89. A classifier that separates the parts, whatever it calls them, gets accuracy 1: every test buffer gets a label that depends on
its part only, different parts get different labels, and every part is among the test buffers. -/
theorem c89_recovers {σ : Type} (C : Classifier σ) (s : σ) (o : Opts) (k : Nat) (hk : ClusterRun.infoBits o.nClasses = .ok k)
    (txs : List (List Bool)) (d : Nat → Nat → Draw) (h : Sound o k txs d)
    (perm : List (List Bool × Nat) → List (List Bool × Nat)) (hperm : ∀ l, (perm l).Perm l) (h0 : 0 < o.nTraining)
    (data : List (List Bool × Nat)) (hb : build o k txs d = .ok data) (hne : o.nTraining < data.length)
    (hall : ∀ c, c < o.nClasses → ∃ x ∈ (if o.shuffle then perm data else data).drop o.nTraining, x.2 = c)
    (name : Nat → Nat) (hname : ∀ c, c < o.nClasses → name c < o.nClasses)
    (hinj : ∀ a b, a < o.nClasses → b < o.nClasses → name a = name b → a = b) (labels : List Int)
    (hc : classifyAll C s ((if o.shuffle then perm data else data).map Prod.fst) = .ok labels)
    (hl : labels.drop o.nTraining = ((if o.shuffle then perm data else data).drop o.nTraining).map fun x => (name x.2 : Int)) :
    ∃ cm, analyze C s o txs d perm = .ok cm ∧ (stats cm).accuracy = some 1 := by
  have hp : (if o.shuffle then perm data else data).Perm data := by
    split
    · exact hperm data
    · exact List.Perm.refl _
  generalize hL : (if o.shuffle then perm data else data) = L at hall hc hl hp
  obtain ⟨map, hm⟩ := c67_recovers o.nClasses h.classes ((L.drop o.nTraining).map Prod.snd)
    (by
      intro r hr
      obtain ⟨x, hx, rfl⟩ := List.mem_map.1 hr
      exact data_classes o k txs d h data hb x (hp.mem_iff.1 (List.mem_of_mem_drop hx)))
    (by
      intro r hr
      obtain ⟨x, hx, rfl⟩ := hall r hr
      exact List.mem_map.2 ⟨x, hx, rfl⟩) name hname hinj
  rw [List.map_map, List.map_map] at hm
  have hm' : relabel (labels.drop o.nTraining) o.nClasses (some ((L.drop o.nTraining).map fun x => Int.ofNat x.2)) =
      .ok ((L.drop o.nTraining).map fun x => Int.ofNat x.2, map) := by rw [hl]; exact hm
  have hlen : 0 < (L.drop o.nTraining).length := by rw [List.length_drop, hp.length_eq]; omega
  obtain ⟨cm, c1, c2, -, -⟩ := c62_labels ((L.drop o.nTraining).map fun x => Int.ofNat x.2)
    ((L.drop o.nTraining).map fun x => Int.ofNat x.2) rfl (by
      intro h0
      rw [List.map_eq_nil_iff] at h0
      rw [h0] at hlen
      simp at hlen)
  refine ⟨cm, ?_, ?_⟩
  · unfold analyze
    rw [hk]
    simp only [bind, Except.bind]
    rw [hb]
    simp only
    unfold split
    rw [if_pos ⟨h0, hne⟩, hL]
    simp only [List.take_append_drop]
    unfold analyzeMine
    rw [hc]
    simp only [bind, Except.bind]
    rw [hm']
    exact c1
  · rw [c2]
    congr 1
    have : ((((L.drop o.nTraining).map fun x => Int.ofNat x.2).zip ((L.drop o.nTraining).map fun x => Int.ofNat x.2)).countP
        fun p => p.1 == p.2) = ((L.drop o.nTraining).map fun x => Int.ofNat x.2).length := by
      rw [List.zip_map', List.countP_map, List.length_map]
      apply List.countP_eq_length.2
      intro a _
      simp
    rw [this]
    apply div_self
    rw [List.length_map]
    exact_mod_cast hlen.ne'

/-! ### What is saved -/

theorem list_sum_range {M : Type} [AddCommMonoid M] (m : Nat) (f : Nat → M) :
    ((List.range m).map f).sum = ∑ i ∈ Finset.range m, f i := by
  induction m with
  | zero => simp
  | succ m ih => rw [List.range_succ, List.map_append, List.sum_append, ih, Finset.sum_range_succ]; simp

theorem total_eq (cm : List (List Nat)) :
    total cm = ∑ i ∈ Finset.range cm.length, ∑ j ∈ Finset.range cm.length, cmAt cm i j := by
  unfold total rowSum
  rw [list_sum_range]
  apply Finset.sum_congr rfl
  intro i _
  rw [list_sum_range]

theorem list_sum_comm {α : Type} (l : List α) (s : Finset Nat) (f : α → Nat → Nat) :
    (l.map fun x => ∑ i ∈ s, f x i).sum = ∑ i ∈ s, (l.map fun x => f x i).sum := by
  induction l with
  | nil => simp
  | cons a l ih => simp only [List.map_cons, List.sum_cons, ih, Finset.sum_add_distrib]

/-- C89. Each entry saved is the nearest whole number to its mean over the runs, and the total that is reported as the number of
classified buffers is off by at most half a buffer for each entry of the matrix. -/
theorem c89_saved (cms : List (List (List Nat))) (m T : Nat) (hne : cms ≠ []) (hm : ∀ cm ∈ cms, cm.length = m)
    (hT : ∀ cm ∈ cms, total cm = T) :
    ∃ S, savedMatrix cms = .ok S ∧ S.length = m ∧
      (∀ i j, i < m → j < m → |(cmAt S i j : ℚ) - ((cms.map fun cm => cmAt cm i j).sum : ℕ) / (cms.length : ℚ)| ≤ 1 / 2) ∧
      |(total S : ℚ) - T| ≤ (m : ℚ) ^ 2 / 2 := by
  have hlen : 0 < cms.length := List.length_pos_iff.2 hne
  have hq : (0 : ℚ) < cms.length := by exact_mod_cast hlen
  have hm0 : (cms.getD 0 []).length = m := by
    apply hm
    rw [List.getD_eq_getElem?_getD, List.getElem?_eq_getElem hlen]
    exact List.getElem_mem hlen
  set g : Nat → Nat → ℚ := fun i j => (((cms.map fun cm => cmAt cm i j).sum : ℕ) : ℚ) / (cms.length : ℚ) with hg
  have hok : savedMatrix cms =
      .ok ((List.range m).map fun i => (List.range m).map fun j => (roundHalfEven (g i j)).toNat) := by
    unfold savedMatrix
    rw [hm0]
    simp only
    rw [if_pos (by simpa using hm)]
  have hat : ∀ i j, i < m → j < m →
      cmAt ((List.range m).map fun i => (List.range m).map fun j => (roundHalfEven (g i j)).toNat) i j =
        (roundHalfEven (g i j)).toNat := by
    intro i j hi hj
    simp [cmAt, hi, hj]
  have hround : ∀ i j, |(((roundHalfEven (g i j)).toNat : ℕ) : ℚ) - g i j| ≤ 1 / 2 := by
    intro i j
    have h1 := roundHalfEven_spec (g i j)
    have h0 : 0 ≤ g i j := by rw [hg]; positivity
    have hnn : 0 ≤ roundHalfEven (g i j) := by
      by_contra hlt
      have h2 : roundHalfEven (g i j) ≤ -1 := by omega
      have h3 : ((roundHalfEven (g i j) : ℤ) : ℚ) ≤ -1 := by exact_mod_cast h2
      have h4 := abs_le.1 h1.1
      linarith [h4.1, h4.2]
    have h5 : (((roundHalfEven (g i j)).toNat : ℕ) : ℚ) = ((roundHalfEven (g i j) : ℤ) : ℚ) := by
      have : ((roundHalfEven (g i j)).toNat : ℤ) = roundHalfEven (g i j) := Int.toNat_of_nonneg hnn
      exact_mod_cast this
    rw [h5, abs_sub_comm]
    exact h1.1
  refine ⟨_, hok, by simp, fun i j hi hj => by rw [hat i j hi hj]; exact hround i j, ?_⟩
  have hsum : (T : ℚ) = ∑ i ∈ Finset.range m, ∑ j ∈ Finset.range m, g i j := by
    have e : (cms.map total).sum = ∑ i ∈ Finset.range m, ∑ j ∈ Finset.range m, (cms.map fun cm => cmAt cm i j).sum := by
      have : cms.map total = cms.map fun cm => ∑ i ∈ Finset.range m, ∑ j ∈ Finset.range m, cmAt cm i j := by
        apply List.map_congr_left
        intro cm hcm
        rw [total_eq, hm cm hcm]
      rw [this, list_sum_comm]
      apply Finset.sum_congr rfl
      intro i _
      rw [list_sum_comm]
    have e' : (cms.map total).sum = cms.length * T := by
      rw [List.map_congr_left hT, List.map_const', List.sum_replicate, smul_eq_mul]
    simp only [hg, ← Finset.sum_div]
    rw [eq_div_iff hq.ne', mul_comm]
    exact_mod_cast e'.symm.trans e
  rw [total_eq, List.length_map, List.length_range, hsum]
  push_cast
  rw [← Finset.sum_sub_distrib]
  refine (Finset.abs_sum_le_sum_abs _ _).trans ?_
  have hb : ∀ i ∈ Finset.range m, |(∑ j ∈ Finset.range m, (cmAt ((List.range m).map fun i => (List.range m).map fun j =>
      (roundHalfEven (g i j)).toNat) i j : ℚ)) - ∑ j ∈ Finset.range m, g i j| ≤ m * (1 / 2) := by
    intro i hi
    rw [← Finset.sum_sub_distrib]
    refine (Finset.abs_sum_le_sum_abs _ _).trans ?_
    refine (Finset.sum_le_card_nsmul _ _ (1 / 2) ?_).trans (by simp)
    intro j hj
    rw [hat i j (Finset.mem_range.1 hi) (Finset.mem_range.1 hj)]
    exact hround i j
  refine (Finset.sum_le_card_nsmul _ _ _ hb).trans ?_
  rw [Finset.card_range, nsmul_eq_mul]
  exact le_of_eq (by ring)

/-- C89, refuted for the number of classified buffers: with two runs of two test buffers each, all the means are one half, all the
saved entries are 0, and no buffer is reported as classified. -/
theorem c89_saved_false : ∃ cms : List (List (List Nat)), (∀ cm ∈ cms, cm.length = 2 ∧ total cm = 2) ∧
    ∃ S, savedMatrix cms = .ok S ∧ total S = 0 ∧ (stats S).accuracy = none :=
  ⟨[[[1, 0], [1, 0]], [[0, 1], [0, 1]]], by decide, [[0, 0], [0, 0]], by decide +kernel, by decide, by decide +kernel⟩

/-! ### The hypotheses are met -/

/-- Two transmissions of 4 bits. -/
def exTxs : List (List Bool) := [[true, false, true, true], [false, false, true, false]]

def exOpts : Opts := ⟨2, 1 / 4, 1, false, false⟩

def exDraw : Nat → Nat → Draw := fun _ _ => ⟨fun i => i % 2 == 0, [0]⟩

/-- Buffers of 8 bits, two inverted bits of which one is in the part of a buffer that may be damaged. -/
theorem exSound : Sound exOpts 8 exTxs exDraw where
  classes := by decide
  small := by norm_num [exOpts]
  divides := by decide
  fits := by decide
  drawn := fun t _ c _ => ⟨by simp [exDraw], show 1 = _ by decide +kernel, by simp [exDraw, exOpts]⟩

example : build exOpts 8 exTxs exDraw = .ok
    [([true, false, true, false, true, false, true, false], 0), ([true, true, true, false, true, false, true, false], 1),
     ([true, false, true, false, true, false, true, false], 0), ([false, false, true, false, true, false, true, false], 1)] := by
  decide +kernel

/-- The second buffer is a test buffer without errors, the hypotheses of `c89_clean_test_false` and of `c89_rate_false` are met. -/
example : ∃ data tt, build exOpts 8 exTxs exDraw = .ok data ∧ split exOpts id data = .ok tt ∧
    tt.2[0]? = some (padded 2 8 (exTxs.getD 0 []) 1 (exDraw 0 1), 1) :=
  c89_clean_test_false exOpts 8 exTxs exDraw exSound id rfl rfl (by decide) 0 (by decide) 1 (by decide) (by decide) (by decide)

example : diffCount (bufferOf exOpts 8 exTxs exDraw 1 0) (padded 2 8 (exTxs.getD 1 []) 0 (exDraw 1 0)) = 1 :=
  (c89_rate_false exOpts 8 exTxs exDraw exSound (by norm_num [exOpts]) 1 (by decide) 0 (by decide) (Or.inr (by decide))).1.trans
    (by decide +kernel)

example : build exOpts 8 [[true, false, true]] exDraw = .error .valueError :=
  c89_ragged_false exOpts 8 (by decide) (by decide) _ _ ⟨_, List.mem_singleton.2 rfl, by decide⟩

/-- C89: only two or three classes are supported: with two the words have 648 bits, with three 486, and every other number raises
ValueError whatever else is given. -/
theorem c89_classes {σ : Type} (C : Classifier σ) (s : σ) (o : Opts) (txs : List (List Bool)) (d : Nat → Nat → Draw)
    (perm : List (List Bool × Nat) → List (List Bool × Nat)) :
    (o.nClasses = 2 → ClusterRun.infoBits o.nClasses = .ok 648) ∧ (o.nClasses = 3 → ClusterRun.infoBits o.nClasses = .ok 486) ∧
    (o.nClasses ≠ 2 → o.nClasses ≠ 3 → analyze C s o txs d perm = .error .valueError) := by
  refine ⟨fun h => by simp [ClusterRun.infoBits, h], fun h => by simp [ClusterRun.infoBits, h], fun h2 h3 => ?_⟩
  unfold analyze ClusterRun.infoBits
  rw [if_neg h2, if_neg h3]
  rfl

/-- A classifier that looks at the first bit, on three transmissions of two bits in buffers of the real length. -/
def exClassifier : Classifier Unit := fun _ b => ((), .ok (if b.getD 0 false then 1 else 0))

def exOpts2 : Opts := ⟨2, 0, 2, false, false⟩

def exTxs2 : List (List Bool) := [[true, false], [true, false], [true, false]]

def exDraw2 : Nat → Nat → Draw := fun _ _ => ⟨fun i => i % 3 == 0, []⟩

theorem exSound2 : Sound exOpts2 648 exTxs2 exDraw2 where
  classes := by decide
  small := by norm_num [exOpts2]
  divides := by decide
  fits := by decide
  drawn := fun t _ c _ => ⟨by simp [exDraw2], show 0 = _ by decide +kernel, by simp [exDraw2]⟩

example : ∃ cm, analyze exClassifier () exOpts2 exTxs2 exDraw2 id = .ok cm ∧ (stats cm).accuracy = some 1 := by
  obtain ⟨data, hb, -⟩ := c89_buffers exOpts2 648 exTxs2 exDraw2 exSound2
  have hd : data = (build exOpts2 648 exTxs2 exDraw2).toOption.getD [] := by rw [hb]; rfl
  refine c89_recovers exClassifier () exOpts2 648 rfl exTxs2 exDraw2 exSound2 id (fun _ => List.Perm.refl _) (by decide) data hb
    (by rw [hd]; decide +kernel) (by rw [hd]; decide +kernel) (fun c => 1 - c) (by decide) (fun a b ha hb h => by simp [exOpts2] at ha hb; omega) [1, 0, 1, 0, 1, 0]
    (by rw [hd]; decide +kernel) (by rw [hd]; decide +kernel)

end NR
