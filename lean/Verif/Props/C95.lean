import Verif.Spec.Trials
import Verif.Props.C89
import Verif.Props.C38_C39
/-
C95: the clustering trials of scripts/clustering_trials.py.
-/
namespace NR
open Spec Trials

/-! ### The buffers -/

theorem spoil_flipAt (errors : List Nat) : ∀ w : List Bool, errors.Nodup → (∀ e ∈ errors, e < w.length) →
    spoil w errors = .ok (flipAt w errors) := by
  induction errors with
  | nil => intro w _ _; rw [flipAt_nil]; rfl
  | cons e es ih =>
    intro w hn hl
    have he : e < w.length := hl e (by simp)
    rw [spoil, List.getElem?_eq_getElem he]
    rw [List.nodup_cons] at hn
    simp only
    rw [ih _ hn.2 (fun x hx => by rw [List.length_set]; exact hl x (by simp [hx]))]
    congr 1
    apply List.ext_getElem?
    intro i
    unfold flipAt
    rw [List.getElem?_mapIdx, List.getElem?_mapIdx, List.getElem?_set]
    by_cases h : e = i
    · subst h
      simp [he, hn.1]
    · rw [if_neg h]
      cases w[i]? <;> simp [Ne.symm h]

theorem spoil_raises (errors : List Nat) : ∀ w : List Bool, (∃ e ∈ errors, w.length ≤ e) → spoil w errors = .error .indexError := by
  induction errors with
  | nil => rintro w ⟨e, he, _⟩; simp at he
  | cons e es ih =>
    rintro w ⟨x, hx, hl⟩
    rw [spoil]
    by_cases h : w.length ≤ e
    · rw [List.getElem?_eq_none h]
    · rw [List.getElem?_eq_getElem (by omega)]
      apply ih
      rcases List.mem_cons.1 hx with rfl | hx
      · omega
      · exact ⟨x, hx, by rwa [List.length_set]⟩

/-- The two options of the script, with their numbers: information bits, wrong bits per word, the parts of a transmission. -/
def Option_ (T : Trial) (k count : Nat) (parts : List Bool → List (List Bool)) : Prop :=
  (T = two ∧ k = 648 ∧ count = 45 ∧ parts = twoParts) ∨ (T = three ∧ k = 486 ∧ count = 34 ∧ parts = threeParts)

theorem word_eq {T : Trial} {k count : Nat} {parts : List Bool → List (List Bool)} (hT : Option_ T k count parts) (tx : List Bool)
    (hl : tx.length = 1224) (c : Nat) (hc : c < T.cuts.length) (pad : Nat → Bool) :
    (T.cuts.getD c ⟨0, none, 0⟩).word tx pad = filled k ((parts tx).getD c []) pad ∧ ((parts tx).getD c []).length ≤ k := by
  rcases hT with ⟨rfl, rfl, rfl, rfl⟩ | ⟨rfl, rfl, rfl, rfl⟩
  · have hc' : c = 0 ∨ c = 1 := by have : c < 2 := hc; omega
    rcases hc' with rfl | rfl <;> simp [two, twoParts, Cut.word, filled, pySlice, hl]
  · have hc' : c = 0 ∨ c = 1 ∨ c = 2 := by have : c < 3 := hc; omega
    rcases hc' with rfl | rfl | rfl <;> simp [three, threeParts, Cut.word, filled, pySlice, hl, List.drop_take]

theorem parts_flatten {T : Trial} {k count : Nat} {parts : List Bool → List (List Bool)} (hT : Option_ T k count parts) (tx : List Bool) :
    (parts tx).flatten = tx ∧ (parts tx).length = T.cuts.length ∧ errorCount T.k T.p = count ∧ T.k = k := by
  rcases hT with ⟨rfl, rfl, rfl, rfl⟩ | ⟨rfl, rfl, rfl, rfl⟩
  · refine ⟨by simp [twoParts], rfl, by decide +kernel, rfl⟩
  · refine ⟨?_, rfl, by decide +kernel, rfl⟩
    simp only [threeParts, List.flatten_cons, List.flatten_nil, List.append_nil]
    rw [show tx.drop 864 = (tx.drop 416).drop 448 by rw [List.drop_drop], List.take_append_drop, List.take_append_drop]

/-- C95: from transmissions of 1224 bits, class `c` gets from each transmission its part number `c`, filled up to the information
bits of the code, with exactly the drawn bits inverted; the parts together are the transmission, nothing is lost. -/
theorem c95_words {T : Trial} {k count : Nat} {parts : List Bool → List (List Bool)} (hT : Option_ T k count parts)
    (txs : List (List Bool)) (hl : ∀ tx ∈ txs, tx.length = 1224) (d : Nat → Nat → ClusterRun.Draw)
    (hd : ∀ t c, Positions k count (d t c).errors) :
    (∀ tx ∈ txs, (parts tx).flatten = tx ∧ (parts tx).length = T.cuts.length) ∧
    ∃ data, build T txs d = .ok data ∧ data.length = txs.length * T.cuts.length ∧
      ∀ t, (ht : t < txs.length) → ∀ c < T.cuts.length,
        ∃ w, data[t * T.cuts.length + c]? = some (w, c) ∧ w.length = k ∧
          w = flipAt (filled k ((parts txs[t]).getD c []) (d t c).pad) (d t c).errors ∧
          diffCount w (filled k ((parts txs[t]).getD c []) (d t c).pad) = count := by
  refine ⟨fun tx _ => ⟨(parts_flatten hT tx).1, (parts_flatten hT tx).2.1⟩, ?_⟩
  have hb : build T txs d = .ok (((List.range txs.length).flatMap fun t => (List.range T.cuts.length).map fun c => (t, c)).map fun x =>
      (flipAt (filled k ((parts (txs.getD x.1 [])).getD x.2 []) (d x.1 x.2).pad) (d x.1 x.2).errors, x.2)) := by
    unfold build
    have : ∀ (l : List (Nat × Nat)), (∀ x ∈ l, x.1 < txs.length ∧ x.2 < T.cuts.length) →
        (l.mapM fun x => do
          let w ← spoil ((T.cuts.getD x.2 ⟨0, none, 0⟩).word (txs.getD x.1 []) (d x.1 x.2).pad) (d x.1 x.2).errors
          (.ok (w, x.2) : Except PyErr (List Bool × Nat))) = .ok (l.map fun x =>
            (flipAt (filled k ((parts (txs.getD x.1 [])).getD x.2 []) (d x.1 x.2).pad) (d x.1 x.2).errors, x.2)) := by
      intro l
      induction l with
      | nil => intro _; rfl
      | cons x l ih =>
        intro h
        obtain ⟨h1, h2⟩ := h x (by simp)
        have hm : txs.getD x.1 [] ∈ txs := by
          rw [List.getD_eq_getElem?_getD, List.getElem?_eq_getElem h1]
          exact List.getElem_mem h1
        obtain ⟨e1, e2⟩ := word_eq hT _ (hl _ hm) x.2 h2 (d x.1 x.2).pad
        have hlen : (filled k ((parts (txs.getD x.1 [])).getD x.2 []) (d x.1 x.2).pad).length = k := by
          unfold filled; simp only [List.length_append, List.length_map, List.length_range]; omega
        rw [List.mapM_cons, e1, spoil_flipAt _ _ (hd _ _).nodup (by rw [hlen]; exact (hd _ _).range),
          ih (fun y hy => h y (by simp [hy]))]
        rfl
    apply this
    intro x hx
    simp only [List.mem_flatMap, List.mem_range, List.mem_map] at hx
    obtain ⟨t, ht, c, hc, rfl⟩ := hx
    exact ⟨ht, hc⟩
  refine ⟨_, hb, by rw [List.length_map, grid_length], ?_⟩
  intro t ht c hc
  have hm : txs[t] ∈ txs := List.getElem_mem ht
  obtain ⟨e1, e2⟩ := word_eq hT _ (hl _ hm) c hc (d t c).pad
  have hlen : (filled k ((parts txs[t]).getD c []) (d t c).pad).length = k := by
    unfold filled; simp only [List.length_append, List.length_map, List.length_range]; omega
  refine ⟨_, ?_, ?_, rfl, ?_⟩
  · rw [List.getElem?_map, grid_get _ _ t c ht hc]
    simp [List.getElem?_eq_getElem ht]
  · rw [flipAt_length, hlen]
  · rw [diffCount_flipAt _ _ (hd t c).nodup (by rw [hlen]; exact (hd t c).range), (hd t c).count]

/-- C95, refuted for shorter transmissions: the second word of option 1 is not filled up, so that an error position beyond its end
raises IndexError. -/
theorem c95_short_false (tx : List Bool) (h0 : 576 ≤ tx.length) (hs : tx.length < 1224) :
    ∃ d : Nat → Nat → ClusterRun.Draw, (∀ t c, Positions 648 45 (d t c).errors) ∧ build two [tx] d = .error .indexError := by
  refine ⟨fun _ c => ⟨fun _ => false, if c = 0 then List.range 45 else (List.range 45).map (603 + ·)⟩, ?_, ?_⟩
  · intro t c
    by_cases hc : c = 0
    · simp only [hc, if_true]
      exact ⟨List.nodup_range, by simp, fun e he => by simp at he; omega⟩
    · simp only [hc, if_false]
      refine ⟨List.nodup_range.map (fun a b h => by simpa using h), by simp, fun e he => ?_⟩
      simp only [List.mem_map, List.mem_range] at he
      obtain ⟨a, ha, rfl⟩ := he
      omega
  · have h1 : spoil ((two.cuts.getD 1 ⟨0, none, 0⟩).word tx fun _ => false) ((List.range 45).map (603 + ·)) = .error .indexError := by
      apply spoil_raises
      refine ⟨647, List.mem_map.2 ⟨44, by simp, rfl⟩, ?_⟩
      simp [two, Cut.word]; omega
    have h2 : ∃ w, spoil ((two.cuts.getD 0 ⟨0, none, 0⟩).word tx fun _ => false) (List.range 45) = .ok w := by
      refine ⟨_, spoil_flipAt _ _ List.nodup_range ?_⟩
      intro e he
      simp only [List.mem_range] at he
      simp [two, Cut.word, pySlice]; omega
    obtain ⟨w, h2⟩ := h2
    unfold build
    rw [show ((List.range [tx].length).flatMap fun t => (List.range two.cuts.length).map fun c => (t, c)) = [(0, 0), (0, 1)] from rfl]
    rw [List.mapM_cons, List.mapM_cons]
    simp only [List.getD_cons_zero, if_true, Nat.one_ne_zero, if_false, bind, Except.bind] at h1 h2 ⊢
    rw [h2]
    simp only [h1]

/-! ### The results -/

theorem labelAll_eq {μ δ : Type} (m : Metrics μ δ) (bs : List (List Bool)) : ∀ (st : Classifier) (ls : List Int),
    labelAll m st bs = .ok ls → ∃ st', classifyAll m st bs = .ok (ls, st') := by
  induction bs with
  | nil => intro st ls h; cases h; exact ⟨st, rfl⟩
  | cons b bs ih =>
    intro st ls h
    unfold labelAll at h
    simp only [bind, Except.bind] at h
    split at h
    · cases h
    · rename_i x hx
      split at h
      · cases h
      · rename_i y hy
        cases h
        obtain ⟨st', hs⟩ := ih _ _ hy
        refine ⟨st', ?_⟩
        unfold classifyAll
        rw [hx]
        simp only [bind, Except.bind, hs]

theorem countP_range_card (N : Nat) (p : Nat → Bool) : (List.range N).countP p = ((Finset.range N).filter fun j => p j = true).card := by
  rw [List.countP_eq_length_filter]
  have : ((Finset.range N).filter fun j => p j = true).card = ((List.range N).filter fun j => decide (p j = true)).length := rfl
  rw [this]
  simp

theorem count_stride (l : List Int) (start step : Nat) (v : Int) :
    (stride l start step).count v = (List.range l.length).countP fun j => decide (l[start + j * step]? = some v) := by
  unfold stride
  generalize List.range l.length = r
  induction r with
  | nil => rfl
  | cons j r ih =>
    rw [List.filterMap_cons, List.countP_cons]
    cases h : l[start + j * step]? with
    | none => simp [ih]
    | some x =>
      rw [List.count_cons, ih]
      simp

theorem stride_back (n first i j : Nat) (hi : i < n) (h1 : first ≤ j) (h2 : j % n = (first + i) % n) :
    first + i ≤ j ∧ first + i + (j - (first + i)) / n * n = j := by
  have hle : first + i ≤ j := by
    by_contra hlt
    have h3 : (first + i - j) % n = 0 := Nat.sub_mod_eq_zero_of_mod_eq h2.symm
    have h4 : first + i - j < n := by omega
    rw [Nat.mod_eq_of_lt h4] at h3
    omega
  refine ⟨hle, ?_⟩
  have h3 : (j - (first + i)) % n = 0 := Nat.sub_mod_eq_zero_of_mod_eq h2
  rw [Nat.div_mul_cancel (Nat.dvd_of_mod_eq_zero h3)]
  omega

/-- Counting every `n`-th label from `first + i` on is counting the labels from `first` on of the positions of one residue. -/
theorem count_stride_class (l : List Int) (n first i : Nat) (hi : i < n) (v : Int) :
    (stride l (first + i) n).count v =
      (List.range l.length).countP fun j => decide (first ≤ j ∧ j % n = (first + i) % n ∧ l[j]? = some v) := by
  rw [count_stride, countP_range_card, countP_range_card]
  have hn : 0 < n := by omega
  apply Finset.card_nbij' (fun q => first + i + q * n) (fun j => (j - (first + i)) / n)
  · intro q hq
    simp only [Finset.coe_filter, Finset.mem_range, decide_eq_true_eq, Set.mem_ofPred_eq] at hq ⊢
    have : first + i + q * n < l.length := (List.getElem?_eq_some_iff.1 hq.2).1
    exact ⟨this, by omega, by rw [Nat.add_mul_mod_self_right], hq.2⟩
  · intro j hj
    simp only [Finset.coe_filter, Finset.mem_range, decide_eq_true_eq, Set.mem_ofPred_eq] at hj ⊢
    obtain ⟨h1, h2, h3, h4⟩ := hj
    have key : first + i ≤ j ∧ first + i + (j - (first + i)) / n * n = j := stride_back n first i j hi h2 h3
    refine ⟨lt_of_le_of_lt (Nat.div_le_self _ _) (by omega), by rw [key.2]; exact h4⟩
  · intro q hq
    simp only
    rw [Nat.add_sub_cancel_left, Nat.mul_div_cancel _ hn]
  · intro j hj
    simp only [Finset.coe_filter, Finset.mem_range, decide_eq_true_eq, Set.mem_ofPred_eq] at hj
    exact (stride_back n first i j hi hj.2.1 hj.2.2.1).2

theorem build_classes (T : Trial) (txs : List (List Bool)) (d : Nat → Nat → ClusterRun.Draw) (data : List (List Bool × Nat))
    (h : build T txs d = .ok data) : ∀ j, j < data.length → ∃ w, data[j]? = some (w, j % T.cuts.length) := by
  unfold build at h
  have key : ∀ (l : List (Nat × Nat)) (data : List (List Bool × Nat)), (l.mapM fun x => do
          let w ← spoil ((T.cuts.getD x.2 ⟨0, none, 0⟩).word (txs.getD x.1 []) (d x.1 x.2).pad) (d x.1 x.2).errors
          (.ok (w, x.2) : Except PyErr (List Bool × Nat))) = .ok data → data.map Prod.snd = l.map Prod.snd := by
    intro l
    induction l with
    | nil => intro data h; cases h; rfl
    | cons x l ih =>
      intro data h
      rw [List.mapM_cons] at h
      simp only [bind, Except.bind] at h
      split at h
      · cases h
      rename_i y hy
      split at hy
      · cases hy
      cases hy
      split at h
      · cases h
      rename_i z hz
      cases h
      simp [ih _ hz]
  have e := key _ _ h
  have hlen : data.length = txs.length * T.cuts.length := by
    have := congrArg List.length e
    rwa [List.length_map, List.length_map, grid_length] at this
  intro j hj
  have hn : 0 < T.cuts.length := by
    rcases Nat.eq_zero_or_pos T.cuts.length with h0 | h0
    · rw [h0, Nat.mul_zero] at hlen; omega
    · exact h0
  have hg := grid_get txs.length T.cuts.length (j / T.cuts.length) (j % T.cuts.length)
    (Nat.div_lt_of_lt_mul (by rw [Nat.mul_comm, ← hlen]; exact hj)) (Nat.mod_lt _ hn)
  rw [Nat.mul_comm, Nat.div_add_mod] at hg
  have e2 := congrArg (fun l => l[j]?) e
  simp only [List.getElem?_map] at e2
  rw [hg] at e2
  rw [List.getElem?_eq_getElem hj] at e2 ⊢
  simp only [Option.map_some, Option.some.injEq] at e2
  exact ⟨data[j].1, by rw [← e2]⟩

/-- C95: entry number `i` of the results counts, for each label, the buffers of class `(n_training - 1 + i) mod n` that got this
label, from the first buffer after training on (the `n_training`-th); the labels are in increasing order and those that nobody got
are left out. -/
theorem c95_results {μ δ : Type} (m : Metrics μ δ) (T : Trial) (_h1 : 1 ≤ T.nTraining) (txs : List (List Bool))
    (d : Nat → Nat → ClusterRun.Draw) (res : List (List (Int × Nat))) (h : run m T txs d = .ok res) :
    ∃ data labels st, build T txs d = .ok data ∧
      classifyAll m { minData := T.nTraining, k := T.cuts.length } (data.map Prod.fst) = .ok (labels, st) ∧
      labels.length = data.length ∧ res.length = T.cuts.length ∧
      ∀ i, (hi : i < res.length) → (res[i].map Prod.fst).Pairwise (· < ·) ∧
        ∀ v count, (v, count) ∈ res[i] ↔ 0 < count ∧
          count = labelled (data.map Prod.snd) labels (T.nTraining - 1) ((T.nTraining - 1 + i) % T.cuts.length) v := by
  unfold run at h
  simp only [bind, Except.bind] at h
  split at h
  · cases h
  rename_i data hb
  split at h
  · cases h
  rename_i labels hlab
  cases h
  obtain ⟨st, hst⟩ := labelAll_eq m _ _ _ hlab
  have hlen : labels.length = data.length := by
    have := (c38_protocol m _ _ _ _ _ hst).1
    simpa using this
  refine ⟨data, labels, st, hb, hst, hlen, by simp [results], ?_⟩
  intro i hi
  have hi' : i < T.cuts.length := by simpa [results] using hi
  have hget : (results T labels)[i] = uniqueCounts (stride labels (T.nTraining - 1 + i) T.cuts.length) := by simp [results]
  rw [hget]
  have hcl := build_classes T txs d data hb
  have hcount : ∀ v, (stride labels (T.nTraining - 1 + i) T.cuts.length).count v =
      labelled (data.map Prod.snd) labels (T.nTraining - 1) ((T.nTraining - 1 + i) % T.cuts.length) v := by
    intro v
    rw [count_stride_class _ _ _ _ hi']
    unfold labelled
    apply List.countP_congr
    intro j hj
    rw [List.mem_range, hlen] at hj
    simp only [decide_eq_true_eq, List.getElem?_map]
    obtain ⟨w, hw⟩ := hcl j hj
    rw [hw]
    simp
  refine ⟨?_, ?_⟩
  · unfold uniqueCounts
    rw [List.map_map]
    have : (Prod.fst ∘ fun v : Int => (v, (stride labels (T.nTraining - 1 + i) T.cuts.length).count v)) = id := rfl
    rw [this, List.map_id]
    exact (npUnique_spec _).1
  · intro v count
    unfold uniqueCounts
    simp only [List.mem_map, Prod.mk.injEq, (npUnique_spec _).2]
    rw [← hcount v]
    constructor
    · rintro ⟨a, ha, rfl, rfl⟩
      exact ⟨List.count_pos_iff.2 ha, rfl⟩
    · rintro ⟨hp, rfl⟩
      exact ⟨v, List.count_pos_iff.1 hp, rfl, rfl⟩

/-- C95: no buffer seen during training is counted, and the labels counted are those of the clusters. -/
theorem c95_after_training {μ δ : Type} (m : Metrics μ δ) (T : Trial) (h1 : 1 ≤ T.nTraining) (txs : List (List Bool))
    (d : Nat → Nat → ClusterRun.Draw) (res : List (List (Int × Nat))) (h : run m T txs d = .ok res) :
    ∀ table ∈ res, ∀ x ∈ table, 0 ≤ x.1 ∧ x.1 < T.cuts.length := by
  obtain ⟨data, labels, st, hb, hl, hlen, hr, hi⟩ := c95_results m T h1 txs d res h
  intro table ht x hx
  obtain ⟨i, hil, rfl⟩ := List.getElem_of_mem ht
  obtain ⟨hp, hc⟩ := ((hi i hil).2 x.1 x.2).1 hx
  rw [hc] at hp
  unfold labelled at hp
  rw [List.countP_pos_iff] at hp
  obtain ⟨j, hj, hjj⟩ := hp
  rw [List.mem_range] at hj
  simp only [decide_eq_true_eq] at hjj
  obtain ⟨a1, _, a3⟩ := hjj
  rw [List.getElem?_eq_getElem hj, Option.some.injEq] at a3
  obtain ⟨p1, p2, p3, p4, _⟩ := c38_protocol m _ _ _ _ _ hl
  have hq := (p2 j hj).2 (by omega)
  rw [a3] at hq
  refine ⟨hq.1, lt_of_lt_of_le hq.2 ?_⟩
  have hne : data.map Prod.fst ≠ [] := by
    intro h0
    rw [p1, h0] at hj
    simp at hj
  have := p4 hne (by rw [p1] at hj; omega)
  omega

/-- C95: each class has exactly one entry. -/
theorem c95_each_class (T : Trial) (c : Nat) (hc : c < T.cuts.length) :
    ∃! i, i < T.cuts.length ∧ (T.nTraining - 1 + i) % T.cuts.length = c := by
  generalize T.cuts.length = n at hc
  generalize T.nTraining - 1 = f
  have hn : 0 < n := by omega
  have hf := Nat.mod_lt f hn
  have e : ∀ i, i < n → (f + i) % n = if f % n + i < n then f % n + i else f % n + i - n := by
    intro i hi
    rw [Nat.add_mod, Nat.mod_eq_of_lt hi]
    split
    · rename_i h; exact Nat.mod_eq_of_lt h
    · rw [Nat.mod_eq_sub_mod (by omega), Nat.mod_eq_of_lt (by omega)]
  refine ⟨if f % n ≤ c then c - f % n else c + n - f % n, ⟨?_, ?_⟩, ?_⟩
  · split <;> omega
  · rw [e _ (by split <;> omega)]
    split <;> split <;> omega
  · rintro i ⟨hi, h⟩
    rw [e i hi] at h
    split at h <;> split <;> omega

/-- C95: with three classes entry `i` is about class `i`; with two classes the entries are swapped: the first is about class 1, the
second about class 0. -/
theorem c95_order {μ δ : Type} (m : Metrics μ δ) (txs : List (List Bool)) (d : Nat → Nat → ClusterRun.Draw) :
    (∀ res, run m three txs d = .ok res → ∃ data labels st, build three txs d = .ok data ∧
      classifyAll m { minData := 100, k := 3 } (data.map Prod.fst) = .ok (labels, st) ∧ res.length = 3 ∧
      ∀ i, (hi : i < res.length) → ∀ v count, (v, count) ∈ res[i] ↔ 0 < count ∧ count = labelled (data.map Prod.snd) labels 99 i v) ∧
    (∀ res, run m two txs d = .ok res → ∃ data labels st, build two txs d = .ok data ∧
      classifyAll m { minData := 100, k := 2 } (data.map Prod.fst) = .ok (labels, st) ∧ res.length = 2 ∧
      ∀ i, (hi : i < res.length) → ∀ v count, (v, count) ∈ res[i] ↔
        0 < count ∧ count = labelled (data.map Prod.snd) labels 99 (1 - i) v) := by
  refine ⟨fun res h => ?_, fun res h => ?_⟩
  · obtain ⟨data, labels, st, hb, hl, hlen, hr, hi⟩ := c95_results m three (by decide) txs d res h
    have hr3 : res.length = 3 := hr
    refine ⟨data, labels, st, hb, hl, hr, fun i hil v count => ?_⟩
    have := (hi i hil).2 v count
    have e : (three.nTraining - 1 + i) % three.cuts.length = i := by
      show (99 + i) % 3 = i
      omega
    rwa [e] at this
  · obtain ⟨data, labels, st, hb, hl, hlen, hr, hi⟩ := c95_results m two (by decide) txs d res h
    have hr3 : res.length = 2 := hr
    refine ⟨data, labels, st, hb, hl, hr, fun i hil v count => ?_⟩
    have := (hi i hil).2 v count
    have e : (two.nTraining - 1 + i) % two.cuts.length = 1 - i := by
      show (99 + i) % 2 = 1 - i
      omega
    rwa [e] at this

/-! ### The hypotheses can be met -/

/-- A small trial: two classes, three training buffers, words of three bits. -/
def exTrial : Trial := ⟨3, 1 / 3, 3, [⟨0, some 2, 1⟩, ⟨2, none, 0⟩]⟩

example : run demoMetrics exTrial [[true, true, false, false, true], [true, true, false, false, true], [true, true, false, false, true]]
    (fun t _ => ⟨fun _ => false, [t % 2]⟩) = .ok [[(0, 1), (1, 1)], [(0, 1), (1, 1)]] := by decide +kernel

example : Positions 648 45 (List.range 45) ∧ Option_ two 648 45 twoParts ∧ Option_ three 486 34 threeParts :=
  ⟨⟨List.nodup_range, by simp, fun e he => by simp at he; omega⟩, .inl ⟨rfl, rfl, rfl, rfl⟩, .inr ⟨rfl, rfl, rfl, rfl⟩⟩

end NR
