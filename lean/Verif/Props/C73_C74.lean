import Verif.Spec.Analysis
import Verif.Props.C35_C36
import Verif.Props.C57
import Verif.Props.C69
import Mathlib.Data.List.Perm.Basic
import Mathlib.Tactic.FieldSimp
/-
C73: the debug analysis. C74: calls with `debug` on.
-/
namespace NR
open Spec
variable {σ Λ : Type}

/-! ### Counting -/

theorem countBelow_congr {n : Nat} {P Q : Nat → Prop} [DecidablePred P] [DecidablePred Q] (h : ∀ i < n, P i ↔ Q i) :
    countBelow n P = countBelow n Q := by
  unfold countBelow
  apply List.countP_congr
  intro i hi
  simpa using h i (List.mem_range.1 hi)

theorem countBelow_split (n : Nat) (P Q : Nat → Prop) [DecidablePred P] [DecidablePred Q] :
    countBelow n P = countBelow n (fun i => P i ∧ Q i) + countBelow n (fun i => P i ∧ ¬ Q i) := by
  unfold countBelow
  generalize List.range n = l
  induction l with
  | nil => rfl
  | cons a l ih =>
    simp only [List.countP_cons, ih]
    by_cases hp : P a <;> by_cases hq : Q a <;> simp [hp, hq] <;> omega

theorem countBelow_total (n : Nat) (P : Nat → Prop) [DecidablePred P] :
    countBelow n P + countBelow n (fun i => ¬ P i) = n := by
  unfold countBelow
  conv_rhs => rw [← List.length_range (n := n)]
  generalize List.range n = l
  induction l with
  | nil => rfl
  | cons a l ih =>
    simp only [List.countP_cons, List.length_cons, ← ih]
    by_cases hp : P a <;> simp [hp] <;> omega

/-- The number of distinct elements of a list of positions. -/
theorem dedup_length {n : Nat} {l : List Nat} (h : ∀ i ∈ l, i < n) : l.dedup.length = countBelow n (· ∈ l) := by
  unfold countBelow
  rw [List.countP_eq_length_filter]
  apply List.Perm.length_eq
  refine (List.perm_ext_iff_of_nodup (List.nodup_dedup l) (List.nodup_range.filter _)).2 fun a => ?_
  simp only [List.mem_dedup, List.mem_filter, List.mem_range, decide_eq_true_eq]
  exact ⟨fun h' => ⟨h a h', h'⟩, fun h' => h'.2⟩

theorem dedup_filter_length {n : Nat} {l : List Nat} (h : ∀ i ∈ l, i < n) (P : Nat → Prop) [DecidablePred P] :
    (l.filter (fun i => decide (P i))).dedup.length = countBelow n fun i => i ∈ l ∧ P i := by
  rw [dedup_length (n := n) fun i hi => h i (List.mem_filter.1 hi).1]
  exact countBelow_congr fun i _ => by simp

theorem nodup_length {n : Nat} {l : List Nat} (hn : l.Nodup) (h : ∀ i ∈ l, i < n) : l.length = countBelow n (· ∈ l) := by
  rw [← dedup_length h, List.dedup_eq_self.2 hn]

/-! ### C73: confusion -/

/-- The table up to the negatives: true and false positives, false negatives and the number of positives are always right. -/
theorem confusion_counts {n : Nat} {pred act : List Nat} (hp : ∀ i ∈ pred, i < n) (ha : ∀ i ∈ act, i < n) (hn : act.Nodup)
    (neg : Int) :
    (confusionTable pred act neg).tp = countBelow n (fun i => i ∈ pred ∧ i ∈ act) ∧
    (confusionTable pred act neg).fp = countBelow n (fun i => i ∈ pred ∧ ¬ i ∈ act) ∧
    (confusionTable pred act neg).fn = countBelow n (fun i => ¬ i ∈ pred ∧ i ∈ act) ∧
    (confusionTable pred act neg).positive = countBelow n (· ∈ act) ∧
    (confusionTable pred act neg).negative = neg ∧
    (confusionTable pred act neg).tn = neg - (confusionTable pred act neg).fp := by
  refine ⟨dedup_filter_length hp _, dedup_filter_length hp _, ?_, nodup_length hn ha, rfl, rfl⟩
  refine (dedup_filter_length ha _).trans (countBelow_congr fun i _ => and_comm)

/-- The table is right exactly when the given number of negatives is. -/
theorem confusion_iff {n : Nat} {pred act : List Nat} (hp : ∀ i ∈ pred, i < n) (ha : ∀ i ∈ act, i < n) (hn : act.Nodup)
    (neg : Int) : IsTable n (· ∈ pred) (· ∈ act) (confusionTable pred act neg) ↔ neg = (n : Int) - act.length := by
  obtain ⟨h1, h2, h3, h4, h5, h6⟩ := confusion_counts hp ha hn neg
  have ht := countBelow_total n (· ∈ act)
  have hl := nodup_length hn ha
  have hs := countBelow_split n (fun i => ¬ i ∈ act) (· ∈ pred)
  have e1 : countBelow n (fun i => ¬ i ∈ act ∧ i ∈ pred) = countBelow n (fun i => i ∈ pred ∧ ¬ i ∈ act) :=
    countBelow_congr fun i _ => and_comm
  have e2 : countBelow n (fun i => ¬ i ∈ act ∧ ¬ i ∈ pred) = countBelow n (fun i => ¬ i ∈ pred ∧ ¬ i ∈ act) :=
    countBelow_congr fun i _ => and_comm
  constructor
  · intro h
    have := h.negative
    rw [h5] at this
    omega
  · intro h
    exact ⟨h1, h2, by rw [h6, h2]; omega, h3, h4, by rw [h5]; omega⟩

/-- C73. The table of distinct positions below `n`: with `n` minus the number of actual positives for the negatives, all six
numbers are what they say. -/
theorem c73_confusion (n : Nat) (pred act : List Nat) (hp : ∀ i ∈ pred, i < n) (ha : ∀ i ∈ act, i < n) (hn : act.Nodup) :
    IsTable n (· ∈ pred) (· ∈ act) (confusionTable pred act ((n : Int) - act.length)) :=
  (confusion_iff hp ha hn _).2 rfl

/-- Ten positions, three of them predicted (one twice), three positive. -/
example : confusionTable [1, 4, 4, 7] [4, 2, 7] (10 - 3) = ⟨2, 1, 6, 1, 3, 7⟩ := by decide
example : IsTable 10 (· ∈ [1, 4, 4, 7]) (· ∈ [4, 2, 7]) (confusionTable [1, 4, 4, 7] [4, 2, 7] (10 - 3)) :=
  c73_confusion 10 _ _ (by decide) (by decide) (by decide)

/-! ### C73: fields -/

theorem isTable_congr {n : Nat} {p p' a a' : Nat → Prop} [DecidablePred p] [DecidablePred p'] [DecidablePred a]
    [DecidablePred a'] (hp : ∀ i < n, p i ↔ p' i) (ha : ∀ i < n, a i ↔ a' i) (t : Confusion) :
    IsTable n p a t ↔ IsTable n p' a' t := by
  have key : ∀ {p p' a a' : Nat → Prop} [DecidablePred p] [DecidablePred p'] [DecidablePred a] [DecidablePred a'],
      (∀ i < n, p i ↔ p' i) → (∀ i < n, a i ↔ a' i) → IsTable n p a t → IsTable n p' a' t := by
    intro p p' a a' _ _ _ _ hp ha h
    have c1 : ∀ (q q' : Nat → Prop) [DecidablePred q] [DecidablePred q'], (∀ i < n, q i ↔ q' i) →
        countBelow n q = countBelow n q' := fun q q' _ _ => countBelow_congr
    refine ⟨h.tp.trans (c1 _ _ ?_), h.fp.trans (c1 _ _ ?_), h.tn.trans ?_, h.fn.trans (c1 _ _ ?_), h.positive.trans (c1 _ _ ha),
      h.negative.trans ?_⟩
    · intro i hi; rw [hp i hi, ha i hi]
    · intro i hi; rw [hp i hi, ha i hi]
    · exact congrArg Nat.cast (c1 _ _ fun i hi => by rw [hp i hi, ha i hi])
    · intro i hi; rw [hp i hi, ha i hi]
    · exact congrArg Nat.cast (c1 _ _ fun i hi => by rw [ha i hi])
  exact ⟨key hp ha, key (fun i hi => (hp i hi).symm) (fun i hi => (ha i hi).symm)⟩

/-- The indices of the fields the errors lie in, one entry per error. -/
theorem damaged_list {n : Nat} {st : List (Nat × Nat)} (hs : InRange n st) (hn : NonOverlapping st) (errors : List Nat) :
    ∃ d, BufferModel.findDamaged errors st n = .ok (some d) ∧
      (∀ i, i ∈ d.map Prod.snd ↔ Damaged st errors i) ∧ d.length = hits st errors ∧
      ((d.map Prod.snd).Nodup ↔ ∀ p ∈ fieldPlaces st, (errors.countP fun e => decide (HitBy p e)) ≤ 1) := by
  obtain ⟨sorted, hperm, _, hd⟩ := c35_damaged n st hs hn errors
  have hfun : (fun e => if e < 8 * n then fieldAt st (e / 8) else none) = fun e => fieldAt st (e / 8) := by
    funext e
    split
    · rfl
    · rename_i hlt
      rcases hf : fieldAt st (e / 8) with _ | ⟨nm, j⟩
      · rfl
      · obtain ⟨p, hp, _, hh⟩ := (c35_field_at hs hn _ _ _).1 hf
        have := fieldPlaces_bound hs (List.mem_of_getElem? hp)
        have := hh.2
        omega
  rw [hfun] at hd
  have hsome : ∀ e i, (∃ nm, fieldAt st (e / 8) = some (nm, i)) ↔ ∃ p, (fieldPlaces st)[i]? = some p ∧ HitBy p e := by
    intro e i
    constructor
    · rintro ⟨nm, h⟩
      obtain ⟨p, hp, _, hh⟩ := (c35_field_at hs hn _ _ _).1 h
      exact ⟨p, hp, hh⟩
    · rintro ⟨p, hp, hh⟩
      exact ⟨p.name, (c35_field_at hs hn _ _ _).2 ⟨p, hp, rfl, hh⟩⟩
  refine ⟨_, hd, fun i => ?_, ?_, ?_⟩
  · simp only [List.mem_map, List.mem_filterMap, Damaged]
    constructor
    · rintro ⟨⟨nm, j⟩, ⟨e, he, hf⟩, rfl⟩
      obtain ⟨p, hp, hh⟩ := (hsome e j).1 ⟨nm, hf⟩
      exact ⟨p, hp, e, hperm.mem_iff.1 he, hh⟩
    · rintro ⟨p, hp, e, he, hh⟩
      obtain ⟨nm, hf⟩ := (hsome e i).2 ⟨p, hp, hh⟩
      exact ⟨(nm, i), ⟨e, hperm.mem_iff.2 he, hf⟩, rfl⟩
  · unfold hits
    rw [← hperm.countP_eq, List.length_filterMap_eq_countP]
    apply List.countP_congr
    intro e _
    simp only [decide_eq_true_eq]
    constructor
    · intro h
      rcases hf : fieldAt st (e / 8) with _ | ⟨nm, j⟩
      · rw [hf] at h; cases h
      · obtain ⟨p, hp, hh⟩ := (hsome e j).1 ⟨nm, hf⟩
        exact ⟨p, List.mem_of_getElem? hp, hh⟩
    · rintro ⟨p, hp, hh⟩
      obtain ⟨i, hi⟩ := List.mem_iff_getElem?.1 hp
      obtain ⟨nm, hf⟩ := (hsome e i).2 ⟨p, hi, hh⟩
      rw [hf]; rfl
  · rw [List.map_filterMap, List.nodup_iff_count_le_one]
    have hcount : ∀ i p, (fieldPlaces st)[i]? = some p →
        (sorted.filterMap fun e => (fieldAt st (e / 8)).map Prod.snd).count i = errors.countP fun e => decide (HitBy p e) := by
      intro i p hp
      rw [← hperm.countP_eq, List.count_eq_countP, List.countP_filterMap]
      apply List.countP_congr
      intro e _
      simp only [decide_eq_true_eq]
      constructor
      · intro h
        rcases hf : fieldAt st (e / 8) with _ | ⟨nm, j⟩
        · rw [hf] at h; simp at h
        · rw [hf] at h
          simp at h
          subst h
          obtain ⟨q, hq, hh⟩ := (hsome e j).1 ⟨nm, hf⟩
          rw [hp] at hq; cases hq; exact hh
      · intro hh
        obtain ⟨nm, hf⟩ := (hsome e i).2 ⟨p, hp, hh⟩
        rw [hf]; simp
    constructor
    · intro h p hp
      obtain ⟨i, hi⟩ := List.mem_iff_getElem?.1 hp
      rw [← hcount i p hi]
      exact h i
    · intro h i
      rcases hp : (fieldPlaces st)[i]? with _ | p
      · rw [List.count_eq_zero_of_not_mem]
        · omega
        · intro hm
          obtain ⟨e, _, he⟩ := List.mem_filterMap.1 hm
          rcases hf : fieldAt st (e / 8) with _ | ⟨nm, j⟩
          · rw [hf] at he; cases he
          · rw [hf] at he; cases he
            obtain ⟨q, hq, _⟩ := (hsome e _).1 ⟨nm, hf⟩
            rw [hp] at hq; cases hq
      · rw [hcount i p hp]
        exact h p (List.mem_of_getElem? hp)

/-- C73. The report on the flagged fields of a buffer with `N` fields. It is empty when no error lies in a field. Otherwise it
counts the fields and the damaged ones, and for both flags the true and false positives, the false negatives and the
positives are right. The negatives are the number of errors subtracted from the number of fields (the number of errors for the
good fields), so the tables are right exactly when no field has two errors. -/
theorem c73_fields (n : Nat) (st : List (Nat × Nat)) (hs : InRange (n / 8) st) (hn : NonOverlapping st) (good bad errors : List Nat)
    (N : Nat) (hN : N = (fieldPlaces st).length) (hg : ∀ i ∈ good, i < N) (hb : ∀ i ∈ bad, i < N) :
    (hits st errors = 0 → classifierReport n st good bad errors N = .ok none) ∧
    (hits st errors ≠ 0 → ∃ r, classifierReport n st good bad errors N = .ok (some r) ∧ r.nFields = N ∧
      r.nDamaged = countBelow N (Damaged st errors) ∧
      (r.bad.tp = countBelow N (fun i => i ∈ bad ∧ Damaged st errors i) ∧
        r.bad.fp = countBelow N (fun i => i ∈ bad ∧ ¬ Damaged st errors i) ∧
        r.bad.fn = countBelow N (fun i => ¬ i ∈ bad ∧ Damaged st errors i) ∧
        r.bad.positive = countBelow N (Damaged st errors) ∧
        r.bad.negative = (N : Int) - hits st errors ∧ r.bad.tn = (N : Int) - hits st errors - r.bad.fp) ∧
      (r.good.tp = countBelow N (fun i => i ∈ good ∧ ¬ Damaged st errors i) ∧
        r.good.fp = countBelow N (fun i => i ∈ good ∧ Damaged st errors i) ∧
        r.good.fn = countBelow N (fun i => ¬ i ∈ good ∧ ¬ Damaged st errors i) ∧
        r.good.positive = countBelow N (fun i => ¬ Damaged st errors i) ∧
        r.good.negative = hits st errors ∧ r.good.tn = (hits st errors : Int) - r.good.fp) ∧
      (IsTable N (· ∈ bad) (Damaged st errors) r.bad ↔
        ∀ p ∈ fieldPlaces st, (errors.countP fun e => decide (HitBy p e)) ≤ 1) ∧
      (IsTable N (· ∈ good) (fun i => ¬ Damaged st errors i) r.good ↔
        ∀ p ∈ fieldPlaces st, (errors.countP fun e => decide (HitBy p e)) ≤ 1)) := by
  obtain ⟨d, h1, h2, h3, h4⟩ := damaged_list hs hn errors
  have hlt : ∀ i, Damaged st errors i → i < N := by
    rintro i ⟨p, hp, _⟩
    rw [hN]
    exact (List.getElem?_eq_some_iff.1 hp).1
  unfold classifierReport
  simp only [h1, bind, Except.bind]
  constructor
  · intro h0
    have : d = [] := List.length_eq_zero_iff.1 (h3.trans h0)
    rw [this]
  · intro h0
    rcases d with _ | ⟨x, d⟩
    · exact absurd h3.symm h0
    · simp only
      generalize x :: d = d at h2 h3 h4 ⊢
      have hdf : ∀ i, i ∈ (d.map Prod.snd).dedup ↔ Damaged st errors i := fun i => by rw [List.mem_dedup, h2]
      have hdl : ∀ i ∈ (d.map Prod.snd).dedup, i < N := fun i hi => hlt i ((hdf i).1 hi)
      have hgl : ∀ i ∈ (List.range N).filter (fun i => decide (i ∉ (d.map Prod.snd).dedup)), i < N := fun i hi =>
        List.mem_range.1 (List.mem_filter.1 hi).1
      have hgm : ∀ i < N, i ∈ (List.range N).filter (fun i => decide (i ∉ (d.map Prod.snd).dedup)) ↔ ¬ Damaged st errors i := by
        intro i hi
        rw [List.mem_filter, List.mem_range, decide_eq_true_eq, hdf]
        exact ⟨fun h => h.2, fun h => ⟨hi, h⟩⟩
      have hnd : (d.map Prod.snd).dedup.Nodup := List.nodup_dedup _
      have hgn : ((List.range N).filter (fun i => decide (i ∉ (d.map Prod.snd).dedup))).Nodup := List.nodup_range.filter _
      have hdc : (d.map Prod.snd).dedup.length = countBelow N (Damaged st errors) := by
        rw [nodup_length hnd hdl]
        exact countBelow_congr fun i _ => hdf i
      have hgc : ((List.range N).filter (fun i => decide (i ∉ (d.map Prod.snd).dedup))).length =
          countBelow N (fun i => ¬ Damaged st errors i) := by
        rw [nodup_length hgn hgl]
        exact countBelow_congr hgm
      have htot := countBelow_total N (Damaged st errors)
      have hone : d.length = (d.map Prod.snd).dedup.length ↔
          ∀ p ∈ fieldPlaces st, (errors.countP fun e => decide (HitBy p e)) ≤ 1 := by
        rw [← h4, ← List.dedup_eq_self]
        constructor
        · intro h
          exact (List.dedup_sublist (d.map Prod.snd)).eq_of_length (by rw [List.length_map]; exact h.symm)
        · intro h
          rw [h, List.length_map]
      obtain ⟨b1, b2, b3, b4, b5, b6⟩ := confusion_counts hb hdl hnd ((N : Int) - d.length)
      obtain ⟨g1, g2, g3, g4, g5, g6⟩ := confusion_counts hg hgl hgn (d.length : Int)
      refine ⟨_, rfl, rfl, hdc, ⟨?_, ?_, ?_, ?_, ?_, ?_⟩, ⟨?_, ?_, ?_, ?_, ?_, ?_⟩, ?_, ?_⟩
      · rw [b1]; exact countBelow_congr fun i _ => by rw [hdf]
      · rw [b2]; exact countBelow_congr fun i _ => by rw [hdf]
      · rw [b3]; exact countBelow_congr fun i _ => by rw [hdf]
      · rw [b4]; exact countBelow_congr fun i _ => hdf i
      · rw [b5, h3]
      · rw [b6, h3]
      · rw [g1]; exact countBelow_congr fun i hi => by rw [hgm i hi]
      · rw [g2]; exact countBelow_congr fun i hi => by rw [hgm i hi, not_not]
      · rw [g3]; exact countBelow_congr fun i hi => by rw [hgm i hi]
      · rw [g4]; exact countBelow_congr fun i hi => hgm i hi
      · rw [g5, h3]
      · rw [g6, h3]
      · rw [← hone, ← isTable_congr (fun i _ => Iff.rfl) (fun i _ => hdf i), confusion_iff hb hdl hnd]
        omega
      · rw [← hone, ← isTable_congr (fun i _ => Iff.rfl) hgm, confusion_iff hg hgl hgn, hgc]
        omega

/-- C73. With two errors in the same field the report counts one undamaged field too few, and one true negative too few: for a
heartbeat (12 fields) with two errors in its first byte, flagged as it should be, it reports 10 negatives although 11 fields
are undamaged, and for good fields 2 damaged ones of which one was missed, although only one is damaged. -/
theorem c73_negatives_false :
    (classifierReport 136 [(0, 0)] [1, 2, 3, 4, 5, 6, 7, 8, 9, 10, 11] [0] [1, 3] 12).map (Option.map fun r => (r.bad, r.good)) =
      .ok (some (⟨1, 0, 10, 0, 1, 10⟩, ⟨11, 0, 2, 0, 11, 2⟩)) := by
  have h : [1, 3].mergeSort (fun a b : Nat => decide (a ≤ b)) = [1, 3] := by
    simp [List.mergeSort, List.MergeSort.Internal.splitInTwo]
  unfold classifierReport BufferModel.findDamaged
  rw [h]
  decide +kernel

/-- One error in each of two fields, one of them flagged: the tables are right. -/
example : (classifierReport 136 [(0, 0)] [1, 2, 3, 4, 5, 6, 7, 8, 9, 10, 11] [0, 4] [1, 17] 12).map
    (Option.map fun r => (r.bad, r.good)) = .ok (some (⟨1, 1, 9, 1, 2, 10⟩, ⟨10, 1, 1, 0, 10, 2⟩)) := by
  have h : [1, 17].mergeSort (fun a b : Nat => decide (a ≤ b)) = [1, 17] := by
    simp [List.mergeSort, List.MergeSort.Internal.splitInTwo]
  unfold classifierReport BufferModel.findDamaged
  rw [h]
  decide +kernel

/-! ### C73: forced bits -/

theorem zip_map_filter (forced : List Nat) (m : Nat → Bool) (P : Nat → Bool → Bool) :
    ((forced.zip (forced.map m)).filter fun x => P x.1 x.2).map Prod.fst = forced.filter fun i => P i (m i) := by
  induction forced with
  | nil => rfl
  | cons a l ih =>
    simp only [List.map_cons, List.zip_cons_cons, List.filter_cons]
    split <;> simp [ih]

theorem zip_map_countP (forced : List Nat) (m : Nat → Bool) (P : Nat → Bool → Bool) :
    ((forced.zip (forced.map m)).countP fun x => P x.1 x.2) = (forced.filter fun i => P i (m i)).length := by
  rw [← zip_map_filter, List.length_map, List.countP_eq_length_filter]

/-- C73. The report on the forced bits of a word: `m i` is the model's value of bit `i`, the bits at `errors` were received
wrong. The two tables count, over all bits, the forced ones and the forced ones the model changes against the erroneous ones;
the share is the part of the forced bits to which the model gives a value other than the transmitted one. -/
theorem c73_forcing (rx : List Bool) (forced errors : List Nat) (m : Nat → Bool) (hf : forced.Nodup)
    (hfl : ∀ i ∈ forced, i < rx.length) (he : errors.Nodup) (hel : ∀ i ∈ errors, i < rx.length) :
    ∃ r, forcingReport rx forced errors (forced.map m) = .ok r ∧
      IsTable rx.length (· ∈ forced) (· ∈ errors) r.bits ∧
      IsTable rx.length (fun i => i ∈ forced ∧ rx[i]? ≠ some (m i)) (· ∈ errors) r.flipping ∧
      r.nErrors = errors.length ∧ r.nForced = forced.length ∧
      r.nFlipped = countBelow rx.length (fun i => i ∈ forced ∧ rx[i]? ≠ some (m i)) ∧
      r.flippedErrors = r.flipping.tp ∧ r.flippedCorrect = r.flipping.fp ∧
      (forced = [] → r.share = 0) ∧
      r.share * forced.length = countBelow rx.length (fun i =>
        i ∈ forced ∧ rx[i]?.map (fun b => if i ∈ errors then !b else b) ≠ some (m i)) := by
  have hall : (forced.all (· < rx.length) && errors.all (· < rx.length)) = true := by
    simp only [Bool.and_eq_true, List.all_eq_true, decide_eq_true_eq]
    exact ⟨hfl, hel⟩
  unfold forcingReport
  rw [if_pos hall]
  have hz : ((forced.zip (forced.map m)).filter fun x => x.2 != rx.getD x.1 false).map Prod.fst =
      forced.filter fun i => m i != rx.getD i false := zip_map_filter forced m fun i b => b != rx.getD i false
  have hmem : ∀ i < rx.length, i ∈ forced.filter (fun i => m i != rx.getD i false) ↔ i ∈ forced ∧ rx[i]? ≠ some (m i) := by
    intro i hi
    rw [List.mem_filter, bne_iff_ne, List.getD_eq_getElem?_getD, List.getElem?_eq_getElem hi]
    simp [eq_comm]
  have hlt : ∀ i ∈ forced.filter (fun i => m i != rx.getD i false), i < rx.length := fun i hi => hfl i (List.mem_filter.1 hi).1
  refine ⟨_, rfl, c73_confusion _ _ _ hfl hel he, ?_, rfl, rfl, ?_, rfl, rfl, ?_, ?_⟩
  · simp only [hz]
    exact (isTable_congr hmem (fun _ _ => Iff.rfl) _).1 (c73_confusion _ _ _ hlt hel he)
  · simp only [hz]
    rw [nodup_length (hf.filter _) hlt]
    exact countBelow_congr hmem
  · intro h0
    simp [h0]
  · simp only
    by_cases h0 : forced = []
    · subst h0; simp [countBelow]
    · rw [if_neg h0]
      have hne : (forced.length : ℚ) ≠ 0 := by
        have := List.length_pos_iff.2 h0
        exact_mod_cast this.ne'
      rw [div_mul_cancel₀ _ hne]
      have := zip_map_countP forced m fun i b =>
        (rx.mapIdx fun i b => b != decide (i ∈ errors)).getD i false != b
      rw [this, nodup_length (hf.filter _) fun i hi => hfl i (List.mem_filter.1 hi).1]
      congr 1
      apply countBelow_congr
      intro i hi
      rw [List.mem_filter, bne_iff_ne, List.getD_eq_getElem?_getD, List.getElem?_mapIdx, List.getElem?_eq_getElem hi]
      by_cases hx : i ∈ errors <;> cases rx[i] <;> simp [hx]

/-- C73. Forcing pays off exactly as far as the flipping table says: of the forced bits, those wrong afterwards are those wrong
before, less the flipped erroneous ones, plus the flipped correct ones. -/
theorem c73_balance (rx : List Bool) (forced errors : List Nat) (m : Nat → Bool) (hf : forced.Nodup)
    (hfl : ∀ i ∈ forced, i < rx.length) (he : errors.Nodup) (hel : ∀ i ∈ errors, i < rx.length) (r : ForcingReport)
    (h : forcingReport rx forced errors (forced.map m) = .ok r) :
    r.share * r.nForced + r.flippedErrors = r.bits.tp + r.flippedCorrect := by
  obtain ⟨r', h1, h2, h3, h4, h5, h6, h7, h8, h9, h10⟩ := c73_forcing rx forced errors m hf hfl he hel
  rw [h] at h1
  cases h1
  rw [h5, h10, h7, h8, h2.tp, h3.tp, h3.fp]
  rw [countBelow_split rx.length (fun i => i ∈ forced ∧ i ∈ errors) (fun i => rx[i]? ≠ some (m i))]
  rw [countBelow_split rx.length (fun i => i ∈ forced ∧ rx[i]?.map (fun b => if i ∈ errors then !b else b) ≠ some (m i))
    (· ∈ errors)]
  have e1 : countBelow rx.length (fun i => (i ∈ forced ∧ rx[i]?.map (fun b => if i ∈ errors then !b else b) ≠ some (m i)) ∧
      i ∈ errors) = countBelow rx.length (fun i => (i ∈ forced ∧ i ∈ errors) ∧ ¬ rx[i]? ≠ some (m i)) := by
    apply countBelow_congr
    intro i hi
    rw [List.getElem?_eq_getElem hi]
    by_cases hx : i ∈ errors <;> cases rx[i] <;> cases m i <;> simp [hx]
  have e2 : countBelow rx.length (fun i => (i ∈ forced ∧ rx[i]?.map (fun b => if i ∈ errors then !b else b) ≠ some (m i)) ∧
      ¬ i ∈ errors) = countBelow rx.length (fun i => (i ∈ forced ∧ rx[i]? ≠ some (m i)) ∧ ¬ i ∈ errors) := by
    apply countBelow_congr
    intro i hi
    rw [List.getElem?_eq_getElem hi]
    by_cases hx : i ∈ errors <;> simp [hx]
  have e3 : countBelow rx.length (fun i => (i ∈ forced ∧ rx[i]? ≠ some (m i)) ∧ i ∈ errors) =
      countBelow rx.length (fun i => (i ∈ forced ∧ i ∈ errors) ∧ rx[i]? ≠ some (m i)) := by
    apply countBelow_congr
    intro i hi
    tauto
  rw [e1, e2, e3]
  push_cast
  ring

/-- Positions outside the word raise. -/
theorem c73_forcing_range (rx : List Bool) (forced errors : List Nat) (bits : List Bool)
    (h : ∃ i ∈ forced ++ errors, rx.length ≤ i) : forcingReport rx forced errors bits = .error .indexError := by
  unfold forcingReport
  rw [if_neg]
  intro hall
  simp only [Bool.and_eq_true, List.all_eq_true, decide_eq_true_eq] at hall
  obtain ⟨i, hi, hle⟩ := h
  rcases List.mem_append.1 hi with hi | hi
  · have := hall.1 i hi; omega
  · have := hall.2 i hi; omega

/-- Three forced bits of eight: one erroneous and corrected, one correct and flipped, one left alone. -/
example : (forcingReport [true, true, false, false, true, false, true, false] [0, 2, 5] [0, 7] [false, true, false]).map
    (fun r => (r.bits, r.flipping, r.nErrors, r.nForced, r.nFlipped, r.share)) =
    .ok (⟨1, 2, 4, 1, 2, 6⟩, ⟨1, 1, 5, 1, 2, 6⟩, 2, 3, 2, 1 / 3) := by
  decide +kernel

/-! ### What a call hands to the analysis -/

theorem inRange_mono {a b : Nat} (h : a ≤ b) {st : List (Nat × Nat)} (hs : InRange a st) : InRange b st := by
  intro r hr
  obtain ⟨m, hm, h1, h2, h3⟩ := hs r hr
  exact ⟨m, hm, h1, h2, by omega⟩

theorem bitsToBytes_length (l : List Bool) : l.length / 8 ≤ (bitsToBytes l).length := by
  unfold bitsToBytes
  simp only [List.length_map, List.length_range]
  omega

theorem predictLoop_length {μ : Type} (O : StatOps Val μ) (bits : List Int) (items : List (Nat × String × Val)) :
    ∀ (ms : List (String × FieldModel Val μ)) (p q : BufferModel.Prediction μ),
      (BufferModel.predictLoop O bits ms p items).2 = .ok q → q.fields.length = p.fields.length := by
  induction items with
  | nil => intro ms p q h; cases h; rfl
  | cons x items ih =>
    intro ms p q h
    obtain ⟨j, name, v⟩ := x
    rw [BufferModel.predictLoop] at h
    split at h
    · exact ih _ _ _ h
    · split at h
      · have := ih _ _ _ h
        simpa using this
      · cases h
      · cases h

/-- A prediction that returns has one entry per field. -/
theorem predict_fields {μ : Type} (O : StatOps Val μ) (bm : BufferModel μ) (l : List Bool) (st : List (Nat × Nat))
    (p : BufferModel.Prediction μ) (h : (bm.predict O (.bits l) st).2 = .ok p) :
    InRange (l.length / 8) st ∧ p.fields.length = (fieldPlaces st).length := by
  by_cases hs : InRange (l.length / 8) st
  · refine ⟨hs, ?_⟩
    obtain ⟨arr, h1, h2⟩ := unpackStructure_ok hs
    have hu := unpackLoop_ok (inRange_mono (bitsToBytes_length l) hs)
    unfold BufferModel.predict at h
    simp only [BufferModel.argLen, h1, unpackValues, hu, bind, Except.bind] at h
    have := predictLoop_length O _ _ _ _ _ h
    simpa using this
  · exfalso
    have h1 : ¬ Returns (unpackStructure true (l.length / 8) st) := fun h => hs ((c31_returns_iff _ _).1 h)
    cases hu : unpackStructure true (l.length / 8) st with
    | ok r => exact h1 ⟨r, hu⟩
    | error e =>
      simp [BufferModel.predict, BufferModel.argLen, hu, bind, Except.bind] at h

theorem fieldsWhere_lt {cond : ℝ → Prop} {fields : List (Option (String × ℝ × ℝ))} {l : List Nat}
    (h : fieldsWhere cond fields = .ok l) : ∀ i ∈ l, i < fields.length := by
  unfold fieldsWhere at h
  split at h
  · cases h
  · cases h
    intro i hi
    exact List.mem_range.1 (List.mem_filter.1 hi).1

/-- What a prediction says when the structure of the cluster is `so`. -/
structure PredFacts (so : Option (List (Nat × Nat))) (good bad : List Nat) (nFields : Nat) (forced : Option (List Nat)) :
    Prop where
  unknown : so = none → forced = none
  known : ∀ st, so = some st → (∃ f, forced = some f ∧ f.Nodup) ∧ nFields = (fieldPlaces st).length ∧
    (∀ i ∈ good, i < nFields) ∧ ∀ i ∈ bad, i < nFields

theorem predict_facts {c : MavCfg} {s s' : Mav σ Λ} {obs : List ℝ} {label : Int} {p : MavPred}
    (h : s.predict c obs label = (s', .ok p)) :
    ∃ j, pyPos s.structures.length label = some j ∧
      PredFacts (s.structures.getD j none) p.goodFields p.badFields p.nFields p.forced := by
  unfold Mav.predict at h
  cases hp : pyPos s.structures.length label with
  | none => rw [hp] at h; cases h
  | some j =>
    refine ⟨j, rfl, ?_⟩
    rw [hp] at h
    simp only at h
    cases hst : s.structures.getD j none with
    | none =>
      rw [hst] at h
      cases h
      exact ⟨fun _ => rfl, fun st h => by cases h⟩
    | some st =>
      rw [hst] at h
      simp only at h
      refine ⟨(fun h => by cases h), fun st' hst' => ?_⟩
      cases hst'
      split at h
      · cases h
      · rename_i model pr hpr
        obtain ⟨-, hlen⟩ := predict_fields c.stats s.model (hardBits obs) st pr (by rw [hpr])
        split at h
        · rename_i good bad hg hb
          split at h
          · cases h
          · split at h
            · cases h
            · cases h
              exact ⟨⟨_, rfl, List.nodup_range.filter _⟩, hlen, fieldsWhere_lt hg, fieldsWhere_lt hb⟩
        · cases h

theorem failed_structures (c : MavCfg) (ldpc : Ldpc Λ) (s : Mav σ Λ) (inp : List ℝ) (label : Int) (rx : List Bool)
    (h : (s.decodeUpdate c ldpc inp label rx).2.1.success = false) :
    (s.decodeUpdate c ldpc inp label rx).1.structures = s.structures := by
  unfold Mav.decodeUpdate at h ⊢
  generalize ldpc s.ldpc (.llr inp) = lo at h ⊢
  obtain ⟨l', o⟩ := lo
  simp only at h ⊢
  split
  · rfl
  · rename_i j hj
    rw [hj] at h
    simp only at h
    unfold Mav.learn
    split
    · rfl
    · rw [if_neg (by simp [h])]
      split <;> rfl

/-- What a call with a non-negative label returns comes from a prediction with the structure the cluster had before the
call. -/
theorem loop_facts (c : MavCfg) (cls : Labeler σ) (ldpc : Ldpc Λ) (ch : List ℝ) (S : List (Option (List (Nat × Nat))))
    (out : MavOut) (hl : 0 ≤ out.label) (left : Nat) :
    ∀ (s : Mav σ Λ) (ev : List MavEvent) (inp : List ℝ) (total : Nat) (last : Option MavOut), s.structures = S →
      (∀ o, last = some o → ∃ j, pyPos S.length o.label = some j ∧
        PredFacts (S.getD j none) o.goodFields o.badFields o.nFields o.forced) →
      (Mav.loop c cls ldpc ch left s ev inp total last).result = .ok out →
      ∃ j, pyPos S.length out.label = some j ∧
        PredFacts (S.getD j none) out.goodFields out.badFields out.nFields out.forced := by
  induction left with
  | zero =>
    intro s ev inp total last hS hlast h
    cases last with
    | none => cases h
    | some o => cases h; exact hlast out rfl
  | succ left ih =>
    intro s ev inp total last hS hlast h
    rw [Mav.loop] at h
    split at h
    · cases h
    · rename_i bits hbits
      rcases hpk : pickLabel cls c.nClusters c.cluster s.cls s.running bits with ⟨cs, run, lab⟩
      simp only [hpk] at h
      cases lab with
      | error e => cases h
      | ok label =>
        simp only at h
        split at h
        · rename_i hneg
          exfalso
          rcases hdu : ({ s with cls := cs, running := run } : Mav σ Λ).decodeUpdate c ldpc ch label (hardBits ch)
            with ⟨s', o, r⟩
          simp only [hdu] at h
          cases r with
          | error e => cases h
          | ok u => cases h; simp only at hl; omega
        · cases hpr : ({ s with cls := cs, running := run } : Mav σ Λ).predict c inp label with
          | mk s2 pr =>
            rw [hpr] at h
            cases pr with
            | error e => cases h
            | ok p =>
              simp only at h
              obtain ⟨j, hj, hf⟩ := predict_facts hpr
              simp only [hS] at hj hf
              have hS2 : s2.structures = S := by
                obtain ⟨model, h1, -⟩ := mavPredict_pres c ({ s with cls := cs, running := run } : Mav σ Λ) inp label
                  (fun _ => True) (fun _ _ _ _ _ _ => trivial) trivial
                rw [hpr] at h1
                simp only at h1
                rw [h1]; exact hS
              have hfail := failed_structures c ldpc s2 p.llr label (hardBits ch)
              rcases hdu : s2.decodeUpdate c ldpc p.llr label (hardBits ch) with ⟨s', o, r⟩
              rw [hdu] at hfail
              simp only [hdu] at h hfail
              cases r with
              | error e => cases h
              | ok u =>
                simp only at h
                split at h
                · cases h
                  exact ⟨j, hj, hf⟩
                · rename_i hok
                  refine ih s' _ _ _ _ ((hfail (by simpa using hok)).trans hS2) ?_ h
                  intro o' ho'
                  cases ho'
                  exact ⟨j, hj, hf⟩

theorem pyPos_nonneg {n : Nat} {i : Int} {j : Nat} (h : pyPos n i = some j) (h0 : 0 ≤ i) : i = j ∧ j < n := by
  have h1 := pyPos_eq h
  rw [if_neg (by omega)] at h1
  exact ⟨h1.symm, pyPos_lt h⟩

theorem decode_facts {c : MavCfg} {cls : Labeler σ} {ldpc : Ldpc Λ} {s : Mav σ Λ} {ch : List ℝ} {out : MavOut}
    (h : (s.decode c cls ldpc ch).result = .ok out) (hl : 0 ≤ out.label) :
    ∃ j so, pyPos s.structures.length out.label = some j ∧ s.structures[j]? = some so ∧
      PredFacts so out.goodFields out.badFields out.nFields out.forced := by
  obtain ⟨j, h1, h2⟩ := loop_facts c cls ldpc ch s.structures out hl c.segIterations s [] ch 0 none rfl (by simp) h
  have hj := pyPos_lt h1
  refine ⟨j, _, h1, ?_, h2⟩
  rw [List.getD_eq_getElem?_getD, List.getElem?_eq_getElem hj]
  rfl

theorem decode_keeps {c : MavCfg} {cls : Labeler σ} {ldpc : Ldpc Λ} {s : Mav σ Λ} {ch : List ℝ} {k : Nat}
    {st : List (Nat × Nat)} (h : s.structures[k]? = some (some st)) :
    (s.decode c cls ldpc ch).state.structures[k]? = some (some st) := by
  have := c57_fixed c cls ldpc s [ch] k st h
  simpa [Mav.run] using this

theorem decode_structures_length (c : MavCfg) (cls : Labeler σ) (ldpc : Ldpc Λ) (s : Mav σ Λ) (ch : List ℝ) :
    (s.decode c cls ldpc ch).state.structures.length = s.structures.length := by
  have := decode_inv c cls ldpc (fun s' _ => s'.structures.length = s.structures.length) (fun _ _ _ _ h => h)
    (fun s' ev obs label h => by
      obtain ⟨model, h1, -⟩ := mavPredict_pres c s' obs label (fun _ => True) (fun _ _ _ _ _ _ => trivial) trivial
      rw [h1]; exact h)
    (fun s' ev inp label rx h => by rw [decodeUpdate_structures_length]; exact h) [ch] s [] rfl
  simpa [Mav.run] using this

/-! ### C74 -/

/-- C74. With `debug` on a call raises as long as its cluster had no structure before the call, even if it learned one: if a
call returns with a non-negative label, its cluster had one. -/
theorem c74_needs_structure (c : MavCfg) (cls : Labeler σ) (ldpc : Ldpc Λ) (n : Nat) (s : Mav σ Λ) (ch : List ℝ)
    (errors : List Nat) (out : MavOut) (cr : Option ClassifierReport) (fr : Option ForcingReport)
    (h : (s.decodeDebug c cls ldpc n ch errors).result = .ok (out, cr, fr)) (hl : 0 ≤ out.label) :
    ∃ j st, out.label = (j : Nat) ∧ s.structures[j]? = some (some st) := by
  unfold Mav.decodeDebug at h
  simp only at h
  split at h
  · cases h
  · rename_i out' hd
    split at h
    · cases h; omega
    · split at h
      · cases h
      · split at h
        · cases h
        · rename_i cr' _ s' fr' hf
          cases h
          obtain ⟨j, so, h1, h2, h3⟩ := decode_facts hd hl
          cases so with
          | some st => exact ⟨j, st, (pyPos_nonneg h1 hl).1, h2⟩
          | none =>
            exfalso
            rw [h3.unknown rfl] at hf
            unfold Mav.forcingAnalysis at hf
            split at hf
            · cases hf
            · split at hf
              · cases hf
              · split at hf <;> cases hf

/-- C74. What is raised when the cluster had no structure before the call and the analysis of the classifier returned: an AttributeError if
the call did not learn one either, and an IndexError if it did and the means of its fields can be read. -/
theorem c74_exception (c : MavCfg) (cls : Labeler σ) (ldpc : Ldpc Λ) (n : Nat) (s : Mav σ Λ) (ch : List ℝ) (errors : List Nat)
    (out : MavOut) (hd : (s.decode c cls ldpc ch).result = .ok out) (j : Nat) (hj : out.label = j) (hno : s.structures[j]? = some none) :
    ((s.decode c cls ldpc ch).state.structures[j]? = some none →
      (s.decodeDebug c cls ldpc n ch errors).result = .error .attributeError) ∧
    (∀ st cr bits, (s.decode c cls ldpc ch).state.structures[j]? = some (some st) →
      classifierReport n st out.goodFields out.badFields errors out.nFields = .ok cr →
      ((s.decode c cls ldpc ch).state.model.bitwiseModelMean c.stats [] ((hardBits ch).length / 8) st).2 = .ok bits →
      (s.decodeDebug c cls ldpc n ch errors).result = .error .indexError) := by
  obtain ⟨j', so, h1, h2, h3⟩ := decode_facts hd (by omega)
  obtain ⟨h4, -⟩ := pyPos_nonneg h1 (by omega)
  have hjj : j' = j := by omega
  subst hjj
  rw [hno] at h2
  cases h2
  have hun := h3.unknown rfl
  have hlen := decode_structures_length c cls ldpc s ch
  have hneg : ¬ out.label < 0 := by omega
  constructor
  · intro h
    have hg : (s.decode c cls ldpc ch).state.structures.getD j' none = none := by rw [List.getD_eq_getElem?_getD, h]; rfl
    unfold Mav.decodeDebug
    simp only [hd, if_neg hneg]
    unfold classifierAnalysis Mav.forcingAnalysis
    simp only [hlen, h1, hg]
  · intro st cr bits h hc hb
    have hg : (s.decode c cls ldpc ch).state.structures.getD j' none = some st := by rw [List.getD_eq_getElem?_getD, h]; rfl
    unfold Mav.decodeDebug
    simp only [hd, if_neg hneg]
    unfold classifierAnalysis Mav.forcingAnalysis
    simp only [hlen, h1, hg, hc, hun, Option.getD_none]
    rcases hm : (s.decode c cls ldpc ch).state.model.bitwiseModelMean c.stats [] ((hardBits ch).length / 8) st with ⟨model, r⟩
    rw [hm] at hb
    simp only at hb
    subst hb
    rfl

/-- C74. In particular the first call of a new decoder does not return with `debug` on, except in the training phase of the
classifier. -/
theorem c74_first_call (c : MavCfg) (cls : Labeler σ) (ldpc : Ldpc Λ) (n : Nat) (bm : BufferModel ℝ) (cs : σ) (l : Λ)
    (ch : List ℝ) (errors : List Nat) (out : MavOut) (cr : Option ClassifierReport) (fr : Option ForcingReport)
    (h : ((Mav.new c.nClusters bm cs l).decodeDebug c cls ldpc n ch errors).result = .ok (out, cr, fr)) : out.label < 0 := by
  by_contra hl
  obtain ⟨j, st, -, h2⟩ := c74_needs_structure c cls ldpc n _ ch errors out cr fr h (by omega)
  simp [Mav.new, List.getElem?_replicate] at h2

/-- C74. `debug` changes nothing but the reports: the runs of the LDPC decoder, the returned values, the structures, the
hidden states of classifier and LDPC decoder are those of a call without it, and the field models hold the same samples. -/
theorem c74_same (c : MavCfg) (cls : Labeler σ) (ldpc : Ldpc Λ) (n : Nat) (s : Mav σ Λ) (ch : List ℝ) (errors : List Nat) :
    (s.decodeDebug c cls ldpc n ch errors).events = (s.decode c cls ldpc ch).events ∧
    (∃ model, (s.decodeDebug c cls ldpc n ch errors).state = { (s.decode c cls ldpc ch).state with model := model } ∧
      SameContent model (s.decode c cls ldpc ch).state.model) ∧
    (∀ e, (s.decode c cls ldpc ch).result = .error e → (s.decodeDebug c cls ldpc n ch errors).result = .error e) ∧
    ∀ out cr fr, (s.decodeDebug c cls ldpc n ch errors).result = .ok (out, cr, fr) →
      (s.decode c cls ldpc ch).result = .ok out := by
  have hfa : ∀ (s' : Mav σ Λ) f rx l, ∃ model, (s'.forcingAnalysis c f errors rx l).1 = { s' with model := model } ∧
      SameContent model s'.model := by
    intro s' f rx l
    unfold Mav.forcingAnalysis
    split
    · exact ⟨s'.model, rfl, SameContent.rfl' _⟩
    · split
      · exact ⟨s'.model, rfl, SameContent.rfl' _⟩
      · rename_i st _
        have := bufMean_pres c.stats _ (cache_same c.stats s'.model) s'.model (f.getD []) (rx.length / 8) st (SameContent.rfl' _)
        split
        · rename_i hm; rw [hm] at this; exact ⟨_, rfl, this⟩
        · rename_i hm; rw [hm] at this; exact ⟨_, rfl, this⟩
  unfold Mav.decodeDebug
  simp only
  split
  · rename_i e he
    exact ⟨rfl, ⟨_, rfl, SameContent.rfl' _⟩, fun _ h => by cases he ▸ h; rfl, fun _ _ _ h => by cases h⟩
  · rename_i out hd
    split
    · refine ⟨rfl, ⟨_, rfl, SameContent.rfl' _⟩, fun _ h => ?_, fun _ _ _ h => ?_⟩
      · rw [hd] at h; cases h
      · cases h; exact hd
    · split
      · refine ⟨rfl, ⟨_, rfl, SameContent.rfl' _⟩, fun _ h => ?_, fun _ _ _ h => ?_⟩
        · rw [hd] at h; cases h
        · cases h
      · obtain ⟨model, hm1, hm2⟩ := hfa (s.decode c cls ldpc ch).state out.forced (hardBits ch) out.label
        split
        · rename_i hf
          rw [hf] at hm1
          refine ⟨rfl, ⟨model, hm1, hm2⟩, fun _ h => ?_, fun _ _ _ h => ?_⟩
          · rw [hd] at h; cases h
          · cases h
        · rename_i hf
          rw [hf] at hm1
          refine ⟨rfl, ⟨model, hm1, hm2⟩, fun _ h => ?_, fun _ _ _ h => ?_⟩
          · rw [hd] at h; cases h
          · cases h; exact hd

theorem mapM_get {l : List Bool} : ∀ {idx : List Nat} {r : List Bool},
    (idx.mapM fun i => match l[i]? with
      | some b => (Except.ok b : Except PyErr Bool)
      | none => .error .indexError) = .ok r → r = idx.map fun i => l.getD i false
  | [], r, h => by cases h; rfl
  | i :: idx, r, h => by
    rw [List.mapM_cons] at h
    rcases hl : l[i]? with _ | b
    · rw [hl] at h; cases h
    · rw [hl] at h
      simp only [bind, Except.bind] at h
      split at h
      · cases h
      · rename_i r' hr
        cases h
        rw [mapM_get hr]
        simp [List.getD_eq_getElem?_getD, hl]

theorem mean_values {μ : Type} (O : StatOps Val μ) (bm : BufferModel μ) (idx : List Nat) (len : Nat) (st : List (Nat × Nat))
    (r : List Bool) (h : (bm.bitwiseModelMean O idx len st).2 = .ok r) : ∃ m : Nat → Bool, r = idx.map m := by
  unfold BufferModel.bitwiseModelMean at h
  split at h
  · cases h
  · split at h
    · cases h
    · exact ⟨_, mapM_get h⟩

/-- C74. A call with `debug` on that returns for a cluster with the structure `st`: the reports are about the flagged fields of
`st`, the forced bits and the received word, and say what C73 says. `m` are the values the model gives to the forced bits after
the call. -/
theorem c74_reports (c : MavCfg) (cls : Labeler σ) (ldpc : Ldpc Λ) (n : Nat) (s : Mav σ Λ) (ch : List ℝ)
    (errors : List Nat) (out : MavOut) (cr : Option ClassifierReport) (fr : Option ForcingReport)
    (h : (s.decodeDebug c cls ldpc n ch errors).result = .ok (out, cr, fr)) (j : Nat) (hl : out.label = j)
    (st : List (Nat × Nat)) (hst : s.structures[j]? = some (some st)) (hs : InRange (n / 8) st) (hn : NonOverlapping st)
    (he : errors.Nodup) :
    (cr = none ↔ hits st errors = 0) ∧
    (∀ q, cr = some q → q.nFields = (fieldPlaces st).length ∧
      q.nDamaged = countBelow (fieldPlaces st).length (Damaged st errors) ∧
      (IsTable (fieldPlaces st).length (· ∈ out.badFields) (Damaged st errors) q.bad ↔
        ∀ p ∈ fieldPlaces st, (errors.countP fun e => decide (HitBy p e)) ≤ 1) ∧
      (IsTable (fieldPlaces st).length (· ∈ out.goodFields) (fun i => ¬ Damaged st errors i) q.good ↔
        ∀ p ∈ fieldPlaces st, (errors.countP fun e => decide (HitBy p e)) ≤ 1)) ∧
    ∃ (f : List Nat) (m : Nat → Bool) (r : ForcingReport), out.forced = some f ∧ fr = some r ∧
      ((s.decode c cls ldpc ch).state.model.bitwiseModelMean c.stats f (ch.length / 8) st).2 = .ok (f.map m) ∧
      IsTable ch.length (· ∈ f) (· ∈ errors) r.bits ∧
      IsTable ch.length (fun i => i ∈ f ∧ (hardBits ch)[i]? ≠ some (m i)) (· ∈ errors) r.flipping ∧
      r.nErrors = errors.length ∧ r.nForced = f.length ∧
      r.share * f.length = countBelow ch.length (fun i =>
        i ∈ f ∧ (hardBits ch)[i]?.map (fun b => if i ∈ errors then !b else b) ≠ some (m i)) := by
  have hlen : (hardBits ch).length = ch.length := by simp [hardBits]
  unfold Mav.decodeDebug at h
  simp only at h
  split at h
  · cases h
  · rename_i out' hd
    split at h
    · cases h; omega
    · split at h
      · cases h
      · rename_i cr' hcr
        split at h
        · cases h
        · rename_i s' fr' hf
          cases h
          obtain ⟨j', so, h1, h2, h3⟩ := decode_facts hd (by omega)
          obtain ⟨h4, h5⟩ := pyPos_nonneg h1 (by omega)
          have hjj : j' = j := by omega
          subst hjj
          rw [hst] at h2
          cases h2
          obtain ⟨⟨f, hf1, hf2⟩, g1, g2, g3⟩ := h3.known st rfl
          have hk := decode_keeps (c := c) (cls := cls) (ldpc := ldpc) (ch := ch) hst
          have hkl := decode_structures_length c cls ldpc s ch
          have hkd : (s.decode c cls ldpc ch).state.structures.getD j' none = some st := by
            rw [List.getD_eq_getElem?_getD, hk]; rfl
          unfold classifierAnalysis at hcr
          rw [hkl, h1] at hcr
          simp only [hkd] at hcr
          unfold Mav.forcingAnalysis at hf
          rw [hkl, h1, hf1] at hf
          simp only [hkd, Option.getD_some] at hf
          rw [g1] at g2 g3 hcr
          obtain ⟨k1, k2⟩ := c73_fields n st hs hn out.goodFields out.badFields errors _ rfl g2 g3
          rcases hm : (s.decode c cls ldpc ch).state.model.bitwiseModelMean c.stats f ((hardBits ch).length / 8) st with ⟨model, r⟩
          rw [hm] at hf
          cases r with
          | error e => cases hf
          | ok bits =>
            simp only at hf
            obtain ⟨m, rfl⟩ := mean_values c.stats _ f _ st bits (by rw [hm])
            have hrep : forcingReport (hardBits ch) f errors (f.map m) = .ok fr' := (Prod.mk.inj hf).2
            have hlt : ∀ i ∈ f ++ errors, i < (hardBits ch).length := by
              intro i hi
              by_contra hlt
              rw [c73_forcing_range _ _ _ _ ⟨i, hi, by omega⟩] at hrep
              cases hrep
            obtain ⟨r, w1, w2, w3, w4, w5, -, -, -, -, w10⟩ := c73_forcing (hardBits ch) f errors m hf2
              (fun i hi => hlt i (List.mem_append_left _ hi)) he (fun i hi => hlt i (List.mem_append_right _ hi))
            rw [hrep] at w1
            cases w1
            rw [hlen] at hm w2 w3 w10
            refine ⟨?_, ?_, f, m, fr', hf1, rfl, by rw [hm], w2, w3, w4, w5, w10⟩
            · constructor
              · intro hc
                by_contra h0
                obtain ⟨q, hq, -⟩ := k2 h0
                rw [hcr, hc] at hq
                cases hq
              · intro h0
                rw [k1 h0] at hcr
                cases hcr
                rfl
            · intro q hq
              have h0 : hits st errors ≠ 0 := by
                intro h0
                rw [k1 h0, hq] at hcr
                cases hcr
              obtain ⟨q', hq', b1, b2, -, -, b3, b4⟩ := k2 h0
              rw [hcr, hq] at hq'
              cases hq'
              exact ⟨b1, b2, b3, b4⟩

/-- A decoder for one cluster whose words hold no message. -/
noncomputable def debugCfg (O : StatOps Val ℝ) : MavCfg :=
  ⟨[0], 1/10, 1/10, 2, 1/2, 10, 1, 1, false, true, 1, fun _ => [], O⟩

/-- With the structure given, a call with `debug` on returns: here one error, no forced bit, no damaged field. -/
theorem debug_example (O : StatOps Val ℝ) (bm : BufferModel ℝ) :
    ((⟨[some []], bm, -1, (), ()⟩ : Mav Unit Unit).decodeDebug (debugCfg O) (fun _ _ => ((), .ok 0)) (exLdpc false) 2
      [1, -1] [1]).result = .ok (⟨exWord, [1, 1], false, 3, 0, [false, false], [], [], 0, some []⟩, none,
        some ⟨⟨0, 0, 1, 1, 1, 1⟩, ⟨0, 0, 1, 1, 1, 1⟩, 1, 0, 0, 0, 0, 0⟩) := by
  have hseg : segmentBuffer decode [] = .ok ⟨[], [], []⟩ := by decide +kernel
  have hp : ∀ m : BufferModel ℝ, m.predict O (.bits [false, true]) [] = (m, .ok ⟨[], [], []⟩) := fun m => rfl
  have ha : ∀ m : BufferModel ℝ, m.addBuffer O (.bits [false, true]) [] =
      ({ m with modelSize := BufferModel.nextSize m.windowSize m.modelSize }, .ok ()) := fun m => rfl
  have hm : ∀ m : BufferModel ℝ, m.bitwiseModelMean O [] 0 [] = (m, .ok []) := fun m => rfl
  have hh : hardBits [1, -1] = [false, true] := by
    simp only [hardBits, List.map_cons, List.map_nil]
    norm_num
  have hd : BufferModel.findDamaged [1] [] 0 = .ok (some []) := by
    unfold BufferModel.findDamaged
    have h1 : [1].mergeSort (fun a b : Nat => decide (a ≤ b)) = [1] := by simp
    rw [h1]
    decide +kernel
  have hpred : ∀ (m : BufferModel ℝ) (run : Int), (⟨[some []], m, run, (), ()⟩ : Mav Unit Unit).predict (debugCfg O) [1, -1] 0 =
      (⟨[some []], m, run, (), ()⟩, .ok ⟨[1, -1], [], [], 0, some [], [false, false]⟩) := by
    intro m run
    unfold Mav.predict
    simp [pyPos, debugCfg, hh, hp, fieldsWhere, above, below, scaleMask, forcedBits, MavCfg.force, MavCfg.resegment, hseg,
      padValid, bind, Except.bind]
  have hdu : ∀ (m : BufferModel ℝ) (run : Int), (⟨[some []], m, run, (), ()⟩ : Mav Unit Unit).decodeUpdate (debugCfg O)
      (exLdpc false) [1, -1] 0 [false, true] = (⟨[some []], { m with modelSize := BufferModel.nextSize m.windowSize m.modelSize },
        run, (), ()⟩, ⟨exWord, [1, 1], false, 3, [], []⟩, .ok ()) := by
    intro m run
    simp [Mav.decodeUpdate, Mav.learn, exLdpc, pyPos, debugCfg, ha]
  · unfold Mav.decodeDebug Mav.decode
    rw [show (debugCfg O).segIterations = 1 from rfl, Mav.loop, if_neg (by simp [debugCfg])]
    simp only [pickLabel, show (debugCfg O).nClusters = 1 from rfl, hh]
    simp [hpred, hdu, Mav.loop, classifierAnalysis, classifierReport, pyPos, hd, bind, Except.bind, Mav.forcingAnalysis, hm,
      show (debugCfg O).stats = O from rfl, forcingReport]
    decide

/-- `c74_reports` applies to that call. -/
example (O : StatOps Val ℝ) (bm : BufferModel ℝ) := c74_reports (debugCfg O) _ _ 2 _ _ _ _ _ _ (debug_example O bm) 0 rfl [] rfl
  (by intro r hr; simp at hr) List.Pairwise.nil (by simp)

end NR
