import Verif.Model.Metrics
import Verif.Spec.Metrics
import Verif.Props.C82
import Mathlib.Tactic.FieldSimp
import Mathlib.Tactic.NormNum
import Mathlib.Tactic.Ring
/-
C110: the metrics of the field classifier, from the counts of the words to the MATLAB matrices.
-/
namespace NR.C110
open Spec

/-! ### Counts -/

theorem number_append (a b : List (Bool × Bool)) (p q : Bool) : number (a ++ b) p q = number a p q + number b p q := by
  simp [number]

theorem rowOf_append (a b : List (Bool × Bool)) : List.zipWith (· + ·) (rowOf a) (rowOf b) = rowOf (a ++ b) := by
  simp [rowOf, number_append]

theorem rowOf_nil : rowOf [] = List.replicate 6 0 := rfl

theorem number_casesOf (n : Nat) (pred act : Nat → Prop) (p q : Bool) :
    number (casesOf n pred act) p q = (positions n fun i => ((p = true ↔ pred i) ∧ (q = true ↔ act i))).length := by
  classical
  unfold number casesOf positions
  rw [List.count, List.countP_map, ← List.countP_eq_length_filter]
  apply List.countP_congr
  intro i _
  by_cases h1 : pred i <;> by_cases h2 : act i <;> cases p <;> cases q <;> simp [h1, h2]

/-- The table of a word is the row of its cases. -/
theorem tableOf_eq (n : Nat) (pred act : Nat → Prop) : tableOf n pred act = rowOf (casesOf n pred act) := by
  classical
  have e1 : ((casesOf n pred act).filter (·.2)).length = (positions n act).length := by
    unfold casesOf positions
    rw [← List.countP_eq_length_filter, ← List.countP_eq_length_filter, List.countP_map]
    exact List.countP_congr fun i _ => by simp
  have e2 : ((casesOf n pred act).filter fun c => !c.2).length = (positions n fun i => ¬ act i).length := by
    unfold casesOf positions
    rw [← List.countP_eq_length_filter, ← List.countP_eq_length_filter, List.countP_map]
    exact List.countP_congr fun i _ => by simp
  unfold tableOf rowOf
  rw [e1, e2]
  simp only [number_casesOf]
  simp

theorem sumRows_rows (cs : List (List (Bool × Bool))) : sumRows (cs.map rowOf) = rowOf cs.flatten := by
  have key : ∀ (cs : List (List (Bool × Bool))) (a : List (Bool × Bool)),
      (cs.map rowOf).foldl (List.zipWith (· + ·)) (rowOf a) = rowOf (a ++ cs.flatten) := by
    intro cs
    induction cs with
    | nil => intro a; simp
    | cons c cs ih =>
      intro a
      rw [List.map_cons, List.foldl_cons, rowOf_append, ih, List.flatten_cons, List.append_assoc]
  have := key cs []
  rw [rowOf_nil] at this
  simpa [sumRows] using this

theorem sum_of_tables {α β : Type} (f : α → List Int) (g : β → List (Bool × Bool)) (rs : List α) (ws : List β)
    (h : rs.map f = ws.map fun w => rowOf (g w)) : sumRows (rs.map f) = rowOf (ws.flatMap g) := by
  rw [h]
  have := sumRows_rows (ws.map g)
  rw [List.map_map] at this
  rw [List.flatMap_def]
  exact this

/-! ### The summary of a step -/

/-- C110: the rows saved for a step. The model has been made from the buffers `as` and the step of C82 analyses the words. Every
field of every word is a case of the good fields (called good, undamaged), of the bad fields (called bad, damaged) and of the
forced fields; every bit of every word is a case of the forced and of the flipped bits (forced or flipped, in error). The rows
saved count these cases over all words together. -/
theorem c110_summary (O : StatOps Val ℝ) (w : Option Nat) (thr : ℝ) (as : List (BufArg × List (Nat × Nat)))
    (has : ∀ a ∈ as, Addable a) (structures : List (List (Nat × Nat))) (nClusters len : Nat) (hc : 0 < nClusters)
    (hcl : nClusters ≤ structures.length) (hr : ∀ st ∈ structures, InRange len st ∧ NonOverlapping st)
    (hist : String → List Val) (hhist : hist = fun name => as.flatMap (takes name)) (fitv : List Val → ℝ × ℝ)
    (mb : Place → List Bool)
    (hfit : ∀ st ∈ structures, ∀ p ∈ fieldPlaces st, O.fit (windowed w (hist p.name)) = .ok (fitv (windowed w (hist p.name))))
    (hmb : ∀ st ∈ structures, ∀ p ∈ fieldPlaces st,
      meanBits O w (hist p.name) p.type = .ok (mb p) ∧ (mb p).length = 8 * width p.type)
    (words : List (List Bool × List Nat))
    (hw : ∀ x ∈ words, x.1.length = 8 * len ∧ x.2.Nodup ∧ ∀ e ∈ x.2, e < x.1.length)
    (structureOf : Nat → List (Nat × Nat)) (hst : ∀ i, structureOf i = structures.getD (i % nClusters) [])
    (rx : List Bool × List Nat → List Bool) (hrx : ∀ x, rx x = flipAt x.1 x.2) :
    ∃ rs, analysisStep O thr structures nClusters false (addAll O (BufferModel.new w) as) words = .ok rs ∧
      goodRow rs = rowOf (words.zipIdx.flatMap fun x => casesOf (fieldPlaces (structureOf x.2)).length
        (Scored (fieldScore O w fitv hist (bitsToBytes (rx x.1))) (structureOf x.2) fun s _ => 1 - thr < s)
        fun j => ¬ Damaged (structureOf x.2) x.1.2 j) ∧
      badRow rs = rowOf (words.zipIdx.flatMap fun x => casesOf (fieldPlaces (structureOf x.2)).length
        (Scored (fieldScore O w fitv hist (bitsToBytes (rx x.1))) (structureOf x.2) fun s _ => s < thr)
        (Damaged (structureOf x.2) x.1.2)) ∧
      forcedFieldsRow rs = rowOf (words.zipIdx.flatMap fun x => casesOf (fieldPlaces (structureOf x.2)).length
        (Scored (fieldScore O w fitv hist (bitsToBytes (rx x.1))) (structureOf x.2) fun s d => s ≤ 0 ∧ d = 0)
        (Damaged (structureOf x.2) x.1.2)) ∧
      forcedBitsRow rs = rowOf (words.zipIdx.flatMap fun x => casesOf x.1.1.length
        (WrongBit (bitSays O w fitv hist mb (structureOf x.2) (bitsToBytes (rx x.1)))) (· ∈ x.1.2)) ∧
      flippedBitsRow rs = rowOf (words.zipIdx.flatMap fun x => casesOf x.1.1.length
        (FlippedBit (bitSays O w fitv hist mb (structureOf x.2) (bitsToBytes (rx x.1))) (rx x.1)) (· ∈ x.1.2)) := by
  obtain ⟨rs, hrs, hl, hi⟩ := c82_words O w thr as has structures nClusters len hc hcl hr hist hhist fitv mb hfit hmb words hw
  refine ⟨rs, hrs, ?_⟩
  have key : ∀ (f : WordReport → List Int) (g : (List Bool × List Nat) × Nat → List (Bool × Bool)),
      (∀ (i : Nat) (x : List Bool × List Nat) (r : WordReport), words[i]? = some x →
        ReportOf thr (structureOf i) (fieldScore O w fitv hist (bitsToBytes (rx x)))
          (bitSays O w fitv hist mb (structureOf i) (bitsToBytes (rx x))) x.1 (rx x) x.2 r → f r = rowOf (g (x, i))) →
      sumRows (rs.map f) = rowOf (words.zipIdx.flatMap g) := by
    intro f g h
    apply sum_of_tables
    apply List.ext_getElem?
    intro i
    rw [List.getElem?_map, List.getElem?_map, List.getElem?_zipIdx]
    rcases hx : words[i]? with _ | x
    · rw [List.getElem?_eq_none_iff] at hx
      rw [List.getElem?_eq_none_iff.2 (by omega)]
      rfl
    · obtain ⟨r, st, h1, h2, h3⟩ := hi i x.1 x.2 hx
      have e : structureOf i = st := by rw [hst, List.getD_eq_getElem?_getD, h2]; rfl
      have e2 : f r = rowOf (g (x, i)) := h i x r hx (by rw [e, hrx]; exact h3)
      rw [h1]
      simpa using e2
  refine ⟨key _ _ ?_, key _ _ ?_, key _ _ ?_, key _ _ ?_, key _ _ ?_⟩ <;> intro i x r _ hrep
  · simpa only [tableOf_eq] using hrep.goodTable
  · simpa only [tableOf_eq] using hrep.badTable
  · simpa only [tableOf_eq] using hrep.fieldsTable
  · simpa only [tableOf_eq] using hrep.bitsTable
  · simpa only [tableOf_eq] using hrep.flippedTable

/-! ### The metrics -/

theorem positives_eq (c : List (Bool × Bool)) : (c.filter (·.2)).length = number c true true + number c false true := by
  induction c with
  | nil => rfl
  | cons x c ih =>
    rcases x with ⟨a, b⟩
    cases a <;> cases b <;> simp [number] at ih ⊢ <;> omega

theorem negatives_eq (c : List (Bool × Bool)) : (c.filter fun x => !x.2).length = number c true false + number c false false := by
  induction c with
  | nil => rfl
  | cons x c ih =>
    rcases x with ⟨a, b⟩
    cases a <;> cases b <;> simp [number] at ih ⊢ <;> omega

theorem total_eq (c : List (Bool × Bool)) :
    number c true true + number c true false + number c false false + number c false true = c.length := by
  induction c with
  | nil => rfl
  | cons x c ih =>
    rcases x with ⟨a, b⟩
    cases a <;> cases b <;> simp [number] at ih ⊢ <;> omega

theorem matCol_rows (cs : List (List (Bool × Bool))) (k : Nat) (f : List (Bool × Bool) → Int)
    (h : ∀ c, (rowOf c)[k]? = some (f c)) : matCol (cs.map rowOf) k = .ok (cs.map fun c => (f c : ℝ)) := by
  unfold matCol
  induction cs with
  | nil => rfl
  | cons c cs ih =>
    rw [List.map_cons, List.mapM_cons, ih, h c]
    rfl

theorem confusion_rows (cs : List (List (Bool × Bool))) (h : cs ≠ []) : matlabConfusion (cs.map rowOf) = .ok
    { tp := cs.map fun c => ((number c true true : Int) : ℝ), fp := cs.map fun c => ((number c true false : Int) : ℝ),
      tn := cs.map fun c => ((number c false false : Int) : ℝ), fn := cs.map fun c => ((number c false true : Int) : ℝ),
      p := cs.map fun c => (((c.filter (·.2)).length : Int) : ℝ), n := cs.map fun c => (((c.filter fun x => !x.2).length : Int) : ℝ),
      cm := cs.map fun c => [[((number c true true : Int) : ℝ), ((number c false true : Int) : ℝ)],
        [((number c true false : Int) : ℝ), ((number c false false : Int) : ℝ)]] } := by
  unfold matlabConfusion
  rw [matCol_rows cs 0 _ (fun c => rfl), matCol_rows cs 1 _ (fun c => rfl), matCol_rows cs 2 _ (fun c => rfl),
    matCol_rows cs 3 _ (fun c => rfl), matCol_rows cs 4 _ (fun c => rfl), matCol_rows cs 5 _ (fun c => rfl)]
  have hm : cs.map rowOf ≠ [] := by simpa using h
  simp only [bind, Except.bind, hm, if_false]
  congr 2
  clear h hm
  induction cs with
  | nil => rfl
  | cons c cs ih => simp

theorem mdiv_share (x y : Nat) (a b : ℝ) (ha : a = x) (hb : b = y) : mdiv a b = ratioOf x y := by
  subst ha hb
  unfold mdiv ratioOf
  by_cases h : y = 0
  · simp [h]
  · have : (y : ℝ) ≠ 0 := by exact_mod_cast h
    simp [h]

theorem zip_same {α β γ δ : Type} (g : β → γ → δ) (f1 : α → β) (f2 : α → γ) (l : List α) :
    List.zipWith g (l.map f1) (l.map f2) = l.map fun a => g (f1 a) (f2 a) := by
  induction l with
  | nil => rfl
  | cons a l ih => simp

/-- The columns of a file. -/
noncomputable def colsOf (cs : List (List (Bool × Bool))) : MetricCols :=
  { tpr := cs.map fun c => ratioOf (number c true true) (number c true true + number c false true),
    fpr := cs.map fun c => ratioOf (number c true false) (number c true false + number c false false),
    ppv := cs.map fun c => ratioOf (number c true true) (number c true true + number c true false),
    acc := cs.map fun c => ratioOf (number c true true + number c false false) c.length,
    tnr := cs.map fun c => ratioOf (number c false false) (number c true false + number c false false),
    trueP := cs.map fun c => (number c true true : ℝ),
    falseP := cs.map fun c => (number c true false : ℝ),
    recl := cs.map fun c => ratioOf (number c true true) (number c true true + number c false true) }

theorem metricCols_rows (cs : List (List (Bool × Bool))) (h : cs ≠ []) :
    metricCols cs.length (cs.map rowOf) = .ok (colsOf cs) := by
  unfold metricCols
  rw [confusion_rows cs h]
  simp only [bind, Except.bind, zip_same, setCol, List.length_map, if_true, colsOf]
  congr 2
  · refine List.map_congr_left fun c _ => mdiv_share _ _ _ _ (by simp) ?_
    rw [positives_eq]; simp
  · refine List.map_congr_left fun c _ => mdiv_share _ _ _ _ (by simp) ?_
    rw [negatives_eq]; simp
  · exact List.map_congr_left fun c _ => mdiv_share _ _ _ _ (by simp) (by simp)
  · refine List.map_congr_left fun c _ => mdiv_share _ _ _ _ (by simp) ?_
    rw [positives_eq, negatives_eq, ← total_eq c]; push_cast; ring
  · refine List.map_congr_left fun c _ => mdiv_share _ _ _ _ (by simp) ?_
    rw [negatives_eq]; simp
  · exact List.map_congr_left fun c _ => mdiv_share _ _ _ _ (by simp) (by simp)

theorem mapM_ok {α β : Type} (f : α → Except PyErr β) (g : α → β) :
    ∀ l : List α, (∀ a ∈ l, f a = .ok (g a)) → l.mapM f = .ok (l.map g)
  | [], _ => rfl
  | a :: l, h => by
    rw [List.mapM_cons, h a (by simp), mapM_ok f g l (fun b hb => h b (by simp [hb]))]
    rfl

/-- The whole result. -/
theorem metrics_rows (files : List (List (List (Bool × Bool)))) (hf : files ≠ []) (n : Nat) (hn : 0 < n)
    (hl : ∀ cs ∈ files, cs.length = n) (beta : ℝ) :
    classifierMetrics (files.map (·.map rowOf)) beta = .ok
      { tpr := files.map fun cs => (colsOf cs).tpr, fpr := files.map fun cs => (colsOf cs).fpr,
        ppv := files.map fun cs => (colsOf cs).ppv, acc := files.map fun cs => (colsOf cs).acc,
        bm := files.map fun cs => List.zipWith informedness (colsOf cs).tpr (colsOf cs).tnr,
        f1 := files.map fun cs => List.zipWith (fScore beta) (colsOf cs).tpr (colsOf cs).ppv,
        trueP := files.map fun cs => (colsOf cs).trueP, falseP := files.map fun cs => (colsOf cs).falseP,
        recl := files.map fun cs => (colsOf cs).recl } := by
  cases files with
  | nil => exact absurd rfl hf
  | cons first rest =>
    have hm : ((first :: rest).map (·.map rowOf)).mapM (metricCols first.length) = .ok ((first :: rest).map colsOf) := by
      rw [List.mapM_map]
      refine mapM_ok _ _ _ fun cs hcs => ?_
      have h1 : first.length = cs.length := by rw [hl _ hcs, hl first (by simp)]
      rw [h1]
      exact metricCols_rows cs (by rintro rfl; have := hl _ hcs; simp at this; omega)
    simp only [List.map_cons] at hm ⊢
    simp only [classifierMetrics, List.length_map, hm]
    simp [bind, Except.bind, Function.comp_def]

/-- C110: the metrics. `files` holds one file for each threshold, each with the cases of every point; all files have the same
points. The entry of the matrices for threshold `t` and point `k` is, for the cases of that point: the share of the positives
found (true positive rate and recall), of the negatives found wrongly, of the finds that are right (precision) and of the cases
told rightly, and the two counts. Where there is nothing to have a share of the entry is NaN. -/
theorem c110_metrics (files : List (List (List (Bool × Bool)))) (hf : files ≠ []) (n : Nat) (hn : 0 < n)
    (hl : ∀ cs ∈ files, cs.length = n) (beta : ℝ) :
    ∃ m, classifierMetrics (files.map (·.map rowOf)) beta = .ok m ∧
      ∀ (t k : Nat) (cs : List (List (Bool × Bool))) (c : List (Bool × Bool)), files[t]? = some cs → cs[k]? = some c →
        (m.tpr[t]?.bind (·[k]?)) = some (ratioOf (number c true true) (number c true true + number c false true)) ∧
        (m.fpr[t]?.bind (·[k]?)) = some (ratioOf (number c true false) (number c true false + number c false false)) ∧
        (m.ppv[t]?.bind (·[k]?)) = some (ratioOf (number c true true) (number c true true + number c true false)) ∧
        (m.acc[t]?.bind (·[k]?)) = some (ratioOf (number c true true + number c false false) c.length) ∧
        (m.recl[t]?.bind (·[k]?)) = some (ratioOf (number c true true) (number c true true + number c false true)) ∧
        (m.trueP[t]?.bind (·[k]?)) = some (number c true true : ℝ) ∧
        (m.falseP[t]?.bind (·[k]?)) = some (number c true false : ℝ) := by
  refine ⟨_, metrics_rows files hf n hn hl beta, ?_⟩
  intro t k cs c ht hk
  simp [ht, hk, colsOf]

/-- C110: the informedness is the true positive rate less the false positive rate, and lies between -1 and 1; it is NaN when
there are no positives or no negatives. -/
theorem c110_informedness (files : List (List (List (Bool × Bool)))) (hf : files ≠ []) (n : Nat) (hn : 0 < n)
    (hl : ∀ cs ∈ files, cs.length = n) (beta : ℝ) (m : MetricTables)
    (hm : classifierMetrics (files.map (·.map rowOf)) beta = .ok m) (t k : Nat) (cs : List (List (Bool × Bool)))
    (c : List (Bool × Bool)) (ht : files[t]? = some cs) (hk : cs[k]? = some c) :
    ((∀ x ∈ c, x.2 = true) ∨ (∀ x ∈ c, x.2 = false) → (m.bm[t]?.bind (·[k]?)) = some none) ∧
    ((∃ x ∈ c, x.2 = true) → (∃ x ∈ c, x.2 = false) → ∃ tpr fpr : ℝ,
      (m.tpr[t]?.bind (·[k]?)) = some (some tpr) ∧ (m.fpr[t]?.bind (·[k]?)) = some (some fpr) ∧
      (m.bm[t]?.bind (·[k]?)) = some (some (tpr - fpr)) ∧ -1 ≤ tpr - fpr ∧ tpr - fpr ≤ 1) := by
  rw [metrics_rows files hf n hn hl beta] at hm
  injection hm with hm
  subst hm
  have hp : (∀ x ∈ c, x.2 = false) ↔ number c true true + number c false true = 0 := by
    rw [← positives_eq, List.length_eq_zero_iff, List.filter_eq_nil_iff]
    simp
  have hng : (∀ x ∈ c, x.2 = true) ↔ number c true false + number c false false = 0 := by
    rw [← negatives_eq, List.length_eq_zero_iff, List.filter_eq_nil_iff]
    simp
  constructor
  · rintro (h | h)
    · rw [hng] at h
      simp only [List.getElem?_map, ht, Option.map_some, Option.bind_some, colsOf, zip_same, hk, ratioOf, h, if_true]
      congr 1
      unfold informedness
      cases (if number c true true + number c false true = 0 then none
        else some ((number c true true : ℝ) / (number c true true + number c false true : ℕ))) <;> rfl
    · rw [hp] at h
      simp only [List.getElem?_map, ht, Option.map_some, Option.bind_some, colsOf, zip_same, hk, ratioOf, h, if_true]
      rfl
  · intro h1 h2
    have e1 : number c true true + number c false true ≠ 0 := by
      rw [Ne, ← hp]
      obtain ⟨x, hx, hx2⟩ := h1
      intro h
      rw [h x hx] at hx2
      cases hx2
    have e2 : number c true false + number c false false ≠ 0 := by
      rw [Ne, ← hng]
      obtain ⟨x, hx, hx2⟩ := h2
      intro h
      rw [h x hx] at hx2
      cases hx2
    refine ⟨(number c true true : ℝ) / (number c true true + number c false true : ℕ),
      (number c true false : ℝ) / (number c true false + number c false false : ℕ), ?_, ?_, ?_, ?_, ?_⟩
    · simp only [List.getElem?_map, ht, Option.map_some, Option.bind_some, colsOf, hk, ratioOf, e1, if_false]
    · simp only [List.getElem?_map, ht, Option.map_some, Option.bind_some, colsOf, hk, ratioOf, e2, if_false]
    · simp only [List.getElem?_map, ht, Option.map_some, Option.bind_some, colsOf, zip_same, hk, ratioOf, e1, e2, if_false]
      unfold informedness
      simp only [Option.bind_eq_bind, Option.bind_some]
      congr 2
      have : ((number c true false + number c false false : ℕ) : ℝ) ≠ 0 := by exact_mod_cast e2
      field_simp
      push_cast
      ring
    · have h3 : (0 : ℝ) ≤ (number c true true : ℝ) / (number c true true + number c false true : ℕ) := by positivity
      have h4 : (number c true false : ℝ) / (number c true false + number c false false : ℕ) ≤ 1 := by
        apply div_le_one_of_le₀ <;> [push_cast; positivity]
        have : (0 : ℝ) ≤ number c false false := by positivity
        linarith
      linarith
    · have h3 : (0 : ℝ) ≤ (number c true false : ℝ) / (number c true false + number c false false : ℕ) := by positivity
      have h4 : (number c true true : ℝ) / (number c true true + number c false true : ℕ) ≤ 1 := by
        apply div_le_one_of_le₀ <;> [push_cast; positivity]
        have : (0 : ℝ) ≤ number c false true := by positivity
        linarith
      linarith

/-- The F-score entry. -/
theorem fScore_entry (beta : ℝ) (c : List (Bool × Bool)) :
    fScore beta (ratioOf (number c true true) (number c true true + number c false true))
      (ratioOf (number c true true) (number c true true + number c true false)) =
    if number c true true = 0 then none else some ((1 + beta ^ 2) * number c true true /
      ((1 + beta ^ 2) * number c true true + beta ^ 2 * number c true false + number c false true)) := by
  by_cases h : number c true true = 0
  · rw [if_pos h]
    unfold ratioOf fScore
    by_cases h1 : number c false true = 0
    · simp [h, h1]
    · by_cases h2 : number c true false = 0
      · simp [h, h1, h2]
      · simp [h, h1, h2, mdiv]
  · rw [if_neg h]
    have e1 : number c true true + number c false true ≠ 0 := by omega
    have e2 : number c true true + number c true false ≠ 0 := by omega
    simp only [ratioOf, e1, e2, if_false, fScore, Option.bind_eq_bind, Option.bind_some]
    have p0 : (0 : ℝ) < number c true true := by exact_mod_cast Nat.pos_of_ne_zero h
    have p1 : (0 : ℝ) ≤ number c false true := by positivity
    have p2 : (0 : ℝ) ≤ number c true false := by positivity
    have b2 : 0 ≤ beta ^ 2 := sq_nonneg beta
    push_cast
    have hden : beta ^ 2 * ((number c true true : ℝ) / (number c true true + number c false true)) +
        (number c true true : ℝ) / (number c true true + number c true false) ≠ 0 := by positivity
    unfold mdiv
    rw [if_neg hden]
    congr 1
    field_simp
    ring

/-- C110: the F-score. The entry is the F-score that gives recall `1 / beta` times the weight of precision; with `beta = 1` it is
the F1-score. It is NaN when no positive is found. -/
theorem c110_fscore (files : List (List (List (Bool × Bool)))) (hf : files ≠ []) (n : Nat) (hn : 0 < n)
    (hl : ∀ cs ∈ files, cs.length = n) (beta : ℝ) (hb : beta ≠ 0) (m : MetricTables)
    (hm : classifierMetrics (files.map (·.map rowOf)) beta = .ok m) (t k : Nat) (cs : List (List (Bool × Bool)))
    (c : List (Bool × Bool)) (ht : files[t]? = some cs) (hk : cs[k]? = some c) :
    ((true, true) ∉ c → (m.f1[t]?.bind (·[k]?)) = some none) ∧
    ((true, true) ∈ c → (m.f1[t]?.bind (·[k]?)) = some (some (fBeta (1 / beta) c))) := by
  rw [metrics_rows files hf n hn hl beta] at hm
  injection hm with hm
  subst hm
  have hmem : (true, true) ∈ c ↔ number c true true ≠ 0 := by
    unfold number
    rw [Ne, List.count_eq_zero, not_not]
  simp only [List.getElem?_map, ht, Option.map_some, Option.bind_some, colsOf, zip_same, hk, fScore_entry]
  constructor
  · intro h
    rw [hmem, not_not] at h
    rw [if_pos h]
  · intro h
    rw [hmem] at h
    rw [if_neg h]
    congr 2
    unfold fBeta
    have p0 : (0 : ℝ) < number c true true := by exact_mod_cast Nat.pos_of_ne_zero h
    have p1 : (0 : ℝ) ≤ number c false true := by positivity
    have p2 : (0 : ℝ) ≤ number c true false := by positivity
    field_simp
    ring

/-- C110, refuted: the entry called F0.5 (`beta = 0.5`, classifier_threshold_effect.m:126-127, 206-207) is not the F0.5-score: for
one hit, no false alarm and one miss it is 5/9 while the F0.5-score is 5/6. -/
theorem c110_fscore_false : ∃ (c : List (Bool × Bool)) (m : MetricTables),
    classifierMetrics [[rowOf c]] (1 / 2) = .ok m ∧ m.f1 = [[some (5 / 9)]] ∧ fBeta (1 / 2) c = 5 / 6 := by
  refine ⟨[(true, true), (false, true)], _, metrics_rows [[[(true, true), (false, true)]]] (by simp) 1 (by simp) (by simp) _,
    ?_, ?_⟩
  · simp only [List.map_cons, List.map_nil, colsOf, zip_same, fScore_entry]
    have e1 : number [(true, true), (false, true)] true true = 1 := by decide
    have e2 : number [(true, true), (false, true)] true false = 0 := by decide
    have e3 : number [(true, true), (false, true)] false true = 1 := by decide
    rw [e1, e2, e3]
    norm_num
  · have e1 : number [(true, true), (false, true)] true true = 1 := by decide
    have e2 : number [(true, true), (false, true)] true false = 0 := by decide
    have e3 : number [(true, true), (false, true)] false true = 1 := by decide
    unfold fBeta
    rw [e1, e2, e3]
    norm_num

/-- C110: `ppv` and `recall` return the precision and the recall of every point. -/
theorem c110_functions (cs : List (List (Bool × Bool))) (h : cs ≠ []) :
    ppvOf (cs.map rowOf) = .ok (cs.map fun c => ratioOf (number c true true) (number c true true + number c true false)) ∧
    recallOf (cs.map rowOf) = .ok (cs.map fun c => ratioOf (number c true true) (number c true true + number c false true)) := by
  unfold ppvOf recallOf
  rw [confusion_rows cs h]
  constructor <;> simp only [bind, Except.bind, zip_same] <;> congr 1 <;>
    exact List.map_congr_left fun c _ => mdiv_share _ _ _ _ (by simp) (by simp)

/-- C110: the confusion table of every point has the hits and the misses in its first row, the false alarms and the rightly
passed over in its second. -/
theorem c110_confusion (cs : List (List (Bool × Bool))) (h : cs ≠ []) : ∃ t, matlabConfusion (cs.map rowOf) = .ok t ∧
    t.cm = cs.map fun c => [[(number c true true : ℝ), (number c false true : ℝ)],
      [(number c true false : ℝ), (number c false false : ℝ)]] := by
  refine ⟨_, confusion_rows cs h, ?_⟩
  simp

/-- C110: files with different numbers of points raise, unless the other file has a single point: that point is then taken for
all points. -/
theorem c110_mixed (a b : List (List (Bool × Bool))) (ha : a ≠ []) (hb : b ≠ []) (hab : b.length ≠ a.length) (beta : ℝ) :
    (b.length ≠ 1 → classifierMetrics [a.map rowOf, b.map rowOf] beta = .error .valueError) ∧
    (∀ c, b = [c] → ∃ m, classifierMetrics [a.map rowOf, b.map rowOf] beta = .ok m ∧
      m.ppv[1]? = some (List.replicate a.length (ratioOf (number c true true) (number c true true + number c true false)))) := by
  have h0 := metricCols_rows a ha
  constructor
  · intro h1
    have : metricCols a.length (b.map rowOf) = .error .valueError := by
      unfold metricCols
      rw [confusion_rows b hb]
      match b, hab, h1, hb with
      | [], _, _, hb => exact absurd rfl hb
      | [_], _, h1, _ => exact absurd rfl h1
      | x :: y :: rest, hab, _, _ =>
        simp only [bind, Except.bind, zip_same, setCol, List.length_map, if_neg hab]
        rfl
    simp [classifierMetrics, h0, this, bind, Except.bind, List.mapM_cons]
  · rintro c rfl
    have h1 : ¬ 1 = a.length := by simpa using hab
    have : ∃ x, metricCols a.length ([c].map rowOf) = .ok x ∧
        x.ppv = List.replicate a.length (ratioOf (number c true true) (number c true true + number c true false)) := by
      unfold metricCols
      rw [confusion_rows [c] hb]
      simp only [bind, Except.bind, setCol, List.map_cons, List.map_nil, List.length_cons,
        List.length_nil, Nat.zero_add, if_neg h1, List.zipWith_cons_cons, List.zipWith_nil_right]
      refine ⟨_, rfl, ?_⟩
      simp only
      congr 1
      exact mdiv_share _ _ _ _ (by simp) (by simp)
    obtain ⟨x, hx, hp⟩ := this
    refine ⟨_, by
      simp only [classifierMetrics, List.length_map, List.mapM_cons, List.mapM_nil, h0, hx, bind, Except.bind, pure, Except.pure]
      rfl, ?_⟩
    simpa using hp

/-! ### Quality -/

/-- C110: the quality row holds the sums over the words; the last entry is the mean over the words of the share of forced bits
that the model gets wrong, not the share over all forced bits. -/
theorem c110_quality (n : Nat) (rs : List WordReport) (h : ∀ r ∈ rs, r.forcing.quality.length = 6) (i : Nat) (hi : i < 6) :
    (qualityRow n rs)[i]? = some (if i = 5 then (rs.map fun r => r.forcing.quality.getD 5 0).sum / n
      else (rs.map fun r => r.forcing.quality.getD i 0).sum) := by
  have key : ∀ (rs : List WordReport) (_ : ∀ r ∈ rs, r.forcing.quality.length = 6) (a : List ℚ) (_ : a.length = 6),
      ((rs.map fun r => r.forcing.quality).foldl (List.zipWith (· + ·)) a)[i]? =
        some (a.getD i 0 + (rs.map fun r => r.forcing.quality.getD i 0).sum) := by
    intro rs
    induction rs with
    | nil =>
      intro _ a ha
      simp [List.getElem?_eq_getElem (show i < a.length by omega)]
    | cons r rs ih =>
      intro hr a ha
      have hq := hr r (by simp)
      rw [List.map_cons, List.foldl_cons, ih (fun r hr' => hr r (by simp [hr'])) _ (by simp [ha, hq])]
      simp [List.getElem?_zipWith, List.getElem?_eq_getElem (show i < a.length by omega),
        List.getElem?_eq_getElem (show i < r.forcing.quality.length by omega), add_assoc]
  have h6 : (List.replicate 6 (0 : ℚ)).getD i 0 = 0 := by
    rw [List.getD_eq_getElem?_getD, List.getElem?_replicate]
    simp [hi]
  have := key rs h (List.replicate 6 0) (by simp)
  rw [h6, zero_add] at this
  unfold qualityRow sumRows
  rw [List.getElem?_mapIdx, this]
  by_cases h5 : i = 5
  · subst h5; simp
  · simp [h5]

/-! ### Cases -/

/-- Two thresholds, one point: hits, misses and false alarms. -/
example : ∃ m, classifierMetrics
    [[rowOf [(true, true), (true, false), (false, false), (false, true)]], [rowOf [(true, true), (true, true), (false, false)]]] 1 = .ok m ∧
    m.ppv = [[some (1 / 2)], [some 1]] ∧ m.f1 = [[some (1 / 2)], [some 1]] := by
  refine ⟨_, metrics_rows [[[(true, true), (true, false), (false, false), (false, true)]],
    [[(true, true), (true, true), (false, false)]]] (by simp) 1 (by simp) (by simp) _, ?_, ?_⟩
  · simp [colsOf, ratioOf, number]
    norm_num
  · simp only [List.map_cons, List.map_nil, colsOf, zip_same, fScore_entry]
    simp [number]
    norm_num

end NR.C110
