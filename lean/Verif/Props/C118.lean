import Verif.Model.Roc
import Verif.Spec.Roc
import Verif.Props.C110
import Verif.Props.C16_C24
/-
C118: the curves over thresholds in the thesis, and the analysis of three clusters.
-/
namespace NR.C118
open Spec C110 Dialect

/-! ### Fields as cases -/

theorem cases_eq (score : Place → ℝ × ℝ) (st : List (Nat × Nat)) (errors : List Nat) (P : ℝ → Prop) [DecidablePred P] :
    casesOf (fieldPlaces st).length (Scored score st fun x _ => P x) (Damaged st errors) =
      (wordFields (fun q => (score q).1) st errors).map fun f => (decide (P f.score), f.damaged) := by
  classical
  unfold casesOf wordFields
  apply List.ext_getElem?
  intro j
  rw [List.map_map, List.getElem?_map, List.getElem?_map]
  by_cases h : j < (fieldPlaces st).length
  · rw [List.getElem?_range h, List.getElem?_eq_getElem h]
    simp [Scored, Damaged, List.getElem?_eq_getElem h]
  · rw [List.getElem?_eq_none_iff.2 (by simpa using h), List.getElem?_eq_none_iff.2 (by simpa using h)]
    rfl

theorem cases_not_eq (score : Place → ℝ × ℝ) (st : List (Nat × Nat)) (errors : List Nat) (P : ℝ → Prop) [DecidablePred P] :
    casesOf (fieldPlaces st).length (Scored score st fun x _ => P x) (fun j => ¬ Damaged st errors j) =
      (wordFields (fun q => (score q).1) st errors).map fun f => (decide (P f.score), !f.damaged) := by
  classical
  unfold casesOf wordFields
  apply List.ext_getElem?
  intro j
  rw [List.map_map, List.getElem?_map, List.getElem?_map]
  by_cases h : j < (fieldPlaces st).length
  · rw [List.getElem?_range h, List.getElem?_eq_getElem h]
    simp only [Function.comp_apply, Option.map_some, Scored, Damaged, List.getElem?_eq_getElem h, Option.some.injEq,
      exists_eq_left', decide_not]
  · rw [List.getElem?_eq_none_iff.2 (by simpa using h), List.getElem?_eq_none_iff.2 (by simpa using h)]
    rfl

open Classical in
theorem rates_eq (fs : List Received) (neg : Bool) (P : ℝ → Prop) :
    let c := fs.map fun f => (decide (P f.score), xor neg f.damaged)
    ratioOf (number c true true) (number c true true + number c false true) = shareOf fs (!neg) P ∧
    ratioOf (number c true false) (number c true false + number c false false) = shareOf fs neg P ∧
    ratioOf (number c true true) (number c true true + number c true false) = precisionOf fs (!neg) P := by
  intro c
  have h : number c true true = (fs.filter fun f => f.damaged == !neg && decide (P f.score)).length ∧
      number c true true + number c false true = (fs.filter fun f => f.damaged == !neg).length ∧
      number c true false = (fs.filter fun f => f.damaged == neg && decide (P f.score)).length ∧
      number c true false + number c false false = (fs.filter fun f => f.damaged == neg).length ∧
      number c true true + number c true false = (fs.filter fun f => decide (P f.score)).length := by
    have e : c = fs.map fun f => (decide (P f.score), xor neg f.damaged) := rfl
    rw [e]
    clear e c
    induction fs with
    | nil => exact ⟨rfl, rfl, rfl, rfl, rfl⟩
    | cons f fs ih =>
      simp only [number] at ih ⊢
      obtain ⟨h1, h2, h3, h4, h5⟩ := ih
      rcases f with ⟨s, d⟩
      by_cases hp : P s <;> cases neg <;> cases d <;> simp [hp] at h1 h2 h3 h4 h5 ⊢ <;> omega
  obtain ⟨h1, h2, h3, h4, h5⟩ := h
  unfold shareOf precisionOf
  rw [h2, h1, h4, h3, ← h5, h1, h3]
  exact ⟨rfl, rfl, rfl⟩

/-! ### Shares rise -/

theorem ratio_mono (a b n : Nat) (h : a ≤ b) : AtMost (ratioOf a n) (ratioOf b n) := by
  unfold ratioOf
  by_cases hn : n = 0
  · simp [hn, AtMost]
  · simp only [hn, if_false, AtMost]
    gcongr

theorem share_mono (fs : List Received) (dmg : Bool) (P Q : ℝ → Prop) (h : ∀ x, P x → Q x) :
    AtMost (shareOf fs dmg P) (shareOf fs dmg Q) := by
  classical
  unfold shareOf
  apply ratio_mono
  rw [← List.countP_eq_length_filter, ← List.countP_eq_length_filter]
  apply List.countP_mono_left
  intro f _ hf
  simp only [Bool.and_eq_true, decide_eq_true_eq] at hf ⊢
  exact ⟨hf.1, h _ hf.2⟩

theorem share_below (fs : List Received) (dmg : Bool) (a b : ℝ) (h : a ≤ b) :
    AtMost (shareOf fs dmg (· < a)) (shareOf fs dmg (· < b)) := share_mono _ _ _ _ fun _ hx => lt_of_lt_of_le hx h

theorem share_above (fs : List Received) (dmg : Bool) (a b : ℝ) (h : a ≤ b) :
    AtMost (shareOf fs dmg (1 - a < ·)) (shareOf fs dmg (1 - b < ·)) :=
  share_mono _ _ _ _ fun _ hx => lt_of_le_of_lt (sub_le_sub_left h 1) hx

/-! ### The curves -/

theorem pick_map {α β : Type} (l : List α) (g : α → Bool) (f : α → β) : pick (l.map g) (l.map f) = (l.filter g).map f := by
  unfold pick
  induction l with
  | nil => rfl
  | cons a l ih =>
    rw [List.map_cons, List.map_cons, List.zip_cons_cons]
    by_cases h : g a = true
    · rw [List.filter_cons_of_pos (by simpa using h), List.filter_cons_of_pos h, List.map_cons, List.map_cons, ih]
    · rw [List.filter_cons_of_neg (by simpa using h), List.filter_cons_of_neg h, ih]

/-- Several runs over the same words with the same errors: the model has been made from the buffers `as`, `points` holds for every
error rate the words and the errors in them, and every file is what a run with its own threshold saves for these. -/
structure Sweep (O : StatOps Val ℝ) (w : Option Nat) (as : List (BufArg × List (Nat × Nat)))
    (structures : List (List (Nat × Nat))) (nClusters len : Nat) (hist : String → List Val) (fitv : List Val → ℝ × ℝ)
    (mb : Place → List Bool) (points : List (List (List Bool × List Nat))) (files : List SummaryFile) : Prop where
  addable : ∀ a ∈ as, Addable a
  some_cluster : 0 < nClusters
  clusters : nClusters ≤ structures.length
  inRange : ∀ st ∈ structures, InRange len st ∧ NonOverlapping st
  history : hist = fun name => as.flatMap (takes name)
  fits : ∀ st ∈ structures, ∀ p ∈ fieldPlaces st, O.fit (windowed w (hist p.name)) = .ok (fitv (windowed w (hist p.name)))
  means : ∀ st ∈ structures, ∀ p ∈ fieldPlaces st,
    meanBits O w (hist p.name) p.type = .ok (mb p) ∧ (mb p).length = 8 * width p.type
  words : ∀ ws ∈ points, ∀ x ∈ ws, x.1.length = 8 * len ∧ x.2.Nodup ∧ ∀ e ∈ x.2, e < x.1.length
  saved : ∀ f ∈ files, ∃ rss,
    points.mapM (analysisStep O f.thr structures nClusters false (addAll O (BufferModel.new w) as)) = .ok rss ∧
    f.bad = rss.map badRow ∧ f.good = rss.map goodRow

/-- All fields of all words of a point, as received. -/
noncomputable def pointFields (O : StatOps Val ℝ) (w : Option Nat) (structures : List (List (Nat × Nat))) (nClusters : Nat)
    (hist : String → List Val) (fitv : List Val → ℝ × ℝ) (words : List (List Bool × List Nat)) : List Received :=
  words.zipIdx.flatMap fun x => wordFields
    (fun q => (fieldScore O w fitv hist (bitsToBytes (flipAt x.1.1 x.1.2)) q).1) (structures.getD (x.2 % nClusters) []) x.1.2

section
variable {O : StatOps Val ℝ} {w : Option Nat} {as : List (BufArg × List (Nat × Nat))}
  {structures : List (List (Nat × Nat))} {nClusters len : Nat} {hist : String → List Val} {fitv : List Val → ℝ × ℝ}
  {mb : Place → List Bool} {points : List (List (List Bool × List Nat))} {files : List SummaryFile}

open Classical in
/-- The cases of a file. -/
noncomputable def fileCases (neg : Bool) (P : ℝ → Prop) (fss : List (List Received)) : List (List (Bool × Bool)) :=
  fss.map fun fs => fs.map fun f => (decide (P f.score), xor neg f.damaged)

theorem mapM_total {α β : Type} (f : α → Except PyErr β) : ∀ (l : List α) (rs : List β), l.mapM f = .ok rs →
    List.Forall₂ (fun a r => f a = .ok r) l rs
  | [], rs, h => by
    cases h
    exact .nil
  | a :: l, rs, h => by
    rw [List.mapM_cons] at h
    rcases ha : f a with e | r
    · rw [ha] at h; cases h
    · rcases hl : l.mapM f with e | rs'
      · rw [ha, hl] at h; cases h
      · rw [ha, hl] at h
        cases h
        exact .cons ha (mapM_total f l rs' hl)

theorem saved_rows (h : Sweep O w as structures nClusters len hist fitv mb points files) (f : SummaryFile) (hf : f ∈ files) :
    f.bad = (fileCases false (· < f.thr) (points.map (pointFields O w structures nClusters hist fitv))).map rowOf ∧
    f.good = (fileCases true (1 - f.thr < ·) (points.map (pointFields O w structures nClusters hist fitv))).map rowOf := by
  classical
  obtain ⟨rss, hm, hb, hg⟩ := h.saved f hf
  have hall := mapM_total _ _ _ hm
  rw [hb, hg]
  clear hb hg hm
  have hw := h.words
  generalize hps : points = ps at hall hw
  clear hps
  induction hall with
  | nil => exact ⟨rfl, rfl⟩
  | @cons ws rs ps rss h1 _ ih =>
    obtain ⟨i1, i2⟩ := ih fun x hx => hw x (List.mem_cons_of_mem _ hx)
    obtain ⟨rs', h2, hgood, hbad, -⟩ := c110_summary O w f.thr as h.addable structures nClusters len h.some_cluster h.clusters
      h.inRange hist h.history fitv mb h.fits h.means ws (hw ws (by simp)) (fun i => structures.getD (i % nClusters) [])
      (fun _ => rfl) (fun x => flipAt x.1 x.2) (fun _ => rfl)
    have e : rs = rs' := by
      rw [h1] at h2
      injection h2
    subst e
    simp only [List.map_cons, fileCases] at i1 i2 ⊢
    rw [i1, i2]
    constructor
    · congr 1
      rw [hbad, pointFields, List.map_flatMap]
      congr 1
      apply List.flatMap_congr
      intro x _
      rw [cases_eq _ _ _ (fun s => s < f.thr)]
      simp
    · congr 1
      rw [hgood, pointFields, List.map_flatMap]
      congr 1
      apply List.flatMap_congr
      intro x _
      rw [cases_not_eq _ _ _ (fun s => 1 - f.thr < s)]
      simp

open Classical in
theorem curves_eq (neg : Bool) (P : ℝ → ℝ → Prop) (fss : List (List Received)) (h19 : 19 ≤ fss.length)
    (fls : List SummaryFile) (hne : fls ≠ []) (rows : SummaryFile → List (List Int)) (beta lo : ℝ) (pVec : List ℚ)
    (hp : 19 ≤ pVec.length)
    (hr : ∀ f ∈ fls, rows f = (fileCases neg (P f.thr) fss).map rowOf) :
    ∃ cs, thesisCurves fls pVec rows beta lo = .ok cs ∧ cs.length = 4 ∧ ∀ (c : Nat) (curve : Curve), cs[c]? = some curve →
      pVec[6 * c]? = some curve.label ∧
      curve.roc = ((fls.map (·.thr)).filter fun t => decide (lo ≤ t ∧ t < 1)).map (fun t =>
        (shareOf (fss.getD (6 * c) []) neg (P t), shareOf (fss.getD (6 * c) []) (!neg) (P t))) ∧
      curve.precision = ((fls.map (·.thr)).filter fun t => decide (lo ≤ t ∧ t < 1)).map (fun t =>
        (t, precisionOf (fss.getD (6 * c) []) (!neg) (P t))) := by
  have e1 : fls.map rows = (fls.map fun f => fileCases neg (P f.thr) fss).map (·.map rowOf) := by
    rw [List.map_map]
    exact List.map_congr_left fun f hf => hr f hf
  unfold thesisCurves
  rw [e1, metrics_rows _ (by simpa using hne) fss.length (by omega) (by
    intro cs hcs
    rw [List.mem_map] at hcs
    obtain ⟨f, _, rfl⟩ := hcs
    simp [fileCases]) beta]
  simp only [bind, Except.bind, List.map_map, Function.comp_def, pick_map]
  have hz : ∀ {α β γ δ : Type} (g : β → γ → δ) (f1 : α → β) (f2 : α → γ) (l : List α),
    List.zipWith g (l.map f1) (l.map f2) = l.map fun a => g (f1 a) (f2 a) := fun g f1 f2 l => zip_same g f1 f2 l
  have key : ∀ k, k < 19 → ∀ t,
      ((colsOf (fileCases neg (P t) fss)).fpr.getD k none = shareOf (fss.getD k []) neg (P t)) ∧
      ((colsOf (fileCases neg (P t) fss)).tpr.getD k none = shareOf (fss.getD k []) (!neg) (P t)) ∧
      ((colsOf (fileCases neg (P t) fss)).ppv.getD k none = precisionOf (fss.getD k []) (!neg) (P t)) := by
    intro k hk t
    have hk' : k < fss.length := by omega
    have := rates_eq fss[k] neg (P t)
    simp only at this
    obtain ⟨r1, r2, r3⟩ := this
    simp only [colsOf, fileCases, List.getD_eq_getElem?_getD, List.getElem?_map, List.getElem?_eq_getElem hk',
      Option.map_some, Option.getD_some]
    exact ⟨r2, r1, r3⟩
  have line : ∀ k, k < 19 → ∃ p, pVec[k]? = some p := fun k hk => ⟨_, List.getElem?_eq_getElem (by omega)⟩
  obtain ⟨p0, q0⟩ := line 0 (by omega)
  obtain ⟨p1, q1⟩ := line 6 (by omega)
  obtain ⟨p2, q2⟩ := line 12 (by omega)
  obtain ⟨p3, q3⟩ := line 18 (by omega)
  simp only [List.mapM_cons, List.mapM_nil, q0, q1, q2, q3, bind, Except.bind, pure, Except.pure]
  refine ⟨_, rfl, rfl, ?_⟩
  intro c curve hc
  have hfm : ∀ {β : Type} (g : ℝ → β), ((fls.map (·.thr)).filter fun t => decide (lo ≤ t ∧ t < 1)).map g =
      (fls.filter fun f => decide (lo ≤ f.thr ∧ f.thr < 1)).map fun f => g f.thr := by
    intro β g
    rw [List.filter_map, List.map_map]
    rfl
  rw [hfm, hfm]
  match c, hc with
  | 0, hc =>
    simp only [List.getElem?_cons_zero, Option.some.injEq] at hc
    subst hc
    refine ⟨q0, ?_, ?_⟩ <;> simp only [hz] <;> refine List.map_congr_left fun f _ => ?_
    · rw [(key 0 (by omega) f.thr).1, (key 0 (by omega) f.thr).2.1]
    · rw [(key 0 (by omega) f.thr).2.2]
  | 1, hc =>
    simp only [List.getElem?_cons_zero, List.getElem?_cons_succ, Option.some.injEq] at hc
    subst hc
    refine ⟨q1, ?_, ?_⟩ <;> simp only [hz] <;> refine List.map_congr_left fun f _ => ?_
    · rw [(key 6 (by omega) f.thr).1, (key 6 (by omega) f.thr).2.1]
    · rw [(key 6 (by omega) f.thr).2.2]
  | 2, hc =>
    simp only [List.getElem?_cons_zero, List.getElem?_cons_succ, Option.some.injEq] at hc
    subst hc
    refine ⟨q2, ?_, ?_⟩ <;> simp only [hz] <;> refine List.map_congr_left fun f _ => ?_
    · rw [(key 12 (by omega) f.thr).1, (key 12 (by omega) f.thr).2.1]
    · rw [(key 12 (by omega) f.thr).2.2]
  | 3, hc =>
    simp only [List.getElem?_cons_zero, List.getElem?_cons_succ, Option.some.injEq] at hc
    subst hc
    refine ⟨q3, ?_, ?_⟩ <;> simp only [hz] <;> refine List.map_congr_left fun f _ => ?_
    · rw [(key 18 (by omega) f.thr).1, (key 18 (by omega) f.thr).2.1]
    · rw [(key 18 (by omega) f.thr).2.2]
  | c + 4, hc => simp at hc

theorem sort_perm (files : List SummaryFile) : (sortFiles files).Perm files := List.perm_insertionSort _ _

theorem sort_sorted (files : List SummaryFile) : ((sortFiles files).map (·.thr)).Pairwise (· ≤ ·) := by
  rw [List.pairwise_map]
  unfold sortFiles
  have : Std.Total fun a b : SummaryFile => a.thr ≤ b.thr := ⟨fun a b => le_total a.thr b.thr⟩
  have : IsTrans SummaryFile fun a b : SummaryFile => a.thr ≤ b.thr := ⟨fun a b c h1 h2 => le_trans h1 h2⟩
  exact List.pairwise_insertionSort _ _

open Classical in
/-- C118: the curves. Several runs analyse the same words with the same errors at 19 points or more, each with its own threshold.
The figures show the curves of points 1, 7, 13 and 19. Going through the thresholds in ascending order, from 0.001 (0.01 for valid
fields) up to but not including 1, the ROC curve of damaged fields has for every threshold the share of the undamaged and of the
damaged fields with a score below the threshold, that of valid fields the share of the damaged and of the undamaged fields with a
score above one minus the threshold, whatever order the files are found in. The precision is the share of the damaged (undamaged)
fields among those called so. -/
theorem c118_curves (h : Sweep O w as structures nClusters len hist fitv mb points files) (h19 : 19 ≤ points.length)
    (hne : files ≠ []) (fields : Nat → List Received)
    (hfields : ∀ k ws, points[k]? = some ws → fields k = pointFields O w structures nClusters hist fitv ws) :
    ∃ (damaged valid : List Curve) (ts : List ℝ), thesisFigures files = .ok (damaged, valid) ∧ damaged.length = 4 ∧ valid.length = 4 ∧
      ts.Perm (files.map (·.thr)) ∧ ts.Pairwise (· ≤ ·) ∧
      (∀ (c : Nat) (curve : Curve), damaged[c]? = some curve →
        curve.roc = (ts.filter fun t => decide (1 / 1000 ≤ t ∧ t < 1)).map (fun t =>
          (shareOf (fields (6 * c)) false (· < t), shareOf (fields (6 * c)) true (· < t))) ∧
        curve.precision = (ts.filter fun t => decide (1 / 1000 ≤ t ∧ t < 1)).map (fun t =>
          (t, precisionOf (fields (6 * c)) true (· < t)))) ∧
      (∀ (c : Nat) (curve : Curve), valid[c]? = some curve →
        curve.roc = (ts.filter fun t => decide (1 / 100 ≤ t ∧ t < 1)).map (fun t =>
          (shareOf (fields (6 * c)) true (1 - t < ·), shareOf (fields (6 * c)) false (1 - t < ·))) ∧
        curve.precision = (ts.filter fun t => decide (1 / 100 ≤ t ∧ t < 1)).map (fun t =>
          (t, precisionOf (fields (6 * c)) false (1 - t < ·)))) := by
  obtain ⟨first, rest, hs⟩ : ∃ first rest, sortFiles files = first :: rest := by
    rcases hs : sortFiles files with _ | ⟨a, b⟩
    · have := (sort_perm files).length_eq
      rw [hs] at this
      exact absurd (List.length_eq_zero_iff.1 this.symm) hne
    · exact ⟨a, b, rfl⟩
  have hmem : ∀ f ∈ first :: rest, f ∈ files := fun f hf => (sort_perm files).mem_iff.1 (hs ▸ hf)
  have hlen : first.bad.length = points.length := by
    rw [(saved_rows h first (hmem first (by simp))).1]
    simp [fileCases]
  have hpl : 19 ≤ (matLinspace first.minflip first.maxflip first.bad.length).length := by
    simp [matLinspace, hlen, h19]
  have hfs : ∀ c, 6 * c < points.length →
      (points.map (pointFields O w structures nClusters hist fitv)).getD (6 * c) [] = fields (6 * c) := by
    intro c hc
    rw [hfields _ _ (List.getElem?_eq_getElem hc), List.getD_eq_getElem?_getD, List.getElem?_map, List.getElem?_eq_getElem hc]
    rfl
  obtain ⟨dm, d1, d2, d3⟩ := curves_eq false (fun t s => s < t) (points.map (pointFields O w structures nClusters hist fitv))
    (by simpa using h19) (first :: rest) (by simp) (·.bad) 1 (1 / 1000) _ hpl
    (fun f hf => (saved_rows h f (hmem f hf)).1)
  obtain ⟨vl, v1, v2, v3⟩ := curves_eq true (fun t s => 1 - t < s) (points.map (pointFields O w structures nClusters hist fitv))
    (by simpa using h19) (first :: rest) (by simp) (·.good) (1 / 2) (1 / 100) _ hpl
    (fun f hf => (saved_rows h f (hmem f hf)).2)
  refine ⟨dm, vl, (first :: rest).map (·.thr), ?_, d2, v2, ?_, ?_, ?_, ?_⟩
  · unfold thesisFigures
    simp only [hs, bind, Except.bind, d1, v1]
  · exact ((hs ▸ sort_perm files).map _)
  · have := sort_sorted files
    rwa [hs] at this
  · intro c curve hc
    have hc4 : c < 4 := by
      rw [← d2]
      exact (List.getElem?_eq_some_iff.1 hc).1
    obtain ⟨-, h2, h3⟩ := d3 c curve hc
    rw [hfs c (by omega)] at h2 h3
    exact ⟨h2, h3⟩
  · intro c curve hc
    have hc4 : c < 4 := by
      rw [← v2]
      exact (List.getElem?_eq_some_iff.1 hc).1
    obtain ⟨-, h2, h3⟩ := v3 c curve hc
    rw [hfs c (by omega)] at h2 h3
    exact ⟨h2, h3⟩

/-- C118: the curves rise. Along every ROC curve, with growing threshold, neither rate falls. -/
theorem c118_rising (h : Sweep O w as structures nClusters len hist fitv mb points files) (h19 : 19 ≤ points.length)
    (hne : files ≠ []) : ∃ damaged valid, thesisFigures files = .ok (damaged, valid) ∧
      ∀ curve ∈ damaged ++ valid, curve.roc.Pairwise fun a b => AtMost a.1 b.1 ∧ AtMost a.2 b.2 := by
  classical
  obtain ⟨dm, vl, ts, h1, -, -, -, hsort, h2, h3⟩ := c118_curves h h19 hne
    (fun k => pointFields O w structures nClusters hist fitv (points.getD k [])) (by
      intro k ws hk
      rw [List.getD_eq_getElem?_getD, hk]
      rfl)
  refine ⟨dm, vl, h1, ?_⟩
  clear h1
  intro curve hc
  rw [List.mem_append] at hc
  rcases hc with hc | hc
  · obtain ⟨c, hc⟩ := List.mem_iff_getElem?.1 hc
    rw [(h2 c curve hc).1, List.pairwise_map]
    exact List.Pairwise.imp (fun {a b} hab => ⟨share_below _ _ a b hab, share_below _ _ a b hab⟩) (hsort.filter _)
  · obtain ⟨c, hc⟩ := List.mem_iff_getElem?.1 hc
    rw [(h3 c curve hc).1, List.pairwise_map]
    exact List.Pairwise.imp (fun {a b} hab => ⟨share_above _ _ a b hab, share_above _ _ a b hab⟩) (hsort.filter _)

theorem matLinspace_eq (a b : ℚ) (n : Nat) (hn : 2 ≤ n) : matLinspace a b n = Averaged.linspace a b n := by
  unfold matLinspace Averaged.linspace
  refine List.map_congr_left fun i hi => ?_
  rw [if_neg (by omega : ¬ n = 1)]
  split
  · rename_i h
    have hq : ((n : ℚ) - 1) ≠ 0 := by
      have : (2 : ℚ) ≤ n := by exact_mod_cast hn
      linarith
    have hi' : (i : ℚ) = n - 1 := by
      rw [← h]
      push_cast
      ring
    rw [hi']
    field_simp
    ring
  · rfl

/-- C118: the legend. If all runs have been given the same range of error rates, every line of the figures is labelled with the error
rate its point was run with. -/
theorem c118_labels (h : Sweep O w as structures nClusters len hist fitv mb points files) (h19 : 19 ≤ points.length)
    (hne : files ≠ []) (lo hi : ℚ) (hargs : ∀ f ∈ files, f.minflip = lo ∧ f.maxflip = hi) :
    ∃ damaged valid, thesisFigures files = .ok (damaged, valid) ∧ ∀ (c : Nat) (curve : Curve),
      damaged[c]? = some curve ∨ valid[c]? = some curve →
        (Averaged.linspace lo hi points.length)[6 * c]? = some curve.label := by
  obtain ⟨first, rest, hs⟩ : ∃ first rest, sortFiles files = first :: rest := by
    rcases hs : sortFiles files with _ | ⟨a, b⟩
    · have := (sort_perm files).length_eq
      rw [hs] at this
      exact absurd (List.length_eq_zero_iff.1 this.symm) hne
    · exact ⟨a, b, rfl⟩
  have hmem : ∀ f ∈ first :: rest, f ∈ files := fun f hf => (sort_perm files).mem_iff.1 (hs ▸ hf)
  have hlen : first.bad.length = points.length := by
    rw [(saved_rows h first (hmem first (by simp))).1]
    simp [fileCases]
  have hv : matLinspace first.minflip first.maxflip first.bad.length = Averaged.linspace lo hi points.length := by
    rw [(hargs first (hmem first (by simp))).1, (hargs first (hmem first (by simp))).2, hlen, matLinspace_eq _ _ _ (by omega)]
  have hpl : 19 ≤ (Averaged.linspace lo hi points.length).length := by simp [Averaged.linspace, h19]
  obtain ⟨dm, d1, d2, d3⟩ := curves_eq false (fun t s => s < t) (points.map (pointFields O w structures nClusters hist fitv))
    (by simpa using h19) (first :: rest) (by simp) (·.bad) 1 (1 / 1000) _ hpl
    (fun f hf => (saved_rows h f (hmem f hf)).1)
  obtain ⟨vl, v1, v2, v3⟩ := curves_eq true (fun t s => 1 - t < s) (points.map (pointFields O w structures nClusters hist fitv))
    (by simpa using h19) (first :: rest) (by simp) (·.good) (1 / 2) (1 / 100) _ hpl
    (fun f hf => (saved_rows h f (hmem f hf)).2)
  refine ⟨dm, vl, ?_, ?_⟩
  · unfold thesisFigures
    simp only [hs, bind, Except.bind, hv, d1, v1]
  · rintro c curve (hc | hc)
    · exact (d3 c curve hc).1
    · exact (v3 c curve hc).1

end

/-! ### Three clusters -/

theorem segment_bits (l : List Bool) : ∃ st, segmentBuffer decode (l.map bitByte) = .ok st ∧ st.struct = [] := by
  obtain ⟨st, h, -⟩ := c20_never_raises (l.map bitByte)
  refine ⟨st, h, ?_⟩
  rcases hst : st.struct with _ | ⟨⟨i, id⟩, rest⟩
  · rfl
  · obtain ⟨L, hh, -⟩ := c16_genuine decode _ st h i id (by rw [hst]; simp)
    have hm := hh.marker
    have hin := hh.inside
    rw [List.getD_eq_getElem?_getD, List.getElem?_eq_getElem (by omega), Option.getD_some, List.getElem_map] at hm
    unfold bitByte at hm
    split at hm <;> simp at hm

/-- C118, refuted for three clusters: whatever the data, no message is found in any of the three parts. -/
theorem c118_three_clusters_false (data : List Bool) : scriptStructures decode 3 data = .ok [[], [], []] := by
  obtain ⟨a, ha, ha'⟩ := segment_bits (data.take 416)
  obtain ⟨b, hb, hb'⟩ := segment_bits (pySlice data 416 864)
  obtain ⟨c, hc, hc'⟩ := segment_bits (data.drop 864)
  unfold scriptStructures
  simp only [show ¬ (3 : Nat) = 1 by omega, show ¬ (3 : Nat) = 2 by omega, if_false, if_true, bind, Except.bind, ha, hb, hc, ha', hb',
    hc']

theorem unsaid (c : List (Bool × Bool)) (h : ∀ x ∈ c, x.1 = false) (q : Bool) : number c true q = 0 := by
  unfold number
  rw [List.count_eq_zero]
  intro hm
  exact absurd (h _ hm) (by simp)

theorem silent_cases (n : Nat) (pred act : Nat → Prop) (h : ∀ i, ¬ pred i) : ∀ x ∈ casesOf n pred act, x.1 = false := by
  classical
  intro x hx
  unfold casesOf at hx
  rw [List.mem_map] at hx
  obtain ⟨i, _, rfl⟩ := hx
  simpa using h i

/-- C118, refuted for three clusters: the analysis returns normally, whatever the words, the errors and the model, but it counts
no field at all, and no bit is ever forced or flipped. -/
theorem c118_three_rows_false (O : StatOps Val ℝ) (w : Option Nat) (thr : ℝ) (as : List (BufArg × List (Nat × Nat)))
    (has : ∀ a ∈ as, Addable a) (data : List Bool) (structures : List (List (Nat × Nat)))
    (hs : scriptStructures decode 3 data = .ok structures) (len : Nat) (words : List (List Bool × List Nat))
    (hw : ∀ x ∈ words, x.1.length = 8 * len ∧ x.2.Nodup ∧ ∀ e ∈ x.2, e < x.1.length) :
    ∃ rs, analysisStep O thr structures 3 false (addAll O (BufferModel.new w) as) words = .ok rs ∧
      goodRow rs = List.replicate 6 0 ∧ badRow rs = List.replicate 6 0 ∧ forcedFieldsRow rs = List.replicate 6 0 ∧
      (forcedBitsRow rs).take 2 = [0, 0] ∧ (flippedBitsRow rs).take 2 = [0, 0] := by
  rw [c118_three_clusters_false] at hs
  injection hs with hs
  subst hs
  have hnil : ∀ st ∈ ([[], [], []] : List (List (Nat × Nat))), st = [] := by simp
  obtain ⟨rs, h1, h2, h3, h4, h5, h6⟩ := c110_summary O w thr as has [[], [], []] 3 len (by omega) (by simp)
    (by
      intro st hst
      rw [hnil st hst]
      exact ⟨fun r hr => absurd hr (by simp), .nil⟩)
    _ rfl (fun _ => (0, 0)) (fun _ => []) (by
      intro st hst p hp
      rw [hnil st hst] at hp
      exact absurd hp (by simp [fieldPlaces])) (by
      intro st hst p hp
      rw [hnil st hst] at hp
      exact absurd hp (by simp [fieldPlaces]))
    words hw (fun _ => []) (by
      intro i
      have : i % 3 < 3 := Nat.mod_lt _ (by omega)
      rcases h : i % 3 with _ | _ | _ | n
      · rfl
      · rfl
      · rfl
      · omega) (fun x => flipAt x.1 x.2) (fun _ => rfl)
  have z : ∀ (pred act : (List Bool × List Nat) × Nat → Nat → Prop),
      (words.zipIdx.flatMap fun x => casesOf (fieldPlaces []).length (pred x) (act x)) = [] := by
    intro pred act
    rw [List.flatMap_eq_nil_iff]
    intro x _
    rfl
  have nb : ∀ (buf : List Byte) (i : Nat), bitSays O w (fun _ => (0, 0)) (fun name => as.flatMap (takes name)) (fun _ => []) []
      buf i = none := fun buf i => rfl
  refine ⟨rs, h1, ?_, ?_, ?_, ?_, ?_⟩
  · rw [h2, z]; rfl
  · rw [h3, z]; rfl
  · rw [h4, z]; rfl
  · rw [h5]
    have hq : ∀ q, number (words.zipIdx.flatMap fun x => casesOf x.1.1.length
        (WrongBit (bitSays O w (fun _ => (0, 0)) (fun name => as.flatMap (takes name)) (fun _ => []) []
          (bitsToBytes (flipAt x.1.1 x.1.2)))) (· ∈ x.1.2)) true q = 0 := by
      intro q
      refine unsaid _ ?_ q
      intro y hy
      rw [List.mem_flatMap] at hy
      obtain ⟨x, _, hx⟩ := hy
      refine silent_cases _ _ _ ?_ y hx
      rintro i ⟨b, hb, _⟩
      rw [nb] at hb
      cases hb
    unfold rowOf
    rw [hq, hq]
    rfl
  · rw [h6]
    have hq : ∀ q, number (words.zipIdx.flatMap fun x => casesOf x.1.1.length
        (FlippedBit (bitSays O w (fun _ => (0, 0)) (fun name => as.flatMap (takes name)) (fun _ => []) []
          (bitsToBytes (flipAt x.1.1 x.1.2))) (flipAt x.1.1 x.1.2)) (· ∈ x.1.2)) true q = 0 := by
      intro q
      refine unsaid _ ?_ q
      intro y hy
      rw [List.mem_flatMap] at hy
      obtain ⟨x, _, hx⟩ := hy
      refine silent_cases _ _ _ ?_ y hx
      rintro i ⟨b, hb, _⟩
      rw [nb] at hb
      cases hb
    unfold rowOf
    rw [hq, hq]
    rfl

/-- C118, refuted for three clusters: every metric MATLAB makes of such a file is NaN. -/
theorem c118_three_metrics_false (n : Nat) (hn : 0 < n) (beta : ℝ) :
    ∃ m, classifierMetrics [List.replicate n (List.replicate 6 0)] beta = .ok m ∧ m.tpr = [List.replicate n none] ∧
      m.fpr = [List.replicate n none] ∧ m.ppv = [List.replicate n none] ∧ m.acc = [List.replicate n none] := by
  have e : [List.replicate n (List.replicate 6 (0 : Int))] = [List.replicate n ([] : List (Bool × Bool))].map (·.map rowOf) := by
    rw [List.map_cons, List.map_nil, List.map_replicate, rowOf_nil]
  rw [e]
  refine ⟨_, metrics_rows [List.replicate n []] (by simp) n hn (by simp) beta, ?_, ?_, ?_, ?_⟩ <;>
    simp [colsOf, ratioOf, number]

/-- With one cluster the messages are found. -/
example (data : List Bool) (h : bitsToBytes data = sampleBuffer) : scriptStructures decode 1 data = .ok [[(2, 0), (20, 0)]] := by
  obtain ⟨st, hst⟩ : Returns (segmentBuffer decode sampleBuffer) := by decide +kernel
  have h1 : (segmentBuffer decode sampleBuffer).toOption.map (fun st => st.struct) = some [(2, 0), (20, 0)] := by decide +kernel
  rw [hst] at h1
  unfold scriptStructures
  simp only [if_true, h, hst, bind, Except.bind]
  simpa [Except.toOption] using h1

/-! ### Runs with errors of their own -/

/-- The fields of a heartbeat at the start of the word, judged by the model of zero heartbeats. -/
def beatCases (tx : List Bool) (errors : List Nat) : List (Bool × Bool) :=
  (fieldPlaces [(0, 0)]).map fun q => (decide (unpackScalar q.type (q.bytes (bitsToBytes (flipAt tx errors))) ≠ .int 0),
    decide (∃ e ∈ errors, HitBy q e))

/-- A word of 17 bytes with a single one, in the field `type`. -/
def beatTx : List Bool := List.replicate 80 false ++ true :: List.replicate 55 false

/-- The analysis of one word. -/
theorem beat_row (t : ℝ) (h0 : 0 < t) (h1 : t < 1) (tx : List Bool) (htx : tx.length = 136) (errors : List Nat)
    (he : errors.Nodup) (hel : ∀ e ∈ errors, e < tx.length) :
    ∃ rs, analysisStep zeroOps t [[(0, 0)]] 1 false (addAll zeroOps (BufferModel.new none) [(.bytes zeroBeat, [(0, 0)])])
      [(tx, errors)] = .ok rs ∧ badRow rs = rowOf (beatCases tx errors) := by
  have hr : InRange 17 [(0, 0)] := by
    intro r hr
    simp at hr
    subst hr
    exact ⟨msg0, by decide +kernel, by decide, by decide, by decide⟩
  have hne : ∀ p ∈ fieldPlaces [(0, 0)], ([(BufArg.bytes zeroBeat, [(0, 0)])] : List (BufArg × List (Nat × Nat))).flatMap (takes p.name) ≠ [] := by
    decide +kernel
  obtain ⟨rs, h2, -, hb, -⟩ := c110_summary zeroOps none t [(.bytes zeroBeat, [(0, 0)])]
    (by intro a ha; simp at ha; subst ha; exact ⟨_, rfl, hr⟩) [[(0, 0)]] 1 17 (by omega) (by simp)
    (by intro st hs; simp at hs; subst hs; exact ⟨hr, by simp [NonOverlapping]⟩) _ rfl (fun _ => (0, 0))
    (fun p => List.replicate (8 * width p.type) false) (fun _ _ _ _ => rfl)
    (fun st hs p hp => by
      simp at hs; subst hs
      exact ⟨by rw [meanBits, if_neg (hne p hp)]; rfl, by simp⟩)
    [(tx, errors)] (by
      intro x hx
      simp at hx
      subst hx
      exact ⟨by simpa using htx, he, hel⟩)
    (fun _ => [(0, 0)]) (by intro i; rw [Nat.mod_one]; rfl) (fun x => flipAt x.1 x.2) (fun _ => rfl)
  refine ⟨rs, h2, ?_⟩
  rw [hb]
  congr 1
  have hz : ([(tx, errors)] : List (List Bool × List Nat)).zipIdx = [((tx, errors), 0)] := rfl
  rw [hz, List.flatMap_cons, List.flatMap_nil, List.append_nil]
  classical
  rw [cases_eq _ _ _ (fun s => s < t), wordFields, List.map_map, beatCases]
  refine List.map_congr_left fun q _ => ?_
  simp only [Function.comp_apply, fieldScore, FieldModel.classify, zeroOps, if_true]
  congr 1
  by_cases hv : unpackScalar q.type (q.bytes (bitsToBytes (flipAt tx errors))) = .int 0
  · simp [hv, h1.le]
  · simp [hv, h0]

/-- C118, refuted for runs that draw their own errors, as the script does (its generator has no seed): the same word, sent with one
error in each run, gives a higher true positive rate for damaged fields with the smaller threshold. -/
theorem c118_own_errors_false : ∃ (tx : List Bool) (e1 e2 : Nat) (rs1 rs2 : List WordReport),
    analysisStep zeroOps (1 / 10) [[(0, 0)]] 1 false (addAll zeroOps (BufferModel.new none) [(.bytes zeroBeat, [(0, 0)])])
      [(tx, [e1])] = .ok rs1 ∧
    analysisStep zeroOps (1 / 5) [[(0, 0)]] 1 false (addAll zeroOps (BufferModel.new none) [(.bytes zeroBeat, [(0, 0)])])
      [(tx, [e2])] = .ok rs2 ∧
    (∃ m, classifierMetrics [[badRow rs1], [badRow rs2]] 1 = .ok m ∧ m.tpr = [[some 1], [some 0]]) := by
  obtain ⟨rs1, h1, b1⟩ := beat_row (1 / 10) (by norm_num) (by norm_num)
    beatTx (by decide +kernel) [88] (by simp) (by decide +kernel)
  obtain ⟨rs2, h2, b2⟩ := beat_row (1 / 5) (by norm_num) (by norm_num)
    beatTx (by decide +kernel) [80] (by simp) (by decide +kernel)
  refine ⟨_, 88, 80, rs1, rs2, h1, h2, ?_⟩
  rw [b1, b2]
  refine ⟨_, metrics_rows [[beatCases _ [88]], [beatCases _ [80]]] (by simp) 1 (by omega) (by simp) 1, ?_⟩
  have e1 : number (beatCases beatTx [88]) true true = 1 ∧
    number (beatCases beatTx [88]) false true = 0 := by decide +kernel
  have e2 : number (beatCases beatTx [80]) true true = 0 ∧
    number (beatCases beatTx [80]) false true = 1 := by decide +kernel
  simp only [List.map_cons, List.map_nil, colsOf, e1.1, e1.2, e2.1, e2.2, ratioOf]
  norm_num

/-- The hypotheses of the curves are met: nineteen points of one word each, and two runs. -/
example (tx : List Bool) (htx : tx.length = 136) (e : Nat) (he : e < tx.length) : ∃ files : List SummaryFile, files.length = 2 ∧
    Sweep zeroOps none [(.bytes zeroBeat, [(0, 0)])] [[(0, 0)]] 1 17
      (fun name => ([(.bytes zeroBeat, [(0, 0)])] : List (BufArg × List (Nat × Nat))).flatMap (takes name)) (fun _ => (0, 0))
      (fun p => List.replicate (8 * width p.type) false) (List.replicate 19 [(tx, [e])]) files := by
  have hr : InRange 17 [(0, 0)] := by
    intro r hr
    simp at hr
    subst hr
    exact ⟨msg0, by decide +kernel, by decide, by decide, by decide⟩
  have hne : ∀ p ∈ fieldPlaces [(0, 0)], ([(BufArg.bytes zeroBeat, [(0, 0)])] : List (BufArg × List (Nat × Nat))).flatMap (takes p.name) ≠ [] := by
    decide +kernel
  obtain ⟨rs1, h1, -⟩ := beat_row (1 / 10) (by norm_num) (by norm_num) tx htx [e] (by simp) (by simpa using he)
  obtain ⟨rs2, h2, -⟩ := beat_row (1 / 5) (by norm_num) (by norm_num) tx htx [e] (by simp) (by simpa using he)
  have rep : ∀ (t : ℝ) (rs : List WordReport), analysisStep zeroOps t [[(0, 0)]] 1 false
      (addAll zeroOps (BufferModel.new none) [(.bytes zeroBeat, [(0, 0)])]) [(tx, [e])] = .ok rs →
      (List.replicate 19 [(tx, [e])]).mapM (analysisStep zeroOps t [[(0, 0)]] 1 false
        (addAll zeroOps (BufferModel.new none) [(.bytes zeroBeat, [(0, 0)])])) = .ok (List.replicate 19 rs) := by
    intro t rs h
    rw [C110.mapM_ok _ (fun _ => rs) _ (by
      intro a ha
      rw [List.eq_of_mem_replicate ha, h])]
    simp
  refine ⟨[⟨1 / 5, 33 / 1000, 70 / 1000, (List.replicate 19 rs2).map goodRow, (List.replicate 19 rs2).map badRow⟩,
    ⟨1 / 10, 33 / 1000, 70 / 1000, (List.replicate 19 rs1).map goodRow, (List.replicate 19 rs1).map badRow⟩], rfl, ?_⟩
  constructor
  · intro a ha; simp at ha; subst ha; exact ⟨_, rfl, hr⟩
  · omega
  · simp
  · intro st hs; simp at hs; subst hs; exact ⟨hr, by simp [NonOverlapping]⟩
  · rfl
  · exact fun _ _ _ _ => rfl
  · intro st hs p hp
    simp at hs; subst hs
    exact ⟨by rw [meanBits, if_neg (hne p hp)]; rfl, by simp⟩
  · intro ws hws x hx
    rw [List.eq_of_mem_replicate hws] at hx
    simp at hx
    subst hx
    exact ⟨by simpa using htx, by simp, by simpa using he⟩
  · intro f hf
    simp only [List.mem_cons, List.not_mem_nil, or_false] at hf
    rcases hf with rfl | rfl
    · exact ⟨_, rep _ _ h2, rfl, rfl⟩
    · exact ⟨_, rep _ _ h1, rfl, rfl⟩

/-- C118, refuted for a single error rate: MATLAB takes the largest error rate for the only point, the run has used the smallest. -/
theorem c118_single_rate_false (a b : ℚ) (h : a < b) : matLinspace a b 1 ≠ Averaged.linspace a b 1 := by
  intro e
  simp [matLinspace, Averaged.linspace] at e
  exact absurd e (ne_of_gt h)

end NR.C118
