import Verif.Props.C145_Noise
import Verif.Props.C131
/-
C147: an entropy decoder with its classifier, on words of several kinds.
-/
namespace NR.C147
open NR NR.Spec NR.C133 NR.C145 NR.C131

variable {Λ : Type}

/-- The classifier as it is used by the decoder. -/
noncomputable def asked (m : Metrics ℝ ℝ) : Labeler Classifier := fun st b => st.classifyS m b

theorem calls_of_all {μ δ : Type} (m : Metrics μ δ) : ∀ (bs : List (List Bool)) (st st' : Classifier) (ls : List Int),
    classifyAll m st bs = .ok (ls, st') → (calls m st bs).2 = ls.map .ok
  | [], st, st', ls, h => by
    have := Except.ok.inj h
    simp only [Prod.mk.injEq] at this
    rw [← this.1]
    rfl
  | b :: bs, st, st', ls, h => by
    rw [classifyAll, ← c133_same] at h
    rcases hc : st.classifyS m b with ⟨s1, r⟩
    cases r with
    | error e => rw [hc] at h; cases h
    | ok l =>
      rw [hc] at h
      simp only [outcome, bind, Except.bind] at h
      cases hr : classifyAll m s1 bs with
      | error e => rw [hr] at h; cases h
      | ok q =>
        rw [hr] at h
        have := Except.ok.inj h
        simp only [Prod.mk.injEq] at this
        rw [← this.1]
        simp only [calls, hc, List.map_cons]
        rw [calls_of_all m bs s1 q.2 q.1 hr]

theorem decode_cls {c : CedCfg} (hn : 1 < c.nClusters) (hc : c.cluster = true) {σ : Type} (cls : Labeler σ) (ldpc : Ldpc Λ) (s : Ced σ Λ)
    (ch : List ℝ) (hi : ∀ i ∈ c.idx, i < ch.length) :
    (s.decode c cls ldpc ch).state.cls = (cls s.cls (bitsAt c.idx (hardWord ch))).1 := by
  unfold Ced.decode
  have hlen : (hardBits ch).length = ch.length := by simp [hardBits]
  rw [takeIdx_of_lt (by rw [hlen]; exact hi)]
  simp only [pickLabel, if_pos hn, hc, if_true]
  change _ = (cls s.cls (c.idx.filterMap ((hardBits ch)[·]?))).1
  rcases cls s.cls (c.idx.filterMap ((hardBits ch)[·]?)) with ⟨cs, lab⟩
  cases lab with
  | error e => rfl
  | ok l =>
    simp only
    split
    · rfl
    · split
      · rfl
      · rename_i inp _
        unfold Ced.finish
        split
        · rfl
        · rename_i mb _
          simp only
          have := (update_other c { s with cls := cs, running := s.running, ldpc := (ldpc s.ldpc inp).1 }
            (if (ldpc s.ldpc inp).2.success = true then mb else c.idx.filterMap ((hardBits ch)[·]?)) l.toNat).2.1
          split
          · exact this
          · split
            · split <;> exact this
            · exact this

theorem run_steps {σ : Type} (c : CedCfg) (cls : Labeler σ) (ldpc : Ldpc Λ) : ∀ (pre : List (List ℝ)) (s : Ced σ Λ) (ch : List ℝ),
    Ced.run c cls ldpc s (pre ++ [ch]) = (((Ced.run c cls ldpc s pre).1.decode c cls ldpc ch).state,
      (Ced.run c cls ldpc s pre).2 ++ [(Ced.run c cls ldpc s pre).1.decode c cls ldpc ch])
  | [], s, ch => rfl
  | w :: pre, s, ch => by
    simp only [List.cons_append, Ced.run, run_steps c cls ldpc pre]

/-- The bits the classifier is given. -/
noncomputable def told (c : CedCfg) (w : List ℝ) : List Bool := bitsAt c.idx (hardWord w)

/-- Every call asks the classifier once, and learns something for the cluster it names, if it names one. -/
theorem labels_run {c : CedCfg} (S : Sound c) (hk : c.kind = .logSpa) (hn : 1 < c.nClusters) (hc : c.cluster = true) (m : Metrics ℝ ℝ)
    (ldpc : Ldpc Λ) (hest : ∀ s inp, ∀ i ∈ c.idx, i < (ldpc s inp).2.estimate.length) (st0 : Classifier) (ls : Λ) (words : List (List ℝ)) :
    (∀ w ∈ words, ∀ i ∈ c.idx, i < w.length) → ∀ labels : List Int, (calls m st0 (words.map (told c))).2 = labels.map .ok →
    (∀ l ∈ labels, l < c.nClusters) →
    (after c (asked m) ldpc st0 ls words).cls = (calls m st0 (words.map (told c))).1 ∧
    List.Forall₂ (fun (st : CedStep Classifier Λ) (l : Int) => if l < 0 then st.learned = none else ∃ b, st.learned = some (l.toNat, b))
      (Ced.run c (asked m) ldpc (Ced.new c.nClusters st0 ls) words).2 labels := by
  induction words using List.reverseRecOn with
  | nil =>
    intro _ labels hl _
    have : labels = [] := by simpa [calls] using hl.symm
    subst this
    exact ⟨rfl, .nil⟩
  | append_singleton pre ch ih =>
    intro hw labels hl hlt
    have hch := hw ch (by simp)
    rw [List.map_append, calls_append] at hl
    simp only [List.map_cons, List.map_nil, calls] at hl
    obtain ⟨l1, l2, rfl, e1, e2⟩ := List.map_eq_append_iff.1 hl.symm
    obtain ⟨l, rfl⟩ : ∃ l, l2 = [l] := by
      have := congrArg List.length e2
      simp only [List.length_map, List.length_cons, List.length_nil] at this
      exact List.length_eq_one_iff.1 this
    obtain ⟨h1, h2⟩ := ih (fun w h => hw w (List.mem_append_left _ h)) l1 e1.symm fun x hx => hlt x (List.mem_append_left _ hx)
    have hans : (asked m (after c (asked m) ldpc st0 ls pre).cls (bitsAt c.idx (hardWord ch))).2 = .ok l := by
      rw [h1]
      have := (List.cons.inj e2).1
      exact this.symm
    constructor
    · rw [List.map_append, calls_append]
      show (Ced.run _ _ _ _ _).1.cls = _
      rw [run_steps]
      show ((after c (asked m) ldpc st0 ls pre).decode c (asked m) ldpc ch).state.cls = _
      rw [decode_cls hn hc _ _ _ _ hch, h1]
      rfl
    · rw [run_steps]
      refine List.rel_append h2 (.cons ?_ .nil)
      show if l < 0 then ((after c (asked m) ldpc st0 ls pre).decode c (asked m) ldpc ch).learned = none else _
      split
      · rename_i hneg
        obtain ⟨r, hr, hrl⟩ := c54_negative_label c (asked m) ldpc (after c (asked m) ldpc st0 ls pre) ch hn hc hch l hneg hans
        exact (c54_training_passthrough c (asked m) ldpc _ ch r hr (by omega)).2.2.2.2.1
      · rename_i hpos
        have hlc : l.toNat < c.nClusters := by
          have := hlt l (by simp)
          omega
        obtain ⟨inp, bits, old, _, h4, _⟩ := c53_returns S.learns S.bitsPos S.bits S.window hk (asked m) ldpc _
          (c55_reachable S.learns S.bitsPos S.window (asked m) ldpc st0 ls pre) ch hch l.toNat hlc (by
            show (pickLabel (asked m) c.nClusters c.cluster (after c (asked m) ldpc st0 ls pre).cls _ _).2.2 = _
            simp only [pickLabel, if_pos hn, hc, if_true]
            rw [hans]
            congr 1
            omega) (fun inp => hest _ inp)
        exact ⟨bits, h4⟩

theorem learned_all {labels : List Int} {steps : List (CedStep Classifier Λ)}
    (h : List.Forall₂ (fun (st : CedStep Classifier Λ) (l : Int) => if l < 0 then st.learned = none else ∃ b, st.learned = some (l.toNat, b))
      steps labels) (l : Nat) :
    (learnedBy l steps).length = labels.count (l : Int) ∧
    ∀ b ∈ learnedBy l steps, ∃ (j : Nat) (st : CedStep Classifier Λ), steps[j]? = some st ∧ labels[j]? = some (l : Int) ∧ st.learned = some (l, b) := by
  induction h with
  | nil => exact ⟨rfl, fun b hb => by cases hb⟩
  | @cons st x steps labels hx hs ih =>
    obtain ⟨ih1, ih2⟩ := ih
    have ih2' : ∀ b ∈ learnedBy l steps, ∃ (j : Nat) (st' : CedStep Classifier Λ), (st :: steps)[j]? = some st' ∧
        (x :: labels)[j]? = some (l : Int) ∧ st'.learned = some (l, b) := fun b hb => by
      obtain ⟨j, st', q1, q2, q3⟩ := ih2 b hb
      exact ⟨j + 1, st', by simpa using q1, by simpa using q2, q3⟩
    have skip : (∀ b, st.learned ≠ some (l, b)) → learnedBy l (st :: steps) = learnedBy l steps := by
      intro hne
      unfold learnedBy
      rw [List.filterMap_cons_none]
      cases hl : st.learned with
      | none => rfl
      | some p =>
        obtain ⟨k, b⟩ := p
        simp only
        rw [if_neg]
        rintro rfl
        exact hne b hl
    split at hx
    · rename_i hneg
      rw [skip (by rw [hx]; simp), ih1, List.count_cons_of_ne (by omega)]
      exact ⟨rfl, ih2'⟩
    · rename_i hpos
      obtain ⟨b, hb⟩ := hx
      by_cases hxl : x = (l : Int)
      · have ht : x.toNat = l := by omega
        rw [ht] at hb
        have e : learnedBy l (st :: steps) = b :: learnedBy l steps := by
          unfold learnedBy
          rw [List.filterMap_cons_some]
          rw [hb]
          simp
        rw [e, hxl, List.count_cons_self, List.length_cons, ih1]
        refine ⟨rfl, fun b' hb' => ?_⟩
        rcases List.mem_cons.1 hb' with rfl | hb'
        · exact ⟨0, st, rfl, rfl, hb⟩
        · rw [hxl] at ih2'
          exact ih2' b' hb'
      · rw [skip (by rw [hb]; intro b' hb'; have := Option.some.inj hb'; simp only [Prod.mk.injEq] at this; omega), ih1,
          List.count_cons_of_ne hxl]
        exact ⟨rfl, ih2'⟩

theorem firsts_count {kinds : List Nat} {g : Nat} (hg : g ∈ kinds) : ∀ laterKinds : List Nat, (∀ h ∈ laterKinds, h ∈ kinds) →
    (laterKinds.map fun h => ((firsts kinds).idxOf h : Int)).count ((firsts kinds).idxOf g : Int) = laterKinds.count g
  | [], _ => rfl
  | h :: rest, hm => by
    have ih := firsts_count hg rest fun x hx => hm x (List.mem_cons_of_mem _ hx)
    rw [List.map_cons, List.count_cons, List.count_cons, ih]
    congr 1
    have : ((firsts kinds).idxOf h : Int) = ((firsts kinds).idxOf g : Int) ↔ h = g := by
      rw [Nat.cast_inj]
      exact List.idxOf_inj (mem_firsts.2 (hm h List.mem_cons_self))
    by_cases e : h = g <;> simp [e, this]

theorem keep_length {α : Type} {w : Option Nat} {n : Nat} {r : ℝ} {l : List α} (h1 : n ≤ l.length) (h2 : r ≤ l.length)
    (h3 : ∀ k, w = some k → n ≤ k ∧ r ≤ k) : n ≤ (keep w l).length ∧ r ≤ (keep w l).length := by
  cases w with
  | none => exact ⟨h1, h2⟩
  | some k =>
    obtain ⟨h4, h5⟩ := h3 k rfl
    show n ≤ (lastN k l).length ∧ r ≤ ((lastN k l).length : ℝ)
    rw [lastN_length]
    refine ⟨by omega, ?_⟩
    push_cast
    exact le_min h2 h5

/-- A decoder for several kinds of words. -/
structure Setup (c : CedCfg) (m : Metrics ℝ ℝ) (ts : Nat → Template) (train later : List (List ℝ)) (kinds laterKinds : List Nat) (V D e : Nat) :
    Prop where
  sound : Sound c
  ratios : c.kind = .logSpa
  clips : 0 < c.clipping
  flips : 0 ≤ c.bitFlip ∧ c.bitFlip < 1 / 2
  threshold : 0 < c.threshold
  slope : 0 ≤ c.slope
  clusters : c.cluster = true ∧ 1 < c.nClusters ∧ c.nClusters = (firsts kinds).length
  /-- The classifier compares by log-likelihood and merges by the given distance and weights. -/
  metrics : ∃ md w, m.score = llScore ∧ m.mdist = MergeDist.of md w ∧ (V : ℝ) * heaviest w train.length < D
  better : ∀ x y, m.better x y = true ↔ x > y
  less : ∀ x y, m.less x y = true ↔ x < y
  long : ∀ w ∈ train ++ later, ∀ i ∈ c.idx, i < w.length
  /-- The words of the training are received right in the fixed bits. -/
  train : List.Forall₂ (fun w g => Mixed (bitsAt c.idx (hardWord w)) ∧ Fits (ts g) (bitsAt c.idx (hardWord w))) train kinds
  /-- The later ones may have wrong ones. -/
  later : List.Forall₂ (fun w g => g ∈ kinds ∧ strays (ts g) (bitsAt c.idx (hardWord w)) ≤ e) later laterKinds
  length : ∀ g ∈ kinds, (ts g).length = c.modelLength
  varying : ∀ g ∈ kinds, varying (ts g) ≤ V
  apart : ∀ g ∈ kinds, ∀ h ∈ kinds, g ≠ h → D ≤ clash (ts g) (ts h)
  few : e < D
  enough : 52 * Real.log 2 * (V + 2 * e) < (D - e) * Real.log ((D - e) / (e + (D - e) * 2 ^ (-52 : ℤ)))

/-- All the words kept for a cluster are of one kind, and the next word of that kind is assigned to it. -/
theorem situation {c : CedCfg} {m : Metrics ℝ ℝ} {ts : Nat → Template} {train later : List (List ℝ)} {kinds laterKinds : List Nat}
    {V D e : Nat} (K : Setup c m ts train later kinds laterKinds V D e) (ldpc : Ldpc Λ) (ls : Λ)
    (hest : ∀ s inp, ∀ i ∈ c.idx, i < (ldpc s inp).2.estimate.length)
    (hright : ∀ (j : Nat) (st : CedStep Classifier Λ) (g l : Nat) (b : List Bool),
      (Ced.run c (asked m) ldpc (Ced.new c.nClusters { minData := train.length + 1, k := c.nClusters } ls) (train ++ later)).2[train.length + j]? =
        some st → laterKinds[j]? = some g → st.learned = some (l, b) → Fits (ts g) b)
    (g : Nat) (hg : g ∈ kinds) (ch : List ℝ) (hch : ∀ i ∈ c.idx, i < ch.length) (hstray : strays (ts g) (bitsAt c.idx (hardWord ch)) ≤ e)
    (l : Nat) (hl : l = (firsts kinds).idxOf g) :
    l < c.nClusters ∧ Assigned c (asked m) (after c (asked m) ldpc { minData := train.length + 1, k := c.nClusters } ls (train ++ later)) ch l ∧
    (learnedBy l (Ced.run c (asked m) ldpc (Ced.new c.nClusters { minData := train.length + 1, k := c.nClusters } ls) (train ++ later)).2).length =
      laterKinds.count g ∧
    ∀ b ∈ kept c (asked m) ldpc { minData := train.length + 1, k := c.nClusters } ls (train ++ later) l, Fits (ts g) b := by
  obtain ⟨hcl, hn, hnc⟩ := K.clusters
  have hlenAt : ∀ w : List ℝ, (∀ i ∈ c.idx, i < w.length) → (bitsAt c.idx (hardWord w)).length = c.modelLength := by
    intro w hw
    rw [← K.sound.bits]
    exact (takeIdx_ok (takeIdx_of_lt (a := hardWord w) (by rw [hardWord, List.length_map]; exact hw))).2.2
  have hbg : g ∈ firsts kinds := mem_firsts.2 hg
  have hlk : ∀ h ∈ laterKinds, h ∈ kinds := by
    intro h hh
    obtain ⟨j, hj, rfl⟩ := List.getElem_of_mem hh
    have hl := K.later.length_eq
    exact ((List.forall₂_iff_get.1 K.later).2 j (by omega) hj).1
  -- the labels of all words
  obtain ⟨md, w, hm1, hm2, hm3⟩ := K.metrics
  have hne : train ≠ [] := by
    intro h0
    have := K.train
    rw [h0] at this
    cases this
    cases hg
  have hm : m = ⟨llScore, m.better, MergeDist.of md w, m.less⟩ := by rw [← hm1, ← hm2]
  obtain ⟨st, hall⟩ := c145_noise md w m.better m.less K.better K.less ts c.modelLength V D e (train.map (told c))
    ((later ++ [ch]).map (told c)) kinds (laterKinds ++ [g]) (by simpa using hne) (by
      rw [List.forall₂_map_left_iff]
      exact K.train) (by
      rw [List.forall₂_map_left_iff]
      refine List.rel_append ?_ (.cons ⟨hg, hlenAt ch hch, hstray⟩ .nil)
      have := K.later
      rw [List.forall₂_iff_get] at this ⊢
      refine ⟨this.1, fun i h1 h2 => ⟨(this.2 i h1 h2).1, hlenAt _ ?_, (this.2 i h1 h2).2⟩⟩
      exact K.long _ (List.mem_append_right _ (List.get_mem _ _))) K.length K.varying K.apart K.few K.enough (by simpa using hm3)
  rw [← hm, List.length_map] at hall
  have hcalls := calls_of_all m _ _ _ _ hall
  have hrhs : (List.replicate train.length (-1 : Int) ++ (laterKinds ++ [g]).map fun h => ((firsts kinds).idxOf h : Int)).map
      (Except.ok (ε := PyErr)) = (List.replicate train.length (-1 : Int) ++ laterKinds.map fun h => ((firsts kinds).idxOf h : Int)).map .ok ++
        [.ok ((firsts kinds).idxOf g : Int)] := by simp
  rw [hrhs, ← List.map_append, ← List.append_assoc, List.map_append (l₂ := [ch]), calls_append, ← hnc] at hcalls
  simp only [List.map_cons (l := []), List.map_nil, calls] at hcalls
  obtain ⟨hc1, hc2⟩ := List.append_inj' hcalls rfl
  obtain ⟨r1, r2⟩ := labels_run K.sound K.ratios hn hcl m ldpc hest { minData := train.length + 1, k := c.nClusters } ls (train ++ later)
    K.long _ hc1 (by
      intro l hl
      rcases List.mem_append.1 hl with hl | hl
      · have := List.eq_of_mem_replicate hl
        omega
      · obtain ⟨h, hh, rfl⟩ := List.mem_map.1 hl
        have := List.idxOf_lt_length_of_mem (mem_firsts.2 (hlk h hh))
        rw [hnc]
        exact_mod_cast this)
  have hlc : l < c.nClusters := by rw [hl, hnc]; exact List.idxOf_lt_length_of_mem hbg
  obtain ⟨q1, q2⟩ := learned_all r2 l
  subst hl
  have hcnt : (List.replicate train.length (-1 : Int) ++ laterKinds.map fun h => ((firsts kinds).idxOf h : Int)).count ((firsts kinds).idxOf g : Int) =
      laterKinds.count g := by
    rw [List.count_append, List.count_eq_zero_of_not_mem, zero_add]
    · exact firsts_count hg laterKinds hlk
    · intro hmem
      have := List.eq_of_mem_replicate hmem
      omega
  rw [hcnt] at q1
  have hfit : ∀ b ∈ kept c (asked m) ldpc { minData := train.length + 1, k := c.nClusters } ls (train ++ later) ((firsts kinds).idxOf g), Fits (ts g) b := by
    intro b hb
    obtain ⟨j, st', p1, p2, p3⟩ := q2 b (keep_mem hb)
    have hj : train.length ≤ j := by
      by_contra hc
      rw [List.getElem?_append_left (by simpa using hc), List.getElem?_replicate, if_pos (by omega)] at p2
      have := Option.some.inj p2
      omega
    rw [List.getElem?_append_right (by simpa using hj), List.length_replicate, List.getElem?_map] at p2
    cases hk' : laterKinds[j - train.length]? with
    | none => rw [hk'] at p2; cases p2
    | some h =>
      rw [hk'] at p2
      have hh := hlk h (List.mem_of_getElem? hk')
      have e1 : (firsts kinds).idxOf h = (firsts kinds).idxOf g := by
        have : ((firsts kinds).idxOf h : Int) = ((firsts kinds).idxOf g : Int) := Option.some.inj p2
        exact_mod_cast this
      have e2 : h = g := (List.idxOf_inj (mem_firsts.2 hh)).1 e1
      obtain ⟨j', rfl⟩ := Nat.exists_eq_add_of_le hj
      rw [Nat.add_sub_cancel_left, e2] at hk'
      exact hright j' st' g _ b p1 hk' p3
  refine ⟨hlc, ⟨hch, ?_⟩, q1, hfit⟩
  simp only [pickLabel, if_pos hn, hcl, if_true]
  rw [r1]
  have := (List.cons.inj hc2).1
  exact this

/-- **C147.** An entropy decoder with a classifier is used for words of several kinds. In the training the fixed bits of the kinds are
received right; later up to `e` of them may be wrong in each word. Whatever the LDPC decoder does, let the words learned be right in the
fixed bits. After at least two later words of a kind, and as many as the centre of the trust function, all within the window, the next word
of that kind is handed to the LDPC decoder with all its fixed bits right, also those received wrong, if their magnitude is at most 18. -/
theorem c147_repaired {c : CedCfg} {m : Metrics ℝ ℝ} {ts : Nat → Template} {train later : List (List ℝ)} {kinds laterKinds : List Nat}
    {V D e : Nat} (K : Setup c m ts train later kinds laterKinds V D e) (ldpc : Ldpc Λ) (ls : Λ)
    (hest : ∀ s inp, ∀ i ∈ c.idx, i < (ldpc s inp).2.estimate.length)
    (hright : ∀ (j : Nat) (st : CedStep Classifier Λ) (g l : Nat) (b : List Bool),
      (Ced.run c (asked m) ldpc (Ced.new c.nClusters { minData := train.length + 1, k := c.nClusters } ls) (train ++ later)).2[train.length + j]? =
        some st → laterKinds[j]? = some g → st.learned = some (l, b) → Fits (ts g) b)
    (g : Nat) (hg : g ∈ kinds) (hcount : 2 ≤ laterKinds.count g) (hcentre : c.center ≤ laterKinds.count g)
    (hwin : ∀ w, c.window = some w → 2 ≤ w ∧ c.center ≤ w)
    (hboth : ∃ k k' : Nat, (ts g)[k]? = some (some true) ∧ (ts g)[k']? = some (some false))
    (ch : List ℝ) (hch : ∀ i ∈ c.idx, i < ch.length) (hpos : ∃ x ∈ ch, 0 < x) (hstray : strays (ts g) (bitsAt c.idx (hardWord ch)) ≤ e) :
    ∃ w, ((after c (asked m) ldpc { minData := train.length + 1, k := c.nClusters } ls (train ++ later)).decode c (asked m) ldpc ch).handed =
        some (.llr w) ∧
      ∀ (k i : Nat) (v : Bool), c.idx[k]? = some i → (ts g)[k]? = some (some v) → |ch.getD i 0| ≤ 18 → (w.getD i 0 < 0 ↔ v = true) := by
  obtain ⟨hlc, hassign, q1, hfit⟩ := situation K ldpc ls hest hright g hg ch hch hstray _ rfl
  set l := (firsts kinds).idxOf g with hl
  obtain ⟨n1, n2⟩ := keep_length (w := c.window) (n := 2) (r := c.center) (l := learnedBy l
    (Ced.run c (asked m) ldpc (Ced.new c.nClusters { minData := train.length + 1, k := c.nClusters } ls) (train ++ later)).2)
    (by rw [q1]; exact hcount) (by rw [q1]; exact hcentre) hwin
  change 2 ≤ (kept c (asked m) ldpc { minData := train.length + 1, k := c.nClusters } ls (train ++ later) l).length at n1
  change c.center ≤ ((kept c (asked m) ldpc { minData := train.length + 1, k := c.nClusters } ls (train ++ later) l).length : ℝ) at n2
  have hval : ∀ (k : Nat) (v : Bool), (ts g)[k]? = some (some v) →
      ∀ x ∈ kept c (asked m) ldpc { minData := train.length + 1, k := c.nClusters } ls (train ++ later) l, x.getD k false = v := by
    intro k v hk x hx
    rw [List.getD_eq_getElem?_getD, (hfit x hx).2 k v hk]
    rfl
  have hlt : ∀ (k : Nat) (v : Bool), (ts g)[k]? = some (some v) → k < c.modelLength := by
    intro k v hk
    by_contra hc
    rw [List.getElem?_eq_none (by rw [K.length g hg]; omega)] at hk
    cases hk
  obtain ⟨k1, k2, hk1, hk2⟩ := hboth
  have hex : ∃ x, x ∈ kept c (asked m) ldpc { minData := train.length + 1, k := c.nClusters } ls (train ++ later) l :=
    List.exists_mem_of_length_pos (by omega)
  obtain ⟨x, hx⟩ := hex
  have hne' : kept c (asked m) ldpc { minData := train.length + 1, k := c.nClusters } ls (train ++ later) l ≠ [] := List.ne_nil_of_mem hx
  have hsteady : ∀ (k : Nat) (v : Bool), (ts g)[k]? = some (some v) →
      Steady c (kept c (asked m) ldpc { minData := train.length + 1, k := c.nClusters } ls (train ++ later) l) k := fun k v hk =>
    steady_constant K.flips.2 K.threshold (constant_of_all K.flips.1 hne' (hval k v hk))
  have hcase : Case c (asked m) ldpc { minData := train.length + 1, k := c.nClusters } ls (train ++ later) l
      (kept c (asked m) ldpc { minData := train.length + 1, k := c.nClusters } ls (train ++ later) l) ch := by
    refine ⟨K.sound, K.ratios, K.clips, hlc, rfl, ⟨⟨x, hx, k2, hlt k2 _ hk2, hval k2 _ hk2 x hx⟩, x, hx, k1, hlt k1 _ hk1, hval k1 _ hk1 x hx⟩,
      ?_, hassign, hpos⟩
    · have a1 : k1 < c.idx.length := by rw [K.sound.bits]; exact hlt k1 _ hk1
      have a2 : k2 < c.idx.length := by rw [K.sound.bits]; exact hlt k2 _ hk2
      by_cases h0 : c.idx[k1] = 0
      · refine ⟨k2, c.idx[k2], List.getElem?_eq_getElem a2, fun h0' => ?_, hsteady k2 _ hk2⟩
        have : k1 = k2 := (List.Nodup.getElem_inj_iff K.sound.distinct).1 (h0.trans h0'.symm)
        rw [this, hk2] at hk1
        cases hk1
      · exact ⟨k1, c.idx[k1], List.getElem?_eq_getElem a1, h0, hsteady k1 _ hk1⟩
  obtain ⟨w', h1, h2⟩ := c131_centre K.flips.1 K.flips.2 K.threshold K.slope hcase n1 n2
  exact ⟨w', h1, fun k i v hk hv hle => h2 k i v hk (hval k v hv) hle⟩

/-! ### Words that were received right -/

/-- What a call learns is the estimate if the LDPC decoder succeeded, else what was received. -/
theorem learned_from {σ : Type} (c : CedCfg) (cls : Labeler σ) (ldpc : Ldpc Λ) (s : Ced σ Λ) (ch : List ℝ) {l : Nat} {b : List Bool}
    (h : (s.decode c cls ldpc ch).learned = some (l, b)) :
    b = bitsAt c.idx (hardWord ch) ∨
      ∃ inp, (ldpc s.ldpc inp).2.success = true ∧ b = bitsAt c.idx (ldpc s.ldpc inp).2.estimate := by
  unfold Ced.decode at h
  cases ht : takeIdx (hardBits ch) c.idx with
  | error e => rw [ht] at h; cases h
  | ok chBits =>
    have hb : chBits = bitsAt c.idx (hardWord ch) := (takeIdx_ok ht).2.1
    rw [ht] at h
    simp only at h
    rcases hp : pickLabel cls c.nClusters c.cluster s.cls s.running chBits with ⟨cs, run, lab⟩
    rw [hp] at h
    cases lab with
    | error e => cases h
    | ok lab =>
      simp only at h
      split at h
      · cases h
      · split at h
        · cases h
        · rename_i inp _
          unfold Ced.finish at h
          cases hm : takeIdx (ldpc s.ldpc inp).2.estimate c.idx with
          | error e =>
            simp only [hm] at h
            cases h
          | ok mb =>
            have hmb : mb = bitsAt c.idx (ldpc s.ldpc inp).2.estimate := (takeIdx_ok hm).2.1
            have e : (l, b) = (lab.toNat, if (ldpc s.ldpc inp).2.success = true then mb else chBits) := by
              simp only [hm] at h
              split at h
              · exact (Option.some.inj h).symm
              · split at h
                · split at h <;> exact (Option.some.inj h).symm
                · exact (Option.some.inj h).symm
            simp only [Prod.mk.injEq] at e
            by_cases hs : (ldpc s.ldpc inp).2.success = true
            · rw [if_pos hs] at e
              exact .inr ⟨inp, hs, e.2.trans hmb⟩
            · rw [if_neg hs] at e
              exact .inl (e.2.trans hb)

theorem step_of {σ : Type} (c : CedCfg) (cls : Labeler σ) (ldpc : Ldpc Λ) : ∀ (words : List (List ℝ)) (s : Ced σ Λ) (j : Nat) (st : CedStep σ Λ),
    (Ced.run c cls ldpc s words).2[j]? = some st → ∃ (s' : Ced σ Λ) (w : List ℝ), words[j]? = some w ∧ st = s'.decode c cls ldpc w
  | [], s, j, st, h => by simp [Ced.run] at h
  | w :: words, s, 0, st, h => ⟨s, w, rfl, (Option.some.inj h).symm⟩
  | w :: words, s, j + 1, st, h => by
    simp only [Ced.run, List.getElem?_cons_succ] at h
    obtain ⟨s', w', h1, h2⟩ := step_of c cls ldpc words _ j st h
    exact ⟨s', w', by simpa using h1, h2⟩

/-- **C147**, when the LDPC decoder fails on all words before: they are learned as received, so it suffices that they were received right
in the fixed bits. -/
theorem c147_failing {c : CedCfg} {m : Metrics ℝ ℝ} {ts : Nat → Template} {train later : List (List ℝ)} {kinds laterKinds : List Nat}
    {V D e : Nat} (K : Setup c m ts train later kinds laterKinds V D e) (ldpc : Ldpc Λ) (ls : Λ)
    (hest : ∀ s inp, ∀ i ∈ c.idx, i < (ldpc s inp).2.estimate.length) (hfail : ∀ s inp, (ldpc s inp).2.success = false)
    (hgood : List.Forall₂ (fun w g => Fits (ts g) (bitsAt c.idx (hardWord w))) later laterKinds)
    (g : Nat) (hg : g ∈ kinds) (hcount : 2 ≤ laterKinds.count g) (hcentre : c.center ≤ laterKinds.count g)
    (hwin : ∀ w, c.window = some w → 2 ≤ w ∧ c.center ≤ w)
    (hboth : ∃ k k' : Nat, (ts g)[k]? = some (some true) ∧ (ts g)[k']? = some (some false))
    (ch : List ℝ) (hch : ∀ i ∈ c.idx, i < ch.length) (hpos : ∃ x ∈ ch, 0 < x) (hstray : strays (ts g) (bitsAt c.idx (hardWord ch)) ≤ e) :
    ∃ w, ((after c (asked m) ldpc { minData := train.length + 1, k := c.nClusters } ls (train ++ later)).decode c (asked m) ldpc ch).handed =
        some (.llr w) ∧
      ∀ (k i : Nat) (v : Bool), c.idx[k]? = some i → (ts g)[k]? = some (some v) → |ch.getD i 0| ≤ 18 → (w.getD i 0 < 0 ↔ v = true) := by
  refine c147_repaired K ldpc ls hest ?_ g hg hcount hcentre hwin hboth ch hch hpos hstray
  intro j st h l b h1 h2 h3
  obtain ⟨s', w, h4, rfl⟩ := step_of c (asked m) ldpc _ _ _ st h1
  have hw : Fits (ts h) (bitsAt c.idx (hardWord w)) := by
    rw [List.getElem?_append_right (by omega), Nat.add_sub_cancel_left] at h4
    rw [List.forall₂_iff_get] at hgood
    obtain ⟨a1, e1⟩ := List.getElem?_eq_some_iff.1 h4
    obtain ⟨a2, e2⟩ := List.getElem?_eq_some_iff.1 h2
    have := hgood.2 j a1 a2
    rw [List.get_eq_getElem, List.get_eq_getElem, e1, e2] at this
    exact this
  rcases learned_from c (asked m) ldpc s' w h3 with rfl | ⟨inp, hs, _⟩
  · exact hw
  · rw [hfail] at hs
    cases hs

/-! ### A case that meets the hypotheses -/

/-- Ratios that say these bits. -/
noncomputable def ratios (b : List Bool) : List ℝ := b.map fun x => if x then -5 else 5

theorem ratios_hard (b : List Bool) : hardWord (ratios b) = b := by
  unfold hardWord ratios
  rw [List.map_map]
  conv_rhs => rw [← List.map_id b]
  apply List.map_congr_left
  intro x _
  cases x <;> simp

theorem bitsAt_range (b : List Bool) : bitsAt (List.range b.length) b = b := by
  unfold bitsAt
  have : ∀ i ∈ List.range b.length, b[i]? = some (b.getD i false) := by
    intro i hi
    rw [List.getD_eq_getElem?_getD, List.getElem?_eq_getElem (List.mem_range.1 hi)]
    rfl
  rw [List.filterMap_congr this, List.filterMap_eq_map']
  apply List.ext_getElem (by simp)
  intro i h1 h2
  simp [h2]

/-- A decoder for words of 34 bits of two kinds. -/
noncomputable def sample : CedCfg :=
  { kind := .logSpa, modelLength := 34, threshold := 1 / 2, idx := List.range 34, clipping := 20, train := true, center := 2, slope := 1,
    bitFlip := 1 / 100, window := some 5, nClusters := 2, cluster := true, method := 0, meanDegree := 3 }

/-- The default metrics. -/
noncomputable def usual (gt less : ℝ → ℝ → Bool) : Metrics ℝ ℝ := ⟨llScore, gt, MergeDist.of .hellinger .linear, less⟩

theorem sample_bits {b : List Bool} (h : b.length = 34) : bitsAt sample.idx (hardWord (ratios b)) = b := by
  rw [ratios_hard]
  show bitsAt (List.range 34) b = b
  rw [← h]
  exact bitsAt_range b

theorem sample_setup (gt less : ℝ → ℝ → Bool) (hgt : ∀ x y, gt x y = true ↔ x > y) (hless : ∀ x y, less x y = true ↔ x < y) :
    Setup sample (usual gt less) opposed [ratios (opposedBits 0), ratios (opposedBits 1)] [ratios (opposedBits 1), ratios (opposedBits 1)]
      [0, 1] [1, 1] 0 33 1 := by
  have l0 : (opposedBits 0).length = 34 := by decide +kernel
  have l1 : (opposedBits 1).length = 34 := by decide +kernel
  refine ⟨⟨rfl, by decide, List.length_range, List.nodup_range, by simp [sample]⟩, rfl, by norm_num [sample], by norm_num [sample],
    by norm_num [sample], by norm_num [sample], ⟨rfl, by decide, by decide⟩, ⟨.hellinger, .linear, rfl, rfl, by norm_num [heaviest]⟩, hgt, hless,
    ?_, .cons ?_ (.cons ?_ .nil), .cons ?_ (.cons ?_ .nil), by decide +kernel, by decide +kernel, by decide +kernel, by decide, ?_⟩
  · intro w hw i hi
    have hi' : i < 34 := by simpa [sample] using hi
    have : w.length = 34 := by
      simp only [List.cons_append, List.nil_append, List.mem_cons, List.not_mem_nil, or_false] at hw
      rcases hw with rfl | rfl | rfl | rfl <;> simp [ratios, l0, l1]
    omega
  · rw [sample_bits l0]; decide +kernel
  · rw [sample_bits l1]; decide +kernel
  · rw [sample_bits l1]; decide +kernel
  · rw [sample_bits l1]; decide +kernel
  · have hlog : 0 < Real.log 2 := Real.log_pos (by norm_num)
    have h16 : 4 * Real.log 2 ≤ Real.log ((33 - 1) / (1 + (33 - 1) * 2 ^ (-52 : ℤ))) := by
      have : (4 : ℝ) * Real.log 2 = Real.log (2 ^ 4) := by rw [Real.log_pow]; norm_num
      rw [this]
      exact Real.log_le_log (by norm_num) (by norm_num)
    push_cast
    nlinarith

/-- An LDPC decoder that never succeeds. -/
def never : Ldpc Unit := fun _ _ => ((), ⟨List.replicate 34 false, [], false, 20, [], []⟩)

example (gt less : ℝ → ℝ → Bool) (hgt : ∀ x y, gt x y = true ↔ x > y) (hless : ∀ x y, less x y = true ↔ x < y) :
    ∃ w, ((after sample (asked (usual gt less)) never { minData := 3, k := 2 } ()
        ([ratios (opposedBits 0), ratios (opposedBits 1)] ++ [ratios (opposedBits 1), ratios (opposedBits 1)])).decode sample
          (asked (usual gt less)) never (ratios ((opposedBits 1).set 7 true))).handed = some (.llr w) ∧
      ∀ i < 34, (w.getD i 0 < 0 ↔ i = 33) := by
  have l1 : (opposedBits 1).length = 34 := by decide +kernel
  have l2 : ((opposedBits 1).set 7 true).length = 34 := by rw [List.length_set, l1]
  obtain ⟨w, h1, h2⟩ := c147_failing (sample_setup gt less hgt hless) never () (by
      intro s inp i hi
      simpa [sample, never] using hi) (fun _ _ => rfl) (.cons (by rw [sample_bits l1]; decide +kernel)
      (.cons (by rw [sample_bits l1]; decide +kernel) .nil)) 1 (by decide) (by decide) (by norm_num [sample])
    (by intro w hw; cases hw; norm_num [sample]) ⟨33, 0, by decide +kernel, by decide +kernel⟩ (ratios ((opposedBits 1).set 7 true))
    (by intro i hi; rw [ratios, List.length_map, l2]; simpa [sample] using hi)
    ⟨5, by
      unfold ratios
      rw [List.mem_map]
      exact ⟨false, by decide +kernel, by simp⟩, by norm_num⟩ (by rw [sample_bits l2]; decide +kernel)
  refine ⟨w, h1, fun i hi => ?_⟩
  have hv : (opposed 1)[i]? = some (some (decide (i = 33))) := by
    revert i
    decide +kernel
  rw [h2 i i (decide (i = 33)) (by simp [sample, hi]) hv ?_, decide_eq_true_iff]
  rw [List.getD_eq_getElem?_getD]
  unfold ratios
  rw [List.getElem?_map]
  cases ((opposedBits 1).set 7 true)[i]? with
  | none => norm_num
  | some x => cases x <;> norm_num

end NR.C147
