import Verif.Props.C37_C40
import Verif.Props.C01_C02
/-
C38: the classifier protocol. C39: the selected cluster. C70: which clusters are merged.
-/
namespace NR
open Spec

/-! ### The selection loop -/

theorem pickBest_mem {α μ : Type} (score : α → Except PyErr μ) (better : μ → μ → Bool) (l : List α)
    (best : Option (μ × α)) (r : Option (μ × α)) (h : pickBest score better l best = .ok r) :
    (r = none → l = [] ∧ best = none) ∧ ∀ m x, r = some (m, x) → x ∈ l ∨ best = some (m, x) := by
  induction l generalizing best with
  | nil =>
    simp only [pickBest] at h
    injection h with h
    subst h
    simp
  | cons y l ih =>
    simp only [pickBest, bind, Except.bind] at h
    cases hs : score y with
    | error e => rw [hs] at h; cases h
    | ok s =>
      rw [hs] at h
      have key : ∀ b' : Option (μ × α), pickBest score better l b' = .ok r → b' ≠ none →
          (∀ m x, b' = some (m, x) → x = y ∨ best = some (m, x)) →
          (r = none → y :: l = [] ∧ best = none) ∧ ∀ m x, r = some (m, x) → x ∈ y :: l ∨ best = some (m, x) := by
        intro b' hb hne hb'
        obtain ⟨i1, i2⟩ := ih b' hb
        refine ⟨fun hr => absurd (i1 hr).2 hne, ?_⟩
        intro m x hr
        rcases i2 m x hr with hx | hx
        · left; exact List.mem_cons_of_mem _ hx
        · rcases hb' m x hx with rfl | h
          · left; exact List.mem_cons_self
          · right; exact h
      cases best with
      | none =>
        simp only at h
        exact key _ h (by simp) (by rintro m x ⟨⟩; left; rfl)
      | some b =>
        obtain ⟨bm, bx⟩ := b
        simp only at h
        split at h
        · exact key _ h (by simp) (by rintro m x ⟨⟩; left; rfl)
        · exact key _ h (by simp) (by rintro m x ⟨⟩; right; rfl)

theorem pickBest_ok {α μ : Type} (score : α → Except PyErr μ) (better : μ → μ → Bool) (l : List α)
    (best : Option (μ × α)) (h : ∀ x ∈ l, Returns (score x)) : Returns (pickBest score better l best) := by
  induction l generalizing best with
  | nil => exact ⟨_, rfl⟩
  | cons y l ih =>
    obtain ⟨s, hs⟩ := h y List.mem_cons_self
    have ih := fun b => ih b fun x hx => h x (List.mem_cons_of_mem _ hx)
    simp only [pickBest, hs, bind, Except.bind]
    cases best with
    | none => exact ih _
    | some b => simp only; split <;> exact ih _

/-- With a linear order, the loop returns the first element with the smallest score. -/
theorem pickBest_first {α μ : Type} [LinearOrder μ] (score : α → Except PyErr μ) (better : μ → μ → Bool)
    (hbet : ∀ a b, better a b = true ↔ a < b) (f : α → μ) (l : List α) (hs : ∀ x ∈ l, score x = .ok (f x)) (hne : l ≠ []) :
    ∃ i, ∃ hi : i < l.length, pickBest score better l none = .ok (some (f l[i], l[i])) ∧
      (∀ j, (hj : j < l.length) → f l[i] ≤ f l[j]) ∧ ∀ j, (hj : j < i) → f l[i] < f (l[j]'(by omega)) := by
  have key : ∀ (l : List α) (y : α), (∀ x ∈ l, score x = .ok (f x)) →
      ∃ i, ∃ hi : i < (y :: l).length,
        pickBest score better l (some (f y, y)) = .ok (some (f (y :: l)[i], (y :: l)[i])) ∧
        (∀ j, (hj : j < (y :: l).length) → f (y :: l)[i] ≤ f (y :: l)[j]) ∧
        ∀ j, (hj : j < i) → f (y :: l)[i] < f ((y :: l)[j]'(by omega)) := by
    intro l
    induction l with
    | nil =>
      intro y _
      refine ⟨0, by simp, rfl, ?_, by simp⟩
      intro j hj
      have : j = 0 := by simpa using hj
      subst this
      rfl
    | cons x l ih =>
      intro y hs
      have ih := ih
      simp only [pickBest, hs x List.mem_cons_self, bind, Except.bind]
      have hs' : ∀ z ∈ l, score z = .ok (f z) := fun z hz => hs z (List.mem_cons_of_mem _ hz)
      by_cases hlt : f x < f y
      · obtain ⟨i, hi, h1, h2, h3⟩ := ih x hs'
        rw [if_pos (by simpa [hbet] using hlt), h1]
        refine ⟨i + 1, by simpa using hi, rfl, ?_, ?_⟩
        · intro j hj
          cases j with
          | zero =>
            have := h2 0 (by simp)
            simp only [List.getElem_cons_zero, List.getElem_cons_succ] at this ⊢
            exact le_of_lt (lt_of_le_of_lt this hlt)
          | succ j =>
            simp only [List.getElem_cons_succ]
            exact h2 j (by simpa using hj)
        · intro j hj
          cases j with
          | zero =>
            have := h2 0 (by simp)
            simp only [List.getElem_cons_zero, List.getElem_cons_succ] at this ⊢
            exact lt_of_le_of_lt this hlt
          | succ j =>
            simp only [List.getElem_cons_succ]
            exact h3 j (by omega)
      · obtain ⟨i, hi, h1, h2, h3⟩ := ih y hs'
        rw [if_neg (by simpa [hbet] using hlt), h1]
        have hge : f y ≤ f x := le_of_not_gt hlt
        cases i with
        | zero =>
          refine ⟨0, by simp, rfl, ?_, by simp⟩
          intro j hj
          match j with
          | 0 => exact le_refl _
          | 1 => exact hge
          | j + 2 =>
            have := h2 (j + 1) (by simpa using hj)
            simpa using this
        | succ i =>
          refine ⟨i + 2, by simpa using hi, rfl, ?_, ?_⟩
          · intro j hj
            match j with
            | 0 => have := h2 0 (by simp); simpa using this
            | 1 =>
              have := h2 0 (by simp)
              simp only [List.getElem_cons_zero, List.getElem_cons_succ] at this ⊢
              exact this.trans hge
            | j + 2 =>
              have := h2 (j + 1) (by simpa using hj)
              simpa using this
          · intro j hj
            match j with
            | 0 => have := h3 0 (by omega); simpa using this
            | 1 =>
              have := h3 0 (by omega)
              simp only [List.getElem_cons_zero, List.getElem_cons_succ] at this ⊢
              exact lt_of_lt_of_le this hge
            | j + 2 =>
              have := h3 (j + 1) (by omega)
              simpa using this
  cases l with
  | nil => exact absurd rfl hne
  | cons y l =>
    obtain ⟨i, hi, h1, h2, h3⟩ := key l y fun x hx => hs x (List.mem_cons_of_mem _ hx)
    refine ⟨i, hi, ?_, h2, h3⟩
    simp only [pickBest, hs y List.mem_cons_self, bind, Except.bind]
    exact h1

/-! ### Merging -/

theorem mem_pairs {n i j : Nat} : (i, j) ∈ pairs n ↔ i < j ∧ j < n := by
  unfold pairs
  simp only [List.mem_flatMap, List.mem_range, List.mem_map, Prod.mk.injEq]
  constructor
  · rintro ⟨a, ha, b, hb, rfl, rfl⟩
    rw [List.mem_drop_iff_getElem] at hb
    obtain ⟨k, hk, hb⟩ := hb
    simp at hb hk
    omega
  · rintro ⟨h1, h2⟩
    refine ⟨i, by omega, j, ?_, rfl, rfl⟩
    rw [List.mem_drop_iff_getElem]
    refine ⟨j - (i + 1), by simp; omega, ?_⟩
    simp
    omega

theorem pairs_eq_nil {n : Nat} : pairs n = [] ↔ n < 2 := by
  constructor
  · intro h
    by_contra hn
    have : (0, 1) ∈ pairs n := mem_pairs.2 ⟨by omega, by omega⟩
    rw [h] at this
    simp at this
  · intro h
    apply List.eq_nil_iff_forall_not_mem.2
    rintro ⟨i, j⟩ hp
    rw [mem_pairs] at hp
    omega

/-- A cluster list and the samples absorbed by each. -/
def Parts (P : List Bool → Prop) (cs : List Cluster) (parts : List (List (List Bool))) : Prop :=
  List.Forall₂ (Built P) cs parts

theorem forall₂_set {α β : Type} {R : α → β → Prop} {l : List α} {m : List β} (h : List.Forall₂ R l m) {i : Nat} {x : α} {y : β}
    (hxy : R x y) : List.Forall₂ R (l.set i x) (m.set i y) := by
  induction h generalizing i with
  | nil => simp
  | cons h1 h2 ih =>
    cases i with
    | zero => exact .cons hxy h2
    | succ i => exact .cons h1 ih

theorem forall₂_eraseIdx {α β : Type} {R : α → β → Prop} {l : List α} {m : List β} (h : List.Forall₂ R l m) (i : Nat) :
    List.Forall₂ R (l.eraseIdx i) (m.eraseIdx i) := by
  induction h generalizing i with
  | nil => simp
  | cons h1 h2 ih =>
    cases i with
    | zero => exact h2
    | succ i => exact .cons h1 (ih i)

theorem forall₂_getElem? {α β : Type} {R : α → β → Prop} {l : List α} {m : List β} (h : List.Forall₂ R l m) {i : Nat} {x : α}
    (hx : l[i]? = some x) : ∃ y, m[i]? = some y ∧ R x y := by
  induction h generalizing i with
  | nil => simp at hx
  | cons h1 h2 ih =>
    cases i with
    | zero => simp at hx; subst hx; exact ⟨_, rfl, h1⟩
    | succ i => simpa using ih (by simpa using hx)

/-- Moving part `j` to the end of part `i` only permutes the samples. -/
theorem flatten_merge {α : Type} (parts : List (List α)) (i j : Nat) (s t : List α) (hij : i < j) (hi : parts[i]? = some s)
    (hj : parts[j]? = some t) : ((parts.eraseIdx j).set i (s ++ t)).flatten.Perm parts.flatten := by
  induction parts generalizing i j with
  | nil => simp at hi
  | cons p parts ih =>
    cases j with
    | zero => omega
    | succ j =>
      cases i with
      | zero =>
        simp at hi
        subst hi
        simp only [List.eraseIdx_cons_succ, List.set_cons_zero, List.flatten_cons]
        have : (t ++ (parts.eraseIdx j).flatten).Perm parts.flatten := by
          clear ih
          induction parts generalizing j with
          | nil => simp at hj
          | cons q parts ih2 =>
            cases j with
            | zero => simp at hj; subst hj; simp
            | succ j =>
              simp only [List.eraseIdx_cons_succ, List.flatten_cons]
              refine List.Perm.trans ?_ ((ih2 j (by simpa using hj) (by omega)).append_left q)
              rw [← List.append_assoc, ← List.append_assoc]
              exact List.perm_append_comm.append_right _
        rw [List.append_assoc]
        exact this.append_left p
      | succ i =>
        simp only [List.eraseIdx_cons_succ, List.set_cons_succ, List.flatten_cons]
        exact (ih i j (by omega) (by simpa using hi) (by simpa using hj)).append_left p

theorem flatten_add {α : Type} (parts : List (List α)) (i : Nat) (s : List α) (b : α) (hi : parts[i]? = some s) :
    ((parts.set i (s ++ [b])).flatten).Perm (parts.flatten ++ [b]) := by
  induction parts generalizing i with
  | nil => simp at hi
  | cons p parts ih =>
    cases i with
    | zero =>
      simp at hi
      subst hi
      simp only [List.set_cons_zero, List.flatten_cons, List.append_assoc]
      exact (List.perm_append_comm).append_left p
    | succ i =>
      simp only [List.set_cons_succ, List.flatten_cons, List.append_assoc]
      exact (ih i (by simpa using hi)).append_left p

/-- One merge: an earlier and a later cluster become one, nothing else changes. -/
theorem mergeStep_spec {μ δ : Type} (m : Metrics μ δ) (pair : Option (Nat × Nat)) (cs : List Cluster) (pr : Nat × Nat)
    (cs' : List Cluster) (h2 : 2 ≤ cs.length) (h : mergeStep m pair cs = .ok (pr, cs')) :
    pr.1 < pr.2 ∧ pr.2 < cs.length ∧
    (∃ v, pickBest (m.pairDist cs) m.less (pairs cs.length) none = .ok (some (v, pr))) ∧
    ∃ c d e, cs[pr.1]? = some c ∧ cs[pr.2]? = some d ∧ c.merge d = .ok e ∧ cs' = (cs.eraseIdx pr.2).set pr.1 e := by
  unfold mergeStep at h
  simp only [bind, Except.bind] at h
  cases hb : pickBest (m.pairDist cs) m.less (pairs cs.length) none with
  | error e => rw [hb] at h; cases h
  | ok best =>
    rw [hb] at h
    obtain ⟨p1, p2⟩ := pickBest_mem _ _ _ _ _ hb
    cases best with
    | none =>
      have := (p1 rfl).1
      rw [pairs_eq_nil] at this
      omega
    | some vp =>
      obtain ⟨v, i, j⟩ := vp
      have hm : (i, j) ∈ pairs cs.length := by simpa using p2 v (i, j) rfl
      rw [mem_pairs] at hm
      simp only at h
      have hj : cs[j]? = some cs[j] := List.getElem?_eq_getElem hm.2
      have hi' : (cs.eraseIdx j)[i]? = some (cs[i]'(by omega)) := by
        rw [List.getElem?_eraseIdx_of_lt hm.1, List.getElem?_eq_getElem]
      rw [hj] at h
      simp only [hi'] at h
      cases hmg : (cs[i]'(by omega)).merge cs[j] with
      | error e => rw [hmg] at h; cases h
      | ok e =>
        rw [hmg] at h
        simp only at h
        injection h with h
        injection h with ha hb'
        subst ha
        refine ⟨hm.1, hm.2, ⟨v, rfl⟩, cs[i]'(by omega), cs[j], e, List.getElem?_eq_getElem _, hj, hmg, hb'.symm⟩

theorem mergeStep_parts {μ δ : Type} (m : Metrics μ δ) (P : List Bool → Prop) (pair : Option (Nat × Nat)) (cs : List Cluster)
    (pr : Nat × Nat) (cs' : List Cluster) (h2 : 2 ≤ cs.length) (h : mergeStep m pair cs = .ok (pr, cs'))
    (parts : List (List (List Bool))) (hp : Parts P cs parts) :
    cs'.length + 1 = cs.length ∧ pr.2 ≤ cs'.length ∧ ∃ parts', Parts P cs' parts' ∧ parts'.flatten.Perm parts.flatten := by
  obtain ⟨h1, h3, _, c, d, e, hc, hd, he, rfl⟩ := mergeStep_spec m pair cs pr cs' h2 h
  obtain ⟨s, hs, bs⟩ := forall₂_getElem? hp hc
  obtain ⟨t, ht, bt⟩ := forall₂_getElem? hp hd
  refine ⟨by simp [List.length_eraseIdx, h3]; omega, by simp [List.length_eraseIdx, h3]; omega,
    (parts.eraseIdx pr.2).set pr.1 (s ++ t), ?_, flatten_merge parts _ _ s t h1 hs ht⟩
  exact forall₂_set (forall₂_eraseIdx hp _) (Built.merge _ _ _ _ _ bs bt he)

theorem mergeStep_small {μ δ : Type} (m : Metrics μ δ) (pair : Option (Nat × Nat)) (cs : List Cluster) (h : cs.length < 2)
    (hp : ∀ p, pair = some p → cs.length ≤ p.2) : ¬ Returns (mergeStep m pair cs) := by
  have hnil : pairs cs.length = [] := pairs_eq_nil.2 h
  unfold mergeStep
  rw [hnil]
  simp only [pickBest, bind, Except.bind]
  cases pair with
  | none => rintro ⟨_, h⟩; cases h
  | some p =>
    have := hp p rfl
    simp only [List.getElem?_eq_none this]
    rintro ⟨_, h⟩; cases h

theorem mergeLoop_spec {μ δ : Type} (m : Metrics μ δ) (P : List Bool → Prop) (k : Int) (fuel : Nat) (pair : Option (Nat × Nat))
    (cs cs' : List Cluster) (hf : cs.length < fuel) (hpair : ∀ p, pair = some p → cs.length < 2 → cs.length ≤ p.2)
    (h : mergeLoop m k fuel pair cs = .ok cs') (parts : List (List (List Bool))) (hp : Parts P cs parts) :
    (cs'.length : Int) = min k cs.length ∧ (cs ≠ [] → 0 < k ∧ cs' ≠ []) ∧
      ∃ parts', Parts P cs' parts' ∧ parts'.flatten.Perm parts.flatten := by
  induction fuel generalizing pair cs parts with
  | zero => omega
  | succ fuel ih =>
    rw [mergeLoop] at h
    split at h
    · rename_i hgt
      simp only [bind, Except.bind] at h
      cases hs : mergeStep m pair cs with
      | error e => rw [hs] at h; cases h
      | ok r =>
        obtain ⟨pr, cs1⟩ := r
        rw [hs] at h
        simp only at h
        by_cases h2 : cs.length < 2
        · exact absurd ⟨_, hs⟩ (mergeStep_small m pair cs h2 fun p hp => hpair p hp h2)
        · obtain ⟨l1, l2, parts1, q1, q2⟩ := mergeStep_parts m P pair cs pr cs1 (by omega) hs parts hp
          obtain ⟨i1, i2, parts2, i3, i4⟩ := ih (some pr) cs1 (by omega)
            (by
              rintro p ⟨⟩ _
              have := (mergeStep_spec m pair cs pr cs1 (by omega) hs)
              omega) h parts1 q1
          refine ⟨by rw [i1]; omega, fun _ => ?_, parts2, i3, i4.trans q2⟩
          apply i2
          intro h0
          rw [h0] at l1
          simp at l1
          omega
    · rename_i hle
      injection h with h
      subst h
      refine ⟨by omega, fun hne => ?_, parts, hp, List.Perm.refl _⟩
      have := List.length_pos_iff.2 hne
      exact ⟨by omega, hne⟩

/-! ### C38 -/

/-- A sequence of `classify` calls: the labels returned and the final state. -/
def classifyAll {μ δ : Type} (m : Metrics μ δ) : Classifier → List (List Bool) → Except PyErr (List Int × Classifier)
  | st, [] => .ok ([], st)
  | st, b :: bs => do
    let (l, st) ← st.classify m b
    let (ls, st) ← classifyAll m st bs
    .ok (l :: ls, st)

/-- What holds after the buffers `bufs`. -/
structure ClsInv (P : List Bool → Prop) (minData k : Int) (st : Classifier) (bufs : List (List Bool)) : Prop where
  hmin : st.minData = minData
  hk : st.k = k
  samples : st.samples = bufs.length
  parts : ∃ parts, Parts P st.clusters parts ∧ parts.flatten.Perm bufs
  uids : st.clusters.map (·.uid) = (List.range st.clusters.length).map (fun (i : Nat) => (i : Int))
  train : st.init = false → st.clusters.length = st.samples ∧ st.nextUid = st.samples ∧ (st.samples = 0 ∨ (st.samples : Int) < minData)
  ready : st.init = true → minData ≤ st.samples ∧ 2 ≤ minData ∧ (st.clusters.length : Int) = min k (minData - 1) ∧ st.clusters ≠ []

theorem clsInv_new (P : List Bool → Prop) (minData k : Int) : ClsInv P minData k { minData := minData, k := k } [] :=
  ⟨rfl, rfl, rfl, ⟨[], .nil, List.Perm.refl _⟩, rfl, fun _ => ⟨rfl, rfl, Or.inl rfl⟩, by simp⟩

theorem addSample_uid {c c' : Cluster} {b : List Bool} (h : c.addSample b = .ok c') : c'.uid = c.uid := by
  unfold Cluster.addSample at h
  split at h
  · cases h
  · simp only [bind, Except.bind] at h
    split at h
    · cases h
    · injection h with h
      rw [← h]

theorem merged_uids (cs : List Cluster) :
    (cs.mapIdx fun i c => { c with uid := (i : Int) }).map (·.uid) = (List.range cs.length).map (fun (i : Nat) => (i : Int)) := by
  apply List.ext_getElem
  · simp
  · intro i h1 h2; simp

theorem parts_renumber (P : List Bool → Prop) (cs : List Cluster) (parts : List (List (List Bool))) (h : Parts P cs parts) (f : Nat → Int) :
    Parts P (cs.mapIdx fun i c => { c with uid := f i }) parts := by
  induction h generalizing f with
  | nil => exact .nil
  | cons h1 h2 ih =>
    rw [List.mapIdx_cons]
    exact .cons (Built.renumber _ _ _ h1) (ih fun i => f (i + 1))

theorem mergeClusters_spec {μ δ : Type} (m : Metrics μ δ) (P : List Bool → Prop) (k : Int) (cs cs' : List Cluster)
    (h : mergeClusters m k cs = .ok cs') (parts : List (List (List Bool))) (hp : Parts P cs parts) :
    (cs'.length : Int) = min k cs.length ∧ (cs ≠ [] → 0 < k ∧ cs' ≠ []) ∧
      (∃ parts', Parts P cs' parts' ∧ parts'.flatten.Perm parts.flatten) ∧
      cs'.map (·.uid) = (List.range cs'.length).map (fun (i : Nat) => (i : Int)) := by
  unfold mergeClusters at h
  simp only [bind, Except.bind] at h
  split at h
  · cases h
  · rename_i cs1 hm
    injection h with h
    subst h
    obtain ⟨h1, h2, parts', h3, h4⟩ := mergeLoop_spec m P k _ none cs cs1 (by omega) (by simp) hm parts hp
    refine ⟨by simpa using h1, ?_, ⟨parts', parts_renumber P cs1 parts' h3 _, h4⟩, by rw [merged_uids]; simp⟩
    intro hne
    obtain ⟨g1, g2⟩ := h2 hne
    refine ⟨g1, ?_⟩
    intro h0
    apply g2
    have := congrArg List.length h0
    simpa using this

theorem clsInv_step {μ δ : Type} (m : Metrics μ δ) (P : List Bool → Prop) (minData k : Int) (st st' : Classifier)
    (bufs : List (List Bool)) (b : List Bool) (l : Int) (hi : ClsInv P minData k st bufs)
    (hP : (bufs.length : Int) + 1 < minData → P b) (h : st.classify m b = .ok (l, st')) :
    ClsInv P minData k st' (bufs ++ [b]) ∧
      ((bufs.length : Int) + 1 < minData → l = -1 ∧ st'.init = false) ∧
      (minData ≤ (bufs.length : Int) + 1 → st'.init = true ∧ 0 ≤ l ∧ l < st'.clusters.length ∧ 2 ≤ minData) := by
  obtain ⟨hmin, hk, hsamp, ⟨parts, hparts, hperm⟩, huid, htrain, hready⟩ := hi
  subst hmin hk
  unfold Classifier.classify at h
  simp only [bind, Except.bind, hsamp] at h
  by_cases hlt : ((bufs.length + 1 : Nat) : Int) < st.minData
  · rw [if_pos hlt] at h
    have hlt' : (bufs.length : Int) + 1 < st.minData := by push_cast at hlt; exact hlt
    have hinit : st.init = false := by
      by_contra hc
      have := (hready (by simpa using hc)).1
      omega
    obtain ⟨t1, t2, t3⟩ := htrain hinit
    cases hd : prob (columnOf b) with
    | error e => rw [hd] at h; cases h
    | ok dist =>
      rw [hd] at h
      simp only at h
      injection h with h
      injection h with hl hst
      subst hl hst
      refine ⟨⟨rfl, rfl, by simp, ⟨parts ++ [[b]], ?_, ?_⟩, ?_, ?_, ?_⟩, ?_, ?_⟩
      · exact List.rel_append hparts (.cons (.start b dist _ (hP hlt') hd) .nil)
      · rw [List.flatten_append]; exact hperm.append_right _
      · simp only [List.map_append, huid, List.length_append, List.length_cons, List.length_nil, Nat.zero_add,
          List.range_succ, List.map_cons, List.map_nil, Cluster.new, t2, t1]
      · intro _
        refine ⟨by simp [t1, hsamp], by simp only [t2, hsamp], Or.inr ?_⟩
        exact hlt
      · intro hc
        simp only [hinit] at hc
        cases hc
      · intro _; exact ⟨rfl, hinit⟩
      · intro hc; omega
  · rw [if_neg hlt] at h
    have hge : st.minData ≤ (bufs.length : Int) + 1 := by push_cast at hlt; omega
    -- the state in which a cluster is chosen
    obtain ⟨cs, hcs, hlen, hne, parts', hparts', hperm', huid', hmin2⟩ : ∃ cs,
        Classifier.ready m { st with samples := bufs.length + 1 } = .ok { st with samples := bufs.length + 1, clusters := cs, init := true } ∧
        (cs.length : Int) = min st.k (st.minData - 1) ∧ (cs ≠ []) ∧ ∃ parts', Parts P cs parts' ∧ parts'.flatten.Perm bufs ∧
          cs.map (·.uid) = (List.range cs.length).map (fun (i : Nat) => (i : Int)) ∧ 2 ≤ st.minData := by
      by_cases hinit : st.init = true
      · obtain ⟨r1, r2, r3, r4⟩ := hready hinit
        refine ⟨st.clusters, ?_, r3, r4, parts, hparts, hperm, huid, r2⟩
        simp only [Classifier.ready, hinit, if_true]
      · have hinit' : st.init = false := by simpa using hinit
        obtain ⟨t1, t2, t3⟩ := htrain (by simpa using hinit)
        cases hm : mergeClusters m st.k st.clusters with
        | error e => simp [Classifier.ready, hinit', hm, bind, Except.bind] at h
        | ok cs =>
          obtain ⟨m1, m2, ⟨parts', m3, m4⟩, m5⟩ := mergeClusters_spec m P st.k st.clusters cs hm parts hparts
          have hne0 : st.clusters ≠ [] := by
            intro h0
            have hcs0 : cs = [] := by
              rw [h0] at m1
              simp at m1
              apply List.eq_nil_of_length_eq_zero
              omega
            subst hcs0
            simp [Classifier.ready, hinit', hm, bind, Except.bind, Classifier.choose, pickBest] at h
          have hpos : 0 < st.clusters.length := List.length_pos_iff.2 hne0
          obtain ⟨g1, g2⟩ := m2 hne0
          refine ⟨cs, by simp [Classifier.ready, hinit', hm, bind, Except.bind], ?_, g2, parts', m3, m4.trans hperm, m5, ?_⟩
          · rw [m1]; omega
          · omega
    rw [hcs] at h
    simp only [Classifier.choose, bind, Except.bind] at h
    cases hb : pickBest (fun ci : Cluster × Nat => m.score b ci.1) m.better cs.zipIdx none with
    | error e => rw [hb] at h; cases h
    | ok best =>
      rw [hb] at h
      cases best with
      | none => cases h
      | some v =>
        obtain ⟨s, c, i⟩ := v
        have hmem : (c, i) ∈ cs.zipIdx := by simpa using (pickBest_mem _ _ _ _ _ hb).2 s (c, i) rfl
        have hci : cs[i]? = some c := by simpa using List.mem_zipIdx_iff_getElem?.1 hmem
        simp only at h
        cases ha : c.addSample b with
        | error e => rw [ha] at h; cases h
        | ok c' =>
          rw [ha] at h
          simp only at h
          injection h with h
          injection h with hl hst
          subst hl hst
          obtain ⟨p, hp1, hp2⟩ := forall₂_getElem? hparts' hci
          have hilt : i < cs.length := by
            by_contra hc
            rw [List.getElem?_eq_none (by omega)] at hci
            cases hci
          have huidc : c.uid = i := by
            have := congrArg (·[i]?) huid'
            have hcc : cs[i] = c := by
              rw [List.getElem?_eq_getElem hilt] at hci
              exact Option.some.inj hci
            simpa [hcc, hilt] using this
          refine ⟨⟨rfl, rfl, by simp, ⟨parts'.set i (p ++ [b]), ?_, ?_⟩, ?_, ?_, ?_⟩, ?_, ?_⟩
          · exact forall₂_set hparts' (.add _ _ _ _ hp2 ha)
          · exact (flatten_add parts' i p b hp1).trans (hperm'.append_right _)
          · simp only [List.map_set, List.length_set, addSample_uid ha]
            rw [huid', huidc]
            apply List.ext_getElem
            · simp
            · intro j h1 h2
              rw [List.getElem_set]
              split
              · rename_i he; subst he; simp
              · rfl
          · intro hc; cases hc
          · intro _
            refine ⟨by push_cast; omega, hmin2, by simpa using hlen, ?_⟩
            intro h0
            apply hne
            have := congrArg List.length h0
            simpa using this
          · intro hc; omega
          · intro _
            refine ⟨rfl, by omega, ?_, hmin2⟩
            simp only [List.length_set]
            omega

theorem classifyAll_inv {μ δ : Type} (m : Metrics μ δ) (P : List Bool → Prop) (minData k : Int) (st st' : Classifier)
    (done bufs : List (List Bool)) (ls : List Int) (hi : ClsInv P minData k st done)
    (hP : ∀ (i : Nat) b, (done.length : Int) + i + 1 < minData → bufs[i]? = some b → P b)
    (h : classifyAll m st bufs = .ok (ls, st')) :
    ClsInv P minData k st' (done ++ bufs) ∧ ls.length = bufs.length ∧
      (∀ i, (hi : i < ls.length) → ((done.length : Int) + i + 1 < minData → ls[i] = -1) ∧
        (minData ≤ (done.length : Int) + i + 1 → 0 ≤ ls[i] ∧ ls[i] < st'.clusters.length)) ∧
      (bufs ≠ [] → minData ≤ (done.length : Int) + bufs.length → st'.init = true ∧ 2 ≤ minData) := by
  induction bufs generalizing st done ls with
  | nil =>
    simp only [classifyAll] at h
    injection h with h
    injection h with h1 h2
    subst h1 h2
    exact ⟨by simpa using hi, rfl, by simp, by simp⟩
  | cons b bs ih =>
    simp only [classifyAll, bind, Except.bind] at h
    cases h1 : st.classify m b with
    | error e => rw [h1] at h; cases h
    | ok r =>
      obtain ⟨l, st1⟩ := r
      rw [h1] at h
      simp only at h
      cases h2 : classifyAll m st1 bs with
      | error e => rw [h2] at h; cases h
      | ok r =>
        obtain ⟨ls1, st2⟩ := r
        rw [h2] at h
        simp only at h
        injection h with h
        injection h with e1 e2
        subst e1 e2
        obtain ⟨s1, s2, s3⟩ := clsInv_step m P minData k st st1 done b l hi (fun hlt => hP 0 b (by simpa using hlt) rfl) h1
        obtain ⟨i1, i2, i3, i4⟩ := ih st1 (done ++ [b]) ls1 s1
          (fun i b hlt hb => hP (i + 1) b (by simp at hlt; push_cast; omega) (by simpa using hb)) h2
        have hlenmono : st1.init = true → st2.clusters.length = st1.clusters.length := by
          intro hin
          have a1 := s1.ready hin
          have hin2 : st2.init = true := by
            by_cases hb : bs = []
            · subst hb
              simp only [classifyAll] at h2
              injection h2 with h2
              injection h2 with _ h2
              rw [← h2]; exact hin
            · exact (i4 hb (by
                have h3 := a1.1
                rw [s1.samples] at h3
                omega)).1
          have a2 := i1.ready hin2
          omega
        refine ⟨by simpa using i1, by simp [i2], ?_, ?_⟩
        · intro i hilt
          cases i with
          | zero =>
            simp only [List.getElem_cons_zero, Nat.cast_zero, add_zero]
            refine ⟨fun hc => (s2 hc).1, fun hc => ?_⟩
            obtain ⟨q1, q2, q3, _⟩ := s3 hc
            rw [hlenmono q1]
            exact ⟨q2, q3⟩
          | succ i =>
            have := i3 i (by simpa using hilt)
            simp only [List.getElem_cons_succ]
            simp only [List.length_append, List.length_cons, List.length_nil] at this
            push_cast at this ⊢
            constructor
            · intro hc; exact this.1 (by omega)
            · intro hc; exact this.2 (by omega)
        · intro _ hc
          by_cases hb : bs = []
          · subst hb
            simp only [classifyAll] at h2
            injection h2 with h2
            injection h2 with _ h2
            rw [← h2]
            have := s3 (by simpa using hc)
            exact ⟨this.1, this.2.2.2⟩
          · exact i4 hb (by simp at hc ⊢; omega)

theorem parts_counts {P : List Bool → Prop} {c : Cluster} {s : List (List Bool)} (h : Built P c s) : c.n = s.length := by
  induction h with
  | start => rfl
  | add c c' s b _ hadd ih =>
    unfold Cluster.addSample at hadd
    split at hadd
    · cases hadd
    · simp only [bind, Except.bind] at hadd
      split at hadd
      · cases hadd
      · injection hadd with hadd
        rw [← hadd]
        simp [ih]
  | merge c d c' s t _ _ hm ih1 ih2 =>
    unfold Cluster.merge at hm
    split at hm
    · cases hm
    · simp only [bind, Except.bind] at hm
      split at hm
      · cases hm
      · injection hm with hm
        rw [← hm]
        simp [ih1, ih2]
  | renumber c s uid _ ih => exact ih

/-- C38: for any metric values and comparisons, any parameters and any sequence of calls that return: the first
`min_data_size - 1` labels are -1, the later ones are in `range(number of clusters)`; from the first later call on the
number of clusters is `min(k, min_data_size - 1)`; the uids are 0, 1, ... in list order; every buffer has been absorbed by
exactly one cluster, so the `n_samples` add up to the number of calls. -/
theorem c38_protocol {μ δ : Type} (m : Metrics μ δ) (minData k : Int) (bufs : List (List Bool)) (ls : List Int) (st : Classifier)
    (h : classifyAll m { minData := minData, k := k } bufs = .ok (ls, st)) :
    ls.length = bufs.length ∧
    (∀ i, (hi : i < ls.length) → ((i : Int) < minData - 1 → ls[i] = -1) ∧
      (minData - 1 ≤ (i : Int) → 0 ≤ ls[i] ∧ ls[i] < st.clusters.length)) ∧
    ((bufs.length : Int) < minData → st.clusters.length = bufs.length) ∧
    (bufs ≠ [] → minData ≤ bufs.length → (st.clusters.length : Int) = min k (minData - 1)) ∧
    st.clusters.map (·.uid) = (List.range st.clusters.length).map (fun (i : Nat) => (i : Int)) ∧
    (∃ parts, List.Forall₂ (Built fun _ => True) st.clusters parts ∧ parts.flatten.Perm bufs) ∧
    (st.clusters.map (·.n)).sum = bufs.length := by
  obtain ⟨i1, i2, i3, i4⟩ := classifyAll_inv m (fun _ => True) minData k _ st [] bufs ls (clsInv_new _ minData k)
    (fun _ _ _ _ => trivial) h
  simp only [List.nil_append] at i1
  obtain ⟨parts, hp, hperm⟩ := i1.parts
  refine ⟨i2, ?_, ?_, ?_, i1.uids, ⟨parts, hp, hperm⟩, ?_⟩
  · intro i hi
    have := i3 i hi
    simp only [List.length_nil, Nat.cast_zero, zero_add] at this
    exact ⟨fun hc => this.1 (by omega), fun hc => this.2 (by omega)⟩
  · intro hlt
    have hs := i1.samples
    have hin : st.init = false := by
      by_contra hc
      have := (i1.ready (by simpa using hc)).1
      omega
    rw [(i1.train hin).1, hs]
  · intro hne hle
    exact (i1.ready (i4 hne (by simpa using hle)).1).2.2.1
  · have : ∀ (cs : List Cluster) (ps : List (List (List Bool))), Parts (fun _ => True) cs ps →
        (cs.map (·.n)).sum = ps.flatten.length := by
      intro cs ps hps
      induction hps with
      | nil => rfl
      | cons h1 h2 ih =>
        simp only [List.map_cons, List.sum_cons, List.flatten_cons, List.length_append, ih, parts_counts h1]
    rw [this _ _ hp, hperm.length_eq]

/-- C38: with `min_data_size ≤ 1` or `k ≤ 0` no sequence of calls reaching the classification phase returns. -/
theorem c38_raises {μ δ : Type} (m : Metrics μ δ) (minData k : Int) (hbad : minData ≤ 1 ∨ k ≤ 0) (bufs : List (List Bool))
    (hne : bufs ≠ []) (hlen : minData ≤ bufs.length) :
    ¬ Returns (classifyAll m { minData := minData, k := k } bufs) := by
  rintro ⟨⟨ls, st⟩, h⟩
  obtain ⟨i1, i2, i3, i4⟩ := classifyAll_inv m (fun _ => True) minData k _ st [] bufs ls (clsInv_new _ minData k)
    (fun _ _ _ _ => trivial) h
  obtain ⟨r1, r2, r3, r4⟩ := i1.ready (i4 hne (by simpa using hlen)).1
  have := List.length_pos_iff.2 r4
  omega

/-! ### Calls do not raise -/

theorem mergeStep_returns {μ δ : Type} (m : Metrics μ δ) (pair : Option (Nat × Nat)) (cs : List Cluster)
    (parts : List (List (List Bool))) (hp : Parts Mixed cs parts) (L : Nat) (hL : ∀ c ∈ cs, c.data.length = L) (h2 : 2 ≤ cs.length)
    (hm : ∀ c ∈ cs, ∀ d ∈ cs, Returns (m.mdist c d)) : ∃ pr cs', mergeStep m pair cs = .ok (pr, cs') := by
  have hr : Returns (pickBest (m.pairDist cs) m.less (pairs cs.length) none) := by
    apply pickBest_ok
    rintro ⟨i, j⟩ hij
    rw [mem_pairs] at hij
    unfold Metrics.pairDist
    rw [List.getElem?_eq_getElem (by omega : i < cs.length), List.getElem?_eq_getElem hij.2]
    exact hm _ (List.getElem_mem _) _ (List.getElem_mem _)
  obtain ⟨best, hb⟩ := hr
  obtain ⟨p1, p2⟩ := pickBest_mem _ _ _ _ _ hb
  unfold mergeStep
  simp only [hb, bind, Except.bind]
  cases best with
  | none =>
    have := (p1 rfl).1
    rw [pairs_eq_nil] at this
    omega
  | some vp =>
    obtain ⟨v, i, j⟩ := vp
    have hm : (i, j) ∈ pairs cs.length := by simpa using p2 v (i, j) rfl
    rw [mem_pairs] at hm
    have hi : i < cs.length := by omega
    have hj : cs[j]? = some cs[j] := List.getElem?_eq_getElem hm.2
    have hi' : (cs.eraseIdx j)[i]? = some (cs[i]) := by
      rw [List.getElem?_eraseIdx_of_lt hm.1, List.getElem?_eq_getElem]
    obtain ⟨s, hs, bs⟩ := forall₂_getElem? hp (List.getElem?_eq_getElem hi)
    obtain ⟨t, ht, bt⟩ := forall₂_getElem? hp hj
    obtain ⟨e, he⟩ := (c37_no_raise _ _ s t bs bt []).2.2 (by rw [hL _ (List.getElem_mem _), hL _ (List.getElem_mem _)])
    simp only [hj, hi', he]
    exact ⟨_, _, rfl⟩

theorem parts_mem {P : List Bool → Prop} {cs : List Cluster} {parts : List (List (List Bool))} (hp : Parts P cs parts) :
    ∀ c ∈ cs, ∃ s ∈ parts, Built P c s := by
  intro c hc
  obtain ⟨i, hi, rfl⟩ := List.getElem_of_mem hc
  obtain ⟨s, hs, bs⟩ := forall₂_getElem? hp (List.getElem?_eq_getElem hi)
  exact ⟨s, List.mem_of_getElem? hs, bs⟩

/-- If all samples have length `L`, so have the clusters. -/
theorem parts_length {cs : List Cluster} {parts : List (List (List Bool))} (hp : Parts Mixed cs parts) {L : Nat}
    (hL : ∀ b ∈ parts.flatten, b.length = L) : ∀ c ∈ cs, c.data.length = L := by
  intro c hc
  obtain ⟨s, hs, bs⟩ := parts_mem hp c hc
  obtain ⟨h1, h2, h3, _⟩ := c37_counts c s bs
  obtain ⟨b, hb⟩ := List.exists_mem_of_length_pos (l := s) (by omega)
  rw [← h3 b hb]
  exact hL b (List.mem_flatten.2 ⟨s, hs, hb⟩)

theorem mergeLoop_returns {μ δ : Type} (m : Metrics μ δ) (k : Int) (hk : 1 ≤ k) (L : Nat)
    (hm : ∀ c d s t, Built Mixed c s → Built Mixed d t → c.data.length = L → d.data.length = L → Returns (m.mdist c d))
    (fuel : Nat) (pair : Option (Nat × Nat)) (cs : List Cluster)
    (parts : List (List (List Bool))) (hp : Parts Mixed cs parts) (hL : ∀ b ∈ parts.flatten, b.length = L) :
    Returns (mergeLoop m k fuel pair cs) := by
  induction fuel generalizing pair cs parts with
  | zero => exact ⟨_, rfl⟩
  | succ fuel ih =>
    rw [mergeLoop]
    split
    · have h2 : 2 ≤ cs.length := by omega
      have hLc := parts_length hp hL
      obtain ⟨pr, cs', hs⟩ := mergeStep_returns m pair cs parts hp L hLc h2 (by
        intro c hc d hd
        obtain ⟨s, _, bs⟩ := parts_mem hp c hc
        obtain ⟨t, _, bt⟩ := parts_mem hp d hd
        exact hm c d s t bs bt (hLc c hc) (hLc d hd))
      obtain ⟨_, _, parts', q1, q2⟩ := mergeStep_parts m Mixed pair cs pr cs' h2 hs parts hp
      simp only [hs, bind, Except.bind]
      exact ih (some pr) cs' parts' q1 fun b hb => hL b (q2.mem_iff.1 hb)
    · exact ⟨_, rfl⟩

/-- C38: with `min_data_size ≥ 2`, `k ≥ 1`, buffers of one length and non-constant training buffers, no call raises,
whatever the values and comparisons of a metric that itself does not raise on clusters of that length. -/
theorem c38_returns {μ δ : Type} (m : Metrics μ δ) (minData k : Int) (hmin : 2 ≤ minData) (hk : 1 ≤ k) (L : Nat)
    (hm : ∀ c d s t, Built Mixed c s → Built Mixed d t → c.data.length = L → d.data.length = L → Returns (m.mdist c d))
    (hsc : ∀ c s b, Built Mixed c s → c.data.length = L → b.length = L → Returns (m.score b c))
    (bufs : List (List Bool)) (hlen : ∀ b ∈ bufs, b.length = L)
    (hmix : ∀ (i : Nat) b, (i : Int) < minData - 1 → bufs[i]? = some b → Mixed b) :
    Returns (classifyAll m { minData := minData, k := k } bufs) := by
  have key : ∀ (st : Classifier) (done bufs : List (List Bool)), ClsInv Mixed minData k st done →
      (∀ b ∈ done ++ bufs, b.length = L) → (∀ (i : Nat) b, (done.length : Int) + i + 1 < minData → bufs[i]? = some b → Mixed b) →
      Returns (classifyAll m st bufs) := by
    intro st done bufs
    induction bufs generalizing st done with
    | nil => intro _ _ _; exact ⟨_, rfl⟩
    | cons b bs ih =>
      intro hi hl hx
      have hb : b.length = L := hl b (by simp)
      have hstep : Returns (st.classify m b) := by
        unfold Classifier.classify
        simp only [bind, Except.bind, hi.samples]
        split
        · rename_i hlt
          rw [hi.hmin] at hlt
          have hmx : Mixed b := hx 0 b (by push_cast at hlt ⊢; omega) rfl
          rw [prob_mixed hmx]
          exact ⟨_, rfl⟩
        · rename_i hge
          rw [hi.hmin] at hge
          have hdone : ∀ parts : List (List (List Bool)), parts.flatten.Perm done → ∀ x ∈ parts.flatten, x.length = L :=
            fun parts hperm x hx => hl x (List.mem_append_left _ (hperm.mem_iff.1 hx))
          obtain ⟨cs, parts, hr, hp, hperm, hne⟩ : ∃ cs parts,
              Classifier.ready m { st with samples := done.length + 1 } =
                .ok { st with samples := done.length + 1, clusters := cs, init := true } ∧
              Parts Mixed cs parts ∧ parts.flatten.Perm done ∧ cs ≠ [] := by
            obtain ⟨parts, hp, hperm⟩ := hi.parts
            by_cases hin : st.init = true
            · refine ⟨st.clusters, parts, ?_, hp, hperm, (hi.ready hin).2.2.2⟩
              simp only [Classifier.ready, hin, if_true]
            · have hin' : st.init = false := by simpa using hin
              obtain ⟨t1, t2, t3⟩ := hi.train hin'
              obtain ⟨cs1, hcs1⟩ := mergeLoop_returns m k hk L hm (st.clusters.length + 1) none st.clusters parts hp
                (hdone parts hperm)
              have hmc : mergeClusters m k st.clusters = .ok (cs1.mapIdx fun i c => { c with uid := (i : Int) }) := by
                simp only [mergeClusters, hcs1, bind, Except.bind]
              obtain ⟨m1, m2, ⟨parts', m3, m4⟩, m5⟩ := mergeClusters_spec m Mixed k st.clusters _ hmc parts hp
              refine ⟨_, parts', ?_, m3, m4.trans hperm, (m2 ?_).2⟩
              · simp only [Classifier.ready, hin', hi.hk, hmc, bind, Except.bind]
                rfl
              · intro h0
                have hs := hi.samples
                rw [h0] at t1
                simp at t1
                push_cast at hge
                omega
          rw [hr]
          simp only [Classifier.choose, bind, Except.bind]
          have hLc := parts_length hp (hdone parts hperm)
          obtain ⟨best, hbest⟩ := pickBest_ok (fun ci : Cluster × Nat => m.score b ci.1) m.better cs.zipIdx none (by
            rintro ⟨c, i⟩ hci
            have hc : c ∈ cs := List.mem_of_getElem? (List.mem_zipIdx_iff_getElem?.1 hci)
            obtain ⟨s, _, bs⟩ := parts_mem hp c hc
            exact hsc c s b bs (hLc c hc) hb)
          obtain ⟨p1, p2⟩ := pickBest_mem _ _ _ _ _ hbest
          rw [hbest]
          cases best with
          | none =>
            have := (p1 rfl).1
            simp at this
            exact absurd this hne
          | some v =>
            obtain ⟨s, c, i⟩ := v
            have hci : (c, i) ∈ cs.zipIdx := by simpa using p2 s (c, i) rfl
            have hc : c ∈ cs := List.mem_of_getElem? (List.mem_zipIdx_iff_getElem?.1 hci)
            obtain ⟨t, _, bt⟩ := parts_mem hp c hc
            obtain ⟨c', hc'⟩ := (c37_no_raise c c t t bt bt b).1.2 (by rw [hLc c hc, hb])
            simp only [hc']
            exact ⟨_, rfl⟩
      obtain ⟨⟨l, st1⟩, h1⟩ := hstep
      obtain ⟨s1, _, _⟩ := clsInv_step m Mixed minData k st st1 done b l hi (fun hlt => hx 0 b (by simpa using hlt) rfl) h1
      obtain ⟨⟨ls, st2⟩, h2⟩ := ih st1 (done ++ [b]) s1 (by simpa using hl)
        (fun i b hlt hb => hx (i + 1) b (by simp at hlt; push_cast; omega) (by simpa using hb))
      simp only [classifyAll, h1, h2, bind, Except.bind]
      exact ⟨_, rfl⟩
  exact key _ [] bufs (clsInv_new _ minData k) (by simpa using hlen) (fun i b hlt hb => hmix i b (by simp at hlt; omega) hb)

/-! ### C39 -/

theorem hammingScore_ok {c : Cluster} {s : List (List Bool)} (h : Built Mixed c s) {b : List Bool} (hb : b.length = c.data.length) :
    hammingScore b c = .ok (diffCount b (anyOnes c.data.length s)) := by
  unfold hammingScore
  rw [hardBits_ok h]
  simp only [bind, Except.bind]
  rw [hammingDistance_ok_iff]
  refine ⟨b, anyOnes c.data.length s, rfl, ?_, by simp [anyOnes, hb], rfl⟩
  simp only [toBits, anyOnes, List.map_map]
  congr 1
  apply List.map_congr_left
  intro i _
  simp only [Function.comp]
  have e : (0 < onesAt s i) ↔ s.any (fun x => x[i]? == some true) = true := by
    unfold onesAt
    rw [List.countP_pos_iff, List.any_eq_true]
  by_cases h0 : 0 < onesAt s i
  · rw [if_pos h0, e.1 h0]; rfl
  · rw [if_neg h0]
    have : ¬ s.any (fun x => x[i]? == some true) = true := fun hc => h0 (e.2 hc)
    simp only [Bool.not_eq_true] at this
    rw [this]; rfl

theorem llScore_ok {c : Cluster} {s : List (List Bool)} (h : Built Mixed c s) {b : List Bool} (hb : b.length = c.data.length) :
    llScore b c = .ok (logLik b s) := by
  obtain ⟨h4, hn, _, hdl, hrow⟩ := c37_counts c s h
  have hdist : ∀ i, (hi : i < c.dist.length) → c.dist[i] = [(zerosAt s i : ℚ) / c.n, (onesAt s i : ℚ) / c.n] := by
    intro i hi
    have := (hrow i (by omega)).2.2.1
    rw [List.getElem?_eq_getElem hi] at this
    exact Option.some.inj this
  have e1 : column 1 c.dist = .ok (c.dist.map fun r => r.getD 1 0) := by
    apply column_ok
    intro r hr
    obtain ⟨i, hi, rfl⟩ := List.getElem_of_mem hr
    rw [hdist i hi]
    rfl
  have e0 : column 0 c.dist = .ok (c.dist.map fun r => r.getD 0 0) := by
    apply column_ok
    intro r hr
    obtain ⟨i, hi, rfl⟩ := List.getElem_of_mem hr
    rw [hdist i hi]
    rfl
  unfold llScore
  simp only [e1, e0, bind, Except.bind]
  rw [if_neg (by simpa using hb)]
  congr 1
  unfold logLik meanR
  congr 2
  · apply List.ext_getElem
    · simp [hdl, hb]
    · intro i k1 k2
      have hi : i < b.length := by simpa using k2
      simp only [List.getElem_map, List.getElem_zip, hdist i (by omega), List.getElem_range, agree,
        List.getElem?_eq_getElem hi, h4]
      cases hx : b[i] <;> simp [clipR, zerosAt, onesAt]
  · simp [hdl, hb]

/-- The common part of C39: the loop finds the first cluster with the best value, and only that cluster changes. -/
theorem choose_first {μ δ : Type} [LinearOrder μ] (m : Metrics μ δ) (hbet : ∀ a b, m.better a b = true ↔ a < b) (st : Classifier)
    (b : List Bool) (f : List (List Bool) → μ) (parts : List (List (List Bool))) (hp : Parts Mixed st.clusters parts)
    (hlen : ∀ c ∈ st.clusters, c.data.length = b.length) (hne : st.clusters ≠ [])
    (hf : ∀ c s, Built Mixed c s → c.data.length = b.length → m.score b c = .ok (f s)) :
    ∃ i, ∃ hi : i < st.clusters.length, ∃ hl : parts.length = st.clusters.length, ∃ c',
      st.clusters[i].addSample b = .ok c' ∧
      st.choose m b = .ok (st.clusters[i].uid, { st with clusters := st.clusters.set i c' }) ∧
      (∀ j, (hj : j < st.clusters.length) → f parts[i] ≤ f parts[j]) ∧ ∀ j, (hj : j < i) → f parts[i] < f parts[j] := by
  have hl : parts.length = st.clusters.length := hp.length_eq.symm
  have hb : ∀ i, (hi : i < st.clusters.length) → Built Mixed st.clusters[i] (parts[i]'(by omega)) := by
    intro i hi
    obtain ⟨s, hs, bs⟩ := forall₂_getElem? hp (List.getElem?_eq_getElem hi)
    rw [List.getElem?_eq_getElem (by omega)] at hs
    rw [Option.some.inj hs]
    exact bs
  obtain ⟨i, hi, h1, h2, h3⟩ := pickBest_first (fun ci : Cluster × Nat => m.score b ci.1) m.better hbet
    (fun ci => f (parts.getD ci.2 [])) st.clusters.zipIdx (by
      rintro ⟨c, i⟩ hci
      have hci := List.mem_zipIdx_iff_getElem?.1 hci
      simp only at hci ⊢
      obtain ⟨s, hs, bs⟩ := forall₂_getElem? hp hci
      rw [List.getD_eq_getElem?_getD, hs]
      exact hf c s bs (hlen c (List.mem_of_getElem? hci))) (by simpa using hne)
  have hi' : i < st.clusters.length := by simpa using hi
  obtain ⟨c', hc'⟩ := (c37_no_raise _ _ _ _ (hb i hi') (hb i hi') b).1.2 (hlen _ (List.getElem_mem _)).symm
  refine ⟨i, hi', hl, c', hc', ?_, ?_, ?_⟩
  · simp only [Classifier.choose, h1, bind, Except.bind, List.getElem_zipIdx, hc', Nat.zero_add]
  · intro j hj
    have := h2 j (by simpa using hj)
    simpa [List.getElem?_eq_getElem (by omega : i < parts.length), List.getElem?_eq_getElem (by omega : j < parts.length)] using this
  · intro j hj
    have := h3 j hj
    simpa [List.getElem?_eq_getElem (by omega : i < parts.length), List.getElem?_eq_getElem (by omega : j < parts.length)] using this

theorem classify_choose {μ δ : Type} (m : Metrics μ δ) (st : Classifier) (b : List Bool) (hin : st.init = true)
    (hs : st.minData ≤ st.samples + 1) : st.classify m b = ({ st with samples := st.samples + 1 } : Classifier).choose m b := by
  unfold Classifier.classify
  rw [if_neg (by push_cast; omega)]
  simp only [Classifier.ready, hin, if_true, bind, Except.bind]

/-- C39 for the Hamming metric: in a state after training whose clusters absorbed the samples `parts`, `classify` returns
the uid of the first cluster for which the Hamming distance between the buffer and the cluster's hard bits is smallest; that
cluster absorbs the buffer and no other one changes. -/
theorem c39_hamming {δ : Type} (mdist : Cluster → Cluster → Except PyErr δ) (less : δ → δ → Bool) (st : Classifier) (b : List Bool)
    (hin : st.init = true) (hs : st.minData ≤ st.samples + 1) (parts : List (List (List Bool)))
    (hp : List.Forall₂ (Built Mixed) st.clusters parts) (hlen : ∀ c ∈ st.clusters, c.data.length = b.length) (hne : st.clusters ≠ []) :
    ∃ i, ∃ hi : i < st.clusters.length, ∃ hl : parts.length = st.clusters.length, ∃ c' st',
      st.clusters[i].addSample b = .ok c' ∧ Built Mixed c' (parts[i] ++ [b]) ∧
      st.classify ⟨hammingScore, fun a b => decide (a < b), mdist, less⟩ b = .ok (st.clusters[i].uid, st') ∧
      st'.clusters = st.clusters.set i c' ∧ st'.samples = st.samples + 1 ∧
      (∀ j, (hj : j < st.clusters.length) → diffCount b (anyOnes b.length parts[i]) ≤ diffCount b (anyOnes b.length parts[j])) ∧
      ∀ j, (hj : j < i) → diffCount b (anyOnes b.length parts[i]) < diffCount b (anyOnes b.length parts[j]) := by
  rw [classify_choose _ st b hin hs]
  obtain ⟨i, hi, hl, c', h1, h2, h3, h4⟩ := choose_first ⟨hammingScore, fun a b => decide (a < b), mdist, less⟩ (by simp)
    { st with samples := st.samples + 1 } b (fun s => diffCount b (anyOnes b.length s)) parts hp hlen hne
    (fun c s bs hc => by rw [← hc]; exact hammingScore_ok bs hc.symm)
  obtain ⟨s, hs1, bs⟩ := forall₂_getElem? hp (List.getElem?_eq_getElem hi)
  have hl' : parts.length = st.clusters.length := hl
  have hi' : i < st.clusters.length := hi
  rw [List.getElem?_eq_getElem (by omega)] at hs1
  rw [← Option.some.inj hs1] at bs
  exact ⟨i, hi, hl, c', _, h1, .add _ _ _ _ bs h1, h2, rfl, rfl, h3, h4⟩

/-- C39 for the log-likelihood metric: the first cluster with the largest mean clipped log-likelihood of the buffer under
the relative frequencies of its samples. -/
theorem c39_log_likelihood {δ : Type} (mdist : Cluster → Cluster → Except PyErr δ) (less : δ → δ → Bool) (st : Classifier) (b : List Bool)
    (hin : st.init = true) (hs : st.minData ≤ st.samples + 1) (parts : List (List (List Bool)))
    (hp : List.Forall₂ (Built Mixed) st.clusters parts) (hlen : ∀ c ∈ st.clusters, c.data.length = b.length) (hne : st.clusters ≠ [])
    (gt : ℝ → ℝ → Bool) (hgt : ∀ x y, gt x y = true ↔ x > y) :
    ∃ i, ∃ hi : i < st.clusters.length, ∃ hl : parts.length = st.clusters.length, ∃ c' st',
      st.clusters[i].addSample b = .ok c' ∧ Built Mixed c' (parts[i] ++ [b]) ∧
      st.classify ⟨llScore, gt, mdist, less⟩ b = .ok (st.clusters[i].uid, st') ∧
      st'.clusters = st.clusters.set i c' ∧ st'.samples = st.samples + 1 ∧
      (∀ j, (hj : j < st.clusters.length) → logLik b parts[j] ≤ logLik b parts[i]) ∧
      ∀ j, (hj : j < i) → logLik b parts[j] < logLik b parts[i] := by
  rw [classify_choose _ st b hin hs]
  obtain ⟨i, hi, hl, c', h1, h2, h3, h4⟩ := @choose_first ℝ δ (OrderDual.instLinearOrder ℝ) ⟨llScore, gt, mdist, less⟩ hgt
    { st with samples := st.samples + 1 } b (fun s => logLik b s) parts hp hlen hne
    (fun c s bs hc => llScore_ok bs hc.symm)
  obtain ⟨s, hs1, bs⟩ := forall₂_getElem? hp (List.getElem?_eq_getElem hi)
  have hl' : parts.length = st.clusters.length := hl
  have hi' : i < st.clusters.length := hi
  rw [List.getElem?_eq_getElem (by omega)] at hs1
  rw [← Option.some.inj hs1] at bs
  exact ⟨i, hi, hl, c', _, h1, .add _ _ _ _ bs h1, h2, rfl, rfl, h3, h4⟩

/-- C39: the call ending the training phase first merges and then does the same. -/
theorem c39_first_call {μ δ : Type} (m : Metrics μ δ) (st : Classifier) (b : List Bool) (hin : st.init = false)
    (hs : st.minData ≤ st.samples + 1) (cs : List Cluster) (hm : mergeClusters m st.k st.clusters = .ok cs) :
    st.classify m b = ({ st with clusters := cs, init := true } : Classifier).classify m b := by
  rw [classify_choose m { st with clusters := cs, init := true } b rfl hs]
  unfold Classifier.classify
  rw [if_neg (by push_cast; omega)]
  simp only [Classifier.ready, hin, hm, bind, Except.bind]
  rfl

/-- C39: every state reached by a sequence of calls with non-constant training buffers of length `L` meets the hypotheses of
the two theorems above, once the training phase is over. -/
theorem c39_reachable {μ δ : Type} (m : Metrics μ δ) (minData k : Int) (L : Nat) (bufs : List (List Bool)) (ls : List Int) (st : Classifier)
    (hlen : ∀ b ∈ bufs, b.length = L) (hmix : ∀ (i : Nat) b, (i : Int) < minData - 1 → bufs[i]? = some b → Mixed b)
    (hne : bufs ≠ []) (hmin : minData ≤ bufs.length) (h : classifyAll m { minData := minData, k := k } bufs = .ok (ls, st)) :
    st.init = true ∧ st.minData ≤ st.samples + 1 ∧ st.clusters ≠ [] ∧ (∀ c ∈ st.clusters, c.data.length = L) ∧
      ∃ parts, List.Forall₂ (Built Mixed) st.clusters parts ∧ parts.flatten.Perm bufs := by
  obtain ⟨i1, i2, i3, i4⟩ := classifyAll_inv m Mixed minData k _ st [] bufs ls (clsInv_new _ minData k)
    (fun i b hlt hb => hmix i b (by simp at hlt; omega) hb) h
  simp only [List.nil_append] at i1
  obtain ⟨hin, _⟩ := i4 hne (by simpa using hmin)
  obtain ⟨parts, hp, hperm⟩ := i1.parts
  refine ⟨hin, ?_, (i1.ready hin).2.2.2, parts_length hp fun b hb => hlen b (hperm.mem_iff.1 hb), parts, hp, hperm⟩
  rw [i1.hmin, i1.samples]
  omega

/-! ### C70 -/

/-- C70: while there are more than `k` clusters, the pair merged is the first one, in lexicographic order of positions, with
the smallest weighted distance; the later cluster of the pair is removed and added to the earlier one, everything else stays. -/
theorem c70_merge_closest {μ δ : Type} [LinearOrder δ] (m : Metrics μ δ) (hless : ∀ a b, m.less a b = true ↔ a < b)
    (f : Cluster → Cluster → δ) (pair : Option (Nat × Nat)) (cs : List Cluster)
    (hf : ∀ c ∈ cs, ∀ d ∈ cs, m.mdist c d = .ok (f c d)) (h2 : 2 ≤ cs.length) (pr : Nat × Nat) (cs' : List Cluster)
    (h : mergeStep m pair cs = .ok (pr, cs')) :
    ∃ hi : pr.1 < pr.2, ∃ hj : pr.2 < cs.length,
      (∀ i j, (hij : i < j) → (hjl : j < cs.length) → f cs[pr.1] cs[pr.2] ≤ f cs[i] cs[j] ∧
        (i < pr.1 ∨ (i = pr.1 ∧ j < pr.2) → f cs[pr.1] cs[pr.2] < f cs[i] cs[j])) ∧
      ∃ e, cs[pr.1].merge cs[pr.2] = .ok e ∧ cs' = (cs.eraseIdx pr.2).set pr.1 e := by
  obtain ⟨h1, h3, ⟨v, hv⟩, c, d, e, hc, hd, he, hcs⟩ := mergeStep_spec m pair cs pr cs' h2 h
  refine ⟨h1, h3, ?_, e, ?_, hcs⟩
  · let g : Nat × Nat → δ := fun p => if hp : p.1 < cs.length ∧ p.2 < cs.length then f cs[p.1] cs[p.2] else
      f (cs[pr.1]'(by omega)) cs[pr.2]
    have hg : ∀ i j, (hij : i < j) → (hjl : j < cs.length) → g (i, j) = f cs[i] cs[j] := by
      intro i j hij hjl
      simp only [g]
      rw [dif_pos ⟨by omega, hjl⟩]
    obtain ⟨q, hq, b1, b2, b3⟩ := pickBest_first (m.pairDist cs) m.less hless g (pairs cs.length) (by
      rintro ⟨i, j⟩ hij
      rw [mem_pairs] at hij
      unfold Metrics.pairDist
      simp only [List.getElem?_eq_getElem (by omega : i < cs.length), List.getElem?_eq_getElem hij.2]
      rw [hg i j hij.1 hij.2]
      exact hf _ (List.getElem_mem _) _ (List.getElem_mem _)) (by
        intro hnil
        rw [pairs_eq_nil] at hnil
        omega)
    rw [hv] at b1
    injection b1 with b1
    injection b1 with b1
    injection b1 with _ b1
    have hgp : g (pairs cs.length)[q] = f cs[pr.1] cs[pr.2] := by
      rw [← b1]; exact hg pr.1 pr.2 h1 h3
    intro i j hij hjl
    obtain ⟨r, hr, er⟩ := List.getElem_of_mem (mem_pairs.2 ⟨hij, hjl⟩)
    constructor
    · have := b2 r hr
      rw [hgp, er, hg i j hij hjl] at this
      exact this
    · intro hlex
      have hrq : r < q := by
        have hord : (pairs cs.length).Pairwise fun a b => a.1 < b.1 ∨ (a.1 = b.1 ∧ a.2 < b.2) := by
          unfold pairs
          rw [List.pairwise_flatMap]
          constructor
          · intro a _
            rw [List.pairwise_map]
            apply List.Pairwise.imp _ (List.Pairwise.drop List.pairwise_lt_range)
            intro x y hxy
            exact Or.inr ⟨rfl, hxy⟩
          · apply List.Pairwise.imp _ List.pairwise_lt_range
            intro x y hxy a ha b hb
            obtain ⟨_, _, rfl⟩ := List.mem_map.1 ha
            obtain ⟨_, _, rfl⟩ := List.mem_map.1 hb
            exact Or.inl hxy
        by_contra hge
        rcases Nat.lt_or_eq_of_le (Nat.le_of_not_lt hge) with hlt | heq
        · have := List.pairwise_iff_getElem.1 hord q r hq hr hlt
          rw [er, ← b1] at this
          simp only at this
          omega
        · subst heq
          rw [er] at b1
          rw [b1] at hlex
          simp at hlex
      have := b3 r hrq
      rw [hgp, er, hg i j hij hjl] at this
      exact this
  · rw [List.getElem?_eq_getElem (by omega)] at hc hd
    rw [Option.some.inj hc, Option.some.inj hd]
    exact he

/-! ### Concrete runs -/

/-- Hamming classification with merge distance 0. -/
def demoMetrics : Metrics Nat Nat := ⟨hammingScore, fun a b => decide (a < b), fun _ _ => .ok 0, fun a b => decide (a < b)⟩

example : (classifyAll demoMetrics { minData := 4, k := 2 }
    [[true, false, false], [true, false, false], [false, false, true], [false, false, true], [true, true, false]]).map (·.1) =
    .ok [-1, -1, -1, 1, 0] := by decide +kernel

/-- The hypotheses of `c38_returns` hold for it. -/
example : Returns (classifyAll demoMetrics { minData := 3, k := 2 } [[true, false], [false, true], [true, true]]) :=
  c38_returns demoMetrics 3 2 (by decide) (by decide) 2 (fun _ _ _ _ _ _ _ _ => ⟨0, rfl⟩)
    (fun c s b hb hc hl => ⟨_, hammingScore_ok hb (hl.trans hc.symm)⟩) _ (by simp) (by
      intro i b hi hb
      match i with
      | 0 => simp at hb; subst hb; exact ⟨by simp, by simp⟩
      | 1 => simp at hb; subst hb; exact ⟨by simp, by simp⟩
      | i + 2 => exfalso; push_cast at hi; omega)

end NR
