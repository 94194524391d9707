import Verif.Props.C133
/-
C133, continued: a classifier trained with buffers of one length settles. Constant buffers among them, whose clusters have one column only, are allowed.
-/
namespace NR.C133
open NR NR.Spec

/-- A cluster of buffers of length `L` with one column or two. -/
def Shaped (L : Nat) (c : Cluster) : Prop := c.data.length = L ∧ ((∀ r ∈ c.data, r.length = 1) ∨ ∀ r ∈ c.data, r.length = 2)

/-- A cluster of buffers of length `L` with two columns. -/
def Wide (L : Nat) (c : Cluster) : Prop := c.data.length = L ∧ ∀ r ∈ c.data, r.length = 2

/-- What the theorem below needs of the metrics. Both ways to classify have it, with both distances for merging. -/
structure Settling {μ δ : Type} (m : Metrics μ δ) : Prop where
  usual : Usual m
  dist : ∀ L c d, Shaped L c → Shaped L d → Returns (m.mdist c d)
  score : ∀ L c b, Wide L c → b.length = L → Returns (m.score b c)

/-! ### The metrics of the code -/

theorem bcast_shaped {α : Type} (p q : List α) (hp : p.length = 1 ∨ p.length = 2) (hq : q.length = 1 ∨ q.length = 2) : Returns (bcast p q) := by
  unfold bcast
  split
  · exact ⟨_, rfl⟩
  · match p, q, hp, hq with
    | [x], q, _, _ => exact ⟨_, rfl⟩
    | [x, y], [z], _, _ => exact ⟨_, rfl⟩
    | [x, y], [z, w], _, _ => rename_i h; exact absurd rfl h

theorem dist_rows {L : Nat} {c : Cluster} (h : Shaped L c) : ∀ p ∈ c.dist, p.length = 1 ∨ p.length = 2 := by
  intro p hp
  obtain ⟨r, hr, rfl⟩ := List.mem_map.1 hp
  rcases h.2 with h | h
  · exact .inl (by simpa using h r hr)
  · exact .inr (by simpa using h r hr)

theorem shaped_dist (md : MergeDist) (w : Weight) (L : Nat) (c d : Cluster) (hc : Shaped L c) (hd : Shaped L d) :
    Returns (MergeDist.of md w c d) := by
  have hL : c.data.length = d.data.length := hc.1.trans hd.1.symm
  have hrow : ∀ pq ∈ c.dist.zip d.dist, (pq.1.length = 1 ∨ pq.1.length = 2) ∧ (pq.2.length = 1 ∨ pq.2.length = 2) := by
    rintro ⟨p, q⟩ h
    exact ⟨dist_rows hc p (List.of_mem_zip h).1, dist_rows hd q (List.of_mem_zip h).2⟩
  cases md with
  | hellinger =>
    change Returns (hellingerMerge w c d)
    unfold hellingerMerge
    rw [if_neg (by simpa using hL)]
    obtain ⟨r, hr⟩ := mapM_ok (fun pq : List ℚ × List ℚ => do
      let (p, q) ← bcast (pq.1.map fun (x : ℚ) => (x : ℝ)) (pq.2.map fun (x : ℚ) => (x : ℝ))
      .ok (hellingerVec p q)) (c.dist.zip d.dist) (by
        intro pq h
        obtain ⟨h1, h2⟩ := hrow pq h
        obtain ⟨x, hx⟩ := bcast_shaped (pq.1.map fun (x : ℚ) => (x : ℝ)) (pq.2.map fun (x : ℚ) => (x : ℝ)) (by simpa using h1) (by simpa using h2)
        rw [hx]
        exact ⟨_, rfl⟩)
    rw [hr]
    exact ⟨_, rfl⟩
  | klDiv =>
    change Returns (klDist w c d)
    unfold klDist
    rw [if_neg (by simpa using hL)]
    have hkl : ∀ p q : List ℝ, (p.length = 1 ∨ p.length = 2) → (q.length = 1 ∨ q.length = 2) → Returns (scipyKL p q 2) := by
      intro p q hp hq
      obtain ⟨x, hx⟩ := bcast_shaped (p.map fun x => x / p.sum) q (by simpa using hp) hq
      unfold scipyKL
      rw [hx]
      exact ⟨_, rfl⟩
    obtain ⟨r, hr⟩ := mapM_ok (fun pq : List ℚ × List ℚ => do
      let a ← scipyKL (pq.1.map fun (x : ℚ) => (x : ℝ)) (pq.2.map fun (x : ℚ) => (x : ℝ)) 2
      let b ← scipyKL (pq.2.map fun (x : ℚ) => (x : ℝ)) (pq.1.map fun (x : ℚ) => (x : ℝ)) 2
      .ok (clipE 0 10 (a + b))) (c.dist.zip d.dist) (by
        intro pq h
        obtain ⟨h1, h2⟩ := hrow pq h
        obtain ⟨x, hx⟩ := hkl (pq.1.map fun (x : ℚ) => (x : ℝ)) (pq.2.map fun (x : ℚ) => (x : ℝ)) (by simpa using h1) (by simpa using h2)
        obtain ⟨y, hy⟩ := hkl (pq.2.map fun (x : ℚ) => (x : ℝ)) (pq.1.map fun (x : ℚ) => (x : ℝ)) (by simpa using h2) (by simpa using h1)
        rw [hx]
        simp only [bind, Except.bind, hy]
        exact ⟨_, rfl⟩)
    rw [hr]
    exact ⟨_, rfl⟩

theorem column_wide {α : Type} (j : Nat) (hj : j < 2) (d : List (List α)) (h : ∀ r ∈ d, r.length = 2) : Returns (column j d) := by
  refine mapM_ok _ d fun r hr => ?_
  rw [List.getElem?_eq_getElem (by rw [h r hr]; exact hj)]
  exact ⟨_, rfl⟩

theorem dist_wide {c : Cluster} (h : ∀ r ∈ c.data, r.length = 2) : ∀ p ∈ c.dist, p.length = 2 := by
  intro p hp
  obtain ⟨r, hr, rfl⟩ := List.mem_map.1 hp
  simpa using h r hr

theorem ll_wide (L : Nat) (c : Cluster) (b : List Bool) (h : Wide L c) (hb : b.length = L) : Returns (llScore b c) := by
  obtain ⟨p1, h1⟩ := column_wide 1 (by decide) c.dist (dist_wide h.2)
  obtain ⟨p0, h0⟩ := column_wide 0 (by decide) c.dist (dist_wide h.2)
  unfold llScore
  simp only [h1, h0, bind, Except.bind]
  rw [if_neg (by rw [h.1]; simpa using hb)]
  exact ⟨_, rfl⟩

theorem ham_wide (L : Nat) (c : Cluster) (b : List Bool) (h : Wide L c) (hb : b.length = L) : Returns (hammingScore b c) := by
  obtain ⟨p1, h1⟩ := column_wide 1 (by decide) c.data h.2
  obtain ⟨p0, h0⟩ := column_wide 0 (by decide) c.dist (dist_wide h.2)
  have l1 := (column_returns h1).1
  have l0 := (column_returns h0).1
  have lc : c.dist.length = c.data.length := by simp [Cluster.dist]
  unfold hammingScore Cluster.hardBits
  simp only [h1, h0, bind, Except.bind]
  unfold hammingDistance
  simp only [toBits, bind, Except.bind]
  rw [if_pos (by
    have := h.1
    simp only [List.length_map, List.length_zipWith]
    omega)]
  exact ⟨_, rfl⟩

/-- C133. The log-likelihood with both distances for merging. -/
theorem c133_settling_log_likelihood (better : ℝ → ℝ → Bool) (md : MergeDist) (w : Weight) (less : ℝ → ℝ → Bool) :
    Settling { score := llScore, better := better, mdist := MergeDist.of md w, less := less } :=
  ⟨c133_log_likelihood better md w less, shaped_dist md w, ll_wide⟩

/-- C133. The Hamming distance with both distances for merging. -/
theorem c133_settling_hamming (better : Nat → Nat → Bool) (md : MergeDist) (w : Weight) (less : ℝ → ℝ → Bool) :
    Settling { score := hammingScore, better := better, mdist := MergeDist.of md w, less := less } :=
  ⟨c133_hamming better md w less, shaped_dist md w, ham_wide⟩

/-! ### Merging -/

theorem mapM_mem {α β : Type} (f : α → Except PyErr β) : ∀ (l : List α) (r : List β), l.mapM f = .ok r → ∀ y ∈ r, ∃ x ∈ l, f x = .ok y
  | [], r, h => by
    cases h; simp
  | x :: l, r, h => by
    rw [List.mapM_cons] at h
    cases hx : f x with
    | error e => rw [hx] at h; cases h
    | ok y =>
      rw [hx] at h
      cases hl : l.mapM f with
      | error e => simp only [hl, bind, Except.bind] at h; cases h
      | ok ys =>
        simp only [hl, bind, Except.bind, pure, Except.pure] at h
        have ih := mapM_mem f l ys hl
        cases h
        intro z hz
        rcases List.mem_cons.1 hz with rfl | hz
        · exact ⟨x, List.mem_cons_self, hx⟩
        · obtain ⟨w, hw, he⟩ := ih z hz
          exact ⟨w, List.mem_cons_of_mem _ hw, he⟩

theorem mergeRow_length {r1 r2 r : List Int} (h : mergeRow r1 r2 = .ok r) : r.length = r1.length := by
  unfold mergeRow at h
  split at h
  · next he => cases h; rw [List.length_zipWith, he]; simp
  · split at h
    · cases h; simp
    · cases h

theorem merge_shaped {L : Nat} {c d e : Cluster} (hc : Shaped L c) (h : c.merge d = .ok e) : Shaped L e := by
  have hl := merge_length h
  unfold Cluster.merge at h
  rw [if_neg (by simpa using hl)] at h
  cases hm : (c.data.zip d.data).mapM fun rs => mergeRow rs.1 rs.2 with
  | error e => rw [hm] at h; cases h
  | ok r =>
    rw [hm] at h
    cases h
    refine ⟨?_, ?_⟩
    · change r.length = L
      rw [(mapM_returns _ _ _ hm).1, List.length_zip, ← hl, Nat.min_self]
      exact hc.1
    · have key : ∀ x ∈ r, ∃ y ∈ c.data, x.length = y.length := by
        intro x hx
        obtain ⟨⟨y, z⟩, hyz, he⟩ := mapM_mem _ _ _ hm x hx
        exact ⟨y, (List.of_mem_zip hyz).1, mergeRow_length he⟩
      rcases hc.2 with h | h
      · refine .inl fun x hx => ?_
        obtain ⟨y, hy, he⟩ := key x hx
        rw [he, h y hy]
      · refine .inr fun x hx => ?_
        obtain ⟨y, hy, he⟩ := key x hx
        rw [he, h y hy]

theorem mergeStepS_shaped {μ δ : Type} {m : Metrics μ δ} (hm : Settling m) {L : Nat} (pair : Option (Nat × Nat)) (cs : List Cluster)
    (hS : ∀ c ∈ cs, Shaped L c) (h2 : 2 ≤ cs.length) :
    (∀ c ∈ (mergeStepS m pair cs).1, Shaped L c) ∧ (mergeStepS m pair cs).1.length + 1 = cs.length := by
  obtain ⟨best, hb⟩ : Returns (pickBest (m.pairDist cs) m.less (pairs cs.length) none) := by
    apply pickBest_ok
    rintro ⟨i, j⟩ hij
    rw [mem_pairs] at hij
    unfold Metrics.pairDist
    rw [List.getElem?_eq_getElem (by omega : i < cs.length), List.getElem?_eq_getElem hij.2]
    exact hm.dist L _ _ (hS _ (List.getElem_mem _)) (hS _ (List.getElem_mem _))
  obtain ⟨p1, p2⟩ := pickBest_mem _ _ _ _ _ hb
  unfold mergeStepS
  rw [hb]
  cases best with
  | none =>
    have := (p1 rfl).1
    rw [pairs_eq_nil] at this
    omega
  | some vp =>
    obtain ⟨v, i, j⟩ := vp
    have hmem : (i, j) ∈ pairs cs.length := by simpa using p2 v (i, j) rfl
    rw [mem_pairs] at hmem
    have hi : i < cs.length := by omega
    have hj : cs[j]? = some cs[j] := List.getElem?_eq_getElem hmem.2
    have hi' : (cs.eraseIdx j)[i]? = some (cs[i]) := by
      rw [List.getElem?_eraseIdx_of_lt hmem.1, List.getElem?_eq_getElem]
    have hlen : (cs.eraseIdx j).length + 1 = cs.length := by
      rw [List.length_eraseIdx_of_lt hmem.2]
      omega
    have hsub : ∀ c ∈ cs.eraseIdx j, Shaped L c := fun c hc => hS c (List.mem_of_mem_eraseIdx hc)
    simp only [hj, hi']
    cases hmg : cs[i].merge cs[j] with
    | error e => exact ⟨hsub, hlen⟩
    | ok e =>
      refine ⟨fun c hc => ?_, by rw [List.length_set]; exact hlen⟩
      rcases List.mem_or_eq_of_mem_set hc with hc | rfl
      · exact hsub c hc
      · exact merge_shaped (hS _ (List.getElem_mem hi)) hmg

theorem mergeLoopS_shaped {μ δ : Type} {m : Metrics μ δ} (hm : Settling m) {L : Nat} (k : Int) (hk : 1 ≤ k) :
    ∀ (fuel : Nat) (pair : Option (Nat × Nat)) (cs : List Cluster), (∀ c ∈ cs, Shaped L c) →
    (∀ c ∈ (mergeLoopS m k fuel pair cs).1, Shaped L c) ∧
      (cs ≠ [] → (mergeLoopS m k fuel pair cs).1 ≠ []) ∧
      (∀ e, (mergeLoopS m k fuel pair cs).2 = .error e →
        (mergeLoopS m k fuel pair cs).1.length < cs.length ∧ k ≤ (mergeLoopS m k fuel pair cs).1.length)
  | 0, _, cs, hS => ⟨hS, fun h => h, fun e h => by cases h⟩
  | fuel + 1, pair, cs, hS => by
    unfold mergeLoopS
    by_cases hl : (cs.length : Int) > k
    · rw [if_pos hl]
      obtain ⟨s1, s2⟩ := mergeStepS_shaped hm pair cs hS (by omega)
      cases hst : mergeStepS m pair cs with
      | mk cs1 r =>
        rw [hst] at s1 s2
        simp only at s1 s2
        have hne1 : cs1 ≠ [] := fun h => by
          rw [h] at s2
          simp at s2
          omega
        cases r with
        | error e => exact ⟨s1, fun _ => hne1, fun _ _ => ⟨by simp only; omega, by simp only; omega⟩⟩
        | ok p =>
          obtain ⟨i1, i2, i3⟩ := mergeLoopS_shaped hm k hk fuel (some p) cs1 s1
          exact ⟨i1, fun _ => i2 hne1, fun e he => ⟨by have := (i3 e he).1; simp only at *; omega, (i3 e he).2⟩⟩
    · rw [if_neg hl]
      exact ⟨hS, fun h => h, fun e h => by cases h⟩

/-! ### Choosing -/

theorem addRow_length {x : Bool} {r r' : List Int} (h : addRow x r = .ok r') : r'.length = r.length := by
  match r, h with
  | z :: o :: rest, h => cases h; rfl

theorem add_wide {L : Nat} {c : Cluster} (hc : Wide L c) {b : List Bool} (hb : b.length = L) : ∃ c', c.addSample b = .ok c' ∧ Wide L c' := by
  have hl : b.length = c.data.length := hb.trans hc.1.symm
  have hr := rows_ok c.data b hl fun r hr => (hc.2 r hr).ge
  refine ⟨_, by unfold Cluster.addSample; rw [if_neg (by simpa using hl), hr]; rfl, ?_, ?_⟩
  · have := (mapM_returns _ _ _ hr).1
    rw [List.length_zip, hl, Nat.min_self] at this
    exact this.trans hc.1
  · intro x hx
    obtain ⟨⟨y, z⟩, hyz, he⟩ := mapM_mem _ _ _ hr x hx
    rw [addRow_length he]
    exact hc.2 y (List.of_mem_zip hyz).1

theorem pick_wide {μ δ : Type} {m : Metrics μ δ} (hm : Settling m) {L : Nat} {cs : List Cluster} (hne : cs ≠ []) (hw : ∀ c ∈ cs, Wide L c)
    {b : List Bool} (hb : b.length = L) : ∃ l cs', pick m cs b = .ok (l, cs') ∧ cs' ≠ [] ∧ ∀ c ∈ cs', Wide L c := by
  obtain ⟨best, hbest⟩ : Returns (pickBest (fun ci : Cluster × Nat => m.score b ci.1) m.better cs.zipIdx none) := by
    apply pickBest_ok
    rintro ⟨c, i⟩ hci
    exact hm.score L c b (hw c (List.fst_mem_of_mem_zipIdx hci)) hb
  obtain ⟨p1, p2⟩ := pickBest_mem _ _ _ _ _ hbest
  cases best with
  | none =>
    have := (p1 rfl).1
    rw [List.zipIdx_eq_nil_iff] at this
    exact absurd this hne
  | some v =>
    obtain ⟨s, c, i⟩ := v
    have hmem : (c, i) ∈ cs.zipIdx := by simpa using p2 s (c, i) rfl
    have hc : c ∈ cs := List.fst_mem_of_mem_zipIdx hmem
    obtain ⟨c', ha, hw'⟩ := add_wide (hw c hc) hb
    refine ⟨c.uid, cs.set i c', ?_, ?_, ?_⟩
    · unfold pick
      rw [hbest]
      simp only [bind, Except.bind, ha]
    · intro h
      exact hne (List.length_eq_zero_iff.1 (by rw [← List.length_set (as := cs) (i := i) (a := c'), h]; rfl))
    · intro x hx
      rcases List.mem_or_eq_of_mem_set hx with hx | rfl
      · exact hw x hx
      · exact hw'

theorem wide_run {μ δ : Type} {m : Metrics μ δ} (hm : Settling m) {L : Nat} : ∀ (later : List (List Bool)) (st : Classifier),
    st.minData ≤ st.samples + 1 → st.init = true → st.clusters ≠ [] → (∀ c ∈ st.clusters, Wide L c) → (∀ b ∈ later, b.length = L) →
    ∀ r ∈ (calls m st later).2, ∃ l, r = .ok l
  | [], _, _, _, _, _, _ => by simp [calls]
  | b :: later, st, hs, hi, hne, hw, hb => by
    obtain ⟨l, cs', h1, h2, h3⟩ := pick_wide hm hne hw (hb b List.mem_cons_self)
    have hstep := step_ok hs (cs := st.clusters) (by unfold readyCs; rw [if_pos hi]) h1
    intro r hr
    unfold calls at hr
    simp only [hstep] at hr
    rcases List.mem_cons.1 hr with rfl | hr
    · exact ⟨l, rfl⟩
    · exact wide_run hm later (next st cs') (by simp only [next]; push_cast; omega) rfl h2 h3
        (fun b' h' => hb b' (List.mem_cons_of_mem _ h')) r hr

/-! ### The whole history -/

theorem settle_run {μ δ : Type} {m : Metrics μ δ} (hm : Settling m) {L : Nat} (hL : L ≠ 0) : ∀ (later : List (List Bool)) (st : Classifier),
    st.minData ≤ st.samples + 1 → st.init = false → 1 ≤ st.k → st.clusters ≠ [] → (∀ c ∈ st.clusters, Shaped L c) → (∀ b ∈ later, b.length = L) →
    ∃ rs₁ rs₂, (calls m st later).2 = rs₁ ++ rs₂ ∧ (rs₁.length : Int) ≤ max 0 (st.clusters.length - st.k) ∧ (∀ r ∈ rs₁, ∃ e, r = .error e) ∧
      ((∀ r ∈ rs₂, ∃ e, r = .error e) ∨ ∀ r ∈ rs₂, ∃ l, r = .ok l)
  | [], _, _, _, _, _, _, _ => ⟨[], [], rfl, by simp, by simp, .inl (by simp)⟩
  | b :: later, st, hs, hi, hk, hne, hS, hb => by
    have hin : ¬ st.init = true := by rw [hi]; simp
    obtain ⟨l1, l2, l3⟩ := mergeLoopS_shaped hm st.k hk (st.clusters.length + 1) none st.clusters hS
    cases hml : mergeLoopS m st.k (st.clusters.length + 1) none st.clusters with
    | mk cs1 r =>
      rw [hml] at l1 l2 l3
      cases r with
      | error e =>
        obtain ⟨e1, e2⟩ := l3 e rfl
        simp only at e1 e2
        have hstep : st.classifyS m b = ({ st with samples := st.samples + 1, clusters := cs1 }, .error e) := by
          unfold Classifier.classifyS
          simp only
          rw [if_neg (by push_cast; omega)]
          unfold Classifier.readyS
          rw [if_neg hin]
          simp only [hml]
        obtain ⟨rs₁, rs₂, h1, h2, h3, h4⟩ := settle_run hm hL later { st with samples := st.samples + 1, clusters := cs1 }
          (by simp only; push_cast; omega) hi hk (l2 hne) l1 fun b' h' => hb b' (List.mem_cons_of_mem _ h')
        refine ⟨.error e :: rs₁, rs₂, ?_, ?_, ?_, h4⟩
        · unfold calls
          simp only [hstep, h1, List.cons_append]
        · simp only [List.length_cons] at h2 ⊢
          push_cast
          omega
        · intro r hr
          rcases List.mem_cons.1 hr with rfl | hr
          · exact ⟨e, rfl⟩
          · exact h3 r hr
      | ok u =>
        refine ⟨[], (calls m st (b :: later)).2, rfl, by simp, by simp, ?_⟩
        have hrc : readyCs m st = .ok (cs1.mapIdx fun i c => { c with uid := (i : Int) }) := by
          unfold readyCs mergeClusters
          rw [if_neg hin, (mergeLoopS_eq m st.k _ none st.clusters).1 cs1 hml]
          rfl
        have hdata := renumber_data cs1
        generalize hcs : (cs1.mapIdx fun i c => { c with uid := (i : Int) }) = cs at hrc hdata
        have hcne : cs ≠ [] := by
          intro h
          rw [h] at hdata
          exact l2 hne (List.map_eq_nil_iff.1 hdata.symm)
        have hcS : ∀ c ∈ cs, Shaped L c := by
          intro c hc
          have : c.data ∈ cs1.map (·.data) := hdata ▸ List.mem_map_of_mem hc
          obtain ⟨c', hc', he⟩ := List.mem_map.1 this
          have := l1 c' hc'
          unfold Shaped at this ⊢
          rwa [he] at this
        by_cases hw : ∀ c ∈ cs, Wide L c
        · right
          obtain ⟨l, cs', h1, h2, h3⟩ := pick_wide hm hcne hw (hb b List.mem_cons_self)
          have hstep := step_ok hs hrc h1
          intro r hr
          unfold calls at hr
          simp only [hstep] at hr
          rcases List.mem_cons.1 hr with rfl | hr
          · exact ⟨l, rfl⟩
          · exact wide_run hm later (next st cs') (by simp only [next]; push_cast; omega) rfl h2 h3
              (fun b' h' => hb b' (List.mem_cons_of_mem _ h')) r hr
        · left
          push Not at hw
          obtain ⟨c, hc, hnw⟩ := hw
          obtain ⟨s1, s2⟩ := hcS c hc
          have hnar : ∀ r ∈ c.data, r.length = 1 := s2.resolve_right fun h => hnw ⟨s1, h⟩
          obtain ⟨row, hrow⟩ : ∃ row, row ∈ c.data := List.exists_mem_of_ne_nil _ fun h => hL (by rw [← s1, h]; rfl)
          obtain ⟨e, he⟩ : ∃ e, pick m cs b = .error e := by
            refine pick_raises hc fun h => ?_
            have := (hm.usual.needs b c h).2 row hrow
            rw [hnar row hrow] at this
            omega
          have hstep := step_error hm.usual hs hrc he
          obtain ⟨_, i2⟩ := stuck_forever (narrow_stuck hm.usual) later (next st cs) (by simp only [next]; push_cast; omega)
            ⟨⟨c.data, List.mem_map_of_mem hc, row, hrow, by rw [hnar row hrow]; decide⟩, .inl rfl⟩
          intro r hr
          unfold calls at hr
          simp only [hstep] at hr
          rcases List.mem_cons.1 hr with rfl | hr
          · exact ⟨e, rfl⟩
          · exact i2 r hr

/-- **C133.** A classifier trained with buffers of one length settles, whatever the buffers: while clusters have to be merged at most one call for
each cluster too many raises; from then on either all calls raise or none does. -/
theorem c133_settles {μ δ : Type} (m : Metrics μ δ) (hm : Settling m) (minData k : Int) (hk : 1 ≤ k) (L : Nat) (hL : 2 ≤ L)
    (train later : List (List Bool)) (hlen : (train.length : Int) + 1 = minData) (hne : train ≠ []) (hb : ∀ b ∈ train ++ later, b.length = L) :
    ∃ rs₁ rs₂, (calls m { minData := minData, k := k } (train ++ later)).2 = List.replicate train.length (.ok (-1)) ++ (rs₁ ++ rs₂) ∧
      (rs₁.length : Int) ≤ max 0 (train.length - k) ∧ (∀ r ∈ rs₁, ∃ e, r = .error e) ∧
      ((∀ r ∈ rs₂, ∃ e, r = .error e) ∨ ∀ r ∈ rs₂, ∃ l, r = .ok l) := by
  have hne' : ∀ b ∈ train, b ≠ [] := fun b h e => by
    have := hb b (by simp [h])
    rw [e] at this
    simp at this
    omega
  obtain ⟨cs, h1, h2⟩ := training m train { minData := minData, k := k } hne' (by push_cast; simp; omega)
  have hl := h2.length_eq
  have hS : ∀ c ∈ cs, Shaped L c := by
    intro c hc
    obtain ⟨i, hi, rfl⟩ := List.getElem_of_mem hc
    have hst := (List.forall₂_iff_get.1 h2).2 i hi (by omega)
    have hmem : train.get ⟨i, by omega⟩ ∈ train := List.get_mem _ _
    have hbl := hb _ (List.mem_append_left later hmem)
    refine ⟨(start_length hst (hne' _ hmem)).trans hbl, ?_⟩
    rcases mixed_or (train.get ⟨i, by omega⟩) with hx | hx
    · exact .inr (start_wide hst hx)
    · exact .inl (start_narrow hst (hne' _ hmem) hx)
  have hcne : cs ≠ [] := fun h => hne (List.length_eq_zero_iff.1 (by rw [← hl, h]; rfl))
  obtain ⟨rs₁, rs₂, r1, r2, r3, r4⟩ := settle_run hm (L := L) (by omega) later (calls m { minData := minData, k := k } train).1
    (by rw [h1]; simp; omega) (by rw [h1]) (by rw [h1]; exact hk) (by rw [h1]; simpa using hcne) (by rw [h1]; simpa using hS)
    fun b h => hb b (by simp [h])
  refine ⟨rs₁, rs₂, ?_, ?_, r3, r4⟩
  · rw [calls_append, h1] at *
    rw [← r1]
  · rw [h1] at r2
    simpa [hl] using r2

/-- A constant buffer and three mixed ones to be merged into two clusters. -/
example (later : List (List Bool)) (h : ∀ b ∈ later, b.length = 3) :
    ∃ rs₁ rs₂, (calls hamming { minData := 5, k := 2 } ([[false, false, false], [true, false, false], [true, true, false], [false, true, true]] ++ later)).2 =
      List.replicate 4 (.ok (-1)) ++ (rs₁ ++ rs₂) ∧ rs₁.length ≤ 2 ∧ (∀ r ∈ rs₁, ∃ e, r = .error e) ∧
      ((∀ r ∈ rs₂, ∃ e, r = .error e) ∨ ∀ r ∈ rs₂, ∃ l, r = .ok l) := by
  obtain ⟨rs₁, rs₂, h1, h2, h3⟩ := c133_settles hamming (c133_settling_hamming _ _ _ _) 5 2 (by norm_num) 3 (by norm_num)
    [[false, false, false], [true, false, false], [true, true, false], [false, true, true]] later (by simp) (by simp) (by
      intro b hb
      rcases List.mem_append.1 hb with hb | hb
      · simp at hb
        rcases hb with rfl | rfl | rfl | rfl <;> rfl
      · exact h b hb)
  refine ⟨rs₁, rs₂, h1, ?_, h3⟩
  simp at h2
  omega

end NR.C133
