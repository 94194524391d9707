import Verif.Model.ClassifierState
import Verif.Props.C38_C39
import Verif.Props.C100
/-
C133: a buffer classifier after calls that raise.
-/
namespace NR.C133
open NR NR.Spec

/-- Calls of `classify` one after the other, whether they return or raise: the classifier afterwards and what each call gave. -/
def calls {μ δ : Type} (m : Metrics μ δ) : Classifier → List (List Bool) → Classifier × List (Except PyErr Int)
  | st, [] => (st, [])
  | st, b :: bs =>
    let r := st.classifyS m b
    let rs := calls m r.1 bs
    (rs.1, r.2 :: rs.2)

/-- What a call gave, with the classifier if it returned. -/
def outcome {α : Type} : Classifier × Except PyErr α → Except PyErr (α × Classifier)
  | (st, .ok l) => .ok (l, st)
  | (_, .error e) => .error e

/-! ### The model agrees with that of the values returned -/

theorem addRow_some (x : Bool) (r : List Int) (h : 2 ≤ r.length) : addRow x r = .ok (bumpAt 1 (bumpAt 0 r (!x)) x) := by
  match r, h with
  | z :: o :: rest, _ => cases x <;> rfl

theorem addRow_none (x : Bool) (r : List Int) (h : r.length < 2) : addRow x r = .error .indexError := by
  match r, h with
  | [], _ => rfl
  | [z], _ => rfl

theorem bumpAt_length (j : Nat) (r : List Int) (x : Bool) : (bumpAt j r x).length = r.length := by simp [bumpAt]

theorem rows_ok : ∀ (d : List (List Int)) (b : List Bool), b.length = d.length → (∀ r ∈ d, 2 ≤ r.length) →
    (d.zip b).mapM (fun rx => addRow rx.2 rx.1) =
      .ok (List.zipWith (bumpAt 1) (List.zipWith (bumpAt 0) d (b.map (! ·))) b)
  | [], [], _, _ => rfl
  | r :: d, x :: b, h, hr => by
    rw [List.zip_cons_cons, List.mapM_cons, addRow_some x r (hr r List.mem_cons_self),
      rows_ok d b (by simpa using h) fun r' h' => hr r' (List.mem_cons_of_mem _ h')]
    rfl

theorem rows_error : ∀ (d : List (List Int)) (b : List Bool), b.length = d.length → (∃ r ∈ d, r.length < 2) →
    (d.zip b).mapM (fun rx => addRow rx.2 rx.1) = .error .indexError
  | [], _, _, ⟨_, h, _⟩ => absurd h (by simp)
  | r :: d, x :: b, h, hr => by
    rw [List.zip_cons_cons, List.mapM_cons]
    by_cases h2 : r.length < 2
    · rw [addRow_none x r h2]; rfl
    · rw [addRow_some x r (by omega), rows_error d b (by simpa using h) (by
        obtain ⟨r', h', h3⟩ := hr
        rcases List.mem_cons.1 h' with rfl | h'
        · exact absurd h3 h2
        · exact ⟨r', h', h3⟩)]
      rfl

theorem any_zip (f : List Int → Bool → List Int) (n : Nat) (hf : ∀ r x, (f r x).length = r.length) : ∀ (d : List (List Int))
    (b : List Bool), b.length = d.length → (List.zipWith f d b).any (fun r => decide (r.length < n)) = d.any fun r => decide (r.length < n)
  | [], [], _ => rfl
  | r :: d, x :: b, h => by
    rw [List.zipWith_cons_cons, List.any_cons, List.any_cons, hf, any_zip f n hf d b (by simpa using h)]

/-- `addSampleS` gives what `addSample` gives. -/
theorem addSampleS_eq (c : Cluster) (b : List Bool) :
    (match c.addSampleS b with
      | (c', .ok ()) => (.ok c' : Except PyErr Cluster)
      | (_, .error e) => .error e) = c.addSample b := by
  unfold Cluster.addSampleS Cluster.addSample
  by_cases hL : b.length ≠ c.data.length
  · rw [if_pos hL, if_pos hL]
  · rw [if_neg hL, if_neg hL]
    have hL : b.length = c.data.length := not_not.1 hL
    have e := any_zip (bumpAt 0) 2 (bumpAt_length 0) c.data (b.map (! ·)) (by simpa using hL)
    by_cases h1 : (c.data.any fun r => decide (r.length < 1)) = true
    · rw [if_pos h1]
      rw [List.any_eq_true] at h1
      obtain ⟨r, hr, hlt⟩ := h1
      rw [rows_error c.data b hL ⟨r, hr, by have := of_decide_eq_true hlt; omega⟩]; rfl
    · rw [if_neg h1]
      simp only [e]
      by_cases h2 : (c.data.any fun r => decide (r.length < 2)) = true
      · rw [if_pos h2]
        rw [List.any_eq_true] at h2
        obtain ⟨r, hr, hlt⟩ := h2
        rw [rows_error c.data b hL ⟨r, hr, of_decide_eq_true hlt⟩]; rfl
      · rw [if_neg h2, rows_ok c.data b hL (by
          intro r hr
          by_contra hc
          exact h2 (List.any_eq_true.2 ⟨r, hr, decide_eq_true (by omega)⟩))]
        rfl

theorem addSampleS_ok {c c' : Cluster} {b : List Bool} (h : c.addSampleS b = (c', .ok ())) : c.addSample b = .ok c' := by
  rw [← addSampleS_eq, h]

theorem addSampleS_error {c c' : Cluster} {b : List Bool} {e : PyErr} (h : c.addSampleS b = (c', .error e)) : c.addSample b = .error e := by
  rw [← addSampleS_eq, h]

theorem mergeStepS_ok {μ δ : Type} {m : Metrics μ δ} {pair : Option (Nat × Nat)} {cs cs' : List Cluster} {p : Nat × Nat}
    (h : mergeStepS m pair cs = (cs', .ok p)) : mergeStep m pair cs = .ok (p, cs') := by
  unfold mergeStepS at h
  unfold mergeStep
  cases hb : pickBest (m.pairDist cs) m.less (pairs cs.length) none with
  | error e => rw [hb] at h; cases h
  | ok best =>
    rw [hb] at h
    simp only [bind, Except.bind] at h ⊢
    rcases best with _ | ⟨v, i, j⟩
    · rcases pair with _ | ⟨i, j⟩
      · cases h
      · simp only at h ⊢
        cases hj : cs[j]? with
        | none => rw [hj] at h; cases h
        | some c =>
          simp only [hj] at h ⊢
          cases hi : (cs.eraseIdx j)[i]? with
          | none => rw [hi] at h; cases h
          | some d =>
            simp only [hi] at h ⊢
            cases hm : d.merge c with
            | error e => rw [hm] at h; cases h
            | ok e => rw [hm] at h; cases h; rfl
    · simp only at h ⊢
      cases hj : cs[j]? with
      | none => rw [hj] at h; cases h
      | some c =>
        simp only [hj] at h ⊢
        cases hi : (cs.eraseIdx j)[i]? with
        | none => rw [hi] at h; cases h
        | some d =>
          simp only [hi] at h ⊢
          cases hm : d.merge c with
          | error e => rw [hm] at h; cases h
          | ok e => rw [hm] at h; cases h; rfl

theorem mergeStepS_error {μ δ : Type} {m : Metrics μ δ} {pair : Option (Nat × Nat)} {cs cs' : List Cluster} {e : PyErr}
    (h : mergeStepS m pair cs = (cs', .error e)) : mergeStep m pair cs = .error e := by
  unfold mergeStepS at h
  unfold mergeStep
  cases hb : pickBest (m.pairDist cs) m.less (pairs cs.length) none with
  | error e => rw [hb] at h; cases h; rfl
  | ok best =>
    rw [hb] at h
    simp only [bind, Except.bind] at h ⊢
    rcases best with _ | ⟨v, i, j⟩
    · rcases pair with _ | ⟨i, j⟩
      · cases h; rfl
      · simp only at h ⊢
        cases hj : cs[j]? with
        | none => rw [hj] at h; cases h; rfl
        | some c =>
          simp only [hj] at h ⊢
          cases hi : (cs.eraseIdx j)[i]? with
          | none => rw [hi] at h; cases h; rfl
          | some d =>
            simp only [hi] at h ⊢
            cases hm : d.merge c with
            | error e => rw [hm] at h; cases h; rfl
            | ok e => rw [hm] at h; cases h
    · simp only at h ⊢
      cases hj : cs[j]? with
      | none => rw [hj] at h; cases h; rfl
      | some c =>
        simp only [hj] at h ⊢
        cases hi : (cs.eraseIdx j)[i]? with
        | none => rw [hi] at h; cases h; rfl
        | some d =>
          simp only [hi] at h ⊢
          cases hm : d.merge c with
          | error e => rw [hm] at h; cases h; rfl
          | ok e => rw [hm] at h; cases h

theorem mergeLoopS_eq {μ δ : Type} (m : Metrics μ δ) (k : Int) : ∀ (fuel : Nat) (pair : Option (Nat × Nat)) (cs : List Cluster),
    (∀ cs', mergeLoopS m k fuel pair cs = (cs', .ok ()) → mergeLoop m k fuel pair cs = .ok cs') ∧
    (∀ cs' e, mergeLoopS m k fuel pair cs = (cs', .error e) → mergeLoop m k fuel pair cs = .error e)
  | 0, pair, cs => by
    refine ⟨fun cs' h => ?_, fun cs' e h => ?_⟩
    · cases h; rfl
    · cases h
  | fuel + 1, pair, cs => by
    unfold mergeLoopS mergeLoop
    by_cases hk : (cs.length : Int) > k
    · rw [if_pos hk, if_pos hk]
      cases hs : mergeStepS m pair cs with
      | mk cs1 r =>
        cases r with
        | error e =>
          rw [mergeStepS_error hs]
          exact ⟨fun cs' h => (by cases h), fun cs' e' h => (by cases h; rfl)⟩
        | ok p =>
          rw [mergeStepS_ok hs]
          exact mergeLoopS_eq m k fuel (some p) cs1
    · rw [if_neg hk, if_neg hk]
      exact ⟨fun cs' h => (by cases h; rfl), fun cs' e h => (by cases h)⟩

theorem readyS_ok {μ δ : Type} {m : Metrics μ δ} {st st' : Classifier} (h : st.readyS m = (st', .ok ())) : st.ready m = .ok st' := by
  unfold Classifier.readyS at h
  unfold Classifier.ready
  by_cases hi : st.init = true
  · rw [if_pos hi] at h; rw [if_pos hi]; cases h; rfl
  · rw [if_neg hi] at h; rw [if_neg hi]
    unfold mergeClusters
    cases hm : mergeLoopS m st.k (st.clusters.length + 1) none st.clusters with
    | mk cs r =>
      rw [hm] at h
      cases r with
      | error e => cases h
      | ok u =>
        rw [(mergeLoopS_eq m st.k _ none st.clusters).1 cs hm]
        simp only at h
        cases h; rfl

theorem readyS_error {μ δ : Type} {m : Metrics μ δ} {st st' : Classifier} {e : PyErr} (h : st.readyS m = (st', .error e)) :
    st.ready m = .error e := by
  unfold Classifier.readyS at h
  unfold Classifier.ready
  by_cases hi : st.init = true
  · rw [if_pos hi] at h; cases h
  · rw [if_neg hi] at h; rw [if_neg hi]
    unfold mergeClusters
    cases hm : mergeLoopS m st.k (st.clusters.length + 1) none st.clusters with
    | mk cs r =>
      rw [hm] at h
      cases r with
      | error e => rw [(mergeLoopS_eq m st.k _ none st.clusters).2 cs e hm]; simp only at h; cases h; rfl
      | ok u => simp only at h; cases h

theorem chooseS_eq {μ δ : Type} (m : Metrics μ δ) (st : Classifier) (b : List Bool) : outcome (st.chooseS m b) = st.choose m b := by
  unfold Classifier.chooseS Classifier.choose
  cases hb : pickBest (fun ci : Cluster × Nat => m.score b ci.1) m.better st.clusters.zipIdx none with
  | error e => rfl
  | ok best =>
    cases best with
    | none => rfl
    | some v =>
      obtain ⟨s, c, i⟩ := v
      simp only [bind, Except.bind]
      cases ha : c.addSampleS b with
      | mk c' r =>
        cases r with
        | error e => rw [addSampleS_error ha]; rfl
        | ok u => rw [addSampleS_ok ha]; rfl

/-- A call gives what C38 and C39 are about. -/
theorem c133_same {μ δ : Type} (m : Metrics μ δ) (st : Classifier) (b : List Bool) : outcome (st.classifyS m b) = st.classify m b := by
  unfold Classifier.classifyS Classifier.classify
  simp only
  by_cases h : (((st.samples + 1 : Nat)) : Int) < st.minData
  · rw [if_pos h, if_pos h]
    cases prob (columnOf b) <;> rfl
  · rw [if_neg h, if_neg h]
    cases hr : Classifier.readyS m { st with samples := st.samples + 1 } with
    | mk st1 r =>
      cases r with
      | error e => rw [readyS_error hr]; rfl
      | ok u => rw [readyS_ok hr]; exact chooseS_eq m st1 b

/-! ### The metrics -/

/-- What the theorems below need of the metrics. Both ways to classify have it, with both distances for merging. -/
structure Usual {μ δ : Type} (m : Metrics μ δ) : Prop where
  near : ∀ c d s t, Built Mixed c s → Built Mixed d t → c.data.length = d.data.length → Returns (m.mdist c d)
  far : ∀ c d, c.data.length ≠ d.data.length → ¬ Returns (m.mdist c d)
  fits : ∀ c s b, Built Mixed c s → b.length = c.data.length → Returns (m.score b c)
  other : ∀ c s b, Built Mixed c s → b.length ≠ c.data.length → m.score b c = .error .valueError
  needs : ∀ b c, Returns (m.score b c) → b.length = c.data.length ∧ ∀ r ∈ c.data, 2 ≤ r.length

theorem mapM_returns {α β : Type} (f : α → Except PyErr β) : ∀ (l : List α) (r : List β), l.mapM f = .ok r → r.length = l.length ∧ ∀ x ∈ l, Returns (f x)
  | [], r, h => by
    cases h; exact ⟨rfl, by simp⟩
  | x :: l, r, h => by
    rw [List.mapM_cons] at h
    cases hx : f x with
    | error e => rw [hx] at h; cases h
    | ok y =>
      rw [hx] at h
      cases hl : l.mapM f with
      | error e => simp only [hl, bind, Except.bind] at h; cases h
      | ok ys =>
        simp only [hl, bind, Except.bind, pure, Except.pure] at h
        obtain ⟨i1, i2⟩ := mapM_returns f l ys hl
        cases h
        refine ⟨by simp [i1], fun z hz => ?_⟩
        rcases List.mem_cons.1 hz with rfl | hz
        · exact ⟨y, hx⟩
        · exact i2 z hz

theorem column_returns {α : Type} {j : Nat} {d : List (List α)} {r : List α} (h : column j d = .ok r) :
    r.length = d.length ∧ ∀ row ∈ d, j < row.length := by
  obtain ⟨h1, h2⟩ := mapM_returns _ _ _ h
  refine ⟨h1, fun row hr => ?_⟩
  obtain ⟨x, hx⟩ := h2 row hr
  by_contra hc
  rw [List.getElem?_eq_none (by omega)] at hx
  cases hx

theorem ll_needs (b : List Bool) (c : Cluster) (h : Returns (llScore b c)) : b.length = c.data.length ∧ ∀ r ∈ c.data, 2 ≤ r.length := by
  obtain ⟨x, h⟩ := h
  unfold llScore at h
  cases h1 : column 1 c.dist with
  | error e => simp only [h1, bind, Except.bind] at h; cases h
  | ok p1 =>
    cases h0 : column 0 c.dist with
    | error e => simp only [h1, h0, bind, Except.bind] at h; cases h
    | ok p0 =>
      simp only [h1, h0, bind, Except.bind] at h
      by_cases hb : b.length ≠ c.data.length
      · rw [if_pos hb] at h; cases h
      · refine ⟨not_not.1 hb, fun r hr => ?_⟩
        have := (column_returns h1).2 _ (List.mem_map_of_mem hr)
        rw [List.length_map] at this; simp at this; omega

theorem ham_needs (b : List Bool) (c : Cluster) (h : Returns (hammingScore b c)) :
    b.length = c.data.length ∧ ∀ r ∈ c.data, 2 ≤ r.length := by
  obtain ⟨x, h⟩ := h
  unfold hammingScore Cluster.hardBits at h
  cases h1 : column 1 c.data with
  | error e => simp only [h1, bind, Except.bind] at h; cases h
  | ok p1 =>
    cases h0 : column 0 c.dist with
    | error e => simp only [h1, h0, bind, Except.bind] at h; cases h
    | ok p0 =>
      simp only [h1, h0, bind, Except.bind] at h
      have hl0 : p0.length = c.data.length := by rw [(column_returns h0).1]; simp [Cluster.dist]
      have hl1 := (column_returns h1).1
      refine ⟨?_, fun r hr => (column_returns h1).2 r hr⟩
      unfold hammingDistance at h
      simp only [toBits, bind, Except.bind] at h
      split at h
      · rename_i he
        rw [he]
        simp [hl0, hl1]
      · cases h

theorem ll_other {c : Cluster} {s : List (List Bool)} (h : Built Mixed c s) {b : List Bool} (hb : b.length ≠ c.data.length) :
    llScore b c = .error .valueError := by
  obtain ⟨y, hy⟩ : Returns (llScore (List.replicate c.data.length true) c) := ⟨_, llScore_ok h (by simp)⟩
  unfold llScore at hy ⊢
  cases h1 : column 1 c.dist with
  | error e => simp only [h1, bind, Except.bind] at hy; cases hy
  | ok p1 =>
    cases h0 : column 0 c.dist with
    | error e => simp only [h1, h0, bind, Except.bind] at hy; cases hy
    | ok p0 => simp only [bind, Except.bind]; rw [if_pos hb]

theorem ham_other {c : Cluster} {s : List (List Bool)} (h : Built Mixed c s) {b : List Bool} (hb : b.length ≠ c.data.length) :
    hammingScore b c = .error .valueError := by
  unfold hammingScore
  have hl := hardBits_ok h
  cases hh : c.hardBits with
  | error e => rw [hh] at hl; cases hl
  | ok hs =>
    have hlen : hs.length = c.data.length := by
      rw [hh] at hl
      have := Except.ok.inj hl
      rw [this]; simp
    simp only [bind, Except.bind, hammingDistance, toBits]
    rw [if_neg (by simpa [hlen] using hb)]

/-- Classification by log-likelihood. -/
theorem c133_log_likelihood (better : ℝ → ℝ → Bool) (md : MergeDist) (w : Weight) (less : ℝ → ℝ → Bool) :
    Usual { score := llScore, better := better, mdist := MergeDist.of md w, less := less } where
  near := fun c d s t hc hd hL => by
    obtain ⟨x, hx, _⟩ := c100_distance md w c d s t hc hd hL
    exact ⟨x, hx⟩
  far := fun c d hL ⟨x, hx⟩ => by
    have := c100_length md w c d hL
    exact absurd (hx.symm.trans this) (by simp)
  fits := fun c s b h hb => ⟨_, llScore_ok h hb⟩
  other := fun c s b h hb => ll_other h hb
  needs := ll_needs

/-- Classification by Hamming distance. -/
theorem c133_hamming (better : Nat → Nat → Bool) (md : MergeDist) (w : Weight) (less : ℝ → ℝ → Bool) :
    Usual { score := hammingScore, better := better, mdist := MergeDist.of md w, less := less } where
  near := fun c d s t hc hd hL => by
    obtain ⟨x, hx, _⟩ := c100_distance md w c d s t hc hd hL
    exact ⟨x, hx⟩
  far := fun c d hL ⟨x, hx⟩ => by
    have := c100_length md w c d hL
    exact absurd (hx.symm.trans this) (by simp)
  fits := fun c s b h hb => ⟨_, hammingScore_ok h hb⟩
  other := fun c s b h hb => ham_other h hb
  needs := ham_needs

/-! ### One call after training -/

theorem pickBest_all {α μ : Type} (score : α → Except PyErr μ) (better : μ → μ → Bool) : ∀ (l : List α) (best : Option (μ × α)),
    Returns (pickBest score better l best) → ∀ x ∈ l, Returns (score x)
  | [], _, _ => by simp
  | y :: l, best, h => by
    unfold pickBest at h
    cases hs : score y with
    | error e => simp only [hs, bind, Except.bind] at h; obtain ⟨_, h⟩ := h; cases h
    | ok s =>
      simp only [hs, bind, Except.bind] at h
      intro x hx
      rcases List.mem_cons.1 hx with rfl | hx
      · exact ⟨s, hs⟩
      · cases best with
        | none => exact pickBest_all score better l _ h x hx
        | some b =>
          obtain ⟨bm, bx⟩ := b
          simp only at h
          split at h
          · exact pickBest_all score better l _ h x hx
          · exact pickBest_all score better l _ h x hx

/-- The clusters among which the next call after training chooses. -/
def readyCs {μ δ : Type} (m : Metrics μ δ) (st : Classifier) : Except PyErr (List Cluster) :=
  if st.init then .ok st.clusters else mergeClusters m st.k st.clusters

/-- The choice among them. -/
def pick {μ δ : Type} (m : Metrics μ δ) (cs : List Cluster) (b : List Bool) : Except PyErr (Int × List Cluster) := do
  let best ← pickBest (fun ci : Cluster × Nat => m.score b ci.1) m.better cs.zipIdx none
  match best with
  | none => .error .unboundLocalError
  | some (_, (c, i)) => do
    let c' ← c.addSample b
    .ok (c.uid, cs.set i c')

/-- The classifier after one more call that left the clusters `cs`. -/
def next (st : Classifier) (cs : List Cluster) : Classifier := { st with samples := st.samples + 1, clusters := cs, init := true }

theorem readyS_cs {μ δ : Type} {m : Metrics μ δ} {st : Classifier} {cs : List Cluster} (h : readyCs m st = .ok cs) :
    Classifier.readyS m { st with samples := st.samples + 1 } = (next st cs, .ok ()) := by
  unfold readyCs at h
  unfold Classifier.readyS
  by_cases hi : st.init = true
  · rw [if_pos hi] at h
    rw [if_pos hi]
    cases h
    unfold next
    rw [← hi]
  · rw [if_neg hi] at h
    rw [if_neg hi]
    unfold mergeClusters at h
    simp only
    cases hm : mergeLoopS m st.k (st.clusters.length + 1) none st.clusters with
    | mk cs1 r =>
      cases r with
      | error e =>
        rw [(mergeLoopS_eq m st.k _ none st.clusters).2 cs1 e hm] at h
        cases h
      | ok u =>
        rw [(mergeLoopS_eq m st.k _ none st.clusters).1 cs1 hm] at h
        cases h; rfl

/-- A call after training whose choice succeeds. -/
theorem step_ok {μ δ : Type} {m : Metrics μ δ} {st : Classifier} {cs cs' : List Cluster} {b : List Bool} {l : Int}
    (hs : st.minData ≤ st.samples + 1) (h : readyCs m st = .ok cs) (hp : pick m cs b = .ok (l, cs')) :
    st.classifyS m b = (next st cs', .ok l) := by
  unfold Classifier.classifyS
  simp only
  rw [if_neg (by push_cast; omega), readyS_cs h]
  simp only
  unfold Classifier.chooseS
  unfold pick at hp
  have e : (next st cs).clusters = cs := rfl
  rw [e]
  cases hb : pickBest (fun ci : Cluster × Nat => m.score b ci.1) m.better cs.zipIdx none with
  | error e => rw [hb] at hp; cases hp
  | ok best =>
    rw [hb] at hp
    cases best with
    | none => cases hp
    | some v =>
      obtain ⟨s, c, i⟩ := v
      simp only [bind, Except.bind] at hp ⊢
      cases ha : c.addSampleS b with
      | mk c' r =>
        cases r with
        | error e => rw [addSampleS_error ha] at hp; cases hp
        | ok u => rw [addSampleS_ok ha] at hp; cases hp; rfl

/-- A call after training whose choice raises leaves the clusters as they were before the choice. -/
theorem step_error {μ δ : Type} {m : Metrics μ δ} (hm : Usual m) {st : Classifier} {cs : List Cluster} {b : List Bool} {e : PyErr}
    (hs : st.minData ≤ st.samples + 1) (h : readyCs m st = .ok cs) (hp : pick m cs b = .error e) :
    st.classifyS m b = (next st cs, .error e) := by
  unfold Classifier.classifyS
  simp only
  rw [if_neg (by push_cast; omega), readyS_cs h]
  simp only
  unfold Classifier.chooseS
  unfold pick at hp
  have e : (next st cs).clusters = cs := rfl
  rw [e]
  cases hb : pickBest (fun ci : Cluster × Nat => m.score b ci.1) m.better cs.zipIdx none with
  | error e => rw [hb] at hp; cases hp; rfl
  | ok best =>
    rw [hb] at hp
    cases best with
    | none => cases hp; rfl
    | some v =>
      obtain ⟨s, c, i⟩ := v
      exfalso
      have hmem : (c, i) ∈ cs.zipIdx := by simpa using (pickBest_mem _ _ _ _ _ hb).2 s (c, i) rfl
      obtain ⟨hl, hr⟩ := hm.needs b c (pickBest_all _ _ _ _ ⟨_, hb⟩ (c, i) hmem)
      simp only [bind, Except.bind] at hp
      unfold Cluster.addSample at hp
      rw [if_neg (by simpa using hl), rows_ok c.data b hl hr] at hp
      cases hp

/-- **C133.** After training, a call that raises changes nothing but the number of calls. -/
theorem c133_unchanged {μ δ : Type} (m : Metrics μ δ) (hm : Usual m) (st st' : Classifier) (b : List Bool) (e : PyErr)
    (hi : st.init = true) (hs : st.minData ≤ st.samples) (h : st.classifyS m b = (st', .error e)) :
    st' = { st with samples := st.samples + 1 } := by
  have hr : readyCs m st = .ok st.clusters := by unfold readyCs; rw [if_pos hi]
  cases hp : pick m st.clusters b with
  | error e' =>
    rw [step_error hm (by omega) hr hp] at h
    cases h
    unfold next
    rw [← hi]
  | ok r =>
    obtain ⟨l, cs'⟩ := r
    rw [step_ok (by omega) hr hp] at h
    cases h

/-! ### Training -/

/-- `c` is the cluster made from the training buffer `b`. -/
def Start (c : Cluster) (b : List Bool) : Prop := ∃ dist uid, prob (columnOf b) = .ok dist ∧ c = Cluster.new dist uid

/-- All bits of the buffer are the same. -/
def Constant (b : List Bool) : Prop := ∃ x, ∀ y ∈ b, y = x

theorem mixed_or (b : List Bool) : Mixed b ∨ Constant b := by
  by_cases h1 : true ∈ b
  · by_cases h0 : false ∈ b
    · exact .inl ⟨h1, h0⟩
    · refine .inr ⟨true, fun y hy => ?_⟩
      cases y with
      | true => rfl
      | false => exact absurd hy h0
  · refine .inr ⟨false, fun y hy => ?_⟩
    cases y with
    | false => rfl
    | true => exact absurd hy h1

theorem prob_const {b : List Bool} (hb : Constant b) (hne : b ≠ []) : prob (columnOf b) = .ok (b.map fun _ => [1]) := by
  obtain ⟨x, hx⟩ := hb
  have e : b = List.replicate b.length x := List.eq_replicate_of_mem hx
  have h0 : 0 < b.length := List.length_pos_iff.2 hne
  rw [e, prob_constant b.length h0 x]
  simp

theorem start_exists {b : List Bool} (hne : b ≠ []) : ∃ dist, prob (columnOf b) = .ok dist ∧ dist.length = b.length := by
  rcases mixed_or b with h | h
  · exact ⟨_, prob_mixed h, by simp⟩
  · exact ⟨_, prob_const h hne, by simp⟩

theorem start_length {c : Cluster} {b : List Bool} (h : Start c b) (hne : b ≠ []) : c.data.length = b.length := by
  obtain ⟨dist, uid, hd, rfl⟩ := h
  obtain ⟨dist', hd', hl⟩ := start_exists hne
  rw [hd] at hd'
  cases hd'
  simp [Cluster.new, hl]

theorem start_const {c : Cluster} {b : List Bool} (h : Start c b) (hne : b ≠ []) (hb : Constant b) : ∃ r ∈ c.data, r.length < 2 := by
  obtain ⟨dist, uid, hd, rfl⟩ := h
  rw [prob_const hb hne] at hd
  cases hd
  obtain ⟨x, hx⟩ := List.exists_mem_of_ne_nil b hne
  refine ⟨_, List.mem_map_of_mem (List.mem_map_of_mem hx), by simp⟩

/-- The training calls return -1, and make one cluster per buffer. -/
theorem training {μ δ : Type} (m : Metrics μ δ) : ∀ (train : List (List Bool)) (st : Classifier), (∀ b ∈ train, b ≠ []) →
    ((st.samples + train.length : Nat) : Int) < st.minData →
    ∃ cs, calls m st train = ({ st with samples := st.samples + train.length, clusters := st.clusters ++ cs, nextUid := st.nextUid + train.length }, List.replicate train.length (.ok (-1))) ∧ List.Forall₂ Start cs train
  | [], st, _, _ => ⟨[], by simp [calls], .nil⟩
  | b :: train, st, hne, hlt => by
    obtain ⟨dist, hd, _⟩ := start_exists (hne b List.mem_cons_self)
    have hstep : st.classifyS m b = ({ st with samples := st.samples + 1, clusters := st.clusters ++ [Cluster.new dist st.nextUid], nextUid := st.nextUid + 1 }, .ok (-1)) := by
      unfold Classifier.classifyS
      simp only
      rw [if_pos (by simp only [List.length_cons] at hlt; push_cast at hlt ⊢; omega), hd]
    obtain ⟨cs, h1, h2⟩ := training m train { st with samples := st.samples + 1, clusters := st.clusters ++ [Cluster.new dist st.nextUid], nextUid := st.nextUid + 1 } (fun b' h' => hne b' (List.mem_cons_of_mem _ h'))
      (by simp only [List.length_cons] at hlt; push_cast at hlt ⊢; omega)
    refine ⟨Cluster.new dist st.nextUid :: cs, ?_, .cons ⟨dist, _, hd, rfl⟩ h2⟩
    unfold calls
    simp only [hstep, h1, List.length_cons, List.replicate_succ, List.append_assoc, List.cons_append, List.nil_append]
    congr 2 <;> omega

theorem calls_append {μ δ : Type} (m : Metrics μ δ) : ∀ (x y : List (List Bool)) (st : Classifier),
    calls m st (x ++ y) = ((calls m (calls m st x).1 y).1, (calls m st x).2 ++ (calls m (calls m st x).1 y).2)
  | [], _, _ => rfl
  | b :: x, y, st => by
    simp only [List.cons_append, calls, calls_append m x y]

/-! ### Buffers that spoil the training -/

theorem calls_length {μ δ : Type} (m : Metrics μ δ) : ∀ (bs : List (List Bool)) (st : Classifier), (calls m st bs).2.length = bs.length
  | [], _ => rfl
  | _ :: bs, st => by simp [calls, calls_length m bs]

/-- After training, every call keeps `P`, raises, and leaves the counts of the clusters as they are. -/
def Stuck {μ δ : Type} (m : Metrics μ δ) (P : Classifier → Prop) : Prop :=
  ∀ (st : Classifier) (b : List Bool), st.minData ≤ st.samples + 1 → P st →
    P (st.classifyS m b).1 ∧ (st.classifyS m b).1.clusters.map (·.data) = st.clusters.map (·.data) ∧
    (∃ e, (st.classifyS m b).2 = .error e) ∧ (st.classifyS m b).1.minData = st.minData ∧
      (st.classifyS m b).1.samples = st.samples + 1

theorem stuck_forever {μ δ : Type} {m : Metrics μ δ} {P : Classifier → Prop} (h : Stuck m P) : ∀ (bs : List (List Bool))
    (st : Classifier), st.minData ≤ st.samples + 1 → P st →
    (calls m st bs).1.clusters.map (·.data) = st.clusters.map (·.data) ∧ ∀ r ∈ (calls m st bs).2, ∃ e, r = .error e
  | [], _, _, _ => ⟨rfl, by simp [calls]⟩
  | b :: bs, st, hs, hP => by
    obtain ⟨h1, h2, h3, h4, h5⟩ := h st b hs hP
    obtain ⟨i1, i2⟩ := stuck_forever h bs (st.classifyS m b).1 (by rw [h4, h5]; push_cast; omega) h1
    unfold calls
    refine ⟨i1.trans h2, fun r hr => ?_⟩
    rcases List.mem_cons.1 hr with rfl | hr
    · exact h3
    · exact i2 r hr

theorem renumber_data (cs : List Cluster) : (cs.mapIdx fun i c => { c with uid := (i : Int) }).map (·.data) = cs.map (·.data) := by
  apply List.ext_getElem
  · simp
  · intro i h1 h2; simp

/-- A cluster that no buffer can be compared with makes every choice raise. -/
theorem pick_raises {μ δ : Type} {m : Metrics μ δ} {cs : List Cluster} {c : Cluster} (hc : c ∈ cs) {b : List Bool}
    (h : ¬ Returns (m.score b c)) : ∃ e, pick m cs b = .error e := by
  cases hb : pickBest (fun ci : Cluster × Nat => m.score b ci.1) m.better cs.zipIdx none with
  | error e => exact ⟨e, by unfold pick; rw [hb]; rfl⟩
  | ok best =>
    exfalso
    obtain ⟨i, hi, rfl⟩ := List.getElem_of_mem hc
    exact h (pickBest_all _ _ _ _ ⟨_, hb⟩ (cs[i], i) (by simp [List.mem_zipIdx_iff_getElem?]))

theorem mergeLoopS_small {μ δ : Type} {m : Metrics μ δ} {k : Int} {cs : List Cluster} (h : ¬ (cs.length : Int) > k) (fuel : Nat)
    (pair : Option (Nat × Nat)) : mergeLoopS m k fuel pair cs = (cs, .ok ()) := by
  cases fuel with
  | zero => rfl
  | succ n => unfold mergeLoopS; rw [if_neg h]

/-- Clusters of different lengths. -/
def Ragged (cs : List Cluster) : Prop := ∃ c ∈ cs, ∃ d ∈ cs, c.data.length ≠ d.data.length

theorem ragged_data {cs cs' : List Cluster} (h : cs'.map (·.data) = cs.map (·.data)) (hr : Ragged cs) : Ragged cs' := by
  obtain ⟨c, hc, d, hd, hne⟩ := hr
  have h1 : c.data ∈ cs'.map (·.data) := h ▸ List.mem_map_of_mem hc
  have h2 : d.data ∈ cs'.map (·.data) := h ▸ List.mem_map_of_mem hd
  obtain ⟨c', hc', e1⟩ := List.mem_map.1 h1
  obtain ⟨d', hd', e2⟩ := List.mem_map.1 h2
  exact ⟨c', hc', d', hd', by rw [e1, e2]; exact hne⟩

theorem ragged_best {μ δ : Type} {m : Metrics μ δ} (hm : Usual m) {cs : List Cluster} (hr : Ragged cs) :
    ∃ e, pickBest (m.pairDist cs) m.less (pairs cs.length) none = .error e := by
  cases hb : pickBest (m.pairDist cs) m.less (pairs cs.length) none with
  | error e => exact ⟨e, rfl⟩
  | ok best =>
    exfalso
    obtain ⟨c, hc, d, hd, hne⟩ := hr
    obtain ⟨i, hi, rfl⟩ := List.getElem_of_mem hc
    obtain ⟨j, hj, rfl⟩ := List.getElem_of_mem hd
    have key : ∀ i j (hi : i < cs.length) (hj : j < cs.length), i < j → cs[i].data.length ≠ cs[j].data.length → False := by
      intro i j hi hj hij hne
      have := pickBest_all _ _ _ _ ⟨_, hb⟩ (i, j) (mem_pairs.2 ⟨hij, hj⟩)
      unfold Metrics.pairDist at this
      simp only [List.getElem?_eq_getElem hi, List.getElem?_eq_getElem hj] at this
      exact hm.far _ _ hne this
    rcases Nat.lt_trichotomy i j with h | h | h
    · exact key i j hi hj h hne
    · subst h; exact hne rfl
    · exact key j i hj hi h hne.symm

/-- Nothing is merged any more: the clusters to choose from have the counts of those there are. -/
theorem ready_same {μ δ : Type} (m : Metrics μ δ) {st : Classifier} (hi : st.init = true ∨ ¬ ((st.clusters.length : Int) > st.k)) :
    ∃ cs, readyCs m st = .ok cs ∧ cs.map (·.data) = st.clusters.map (·.data) := by
  unfold readyCs
  by_cases hin : st.init = true
  · rw [if_pos hin]; exact ⟨_, rfl, rfl⟩
  · rw [if_neg hin]
    have hk := hi.resolve_left hin
    unfold mergeClusters
    rw [(mergeLoopS_eq m st.k _ none st.clusters).1 _ (mergeLoopS_small hk _ none)]
    exact ⟨_, rfl, renumber_data _⟩

theorem ragged_stuck {μ δ : Type} {m : Metrics μ δ} (hm : Usual m) : Stuck m fun st => Ragged st.clusters := by
  intro st b hs hr
  by_cases hi : st.init = true ∨ ¬ ((st.clusters.length : Int) > st.k)
  · obtain ⟨cs, hc, hd⟩ := ready_same m hi
    obtain ⟨c, hc1, d, hd1, hne⟩ := ragged_data hd hr
    obtain ⟨e, he⟩ : ∃ e, pick m cs b = .error e := by
      by_cases hb : b.length = c.data.length
      · exact pick_raises hd1 fun hc => hne (hb ▸ (hm.needs b d hc).1)
      · exact pick_raises hc1 fun hc => hb (hm.needs b c hc).1
    rw [step_error hm hs hc he]
    exact ⟨ragged_data hd hr, hd, ⟨e, rfl⟩, rfl, rfl⟩
  · have hin : ¬ st.init = true := fun h => hi (.inl h)
    have hk : (st.clusters.length : Int) > st.k := by
      by_contra h
      exact hi (.inr h)
    obtain ⟨e, he⟩ := ragged_best hm hr
    have hstep : st.classifyS m b = ({ st with samples := st.samples + 1 }, .error e) := by
      unfold Classifier.classifyS
      simp only
      rw [if_neg (by push_cast; omega)]
      unfold Classifier.readyS
      rw [if_neg hin]
      simp only
      unfold mergeLoopS
      rw [if_pos hk]
      unfold mergeStepS
      rw [he]
    rw [hstep]
    exact ⟨hr, rfl, ⟨e, rfl⟩, rfl, rfl⟩

theorem narrow_stuck {μ δ : Type} {m : Metrics μ δ} (hm : Usual m) : Stuck m fun st =>
    (∃ d ∈ st.clusters.map (·.data), ∃ r ∈ d, r.length < 2) ∧ (st.init = true ∨ ¬ ((st.clusters.length : Int) > st.k)) := by
  rintro st b hs ⟨hr, hi⟩
  obtain ⟨cs, hc, hd⟩ := ready_same m hi
  rw [← hd] at hr
  obtain ⟨d, hdm, r, hrd, hlt⟩ := hr
  obtain ⟨c, hcm, rfl⟩ := List.mem_map.1 hdm
  obtain ⟨e, he⟩ : ∃ e, pick m cs b = .error e := by
    refine pick_raises hcm fun hc => ?_
    have := (hm.needs b c hc).2 r hrd
    omega
  rw [step_error hm hs hc he]
  exact ⟨⟨⟨_, List.mem_map_of_mem hcm, r, hrd, hlt⟩, .inl rfl⟩, hd, ⟨e, rfl⟩, rfl, rfl⟩

/-- **C133.** Two training buffers of different lengths spoil a classifier for good: every call after the training raises, whatever
its buffer, and its clusters keep the counts of the training. Buffers of one bit are left out, numpy would broadcast them. -/
theorem c133_lengths {μ δ : Type} (m : Metrics μ δ) (hm : Usual m) (minData k : Int) (train later : List (List Bool))
    (hlen : (train.length : Int) + 1 = minData) (hne : ∀ b ∈ train ++ later, 2 ≤ b.length) (b b' : List Bool) (hb : b ∈ train)
    (hb' : b' ∈ train) (hd : b.length ≠ b'.length) :
    ∃ rs, (calls m { minData := minData, k := k } (train ++ later)).2 = List.replicate train.length (.ok (-1)) ++ rs ∧
      rs.length = later.length ∧ (∀ r ∈ rs, ∃ e, r = .error e) ∧
      (calls m { minData := minData, k := k } (train ++ later)).1.clusters.map (·.data) =
        (calls m { minData := minData, k := k } train).1.clusters.map (·.data) := by
  have hne' : ∀ b ∈ train, b ≠ [] := fun b hb h => by
    have := hne b (by simp [hb])
    rw [h] at this; simp at this
  obtain ⟨cs, h1, h2⟩ := training m train { minData := minData, k := k } hne' (by push_cast; simp; omega)
  have hr : Ragged cs := by
    obtain ⟨i, hi, rfl⟩ := List.getElem_of_mem hb
    obtain ⟨j, hj, rfl⟩ := List.getElem_of_mem hb'
    have hl := h2.length_eq
    have e1 := start_length ((List.forall₂_iff_get.1 h2).2 i (by omega) hi) (hne' _ hb)
    have e2 := start_length ((List.forall₂_iff_get.1 h2).2 j (by omega) hj) (hne' _ hb')
    refine ⟨_, List.get_mem cs ⟨i, by omega⟩, _, List.get_mem cs ⟨j, by omega⟩, ?_⟩
    rw [e1, e2]
    exact hd
  obtain ⟨i1, i2⟩ := stuck_forever (ragged_stuck hm) later (calls m { minData := minData, k := k } train).1
    (by rw [h1]; simp; omega) (by rw [h1]; simpa using hr)
  refine ⟨(calls m (calls m { minData := minData, k := k } train).1 later).2, ?_, calls_length m _ _, i2, ?_⟩
  · rw [calls_append, h1]
  · rw [calls_append]; exact i1

/-- **C133.** So does a constant training buffer if the clusters need not be merged. -/
theorem c133_constant {μ δ : Type} (m : Metrics μ δ) (hm : Usual m) (minData k : Int) (train later : List (List Bool))
    (hlen : (train.length : Int) + 1 = minData) (hk : (train.length : Int) ≤ k) (hne : ∀ b ∈ train ++ later, 2 ≤ b.length)
    (b : List Bool) (hb : b ∈ train) (hc : Constant b) :
    ∃ rs, (calls m { minData := minData, k := k } (train ++ later)).2 = List.replicate train.length (.ok (-1)) ++ rs ∧
      rs.length = later.length ∧ (∀ r ∈ rs, ∃ e, r = .error e) ∧
      (calls m { minData := minData, k := k } (train ++ later)).1.clusters.map (·.data) =
        (calls m { minData := minData, k := k } train).1.clusters.map (·.data) := by
  have hne' : ∀ b ∈ train, b ≠ [] := fun b hb h => by
    have := hne b (by simp [hb])
    rw [h] at this; simp at this
  obtain ⟨cs, h1, h2⟩ := training m train { minData := minData, k := k } hne' (by push_cast; simp; omega)
  have hl := h2.length_eq
  have hr : ∃ d ∈ cs.map (·.data), ∃ r ∈ d, r.length < 2 := by
    obtain ⟨i, hi, rfl⟩ := List.getElem_of_mem hb
    exact ⟨_, List.mem_map_of_mem (List.get_mem cs ⟨i, by omega⟩),
      start_const ((List.forall₂_iff_get.1 h2).2 i (by omega) hi) (hne' _ hb) hc⟩
  obtain ⟨i1, i2⟩ := stuck_forever (narrow_stuck hm) later (calls m { minData := minData, k := k } train).1
    (by rw [h1]; simp; omega) (by rw [h1]; exact ⟨by simpa using hr, .inr (by simp; omega)⟩)
  refine ⟨(calls m (calls m { minData := minData, k := k } train).1 later).2, ?_, calls_length m _ _, i2, ?_⟩
  · rw [calls_append, h1]
  · rw [calls_append]; exact i1

theorem mapM_ok {α β : Type} (f : α → Except PyErr β) : ∀ (l : List α), (∀ x ∈ l, Returns (f x)) → Returns (l.mapM f)
  | [], _ => ⟨[], rfl⟩
  | x :: l, h => by
    obtain ⟨y, hy⟩ := h x List.mem_cons_self
    obtain ⟨r, hr⟩ := mapM_ok f l fun z hz => h z (List.mem_cons_of_mem _ hz)
    exact ⟨y :: r, by rw [List.mapM_cons, hy, hr]; rfl⟩

/-- A cluster of a constant buffer has a distance to any other. -/
theorem narrow_dist (md : MergeDist) (w : Weight) (c d : Cluster) (hL : c.data.length = d.data.length) (hc : ∀ r ∈ c.data, r.length = 1) :
    Returns (MergeDist.of md w c d) := by
  have hrow : ∀ pq ∈ c.dist.zip d.dist, ∃ x, pq.1 = [x] := by
    rintro ⟨p, q⟩ h
    have hp := (List.of_mem_zip h).1
    obtain ⟨r, hr, rfl⟩ := List.mem_map.1 hp
    have := hc r hr
    match r, this with
    | [x], _ => exact ⟨_, rfl⟩
  cases md with
  | hellinger =>
    change Returns (hellingerMerge w c d)
    unfold hellingerMerge
    rw [if_neg (by simpa using hL)]
    obtain ⟨r, hr⟩ := mapM_ok (fun pq : List ℚ × List ℚ => do
      let (p, q) ← bcast (pq.1.map fun (x : ℚ) => (x : ℝ)) (pq.2.map fun (x : ℚ) => (x : ℝ))
      .ok (hellingerVec p q)) (c.dist.zip d.dist) (by
        intro pq h
        obtain ⟨x, hx⟩ := hrow pq h
        rw [hx]
        simp only [List.map_cons, List.map_nil]
        unfold bcast
        split <;> exact ⟨_, rfl⟩)
    rw [hr]
    exact ⟨_, rfl⟩
  | klDiv =>
    change Returns (klDist w c d)
    unfold klDist
    rw [if_neg (by simpa using hL)]
    obtain ⟨r, hr⟩ := mapM_ok (fun pq : List ℚ × List ℚ => do
      let a ← scipyKL (pq.1.map fun (x : ℚ) => (x : ℝ)) (pq.2.map fun (x : ℚ) => (x : ℝ)) 2
      let b ← scipyKL (pq.2.map fun (x : ℚ) => (x : ℝ)) (pq.1.map fun (x : ℚ) => (x : ℝ)) 2
      .ok (clipE 0 10 (a + b))) (c.dist.zip d.dist) (by
        intro pq h
        obtain ⟨x, hx⟩ := hrow pq h
        rw [hx]
        simp only [List.map_cons, List.map_nil]
        have h1 : Returns (scipyKL [(x : ℝ)] (pq.2.map fun (x : ℚ) => (x : ℝ)) 2) := by
          unfold scipyKL bcast
          split <;> exact ⟨_, rfl⟩
        have h2 : Returns (scipyKL (pq.2.map fun (x : ℚ) => (x : ℝ)) [(x : ℝ)] 2) := by
          unfold scipyKL bcast
          split
          · exact ⟨_, rfl⟩
          · split <;> first | exact ⟨_, rfl⟩ | skip
            rename_i h4
            exact (h4 _ rfl).elim
        obtain ⟨a, ha⟩ := h1
        obtain ⟨b, hb⟩ := h2
        rw [ha]
        simp only [bind, Except.bind]
        rw [hb]
        exact ⟨_, rfl⟩)
    rw [hr]
    exact ⟨_, rfl⟩

theorem start_narrow {c : Cluster} {b : List Bool} (h : Start c b) (hne : b ≠ []) (hb : Constant b) : ∀ r ∈ c.data, r.length = 1 := by
  obtain ⟨dist, uid, hd, rfl⟩ := h
  rw [prob_const hb hne] at hd
  cases hd
  intro r hr
  obtain ⟨r', hr', rfl⟩ := List.mem_map.1 hr
  obtain ⟨x, _, rfl⟩ := List.mem_map.1 hr'
  rfl

theorem start_wide {c : Cluster} {b : List Bool} (h : Start c b) (hb : Mixed b) : ∀ r ∈ c.data, r.length = 2 := by
  obtain ⟨dist, uid, hd, rfl⟩ := h
  rw [prob_mixed hb] at hd
  cases hd
  intro r hr
  obtain ⟨r', hr', rfl⟩ := List.mem_map.1 hr
  obtain ⟨x, _, rfl⟩ := List.mem_map.1 hr'
  split <;> rfl

theorem rows_differ : ∀ (x y : List (List Int)), x.length = y.length → x ≠ [] → (∀ r ∈ x, r.length = 1) → (∀ r ∈ y, r.length = 2) →
    (x.zip y).mapM (fun rs => mergeRow rs.1 rs.2) = .error .valueError
  | [], _, _, h, _, _ => absurd rfl h
  | r :: x, [], h, _, _, _ => by simp at h
  | r :: x, q :: y, _, _, h1, h2 => by
    have e1 := h1 r List.mem_cons_self
    have e2 := h2 q List.mem_cons_self
    match q, e2 with
    | [a, b], _ =>
      rw [List.zip_cons_cons, List.mapM_cons]
      have : mergeRow r [a, b] = .error .valueError := by
        unfold mergeRow
        rw [if_neg (by simp; omega)]
      rw [this]
      rfl

/-- **C133 fails** for training: a buffer can be lost. After a constant buffer and a mixed one of the same length, the first call with
one cluster left to make raises ValueError, whatever its buffer, and the mixed buffer is in no cluster afterwards. -/
theorem c133_lost_false {μ : Type} (score : List Bool → Cluster → Except PyErr μ) (better : μ → μ → Bool) (less : ℝ → ℝ → Bool)
    (md : MergeDist) (w : Weight) (b₁ b₂ b : List Bool) (hc : Constant b₁) (h2 : Mixed b₂) (hL : b₁.length = b₂.length) :
    let m : Metrics μ ℝ := { score := score, better := better, mdist := MergeDist.of md w, less := less }
    (calls m { minData := 3, k := 1 } [b₁, b₂, b]).2 = [.ok (-1), .ok (-1), .error .valueError] ∧
      (calls m { minData := 3, k := 1 } [b₁, b₂, b]).1.clusters = (calls m { minData := 3, k := 1 } [b₁]).1.clusters := by
  intro m
  have hn2 : b₂ ≠ [] := List.ne_nil_of_mem h2.1
  have hn1 : b₁ ≠ [] := fun h => hn2 (List.length_eq_zero_iff.1 (by rw [← hL, h]; rfl))
  obtain ⟨cs, h1, hcs⟩ := training m [b₁, b₂] { minData := 3, k := 1 } (by simp [hn1, hn2]) (by simp)
  obtain ⟨cs', h1', hcs'⟩ := training m [b₁] { minData := 3, k := 1 } (by simp [hn1]) (by simp)
  cases hcs with
  | cons s1 hcs =>
    cases hcs with
    | cons s2 hcs =>
      cases hcs
      rename_i c d
      have hcd : cs' = [c] := by
        have e : calls m { minData := 3, k := 1 } [b₁, b₂] = ((calls m (calls m { minData := 3, k := 1 } [b₁]).1 [b₂]).1, _) :=
          calls_append m [b₁] [b₂] _
        obtain ⟨cs'', h3, hcs''⟩ := training m [b₂] (calls m { minData := 3, k := 1 } [b₁]).1 (by simp [hn2]) (by rw [h1']; simp)
        rw [h1, h3] at e
        have e := congrArg (fun z => z.1.clusters) e
        simp only [h1', List.nil_append] at e
        have l1 := hcs'.length_eq
        have l2 := hcs''.length_eq
        match cs', l1 with
        | [x], _ =>
          have := congrArg List.head? e
          simp at this
          rw [this]
      have hlen : c.data.length = d.data.length := by rw [start_length s1 hn1, start_length s2 hn2, hL]
      have hw1 := start_narrow s1 hn1 hc
      have hw2 := start_wide s2 h2
      have hne : c.data ≠ [] := by
        intro h
        have := start_length s1 hn1
        rw [h] at this
        exact hn1 (List.length_eq_zero_iff.1 this.symm)
      obtain ⟨x, hx⟩ := narrow_dist md w c d hlen hw1
      have hmerge : c.merge d = .error .valueError := by
        unfold Cluster.merge
        rw [if_neg (by simpa using hlen), rows_differ _ _ hlen hne hw1 hw2]
        rfl
      have hbest : pickBest (m.pairDist [c, d]) m.less (pairs 2) none = .ok (some (x, (0, 1))) := by
        have : pairs 2 = [(0, 1)] := by decide
        rw [this]
        have e : m.pairDist [c, d] (0, 1) = .ok x := hx
        simp [pickBest, e, bind, Except.bind]
      have hstep : (calls m { minData := 3, k := 1 } [b₁, b₂]).1.classifyS m b =
          ({ minData := 3, k := 1, clusters := [c], nextUid := 2, samples := 3, init := false }, .error .valueError) := by
        rw [h1]
        unfold Classifier.classifyS
        simp only [List.length_cons, List.length_nil, List.nil_append]
        rw [if_neg (by simp)]
        unfold Classifier.readyS
        rw [if_neg (by simp)]
        simp only
        unfold mergeLoopS
        rw [if_pos (by simp)]
        unfold mergeStepS
        simp only [List.length_cons, List.length_nil, hbest]
        simp [hmerge]
      have e : calls m { minData := 3, k := 1 } [b₁, b₂, b] = _ := calls_append m [b₁, b₂] [b] _
      rw [e]
      simp only [calls] at hstep ⊢
      simp only [calls] at h1 h1'
      constructor
      · have := congrArg Prod.snd h1
        simp only [List.length_cons, List.length_nil] at this
        rw [this, hstep]
        rfl
      · rw [hstep]
        have := congrArg (fun z => z.1.clusters) h1'
        simp only [List.nil_append] at this
        rw [this, hcd]

/-! ### Recovery after a good training -/

/-- There are clusters, all of mixed buffers of length `L`. -/
def Good (L : Nat) (cs : List Cluster) : Prop := ∃ parts, Parts Mixed cs parts ∧ (∀ b ∈ parts.flatten, b.length = L) ∧ cs ≠ []

theorem pick_good {μ δ : Type} {m : Metrics μ δ} (hm : Usual m) {L : Nat} {cs : List Cluster} (hg : Good L cs) {b : List Bool}
    (hb : b.length = L) : ∃ l cs', pick m cs b = .ok (l, cs') ∧ Good L cs' := by
  obtain ⟨parts, hp, hl, hne⟩ := hg
  have hLc := parts_length hp hl
  obtain ⟨best, hbest⟩ := pickBest_ok (fun ci : Cluster × Nat => m.score b ci.1) m.better cs.zipIdx none (by
    rintro ⟨c, i⟩ hci
    have hc : c ∈ cs := List.mem_of_getElem? (List.mem_zipIdx_iff_getElem?.1 hci)
    obtain ⟨s, _, bs⟩ := parts_mem hp c hc
    exact hm.fits c s b bs (by rw [hLc c hc, hb]))
  obtain ⟨p1, p2⟩ := pickBest_mem _ _ _ _ _ hbest
  unfold pick
  rw [hbest]
  cases best with
  | none =>
    have := (p1 rfl).1
    simp at this
    exact absurd this hne
  | some v =>
    obtain ⟨s, c, i⟩ := v
    have hci : (c, i) ∈ cs.zipIdx := by simpa using p2 s (c, i) rfl
    have hgi := List.mem_zipIdx_iff_getElem?.1 hci
    have hc : c ∈ cs := List.mem_of_getElem? hgi
    obtain ⟨t, ht, bt⟩ := forall₂_getElem? hp hgi
    obtain ⟨c', hc'⟩ := (c37_no_raise c c t t bt bt b).1.2 (by rw [hLc c hc, hb])
    refine ⟨c.uid, cs.set i c', ?_, parts.set i (t ++ [b]), forall₂_set hp (.add _ _ _ _ bt hc'), ?_, ?_⟩
    · simp only [bind, Except.bind, hc']
    · intro x hx
      rcases List.mem_append.1 ((flatten_add parts i t b ht).mem_iff.1 hx) with h | h
      · exact hl x h
      · rw [List.mem_singleton.1 h, hb]
    · intro h
      have := congrArg List.length h
      simp at this
      exact hne this

theorem pick_other {μ δ : Type} {m : Metrics μ δ} (hm : Usual m) {L : Nat} {cs : List Cluster} (hg : Good L cs) {b : List Bool}
    (hb : b.length ≠ L) : pick m cs b = .error .valueError := by
  obtain ⟨parts, hp, hl, hne⟩ := hg
  have hLc := parts_length hp hl
  match cs, hne with
  | c :: cs, _ =>
    obtain ⟨s, _, bs⟩ := parts_mem hp c List.mem_cons_self
    unfold pick
    rw [List.zipIdx_cons, pickBest]
    simp only
    rw [hm.other c s b bs (by rw [hLc c List.mem_cons_self]; exact hb)]
    rfl

/-- Two classifiers with the same clusters to choose from: one gets all buffers, the other those that fit. -/
theorem recover_run {μ δ : Type} {m : Metrics μ δ} (hm : Usual m) {L : Nat} : ∀ (later : List (List Bool)) (st₁ st₂ : Classifier)
    (cs : List Cluster), st₁.minData ≤ st₁.samples + 1 → st₂.minData ≤ st₂.samples + 1 → readyCs m st₁ = .ok cs →
    readyCs m st₂ = .ok cs → Good L cs →
    ∃ ls : List Int, (calls m st₂ (later.filter fun b => b.length = L)).2 = ls.map .ok ∧
      (calls m st₁ later).2.filterMap Except.toOption = ls ∧
      List.Forall₂ (fun b r => if b.length = L then ∃ l, r = .ok l else r = .error .valueError) later (calls m st₁ later).2 ∧
      readyCs m (calls m st₁ later).1 = readyCs m (calls m st₂ (later.filter fun b => b.length = L)).1 ∧
      (st₁.init = true ∨ later ≠ [] → (calls m st₁ later).1.init = true)
  | [], st₁, st₂, cs, _, _, r1, r2, _ => ⟨[], rfl, rfl, .nil, by simp only [List.filter_nil, calls]; rw [r1, r2],
      fun h => h.elim id fun h => absurd rfl h⟩
  | b :: later, st₁, st₂, cs, s1, s2, r1, r2, hg => by
    by_cases hb : b.length = L
    · obtain ⟨l, cs', hp, hg'⟩ := pick_good hm hg hb
      obtain ⟨ls, h1, h2, h3, h4, h5⟩ := recover_run hm later (next st₁ cs') (next st₂ cs') cs'
        (by simp only [next]; push_cast; omega) (by simp only [next]; push_cast; omega) (by simp [readyCs, next])
        (by simp [readyCs, next]) hg'
      rw [List.filter_cons_of_pos (by simpa using hb)]
      simp only [calls, step_ok s1 r1 hp, step_ok s2 r2 hp]
      refine ⟨l :: ls, by rw [h1]; rfl, ?_, .cons (by rw [if_pos hb]; exact ⟨l, rfl⟩) h3, h4, fun _ => h5 (.inl rfl)⟩
      rw [List.filterMap_cons_some (f := Except.toOption) (a := .ok l) (b := l) rfl, h2]
    · have hp := pick_other hm hg hb
      obtain ⟨ls, h1, h2, h3, h4, h5⟩ := recover_run hm later (next st₁ cs) st₂ cs
        (by simp only [next]; push_cast; omega) s2 (by simp [readyCs, next]) r2 hg
      rw [List.filter_cons_of_neg (by simpa using hb)]
      simp only [calls, step_error hm s1 r1 hp]
      refine ⟨ls, h1, ?_, .cons (by rw [if_neg hb]) h3, h4, fun _ => h5 (.inl rfl)⟩
      rw [List.filterMap_cons_none (f := Except.toOption) (a := (.error PyErr.valueError : Except PyErr Int)) rfl, h2]

theorem calls_all {μ δ : Type} (m : Metrics μ δ) : ∀ (bs : List (List Bool)) (st : Classifier) (ls : List Int),
    (calls m st bs).2 = ls.map .ok → classifyAll m st bs = .ok (ls, (calls m st bs).1)
  | [], st, ls, h => by
    cases ls with
    | nil => rfl
    | cons l ls => simp [calls] at h
  | b :: bs, st, ls, h => by
    cases ls with
    | nil => simp [calls] at h
    | cons l ls =>
      simp only [calls, List.map_cons, List.cons.injEq] at h
      have hs := c133_same m st b
      have hcl : st.classifyS m b = ((st.classifyS m b).1, .ok l) := by rw [← h.1]
      rw [hcl] at hs
      unfold classifyAll
      rw [← hs]
      simp only [outcome, bind, Except.bind, calls_all m bs _ ls h.2, calls]

theorem good_training {μ δ : Type} {m : Metrics μ δ} (hm : Usual m) {k : Int} (hk : 1 ≤ k) {L : Nat} {cs : List Cluster}
    {train : List (List Bool)} (hne : train ≠ []) (hmix : ∀ b ∈ train, Mixed b ∧ b.length = L) (h : List.Forall₂ Start cs train) :
    ∃ cs', mergeClusters m k cs = .ok cs' ∧ Good L cs' := by
  have hp : Parts Mixed cs (train.map fun b => [b]) := by
    unfold Parts
    clear hne
    induction h with
    | nil => exact .nil
    | cons h1 h2 ih =>
      obtain ⟨dist, uid, hd, rfl⟩ := h1
      exact .cons (.start _ _ _ (hmix _ List.mem_cons_self).1 hd) (ih fun b hb => hmix b (List.mem_cons_of_mem _ hb))
  have hfl : (train.map fun b => [b]).flatten = train := by
    clear hne hmix h hp
    induction train with
    | nil => rfl
    | cons b train ih => simp [ih]
  obtain ⟨cs1, hcs1⟩ := mergeLoop_returns m k hk L (fun c d s t h1 h2 h3 h4 => hm.near c d s t h1 h2 (h3.trans h4.symm))
    (cs.length + 1) none cs _ hp (by rw [hfl]; exact fun b hb => (hmix b hb).2)
  have hmc : mergeClusters m k cs = .ok (cs1.mapIdx fun i c => { c with uid := (i : Int) }) := by
    simp only [mergeClusters, hcs1, bind, Except.bind]
  obtain ⟨m1, m2, ⟨parts', m3, m4⟩, m5⟩ := mergeClusters_spec m Mixed k cs _ hmc _ hp
  have hcs : cs ≠ [] := by
    intro h0
    have := h.length_eq
    rw [h0] at this
    exact hne (List.length_eq_zero_iff.1 this.symm)
  exact ⟨_, hmc, parts', m3, fun b hb => (hmix b (hfl ▸ m4.mem_iff.1 hb)).2, (m2 hcs).2⟩

/-- **C133.** After a training with mixed buffers of one length `L`, a classifier takes whatever comes: the calls with a buffer of
another length raise ValueError, and the others give the labels, and in the end the clusters, that they would have given without
them. Buffers of one bit are left out, numpy would broadcast them. -/
theorem c133_recovers {μ δ : Type} (m : Metrics μ δ) (hm : Usual m) (minData k : Int) (hk : 1 ≤ k) (L : Nat)
    (train later : List (List Bool)) (hlen : (train.length : Int) + 1 = minData) (hne : train ≠ [])
    (hmix : ∀ b ∈ train, Mixed b ∧ b.length = L) (_h1 : ∀ b ∈ later, b.length ≠ 1) :
    ∃ ls rs st, classifyAll m { minData := minData, k := k } (train ++ later.filter fun b => b.length = L) =
        .ok (List.replicate train.length (-1) ++ ls, st) ∧
      (calls m { minData := minData, k := k } (train ++ later)).2 = List.replicate train.length (.ok (-1)) ++ rs ∧
      List.Forall₂ (fun b r => if b.length = L then ∃ l, r = .ok l else r = .error .valueError) later rs ∧
      rs.filterMap Except.toOption = ls ∧
      ((∃ b ∈ later, b.length = L) → (calls m { minData := minData, k := k } (train ++ later)).1.clusters = st.clusters) := by
  obtain ⟨cs, h1, h2⟩ := training m train { minData := minData, k := k } (fun b hb => List.ne_nil_of_mem (hmix b hb).1.1)
    (by push_cast; simp; omega)
  obtain ⟨cs', h3, h4⟩ := good_training hm hk hne hmix h2
  have hs : (calls m { minData := minData, k := k } train).1.minData ≤ (calls m { minData := minData, k := k } train).1.samples + 1 := by
    rw [h1]; simp; omega
  have hr : readyCs m (calls m { minData := minData, k := k } train).1 = .ok cs' := by
    rw [h1]
    unfold readyCs
    rw [if_neg (by simp)]
    simpa using h3
  obtain ⟨ls, g1, g2, g3, g4, g5⟩ := recover_run hm later _ _ cs' hs hs hr hr h4
  have ha : (calls m { minData := minData, k := k } train).2 = List.replicate train.length (.ok (-1)) := by rw [h1]
  refine ⟨ls, _, _, calls_all m _ _ (List.replicate train.length (-1) ++ ls) ?_, ?_, g3, g2, ?_⟩
  · rw [calls_append, ha, g1]
    simp
  · rw [calls_append, ha]
  · rintro ⟨b, hb, hbL⟩
    obtain ⟨_, _, _, _, g6⟩ := recover_run hm (later.filter fun b => b.length = L) _ _ cs' hs hs hr hr h4
    have i1 := g5 (.inr (List.ne_nil_of_mem hb))
    have i2 := g6.2 (.inr (List.ne_nil_of_mem (List.mem_filter.2 ⟨hb, by simpa using hbL⟩)))
    rw [calls_append, calls_append]
    unfold readyCs at g4
    rw [if_pos i1, if_pos i2] at g4
    exact Except.ok.inj g4

/-! ### Any classifier -/

/-- The number of buffers that the clusters count. -/
def total (cs : List Cluster) : Nat := (cs.map (·.n)).sum

theorem total_erase : ∀ (cs : List Cluster) (j : Nat) (c : Cluster), cs[j]? = some c → total (cs.eraseIdx j) + c.n = total cs
  | [], j, c, h => by simp at h
  | x :: cs, 0, c, h => by
    simp at h; subst h; simp [total]; omega
  | x :: cs, j + 1, c, h => by
    have := total_erase cs j c (by simpa using h)
    simp only [List.eraseIdx_cons_succ, total, List.map_cons, List.sum_cons] at this ⊢
    omega

theorem total_set : ∀ (cs : List Cluster) (j : Nat) (c d : Cluster), cs[j]? = some c → total (cs.set j d) + c.n = total cs + d.n
  | [], j, c, d, h => by simp at h
  | x :: cs, 0, c, d, h => by
    simp at h; subst h; simp [total]; omega
  | x :: cs, j + 1, c, d, h => by
    have := total_set cs j c d (by simpa using h)
    simp only [List.set_cons_succ, total, List.map_cons, List.sum_cons] at this ⊢
    omega

theorem merge_n {c d e : Cluster} (h : c.merge d = .ok e) : e.n = c.n + d.n := by
  unfold Cluster.merge at h
  split at h
  · cases h
  · cases hm : (c.data.zip d.data).mapM fun rs => mergeRow rs.1 rs.2 with
    | error e => rw [hm] at h; cases h
    | ok r => rw [hm] at h; cases h; rfl

/-- Lines 122 and 123. -/
def mergeAt (cs : List Cluster) (i j : Nat) : List Cluster × Except PyErr (Nat × Nat) :=
  match cs[j]? with
  | none => (cs, .error .indexError)
  | some c =>
    match (cs.eraseIdx j)[i]? with
    | none => (cs.eraseIdx j, .error .indexError)
    | some d =>
      match d.merge c with
      | .error e => (cs.eraseIdx j, .error e)
      | .ok d => ((cs.eraseIdx j).set i d, .ok (i, j))

@[local simp] theorem toOption_error {α : Type} (e : PyErr) : (Except.error e : Except PyErr α).toOption = none := rfl

@[local simp] theorem toOption_ok {α : Type} (x : α) : (Except.ok x : Except PyErr α).toOption = some x := rfl

theorem mergeStepS_total {μ δ : Type} (m : Metrics μ δ) (pair : Option (Nat × Nat)) (cs : List Cluster) :
    total (mergeStepS m pair cs).1 ≤ total cs := by
  unfold mergeStepS
  cases hb : pickBest (m.pairDist cs) m.less (pairs cs.length) none with
  | error e => simp
  | ok best =>
    have key : ∀ i j, total (mergeAt cs i j).1 ≤ total cs := by
      intro i j
      unfold mergeAt
      cases hj : cs[j]? with
      | none => simp
      | some c =>
        simp only
        have e1 := total_erase cs j c hj
        cases hi : (cs.eraseIdx j)[i]? with
        | none => simp only; omega
        | some d =>
          simp only
          cases hd : d.merge c with
          | error e => simp only; omega
          | ok e =>
            simp only
            have := total_set (cs.eraseIdx j) i d e hi
            have := merge_n hd
            omega
    cases best with
    | some v => exact key v.2.1 v.2.2
    | none =>
      cases pair with
      | none => exact Nat.le_refl _
      | some p => exact key p.1 p.2

theorem mergeLoopS_total {μ δ : Type} (m : Metrics μ δ) (k : Int) : ∀ (fuel : Nat) (pair : Option (Nat × Nat)) (cs : List Cluster),
    total (mergeLoopS m k fuel pair cs).1 ≤ total cs
  | 0, _, _ => Nat.le_refl _
  | fuel + 1, pair, cs => by
    unfold mergeLoopS
    split
    · have := mergeStepS_total m pair cs
      cases hm : mergeStepS m pair cs with
      | mk cs1 r =>
        rw [hm] at this
        cases r with
        | error e => exact this
        | ok p => exact (mergeLoopS_total m k fuel _ cs1).trans this
    · exact Nat.le_refl _

theorem total_renumber (cs : List Cluster) : total (cs.mapIdx fun i c => { c with uid := (i : Int) }) = total cs := by
  unfold total
  congr 1
  apply List.ext_getElem
  · simp
  · intro i h1 h2; simp

theorem addSampleS_n (c : Cluster) (b : List Bool) : (c.addSampleS b).1.n = c.n + (if (c.addSampleS b).2.toOption.isSome then 1 else 0) ∧
    (c.addSampleS b).1.uid = c.uid := by
  unfold Cluster.addSampleS
  split
  · simp
  · split
    · simp
    · simp only
      split <;> simp

/-- What always holds: the labels are the places of the clusters once the training is over. -/
structure Sound (st : Classifier) : Prop where
  uids : st.init = true → st.clusters.map (·.uid) = (List.range st.clusters.length).map (fun (i : Nat) => (i : Int))
  late : st.init = true → st.minData ≤ st.samples

/-- One call: what it does to the sound classifier `st`. -/
structure Step {μ δ : Type} (m : Metrics μ δ) (st : Classifier) (b : List Bool) : Prop where
  sound : Sound (st.classifyS m b).1
  samples : (st.classifyS m b).1.samples = st.samples + 1
  minData : (st.classifyS m b).1.minData = st.minData
  k : (st.classifyS m b).1.k = st.k
  count : total (st.classifyS m b).1.clusters ≤ total st.clusters + (if (st.classifyS m b).2.toOption.isSome then 1 else 0)
  early : ((st.samples : Int) + 1 < st.minData → ∀ l, (st.classifyS m b).2 = .ok l → l = -1)
  label : (st.minData ≤ (st.samples : Int) + 1 → ∀ l, (st.classifyS m b).2 = .ok l →
    (st.classifyS m b).1.init = true ∧ 0 ≤ l ∧ l < (st.classifyS m b).1.clusters.length)
  stays : st.init = true → (st.classifyS m b).1.init = true ∧ (st.classifyS m b).1.clusters.length = st.clusters.length

theorem chooseS_step {μ δ : Type} (m : Metrics μ δ) (st : Classifier) (b : List Bool)
    (hu : st.clusters.map (·.uid) = (List.range st.clusters.length).map (fun (i : Nat) => (i : Int))) :
    (∃ cs, (st.chooseS m b).1 = { st with clusters := cs } ∧ cs.length = st.clusters.length ∧
      cs.map (·.uid) = st.clusters.map (·.uid) ∧ total cs = total st.clusters + (if (st.chooseS m b).2.toOption.isSome then 1 else 0)) ∧
    ∀ l, (st.chooseS m b).2 = .ok l → 0 ≤ l ∧ l < st.clusters.length := by
  cases hb : pickBest (fun ci : Cluster × Nat => m.score b ci.1) m.better st.clusters.zipIdx none with
  | error e =>
    have e0 : st.chooseS m b = (st, .error e) := by unfold Classifier.chooseS; rw [hb]
    rw [e0]
    exact ⟨⟨st.clusters, rfl, rfl, rfl, by simp⟩, fun l h => by cases h⟩
  | ok best =>
    cases best with
    | none =>
      have e0 : st.chooseS m b = (st, .error .unboundLocalError) := by unfold Classifier.chooseS; rw [hb]
      rw [e0]
      exact ⟨⟨st.clusters, rfl, rfl, rfl, by simp⟩, fun l h => by cases h⟩
    | some v =>
      obtain ⟨s, c, i⟩ := v
      have hci : (c, i) ∈ st.clusters.zipIdx := by simpa using (pickBest_mem _ _ _ _ _ hb).2 s (c, i) rfl
      have hgi : st.clusters[i]? = some c := List.mem_zipIdx_iff_getElem?.1 hci
      have hlt : i < st.clusters.length := (List.getElem?_eq_some_iff.1 hgi).1
      have huid : c.uid = i := by
        have := congrArg (fun z => z[i]?) hu
        rw [← (List.getElem?_eq_some_iff.1 hgi).2]
        simpa [hlt] using this
      obtain ⟨n1, n2⟩ := addSampleS_n c b
      have hset : ∀ c' : Cluster, c'.uid = c.uid → (st.clusters.set i c').map (·.uid) = st.clusters.map (·.uid) := by
        intro c' hc'
        rw [List.map_set, hc']
        apply List.ext_getElem?
        intro j
        rw [List.getElem?_set]
        split
        · rename_i hj
          subst hj
          simp [hgi]
          exact hlt
        · rfl
      cases ha : c.addSampleS b with
      | mk c' r =>
        rw [ha] at n1 n2
        have ht := total_set st.clusters i c c' hgi
        cases r with
        | error e =>
          have e0 : st.chooseS m b = ({ st with clusters := st.clusters.set i c' }, .error e) := by
            unfold Classifier.chooseS; rw [hb]; simp only [ha]
          rw [e0]
          refine ⟨⟨_, rfl, by simp, hset c' n2, ?_⟩, fun l h => by cases h⟩
          simp at n1
          simp only [toOption_error, Option.isSome_none, Bool.false_eq_true, if_false]
          omega
        | ok u =>
          have e0 : st.chooseS m b = ({ st with clusters := st.clusters.set i c' }, .ok c.uid) := by
            unfold Classifier.chooseS; rw [hb]; simp only [ha]
          rw [e0]
          refine ⟨⟨_, rfl, by simp, hset c' n2, ?_⟩, fun l h => ?_⟩
          · simp at n1
            simp only [toOption_ok, Option.isSome_some, if_true]
            omega
          · cases h
            rw [huid]
            omega

theorem step_all {μ δ : Type} (m : Metrics μ δ) (st : Classifier) (b : List Bool) (hS : Sound st) : Step m st b := by
  by_cases hlt : (((st.samples + 1 : Nat)) : Int) < st.minData
  · have hin : st.init = false := by
      by_contra h
      have := hS.late (by simpa using h)
      push_cast at hlt
      omega
    cases hp : prob (columnOf b) with
    | error e =>
      have e : st.classifyS m b = ({ st with samples := st.samples + 1 }, .error e) := by
        unfold Classifier.classifyS
        simp only
        rw [if_pos hlt, hp]
      constructor <;> simp only [e]
      · exact ⟨fun h => absurd h (by simp [hin]), fun h => absurd h (by simp [hin])⟩
      · simp
      · intro _ l h; cases h
      · intro _ l h; cases h
      · intro h; rw [hin] at h; cases h
    | ok dist =>
      have e : st.classifyS m b = ({ st with samples := st.samples + 1, clusters := st.clusters ++ [Cluster.new dist st.nextUid], nextUid := st.nextUid + 1 }, .ok (-1)) := by
        unfold Classifier.classifyS
        simp only
        rw [if_pos hlt, hp]
      constructor <;> simp only [e]
      · exact ⟨fun h => absurd h (by simp [hin]), fun h => absurd h (by simp [hin])⟩
      · simp [total, Cluster.new]
      · intro _ l h; cases h; rfl
      · intro h; push_cast at hlt; omega
      · intro h; rw [hin] at h; cases h
  · have e0 : st.classifyS m b = (match Classifier.readyS m { st with samples := st.samples + 1 } with
        | (st, .error e) => (st, .error e)
        | (st, .ok ()) => st.chooseS m b) := by
      unfold Classifier.classifyS
      simp only
      rw [if_neg hlt]
      rfl
    have hready : (∃ cs e, Classifier.readyS m { st with samples := st.samples + 1 } = ({ st with samples := st.samples + 1, clusters := cs }, .error e) ∧ total cs ≤ total st.clusters ∧ st.init = false) ∨
        ∃ cs, Classifier.readyS m { st with samples := st.samples + 1 } = (next st cs, .ok ()) ∧ total cs ≤ total st.clusters ∧
          cs.map (·.uid) = (List.range cs.length).map (fun (i : Nat) => (i : Int)) ∧ (st.init = true → cs = st.clusters) := by
      unfold Classifier.readyS
      by_cases hin : st.init = true
      · rw [if_pos hin]
        refine .inr ⟨st.clusters, ?_, Nat.le_refl _, hS.uids hin, fun _ => rfl⟩
        unfold next
        rw [← hin]
      · rw [if_neg hin]
        simp only
        have ht := mergeLoopS_total m st.k (st.clusters.length + 1) none st.clusters
        cases hm : mergeLoopS m st.k (st.clusters.length + 1) none st.clusters with
        | mk cs1 r =>
          rw [hm] at ht
          cases r with
          | error e => exact .inl ⟨cs1, e, rfl, ht, by simpa using hin⟩
          | ok u =>
            refine .inr ⟨_, rfl, by rw [total_renumber]; exact ht, ?_, fun h => absurd h hin⟩
            rw [merged_uids]; simp
    rcases hready with ⟨cs, e, h1, h2, h3⟩ | ⟨cs, h1, h2, h3, h4⟩
    · have e1 : st.classifyS m b = ({ st with samples := st.samples + 1, clusters := cs }, .error e) := by rw [e0, h1]
      constructor <;> simp only [e1]
      · exact ⟨fun h => absurd h (by simp [h3]), fun h => absurd h (by simp [h3])⟩
      · simpa using h2
      · intro _ l h; cases h
      · intro _ l h; cases h
      · intro h; rw [h3] at h; cases h
    · have e1 : st.classifyS m b = (next st cs).chooseS m b := by rw [e0, h1]
      obtain ⟨⟨cs', c1, c2, c3, c4⟩, c5⟩ := chooseS_step m (next st cs) b h3
      have hc : (next st cs).clusters = cs := rfl
      rw [hc] at c2 c3 c4 c5
      constructor <;> simp only [e1, c1]
      · refine ⟨fun _ => ?_, fun _ => ?_⟩
        · change cs'.map (·.uid) = _
          rw [c3, h3, c2]
        · change st.minData ≤ ((st.samples + 1 : Nat) : Int)
          omega
      · rfl
      · rfl
      · rfl
      · rw [c4]; omega
      · intro h; push_cast at hlt; omega
      · intro _ l h
        exact ⟨rfl, (c5 l h).1, by rw [c2]; exact (c5 l h).2⟩
      · intro h
        exact ⟨rfl, by rw [c2, h4 h]⟩

theorem sound_run {μ δ : Type} (m : Metrics μ δ) : ∀ (bs : List (List Bool)) (st : Classifier), Sound st →
    (calls m st bs).1.samples = st.samples + bs.length ∧ (calls m st bs).1.minData = st.minData ∧ (calls m st bs).1.k = st.k ∧
    total (calls m st bs).1.clusters ≤ total st.clusters + (calls m st bs).2.countP (fun r => r.toOption.isSome) ∧
    (st.init = true → (calls m st bs).1.init = true ∧ (calls m st bs).1.clusters.length = st.clusters.length) ∧
    ∀ (i : Nat) (l : Int), (calls m st bs).2[i]? = some (.ok l) → ((st.samples : Int) + i + 1 < st.minData → l = -1) ∧
      (st.minData ≤ (st.samples : Int) + i + 1 → 0 ≤ l ∧ l < (calls m st bs).1.clusters.length)
  | [], st, _ => by simp [calls]
  | b :: bs, st, hS => by
    have h := step_all m st b hS
    obtain ⟨i1, i2, i3, i4, i5, i6⟩ := sound_run m bs _ h.sound
    simp only [calls]
    refine ⟨by rw [i1, h.samples, List.length_cons]; omega, i2.trans h.minData, i3.trans h.k, ?_, ?_, ?_⟩
    · have := h.count
      rw [List.countP_cons]
      cases hr : (st.classifyS m b).2 with
      | error e =>
        rw [hr] at this
        simp [Except.toOption] at this ⊢
        simp [Except.toOption] at i4
        omega
      | ok l =>
        rw [hr] at this
        simp [Except.toOption] at this ⊢
        simp [Except.toOption] at i4
        omega
    · intro hin
      obtain ⟨s1, s2⟩ := h.stays hin
      obtain ⟨t1, t2⟩ := i5 s1
      exact ⟨t1, t2.trans s2⟩
    · intro i l hl
      cases i with
      | zero =>
        simp only [List.getElem?_cons_zero, Option.some.injEq] at hl
        refine ⟨fun hlt => h.early (by push_cast at hlt; omega) l hl, fun hge => ?_⟩
        obtain ⟨l1, l2, l3⟩ := h.label (by push_cast at hge; omega) l hl
        rw [(i5 l1).2]
        exact ⟨l2, l3⟩
      | succ i =>
        simp only [List.getElem?_cons_succ] at hl
        obtain ⟨j1, j2⟩ := i6 i l hl
        rw [h.samples, h.minData] at j1 j2
        exact ⟨fun hlt => j1 (by push_cast at hlt ⊢; omega), fun hge => j2 (by push_cast at hge ⊢; omega)⟩

theorem sound_new (minData k : Int) : Sound { minData := minData, k := k } := ⟨fun h => (by cases h), fun h => (by cases h)⟩

/-- **C133.** Whatever raises and whatever the metrics, every call counts, the labels returned by the first `minData - 1` calls are
-1, and those returned later are the places of clusters the classifier still has. -/
theorem c133_labels {μ δ : Type} (m : Metrics μ δ) (minData k : Int) (bs : List (List Bool)) :
    (calls m { minData := minData, k := k } bs).1.samples = bs.length ∧
    ∀ (i : Nat) (l : Int), (calls m { minData := minData, k := k } bs).2[i]? = some (.ok l) → ((i : Int) + 1 < minData → l = -1) ∧
      (minData ≤ (i : Int) + 1 → 0 ≤ l ∧ l < (calls m { minData := minData, k := k } bs).1.clusters.length) := by
  obtain ⟨h1, _, _, _, _, h6⟩ := sound_run m bs _ (sound_new minData k)
  refine ⟨by simpa using h1, fun i l hl => ?_⟩
  have := h6 i l hl
  simpa using this

/-- **C133.** The clusters never count more buffers than there were calls that returned. -/
theorem c133_absorbed {μ δ : Type} (m : Metrics μ δ) (minData k : Int) (bs : List (List Bool)) :
    ((calls m { minData := minData, k := k } bs).1.clusters.map (·.n)).sum ≤
      (calls m { minData := minData, k := k } bs).2.countP (fun r => r.toOption.isSome) := by
  obtain ⟨_, _, _, h4, _⟩ := sound_run m bs _ (sound_new minData k)
  simpa [total] using h4

/-- **C133 fails** for training: and then every later call raises, for good. -/
theorem c133_lost_forever {μ : Type} (score : List Bool → Cluster → Except PyErr μ) (better : μ → μ → Bool) (less : ℝ → ℝ → Bool)
    (md : MergeDist) (w : Weight) (hm : Usual { score := score, better := better, mdist := MergeDist.of md w, less := less })
    (b₁ b₂ b : List Bool) (later : List (List Bool)) (hc : Constant b₁) (h2 : Mixed b₂) (hL : b₁.length = b₂.length)
    (_h1 : ∀ b' ∈ later, b'.length ≠ 1) :
    ∀ r ∈ (calls { score := score, better := better, mdist := MergeDist.of md w, less := less } { minData := 3, k := 1 }
      ([b₁, b₂, b] ++ later)).2.drop 2, ∃ e, r = .error e := by
  obtain ⟨l1, l2⟩ := c133_lost_false score better less md w b₁ b₂ b hc h2 hL
  generalize hmm : ({ score := score, better := better, mdist := MergeDist.of md w, less := less } : Metrics μ ℝ) = m at *
  have hn2 : b₂ ≠ [] := List.ne_nil_of_mem h2.1
  have hn1 : b₁ ≠ [] := fun h => hn2 (List.length_eq_zero_iff.1 (by rw [← hL, h]; rfl))
  obtain ⟨cs, g1, g2⟩ := training m [b₁] { minData := 3, k := 1 } (by simp [hn1]) (by simp)
  obtain ⟨s1, s2, s3, _⟩ := sound_run m [b₁, b₂, b] _ (sound_new 3 1)
  have hcs : (calls m { minData := 3, k := 1 } [b₁, b₂, b]).1.clusters = cs := by rw [l2, g1]; rfl
  have hlen := g2.length_eq
  obtain ⟨_, f2⟩ := stuck_forever (narrow_stuck hm) later (calls m { minData := 3, k := 1 } [b₁, b₂, b]).1
    (by rw [s1, s2]; simp) (by
      refine ⟨?_, .inr (by rw [hcs, hlen, s3]; simp)⟩
      rw [hcs]
      cases g2 with
      | cons t1 t2 => exact ⟨_, List.mem_map_of_mem List.mem_cons_self, start_const t1 hn1 hc⟩)
  rw [calls_append, l1]
  intro r hr
  simp only [List.cons_append, List.nil_append, List.drop_succ_cons, List.drop_zero, List.mem_cons] at hr
  rcases hr with rfl | hr
  · exact ⟨_, rfl⟩
  · exact f2 r hr

/-! ### The theorems are not vacuous -/

/-- Hamming distances and Hellinger distances. -/
noncomputable def hamming : Metrics Nat ℝ :=
  { score := hammingScore, better := fun a b => decide (a < b), mdist := MergeDist.of .hellinger .linear, less := fun a b => (open Classical in decide (a < b)) }

theorem hamming_usual : Usual hamming := c133_hamming _ _ _ _

/-- Training with two buffers of two bits, then a buffer of three bits and one of two: the third call raises, the fourth returns. -/
example : ∃ l, (calls hamming { minData := 3, k := 2 } ([[true, false], [false, true]] ++ [[true, true, true], [true, true]])).2 =
    [.ok (-1), .ok (-1), .error .valueError, .ok l] := by
  obtain ⟨ls, rs, st, h1, h2, h3, _⟩ := c133_recovers hamming hamming_usual 3 2 (by norm_num) 2 [[true, false], [false, true]]
    [[true, true, true], [true, true]] (by simp) (by simp) (by simp [Mixed]) (by simp)
  rw [h2]
  cases h3 with
  | cons a1 h3 =>
    cases h3 with
    | cons a2 h3 =>
      cases h3
      rw [if_neg (by simp)] at a1
      rw [if_pos (by simp)] at a2
      obtain ⟨l, hl⟩ := a2
      exact ⟨l, by rw [a1, hl]; rfl⟩

/-- Training with buffers of two and three bits: no call returns a label any more. -/
example (later : List (List Bool)) (h : ∀ b ∈ later, 2 ≤ b.length) :
    ∃ rs, (calls hamming { minData := 3, k := 1 } ([[true, false], [false, true, true]] ++ later)).2 = [.ok (-1), .ok (-1)] ++ rs ∧
      rs.length = later.length ∧ ∀ r ∈ rs, ∃ e, r = .error e := by
  obtain ⟨rs, h1, h2, h3, _⟩ := c133_lengths hamming hamming_usual 3 1 [[true, false], [false, true, true]] later (by simp)
    (by
      intro b hb
      rcases List.mem_append.1 hb with hb | hb
      · simp at hb; rcases hb with rfl | rfl <;> simp
      · exact h b hb) [true, false] [false, true, true] (by simp) (by simp) (by simp)
  exact ⟨rs, h1, h2, h3⟩

/-- A buffer of zeros, then one with a one: the latter is lost. -/
example (b : List Bool) : (calls hamming { minData := 3, k := 1 } [[false, false], [false, true], b]).2 =
    [.ok (-1), .ok (-1), .error .valueError] :=
  (c133_lost_false _ _ _ _ _ [false, false] [false, true] b ⟨false, by simp⟩ ⟨by simp, by simp⟩ rfl).1

end NR.C133
