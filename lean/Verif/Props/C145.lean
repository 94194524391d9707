import Verif.Spec.Kinds
import Verif.Props.C133
import Verif.Props.C100
import Mathlib.Algebra.BigOperators.Ring.Finset
import Mathlib.Analysis.Complex.ExponentialBounds
import Mathlib.Algebra.Order.BigOperators.Group.Finset
/-
C145: a buffer classifier separates kinds of buffers that are far enough apart.
-/
namespace NR.C145
open NR NR.Spec NR.C133

/-! ### Kinds in the order of their first appearance -/

theorem mem_firsts {a : Nat} : ∀ {l : List Nat}, a ∈ firsts l ↔ a ∈ l
  | [] => Iff.rfl
  | b :: l => by
    simp only [firsts, List.mem_cons, List.mem_filter, mem_firsts (l := l), decide_eq_true_eq]
    by_cases h : a = b <;> simp [h]

theorem firsts_length : ∀ l : List Nat, (firsts l).length ≤ l.length
  | [] => le_refl _
  | b :: l => by
    have h1 := List.length_filter_le (fun x => decide (x ≠ b)) (firsts l)
    have h2 := firsts_length l
    simp only [firsts, List.length_cons]
    omega

theorem firsts_nodup : ∀ {l : List Nat}, l.Nodup → firsts l = l
  | [], _ => rfl
  | b :: l, h => by
    rw [List.nodup_cons] at h
    rw [firsts, firsts_nodup h.2, List.filter_eq_self.2]
    intro x hx
    simpa using fun e : x = b => h.1 (e ▸ hx)

theorem nodup_firsts : ∀ l : List Nat, (firsts l).Nodup
  | [] => List.nodup_nil
  | b :: l => by
    rw [firsts, List.nodup_cons]
    exact ⟨by simp, (nodup_firsts l).filter _⟩

theorem filter_swap (l : List Nat) (a b : Nat) : (l.filter fun x => decide (x ≠ b)).filter (fun x => decide (x ≠ a)) =
    (l.filter fun x => decide (x ≠ a)).filter fun x => decide (x ≠ b) := by
  rw [List.filter_filter, List.filter_filter]
  congr 1
  funext x
  rw [Bool.and_comm]

theorem filter_erase (a : Nat) : ∀ (l : List Nat) (j : Nat), l[j]? = some a →
    (firsts (l.eraseIdx j)).filter (fun x => decide (x ≠ a)) = (firsts l).filter fun x => decide (x ≠ a)
  | [], j, h => by simp at h
  | b :: l, 0, h => by
    simp only [List.getElem?_cons_zero, Option.some.injEq] at h
    subst h
    rw [List.eraseIdx_cons_zero, firsts, List.filter_cons_of_neg (by simp), List.filter_filter]
    congr 1
    funext x
    simp
  | b :: l, j + 1, h => by
    rw [List.getElem?_cons_succ] at h
    rw [List.eraseIdx_cons_succ, firsts, firsts, List.filter_cons, List.filter_cons, filter_swap, filter_erase a l j h, filter_swap]

theorem firsts_erase : ∀ (l : List Nat) (i j : Nat) (g : Nat), i < j → l[i]? = some g → l[j]? = some g →
    firsts (l.eraseIdx j) = firsts l
  | [], _, _, _, _, h, _ => by simp at h
  | b :: l, i, 0, _, h, _, _ => by omega
  | b :: l, 0, j + 1, g, _, h1, h2 => by
    simp only [List.getElem?_cons_zero, Option.some.injEq] at h1
    subst h1
    rw [List.eraseIdx_cons_succ, firsts, firsts, filter_erase b l j (by simpa using h2)]
  | b :: l, i + 1, j + 1, g, h, h1, h2 => by
    rw [List.eraseIdx_cons_succ, firsts, firsts, firsts_erase l i j g (by omega) (by simpa using h1) (by simpa using h2)]

theorem set_self {α : Type} : ∀ (l : List α) (i : Nat) (g : α), l[i]? = some g → l.set i g = l
  | [], _, _, _ => rfl
  | b :: l, 0, g, h => by simp at h; rw [h]; rfl
  | b :: l, i + 1, g, h => by rw [List.set_cons_succ, set_self l i g (by simpa using h)]

/-- Two equal entries, if there are fewer different ones than entries. -/
theorem twice {l : List Nat} (h : (firsts l).length < l.length) : ∃ (i j : Nat) (g : Nat), i < j ∧ l[i]? = some g ∧ l[j]? = some g := by
  have hn : ¬ l.Nodup := fun hn => by rw [firsts_nodup hn] at h; omega
  by_contra hc
  apply hn
  rw [List.Nodup, List.pairwise_iff_getElem]
  intro i j hi hj hij e
  exact hc ⟨i, j, l[j], hij, by rw [List.getElem?_eq_getElem hi, e], List.getElem?_eq_getElem hj⟩

theorem once {l : List Nat} (h : (firsts l).length = l.length) : l.Nodup := by
  rw [List.Nodup, List.pairwise_iff_getElem]
  intro i j hi hj hij e
  have h1 := firsts_erase l i j l[j] hij (by rw [List.getElem?_eq_getElem hi, e]) (List.getElem?_eq_getElem hj)
  have h2 := firsts_length (l.eraseIdx j)
  rw [h1, h, List.length_eraseIdx, if_pos hj] at h2
  omega

/-! ### Distances between clusters -/

/-- The distance of two coins. -/
noncomputable def coin : MergeDist → ℝ → ℝ → ℝ
  | .hellinger => coinHellinger
  | .klDiv => coinDivergence

theorem coin_props (md : MergeDist) {a b : ℝ} (ha : 0 ≤ a) (ha' : a ≤ 1) (hb : 0 ≤ b) (hb' : b ≤ 1) :
    0 ≤ coin md a b ∧ coin md a b ≤ opposite md ∧ (a = b → coin md a b = 0) := by
  cases md with
  | hellinger =>
    obtain ⟨_, h1, h2, h3⟩ := coinHellinger_props ha ha' hb hb'
    exact ⟨h1, h2, h3.2⟩
  | klDiv =>
    obtain ⟨_, h1, h2, h3⟩ := coinDivergence_props a b
    exact ⟨h1, h2, h3.2⟩

theorem coin_opposite (md : MergeDist) (v : Bool) : coin md (if v then 1 else 0) (if !v then 1 else 0) = opposite md := by
  cases md <;> cases v <;> simp [coin, opposite, coinHellinger, coinDivergence]

theorem opposite_pos (md : MergeDist) : 0 < opposite md := by cases md <;> norm_num [opposite]

theorem share_bounds (s : List (List Bool)) (i : Nat) : 0 ≤ share s i ∧ share s i ≤ 1 := by
  unfold share
  refine ⟨by positivity, div_le_one_of_le₀ ?_ (by positivity)⟩
  exact_mod_cast List.countP_le_length

theorem share_fixed {t : Template} {s : List (List Bool)} (hne : s ≠ []) (hs : ∀ b ∈ s, Fits t b) {i : Nat} {v : Bool}
    (h : t[i]? = some (some v)) : share s i = if v then 1 else 0 := by
  have hl : (s.length : ℝ) ≠ 0 := by
    have := List.length_pos_iff.2 hne
    exact_mod_cast this.ne'
  unfold share onesAt
  cases v with
  | true =>
    rw [List.countP_eq_length.2 fun b hb => by rw [(hs b hb).2 i true h]; rfl]
    simp [hl]
  | false =>
    rw [List.countP_eq_zero.2 fun b hb => by rw [(hs b hb).2 i false h]; decide]
    simp

theorem built_ne {c : Cluster} {s : List (List Bool)} (h : Built Mixed c s) : s ≠ [] := by
  obtain ⟨h1, h2, _⟩ := c37_counts c s h
  exact List.length_pos_iff.1 (by omega)

theorem dist_ok (md : MergeDist) (w : Weight) {c d : Cluster} {s t : List (List Bool)} (hc : Built Mixed c s) (hd : Built Mixed d t)
    {L : Nat} (h1 : c.data.length = L) (h2 : d.data.length = L) :
    MergeDist.of md w c d = .ok (sizeWeight w s t * perBit L fun i => coin md (share s i) (share t i)) := by
  subst h1
  cases md with
  | hellinger => exact c100_hellinger w c d s t hc hd h2.symm
  | klDiv => exact c100_kl w c d s t hc hd h2.symm

theorem near (md : MergeDist) {u : Template} {s t : List (List Bool)} (hs0 : s ≠ []) (ht0 : t ≠ []) (hs : ∀ b ∈ s, Fits u b)
    (ht : ∀ b ∈ t, Fits u b) :
    perBit u.length (fun i => coin md (share s i) (share t i)) ≤ opposite md * varying u / u.length := by
  unfold perBit
  apply div_le_div_of_nonneg_right _ (by positivity)
  have e : (varying u : ℝ) = ∑ i ∈ Finset.range u.length, if u[i]? = some none then (1 : ℝ) else 0 := by
    rw [Finset.sum_boole]; rfl
  rw [e, Finset.mul_sum]
  apply Finset.sum_le_sum
  intro i hi
  obtain ⟨a0, a1⟩ := share_bounds s i
  obtain ⟨b0, b1⟩ := share_bounds t i
  obtain ⟨_, h2, h3⟩ := coin_props md a0 a1 b0 b1
  have hi : i < u.length := Finset.mem_range.1 hi
  cases hu : u[i] with
  | none => rw [if_pos (by rw [List.getElem?_eq_getElem hi, hu]), mul_one]; exact h2
  | some v =>
    have hv : u[i]? = some (some v) := by rw [List.getElem?_eq_getElem hi, hu]
    rw [h3 (by rw [share_fixed hs0 hs hv, share_fixed ht0 ht hv]), hv, if_neg (by simp), mul_zero]

theorem far (md : MergeDist) {u v : Template} {s t : List (List Bool)} (hs0 : s ≠ []) (ht0 : t ≠ []) (hs : ∀ b ∈ s, Fits u b)
    (ht : ∀ b ∈ t, Fits v b) :
    opposite md * clash u v / u.length ≤ perBit u.length (fun i => coin md (share s i) (share t i)) := by
  unfold perBit
  apply div_le_div_of_nonneg_right _ (by positivity)
  have e : (clash u v : ℝ) = ∑ i ∈ Finset.range u.length,
      if (∃ x : Bool, u[i]? = some (some x) ∧ v[i]? = some (some !x)) then (1 : ℝ) else 0 := by
    rw [Finset.sum_boole]; rfl
  rw [e, Finset.mul_sum]
  apply Finset.sum_le_sum
  intro i hi
  obtain ⟨a0, a1⟩ := share_bounds s i
  obtain ⟨b0, b1⟩ := share_bounds t i
  obtain ⟨h1, _, _⟩ := coin_props md a0 a1 b0 b1
  split
  · rename_i h
    obtain ⟨x, hx, hy⟩ := h
    rw [mul_one, share_fixed hs0 hs hx, share_fixed ht0 ht hy, coin_opposite]
  · rw [mul_zero]; exact h1

theorem weight_ge (w : Weight) {s t : List (List Bool)} (hs : s ≠ []) (ht : t ≠ []) : 1 ≤ sizeWeight w s t := by
  have h1 : (1 : ℝ) ≤ s.length := by exact_mod_cast List.length_pos_iff.2 hs
  have h2 : (1 : ℝ) ≤ t.length := by exact_mod_cast List.length_pos_iff.2 ht
  cases w with
  | sqrt => exact Real.one_le_sqrt.2 (by linarith)
  | linear => simp only [sizeWeight]; linarith
  | none => exact le_refl _

theorem weight_le (w : Weight) {s t : List (List Bool)} {n : Nat} (h : s.length + t.length ≤ n) : sizeWeight w s t ≤ heaviest w n := by
  have h1 : (s.length : ℝ) + t.length ≤ n := by exact_mod_cast h
  cases w with
  | sqrt => exact Real.sqrt_le_sqrt (by linarith)
  | linear => simp only [sizeWeight, heaviest]; linarith
  | none => exact le_refl _

/-! ### Merging -/

/-- The clusters, the buffers in them, and the kinds of these. -/
structure Groups (F : Nat → List Bool → Prop) (cs : List Cluster) (parts : List (List (List Bool))) (ks : List Nat) : Prop where
  built : Parts Mixed cs parts
  fits : List.Forall₂ (fun s g => ∀ b ∈ s, F g b) parts ks

theorem Groups.at {F : Nat → List Bool → Prop} {cs : List Cluster} {parts : List (List (List Bool))} {ks : List Nat}
    (h : Groups F cs parts ks)
    {i : Nat} {c : Cluster} (hc : cs[i]? = some c) :
    ∃ s g, parts[i]? = some s ∧ ks[i]? = some g ∧ Built Mixed c s ∧ ∀ b ∈ s, F g b := by
  obtain ⟨s, h1, h2⟩ := forall₂_getElem? h.built hc
  obtain ⟨g, h3, h4⟩ := forall₂_getElem? h.fits h1
  exact ⟨s, g, h1, h3, h2, h4⟩

theorem Groups.length {F : Nat → List Bool → Prop} {cs : List Cluster} {parts : List (List (List Bool))} {ks : List Nat}
    (h : Groups F cs parts ks) : cs.length = ks.length ∧ parts.length = ks.length :=
  ⟨h.built.length_eq.trans h.fits.length_eq, h.fits.length_eq⟩

/-- The kinds are far enough apart. -/
structure Apart (ts : Nat → Template) (kinds : List Nat) (L V D : Nat) : Prop where
  length : ∀ g ∈ kinds, (ts g).length = L
  varying : ∀ g ∈ kinds, varying (ts g) ≤ V
  clash : ∀ g ∈ kinds, ∀ h ∈ kinds, g ≠ h → D ≤ clash (ts g) (ts h)

theorem data_length {c : Cluster} {s : List (List Bool)} (hb : Built Mixed c s) {L : Nat} (hs : ∀ b ∈ s, b.length = L) :
    c.data.length = L := by
  obtain ⟨h1, h2, h3, _⟩ := c37_counts c s hb
  obtain ⟨b, hb⟩ := List.exists_mem_of_length_pos (l := s) (by omega)
  rw [← h3 b hb]
  exact hs b hb

theorem two_parts {parts : List (List (List Bool))} {i j : Nat} {s t : List (List Bool)} (hij : i < j) (hs : parts[i]? = some s)
    (ht : parts[j]? = some t) : s.length + t.length ≤ parts.flatten.length := by
  have h1 := (flatten_merge parts i j s t hij hs ht).length_eq
  rw [← h1]
  have hj : j < parts.length := by
    by_contra hc
    rw [List.getElem?_eq_none (by omega)] at ht
    cases ht
  have hm : s ++ t ∈ (parts.eraseIdx j).set i (s ++ t) := by
    apply List.mem_of_getElem? (i := i)
    rw [List.getElem?_set_self (by rw [List.length_eraseIdx, if_pos hj]; omega)]
  have := (List.sublist_flatten_of_mem hm).length_le
  rw [List.length_append] at this
  exact this

theorem merge_step {μ : Type} (md : MergeDist) (w : Weight) (m : Metrics μ ℝ) (hm : m.mdist = MergeDist.of md w)
    (hless : ∀ a b, m.less a b = true ↔ a < b) {ts : Nat → Template} {kinds : List Nat} {L V D n : Nat} (ha : Apart ts kinds L V D)
    (hw : (V : ℝ) * heaviest w n < D) (hL : 0 < L) {cs : List Cluster} {parts : List (List (List Bool))} {ks : List Nat}
    (hg : Groups (fun g => Fits (ts g)) cs parts ks) (hk : ∀ g ∈ ks, g ∈ kinds) (hn : parts.flatten.length ≤ n) (hd : (firsts ks).length < ks.length)
    (pair : Option (Nat × Nat)) :
    ∃ pr cs' parts' ks', mergeStep m pair cs = .ok (pr, cs') ∧ Groups (fun g => Fits (ts g)) cs' parts' ks' ∧ firsts ks' = firsts ks ∧
      parts'.flatten.length ≤ n ∧ ks'.length + 1 = ks.length := by
  obtain ⟨i, j, g, hij, hi, hj⟩ := twice hd
  have hlen := hg.length
  have hjl : j < ks.length := by
    by_contra hc
    rw [List.getElem?_eq_none (by omega)] at hj
    cases hj
  have h2 : 2 ≤ cs.length := by omega
  have hdata : ∀ c ∈ cs, c.data.length = L := by
    intro c hc
    obtain ⟨q, hq, rfl⟩ := List.getElem_of_mem hc
    obtain ⟨s, g', _, hg', hb, hs⟩ := hg.at (List.getElem?_eq_getElem hq)
    exact data_length hb fun b hb => (hs b hb).1.trans (ha.length g' (hk g' (List.mem_of_getElem? hg')))
  have hval : ∀ c ∈ cs, ∀ d ∈ cs, ∃ x, m.mdist c d = .ok x := by
    intro c hc d hd
    obtain ⟨q, hq, rfl⟩ := List.getElem_of_mem hc
    obtain ⟨r, hr, rfl⟩ := List.getElem_of_mem hd
    obtain ⟨s, _, _, _, hb, _⟩ := hg.at (List.getElem?_eq_getElem hq)
    obtain ⟨t, _, _, _, hb', _⟩ := hg.at (List.getElem?_eq_getElem hr)
    rw [hm]
    exact ⟨_, dist_ok md w hb hb' (hdata _ (List.getElem_mem _)) (hdata _ (List.getElem_mem _))⟩
  obtain ⟨pr, cs', hstep⟩ := mergeStep_returns m pair cs parts hg.built L hdata h2 hval
  classical
  let f : Cluster → Cluster → ℝ := fun c d => if h : ∃ x, m.mdist c d = .ok x then h.choose else 0
  have hf : ∀ c ∈ cs, ∀ d ∈ cs, m.mdist c d = .ok (f c d) := by
    intro c hc d hd
    have h := hval c hc d hd
    simp only [f, dif_pos h]
    exact h.choose_spec
  obtain ⟨hp, hpl, hmin, e, he, hcs'⟩ := c70_merge_closest m hless f pair cs hf h2 pr cs' hstep
  have hil : pr.1 < cs.length := by omega
  obtain ⟨s, a, hs1, ha1, hs2, hs3⟩ := hg.at (List.getElem?_eq_getElem hil)
  obtain ⟨t, b, ht1, hb1, ht2, ht3⟩ := hg.at (List.getElem?_eq_getElem hpl)
  have hab : a = b := by
    by_contra hne
    have hi' : i < cs.length := by omega
    have hj' : j < cs.length := by omega
    obtain ⟨x, g1, hx1, hg1, hx2, hx3⟩ := hg.at (List.getElem?_eq_getElem hi')
    obtain ⟨y, g2, hy1, hg2, hy2, hy3⟩ := hg.at (List.getElem?_eq_getElem hj')
    rw [hi] at hg1
    rw [hj] at hg2
    cases hg1
    cases hg2
    have hgk : g ∈ kinds := hk g (List.mem_of_getElem? hi)
    have hak : a ∈ kinds := hk a (List.mem_of_getElem? ha1)
    have hbk : b ∈ kinds := hk b (List.mem_of_getElem? hb1)
    have hle := (hmin i j hij hj').1
    have e1 := hf _ (List.getElem_mem hil) _ (List.getElem_mem hpl)
    rw [hm, dist_ok md w hs2 ht2 (hdata _ (List.getElem_mem _)) (hdata _ (List.getElem_mem _))] at e1
    have e2 := hf _ (List.getElem_mem hi') _ (List.getElem_mem hj')
    rw [hm, dist_ok md w hx2 hy2 (hdata _ (List.getElem_mem _)) (hdata _ (List.getElem_mem _))] at e2
    rw [← Except.ok.inj e1, ← Except.ok.inj e2] at hle
    have k1 := near md (built_ne hx2) (built_ne hy2) hx3 hy3
    have k2 := far md (built_ne hs2) (built_ne ht2) hs3 ht3
    rw [ha.length g hgk] at k1
    rw [ha.length a hak] at k2
    have k3 := weight_ge w (built_ne hs2) (built_ne ht2)
    have k4 := weight_ge w (built_ne hx2) (built_ne hy2)
    have k5 := weight_le w ((two_parts hij hx1 hy1).trans hn)
    have hop := opposite_pos md
    have hLr : (0 : ℝ) < L := by exact_mod_cast hL
    have hV : (varying (ts g) : ℝ) ≤ V := by exact_mod_cast ha.varying g hgk
    have hD : (D : ℝ) ≤ clash (ts a) (ts b) := by exact_mod_cast ha.clash a hak b hbk hne
    have q1 : opposite md * D / L ≤ sizeWeight w s t * perBit L fun i => coin md (share s i) (share t i) := by
      have : opposite md * D / L ≤ perBit L fun i => coin md (share s i) (share t i) :=
        le_trans (div_le_div_of_nonneg_right (mul_le_mul_of_nonneg_left hD hop.le) hLr.le) k2
      have h0 : 0 ≤ opposite md * D / L := by positivity
      nlinarith
    have q2 : (sizeWeight w x y * perBit L fun i => coin md (share x i) (share y i)) ≤ opposite md * (V * heaviest w n) / L := by
      have a1 : perBit L (fun i => coin md (share x i) (share y i)) ≤ opposite md * V / L :=
        le_trans k1 (div_le_div_of_nonneg_right (mul_le_mul_of_nonneg_left hV hop.le) hLr.le)
      have h0 : 0 ≤ opposite md * V / L := by positivity
      calc _ ≤ sizeWeight w x y * (opposite md * V / L) := mul_le_mul_of_nonneg_left a1 (by linarith)
        _ ≤ heaviest w n * (opposite md * V / L) := mul_le_mul_of_nonneg_right k5 h0
        _ = _ := by ring
    have q3 : opposite md * (V * heaviest w n) / L < opposite md * D / L :=
      div_lt_div_of_pos_right (mul_lt_mul_of_pos_left hw hop) hLr
    linarith
  subst hab
  have hfm := flatten_merge parts pr.1 pr.2 s t hp hs1 ht1
  refine ⟨pr, cs', (parts.eraseIdx pr.2).set pr.1 (s ++ t), ks.eraseIdx pr.2, hstep, ⟨?_, ?_⟩,
    firsts_erase ks pr.1 pr.2 a hp ha1 hb1, by rw [hfm.length_eq]; exact hn, by rw [List.length_eraseIdx, if_pos (by omega)]; omega⟩
  · rw [hcs']
    exact forall₂_set (forall₂_eraseIdx hg.built _) (Built.merge _ _ _ _ _ hs2 ht2 he)
  · have h1 : (ks.eraseIdx pr.2).set pr.1 a = ks.eraseIdx pr.2 :=
      set_self _ _ _ (by rw [List.getElem?_eraseIdx_of_lt hp]; exact ha1)
    rw [← h1]
    exact forall₂_set (forall₂_eraseIdx hg.fits _) fun b hb => (List.mem_append.1 hb).elim (hs3 b) (ht3 b)

theorem merge_loop {μ : Type} (md : MergeDist) (w : Weight) (m : Metrics μ ℝ) (hm : m.mdist = MergeDist.of md w)
    (hless : ∀ a b, m.less a b = true ↔ a < b) {ts : Nat → Template} {kinds : List Nat} {L V D n : Nat} (ha : Apart ts kinds L V D)
    (hw : (V : ℝ) * heaviest w n < D) (hL : 0 < L) (k : Nat) : ∀ (fuel : Nat) (pair : Option (Nat × Nat)) (cs : List Cluster)
    (parts : List (List (List Bool))) (ks : List Nat), Groups (fun g => Fits (ts g)) cs parts ks → (∀ g ∈ ks, g ∈ kinds) → parts.flatten.length ≤ n →
    (firsts ks).length = k → ks.length < fuel →
    ∃ cs' parts', mergeLoop m k fuel pair cs = .ok cs' ∧ Groups (fun g => Fits (ts g)) cs' parts' (firsts ks)
  | 0, _, _, _, _, _, _, _, _, h => by omega
  | fuel + 1, pair, cs, parts, ks, hg, hk, hn, hf, hfuel => by
    have hl := hg.length.1
    have hle := firsts_length ks
    unfold mergeLoop
    by_cases hlt : k < ks.length
    · rw [if_pos (by rw [hl]; exact_mod_cast hlt)]
      obtain ⟨pr, cs', parts', ks', h1, h2, h3, h4, h5⟩ := merge_step md w m hm hless ha hw hL hg hk hn (by omega) pair
      obtain ⟨cs'', parts'', h6, h7⟩ := merge_loop md w m hm hless ha hw hL k fuel (some pr) cs' parts' ks' h2
        (fun g hg' => hk g (mem_firsts.1 (h3 ▸ mem_firsts.2 hg'))) h4 (by rw [h3]; exact hf) (by omega)
      refine ⟨cs'', parts'', ?_, h3 ▸ h7⟩
      simp only [h1, bind, Except.bind]
      exact h6
    · rw [if_neg (by rw [hl]; exact_mod_cast hlt)]
      have hnd : ks.Nodup := once (by omega)
      exact ⟨cs, parts, rfl, by rw [firsts_nodup hnd]; exact hg⟩

/-! ### Classifying -/

theorem choose_pick {μ δ : Type} {m : Metrics μ δ} {st : Classifier} {b : List Bool} {l : Int} {cs' : List Cluster}
    (h : st.choose m b = .ok (l, { st with clusters := cs' })) : pick m st.clusters b = .ok (l, cs') := by
  unfold Classifier.choose at h
  unfold pick
  cases hb : pickBest (fun ci : Cluster × Nat => m.score b ci.1) m.better st.clusters.zipIdx none with
  | error e => rw [hb] at h; cases h
  | ok best =>
    rw [hb] at h
    rcases best with _ | ⟨x, c, i⟩
    · cases h
    · simp only [bind, Except.bind] at h ⊢
      cases ha : c.addSample b with
      | error e => rw [ha] at h; cases h
      | ok c' =>
        rw [ha] at h
        simp only [Except.ok.injEq, Prod.mk.injEq, Classifier.mk.injEq] at h ⊢
        exact ⟨h.1, h.2.2.2.1⟩

/-- A buffer is put into the cluster of its kind, when a value decides that is smaller for that cluster than for the others. -/
theorem pick_kind {μ δ : Type} [LinearOrder μ] (m : Metrics μ δ) (hbet : ∀ a b, m.better a b = true ↔ a < b) {F : Nat → List Bool → Prop}
    {kinds : List Nat} {L : Nat} (hF : ∀ g ∈ kinds, ∀ b, F g b → b.length = L) {cs : List Cluster} {parts : List (List (List Bool))} {ks : List Nat}
    (hg : Groups F cs parts ks) (hk : ∀ g ∈ ks, g ∈ kinds) (hnd : ks.Nodup) {b : List Bool} {g : Nat} (hgk : g ∈ ks)
    (hb : F g b) (f : List (List Bool) → μ)
    (hs : ∀ c s, Built Mixed c s → c.data.length = b.length → m.score b c = .ok (f s))
    (hlt : ∀ s t h, h ∈ kinds → h ≠ g → s ≠ [] → t ≠ [] → (∀ x ∈ s, F g x) → (∀ x ∈ t, F h x) → f s < f t)
    (hu : cs.map (·.uid) = (List.range cs.length).map fun (i : Nat) => (i : Int)) :
    ∃ cs' parts', pick m cs b = .ok ((ks.idxOf g : Int), cs') ∧ Groups F cs' parts' ks ∧
      cs'.map (·.uid) = (List.range cs'.length).map fun (i : Nat) => (i : Int) := by
  have hlen := hg.length
  have hi0 : ks.idxOf g < ks.length := List.idxOf_lt_length_iff.2 hgk
  have hdata : ∀ c ∈ cs, c.data.length = b.length := by
    intro c hc
    obtain ⟨q, hq, rfl⟩ := List.getElem_of_mem hc
    obtain ⟨s, g', _, hg', hb', hs'⟩ := hg.at (List.getElem?_eq_getElem hq)
    rw [data_length hb' fun x hx => hF g' (hk g' (List.mem_of_getElem? hg')) x (hs' x hx), hF g (hk g hgk) b hb]
  have hne : cs ≠ [] := by
    intro h0
    rw [h0] at hlen
    simp at hlen
    rw [← hlen.1] at hi0
    simp at hi0
  obtain ⟨i, hi, hl, c', h1, h2, h3, h4⟩ := choose_first m hbet { minData := 0, k := 0, clusters := cs } b f parts hg.built hdata hne hs
  have hi' : i < cs.length := hi
  obtain ⟨s, a, hs1, ha1, hs2, hs3⟩ := hg.at (List.getElem?_eq_getElem hi')
  have hag : a = g := by
    by_contra hne'
    have hj : ks.idxOf g < cs.length := by omega
    obtain ⟨t, g', ht1, hg1, ht2, ht3⟩ := hg.at (List.getElem?_eq_getElem hj)
    have : g' = g := by
      rw [List.getElem?_eq_getElem hi0, List.getElem_idxOf] at hg1
      exact (Option.some.inj hg1).symm
    subst this
    have q1 := h3 _ hj
    rw [List.getElem?_eq_getElem (by omega)] at hs1 ht1
    rw [Option.some.inj hs1, Option.some.inj ht1] at q1
    exact absurd (hlt t s a (hk a (List.mem_of_getElem? ha1)) hne' (built_ne ht2) (built_ne hs2) ht3 hs3) (not_lt.2 q1)
  subst hag
  have hidx : ks.idxOf a = i := by
    have hik : i < ks.length := by omega
    rw [List.getElem?_eq_getElem hik] at ha1
    rw [← Option.some.inj ha1]
    exact hnd.idxOf_getElem i hik
  have huid : cs[i].uid = (i : Int) := by
    have := congrArg (fun l => l[i]?) hu
    simp only [List.getElem?_map, List.getElem?_eq_getElem hi', List.getElem?_range hi', Option.map_some, Option.some.injEq] at this
    exact this
  refine ⟨cs.set i c', parts.set i (s ++ [b]), ?_, ⟨?_, ?_⟩, ?_⟩
  · have := choose_pick h2
    rw [hidx, ← huid]
    exact this
  · exact forall₂_set hg.built (Built.add _ _ _ _ hs2 h1)
  · rw [← set_self ks i a ha1]
    exact forall₂_set hg.fits fun x hx => (List.mem_append.1 hx).elim (hs3 x) fun h => by rw [List.mem_singleton.1 h]; exact hb
  · rw [List.map_set, List.length_set, ← hu]
    exact set_self _ _ _ (by rw [List.getElem?_map, List.getElem?_eq_getElem hi', addSample_uid h1]; rfl)

/-- What the theorems below need of the way to classify. -/
def Decides {μ δ : Type} (m : Metrics μ δ) (F : Nat → List Bool → Prop) (kinds : List Nat) : Prop :=
  ∀ (cs : List Cluster) (parts : List (List (List Bool))) (ks : List Nat) (b : List Bool) (g : Nat), Groups F cs parts ks →
    (∀ h ∈ ks, h ∈ kinds) → ks.Nodup → g ∈ ks → F g b →
    cs.map (·.uid) = (List.range cs.length).map (fun (i : Nat) => (i : Int)) →
    ∃ cs' parts', pick m cs b = .ok ((ks.idxOf g : Int), cs') ∧ Groups F cs' parts' ks ∧
      cs'.map (·.uid) = (List.range cs'.length).map fun (i : Nat) => (i : Int)

theorem later_run {μ δ : Type} {m : Metrics μ δ} {F : Nat → List Bool → Prop} {kinds : List Nat} (hd : Decides m F kinds) {ks : List Nat}
    (hk : ∀ h ∈ ks, h ∈ kinds) (hnd : ks.Nodup) : ∀ (later : List (List Bool)) (gs : List Nat) (st : Classifier) (cs : List Cluster)
    (parts : List (List (List Bool))), List.Forall₂ (fun b g => g ∈ ks ∧ F g b) later gs → st.minData ≤ st.samples + 1 →
    readyCs m st = .ok cs → Groups F cs parts ks → cs.map (·.uid) = (List.range cs.length).map (fun (i : Nat) => (i : Int)) →
    (calls m st later).2 = (gs.map fun g => (ks.idxOf g : Int)).map .ok
  | [], _, _, _, _, h, _, _, _, _ => by cases h; rfl
  | b :: later, _, st, cs, parts, h, hs, hr, hg, hu => by
    cases h with
    | cons h1 h2 =>
      rename_i g gs
      obtain ⟨cs', parts', p1, p2, p3⟩ := hd cs parts ks b g hg hk hnd h1.1 h1.2 hu
      have ih := later_run hd hk hnd later gs (next st cs') cs' parts' h2 (by simp only [next]; push_cast; omega)
        (by simp [readyCs, next]) p2 p3
      simp only [calls, step_ok hs hr p1, ih, List.map_cons]

theorem run {μ : Type} (md : MergeDist) (w : Weight) (m : Metrics μ ℝ) (hm : m.mdist = MergeDist.of md w)
    (hless : ∀ a b, m.less a b = true ↔ a < b) (ts : Nat → Template) (F : Nat → List Bool → Prop)
    (hF : ∀ g b, Fits (ts g) b → F g b) (L V D : Nat) (train later : List (List Bool))
    (kinds laterKinds : List Nat) (ha : Apart ts kinds L V D) (hw : (V : ℝ) * heaviest w train.length < D)
    (hne : train ≠ []) (htrain : List.Forall₂ (fun b g => Mixed b ∧ Fits (ts g) b) train kinds)
    (hlater : List.Forall₂ (fun b g => g ∈ kinds ∧ F g b) later laterKinds) (hd : Decides m F kinds) :
    ∃ st, classifyAll m { minData := train.length + 1, k := (firsts kinds).length } (train ++ later) =
      .ok (List.replicate train.length (-1) ++ laterKinds.map (fun g => ((firsts kinds).idxOf g : Int)), st) := by
  have hmix : ∀ b ∈ train, Mixed b := by
    intro b hb
    obtain ⟨i, hi, rfl⟩ := List.getElem_of_mem hb
    obtain ⟨g, _, h⟩ := forall₂_getElem? htrain (List.getElem?_eq_getElem hi)
    exact h.1
  have hL : 0 < L := by
    obtain ⟨b, hb⟩ := List.exists_mem_of_ne_nil train hne
    obtain ⟨i, hi, rfl⟩ := List.getElem_of_mem hb
    obtain ⟨g, hg, h⟩ := forall₂_getElem? htrain (List.getElem?_eq_getElem hi)
    rw [← ha.length g (List.mem_of_getElem? hg), ← h.2.1]
    exact List.length_pos_of_mem h.1.1
  obtain ⟨cs, h1, h2⟩ := training m train { minData := train.length + 1, k := (firsts kinds).length }
    (fun b hb => List.ne_nil_of_mem (hmix b hb).1) (by simp)
  have hg : Groups (fun g => Fits (ts g)) cs (train.map fun b => [b]) kinds := by
    refine ⟨?_, ?_⟩
    · unfold Parts
      clear h1 htrain hne hw
      induction h2 with
      | nil => exact .nil
      | cons a1 a2 ih =>
        obtain ⟨dist, uid, hd, rfl⟩ := a1
        exact .cons (.start _ _ _ (hmix _ List.mem_cons_self) hd) (ih fun b hb => hmix b (List.mem_cons_of_mem _ hb))
    · clear h1 h2 hne hw hmix ha hlater hd
      induction htrain with
      | nil => exact .nil
      | cons a1 a2 ih => exact .cons (by simpa using a1.2) ih
  have hfl : (train.map fun b => [b]).flatten.length ≤ train.length := by
    clear * -
    induction train with
    | nil => simp
    | cons b train ih => simpa using ih
  obtain ⟨cs', parts', h3, h4⟩ := merge_loop md w m hm hless ha hw hL (firsts kinds).length (cs.length + 1) none cs _ kinds hg
    (fun _ h => h) hfl rfl (by rw [hg.length.1]; omega)
  have hnd := nodup_firsts kinds
  have hready : readyCs m (calls m { minData := train.length + 1, k := (firsts kinds).length } train).1 =
      .ok (cs'.mapIdx fun i c => { c with uid := (i : Int) }) := by
    rw [h1]
    simp only [readyCs, mergeClusters, List.nil_append]
    rw [if_neg (by simp), h3]
    rfl
  have hcalls := later_run hd (fun h hh => mem_firsts.1 hh) hnd later laterKinds
    (calls m { minData := train.length + 1, k := (firsts kinds).length } train).1 _ parts'
    (hlater.imp fun b g h => ⟨mem_firsts.2 h.1, h.2⟩) (by rw [h1]; simp) hready
    ⟨parts_renumber Mixed cs' parts' h4.built fun i => (i : Int), h4.fits.imp fun s g h b hb => hF g b (h b hb)⟩ (by rw [merged_uids]; simp)
  refine ⟨_, calls_all m _ _ _ ?_⟩
  rw [calls_append, hcalls, h1]
  simp

/-! ### By Hamming distance -/

theorem card_list (n : Nat) (p : Nat → Prop) [DecidablePred p] : ((List.range n).filter fun i => decide (p i)).length =
    ((Finset.range n).filter p).card := rfl

theorem any_fixed {t : Template} {s : List (List Bool)} (hne : s ≠ []) (hs : ∀ b ∈ s, Fits t b) {i : Nat} {v : Bool}
    (h : t[i]? = some (some v)) : (anyOnes t.length s)[i]? = some v := by
  have hi : i < t.length := by
    by_contra hc
    rw [List.getElem?_eq_none (by omega)] at h
    cases h
  unfold anyOnes
  rw [List.getElem?_map, List.getElem?_range hi, Option.map_some, Option.some.injEq]
  obtain ⟨b, hb⟩ := List.exists_mem_of_ne_nil s hne
  cases v with
  | true => exact List.any_eq_true.2 ⟨b, hb, by rw [(hs b hb).2 i true h]; rfl⟩
  | false =>
    rw [List.any_eq_false]
    intro x hx
    rw [(hs x hx).2 i false h]
    decide

theorem hamming_own {t : Template} {b : List Bool} (hb : Fits t b) {s : List (List Bool)} (hne : s ≠ []) (hs : ∀ b ∈ s, Fits t b) :
    diffCount b (anyOnes b.length s) ≤ varying t := by
  unfold diffCount varying
  have hl : (anyOnes b.length s).length = b.length := by simp [anyOnes]
  rw [hl, max_self, hb.1, card_list]
  apply Finset.card_le_card
  intro i hi
  rw [Finset.mem_filter] at hi ⊢
  refine ⟨hi.1, ?_⟩
  have hi' := Finset.mem_range.1 hi.1
  cases hu : t[i] with
  | none => rw [List.getElem?_eq_getElem hi', hu]
  | some v =>
    have hv : t[i]? = some (some v) := by rw [List.getElem?_eq_getElem hi', hu]
    exact absurd ((hb.2 i v hv).trans (any_fixed hne hs hv).symm) hi.2

theorem hamming_other {t u : Template} {b : List Bool} (hb : Fits t b) (hl' : u.length = t.length) {s : List (List Bool)} (hne : s ≠ [])
    (hs : ∀ b ∈ s, Fits u b) : clash t u ≤ diffCount b (anyOnes b.length s) := by
  unfold diffCount clash
  have hl : (anyOnes b.length s).length = b.length := by simp [anyOnes]
  rw [hl, max_self, hb.1, card_list]
  apply Finset.card_le_card
  intro i hi
  rw [Finset.mem_filter] at hi ⊢
  refine ⟨hi.1, ?_⟩
  obtain ⟨v, h1, h2⟩ := hi.2
  have := any_fixed hne hs h2
  rw [hl'] at this
  rw [hb.2 i v h1, this]
  cases v <;> simp

theorem hamming_decides {δ : Type} (mdist : Cluster → Cluster → Except PyErr δ) (less : δ → δ → Bool) {ts : Nat → Template}
    {kinds : List Nat} {L V D : Nat} (ha : Apart ts kinds L V D) (hV : V < D) :
    Decides ⟨hammingScore, fun a b => decide (a < b), mdist, less⟩ (fun g => Fits (ts g)) kinds := by
  intro cs parts ks b g hg hk hnd hgk hb hu
  refine pick_kind _ (by simp) (fun g hg b hb => hb.1.trans (ha.length g hg)) hg hk hnd hgk hb (fun s => diffCount b (anyOnes b.length s))
    (fun c s bs hc => by rw [← hc]; exact hammingScore_ok bs hc.symm) ?_ hu
  intro s t h hh hne hs ht hs' ht'
  have h1 := hamming_own hb hs hs'
  have h2 := hamming_other hb ((ha.length h hh).trans (ha.length g (hk g hgk)).symm) ht ht'
  have h3 := ha.varying g (hk g hgk)
  have h4 := ha.clash g (hk g hgk) h hh (Ne.symm hne)
  show diffCount b (anyOnes b.length s) < diffCount b (anyOnes b.length t)
  omega

/-! ### By log-likelihood -/

/-- The logarithm of the precision of floating point numbers near one. -/
noncomputable def tiny : ℝ := Real.log (2 ^ (-52 : ℤ))

theorem tiny_bounds : -100 < tiny ∧ tiny < 0 := by
  have e : tiny = -52 * Real.log 2 := by
    unfold tiny
    rw [Real.log_zpow]
    norm_num
  have h1 := Real.log_two_lt_d9
  have h2 := Real.log_two_gt_d9
  rw [e]
  constructor <;> linarith

theorem agree_fixed {t : Template} {b : List Bool} (hb : Fits t b) {s : List (List Bool)} (hne : s ≠ []) (hs : ∀ b ∈ s, Fits t b)
    {i : Nat} {v : Bool} (h : t[i]? = some (some v)) : agree b s i = 1 := by
  have hl : (s.length : ℝ) ≠ 0 := by
    have := List.length_pos_iff.2 hne
    exact_mod_cast this.ne'
  unfold agree
  rw [List.countP_eq_length.2 fun x hx => by rw [(hs x hx).2 i v h, hb.2 i v h]; simp]
  exact div_self hl

theorem agree_clash {t u : Template} {b : List Bool} (hb : Fits t b) {s : List (List Bool)} (hs : ∀ b ∈ s, Fits u b)
    {i : Nat} {v : Bool} (h : t[i]? = some (some v)) (h' : u[i]? = some (some !v)) : agree b s i = 0 := by
  unfold agree
  rw [List.countP_eq_zero.2 fun x hx => by rw [(hs x hx).2 i _ h', hb.2 i v h]; cases v <;> decide]
  simp

theorem sum_list (n : Nat) (f : Nat → ℝ) : ((List.range n).map f).sum = ∑ i ∈ Finset.range n, f i := rfl

theorem lik_own {t : Template} {b : List Bool} (hb : Fits t b) {s : List (List Bool)} (hne : s ≠ []) (hs : ∀ b ∈ s, Fits t b) :
    tiny * varying t / t.length ≤ logLik b s := by
  unfold logLik
  rw [sum_list, hb.1]
  apply div_le_div_of_nonneg_right _ (by positivity)
  have e : (varying t : ℝ) = ∑ i ∈ Finset.range t.length, if t[i]? = some none then (1 : ℝ) else 0 := by
    rw [Finset.sum_boole]; rfl
  rw [e, Finset.mul_sum]
  apply Finset.sum_le_sum
  intro i hi
  have hi' := Finset.mem_range.1 hi
  have hp : (0 : ℝ) < 2 ^ (-52 : ℤ) := by positivity
  cases hu : t[i] with
  | none =>
    rw [if_pos (by rw [List.getElem?_eq_getElem hi', hu]), mul_one]
    have h0 : 0 ≤ agree b s i := by unfold agree; positivity
    have : tiny ≤ Real.log (agree b s i + 2 ^ (-52 : ℤ)) := Real.log_le_log hp (by linarith)
    exact le_min tiny_bounds.2.le (le_max_of_le_right this)
  | some v =>
    have hv : t[i]? = some (some v) := by rw [List.getElem?_eq_getElem hi', hu]
    rw [if_neg (by rw [hv]; simp), mul_zero, agree_fixed hb hne hs hv]
    exact le_min (le_refl _) (le_max_of_le_right (Real.log_nonneg (by linarith)))

theorem lik_other {t u : Template} {b : List Bool} (hb : Fits t b) {s : List (List Bool)} (hs : ∀ b ∈ s, Fits u b) :
    logLik b s ≤ tiny * clash t u / t.length := by
  unfold logLik
  rw [sum_list, hb.1]
  apply div_le_div_of_nonneg_right _ (by positivity)
  have e : (clash t u : ℝ) = ∑ i ∈ Finset.range t.length,
      if (∃ x : Bool, t[i]? = some (some x) ∧ u[i]? = some (some !x)) then (1 : ℝ) else 0 := by
    rw [Finset.sum_boole]; rfl
  rw [e, Finset.mul_sum]
  apply Finset.sum_le_sum
  intro i _
  split
  · rename_i h
    obtain ⟨v, h1, h2⟩ := h
    rw [mul_one, agree_clash hb hs h1 h2, zero_add]
    exact (min_le_right _ _).trans (max_le tiny_bounds.1.le (le_refl _))
  · rw [mul_zero]; exact min_le_left _ _

theorem lik_decides {δ : Type} (gt : ℝ → ℝ → Bool) (hgt : ∀ x y, gt x y = true ↔ x > y) (mdist : Cluster → Cluster → Except PyErr δ)
    (less : δ → δ → Bool) {ts : Nat → Template} {kinds : List Nat} {L V D : Nat} (ha : Apart ts kinds L V D) (hV : V < D) :
    Decides ⟨llScore, gt, mdist, less⟩ (fun g => Fits (ts g)) kinds := by
  intro cs parts ks b g hg hk hnd hgk hb hu
  refine @pick_kind ℝ δ (OrderDual.instLinearOrder ℝ) ⟨llScore, gt, mdist, less⟩ hgt (fun g => Fits (ts g)) kinds L
    (fun g hg b hb => hb.1.trans (ha.length g hg)) cs parts ks hg hk hnd b g hgk hb
    (fun s => logLik b s) (fun c s bs hc => llScore_ok bs hc.symm) ?_ hu
  intro s t h hh hne hs ht hs' ht'
  show logLik b t < logLik b s
  have h1 := lik_own hb hs hs'
  have h2 := lik_other hb ht'
  have h3 := ha.varying g (hk g hgk)
  have h4 := ha.clash g (hk g hgk) h hh (Ne.symm hne)
  have h5 : clash (ts g) (ts h) ≤ (ts g).length := by
    unfold clash
    exact (Finset.card_filter_le _ _).trans (by simp)
  have hl : (0 : ℝ) < (ts g).length := by exact_mod_cast (by omega : 0 < (ts g).length)
  have hc : (varying (ts g) : ℝ) < clash (ts g) (ts h) := by exact_mod_cast (by omega : varying (ts g) < clash (ts g) (ts h))
  have : tiny * clash (ts g) (ts h) / (ts g).length < tiny * varying (ts g) / (ts g).length :=
    div_lt_div_of_pos_right (mul_lt_mul_of_neg_left hc tiny_bounds.2) hl
  linarith

/-! ### The theorems -/

/-- **C145.** Kinds of buffers that are far enough apart are told apart. Every buffer is of a kind; all kinds occur in the training, and
as many clusters are asked for as there are kinds. At most `V` bits vary within a kind, and two kinds have at least `D` bits fixed to
different values, with `V < D`, also after multiplication by the largest weight that the merging can use. Then every buffer after the
training gets the label of its kind, and the kinds are numbered in the order of their first training buffers. -/
theorem c145_log_likelihood (md : MergeDist) (w : Weight) (gt less : ℝ → ℝ → Bool) (hgt : ∀ x y, gt x y = true ↔ x > y)
    (hless : ∀ x y, less x y = true ↔ x < y) (ts : Nat → Template) (L V D : Nat) (train later : List (List Bool))
    (kinds laterKinds : List Nat) (hne : train ≠ []) (htrain : List.Forall₂ (fun b g => Mixed b ∧ Fits (ts g) b) train kinds)
    (hlater : List.Forall₂ (fun b g => g ∈ kinds ∧ Fits (ts g) b) later laterKinds) (hl : ∀ g ∈ kinds, (ts g).length = L)
    (hv : ∀ g ∈ kinds, varying (ts g) ≤ V) (hc : ∀ g ∈ kinds, ∀ h ∈ kinds, g ≠ h → D ≤ clash (ts g) (ts h)) (hV : V < D)
    (hw : (V : ℝ) * heaviest w train.length < D) :
    ∃ st, classifyAll ⟨llScore, gt, MergeDist.of md w, less⟩ { minData := train.length + 1, k := (firsts kinds).length } (train ++ later) =
      .ok (List.replicate train.length (-1) ++ laterKinds.map (fun g => ((firsts kinds).idxOf g : Int)), st) :=
  run md w _ rfl hless ts _ (fun _ _ h => h) L V D train later kinds laterKinds ⟨hl, hv, hc⟩ hw hne htrain hlater (lik_decides gt hgt _ _ ⟨hl, hv, hc⟩ hV)

/-- **C145**, by Hamming distance. -/
theorem c145_hamming (md : MergeDist) (w : Weight) (less : ℝ → ℝ → Bool) (hless : ∀ x y, less x y = true ↔ x < y) (ts : Nat → Template)
    (L V D : Nat) (train later : List (List Bool)) (kinds laterKinds : List Nat) (hne : train ≠ [])
    (htrain : List.Forall₂ (fun b g => Mixed b ∧ Fits (ts g) b) train kinds)
    (hlater : List.Forall₂ (fun b g => g ∈ kinds ∧ Fits (ts g) b) later laterKinds) (hl : ∀ g ∈ kinds, (ts g).length = L)
    (hv : ∀ g ∈ kinds, varying (ts g) ≤ V) (hc : ∀ g ∈ kinds, ∀ h ∈ kinds, g ≠ h → D ≤ clash (ts g) (ts h)) (hV : V < D)
    (hw : (V : ℝ) * heaviest w train.length < D) :
    ∃ st, classifyAll ⟨hammingScore, fun a b => decide (a < b), MergeDist.of md w, less⟩ { minData := train.length + 1, k := (firsts kinds).length }
        (train ++ later) =
      .ok (List.replicate train.length (-1) ++ laterKinds.map (fun g => ((firsts kinds).idxOf g : Int)), st) :=
  run md w _ rfl hless ts _ (fun _ _ h => h) L V D train later kinds laterKinds ⟨hl, hv, hc⟩ hw hne htrain hlater (hamming_decides _ _ ⟨hl, hv, hc⟩ hV)

/-! ### Copies -/

theorem firsts_card (l : List Nat) : (firsts l).length = l.toFinset.card := by
  rw [← List.toFinset_card_of_nodup (nodup_firsts l)]
  congr 1
  ext x
  rw [List.mem_toFinset, List.mem_toFinset]
  exact mem_firsts

theorem kinds_card (train : List (List Bool)) : (firsts (train.map train.idxOf)).length = train.toFinset.card := by
  rw [firsts_card]
  have : (train.map train.idxOf).toFinset = train.toFinset.image train.idxOf := by
    ext x
    simp
  rw [this, Finset.card_image_of_injOn]
  intro a ha b _ h
  exact (List.idxOf_inj (List.mem_toFinset.1 ha)).1 h

theorem clash_exact {a b : List Bool} (hl : a.length = b.length) (h : a ≠ b) : 1 ≤ clash (a.map some) (b.map some) := by
  unfold clash
  rw [Nat.one_le_iff_ne_zero, Finset.card_ne_zero]
  by_contra hc
  rw [Finset.not_nonempty_iff_eq_empty, Finset.filter_eq_empty_iff] at hc
  apply h
  apply List.ext_getElem hl
  intro i h1 h2
  have := hc (x := i) (by simpa using h1)
  by_contra hne
  apply this
  refine ⟨a[i], by simp [h1], ?_⟩
  rw [List.getElem?_map, List.getElem?_eq_getElem h2]
  cases hx : a[i] <;> cases hy : b[i] <;> simp_all

theorem fits_exact {t b : List Bool} : Fits (t.map some) b ↔ b = t := by
  constructor
  · rintro ⟨h1, h2⟩
    rw [List.length_map] at h1
    apply List.ext_getElem h1
    intro i hi hi'
    have := h2 i t[i] (by simp [hi'])
    rw [List.getElem?_eq_getElem hi] at this
    exact Option.some.inj this
  · rintro rfl
    refine ⟨by simp, fun i v h => ?_⟩
    rw [List.getElem?_map] at h
    cases hb : b[i]? with
    | none => rw [hb] at h; cases h
    | some x => rw [hb] at h; simpa using h

/-- **C145**, for copies: if as many clusters are asked for as there are different buffers in the training, every later copy of one of
them gets a label of its own, whatever the metrics are. -/
theorem c145_copies (md : MergeDist) (w : Weight) (gt less : ℝ → ℝ → Bool) (hgt : ∀ x y, gt x y = true ↔ x > y)
    (hless : ∀ x y, less x y = true ↔ x < y) (L : Nat) (train later : List (List Bool)) (hne : train ≠ [])
    (htrain : ∀ b ∈ train, Mixed b ∧ b.length = L) (hlater : ∀ b ∈ later, b ∈ train) :
    ∃ label : List Bool → Int, (∀ a ∈ train, ∀ b ∈ train, label a = label b → a = b) ∧
      (∃ st, classifyAll ⟨llScore, gt, MergeDist.of md w, less⟩ { minData := train.length + 1, k := train.toFinset.card } (train ++ later) =
        .ok (List.replicate train.length (-1) ++ later.map label, st)) ∧
      ∃ st, classifyAll ⟨hammingScore, fun a b => decide (a < b), MergeDist.of md w, less⟩
          { minData := train.length + 1, k := train.toFinset.card } (train ++ later) =
        .ok (List.replicate train.length (-1) ++ later.map label, st) := by
  let ts : Nat → Template := fun g => (train.getD g []).map some
  have hts : ∀ b ∈ train, ts (train.idxOf b) = b.map some := by
    intro b hb
    show (train.getD _ []).map some = _
    rw [List.getD_eq_getElem?_getD, List.getElem?_eq_getElem (List.idxOf_lt_length_of_mem hb), List.getElem_idxOf]
    rfl
  have hk : ∀ g ∈ train.map train.idxOf, ∃ b ∈ train, train.idxOf b = g := fun g hg => List.mem_map.1 hg
  have h1 : ∀ g ∈ train.map train.idxOf, (ts g).length = L := by
    intro g hg
    obtain ⟨b, hb, rfl⟩ := hk g hg
    rw [hts b hb, List.length_map]
    exact (htrain b hb).2
  have h2 : ∀ g ∈ train.map train.idxOf, varying (ts g) ≤ 0 := by
    intro g hg
    obtain ⟨b, hb, rfl⟩ := hk g hg
    rw [hts b hb]
    unfold varying
    rw [Nat.le_zero, Finset.card_eq_zero, Finset.filter_eq_empty_iff]
    intro i _ h
    rw [List.getElem?_map] at h
    cases hb : b[i]? <;> rw [hb] at h <;> simp at h
  have h3 : ∀ g ∈ train.map train.idxOf, ∀ h ∈ train.map train.idxOf, g ≠ h → 1 ≤ clash (ts g) (ts h) := by
    intro g hg h hh hne
    obtain ⟨b, hb, rfl⟩ := hk g hg
    obtain ⟨c, hc, rfl⟩ := hk h hh
    rw [hts b hb, hts c hc]
    exact clash_exact ((htrain b hb).2.trans (htrain c hc).2.symm) fun e => hne (by rw [e])
  have h4 : List.Forall₂ (fun b g => Mixed b ∧ Fits (ts g) b) train (train.map train.idxOf) := by
    rw [List.forall₂_map_right_iff, List.forall₂_same]
    exact fun b hb => ⟨(htrain b hb).1, by rw [hts b hb]; exact fits_exact.2 rfl⟩
  have h5 : List.Forall₂ (fun b g => g ∈ train.map train.idxOf ∧ Fits (ts g) b) later (later.map train.idxOf) := by
    rw [List.forall₂_map_right_iff, List.forall₂_same]
    exact fun b hb => ⟨List.mem_map_of_mem (hlater b hb), by rw [hts b (hlater b hb)]; exact fits_exact.2 rfl⟩
  refine ⟨fun b => ((firsts (train.map train.idxOf)).idxOf (train.idxOf b) : Int), ?_, ?_, ?_⟩
  · intro a ha b hb h
    have hm : train.idxOf a ∈ firsts (train.map train.idxOf) := mem_firsts.2 (List.mem_map_of_mem ha)
    have := (List.idxOf_inj hm).1 (Int.ofNat.inj h)
    exact (List.idxOf_inj ha).1 this
  · obtain ⟨st, h⟩ := c145_log_likelihood md w gt less hgt hless ts L 0 1 train later _ _ hne h4 h5 h1 h2 h3 (by decide) (by simp)
    rw [kinds_card, List.map_map] at h
    exact ⟨st, h⟩
  · obtain ⟨st, h⟩ := c145_hamming md w less hless ts L 0 1 train later _ _ hne h4 h5 h1 h2 h3 (by decide) (by simp)
    rw [kinds_card, List.map_map] at h
    exact ⟨st, h⟩

/-! ### A case that meets the hypotheses -/

/-- Two kinds, 7 and 2, with four fixed bits and one that varies. -/
def twoKinds : Nat → Template
  | 7 => [some false, some true, some false, some true, none]
  | _ => [some true, some false, some true, some false, none]

instance (t : Template) (b : List Bool) : Decidable (Fits t b) :=
  decidable_of_iff (b.length = t.length ∧ ∀ i < t.length, ∀ v : Bool, t[i]? = some (some v) → b[i]? = some v)
    ⟨fun h => ⟨h.1, fun i v hv => h.2 i (by
      by_contra hc
      rw [List.getElem?_eq_none (by omega)] at hv
      cases hv) v hv⟩, fun h => ⟨h.1, fun i _ v => h.2 i v⟩⟩

instance (b : List Bool) : Decidable (Mixed b) := inferInstanceAs (Decidable (_ ∧ _))

/-- Two buffers of each kind. -/
def exTrain : List (List Bool) := [[false, true, false, true, false], [true, false, true, false, true],
  [true, false, true, false, false], [false, true, false, true, true]]

def exLater : List (List Bool) := [[true, false, true, false, true], [false, true, false, true, false]]

theorem ex_train : List.Forall₂ (fun b g => Mixed b ∧ Fits (twoKinds g) b) exTrain [7, 2, 2, 7] :=
  .cons (by decide) (.cons (by decide) (.cons (by decide) (.cons (by decide) .nil)))

theorem ex_later : List.Forall₂ (fun b g => g ∈ [7, 2, 2, 7] ∧ Fits (twoKinds g) b) exLater [2, 7] :=
  .cons (by decide) (.cons (by decide) .nil)

example (less : ℝ → ℝ → Bool) (hless : ∀ x y, less x y = true ↔ x < y) :
    ∃ st, classifyAll ⟨hammingScore, fun a b => decide (a < b), MergeDist.of .hellinger .linear, less⟩ { minData := 5, k := 2 }
      (exTrain ++ exLater) = .ok ([-1, -1, -1, -1, 1, 0], st) :=
  c145_hamming .hellinger .linear less hless twoKinds 5 1 4 exTrain exLater [7, 2, 2, 7] [2, 7] (by decide) ex_train ex_later
    (by decide) (by decide +kernel) (by decide +kernel) (by decide) (by norm_num [heaviest, exTrain])

example (gt less : ℝ → ℝ → Bool) (hgt : ∀ x y, gt x y = true ↔ x > y) (hless : ∀ x y, less x y = true ↔ x < y) :
    ∃ st, classifyAll ⟨llScore, gt, MergeDist.of .klDiv .linear, less⟩ { minData := 5, k := 2 } (exTrain ++ exLater) =
      .ok ([-1, -1, -1, -1, 1, 0], st) :=
  c145_log_likelihood .klDiv .linear gt less hgt hless twoKinds 5 1 4 exTrain exLater [7, 2, 2, 7] [2, 7] (by decide) ex_train ex_later
    (by decide) (by decide +kernel) (by decide +kernel) (by decide) (by norm_num [heaviest, exTrain])

example : (∀ b ∈ exTrain, Mixed b ∧ b.length = 5) ∧ exTrain.toFinset.card = 4 ∧ ∀ b ∈ exLater, b ∈ exTrain := by decide +kernel

end NR.C145
