import Verif.Props.C145_Weights
import Mathlib.Analysis.Convex.SpecificFunctions.Basic
import Mathlib.Analysis.Convex.Jensen
/-
C145: buffers with a few wrong bits after the training.
-/
namespace NR.C145
open NR Spec NR.C133

/-- A buffer of that kind with at most `e` wrong bits. -/
def Near (e : Nat) (t : Template) (b : List Bool) : Prop := b.length = t.length ∧ strays t b ≤ e

theorem Near.of_fits {e : Nat} {t : Template} {b : List Bool} (h : Fits t b) : Near e t b := by
  refine ⟨h.1, ?_⟩
  have : strays t b = 0 := by
    unfold strays
    rw [Finset.card_eq_zero, Finset.filter_eq_empty_iff]
    rintro i _ ⟨v, h1, h2⟩
    exact h2 (h.2 i v h1)
  omega

/-- Counting wrong bits by positions and by buffers. -/
theorem count_le (S : Finset Nat) (p : Nat → List Bool → Bool) (e : Nat) : ∀ s : List (List Bool),
    (∀ x ∈ s, (S.filter fun i => p i x = true).card ≤ e) → ∑ i ∈ S, s.countP (p i) ≤ e * s.length
  | [], _ => by simp
  | x :: s, h => by
    have h1 := count_le S p e s fun y hy => h y (List.mem_cons_of_mem _ hy)
    have h2 := h x List.mem_cons_self
    simp only [List.countP_cons, Finset.sum_add_distrib, List.length_cons]
    rw [Finset.sum_boole]
    rw [mul_add, mul_one]
    exact Nat.add_le_add h1 h2

theorem share_le (S : Finset Nat) (p : Nat → List Bool → Bool) (e : Nat) {s : List (List Bool)} (hne : s ≠ [])
    (h : ∀ x ∈ s, (S.filter fun i => p i x = true).card ≤ e) : ∑ i ∈ S, ((s.countP (p i) : ℝ) / s.length) ≤ e := by
  have hl : (0 : ℝ) < s.length := by exact_mod_cast List.length_pos_iff.2 hne
  rw [← Finset.sum_div, div_le_iff₀ hl]
  exact_mod_cast count_le S p e s h

theorem agree_bounds (b : List Bool) {s : List (List Bool)} (hne : s ≠ []) (i : Nat) : 0 ≤ agree b s i ∧ agree b s i ≤ 1 := by
  have hl : (0 : ℝ) < s.length := by exact_mod_cast List.length_pos_iff.2 hne
  unfold agree
  refine ⟨by positivity, (div_le_one hl).2 ?_⟩
  exact_mod_cast List.countP_le_length

/-- The logarithm is above its chord. -/
theorem chord {a : ℝ} (h0 : 0 ≤ a) (h1 : a ≤ 1) : tiny * (1 - a) ≤ Real.log (a + 2 ^ (-52 : ℤ)) := by
  have hp : (0 : ℝ) < 2 ^ (-52 : ℤ) := by positivity
  have := strictConcaveOn_log_Ioi.concaveOn.2 (show (2 : ℝ) ^ (-52 : ℤ) ∈ Set.Ioi 0 from hp)
    (show (1 : ℝ) + 2 ^ (-52 : ℤ) ∈ Set.Ioi 0 from by show (0 : ℝ) < _; linarith) (by linarith : (0 : ℝ) ≤ 1 - a) h0 (by ring)
  simp only [smul_eq_mul] at this
  have e : (1 - a) * (2 : ℝ) ^ (-52 : ℤ) + a * (1 + 2 ^ (-52 : ℤ)) = a + 2 ^ (-52 : ℤ) := by ring
  rw [e] at this
  have h2 : 0 ≤ Real.log (1 + 2 ^ (-52 : ℤ)) := Real.log_nonneg (by linarith)
  unfold tiny
  nlinarith [mul_nonneg h0 h2]

theorem noisy_own {e : Nat} {t : Template} {b : List Bool} (hb : Near e t b) {s : List (List Bool)} (hne : s ≠ [])
    (hs : ∀ b ∈ s, Near e t b) : tiny * (varying t + 2 * e) / t.length ≤ logLik b s := by
  unfold logLik
  rw [sum_list, hb.1]
  apply div_le_div_of_nonneg_right _ (by positivity)
  have hl : (0 : ℝ) < s.length := by exact_mod_cast List.length_pos_iff.2 hne
  have hneg := tiny_bounds.2
  let p : Nat → List Bool → Bool := fun i x => decide (∃ v : Bool, t[i]? = some (some v) ∧ x[i]? ≠ some v)
  have hS : ∀ x, ((Finset.range t.length).filter fun i => p i x = true).card = strays t x := by
    intro x
    unfold strays
    simp only [p, decide_eq_true_eq]
  have hshare := share_le (Finset.range t.length) p e hne fun x hx => by rw [hS]; exact (hs x hx).2
  have e1 : (varying t : ℝ) = ∑ i ∈ Finset.range t.length, if t[i]? = some none then (1 : ℝ) else 0 := by
    rw [Finset.sum_boole]; rfl
  have e2 : (strays t b : ℝ) = ∑ i ∈ Finset.range t.length, if p i b = true then (1 : ℝ) else 0 := by
    rw [Finset.sum_boole, hS]
  have hbound : (varying t : ℝ) + strays t b + ∑ i ∈ Finset.range t.length, ((s.countP (p i) : ℝ) / s.length) ≤ varying t + 2 * e := by
    have : (strays t b : ℝ) ≤ e := by exact_mod_cast hb.2
    linarith
  refine (mul_le_mul_of_nonpos_left hbound hneg.le).trans ?_
  rw [e1, e2, ← Finset.sum_add_distrib, ← Finset.sum_add_distrib, Finset.mul_sum]
  apply Finset.sum_le_sum
  intro i hi
  have hi' := Finset.mem_range.1 hi
  obtain ⟨a0, a1⟩ := agree_bounds b hne i
  have hc := chord a0 a1
  have hq : (0 : ℝ) ≤ (s.countP (p i) : ℝ) / s.length := by positivity
  have hlow : tiny ≤ Real.log (agree b s i + 2 ^ (-52 : ℤ)) := by nlinarith
  refine le_min ?_ (le_max_of_le_right ?_)
  · apply mul_nonpos_of_nonpos_of_nonneg hneg.le
    positivity
  by_cases hv : t[i]? = some none
  · rw [if_pos hv]
    refine le_trans ?_ hlow
    have : (0 : ℝ) ≤ if p i b = true then (1 : ℝ) else 0 := by positivity
    nlinarith
  rw [if_neg hv]
  by_cases hp : p i b = true
  · rw [if_pos hp]
    refine le_trans ?_ hlow
    nlinarith
  rw [if_neg hp, zero_add, zero_add]
  refine le_trans (mul_le_mul_of_nonpos_left ?_ hneg.le) hc
  -- where `b` is right, whoever disagrees with it is wrong
  obtain ⟨v, hv⟩ : ∃ v : Bool, t[i]? = some (some v) := by
    rw [List.getElem?_eq_getElem hi'] at hv ⊢
    cases hx : t[i] with
    | none => rw [hx] at hv; exact absurd rfl hv
    | some v => exact ⟨v, rfl⟩
  have hbv : b[i]? = some v := by
    by_contra hc
    exact hp (decide_eq_true ⟨v, hv, hc⟩)
  have hpi : ∀ x : List Bool, p i x = !(x[i]? == b[i]?) := by
    intro x
    rw [Bool.eq_iff_iff, hbv]
    simp only [p, hv, Option.some.injEq, decide_eq_true_eq, Bool.not_eq_true', beq_eq_false_iff_ne, ne_eq]
    exact ⟨fun ⟨w, h1, h2⟩ => h1 ▸ h2, fun h => ⟨v, rfl, h⟩⟩
  have hsum : (s.countP fun x => x[i]? == b[i]?) + s.countP (p i) = s.length := by
    rw [List.length_eq_countP_add_countP (fun x : List Bool => x[i]? == b[i]?) (l := s)]
    congr 1
    apply List.countP_congr
    intro x _
    rw [hpi x]
    simp
  have hsum' : ((s.countP fun x => x[i]? == b[i]? : Nat) : ℝ) + (s.countP (p i) : ℝ) = s.length := by exact_mod_cast hsum
  unfold agree
  rw [sub_le_iff_le_add, ← add_div, add_comm, hsum', div_self hl.ne']

/-- The largest sum of logarithms. -/
theorem sum_log_le (S : Finset Nat) (a : Nat → ℝ) {e : ℝ} (ha : ∀ i ∈ S, 0 ≤ a i) (hsum : ∑ i ∈ S, a i ≤ e) (hS : 0 < S.card) :
    ∑ i ∈ S, Real.log (a i + 2 ^ (-52 : ℤ)) ≤ S.card * Real.log ((e + S.card * 2 ^ (-52 : ℤ)) / S.card) := by
  have hp : (0 : ℝ) < 2 ^ (-52 : ℤ) := by positivity
  have hn : (0 : ℝ) < S.card := by exact_mod_cast hS
  have hj := strictConcaveOn_log_Ioi.concaveOn.le_map_sum (t := S) (w := fun _ => (1 : ℝ) / S.card)
    (p := fun i => a i + 2 ^ (-52 : ℤ)) (fun _ _ => by positivity) (by rw [Finset.sum_const, nsmul_eq_mul]; field_simp)
    (fun i hi => show (0 : ℝ) < _ by have := ha i hi; linarith)
  simp only [smul_eq_mul, ← Finset.mul_sum, Finset.sum_add_distrib, Finset.sum_const, nsmul_eq_mul] at hj
  have h0 : 0 ≤ ∑ i ∈ S, a i := Finset.sum_nonneg ha
  have hle : Real.log (1 / S.card * (∑ i ∈ S, a i + S.card * 2 ^ (-52 : ℤ))) ≤ Real.log ((e + S.card * 2 ^ (-52 : ℤ)) / S.card) := by
    apply Real.log_le_log
    · positivity
    · rw [one_div, inv_mul_eq_div]
      exact div_le_div_of_nonneg_right (by linarith) hn.le
  have := mul_le_mul_of_nonneg_left (hj.trans hle) hn.le
  rwa [← mul_assoc, mul_one_div_cancel hn.ne', one_mul] at this

theorem noisy_other {e D : Nat} {t u : Template} {b : List Bool} (hb : Near e t b) {s : List (List Bool)} (hne : s ≠ [])
    (hu : u.length = t.length) (hs : ∀ b ∈ s, Near e u b) (hD : D ≤ clash t u) (heD : e < D) :
    logLik b s ≤ (D - e : ℝ) * Real.log ((e + (D - e : ℝ) * 2 ^ (-52 : ℤ)) / (D - e)) / t.length := by
  unfold logLik
  rw [sum_list, hb.1]
  apply div_le_div_of_nonneg_right _ (by positivity)
  let C := (Finset.range t.length).filter fun i => ∃ v : Bool, t[i]? = some (some v) ∧ u[i]? = some (some !v)
  let W := (Finset.range t.length).filter fun i => ∃ v : Bool, t[i]? = some (some v) ∧ b[i]? ≠ some v
  have hC : D ≤ C.card := hD
  have hW : W.card ≤ e := hb.2
  have hCW : D - e ≤ (C \ W).card := by
    have := Finset.le_card_sdiff W C
    omega
  obtain ⟨S, hSC, hcard⟩ := Finset.exists_subset_card_eq hCW
  have hS : S ⊆ Finset.range t.length := fun i hi => (Finset.mem_filter.1 (Finset.mem_sdiff.1 (hSC hi)).1).1
  have hfact : ∀ i ∈ S, ∃ v : Bool, u[i]? = some (some !v) ∧ b[i]? = some v := by
    intro i hi
    obtain ⟨h1, h2⟩ := Finset.mem_sdiff.1 (hSC hi)
    obtain ⟨hr, v, h3, h4⟩ := Finset.mem_filter.1 h1
    refine ⟨v, h4, ?_⟩
    by_contra hc
    exact h2 (Finset.mem_filter.2 ⟨hr, v, h3, hc⟩)
  have hagree : ∑ i ∈ S, agree b s i ≤ e := by
    refine share_le S (fun i x => x[i]? == b[i]?) e hne fun x hx => ?_
    refine le_trans (Finset.card_le_card ?_) (hs x hx).2
    intro i hi
    obtain ⟨h1, h2⟩ := Finset.mem_filter.1 hi
    obtain ⟨v, h3, h4⟩ := hfact i h1
    rw [Finset.mem_filter, hu]
    refine ⟨hS h1, !v, h3, ?_⟩
    rw [eq_of_beq h2, h4]
    cases v <;> simp
  have hcast : (S.card : ℝ) = D - e := by rw [hcard, Nat.cast_sub heD.le]
  have hj := sum_log_le S (fun i => agree b s i) (fun i _ => (agree_bounds b hne i).1) hagree (by omega)
  rw [hcast] at hj
  refine le_trans ?_ hj
  have hp : (0 : ℝ) < 2 ^ (-52 : ℤ) := by positivity
  rw [← Finset.sum_sdiff hS]
  refine add_le_of_nonpos_of_le (Finset.sum_nonpos fun i _ => min_le_left _ _) (Finset.sum_le_sum ?_)
  · intro i _
    have h0 := (agree_bounds b hne i).1
    have : tiny ≤ Real.log (agree b s i + 2 ^ (-52 : ℤ)) := Real.log_le_log hp (by linarith)
    exact (min_le_right _ _).trans (max_le (tiny_bounds.1.le.trans this) (le_refl _))

theorem tiny_eq : tiny = -52 * Real.log 2 := by
  unfold tiny
  rw [Real.log_zpow]
  norm_num

theorem noisy_decides {δ : Type} (gt : ℝ → ℝ → Bool) (hgt : ∀ x y, gt x y = true ↔ x > y) (mdist : Cluster → Cluster → Except PyErr δ)
    (less : δ → δ → Bool) {ts : Nat → Template} {kinds : List Nat} {L V D e : Nat} (ha : Apart ts kinds L V D) (he : e < D)
    (hV : 52 * Real.log 2 * (V + 2 * e) < (D - e) * Real.log ((D - e) / (e + (D - e) * 2 ^ (-52 : ℤ)))) :
    Decides ⟨llScore, gt, mdist, less⟩ (fun g => Near e (ts g)) kinds := by
  intro cs parts ks b g hg hk hnd hgk hb hu
  refine @pick_kind ℝ δ (OrderDual.instLinearOrder ℝ) ⟨llScore, gt, mdist, less⟩ hgt (fun g => Near e (ts g)) kinds L
    (fun g hg b hb => hb.1.trans (ha.length g hg)) cs parts ks hg hk hnd b g hgk hb
    (fun s => logLik b s) (fun c s bs hc => llScore_ok bs hc.symm) ?_ hu
  intro s t h hh hne hs ht hs' ht'
  show logLik b t < logLik b s
  have hgk' := hk g hgk
  have h1 := noisy_own hb hs hs'
  have h2 := noisy_other hb ht ((ha.length h hh).trans (ha.length g hgk').symm) ht' (ha.clash g hgk' h hh (Ne.symm hne)) he
  have h3 : (varying (ts g) : ℝ) ≤ V := by exact_mod_cast ha.varying g hgk'
  have h5 : clash (ts g) (ts h) ≤ (ts g).length := by
    unfold clash
    exact (Finset.card_filter_le _ _).trans (by simp)
  have h4 := ha.clash g hgk' h hh (Ne.symm hne)
  have hl : (0 : ℝ) < (ts g).length := by exact_mod_cast (by omega : 0 < (ts g).length)
  have hinv : Real.log ((e + (D - e) * 2 ^ (-52 : ℤ)) / (D - e)) = -Real.log ((D - e) / (e + (D - e) * 2 ^ (-52 : ℤ))) := by
    rw [← Real.log_inv, inv_div]
  rw [hinv] at h2
  refine lt_of_le_of_lt h2 (lt_of_lt_of_le (div_lt_div_of_pos_right ?_ hl) h1)
  rw [tiny_eq]
  have hlog : 0 < Real.log 2 := Real.log_pos (by norm_num)
  nlinarith

/-- **C145**, with noise. The training is as before, but every later buffer may have up to `e` of the bits wrong that its kind fixes.
If enough bits tell the kinds apart, log-likelihood still gives every later buffer the label of its kind, however many there are, although
the wrong bits go into the clusters. For `e = 0` the condition says `V < D`. -/
theorem c145_noise (md : MergeDist) (w : Weight) (gt less : ℝ → ℝ → Bool) (hgt : ∀ x y, gt x y = true ↔ x > y)
    (hless : ∀ x y, less x y = true ↔ x < y) (ts : Nat → Template) (L V D e : Nat) (train later : List (List Bool))
    (kinds laterKinds : List Nat) (hne : train ≠ []) (htrain : List.Forall₂ (fun b g => Mixed b ∧ Fits (ts g) b) train kinds)
    (hlater : List.Forall₂ (fun b g => g ∈ kinds ∧ b.length = L ∧ strays (ts g) b ≤ e) later laterKinds)
    (hl : ∀ g ∈ kinds, (ts g).length = L) (hv : ∀ g ∈ kinds, varying (ts g) ≤ V)
    (hc : ∀ g ∈ kinds, ∀ h ∈ kinds, g ≠ h → D ≤ clash (ts g) (ts h)) (he : e < D)
    (hV : 52 * Real.log 2 * (V + 2 * e) < (D - e) * Real.log ((D - e) / (e + (D - e) * 2 ^ (-52 : ℤ))))
    (hw : (V : ℝ) * heaviest w train.length < D) :
    ∃ st, classifyAll ⟨llScore, gt, MergeDist.of md w, less⟩ { minData := train.length + 1, k := (firsts kinds).length } (train ++ later) =
      .ok (List.replicate train.length (-1) ++ laterKinds.map (fun g => ((firsts kinds).idxOf g : Int)), st) :=
  run md w _ rfl hless ts (fun g => Near e (ts g)) (fun _ _ h => Near.of_fits h) L V D train later kinds laterKinds ⟨hl, hv, hc⟩ hw hne
    htrain (hlater.imp fun _ g h => ⟨h.1, h.2.1.trans (hl g h.1).symm, h.2.2⟩) (noisy_decides gt hgt _ _ ⟨hl, hv, hc⟩ he hV)

/-- Without errors the condition is the one of `c145_log_likelihood`. -/
theorem c145_noise_none (V D : Nat) (hD : 0 < D) :
    52 * Real.log 2 * ((V : ℝ) + 2 * (0 : Nat)) < ((D : ℝ) - (0 : Nat)) * Real.log ((D - (0 : Nat)) / ((0 : Nat) + (D - (0 : Nat)) * 2 ^ (-52 : ℤ))) ↔
      V < D := by
  have hD' : (0 : ℝ) < D := by exact_mod_cast hD
  have hlog : 0 < Real.log 2 := Real.log_pos (by norm_num)
  have e1 : ((D : ℝ) - (0 : Nat)) / ((0 : Nat) + (D - (0 : Nat)) * 2 ^ (-52 : ℤ)) = 2 ^ (52 : ℤ) := by
    rw [Nat.cast_zero, sub_zero, zero_add, div_mul_eq_div_div, div_self hD'.ne', one_div, ← zpow_neg]
    norm_num
  rw [e1, Real.log_zpow]
  push_cast
  constructor
  · intro h
    have : (V : ℝ) < D := by nlinarith
    exact_mod_cast this
  · intro h
    have : (V : ℝ) < D := by exact_mod_cast h
    nlinarith

/-! ### Hamming distance does not allow this -/

/-- Two kinds that differ in every bit. -/
def opposed : Nat → Template
  | 0 => (List.replicate 33 (some true)) ++ [some false]
  | _ => (List.replicate 33 (some false)) ++ [some true]

def opposedBits (g : Nat) : List Bool := (opposed g).map fun x => x == some true

/-- Buffers of kind 1 with one wrong bit, each time another one. -/
def oneWrong : List (List Bool) := (List.range 33).map fun j => (opposedBits 1).set j true

theorem one_wrong : List.Forall₂ (fun b g => g ∈ [0, 1] ∧ b.length = 34 ∧ strays (opposed g) b ≤ 1) oneWrong (List.replicate 33 1) := by
  have h : ∀ b ∈ oneWrong, b.length = 34 ∧ strays (opposed 1) b ≤ 1 := by decide +kernel
  have : ∀ l : List (List Bool), (∀ b ∈ l, b.length = 34 ∧ strays (opposed 1) b ≤ 1) →
      List.Forall₂ (fun b g => g ∈ [0, 1] ∧ b.length = 34 ∧ strays (opposed g) b ≤ 1) l (List.replicate l.length 1) := by
    intro l
    induction l with
    | nil => exact fun _ => .nil
    | cons b l ih =>
      intro h
      exact .cons ⟨by decide, h b List.mem_cons_self⟩ (ih fun x hx => h x (List.mem_cons_of_mem _ hx))
  exact this oneWrong h

/-- **C145**, with noise: Hamming distance gives a wrong label although the kinds differ in 34 bits and every buffer has only one wrong
bit, because the bits of a cluster are one as soon as one sample has a one there. Log-likelihood labels the same buffers correctly. -/
theorem c145_noise_hamming_false (gt less : ℝ → ℝ → Bool) (hgt : ∀ x y, gt x y = true ↔ x > y) (hless : ∀ x y, less x y = true ↔ x < y) :
    (∃ st, classifyAll ⟨llScore, gt, MergeDist.of .hellinger .linear, less⟩ { minData := 3, k := 2 }
      ([opposedBits 0, opposedBits 1] ++ oneWrong) = .ok ([-1, -1] ++ List.replicate 33 1, st)) ∧
    ∃ st, classifyAll ⟨hammingScore, fun a b => decide (a < b), MergeDist.of .hellinger .linear, less⟩ { minData := 3, k := 2 }
      ([opposedBits 0, opposedBits 1] ++ oneWrong) = .ok ([-1, -1] ++ List.replicate 32 1 ++ [0], st) := by
  constructor
  · have := c145_noise .hellinger .linear gt less hgt hless opposed 34 0 33 1 [opposedBits 0, opposedBits 1] oneWrong [0, 1]
      (List.replicate 33 1) (by decide) (.cons (by decide +kernel) (.cons (by decide +kernel) .nil)) one_wrong (by decide +kernel)
      (by decide +kernel) (by decide +kernel) (by decide) ?_ (by norm_num [heaviest])
    · exact this
    · have hlog : 0 < Real.log 2 := Real.log_pos (by norm_num)
      have h16 : 4 * Real.log 2 ≤ Real.log ((33 - 1) / (1 + (33 - 1) * 2 ^ (-52 : ℤ))) := by
        have : (4 : ℝ) * Real.log 2 = Real.log (2 ^ 4) := by rw [Real.log_pow]; norm_num
        rw [this]
        exact Real.log_le_log (by norm_num) (by norm_num)
      push_cast
      nlinarith
  · have h : ∃ st, classifyAll (quick hammingScore fun a b => decide (a < b)) { minData := 3, k := 2 }
        ([opposedBits 0, opposedBits 1] ++ oneWrong) = .ok ([-1, -1] ++ List.replicate 32 1 ++ [0], st) := by
      have : (classifyAll (quick hammingScore fun a b => decide (a < b)) { minData := 3, k := 2 }
        ([opposedBits 0, opposedBits 1] ++ oneWrong)).map (·.1) = .ok ([-1, -1] ++ List.replicate 32 1 ++ [0]) := by decide +kernel
      revert this
      cases classifyAll (quick hammingScore fun a b => decide (a < b)) { minData := 3, k := 2 } ([opposedBits 0, opposedBits 1] ++ oneWrong) with
      | error e => exact fun h => by cases h
      | ok r => exact fun h => ⟨r.2, by rw [← Except.ok.inj h]⟩
    obtain ⟨st, h⟩ := h
    exact ⟨st, all_cast hless h⟩

end NR.C145
