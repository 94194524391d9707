import Verif.Props.C29
import Verif.Lemmas.Normal
import Verif.Model.FieldBits
/-
C129: what a field model says about single bits: the probability that the sign is right, the number of significant bits, the
bitwise score.
-/
namespace NR.C129
open NR Spec FieldModel Real

/-- A refresh never raises over the reals; afterwards the model is up to date, with the statistics of the samples kept, unless
there are none. -/
theorem refresh_facts (tb : ℝ → CType → Except PyErr (List Bool)) {w : Option Nat} {t : CType} {h : List ℝ}
    {m : FieldModel ℝ ℝ} (hi : FieldInv (realOps tb) w t h m) (hu : m.up2date = true → m.samples ≠ []) :
    ∃ m', m.refresh (realOps tb) = (m', .ok ()) ∧ (windowed w h = [] → m'.up2date = false) ∧
      (windowed w h ≠ [] → m'.up2date = true ∧ m'.mean = Spec.average (windowed w h) ∧ m'.std = stdDev (windowed w h)) := by
  unfold FieldModel.refresh
  by_cases hup : m.up2date = true
  · have hs := hi.fresh hup
    rw [realOps_stats] at hs
    injection hs with hs
    have h1 := congrArg Prod.fst hs
    have h2 := congrArg Prod.snd hs
    simp only at h1 h2
    have hne := hu hup
    rw [hi.samples] at hne h1 h2
    refine ⟨m, by rw [if_pos hup], fun h => absurd h hne, fun _ => ⟨hup, h1.symm, h2.symm⟩⟩
  · rw [if_neg hup]
    unfold FieldModel.update
    by_cases he : m.samples = []
    · rw [if_pos he]
      have := he
      rw [hi.samples] at this
      exact ⟨m, rfl, fun _ => by simpa using hup, fun h => absurd this h⟩
    · rw [if_neg he]
      have := he
      rw [hi.samples] at this
      refine ⟨_, rfl, fun h => absurd h this, fun _ => ⟨rfl, ?_, ?_⟩⟩
      · simp only [hi.samples]
      · simp only [hi.samples]

theorem sign_eq (tb : ℝ → CType → Except PyErr (List Bool)) {w : Option Nat} {t : CType} {h : List ℝ}
    {m : FieldModel ℝ ℝ} (hi : FieldInv (realOps tb) w t h m) (hu : m.up2date = true → m.samples ≠ [])
    (hs : t.signed = true) :
    m.pOfSignBit (realOps tb) = ((m.refresh (realOps tb)).1, if windowed w h = [] then .error .zeroDivisionError
      else .ok (signP (Spec.average (windowed w h)) (stdDev (windowed w h)))) := by
  obtain ⟨m', h1, h2, h3⟩ := refresh_facts tb hi hu
  unfold pOfSignBit
  rw [hi.type, hs, h1]
  by_cases he : windowed w h = []
  · simp [h2 he, he]
  · obtain ⟨h4, h5, h6⟩ := h3 he
    simp [he, h4, h5, h6]

theorem significant_eq (tb : ℝ → CType → Except PyErr (List Bool)) {w : Option Nat} {t : CType} {h : List ℝ}
    {m : FieldModel ℝ ℝ} (hi : FieldInv (realOps tb) w t h m) (hu : m.up2date = true → m.samples ≠ []) (n : ℝ) :
    m.stdSignificantBits (realOps tb) n = ((m.refresh (realOps tb)).1, if windowed w h = [] then .error .zeroDivisionError
      else sigBits n (stdDev (windowed w h))) := by
  obtain ⟨m', h1, h2, h3⟩ := refresh_facts tb hi hu
  unfold stdSignificantBits
  rw [h1]
  by_cases he : windowed w h = []
  · simp [h2 he, he]
  · obtain ⟨h4, h5, h6⟩ := h3 he
    simp [he, h4, h6]

/-- A model is only up to date when it has samples. -/
theorem run_up2date (tb : ℝ → CType → Except PyErr (List Bool)) {w : Option Nat} {t : CType} :
    ∀ (ops : List (FieldOp ℝ)) (h : List ℝ) (m : FieldModel ℝ ℝ), FieldInv (realOps tb) w t h m →
      (m.up2date = true → m.samples ≠ []) →
      ((runOps (realOps tb) m ops).1.up2date = true → (runOps (realOps tb) m ops).1.samples ≠ []) := by
  intro ops
  induction ops with
  | nil => intro h m _ hu; exact hu
  | cons o ops ih =>
    intro h m hi hu
    cases o with
    | add a =>
      simp only [runOps]
      refine ih _ _ (inv_add _ hi a) ?_
      rw [addSample_samples]
      simp
    | read r =>
      simp only [runOps]
      refine ih _ _ (inv_read _ hi r).1 ?_
      have hr : (m.read (realOps tb) r).1 = m ∨ (m.read (realOps tb) r).1 = (m.refresh (realOps tb)).1 := by
        cases r <;> simp only [FieldModel.read, true_or] <;> right <;> rcases m.refresh (realOps tb) with ⟨a, _ | b⟩ <;> rfl
      rcases hr with hr | hr
      · rw [hr]; exact hu
      · rw [hr]
        unfold FieldModel.refresh
        split
        · exact hu
        · unfold FieldModel.update
          split
          · exact hu
          · rename_i hne
            simp only [realOps]
            intro _
            exact hne

theorem reach (tb : ℝ → CType → Except PyErr (List Bool)) (name : String) (t : CType) (w : Option Nat)
    (m : FieldModel ℝ ℝ) (h : FieldModel.new (realOps tb) name t.cname w = .ok m) (ops : List (FieldOp ℝ)) :
    FieldInv (realOps tb) w t (added ops) (runOps (realOps tb) m ops).1 ∧
    ((runOps (realOps tb) m ops).1.up2date = true → (runOps (realOps tb) m ops).1.samples ≠ []) := by
  have ht : typeOfName t.cname = some t := by cases t <;> decide
  obtain ⟨m', h1, h2, _⟩ := inv_new (realOps tb) (name := name) (w := w) ht
  rw [h] at h1
  injection h1 with h1
  subst h1
  have hi := (runOps_spec (realOps tb) ops [] m h2).1
  simp only [List.nil_append] at hi
  refine ⟨hi, run_up2date tb ops [] m h2 ?_⟩
  have hm : m.up2date = false := by
    simp only [FieldModel.new, ht] at h
    injection h with h
    subst h
    rfl
  simp [hm]

/-- Reads after a refresh return what they returned before it. -/
theorem reads_same (tb : ℝ → CType → Except PyErr (List Bool)) {w : Option Nat} {t : CType} {h : List ℝ}
    {m : FieldModel ℝ ℝ} (hi : FieldInv (realOps tb) w t h m) (r : Read ℝ) :
    ((m.refresh (realOps tb)).1.read (realOps tb) r).2 = (m.read (realOps tb) r).2 := by
  rw [(inv_read _ (inv_refresh _ hi).1 r).2, (inv_read _ hi r).2]

theorem normCdf_eq {s : ℝ} (hs : 0 < s) (c : ℝ) : normCdf (-|c| / s) = (normal c s).real (Set.Iic (c - |c|)) := by
  rw [normal_Iic c hs, normCdf, show c - |c| - c = -|c| by ring]

theorem sign_pos {s : ℝ} (hs : 0 < s) {c : ℝ} (hc : 0 ≤ c) : 1 - normCdf (-|c| / s) = (normal c s).real {y | 0 < y} := by
  rw [show {y : ℝ | 0 < y} = Set.Ioi 0 from rfl, normal_Ioi c hs, normCdf, abs_of_nonneg hc, zero_sub]
  ring

theorem sign_neg {s : ℝ} (hs : 0 < s) {c : ℝ} (hc : c < 0) : 1 - normCdf (-|c| / s) = (normal c s).real {y | y < 0} := by
  rw [show {y : ℝ | y < 0} = Set.Iio 0 from rfl, normal_Iio c hs, normCdf, abs_of_neg hc, zero_sub, neg_neg,
    show c / s / √2 = -(-c / s / √2) by ring, erf_neg]
  ring

/-- C129, the sign: a field of an unsigned type is always certain of it. For a signed type, whatever the history, the answer
is the probability that a normally distributed reading with the mean and the deviation of the samples kept has the sign of
their mean, as long as they are not all the same; it is 1 if they are all the same number other than 0. -/
theorem c129_sign (tb : ℝ → CType → Except PyErr (List Bool)) (name : String) (t : CType) (w : Option Nat)
    (m : FieldModel ℝ ℝ) (h : FieldModel.new (realOps tb) name t.cname w = .ok m) (ops : List (FieldOp ℝ))
    (kept : List ℝ) (hk : kept = windowed w (added ops)) (p : Except PyErr (Option ℝ))
    (hp : p = ((runOps (realOps tb) m ops).1.pOfSignBit (realOps tb)).2) :
    (t.signed = false → p = .ok (some 1)) ∧
    (t.signed = true → (∃ a ∈ kept, a ≠ Spec.average kept) →
      p = .ok (some (if 0 ≤ Spec.average kept then (normal (Spec.average kept) (stdDev kept)).real {y | 0 < y}
        else (normal (Spec.average kept) (stdDev kept)).real {y | y < 0}))) ∧
    (t.signed = true → (∀ a ∈ kept, a = Spec.average kept) → Spec.average kept ≠ 0 → p = .ok (some 1)) := by
  obtain ⟨hi, hu⟩ := reach tb name t w m h ops
  subst hk
  have key : t.signed = true → p = if windowed w (added ops) = [] then .error .zeroDivisionError else
      .ok (signP (Spec.average (windowed w (added ops))) (stdDev (windowed w (added ops)))) := by
    intro hs
    rw [hp, sign_eq tb hi hu hs]
  refine ⟨?_, ?_, ?_⟩
  · intro hs
    rw [hp]
    unfold pOfSignBit
    rw [hi.type, hs]
    simp
  · rintro hs ⟨a, ha, hne⟩
    have h0 : stdDev (windowed w (added ops)) ≠ 0 := fun h0 => hne (stdDev_eq_zero.1 h0 a ha)
    have hpos : 0 < stdDev (windowed w (added ops)) := lt_of_le_of_ne (stdDev_nonneg _) (Ne.symm h0)
    rw [key hs, if_neg (List.ne_nil_of_mem ha), signP, if_neg h0]
    split
    · rename_i hc
      rw [sign_pos hpos hc]
    · rename_i hc
      rw [sign_neg hpos (not_le.1 hc)]
  · intro hs hall hc
    have h0 : stdDev (windowed w (added ops)) = 0 := stdDev_eq_zero.2 hall
    have hnn : windowed w (added ops) ≠ [] := by
      intro hnil
      rw [hnil] at hc
      simp [Spec.average] at hc
    rw [key hs, if_neg hnn, signP, if_pos h0, if_neg hc]
    simp

/-- C129: for a signed type that probability is at least one half and below 1, and one half only if the mean is 0. -/
theorem c129_sign_range (c s : ℝ) (hs : 0 < s) (p : ℝ)
    (hp : p = if 0 ≤ c then (normal c s).real {y | 0 < y} else (normal c s).real {y | y < 0}) :
    1 / 2 ≤ p ∧ p < 1 ∧ (p = 1 / 2 ↔ c = 0) := by
  have hpc : p = (1 + erf (|c| / s / √2)) / 2 := by
    have : p = 1 - normCdf (-|c| / s) := by
      rw [hp]
      split
      · rename_i hc; rw [sign_pos hs hc]
      · rename_i hc; rw [sign_neg hs (not_le.1 hc)]
    rw [this, normCdf, show -|c| / s / √2 = -(|c| / s / √2) by ring, erf_neg]
    ring
  have h1 : 0 ≤ erf (|c| / s / √2) := erf_nonneg (by positivity)
  have h2 := erf_lt_one (|c| / s / √2)
  refine ⟨by linarith, by linarith, ?_⟩
  constructor
  · intro hh
    by_contra hc
    have : 0 < |c| / s / √2 := by
      have := abs_pos.2 hc
      positivity
    have := erf_strictMono this
    rw [erf_zero] at this
    linarith
  · intro hc
    rw [hpc, hc]
    simp [erf_zero]

/-- C129: the answer is not always a probability. A signed field without samples raises ZeroDivisionError, although its mean
and deviation can be read, and one whose samples are all 0 answers NaN, although it has never seen another sign. -/
theorem c129_sign_always_false (tb : ℝ → CType → Except PyErr (List Bool)) (name : String) (t : CType) (w : Option Nat)
    (m : FieldModel ℝ ℝ) (h : FieldModel.new (realOps tb) name t.cname w = .ok m) (ops : List (FieldOp ℝ))
    (hs : t.signed = true) :
    (windowed w (added ops) = [] → ((runOps (realOps tb) m ops).1.pOfSignBit (realOps tb)).2 = .error .zeroDivisionError ∧
      ((runOps (realOps tb) m ops).1.read (realOps tb) .mean).2 = .ok (.stat 0) ∧
      ((runOps (realOps tb) m ops).1.read (realOps tb) .std).2 = .ok (.stat 0)) ∧
    (windowed w (added ops) ≠ [] → (∀ a ∈ windowed w (added ops), a = 0) →
      ((runOps (realOps tb) m ops).1.pOfSignBit (realOps tb)).2 = .ok none) := by
  obtain ⟨hi, hu⟩ := reach tb name t w m h ops
  have key := sign_eq tb hi hu hs
  constructor
  · intro hnil
    refine ⟨?_, ?_, ?_⟩
    · rw [key, if_pos hnil]
    · rw [(inv_read _ hi .mean).2, hnil, realOps_stats]
      simp [Except.bind, answer, Spec.average]
    · rw [(inv_read _ hi .std).2, hnil, realOps_stats]
      simp [Except.bind, answer, stdDev, Spec.average]
  · intro hne hall
    have havg : Spec.average (windowed w (added ops)) = 0 := by
      have : (windowed w (added ops)).sum = 0 := List.sum_eq_zero hall
      simp [Spec.average, this]
    have hstd : stdDev (windowed w (added ops)) = 0 := stdDev_eq_zero.2 (by rw [havg]; exact hall)
    rw [key, if_neg hne, havg, hstd]
    simp [signP]

theorem sigBits_le {n s : ℝ} (hn : 0 < n) (hs : 0 < s) : ∃ k : ℤ, sigBits n s = .ok k ∧
    ∀ j : ℤ, k ≤ j ↔ (2 : ℝ) ^ (-j) ≤ n * s := by
  have hx : 0 < n * s := by positivity
  refine ⟨⌈logb 2 (1 / (n * s))⌉, ?_, ?_⟩
  · rw [sigBits, if_neg (not_lt.2 hn.le), if_neg hx.ne']
  · intro j
    rw [Int.ceil_le, Real.logb_le_iff_le_rpow (by norm_num) (by positivity), Real.rpow_intCast, zpow_neg,
      inv_le_comm₀ (by positivity) hx, one_div]

/-- C129, the significant bits: for a positive multiple of the deviation, and samples kept that are not all the same, the
answer is the least number of binary places whose unit is not above that multiple. In particular it is at most 0 as soon as
the multiple is 1 or more. -/
theorem c129_significant (tb : ℝ → CType → Except PyErr (List Bool)) (name : String) (t : CType) (w : Option Nat)
    (m : FieldModel ℝ ℝ) (h : FieldModel.new (realOps tb) name t.cname w = .ok m) (ops : List (FieldOp ℝ))
    (kept : List ℝ) (hk : kept = windowed w (added ops)) (hv : ∃ a ∈ kept, a ≠ Spec.average kept) (n : ℝ) (hn : 0 < n) :
    ∃ k : ℤ, ((runOps (realOps tb) m ops).1.stdSignificantBits (realOps tb) n).2 = .ok k ∧
      (∀ j : ℤ, k ≤ j ↔ (2 : ℝ) ^ (-j) ≤ n * stdDev kept) ∧ (1 ≤ n * stdDev kept → k ≤ 0) := by
  obtain ⟨hi, hu⟩ := reach tb name t w m h ops
  obtain ⟨a, ha, hne⟩ := hv
  have h0 : stdDev kept ≠ 0 := fun h0 => hne (stdDev_eq_zero.1 h0 a ha)
  have hpos : 0 < stdDev kept := lt_of_le_of_ne (stdDev_nonneg _) (Ne.symm h0)
  obtain ⟨k, h1, h2⟩ := sigBits_le hn hpos
  refine ⟨k, ?_, h2, ?_⟩
  · rw [significant_eq tb hi hu n, ← hk, if_neg (List.ne_nil_of_mem ha), h1]
  · intro h1
    rw [h2]
    simpa using h1

/-- C129: otherwise it raises: ZeroDivisionError without samples, ValueError for a negative multiple, OverflowError for the
multiple 0 and for samples that are all the same. -/
theorem c129_significant_always_false (tb : ℝ → CType → Except PyErr (List Bool)) (name : String) (t : CType)
    (w : Option Nat) (m : FieldModel ℝ ℝ) (h : FieldModel.new (realOps tb) name t.cname w = .ok m) (ops : List (FieldOp ℝ))
    (kept : List ℝ) (hk : kept = windowed w (added ops)) (n : ℝ) (r : Except PyErr Int)
    (hr : r = ((runOps (realOps tb) m ops).1.stdSignificantBits (realOps tb) n).2) :
    (kept = [] → r = .error .zeroDivisionError) ∧
    (kept ≠ [] → n < 0 → r = .error .valueError) ∧
    (kept ≠ [] → n = 0 → r = .error .overflowError) ∧
    (kept ≠ [] → 0 ≤ n → (∀ a ∈ kept, a = Spec.average kept) → r = .error .overflowError) := by
  obtain ⟨hi, hu⟩ := reach tb name t w m h ops
  have key : r = if kept = [] then .error .zeroDivisionError else sigBits n (stdDev kept) := by
    rw [hr]
    rw [significant_eq tb hi hu n, ← hk]
  refine ⟨fun h1 => by rw [key, if_pos h1], fun h1 h2 => by rw [key, if_neg h1, sigBits, if_pos h2], ?_, ?_⟩
  · intro h1 h2
    rw [key, if_neg h1, sigBits, h2]
    simp
  · intro h1 h2 h3
    rw [key, if_neg h1, sigBits, if_neg (not_lt.2 h2), stdDev_eq_zero.2 h3]
    simp

/-- C129: the bitwise score is the single number 0 for every value and every history, and no read can tell whether one of the
three methods was called before it. -/
theorem c129_quiet (tb : ℝ → CType → Except PyErr (List Bool)) (name : String) (t : CType) (w : Option Nat)
    (m : FieldModel ℝ ℝ) (h : FieldModel.new (realOps tb) name t.cname w = .ok m) (ops : List (FieldOp ℝ)) (x n : ℝ)
    (r : Read ℝ) (f : FieldModel ℝ ℝ) (hf : f = (runOps (realOps tb) m ops).1) :
    (f.bitwiseClassifyValue (realOps tb) x).2 = .ok [0] ∧
    ((f.bitwiseClassifyValue (realOps tb) x).1.read (realOps tb) r).2 = (f.read (realOps tb) r).2 ∧
    ((f.pOfSignBit (realOps tb)).1.read (realOps tb) r).2 = (f.read (realOps tb) r).2 ∧
    ((f.stdSignificantBits (realOps tb) n).1.read (realOps tb) r).2 = (f.read (realOps tb) r).2 := by
  obtain ⟨hi, hu⟩ := reach tb name t w m h ops
  rw [← hf] at hi hu
  have hrf := reads_same tb hi r
  have hok : (f.refresh (realOps tb)).2 = .ok () := by
    unfold FieldModel.refresh FieldModel.update
    split
    · rfl
    · split
      · rfl
      · rfl
  have hb : f.bitwiseClassifyValue (realOps tb) x = ((f.refresh (realOps tb)).1, .ok [0]) := by
    unfold bitwiseClassifyValue
    generalize f.refresh (realOps tb) = p at hok
    obtain ⟨a, b⟩ := p
    simp only at hok
    rw [hok]
  refine ⟨by rw [hb], by rw [hb]; exact hrf, ?_, ?_⟩
  · cases hs : t.signed with
    | false =>
      unfold pOfSignBit
      rw [hi.type, hs, if_pos rfl]
    | true =>
      rw [sign_eq tb hi hu hs]
      exact hrf
  · rw [significant_eq tb hi hu n]
    exact hrf

/-- Two samples, 1 and 3, of a float field: the sign is that of a normal reading with mean 2 and deviation 1, and the deviation
takes no binary place. -/
example : ∃ m, FieldModel.new (realOps fun _ _ => .error .structError) "alt" CType.f32.cname (some 5) = .ok m ∧
    ((runOps (realOps fun _ _ => .error .structError) m [FieldOp.add (.many [(1 : ℝ), 3])]).1.pOfSignBit
      (realOps fun _ _ => .error .structError)).2 = .ok (some ((normal 2 1).real {y | 0 < y})) ∧
    ((runOps (realOps fun _ _ => .error .structError) m [FieldOp.add (.many [(1 : ℝ), 3])]).1.stdSignificantBits
      (realOps fun _ _ => .error .structError) 1).2 = .ok 0 := by
  have hkept : [(1 : ℝ), 3] = windowed (some 5) (added [FieldOp.add (.many [(1 : ℝ), 3])]) := by
    simp [windowed, lastN, added, SampleArg.toList]
  have ha : Spec.average [(1 : ℝ), 3] = 2 := by norm_num [Spec.average]
  have hs : stdDev [(1 : ℝ), 3] = 1 := by
    unfold stdDev
    rw [ha]
    norm_num [Spec.average]
  have hv : ∃ a ∈ [(1 : ℝ), 3], a ≠ Spec.average [(1 : ℝ), 3] := ⟨1, by simp, by rw [ha]; norm_num⟩
  refine ⟨_, rfl, ?_, ?_⟩
  · have := (c129_sign (fun _ _ => .error .structError) "alt" .f32 (some 5) _ rfl
      [FieldOp.add (.many [(1 : ℝ), 3])] _ hkept _ rfl).2.1 rfl hv
    rw [ha, hs, if_pos (by norm_num)] at this
    exact this
  · obtain ⟨k, h1, h2, h3⟩ := c129_significant (fun _ _ => .error .structError) "alt" .f32 (some 5) _ rfl
      [FieldOp.add (.many [(1 : ℝ), 3])] _ hkept hv 1 one_pos
    rw [hs] at h2 h3
    have : k = 0 := by
      refine le_antisymm (h3 (by norm_num)) ?_
      by_contra hlt
      have := (h2 (-1)).1 (by omega)
      norm_num at this
    rw [h1, this]

end NR.C129
