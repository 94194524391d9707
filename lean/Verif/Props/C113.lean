import Verif.Model.BinStats
import Verif.Props.C112
/-
C113: success rates by input error rate (runs/Feb_2022/data/data_reader.m, analysis.m).
-/
namespace NR.C113
open Spec Feb

theorem maxBer_spec : ∀ (rs : List (ℝ × Bool)) (m : ℝ), maxBer rs = some m → (∃ r ∈ rs, r.1 = m) ∧ ∀ r ∈ rs, r.1 ≤ m
  | [], m, h => by simp [maxBer] at h
  | r :: rs, m, h => by
    rw [maxBer] at h
    rcases hm : maxBer rs with _ | m'
    · rw [hm] at h
      simp only [Option.some.injEq] at h
      subst h
      have : rs = [] := by
        cases rs with
        | nil => rfl
        | cons a as =>
          rw [maxBer] at hm
          revert hm
          cases maxBer as <;> simp
      subst this
      exact ⟨⟨r, by simp, rfl⟩, by simp⟩
    · rw [hm] at h
      simp only [Option.some.injEq] at h
      obtain ⟨⟨y, hy, hym⟩, hall⟩ := maxBer_spec rs m' hm
      subst h
      constructor
      · rcases le_total r.1 m' with hle | hle
        · exact ⟨y, by simp [hy], by rw [hym, max_eq_right hle]⟩
        · exact ⟨r, by simp, by rw [max_eq_left hle]⟩
      · intro z hz
        rw [List.mem_cons] at hz
        rcases hz with rfl | hz
        · exact le_max_left _ _
        · exact (hall z hz).trans (le_max_right _ _)

theorem maxBer_some (rs : List (ℝ × Bool)) (h : rs ≠ []) : ∃ m, maxBer rs = some m := by
  cases rs with
  | nil => exact absurd rfl h
  | cons r rs =>
    rw [maxBer]
    cases maxBer rs with
    | none => exact ⟨_, rfl⟩
    | some m => exact ⟨_, rfl⟩

theorem edges_top {w m : ℝ} (hw : 0 < w) (hm : 0 ≤ m) : ⌊(m + w) / w⌋₊ = ⌊m / w⌋₊ + 1 := by
  rw [add_div, div_self hw.ne', Nat.floor_add_one (div_nonneg hm hw.le)]

theorem edges_get {w m : ℝ} (hw : 0 < w) (hm : 0 ≤ m) :
    (binEdges w (m + w)).length - 1 = ⌊m / w⌋₊ + 1 ∧
    ∀ j, j ≤ ⌊m / w⌋₊ + 1 → (binEdges w (m + w)).getD j 0 = (j : ℝ) * w := by
  have h0 : ¬ m + w < 0 := by linarith
  unfold binEdges
  rw [if_neg h0, edges_top hw hm]
  refine ⟨by simp, ?_⟩
  intro j hj
  rw [List.getD_eq_getElem?_getD, List.getElem?_map, List.getElem?_range (by omega)]
  rfl

theorem ceil_le (w m : ℝ) : ⌈m / w⌉.toNat ≤ ⌊m / w⌋₊ + 1 := by
  have h : ⌈m / w⌉ ≤ ((⌊m / w⌋₊ + 1 : Nat) : Int) := by
    rw [Int.ceil_le]
    push_cast
    exact (Nat.lt_floor_add_one _).le
  omega

open Classical in
/-- The readings of the bin from `j * w` to `(j + 1) * w`. -/
noncomputable def binned (w : ℝ) (rs : List (ℝ × Bool)) (j : Nat) : List (ℝ × Bool) :=
  rs.filter fun r => decide ((j : ℝ) * w ≤ r.1 ∧ r.1 < ((j : ℝ) + 1) * w)

theorem table_eq {w m : ℝ} (hw : 0 < w) (hm : 0 ≤ m) (r14 r16 : List (ℝ × Bool)) (hmax : maxBer (r14 ++ r16) = some m) :
    binTable w r14 r16 = (List.range (⌊m / w⌋₊ + 1)).map fun j =>
      ((binned w (r14 ++ r16) j).length, rateOf ((binned w (r14 ++ r16) j).map (·.2))) := by
  unfold binTable
  rw [hmax]
  obtain ⟨h1, h2⟩ := edges_get hw hm
  simp only
  rw [h1, max_eq_right (ceil_le w m)]
  apply List.map_congr_left
  intro j hj
  rw [List.mem_range] at hj
  rw [if_pos hj, h2 j (by omega), h2 (j + 1) (by omega)]
  have e : inBin ((j : ℝ) * w) (((j + 1 : Nat) : ℝ) * w) r14 ++ inBin ((j : ℝ) * w) (((j + 1 : Nat) : ℝ) * w) r16 =
      (binned w (r14 ++ r16) j).map (·.2) := by
    unfold inBin binned
    rw [← List.map_append, ← List.filter_append]
    congr 2
    funext r
    push_cast
    simp
  rw [e, List.length_map]

theorem floor_bin {w b : ℝ} (hw : 0 < w) (hb : 0 ≤ b) (j : Nat) :
    ((j : ℝ) * w ≤ b ∧ b < ((j : ℝ) + 1) * w) ↔ j = ⌊b / w⌋₊ := by
  rw [eq_comm, Nat.floor_eq_iff (div_nonneg hb hw.le), le_div_iff₀ hw, div_lt_iff₀ hw]

/-- Counting by bins counts every reading once. -/
theorem sum_bins {w : ℝ} (hw : 0 < w) (n : Nat) (p : ℝ × Bool → Bool) : ∀ (rs : List (ℝ × Bool)),
    (∀ r ∈ rs, 0 ≤ r.1 → ⌊r.1 / w⌋₊ < n) →
    ((List.range n).map fun j => (binned w rs j).countP p).sum = by
      classical exact rs.countP fun r => decide (0 ≤ r.1) && p r
  | [], _ => by simp [binned]
  | r :: rs, h => by
    classical
    have ih := sum_bins hw n p rs fun r hr => h r (by simp [hr])
    have e : (fun j => (binned w (r :: rs) j).countP p) = fun j => (binned w rs j).countP p +
        (if ((j : ℝ) * w ≤ r.1 ∧ r.1 < ((j : ℝ) + 1) * w) ∧ p r = true then 1 else 0) := by
      funext j
      unfold binned
      rw [List.filter_cons]
      by_cases hj : (j : ℝ) * w ≤ r.1 ∧ r.1 < ((j : ℝ) + 1) * w
      · rw [if_pos (by simpa using hj), List.countP_cons]
        simp [hj]
      · rw [if_neg (by simpa using hj)]
        simp [hj]
    rw [e, List.sum_map_add, ih, List.countP_cons]
    congr 1
    by_cases hb : 0 ≤ r.1
    · have hlt := h r (by simp) hb
      have e2 : ∀ j : Nat, (((j : ℝ) * w ≤ r.1 ∧ r.1 < ((j : ℝ) + 1) * w) ∧ p r = true) ↔ (j = ⌊r.1 / w⌋₊ ∧ p r = true) :=
        fun j => by rw [floor_bin hw hb]
      simp only [e2]
      by_cases hp : p r = true
      · simp only [hp, and_true, hb, decide_true, Bool.and_self, if_true]
        have : ∀ n k, k < n → ((List.range n).map fun j => if j = k then 1 else 0).sum = 1 := by
          intro n
          induction n with
          | zero => intro k hk; omega
          | succ n ihn =>
            intro k hk
            rw [List.range_succ, List.map_append, List.sum_append]
            by_cases hkn : k = n
            · subst hkn
              have : (List.range k).map (fun j => if j = k then 1 else 0) = (List.range k).map fun _ => 0 := by
                apply List.map_congr_left
                intro j hj
                rw [List.mem_range] at hj
                rw [if_neg (by omega)]
              rw [this]
              simp
            · rw [ihn k (by omega)]
              simp [Ne.symm hkn]
        exact this n _ hlt
      · simp [hp]
    · have e2 : ∀ j : Nat, ¬ (((j : ℝ) * w ≤ r.1 ∧ r.1 < ((j : ℝ) + 1) * w) ∧ p r = true) := by
        rintro j ⟨⟨h1, _⟩, _⟩
        exact hb ((mul_nonneg (Nat.cast_nonneg j) hw.le).trans h1)
      simp only [e2, if_false]
      simp [hb]

theorem rate_mul (l : List (ℝ × Bool)) : ((rateOf (l.map (·.2))).getD 0) * (l.length : ℝ) = (l.countP (·.2) : ℝ) := by
  have hc : (l.map (·.2)).count true = l.countP (·.2) := by
    rw [List.count, List.countP_map]
    congr 1
    funext r
    simp
  unfold rateOf
  rw [List.length_map]
  by_cases h : l.length = 0
  · rw [if_pos h]
    have : l = [] := List.length_eq_zero_iff.1 h
    subst this
    simp
  · rw [if_neg h, Option.getD_some, hc]
    have : (l.length : ℝ) ≠ 0 := by exact_mod_cast h
    field_simp

/-! ### The property -/

open Classical in
/-- **C113, bins.** Let some reading have an error rate of at least 0, and `m` be the largest one. The table then has one bin for every
multiple of the width up to `m`. Bin `j` has as many attempts as there are readings with an error rate from `j` widths to less than
`j + 1` widths, of both days together; its rate is the share of successes among them, NaN if there are none. -/
theorem c113_bins (w : ℝ) (hw : 0 < w) (r14 r16 : List (ℝ × Bool)) (h : ∃ r ∈ r14 ++ r16, 0 ≤ r.1) :
    ∃ m, (∃ r ∈ r14 ++ r16, r.1 = m) ∧ (∀ r ∈ r14 ++ r16, r.1 ≤ m) ∧ (binTable w r14 r16).length = ⌊m / w⌋₊ + 1 ∧
      ∀ j, j < ⌊m / w⌋₊ + 1 → ∀ inside, inside = (r14 ++ r16).filter (fun r => decide ((j : ℝ) * w ≤ r.1 ∧ r.1 < ((j : ℝ) + 1) * w)) →
        (binTable w r14 r16)[j]? = some (inside.length,
          if inside = [] then none else some ((inside.countP (·.2) : ℝ) / inside.length)) := by
  obtain ⟨r0, hr0, hr0b⟩ := h
  obtain ⟨m, hm⟩ := maxBer_some (r14 ++ r16) (List.ne_nil_of_mem hr0)
  obtain ⟨h1, h2⟩ := maxBer_spec _ _ hm
  have hm0 : 0 ≤ m := hr0b.trans (h2 r0 hr0)
  refine ⟨m, h1, h2, by rw [table_eq hw hm0 r14 r16 hm]; simp, ?_⟩
  rintro j hj inside rfl
  rw [table_eq hw hm0 r14 r16 hm, List.getElem?_map, List.getElem?_range hj]
  have hc : ∀ l : List (ℝ × Bool), (l.map (·.2)).count true = l.countP (·.2) := by
    intro l
    rw [List.count, List.countP_map]
    congr 1
    funext r
    simp
  change some ((binned w (r14 ++ r16) j).length, _) = some ((binned w (r14 ++ r16) j).length, _)
  congr 2
  unfold rateOf
  rw [List.length_map, hc]
  simp only [List.length_eq_zero_iff]
  rfl

theorem table_neg {w : ℝ} (hw : 0 < w) (r14 r16 : List (ℝ × Bool)) (h : ∀ r ∈ r14 ++ r16, r.1 < 0) : binTable w r14 r16 = [] := by
  unfold binTable
  rcases hm : maxBer (r14 ++ r16) with _ | m
  · rfl
  · obtain ⟨⟨r, hr, e⟩, _⟩ := maxBer_spec _ _ hm
    have hm0 : m < 0 := e ▸ h r hr
    have h1 : ⌈m / w⌉.toNat = 0 := by
      have : ⌈m / w⌉ ≤ 0 := by rw [Int.ceil_le]; exact_mod_cast (div_neg_of_neg_of_pos hm0 hw).le
      omega
    have h2 : (binEdges w (m + w)).length - 1 = 0 := by
      unfold binEdges
      split
      · rfl
      · have : ⌊(m + w) / w⌋₊ = 0 := by
          rw [Nat.floor_eq_zero, div_lt_one hw]
          linarith
        simp [this]
    simp [h1, h2]

open Classical in
/-- **C113, totals.** The attempts of all bins together are the readings with an error rate of at least 0, and the attempts times the rates
together are the successes among these. Each such reading lies in exactly one bin of the table. -/
theorem c113_totals (w : ℝ) (hw : 0 < w) (r14 r16 : List (ℝ × Bool)) :
    ((binTable w r14 r16).map (·.1)).sum = (r14 ++ r16).countP (fun r => decide (0 ≤ r.1)) ∧
    ((binTable w r14 r16).map fun b => b.2.getD 0 * (b.1 : ℝ)).sum = (r14 ++ r16).countP (fun r => decide (0 ≤ r.1) && r.2) ∧
    ∀ r ∈ r14 ++ r16, 0 ≤ r.1 → ∃! j, j < (binTable w r14 r16).length ∧ (j : ℝ) * w ≤ r.1 ∧ r.1 < ((j : ℝ) + 1) * w := by
  by_cases h : ∃ r ∈ r14 ++ r16, 0 ≤ r.1
  · obtain ⟨r0, hr0, hr0b⟩ := h
    obtain ⟨m, hm⟩ := maxBer_some (r14 ++ r16) (List.ne_nil_of_mem hr0)
    obtain ⟨h1, h2⟩ := maxBer_spec _ _ hm
    have hm0 : 0 ≤ m := hr0b.trans (h2 r0 hr0)
    have hfl : ∀ r ∈ r14 ++ r16, 0 ≤ r.1 → ⌊r.1 / w⌋₊ < ⌊m / w⌋₊ + 1 := fun r hr hb =>
      Nat.lt_succ_of_le (Nat.floor_le_floor (div_le_div_of_nonneg_right (h2 r hr) hw.le))
    rw [table_eq hw hm0 r14 r16 hm, List.map_map, List.map_map]
    refine ⟨?_, ?_, ?_⟩
    · have := sum_bins hw (⌊m / w⌋₊ + 1) (fun _ => true) (r14 ++ r16) hfl
      simpa [Function.comp_def] using this
    · have := sum_bins hw (⌊m / w⌋₊ + 1) (·.2) (r14 ++ r16) hfl
      rw [← this, Nat.cast_list_sum, List.map_map]
      congr 1
      apply List.map_congr_left
      intro j _
      exact rate_mul _
    · intro r hr hb
      refine ⟨⌊r.1 / w⌋₊, ⟨by simpa using hfl r hr hb, (floor_bin hw hb _).2 rfl⟩, ?_⟩
      rintro j ⟨_, hj⟩
      exact (floor_bin hw hb j).1 hj
  · have h' : ∀ r ∈ r14 ++ r16, r.1 < 0 := fun r hr => not_le.1 fun hb => h ⟨r, hr, hb⟩
    rw [table_neg hw r14 r16 h']
    have e : ∀ p : ℝ × Bool → Bool, (r14 ++ r16).countP (fun r => decide (0 ≤ r.1) && p r) = 0 := by
      intro p
      rw [List.countP_eq_zero]
      intro r hr
      simp [h' r hr]
    refine ⟨?_, ?_, fun r hr hb => absurd (h' r hr) (not_lt.2 hb)⟩
    · have := e fun _ => true
      simp only [Bool.and_true] at this
      rw [this]
      rfl
    · rw [e]
      simp

/-- What the script finds out about one reception of a day: its error rate is -1 or at least 0, and at least 0 exactly if its word is
known; a success has a known word. -/
theorem reading_spec (day : Day) {L : Nat} (hL : 2 ≤ L) (total : Nat) (dec : List ℝ → List Bool) (ship hc : List Record)
    (hber : ∀ x ∈ ship, x.rawBer = -1 ∨ 0 ≤ x.rawBer) (rs : List Reception)
    (hrs : readDay day L total dec ship hc = .ok rs) (r : Reception) (hr : r ∈ rs) :
    (r.inputBer = -1 ∨ 0 ≤ r.inputBer) ∧ (0 ≤ r.inputBer ↔ r.tx ≠ none) ∧ (r.success → r.tx ≠ none) := by
  obtain ⟨rs', h1, h2, _, h4⟩ := C112.c112_read day hL total dec ship hc
  rw [hrs] at h1
  injection h1 with h1
  subst h1
  have hmem : r.src ∈ ship := by
    have hu : r.src ∈ usedRx day L ship := h2.mem_iff.1 (List.mem_map_of_mem hr)
    cases day with
    | feb14 => exact (((C112.c112_used L ship).1 _).1 ((C112.c112_used L ship).2.1.subset hu)).1
    | feb16 => exact (((C112.c112_used L ship).1 _).1 hu).1
  obtain ⟨hs, hd⟩ := h4 r hr
  have hnn : ∀ n : Nat, (0 : ℝ) ≤ (n : ℝ) / L := fun n => by positivity
  have hknown : ∀ w, r.tx = some w → 0 ≤ r.inputBer →
      (r.inputBer = -1 ∨ 0 ≤ r.inputBer) ∧ (0 ≤ r.inputBer ↔ r.tx ≠ none) ∧ (r.success → r.tx ≠ none) := by
    intro w hw hb
    refine ⟨Or.inr hb, ?_, fun _ => by rw [hw]; simp⟩
    rw [hw]
    simp [hb]
  by_cases hb : r.src.rawBer = -1
  · by_cases hdec : Decoded day (usedRx day L ship) r.src
    · rcases hdec with h | ⟨rfl, hex⟩
      · exact absurd hb h
      · obtain ⟨y, _, _, _, htx, hib, _⟩ := C112.c112_copy hL total dec ship hc rs hrs r hr hb hex
        exact hknown _ htx (by rw [hib]; exact hnn _)
    · obtain ⟨i, hi⟩ := List.getElem?_of_mem hr
      rcases C112.c112_search day hL total dec ship hc rs hrs i r hi hdec with ⟨h, hib⟩ | ⟨_, _, _, w, _, _, _, _, _, htx, hib, _⟩
      · refine ⟨Or.inl hib, ?_, fun h' => absurd hb (hs.1 h')⟩
        rw [hib, h]
        norm_num
      · exact hknown w htx (by rw [hib]; exact hnn _)
  · obtain ⟨htx, hib⟩ := hd hb
    refine hknown _ htx ?_
    rw [hib]
    exact (hber _ hmem).resolve_left hb

open Classical in
/-- **C113, both days.** For the results of the reading of C112 (error rates of the modem -1 or at least 0): the attempts of all bins are the
receptions with a known word, so are the entries of the two histograms together; the attempts times the rates are all successes; and the
overall success rate is the number of successes over the number of all receptions, known or not. -/
theorem c113_days {L : Nat} (hL : 2 ≤ L) (total14 total16 : Nat) (dec : List ℝ → List Bool) (ship14 hc14 ship16 hc16 : List Record)
    (hber : ∀ x ∈ ship14 ++ ship16, x.rawBer = -1 ∨ 0 ≤ x.rawBer) (rs14 rs16 : List Reception)
    (h14 : readDay .feb14 L total14 dec ship14 hc14 = .ok rs14) (h16 : readDay .feb16 L total16 dec ship16 hc16 = .ok rs16)
    (w : ℝ) (hw : 0 < w) (hne : rs14 ++ rs16 ≠ []) :
    ((binTable w (readings rs14) (readings rs16)).map (·.1)).sum = (rs14 ++ rs16).countP (fun r => decide (r.tx ≠ none)) ∧
    ((binTable w (readings rs14) (readings rs16)).map fun b => b.2.getD 0 * (b.1 : ℝ)).sum =
      (rs14 ++ rs16).countP (fun r => decide (r.src.rawBer ≠ -1)) ∧
    (successBers (readings rs14 ++ readings rs16)).length + (failureBers (readings rs14 ++ readings rs16)).length =
      (rs14 ++ rs16).countP (fun r => decide (r.tx ≠ none)) ∧
    overallRate (readings rs14) (readings rs16) =
      some (((rs14 ++ rs16).countP (fun r => decide (r.src.rawBer ≠ -1)) : ℝ) / (rs14 ++ rs16).length) := by
  have key : ∀ r ∈ rs14 ++ rs16, ((r.inputBer = -1 ∨ 0 ≤ r.inputBer) ∧ (0 ≤ r.inputBer ↔ r.tx ≠ none) ∧
      (r.success → r.tx ≠ none)) ∧ (r.success ↔ r.src.rawBer ≠ -1) := by
    intro r hr
    rw [List.mem_append] at hr
    rcases hr with hr | hr
    · refine ⟨reading_spec .feb14 hL total14 dec ship14 hc14 (fun x hx => hber x (by simp [hx])) rs14 h14 r hr, ?_⟩
      obtain ⟨rs', h1, _, _, h4⟩ := C112.c112_read .feb14 hL total14 dec ship14 hc14
      rw [h14] at h1
      injection h1 with h1
      subst h1
      exact (h4 r hr).1
    · refine ⟨reading_spec .feb16 hL total16 dec ship16 hc16 (fun x hx => hber x (by simp [hx])) rs16 h16 r hr, ?_⟩
      obtain ⟨rs', h1, _, _, h4⟩ := C112.c112_read .feb16 hL total16 dec ship16 hc16
      rw [h16] at h1
      injection h1 with h1
      subst h1
      exact (h4 r hr).1
  have hread : readings rs14 ++ readings rs16 = readings (rs14 ++ rs16) := by simp [readings]
  have hcount : ∀ (p : ℝ × Bool → Bool) (q : Reception → Bool), (∀ r ∈ rs14 ++ rs16, p (r.inputBer, decide r.success) = q r) →
      (readings rs14 ++ readings rs16).countP p = (rs14 ++ rs16).countP q := by
    intro p q hpq
    rw [hread, readings, List.countP_map]
    apply List.countP_congr
    intro r hr
    rw [← hpq r hr]
    rfl
  obtain ⟨t1, t2, _⟩ := c113_totals w hw (readings rs14) (readings rs16)
  have e1 : (readings rs14 ++ readings rs16).countP (fun r => decide (0 ≤ r.1)) =
      (rs14 ++ rs16).countP (fun r => decide (r.tx ≠ none)) := by
    apply hcount
    intro r hr
    rw [decide_eq_decide]
    exact (key r hr).1.2.1
  have e2 : ∀ r ∈ rs14 ++ rs16, r.success → 0 ≤ r.inputBer := fun r hr hs => (key r hr).1.2.1.2 ((key r hr).1.2.2 hs)
  have e3 : (readings rs14 ++ readings rs16).countP (·.2) = (rs14 ++ rs16).countP (fun r => decide (r.src.rawBer ≠ -1)) := by
    apply hcount
    intro r hr
    rw [decide_eq_decide]
    exact (key r hr).2
  refine ⟨by rw [t1, e1], ?_, ?_, ?_⟩
  · rw [t2]
    congr 1
    apply hcount
    intro r hr
    by_cases hs : r.success
    · simp [hs, e2 r hr hs, (key r hr).2.1 hs]
    · have : r.src.rawBer = -1 := by
        by_contra h
        exact hs ((key r hr).2.2 h)
      simp [hs, this]
  · rw [← e1]
    unfold successBers failureBers
    rw [List.length_map, ← List.countP_eq_length_filter, ← List.countP_eq_length_filter, List.countP_map, List.countP_filter]
    rw [hcount _ (fun r => decide r.success) (fun r _ => rfl),
      hcount _ (fun r => decide (r.inputBer ≠ -1) && !decide r.success) (fun r _ => rfl),
      hcount _ (fun r => decide (0 ≤ r.inputBer)) (fun r _ => rfl)]
    have : ∀ l : List Reception, (∀ r ∈ l, r ∈ rs14 ++ rs16) → l.countP (fun r => decide r.success) +
        l.countP (fun r => decide (r.inputBer ≠ -1) && !decide r.success) = l.countP fun r => decide (0 ≤ r.inputBer) := by
      intro l
      induction l with
      | nil => intro _; rfl
      | cons r l ih =>
        intro hl
        have hr := hl r (by simp)
        have ih := ih fun x hx => hl x (by simp [hx])
        rw [List.countP_cons, List.countP_cons, List.countP_cons, ← ih]
        by_cases hs : r.success
        · have h0 := e2 r hr hs
          simp only [hs, h0, decide_true, if_true, Bool.not_true, Bool.and_false, Bool.false_eq_true, if_false]
          omega
        · rcases (key r hr).1.1 with hb | hb
          · simp [hs, hb]
          · have : r.inputBer ≠ -1 := by intro h; rw [h] at hb; norm_num at hb
            simp [hs, hb, this]
            omega
    exact this _ fun r hr => hr
  · unfold overallRate
    have hl : (readings rs14).length + (readings rs16).length = (rs14 ++ rs16).length := by simp [readings]
    rw [hl, if_neg (by simpa using hne), ← List.countP_append, e3]

/-- A bin without readings has rate NaN, the others their share. -/
example : binTable 1 [(1 / 2, true), (-1, false)] [(5 / 2, false), (1 / 2, false)] = [(2, some (1 / 2)), (0, none), (1, some 0)] := by
  have hm : maxBer ([(1 / 2, true), (-1, false)] ++ [(5 / 2, false), (1 / 2, false)]) = some (5 / 2 : ℝ) := by
    simp [maxBer]
    norm_num
  rw [table_eq (by norm_num) (by norm_num) _ _ hm]
  have hf : ⌊(5 / 2 : ℝ) / 1⌋₊ = 2 := by rw [Nat.floor_eq_iff (by norm_num)]; norm_num
  rw [hf]
  simp [List.range_succ, binned, List.filter_cons, rateOf]
  norm_num
  simp

end NR.C113
