import Verif.Props.C72
/-
C137: which received bits the DUDE decoder overrules.
-/
namespace NR.C137
open NR NR.Spec

variable {σ Λ : Type}

/-- How often the value `v` was received earlier after the same `k` values as now. -/
def inContext (k : Nat) (past : List Bool) (v : Bool) : Nat :=
  (List.range past.length).countP fun j =>
    decide (k ≤ j ∧ (past.drop (j - k)).take k = past.drop (past.length - k) ∧ past[j]? = some v)

/-- The probability that a received value is wrong, when over a channel with flip probability `f` the other value was received `other`
times in this context and this one `this` times: the counts corrected for the channel, at least one each, times the probabilities of
receiving this value. -/
noncomputable def doubt (f : ℝ) (other this : ℕ) : ℝ :=
  max 1 (((1 - f) * other - f * this) / (1 - 2 * f)) * f /
    (max 1 (((1 - f) * other - f * this) / (1 - 2 * f)) * f + max 1 (((1 - f) * this - f * other) / (1 - 2 * f)) * (1 - f))

/-- The same for a value `z` received after the values `past`. -/
noncomputable def doubtOf (f : ℝ) (k : Nat) (past : List Bool) (z : Bool) : ℝ :=
  if past.length < k then 0 else doubt f (inContext k past (!z)) (inContext k past z + 1)

/-- What the model says against the received value. -/
noncomputable def against (c : DudeCfg) (past : List Bool) (z : Bool) : ℝ :=
  trust (past.length + 1) c.center c.slope *
    Real.log ((doubtOf c.bitFlip c.context past z + 2 ^ (-52 : ℤ)) / (1 - doubtOf c.bitFlip c.context past z + 2 ^ (-52 : ℤ)))

theorem sym_inj : Function.Injective sym := by
  intro a b h
  cases a <;> cases b <;> simp_all [sym]

theorem before_past {k j : Nat} {past : List Bool} (z : Bool) (hk : k ≤ j) (hj : j ≤ past.length) :
    before ((past ++ [z]).map sym) k j = ((past.drop (j - k)).take k).map sym := by
  unfold before
  rw [← List.map_drop, ← List.map_take, List.drop_append_of_le_length (by omega),
    List.take_append_of_le_length (by rw [List.length_drop]; omega)]

theorem followCount_inContext {k : Nat} {past : List Bool} (hk : k ≤ past.length) (z v : Bool) :
    followCount ((past ++ [z]).map sym) k past.length (if v then 1 else 0) = inContext k past v + (if z = v then 1 else 0) := by
  have hv : (((if v then 1 else 0 : Nat) : Nat) : Int) = sym v := by cases v <;> rfl
  unfold followCount inContext
  rw [List.range_succ, List.countP_append, hv]
  congr 1
  · refine List.countP_congr fun j hj => ?_
    have hj := List.mem_range.1 hj
    have e : ((past ++ [z]).map sym)[j]? = (past[j]?).map sym := by
      rw [List.getElem?_map, List.getElem?_append_left hj]
    have e2 : (past.drop (past.length - k)).take k = past.drop (past.length - k) :=
      List.take_of_length_le (by rw [List.length_drop]; omega)
    rw [e, before_past z hk le_rfl, e2, List.getElem?_eq_getElem hj]
    simp only [decide_eq_true_eq, Option.map_some, Option.some.injEq, sym_inj.eq_iff]
    refine and_congr_right fun hkj => and_congr_left fun _ => ?_
    rw [before_past z hkj hj.le, (List.map_injective_iff.2 sym_inj).eq_iff]
  · rw [List.countP_singleton]
    have : ((past ++ [z]).map sym)[past.length]? = some (sym z) := by simp
    rw [this]
    simp [hk, sym_inj.eq_iff]

theorem oneProb_doubt {f : ℝ} (h0 : 0 ≤ f) (hf : f < 1 / 2) (k : Nat) (past : List Bool) (z : Bool) :
    oneProb f k past z = if z then 1 - doubtOf f k past z else doubtOf f k past z := by
  unfold oneProb doubtOf
  by_cases h : past.length < k
  · rw [if_pos h, if_pos h]; simp
  rw [if_neg h, if_neg h]
  have h1 := followCount_inContext (not_lt.1 h) z true
  have h2 := followCount_inContext (not_lt.1 h) z false
  simp only [if_true, Bool.false_eq_true, if_false] at h1 h2
  simp only
  rw [h1, h2]
  unfold onePosterior doubt
  cases z
  · simp only [Bool.false_eq_true, if_false, if_true, Bool.not_false, Nat.cast_add, Nat.cast_one, add_zero]
    congr 1
    rw [add_comm]
  · simp only [if_true, Bool.not_true, Bool.true_eq_false, if_false, Nat.cast_add, Nat.cast_one, add_zero]
    rw [eq_sub_iff_add_eq, ← add_div, add_comm, div_self]
    have a1 : ∀ x : ℝ, 0 < max 1 x := fun x => lt_of_lt_of_le one_pos (le_max_left _ _)
    have := mul_pos (a1 (((1 - f) * (↑(inContext k past true) + 1) - f * ↑(inContext k past false)) / (1 - 2 * f))) (show 0 < 1 - f by linarith)
    have := mul_nonneg (a1 (((1 - f) * ↑(inContext k past false) - f * (↑(inContext k past true) + 1)) / (1 - 2 * f))).le h0
    positivity

theorem term_against {c : DudeCfg} (h0 : 0 ≤ c.bitFlip) (hf : c.bitFlip < 1 / 2) (past : List Bool) (z : Bool) :
    dudeTerm c.bitFlip c.context c.center c.slope past z = if z then against c past z else -against c past z := by
  unfold dudeTerm against
  rw [oneProb_doubt h0 hf]
  cases z
  · simp only [Bool.false_eq_true, if_false]
    rw [← mul_neg, ← Real.log_inv, inv_div]
  · simp only [if_true]
    rw [sub_sub_cancel]

/-- The word `ch`, received after `words`, is decoded with label `l` and result `out`. -/
structure Case (c : DudeCfg) (cls : Labeler σ) (ldpc : Ldpc Λ) (words : List (List ℝ)) (ch : List ℝ) (l : Nat) (out : DudeOut)
    (own : List (List ℝ)) : Prop where
  flip0 : 0 ≤ c.bitFlip
  flip : c.bitFlip < 1 / 2
  context : 1 ≤ c.context
  model : 0 < c.modelLength
  clipping : 0 < c.clipping
  prefixed : Prefixed c
  long : ∀ w ∈ words, c.modelLength ≤ w.length
  longer : c.modelLength ≤ ch.length
  /-- `own` are the earlier words decoded with the label. -/
  returned : ∃ (cs : σ) (ls : Λ) (s0 : DudeDec σ Λ), DudeDec.new c cs ls = .ok s0 ∧
    ((s0.run c cls ldpc words).1.decode c cls ldpc ch).result = .ok out ∧ own = ownWords l words (s0.run c cls ldpc words).2
  label : out.label = l

open Classical in
/-- **C137.** A model bit is overruled exactly when the magnitude received is smaller than what the model says against it (for a
received one: not larger). -/
theorem c137_overruled {c : DudeCfg} {cls : Labeler σ} {ldpc : Ldpc Λ} {words : List (List ℝ)} {ch : List ℝ} {l : Nat} {out : DudeOut}
    {own : List (List ℝ)} (C : Case c cls ldpc words ch l out own) (hx : ∃ x ∈ ch, x ≠ 0) (i : Nat) (hi : i < c.modelLength) :
    out.denoised.length = ch.length ∧
    (out.denoised.getD i false ≠ decide (ch.getD i 0 < 0) ↔
      |ch.getD i 0| < against c (bitHistory i own) (decide (ch.getD i 0 < 0)) ∨
      (ch.getD i 0 < 0 ∧ |ch.getD i 0| = against c (bitHistory i own) (decide (ch.getD i 0 < 0)))) := by
  obtain ⟨h0, hf, hk, hm, hc, hp, hw, hch, ⟨cs, ls, s0, hnew, hr, rfl⟩, hl⟩ := C
  obtain ⟨peak, handed, hpk, hh, hhl, hwl, hbits, hden⟩ :=
    c72_combines h0 hf hk hm hp cls ldpc cs ls s0 hnew words hw ch hch l out hr hl
  have hpp : 0 < peak := by
    obtain ⟨x, hx1, hx2⟩ := hx
    exact lt_of_lt_of_le (abs_pos.2 hx2) (hpk.2 x hx1)
  have hB : 0 < c.clipping * peak := by positivity
  have hich : i < ch.length := by omega
  refine ⟨by rw [hden]; simp [hardWord, hhl], ?_⟩
  obtain ⟨e1, e2⟩ := hbits i hich
  rw [if_pos hi, term_against h0 hf] at e1
  rw [e1] at e2
  have hd : out.denoised.getD i false = decide (handed.getD i 0 < 0) := by
    rw [hden]
    unfold hardWord
    rw [List.getD_eq_getElem?_getD, List.getElem?_map, List.getElem?_eq_getElem (by omega), List.getD_eq_getElem?_getD,
      List.getElem?_eq_getElem (by omega)]
    rfl
  rw [hd, e2]
  have hs : ∀ y : ℝ, min (c.clipping * peak) (max (-(c.clipping * peak)) y) < 0 ↔ y < 0 := by
    intro y
    rw [min_lt_iff, max_lt_iff]
    constructor
    · rintro (h | h)
      · linarith
      · exact h.2
    · intro h
      exact Or.inr ⟨by linarith, h⟩
  rw [ne_eq, decide_eq_decide, hs]
  generalize bitHistory i (ownWords l words (s0.run c cls ldpc words).2) = past
  generalize ch.getD i 0 = x
  by_cases hz : x < 0
  · simp only [hz, decide_true, if_true, iff_true, true_and]
    rw [abs_of_neg hz, not_lt, ← le_iff_lt_or_eq]
    constructor <;> intro h <;> linarith
  · simp only [hz, decide_false, Bool.false_eq_true, if_false, iff_false, not_not, false_and, or_false]
    rw [abs_of_nonneg (not_lt.1 hz)]
    constructor <;> intro h <;> linarith

open Classical in
/-- **C137.** The other bits of the word are decided as received. -/
theorem c137_others {c : DudeCfg} {cls : Labeler σ} {ldpc : Ldpc Λ} {words : List (List ℝ)} {ch : List ℝ} {l : Nat} {out : DudeOut}
    {own : List (List ℝ)} (C : Case c cls ldpc words ch l out own) (i : Nat) (hi : c.modelLength ≤ i) (hlt : i < ch.length) :
    out.denoised.getD i false = decide (ch.getD i 0 < 0) := by
  obtain ⟨h0, hf, hk, hm, hc, hp, hw, hch, ⟨cs, ls, s0, hnew, hr, rfl⟩, hl⟩ := C
  obtain ⟨peak, handed, hpk, hh, hhl, hwl, hbits, hden⟩ :=
    c72_combines h0 hf hk hm hp cls ldpc cs ls s0 hnew words hw ch hch l out hr hl
  obtain ⟨e1, e2⟩ := hbits i hlt
  rw [if_neg (by omega), add_zero] at e1
  rw [e1] at e2
  have hle : |ch.getD i 0| ≤ peak := by
    refine hpk.2 _ ?_
    rw [List.getD_eq_getElem?_getD, List.getElem?_eq_getElem hlt]
    exact List.getElem_mem hlt
  have hd : out.denoised.getD i false = decide (handed.getD i 0 < 0) := by
    rw [hden]
    unfold hardWord
    rw [List.getD_eq_getElem?_getD, List.getElem?_map, List.getElem?_eq_getElem (by omega), List.getD_eq_getElem?_getD,
      List.getElem?_eq_getElem (by omega)]
    rfl
  rw [hd, e2]
  refine decide_eq_decide.2 ?_
  rw [min_lt_iff, max_lt_iff]
  have h3 : 0 ≤ c.clipping * peak := mul_nonneg hc.le (le_trans (abs_nonneg _) hle)
  constructor
  · rintro (h | h)
    · linarith
    · exact h.2
  · intro h
    have : 0 < peak := lt_of_lt_of_le (abs_pos.2 h.ne) hle
    have := mul_pos hc this
    exact Or.inr ⟨by linarith, h⟩

theorem doubt_bounds {f : ℝ} (h0 : 0 ≤ f) (hf : f < 1 / 2) (a b : ℕ) : 0 ≤ doubt f a b ∧ doubt f a b < 1 := by
  unfold doubt
  have a1 : ∀ x : ℝ, 0 < max 1 x := fun x => lt_of_lt_of_le one_pos (le_max_left _ _)
  have h1 := mul_pos (a1 (((1 - f) * (b : ℝ) - f * a) / (1 - 2 * f))) (show 0 < 1 - f by linarith)
  have h2 := mul_nonneg (a1 (((1 - f) * (a : ℝ) - f * b) / (1 - 2 * f))).le h0
  exact ⟨by positivity, by rw [div_lt_one (by positivity)]; linarith⟩

theorem trust_nonneg (n : Nat) (center slope : ℝ) : 0 ≤ trust n center slope := by
  unfold trust
  split
  · exact le_rfl
  · positivity

theorem doubtOf_bounds {f : ℝ} (h0 : 0 ≤ f) (hf : f < 1 / 2) (k : Nat) (past : List Bool) (z : Bool) :
    0 ≤ doubtOf f k past z ∧ doubtOf f k past z < 1 := by
  unfold doubtOf
  split
  · simp
  · exact doubt_bounds h0 hf _ _

theorem against_nonpos {c : DudeCfg} (h0 : 0 ≤ c.bitFlip) (hf : c.bitFlip < 1 / 2) {past : List Bool} {z : Bool}
    (h : doubtOf c.bitFlip c.context past z ≤ 1 / 2) : against c past z ≤ 0 := by
  have heps : (0 : ℝ) < 2 ^ (-52 : ℤ) := by positivity
  obtain ⟨h1, h2⟩ := doubtOf_bounds h0 hf c.context past z
  refine mul_nonpos_of_nonneg_of_nonpos (trust_nonneg _ _ _) (Real.log_nonpos ?_ ?_)
  · have : 0 < 1 - doubtOf c.bitFlip c.context past z := by linarith
    positivity
  · rw [div_le_one (by linarith)]; linarith

/-- The doubts exceed one half exactly if the other value was received often enough: more often than this one, corrected for the channel,
and a channel-dependent number of times. -/
theorem doubt_half {f : ℝ} (h0 : 0 ≤ f) (hf : f < 1 / 2) (a b : ℕ) : 1 / 2 < doubt f a b ↔
    (1 - f) * (1 - 2 * f) < f * ((1 - f) * a - f * b) ∧ (f ^ 2 + (1 - f) ^ 2) * b < 2 * f * (1 - f) * a := by
  have hd : 0 < 1 - 2 * f := by linarith
  have hg : 0 < 1 - f := by linarith
  unfold doubt
  have a1 : ∀ x : ℝ, 0 < max 1 x := fun x => lt_of_lt_of_le one_pos (le_max_left _ _)
  have h1 := mul_pos (a1 (((1 - f) * (b : ℝ) - f * a) / (1 - 2 * f))) hg
  have h2 := mul_nonneg (a1 (((1 - f) * (a : ℝ) - f * b) / (1 - 2 * f))).le h0
  rw [lt_div_iff₀ (by positivity)]
  have e : (1 / 2 * (max 1 (((1 - f) * (a : ℝ) - f * b) / (1 - 2 * f)) * f + max 1 (((1 - f) * (b : ℝ) - f * a) / (1 - 2 * f)) * (1 - f)) <
      max 1 (((1 - f) * (a : ℝ) - f * b) / (1 - 2 * f)) * f) ↔
      max 1 (((1 - f) * (b : ℝ) - f * a) / (1 - 2 * f)) * (1 - f) < max 1 (((1 - f) * (a : ℝ) - f * b) / (1 - 2 * f)) * f := by
    constructor <;> intro h <;> linarith
  rw [e]
  have hm : ∀ x y : ℝ, max 1 y * (1 - f) < max 1 x * f ↔ (1 - f < x * f ∧ y * (1 - f) < x * f) := by
    intro x y
    rw [max_mul_of_nonneg _ _ hg.le, max_mul_of_nonneg _ _ h0, max_lt_iff, one_mul, one_mul, lt_max_iff, lt_max_iff]
    constructor
    · rintro ⟨h3, h4⟩
      rcases h3 with h3 | h3
      · linarith
      refine ⟨h3, ?_⟩
      rcases h4 with h4 | h4
      · linarith
      · exact h4
    · rintro ⟨h3, h4⟩
      exact ⟨Or.inr h3, Or.inr h4⟩
  rw [hm]
  refine and_congr ?_ ?_
  · rw [div_mul_eq_mul_div, lt_div_iff₀ hd, mul_comm f ((1 - f) * (a : ℝ) - f * b)]
  · rw [div_mul_eq_mul_div, div_mul_eq_mul_div, div_lt_div_iff_of_pos_right hd]
    constructor <;> intro h <;> nlinarith

open Classical in
/-- **C137.** A bit is overruled only after enough evidence: the other value must have been received in the same context more than
`(1 - 2 f) / f` times, and more often than this value by the factor `(f² + (1 - f)²) / (2 f (1 - f))`. -/
theorem c137_evidence {c : DudeCfg} {cls : Labeler σ} {ldpc : Ldpc Λ} {words : List (List ℝ)} {ch : List ℝ} {l : Nat} {out : DudeOut}
    {own : List (List ℝ)} (C : Case c cls ldpc words ch l out own) (hx : ∃ x ∈ ch, x ≠ 0) (i : Nat) (hi : i < c.modelLength)
    (h : out.denoised.getD i false ≠ decide (ch.getD i 0 < 0)) :
    c.context ≤ own.length ∧ 1 < own.length + 1 ∧
    1 - 2 * c.bitFlip < c.bitFlip * inContext c.context (bitHistory i own) (!decide (ch.getD i 0 < 0)) ∧
    (c.bitFlip ^ 2 + (1 - c.bitFlip) ^ 2) * (inContext c.context (bitHistory i own) (decide (ch.getD i 0 < 0)) + 1) <
      2 * c.bitFlip * (1 - c.bitFlip) * inContext c.context (bitHistory i own) (!decide (ch.getD i 0 < 0)) := by
  have hpos : 0 < against c (bitHistory i own) (decide (ch.getD i 0 < 0)) := by
    rcases ((c137_overruled C hx i hi).2.1 h) with h | ⟨h1, h2⟩
    · exact lt_of_le_of_lt (abs_nonneg _) h
    · rw [← h2]; exact abs_pos.2 h1.ne
  have hq : 1 / 2 < doubtOf c.bitFlip c.context (bitHistory i own) (decide (ch.getD i 0 < 0)) := by
    by_contra hn
    exact absurd (against_nonpos C.flip0 C.flip (not_lt.1 hn)) (not_le.2 hpos)
  have hlen : (bitHistory i own).length = own.length := by simp [bitHistory]
  unfold doubtOf at hq
  by_cases hk : (bitHistory i own).length < c.context
  · rw [if_pos hk] at hq; norm_num at hq
  rw [if_neg hk, doubt_half C.flip0 C.flip] at hq
  have := C.context
  refine ⟨by omega, by omega, ?_, ?_⟩
  · have h1 := hq.1
    have hg : 0 < 1 - c.bitFlip := by linarith [C.flip]
    have h2 : 0 ≤ c.bitFlip * (c.bitFlip * ((inContext c.context (bitHistory i own) (decide (ch.getD i 0 < 0)) + 1 : ℕ) : ℝ)) :=
      mul_nonneg C.flip0 (mul_nonneg C.flip0 (Nat.cast_nonneg _))
    by_contra hn
    have := mul_le_mul_of_nonneg_left (not_lt.1 hn) hg.le
    nlinarith
  · have := hq.2
    push_cast at this
    exact this

open Classical in
/-- **C137.** With the default flip probability, 0, nothing is ever overruled: the denoised bits are the received ones, after any history. -/
theorem c137_default {c : DudeCfg} {cls : Labeler σ} {ldpc : Ldpc Λ} {words : List (List ℝ)} {ch : List ℝ} {l : Nat} {out : DudeOut}
    {own : List (List ℝ)} (C : Case c cls ldpc words ch l out own) (hx : ∃ x ∈ ch, x ≠ 0) (hf : c.bitFlip = 0) (i : Nat)
    (hi : i < ch.length) : out.denoised.getD i false = decide (ch.getD i 0 < 0) := by
  by_cases hi : i < c.modelLength
  swap
  · exact c137_others C i (not_lt.1 hi) (by assumption)
  by_contra h
  have := (c137_evidence C hx i hi h).2.2.1
  rw [hf] at this
  norm_num at this

/-! ### Bits that never changed -/

theorem inContext_fresh {k : Nat} {past : List Bool} (h : ∀ j, k ≤ j → j < past.length →
    (past.drop (j - k)).take k ≠ past.drop (past.length - k)) (v : Bool) : inContext k past v = 0 := by
  unfold inContext
  rw [List.countP_eq_zero]
  intro j hj
  simp only [decide_eq_true_eq, not_and]
  intro h1 h2
  exact absurd h2 (h j h1 (List.mem_range.1 hj))

theorem inContext_constant (k n : Nat) (hk : k ≤ n) (b v : Bool) : inContext k (List.replicate n b) v = if v = b then n - k else 0 := by
  unfold inContext
  rw [List.length_replicate]
  have e : ∀ j ∈ List.range n, (decide (k ≤ j ∧ ((List.replicate n b).drop (j - k)).take k = (List.replicate n b).drop (n - k) ∧
      (List.replicate n b)[j]? = some v)) = true ↔ (decide (k ≤ j) && decide (v = b)) = true := by
    intro j hj
    have hj := List.mem_range.1 hj
    simp only [decide_eq_true_eq, Bool.and_eq_true, List.drop_replicate, List.take_replicate, List.getElem?_replicate, if_pos hj,
      Option.some.injEq]
    refine and_congr_right fun h => ?_
    rw [show min k (n - (j - k)) = n - (n - k) by omega]
    exact ⟨fun h => h.2.symm, fun h => ⟨rfl, h.symm⟩⟩
  rw [List.countP_congr e]
  by_cases hv : v = b
  · simp only [hv, decide_true, Bool.and_true, if_true]
    have h1 := List.countP_eq_length_filter (p := fun j => decide (k ≤ j)) (l := List.range n)
    have h2 : n = k + (n - k) := by omega
    rw [h2, List.range_add, List.countP_append]
    have a : (List.range k).countP (fun j => decide (k ≤ j)) = 0 := by
      rw [List.countP_eq_zero]; intro j hj; have := List.mem_range.1 hj; simp; omega
    have b : ((List.range (n - k)).map (k + ·)).countP (fun j => decide (k ≤ j)) = n - k := by
      rw [List.countP_eq_length.2, List.length_map, List.length_range]
      intro j hj
      obtain ⟨x, _, rfl⟩ := List.mem_map.1 hj
      simp
    rw [a, b]; omega
  · simp [hv]

theorem history_constant {i : Nat} {own : List (List ℝ)} {b : Bool} (h : ∀ w ∈ own, (w.getD i 0 < 0 ↔ b = true)) :
    bitHistory i own = List.replicate own.length b := by
  classical
  unfold bitHistory
  rw [List.eq_replicate_iff]
  refine ⟨by simp, fun x hx => ?_⟩
  obtain ⟨w, hw, rfl⟩ := List.mem_map.1 hx
  have := h w hw
  cases b <;> simp_all

open Classical in
/-- **C137.** A bit that had the same value in all `n` earlier words of the cluster and is now received differently: it is overruled
exactly when its magnitude is below the trust times the log-odds of the doubts for `n - k` words against one; and for that `n - k` must
exceed `(1 - 2 f) / f + f / (1 - f)`, about 98 words at one percent. -/
theorem c137_constant {c : DudeCfg} {cls : Labeler σ} {ldpc : Ldpc Λ} {words : List (List ℝ)} {ch : List ℝ} {l : Nat} {out : DudeOut}
    {own : List (List ℝ)} (C : Case c cls ldpc words ch l out own) (hx : ∃ x ∈ ch, x ≠ 0) (i : Nat) (hi : i < c.modelLength) (b : Bool)
    (hall : ∀ w ∈ own, (w.getD i 0 < 0 ↔ b = true)) (hk : c.context ≤ own.length) (hb : ch.getD i 0 < 0 ↔ b = false) :
    (out.denoised.getD i false = b ↔
      |ch.getD i 0| < trust (own.length + 1) c.center c.slope *
        Real.log ((doubt c.bitFlip (own.length - c.context) 1 + 2 ^ (-52 : ℤ)) / (1 - doubt c.bitFlip (own.length - c.context) 1 + 2 ^ (-52 : ℤ))) ∨
      (b = false ∧ |ch.getD i 0| = trust (own.length + 1) c.center c.slope *
        Real.log ((doubt c.bitFlip (own.length - c.context) 1 + 2 ^ (-52 : ℤ)) / (1 - doubt c.bitFlip (own.length - c.context) 1 + 2 ^ (-52 : ℤ))))) ∧
    (out.denoised.getD i false = b →
      (1 - 2 * c.bitFlip) / c.bitFlip + c.bitFlip / (1 - c.bitFlip) < ((own.length - c.context : ℕ) : ℝ)) := by
  have hz : decide (ch.getD i 0 < 0) = !b := by cases b <;> simp_all
  have hag : against c (bitHistory i own) (decide (ch.getD i 0 < 0)) = trust (own.length + 1) c.center c.slope *
        Real.log ((doubt c.bitFlip (own.length - c.context) 1 + 2 ^ (-52 : ℤ)) /
          (1 - doubt c.bitFlip (own.length - c.context) 1 + 2 ^ (-52 : ℤ))) := by
    unfold against doubtOf
    rw [hz, history_constant hall, List.length_replicate, if_neg (not_lt.2 hk), inContext_constant _ _ hk, inContext_constant _ _ hk]
    simp
  have hne : ∀ y : Bool, y ≠ (!b) ↔ y = b := by intro y; cases y <;> cases b <;> simp
  obtain ⟨_, h⟩ := c137_overruled C hx i hi
  rw [hag, hz, hne] at h
  refine ⟨by rw [h, hb], fun hd => ?_⟩
  have hpos : 0 < trust (own.length + 1) c.center c.slope *
        Real.log ((doubt c.bitFlip (own.length - c.context) 1 + 2 ^ (-52 : ℤ)) /
          (1 - doubt c.bitFlip (own.length - c.context) 1 + 2 ^ (-52 : ℤ))) := by
    rcases h.1 hd with h | ⟨h1, h2⟩
    · exact lt_of_le_of_lt (abs_nonneg _) h
    · rw [← h2]; exact abs_pos.2 h1.ne
  rw [← hag] at hpos
  have hq : 1 / 2 < doubtOf c.bitFlip c.context (bitHistory i own) (decide (ch.getD i 0 < 0)) := by
    by_contra hn
    exact absurd (against_nonpos C.flip0 C.flip (not_lt.1 hn)) (not_le.2 hpos)
  unfold doubtOf at hq
  rw [hz, history_constant hall, List.length_replicate, if_neg (not_lt.2 hk), inContext_constant _ _ hk, inContext_constant _ _ hk,
    doubt_half C.flip0 C.flip] at hq
  simp only [Bool.not_not, if_true] at hq
  have hself : ¬ (!b) = b := by cases b <;> simp
  rw [if_neg hself] at hq
  simp only [zero_add, Nat.cast_one, mul_one] at hq
  have hf0 : 0 < c.bitFlip := by
    rcases C.flip0.eq_or_lt with h | h
    · rw [← h] at hq; norm_num at hq
    · exact h
  have hg : 0 < 1 - c.bitFlip := by linarith [C.flip]
  rw [div_add_div _ _ hf0.ne' hg.ne', div_lt_iff₀ (mul_pos hf0 hg)]
  have := hq.1
  nlinarith

open Classical in
/-- **C137.** A bit received in a context that was not seen before in its cluster is never overruled; so after a bit that never changed was
received wrong once, its next `k` received values are believed. -/
theorem c137_fresh {c : DudeCfg} {cls : Labeler σ} {ldpc : Ldpc Λ} {words : List (List ℝ)} {ch : List ℝ} {l : Nat} {out : DudeOut}
    {own : List (List ℝ)} (C : Case c cls ldpc words ch l out own) (hx : ∃ x ∈ ch, x ≠ 0) (i : Nat) (hi : i < c.modelLength) :
    ((∀ j, c.context ≤ j → j < own.length →
      ((bitHistory i own).drop (j - c.context)).take c.context ≠ (bitHistory i own).drop (own.length - c.context)) →
      out.denoised.getD i false = decide (ch.getD i 0 < 0)) ∧
    ∀ b n m, m < c.context → bitHistory i own = List.replicate n b ++ (!b) :: List.replicate m b →
      out.denoised.getD i false = decide (ch.getD i 0 < 0) := by
  have hlen : (bitHistory i own).length = own.length := by simp [bitHistory]
  have main : (∀ j, c.context ≤ j → j < own.length →
      ((bitHistory i own).drop (j - c.context)).take c.context ≠ (bitHistory i own).drop (own.length - c.context)) →
      out.denoised.getD i false = decide (ch.getD i 0 < 0) := by
    intro h
    by_contra hn
    have h1 := (c137_evidence C hx i hi hn).2.2.1
    rw [inContext_fresh (by rw [hlen]; exact h)] at h1
    have := C.flip
    norm_num at h1
    linarith
  refine ⟨main, fun b n m hm hb => main fun j hj1 hj2 he => ?_⟩
  have hl : own.length = n + (m + 1) := by rw [← hlen, hb]; simp
  -- the value `m + 1` places from the end is the wrong one; in the earlier context it is not
  have h1 : ((bitHistory i own).drop (own.length - c.context))[c.context - (m + 1)]? = some (!b) ∨ own.length < c.context := by
    by_cases hc : own.length < c.context
    · exact Or.inr hc
    · left
      rw [List.getElem?_drop, hb, show own.length - c.context + (c.context - (m + 1)) = n by omega, List.getElem?_append_right (by simp)]
      simp
  rcases h1 with h1 | h1
  swap
  · omega
  rw [← he, List.getElem?_take, if_pos (by omega), List.getElem?_drop, hb, List.getElem?_append_left (by simp; omega),
    List.getElem?_replicate] at h1
  split at h1
  · injection h1 with h1
    cases b <;> simp at h1
  · omega

/-! ### The hypotheses can be met -/

theorem run_append (c : DudeCfg) (cls : Labeler σ) (ldpc : Ldpc Λ) (ch : List ℝ) : ∀ (ws : List (List ℝ)) (s : DudeDec σ Λ),
    (s.run c cls ldpc (ws ++ [ch])).2 = (s.run c cls ldpc ws).2 ++ [(s.run c cls ldpc ws).1.decode c cls ldpc ch] ∧
    (s.run c cls ldpc ws).2.length = ws.length := by
  intro ws
  induction ws with
  | nil => intro s; simp [DudeDec.run]
  | cons w ws ih => intro s; simp [DudeDec.run, ih]

theorem single_cluster {c : DudeCfg} (h0 : 0 ≤ c.bitFlip) (hf : c.bitFlip < 1 / 2) (hk : 1 ≤ c.context) (hm : 0 < c.modelLength)
    (hp : Prefixed c) (hn : c.nClusters = 1) (cls : Labeler σ) (ldpc : Ldpc Λ) (cs : σ) (ls : Λ) (s0 : DudeDec σ Λ)
    (hnew : DudeDec.new c cs ls = .ok s0) (words : List (List ℝ)) (hw : ∀ w ∈ words, c.modelLength ≤ w.length) :
    (∀ ch : List ℝ, c.modelLength ≤ ch.length →
      ∃ out, ((s0.run c cls ldpc words).1.decode c cls ldpc ch).result = .ok out ∧ out.label = 0) ∧
    ownWords 0 words (s0.run c cls ldpc words).2 = words := by
  have ret : ∀ (words : List (List ℝ)), (∀ w ∈ words, c.modelLength ≤ w.length) → ∀ ch : List ℝ, c.modelLength ≤ ch.length →
      ∃ out, ((s0.run c cls ldpc words).1.decode c cls ldpc ch).result = .ok out ∧ out.label = 0 := by
    intro words hw ch hch
    obtain ⟨out, ho⟩ := c72_returns h0 hf hk hm hp (by omega) cls ldpc cs ls s0 hnew words hw ch hch (by omega)
    refine ⟨out, ho, ?_⟩
    obtain ⟨happ, hlen⟩ := run_append c cls ldpc ch words s0
    refine (c72_round_robin cls ldpc cs ls s0 hnew (words ++ [ch]) ?_ words.length out ?_).2 (by omega)
    · intro w hw' j hj
      rw [(prefixed_iff _).1 hp] at hj
      have := List.mem_range.1 hj
      rcases List.mem_append.1 hw' with h | h
      · have := hw w h; omega
      · rw [List.mem_singleton.1 h]; omega
    · rw [happ, List.map_append, List.getElem?_append_right (by simp [hlen])]
      simp [hlen, ho]
  refine ⟨ret words hw, ?_⟩
  induction words using List.reverseRecOn with
  | nil => rfl
  | append_singleton ws w ih =>
    have hws : ∀ x ∈ ws, c.modelLength ≤ x.length := fun x hx => hw x (by simp [hx])
    obtain ⟨out, ho, hl⟩ := ret ws hws w (hw w (by simp))
    obtain ⟨happ, hlen⟩ := run_append c cls ldpc w ws s0
    have := ih hws
    unfold ownWords at this ⊢
    rw [happ, List.zip_append hlen.symm, List.filterMap_append, this]
    simp [ho, hl]

/-- Two information bits, the first one modelled, one cluster, context length 2, flip probability one tenth. -/
noncomputable def dudeTenth : DudeCfg :=
  { modelLength := 1, infoIdx := [true, true, false], clipping := 2, bitFlip := 1 / 10, context := 2, center := 40,
    slope := 0, nClusters := 1, cluster := false }

open Classical in
/-- The hypotheses can be met, and bits are overruled: after 102 words with a zero, a one of magnitude 1/4 is overruled, whatever the LDPC
decoder. -/
example (ldpc : Ldpc Unit) (cls : Labeler Unit) :
    ∃ out, Case dudeTenth cls ldpc (List.replicate 102 [1, 1, 1]) [-1 / 4, 1, 1] 0 out (List.replicate 102 [1, 1, 1]) ∧
      out.denoised.getD 0 false = false := by
  obtain ⟨s0, hnew⟩ := (c72_constructor (σ := Unit) (Λ := Unit) dudeTenth () ()).2 (by norm_num [dudeTenth])
  have hp : Prefixed dudeTenth := Or.inr (by simp [dudeTenth])
  have h0 : 0 ≤ dudeTenth.bitFlip := by norm_num [dudeTenth]
  have hf : dudeTenth.bitFlip < 1 / 2 := by norm_num [dudeTenth]
  have hw : ∀ w ∈ List.replicate 102 ([1, 1, 1] : List ℝ), dudeTenth.modelLength ≤ w.length := by
    intro w hw
    rw [(List.mem_replicate.1 hw).2]
    simp [dudeTenth]
  obtain ⟨hret, hown⟩ := single_cluster h0 hf (by simp [dudeTenth]) Nat.one_pos hp rfl cls ldpc () () s0 hnew _ hw
  obtain ⟨out, ho, hl⟩ := hret [-1 / 4, 1, 1] (by simp [dudeTenth])
  have C : Case dudeTenth cls ldpc (List.replicate 102 [1, 1, 1]) [-1 / 4, 1, 1] 0 out (List.replicate 102 [1, 1, 1]) :=
    ⟨h0, hf, by simp [dudeTenth], Nat.one_pos, by norm_num [dudeTenth], hp, hw, by simp [dudeTenth], ⟨(), (), s0, hnew, ho, hown.symm⟩,
      by rw [hl]; rfl⟩
  refine ⟨out, C, ?_⟩
  refine ((c137_constant C ⟨1, by simp, one_ne_zero⟩ 0 Nat.one_pos false ?_ ?_ ?_).1).2 (Or.inl ?_)
  · intro w hw
    rw [(List.mem_replicate.1 hw).2]
    norm_num
  · rw [List.length_replicate]; simp [dudeTenth]
  · norm_num
  rw [List.length_replicate]
  have e1 : trust (102 + 1) dudeTenth.center dudeTenth.slope = 1 / 2 := by
    unfold trust
    rw [if_neg (by norm_num)]
    norm_num [dudeTenth]
  have e2 : doubt dudeTenth.bitFlip (102 - dudeTenth.context) 1 = 899 / 971 := by
    norm_num [doubt, dudeTenth]
  rw [e1, e2]
  have e3 : (1 : ℝ) - (9 : ℝ)⁻¹ ≤ Real.log ((899 / 971 + 2 ^ (-52 : ℤ)) / (1 - 899 / 971 + 2 ^ (-52 : ℤ))) := by
    refine le_trans ?_ (Real.one_sub_inv_le_log_of_pos (by norm_num))
    have : (9 : ℝ) ≤ (899 / 971 + 2 ^ (-52 : ℤ)) / (1 - 899 / 971 + 2 ^ (-52 : ℤ)) := by norm_num
    have := inv_anti₀ (by norm_num) this
    linarith
  rw [show ([-1 / 4, 1, 1] : List ℝ).getD 0 0 = -1 / 4 from rfl, show |(-1 / 4 : ℝ)| = 1 / 4 by norm_num [abs_div]]
  linarith

end NR.C137
