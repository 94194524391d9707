import Verif.Props.C137
import Verif.Props.C149
/-
C157: the DUDE decoder goes on decoding words with more errors than the LDPC decoder corrects.
-/
namespace NR.C157
open NR NR.Spec NR.C137
open NR.C147 (errors errorsOff Corrects)

variable {σ Λ : Type}

/-- How often a bit that should be `v` was received differently. -/
def slips (v : Bool) (past : List Bool) : Nat := past.countP fun b => decide (b ≠ v)

/-- Any two such receptions are more than `k` words apart. -/
def Apart (k : Nat) (v : Bool) (l : List Bool) : Prop := ∀ a b, a < b → l[a]? = some (!v) → l[b]? = some (!v) → k < b - a

/-! ### Counting -/

theorem ne_not {a b : Bool} (h : a ≠ b) : a = !b := by cases a <;> cases b <;> simp_all

theorem slips_range (v : Bool) (past : List Bool) :
    slips v past = (List.range past.length).countP fun j => decide (past[j]? = some (!v)) := by
  unfold slips
  induction past using List.reverseRecOn with
  | nil => rfl
  | append_singleton l b ih =>
    rw [List.countP_append, List.length_append, List.length_singleton, List.range_succ, List.countP_append, ih]
    congr 1
    · refine List.countP_congr fun j hj => ?_
      rw [List.getElem?_append_left (List.mem_range.1 hj)]
    · cases b <;> cases v <;> simp

theorem countP_card (n : Nat) (P : Nat → Prop) [DecidablePred P] :
    (List.range n).countP (fun j => decide (P j)) = ((Finset.range n).filter P).card := by
  rw [List.countP_eq_length_filter]
  rfl

/-- If the last `k` values were all `v`, most values received in this context were `v` too. -/
theorem clean_counts {k : Nat} {v : Bool} {past : List Bool} (hc : past.drop (past.length - k) = List.replicate k v) :
    inContext k past (!v) ≤ slips v past ∧ past.length ≤ k + (k + 1) * slips v past + inContext k past v := by
  classical
  constructor
  · rw [slips_range]
    unfold inContext
    refine List.countP_mono_left fun j _ h => ?_
    simp only [decide_eq_true_eq] at h ⊢
    exact h.2.2
  · have e1 : slips v past = ((Finset.range past.length).filter fun j => past[j]? = some (!v)).card := by
      rw [slips_range]; exact countP_card _ _
    have e2 : inContext k past v = ((Finset.range past.length).filter fun j => k ≤ j ∧ (past.drop (j - k)).take k =
        past.drop (past.length - k) ∧ past[j]? = some v).card := by
      unfold inContext; exact countP_card _ _
    set A := (Finset.range past.length).filter fun j => past[j]? = some (!v) with hA
    set B := (Finset.range past.length).filter fun j => k ≤ j ∧ (past.drop (j - k)).take k =
        past.drop (past.length - k) ∧ past[j]? = some v with hB
    have hsub : Finset.range past.length ⊆ (Finset.range k ∪ A.biUnion fun a => Finset.Icc a (a + k)) ∪ B := by
      intro j hj
      by_cases h : j ∈ (Finset.range k ∪ A.biUnion fun a => Finset.Icc a (a + k))
      · exact Finset.mem_union_left _ h
      refine Finset.mem_union_right _ ?_
      rw [Finset.mem_union, not_or, Finset.mem_range, not_lt, Finset.mem_biUnion, not_exists] at h
      obtain ⟨h1, h2⟩ := h
      have hj' := Finset.mem_range.1 hj
      have clean : ∀ a, a ≤ j → j ≤ a + k → past[a]? = some v := by
        intro a ha hb
        have hal : a < past.length := by omega
        have hn : ¬ past[a]? = some (!v) := fun hc => h2 a ⟨Finset.mem_filter.2 ⟨Finset.mem_range.2 hal, hc⟩, Finset.mem_Icc.2 ⟨ha, hb⟩⟩
        rw [List.getElem?_eq_getElem hal] at hn ⊢
        cases h : past[a] <;> cases v <;> simp_all
      refine Finset.mem_filter.2 ⟨hj, h1, ?_, clean j le_rfl (by omega)⟩
      rw [hc]
      apply List.ext_getElem?
      intro t
      rw [List.getElem?_take, List.getElem?_replicate]
      split
      · rw [List.getElem?_drop]
        exact clean _ (by omega) (by omega)
      · rfl
    have h1 := Finset.card_le_card hsub
    have h2 := Finset.card_union_le (Finset.range k ∪ A.biUnion fun a => Finset.Icc a (a + k)) B
    have h3 := Finset.card_union_le (Finset.range k) (A.biUnion fun a => Finset.Icc a (a + k))
    have h4 : (A.biUnion fun a => Finset.Icc a (a + k)).card ≤ A.card * (k + 1) :=
      Finset.card_biUnion_le_card_mul _ _ _ fun a _ => by rw [Nat.card_Icc]; omega
    rw [Finset.card_range] at h1 h3
    rw [e1, e2]
    have := Nat.mul_comm A.card (k + 1)
    omega

theorem clean_of_wrong {k : Nat} {v : Bool} {past : List Bool} (hk : k ≤ past.length) (h : Apart k v (past ++ [!v])) :
    past.drop (past.length - k) = List.replicate k v := by
  apply List.ext_getElem?
  intro t
  rw [List.getElem?_drop, List.getElem?_replicate]
  split
  · rename_i ht
    have hl : past.length - k + t < past.length := by omega
    have hn : ¬ past[past.length - k + t]? = some (!v) := by
      intro hc
      have := h (past.length - k + t) past.length hl (by rw [List.getElem?_append_left hl]; exact hc) (by simp)
      omega
    rw [List.getElem?_eq_getElem hl] at hn ⊢
    cases hb : past[past.length - k + t] <;> cases v <;> simp_all
  · rw [List.getElem?_eq_none (by omega)]

theorem clean_of_slip {k : Nat} {v : Bool} {past : List Bool} (h : Apart k v past) (j : Nat) (hk : k ≤ j)
    (hj : past[j]? = some (!v)) : (past.drop (j - k)).take k = List.replicate k v := by
  have hjl : j < past.length := (List.getElem?_eq_some_iff.1 hj).1
  apply List.ext_getElem?
  intro t
  rw [List.getElem?_take, List.getElem?_replicate]
  split
  · rw [List.getElem?_drop]
    have hl : j - k + t < past.length := by omega
    have hn : ¬ past[j - k + t]? = some (!v) := by
      intro hc
      have := h (j - k + t) j (by omega) hc hj
      omega
    rw [List.getElem?_eq_getElem hl] at hn ⊢
    cases hb : past[j - k + t] <;> cases v <;> simp_all
  · rfl

/-! ### The doubts -/

theorem doubt_mono {f : ℝ} (h0 : 0 ≤ f) (hf : f < 1 / 2) {a a' b b' : ℕ} (ha : a ≤ a') (hb : b' ≤ b) : doubt f a b ≤ doubt f a' b' := by
  have hd : 0 < 1 - 2 * f := by linarith
  have hg : 0 < 1 - f := by linarith
  have ha' : (a : ℝ) ≤ a' := by exact_mod_cast ha
  have hb' : (b' : ℝ) ≤ b := by exact_mod_cast hb
  unfold doubt
  have a1 : ∀ x : ℝ, 0 < max 1 x := fun x => lt_of_lt_of_le one_pos (le_max_left _ _)
  have x1 : max 1 (((1 - f) * (a : ℝ) - f * b) / (1 - 2 * f)) ≤ max 1 (((1 - f) * (a' : ℝ) - f * b') / (1 - 2 * f)) := by
    refine max_le_max le_rfl (div_le_div_of_nonneg_right ?_ hd.le)
    nlinarith
  have x2 : max 1 (((1 - f) * (b' : ℝ) - f * a') / (1 - 2 * f)) ≤ max 1 (((1 - f) * (b : ℝ) - f * a) / (1 - 2 * f)) := by
    refine max_le_max le_rfl (div_le_div_of_nonneg_right ?_ hd.le)
    nlinarith
  have p1 := a1 (((1 - f) * (a : ℝ) - f * b) / (1 - 2 * f))
  have p2 := a1 (((1 - f) * (b' : ℝ) - f * a') / (1 - 2 * f))
  generalize max 1 (((1 - f) * (a : ℝ) - f * b) / (1 - 2 * f)) = X at *
  generalize max 1 (((1 - f) * (a' : ℝ) - f * b') / (1 - 2 * f)) = X' at *
  generalize max 1 (((1 - f) * (b' : ℝ) - f * a') / (1 - 2 * f)) = Y' at *
  generalize max 1 (((1 - f) * (b : ℝ) - f * a) / (1 - 2 * f)) = Y at *
  have q1 : 0 ≤ X * f := by positivity
  have q2 : 0 ≤ X' * f := mul_nonneg (by linarith) h0
  have q3 : 0 < Y' * (1 - f) := by positivity
  have q4 : 0 < Y * (1 - f) := mul_pos (by linarith) hg
  have r1 : X * f ≤ X' * f := mul_le_mul_of_nonneg_right x1 h0
  have r2 : Y' * (1 - f) ≤ Y * (1 - f) := mul_le_mul_of_nonneg_right x2 hg.le
  rw [div_le_div_iff₀ (by linarith) (by linarith)]
  have := mul_le_mul r1 r2 q3.le q2
  nlinarith

theorem odds_mono {d d' : ℝ} (h0 : 0 ≤ d) (h : d ≤ d') (h1 : d' < 1) :
    Real.log ((d + 2 ^ (-52 : ℤ)) / (1 - d + 2 ^ (-52 : ℤ))) ≤ Real.log ((d' + 2 ^ (-52 : ℤ)) / (1 - d' + 2 ^ (-52 : ℤ))) := by
  have heps : (0 : ℝ) < 2 ^ (-52 : ℤ) := by positivity
  refine Real.log_le_log (div_pos (by linarith) (by linarith)) ?_
  rw [div_le_div_iff₀ (by linarith) (by linarith)]
  nlinarith

/-! ### Bits that should not change -/

open Classical in
/-- A bit whose value should be `v`, in a word `ch` received after the words `own` of the same cluster: it is received wrong rarely, more
than `k` words apart, there are enough words, and if it is wrong now its magnitude is below what that many words say. -/
structure Steady (c : DudeCfg) (own : List (List ℝ)) (ch : List ℝ) (i : Nat) (v : Bool) : Prop where
  apart : Apart c.context v (bitHistory i own ++ [decide (ch.getD i 0 < 0)])
  enough : c.context + (c.context + 2) * slips v (bitHistory i own) ≤ own.length
  weak : decide (ch.getD i 0 < 0) ≠ v → |ch.getD i 0| < trust (own.length + 1) c.center c.slope *
    Real.log ((doubt c.bitFlip (own.length - c.context - (c.context + 1) * slips v (bitHistory i own)) (slips v (bitHistory i own) + 1) +
      2 ^ (-52 : ℤ)) / (1 - doubt c.bitFlip (own.length - c.context - (c.context + 1) * slips v (bitHistory i own))
      (slips v (bitHistory i own) + 1) + 2 ^ (-52 : ℤ)))

/-- **C157.** Such a bit is handed to the LDPC decoder with its right value, whether it is received right or wrong. -/
theorem c157_repaired {c : DudeCfg} {cls : Labeler σ} {ldpc : Ldpc Λ} {words : List (List ℝ)} {ch : List ℝ} {l : Nat} {out : DudeOut}
    {own : List (List ℝ)} (C : Case c cls ldpc words ch l out own) (hx : ∃ x ∈ ch, x ≠ 0) (i : Nat) (hi : i < c.modelLength) (v : Bool)
    (S : Steady c own ch i v) : out.denoised.getD i false = v := by
  classical
  obtain ⟨hap, hen, hweak⟩ := S
  have hlen : (bitHistory i own).length = own.length := by simp [bitHistory]
  have hk : c.context ≤ (bitHistory i own).length := by rw [hlen]; exact le_trans (Nat.le_add_right _ _) hen
  have hmul : (c.context + 2) * slips v (bitHistory i own) = (c.context + 1) * slips v (bitHistory i own) + slips v (bitHistory i own) := by ring
  by_cases hz : decide (ch.getD i 0 < 0) = v
  · -- received right: not overruled
    by_contra hne
    have hov : out.denoised.getD i false ≠ decide (ch.getD i 0 < 0) := by rw [hz]; exact hne
    obtain ⟨_, _, e1, e2⟩ := c137_evidence C hx i hi hov
    have hf := C.flip
    have h0 := C.flip0
    have hpast : Apart c.context v (bitHistory i own) := by
      intro a b hab ha hb
      have hal := (List.getElem?_eq_some_iff.1 ha).1
      have hbl := (List.getElem?_eq_some_iff.1 hb).1
      exact hap a b hab (by rw [List.getElem?_append_left hal]; exact ha) (by rw [List.getElem?_append_left hbl]; exact hb)
    rw [hz] at e1 e2
    have hpos : inContext c.context (bitHistory i own) (!v) ≠ 0 := by
      intro h
      rw [h] at e1
      norm_num at e1
      linarith
    unfold inContext at hpos
    rw [Ne, List.countP_eq_zero, not_forall] at hpos
    obtain ⟨j, hj⟩ := hpos
    simp only [decide_eq_true_eq, not_forall, not_not] at hj
    obtain ⟨_, j1, j2, j3⟩ := hj
    rw [clean_of_slip hpast j j1 j3] at j2
    obtain ⟨c1, c2⟩ := clean_counts j2.symm
    have hlt : inContext c.context (bitHistory i own) v + 1 < inContext c.context (bitHistory i own) (!v) := by
      by_contra hge
      have hge : ((inContext c.context (bitHistory i own) (!v) : ℕ) : ℝ) ≤ (inContext c.context (bitHistory i own) v : ℕ) + 1 := by
        exact_mod_cast not_lt.1 hge
      have hnn : (0 : ℝ) ≤ (inContext c.context (bitHistory i own) v : ℕ) + 1 := by positivity
      have hsq : 2 * c.bitFlip * (1 - c.bitFlip) ≤ c.bitFlip ^ 2 + (1 - c.bitFlip) ^ 2 := by nlinarith [sq_nonneg (1 - 2 * c.bitFlip)]
      have hp : 0 ≤ 2 * c.bitFlip * (1 - c.bitFlip) := mul_nonneg (by linarith) (by linarith)
      have m1 := mul_le_mul_of_nonneg_left hge hp
      have m2 := mul_le_mul_of_nonneg_right hsq hnn
      linarith
    omega
  · -- received wrong: overruled
    have hz' : decide (ch.getD i 0 < 0) = !v := ne_not hz
    have hw := hweak hz
    rw [hz'] at hap
    obtain ⟨c1, c2⟩ := clean_counts (clean_of_wrong hk hap)
    have hov := ((c137_overruled C hx i hi).2).2 (Or.inl (lt_of_lt_of_le hw ?_))
    · rw [hz'] at hov
      exact (ne_not hov).trans (Bool.not_not v)
    · unfold against doubtOf
      rw [hz', if_neg (not_lt.2 hk), hlen, Bool.not_not]
      refine mul_le_mul_of_nonneg_left (odds_mono (doubt_bounds C.flip0 C.flip _ _).1 ?_ (doubt_bounds C.flip0 C.flip _ _).2) (trust_nonneg _ _ _)
      exact doubt_mono C.flip0 C.flip (by omega) (by omega)

/-- A word with the model bits in `S` repaired. -/
theorem decodes_of_repaired {c : DudeCfg} {cls : Labeler σ} {ldpc : Ldpc Λ} {words : List (List ℝ)} {ch : List ℝ} {l : Nat} {out : DudeOut}
    {own : List (List ℝ)} (C : Case c cls ldpc words ch l out own) (code : List Bool → Prop) (T : Nat)
    (hcor : Corrects ldpc code T) (x : List Bool) (hcode : code x) (hlen : ch.length = x.length) (S : Finset Nat)
    (hS : ∀ i ∈ S, i < c.modelLength ∧ out.denoised.getD i false = x.getD i false)
    (hT : (c.modelLength - S.card) + errorsOff (List.range c.modelLength) x ch ≤ T) : out.success = true ∧ out.estimate = x := by
  classical
  have hrep : ∀ i ∈ S, out.denoised.getD i false = x.getD i false := fun i hi => (hS i hi).2
  have hoth := c137_others C
  have hlong := C.longer
  obtain ⟨h0, hf, hk, hm, hc, hp, hw, hch, ⟨cs, ls, s0, hnew, hr, rfl⟩, hl⟩ := C
  obtain ⟨peak, handed, hpk, hh, hhl, hwl, hbits, hden⟩ :=
    c72_combines h0 hf hk hm hp cls ldpc cs ls s0 hnew words hw ch hch l out hr hl
  obtain ⟨w, hw1, r1, _, r3, _⟩ := c72_returned c cls ldpc _ ch out hr
  rw [hh] at hw1
  cases hw1
  rw [r1, r3]
  refine hcor _ x handed hcode (hhl.trans hlen) (le_trans ?_ hT)
  unfold errors errorsOff
  rw [← hden]
  have hdl : out.denoised.length = ch.length := by rw [hden]; simp [hardWord, hhl]
  have hcl : (hardWord ch).length = ch.length := by simp [hardWord]
  have hsub : ((Finset.range x.length).filter fun i => out.denoised[i]? ≠ x[i]?) ⊆ (Finset.range c.modelLength \ S) ∪
      ((Finset.range x.length).filter fun i => i ∉ List.range c.modelLength ∧ (hardWord ch)[i]? ≠ x[i]?) := by
    intro i hi
    rw [Finset.mem_filter, Finset.mem_range] at hi
    obtain ⟨hi, hne⟩ := hi
    have hne' : out.denoised.getD i false ≠ x.getD i false := by
      intro h
      apply hne
      rw [List.getD_eq_getElem?_getD, List.getD_eq_getElem?_getD, List.getElem?_eq_getElem (by omega), List.getElem?_eq_getElem hi] at h
      rw [List.getElem?_eq_getElem (by omega), List.getElem?_eq_getElem hi]
      exact congrArg some h
    rw [Finset.mem_union]
    by_cases him : i < c.modelLength
    · left
      rw [Finset.mem_sdiff, Finset.mem_range]
      exact ⟨him, fun h => hne' (hrep i h)⟩
    · right
      rw [Finset.mem_filter, Finset.mem_range, List.mem_range]
      refine ⟨hi, him, fun h => hne' ?_⟩
      have hxd : x.getD i false = (hardWord ch).getD i false := by
        rw [List.getD_eq_getElem?_getD, List.getD_eq_getElem?_getD, h]
      have hic : i < ch.length := by omega
      rw [hoth i (not_lt.1 him) hic, hxd]
      unfold hardWord
      rw [List.getD_eq_getElem?_getD, List.getD_eq_getElem?_getD, List.getElem?_map, List.getElem?_eq_getElem hic]
      rfl
  refine (Finset.card_le_card hsub).trans ((Finset.card_union_le _ _).trans (Nat.add_le_add_right ?_ _))
  rw [Finset.card_sdiff_of_subset (fun i hi => Finset.mem_range.2 (hS i hi).1), Finset.card_range]

/-- **C157.** If the bits in `S` are such bits, and the other model bits and the wrong bits outside the model are together not more than the
LDPC decoder corrects, the word is decoded to the word sent, however many bits in `S` were received wrong. -/
theorem c157_decodes {c : DudeCfg} {cls : Labeler σ} {ldpc : Ldpc Λ} {words : List (List ℝ)} {ch : List ℝ} {l : Nat} {out : DudeOut}
    {own : List (List ℝ)} (C : Case c cls ldpc words ch l out own) (hx : ∃ x ∈ ch, x ≠ 0) (code : List Bool → Prop) (T : Nat)
    (hcor : Corrects ldpc code T) (x : List Bool) (hcode : code x) (hlen : ch.length = x.length) (S : Finset Nat)
    (hS : ∀ i ∈ S, i < c.modelLength ∧ Steady c own ch i (x.getD i false))
    (hT : (c.modelLength - S.card) + errorsOff (List.range c.modelLength) x ch ≤ T) : out.success = true ∧ out.estimate = x := by
  exact decodes_of_repaired C code T hcor x hcode hlen S (fun i hi => ⟨(hS i hi).1, c157_repaired C hx i (hS i hi).1 _ (hS i hi).2⟩) hT

theorem step_at (c : DudeCfg) (cls : Labeler σ) (ldpc : Ldpc Λ) : ∀ (words : List (List ℝ)) (s : DudeDec σ Λ) (j : Nat) (w : List ℝ),
    words[j]? = some w → (s.run c cls ldpc words).2[j]? = some ((s.run c cls ldpc (words.take j)).1.decode c cls ldpc w)
  | [], _, _, _, h => by simp at h
  | v :: words, s, 0, w, h => by
    simp only [List.getElem?_cons_zero, Option.some.injEq] at h
    subst h
    simp [DudeDec.run]
  | v :: words, s, j + 1, w, h => by
    simp only [List.getElem?_cons_succ] at h
    have := step_at c cls ldpc words (s.decode c cls ldpc v).state j w h
    simpa [DudeDec.run] using this

/-- **C157.** A decoder with one cluster, any words received: each word for which this holds, with all words received before it, is decoded to
the word sent, whatever was sent and received in the other words and whether or not they were decoded. -/
theorem c157_run {c : DudeCfg} (h0 : 0 ≤ c.bitFlip) (hf : c.bitFlip < 1 / 2) (hk : 1 ≤ c.context) (hm : 0 < c.modelLength)
    (hclip : 0 < c.clipping) (hp : Prefixed c) (hn : c.nClusters = 1) (cls : Labeler σ) (ldpc : Ldpc Λ) (cs : σ) (ls : Λ)
    (s0 : DudeDec σ Λ) (hnew : DudeDec.new c cs ls = .ok s0) (code : List Bool → Prop) (T : Nat) (hcor : Corrects ldpc code T)
    (words : List (List ℝ)) (hw : ∀ w ∈ words, c.modelLength ≤ w.length) (j : Nat) (w : List ℝ) (hj : words[j]? = some w)
    (hx : ∃ y ∈ w, y ≠ 0) (x : List Bool) (hcode : code x) (hlen : w.length = x.length) (S : Finset Nat)
    (hS : ∀ i ∈ S, i < c.modelLength ∧ Steady c (words.take j) w i (x.getD i false))
    (hT : (c.modelLength - S.card) + errorsOff (List.range c.modelLength) x w ≤ T) :
    ∃ st out, (s0.run c cls ldpc words).2[j]? = some st ∧ st.result = .ok out ∧ out.success = true ∧ out.estimate = x ∧ out.label = 0 := by
  have hwj : c.modelLength ≤ w.length := hw w (List.mem_of_getElem? hj)
  have ht : ∀ v ∈ words.take j, c.modelLength ≤ v.length := fun v hv => hw v (List.mem_of_mem_take hv)
  obtain ⟨hret, hown⟩ := single_cluster h0 hf hk hm hp hn cls ldpc cs ls s0 hnew (words.take j) ht
  obtain ⟨out, ho, hl⟩ := hret w hwj
  have C : Case c cls ldpc (words.take j) w 0 out (words.take j) :=
    ⟨h0, hf, hk, hm, hclip, hp, ht, hwj, ⟨cs, ls, s0, hnew, ho, hown.symm⟩, by rw [hl]; rfl⟩
  obtain ⟨e1, e2⟩ := c157_decodes C hx code T hcor x hcode hlen S hS hT
  exact ⟨_, out, step_at c cls ldpc words s0 j w hj, ho, e1, e2, hl⟩

/-! ### A case that meets the hypotheses -/

/-- Two information bits, both modelled, of words of four bits; flip probability one tenth, context length 2. -/
noncomputable def demo : DudeCfg :=
  { modelLength := 2, infoIdx := [true, true, false, false], clipping := 2, bitFlip := 1 / 10, context := 2, center := 40,
    slope := 0, nClusters := 1, cluster := false }

theorem demo_odds : (1 : ℝ) / 4 < trust (201 + 1) demo.center demo.slope * Real.log ((doubt demo.bitFlip (201 - 2 - 3 * 1) 2 + 2 ^ (-52 : ℤ)) /
    (1 - doubt demo.bitFlip (201 - 2 - 3 * 1) 2 + 2 ^ (-52 : ℤ))) := by
  have e1 : trust (201 + 1) demo.center demo.slope = 1 / 2 := by
    unfold trust
    rw [if_neg (by norm_num)]
    norm_num [demo]
  have e2 : doubt demo.bitFlip (201 - 2 - 3 * 1) 2 = 881 / 917 := by
    norm_num [doubt, demo]
  rw [e1, e2]
  have e3 : (1 : ℝ) - (9 : ℝ)⁻¹ ≤ Real.log ((881 / 917 + 2 ^ (-52 : ℤ)) / (1 - 881 / 917 + 2 ^ (-52 : ℤ))) := by
    refine le_trans ?_ (Real.one_sub_inv_le_log_of_pos (by norm_num))
    have : (9 : ℝ) ≤ (881 / 917 + 2 ^ (-52 : ℤ)) / (1 - 881 / 917 + 2 ^ (-52 : ℤ)) := by norm_num
    have := inv_anti₀ (by norm_num) this
    linarith
  linarith

theorem demo_history (i : Nat) (hi : i < 2) : bitHistory i ([-1 / 4, -1 / 4, 1, 1] :: List.replicate 200 [1, 1, 1, 1]) =
    true :: List.replicate 200 false := by
  unfold bitHistory
  rw [List.map_cons, List.map_replicate]
  match i with
  | 0 => norm_num
  | 1 => norm_num

theorem demo_steady (i : Nat) (hi : i < 2) :
    Steady demo ([-1 / 4, -1 / 4, 1, 1] :: List.replicate 200 [1, 1, 1, 1]) [-1 / 4, -1 / 4, 1, 1] i false := by
  have hg : ([-1 / 4, -1 / 4, 1, 1] : List ℝ).getD i 0 = -1 / 4 := by
    match i with
    | 0 => rfl
    | 1 => rfl
  have hs : slips false (true :: List.replicate 200 false) = 1 := by decide +kernel
  have hl : ([-1 / 4, -1 / 4, 1, 1] :: List.replicate 200 [1, 1, 1, 1] : List (List ℝ)).length = 201 := by
    rw [List.length_cons, List.length_replicate]
  refine ⟨?_, ?_, ?_⟩
  · rw [demo_history i hi, hg]
    intro a b hab ha hb
    have key : ∀ n, (true :: List.replicate 200 false ++ [true])[n]? = some true → n = 0 ∨ n = 201 := by
      intro n hn
      have hlt : n < 202 := by
        have := (List.getElem?_eq_some_iff.1 hn).1
        rw [List.length_append, List.length_cons, List.length_replicate] at this
        exact this
      have all : ∀ n < 202, (true :: List.replicate 200 false ++ [true])[n]? = some true → n = 0 ∨ n = 201 := by decide +kernel
      exact all n hlt hn
    have hd : (decide ((-1 / 4 : ℝ) < 0)) = true := by norm_num
    rw [hd] at ha hb
    have h1 := key a ha
    have h2 := key b hb
    show 2 < b - a
    omega
  · rw [demo_history i hi, hs, hl]
    show 2 + (2 + 2) * 1 ≤ 201
    omega
  · intro _
    rw [demo_history i hi, hs, hl, hg, show |(-1 / 4 : ℝ)| = 1 / 4 by norm_num [abs_div]]
    exact demo_odds

/-- An LDPC decoder that corrects nothing: the first of 202 words is received with both model bits wrong and so is the last one, which is
decoded. -/
example (cls : Labeler Unit) : ∃ s0, DudeDec.new demo () () = .ok s0 ∧ ∃ st out,
    (s0.run demo cls C149.plain (([-1 / 4, -1 / 4, 1, 1] :: List.replicate 200 [1, 1, 1, 1]) ++ [[-1 / 4, -1 / 4, 1, 1]])).2[201]? = some st ∧
    st.result = .ok out ∧ out.success = true ∧ out.estimate = [false, false, false, false] ∧ out.label = 0 := by
  obtain ⟨s0, hnew⟩ := (c72_constructor (σ := Unit) (Λ := Unit) demo () ()).2 (by norm_num [demo])
  refine ⟨s0, hnew, ?_⟩
  have hlen : ([-1 / 4, -1 / 4, 1, 1] :: List.replicate 200 [1, 1, 1, 1] : List (List ℝ)).length = 201 := by
    rw [List.length_cons, List.length_replicate]
  refine c157_run (by norm_num [demo]) (by norm_num [demo]) (by norm_num [demo]) (by norm_num [demo]) (by norm_num [demo])
    (Or.inr (by
      refine ⟨by simp [demo], fun i hi => ?_⟩
      have hi : i < 2 := hi
      match i with
      | 0 => rfl
      | 1 => rfl)) rfl cls C149.plain () () s0 hnew _ 0 C149.plain_corrects _ ?_ 201 [-1 / 4, -1 / 4, 1, 1] ?_ ⟨1, by simp, one_ne_zero⟩
    [false, false, false, false] rfl rfl (Finset.range 2) ?_ ?_
  · intro w hw
    have : w.length = 4 := by
      rcases List.mem_append.1 hw with h | h
      · rcases List.mem_cons.1 h with rfl | h
        · rfl
        · rw [(List.mem_replicate.1 h).2]; rfl
      · rw [List.mem_singleton.1 h]; rfl
    rw [this]
    show 2 ≤ 4
    omega
  · rw [List.getElem?_append_right (by rw [hlen]), hlen]
    rfl
  · intro i hi
    have hi := Finset.mem_range.1 hi
    refine ⟨hi, ?_⟩
    rw [List.take_left' hlen]
    have : ([false, false, false, false] : List Bool).getD i false = false := by
      match i with
      | 0 => rfl
      | 1 => rfl
    rw [this]
    exact demo_steady i hi
  · rw [Finset.card_range]
    have : errorsOff (List.range demo.modelLength) [false, false, false, false] [-1 / 4, -1 / 4, 1, 1] = 0 := by
      unfold errorsOff
      rw [Finset.card_eq_zero, Finset.filter_eq_empty_iff]
      intro i hi
      have hi : i < 4 := Finset.mem_range.1 hi
      rintro ⟨h1, h2⟩
      have h1 : ¬ i < 2 := fun h => h1 (List.mem_range.2 h)
      apply h2
      have : i = 2 ∨ i = 3 := by omega
      rcases this with rfl | rfl <;> norm_num [hardWord]
    rw [this]
    exact le_rfl

end NR.C157
