import Verif.Spec.BitFlip
import Verif.Props.C53_C56
import Verif.Props.C72
/-
C90: what the entropy decoder hands to a bit-flipping LDPC decoder.
-/
namespace NR
open Spec

variable {σ Λ : Type}

/-- What is known about the cluster a word is assigned to, and about the word. -/
structure Learnt (c : CedCfg) (s : Ced σ Λ) (ch : List ℝ) (l : Nat) (ents : List ℝ) (dist : List (ℝ × ℝ)) (data : List (List Bool)) :
    Prop where
  nodup : c.idx.Nodup
  bits : c.idx.length = c.modelLength
  inWord : ∀ i ∈ c.idx, i < ch.length
  hasEnts : s.ents[l]? = some ents
  hasDist : s.dists[l]? = some dist
  hasData : s.datas[l]? = some data
  entsLength : ents.length = c.modelLength
  distLength : dist.length = c.modelLength
  words : ∀ x ∈ data, x ≠ []
  nonempty : ch ≠ []

theorem usable_iff (c : CedCfg) (ents : List ℝ) :
    Usable c ents ↔ ∃ k, ∃ hk : k < c.idx.length, Low c ents k ∧ c.idx[k] ≠ 0 := by
  constructor
  · rintro ⟨i, ⟨k, hk, hl⟩, hi⟩
    obtain ⟨h, rfl⟩ := List.getElem?_eq_some_iff.1 hk
    exact ⟨k, h, hl, hi⟩
  · rintro ⟨k, hk, hl, hi⟩
    exact ⟨_, ⟨k, List.getElem?_eq_getElem hk, hl⟩, hi⟩

/-- The model's word. -/
theorem known_model {c : CedCfg} {s : Ced σ Λ} {ch : List ℝ} {l : Nat} {ents : List ℝ} {dist : List (ℝ × ℝ)}
    {data : List (List Bool)} (K : Learnt c s ch l ents dist data) :
    ∃ mod, s.predict c ch.length l = .ok mod ∧ ModelWord c ents dist data.length ch.length mod := by
  obtain ⟨mod, h1, h2, h3, h4, h5, h6⟩ :=
    predict_spec s K.nodup K.bits K.hasEnts K.hasDist K.hasData K.entsLength K.distLength K.words ch K.inWord
  refine ⟨mod, h1, h2, ?_, ?_⟩
  · intro hu k i hk hl
    obtain ⟨h, rfl⟩ := List.getElem?_eq_some_iff.1 hk
    exact h5 ((usable_iff c ents).1 hu) k h hl
  · rintro i (hi | hi)
    · by_cases hx : i ∈ c.idx
      · obtain ⟨k, hk, rfl⟩ := List.getElem_of_mem hx
        exact h4 k hk fun hl => hi ⟨k, List.getElem?_eq_getElem hk, hl⟩
      · exact h3 i hx
    · exact h6 (fun h => hi ((usable_iff c ents).2 h)) i

/-- The word is assigned to cluster `l`: by the classifier, in turn, or because there is only one. -/
def Assigned (c : CedCfg) (cls : Labeler σ) (s : Ced σ Λ) (ch : List ℝ) (l : Nat) : Prop :=
  (∀ i ∈ c.idx, i < ch.length) ∧ (pickLabel cls c.nClusters c.cluster s.cls s.running (bitsAt c.idx (hardWord ch))).2.2 = .ok (l : Int)

/-- What is handed over for a word assigned to a cluster. -/
theorem decode_handed (c : CedCfg) (cls : Labeler σ) (ldpc : Ldpc Λ) (s : Ced σ Λ) (ch : List ℝ) (l : Nat)
    (h : Assigned c cls s ch l) (inp : LdpcIn) (hp : s.prepare c ch l = .ok inp) :
    (s.decode c cls ldpc ch).handed = some inp := by
  obtain ⟨hlt, hpk⟩ := h
  unfold Ced.decode
  have hlen : (hardBits ch).length = ch.length := by simp [hardBits]
  rw [takeIdx_of_lt (by rw [hlen]; exact hlt)]
  simp only
  rw [show (c.idx.filterMap ((hardBits ch)[·]?)) = bitsAt c.idx (hardWord ch) from rfl]
  rcases hq : pickLabel cls c.nClusters c.cluster s.cls s.running (bitsAt c.idx (hardWord ch)) with ⟨cs, running, lab⟩
  rw [hq] at hpk
  simp only at hpk
  subst hpk
  simp only
  rw [if_neg (by omega), Int.toNat_natCast]
  have hsame : Ced.prepare c { s with cls := cs, running := running } ch l = s.prepare c ch l := rfl
  rw [hsame, hp]
  simp only
  unfold Ced.finish
  split
  · rfl
  · simp only
    split
    · rfl
    · split
      · split <;> rfl
      · rfl

/-- The error of `prepare` is the result of the call. -/
theorem decode_raises (c : CedCfg) (cls : Labeler σ) (ldpc : Ldpc Λ) (s : Ced σ Λ) (ch : List ℝ) (l : Nat)
    (h : Assigned c cls s ch l) (e : PyErr) (hp : s.prepare c ch l = .error e) :
    (s.decode c cls ldpc ch).result = .error e := by
  obtain ⟨hlt, hpk⟩ := h
  unfold Ced.decode
  have hlen : (hardBits ch).length = ch.length := by simp [hardBits]
  rw [takeIdx_of_lt (by rw [hlen]; exact hlt)]
  simp only
  rw [show (c.idx.filterMap ((hardBits ch)[·]?)) = bitsAt c.idx (hardWord ch) from rfl]
  rcases hq : pickLabel cls c.nClusters c.cluster s.cls s.running (bitsAt c.idx (hardWord ch)) with ⟨cs, running, lab⟩
  rw [hq] at hpk
  simp only at hpk
  subst hpk
  simp only
  rw [if_neg (by omega), Int.toNat_natCast]
  have hsame : Ced.prepare c { s with cls := cs, running := running } ch l = s.prepare c ch l := rfl
  rw [hsame, hp]

theorem peak_eq {w : List ℝ} {a b : ℝ} (ha : IsPeak w a) (hb : IsPeak w b) : a = b := by
  obtain ⟨v, hv, e⟩ := ha.1
  obtain ⟨u, hu, f⟩ := hb.1
  apply le_antisymm
  · rw [← e]; exact hb.2 v hv
  · rw [← f]; exact ha.2 u hu

theorem peak_nonneg {w : List ℝ} {a : ℝ} (ha : IsPeak w a) : 0 ≤ a := by
  obtain ⟨v, _, e⟩ := ha.1
  rw [← e]; exact abs_nonneg v

theorem peak_zero_iff {w : List ℝ} {a : ℝ} (ha : IsPeak w a) : a = 0 ↔ ∀ i, w.getD i 0 = 0 := by
  constructor
  · intro h i
    by_cases hi : i < w.length
    · have := ha.2 w[i] (List.getElem_mem hi)
      rw [h] at this
      rw [List.getD_eq_getElem?_getD, List.getElem?_eq_getElem hi]
      exact abs_nonpos_iff.1 this
    · rw [List.getD_eq_getElem?_getD, List.getElem?_eq_none (not_lt.1 hi)]; rfl
  · intro h
    obtain ⟨v, hv, e⟩ := ha.1
    obtain ⟨i, hi, rfl⟩ := List.getElem_of_mem hv
    have := h i
    rw [List.getD_eq_getElem?_getD, List.getElem?_eq_getElem hi] at this
    rw [← e, show w[i] = 0 from this, abs_zero]

theorem peak_scale {w : List ℝ} {a k : ℝ} (ha : IsPeak w a) (hk : 0 ≤ k) : IsPeak (scale k w) (a * k) := by
  obtain ⟨⟨v, hv, e⟩, hle⟩ := ha
  refine ⟨⟨v * k, List.mem_map.2 ⟨v, hv, rfl⟩, by rw [abs_mul, e, abs_of_nonneg hk]⟩, ?_⟩
  intro x hx
  obtain ⟨u, hu, rfl⟩ := List.mem_map.1 hx
  rw [abs_mul, abs_of_nonneg hk]
  exact mul_le_mul_of_nonneg_right (hle u hu) hk

theorem maxAbs_eq {w : List ℝ} {a : ℝ} (ha : IsPeak w a) : maxAbs w = .ok a := by
  have hne : w ≠ [] := by
    rintro rfl
    obtain ⟨v, hv, _⟩ := ha.1
    cases hv
  obtain ⟨m, h1, h2⟩ := maxAbs_peak hne
  rw [h1, peak_eq h2 ha]

/-- Unless the decoder works on ratios, what is handed over are the samples, or their hard decisions, and the priors. -/
theorem prepare_kind {c : CedCfg} (hk : c.kind ≠ .logSpa) (s : Ced σ Λ) (ch mod : List ℝ) (l : Nat)
    (hp : s.predict c ch.length l = .ok mod) (sm pr : List ℝ) (h : s.samplePriors c ch mod = .ok (sm, false, pr)) :
    s.prepare c ch l = .ok (toDecoder c.kind sm pr) := by
  unfold Ced.prepare toDecoder
  rw [hp]
  simp only [bind, Except.bind]
  cases hkind : c.kind with
  | logSpa => exact absurd hkind hk
  | wbf => rw [h]; rfl
  | galBf => rw [h]; rfl

theorem handed_eq {c : CedCfg} (hk : c.kind ≠ .logSpa) (cls : Labeler σ) (ldpc : Ldpc Λ) (s : Ced σ Λ) (ch : List ℝ) (l : Nat)
    (h : Assigned c cls s ch l) (mod sm pr : List ℝ)
    (hp : s.predict c ch.length l = .ok mod) (hs : s.samplePriors c ch mod = .ok (sm, false, pr)) :
    (s.decode c cls ldpc ch).handed = some (toDecoder c.kind sm pr) := by
  exact decode_handed c cls ldpc s ch l h _ (prepare_kind hk s ch mod l hp sm pr hs)

/-- C90. As long as the cluster has no model, or the model has nothing to say about any bit, the word received is handed over with
priors zero. -/
theorem c90_silent {c : CedCfg} (hk : c.kind ≠ .logSpa) (cls : Labeler σ) (ldpc : Ldpc Λ) (s : Ced σ Λ) (ch : List ℝ) (hne : ch ≠ [])
    (l : Nat) (h : Assigned c cls s ch l) (ents : List ℝ) (dist : List (ℝ × ℝ))
    (data : List (List Bool))
    (hs : (s.ents[l]? = some [] ∧ s.dists[l]? = some dist ∧ s.datas[l]? = some data) ∨
      (Learnt c s ch l ents dist data ∧ (¬ Usable c ents ∨ entTrust c data.length = 0))) :
    (s.decode c cls ldpc ch).handed = some (toDecoder c.kind ch (List.replicate ch.length 0)) := by
  have hz : ∃ mod, s.predict c ch.length l = .ok mod ∧ mod.length = ch.length ∧ ∀ i, mod.getD i 0 = 0 := by
    rcases hs with ⟨h1, h2, h3⟩ | ⟨K, hz⟩
    · refine ⟨List.replicate ch.length 0, ?_, by simp, fun i => by simp [List.getD_eq_getElem?_getD, List.getElem?_replicate]; split <;> rfl⟩
      unfold Ced.predict
      rw [h1, h2, h3]
      simp only [structuralMask, List.map_nil, maskIdx, List.length_nil, if_true, bind, Except.bind, List.all_nil]
    · obtain ⟨mod, h1, h2⟩ := known_model K
      refine ⟨mod, h1, h2.length, fun i => ?_⟩
      rcases hz with hz | hz
      · exact h2.silent i (Or.inr hz)
      · by_cases hi : LowPos c ents i ∧ Usable c ents
        · obtain ⟨⟨k, hk, hlow⟩, hu⟩ := hi
          rw [h2.low hu k i hk hlow, hz, zero_mul]
        · exact h2.silent i (by tauto)
  obtain ⟨mod, h1, h2, h3⟩ := hz
  apply handed_eq hk cls ldpc s ch l h mod _ _ h1
  obtain ⟨peak, p1, p2⟩ := maxAbs_peak hne
  obtain ⟨top, t1, t2⟩ := maxAbs_peak (w := mod) (by intro h0; rw [h0] at h2; exact hne (List.length_eq_zero_iff.1 h2.symm))
  have ht : top = 0 := (peak_zero_iff t2).2 h3
  unfold Ced.samplePriors
  rw [p1, t1]
  simp only [bind, Except.bind]
  rw [if_neg (by rw [ht]; exact lt_irrefl _)]

theorem zipWith_eq_map {α β γ : Type} (f : α → β → γ) (a : List α) (b : List β) (h : b.length = a.length) (da : α) (db : β) :
    List.zipWith f a b = (List.range a.length).map fun i => f (a.getD i da) (b.getD i db) := by
  apply List.ext_getElem
  · simp [h]
  · intro i h1 h2
    simp only [List.length_map, List.length_range] at h2
    simp [List.getD_eq_getElem?_getD, List.getElem?_eq_getElem h2, List.getElem?_eq_getElem (h ▸ h2 : i < b.length)]

/-- C90, method 0. The model's word is scaled down to the peak of the channel's word if it is larger, both are added, and the sum is
scaled to the peak of the channel's word; priors are zero. (Sums that are zero throughout are left out: there the code divides zero
by zero.) -/
theorem c90_sum {c : CedCfg} (hk : c.kind ≠ .logSpa) (hm : c.method = 0) (cls : Labeler σ) (ldpc : Ldpc Λ) (s : Ced σ Λ) (ch : List ℝ)
    (l : Nat) (h : Assigned c cls s ch l) (ents : List ℝ) (dist : List (ℝ × ℝ))
    (data : List (List Bool)) (K : Learnt c s ch l ents dist data) :
    ∃ mod peak top, ModelWord c ents dist data.length ch.length mod ∧ IsPeak ch peak ∧ IsPeak mod top ∧
      ∀ sumPeak, IsPeak ((List.range ch.length).map (summed ch mod peak top)) sumPeak → 0 < top → 0 < sumPeak →
        (s.decode c cls ldpc ch).handed = some (toDecoder c.kind
          ((List.range ch.length).map fun i => summed ch mod peak top i * (peak / sumPeak)) (List.replicate ch.length 0)) ∧
        0 < peak ∧ IsPeak ((List.range ch.length).map fun i => summed ch mod peak top i * (peak / sumPeak)) peak := by
  obtain ⟨mod, m1, m2⟩ := known_model K
  obtain ⟨peak, p1, p2⟩ := maxAbs_peak K.nonempty
  obtain ⟨top, t1, t2⟩ := maxAbs_peak (w := mod) (by
    intro h0
    have := m2.length
    rw [h0] at this
    exact K.nonempty (List.length_eq_zero_iff.1 this.symm))
  refine ⟨mod, peak, top, m2, p2, t2, fun sp hsp htop hsp0 => ?_⟩
  have hsum : (if top > peak then List.zipWith (fun (a b : ℝ) => a + b * peak / top) ch mod
      else List.zipWith (fun (a b : ℝ) => a + b) ch mod) = (List.range ch.length).map (summed ch mod peak top) := by
    rw [zipWith_eq_map _ _ _ m2.length 0 0, zipWith_eq_map _ _ _ m2.length 0 0]
    split
    · rename_i hgt
      apply List.map_congr_left
      intro i _
      unfold summed
      rw [min_eq_right ((div_le_one htop).2 hgt.le)]
      ring
    · rename_i hle
      apply List.map_congr_left
      intro i _
      unfold summed
      rw [min_eq_left ((one_le_div htop).2 (not_lt.1 hle)), mul_one]
  have hpos : 0 < peak := by
    rcases (peak_nonneg p2).lt_or_eq with h0 | h0
    · exact h0
    exfalso
    have hch := (peak_zero_iff p2).1 h0.symm
    have : sp = 0 := (peak_zero_iff hsp).2 fun i => by
      by_cases hi : i < ch.length
      · simp only [List.getD_eq_getElem?_getD, List.getElem?_map, List.getElem?_range hi, Option.map_some, Option.getD_some]
        unfold summed
        rw [hch i, ← h0, zero_div, min_eq_right zero_le_one]; ring
      · rw [List.getD_eq_getElem?_getD, List.getElem?_eq_none (by simpa using not_lt.1 hi)]; rfl
    exact hsp0.ne' this
  have hsc := peak_scale hsp (div_nonneg hpos.le hsp0.le)
  rw [mul_div_cancel₀ _ hsp0.ne'] at hsc
  have hmap : scale (peak / sp) ((List.range ch.length).map (summed ch mod peak top)) =
      (List.range ch.length).map fun i => summed ch mod peak top i * (peak / sp) := by
    unfold scale; rw [List.map_map]; rfl
  rw [hmap] at hsc
  refine ⟨?_, hpos, hsc⟩
  apply handed_eq hk cls ldpc s ch l h mod _ _ m1
  unfold Ced.samplePriors
  rw [p1, t1]
  simp only [bind, Except.bind]
  rw [if_pos htop, if_pos hm]
  unfold mixSamples
  rw [hsum]
  simp only [bind, Except.bind]
  rw [maxAbs_eq hsp]
  simp only
  rw [hmap]

/-- C90, method 0, bit by bit: the decision about a bit is as received where the model says nothing or agrees; where it disagrees it is
the model's if the model's scaled value is larger in magnitude than the received one, and as received if it is smaller. -/
theorem c90_sum_decisions (ch mod : List ℝ) (peak top sumPeak : ℝ) (hp : 0 < peak) (ht : 0 < top) (hs : 0 < sumPeak) (i : Nat) :
    (0 ≤ ch.getD i 0 * mod.getD i 0 → ch.getD i 0 ≠ 0 →
      (summed ch mod peak top i * (peak / sumPeak) < 0 ↔ ch.getD i 0 < 0)) ∧
    (ch.getD i 0 * mod.getD i 0 < 0 → |ch.getD i 0| < |mod.getD i 0| * min 1 (peak / top) →
      (summed ch mod peak top i * (peak / sumPeak) < 0 ↔ mod.getD i 0 < 0)) ∧
    (ch.getD i 0 * mod.getD i 0 < 0 → |mod.getD i 0| * min 1 (peak / top) < |ch.getD i 0| →
      (summed ch mod peak top i * (peak / sumPeak) < 0 ↔ ch.getD i 0 < 0)) := by
  have hk : 0 < peak / sumPeak := div_pos hp hs
  have hm : 0 < min 1 (peak / top) := lt_min one_pos (div_pos hp ht)
  unfold summed
  generalize min 1 (peak / top) = k at hm ⊢
  generalize ch.getD i 0 = a
  generalize mod.getD i 0 = b
  have hneg : ∀ x, x * (peak / sumPeak) < 0 ↔ x < 0 := fun x => by
    rw [mul_neg_iff]; constructor
    · rintro (⟨_, h⟩ | ⟨h, _⟩)
      · linarith
      · exact h
    · exact fun h => Or.inr ⟨h, hk⟩
  rw [hneg]
  refine ⟨fun hab ha => ?_, fun hab hlt => ?_, fun hab hlt => ?_⟩
  · rcases lt_or_gt_of_ne ha with h | h
    · have hb : b ≤ 0 := by
        by_contra hb
        have := mul_neg_of_neg_of_pos h (not_le.1 hb)
        linarith
      have := mul_nonpos_of_nonpos_of_nonneg hb hm.le
      exact ⟨fun _ => h, fun _ => by linarith⟩
    · have hb : 0 ≤ b := by
        by_contra hb
        have := mul_neg_of_pos_of_neg h (not_le.1 hb)
        linarith
      have := mul_nonneg hb hm.le
      exact ⟨fun _ => by linarith, fun _ => by linarith⟩
  · rcases mul_neg_iff.1 hab with ⟨h1, h2⟩ | ⟨h1, h2⟩
    · rw [abs_of_pos h1, abs_of_neg h2] at hlt
      exact ⟨fun _ => h2, fun _ => by linarith⟩
    · rw [abs_of_neg h1, abs_of_pos h2] at hlt
      exact ⟨fun _ => by linarith, fun _ => by linarith⟩
  · rcases mul_neg_iff.1 hab with ⟨h1, h2⟩ | ⟨h1, h2⟩
    · rw [abs_of_pos h1, abs_of_neg h2] at hlt
      exact ⟨fun _ => by linarith, fun _ => by linarith⟩
    · rw [abs_of_neg h1, abs_of_pos h2] at hlt
      exact ⟨fun _ => h1, fun _ => by linarith⟩

theorem scale_one (w : List ℝ) : scale 1 w = w := by
  unfold scale
  simp

theorem scale_scale (a b : ℝ) (w : List ℝ) : scale a (scale b w) = scale (b * a) w := by
  unfold scale
  rw [List.map_map]
  apply List.map_congr_left
  intro x _
  simp only [Function.comp]
  ring

/-- Scaling a word down to a bound. -/
theorem cut_peak {w : List ℝ} {m b : ℝ} (hm : IsPeak w m) (hb : 0 ≤ b) :
    ∃ k, 0 ≤ k ∧ (open Classical in (if m > 0 ∧ m > b then scale (b / m) w else w)) = scale k w ∧ m * k = min m b ∧
      IsPeak (scale k w) (min m b) := by
  classical
  have h0 := peak_nonneg hm
  by_cases h : m > 0 ∧ m > b
  · refine ⟨b / m, div_nonneg hb h0, by rw [if_pos h], ?_, ?_⟩
    · rw [mul_div_cancel₀ _ h.1.ne', min_eq_right h.2.le]
    · have := peak_scale hm (div_nonneg hb h0)
      rw [mul_div_cancel₀ _ h.1.ne'] at this
      rw [min_eq_right h.2.le]
      exact this
  · have hle : m ≤ b := by
      by_contra hc
      exact h ⟨by linarith [not_le.1 hc], not_le.1 hc⟩
    refine ⟨1, zero_le_one, by rw [if_neg h, scale_one], by rw [mul_one, min_eq_left hle], ?_⟩
    rw [scale_one, min_eq_left hle]
    exact hm

theorem contradiction_eq (ch mod : List ℝ) (hl : mod.length = ch.length) :
    List.zipWith (fun (a b : ℝ) => -(SignType.sign (a * b) : ℝ) * |b|) ch mod = (List.range ch.length).map (contradiction ch mod) := by
  rw [zipWith_eq_map _ _ _ hl 0 0]
  apply List.map_congr_left
  intro i _
  unfold contradiction
  rcases lt_trichotomy (ch.getD i 0 * mod.getD i 0) 0 with h | h | h
  · rw [if_pos h, sign_neg h]; simp
  · rw [if_neg h.not_lt, if_neg h.not_gt, h]; simp
  · rw [if_neg h.le.not_gt, if_pos h, sign_pos h]; simp

/-- The priors of methods 1 and 2. -/
theorem mixPriors_eq (ch mod : List ℝ) (hl : mod.length = ch.length) (m peak coeff : ℝ) (hp : 0 ≤ peak) (hc : 0 ≤ coeff)
    (hm : IsPeak ((List.range ch.length).map (contradiction ch mod)) m) :
    ∃ k, 0 ≤ k ∧ m * k = min m (min peak coeff) ∧
      mixPriors ch mod peak coeff = .ok ((List.range ch.length).map fun i => contradiction ch mod i * k) := by
  unfold mixPriors
  rw [contradiction_eq ch mod hl]
  simp only [bind, Except.bind]
  rw [maxAbs_eq hm]
  simp only
  obtain ⟨k1, a0, a1, a2, a3⟩ := cut_peak hm hp
  rw [a1, maxAbs_eq a3]
  simp only
  obtain ⟨k2, b0, b1, b2, -⟩ := cut_peak a3 hc
  rw [b1, scale_scale]
  refine ⟨k1 * k2, mul_nonneg a0 b0, ?_, ?_⟩
  · rw [← mul_assoc, a2, b2, min_assoc]
  · congr 1
    unfold scale
    rw [List.map_map]
    rfl

/-- C90, methods 1 and 2. The word received is handed over as it is. The priors are positive where the model contradicts the channel,
negative where it agrees and zero where it says nothing, in proportion to the magnitude of the model's value, scaled down if the largest
is above the bound: the peak of the channel's word and, with method 1, 1, with method 2 the root mean square of the channel's word
divided by the mean number of bits per check. A decoder that takes hard bits gets the bits received: the model has no effect. -/
theorem c90_priors {c : CedCfg} (hk : c.kind ≠ .logSpa) (hm : c.method = 1 ∨ c.method = 2) (hd : 0 ≤ c.meanDegree) (cls : Labeler σ)
    (ldpc : Ldpc Λ) (s : Ced σ Λ) (ch : List ℝ) (l : Nat) (h : Assigned c cls s ch l) (ents : List ℝ) (dist : List (ℝ × ℝ))
    (data : List (List Bool)) (K : Learnt c s ch l ents dist data) :
    ∃ mod peak priorPeak k, ModelWord c ents dist data.length ch.length mod ∧ IsPeak ch peak ∧
      IsPeak ((List.range ch.length).map (contradiction ch mod)) priorPeak ∧ 0 ≤ k ∧
      priorPeak * k = min priorPeak (priorBound c ch peak) ∧
      (s.decode c cls ldpc ch).handed =
        some (toDecoder c.kind ch ((List.range ch.length).map fun i => contradiction ch mod i * k)) := by
  obtain ⟨mod, m1, m2⟩ := known_model K
  obtain ⟨peak, p1, p2⟩ := maxAbs_peak K.nonempty
  have hmne : mod ≠ [] := by
    intro h0
    have := m2.length
    rw [h0] at this
    exact K.nonempty (List.length_eq_zero_iff.1 this.symm)
  obtain ⟨top, t1, t2⟩ := maxAbs_peak hmne
  obtain ⟨pp, -, q2⟩ := maxAbs_peak (w := (List.range ch.length).map (contradiction ch mod)) (by simpa using K.nonempty)
  have hcoeff : 0 ≤ (if c.method = 1 then (1 : ℝ) else rms ch / c.meanDegree) := by
    split
    · exact zero_le_one
    · exact div_nonneg (Real.sqrt_nonneg _) hd
  obtain ⟨k, k0, k1, k2⟩ := mixPriors_eq ch mod m2.length pp peak _ (peak_nonneg p2) hcoeff q2
  by_cases htop : 0 < top
  · refine ⟨mod, peak, pp, k, m2, p2, q2, k0, k1, ?_⟩
    apply handed_eq hk cls ldpc s ch l h mod _ _ m1
    unfold Ced.samplePriors
    rw [p1, t1]
    simp only [bind, Except.bind]
    rw [if_pos htop]
    rcases hm with hm | hm
    · rw [if_neg (by omega), if_pos hm]
      rw [if_pos hm] at k2
      rw [k2]
    · rw [if_neg (by omega), if_neg (by omega), if_pos hm]
      rw [if_neg (by omega)] at k2
      unfold rms at k2
      rw [k2]
  · have h0 : top = 0 := le_antisymm (not_lt.1 htop) (peak_nonneg t2)
    have hz := (peak_zero_iff t2).1 h0
    have hc0 : ∀ i, contradiction ch mod i = 0 := by
      intro i
      unfold contradiction
      rw [hz i]; simp
    refine ⟨mod, peak, pp, k, m2, p2, q2, k0, k1, ?_⟩
    have e : (List.range ch.length).map (fun i => contradiction ch mod i * k) = List.replicate ch.length 0 := by
      simp only [hc0, zero_mul, List.map_const', List.length_range]
    rw [e]
    apply handed_eq hk cls ldpc s ch l h mod _ _ m1
    unfold Ced.samplePriors
    rw [p1, t1]
    simp only [bind, Except.bind]
    rw [if_neg htop]

/-- C90, methods 1 and 2: no prior is above the bound in magnitude. -/
theorem c90_priors_bounded (ch mod : List ℝ) (m b k : ℝ) (hm : IsPeak ((List.range ch.length).map (contradiction ch mod)) m)
    (h0 : 0 ≤ k) (h : m * k = min m b) (i : Nat) (hi : i < ch.length) : |contradiction ch mod i * k| ≤ b := by
  rw [abs_mul, abs_of_nonneg h0]
  have h1 := hm.2 (contradiction ch mod i) (List.mem_map.2 ⟨i, List.mem_range.2 hi, rfl⟩)
  calc _ ≤ m * k := mul_le_mul_of_nonneg_right h1 h0
    _ ≤ b := by rw [h]; exact min_le_right _ _

theorem foldl_set_getD (f : Nat → ℝ) (st : List Nat) : ∀ (a : List ℝ) (i : Nat), i < a.length →
    (st.foldl (fun (a : List ℝ) (i : Nat) => a.set i (f i)) a).length = a.length ∧
    (st.foldl (fun (a : List ℝ) (i : Nat) => a.set i (f i)) a).getD i 0 = if i ∈ st then f i else a.getD i 0 := by
  induction st with
  | nil => intro a i _; simp
  | cons j st ih =>
    intro a i hi
    rw [List.foldl_cons]
    obtain ⟨h1, h2⟩ := ih (a.set j (f j)) i (by simpa using hi)
    refine ⟨by rw [h1, List.length_set], ?_⟩
    rw [h2]
    by_cases hij : i = j
    · subst hij
      simp [List.getD_eq_getElem?_getD, hi]
    · have : (a.set j (f j)).getD i 0 = a.getD i 0 := by
        rw [List.getD_eq_getElem?_getD, List.getElem?_set_ne (Ne.symm hij), ← List.getD_eq_getElem?_getD]
      rw [this]
      simp [hij]

open Classical in
/-- C90, method 3: the value handed over at each position, 1 for a one. -/
noncomputable def forcedAt (c : CedCfg) (window : Nat) (ents0 : List ℝ) (words0 : Nat) (ch mod : List ℝ) (i : Nat) : Bool :=
  if window ≤ words0 ∧ LowPos c ents0 i ∧ Usable c ents0 then decide (mod.getD i 0 < 0) else decide (ch.getD i 0 < 0)

open Classical in
theorem forced_samples {c : CedCfg} (hm : c.method = 3) (w : Nat) (hw : c.window = some w) (s : Ced σ Λ) (ch mod : List ℝ)
    (hne : ch ≠ []) (hlen : mod.length = ch.length) (top : ℝ) (ht : IsPeak mod top) (htop : 0 < top) (ents0 : List ℝ)
    (dist0 : List (ℝ × ℝ)) (data0 : List (List Bool)) (K0 : Learnt c s ch 0 ents0 dist0 data0) :
    s.samplePriors c ch mod = .ok ((List.range ch.length).map
      (fun i => if forcedAt c w ents0 data0.length ch mod i then (1 : ℝ) else 0), true, List.replicate ch.length 0) := by
  obtain ⟨peak, p1, p2⟩ := maxAbs_peak hne
  have hd0 : s.datas.getD 0 [] = data0 := by rw [List.getD_eq_getElem?_getD, K0.hasData]; rfl
  have he0 : s.ents.getD 0 [] = ents0 := by rw [List.getD_eq_getElem?_getD, K0.hasEnts]; rfl
  have hsize : (if data0.flatten.length = 0 then 0 else data0.length) = data0.length := by
    split
    · rename_i h0
      cases data0 with
      | nil => rfl
      | cons x xs =>
        have h1 := K0.words x (List.mem_cons_self ..)
        simp only [List.flatten_cons, List.length_append] at h0
        have : x.length ≠ 0 := fun h => h1 (List.length_eq_zero_iff.1 h)
        omega
    · rfl
  obtain ⟨hml, -, hst⟩ := structural_mem (c := c) K0.bits K0.entsLength
  have hst' : ∀ j, j ∈ ((c.idx.zip (structuralMask c.threshold ents0)).filterMap fun x => if x.2 then some x.1 else none) ↔
      LowPos c ents0 j := by
    intro j
    rw [hst j]
    constructor
    · rintro ⟨k, hk, hl, rfl⟩; exact ⟨k, List.getElem?_eq_getElem hk, hl⟩
    · rintro ⟨k, hk, hl⟩
      obtain ⟨h, rfl⟩ := List.getElem?_eq_some_iff.1 hk
      exact ⟨k, h, hl, rfl⟩
  have hbits : (hardBits ch).map (fun (b : Bool) => if b then (1 : ℝ) else 0) =
      (List.range ch.length).map fun i => if decide (ch.getD i 0 < 0) then (1 : ℝ) else 0 := by
    apply List.ext_getElem
    · simp [hardBits]
    · intro i h1 h2
      simp only [List.length_map, List.length_range] at h2
      simp [hardBits, List.getD_eq_getElem?_getD, List.getElem?_eq_getElem h2]
  unfold Ced.samplePriors
  rw [p1, maxAbs_eq ht]
  simp only [bind, Except.bind]
  rw [if_pos htop, if_neg (by omega), if_neg (by omega), if_neg (by omega), if_pos hm, hw]
  simp only [hd0, he0, hsize]
  by_cases hwin : w ≤ data0.length
  · rw [if_pos hwin, maskIdx_spec _ _ hml]
    simp only
    by_cases hall : ((c.idx.zip (structuralMask c.threshold ents0)).filterMap
        fun x => if x.2 then some x.1 else none).all (· == 0) = true
    · rw [if_pos hall, hbits]
      have hno : ¬ Usable c ents0 := by
        rintro ⟨i, hl, hi⟩
        have := List.all_eq_true.1 hall i ((hst' i).2 hl)
        exact hi (by simpa using this)
      simp only [forcedAt, hno, and_false, if_false]
    · rw [if_neg hall, if_pos (by
        rw [List.all_eq_true]
        intro j hj
        obtain ⟨k, hk, _⟩ := (hst' j).1 hj
        obtain ⟨h, rfl⟩ := List.getElem?_eq_some_iff.1 hk
        simpa using K0.inWord _ (List.getElem_mem h))]
      have hyes : Usable c ents0 := by
        by_contra hno
        apply hall
        rw [List.all_eq_true]
        intro j hj
        by_contra hj0
        exact hno ⟨j, (hst' j).1 hj, by simpa using hj0⟩
      congr 2
      rw [hbits]
      have hl0 : ((List.range ch.length).map fun i => if decide (ch.getD i 0 < 0) then (1 : ℝ) else 0).length = ch.length := by simp
      apply List.ext_getElem
      · have hpos : 0 < ch.length := List.length_pos_iff.2 hne
        rw [(foldl_set_getD _ _ _ 0 (by rw [hl0]; exact hpos)).1, hl0]; simp
      · intro i h1 h2
        have hi : i < ch.length := by simpa using h2
        have e := (foldl_set_getD (fun i => if (hardBits mod).getD i false then (1 : ℝ) else 0)
          ((c.idx.zip (structuralMask c.threshold ents0)).filterMap fun x => if x.2 then some x.1 else none)
          ((List.range ch.length).map fun i => if decide (ch.getD i 0 < 0) then (1 : ℝ) else 0) i (by rw [hl0]; exact hi)).2
        rw [List.getD_eq_getElem?_getD, List.getElem?_eq_getElem h1, Option.getD_some] at e
        rw [e]
        have hmb : (hardBits mod).getD i false = decide (mod.getD i 0 < 0) := by
          have him : i < mod.length := by omega
          simp [hardBits, List.getD_eq_getElem?_getD, List.getElem?_eq_getElem him]
        have hcb : ((List.range ch.length).map fun i => if decide (ch.getD i 0 < 0) then (1 : ℝ) else 0).getD i 0 =
            if decide (ch.getD i 0 < 0) then (1 : ℝ) else 0 := by
          rw [List.getD_eq_getElem?_getD, List.getElem?_map, List.getElem?_range hi]; rfl
        rw [hmb, hcb, List.getElem_map, List.getElem_range]
        unfold forcedAt
        by_cases hlow : LowPos c ents0 i
        · have e3 : (if w ≤ data0.length ∧ LowPos c ents0 i ∧ Usable c ents0 then decide (mod.getD i 0 < 0)
              else decide (ch.getD i 0 < 0)) = decide (mod.getD i 0 < 0) := if_pos ⟨hwin, hlow, hyes⟩
          rw [if_pos ((hst' i).2 hlow), e3]
        · have e3 : (if w ≤ data0.length ∧ LowPos c ents0 i ∧ Usable c ents0 then decide (mod.getD i 0 < 0)
              else decide (ch.getD i 0 < 0)) = decide (ch.getD i 0 < 0) := if_neg (fun hx => hlow hx.2.1)
          rw [if_neg (fun hx => hlow ((hst' i).1 hx)), e3]
  · rw [if_neg hwin, hbits]
    simp only [forcedAt, hwin, false_and, if_false]

open Classical in
/-- C90, method 3, a decoder that takes hard bits, when the model of the word's cluster `l` says anything: once as many words as the
window holds were learned for cluster 0, the positions of low entropy in cluster 0 get the decisions of the model of cluster `l`; the
others, and before that all, are handed over as received. -/
theorem c90_forced {c : CedCfg} (hk : c.kind = .galBf) (hm : c.method = 3) (w : Nat) (hw : c.window = some w) (cls : Labeler σ)
    (ldpc : Ldpc Λ) (s : Ced σ Λ) (ch : List ℝ) (l : Nat) (h : Assigned c cls s ch l) (ents : List ℝ) (dist : List (ℝ × ℝ))
    (data : List (List Bool)) (K : Learnt c s ch l ents dist data) (ents0 : List ℝ)
    (dist0 : List (ℝ × ℝ)) (data0 : List (List Bool)) (K0 : Learnt c s ch 0 ents0 dist0 data0) :
    ∃ mod, ModelWord c ents dist data.length ch.length mod ∧ ((∃ i, mod.getD i 0 ≠ 0) →
      (s.decode c cls ldpc ch).handed = some (.bits ((List.range ch.length).map fun i =>
        if w ≤ data0.length ∧ LowPos c ents0 i ∧ Usable c ents0 then decide (mod.getD i 0 < 0) else decide (ch.getD i 0 < 0)))) := by
  obtain ⟨mod, m1, m2⟩ := known_model K
  refine ⟨mod, m2, fun hnz => ?_⟩
  have hmne : mod ≠ [] := by
    intro h0
    have := m2.length
    rw [h0] at this
    exact K.nonempty (List.length_eq_zero_iff.1 this.symm)
  obtain ⟨top, -, t2⟩ := maxAbs_peak hmne
  have htop : 0 < top := by
    rcases (peak_nonneg t2).lt_or_eq with h0 | h0
    · exact h0
    · obtain ⟨i, hi⟩ := hnz
      exact absurd ((peak_zero_iff t2).1 h0.symm i) hi
  apply decode_handed c cls ldpc s ch l h
  unfold Ced.prepare
  rw [m1, hk]
  simp only [bind, Except.bind]
  rw [forced_samples hm w hw s ch mod K.nonempty m2.length top t2 htop ents0 dist0 data0 K0]
  simp only [if_true]
  congr 2
  rw [List.map_map]
  apply List.map_congr_left
  intro i _
  simp only [Function.comp, forcedAt]
  split <;> simp

/-- C90, method 3 with one cluster: the decisions of the model are the likelier letters, as soon as it is trusted at all. -/
theorem c90_forced_letter {c : CedCfg} {ents : List ℝ} {dist : List (ℝ × ℝ)} {words n : Nat} {mod : List ℝ}
    (M : ModelWord c ents dist words n mod) (hu : Usable c ents) (ht : 0 < entTrust c words) (k i : Nat) (hk : c.idx[k]? = some i)
    (hl : LowBit c ents k) (h0 : 0 ≤ (dist.getD k (0, 0)).1) (h1 : 0 ≤ (dist.getD k (0, 0)).2) :
    (mod.getD i 0 < 0 ↔ (dist.getD k (0, 0)).1 < (dist.getD k (0, 0)).2) ∧
    (mod.getD i 0 ≠ 0 ↔ (dist.getD k (0, 0)).1 ≠ (dist.getD k (0, 0)).2) := by
  rw [M.low hu k i hk hl]
  obtain ⟨d1, d2⟩ := c55_direction _ _ h0 h1
  unfold modelRatio at d1 d2
  simp only at d1 d2
  constructor
  · rw [← d2]
    constructor
    · intro h; by_contra hc; exact absurd (mul_nonneg ht.le (not_lt.1 hc)) (not_le.2 h)
    · exact fun h => mul_neg_of_pos_of_neg ht h
  · constructor
    · intro h he
      apply h
      have e1 : ¬ 0 < Real.log ((floatEps + (dist.getD k (0, 0)).1) / ((dist.getD k (0, 0)).2 + floatEps)) := by rw [d1]; rw [he]; exact lt_irrefl _
      have e2 : ¬ Real.log ((floatEps + (dist.getD k (0, 0)).1) / ((dist.getD k (0, 0)).2 + floatEps)) < 0 := by rw [d2]; rw [he]; exact lt_irrefl _
      rw [le_antisymm (not_lt.1 e1) (not_lt.1 e2), mul_zero]
    · intro h he
      rcases mul_eq_zero.1 he with h0 | h0
      · exact ht.ne' h0
      · rcases lt_or_gt_of_ne h with hlt | hgt
        · exact absurd (d2.2 hlt) (by rw [h0]; exact lt_irrefl _)
        · exact absurd (d1.2 hgt) (by rw [h0]; exact lt_irrefl _)

/-- C90, refuted for method 3 with several clusters: a bit whose entropy is low in cluster 0 but not in the word's own cluster is
handed over as a zero whatever was received and whatever was learned. -/
theorem c90_forced_false {c : CedCfg} (hk : c.kind = .galBf) (hm : c.method = 3) (w : Nat) (hw : c.window = some w) (cls : Labeler σ)
    (ldpc : Ldpc Λ) (s : Ced σ Λ) (ch : List ℝ) (l : Nat) (h : Assigned c cls s ch l) (ents : List ℝ) (dist : List (ℝ × ℝ))
    (data : List (List Bool)) (K : Learnt c s ch l ents dist data) (ents0 : List ℝ)
    (dist0 : List (ℝ × ℝ)) (data0 : List (List Bool)) (K0 : Learnt c s ch 0 ents0 dist0 data0)
    (hsays : ∃ k, ∃ hk : k < c.idx.length, c.idx[k] ≠ 0 ∧ LowBit c ents k ∧ 0 ≤ (dist.getD k (0, 0)).1 ∧
      0 ≤ (dist.getD k (0, 0)).2 ∧ (dist.getD k (0, 0)).1 ≠ (dist.getD k (0, 0)).2) (htr : 0 < entTrust c data.length)
    (hfull : w ≤ data0.length) (i : Nat) (hi0 : i ≠ 0) (hlow : LowPos c ents0 i) (hnot : ¬ LowPos c ents i) :
    ∃ bits, (s.decode c cls ldpc ch).handed = some (.bits bits) ∧ bits[i]? = some false := by
  obtain ⟨mod, m1, m2⟩ := c90_forced hk hm w hw cls ldpc s ch l h ents dist data K ents0 dist0 data0 K0
  obtain ⟨k, hkl, hk0, hkl2, n0, n1, hne⟩ := hsays
  have hx : c.idx[k]? = some c.idx[k] := List.getElem?_eq_getElem hkl
  have hu : Usable c ents := ⟨c.idx[k], ⟨k, hx, hkl2⟩, hk0⟩
  refine ⟨_, m2 ⟨c.idx[k], (c90_forced_letter m1 hu htr k _ hx hkl2 n0 n1).2.2 hne⟩, ?_⟩
  have hil : i < ch.length := by
    obtain ⟨k', hk', _⟩ := hlow
    obtain ⟨h', rfl⟩ := List.getElem?_eq_some_iff.1 hk'
    exact K.inWord _ (List.getElem_mem h')
  rw [List.getElem?_map, List.getElem?_range hil, Option.map_some, if_pos ⟨hfull, hlow, ⟨i, hlow, hi0⟩⟩, m1.silent i (Or.inl hnot)]
  simp

/-- C90, refuted for method 3 with a decoder that takes samples: the samples handed over are zeros and ones, none negative, so every
bit is received as a zero. -/
theorem c90_forced_samples_false {c : CedCfg} (hk : c.kind = .wbf) (hm : c.method = 3) (w : Nat) (hw : c.window = some w)
    (cls : Labeler σ) (ldpc : Ldpc Λ) (s : Ced σ Λ) (ch : List ℝ) (l : Nat) (h : Assigned c cls s ch l) (ents : List ℝ)
    (dist : List (ℝ × ℝ)) (data : List (List Bool)) (K : Learnt c s ch l ents dist data) (ents0 : List ℝ)
    (dist0 : List (ℝ × ℝ)) (data0 : List (List Bool)) (K0 : Learnt c s ch 0 ents0 dist0 data0) :
    ∃ mod, ModelWord c ents dist data.length ch.length mod ∧ ((∃ i, mod.getD i 0 ≠ 0) →
      ∃ samples priors, (s.decode c cls ldpc ch).handed = some (.samples samples priors) ∧ samples.length = ch.length ∧
        ∀ x ∈ samples, x = 0 ∨ x = 1) := by
  obtain ⟨mod, m1, m2⟩ := known_model K
  refine ⟨mod, m2, fun hnz => ?_⟩
  have hmne : mod ≠ [] := by
    intro h0
    have := m2.length
    rw [h0] at this
    exact K.nonempty (List.length_eq_zero_iff.1 this.symm)
  obtain ⟨top, -, t2⟩ := maxAbs_peak hmne
  have htop : 0 < top := by
    rcases (peak_nonneg t2).lt_or_eq with h0 | h0
    · exact h0
    · obtain ⟨i, hi⟩ := hnz
      exact absurd ((peak_zero_iff t2).1 h0.symm i) hi
  have hp : s.prepare c ch l = .ok (.samples ((List.range ch.length).map
      (fun i => if forcedAt c w ents0 data0.length ch mod i then (1 : ℝ) else 0)) (some (List.replicate ch.length 0))) := by
    unfold Ced.prepare
    rw [m1, hk]
    simp only [bind, Except.bind]
    rw [forced_samples hm w hw s ch mod K.nonempty m2.length top t2 htop ents0 dist0 data0 K0]
  refine ⟨_, _, decode_handed c cls ldpc s ch l h _ hp, by simp, ?_⟩
  intro x hx
  obtain ⟨i, -, rfl⟩ := List.mem_map.1 hx
  split
  · exact Or.inr rfl
  · exact Or.inl rfl

/-- C90. Without a window method 3 raises as soon as the model says anything. -/
theorem c90_no_window {c : CedCfg} (hk : c.kind ≠ .logSpa) (hm : c.method = 3) (hw : c.window = none) (cls : Labeler σ)
    (ldpc : Ldpc Λ) (s : Ced σ Λ) (ch : List ℝ) (l : Nat) (h : Assigned c cls s ch l) (ents : List ℝ)
    (dist : List (ℝ × ℝ)) (data : List (List Bool)) (K : Learnt c s ch l ents dist data) :
    ∃ mod, ModelWord c ents dist data.length ch.length mod ∧ ((∃ i, mod.getD i 0 ≠ 0) →
      (s.decode c cls ldpc ch).result = .error .typeError) := by
  obtain ⟨mod, m1, m2⟩ := known_model K
  refine ⟨mod, m2, fun hnz => ?_⟩
  have hmne : mod ≠ [] := by
    intro h0
    have := m2.length
    rw [h0] at this
    exact K.nonempty (List.length_eq_zero_iff.1 this.symm)
  obtain ⟨top, t1, t2⟩ := maxAbs_peak hmne
  obtain ⟨peak, p1, -⟩ := maxAbs_peak K.nonempty
  have htop : 0 < top := by
    rcases (peak_nonneg t2).lt_or_eq with h0 | h0
    · exact h0
    · obtain ⟨i, hi⟩ := hnz
      exact absurd ((peak_zero_iff t2).1 h0.symm i) hi
  apply decode_raises c cls ldpc s ch l h
  have hsp : s.samplePriors c ch mod = .error .typeError := by
    unfold Ced.samplePriors
    rw [p1, t1]
    simp only [bind, Except.bind]
    rw [if_pos htop, if_neg (by omega), if_neg (by omega), if_neg (by omega), if_pos hm, hw]
  unfold Ced.prepare
  rw [m1]
  simp only [bind, Except.bind]
  cases hkind : c.kind with
  | logSpa => exact absurd hkind hk
  | wbf => rw [hsp]
  | galBf => rw [hsp]

/-! Non-vacuity: the decoder of the examples for C53, with bit-flipping decoders. Cluster 0 has low entropy at the positions 0 and 3,
cluster 1 at the positions 0 and 2. -/

/-- A state with two learned clusters; the next word is for cluster `1 - running`. -/
noncomputable def bfState (running : Int) : Ced Unit Unit :=
  ⟨[[(1, 0), (1 / 2, 1 / 2), (0, 1)], [(1, 0), (0, 1), (1 / 2, 1 / 2)]], [[0, 1, 0], [0, 0, 1]],
    [[[false, true, true], [false, false, true]], [[false, true, true], [false, true, false]]], running, (), ()⟩

theorem bf_known0 (k : LdpcKind) (m : Int) (w : Option Nat) (r : Int) : Learnt { cedDemo with kind := k, method := m, window := w }
    (bfState r) [1, 2, 3, -4] 0 [0, 1, 0] [(1, 0), (1 / 2, 1 / 2), (0, 1)] [[false, true, true], [false, false, true]] :=
  ⟨by simp [cedDemo], rfl, by simp [cedDemo], rfl, rfl, rfl, rfl, rfl, by simp, by simp⟩

theorem bf_known1 (k : LdpcKind) (m : Int) (w : Option Nat) (r : Int) : Learnt { cedDemo with kind := k, method := m, window := w }
    (bfState r) [1, 2, 3, -4] 1 [0, 0, 1] [(1, 0), (0, 1), (1 / 2, 1 / 2)] [[false, true, true], [false, true, false]] :=
  ⟨by simp [cedDemo], rfl, by simp [cedDemo], rfl, rfl, rfl, rfl, rfl, by simp, by simp⟩

theorem bf_assigned0 (k : LdpcKind) (m : Int) (w : Option Nat) : Assigned { cedDemo with kind := k, method := m, window := w } clsDemo
    (bfState (-1)) [1, 2, 3, -4] 0 := ⟨by simp [cedDemo], by simp [pickLabel, cedDemo, bfState]⟩

theorem bf_assigned1 (k : LdpcKind) (m : Int) (w : Option Nat) : Assigned { cedDemo with kind := k, method := m, window := w } clsDemo
    (bfState 0) [1, 2, 3, -4] 1 := ⟨by simp [cedDemo], by simp [pickLabel, cedDemo, bfState]⟩

example := c90_sum (c := { cedDemo with kind := .wbf, method := 0, window := none }) (by simp) rfl clsDemo ldpcDemo _ _ 0
  (bf_assigned0 ..) _ _ _ (bf_known0 ..)

example := c90_priors (c := { cedDemo with kind := .wbf, method := 2, window := none }) (by simp) (Or.inr rfl) (by simp [cedDemo])
  clsDemo ldpcDemo _ _ 0 (bf_assigned0 ..) _ _ _ (bf_known0 ..)

/-- Model bit 2, at position 3, has low entropy in cluster 0 only. The received word has a one there, and so did half of the words
learned for cluster 1; it is handed over as a zero. -/
example : ∃ bits, ((bfState 0).decode { cedDemo with kind := .galBf, method := 3, window := some 2 } clsDemo ldpcDemo
    [1, 2, 3, -4]).handed = some (.bits bits) ∧ bits[3]? = some false := by
  refine c90_forced_false (c := { cedDemo with kind := .galBf, method := 3, window := some 2 }) rfl rfl 2 rfl clsDemo ldpcDemo _ _ 1
    (bf_assigned1 ..) _ _ _ (bf_known1 ..) _ _ _ (bf_known0 ..) ⟨1, by simp [cedDemo], by simp [cedDemo], ⟨0, rfl, by simp [cedDemo]⟩,
      by simp, by simp, by simp⟩ ?_ (by simp) 3 (by simp) ⟨2, rfl, 0, rfl, by simp [cedDemo]⟩ ?_
  · simp only [entTrust, cedDemo]
    norm_num
  · rintro ⟨k, hk, h, hh, hlt⟩
    have : k = 2 := by
      rcases k with _ | _ | _ | k <;> simp [cedDemo] at hk
      rfl
    subst this
    simp [cedDemo] at hh hlt
    subst hh
    norm_num at hlt

/-- A new decoder has no model. -/
example : ((Ced.new 2 () ()).decode { cedDemo with kind := .galBf } clsDemo ldpcDemo [1, 2, 3, -4]).handed =
    some (toDecoder .galBf [1, 2, 3, -4] (List.replicate 4 0)) :=
  c90_silent (c := { cedDemo with kind := .galBf }) (by simp) clsDemo ldpcDemo _ _ (by simp) 0
    ⟨by simp [cedDemo], by simp [pickLabel, cedDemo, Ced.new]⟩ [] [] [] (Or.inl ⟨rfl, rfl, rfl⟩)

end NR
