import Verif.Props.C90
import Mathlib.Analysis.SpecialFunctions.Log.Deriv
import Mathlib.Analysis.Complex.ExponentialBounds
/-
C131: what the words of a cluster teach the entropy decoder about the next word: bits that never changed are repaired before the LDPC
decoder sees the word, bits of high entropy are left alone, and the numbers handed over are posterior log-odds.
-/
namespace NR.C131
open NR NR.Spec

variable {σ Λ : Type}

/-- The probability of a one at bit `k`, estimated from the words, when bits are flipped with probability `f`. -/
noncomputable def chance (f : ℝ) (words : List (List Bool)) (k : Nat) : ℝ := min 1 (max 0 ((oneShare words k - f) / (1 - 2 * f)))

/-- Bit `k` is predictable: the entropy of its distribution, in bits, is below the threshold. -/
def Steady (c : CedCfg) (words : List (List Bool)) (k : Nat) : Prop :=
  Real.binEntropy (chance c.bitFlip words k) / Real.log 2 < c.threshold

open Classical in
/-- What is added to the received ratio of bit `k`: the trust in the words seen times the log-odds of a zero, if the bit is steady. -/
noncomputable def push (c : CedCfg) (words : List (List Bool)) (k : Nat) : ℝ :=
  if Steady c words k then
    entTrust c words.length * Real.log ((floatEps + (1 - chance c.bitFlip words k)) / (chance c.bitFlip words k + floatEps))
  else 0

/-- The words the decoder has learned for cluster `l` and still keeps. -/
noncomputable def kept (c : CedCfg) (cls : Labeler σ) (ldpc : Ldpc Λ) (cs : σ) (ls : Λ) (words : List (List ℝ)) (l : Nat) :
    List (List Bool) :=
  keep c.window (learnedBy l (Ced.run c cls ldpc (Ced.new c.nClusters cs ls) words).2)

/-- The decoder after these calls. -/
noncomputable def after (c : CedCfg) (cls : Labeler σ) (ldpc : Ldpc Λ) (cs : σ) (ls : Λ) (words : List (List ℝ)) : Ced σ Λ :=
  (Ced.run c cls ldpc (Ced.new c.nClusters cs ls) words).1

/-- The parameters of a decoder that learns. -/
structure Sound (c : CedCfg) : Prop where
  learns : c.train = true
  bitsPos : 0 < c.modelLength
  bits : c.idx.length = c.modelLength
  distinct : c.idx.Nodup
  window : c.window ≠ some 0

/-- The model of a cluster is that of its words, as soon as both letters occur in them. -/
def Fresh (c : CedCfg) (s : Ced σ Λ) : Prop :=
  ∀ (l : Nat) (data : List (List Bool)), s.datas[l]? = some data → (∀ x ∈ data, x.length = c.modelLength) ∧
    (BothLetters c.modelLength data →
      s.dists[l]? = some ((List.range c.modelLength).map fun (j : Nat) => (1 - chance c.bitFlip data j, chance c.bitFlip data j)) ∧
      s.ents[l]? = some ((List.range c.modelLength).map fun (j : Nat) => Real.binEntropy (chance c.bitFlip data j) / Real.log 2))

theorem fresh_update {c : CedCfg} (S : Sound c) {s : Ced σ Λ} (hd : s.dists.length = s.datas.length)
    (he : s.ents.length = s.datas.length) (F : Fresh c s) (bits : List Bool) (hb : bits.length = c.modelLength) (l : Nat) :
    Fresh c (s.update c bits l).1 := by
  intro k data hk
  obtain ⟨_, _, _, u1, u2, u3, u4⟩ := update_other c s bits l
  by_cases hkl : k = l
  swap
  · obtain ⟨a1, a2, a3⟩ := u1 k hkl
    rw [a1] at hk
    rw [a2, a3]
    exact F k data hk
  subst hkl
  have hlt : k < s.datas.length := by
    have := (List.getElem?_eq_some_iff.1 hk).1
    omega
  have hold := List.getElem?_eq_getElem hlt
  rw [update_data S.learns s hb hold] at hk
  have hdat : data = growData c.window s.datas[k] bits := (Option.some.inj hk).symm
  have hmem : ∀ x ∈ data, x.length = c.modelLength := by
    have h1 : ∀ x ∈ (if (s.datas[k]).flatten.length = 0 then [bits] else s.datas[k] ++ [bits]), x.length = c.modelLength := by
      intro x hx
      split at hx
      · rw [List.mem_singleton.1 hx]; exact hb
      · rcases List.mem_append.1 hx with hx | hx
        · exact (F k _ hold).1 x hx
        · rw [List.mem_singleton.1 hx]; exact hb
    intro x hx
    rw [hdat] at hx
    unfold growData at hx
    simp only at hx
    revert h1 hx
    generalize (if (s.datas[k]).flatten.length = 0 then [bits] else s.datas[k] ++ [bits]) = z
    intro h1 hx
    cases hw : c.window with
    | none => rw [hw] at hx; exact h1 x hx
    | some w =>
      rw [hw] at hx
      simp only at hx
      split at hx
      · exact h1 x (List.mem_of_mem_drop hx)
      · exact h1 x hx
  refine ⟨hmem, fun hbl => ?_⟩
  have hne : growData c.window s.datas[k] bits ≠ [] := by
    rw [← hdat]
    rintro rfl
    obtain ⟨⟨x, hx, _⟩, _⟩ := hbl
    cases hx
  obtain ⟨A, B, _⟩ := update_dist S.learns S.bitsPos hold (by omega) (by omega) hne (bits := bits)
  rw [hdat] at hbl
  obtain ⟨_, h2, h3⟩ := A (B hb hbl)
  rw [h2, h3, hdat]
  exact ⟨rfl, rfl⟩

theorem fresh_run {c : CedCfg} (S : Sound c) (cls : Labeler σ) (ldpc : Ldpc Λ) (cs : σ) (ls : Λ) (words : List (List ℝ)) :
    Fresh c (after c cls ldpc cs ls words) := by
  have key : ∀ (words : List (List ℝ)) (s : Ced σ Λ), s.dists.length = s.datas.length → s.ents.length = s.datas.length →
      Fresh c s → Fresh c (Ced.run c cls ldpc s words).1 := by
    intro words
    induction words with
    | nil => intro s _ _ h; exact h
    | cons ch rest ih =>
      intro s hd he h
      simp only [Ced.run]
      rcases decode_cases c cls ldpc s ch with ⟨_, h2, _⟩ | ⟨chBits, label, t, inp, o, mb, htk, _, hs, _, hte, _, hst, _⟩
      · refine ih _ (by rw [h2.1, h2.2.2]; exact hd) (by rw [h2.2.1, h2.2.2]; exact he) ?_
        unfold Fresh
        rw [h2.1, h2.2.1, h2.2.2]
        exact h
      · have hbl : (if o.success then mb else chBits).length = c.modelLength := by
          split
          · rw [(takeIdx_ok hte).2.2, S.bits]
          · rw [(takeIdx_ok htk).2.2, S.bits]
        have Ft : Fresh c t := by
          unfold Fresh
          rw [hs.1, hs.2.1, hs.2.2]
          exact h
        have hdt : t.dists.length = t.datas.length := by rw [hs.1, hs.2.2]; exact hd
        have het : t.ents.length = t.datas.length := by rw [hs.2.1, hs.2.2]; exact he
        obtain ⟨_, _, _, _, u2, u3, u4⟩ := update_other c t (if o.success then mb else chBits) label.toNat
        rw [hst]
        exact ih _ (by rw [u3, u2]; exact hdt) (by rw [u4, u2]; exact het) (fresh_update S hdt het Ft _ hbl _)
  refine key words _ (by simp [Ced.new]) (by simp [Ced.new]) ?_
  intro l data hl
  have : data = [] := by
    simp only [Ced.new, List.getElem?_replicate] at hl
    split at hl
    · exact (Option.some.inj hl).symm
    · cases hl
  subst this
  exact ⟨by simp, fun h => absurd h.1 (by simp)⟩

theorem pyMax_spec {ch : List ℝ} (hne : ch ≠ []) : ∃ m, pyMax ch = .ok m ∧ m ∈ ch ∧ ∀ x ∈ ch, x ≤ m := by
  have hmax : ∀ (xs : List ℝ) (x : ℝ), (∀ y ∈ x :: xs, y ≤ xs.foldl max x) ∧ xs.foldl max x ∈ x :: xs := by
    intro xs
    induction xs with
    | nil => intro x; simp
    | cons y ys ih =>
      intro x
      obtain ⟨h1, h2⟩ := ih (max x y)
      simp only [List.foldl_cons]
      refine ⟨fun z hz => ?_, ?_⟩
      · have hb := h1 (max x y) (List.mem_cons_self ..)
        rcases List.mem_cons.1 hz with rfl | hz
        · exact (le_max_left _ _).trans hb
        · rcases List.mem_cons.1 hz with rfl | hz
          · exact (le_max_right _ _).trans hb
          · exact h1 z (List.mem_cons_of_mem _ hz)
      · rcases List.mem_cons.1 h2 with h2 | h2
        · rw [h2]
          rcases max_choice x y with hm | hm <;> rw [hm] <;> simp
        · exact List.mem_cons_of_mem _ (List.mem_cons_of_mem _ h2)
  cases ch with
  | nil => exact absurd rfl hne
  | cons x xs => exact ⟨_, rfl, (hmax xs x).2, (hmax xs x).1⟩

/-- The code uses what it learned only if some bit other than bit 0 of the codeword is steady. -/
def Used (c : CedCfg) (words : List (List Bool)) : Prop := ∃ k i, c.idx[k]? = some i ∧ i ≠ 0 ∧ Steady c words k

/-- **C131.** After any calls, whether they returned or raised: let `D` be the words learned for cluster `l` and still in the window,
and let both letters occur in them and some bit other than bit 0 of the codeword be steady. Of a word assigned to that cluster the
LDPC decoder gets, at the position of model bit `k`, the received ratio plus `push`, elsewhere the received ratio, clipped to plus and
minus the clipping factor times the largest ratio received. -/
theorem c131_word {c : CedCfg} (S : Sound c) (hk : c.kind = .logSpa) (cls : Labeler σ) (ldpc : Ldpc Λ) (cs : σ) (ls : Λ) (words : List (List ℝ)) (l : Nat)
    (hl : l < c.nClusters) (D : List (List Bool)) (hD : D = kept c cls ldpc cs ls words l) (hb : BothLetters c.modelLength D)
    (hu : Used c D) (ch : List ℝ) (ha : Assigned c cls (after c cls ldpc cs ls words) ch l) :
    ∃ w m, ((after c cls ldpc cs ls words).decode c cls ldpc ch).handed = some (.llr w) ∧ w.length = ch.length ∧
      m ∈ ch ∧ (∀ x ∈ ch, x ≤ m) ∧
      (∀ k i, c.idx[k]? = some i → w.getD i 0 = npClip (-(c.clipping * m)) (c.clipping * m) (ch.getD i 0 + push c D k)) ∧
      (∀ i, i < ch.length → i ∉ c.idx → w.getD i 0 = npClip (-(c.clipping * m)) (c.clipping * m) (ch.getD i 0)) := by
  have hdat : (after c cls ldpc cs ls words).datas[l]? = some D := by
    rw [hD]; exact c53_window S.learns S.bitsPos S.bits cls ldpc cs ls words l hl
  obtain ⟨hlen, hmod⟩ := fresh_run S cls ldpc cs ls words l D hdat
  obtain ⟨hdist, hents⟩ := hmod hb
  have hrect : ∀ x ∈ D, x ≠ [] := by
    intro x hx h0
    have := hlen x hx
    rw [h0] at this
    have := S.bitsPos
    simp at *
    omega
  have hne : ch ≠ [] := by
    obtain ⟨k, i, hk, _⟩ := hu
    have := ha.1 i (List.mem_of_getElem? hk)
    rintro rfl
    simp at this
  obtain ⟨m, hm, hmem, hle⟩ := pyMax_spec hne
  obtain ⟨w, hp, hwl, w1, w2, w3, _⟩ := c55_handed hk (after c cls ldpc cs ls words) S.distinct S.bits hents hdist hdat
    (by simp) (by simp) hrect ch ha.1 hm
  have hlow : ∀ k, k < c.modelLength → (Low c ((List.range c.modelLength).map fun (j : Nat) =>
      Real.binEntropy (chance c.bitFlip D j) / Real.log 2) k ↔ Steady c D k) := by
    intro k hk
    unfold Low Steady
    rw [List.getElem?_map, List.getElem?_range hk]
    simp
  have hidx : ∀ k i, c.idx[k]? = some i → ∃ hk : k < c.idx.length, c.idx[k] = i ∧ k < c.modelLength := by
    intro k i h
    obtain ⟨h1, h2⟩ := List.getElem?_eq_some_iff.1 h
    exact ⟨h1, h2, by rw [← S.bits]; exact h1⟩
  refine ⟨w, m, decode_handed c cls ldpc _ ch l ha _ hp, hwl, hmem, hle, ?_, fun i h1 h2 => w1 i h1 h2⟩
  intro k i hk
  obtain ⟨h1, rfl, h3⟩ := hidx k i hk
  by_cases hs : Steady c D k
  · have hex : ∃ k, ∃ hk : k < c.idx.length, Low c ((List.range c.modelLength).map fun (j : Nat) =>
        Real.binEntropy (chance c.bitFlip D j) / Real.log 2) k ∧ c.idx[k] ≠ 0 := by
      obtain ⟨k', i', a1, a2, a3⟩ := hu
      obtain ⟨b1, b2, b3⟩ := hidx k' i' a1
      exact ⟨k', b1, (hlow k' b3).2 a3, by rw [b2]; exact a2⟩
    rw [w3 hex k h1 ((hlow k h3).2 hs)]
    unfold push
    rw [if_pos hs]
    have hget : ((List.range c.modelLength).map fun (j : Nat) => (1 - chance c.bitFlip D j, chance c.bitFlip D j)).getD k (0, 0)
        = (1 - chance c.bitFlip D k, chance c.bitFlip D k) := by
      rw [List.getD_eq_getElem?_getD, List.getElem?_map, List.getElem?_range h3]; rfl
    rw [hget]
    rfl
  · rw [w2 k h1 (fun h => hs ((hlow k h3).1 h))]
    unfold push
    rw [if_neg hs, add_zero]

theorem clip_neg {b x : ℝ} (hb : 0 < b) : npClip (-b) b x < 0 ↔ x < 0 := by
  unfold npClip
  rw [min_lt_iff, max_lt_iff]
  constructor
  · rintro (h | h)
    · linarith
    · exact h.2
  · intro h
    exact Or.inr ⟨by linarith, h⟩

/-- A decoder that learns, works on log-likelihood ratios and clips, the words of a cluster and a word received as in `c131_word`, some
ratio received being positive. -/
structure Case (c : CedCfg) (cls : Labeler σ) (ldpc : Ldpc Λ) (cs : σ) (ls : Λ) (words : List (List ℝ)) (l : Nat)
    (D : List (List Bool)) (ch : List ℝ) : Prop where
  sound : Sound c
  ratios : c.kind = .logSpa
  clips : 0 < c.clipping
  cluster : l < c.nClusters
  history : D = kept c cls ldpc cs ls words l
  both : BothLetters c.modelLength D
  used : Used c D
  assigned : Assigned c cls (after c cls ldpc cs ls words) ch l
  positive : ∃ x ∈ ch, 0 < x

/-- **C131.** The decisions the LDPC decoder starts from: one at the position of a model bit exactly if the received ratio plus `push`
is negative, elsewhere exactly as received. -/
theorem c131_decisions {c : CedCfg} {cls : Labeler σ} {ldpc : Ldpc Λ} {cs : σ} {ls : Λ} {words : List (List ℝ)} {l : Nat}
    {D : List (List Bool)} {ch : List ℝ} (K : Case c cls ldpc cs ls words l D ch) :
    ∃ w, ((after c cls ldpc cs ls words).decode c cls ldpc ch).handed = some (.llr w) ∧ w.length = ch.length ∧
      (∀ k i, c.idx[k]? = some i → (w.getD i 0 < 0 ↔ ch.getD i 0 + push c D k < 0)) ∧
      (∀ i, i < ch.length → i ∉ c.idx → (w.getD i 0 < 0 ↔ ch.getD i 0 < 0)) := by
  obtain ⟨w, m, h1, h2, h3, h4, h5, h6⟩ := c131_word K.sound K.ratios cls ldpc cs ls words l K.cluster D K.history K.both K.used ch K.assigned
  have hb : 0 < c.clipping * m := by
    obtain ⟨x, hx, h0⟩ := K.positive
    exact mul_pos K.clips (lt_of_lt_of_le h0 (h4 x hx))
  refine ⟨w, h1, h2, fun k i hk => ?_, fun i hi hn => ?_⟩
  · rw [h5 k i hk, clip_neg hb]
  · rw [h6 i hi hn, clip_neg hb]

/-- Bit `k` had the value `b` in all words, up to the share of flips the channel makes. -/
def Constant (f : ℝ) (D : List (List Bool)) (k : Nat) (b : Bool) : Prop :=
  if b then 1 - f ≤ oneShare D k else oneShare D k ≤ f

/-- A bit that was `b` in every word is constant, whatever the flip probability. -/
theorem constant_of_all {f : ℝ} (hf : 0 ≤ f) {D : List (List Bool)} (hne : D ≠ []) {k : Nat} {b : Bool}
    (h : ∀ x ∈ D, x.getD k false = b) : Constant f D k b := by
  have hpos : (0 : ℝ) < D.length := by exact_mod_cast List.length_pos_iff.2 hne
  unfold Constant oneShare
  cases b
  · have : (D.countP fun x => x.getD k false) = 0 := by
      rw [List.countP_eq_zero]
      intro x hx
      rw [h x hx]
      decide
    rw [this]
    simpa using hf
  · have : (D.countP fun x => x.getD k false) = D.length := by
      rw [List.countP_eq_length]
      exact h
    rw [this, div_self hpos.ne']
    simpa using hf

theorem chance_constant {f : ℝ} (hf : f < 1 / 2) {D : List (List Bool)} {k : Nat} {b : Bool} (h : Constant f D k b) :
    chance f D k = if b then 1 else 0 := by
  have hd : 0 < 1 - 2 * f := by linarith
  unfold Constant at h
  unfold chance
  cases b
  · simp only [Bool.false_eq_true, if_false] at h ⊢
    rw [max_eq_left (div_nonpos_of_nonpos_of_nonneg (by linarith) hd.le)]
    norm_num
  · simp only [if_true] at h ⊢
    have h1 : 1 ≤ (oneShare D k - f) / (1 - 2 * f) := by
      rw [le_div_iff₀ hd]; linarith
    rw [max_eq_right (by linarith), min_eq_left h1]

theorem steady_constant {c : CedCfg} (hf : c.bitFlip < 1 / 2) (ht : 0 < c.threshold) {D : List (List Bool)} {k : Nat} {b : Bool}
    (h : Constant c.bitFlip D k b) : Steady c D k := by
  unfold Steady
  rw [chance_constant hf h]
  cases b <;> simpa using ht

/-- The log-odds of a bit that never changed are more than 36. -/
theorem log_eps : 36 < Real.log ((floatEps + 1) / floatEps) := by
  have he : (0 : ℝ) < floatEps := by unfold floatEps; positivity
  have h1 : (2 : ℝ) ^ (52 : ℕ) ≤ (floatEps + 1) / floatEps := by
    rw [le_div_iff₀ he]
    have : (2 : ℝ) ^ (52 : ℕ) * floatEps = 1 := by
      unfold floatEps
      rw [← zpow_natCast, ← zpow_add₀ (by norm_num)]
      norm_num
    rw [this]; linarith
  have h2 := Real.log_le_log (by positivity) h1
  rw [Real.log_pow] at h2
  have h3 := Real.log_two_gt_d9
  push_cast at h2
  linarith

theorem trust_nonneg (c : CedCfg) (n : Nat) : 0 ≤ entTrust c n := by
  unfold entTrust
  split
  · split
    · exact le_rfl
    · positivity
  · exact zero_le_one

/-- What is added at a bit that never changed. -/
theorem push_constant {c : CedCfg} (hf : c.bitFlip < 1 / 2) (ht : 0 < c.threshold) {D : List (List Bool)} {k : Nat} {b : Bool}
    (h : Constant c.bitFlip D k b) :
    push c D k = (if b then -1 else 1) * (entTrust c D.length * Real.log ((floatEps + 1) / floatEps)) := by
  unfold push
  rw [if_pos (steady_constant hf ht h), chance_constant hf h]
  cases b
  · simp
  · simp only [if_true, sub_self, add_zero]
    rw [add_comm 1 floatEps, ← inv_div, Real.log_inv]
    ring

/-- **C131.** Repair: at a bit that never changed the LDPC decoder starts from its constant value, whatever was received there, as long
as the magnitude received is at most 36 times the trust in the words seen. -/
theorem c131_repaired {c : CedCfg} (hf : c.bitFlip < 1 / 2) (ht : 0 < c.threshold) {cls : Labeler σ} {ldpc : Ldpc Λ} {cs : σ} {ls : Λ}
    {words : List (List ℝ)} {l : Nat} {D : List (List Bool)} {ch : List ℝ} (K : Case c cls ldpc cs ls words l D ch)
    (htr : 0 < entTrust c D.length) :
    ∃ w, ((after c cls ldpc cs ls words).decode c cls ldpc ch).handed = some (.llr w) ∧
      ∀ k i b, c.idx[k]? = some i → Constant c.bitFlip D k b → |ch.getD i 0| ≤ 36 * entTrust c D.length →
        (w.getD i 0 < 0 ↔ b = true) := by
  obtain ⟨w, h1, _, h3, _⟩ := c131_decisions K
  refine ⟨w, h1, fun k i b hk hc hle => ?_⟩
  rw [h3 k i hk, push_constant hf ht hc]
  have hlt : |ch.getD i 0| < entTrust c D.length * Real.log ((floatEps + 1) / floatEps) := by
    have := mul_lt_mul_of_pos_left log_eps htr
    linarith
  obtain ⟨ha, hb⟩ := abs_lt.1 hlt
  cases b
  · simp only [Bool.false_eq_true, if_false, iff_false, not_lt]
    linarith
  · simp only [if_true, iff_true]
    linarith

/-- **C131.** Once the window holds at least two words and as many as the centre of the trust function, ratios up to 18 are repaired
at every bit that was the same in all of them. -/
theorem c131_centre {c : CedCfg} (hf : 0 ≤ c.bitFlip) (hf2 : c.bitFlip < 1 / 2) (ht : 0 < c.threshold) (hs : 0 ≤ c.slope)
    {cls : Labeler σ} {ldpc : Ldpc Λ} {cs : σ} {ls : Λ} {words : List (List ℝ)} {l : Nat} {D : List (List Bool)} {ch : List ℝ}
    (K : Case c cls ldpc cs ls words l D ch) (h2 : 2 ≤ D.length) (hc : c.center ≤ D.length) :
    ∃ w, ((after c cls ldpc cs ls words).decode c cls ldpc ch).handed = some (.llr w) ∧
      ∀ k i b, c.idx[k]? = some i → (∀ x ∈ D, x.getD k false = b) → |ch.getD i 0| ≤ 18 → (w.getD i 0 < 0 ↔ b = true) := by
  have htr : 1 / 2 ≤ entTrust c D.length := by
    unfold entTrust
    rw [if_pos K.sound.learns, if_neg (by omega)]
    have : Real.exp (-((D.length : ℝ) - c.center) * c.slope) ≤ 1 := by
      rw [Real.exp_le_one_iff]
      exact mul_nonpos_of_nonpos_of_nonneg (by linarith) hs
    have hp := Real.exp_pos (-((D.length : ℝ) - c.center) * c.slope)
    exact one_div_le_one_div_of_le (by linarith) (by linarith)
  obtain ⟨w, h1, h3⟩ := c131_repaired hf2 ht K (by linarith)
  refine ⟨w, h1, fun k i b hk hall hle => h3 k i b hk (constant_of_all hf ?_ hall) (by linarith)⟩
  rintro rfl
  simp at h2

/-- **C131.** Bits that are not steady, and bits outside the model, are decided as received. -/
theorem c131_untouched {c : CedCfg} {cls : Labeler σ} {ldpc : Ldpc Λ} {cs : σ} {ls : Λ} {words : List (List ℝ)} {l : Nat}
    {D : List (List Bool)} {ch : List ℝ} (K : Case c cls ldpc cs ls words l D ch) :
    ∃ w, ((after c cls ldpc cs ls words).decode c cls ldpc ch).handed = some (.llr w) ∧
      ∀ i, i < ch.length → (∀ k, c.idx[k]? = some i → ¬ Steady c D k) → (w.getD i 0 < 0 ↔ ch.getD i 0 < 0) := by
  obtain ⟨w, h1, _, h3, h4⟩ := c131_decisions K
  refine ⟨w, h1, fun i hi hn => ?_⟩
  by_cases hx : i ∈ c.idx
  · obtain ⟨k, hk⟩ := List.getElem?_of_mem hx
    rw [h3 k i hk]
    unfold push
    rw [if_neg (hn k hk), add_zero]
  · exact h4 i hi hx

/-- Position `i` of a word of ratios is decided against the word sent. -/
def WrongAt (sent : List Bool) (w : List ℝ) (i : Nat) : Prop := ¬ (w.getD i 0 < 0 ↔ sent.getD i false = true)

open Classical in
/-- The number of wrong decisions in a word of ratios. -/
noncomputable def wrong (sent : List Bool) (w : List ℝ) : Nat := (List.range w.length).countP fun i => decide (WrongAt sent w i)

/-- The word sent has, at every steady bit, the letter the words seen make likelier. -/
def Expected (c : CedCfg) (D : List (List Bool)) (sent : List Bool) : Prop :=
  ∀ k i, c.idx[k]? = some i → Steady c D k →
    (chance c.bitFlip D k < 1 / 2 → sent.getD i false = false) ∧ (1 / 2 < chance c.bitFlip D k → sent.getD i false = true)

theorem push_sign (c : CedCfg) (D : List (List Bool)) (k : Nat) :
    (0 < push c D k → Steady c D k ∧ chance c.bitFlip D k < 1 / 2) ∧ (push c D k < 0 → Steady c D k ∧ 1 / 2 < chance c.bitFlip D k) := by
  have h0 : 0 ≤ chance c.bitFlip D k := le_min zero_le_one (le_max_left _ _)
  have h1 : chance c.bitFlip D k ≤ 1 := min_le_left _ _
  obtain ⟨d1, d2⟩ := c55_direction (1 - chance c.bitFlip D k) (chance c.bitFlip D k) (by linarith) h0
  have ht := trust_nonneg c D.length
  unfold modelRatio at d1 d2
  simp only at d1 d2
  unfold push
  split
  · rename_i hs
    refine ⟨fun h => ⟨hs, ?_⟩, fun h => ⟨hs, ?_⟩⟩
    · have := d1.1 (pos_of_mul_pos_right h ht)
      linarith
    · have := d2.1 (neg_of_mul_neg_right h ht)
      linarith
  · exact ⟨fun h => absurd h (lt_irrefl _), fun h => absurd h (lt_irrefl _)⟩

/-- **C131.** Errors are only removed: if the word sent has the expected letters at the steady bits, a wrong decision handed over was
received wrong, with a magnitude of at least what is added there; so there are at most as many as in the word received. A wrong decision
received at a model bit with a larger magnitude stays. -/
theorem c131_errors {c : CedCfg} {cls : Labeler σ} {ldpc : Ldpc Λ} {cs : σ} {ls : Λ} {words : List (List ℝ)} {l : Nat}
    {D : List (List Bool)} {ch : List ℝ} (K : Case c cls ldpc cs ls words l D ch) (sent : List Bool) (he : Expected c D sent) :
    ∃ w, ((after c cls ldpc cs ls words).decode c cls ldpc ch).handed = some (.llr w) ∧ wrong sent w ≤ wrong sent ch ∧
      (∀ i, i < ch.length → WrongAt sent w i → WrongAt sent ch i) ∧
      (∀ k i, c.idx[k]? = some i → WrongAt sent w i → |push c D k| ≤ |ch.getD i 0|) ∧
      (∀ k i, c.idx[k]? = some i → WrongAt sent ch i → |push c D k| < |ch.getD i 0| → WrongAt sent w i) := by
  classical
  obtain ⟨w, h1, h2, h3, h4⟩ := c131_decisions K
  have key : ∀ k i, c.idx[k]? = some i → WrongAt sent w i → WrongAt sent ch i ∧ |push c D k| ≤ |ch.getD i 0| := by
    intro k i hk hw
    unfold WrongAt at hw ⊢
    rw [h3 k i hk] at hw
    obtain ⟨s1, s2⟩ := push_sign c D k
    rcases lt_trichotomy (push c D k) 0 with hp | hp | hp
    · have hsent := (he k i hk (s2 hp).1).2 (s2 hp).2
      simp only [hsent, iff_true, not_lt] at hw ⊢
      exact ⟨by linarith, by rw [abs_of_neg hp, abs_of_nonneg (by linarith)]; linarith⟩
    · rw [hp, add_zero] at hw
      exact ⟨hw, by rw [hp, abs_zero]; exact abs_nonneg _⟩
    · have hsent := (he k i hk (s1 hp).1).1 (s1 hp).2
      simp only [hsent, Bool.false_eq_true, iff_false, not_not] at hw ⊢
      exact ⟨by linarith, by rw [abs_of_pos hp, abs_of_neg (by linarith)]; linarith⟩
  have hsub : ∀ i, i < ch.length → WrongAt sent w i → WrongAt sent ch i := by
    intro i hi hw
    by_cases hx : i ∈ c.idx
    · obtain ⟨k, hk⟩ := List.getElem?_of_mem hx
      exact (key k i hk hw).1
    · unfold WrongAt at hw ⊢
      rwa [h4 i hi hx] at hw
  refine ⟨w, h1, ?_, hsub, fun k i hk hw => (key k i hk hw).2, ?_⟩
  · unfold wrong
    rw [h2]
    apply List.countP_mono_left
    intro i hi h
    exact decide_eq_true (hsub i (List.mem_range.1 hi) (of_decide_eq_true h))
  · intro k i hk hw hlt
    unfold WrongAt at hw ⊢
    rw [h3 k i hk]
    have hsame : ch.getD i 0 + push c D k < 0 ↔ ch.getD i 0 < 0 := by
      rcases lt_or_ge (ch.getD i 0) 0 with h | h
      · rw [abs_of_neg h] at hlt
        have := le_abs_self (push c D k)
        exact ⟨fun _ => h, fun _ => by linarith⟩
      · rw [abs_of_nonneg h] at hlt
        have := neg_abs_le (push c D k)
        exact ⟨fun _ => by linarith, fun _ => by linarith⟩
    rwa [hsame]

/-- **C131.** Bayes' rule: if the ratio received at a steady bit is that of the likelihoods `a` of a zero and `b` of a one, the decision
handed over is a one exactly if the likelihood of a one times its learned probability is larger than that of a zero times its
probability, the learned probabilities being taken to the power of the trust. -/
theorem c131_bayes {c : CedCfg} {cls : Labeler σ} {ldpc : Ldpc Λ} {cs : σ} {ls : Λ} {words : List (List ℝ)} {l : Nat}
    {D : List (List Bool)} {ch : List ℝ} (K : Case c cls ldpc cs ls words l D ch) :
    ∃ w, ((after c cls ldpc cs ls words).decode c cls ldpc ch).handed = some (.llr w) ∧
      ∀ k i (a b : ℝ), c.idx[k]? = some i → Steady c D k → 0 < a → 0 < b → ch.getD i 0 = Real.log (a / b) →
        (w.getD i 0 < 0 ↔ a * ((1 - chance c.bitFlip D k) + floatEps) ^ entTrust c D.length <
          b * (chance c.bitFlip D k + floatEps) ^ entTrust c D.length) := by
  obtain ⟨w, h1, _, h3, _⟩ := c131_decisions K
  refine ⟨w, h1, fun k i a b hk hs ha hb hch => ?_⟩
  have he : (0 : ℝ) < floatEps := by unfold floatEps; positivity
  have h0 : 0 ≤ chance c.bitFlip D k := le_min zero_le_one (le_max_left _ _)
  have h1' : chance c.bitFlip D k ≤ 1 := min_le_left _ _
  have hq : 0 < (1 - chance c.bitFlip D k) + floatEps := by linarith
  have hp : 0 < chance c.bitFlip D k + floatEps := by linarith
  rw [h3 k i hk, hch]
  unfold push
  rw [if_pos hs, add_comm floatEps (1 - _), Real.log_div ha.ne' hb.ne', Real.log_div hq.ne' hp.ne',
    ← Real.log_lt_log_iff (mul_pos ha (Real.rpow_pos_of_pos hq _)) (mul_pos hb (Real.rpow_pos_of_pos hp _)),
    Real.log_mul ha.ne' (Real.rpow_pos_of_pos hq _).ne', Real.log_mul hb.ne' (Real.rpow_pos_of_pos hp _).ne',
    Real.log_rpow hq, Real.log_rpow hp]
  constructor <;> intro h <;> linarith

/-- **C131.** The same for a decoder with a given model, after any calls: the decisions are those of Bayes' rule for the probabilities
of a one given by the model, at the bits whose entropy is below the threshold. -/
theorem c131_given {c : CedCfg} (hk : c.kind = .logSpa) (ht : c.train = false) (hi : c.idx.length = c.modelLength) (hnd : c.idx.Nodup)
    (hcl : 0 < c.clipping) (ps : List ℝ) (hps : ps.length = c.modelLength) (h01 : ∀ p ∈ ps, 0 ≤ p ∧ p ≤ 1) (cls : Labeler σ)
    (ldpc : Ldpc Λ) (cs : σ) (ls : Λ) (words : List (List ℝ)) (s : Ced σ Λ)
    (hs : s = (Ced.run c cls ldpc (Ced.newWith c.nClusters c.modelLength (ps.map fun p => (1 - p, p)) cs ls) words).1) (l : Nat)
    (hl : l < c.nClusters) (ch : List ℝ) (ha : Assigned c cls s ch l) (hpos : ∃ x ∈ ch, 0 < x)
    (hu : ∃ (k i : Nat) (p : ℝ), c.idx[k]? = some i ∧ i ≠ 0 ∧ ps[k]? = some p ∧ Real.binEntropy p / Real.log 2 < c.threshold) :
    ∃ w, (s.decode c cls ldpc ch).handed = some (.llr w) ∧ w.length = ch.length ∧
      (∀ (k i : Nat) (p a b : ℝ), c.idx[k]? = some i → ps[k]? = some p → Real.binEntropy p / Real.log 2 < c.threshold → 0 < a → 0 < b →
        ch.getD i 0 = Real.log (a / b) → (w.getD i 0 < 0 ↔ a * ((1 - p) + floatEps) < b * (p + floatEps))) ∧
      (∀ (k i : Nat) (p : ℝ), c.idx[k]? = some i → ps[k]? = some p → ¬ Real.binEntropy p / Real.log 2 < c.threshold →
        (w.getD i 0 < 0 ↔ ch.getD i 0 < 0)) ∧
      (∀ i, i < ch.length → i ∉ c.idx → (w.getD i 0 < 0 ↔ ch.getD i 0 < 0)) := by
  have he : (0 : ℝ) < floatEps := by unfold floatEps; positivity
  obtain ⟨e1, e2, e3⟩ := c53_predefined ht cls ldpc
    (Ced.newWith c.nClusters c.modelLength (ps.map fun p => (1 - p, p)) cs ls) words
  rw [← hs] at e1 e2 e3
  have htake : (ps.map fun (p : ℝ) => (1 - p, p)).take c.modelLength = ps.map fun (p : ℝ) => (1 - p, p) :=
    List.take_of_length_le (by simp [hps])
  have hdist : s.dists[l]? = some (ps.map fun (p : ℝ) => (1 - p, p)) := by
    rw [e1, Ced.newWith, htake, List.getElem?_replicate_of_lt hl]
  have hents : s.ents[l]? = some (ps.map fun (p : ℝ) => Real.binEntropy p / Real.log 2) := by
    rw [e2, Ced.newWith, htake, List.getElem?_replicate_of_lt hl, List.map_map]
    simp only [Function.comp_def, entropyPair]
  have hdata : s.datas[l]? = some [] := by rw [e3, Ced.newWith, List.getElem?_replicate_of_lt hl]
  have hne : ch ≠ [] := by
    obtain ⟨x, hx, _⟩ := hpos
    rintro rfl
    cases hx
  obtain ⟨m, hm, hmem, hle⟩ := pyMax_spec hne
  have hb0 : 0 < c.clipping * m := by
    obtain ⟨x, hx, h0⟩ := hpos
    exact mul_pos hcl (lt_of_lt_of_le h0 (hle x hx))
  obtain ⟨w, hp, hwl, w1, w2, w3, _⟩ := c55_handed hk s hnd hi hents hdist hdata (by simp [hps]) (by simp [hps]) (by simp) ch ha.1 hm
  have hlow : ∀ (k : Nat) (p : ℝ), ps[k]? = some p → (Low c (ps.map fun (p : ℝ) => Real.binEntropy p / Real.log 2) k ↔
      Real.binEntropy p / Real.log 2 < c.threshold) := by
    intro k p hkp
    unfold Low
    rw [List.getElem?_map, hkp]
    simp
  have hex : ∃ k, ∃ hk : k < c.idx.length, Low c (ps.map fun (p : ℝ) => Real.binEntropy p / Real.log 2) k ∧ c.idx[k] ≠ 0 := by
    obtain ⟨k, i, p, a1, a2, a3, a4⟩ := hu
    obtain ⟨b1, b2⟩ := List.getElem?_eq_some_iff.1 a1
    exact ⟨k, b1, (hlow k p a3).2 a4, by rw [b2]; exact a2⟩
  have htr : confidenceOf c ([] : List (List Bool)).length = 1 := by unfold confidenceOf; rw [if_neg (by rw [ht]; decide)]
  refine ⟨w, decode_handed c cls ldpc s ch l ha _ hp, hwl, ?_, ?_, ?_⟩
  · intro k i p a b hki hkp hst ha0 hb hch
    obtain ⟨b1, rfl⟩ := List.getElem?_eq_some_iff.1 hki
    obtain ⟨p0, p1⟩ := h01 p (List.mem_of_getElem? hkp)
    have hget : (ps.map fun (p : ℝ) => (1 - p, p)).getD k (0, 0) = (1 - p, p) := by
      rw [List.getD_eq_getElem?_getD, List.getElem?_map, hkp]; rfl
    rw [w3 hex k b1 ((hlow k p hkp).2 hst), clip_neg hb0, hch, hget, htr, one_mul]
    have hq : 0 < (1 - p) + floatEps := by linarith
    have hp' : 0 < p + floatEps := by linarith
    simp only
    rw [add_comm floatEps (1 - p), Real.log_div ha0.ne' hb.ne', Real.log_div hq.ne' hp'.ne',
      ← Real.log_lt_log_iff (mul_pos ha0 hq) (mul_pos hb hp'), Real.log_mul ha0.ne' hq.ne', Real.log_mul hb.ne' hp'.ne']
    constructor <;> intro h <;> linarith
  · intro k i p hki hkp hst
    obtain ⟨b1, rfl⟩ := List.getElem?_eq_some_iff.1 hki
    rw [w2 k b1 (fun h => hst ((hlow k p hkp).1 h)), clip_neg hb0]
  · intro i h1 h2
    rw [w1 i h1 h2, clip_neg hb0]

theorem log_bound {q : ℝ} (h0 : 0 ≤ q) (h1 : q ≤ 1) :
    |Real.log ((floatEps + (1 - q)) / (q + floatEps))| ≤ Real.log ((floatEps + 1) / floatEps) := by
  have he : (0 : ℝ) < floatEps := by unfold floatEps; positivity
  have hA : 0 < floatEps + (1 - q) := by linarith
  have hB : 0 < q + floatEps := by linarith
  rw [abs_le]
  constructor
  · rw [← Real.log_inv, inv_div]
    refine Real.log_le_log (by positivity) ?_
    rw [div_le_div_iff₀ (by linarith) hB]
    nlinarith
  · refine Real.log_le_log (by positivity) ?_
    rw [div_le_div_iff₀ hB he]
    nlinarith

open Classical in
/-- **C131.** Bit-flipping LDPC decoders with method 0, when all ratios received have the same magnitude `L`, as those of a channel that
flips bits have, and are not larger than 36 times the trust: at a bit that never changed, what was received right gets twice the magnitude
(before the word is scaled back to its peak), and what was received wrong becomes exactly zero, the value of no letter. A decoder that
takes hard bits is handed the constant value only where it was received right or is a zero: wrong zeros are not repaired. -/
theorem c131_ties {c : CedCfg} (S : Sound c) (hkind : c.kind ≠ .logSpa) (hmeth : c.method = 0) (hf : c.bitFlip < 1 / 2)
    (ht : 0 < c.threshold) (cls : Labeler σ) (ldpc : Ldpc Λ) (cs : σ) (ls : Λ) (words : List (List ℝ)) (l : Nat)
    (hl : l < c.nClusters) (D : List (List Bool)) (hD : D = kept c cls ldpc cs ls words l) (hb : BothLetters c.modelLength D)
    (hu : Used c D) (ch : List ℝ) (ha : Assigned c cls (after c cls ldpc cs ls words) ch l) (L : ℝ) (hL : 0 < L)
    (hmag : ∀ x ∈ ch, |x| = L) (htr : L ≤ 36 * entTrust c D.length) (hconst : ∃ k i b, c.idx[k]? = some i ∧ Constant c.bitFlip D k b)
    (hout : ∃ i, i < ch.length ∧ i ∉ c.idx) :
    ∃ v q, 0 < q ∧
      ((after c cls ldpc cs ls words).decode c cls ldpc ch).handed = some (toDecoder c.kind v (List.replicate ch.length 0)) ∧
      v.length = ch.length ∧
      (∀ k i b, c.idx[k]? = some i → Constant c.bitFlip D k b →
        v.getD i 0 = if (ch.getD i 0 < 0 ↔ b = true) then 2 * ch.getD i 0 * q else 0) ∧
      (c.kind = .galBf → ∃ bits, ((after c cls ldpc cs ls words).decode c cls ldpc ch).handed = some (.bits bits) ∧
        ∀ k i b, c.idx[k]? = some i → Constant c.bitFlip D k b → bits[i]? = some (b && decide (ch.getD i 0 < 0))) := by
  have hdat : (after c cls ldpc cs ls words).datas[l]? = some D := by
    rw [hD]; exact c53_window S.learns S.bitsPos S.bits cls ldpc cs ls words l hl
  obtain ⟨hlen, hmod⟩ := fresh_run S cls ldpc cs ls words l D hdat
  obtain ⟨hdist, hents⟩ := hmod hb
  have hrect : ∀ x ∈ D, x ≠ [] := by
    intro x hx h0
    have := hlen x hx
    rw [h0] at this
    have := S.bitsPos
    simp at *
    omega
  have hne : ch ≠ [] := by
    obtain ⟨k, i, hk, _⟩ := hu
    have := ha.1 i (List.mem_of_getElem? hk)
    rintro rfl
    simp at this
  obtain ⟨mod, peak, top, M, hpk, htop, hsum⟩ := c90_sum hkind hmeth cls ldpc _ ch l ha _ _ D
    ⟨S.distinct, S.bits, ha.1, hents, hdist, hdat, by simp, by simp, hrect, hne⟩
  have hpeak : peak = L := by
    obtain ⟨v, hv, e⟩ := hpk.1
    rw [← e, hmag v hv]
  have hmlt : ∀ k i, c.idx[k]? = some i → k < c.modelLength := by
    intro k i h
    rw [← S.bits]
    exact (List.getElem?_eq_some_iff.1 h).1
  have hlow : ∀ k, k < c.modelLength → (LowBit c ((List.range c.modelLength).map fun (j : Nat) =>
      Real.binEntropy (chance c.bitFlip D j) / Real.log 2) k ↔ Steady c D k) := by
    intro k hk
    unfold LowBit Steady
    rw [List.getElem?_map, List.getElem?_range hk]
    simp
  have husable : Usable c ((List.range c.modelLength).map fun (j : Nat) =>
      Real.binEntropy (chance c.bitFlip D j) / Real.log 2) := by
    obtain ⟨k, i, a1, a2, a3⟩ := hu
    exact ⟨i, ⟨k, a1, (hlow k (hmlt k i a1)).2 a3⟩, a2⟩
  have hval : ∀ k i, c.idx[k]? = some i → mod.getD i 0 = push c D k := by
    intro k i hk
    by_cases hs : Steady c D k
    · rw [M.low husable k i hk ((hlow k (hmlt k i hk)).2 hs)]
      have hget : ((List.range c.modelLength).map fun (j : Nat) => (1 - chance c.bitFlip D j, chance c.bitFlip D j)).getD k (0, 0)
          = (1 - chance c.bitFlip D k, chance c.bitFlip D k) := by
        rw [List.getD_eq_getElem?_getD, List.getElem?_map, List.getElem?_range (hmlt k i hk)]; rfl
      rw [hget]
      unfold push
      rw [if_pos hs]
    · rw [M.silent i (Or.inl ?_)]
      · unfold push
        rw [if_neg hs]
      · rintro ⟨k', hk', hl'⟩
        have : k' = k := (List.Nodup.getElem_inj_iff S.distinct
          (hi := (List.getElem?_eq_some_iff.1 hk').1) (hj := (List.getElem?_eq_some_iff.1 hk).1)).1
          (by rw [(List.getElem?_eq_some_iff.1 hk').2, (List.getElem?_eq_some_iff.1 hk).2])
        subst this
        exact hs ((hlow k' (hmlt k' i hk)).1 hl')
  have hzero : ∀ i, i ∉ c.idx → mod.getD i 0 = 0 := by
    intro i hi
    refine M.silent i (Or.inl ?_)
    rintro ⟨k', hk', _⟩
    exact hi (List.mem_of_getElem? hk')
  have htr0 : 0 < entTrust c D.length := by linarith
  set T := entTrust c D.length * Real.log ((floatEps + 1) / floatEps) with hT
  have hLT : L < T := by
    have := mul_lt_mul_of_pos_left log_eps htr0
    linarith
  have hTpos : 0 < T := hL.trans hLT
  have hpushle : ∀ k, |push c D k| ≤ T := by
    intro k
    unfold push
    split
    · rw [abs_mul, abs_of_pos htr0]
      exact mul_le_mul_of_nonneg_left (log_bound (le_min zero_le_one (le_max_left _ _)) (min_le_left _ _)) htr0.le
    · rw [abs_zero]; exact hTpos.le
  have hpushc : ∀ k b, Constant c.bitFlip D k b → push c D k = (if b then -1 else 1) * T := fun k b h => push_constant hf ht h
  have htopT : top = T := by
    refine peak_eq htop ⟨?_, ?_⟩
    · obtain ⟨k, i, b, hk, hcb⟩ := hconst
      have hi : i < mod.length := by rw [M.length]; exact ha.1 i (List.mem_of_getElem? hk)
      refine ⟨mod[i], List.getElem_mem hi, ?_⟩
      have := hval k i hk
      rw [List.getD_eq_getElem?_getD, List.getElem?_eq_getElem hi, Option.getD_some] at this
      rw [this, hpushc k b hcb]
      cases b
      · simp [abs_of_pos hTpos]
      · simp [abs_of_pos hTpos]
    · intro x hx
      obtain ⟨i, hi, rfl⟩ := List.getElem_of_mem hx
      have hg : mod.getD i 0 = mod[i] := by rw [List.getD_eq_getElem?_getD, List.getElem?_eq_getElem hi, Option.getD_some]
      by_cases hx' : i ∈ c.idx
      · obtain ⟨k, hk⟩ := List.getElem?_of_mem hx'
        rw [← hg, hval k i hk]
        exact hpushle k
      · rw [← hg, hzero i hx', abs_zero]
        exact hTpos.le
  have hmin : min 1 (peak / top) = L / T := by
    rw [hpeak, htopT, min_eq_right]
    rw [div_le_one hTpos]
    exact hLT.le
  have hchL : ∀ i, i < ch.length → |ch.getD i 0| = L := by
    intro i hi
    rw [List.getD_eq_getElem?_getD, List.getElem?_eq_getElem hi, Option.getD_some]
    exact hmag _ (List.getElem_mem hi)
  have hconstsum : ∀ k i b, c.idx[k]? = some i → Constant c.bitFlip D k b →
      summed ch mod peak top i = if (ch.getD i 0 < 0 ↔ b = true) then 2 * ch.getD i 0 else 0 := by
    intro k i b hk hcb
    have hi := ha.1 i (List.mem_of_getElem? hk)
    unfold summed
    rw [hval k i hk, hpushc k b hcb, hmin]
    have hTL : T * (L / T) = L := by field_simp
    rcases abs_choice (ch.getD i 0) with h | h
    · rw [hchL i hi] at h
      have hn : ¬ ch.getD i 0 < 0 := by linarith
      cases b
      · simp only [Bool.false_eq_true, if_false, one_mul, hTL, hn, if_true]
        linarith
      · simp only [if_true, neg_mul, one_mul, hTL, hn, false_iff, not_true, if_false]
        linarith
    · rw [hchL i hi] at h
      have hn : ch.getD i 0 < 0 := by linarith
      cases b
      · simp only [Bool.false_eq_true, if_false, one_mul, hTL, hn, iff_false, not_true]
        linarith
      · simp only [if_true, neg_mul, one_mul, hTL, hn]
        linarith
  obtain ⟨sp, hsp0, hsp⟩ := maxAbs_peak (w := (List.range ch.length).map (summed ch mod peak top)) (by
    intro h0
    have := congrArg List.length h0
    simp at this
    exact hne this)
  have hsppos : 0 < sp := by
    obtain ⟨i, hi, hn⟩ := hout
    have h1 := hsp.2 (summed ch mod peak top i) (List.mem_map.2 ⟨i, List.mem_range.2 hi, rfl⟩)
    have h2 : |summed ch mod peak top i| = L := by
      unfold summed
      rw [hzero i hn, zero_mul, add_zero, hchL i hi]
    linarith
  obtain ⟨hh, _, _⟩ := hsum sp hsp (by rw [htopT]; exact hTpos) hsppos
  have hpp : 0 < peak / sp := div_pos (by rw [hpeak]; exact hL) hsppos
  have hvget : ∀ i, i < ch.length → ((List.range ch.length).map fun i => summed ch mod peak top i * (peak / sp)).getD i 0 =
      summed ch mod peak top i * (peak / sp) := by
    intro i hi
    rw [List.getD_eq_getElem?_getD, List.getElem?_map, List.getElem?_range hi]; rfl
  refine ⟨_, peak / sp, hpp, hh, by simp, fun k i b hk hcb => ?_, fun hg => ?_⟩
  · rw [hvget i (ha.1 i (List.mem_of_getElem? hk)), hconstsum k i b hk hcb]
    split
    · rfl
    · rw [zero_mul]
  · refine ⟨_, by rw [hh, toDecoder, if_pos hg], fun k i b hk hcb => ?_⟩
    have hi := ha.1 i (List.mem_of_getElem? hk)
    rw [List.getElem?_map, List.getElem?_map, List.getElem?_range hi]
    simp only [Option.map_some, Option.some.injEq]
    rw [hconstsum k i b hk hcb]
    generalize ch.getD i 0 = x
    cases b
    · by_cases hn : x < 0
      · simp [hn]
      · simp only [hn, Bool.false_eq_true, if_true, Bool.false_and, decide_eq_false_iff_not, not_lt]
        exact mul_nonneg (by linarith) hpp.le
    · by_cases hn : x < 0
      · simp only [hn, if_true, Bool.true_and, decide_true, decide_eq_true_eq]
        exact mul_neg_of_neg_of_pos (by linarith) hpp
      · simp [hn]

/-! A decoder for words of three bits of which the first two are modelled, with an LDPC decoder that always finds `100`. -/

/-- The demonstration's parameters. -/
noncomputable def demo : CedCfg :=
  { kind := .logSpa, modelLength := 2, threshold := 1 / 2, idx := [0, 1], clipping := 20, train := true, center := 0, slope := 1,
    bitFlip := 0, window := none, nClusters := 1, cluster := false, method := 0, meanDegree := 3 }

/-- Its LDPC decoder. -/
def finds : Ldpc Unit := fun _ _ => ((), ⟨[true, false, false], [], true, 1, [], []⟩)

/-- No classifier is asked. -/
def noCls : Labeler Unit := fun _ _ => ((), .ok 0)

theorem demo_sound : Sound demo := ⟨rfl, by decide, rfl, by decide, by simp [demo]⟩

theorem demo_assigned (s : Ced Unit Unit) (ch : List ℝ) (h : 2 ≤ ch.length) : Assigned demo noCls s ch 0 := by
  refine ⟨?_, by simp [pickLabel, demo]⟩
  intro i hi
  have : i = 0 ∨ i = 1 := by simpa [demo] using hi
  omega

/-- After `n` words the demonstration has learned `10` `n` times. -/
theorem demo_kept (words : List (List ℝ)) (h : ∀ w ∈ words, w.length = 3) :
    kept demo noCls finds () () words 0 = List.replicate words.length [true, false] := by
  have key : ∀ (words pre : List (List ℝ)), (∀ w ∈ words, w.length = 3) →
      learnedBy 0 (Ced.run demo noCls finds (Ced.run demo noCls finds (Ced.new demo.nClusters () ()) pre).1 words).2 =
        List.replicate words.length [true, false] := by
    intro words
    induction words with
    | nil => intro pre _; rfl
    | cons ch rest ih =>
      intro pre hw
      obtain ⟨inp, bits, old, h0, h1, _⟩ := c53_returns (c := demo) rfl (by decide) rfl (by simp [demo]) rfl noCls finds
        (Ced.run demo noCls finds (Ced.new demo.nClusters () ()) pre).1
        (c55_reachable rfl (by decide) (by simp [demo]) noCls finds () () pre) ch
        (demo_assigned (Ced.new 1 () ()) ch (by have := hw ch (List.mem_cons_self ..); omega)).1 0 (by decide)
        (demo_assigned _ ch (by have := hw ch (List.mem_cons_self ..); omega)).2 (by simp [demo, finds])
      have hb : bits = [true, false] := by rw [h0]; simp [finds, demo, bitsAt]
      have hrun : ∀ (pre : List (List ℝ)) (s : Ced Unit Unit) (ch : List ℝ), (Ced.run demo noCls finds s (pre ++ [ch])).1 =
          ((Ced.run demo noCls finds s pre).1.decode demo noCls finds ch).state := by
        intro pre
        induction pre with
        | nil => intro s ch; rfl
        | cons x pre ih => intro s ch; simp only [List.cons_append, Ced.run]; exact ih _ _
      have hih := ih (pre ++ [ch]) (fun w h => hw w (List.mem_cons_of_mem _ h))
      rw [hrun] at hih
      simp only [Ced.run, learnedBy, List.filterMap_cons] at hih ⊢
      rw [h1, hb]
      simp only [if_true]
      rw [hih]
      rfl
  have := key words [] h
  simp only [Ced.run] at this
  unfold kept
  rw [this]
  rfl

theorem demo_case (words : List (List ℝ)) (h : ∀ w ∈ words, w.length = 3) (hne : words ≠ []) (ch : List ℝ) (hl : 2 ≤ ch.length)
    (hp : ∃ x ∈ ch, 0 < x) :
    Case demo noCls finds () () words 0 (List.replicate words.length [true, false]) ch := by
  have hpos : 0 < words.length := List.length_pos_iff.2 hne
  have hmem : [true, false] ∈ List.replicate words.length [true, false] := by
    rw [List.mem_replicate]; exact ⟨by omega, rfl⟩
  have hall : ∀ x ∈ List.replicate words.length [true, false], x.getD 1 false = false := by
    intro x hx
    rw [List.eq_of_mem_replicate hx]; rfl
  refine ⟨demo_sound, rfl, by norm_num [demo], by decide, (demo_kept words h).symm, ⟨⟨_, hmem, 1, by decide, rfl⟩, ⟨_, hmem, 0, by decide, rfl⟩⟩,
    ⟨1, 1, rfl, by decide, ?_⟩, demo_assigned _ ch hl, hp⟩
  exact steady_constant (b := false) (by norm_num [demo]) (by norm_num [demo])
    (constant_of_all (by norm_num [demo]) (by rintro h0; rw [h0] at hmem; cases hmem) hall)

/-- The hypotheses can be met: after two words or more, bit 1, received as a one with ratio -10, is handed over as a zero, and bit 0,
received as a zero, as a one. -/
example (words : List (List ℝ)) (h : ∀ w ∈ words, w.length = 3) (h2 : 2 ≤ words.length) :
    ∃ w, ((after demo noCls finds () () words).decode demo noCls finds [4, -10, 5]).handed = some (.llr w) ∧
      ¬ w.getD 1 0 < 0 ∧ w.getD 0 0 < 0 := by
  have hne : words ≠ [] := by rintro rfl; simp at h2
  obtain ⟨w, h1, h3⟩ := c131_centre (by norm_num [demo]) (by norm_num [demo]) (by norm_num [demo]) (by norm_num [demo])
    (demo_case words h hne [4, -10, 5] (by simp) ⟨5, by simp, by norm_num⟩) (by simpa using h2) (by simp [demo])
  refine ⟨w, h1, ?_, ?_⟩
  · rw [h3 1 1 false rfl (by intro x hx; rw [List.eq_of_mem_replicate hx]; rfl) (by norm_num)]
    decide
  · rw [h3 0 0 true rfl (by intro x hx; rw [List.eq_of_mem_replicate hx]; rfl) (by norm_num)]

/-- A word whose first two bits are as always: errors are only removed. -/
example (words : List (List ℝ)) (h : ∀ w ∈ words, w.length = 3) (h2 : 2 ≤ words.length) :
    ∃ w, ((after demo noCls finds () () words).decode demo noCls finds [4, -10, 5]).handed = some (.llr w) ∧
      wrong [true, false, true] w ≤ wrong [true, false, true] [4, -10, 5] := by
  have hne : words ≠ [] := by rintro rfl; simp at h2
  obtain ⟨w, h1, h3, _⟩ := c131_errors (demo_case words h hne [4, -10, 5] (by simp) ⟨5, by simp, by norm_num⟩) [true, false, true] (by
    intro k i hk _
    have hc : ∀ b, (∀ x ∈ List.replicate words.length [true, false], x.getD k false = b) →
        chance demo.bitFlip (List.replicate words.length [true, false]) k = if b then 1 else 0 := fun b hb =>
      chance_constant (by norm_num [demo]) (constant_of_all (by norm_num [demo]) (by simpa using hne) hb)
    have hki : k = 0 ∧ i = 0 ∨ k = 1 ∧ i = 1 := by
      rcases k with _ | _ | k
      · left; exact ⟨rfl, by simpa [demo] using hk.symm⟩
      · right; exact ⟨rfl, by simpa [demo] using hk.symm⟩
      · simp [demo] at hk
    rcases hki with ⟨rfl, rfl⟩ | ⟨rfl, rfl⟩
    · rw [hc true (by intro x hx; rw [List.eq_of_mem_replicate hx]; rfl)]
      norm_num
    · rw [hc false (by intro x hx; rw [List.eq_of_mem_replicate hx]; rfl)]
      norm_num)
  exact ⟨w, h1, h3⟩

/-- A given model: bit 1 is never a one; received with likelihoods 1/10 and 9/10 it is decided as a zero. -/
example (words : List (List ℝ)) (s : Ced Unit Unit) (hs : s = (Ced.run { demo with train := false, threshold := 1 } noCls finds
      (Ced.newWith 1 2 (([1, 0] : List ℝ).map fun p => (1 - p, p)) () ()) words).1) :
    ∃ w, (s.decode { demo with train := false, threshold := 1 } noCls finds [1, Real.log ((1 / 10) / (9 / 10)), 5]).handed =
      some (.llr w) ∧ ¬ w.getD 1 0 < 0 := by
  obtain ⟨w, h1, _, h3, _⟩ := c131_given (c := { demo with train := false, threshold := 1 }) rfl rfl rfl (by decide)
    (by norm_num [demo]) [1, 0] rfl (by simp) noCls finds () () words s hs 0 (by decide) [1, Real.log ((1 / 10) / (9 / 10)), 5]
    ⟨by simp [demo], by simp [pickLabel, demo]⟩ ⟨5, by simp, by norm_num⟩ ⟨1, 1, 0, rfl, by decide, rfl, by simp⟩
  refine ⟨w, h1, ?_⟩
  rw [h3 1 1 0 (1 / 10) (9 / 10) rfl rfl (by simp) (by norm_num) (by norm_num) rfl]
  unfold floatEps
  norm_num

/-- A word that was assigned to a cluster and handed over is learned. -/
theorem learned_of_handed (c : CedCfg) (cls : Labeler σ) (ldpc : Ldpc Λ) (s : Ced σ Λ) (ch : List ℝ) (l : Nat)
    (h : Assigned c cls s ch l) (inp : LdpcIn) (hh : (s.decode c cls ldpc ch).handed = some inp)
    (hest : ∀ i ∈ c.idx, i < (ldpc s.ldpc inp).2.estimate.length) (hsucc : (ldpc s.ldpc inp).2.success = true) :
    (s.decode c cls ldpc ch).learned = some (l, bitsAt c.idx (ldpc s.ldpc inp).2.estimate) := by
  cases hp : s.prepare c ch l with
  | error e =>
    obtain ⟨hlt, hpk⟩ := h
    unfold Ced.decode at hh
    have hlen : (hardBits ch).length = ch.length := by simp [hardBits]
    rw [takeIdx_of_lt (by rw [hlen]; exact hlt)] at hh
    simp only at hh
    rw [show (c.idx.filterMap ((hardBits ch)[·]?)) = bitsAt c.idx (hardWord ch) from rfl] at hh
    rcases hq : pickLabel cls c.nClusters c.cluster s.cls s.running (bitsAt c.idx (hardWord ch)) with ⟨cs, running, lab⟩
    rw [hq] at hpk hh
    simp only at hpk
    subst hpk
    simp only at hh
    rw [if_neg (by omega), Int.toNat_natCast] at hh
    have hsame : Ced.prepare c { s with cls := cs, running := running } ch l = s.prepare c ch l := rfl
    rw [hsame, hp] at hh
    cases hh
  | ok inp' =>
    have : inp' = inp := by
      rw [decode_handed c cls ldpc s ch l h inp' hp] at hh
      exact Option.some.inj hh
    subst this
    obtain ⟨hlt, hpk⟩ := h
    unfold Ced.decode
    have hlen : (hardBits ch).length = ch.length := by simp [hardBits]
    rw [takeIdx_of_lt (by rw [hlen]; exact hlt)]
    simp only
    rw [show (c.idx.filterMap ((hardBits ch)[·]?)) = bitsAt c.idx (hardWord ch) from rfl]
    rcases hq : pickLabel cls c.nClusters c.cluster s.cls s.running (bitsAt c.idx (hardWord ch)) with ⟨cs, running, lab⟩
    rw [hq] at hpk
    simp only at hpk
    subst hpk
    simp only
    rw [if_neg (by omega), Int.toNat_natCast]
    have hsame : Ced.prepare c { s with cls := cs, running := running } ch l = s.prepare c ch l := rfl
    rw [hsame, hp]
    simp only
    unfold Ced.finish
    rw [takeIdx_of_lt hest]
    simp only [hsucc, if_true]
    rw [show (c.idx.filterMap ((ldpc s.ldpc inp').2.estimate[·]?)) = bitsAt c.idx (ldpc s.ldpc inp').2.estimate from rfl]
    split
    · rfl
    · split
      · split <;> rfl
      · rfl

/-- The demonstration with a decoder that takes hard bits. -/
noncomputable def demoHard : CedCfg := { demo with kind := .galBf }

theorem demoHard_sound : Sound demoHard := ⟨rfl, by decide, rfl, by decide, by simp [demo, demoHard]⟩

theorem demoHard_assigned (s : Ced Unit Unit) (ch : List ℝ) (h : 2 ≤ ch.length) : Assigned demoHard noCls s ch 0 :=
  demo_assigned s ch h

theorem demoHard_kept (a b : List ℝ) (ha : a.length = 3) (hb : b.length = 3) :
    kept demoHard noCls finds () () [a, b] 0 = [[true, false], [true, false]] := by
  have hfin : ∀ (s : Ced Unit Unit) (ch : List ℝ), ch.length = 3 → ∀ inp, (s.decode demoHard noCls finds ch).handed = some inp →
      (s.decode demoHard noCls finds ch).learned = some (0, [true, false]) := by
    intro s ch hl inp hh
    have := learned_of_handed demoHard noCls finds s ch 0 (demoHard_assigned s ch (by omega)) inp hh
      (by simp [demoHard, demo, finds]) rfl
    rw [this]
    simp [finds, demoHard, demo, bitsAt]
  have hnea : a ≠ [] := by rintro rfl; simp at ha
  have hneb : b ≠ [] := by rintro rfl; simp at hb
  have h1 := hfin _ a ha _ (c90_silent (c := demoHard) (by simp [demoHard]) noCls finds (Ced.new 1 () ()) a hnea 0
    (demoHard_assigned _ a (by omega)) [] [] [] (Or.inl ⟨rfl, rfl, rfl⟩))
  have hk1 : kept demoHard noCls finds () () [a] 0 = [[true, false]] := by
    unfold kept
    simp only [Ced.run, learnedBy, List.filterMap_cons, List.filterMap_nil]
    rw [show (Ced.new demoHard.nClusters () () : Ced Unit Unit) = Ced.new 1 () () from rfl, h1]
    rfl
  have hdat : (after demoHard noCls finds () () [a]).datas[0]? = some [[true, false]] := by
    rw [← hk1]
    exact c53_window rfl (by decide) rfl noCls finds () () [a] 0 (by decide)
  obtain ⟨hlen, hmod⟩ := fresh_run demoHard_sound noCls finds () () [a] 0 _ hdat
  obtain ⟨hdist, hents⟩ := hmod ⟨⟨_, List.mem_singleton_self _, 1, by decide, rfl⟩, ⟨_, List.mem_singleton_self _, 0, by decide, rfl⟩⟩
  have h2 := hfin _ b hb _ (c90_silent (c := demoHard) (by simp [demoHard]) noCls finds (after demoHard noCls finds () () [a]) b hneb 0
    (demoHard_assigned _ b (by omega)) _ _ _ (Or.inr ⟨⟨by decide, rfl, (demoHard_assigned (Ced.new 1 () ()) b (by omega)).1, hents,
      hdist, hdat, by simp, by simp, by simp, hneb⟩, Or.inr (by simp [entTrust, demoHard, demo])⟩))
  unfold kept
  simp only [Ced.run, learnedBy, List.filterMap_cons, List.filterMap_nil]
  rw [show (Ced.new demoHard.nClusters () () : Ced Unit Unit) = Ced.new 1 () () from rfl, h1]
  have : (after demoHard noCls finds () () [a]) = ((Ced.new 1 () ()).decode demoHard noCls finds a).state := rfl
  rw [this] at h2
  rw [h2]
  rfl

/-- After two words `10` a hard-bit decoder is handed the constant zero at bit 1, received wrong, but not the constant one at bit 0,
received wrong as well. -/
example : ∃ bits, ((after demoHard noCls finds () () [[-5, 5, 5], [-5, 5, 5]]).decode demoHard noCls finds [5, -5, 5]).handed =
    some (.bits bits) ∧ bits[0]? = some false ∧ bits[1]? = some false := by
  have hall : ∀ k b, (∀ x ∈ [[true, false], [true, false]], x.getD k false = b) →
      Constant demoHard.bitFlip [[true, false], [true, false]] k b := fun k b h =>
    constant_of_all (by norm_num [demoHard, demo]) (by simp) h
  obtain ⟨v, q, _, _, _, _, h5⟩ := c131_ties demoHard_sound (by simp [demoHard]) rfl (by norm_num [demoHard, demo])
    (by norm_num [demoHard, demo]) noCls finds () () [[-5, 5, 5], [-5, 5, 5]] 0 (by decide) [[true, false], [true, false]]
    (demoHard_kept _ _ rfl rfl).symm
    ⟨⟨_, List.mem_cons_self .., 1, by decide, rfl⟩, ⟨_, List.mem_cons_self .., 0, by decide, rfl⟩⟩
    ⟨1, 1, rfl, by decide, steady_constant (b := false) (by norm_num [demoHard, demo]) (by norm_num [demoHard, demo])
      (hall 1 false (by simp))⟩ [5, -5, 5] (demoHard_assigned _ _ (by simp)) 5 (by norm_num) (by simp) (by
        have : (1 : ℝ) / 2 ≤ entTrust demoHard [[true, false], [true, false]].length := by
          unfold entTrust
          rw [if_pos (show demoHard.train = true from rfl), if_neg (by simp)]
          refine one_div_le_one_div_of_le (by positivity) ?_
          have : Real.exp (-((([[true, false], [true, false]] : List (List Bool)).length : ℝ) - demoHard.center) * demoHard.slope) ≤ 1 := by
            rw [Real.exp_le_one_iff]
            norm_num [demoHard, demo]
          linarith
        linarith) ⟨1, 1, false, rfl, hall 1 false (by simp)⟩ ⟨2, by simp, by simp [demoHard, demo]⟩
  obtain ⟨bits, h6, h7⟩ := h5 rfl
  refine ⟨bits, h6, ?_, ?_⟩
  · rw [h7 0 0 true rfl (hall 0 true (by simp))]
    norm_num
  · rw [h7 1 1 false rfl (hall 1 false (by simp))]
    rfl

/-- **C131.** Refuted: that the word handed over never has more wrong decisions than the word received. When a bit that was the same in
all words changes, it is overwritten even if the word was received without an error. -/
theorem c131_change_false : ¬ ∀ (c : CedCfg) (cls : Labeler Unit) (ldpc : Ldpc Unit) (words : List (List ℝ)) (l : Nat)
    (D : List (List Bool)) (ch : List ℝ), Case c cls ldpc () () words l D ch → ∀ (sent : List Bool) (w : List ℝ),
    ((after c cls ldpc () () words).decode c cls ldpc ch).handed = some (.llr w) → wrong sent w ≤ wrong sent ch := by
  classical
  intro hall
  have hw3 : ∀ w ∈ [[-5, 5, 5], [-5, 5, 5]], (w : List ℝ).length = 3 := by simp
  have hcase := demo_case [[-5, 5, 5], [-5, 5, 5]] hw3 (by simp) [-5, -5, 5] (by simp) ⟨5, by simp, by norm_num⟩
  obtain ⟨w, h1, h2, h3, h4⟩ := c131_decisions hcase
  obtain ⟨w', h1', h3'⟩ := c131_centre (by norm_num [demo]) (by norm_num [demo]) (by norm_num [demo]) (by norm_num [demo])
    hcase (by simp) (by simp [demo])
  have hww : w' = w := by
    rw [h1] at h1'
    cases h1'
    rfl
  subst hww
  have h := hall demo noCls finds _ 0 _ _ hcase [true, true, false] w' h1
  have hbit : ¬ w'.getD 1 0 < 0 := by
    rw [h3' 1 1 false rfl (by intro x hx; rw [List.eq_of_mem_replicate hx]; rfl) (by norm_num)]
    decide
  have hz : wrong [true, true, false] [-5, -5, 5] = 0 := by
    unfold wrong
    rw [List.countP_eq_zero]
    intro i hi
    have hi3 : i < 3 := by simpa using hi
    rw [decide_eq_true_eq]
    unfold WrongAt
    rw [not_not]
    have : i = 0 ∨ i = 1 ∨ i = 2 := by omega
    rcases this with rfl | rfl | rfl <;> simp
  rw [hz, Nat.le_zero] at h
  unfold wrong at h
  rw [List.countP_eq_zero] at h
  apply h 1 (by rw [h2]; simp)
  rw [decide_eq_true_eq]
  unfold WrongAt
  simpa using hbit

end NR.C131
