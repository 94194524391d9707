import Verif.Props.C85
import Verif.Props.C131
/-
C136: what the entropy model of the combined decoders does to the decisions of the field models: where it wins, where it loses, and that
bits that never changed are repaired.
-/
namespace NR.C136
open NR NR.C131
open NR.Spec hiding Steady

variable {σ Λ : Type}

/-- What is known about position `k` of the words `data` is used: they are at least two, and some position other than bit 0 of the word is
steady. -/
def Used (c : CombCfg) (data : List (List Bool)) : Prop :=
  1 < data.length ∧ ∃ k' b, c.mav.idx[k']? = some b ∧ b ≠ 0 ∧ Spec.Steady c data k'

/-- The trust in an entropy model of `n` words. -/
noncomputable def faith (c : CombCfg) (n : Nat) : ℝ := 1 / (1 + Real.exp (-((n : ℝ) - c.mav.center) * c.mav.slope))

theorem faith_pos (c : CombCfg) (n : Nat) : 0 < faith c n := by
  unfold faith
  have := Real.exp_pos (-((n : ℝ) - c.mav.center) * c.mav.slope)
  positivity

theorem combined_get (c : CombCfg) (hnd : c.mav.idx.Nodup) (size : Nat) (data : List (List Bool)) (info : Nat → Option BitSays)
    (peak : ℝ) (obs : List ℝ) (i : Nat) (hi : i < obs.length) :
    (∀ k, c.mav.idx[k]? = some i → (combinedWord c size data info peak obs).getD i 0 =
      (modelWord c size data info peak obs).getD i 0 + entAdd c data peak k) ∧
    (i ∉ c.mav.idx → (combinedWord c size data info peak obs).getD i 0 = (modelWord c size data info peak obs).getD i 0) := by
  unfold combinedWord
  rw [List.getD_eq_getElem?_getD, List.getElem?_map, List.getElem?_range hi]
  simp only [Option.map_some, Option.getD_some]
  refine ⟨fun k hk => ?_, fun hn => by rw [if_neg hn, add_zero]⟩
  obtain ⟨hk1, hk2⟩ := List.getElem?_eq_some_iff.1 hk
  rw [if_pos (List.mem_of_getElem? hk), ← hk2, hnd.idxOf_getElem]

theorem likely_chance (f : ℝ) (data : List (List Bool)) (k : Nat) : likely f data k = chance f data k := rfl

/-- **C136.** At a bit that never changed the entropy model adds, towards its constant value, the smaller of two magnitudes: the clipping
factor times the largest magnitude received, and the trust in the words times the log-odds of a bit that never changed, which are more
than 36. -/
theorem c136_constant {c : CombCfg} (hf : c.bitFlip < 1 / 2) (ht : 0 < c.threshold) (hcl : 0 ≤ c.clipping) {data : List (List Bool)}
    (hu : Used c data) {k : Nat} {b : Bool} (hc : Constant c.bitFlip data k b) {peak : ℝ} (hp : 0 ≤ peak) :
    entAdd c data peak k = (if b then -1 else 1) *
      min (c.clipping * peak) (faith c data.length * Real.log ((floatEps + 1) / floatEps)) := by
  have hch : likely c.bitFlip data k = if b then 1 else 0 := chance_constant hf hc
  have hs : Spec.Steady c data k := by
    unfold Spec.Steady
    rw [hch]
    cases b <;> simpa using ht
  unfold entAdd
  rw [if_pos ⟨hs, hu.1, hu.2⟩, hch]
  have hX : 0 ≤ faith c data.length * Real.log ((floatEps + 1) / floatEps) :=
    mul_nonneg (faith_pos c _).le (by linarith [log_eps])
  have hP : 0 ≤ c.clipping * peak := mul_nonneg hcl hp
  change min _ (max _ (faith c data.length * _)) = _
  cases b
  · simp only [Bool.false_eq_true, if_false, sub_zero, zero_add, one_mul]
    rw [max_eq_right (by linarith)]
  · simp only [if_true, sub_self, add_zero]
    rw [add_comm 1 floatEps, ← inv_div, Real.log_inv, mul_neg, max_neg_neg, min_eq_right (by
      have : 0 ≤ min (c.clipping * peak) (faith c data.length * Real.log ((floatEps + 1) / floatEps)) := le_min hP hX
      linarith)]
    ring

/-- **C136.** Whatever the words, it adds no more than the clipping factor times the largest magnitude received, and nothing at bits that
are not steady. -/
theorem c136_bounded {c : CombCfg} (hcl : 0 ≤ c.clipping) (data : List (List Bool)) (k : Nat) {peak : ℝ} (hp : 0 ≤ peak) :
    |entAdd c data peak k| ≤ c.clipping * peak ∧ (¬ Spec.Steady c data k → entAdd c data peak k = 0) := by
  have hP : 0 ≤ c.clipping * peak := mul_nonneg hcl hp
  unfold entAdd
  constructor
  · split
    · rw [abs_le]
      exact ⟨le_min (by linarith) (le_max_left _ _), min_le_left _ _⟩
    · simpa using hP
  · intro h
    rw [if_neg (fun h' => h h'.1)]

theorem decide_sign {y x q : ℝ} {b : Bool} (h : |y| < x) (hq : q = (if b then -1 else 1) * x) : (y + q < 0 ↔ b = true) := by
  obtain ⟨ha, hb⟩ := abs_lt.1 h
  rw [hq]
  cases b
  · simp only [Bool.false_eq_true, if_false, iff_false, not_lt]
    linarith
  · simp only [if_true, iff_true]
    linarith

/-- **C136.** Where the entropy model wins: at a bit that never changed the LDPC decoder starts from the constant value if what the field
models made of the bit is smaller than both magnitudes. -/
theorem c136_wins {c : CombCfg} (hf : c.bitFlip < 1 / 2) (ht : 0 < c.threshold) (hcl : 0 ≤ c.clipping) (hnd : c.mav.idx.Nodup)
    {data : List (List Bool)} (hu : Used c data) (size : Nat) (info : Nat → Option BitSays) {peak : ℝ} (hp : 0 ≤ peak) (obs : List ℝ)
    (k i : Nat) (b : Bool) (hk : c.mav.idx[k]? = some i) (hi : i < obs.length) (hc : Constant c.bitFlip data k b)
    (h1 : |(modelWord c size data info peak obs).getD i 0| < c.clipping * peak)
    (h2 : |(modelWord c size data info peak obs).getD i 0| ≤ 36 * faith c data.length) :
    (combinedWord c size data info peak obs).getD i 0 < 0 ↔ b = true := by
  rw [(combined_get c hnd size data info peak obs i hi).1 k hk]
  refine decide_sign ?_ (c136_constant hf ht hcl hu hc hp)
  have := mul_lt_mul_of_pos_left log_eps (faith_pos c data.length)
  exact lt_min h1 (by linarith)

/-- **C136.** Where it loses: what the field models made of a bit is decided as they did if its magnitude is more than the clipping factor
times the largest received, and also if the bit is not steady or not a model bit. -/
theorem c136_loses {c : CombCfg} (hcl : 0 ≤ c.clipping) (hnd : c.mav.idx.Nodup) (data : List (List Bool)) (size : Nat)
    (info : Nat → Option BitSays) {peak : ℝ} (hp : 0 ≤ peak) (obs : List ℝ) (i : Nat) (hi : i < obs.length)
    (h : c.clipping * peak < |(modelWord c size data info peak obs).getD i 0| ∨ ∀ k, c.mav.idx[k]? = some i → ¬ Spec.Steady c data k) :
    (combinedWord c size data info peak obs).getD i 0 < 0 ↔ (modelWord c size data info peak obs).getD i 0 < 0 := by
  obtain ⟨g1, g2⟩ := combined_get c hnd size data info peak obs i hi
  by_cases hx : i ∈ c.mav.idx
  swap
  · rw [g2 hx]
  obtain ⟨k, hk⟩ := List.getElem?_of_mem hx
  rw [g1 k hk]
  obtain ⟨e1, e2⟩ := c136_bounded hcl data k hp
  rcases h with h | h
  · obtain ⟨e3, e4⟩ := abs_le.1 e1
    rcases lt_abs.1 h with h | h
    · constructor <;> intro h' <;> linarith [mul_nonneg hcl hp]
    · constructor <;> intro h' <;> linarith [mul_nonneg hcl hp]
  · rw [e2 (h k hk), add_zero]

/-- Bit `i` belongs to no field of the buffer structure and to no message found in the word, neither as received nor after the field
models. -/
def Alone (c : CombCfg) (size : Nat) (data : List (List Bool)) (info : Nat → Option BitSays) (peak : ℝ) (obs : List ℝ) (i : Nat) : Prop :=
  info i = none ∧ ¬ InMessages (messagesIn (c.mav.infoBytes (hardBits obs))) i ∧
    ¬ InMessages (messagesIn (c.mav.infoBytes (hardBits (modelWord c size data info peak obs)))) i

theorem handed_alone (ib : List Bool → List Byte) (vf : ℝ) (obs : List ℝ) (rect : Nat → ℝ) {i : Nat} (hi : i < obs.length)
    (h1 : ¬ InMessages (messagesIn (ib (hardBits obs))) i)
    (h2 : ¬ InMessages (messagesIn (ib (hardBits ((List.range obs.length).map fun i => handedBit (messagesIn (ib (hardBits obs)))
      (messagesIn (ib (hardBits ((List.range obs.length).map rect)))) vf (obs.getD i 0) (rect i) i)))) i) :
    ((List.range obs.length).map fun i => handedBit (messagesIn (ib (hardBits obs)))
      (messagesIn (ib (hardBits ((List.range obs.length).map rect)))) vf (obs.getD i 0) (rect i) i).getD i 0 = rect i := by
  generalize messagesIn (ib (hardBits obs)) = rx at *
  rw [List.getD_eq_getElem?_getD, List.getElem?_map, List.getElem?_range hi]
  simp only [Option.map_some, Option.getD_some]
  unfold handedBit
  rw [if_neg h1]
  split
  · rfl
  rename_i hrx
  have e : hardBits ((List.range obs.length).map fun i => handedBit rx (messagesIn (ib (hardBits ((List.range obs.length).map rect)))) vf
      (obs.getD i 0) (rect i) i) = hardBits ((List.range obs.length).map rect) := by
    unfold hardBits
    rw [List.map_map, List.map_map]
    refine List.map_congr_left fun j _ => ?_
    simp only [Function.comp]
    refine decide_eq_decide.2 ?_
    unfold handedBit
    rw [if_neg hrx]
    split
    · exact ⟨fun h => by linarith, fun h => by linarith⟩
    · exact Iff.rfl
  rw [e] at h2
  rw [if_neg h2]

/-- **C136.** Such bits the field models leave as received. -/
theorem c136_alone {c : CombCfg} {size : Nat} {data : List (List Bool)} {info : Nat → Option BitSays} {peak : ℝ} {obs : List ℝ} {i : Nat}
    (hi : i < obs.length) (h : Alone c size data info peak obs i) :
    (modelWord c size data info peak obs).getD i 0 = obs.getD i 0 := by
  obtain ⟨hn, h1, h2⟩ := h
  unfold modelWord at h2 ⊢
  split
  · rename_i hu
    rw [if_pos hu] at h2
    unfold unifiedWord at h2 ⊢
    rw [handed_alone c.mav.infoBytes _ obs _ hi h1 h2, hn]
    rfl
  · rename_i hu
    rw [if_neg hu] at h2
    unfold handedWord at h2 ⊢
    rw [handed_alone c.mav.infoBytes _ obs _ hi h1 h2, hn]
    rfl

/-- **C136.** Repair: with a clipping factor above 1, a bit that never changed and that the field models leave alone is decided as its
constant value whatever was received there, as long as the magnitude received is at most 36 times the trust in the words. -/
theorem c136_repaired {c : CombCfg} (hf : c.bitFlip < 1 / 2) (ht : 0 < c.threshold) (hcl : 1 < c.clipping) (hnd : c.mav.idx.Nodup)
    {data : List (List Bool)} (hu : Used c data) (size : Nat) (info : Nat → Option BitSays) {peak : ℝ} (obs : List ℝ)
    (hp : IsPeak obs peak) (hp0 : 0 < peak)
    (k i : Nat) (b : Bool) (hk : c.mav.idx[k]? = some i) (hi : i < obs.length) (hc : Constant c.bitFlip data k b)
    (ha : Alone c size data info peak obs i) (hx : |obs.getD i 0| ≤ 36 * faith c data.length) :
    (combinedWord c size data info peak obs).getD i 0 < 0 ↔ b = true := by
  have hle : |obs.getD i 0| ≤ peak := by
    refine hp.2 _ ?_
    rw [List.getD_eq_getElem?_getD, List.getElem?_eq_getElem hi]
    exact List.getElem_mem hi
  refine c136_wins hf ht (by linarith) hnd hu size info hp0.le obs k i b hk hi hc ?_ ?_
  · rw [c136_alone hi ha]; nlinarith
  · rw [c136_alone hi ha]; exact hx

/-- **C136.** A decoder after any calls that returned, and a call that assigns the word to a cluster whose buffer structure is not known
yet and returns: what the LDPC decoder is given is the word received, plus at each model bit what the entropy model of the words learned
for that cluster adds. -/
theorem c136_no_structure {c : CombCfg} {n : Nat} (hf : c.Fits n) (hm : 0 < c.modelLength) (hw0 : c.window ≠ some 0)
    (hnd : c.mav.idx.Nodup) (hi : c.mav.idx.length = c.modelLength) (hlt : ∀ i ∈ c.mav.idx, i < n)
    (cls : Labeler σ) (ldpc : Ldpc Λ) (hest : ∀ l i, (ldpc l i).2.estimate.length = n)
    (model : BufferModel ℝ) (cs : σ) (ls : Λ) (words : List (List ℝ)) (hwords : ∀ ch ∈ words, ch.length = n)
    (s : Comb σ Λ) (steps : List (CombStep σ Λ)) (hs : (s, steps) = Comb.run c cls ldpc (Comb.new c.mav.nClusters model cs ls) words)
    (hok : ∀ st ∈ steps, ∃ r, st.result = .ok r) (label : Nat) (hlab : label < c.mav.nClusters)
    (hst : s.mav.structures[label]? = some none) (obs : List ℝ) (hobs : obs.length = n) (r : CombOut)
    (hres : (s.decode c cls ldpc obs).result = .ok r) (hrl : r.label = label) :
    ∃ peak v, IsPeak obs peak ∧ (s.decode c cls ldpc obs).handed = some v ∧ v.length = n ∧
      (∀ k i, c.mav.idx[k]? = some i →
        v.getD i 0 = obs.getD i 0 + entAdd c (keep c.window (combLearnedBy label steps)) peak k) ∧
      ∀ i < n, i ∉ c.mav.idx → v.getD i 0 = obs.getD i 0 := by
  have hE := entKnows_run hf hm hw0 cls ldpc hest words hwords label _ [] (by simp)
    (entKnows_new c label hlab model cs ls) (by rw [← hs]; exact hok)
  rw [← hs] at hE
  simp only [List.nil_append] at hE
  obtain ⟨s1, inp0, inp, _, _, _, _, g5, g6, _, _, g7⟩ := c68_handed c cls ldpc s obs r hres (by omega)
  rw [hrl, Int.toNat_natCast] at g5 g7
  rw [g7 hst] at g5
  have hne : obs ≠ [] := by
    rintro rfl
    have : 0 < c.mav.idx.length := by omega
    have := hlt _ (List.getElem_mem this)
    simp at hobs
    omega
  obtain ⟨peak, hmx, hpk⟩ := maxAbs_peak hne
  rw [entropy_part c hm s label _ hE hnd hi obs obs (by rw [hobs]; exact hlt) peak hmx] at g5
  injection g5 with g5
  refine ⟨peak, inp, hpk, g6, by rw [← g5]; simp [hobs], ?_, ?_⟩
  · intro k i hk
    obtain ⟨hk1, hk2⟩ := List.getElem?_eq_some_iff.1 hk
    have hil := hlt i (List.mem_of_getElem? hk)
    rw [← g5, List.getD_eq_getElem?_getD, List.getElem?_map, List.getElem?_range (by omega)]
    simp only [Option.map_some, Option.getD_some]
    rw [if_pos (List.mem_of_getElem? hk), ← hk2, hnd.idxOf_getElem]
  · intro i hil hn
    rw [← g5, List.getD_eq_getElem?_getD, List.getElem?_map, List.getElem?_range (by omega)]
    simp only [Option.map_some, Option.getD_some]
    rw [if_neg hn, add_zero]

/-- **C136.** So then, with a clipping factor above 1, a bit that never changed in the words learned for that cluster is decided as its
constant value if the magnitude received is at most 36 times the trust in these words. -/
theorem c136_learned {c : CombCfg} {n : Nat} (hf : c.Fits n) (hm : 0 < c.modelLength) (hw0 : c.window ≠ some 0)
    (hnd : c.mav.idx.Nodup) (hi : c.mav.idx.length = c.modelLength) (hlt : ∀ i ∈ c.mav.idx, i < n)
    (cls : Labeler σ) (ldpc : Ldpc Λ) (hest : ∀ l i, (ldpc l i).2.estimate.length = n)
    (model : BufferModel ℝ) (cs : σ) (ls : Λ) (words : List (List ℝ)) (hwords : ∀ ch ∈ words, ch.length = n)
    (s : Comb σ Λ) (steps : List (CombStep σ Λ)) (hs : (s, steps) = Comb.run c cls ldpc (Comb.new c.mav.nClusters model cs ls) words)
    (hok : ∀ st ∈ steps, ∃ r, st.result = .ok r) (label : Nat) (hlab : label < c.mav.nClusters)
    (hst : s.mav.structures[label]? = some none) (obs : List ℝ) (hobs : obs.length = n) (r : CombOut)
    (hres : (s.decode c cls ldpc obs).result = .ok r) (hrl : r.label = label)
    (hfl : c.bitFlip < 1 / 2) (ht : 0 < c.threshold) (hcl : 1 < c.clipping) (hx : ∃ x ∈ obs, x ≠ 0) (D : List (List Bool))
    (hD : D = keep c.window (combLearnedBy label steps)) (hu : Used c D) :
    ∃ v, (s.decode c cls ldpc obs).handed = some v ∧
      ∀ k i b, c.mav.idx[k]? = some i → Constant c.bitFlip D k b → |obs.getD i 0| ≤ 36 * faith c D.length → (v.getD i 0 < 0 ↔ b = true) := by
  obtain ⟨peak, v, h1, h2, _, h4, _⟩ := c136_no_structure hf hm hw0 hnd hi hlt cls ldpc hest model cs ls words hwords s steps hs hok label
    hlab hst obs hobs r hres hrl
  refine ⟨v, h2, fun k i b hk hc hle => ?_⟩
  have hil : i < obs.length := by rw [hobs]; exact hlt i (List.mem_of_getElem? hk)
  have hp0 : 0 < peak := by
    obtain ⟨x, hx, h0⟩ := hx
    exact lt_of_lt_of_le (abs_pos.2 h0) (h1.2 x hx)
  have hxp : |obs.getD i 0| ≤ peak := by
    refine h1.2 _ ?_
    rw [List.getD_eq_getElem?_getD, List.getElem?_eq_getElem hil]
    exact List.getElem_mem hil
  rw [h4 k i hk, ← hD]
  refine decide_sign ?_ (c136_constant hfl ht (by linarith) hu hc hp0.le)
  have := mul_lt_mul_of_pos_left log_eps (faith_pos c D.length)
  refine lt_min (by nlinarith) (by linarith)

/-! ### The hypotheses can be met -/

theorem example_step (cls : Labeler Unit) (s : Comb Unit Unit) (hist : String → List Val) (h : List (List Bool))
    (hst : s.mav.structures = [none]) (hb : BufInv zeroComb.mav.stats none hist s.mav.model.models) (hh : ∀ x ∈ h, x = [true, false])
    (hE : EntKnows zeroComb s.ent 0 h) (ch : List ℝ) (hch : ch.length = 136) :
    (∃ r, (s.decode zeroComb cls oneLdpc ch).result = .ok r ∧ r.label = 0) ∧
    (s.decode zeroComb cls oneLdpc ch).learned = some (0, [true, false]) ∧
    (s.decode zeroComb cls oneLdpc ch).state.mav.structures = [none] ∧
    BufInv zeroComb.mav.stats none hist (s.decode zeroComb cls oneLdpc ch).state.mav.model.models ∧
    EntKnows zeroComb (s.decode zeroComb cls oneLdpc ch).state.ent 0 (h ++ [[true, false]]) := by
  have hfit : zeroComb.Fits 136 := Or.inl ⟨rfl, by decide⟩
  have hest : ∀ l i, (oneLdpc l i).2.estimate.length = 136 := fun _ _ => by simp only [oneLdpc, List.length_cons, List.length_replicate]
  have hp : (s.mavlinkPrediction zeroComb ch 0).2 = .ok ch := by
    unfold Comb.mavlinkPrediction
    rw [hst]
    rfl
  obtain ⟨peak, hmx, _⟩ := maxAbs_peak (w := ch) (by rintro rfl; simp at hch)
  have ha := entropy_part zeroComb (by decide) s 0 h hE (by decide) rfl ch ch
    (by
      intro i hi
      rw [hch]
      have hi : i = 0 ∨ i = 1 := by simpa [zeroComb] using hi
      omega) peak hmx
  obtain ⟨b, hbl, hbe⟩ := single_learned zeroComb rfl rfl cls oneLdpc s (by rw [hst]; decide) ch ch _ hp ha
  have hbit : b = [true, false] := by rw [hbe]; rfl
  rw [hbit] at hbl
  obtain ⟨_, data, hd, hret, _⟩ := c68_fits_returns hfit (by decide) (by decide) cls oneLdpc hest s ch hch hbl
  have hr : ∃ r, (s.decode zeroComb cls oneLdpc ch).result = .ok r ∧ r.label = 0 := by
    rcases comb_ent_cases zeroComb cls oneLdpc s ch with ⟨h1, _⟩ | ⟨label, o, inp, lst, ho, _, d1, d2, d3, hlearn, hst, hres⟩
    · rw [h1] at hbl; cases hbl
    · rw [hlearn] at hbl
      injection hbl with hbl
      injection hbl with hl hbl
      subst hl
      rw [hbl] at hst hres
      have hdd := update_data (c := zeroComb.ced) rfl s.ent (bits := [true, false]) rfl hE.held
      rw [← hst, hd] at hdd
      injection hdd with hdd
      have hmem : [true, false] ∈ data := by
        rw [hdd]
        have hw : zeroComb.ced.window = none := rfl
        unfold growData
        rw [hw]
        simp only
        split <;> simp
      obtain ⟨r, hr⟩ := hret ⟨⟨_, hmem, 1, by decide, rfl⟩, ⟨_, hmem, 0, by decide, rfl⟩⟩
      refine ⟨r, hr, ?_⟩
      rw [hres] at hr
      cases hu : (s.ent.update zeroComb.ced [true, false] 0).2 with
      | error e => rw [hu] at hr; cases hr
      | ok u => rw [hu] at hr; cases hr; rfl
  obtain ⟨r, hr1, hr2⟩ := hr
  have hE' := (entKnows_step hfit (by decide) (by decide) cls oneLdpc hest s ch hch 0 h (fun x hx => by rw [hh x hx]; rfl) hE r hr1).1
  have hcl : combLearnedBy 0 [s.decode zeroComb cls oneLdpc ch] = [[true, false]] := by simp [combLearnedBy, hbl]
  rw [hcl] at hE'
  obtain ⟨f1, _, f3⟩ := comb_frozen (c := zeroComb) rfl cls oneLdpc none hist [ch] s hb
  have e : (Comb.run zeroComb cls oneLdpc s [ch]).1 = (s.decode zeroComb cls oneLdpc ch).state := by simp [Comb.run]
  rw [e] at f1 f3
  exact ⟨⟨r, hr1, hr2⟩, hbl, by rw [f1, hst], f3, hE'⟩

/-- The hypotheses of `c136_learned` are met: a unified decoder of two model bits has decoded two words to a one and zeros, and receives a
word that says the opposite of the two model bits. -/
example (cls : Labeler Unit) : ∃ s steps r, (s, steps) = Comb.run zeroComb cls oneLdpc (Comb.new zeroComb.mav.nClusters (BufferModel.new none) () ())
      [List.replicate 136 1, List.replicate 136 1] ∧
    (∀ st ∈ steps, ∃ r, st.result = .ok r) ∧ s.mav.structures[0]? = some none ∧
    (s.decode zeroComb cls oneLdpc (1 :: -1 :: List.replicate 134 1)).result = .ok r ∧ r.label = (0 : Nat) ∧
    keep zeroComb.window (combLearnedBy 0 steps) = [[true, false], [true, false]] ∧
    Used zeroComb [[true, false], [true, false]] ∧ Constant zeroComb.bitFlip [[true, false], [true, false]] 0 true ∧
    Constant zeroComb.bitFlip [[true, false], [true, false]] 1 false ∧ 0 < faith zeroComb 2 := by
  have h0 : EntKnows zeroComb (Comb.new zeroComb.mav.nClusters (BufferModel.new none) () () : Comb Unit Unit).ent 0 [] :=
    entKnows_new zeroComb 0 (by decide) _ () ()
  obtain ⟨_, _, hinv⟩ := addAll_inv zeroComb.mav.stats none ([] : List (BufArg × List (Nat × Nat)))
  obtain ⟨⟨r1, a1, _⟩, a3, a4, a5, a6⟩ := example_step cls _ _ [] rfl hinv (by simp) h0 (List.replicate 136 1) (by rw [List.length_replicate])
  obtain ⟨⟨r2, b1, _⟩, b3, b4, b5, b6⟩ := example_step cls _ _ _ a4 a5 (by simp) a6 (List.replicate 136 1) (by rw [List.length_replicate])
  obtain ⟨⟨r3, c1, c2⟩, _⟩ := example_step cls _ _ _ b4 b5 (by simp) b6 (1 :: -1 :: List.replicate 134 1)
    (by rw [List.length_cons, List.length_cons, List.length_replicate])
  have hf : zeroComb.bitFlip = 0 := rfl
  have k0 : Constant zeroComb.bitFlip [[true, false], [true, false]] 0 true :=
    constant_of_all (by rw [hf]) (by simp) (by simp)
  have k1 : Constant zeroComb.bitFlip [[true, false], [true, false]] 1 false :=
    constant_of_all (by rw [hf]) (by simp) (by simp)
  refine ⟨_, _, r3, rfl, ?_, ?_, c1, by rw [c2]; rfl, ?_, ⟨by decide, 1, 1, rfl, by decide, ?_⟩, k0, k1, faith_pos _ _⟩
  · simp only [List.mem_cons, List.not_mem_nil, or_false]
    rintro st (rfl | rfl)
    · exact ⟨r1, a1⟩
    · exact ⟨r2, b1⟩
  · rw [b4]
    rfl
  · have hw : zeroComb.window = none := rfl
    rw [hw]
    simp only [combLearnedBy, keep, List.filterMap_cons, List.filterMap_nil]
    rw [a3, b3]
    rfl
  · unfold Spec.Steady
    rw [likely_chance, chance_constant (by rw [hf]; norm_num) k1]
    have : zeroComb.threshold = 1 / 2 := rfl
    rw [this]
    simp

end NR.C136
