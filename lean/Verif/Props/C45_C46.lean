import Verif.Model.Emle
import Verif.Spec.Emle
import Verif.Spec.Window
import Verif.Lemmas.Bits
import Mathlib.Analysis.SpecialFunctions.BinaryEntropy
import Mathlib.Tactic.Linarith
import Mathlib.Tactic.FieldSimp
import Mathlib.Tactic.NormNum
/-
C45: the EMLE model is the windowed, channel-corrected frequency. C46: denoising changes only structural positions.
-/
namespace NR
open Spec

theorem entropy_pair (p : ℝ) : scipyEntropy [1 - p, p] 2 = Real.binEntropy p / Real.log 2 := by
  simp [scipyEntropy, Real.binEntropy_eq_negMulLog_add_negMulLog_one_sub, add_comm]

theorem sum_bits (w : List (List Bool)) (j : Nat) :
    ((w.map bitsR).map fun (c : List ℝ) => c.getD j 0).sum = ((w.countP fun b => b.getD j false : ℕ) : ℝ) := by
  induction w with
  | nil => simp
  | cons b w ih =>
    simp only [List.map_cons, List.sum_cons, ih, List.countP_cons]
    have : (bitsR b).getD j 0 = if b.getD j false = true then (1 : ℝ) else 0 := by
      simp only [bitsR, List.getD_eq_getElem?_getD, List.getElem?_map]
      cases b[j]? with
      | none => simp
      | some x => cases x <;> simp
    rw [this]
    split <;> simp [add_comm]

theorem rowMean_bits (w : List (List Bool)) (j : Nat) : rowMean (w.map bitsR) j = shareOfOnes w j := by
  simp only [rowMean, shareOfOnes, sum_bits, List.length_map]

/-- Updates with a list of observations, oldest first. -/
noncomputable def Emle.updates (s : Emle) (obs : List (List ℝ)) : Except PyErr Emle := obs.foldlM Emle.updateModel s

/-- The number of observations a window setting keeps out of `n`. -/
def keptCount (w n : Nat) : Nat := if w = 0 then n else min n w

theorem emle_windowed_snoc {α : Type _} (w : Nat) (h : List α) (x : α) :
    (if 0 < w ∧ w < (windowed (some w) h ++ [x]).length
      then (windowed (some w) h ++ [x]).drop ((windowed (some w) h ++ [x]).length - w)
      else windowed (some w) h ++ [x]) = windowed (some w) (h ++ [x]) := by
  cases w with
  | zero => simp [windowed]
  | succ w =>
    simp only [windowed, lastN, List.length_append, List.length_drop, List.length_singleton]
    by_cases hl : h.length < w + 1
    · have h0 : h.length - (w + 1) = 0 := by omega
      have h1 : h.length + 1 - (w + 1) = 0 := by omega
      rw [if_neg (by omega), h0, h1]; simp
    · rw [if_pos (by omega), ← List.drop_append_of_le_length (by omega), List.drop_drop]
      congr 1
      omega

theorem emle_windowed_length {α : Type _} (w : Nat) (h : List α) :
    (windowed (some w) h).length = keptCount w h.length := by
  cases w with
  | zero => simp [windowed, keptCount]
  | succ w => simp [windowed, lastN, keptCount]; omega

theorem emle_windowed_map {α β : Type _} (w : Nat) (g : α → β) (h : List α) :
    windowed (some w) (h.map g) = (windowed (some w) h).map g := by
  cases w <;> simp [windowed, lastN]

theorem emle_windowed_mem {α : Type _} {w : Nat} {h : List α} {x : α} (hx : x ∈ windowed (some w) h) : x ∈ h := by
  cases w with
  | zero => exact hx
  | succ w => exact List.mem_of_mem_drop hx

theorem flatten_length_pos {l : List (List ℝ)} {n : Nat} (hn : 0 < n) (hl : ∀ o ∈ l, o.length = n) (h : l ≠ []) :
    l.flatten.length ≠ 0 := by
  cases l with
  | nil => exact absurd rfl h
  | cons o l =>
    have := hl o (List.mem_cons_self ..)
    simp only [List.flatten_cons, List.length_append]
    omega

/-- What the fields are after a history of observations of length `n`. -/
def EmleIs (s0 s : Emle) (w n : Nat) (h : List (List Bool)) : Prop :=
  s.f = s0.f ∧ s.threshold = s0.threshold ∧ s.window = w ∧ s.center = s0.center ∧ s.slope = s0.slope ∧
  s.hard = s0.hard ∧ s.soft = s0.soft ∧
  s.data = (windowed (some w) h).map bitsR ∧ s.size = keptCount w h.length ∧
  (h ≠ [] → s.p1 = (List.range n).map (fun (j : Nat) =>
      min (max ((shareOfOnes (windowed (some w) h) j - s0.f) / (1 - 2 * s0.f)) 0) 1) ∧
    s.entropy = s.p1.map fun (p : ℝ) => Real.binEntropy p / Real.log 2)

theorem emle_windowed_ne_nil {α : Type _} {w : Nat} {h : List α} (hh : h ≠ []) : windowed (some w) h ≠ [] := by
  intro h0
  have := congrArg List.length h0
  rw [emle_windowed_length] at this
  have hp := List.length_pos_iff.2 hh
  simp only [keptCount, List.length_nil] at this
  split at this <;> omega

theorem updateModel_ok {s : Emle} {obs : List ℝ} {d : List (List ℝ)} (hg : s.grow obs = .ok d) :
    s.updateModel obs = .ok { s with
      data := d
      p1 := (List.range obs.length).map fun (j : Nat) => clip01 ((rowMean d j - s.f) / (1 - 2 * s.f))
      entropy := (((List.range obs.length).map fun (j : Nat) => clip01 ((rowMean d j - s.f) / (1 - 2 * s.f))).map
        fun (p : ℝ) => [1 - p, p]).map fun r => scipyEntropy r 2
      size := if s.size < s.window ∨ s.window = 0 then s.size + 1 else s.size } := by
  simp only [Emle.updateModel, hg, entropyPy]; rfl

theorem emle_step {s0 s : Emle} {w n : Nat} {h : List (List Bool)} {x : List Bool} (hn : 0 < n)
    (hl : ∀ o ∈ h, o.length = n) (hx : x.length = n) (hi : EmleIs s0 s w n h) :
    ∃ s', s.updateModel (bitsR x) = .ok s' ∧ EmleIs s0 s' w n (h ++ [x]) := by
  obtain ⟨h1, h2, h3, h4, h5, h6, h7, hd, hs, _⟩ := hi
  have hxl : (bitsR x).length = n := by simp [bitsR, hx]
  have hdl : ∀ o ∈ s.data, o.length = n := by
    intro o ho
    rw [hd, List.mem_map] at ho
    obtain ⟨b, hb, rfl⟩ := ho
    simp [bitsR, hl b (emle_windowed_mem hb)]
  have hgrow : s.grow (bitsR x) = .ok ((windowed (some w) (h ++ [x])).map bitsR) := by
    by_cases he : h = []
    · subst he
      have hd0 : s.data = [] := by rw [hd]; cases w <;> simp [windowed, lastN]
      have hw : windowed (some w) ([] ++ [x]) = [x] := by cases w <;> simp [windowed, lastN]
      rw [hw]
      simp only [Emle.grow, hd0, List.flatten_nil, List.length_nil, ne_eq, not_true_eq_false, false_and, if_false,
        if_true, List.length_singleton]
      rw [if_neg (by omega)]
      simp
    · have hne : s.data ≠ [] := by rw [hd]; simpa using emle_windowed_ne_nil he
      have hf := flatten_length_pos hn hdl hne
      have hhd : (s.data.headD []).length = n := by
        obtain ⟨o, l, hol⟩ := List.exists_cons_of_ne_nil hne
        rw [hol]; simpa using hdl o (by simp [hol])
      simp only [Emle.grow, hhd, hxl, ne_eq, not_true_eq_false, and_false, if_false, if_neg hf]
      congr 1
      have key := emle_windowed_snoc w (h.map bitsR) (bitsR x)
      have e1 : h.map bitsR ++ [bitsR x] = (h ++ [x]).map bitsR := by simp
      rw [e1, emle_windowed_map, emle_windowed_map, ← hd] at key
      rw [← key, h3]
      have e3 : (0 < (w : Int) ∧ (w : Int) < (s.data ++ [bitsR x]).length) ↔
          (0 < w ∧ w < (s.data ++ [bitsR x]).length) := by omega
      simp only [e3, Int.toNat_natCast]
  refine ⟨_, updateModel_ok hgrow, h1, h2, h3, h4, h5, h6, h7, rfl, ?_, ?_⟩
  · simp only [h3, hs, keptCount, List.length_append, List.length_singleton]
    split <;> split <;> simp_all <;> omega
  · intro _
    refine ⟨?_, ?_⟩
    · simp only [hxl, rowMean_bits, clip01, h1]
    · simp only [List.map_map]
      refine List.map_congr_left fun p _ => ?_
      simp [entropy_pair]

/-- C45. After any history of observed buffers of one length, the denoiser's data are the last `window` buffers (all
without a window), its size is their number, each `p1` is the share of ones at that position in the window, passed
through the inverse of the channel and clipped to [0,1], and each entropy is the binary entropy of that probability in
bits. No update raises. -/
theorem c45_model (f threshold center slope : ℝ) (hard soft : Bool) (w n : Nat) (hn : 0 < n) (h : List (List Bool))
    (hl : ∀ o ∈ h, o.length = n) :
    ∃ s, (Emle.new f threshold w center slope hard soft).updates (h.map bitsR) = .ok s ∧
      s.data = (windowed (some w) h).map bitsR ∧
      s.size = (if w = 0 then h.length else min h.length w : Nat) ∧
      (h ≠ [] → s.p1 = (List.range n).map (fun (j : Nat) =>
          min (max ((shareOfOnes (windowed (some w) h) j - f) / (1 - 2 * f)) 0) 1) ∧
        s.entropy = s.p1.map fun (p : ℝ) => Real.binEntropy p / Real.log 2) := by
  suffices hs : ∃ s, (Emle.new f threshold w center slope hard soft).updates (h.map bitsR) = .ok s ∧
      EmleIs (Emle.new f threshold w center slope hard soft) s w n h by
    obtain ⟨s, he, _, _, _, _, _, _, _, hd, hz, hp⟩ := hs
    exact ⟨s, he, hd, hz, hp⟩
  induction h using List.reverseRecOn with
  | nil =>
    refine ⟨_, rfl, rfl, rfl, rfl, rfl, rfl, rfl, rfl, ?_, ?_, fun hh => absurd rfl hh⟩
    · cases w <;> simp [Emle.new, windowed, lastN]
    · simp [Emle.new, keptCount]
  | append_singleton h x ih =>
    obtain ⟨s, he, hi⟩ := ih (fun o ho => hl o (by simp [ho]))
    obtain ⟨s', he', hi'⟩ := emle_step hn (fun o ho => hl o (by simp [ho])) (hl x (by simp)) hi
    refine ⟨s', ?_, hi'⟩
    simp only [Emle.updates, List.map_append, List.map_cons, List.map_nil, List.foldlM_append] at he ⊢
    rw [he]
    simp only [List.foldlM_cons, List.foldlM_nil]
    show (s.updateModel (bitsR x) >>= fun s => pure s) = _
    rw [he']
    rfl

/-- C45. The correction inverts the channel: if the share of ones is that of a channel output, the corrected value is
the probability before the channel. -/
theorem c45_inverts_channel (f q : ℝ) (hf : f < 1 / 2) (h0 : 0 ≤ q) (h1 : q ≤ 1) :
    min (max ((throughBsc f q - f) / (1 - 2 * f)) 0) 1 = q := by
  have hne : (1 - 2 * f) ≠ 0 := by linarith
  have : (throughBsc f q - f) / (1 - 2 * f) = q := by
    rw [div_eq_iff hne, throughBsc]; ring
  rw [this, max_eq_left h0, min_eq_left h1]

/-- C45. The corrected probability lies on the same side of one half as the observed share. -/
theorem c45_same_side (f v : ℝ) (hf : f < 1 / 2) :
    (min (max ((v - f) / (1 - 2 * f)) 0) 1 < 1 / 2 ↔ v < 1 / 2) ∧
    (1 / 2 < min (max ((v - f) / (1 - 2 * f)) 0) 1 ↔ 1 / 2 < v) := by
  have hp : (0 : ℝ) < 1 - 2 * f := by linarith
  constructor
  · rw [min_lt_iff, max_lt_iff, div_lt_iff₀ hp]
    constructor
    · rintro (⟨h, _⟩ | h)
      · linarith
      · norm_num at h
    · intro h; exact Or.inl ⟨by linarith, by norm_num⟩
  · rw [lt_min_iff, lt_max_iff, lt_div_iff₀ hp]
    constructor
    · rintro ⟨h | h, _⟩
      · linarith
      · norm_num at h
    · intro h; exact ⟨Or.inl (by linarith), by norm_num⟩

/-- C45. A reset denoiser is a new one with the same parameters. -/
theorem c45_reset (s : Emle) :
    s.reset = Emle.new s.f s.threshold s.window s.center s.slope s.hard s.soft := rfl

/-- C45. With a negative window nothing is dropped, but the size stays where it is: such a denoiser never denoises. -/
theorem c45_negative_window (s s' : Emle) (obs : List ℝ) (hw : s.window < 0) (hz : s.size = 0)
    (h : s.updateModel obs = .ok s') : s'.size = 0 ∧ s'.confidence = 0 := by
  cases hg : s.grow obs with
  | error e => unfold Emle.updateModel at h; rw [hg] at h; cases h
  | ok d =>
    rw [updateModel_ok hg] at h
    have : ¬ (s.size < s.window ∨ s.window = 0) := by omega
    simp only [if_neg this, Except.ok.injEq] at h
    subst h
    simp [Emle.confidence, hz]

example : (Emle.new 0.1 0.5 2 40 0.35 false true).window = 2 ∧
    windowed (some 2) [[true, false], [true, true], [false, true]] = [[true, true], [false, true]] := by
  constructor
  · rfl
  · decide

theorem confidence_pos (s : Emle) : 0 < s.confidence ↔ 1 < s.size := by
  unfold Emle.confidence
  split
  · simp; omega
  · constructor
    · intro _; omega
    · intro _; positivity

/-- C46. predict changes only its argument, in place and only at structural positions, by the confidence times the log
odds of the model; below two samples it changes nothing. It raises exactly when it has something to change and the
buffer is not as long as the model. -/
theorem c46_predict (s : Emle) (m : Store) (r : Nat) (hr : r < m.length) (hp : s.p1.length = s.entropy.length) :
    (∀ e, s.predict m r = .error e → e = .indexError ∧ 1 < s.size ∧ s.entropy.length ≠ (m.load r).length) ∧
    (∀ m' r', s.predict m r = .ok (m', r') →
      r' = r ∧ m'.length = m.length ∧ (∀ q, q ≠ r → m'.load q = m.load q) ∧
      (m'.load r).length = (m.load r).length ∧
      ∀ i, i < (m.load r).length →
        ((m'.load r).getD i 0 =
          if 1 < s.size ∧ i < s.entropy.length ∧ s.entropy.getD i 0 < s.threshold
          then (m.load r).getD i 0 + s.push (s.p1.getD i 0) else (m.load r).getD i 0)) := by
  classical
  unfold Emle.predict
  simp only
  split
  · rename_i hany
    refine ⟨fun e h => (by cases h), fun m' r' h => ?_⟩
    cases h
    refine ⟨rfl, rfl, fun _ _ => rfl, rfl, fun i _ => ?_⟩
    rw [if_neg]
    rintro ⟨_, hi, hlt⟩
    rw [List.any_eq_false] at hany
    refine hany true ?_ rfl
    rw [List.mem_map]
    refine ⟨s.entropy[i], List.getElem_mem hi, ?_⟩
    rw [List.getD_eq_getElem?_getD, List.getElem?_eq_getElem hi] at hlt
    simpa using hlt
  · split
    · rename_i hc
      have hc' := (confidence_pos s).1 hc
      split
      · rename_i hl
        rw [List.length_map] at hl
        refine ⟨fun e h => ?_, fun m' r' h => (by cases h)⟩
        cases h
        exact ⟨rfl, hc', hl⟩
      · rename_i hl
        rw [List.length_map] at hl
        have hl : s.entropy.length = (m.load r).length := not_not.1 hl
        refine ⟨fun e h => (by cases h), fun m' r' h => ?_⟩
        cases h
        refine ⟨rfl, by simp [Store.update], fun q hq => ?_, ?_, fun i hi => ?_⟩
        · simp only [Store.load, Store.update, List.getD_eq_getElem?_getD, List.getElem?_set_ne (Ne.symm hq)]
        · simp only [Store.load, Store.update, List.getD_eq_getElem?_getD, List.getElem?_set_self hr,
            Option.getD_some, List.length_zipWith, List.length_zip, List.length_map]
          simp only [Store.load, List.getD_eq_getElem?_getD] at hl
          omega
        · have hi' : i < s.entropy.length := by omega
          have hi'' : i < s.p1.length := by omega
          have hi''' : i < (m.load r).length := hi
          have e : (m.update r (List.zipWith (fun (x : ℝ) (sp : Bool × ℝ) => if sp.1 then x + s.push sp.2 else x)
              (m.load r) ((s.entropy.map fun (h : ℝ) => decide (h < s.threshold)).zip s.p1))).load r =
              List.zipWith (fun (x : ℝ) (sp : Bool × ℝ) => if sp.1 then x + s.push sp.2 else x)
              (m.load r) ((s.entropy.map fun (h : ℝ) => decide (h < s.threshold)).zip s.p1) := by
            rw [Store.update, Store.load, List.getD_eq_getElem?_getD, List.getElem?_set_self hr]; rfl
          rw [e]
          simp only [List.getD_eq_getElem?_getD, List.getElem?_zipWith, List.zip, List.getElem?_map,
            List.getElem?_eq_getElem hi', List.getElem?_eq_getElem hi'', List.getElem?_eq_getElem hi''',
            Option.map_some, Option.getD_some, hc', hi', true_and, decide_eq_true_eq]
    · rename_i hc
      refine ⟨fun e h => (by cases h), fun m' r' h => ?_⟩
      cases h
      refine ⟨rfl, rfl, fun _ _ => rfl, rfl, fun i _ => ?_⟩
      rw [if_neg]
      rintro ⟨h1, _⟩
      exact hc ((confidence_pos s).2 h1)

/-- The log-likelihood ratios the denoiser starts from. -/
noncomputable def Emle.inputLlr (s : Emle) (obs : List ℝ) : List ℝ := if s.soft then obs else bscLlr s.f obs

/-- The hard bits the denoiser starts from. -/
noncomputable def Emle.inputBits (s : Emle) (obs : List ℝ) : List ℝ := if s.soft then isNeg obs else obs

theorem load_append_lt (m : Store) (a : List ℝ) {q : Nat} (h : q < m.length) : Store.load (m ++ [a]) q = m.load q := by
  simp only [Store.load, List.getD_eq_getElem?_getD, List.getElem?_append_left h]

theorem load_append_self (m : Store) (a : List ℝ) : Store.load (m ++ [a]) m.length = a := by
  simp [Store.load]

theorem update_keeps {s s' : Emle} {obs : List ℝ} (h : s.updateModel obs = .ok s') :
    s'.hard = s.hard ∧ s'.soft = s.soft ∧ s'.threshold = s.threshold ∧ s'.f = s.f ∧
      s'.p1.length = s'.entropy.length := by
  unfold Emle.updateModel at h
  cases hg : s.grow obs with
  | error e => rw [hg] at h; cases h
  | ok d =>
    rw [hg] at h
    cases h
    simp

/-- All that one call does, for the proofs below. -/
theorem denoise_core {s s' : Emle} {m m' : Store} {r out : Nat} {cost : ℝ} (hp : s.p1.length = s.entropy.length)
    (h : s.denoiseBuffer m r = .ok (s', m', out, cost)) :
    ∃ est : List ℝ, est.length = (m.load r).length ∧
      (∀ i, i < (m.load r).length → est.getD i 0 =
        if 1 < s.size ∧ i < s.entropy.length ∧ s.entropy.getD i 0 < s.threshold
        then (s.inputLlr (m.load r)).getD i 0 + s.push (s.p1.getD i 0) else (s.inputLlr (m.load r)).getD i 0) ∧
      s.updateModel (s.inputBits (m.load r)) = .ok s' ∧
      cost = (List.zipWith (fun (a b : ℝ) => |a - b|) (s.inputBits (m.load r)) (isNeg est)).sum ∧
      m.length ≤ out ∧ m.length ≤ m'.length ∧ (∀ q, q < m.length → m'.load q = m.load q) ∧
      m'.load out = if s.hard then isNeg est else est := by
  unfold Emle.denoiseBuffer at h
  simp only [Store.alloc] at h
  change (s.predict (m ++ [s.inputLlr (m.load r)]) m.length >>= _) = _ at h
  have hlen : (s.inputLlr (m.load r)).length = (m.load r).length := by
    unfold Emle.inputLlr bscLlr; split <;> simp
  obtain ⟨_, hok⟩ := c46_predict s (m ++ [s.inputLlr (m.load r)]) m.length (by simp) hp
  cases hpr : s.predict (m ++ [s.inputLlr (m.load r)]) m.length with
  | error e => rw [hpr] at h; cases h
  | ok mr =>
    obtain ⟨m1, r1⟩ := mr
    obtain ⟨hr1, hml, hother, hel, hval⟩ := hok m1 r1 hpr
    subst hr1
    rw [load_append_self] at hel hval
    rw [hpr] at h
    change (s.updateModel (if s.soft then isNeg (Store.load (m ++ [s.inputLlr (m.load r)]) m.length) else m.load r)
      >>= _) = _ at h
    have hib : (if s.soft then isNeg (Store.load (m ++ [s.inputLlr (m.load r)]) m.length) else m.load r) =
        s.inputBits (m.load r) := by
      rw [load_append_self, Emle.inputBits, Emle.inputLlr]
      split <;> simp_all
    rw [hib] at h
    cases hu : s.updateModel (s.inputBits (m.load r)) with
    | error e => rw [hu] at h; cases h
    | ok s1 =>
      rw [hu] at h
      have hk := update_keeps hu
      change (if s1.hard then _ else _) = _ at h
      refine ⟨m1.load m.length, by rw [hel, hlen], fun i hi => hval i (by omega), ?_⟩
      rw [hk.1] at h
      have hml' : m1.length = m.length + 1 := by simpa using hml
      have hcost : (List.zipWith (fun (a b : ℝ) => |a - b|) (if s.soft then
          isNeg (Store.load (m ++ [if s.soft then m.load r else bscLlr s.f (m.load r)]) m.length) else m.load r)
          (isNeg (m1.load m.length))).sum =
          (List.zipWith (fun (a b : ℝ) => |a - b|) (s.inputBits (m.load r)) (isNeg (m1.load m.length))).sum := by
        rw [← hib]; rfl
      split at h
      · rename_i hh
        cases h
        refine ⟨rfl, hcost, by show m.length ≤ m1.length; omega, by show m.length ≤ (m1 ++ [_]).length; rw [List.length_append]; omega, fun q hq => ?_, ?_⟩
        · rw [load_append_lt _ _ (by show q < m1.length; omega), hother q (by omega), load_append_lt _ _ hq]
        · rw [load_append_self, if_pos hh]
      · rename_i hh
        cases h
        refine ⟨rfl, hcost, le_refl _, by show m.length ≤ m1.length; omega, fun q hq => ?_, ?_⟩
        · rw [hother q (by omega), load_append_lt _ _ hq]
        · rw [if_neg hh]

/-- C46. denoise_buffer leaves every array that existed before the call as it was, in particular its argument, and
returns a fresh one. -/
theorem c46_no_mutation {s s' : Emle} {m m' : Store} {r out : Nat} {cost : ℝ} (hp : s.p1.length = s.entropy.length)
    (h : s.denoiseBuffer m r = .ok (s', m', out, cost)) :
    (∀ q, q < m.length → m'.load q = m.load q) ∧ m.length ≤ out := by
  obtain ⟨_, _, _, _, _, h1, _, h2, _⟩ := denoise_core hp h
  exact ⟨h2, h1⟩

/-- C46. Soft output: a position whose model entropy is not below the threshold keeps its value; a structural position
gets the confidence times the model's log odds added once there are two samples; before that nothing changes. -/
theorem c46_only_structural {s s' : Emle} {m m' : Store} {r out : Nat} {cost : ℝ}
    (hp : s.p1.length = s.entropy.length) (hh : s.hard = false)
    (h : s.denoiseBuffer m r = .ok (s', m', out, cost)) :
    (m'.load out).length = (m.load r).length ∧
    ∀ i, i < (m.load r).length → (m'.load out).getD i 0 =
      if 1 < s.size ∧ i < s.entropy.length ∧ s.entropy.getD i 0 < s.threshold
      then (s.inputLlr (m.load r)).getD i 0 + s.push (s.p1.getD i 0) else (s.inputLlr (m.load r)).getD i 0 := by
  obtain ⟨est, hl, hv, _, _, _, _, _, ho⟩ := denoise_core hp h
  rw [ho, hh]
  exact ⟨hl, hv⟩

theorem isNeg_getD {l : List ℝ} {i : Nat} (h : i < l.length) :
    (isNeg l).getD i 0 = if hardBit (l.getD i 0) then 1 else 0 := by
  classical
  simp only [isNeg, hardBit, List.getD_eq_getElem?_getD, List.getElem?_map, List.getElem?_eq_getElem h,
    Option.map_some, Option.getD_some, decide_eq_true_eq]

/-- C46. Hard output: the hard decisions on those values. -/
theorem c46_hard_output {s s' : Emle} {m m' : Store} {r out : Nat} {cost : ℝ}
    (hp : s.p1.length = s.entropy.length) (hh : s.hard = true)
    (h : s.denoiseBuffer m r = .ok (s', m', out, cost)) :
    (m'.load out).length = (m.load r).length ∧
    ∀ i, i < (m.load r).length → (m'.load out).getD i 0 =
      if hardBit (if 1 < s.size ∧ i < s.entropy.length ∧ s.entropy.getD i 0 < s.threshold
        then (s.inputLlr (m.load r)).getD i 0 + s.push (s.p1.getD i 0) else (s.inputLlr (m.load r)).getD i 0)
      then 1 else 0 := by
  obtain ⟨est, hl, hv, _, _, _, _, _, ho⟩ := denoise_core hp h
  rw [ho, hh]
  refine ⟨by simp [isNeg, hl], fun i hi => ?_⟩
  rw [if_pos rfl, isNeg_getD (by omega), hv i hi]

/-- C46. With fewer than two samples in the model the log-likelihood ratios come back unchanged; for soft input the
cost is then zero. -/
theorem c46_warm_up {s s' : Emle} {m m' : Store} {r out : Nat} {cost : ℝ}
    (hp : s.p1.length = s.entropy.length) (hz : s.size ≤ 1)
    (h : s.denoiseBuffer m r = .ok (s', m', out, cost)) :
    m'.load out = (if s.hard then isNeg (s.inputLlr (m.load r)) else s.inputLlr (m.load r)) ∧
    (s.soft = true → cost = 0) := by
  obtain ⟨est, hl, hv, _, hc, _, _, _, ho⟩ := denoise_core hp h
  have hlen : (s.inputLlr (m.load r)).length = (m.load r).length := by
    unfold Emle.inputLlr bscLlr; split <;> simp
  have he : est = s.inputLlr (m.load r) := by
    refine List.ext_getElem (by omega) fun i h1 h2 => ?_
    have := hv i (by omega)
    rw [if_neg (by omega)] at this
    simpa [List.getD_eq_getElem?_getD, List.getElem?_eq_getElem h1, List.getElem?_eq_getElem h2] using this
  subst he
  refine ⟨ho, fun hs => ?_⟩
  rw [hc]
  simp only [Emle.inputBits, Emle.inputLlr, hs, if_true]
  have : ∀ l : List ℝ, (List.zipWith (fun (a b : ℝ) => |a - b|) l l).sum = 0 := by
    intro l
    induction l with
    | nil => rfl
    | cons a l ih => simp
  exact this _

theorem cost_diff (a b : List Bool) (h : a.length = b.length) :
    (List.zipWith (fun (a b : ℝ) => |a - b|) (bitsR a) (bitsR b)).sum = (diffCount a b : ℝ) := by
  induction a generalizing b with
  | nil =>
    cases b with
    | nil => simp [bitsR, diffCount_nil]
    | cons y b => simp at h
  | cons x a ih =>
    cases b with
    | nil => simp at h
    | cons y b =>
      have := ih b (by simpa using h)
      simp only [bitsR, List.map_cons, List.zipWith_cons_cons, List.sum_cons, diffCount_cons] at this ⊢
      rw [this]
      cases x <;> cases y <;> simp

theorem isNeg_bits (l : List ℝ) : isNeg l = bitsR (l.map hardBit) := by
  classical
  simp only [isNeg, bitsR, List.map_map]
  refine List.map_congr_left fun x _ => ?_
  simp [hardBit]

/-- C46. The cost is the number of positions where the hard decision on the output differs from the hard input: the
sign of the input ratio for soft input, the input bit itself for hard input. -/
theorem c46_cost {s s' : Emle} {m m' : Store} {r out : Nat} {cost : ℝ} (hp : s.p1.length = s.entropy.length)
    (h : s.denoiseBuffer m r = .ok (s', m', out, cost)) (bits : List Bool)
    (hb : if s.soft then bits = (m.load r).map hardBit else m.load r = bitsR bits) :
    cost = diffCount bits (if s.hard then (m'.load out).map (fun x => decide (x = 1)) else (m'.load out).map hardBit) := by
  classical
  obtain ⟨est, hl, hv, _, hc, _, _, _, ho⟩ := denoise_core hp h
  have hin : s.inputBits (m.load r) = bitsR bits := by
    unfold Emle.inputBits
    split
    · rename_i hs
      rw [if_pos hs] at hb
      rw [isNeg_bits, hb]
    · rename_i hs
      rw [if_neg hs] at hb
      exact hb
  have hbl : bits.length = (est.map hardBit).length := by
    rw [List.length_map, hl]
    split at hb
    · rw [hb, List.length_map]
    · rw [hb, bitsR, List.length_map]
  rw [hc, hin, isNeg_bits, cost_diff _ _ hbl, ho]
  congr 2
  split
  · rw [isNeg_bits]
    simp only [bitsR, List.map_map]
    refine List.map_congr_left fun x _ => ?_
    cases hx : hardBit x <;> simp [hx]
  · rfl

/-- C46. A structural position moves towards the value the model saw more often: towards 0 (up) when ones have
probability below one half, towards 1 (down) when above. -/
theorem c46_direction (s : Emle) (p : ℝ) (h0 : 0 ≤ p) (h1 : p ≤ 1) (hs : 1 < s.size) :
    (0 < s.push p ↔ p < 1 / 2) ∧ (s.push p < 0 ↔ 1 / 2 < p) := by
  have hc := (confidence_pos s).2 hs
  have he : 0 < npEps := by unfold npEps; positivity
  have hd : 0 < p + npEps := by linarith
  have hn : 0 < 1 - p + npEps := by linarith
  constructor
  · rw [Emle.push, mul_pos_iff_of_pos_left hc, Real.log_pos_iff (by positivity), one_lt_div hd]
    constructor <;> intro h <;> linarith
  · rw [Emle.push, mul_neg_iff]
    constructor
    · rintro (⟨_, h⟩ | ⟨h, _⟩)
      · by_contra hle
        have : 0 ≤ Real.log ((1 - p + npEps) / (p + npEps)) := Real.log_nonneg (by rw [one_le_div hd]; linarith)
        linarith
      · linarith
    · intro h
      exact Or.inl ⟨hc, Real.log_neg (by positivity) (by rw [div_lt_one hd]; linarith)⟩

/-- C46. For a hard input bit and a channel better than guessing, the input ratio has that bit as its hard decision, so
costs count changes of input bits. -/
theorem c46_hard_input (f : ℝ) (h0 : 0 < f) (hf : f < 1 / 2) (b : List Bool) : (bscLlr f (bitsR b)).map hardBit = b := by
  have hl : 0 < Real.log ((1 - f) / f) := Real.log_pos (by rw [one_lt_div h0]; linarith)
  simp only [bscLlr, bitsR, List.map_map]
  conv_rhs => rw [← List.map_id b]
  refine List.map_congr_left fun x _ => ?_
  cases x with
  | false => simp [hardBit, not_lt.2 hl.le]
  | true => simp [hardBit, hl]

/-- C46. The state after a call is the state before it, updated with the hard input bits: the estimate is not fed
back. -/
theorem c46_learns_input {s s' : Emle} {m m' : Store} {r out : Nat} {cost : ℝ} (hp : s.p1.length = s.entropy.length)
    (h : s.denoiseBuffer m r = .ok (s', m', out, cost)) :
    s.updateModel (if s.soft then isNeg (m.load r) else m.load r) = .ok s' := by
  obtain ⟨_, _, _, hu, _⟩ := denoise_core hp h
  exact hu

/-- C46. Denoising a sequence is denoising its first part and then, from the state reached, its second part. -/
theorem c46_sequence (s : Emle) (m : Store) (xs ys : List Nat) :
    s.denoiseSequence m (xs ++ ys) = (do
      let (s1, m1, e1, c1) ← s.denoiseSequence m xs
      let (s2, m2, e2, c2) ← s1.denoiseSequence m1 ys
      .ok (s2, m2, e1 ++ e2, c1 ++ c2)) := by
  induction xs generalizing s m with
  | nil =>
    simp only [List.nil_append, Emle.denoiseSequence]
    show _ = (s.denoiseSequence m ys >>= fun x => Except.ok (x.1, x.2.1, x.2.2.1, x.2.2.2))
    cases s.denoiseSequence m ys <;> rfl
  | cons r rs ih =>
    simp only [List.cons_append, Emle.denoiseSequence]
    cases s.denoiseBuffer m r with
    | error e => rfl
    | ok v =>
      obtain ⟨s1, m1, out, cost⟩ := v
      show (s1.denoiseSequence m1 (rs ++ ys) >>= fun x => Except.ok (x.1, x.2.1, m1.load out :: x.2.2.1, cost :: x.2.2.2))
        = ((s1.denoiseSequence m1 rs >>= fun x => Except.ok (x.1, x.2.1, m1.load out :: x.2.2.1, cost :: x.2.2.2))
          >>= fun y => _)
      rw [ih]
      cases s1.denoiseSequence m1 rs with
      | error e => rfl
      | ok v =>
        obtain ⟨s2, m2, e2, c2⟩ := v
        show ((s2.denoiseSequence m2 ys >>= fun x => Except.ok (x.1, x.2.1, e2 ++ x.2.2.1, c2 ++ x.2.2.2)) >>= _) =
          (s2.denoiseSequence m2 ys >>= fun x => Except.ok (x.1, x.2.1, m1.load out :: e2 ++ x.2.2.1, cost :: c2 ++ x.2.2.2))
        cases s2.denoiseSequence m2 ys <;> rfl

theorem emleIs_lengths {s0 s : Emle} {w n : Nat} {h : List (List Bool)} (h0 : s0.p1 = [] ∧ s0.entropy = [])
    (hs0 : h = [] → s.p1 = s0.p1 ∧ s.entropy = s0.entropy) (hi : EmleIs s0 s w n h) :
    s.p1.length = s.entropy.length ∧ (h ≠ [] → s.entropy.length = n) := by
  obtain ⟨_, _, _, _, _, _, _, _, _, hp⟩ := hi
  by_cases he : h = []
  · obtain ⟨e1, e2⟩ := hs0 he
    rw [e1, e2, h0.1, h0.2]
    exact ⟨rfl, fun hh => absurd he hh⟩
  · obtain ⟨e1, e2⟩ := hp he
    rw [e2]
    exact ⟨by simp, fun _ => by simp [e1]⟩

theorem denoise_ok {s s' : Emle} {m : Store} {r : Nat} (hp : s.p1.length = s.entropy.length)
    (hl : 1 < s.size → s.entropy.length = (m.load r).length)
    (hu : s.updateModel (s.inputBits (m.load r)) = .ok s') :
    ∃ m' out cost, s.denoiseBuffer m r = .ok (s', m', out, cost) := by
  unfold Emle.denoiseBuffer
  simp only [Store.alloc]
  change ∃ m' out cost, (s.predict (m ++ [s.inputLlr (m.load r)]) m.length >>= _) = _
  obtain ⟨herr, _⟩ := c46_predict s (m ++ [s.inputLlr (m.load r)]) m.length (by simp) hp
  have hlen : (s.inputLlr (m.load r)).length = (m.load r).length := by
    unfold Emle.inputLlr bscLlr; split <;> simp
  cases hpr : s.predict (m ++ [s.inputLlr (m.load r)]) m.length with
  | error e =>
    obtain ⟨_, h1, h2⟩ := herr e hpr
    rw [load_append_self, hlen] at h2
    exact absurd (hl h1) h2
  | ok mr =>
    obtain ⟨m1, r1⟩ := mr
    have hib : (if s.soft then isNeg (Store.load (m ++ [s.inputLlr (m.load r)]) m.length) else m.load r) =
        s.inputBits (m.load r) := by
      rw [load_append_self, Emle.inputBits, Emle.inputLlr]
      split <;> simp_all
    change ∃ m' out cost, (s.updateModel (if s.soft then
      isNeg (Store.load (m ++ [s.inputLlr (m.load r)]) m.length) else m.load r) >>= _) = _
    rw [hib, hu]
    change ∃ m' out cost, (if s'.hard then _ else _) = _
    split
    · exact ⟨_, _, _, rfl⟩
    · exact ⟨_, _, _, rfl⟩

/-- C46, C45. Any sequence of soft buffers of one length is denoised without an exception by a new denoiser; all of the
caller's arrays stay as they were, and the model afterwards is the one C45 describes for the hard decisions on the
inputs. -/
theorem c46_run (f threshold center slope : ℝ) (hard : Bool) (w n : Nat) (hn : 0 < n) (m : Store) (refs : List Nat)
    (hr : ∀ r ∈ refs, r < m.length ∧ (m.load r).length = n) :
    ∃ s m' ests costs,
      (Emle.new f threshold w center slope hard true).denoiseSequence m refs = .ok (s, m', ests, costs) ∧
      (∀ q, q < m.length → m'.load q = m.load q) ∧
      ests.length = refs.length ∧ costs.length = refs.length ∧
      EmleIs (Emle.new f threshold w center slope hard true) s w n (refs.map fun r => (m.load r).map hardBit) := by
  generalize hs0 : Emle.new f threshold w center slope hard true = s0
  have h00 : s0.p1 = [] ∧ s0.entropy = [] ∧ s0.soft = true := by subst hs0; exact ⟨rfl, rfl, rfl⟩
  have hinit : EmleIs s0 s0 w n [] := by
    subst hs0
    refine ⟨rfl, rfl, rfl, rfl, rfl, rfl, rfl, ?_, ?_, fun hh => absurd rfl hh⟩
    · cases w <;> simp [Emle.new, windowed, lastN]
    · simp [Emle.new, keptCount]
  suffices key : ∀ (h : List (List Bool)) (s : Emle) (m1 : Store), (∀ o ∈ h, o.length = n) → EmleIs s0 s w n h →
      (h = [] → s.p1 = s0.p1 ∧ s.entropy = s0.entropy) → m.length ≤ m1.length →
      (∀ q, q < m.length → m1.load q = m.load q) →
      ∃ s' m' ests costs, s.denoiseSequence m1 refs = .ok (s', m', ests, costs) ∧
        (∀ q, q < m.length → m'.load q = m.load q) ∧ ests.length = refs.length ∧ costs.length = refs.length ∧
        EmleIs s0 s' w n (h ++ refs.map fun r => (m.load r).map hardBit) by
    simpa using key [] s0 m (by simp) hinit (fun _ => ⟨rfl, rfl⟩) (le_refl _) (fun _ _ => rfl)
  induction refs with
  | nil =>
    intro h s m1 _ hi _ _ hm
    exact ⟨s, m1, [], [], rfl, hm, rfl, rfl, by simpa using hi⟩
  | cons r rs ih =>
    intro h s m1 hl hi he hml hm
    obtain ⟨hrl, hrn⟩ := hr r (List.mem_cons_self ..)
    have hlen := emleIs_lengths ⟨h00.1, h00.2.1⟩ he hi
    have hload : m1.load r = m.load r := hm r hrl
    have hsoft : s.soft = true := by
      obtain ⟨_, _, _, _, _, _, h7, _⟩ := hi
      rw [h7, h00.2.2]
    have hin : s.inputBits (m1.load r) = bitsR ((m.load r).map hardBit) := by
      rw [Emle.inputBits, if_pos hsoft, hload, isNeg_bits]
    obtain ⟨s1, hu, hi1⟩ := emle_step hn hl (x := (m.load r).map hardBit) (by simp [hrn]) hi
    rw [← hin] at hu
    have hsz : 1 < s.size → s.entropy.length = (m1.load r).length := by
      intro hz
      rw [hload, hrn]
      refine hlen.2 fun h0 => ?_
      subst h0
      obtain ⟨_, _, _, _, _, _, _, _, hsize, _⟩ := hi
      simp [keptCount] at hsize
      omega
    obtain ⟨m2, out, cost, hd⟩ := denoise_ok hlen.1 hsz hu
    obtain ⟨hkeep, hout⟩ := c46_no_mutation hlen.1 hd
    have hml2 : m.length ≤ m2.length := by
      obtain ⟨_, _, _, _, _, _, hle, _⟩ := denoise_core hlen.1 hd
      omega
    obtain ⟨s', m', ests, costs, hseq, hq, hel, hcl, hfin⟩ := ih (fun r' h' => hr r' (List.mem_cons_of_mem _ h'))
      (h ++ [(m.load r).map hardBit]) s1 m2
      (by
        intro o ho
        rcases List.mem_append.1 ho with ho | ho
        · exact hl o ho
        · rw [List.mem_singleton.1 ho]; simp [hrn])
      hi1 (by simp) hml2
      (fun q hq => by rw [hkeep q (by omega), hm q hq])
    refine ⟨s', m', m2.load out :: ests, cost :: costs, ?_, hq, by simp [hel], by simp [hcl], by simpa using hfin⟩
    simp only [Emle.denoiseSequence]
    rw [hd]
    change (s1.denoiseSequence m2 rs >>= fun x => Except.ok (x.1, x.2.1, m2.load out :: x.2.2.1, cost :: x.2.2.2)) = _
    rw [hseq]
    rfl

example : ∃ s m' ests costs,
    (Emle.new 0.1 0.5 (2 : Nat) 40 0.35 true true).denoiseSequence [[1, -1], [2, -3], [1, 4]] [0, 1, 2, 0] =
      .ok (s, m', ests, costs) ∧ s.size = (2 : Nat) ∧ 1 < s.size := by
  obtain ⟨s, m', ests, costs, h, _, _, _, hi⟩ := c46_run 0.1 0.5 40 0.35 true 2 2 (by omega)
    [[1, -1], [2, -3], [1, 4]] [0, 1, 2, 0] (by simp [Store.load])
  refine ⟨s, m', ests, costs, h, ?_, ?_⟩
  · obtain ⟨_, _, _, _, _, _, _, _, hz, _⟩ := hi
    simpa [keptCount] using hz
  · obtain ⟨_, _, _, _, _, _, _, _, hz, _⟩ := hi
    rw [hz]; simp [keptCount]

end NR
