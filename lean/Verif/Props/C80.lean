import Verif.Spec.Rectify
import Verif.Props.C57
import Verif.Props.C68
import Verif.Props.C69
import Verif.Props.C72
/-
C80: what the MAVLink decoder hands to the LDPC decoder, bit by bit.
-/
namespace NR
open Spec Dialect

variable {σ Λ : Type}

/-! ### Parts of the prediction -/

theorem hardBits_length (l : List ℝ) : (hardBits l).length = l.length := by simp [hardBits]

theorem predict_bits {μ : Type} (O : StatOps Val μ) (bm : BufferModel μ) (l : List Bool) (n : Nat) (hl : l.length = 8 * n)
    (s : List (Nat × Nat)) : bm.predict O (.bits l) s = bm.predict O (.bytes (bitsToBytes l)) s ∧ (bitsToBytes l).length = n := by
  have hlen : (bitsToBytes l).length = n := by simp [bitsToBytes, hl]; omega
  refine ⟨?_, hlen⟩
  have : BufferModel.argLen (.bits l) = BufferModel.argLen (.bytes (bitsToBytes l)) := by
    simp only [BufferModel.argLen, hlen, hl]
    congr 1; omega
  unfold BufferModel.predict
  rw [this]
  rfl

theorem mem_validIdx {buf : List Byte} {seg : SegState} (h : segmentBuffer decode buf = .ok seg) (i : Nat) :
    i ∈ validIdx seg.validity ↔ i < 8 * buf.length ∧ InMessages seg.struct i := by
  obtain ⟨hl, hv⟩ := c18_validity decode buf seg h
  unfold validIdx
  rw [List.mem_filter, List.mem_range, hl]
  refine and_congr_right fun hi => ?_
  obtain ⟨h1, h2⟩ := hv i hi
  by_cases hc : ∃ r ∈ seg.struct, Covers r (i / 8)
  · rw [List.getD_eq_getElem?_getD, h1 hc]; simp [InMessages, hc]
  · rw [List.getD_eq_getElem?_getD, h2 hc]; simp [InMessages, hc]

theorem inMessages_lt {buf : List Byte} {seg : SegState} (h : segmentBuffer decode buf = .ok seg) {i : Nat}
    (hi : InMessages seg.struct i) : i < 8 * buf.length := by
  obtain ⟨r, hr, hc⟩ := hi
  obtain ⟨L, hh, _, hle, _⟩ := c16_fits buf seg h r.1 r.2 hr
  have : lenOf r.2 = L := by unfold lenOf; rw [hh.known]; rfl
  obtain ⟨a, b⟩ := hc
  rw [this] at b
  omega

theorem setValid_ok {buf : List Byte} {seg : SegState} (h : segmentBuffer decode buf = .ok seg) (a : List ℝ)
    (hl : 8 * buf.length ≤ a.length) (g : Nat → ℝ) :
    ∃ r, setValid a seg.validity g = .ok r ∧ r.length = a.length ∧
      ∀ i < a.length, (InMessages seg.struct i → r[i]? = some (g i)) ∧ (¬ InMessages seg.struct i → r[i]? = a[i]?) := by
  unfold setValid
  rw [if_pos (by
    rw [List.all_eq_true]
    intro i hi
    have := ((mem_validIdx h i).1 hi).1
    simpa using Nat.lt_of_lt_of_le this hl)]
  refine ⟨_, rfl, by simp, ?_⟩
  intro i hi
  rw [List.getElem?_mapIdx, List.getElem?_eq_getElem hi, Option.map_some]
  refine ⟨fun hm => ?_, fun hm => ?_⟩
  · rw [if_pos ((mem_validIdx h i).2 ⟨inMessages_lt h hm, hm⟩)]
  · rw [if_neg fun hc => hm ((mem_validIdx h i).1 hc).2]

theorem padValid_ok {buf : List Byte} {seg : SegState} (h : segmentBuffer decode buf = .ok seg) (n : Nat)
    (hl : 8 * buf.length ≤ n) : ∃ v, padValid seg.validity n = .ok v := by
  obtain ⟨hv, _⟩ := c18_validity decode buf seg h
  unfold padValid
  rw [if_neg (by omega)]
  exact ⟨_, rfl⟩

theorem resegment_ok (c : MavCfg) (hinfo : ∀ w, 8 * (c.infoBytes w).length ≤ w.length) (obs llr : List ℝ)
    (hl : llr.length = obs.length) (vf : ℝ) :
    ∃ out v, c.resegment obs llr vf = .ok (out, v) ∧ out.length = obs.length ∧ ∀ i < obs.length, out[i]? =
      some (handedBit (messagesIn (c.infoBytes (hardBits obs))) (messagesIn (c.infoBytes (hardBits llr))) vf
        (obs.getD i 0) (llr.getD i 0) i) := by
  obtain ⟨s1, h1, m1⟩ := messagesIn_ok (c.infoBytes (hardBits obs))
  obtain ⟨s2, h2, m2⟩ := messagesIn_ok (c.infoBytes (hardBits llr))
  have i1 := hinfo (hardBits obs)
  have i2 := hinfo (hardBits llr)
  rw [hardBits_length] at i1 i2
  have hget : ∀ i < obs.length, llr[i]? = some (llr.getD i 0) := by
    intro i hi
    rw [List.getD_eq_getElem?_getD, List.getElem?_eq_getElem (by omega)]; rfl
  unfold MavCfg.resegment
  simp only [h1, bind, Except.bind]
  rw [m1, m2]
  by_cases hs : s1.struct = []
  · simp only [hs, ne_eq, not_true_eq_false, if_false, h2]
    by_cases hs2 : s2.struct = []
    · obtain ⟨v, hv⟩ := padValid_ok h2 llr.length i2
      simp only [hs2, not_true_eq_false, if_false, hv]
      refine ⟨_, _, rfl, hl, ?_⟩
      intro i hi
      rw [hget i hi, handedBit, if_neg (by simp), if_neg (by simp [InMessages])]
    · obtain ⟨r, hr, hrl, hb⟩ := setValid_ok h2 llr i2 (fun i => llr.getD i 0 * 2)
      obtain ⟨v, hv⟩ := padValid_ok h2 r.length (by omega)
      simp only [hs2, not_false_eq_true, if_true, hr, hv]
      refine ⟨_, _, rfl, by omega, ?_⟩
      intro i hi
      obtain ⟨b1, b2⟩ := hb i (by omega)
      rw [handedBit, if_neg (by simp)]
      by_cases hm : InMessages s2.struct i
      · rw [if_pos hm, b1 hm]
      · rw [if_neg hm, b2 hm, hget i hi]
  · obtain ⟨r, hr, hrl, hb⟩ := setValid_ok h1 llr (by omega) (fun i => obs.getD i 0 * 2 * vf)
    obtain ⟨v, hv⟩ := padValid_ok h1 r.length (by omega)
    simp only [hs, ne_eq, not_false_eq_true, if_true, hr, hv]
    refine ⟨_, _, rfl, by omega, ?_⟩
    intro i hi
    obtain ⟨b1, b2⟩ := hb i (by omega)
    rw [handedBit, if_pos hs]
    by_cases hm : InMessages s1.struct i
    · rw [if_pos hm, b1 hm]
    · rw [if_neg hm, b2 hm, hget i hi]

theorem scaleMask_get (a : List ℝ) (mask : List Bool) (f : ℝ) (i : Nat) (hi : i < a.length) :
    (scaleMask a mask f).length = a.length ∧
    (scaleMask a mask f).getD i 0 = a.getD i 0 * if mask.getD i false then f else 1 := by
  unfold scaleMask
  refine ⟨by simp, ?_⟩
  rw [List.getD_eq_getElem?_getD, List.getElem?_mapIdx, List.getD_eq_getElem?_getD, List.getD_eq_getElem?_getD,
    List.getElem?_eq_getElem hi]
  simp only [Option.map_some, Option.getD_some]
  split <;> simp

/-- What is forced where. -/
theorem forceBits_get (forced : List Nat) (hn : forced.Nodup) (bits : List Bool) (hl : bits.length = forced.length) (v : ℝ)
    (a : List ℝ) (hlt : ∀ i ∈ forced, i < a.length) :
    (forceBits a forced bits v).length = a.length ∧
    (∀ i, i ∉ forced → (forceBits a forced bits v).getD i 0 = a.getD i 0) ∧
    ∀ (k i : Nat) (b : Bool), forced[k]? = some i → bits[k]? = some b →
      (forceBits a forced bits v).getD i 0 = (if b then -1 else 1) * v := by
  induction forced generalizing bits a with
  | nil => refine ⟨rfl, fun _ _ => rfl, fun k i b h => by simp at h⟩
  | cons j forced ih =>
    cases bits with
    | nil => simp at hl
    | cons b bits =>
      rw [List.nodup_cons] at hn
      have hj := hlt j (by simp)
      have hstep : forceBits a (j :: forced) (b :: bits) v = forceBits (a.set j (if b then -v else v)) forced bits v := rfl
      rw [hstep]
      obtain ⟨i1, i2, i3⟩ := ih hn.2 bits (by simpa using hl) (a.set j (if b then -v else v))
        (fun i hi => by simpa using hlt i (by simp [hi]))
      refine ⟨by rw [i1]; simp, ?_, ?_⟩
      · intro i hi
        simp only [List.mem_cons, not_or] at hi
        rw [i2 i hi.2, List.getD_eq_getElem?_getD, List.getElem?_set_ne (fun h => hi.1 h.symm), ← List.getD_eq_getElem?_getD]
      · intro k i b' hk hb
        cases k with
        | zero =>
          simp only [List.getElem?_cons_zero, Option.some.injEq] at hk hb
          subst hk hb
          rw [i2 _ hn.1, List.getD_eq_getElem?_getD, List.getElem?_set_self hj]
          cases b <;> simp
        | succ k =>
          rw [List.getElem?_cons_succ] at hk hb
          exact i3 k i b' hk hb

/-- What the prediction says about each bit. -/
structure PredSays (p : BufferModel.Prediction ℝ) (n : Nat) (info : Nat → Option BitSays) : Prop where
  lenProb : p.bitProb.length = n
  lenStd : p.bitStd.length = n
  prob : ∀ i < n, p.bitProb[i]? = some ((info i).map BitSays.score)
  std : ∀ i < n, p.bitStd[i]? = some ((info i).map BitSays.std)
  fields : p.fields.any Option.isNone = false

theorem PredSays.above {p : BufferModel.Prediction ℝ} {n : Nat} {info : Nat → Option BitSays} (h : PredSays p n info) (t : ℝ)
    (i : Nat) (hi : i < n) : (above t p.bitProb).getD i false = true ↔ ∃ b, info i = some b ∧ t < b.score := by
  unfold NR.above
  rw [List.getD_eq_getElem?_getD, List.getElem?_map, h.prob i hi]
  cases info i with
  | none => simp
  | some b => simp

theorem PredSays.below {p : BufferModel.Prediction ℝ} {n : Nat} {info : Nat → Option BitSays} (h : PredSays p n info) (t : ℝ)
    (i : Nat) (hi : i < n) : (below t p.bitProb).getD i false = true ↔ ∃ b, info i = some b ∧ b.score < t := by
  unfold NR.below
  rw [List.getD_eq_getElem?_getD, List.getElem?_map, h.prob i hi]
  cases info i with
  | none => simp
  | some b => simp

theorem PredSays.forced {p : BufferModel.Prediction ℝ} {n : Nat} {info : Nat → Option BitSays} (h : PredSays p n info)
    (i : Nat) : i ∈ forcedBits p.bitProb p.bitStd ↔ i < n ∧ ∃ b, info i = some b ∧ b.Wrong := by
  unfold forcedBits
  rw [List.mem_filter, List.mem_range, h.lenProb]
  refine and_congr_right fun hi => ?_
  rw [List.getD_eq_getElem?_getD, List.getD_eq_getElem?_getD, h.prob i hi, h.std i hi]
  cases info i with
  | none => simp
  | some b => simp [BitSays.Wrong]

theorem fieldsWhere_ok (cond : ℝ → Prop) (fields : List (Option (String × ℝ × ℝ))) (h : fields.any Option.isNone = false) :
    ∃ r, fieldsWhere cond fields = .ok r := by
  unfold fieldsWhere
  rw [h]
  exact ⟨_, rfl⟩

/-- A model whose fields hold the windows of the histories `hist`, all seen. -/
structure Knows (O : StatOps Val ℝ) (w : Option Nat) (fitv : List Val → ℝ × ℝ) (hist : String → List Val)
    (mb : Place → List Bool) (st : List (Nat × Nat)) (len : Nat) (m : BufferModel ℝ) : Prop where
  fit : ∀ q ∈ fieldPlaces st, O.fit (windowed w (hist q.name)) = .ok (fitv (windowed w (hist q.name)))
  inv : BufInv O w hist m.models
  range : InRange len st
  apart : NonOverlapping st
  mean : ∀ p ∈ fieldPlaces st, meanBits O w (hist p.name) p.type = .ok (mb p) ∧ (mb p).length = 8 * width p.type

theorem bitSays_of {O : StatOps Val ℝ} {w : Option Nat} {fitv : List Val → ℝ × ℝ} {hist : String → List Val}
    {mb : Place → List Bool} {st : List (Nat × Nat)} (buf : List Byte) (i : Nat) :
    (∃ q ∈ fieldPlaces st, q.Has (i / 8) ∧ bitSays O w fitv hist mb st buf i =
      some ⟨(FieldModel.classify O (fitv (windowed w (hist q.name))).1 (fitv (windowed w (hist q.name))).2
          (unpackScalar q.type (q.bytes buf))).1,
        (FieldModel.classify O (fitv (windowed w (hist q.name))).1 (fitv (windowed w (hist q.name))).2
          (unpackScalar q.type (q.bytes buf))).2, (mb q).getD (i - 8 * q.start) false⟩) ∨
    ((∀ q ∈ fieldPlaces st, ¬ q.Has (i / 8)) ∧ bitSays O w fitv hist mb st buf i = none) := by
  unfold bitSays
  cases hf : (fieldPlaces st).find? fun q => decide (q.Has (i / 8)) with
  | none =>
    right
    refine ⟨fun q hq => ?_, rfl⟩
    simpa using List.find?_eq_none.1 hf q hq
  | some q =>
    left
    exact ⟨q, List.mem_of_find?_eq_some hf, by simpa using List.find?_some hf, rfl⟩

theorem hist_ne {O : StatOps Val ℝ} {w : Option Nat} {h : List Val} {t : CType} {b : List Bool}
    (hm : meanBits O w h t = .ok b) : h ≠ [] := by
  intro h0
  rw [meanBits, if_pos h0] at hm
  cases hm

theorem Knows.predict {O : StatOps Val ℝ} {w : Option Nat} {fitv : List Val → ℝ × ℝ} {hist : String → List Val}
    {mb : Place → List Bool} {st : List (Nat × Nat)} {len : Nat} {m : BufferModel ℝ} (h : Knows O w fitv hist mb st len m)
    (l : List Bool) (hl : l.length = 8 * len) :
    ∃ p m', m.predict O (.bits l) st = (m', .ok p) ∧ Knows O w fitv hist mb st len m' ∧ m'.modelSize = m.modelSize ∧
      PredSays p (8 * len) (bitSays O w fitv hist mb st (bitsToBytes l)) := by
  obtain ⟨e, hlen⟩ := predict_bits O m l len hl st
  obtain ⟨p, hp, hf, h1, h2, h3, h4⟩ := predict_of_inv O fitv w m hist h.inv (bitsToBytes l) st
    (by rw [hlen]; exact h.range) h.apart fun q hq _ => h.fit q hq
  rw [hlen] at h1 h2 h3 h4
  have hc := bufPredict_pres O _ (fun bm name fm r hlk hb => ⟨cache_same O m bm name fm r hlk hb.1,
    cache_bufInv O w hist bm name fm r hlk hb.2⟩ : CachePreserved O (fun bm => SameContent bm m ∧ BufInv O w hist bm.models))
    m (.bits l) st ⟨.rfl' _, h.inv⟩
  rw [e] at hc ⊢
  have hsc : ∀ q ∈ fieldPlaces st, scoreOf O w fitv (hist q.name) (unpackScalar q.type (q.bytes (bitsToBytes l))) =
      some (FieldModel.classify O (fitv (windowed w (hist q.name))).1 (fitv (windowed w (hist q.name))).2
        (unpackScalar q.type (q.bytes (bitsToBytes l)))) := by
    intro q hq
    rw [scoreOf, if_neg (hist_ne (h.mean q hq).1)]
  refine ⟨p, (m.predict O (.bytes (bitsToBytes l)) st).1, ?_, ⟨h.fit, hc.2, h.range, h.apart, h.mean⟩, hc.1.size, ?_⟩
  · rw [← hp]
  · refine ⟨h1, h2, ?_, ?_, ?_⟩
    · intro i hi
      rcases bitSays_of (O := O) (w := w) (fitv := fitv) (hist := hist) (mb := mb) (st := st) (bitsToBytes l) i with
        ⟨q, hq, hh, hb⟩ | ⟨hno, hb⟩
      · rw [hb, (h3 i hi q hq hh).1, hsc q hq]; rfl
      · rw [hb, (h4 i hi hno).1]; rfl
    · intro i hi
      rcases bitSays_of (O := O) (w := w) (fitv := fitv) (hist := hist) (mb := mb) (st := st) (bitsToBytes l) i with
        ⟨q, hq, hh, hb⟩ | ⟨hno, hb⟩
      · rw [hb, (h3 i hi q hq hh).2, hsc q hq]; rfl
      · rw [hb, (h4 i hi hno).2]; rfl
    · rw [hf, List.any_eq_false]
      intro x hx
      obtain ⟨q, hq, rfl⟩ := List.mem_map.1 hx
      rw [hsc q hq]
      simp

theorem Knows.force {c : MavCfg} {w : Option Nat} {fitv : List Val → ℝ × ℝ} {hist : String → List Val}
    {mb : Place → List Bool} {st : List (Nat × Nat)} {len : Nat} {m : BufferModel ℝ}
    (h : Knows c.stats w fitv hist mb st len m) (obs llr : List ℝ) (hl : obs.length = 8 * len) (hll : llr.length = obs.length)
    (buf : List Byte) (forced : List Nat) (hnd : forced.Nodup)
    (hforced : ∀ i ∈ forced, i < 8 * len ∧ ∃ b, bitSays c.stats w fitv hist mb st buf i = some b) (vf : ℝ) (peak : ℝ)
    (hpeak : maxAbs obs = .ok peak ∨ obs = []) :
    ∃ m' out, c.force m obs llr st forced vf = (m', .ok out) ∧ out.length = obs.length ∧
      (∀ i, i ∉ forced → out.getD i 0 = llr.getD i 0) ∧
      ∀ i ∈ forced, ∀ b, bitSays c.stats w fitv hist mb st buf i = some b →
        out.getD i 0 = (if b.mean then -1 else 1) * (peak * max vf 1) := by
  unfold MavCfg.force
  by_cases h0 : forced = []
  · rw [if_pos h0]
    exact ⟨m, llr, rfl, hll, fun _ _ => rfl, fun i hi => by rw [h0] at hi; simp at hi⟩
  · rw [if_neg h0]
    obtain ⟨r, hr, hrl, hb⟩ := mean_of_inv c.stats w m hist h.inv len st h.range h.apart mb h.mean forced
      (fun i hi => (hforced i hi).1)
    have hlen : obs.length / 8 = len := by omega
    rw [hlen]
    rcases hm : m.bitwiseModelMean c.stats forced len st with ⟨m', x⟩
    rw [hm] at hr
    simp only at hr
    subst hr
    have hne : obs ≠ [] := by
      intro hobs
      obtain ⟨i, hi⟩ := List.exists_mem_of_ne_nil _ h0
      have := (hforced i hi).1
      rw [hobs] at hl
      simp at hl
      omega
    have hpk : pyMax (obs.map fun (x : ℝ) => |x|) = .ok peak := by
      rcases hpeak with h | h
      · exact h
      · exact absurd h hne
    simp only [hpk]
    obtain ⟨f1, f2, f3⟩ := forceBits_get forced hnd r hrl (peak * max vf 1) llr
      (fun i hi => by have := (hforced i hi).1; omega)
    refine ⟨m', _, rfl, by omega, f2, ?_⟩
    intro i hi b hbs
    obtain ⟨k, hk⟩ := List.mem_iff_getElem?.1 hi
    obtain ⟨g1, g2⟩ := hb k i hk
    have hk' := (List.getElem?_eq_some_iff.1 hk).1
    have hbit : r[k]? = some b.mean := by
      rcases bitSays_of (O := c.stats) (w := w) (fitv := fitv) (hist := hist) (mb := mb) (st := st) buf i with
        ⟨q, hq, hh, he⟩ | ⟨_, he⟩
      · rw [hbs] at he
        injection he with he
        rw [he, g1 q hq hh]
        have hw := (h.mean q hq).2
        have : i - 8 * q.start < (mb q).length := by
          obtain ⟨a1, a2⟩ := hh
          omega
        rw [List.getElem?_eq_getElem this, List.getD_eq_getElem?_getD, List.getElem?_eq_getElem this]
        rfl
      · rw [hbs] at he; cases he
    exact f3 k i b.mean hk hbit

/-! ### C80 -/

/-- C80, for any state of the decoder. -/
theorem predict_rectified (c : MavCfg) (hinfo : ∀ w, 8 * (c.infoBytes w).length ≤ w.length) (s : Mav σ Λ) (label : Nat)
    (st : List (Nat × Nat)) (hst : s.structures[label]? = some (some st)) {w : Option Nat} {fitv : List Val → ℝ × ℝ}
    {hist : String → List Val} {mb : Place → List Bool} {len : Nat} (h : Knows c.stats w fitv hist mb st len s.model)
    (obs : List ℝ) (hl : obs.length = 8 * len) (hlen : 0 < len) :
    ∃ out peak, (s.predict c obs label).2 = .ok out ∧ IsPeak obs peak ∧
      out.llr = handedWord c s.model.modelSize (bitSays c.stats w fitv hist mb st (bitsToBytes (hardBits obs))) peak obs := by
  have hlt := (List.getElem?_eq_some_iff.1 hst).1
  have hp : pyPos s.structures.length (label : Int) = some label := by
    unfold pyPos
    rw [if_pos (by omega), if_pos (by omega)]
    simp
  obtain ⟨p, m', hpr, hk, hsz, hs⟩ := h.predict (hardBits obs) (by rw [hardBits_length]; exact hl)
  obtain ⟨good, hgood⟩ := fieldsWhere_ok (fun x => 1 - c.validThr < x) p.fields hs.fields
  obtain ⟨bad, hbad⟩ := fieldsWhere_ok (fun x => x < c.invalidThr) p.fields hs.fields
  obtain ⟨peak, hm, hpk⟩ := maxAbs_peak (w := obs) (by intro h0; rw [h0] at hl; simp at hl; omega)
  have hw : ∀ f, c.factor m'.modelSize f = weighted c.learning s.model.modelSize c.center c.slope f := by
    intro f
    rw [hsz]
    rfl
  generalize hinf : bitSays c.stats w fitv hist mb st (bitsToBytes (hardBits obs)) = info at *
  generalize hvf : weighted c.learning s.model.modelSize c.center c.slope c.validFactor = vf at *
  generalize hivf : weighted c.learning s.model.modelSize c.center c.slope c.invalidFactor = ivf at *
  generalize hll : scaleMask (scaleMask obs (above (1 - c.validThr) p.bitProb) vf) (below c.invalidThr p.bitProb) ivf = llr
  have hlll : llr.length = obs.length := by rw [← hll]; simp [scaleMask]
  obtain ⟨m'', out, hfo, hol, ho1, ho2⟩ := hk.force obs llr hl hlll (bitsToBytes (hardBits obs)) (forcedBits p.bitProb p.bitStd)
    (List.Nodup.filter _ List.nodup_range) (by
      intro i hi
      obtain ⟨h1, b, h2, _⟩ := (hs.forced i).1 hi
      exact ⟨h1, b, by rw [hinf]; exact h2⟩) vf peak (Or.inl hm)
  rw [hinf] at ho2
  have hbit : ∀ i < obs.length, out.getD i 0 = rectifiedBit c.validThr c.invalidThr vf ivf peak (obs.getD i 0) (info i) := by
    intro i hi
    by_cases hf : i ∈ forcedBits p.bitProb p.bitStd
    · obtain ⟨_, b, hb, hwr⟩ := (hs.forced i).1 hf
      rw [ho2 i hf b hb, hb]
      simp only [rectifiedBit]
      rw [if_pos hwr]
    · rw [ho1 i hf, ← hll]
      obtain ⟨a1, a2⟩ := scaleMask_get obs (above (1 - c.validThr) p.bitProb) vf i hi
      obtain ⟨_, b2⟩ := scaleMask_get (scaleMask obs (above (1 - c.validThr) p.bitProb) vf) (below c.invalidThr p.bitProb) ivf i
        (by rw [a1]; exact hi)
      rw [b2, a2]
      have hab := hs.above (1 - c.validThr) i (by omega)
      have hbe := hs.below c.invalidThr i (by omega)
      have hfo := hs.forced i
      cases hi' : info i with
      | none =>
        have n1 : ¬ (above (1 - c.validThr) p.bitProb).getD i false = true := fun hc => by
          obtain ⟨b, hb, _⟩ := hab.1 hc
          rw [hi'] at hb; cases hb
        have n2 : ¬ (below c.invalidThr p.bitProb).getD i false = true := fun hc => by
          obtain ⟨b, hb, _⟩ := hbe.1 hc
          rw [hi'] at hb; cases hb
        rw [if_neg n1, if_neg n2]
        simp [rectifiedBit]
      | some b =>
        have hwr : ¬ b.Wrong := fun hwr => hf (hfo.2 ⟨by omega, b, hi', hwr⟩)
        rw [hi'] at hab hbe
        simp only [Option.some.injEq, exists_eq_left'] at hab hbe
        simp only [rectifiedBit]
        rw [if_neg hwr]
        congr 1
        · congr 1
          exact if_congr hab rfl rfl
        · exact if_congr hbe rfl rfl
  have hrect : (List.range obs.length).map (fun i => rectifiedBit c.validThr c.invalidThr vf ivf peak (obs.getD i 0) (info i)) = out := by
    apply List.ext_getElem
    · simp [hol]
    · intro i h1 h2
      have := hbit i (by rw [hol] at h2; exact h2)
      rw [List.getD_eq_getElem?_getD, List.getElem?_eq_getElem h2, Option.getD_some] at this
      rw [this]
      simp
  obtain ⟨fin, v, hre, hfl, hfb⟩ := resegment_ok c hinfo obs out hol vf
  refine ⟨⟨fin, good, bad, p.fields.length, some (forcedBits p.bitProb p.bitStd), v⟩, peak, ?_, hpk, ?_⟩
  · unfold Mav.predict
    rw [hp]
    simp only [List.getD_eq_getElem?_getD, hst, Option.getD_some, hpr, hgood, hbad, hw, hvf, hivf, hll, hfo, hre]
  · unfold handedWord
    simp only [hvf, hivf, hrect]
    apply List.ext_getElem?
    intro i
    by_cases hi : i < obs.length
    · rw [hfb i hi, hbit i hi]
      simp [hi]
    · rw [List.getElem?_eq_none (by rw [hfl]; omega), List.getElem?_eq_none (by simp; omega)]

/-- The messages found in a word do not overlap. -/
theorem messagesIn_apart (b : List Byte) : NonOverlapping (messagesIn b) := by
  obtain ⟨seg, hseg, he⟩ := messagesIn_ok b
  rw [he]
  refine List.Pairwise.imp ?_ (c17_ordered_disjoint decode b seg hseg)
  rintro x y ⟨_, hd⟩ k ⟨⟨h1, h2⟩, ⟨h3, h4⟩⟩
  have hlen : ∀ id : Nat, (payloadLen id).getD 0 = lenOf id := fun _ => rfl
  rw [hlen] at h2 h4
  exact hd k ⟨⟨h1, by omega⟩, ⟨h3, by omega⟩⟩

open Classical in
/-- C80, a learning decoder. After any calls, let `st` be the structure of a cluster and `hist` the values seen so far in the
words learned. The word handed over for a received word of the cluster is the one specified, bit by bit. -/
theorem c80_learned {c : MavCfg} (hl : c.learning = true) (cls : Labeler σ) (ldpc : Ldpc Λ) (w : Option Nat) (cs : σ)
    (l : Λ) (words : List (List ℝ)) (s : Mav σ Λ) (evs : List MavEvent) (L : List (BufArg × List (Nat × Nat)))
    (hs : s = (Mav.run c cls ldpc (Mav.new c.nClusters (BufferModel.new w) cs l) words).1)
    (hev : evs = (Mav.run c cls ldpc (Mav.new c.nClusters (BufferModel.new w) cs l) words).2.flatMap MavStep.events)
    (hL : L = (learnedWords c.infoBytes [] evs).filter (fun a => Addable a))
    (hinfo : ∀ w, 8 * (c.infoBytes w).length ≤ w.length)
    (label : Nat) (hlab : label < c.nClusters) (st : List (Nat × Nat)) (hst : structureAfter c.infoBytes evs label = some st)
    (obs : List ℝ) (len : Nat) (hlen : 0 < len) (hobs : obs.length = 8 * len) (hr : InRange len st)
    (hist : String → List Val) (hhist : hist = fun name => L.flatMap (takes name)) (fitv : List Val → ℝ × ℝ) (mb : Place → List Bool)
    (hfit : ∀ p ∈ fieldPlaces st, c.stats.fit (windowed w (hist p.name)) = .ok (fitv (windowed w (hist p.name))))
    (hmb : ∀ p ∈ fieldPlaces st, meanBits c.stats w (hist p.name) p.type = .ok (mb p) ∧ (mb p).length = 8 * width p.type) :
    ∃ out peak, (s.predict c obs label).2 = .ok out ∧ IsPeak obs peak ∧
      out.llr = handedWord c (sizeAfter w L.length)
        (bitSays c.stats w fitv hist mb st (bitsToBytes (hardBits obs))) peak obs := by
  have h := mavInv_run hl cls ldpc c.nClusters w words _ [] (mavInv_new c c.nClusters w cs l)
  rw [List.nil_append, ← hs, ← hev] at h
  have hsz := h.size
  have hf := h.fields
  rw [← hL] at hsz hf
  rw [← hsz]
  refine predict_rectified c hinfo s label st ?_ (len := len) ⟨hfit, hhist ▸ hf, hr, ?_, hmb⟩ obs hobs hlen
  · rw [h.structures, List.getElem?_map, List.getElem?_range hlab, Option.map_some, hst]
  · unfold structureAfter at hst
    cases hfi : evs.find? fun e => e.pos == label && e.out.success with
    | none => rw [hfi] at hst; cases hst
    | some e =>
      rw [hfi] at hst
      injection hst with hst
      rw [← hst]
      exact messagesIn_apart _

/-- C80, a decoder with a predefined model, made from the buffers `as`: after any calls the word handed over is the one
specified for the values seen in those buffers. -/
theorem c80_predefined {c : MavCfg} (hl : c.learning = false) (cls : Labeler σ) (ldpc : Ldpc Λ) (w : Option Nat)
    (as : List (BufArg × List (Nat × Nat))) (s0 : Mav σ Λ) (hm : s0.model = addAll c.stats (BufferModel.new w) as)
    (words : List (List ℝ)) (s : Mav σ Λ) (hs : s = (Mav.run c cls ldpc s0 words).1)
    (hinfo : ∀ w, 8 * (c.infoBytes w).length ≤ w.length)
    (label : Nat) (st : List (Nat × Nat)) (hst : s0.structures[label]? = some (some st)) (hap : NonOverlapping st)
    (obs : List ℝ) (len : Nat) (hlen : 0 < len) (hobs : obs.length = 8 * len) (hr : InRange len st)
    (has : ∀ a ∈ as, Addable a)
    (hist : String → List Val) (hhist : hist = fun name => as.flatMap (takes name)) (fitv : List Val → ℝ × ℝ) (mb : Place → List Bool)
    (hfit : ∀ p ∈ fieldPlaces st, c.stats.fit (windowed w (hist p.name)) = .ok (fitv (windowed w (hist p.name))))
    (hmb : ∀ p ∈ fieldPlaces st, meanBits c.stats w (hist p.name) p.type = .ok (mb p) ∧ (mb p).length = 8 * width p.type) :
    ∃ out peak, (s.predict c obs label).2 = .ok out ∧ IsPeak obs peak ∧
      out.llr = handedWord c (sizeAfter w as.length)
        (bitSays c.stats w fitv hist mb st (bitsToBytes (hardBits obs))) peak obs := by
  classical
  obtain ⟨_, h2, h3⟩ := addAll_inv c.stats w as
  have hfa : as.filter (fun a => decide (Addable a)) = as := List.filter_eq_self.2 fun a ha => by simpa using has a ha
  rw [hfa] at h2 h3
  have key : s.structures = s0.structures ∧ s.model.modelSize = s0.model.modelSize ∧ BufInv c.stats w hist s.model.models := by
    rw [hs]
    refine decode_inv c cls ldpc (fun s' _ => s'.structures = s0.structures ∧ s'.model.modelSize = s0.model.modelSize ∧
      BufInv c.stats w hist s'.model.models) (fun _ _ _ _ h => h) ?_ ?_ words s0 [] ⟨rfl, rfl, by rw [hm, hhist]; exact h3⟩
    · intro s' ev obs label h
      obtain ⟨model, h1, h2⟩ := mavPredict_pres c s' obs label
        (fun bm => SameContent bm s'.model ∧ BufInv c.stats w hist bm.models)
        (fun bm name fm r hlk hb => ⟨cache_same c.stats s'.model bm name fm r hlk hb.1,
          cache_bufInv c.stats w hist bm name fm r hlk hb.2⟩) ⟨.rfl' _, h.2.2⟩
      rw [h1]
      exact ⟨h.1, h2.1.size.trans h.2.1, h2.2⟩
    · intro s' ev inp label rx h
      unfold Mav.decodeUpdate
      rcases ldpc s'.ldpc (.llr inp) with ⟨l', o⟩
      simp only
      split
      · exact h
      · rw [learn_frozen c hl]; exact h
  obtain ⟨k1, k2, k3⟩ := key
  rw [hm, h2] at k2
  rw [← k2]
  exact predict_rectified c hinfo s label st (by rw [k1]; exact hst) (len := len) ⟨hfit, k3, hr, hap, hmb⟩ obs hobs hlen

/-- The prediction depends on the structures and the model alone. -/
theorem predict_congr (c : MavCfg) (s : Mav σ Λ) (cs : σ) (run : Int) (obs : List ℝ) (label : Int) :
    (({ s with cls := cs, running := run } : Mav σ Λ).predict c obs label).2 = (s.predict c obs label).2 := by
  unfold Mav.predict
  simp only
  split
  · rfl
  · split
    · rfl
    · split
      · rfl
      · split
        · split
          · rfl
          · split <;> rfl
        · rfl

/-- C80: what a call hands to the LDPC decoder first. If the call returns with a cluster, the first word handed over is the
prediction for the received word with the structures and the model as they were before the call. -/
theorem c80_handed (c : MavCfg) (cls : Labeler σ) (ldpc : Ldpc Λ) (s : Mav σ Λ) (ch : List ℝ) (out : MavOut)
    (h : (s.decode c cls ldpc ch).result = .ok out) (hl : 0 ≤ out.label) :
    ∃ e evs p, (s.decode c cls ldpc ch).events = e :: evs ∧ e.pos < s.structures.length ∧
      (s.predict c ch e.pos).2 = .ok p ∧ e.handed = p.llr := by
  unfold Mav.decode at h ⊢
  cases hit : c.segIterations with
  | zero => rw [hit] at h; simp [Mav.loop] at h
  | succ left =>
    rw [hit] at h
    have hmono : ∀ (left : Nat) (s : Mav σ Λ) (ev : List MavEvent) (inp : List ℝ) (total : Nat) (last : Option MavOut),
        ∃ more, (Mav.loop c cls ldpc ch left s ev inp total last).events = ev ++ more := by
      intro left s ev inp total last
      exact loop_inv c cls ldpc ch (fun _ e => ∃ more, e = ev ++ more) (fun _ _ _ _ h => h) (fun _ _ _ _ h => h)
        (fun _ _ _ _ ⟨m, hm⟩ => by subst hm; exact ⟨_, List.append_assoc _ _ _⟩) left s ev inp total last ⟨[], by simp⟩
    rw [Mav.loop] at h ⊢
    split at h
    · cases h
    · rename_i bits hb
      rcases hpk : pickLabel cls c.nClusters c.cluster s.cls s.running bits with ⟨cs, run, lab⟩
      rw [hpk] at h
      simp only at h ⊢
      cases lab with
      | error e => cases h
      | ok label =>
        simp only at h ⊢
        by_cases hneg : label < 0
        · rw [if_pos hneg] at h
          rcases hdu : ({ s with cls := cs, running := run } : Mav σ Λ).decodeUpdate c ldpc ch label (hardBits ch)
            with ⟨s', o, r⟩
          rw [hdu] at h
          simp only at h
          cases r with
          | error e => cases h
          | ok u =>
            injection h with h
            rw [← h] at hl
            simp only at hl
            omega
        · rw [if_neg hneg] at h ⊢
          have hcon := predict_congr c s cs run ch label
          rcases hp : ({ s with cls := cs, running := run } : Mav σ Λ).predict c ch label with ⟨s2, r⟩
          rw [hp] at h hcon
          cases r with
          | error e => cases h
          | ok p =>
            simp only at h hcon ⊢
            obtain ⟨model, h1, -⟩ := mavPredict_pres c ({ s with cls := cs, running := run } : Mav σ Λ) ch label
              (fun _ => True) (fun _ _ _ _ _ _ => trivial) trivial
            rw [hp] at h1
            simp only at h1
            have hst2 : s2.structures = s.structures := by rw [h1]
            have hpos : ∃ j, pyPos s.structures.length label = some j ∧ (j : Int) = label := by
              cases hpp : pyPos s.structures.length label with
              | none =>
                unfold Mav.predict at hcon
                rw [hpp] at hcon
                cases hcon
              | some j =>
                refine ⟨j, rfl, ?_⟩
                unfold pyPos at hpp
                rw [if_pos (by omega)] at hpp
                split at hpp
                · cases hpp; omega
                · cases hpp
            obtain ⟨j, hj, hjl⟩ := hpos
            rcases hdu : s2.decodeUpdate c ldpc p.llr label (hardBits ch) with ⟨s', o, r⟩
            rw [hst2, eventOf_some hj] 
            rw [hjl.symm] at hcon
            refine ⟨⟨j, p.llr, o, hardBits ch⟩, ?_⟩
            have hfin : ∀ x : MavStep σ Λ, (∃ more, x.events = [⟨j, p.llr, o, hardBits ch⟩] ++ more) →
              ∃ evs p', x.events = ⟨j, p.llr, o, hardBits ch⟩ :: evs ∧ j < s.structures.length ∧
                (s.predict c ch j).2 = .ok p' ∧ p.llr = p'.llr := by
              rintro x ⟨more, hm⟩
              exact ⟨more, p, hm, pyPos_lt hj, hcon.symm, rfl⟩
            apply hfin
            simp only [List.nil_append]
            split
            · exact ⟨[], by simp⟩
            · split
              · exact ⟨[], by simp⟩
              · exact hmono _ _ _ _ _ _

theorem weighted_pos (learning : Bool) (size : Nat) (center slope f : ℝ) (hf : 0 < f) :
    0 < weighted learning size center slope f := by
  unfold weighted
  split
  · have ht : 0 ≤ trust size center slope ∧ trust size center slope ≤ 1 := by
      unfold trust
      split
      · exact ⟨le_refl _, zero_le_one⟩
      · have := Real.exp_pos (-((size : ℝ) - center) * slope)
        exact ⟨by positivity, by rw [div_le_one (by positivity)]; linarith⟩
    rcases ht.1.eq_or_lt with h0 | h0
    · rw [← h0]; linarith
    · have := mul_pos hf h0
      linarith [ht.2, sub_mul f 1 (trust size center slope)]
  · exact hf

/-- C80, the decisions. With positive factors the hard decision of a bit handed over is the received one, except for the bits
of a field which is surely wrong, outside the messages found in the received word: there it is the bit of the field's mean. -/
theorem c80_decisions (c : MavCfg) (hv : 0 < c.validFactor) (hi : 0 < c.invalidFactor) (size : Nat)
    (info : Nat → Option BitSays) (peak : ℝ) (obs : List ℝ) (hpeak : 0 < peak) (i : Nat) (hlt : i < obs.length) :
    ∃ y, (handedWord c size info peak obs)[i]? = some y ∧
      ((InMessages (messagesIn (c.infoBytes (hardBits obs))) i ∨ (∀ b, info i = some b → ¬ b.Wrong)) →
        (y < 0 ↔ obs.getD i 0 < 0)) ∧
      (¬ InMessages (messagesIn (c.infoBytes (hardBits obs))) i → ∀ b, info i = some b → b.Wrong →
        (y < 0 ↔ b.mean = true)) := by
  have hvf := weighted_pos c.learning size c.center c.slope c.validFactor hv
  have hivf := weighted_pos c.learning size c.center c.slope c.invalidFactor hi
  unfold handedWord
  simp only
  generalize weighted c.learning size c.center c.slope c.validFactor = vf at *
  generalize weighted c.learning size c.center c.slope c.invalidFactor = ivf at *
  generalize messagesIn (c.infoBytes (hardBits ((List.range obs.length).map fun i =>
    rectifiedBit c.validThr c.invalidThr vf ivf peak (obs.getD i 0) (info i)))) = mod
  generalize messagesIn (c.infoBytes (hardBits obs)) = rx
  rw [List.getElem?_map, List.getElem?_range hlt, Option.map_some]
  refine ⟨_, rfl, ?_⟩
  generalize obs.getD i 0 = x
  have hpos : ∀ a b : ℝ, 0 < b → (a * b < 0 ↔ a < 0) := fun a b hb => by
    rw [mul_neg_iff]
    constructor
    · rintro (⟨h1, h2⟩ | ⟨h1, h2⟩)
      · linarith
      · exact h1
    · intro h; exact Or.inr ⟨h, hb⟩
  have hrect : ((∀ b, info i = some b → ¬ b.Wrong) →
        (rectifiedBit c.validThr c.invalidThr vf ivf peak x (info i) < 0 ↔ x < 0)) ∧
      ∀ b, info i = some b → b.Wrong → (rectifiedBit c.validThr c.invalidThr vf ivf peak x (info i) < 0 ↔ b.mean = true) := by
    constructor
    · intro hn
      cases hb : info i with
      | none => exact Iff.rfl
      | some b =>
        simp only [rectifiedBit]
        rw [if_neg (hn b hb), hpos _ _ (by split <;> [exact hivf; exact one_pos]),
          hpos _ _ (by split <;> [exact hvf; exact one_pos])]
    · intro b hb hw
      rw [hb]
      simp only [rectifiedBit]
      rw [if_pos hw, hpos _ _ (mul_pos hpeak (lt_of_lt_of_le one_pos (le_max_right _ _)))]
      cases b.mean <;> simp
  unfold handedBit
  constructor
  · intro h
    by_cases hrx : InMessages rx i
    · have hne : rx ≠ [] := by rintro rfl; obtain ⟨r, hr, _⟩ := hrx; simp at hr
      rw [if_pos hne, if_pos hrx, hpos _ _ hvf, hpos _ _ two_pos]
    · have hno := hrect.1 (h.resolve_left hrx)
      split
      · exact hno
      · split
        · rw [hpos _ _ two_pos]; exact hno
        · exact hno
  · intro hrx b hb hw
    have hno := hrect.2 b hb hw
    split
    · exact hno
    · split
      · rw [hpos _ _ two_pos]; exact hno
      · exact hno

/-! An example: a heartbeat field model that saw one buffer, statistics that say mean zero and deviation zero, and received
words of 17 bytes. -/

/-- The statistics of the example. -/
noncomputable def zeroOps : StatOps Val ℝ where
  zero := 0
  one := 1
  fit := fun _ => .ok (0, 0)
  nonPos := fun _ => true
  eqMean := fun v _ => decide (v = .int 0)
  score := fun _ _ _ => 1
  pdf := fun _ _ _ => 1
  cdf := fun _ _ _ => 1
  toBits := fun _ t => .ok (List.replicate (8 * width t) false)

/-- The configuration of the example. -/
noncomputable def zeroCfg : MavCfg :=
  ⟨[0], 1/10, 1/10, 2, 1/2, 10, 1, 1, false, false, 1, fun w => if w.length = 136 then bitsToBytes w else [], zeroOps⟩

/-- A heartbeat all of whose fields are zero, in a buffer of 17 bytes. -/
def zeroBeat : List Byte := [254, 9, 7, 1, 1, 0, 0, 0, 0, 0, 0, 0, 0, 0, 0, 0, 0]

/-- The hypotheses of `c80_predefined` are met after any calls; a word of 136 ones received then is handed over with every bit of
the header and payload of the heartbeat decided zero and the last two bytes as received. -/
example (cls : Labeler Unit) (ldpc : Ldpc Unit) (words : List (List ℝ)) :
    ∃ out, (Mav.predict zeroCfg (Mav.run zeroCfg cls ldpc
        ⟨[some [(0, 0)]], addAll zeroOps (BufferModel.new none) [(.bytes zeroBeat, [(0, 0)])], -1, (), ()⟩ words).1
        (List.replicate 136 (-1)) (0 : Nat)).2 = .ok out ∧
      ∀ i < 136, ∃ y, out.llr[i]? = some y ∧ (y < 0 ↔ 120 ≤ i) := by
  have hr : InRange 17 [(0, 0)] := by
    intro r hr
    simp at hr
    subst hr
    exact ⟨msg0, by decide +kernel, by decide, by decide, by decide⟩
  have hne : ∀ p ∈ fieldPlaces [(0, 0)], ([(BufArg.bytes zeroBeat, [(0, 0)])] : List (BufArg × List (Nat × Nat))).flatMap (takes p.name) ≠ [] := by
    decide +kernel
  obtain ⟨out, peak, h1, h2, h3⟩ := c80_predefined (c := zeroCfg) rfl cls ldpc none [(.bytes zeroBeat, [(0, 0)])]
    ⟨[some [(0, 0)]], addAll zeroOps (BufferModel.new none) [(.bytes zeroBeat, [(0, 0)])], -1, (), ()⟩ rfl words _ rfl
    (by
      intro w
      show 8 * (if w.length = 136 then bitsToBytes w else []).length ≤ w.length
      split
      · rename_i hw
        simp [bitsToBytes, hw]
      · simp)
    0 [(0, 0)] rfl (by simp [NonOverlapping]) (List.replicate 136 (-1)) 17 (by omega) (by simp) hr
    (by intro a ha; simp at ha; subst ha; exact ⟨_, rfl, hr⟩) _ rfl (fun _ => (0, 0)) (fun p => List.replicate (8 * width p.type) false)
    (fun _ _ => rfl) (fun p hp => ⟨by rw [meanBits, if_neg (hne p hp)]; rfl, by simp⟩)
  refine ⟨out, h1, fun i hi => ?_⟩
  have hhard : hardBits (List.replicate 136 (-1 : ℝ)) = List.replicate 136 true := by
    simp [hardBits]
  have hmsg : messagesIn (zeroCfg.infoBytes (hardBits (List.replicate 136 (-1 : ℝ)))) = [] := by
    rw [hhard]
    have he : zeroCfg.infoBytes (List.replicate 136 true) = bitsToBytes (List.replicate 136 true) := by
      have hg : ∀ w, zeroCfg.infoBytes w = if w.length = 136 then bitsToBytes w else [] := fun _ => rfl
      rw [hg, if_pos (by rw [List.length_replicate])]
    rw [he]
    decide +kernel
  have hpk : 0 < peak := by
    obtain ⟨x, hx, rfl⟩ := h2.1
    rw [List.eq_of_mem_replicate hx]
    norm_num
  obtain ⟨y, g1, g2, g3⟩ := c80_decisions zeroCfg (by norm_num [zeroCfg]) (by norm_num [zeroCfg]) _
    (bitSays zeroCfg.stats none (fun _ => (0, 0)) _ (fun p => List.replicate (8 * width p.type) false) [(0, 0)] _) peak (List.replicate 136 (-1)) hpk i (by simpa using hi)
  rw [h3]
  refine ⟨y, g1, ?_⟩
  rw [hmsg] at g2 g3
  have hno : ¬ InMessages [] i := by rintro ⟨r, hr, _⟩; simp at hr
  have hzero : ∀ q ∈ fieldPlaces [(0, 0)], unpackScalar q.type (q.bytes (bitsToBytes (List.replicate 136 true))) ≠ .int 0 := by
    decide +kernel
  have hhas : ∀ k < 17, (∃ q ∈ fieldPlaces [(0, 0)], q.Has k) ↔ k < 15 := by decide +kernel
  have hhas := hhas (i / 8) (by omega)
  rw [hhard] at g2 g3
  rcases bitSays_of (O := zeroOps) (w := none) (fitv := fun _ => (0, 0))
    (hist := fun name => ([(BufArg.bytes zeroBeat, [(0, 0)])] : List (BufArg × List (Nat × Nat))).flatMap (takes name))
    (mb := fun p => List.replicate (8 * width p.type) false) (st := [(0, 0)]) (bitsToBytes (List.replicate 136 true)) i with
    ⟨q, hq, hh, he⟩ | ⟨hnone, he⟩
  · have h15 := hhas.1 ⟨q, hq, hh⟩
    have := g3 hno _ he (by
      have hcl : ∀ v, v ≠ Val.int 0 → FieldModel.classify zeroOps 0 0 v = (0, 0) := by
        intro v hv
        simp [FieldModel.classify, zeroOps, hv]
      rw [hcl _ (hzero q hq)]
      exact ⟨le_refl _, rfl⟩)
    rw [this]
    simp only [List.getD_eq_getElem?_getD, List.getElem?_replicate]
    constructor
    · intro h; split at h <;> simp at h
    · intro h; omega
  · have h15 : ¬ i / 8 < 15 := fun h => by
      obtain ⟨q, hq, hh⟩ := hhas.2 h
      exact hnone q hq hh
    rw [g2 (Or.inr fun b hb => by have := he.symm.trans hb; simp at this)]
    have hg : (List.replicate 136 (-1 : ℝ)).getD i 0 = -1 := by
      rw [List.getD_eq_getElem?_getD, List.getElem?_replicate, if_pos hi]; rfl
    rw [hg]
    constructor
    · intro _; omega
    · intro _; norm_num

end NR
