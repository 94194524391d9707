import Verif.Props.C33
import Verif.Props.C80
import Verif.Lemmas.Gauss
/-
C122: fields that never vary are repaired before the LDPC decoder sees the word, and what this costs when one does change.
-/
namespace NR.C122
open NR Spec

variable {σ Λ : Type}

/-- The statistics of a window that holds nothing but the number `v`, in a field of type `t`: there is a mean, the deviation is
zero, the numbers of the field equal to the mean are just `v`, and the mean is stored as `v` is. The windows are those a model
with window size `w` can hold. -/
structure ExactFor (O : StatOps Val ℝ) (w : Option Nat) (t : CType) (v : Val) : Prop where
  zero : O.zero = 0
  one : O.one = 1
  nonPos : O.nonPos 0 = true
  mean : ∃ μ, (∀ l, l ≠ [] → windowed w l = l → (∀ u ∈ l, u = v) → O.fit l = .ok (μ, 0)) ∧
    (∀ bs, bs.length = t.size → (O.eqMean (unpackScalar t bs) μ = true ↔ unpackScalar t bs = v)) ∧
    ∀ bs, packScalar t v = .ok bs → O.toBits μ t = .ok (bytesBits bs)

/-- The values kept for a field are all the number `v`. -/
structure ConstantField (O : StatOps Val ℝ) (w : Option Nat) (hist : String → List Val) (q : Place) (v : Val) : Prop where
  kept : ∀ u ∈ windowed w (hist q.name), u = v
  exact : ExactFor O w q.type v

/-- The values kept for a field are not all the same: their deviation is positive. -/
def VariedField (O : StatOps Val ℝ) (w : Option Nat) (hist : String → List Val) (q : Place) : Prop :=
  ∃ m d, O.fit (windowed w (hist q.name)) = .ok (m, d) ∧ 0 < d ∧ O.nonPos d = false

/-! ### Bits and bytes -/

theorem byteBits_surj : ∀ a b c d e f g h : Bool, ∃ x : Byte, byteBits x = [a, b, c, d, e, f, g, h] := by
  intro a b c d e f g h
  refine ⟨BitVec.ofNat 8 (bitsVal [a, b, c, d, e, f, g, h]), ?_⟩
  revert a b c d e f g h
  decide +kernel

theorem bytes_of_bits (n : Nat) (l : List Bool) (h : l.length = 8 * n) : ∃ bs : List Byte, bs.length = n ∧ bytesBits bs = l := by
  induction n generalizing l with
  | zero => exact ⟨[], rfl, by rw [List.length_eq_zero_iff.1 h]; rfl⟩
  | succ n ih =>
    match l, h with
    | a :: b :: c :: d :: e :: f :: g :: k :: rest, h =>
      obtain ⟨bs, h1, h2⟩ := ih rest (by simp at h; omega)
      obtain ⟨x, hx⟩ := byteBits_surj a b c d e f g k
      exact ⟨x :: bs, by simp [h1], by rw [bytesBits_cons, hx, h2]; rfl⟩

theorem bytesBits_bitsToBytes (n : Nat) (l : List Bool) (h : l.length = 8 * n) :
    (bitsToBytes l).length = n ∧ bytesBits (bitsToBytes l) = l := by
  obtain ⟨bs, h1, rfl⟩ := bytes_of_bits n l h
  rw [bitsToBytes_bytesBits]
  exact ⟨h1, rfl⟩

theorem windowed_ne {α : Type} (w : Option Nat) (l : List α) (h : l ≠ []) : windowed w l ≠ [] := by
  unfold windowed
  split
  · exact h
  · exact h
  · intro h0
    have hl := List.length_pos_iff.2 h
    have := congrArg List.length h0
    simp [lastN] at this
    omega

theorem bit_of_place {len : Nat} (l : List Bool) (h : l.length = 8 * len) (q : Place) (i : Nat) (hh : q.Has (i / 8)) :
    (bytesBits (q.bytes (bitsToBytes l)))[i - 8 * q.start]? = l[i]? := by
  obtain ⟨h1, h2⟩ := hh
  rw [Place.bytes, bytesBits_drop_take, (bytesBits_bitsToBytes len l h).2, List.getElem?_take_of_lt (by omega),
    List.getElem?_drop]
  congr 1
  omega

theorem bytes_len {len : Nat} {l : List Bool} (h : l.length = 8 * len) {st : List (Nat × Nat)} (hr : InRange len st) {q : Place}
    (hq : q ∈ fieldPlaces st) : (q.bytes (bitsToBytes l)).length = q.type.size := by
  have := fieldPlaces_bound hr hq
  rw [Place.bytes, List.length_take, List.length_drop, (bytesBits_bitsToBytes len l h).1, ← width_size]
  omega

theorem place_unique {len : Nat} {st : List (Nat × Nat)} (hr : InRange len st) (hn : NonOverlapping st) {p q : Place} {k : Nat}
    (hp : p ∈ fieldPlaces st) (hq : q ∈ fieldPlaces st) (h1 : p.Has k) (h2 : q.Has k) : p = q := by
  obtain ⟨i, hi⟩ := List.mem_iff_getElem?.1 hp
  obtain ⟨j, hj⟩ := List.mem_iff_getElem?.1 hq
  have := pairwise_unique (fieldPlaces_pairwise hr hn) hi hj h1 h2
  subst this
  rw [hi] at hj
  exact Option.some.inj hj

/-! ### The decisions -/

/-- The bits handed over, as hard decisions: in a constant field outside the messages found they are the bits of the constant,
whatever was received; in the messages found, in varied fields and outside the fields they are the bits received. -/
def Decided (c : MavCfg) (w : Option Nat) (hist : String → List Val) (st : List (Nat × Nat)) (obs llr : List ℝ) : Prop :=
  llr.length = obs.length ∧ ∀ i < obs.length,
    (∀ q ∈ fieldPlaces st, ∀ v bs, q.Has (i / 8) → ConstantField c.stats w hist q v → packScalar q.type v = .ok bs →
      ¬ InMessages (messagesIn (c.infoBytes (hardBits obs))) i →
      (hardBits llr)[i]? = (bytesBits bs)[i - 8 * q.start]?) ∧
    ((InMessages (messagesIn (c.infoBytes (hardBits obs))) i ∨
        ∀ q ∈ fieldPlaces st, q.Has (i / 8) → VariedField c.stats w hist q) →
      (hardBits llr)[i]? = (hardBits obs)[i]?)

theorem hardBits_get (l : List ℝ) (i : Nat) (y : ℝ) (h : l[i]? = some y) (b : Bool) (hb : y < 0 ↔ b = true) :
    (hardBits l)[i]? = some b := by
  unfold hardBits
  rw [List.getElem?_map, h, Option.map_some]
  congr 1
  cases b <;> simp at hb ⊢ <;> linarith

theorem decided (c : MavCfg) (hv : 0 < c.validFactor) (hi : 0 < c.invalidFactor) (size : Nat) (w : Option Nat) (len : Nat)
    (st : List (Nat × Nat)) (hr : InRange len st) (hn : NonOverlapping st) (obs : List ℝ) (hobs : obs.length = 8 * len)
    (hne : ∃ x ∈ obs, x ≠ 0) (hist : String → List Val) (fitv : List Val → ℝ × ℝ) (mb : Place → List Bool)
    (hfit : ∀ p ∈ fieldPlaces st, c.stats.fit (windowed w (hist p.name)) = .ok (fitv (windowed w (hist p.name))))
    (hmb : ∀ p ∈ fieldPlaces st, meanBits c.stats w (hist p.name) p.type = .ok (mb p) ∧ (mb p).length = 8 * width p.type)
    (peak : ℝ) (hpk : IsPeak obs peak) (llr : List ℝ)
    (hl : llr = handedWord c size (bitSays c.stats w fitv hist mb st (bitsToBytes (hardBits obs))) peak obs) :
    Decided c w hist st obs llr := by
  have hpeak : 0 < peak := by
    obtain ⟨x, hx, h0⟩ := hne
    exact lt_of_lt_of_le (abs_pos.2 h0) (hpk.2 x hx)
  have hhl : (hardBits obs).length = 8 * len := by rw [hardBits_length, hobs]
  refine ⟨by rw [hl]; simp [handedWord], fun i hlt => ?_⟩
  obtain ⟨y, h1, h2, h3⟩ := c80_decisions c hv hi size
    (bitSays c.stats w fitv hist mb st (bitsToBytes (hardBits obs))) peak obs hpeak i hlt
  rw [← hl] at h1
  obtain ⟨x, hx⟩ : ∃ x, obs[i]? = some x := ⟨_, List.getElem?_eq_getElem hlt⟩
  have hgx : obs.getD i 0 = x := by rw [List.getD_eq_getElem?_getD, hx]; rfl
  rw [hgx] at h2
  have hrec : ((InMessages (messagesIn (c.infoBytes (hardBits obs))) i ∨
      ∀ b, bitSays c.stats w fitv hist mb st (bitsToBytes (hardBits obs)) i = some b → ¬ b.Wrong)) →
      (hardBits llr)[i]? = (hardBits obs)[i]? := by
    intro h
    rw [hardBits_get llr i y h1 (decide (x < 0)) (by simpa using h2 h), hardBits_get obs i x hx (decide (x < 0)) (by simp)]
  constructor
  · intro q hq v bs hh hc hp hnm
    have hwne := windowed_ne w _ (hist_ne (hmb q hq).1)
    obtain ⟨μ, hfm, heq, htb⟩ := hc.exact.mean
    have hf := hfm _ hwne (windowed_idem w _) hc.kept
    have hfv : fitv (windowed w (hist q.name)) = (μ, 0) := by
      have := hfit q hq
      rw [hf] at this
      injection this with this
      exact this.symm
    have hmq : mb q = bytesBits bs := by
      have := (hmb q hq).1
      rw [meanBits, if_neg (hist_ne (hmb q hq).1), hf] at this
      simp only [Except.bind, htb bs hp] at this
      injection this with this
      exact this.symm
    have hbl : bs.length = width q.type := by rw [packScalar_length hp, width_size]
    have heqv := heq (q.bytes (bitsToBytes (hardBits obs))) (bytes_len hhl hr hq)
    obtain ⟨j, hj⟩ : ∃ j, unpackScalar q.type (q.bytes (bitsToBytes (hardBits obs))) = j := ⟨_, rfl⟩
    rw [hj] at heqv
    rcases bitSays_of (O := c.stats) (w := w) (fitv := fitv) (hist := hist) (mb := mb) (st := st)
      (bitsToBytes (hardBits obs)) i with ⟨q', hq', hh', he⟩ | ⟨hno, _⟩
    · have := place_unique hr hn hq' hq hh' hh
      subst this
      rw [hfv, hj] at he
      by_cases hji : j = v
      · subst hji
        have hcl : FieldModel.classify c.stats μ 0 j = (1, 0) := by
          unfold FieldModel.classify
          rw [if_pos hc.exact.nonPos, if_pos (heqv.2 rfl), hc.exact.one, hc.exact.zero]
        have hpu := packScalar_unpackScalar (bytes_len hhl hr hq)
        rw [hj, hp] at hpu
        injection hpu with hpu
        rw [hrec (Or.inr fun b hb => by
          rw [he, hcl] at hb
          cases hb
          rintro ⟨g, _⟩
          norm_num at g)]
        rw [hpu, bit_of_place _ hhl q' i hh]
      · have hcl : FieldModel.classify c.stats μ 0 j = (0, 0) := by
          unfold FieldModel.classify
          rw [if_pos hc.exact.nonPos, if_neg (fun h => hji (heqv.1 h)), hc.exact.zero]
        rw [hcl] at he
        have hlen : i - 8 * q'.start < (bytesBits bs).length := by
          obtain ⟨g1, g2⟩ := hh
          rw [bytesBits_length, hbl]
          omega
        have := h3 hnm _ he ⟨le_refl _, rfl⟩
        rw [hmq] at this
        rw [hardBits_get llr i y h1 _ this, List.getD_eq_getElem?_getD, List.getElem?_eq_getElem hlen]
        rfl
    · exact absurd hh (hno q hq)
  · rintro (h | h)
    · exact hrec (Or.inl h)
    · refine hrec (Or.inr fun b hb => ?_)
      rcases bitSays_of (O := c.stats) (w := w) (fitv := fitv) (hist := hist) (mb := mb) (st := st)
        (bitsToBytes (hardBits obs)) i with ⟨q, hq, hh, he⟩ | ⟨_, he⟩
      · obtain ⟨m, d, g1, g2, g3⟩ := h q hq hh
        have hfv := hfit q hq
        rw [g1] at hfv
        injection hfv with hfv
        rw [he, ← hfv] at hb
        cases hb
        rintro ⟨_, g⟩
        unfold FieldModel.classify at g
        rw [if_neg (by simp [g3])] at g
        simp only at g
        linarith
      · rw [he] at hb; cases hb

open Classical in
/-- C122, a learning decoder. After any calls, for a received word (not all zero) of a cluster with structure `st` all of whose
fields have been learned, the word handed to the LDPC decoder is decided as said in `Decided`: every constant field outside the
messages found carries its constant, and nothing else is changed in varied fields. -/
theorem c122_learned {c : MavCfg} (hl : c.learning = true) (hv : 0 < c.validFactor) (hi : 0 < c.invalidFactor)
    (cls : Labeler σ) (ldpc : Ldpc Λ) (w : Option Nat) (cs : σ) (l : Λ) (words : List (List ℝ)) (s : Mav σ Λ)
    (evs : List MavEvent) (L : List (BufArg × List (Nat × Nat)))
    (hs : s = (Mav.run c cls ldpc (Mav.new c.nClusters (BufferModel.new w) cs l) words).1)
    (hev : evs = (Mav.run c cls ldpc (Mav.new c.nClusters (BufferModel.new w) cs l) words).2.flatMap MavStep.events)
    (hL : L = (learnedWords c.infoBytes [] evs).filter (fun a => Addable a))
    (hinfo : ∀ w, 8 * (c.infoBytes w).length ≤ w.length)
    (label : Nat) (hlab : label < c.nClusters) (st : List (Nat × Nat)) (hst : structureAfter c.infoBytes evs label = some st)
    (obs : List ℝ) (len : Nat) (hobs : obs.length = 8 * len) (hne : ∃ x ∈ obs, x ≠ 0) (hr : InRange len st)
    (hist : String → List Val) (hhist : hist = fun name => L.flatMap (takes name))
    (hseen : ∀ p ∈ fieldPlaces st, ∃ b, meanBits c.stats w (hist p.name) p.type = .ok b ∧ b.length = 8 * width p.type) :
    ∃ out, (s.predict c obs label).2 = .ok out ∧ Decided c w hist st obs out.llr := by
  have hap : NonOverlapping st := by
    unfold structureAfter at hst
    cases hfi : evs.find? fun e => e.pos == label && e.out.success with
    | none => rw [hfi] at hst; cases hst
    | some e =>
      rw [hfi] at hst
      injection hst with hst
      rw [← hst]
      exact messagesIn_apart _
  have hlen : 0 < len := by
    obtain ⟨x, hx, _⟩ := hne
    have := List.length_pos_of_mem hx
    omega
  let fitv : List Val → ℝ × ℝ := fun l => match c.stats.fit l with | .ok r => r | .error _ => (0, 0)
  let mb : Place → List Bool := fun p => match meanBits c.stats w (hist p.name) p.type with | .ok b => b | .error _ => []
  have hmb : ∀ p ∈ fieldPlaces st, meanBits c.stats w (hist p.name) p.type = .ok (mb p) ∧ (mb p).length = 8 * width p.type := by
    intro p hp
    obtain ⟨b, h1, h2⟩ := hseen p hp
    have : mb p = b := by simp only [mb, h1]
    rw [this]
    exact ⟨h1, h2⟩
  have hfit : ∀ p ∈ fieldPlaces st, c.stats.fit (windowed w (hist p.name)) = .ok (fitv (windowed w (hist p.name))) := by
    intro p hp
    obtain ⟨b, h1, h2⟩ := hseen p hp
    rw [meanBits, if_neg (hist_ne h1)] at h1
    simp only [fitv]
    cases hf : c.stats.fit (windowed w (hist p.name)) with
    | ok r => rfl
    | error e => rw [hf] at h1; cases h1
  obtain ⟨out, peak, h1, h2, h3⟩ := c80_learned hl cls ldpc w cs l words s evs L hs hev hL hinfo label hlab st hst obs len hlen
    hobs hr hist hhist fitv mb hfit hmb
  exact ⟨out, h1, decided c hv hi _ w len st hr hap obs hobs hne hist fitv mb hfit hmb peak h2 out.llr h3⟩

/-- C122, a decoder with a predefined model made from the buffers `as`. -/
theorem c122_predefined {c : MavCfg} (hl : c.learning = false) (hv : 0 < c.validFactor) (hi : 0 < c.invalidFactor)
    (cls : Labeler σ) (ldpc : Ldpc Λ) (w : Option Nat) (as : List (BufArg × List (Nat × Nat))) (s0 : Mav σ Λ)
    (hm : s0.model = addAll c.stats (BufferModel.new w) as) (words : List (List ℝ)) (s : Mav σ Λ)
    (hs : s = (Mav.run c cls ldpc s0 words).1) (hinfo : ∀ w, 8 * (c.infoBytes w).length ≤ w.length)
    (label : Nat) (st : List (Nat × Nat)) (hst : s0.structures[label]? = some (some st)) (hap : NonOverlapping st)
    (obs : List ℝ) (len : Nat) (hobs : obs.length = 8 * len) (hne : ∃ x ∈ obs, x ≠ 0) (hr : InRange len st)
    (has : ∀ a ∈ as, Addable a) (hist : String → List Val) (hhist : hist = fun name => as.flatMap (takes name))
    (hseen : ∀ p ∈ fieldPlaces st, ∃ b, meanBits c.stats w (hist p.name) p.type = .ok b ∧ b.length = 8 * width p.type) :
    ∃ out, (s.predict c obs label).2 = .ok out ∧ Decided c w hist st obs out.llr := by
  have hlen : 0 < len := by
    obtain ⟨x, hx, _⟩ := hne
    have := List.length_pos_of_mem hx
    omega
  let fitv : List Val → ℝ × ℝ := fun l => match c.stats.fit l with | .ok r => r | .error _ => (0, 0)
  let mb : Place → List Bool := fun p => match meanBits c.stats w (hist p.name) p.type with | .ok b => b | .error _ => []
  have hmb : ∀ p ∈ fieldPlaces st, meanBits c.stats w (hist p.name) p.type = .ok (mb p) ∧ (mb p).length = 8 * width p.type := by
    intro p hp
    obtain ⟨b, h1, h2⟩ := hseen p hp
    have : mb p = b := by simp only [mb, h1]
    rw [this]
    exact ⟨h1, h2⟩
  have hfit : ∀ p ∈ fieldPlaces st, c.stats.fit (windowed w (hist p.name)) = .ok (fitv (windowed w (hist p.name))) := by
    intro p hp
    obtain ⟨b, h1, h2⟩ := hseen p hp
    rw [meanBits, if_neg (hist_ne h1)] at h1
    simp only [fitv]
    cases hf : c.stats.fit (windowed w (hist p.name)) with
    | ok r => rfl
    | error e => rw [hf] at h1; cases h1
  obtain ⟨out, peak, h1, h2, h3⟩ := c80_predefined hl cls ldpc w as s0 hm words s hs hinfo label st hst hap obs len hlen
    hobs hr has hist hhist fitv mb hfit hmb
  exact ⟨out, h1, decided c hv hi _ w len st hr hap obs hobs hne hist fitv mb hfit hmb peak h2 out.llr h3⟩

/-- Bit `i` lies in a constant field of the structure. -/
def InConstant (O : StatOps Val ℝ) (w : Option Nat) (hist : String → List Val) (st : List (Nat × Nat)) (i : Nat) : Prop :=
  ∃ q ∈ fieldPlaces st, ∃ v, q.Has (i / 8) ∧ ConstantField O w hist q v

/-- C122, the repair. Let the word handed over be decided as in `c122_learned` and `c122_predefined`, every field be constant or
varied, and the word that was sent carry the constants. Then a bit handed over is wrong exactly if it was received wrong and is
not in a constant field outside the messages found: all errors there are gone, and none is added. -/
theorem c122_repaired (c : MavCfg) (w : Option Nat) (hist : String → List Val) (st : List (Nat × Nat)) (obs llr : List ℝ)
    (hd : Decided c w hist st obs llr) (len : Nat) (hr : InRange len st) (hobs : obs.length = 8 * len)
    (hall : ∀ q ∈ fieldPlaces st, (∃ v, ConstantField c.stats w hist q v) ∨ VariedField c.stats w hist q)
    (sent : List Bool) (hlen : sent.length = 8 * len) (hsent : ∀ q ∈ fieldPlaces st, ∀ v, ConstantField c.stats w hist q v →
      unpackScalar q.type (q.bytes (bitsToBytes sent)) = v) (i : Nat)
    (hi : i < 8 * len) :
    (hardBits llr)[i]? ≠ sent[i]? ↔ (hardBits obs)[i]? ≠ sent[i]? ∧
      ¬ (InConstant c.stats w hist st i ∧ ¬ InMessages (messagesIn (c.infoBytes (hardBits obs))) i) := by
  obtain ⟨h1, h2⟩ := hd.2 i (by omega)
  by_cases hc : InConstant c.stats w hist st i ∧ ¬ InMessages (messagesIn (c.infoBytes (hardBits obs))) i
  · have := hc
    obtain ⟨⟨q, hq, v, hh, hcf⟩, hnm⟩ := this
    have hp := packScalar_unpackScalar (bytes_len hlen hr hq)
    rw [hsent q hq v hcf] at hp
    have := h1 q hq v _ hh hcf hp hnm
    rw [bit_of_place sent hlen q i hh] at this
    simp [this, hc]
  · rw [h2]
    · simp [hc]
    · by_cases hm : InMessages (messagesIn (c.infoBytes (hardBits obs))) i
      · exact Or.inl hm
      · refine Or.inr fun q hq hh => ?_
        rcases hall q hq with ⟨v, hv⟩ | hv
        · exact absurd ⟨⟨q, hq, v, hh, hv⟩, hm⟩ hc
        · exact hv

/-! ### Real statistics -/

/-- The value of a field as a real number; floats are not needed here. -/
def realOf : Val → ℝ
  | .int i => i
  | _ => 0

open Classical in
/-- Mean, deviation and score of integer fields over the reals (no rounding), the mean stored by `num2bits`. -/
noncomputable def trueOps : StatOps Val ℝ where
  zero := 0
  one := 1
  fit := fun l => .ok (average (l.map realOf), stdDev (l.map realOf))
  nonPos := fun s => decide (s ≤ 0)
  eqMean := fun x m => decide (realOf x = m)
  score := fun m s x => 1 - erf (|m - realOf x| / s / √2)
  pdf := fun m s x => Real.exp (-((realOf x - m) / s) ^ 2 / 2) / (s * √(2 * Real.pi))
  cdf := fun m s x => (1 + erf ((realOf x - m) / s / √2)) / 2
  toBits := fun x t => if h : ∃ q : ℚ, (q : ℝ) = x then num2bits (fun _ => .error .structError) (.num h.choose) t.cname
    else .error .valueError

theorem average_const (l : List ℝ) (hne : l ≠ []) (a : ℝ) (h : ∀ x ∈ l, x = a) : average l = a := by
  have hs : l = List.replicate l.length a := List.eq_replicate_iff.2 ⟨rfl, h⟩
  have hl : (l.length : ℝ) ≠ 0 := by
    have := List.length_pos_iff.2 hne
    positivity
  unfold average
  rw [hs, List.sum_replicate, List.length_replicate, nsmul_eq_mul]
  field_simp

theorem unpack_int {t : CType} {i : Int} (hf : FitsScalar t (.int i)) (bs : List Byte) : ∃ j, unpackScalar t bs = .int j := by
  cases t <;> simp [FitsScalar] at hf <;> simp only [unpackScalar, CType.isSInt] <;>
    first | exact ⟨_, rfl⟩ | (split <;> exact ⟨_, rfl⟩)

theorem trueOps_fit (l : List Val) (hne : l ≠ []) (i : Int) (h : ∀ u ∈ l, u = .int i) : trueOps.fit l = .ok ((i : ℝ), 0) := by
  have ha : average (l.map realOf) = i := average_const _ (by simpa using hne) _ (by
    intro x hx
    obtain ⟨v, hv, rfl⟩ := List.mem_map.1 hx
    rw [h v hv]; rfl)
  have hsd : stdDev (l.map realOf) = 0 := stdDev_eq_zero.2 (by
    intro x hx
    rw [ha]
    obtain ⟨v, hv, rfl⟩ := List.mem_map.1 hx
    rw [h v hv]; rfl)
  show Except.ok (average (l.map realOf), stdDev (l.map realOf)) = _
  rw [ha, hsd]

theorem trueOps_eqMean (t : CType) (i : Int) (hf : FitsScalar t (.int i)) (bs : List Byte) :
    trueOps.eqMean (unpackScalar t bs) (i : ℝ) = true ↔ unpackScalar t bs = .int i := by
  obtain ⟨j, hj⟩ := unpack_int hf bs
  rw [hj]
  show decide ((j : ℝ) = (i : ℝ)) = true ↔ _
  simp

theorem trueOps_toBits (t : CType) (i : Int) (hf : FitsScalar t (.int i)) (bs : List Byte)
    (hp : packScalar t (.int i) = .ok bs) : trueOps.toBits (i : ℝ) t = .ok (bytesBits bs) := by
  obtain ⟨bs', g1, g2, _⟩ := c33_integer (fun _ => .error .structError) t i hf
  rw [hp] at g1
  cases g1
  rw [← g2]
  have hex : ∃ q : ℚ, (q : ℝ) = (i : ℝ) := ⟨i, by simp⟩
  unfold trueOps
  simp only
  rw [dif_pos hex]
  congr 2
  have := hex.choose_spec
  exact_mod_cast this

/-- The statistics are exact for constant integer fields. -/
theorem trueOps_exact (w : Option Nat) (t : CType) (i : Int) (hf : FitsScalar t (.int i)) : ExactFor trueOps w t (.int i) where
  zero := rfl
  one := rfl
  nonPos := by simp [trueOps]
  mean := ⟨i, fun l hne _ h => trueOps_fit l hne i h, fun bs _ => trueOps_eqMean t i hf bs,
    fun bs hp => trueOps_toBits t i hf bs hp⟩

/-! ### A field that changes after all -/

/-- A decoder with a predefined model. -/
noncomputable def beatCfg : MavCfg :=
  ⟨[0], 1/10, 1/10, 2, 1/2, 10, 1, 1, false, false, 1, fun w => if w.length = 136 then bitsToBytes w else [], trueOps⟩

/-- The only buffer it has seen: a heartbeat all of whose payload is zero. -/
def quiet : List Byte := [254, 9, 7, 1, 1, 0, 0, 0, 0, 0, 0, 0, 0, 0, 0, 0, 0]

/-- The heartbeat sent: `custom_mode` is 1 for the first time. -/
def changed : List Byte := [254, 9, 7, 1, 1, 0, 1, 0, 0, 0, 0, 0, 0, 0, 0, 227, 20]

/-- The heartbeat received: one bit of the check sum is wrong. -/
def hit : List Byte := [254, 9, 7, 1, 1, 0, 1, 0, 0, 0, 0, 0, 0, 0, 0, 226, 20]

/-- The number of positions at which two words differ. -/
def distance (a b : List Bool) : Nat := ((a.zip b).filter fun p => p.1 != p.2).length

/-- The word as it comes from the channel: a one is negative. -/
noncomputable def signal (bits : List Bool) : List ℝ := bits.map fun b => if b then -1 else 1

theorem hardBits_signal (bits : List Bool) : hardBits (signal bits) = bits := by
  unfold hardBits signal
  rw [List.map_map]
  conv_rhs => rw [← List.map_id bits]
  apply List.map_congr_left
  intro b _
  cases b <;> norm_num

theorem quiet_constant : ∀ q ∈ fieldPlaces [(0, 0)], ∃ v : Int, FitsScalar q.type (.int v) ∧
    packScalar q.type (.int v) = .ok (q.bytes quiet) ∧
    ([(BufArg.bytes quiet, [(0, 0)])] : List (BufArg × List (Nat × Nat))).flatMap (takes q.name) = [.int v] := by
  have h : (fieldPlaces [(0, 0)]).all (fun q => match unpackScalar q.type (q.bytes quiet) with
      | .int v => decide (packScalar q.type (.int v) = .ok (q.bytes quiet)) &&
        decide (([(BufArg.bytes quiet, [(0, 0)])] : List (BufArg × List (Nat × Nat))).flatMap (takes q.name) = [.int v])
      | _ => false) = true := by decide +kernel
  intro q hq
  have := List.all_eq_true.1 h q hq
  cases hu : unpackScalar q.type (q.bytes quiet) with
  | int v =>
    rw [hu] at this
    simp only [Bool.and_eq_true, decide_eq_true_eq] at this
    exact ⟨v, packScalar_ok this.1, this.1, this.2⟩
  | flt b => rw [hu] at this; simp at this
  | raw b => rw [hu] at this; simp at this

theorem quiet_field (q : Place) (hq : q ∈ fieldPlaces [(0, 0)]) : ∃ v : Int, packScalar q.type (.int v) = .ok (q.bytes quiet) ∧
    ConstantField trueOps none (fun name => [(BufArg.bytes quiet, [(0, 0)])].flatMap (takes name)) q (.int v) ∧
    ∃ b, meanBits trueOps none ([(BufArg.bytes quiet, [(0, 0)])].flatMap (takes q.name)) q.type = .ok b ∧
      b.length = 8 * width q.type := by
  obtain ⟨v, h1, h2, h3⟩ := quiet_constant q hq
  refine ⟨v, h2, ⟨?_, trueOps_exact _ _ _ h1⟩, ?_⟩
  · simp only [windowed, h3]
    simp
  · obtain ⟨bs, g1, _⟩ := packScalar_fits h1
    refine ⟨bytesBits bs, ?_, by rw [bytesBits_length, packScalar_length g1, width_size]⟩
    rw [h3, meanBits, if_neg (by simp), trueOps_fit _ (by simp [windowed]) v (by simp [windowed])]
    simp only [Except.bind, trueOps_toBits q.type v h1 bs g1]

/-- The hypotheses are met after any calls: whatever the 17 bytes received hold, if there is no message in them the header and
the payload handed over are those of the heartbeat known. -/
theorem beat_handed (cls : Labeler Unit) (ldpc : Ldpc Unit) (words : List (List ℝ)) (rx : List Bool) (hrx : rx.length = 136)
    (hno : messagesIn (bitsToBytes rx) = []) :
    ∃ out, (Mav.predict beatCfg (Mav.run beatCfg cls ldpc
        ⟨[some [(0, 0)]], addAll trueOps (BufferModel.new none) [(.bytes quiet, [(0, 0)])], -1, (), ()⟩ words).1
        (signal rx) (0 : Nat)).2 = .ok out ∧ hardBits out.llr = bytesBits (quiet.take 15) ++ rx.drop 120 := by
  have hr : InRange 17 [(0, 0)] := by
    intro r hr
    simp at hr
    subst hr
    exact ⟨Dialect.msg0, by decide +kernel, by decide, by decide, by decide⟩
  have hsl : (signal rx).length = 8 * 17 := by simp [signal, hrx]
  obtain ⟨out, h1, h2, h3⟩ := c122_predefined (c := beatCfg) rfl (by norm_num [beatCfg]) (by norm_num [beatCfg]) cls ldpc none
    [(.bytes quiet, [(0, 0)])] ⟨[some [(0, 0)]], addAll trueOps (BufferModel.new none) [(.bytes quiet, [(0, 0)])], -1, (), ()⟩
    rfl words _ rfl
    (by
      intro w
      show 8 * (if w.length = 136 then bitsToBytes w else []).length ≤ w.length
      split
      · rename_i hw
        simp [bitsToBytes, hw]
      · simp)
    0 [(0, 0)] rfl (by simp [NonOverlapping]) (signal rx) 17 hsl
    (by
      match rx, hrx with
      | b :: rest, _ => exact ⟨if b then -1 else 1, by simp [signal], by cases b <;> norm_num⟩)
    hr (by intro a ha; simp at ha; subst ha; exact ⟨_, rfl, hr⟩) _ rfl (fun q hq => (quiet_field q hq).choose_spec.2.2)
  refine ⟨out, h1, ?_⟩
  have hi : beatCfg.infoBytes (hardBits (signal rx)) = bitsToBytes rx := by
    rw [hardBits_signal]
    show (if rx.length = 136 then bitsToBytes rx else []) = _
    rw [if_pos hrx]
  rw [hi, hno] at h3
  have hnot : ∀ i, ¬ InMessages [] i := by rintro i ⟨r, hr, _⟩; simp at hr
  have hcover : ∀ k < 17, (∃ q ∈ fieldPlaces [(0, 0)], q.Has k) ↔ k < 15 := by decide +kernel
  have hq17 : (bytesBits quiet).length = 8 * 17 := by decide +kernel
  apply List.ext_getElem?
  intro i
  by_cases hlt : i < 136
  · obtain ⟨g1, g2⟩ := h3 i (by rw [hsl]; omega)
    have hc := hcover (i / 8) (by omega)
    by_cases h15 : i / 8 < 15
    · obtain ⟨q, hq, hh⟩ := hc.2 h15
      obtain ⟨v, k1, k2, _⟩ := quiet_field q hq
      rw [g1 q hq (.int v) _ hh k2 k1 (hnot i)]
      have hb := bit_of_place (len := 17) (bytesBits quiet) hq17 q i hh
      rw [bitsToBytes_bytesBits] at hb
      rw [hb, List.getElem?_append_left (by rw [show (bytesBits (quiet.take 15)).length = 120 by decide +kernel]; omega)]
      have ht : bytesBits (quiet.take 15) = (bytesBits quiet).take 120 := by decide +kernel
      rw [ht, List.getElem?_take_of_lt (by omega)]
    · rw [g2 (Or.inr fun q hq hh => absurd (hc.1 ⟨q, hq, hh⟩) h15), hardBits_signal,
        List.getElem?_append_right (by rw [show (bytesBits (quiet.take 15)).length = 120 by decide +kernel]; omega),
        show (bytesBits (quiet.take 15)).length = 120 by decide +kernel, List.getElem?_drop]
      congr 1
      omega
  · rw [List.getElem?_eq_none (by rw [hardBits_length, h2, hsl]; omega), List.getElem?_eq_none (by
      rw [List.length_append, show (bytesBits (quiet.take 15)).length = 120 by decide +kernel, List.length_drop, hrx]; omega)]

/-- C122: expectation that fails: the word handed over has no more wrong bits than the word received. The decoder has seen a
heartbeat; the next one that is sent carries another `custom_mode` and arrives with one wrong bit, in the check sum. The change
is overwritten: two bits of the word handed over are wrong, after any calls, whatever classifier and LDPC decoder. -/
theorem c122_change_false (cls : Labeler Unit) (ldpc : Ldpc Unit) (words : List (List ℝ)) :
    messagesIn changed = [(0, 0)] ∧ (hardBits (signal (bytesBits hit))).length = (bytesBits changed).length ∧
    distance (bytesBits changed) (hardBits (signal (bytesBits hit))) = 1 ∧
    ∃ out, (Mav.predict beatCfg (Mav.run beatCfg cls ldpc
        ⟨[some [(0, 0)]], addAll trueOps (BufferModel.new none) [(.bytes quiet, [(0, 0)])], -1, (), ()⟩ words).1
        (signal (bytesBits hit)) (0 : Nat)).2 = .ok out ∧ distance (bytesBits changed) (hardBits out.llr) = 2 := by
  rw [hardBits_signal]
  refine ⟨by decide +kernel, by decide +kernel, by decide +kernel, ?_⟩
  obtain ⟨out, h1, h2⟩ := beat_handed cls ldpc words (bytesBits hit) (by decide +kernel)
    (by rw [bitsToBytes_bytesBits]; decide +kernel)
  refine ⟨out, h1, ?_⟩
  rw [h2]
  decide +kernel

/-- A repair: all 120 bits of header and payload are received inverted, and all are handed over right. -/
example (cls : Labeler Unit) (ldpc : Ldpc Unit) (words : List (List ℝ)) :
    ∃ rx, distance (bytesBits quiet) rx = 120 ∧ ∃ out, (Mav.predict beatCfg (Mav.run beatCfg cls ldpc
        ⟨[some [(0, 0)]], addAll trueOps (BufferModel.new none) [(.bytes quiet, [(0, 0)])], -1, (), ()⟩ words).1
        (signal rx) (0 : Nat)).2 = .ok out ∧ hardBits out.llr = bytesBits quiet := by
  refine ⟨((bytesBits quiet).take 120).map (!·) ++ (bytesBits quiet).drop 120, by decide +kernel, ?_⟩
  obtain ⟨out, h1, h2⟩ := beat_handed cls ldpc words (((bytesBits quiet).take 120).map (!·) ++ (bytesBits quiet).drop 120)
    (by decide +kernel) (by decide +kernel)
  exact ⟨out, h1, by rw [h2]; decide +kernel⟩

/-! ### A learning decoder -/

/-- The same decoder, learning. -/
noncomputable def learnCfg : MavCfg :=
  ⟨[0], 1/10, 1/10, 2, 1/2, 10, 1, 1, false, true, 1, fun w => if w.length = 136 then bitsToBytes w else [], trueOps⟩

/-- An LDPC decoder that finds the heartbeat with the new mode. -/
def finds : Ldpc Unit := fun _ _ => ((), ⟨bytesBits changed, [1, 1], true, 3, [], []⟩)

theorem learn_first : (Mav.run learnCfg (fun (_ : Unit) _ => ((), .ok 0)) finds
    (Mav.new learnCfg.nClusters (BufferModel.new none) () ()) [[1, -1]]).2.flatMap MavStep.events =
      [⟨0, [1, -1], ⟨bytesBits changed, [1, 1], true, 3, [], []⟩, hardBits [1, -1]⟩] := by
  have h1 : (Mav.run learnCfg (fun (_ : Unit) _ => ((), .ok 0)) finds
      (Mav.new learnCfg.nClusters (BufferModel.new none) () ()) [[1, -1]]).2.flatMap MavStep.events =
    ((Mav.new 1 (BufferModel.new none) () ()).decode learnCfg (fun (_ : Unit) _ => ((), .ok 0)) finds [1, -1]).events := by
    simp [Mav.run, learnCfg]
  rw [h1]
  unfold Mav.decode
  have hpk : pickLabel (fun (_ : Unit) _ => ((), .ok 0)) learnCfg.nClusters learnCfg.cluster () (-1) [] =
      ((), -1, .ok ((0 : Nat) : Int)) := by simp [pickLabel, learnCfg]
  have hit : learnCfg.segIterations = 1 := rfl
  rw [hit, Mav.loop, if_neg (by simp [learnCfg])]
  simp only [Mav.new, hpk]
  rw [if_neg (by omega), c57_no_structure _ _ _ _ (by simp)]
  rcases hdu : ({ structures := List.replicate 1 none, model := BufferModel.new none, running := -1, cls := (), ldpc := () } :
    Mav Unit Unit).decodeUpdate learnCfg finds [1, -1] ((0 : Nat) : Int) (hardBits [1, -1]) with ⟨s', o, r⟩
  have ho : o = ⟨bytesBits changed, [1, 1], true, 3, [], []⟩ := by
    have := congrArg (fun x => x.2.1) hdu
    simp only [Mav.decodeUpdate, finds] at this
    rw [← this]
    split <;> rfl
  simp only [hdu, ho]
  rw [eventOf_some (j := 0) (by simp [pyPos])]
  cases r with
  | error e => rfl
  | ok u => simp only; split <;> rfl

theorem changed_constant : ∀ q ∈ fieldPlaces [(0, 0)], ∃ v : Int, FitsScalar q.type (.int v) ∧
    packScalar q.type (.int v) = .ok (q.bytes changed) ∧ takes q.name (.bits (bytesBits changed), [(0, 0)]) = [.int v] := by
  have h : (fieldPlaces [(0, 0)]).all (fun q => match unpackScalar q.type (q.bytes changed) with
      | .int v => decide (packScalar q.type (.int v) = .ok (q.bytes changed)) &&
        decide (takes q.name (.bits (bytesBits changed), [(0, 0)]) = [.int v])
      | _ => false) = true := by decide +kernel
  intro q hq
  have := List.all_eq_true.1 h q hq
  cases hu : unpackScalar q.type (q.bytes changed) with
  | int v =>
    rw [hu] at this
    simp only [Bool.and_eq_true, decide_eq_true_eq] at this
    exact ⟨v, packScalar_ok this.1, this.1, this.2⟩
  | flt b => rw [hu] at this; simp at this
  | raw b => rw [hu] at this; simp at this

open Classical in
/-- The hypotheses of `c122_learned` are met: after one decoded word every field of the heartbeat is constant, and the next word
received, in which every bit is one, is handed over with the sequence number, mode and all other fields of the first. -/
example : ∃ out, (Mav.predict learnCfg (Mav.run learnCfg (fun (_ : Unit) _ => ((), .ok 0)) finds
      (Mav.new learnCfg.nClusters (BufferModel.new none) () ()) [[1, -1]]).1 (List.replicate 136 (-1)) (0 : Nat)).2 = .ok out ∧
    ∀ i < 120, (hardBits out.llr)[i]? = (bytesBits changed)[i]? := by
  have hr : InRange 17 [(0, 0)] := by
    intro r hr
    simp at hr
    subst hr
    exact ⟨Dialect.msg0, by decide +kernel, by decide, by decide, by decide⟩
  have hg : ∀ w, learnCfg.infoBytes w = if w.length = 136 then bitsToBytes w else [] := fun _ => rfl
  have hi : learnCfg.infoBytes (bytesBits changed) = changed := by
    rw [hg, if_pos (by decide +kernel), bitsToBytes_bytesBits]
  have hsucc : messagesIn changed = [(0, 0)] := by decide +kernel
  have hL : (learnedWords learnCfg.infoBytes [] [⟨0, [1, -1], ⟨bytesBits changed, [1, 1], true, 3, [], []⟩, hardBits [1, -1]⟩]).filter
      (fun a => Addable a) = [(.bits (bytesBits changed), [(0, 0)])] := by
    simp only [learnedWords, structureAfter, List.nil_append, List.find?_cons, beq_self_eq_true, Bool.and_self,
      Option.map_some, hi, hsucc, List.append_nil, if_true]
    rw [List.filter_cons_of_pos, List.filter_nil]
    have : Addable (.bits (bytesBits changed), [(0, 0)]) := 
      ⟨changed, by decide +kernel, hr⟩
    exact decide_eq_true this
  have hfield : ∀ q ∈ fieldPlaces [(0, 0)], ∃ v : Int, packScalar q.type (.int v) = .ok (q.bytes changed) ∧
      ConstantField trueOps none (fun name => [(BufArg.bits (bytesBits changed), [(0, 0)])].flatMap (takes name)) q (.int v) ∧
      ∃ b, meanBits trueOps none ([(BufArg.bits (bytesBits changed), [(0, 0)])].flatMap (takes q.name)) q.type = .ok b ∧
        b.length = 8 * width q.type := by
    intro q hq
    obtain ⟨v, h1, h2, h3⟩ := changed_constant q hq
    have h4 : [(BufArg.bits (bytesBits changed), [(0, 0)])].flatMap (takes q.name) = [.int v] := by simp [h3]
    refine ⟨v, h2, ⟨by simp [windowed, h3], trueOps_exact _ _ _ h1⟩, ?_⟩
    obtain ⟨bs, g1, _⟩ := packScalar_fits h1
    refine ⟨bytesBits bs, ?_, by rw [bytesBits_length, packScalar_length g1, width_size]⟩
    rw [h4, meanBits, if_neg (by simp), trueOps_fit _ (by simp [windowed]) v (by simp [windowed])]
    simp only [Except.bind, trueOps_toBits q.type v h1 bs g1]
  obtain ⟨out, h1, h2, h3⟩ := c122_learned (c := learnCfg) rfl (by norm_num [learnCfg]) (by norm_num [learnCfg])
    (fun (_ : Unit) _ => ((), .ok 0)) finds none () () [[1, -1]] _ _ _ rfl learn_first.symm hL.symm
    (by
      intro w
      rw [hg]
      split
      · rename_i hw
        simp [bitsToBytes, hw]
      · simp)
    0 (by decide) [(0, 0)] (by simp [structureAfter, hi, hsucc]) (List.replicate 136 (-1)) 17 (by simp)
    ⟨-1, by simp, by norm_num⟩ hr _ rfl (fun q hq => (hfield q hq).choose_spec.2.2)
  refine ⟨out, h1, fun i hlt => ?_⟩
  have hhard : hardBits (List.replicate 136 (-1 : ℝ)) = List.replicate 136 true := by simp [hardBits]
  have hmsg : messagesIn (learnCfg.infoBytes (hardBits (List.replicate 136 (-1 : ℝ)))) = [] := by
    rw [hhard, hg, if_pos (by rw [List.length_replicate])]
    decide +kernel
  rw [hmsg] at h3
  have hcover : ∀ k < 15, ∃ q ∈ fieldPlaces [(0, 0)], q.Has k := by decide +kernel
  obtain ⟨q, hq, hh⟩ := hcover (i / 8) (by omega)
  obtain ⟨v, k1, k2, _⟩ := hfield q hq
  have hb := bit_of_place (len := 17) (bytesBits changed) (by decide +kernel) q i hh
  rw [bitsToBytes_bytesBits] at hb
  rw [(h3 i (by simp; omega)).1 q hq (.int v) _ hh k2 k1 (by rintro ⟨r, hr, _⟩; simp at hr), hb]

/-- A window with two values is one of a varied field. -/
example (w : Option Nat) (hist : String → List Val) (q : Place) (h : windowed w (hist q.name) = [.int 0, .int 2]) :
    VariedField trueOps w hist q := by
  have hs : stdDev [(0 : ℝ), 2] ≠ 0 := by
    rw [Ne, stdDev_eq_zero]
    intro hc
    have h0 := hc 0 (by simp)
    have h2 := hc 2 (by simp)
    linarith
  have hp : 0 < stdDev [(0 : ℝ), 2] := lt_of_le_of_ne (stdDev_nonneg _) (Ne.symm hs)
  refine ⟨average [(0 : ℝ), 2], stdDev [(0 : ℝ), 2], ?_, hp, ?_⟩
  · rw [h]
    show Except.ok (average ([Val.int 0, .int 2].map realOf), stdDev ([Val.int 0, .int 2].map realOf)) = _
    simp [realOf]
  · simpa [trueOps] using hp

end NR.C122
