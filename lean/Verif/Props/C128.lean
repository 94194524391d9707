import Verif.Lemmas.Double
import Verif.Props.C126
import Verif.Lemmas.Float32
/-
C128: the statistics of a field in floating point: when a field that never varied is recognised as such, and when not.
-/
namespace NR.C128
open NR Spec Dialect NR.C116 NR.C117 NR.C122 NR.C126

variable {rnd : ℝ → ℝ}

/-! ### Windows that hold one number -/

theorem sum_const (R : Rounding rnd) (k e : ℤ) (n : Nat) (hk : (n : ℤ) * |k| < 2 ^ 53) (h1 : -1074 ≤ e) (h2 : e ≤ 971)
    (xs : List ℝ) (hx : ∀ x ∈ xs, x = k * (2 : ℝ) ^ e) (t : SumTree) (hin : ∀ i ∈ t.leaves, i < xs.length)
    (hlen : t.leaves.length ≤ n) : t.sum rnd xs = t.leaves.length * (k * (2 : ℝ) ^ e) := by
  induction t with
  | leaf i =>
    have hi := hin i (by simp [SumTree.leaves])
    simp only [SumTree.sum, SumTree.leaves, List.length_singleton, Nat.cast_one, one_mul]
    rw [List.getD_eq_getElem?_getD, List.getElem?_eq_getElem hi]
    exact hx _ (List.getElem_mem hi)
  | node l r ihl ihr =>
    simp only [SumTree.leaves, List.length_append] at hlen
    rw [SumTree.sum, ihl (fun i hi => hin i (by simp [SumTree.leaves, hi])) (by omega),
      ihr (fun i hi => hin i (by simp [SumTree.leaves, hi])) (by omega), rnd_double R]
    · simp only [SumTree.leaves, List.length_append]; push_cast; ring
    · refine ⟨((l.leaves.length + r.leaves.length : Nat) : ℤ) * k, e, ?_, h1, h2, by push_cast; ring⟩
      rw [abs_mul, Nat.abs_cast]
      refine lt_of_le_of_lt ?_ hk
      exact mul_le_mul_of_nonneg_right (by exact_mod_cast hlen) (abs_nonneg k)

variable {M : Machine}

theorem order_facts (ok : M.Ok) (xs : List ℝ) (hne : xs ≠ []) :
    (M.order xs.length).leaves.length = xs.length ∧ ∀ i, i ∈ (M.order xs.length).leaves ↔ i < xs.length := by
  have := ok.all xs.length (List.length_pos_iff.2 hne)
  exact ⟨by simpa using this.length_eq, fun i => by rw [this.mem_iff, List.mem_range]⟩

theorem mean_const (ok : M.Ok) (k e : ℤ) (h1 : -1074 ≤ e) (h2 : e ≤ 971) (xs : List ℝ) (hne : xs ≠ [])
    (hk : (xs.length : ℤ) * |k| < 2 ^ 53) (hx : ∀ x ∈ xs, x = k * (2 : ℝ) ^ e) : M.mean xs = k * (2 : ℝ) ^ e := by
  obtain ⟨g1, g2⟩ := order_facts ok xs hne
  have hl : (xs.length : ℝ) ≠ 0 := by
    have := List.length_pos_iff.2 hne
    positivity
  have hpos : 1 ≤ xs.length := List.length_pos_iff.2 hne
  unfold Machine.mean
  rw [sum_const ok.rounds k e xs.length hk h1 h2 xs hx _ (fun i hi => (g2 i).1 hi) g1.le, g1, mul_div_cancel_left₀ _ hl]
  refine rnd_double ok.rounds ⟨k, e, ?_, h1, h2, rfl⟩
  refine lt_of_le_of_lt ?_ hk
  nlinarith [abs_nonneg k, (by exact_mod_cast hpos : (1 : ℤ) ≤ xs.length)]

/-- C128: if all samples are the same double `k · 2^e` and there are so few of them that their number times `k` is below 2^53,
the mean is that number exactly and the deviation is zero, whatever the order of the additions. -/
theorem c128_constant (ok : M.Ok) (k e : ℤ) (h1 : -1074 ≤ e) (h2 : e ≤ 971) (xs : List ℝ) (hne : xs ≠ [])
    (hk : (xs.length : ℤ) * |k| < 2 ^ 53) (hx : ∀ x ∈ xs, x = k * (2 : ℝ) ^ e) :
    M.mean xs = k * (2 : ℝ) ^ e ∧ M.std xs = 0 := by
  have hm := mean_const ok k e h1 h2 xs hne hk hx
  have r0 : M.rnd 0 = 0 := rnd_double ok.rounds double_zero
  refine ⟨hm, ?_⟩
  unfold Machine.std
  have hz : M.mean (xs.map fun x => M.rnd (M.rnd (x - M.mean xs) * M.rnd (x - M.mean xs))) = (0 : ℤ) * (2 : ℝ) ^ (0 : ℤ) := by
    refine mean_const ok 0 0 (by omega) (by omega) _ (by simpa using hne) (by simp) ?_
    intro x hx'
    obtain ⟨y, hy, rfl⟩ := List.mem_map.1 hx'
    rw [hm, hx y hy, sub_self, r0, mul_zero, r0]
    simp
  rw [hz]
  simp [r0]

/-! ### Fields -/

theorem fit_nums (l : List Val) (qs : List ℚ) (h : l.mapM numValue = some qs) :
    M.fit l = .ok (M.mean (qs.map fun q : ℚ => M.rnd q), M.std (qs.map fun q : ℚ => M.rnd q)) := by
  have hr : l.any isBytes = false := by
    rw [List.any_eq_false]
    intro v hv
    obtain ⟨q, hq⟩ : ∃ q, numValue v = some q := by
      induction l generalizing qs with
      | nil => cases hv
      | cons a l ih =>
        rw [List.mapM_cons] at h
        cases ha : numValue a with
        | none => rw [ha] at h; cases h
        | some q =>
          rcases List.mem_cons.1 hv with rfl | hv
          · exact ⟨q, ha⟩
          · rw [ha] at h
            cases hl : l.mapM numValue with
            | none => rw [hl] at h; cases h
            | some qs' => exact ih qs' hl hv
    cases v with
    | raw b => cases hq
    | int i => simp [isBytes]
    | flt b => simp [isBytes]
  unfold Machine.fit
  rw [hr, h]
  rfl

theorem nums_const (l : List Val) (v : Val) (q : ℚ) (hq : numValue v = some q) (h : ∀ u ∈ l, u = v) :
    l.mapM numValue = some (List.replicate l.length q) := by
  induction l with
  | nil => rfl
  | cons a l ih =>
    rw [List.mapM_cons, h a List.mem_cons_self, hq, ih fun u hu => h u (List.mem_cons_of_mem _ hu)]
    rfl

theorem fit_const (ok : M.Ok) (l : List Val) (hne : l ≠ []) (v : Val) (h : ∀ u ∈ l, u = v) (q : ℚ) (hq : numValue v = some q)
    (k e : ℤ) (h1 : -1074 ≤ e) (h2 : e ≤ 971) (hke : (q : ℝ) = k * (2 : ℝ) ^ e) (hk : (l.length : ℤ) * |k| < 2 ^ 53) :
    M.fit l = .ok ((q : ℝ), 0) := by
  have hpos : 1 ≤ l.length := List.length_pos_iff.2 hne
  have hd : IsDouble (q : ℝ) := ⟨k, e, by
    refine lt_of_le_of_lt ?_ hk
    nlinarith [abs_nonneg k, (by exact_mod_cast hpos : (1 : ℤ) ≤ l.length)], h1, h2, hke⟩
  obtain ⟨g1, g2⟩ := c128_constant ok k e h1 h2 (List.replicate l.length (q : ℝ))
    (by intro h0; exact hne (by simpa using h0)) (by simpa using hk)
    (by intro x hx; rw [List.eq_of_mem_replicate hx, hke])
  rw [fit_nums l _ (nums_const l v q hq h), List.map_replicate, rnd_double ok.rounds hd, g1, g2, ← hke]

theorem f32_parts (b : BitVec 32) (u : Int) (h : f32Value b = .fin u) :
    ∃ k e : ℤ, |k| < 2 ^ 24 ∧ -149 ≤ e ∧ e ≤ 104 ∧ (((u : ℚ) / 2 ^ 149 : ℚ) : ℝ) = k * (2 : ℝ) ^ e := by
  rw [f32Value_eq] at h
  split at h
  · split at h <;> cases h
  · rename_i he
    injection h with h
    subst h
    generalize hs : (if b.toNat / 2 ^ 31 = 1 then (-1 : ℤ) else 1) = s
    have hs' : |s| = 1 := by rw [← hs]; split <;> simp
    have hm : b.toNat % 2 ^ 23 < 2 ^ 23 := Nat.mod_lt _ (by norm_num)
    have hE : b.toNat / 2 ^ 23 % 256 < 256 := Nat.mod_lt _ (by norm_num)
    generalize b.toNat % 2 ^ 23 = m at *
    generalize b.toNat / 2 ^ 23 % 256 = E at *
    unfold f32Mag
    split
    · refine ⟨s * m, -149, ?_, by omega, by omega, ?_⟩
      · rw [abs_mul, hs', one_mul, Nat.abs_cast]
        norm_num at hm ⊢
        omega
      · push_cast
        rw [zpow_neg, div_eq_mul_inv]
        norm_cast
    · rename_i hE0
      refine ⟨s * (2 ^ 23 + m : ℕ), (E : ℤ) - 150, ?_, by omega, by omega, ?_⟩
      · rw [abs_mul, hs', one_mul, Nat.abs_cast]
        norm_num at hm ⊢
        omega
      · have : ((E : ℤ) - 150) = ((E - 1 : ℕ) : ℤ) - ((149 : ℕ) : ℤ) := by omega
        rw [this, zpow_sub₀ (by norm_num), zpow_natCast, zpow_natCast]
        push_cast
        ring

theorem f32_inj {a b : BitVec 32} {u : Int} (ha : f32Value a = .fin u) (hb : f32Value b = .fin u) (hu : u ≠ 0) : a = b := by
  have := (valEq_flt a b).2 ⟨by rw [ha]; simp, by rw [ha, hb]⟩
  simp only [valEq, Bool.and_eq_true, Bool.or_eq_true, decide_eq_true_eq, f32IsZero] at this
  rcases this.2 with h | ⟨h, _⟩
  · exact h
  · exfalso
    have e1 : a.toNat / 2 ^ 23 % 256 = 0 := by omega
    have e3 : a.toNat % 2 ^ 23 = 0 := by omega
    rw [f32Value_eq, e1, e3] at ha
    simp [f32Mag] at ha
    exact hu ha.symm

theorem toBits_rat (q : ℚ) (t : CType) : M.ops.toBits (q : ℝ) t = num2bits M.toF32 (.num q) t.cname := by
  have hex : ∃ p : ℚ, (p : ℝ) = (q : ℝ) := ⟨q, rfl⟩
  unfold Machine.ops
  simp only
  rw [dif_pos hex]
  congr 2
  exact_mod_cast hex.choose_spec

/-- The number of samples a model with window size `w` keeps is at most `n`. -/
def Keeps (w : Option Nat) (n : Nat) : Prop := ∃ k, w = some k ∧ 0 < k ∧ k ≤ n

theorem keeps_length {w : Option Nat} {n : Nat} (hw : Keeps w n) (l : List Val) (h : windowed w l = l) : l.length ≤ n := by
  obtain ⟨k, rfl, hk, hkn⟩ := hw
  obtain ⟨k, rfl⟩ : ∃ j, k = j + 1 := ⟨k - 1, by omega⟩
  rw [← h]
  simp only [windowed, lastN_length]
  omega

/-- C128: for a field of integers the statistics are exact if the window size times the number is below 2^53: in particular for
all integers of up to 32 bits and windows of up to 2^21 words. -/
theorem c128_exact_int (ok : M.Ok) (w : Option Nat) (n : Nat) (hw : Keeps w n) (t : CType) (i : Int) (hf : FitsScalar t (.int i))
    (hlt : (n : ℤ) * |i| < 2 ^ 53) (hall : ∀ j, FitsScalar t (.int j) → |j| < 2 ^ 53) : ExactFor M.ops w t (.int i) where
  zero := rfl
  one := rfl
  nonPos := by simp [Machine.ops]
  mean := by
    refine ⟨((i : ℚ) : ℝ), fun l hne hwl h => ?_, fun bs hb => ?_, fun bs hp => ?_⟩
    · refine fit_const ok l hne (.int i) h i rfl i 0 (by omega) (by omega) (by simp) (lt_of_le_of_lt ?_ hlt)
      exact mul_le_mul_of_nonneg_right (by exact_mod_cast keeps_length hw l hwl) (abs_nonneg _)
    · obtain ⟨j, hj⟩ := unpack_int hf bs
      have hfj : FitsScalar t (.int j) := by
        have := packScalar_ok (packScalar_unpackScalar hb)
        rwa [hj] at this
      rw [hj]
      show decide (M.rnd ((j : ℚ) : ℝ) = ((i : ℚ) : ℝ)) = true ↔ _
      rw [Rat.cast_intCast, rnd_double ok.rounds (double_int j (hall j hfj))]
      simp
    · rw [toBits_rat]
      obtain ⟨bs', g1, g2, _⟩ := c33_integer M.toF32 t i hf
      rw [hp] at g1
      cases g1
      exact g2

/-- A single precision number that is finite and not zero. -/
def Proper (b : BitVec 32) : Prop := ∃ u, f32Value b = .fin u ∧ u ≠ 0

/-- C128: for a field of floats the statistics are exact for every finite number but zero and windows of up to 2^29 words. -/
theorem c128_exact_float (ok : M.Ok) (w : Option Nat) (hw : Keeps w (2 ^ 29)) (b : BitVec 32) (hb : Proper b) :
    ExactFor M.ops w .f32 (.flt b) where
  zero := rfl
  one := rfl
  nonPos := by simp [Machine.ops]
  mean := by
    obtain ⟨u, hu, h0⟩ := hb
    obtain ⟨k, e, h1, h2, h3, h4⟩ := f32_parts b u hu
    have hv : numValue (.flt b) = some ((u : ℚ) / 2 ^ 149) := by simp [numValue, hu]
    refine ⟨(((u : ℚ) / 2 ^ 149 : ℚ) : ℝ), fun l hne hwl h => ?_, fun bs hbs => ?_, fun bs hp => ?_⟩
    · refine fit_const ok l hne (.flt b) h _ hv k e (by omega) (by omega) h4 ?_
      have := keeps_length hw l hwl
      have : (l.length : ℤ) ≤ 2 ^ 29 := by exact_mod_cast this
      nlinarith [abs_nonneg k]
    · generalize hx : unpackScalar .f32 bs = x
      obtain ⟨c, rfl⟩ : ∃ c, x = .flt c := ⟨_, hx.symm⟩
      unfold Machine.ops
      simp only
      cases hc : f32Value c with
      | fin u' =>
        have hv' : numValue (.flt c) = some ((u' : ℚ) / 2 ^ 149) := by simp [numValue, hc]
        obtain ⟨k', e', g1, g2, g3, g4⟩ := f32_parts c u' hc
        rw [hv']
        simp only [decide_eq_true_eq, Val.flt.injEq]
        rw [rnd_double ok.rounds ⟨k', e', by omega, by omega, by omega, g4⟩, Rat.cast_inj]
        constructor
        · intro he
          have : u' = u := by
            field_simp at he
            exact_mod_cast he
          subst this
          exact f32_inj hc hu h0
        · rintro rfl
          rw [hu] at hc
          cases hc
          rfl
      | nan =>
        have hv' : numValue (.flt c) = none := by simp [numValue, hc]
        rw [hv']
        simp only [Bool.false_eq_true, false_iff, Val.flt.injEq]
        rintro rfl
        rw [hu] at hc; cases hc
      | inf s =>
        have hv' : numValue (.flt c) = none := by simp [numValue, hc]
        rw [hv']
        simp only [Bool.false_eq_true, false_iff, Val.flt.injEq]
        rintro rfl
        rw [hu] at hc; cases hc
    · rw [toBits_rat, show CType.f32.cname = "float" from rfl, c33_float M.toF32 _ (by simp), ok.single b u hu h0]
      simp only [packScalar, Except.ok.injEq] at hp
      subst hp
      rfl

/-! ### Fields of integers that are not too large -/

/-- The sum over the leaves. -/
def total (zs : List ℤ) (t : SumTree) : ℤ := (t.leaves.map fun i => zs.getD i 0).sum

theorem total_bound (zs : List ℤ) (lo hi : ℤ) (h : ∀ z ∈ zs, lo ≤ z ∧ z ≤ hi) (t : SumTree) (hin : ∀ i ∈ t.leaves, i < zs.length) :
    t.leaves.length * lo ≤ total zs t ∧ total zs t ≤ t.leaves.length * hi := by
  unfold total
  generalize t.leaves = is at *
  induction is with
  | nil => simp
  | cons i is ih =>
    obtain ⟨g1, g2⟩ := ih fun j hj => hin j (List.mem_cons_of_mem _ hj)
    have hi' := hin i List.mem_cons_self
    obtain ⟨k1, k2⟩ := h _ (List.getElem_mem hi')
    simp only [List.map_cons, List.sum_cons, List.length_cons]
    rw [List.getD_eq_getElem?_getD, List.getElem?_eq_getElem hi', Option.getD_some]
    push_cast
    constructor <;> linarith

theorem sum_ints (R : Rounding rnd) (zs : List ℤ) (B : ℤ) (hB : ∀ z ∈ zs, |z| ≤ B) (n : Nat) (hn : (n : ℤ) * B < 2 ^ 53)
    (t : SumTree) (hin : ∀ i ∈ t.leaves, i < zs.length) (hlen : t.leaves.length ≤ n) :
    t.sum rnd (zs.map fun z : ℤ => (z : ℝ)) = (total zs t : ℝ) := by
  induction t with
  | leaf i =>
    have hi := hin i (by simp [SumTree.leaves])
    simp only [SumTree.sum, total, SumTree.leaves, List.map_cons, List.map_nil, List.sum_cons, List.sum_nil, add_zero]
    rw [List.getD_eq_getElem?_getD, List.getElem?_map, List.getD_eq_getElem?_getD, List.getElem?_eq_getElem hi]
    rfl
  | node l r ihl ihr =>
    have hlen' := hlen
    simp only [SumTree.leaves, List.length_append] at hlen'
    have hs : (total zs l : ℝ) + total zs r = ((total zs (.node l r) : ℤ) : ℝ) := by
      simp only [total, SumTree.leaves, List.map_append, List.sum_append]
      push_cast
      ring
    rw [SumTree.sum, ihl (fun i hi => hin i (by simp [SumTree.leaves, hi])) (by omega),
      ihr (fun i hi => hin i (by simp [SumTree.leaves, hi])) (by omega), hs, rnd_double R]
    apply double_int
    obtain ⟨b1, b2⟩ := total_bound zs (-B) B (fun z hz => abs_le.1 (hB z hz)) (.node l r) hin
    have hle : ((SumTree.node l r).leaves.length : ℤ) ≤ n := by exact_mod_cast hlen
    have h0 : 0 ≤ B := by
      obtain ⟨i, hi⟩ : ∃ i, i ∈ (SumTree.node l r).leaves := by
        have : ∀ t : SumTree, ∃ i, i ∈ t.leaves := by
          intro t
          induction t with
          | leaf i => exact ⟨i, by simp [SumTree.leaves]⟩
          | node a b ih _ => obtain ⟨i, hi⟩ := ih; exact ⟨i, by simp [SumTree.leaves, hi]⟩
        exact this _
      exact le_trans (abs_nonneg _) (hB _ (List.getElem_mem (hin i hi)))
    rw [abs_lt]
    constructor <;> nlinarith

theorem total_perm (zs : List ℤ) (t : SumTree) (h : t.leaves.Perm (List.range zs.length)) : total zs t = zs.sum := by
  unfold total
  rw [(h.map _).sum_eq]
  congr 1
  refine List.ext_getElem (by simp) fun i h1 h2 => ?_
  simp only [List.getElem_map, List.getElem_range]
  rw [List.getD_eq_getElem?_getD, List.getElem?_eq_getElem h2]
  rfl

/-- The mean of integers: the rounded quotient of their sum, and between the smallest and the largest. -/
theorem mean_ints (ok : M.Ok) (zs : List ℤ) (hne : zs ≠ []) (B : ℤ) (hB : ∀ z ∈ zs, |z| ≤ B)
    (hn : (zs.length : ℤ) * B < 2 ^ 53) :
    M.mean (zs.map fun z : ℤ => (z : ℝ)) = M.rnd ((zs.sum : ℝ) / zs.length) ∧
      ∀ lo hi : ℤ, |lo| < 2 ^ 53 → |hi| < 2 ^ 53 → (∀ z ∈ zs, lo ≤ z ∧ z ≤ hi) →
        (lo : ℝ) ≤ M.mean (zs.map fun z : ℤ => (z : ℝ)) ∧ M.mean (zs.map fun z : ℤ => (z : ℝ)) ≤ hi := by
  have hpos := List.length_pos_iff.2 hne
  have hperm := ok.all zs.length hpos
  have hin : ∀ i ∈ (M.order zs.length).leaves, i < zs.length := fun i hi => by
    rw [hperm.mem_iff, List.mem_range] at hi
    exact hi
  have hlen : (M.order zs.length).leaves.length = zs.length := by simpa using hperm.length_eq
  have hm : M.mean (zs.map fun z : ℤ => (z : ℝ)) = M.rnd ((zs.sum : ℝ) / zs.length) := by
    unfold Machine.mean
    rw [List.length_map, sum_ints ok.rounds zs B hB zs.length hn _ hin hlen.le, total_perm zs _ hperm]
  refine ⟨hm, fun lo hi hlo hhi hb => ?_⟩
  obtain ⟨b1, b2⟩ := total_bound zs lo hi hb _ hin
  rw [hlen, total_perm zs _ hperm] at b1 b2
  have hl : (0 : ℝ) < zs.length := by exact_mod_cast hpos
  rw [hm]
  constructor
  · refine rnd_ge ok.rounds (double_int lo hlo) ?_
    rw [le_div_iff₀ hl]
    have : ((zs.length * lo : ℤ) : ℝ) ≤ zs.sum := by exact_mod_cast b1
    rw [Int.cast_mul, Int.cast_natCast] at this
    linarith
  · refine rnd_le ok.rounds (double_int hi hhi) ?_
    rw [div_le_iff₀ hl]
    have : (zs.sum : ℝ) ≤ ((zs.length * hi : ℤ) : ℝ) := by exact_mod_cast b2
    rw [Int.cast_mul, Int.cast_natCast] at this
    linarith

theorem sum_pos (R : Rounding rnd) (xs : List ℝ) (h0 : ∀ x ∈ xs, 0 ≤ x) (c : ℝ) (hc : IsDouble c) (t : SumTree)
    (hin : ∀ i ∈ t.leaves, i < xs.length) : 0 ≤ t.sum rnd xs ∧ ((∃ i ∈ t.leaves, c ≤ xs.getD i 0) → c ≤ t.sum rnd xs) := by
  induction t with
  | leaf i =>
    have hi := hin i (by simp [SumTree.leaves])
    refine ⟨?_, ?_⟩
    · simp only [SumTree.sum]
      rw [List.getD_eq_getElem?_getD, List.getElem?_eq_getElem hi]
      exact h0 _ (List.getElem_mem hi)
    · rintro ⟨j, hj, h⟩
      simp only [SumTree.leaves, List.mem_singleton] at hj
      subst hj
      exact h
  | node l r ihl ihr =>
    obtain ⟨l1, l2⟩ := ihl fun i hi => hin i (by simp [SumTree.leaves, hi])
    obtain ⟨r1, r2⟩ := ihr fun i hi => hin i (by simp [SumTree.leaves, hi])
    refine ⟨rnd_ge R double_zero (by positivity), ?_⟩
    rintro ⟨i, hi, h⟩
    simp only [SumTree.leaves, List.mem_append] at hi
    refine rnd_ge R hc ?_
    rcases hi with hi | hi
    · have := l2 ⟨i, hi, h⟩; linarith
    · have := r2 ⟨i, hi, h⟩; linarith

/-- C128: if the samples are integers that are not all the same, and the number of samples times the largest is below 2^53, the
deviation is positive, whatever the order of the additions. -/
theorem c128_varied (ok : M.Ok) (zs : List ℤ) (B : ℤ) (hB : ∀ z ∈ zs, |z| ≤ B) (hn : (zs.length : ℤ) * B < 2 ^ 53)
    (hv : ∃ a ∈ zs, ∃ b ∈ zs, a ≠ b) : 0 < M.std (zs.map fun z : ℤ => (z : ℝ)) := by
  obtain ⟨a, ha, b, hb, hab⟩ := hv
  have hne : zs ≠ [] := List.ne_nil_of_mem ha
  have hpos := List.length_pos_iff.2 hne
  have hB1 : 1 ≤ B := by
    by_contra hlt
    have h1 := abs_nonpos_iff.1 (le_trans (hB a ha) (by omega))
    have h2 := abs_nonpos_iff.1 (le_trans (hB b hb) (by omega))
    exact hab (by rw [h1, h2])
  have hlt : (zs.length : ℤ) < 2 ^ 53 := by nlinarith [(by exact_mod_cast hpos : (0 : ℤ) < zs.length)]
  have hltR : (zs.length : ℝ) < 2 ^ (53 : ℤ) := by exact_mod_cast hlt
  have hlR : (0 : ℝ) < zs.length := by exact_mod_cast hpos
  generalize hxs : (zs.map fun z : ℤ => (z : ℝ)) = xs
  have hxl : xs.length = zs.length := by rw [← hxs]; simp
  -- the mean is a multiple of 2^-105
  have hmean : ∃ m : ℤ, M.mean xs = m * (2 : ℝ) ^ (-105 : ℤ) := by
    rw [← hxs, (mean_ints ok zs hne B hB hn).1]
    by_cases hs : zs.sum = 0
    · refine ⟨0, ?_⟩
      rw [hs]
      simp [rnd_double ok.rounds double_zero]
    · have hd : (2 : ℝ) ^ (-53 : ℤ) ≤ |(zs.sum : ℝ) / zs.length| := by
        rw [abs_div, abs_of_pos hlR, le_div_iff₀ hlR]
        have h1 : (1 : ℝ) ≤ |(zs.sum : ℝ)| := by
          rw [← Int.cast_abs]
          exact_mod_cast Int.one_le_abs hs
        calc (2 : ℝ) ^ (-53 : ℤ) * zs.length ≤ 2 ^ (-53 : ℤ) * 2 ^ (53 : ℤ) :=
              mul_le_mul_of_nonneg_left hltR.le (by positivity)
          _ = 1 := by rw [← zpow_add₀ (by norm_num)]; simp
          _ ≤ _ := h1
      have := rnd_abs ok.rounds (double_pow (-53) (by omega) (by omega)) hd
      obtain ⟨m, hm⟩ := double_step (ok.rounds.double _) (-53) this
      exact ⟨m, by rw [hm]; norm_num⟩
  obtain ⟨m, hm⟩ := hmean
  -- one of the samples is not the mean
  obtain ⟨z, hz, hzm⟩ : ∃ z ∈ zs, (z : ℝ) ≠ M.mean xs := by
    by_contra hall
    push Not at hall
    exact hab (by exact_mod_cast (hall a ha).trans (hall b hb).symm)
  have hdev : (2 : ℝ) ^ (-105 : ℤ) ≤ |(z : ℝ) - M.mean xs| := by
    have he : (z : ℝ) - M.mean xs = ((z * 2 ^ 105 - m : ℤ) : ℝ) * (2 : ℝ) ^ (-105 : ℤ) := by
      rw [hm, show (-105 : ℤ) = -((105 : ℕ) : ℤ) from rfl, zpow_neg, zpow_natCast]
      push_cast
      field_simp
      norm_num
    have hne0 : (z * 2 ^ 105 - m : ℤ) ≠ 0 := by
      intro h0
      rw [h0] at he
      simp at he
      exact hzm (by linarith)
    rw [he, abs_mul, abs_of_pos (by positivity : (0 : ℝ) < 2 ^ (-105 : ℤ)), ← Int.cast_abs]
    have : (1 : ℝ) ≤ ((|z * 2 ^ 105 - m| : ℤ) : ℝ) := by exact_mod_cast Int.one_le_abs hne0
    nlinarith [(by positivity : (0 : ℝ) < 2 ^ (-105 : ℤ))]
  have hrd := rnd_abs ok.rounds (double_pow (-105) (by omega) (by omega)) hdev
  have hsq : (2 : ℝ) ^ (-210 : ℤ) ≤ M.rnd ((z : ℝ) - M.mean xs) * M.rnd ((z : ℝ) - M.mean xs) := by
    rw [← abs_mul_abs_self]
    calc (2 : ℝ) ^ (-210 : ℤ) = 2 ^ (-105 : ℤ) * 2 ^ (-105 : ℤ) := by rw [← zpow_add₀ (by norm_num)]; norm_num
      _ ≤ _ := mul_le_mul hrd hrd (by positivity) (abs_nonneg _)
  have hq := rnd_ge ok.rounds (double_pow (-210) (by omega) (by omega)) hsq
  -- the squares
  unfold Machine.std
  generalize hys : (xs.map fun x => M.rnd (M.rnd (x - M.mean xs) * M.rnd (x - M.mean xs))) = ys
  have hyl : ys.length = zs.length := by rw [← hys, List.length_map, hxl]
  have hperm := ok.all zs.length hpos
  have hin : ∀ i, i ∈ (M.order zs.length).leaves ↔ i < zs.length := fun i => by rw [hperm.mem_iff, List.mem_range]
  have hy0 : ∀ y ∈ ys, 0 ≤ y := by
    intro y hy
    rw [← hys] at hy
    obtain ⟨x, _, rfl⟩ := List.mem_map.1 hy
    exact rnd_ge ok.rounds double_zero (mul_self_nonneg _)
  obtain ⟨i, hi, hiz⟩ := List.mem_iff_getElem.1 hz
  have hsum := (sum_pos ok.rounds ys hy0 _ (double_pow (-210) (by omega) (by omega)) (M.order zs.length)
    (fun i hi => by rw [hyl]; exact (hin i).1 hi)).2 ⟨i, (hin i).2 hi, by
      rw [List.getD_eq_getElem?_getD, List.getElem?_eq_getElem (by omega), Option.getD_some]
      simp only [← hys, ← hxs, List.getElem_map]
      rw [hiz, hxs]
      exact hq⟩
  have hmq : (2 : ℝ) ^ (-264 : ℤ) ≤ M.mean ys := by
    unfold Machine.mean
    rw [hyl]
    refine rnd_ge ok.rounds (double_pow (-264) (by omega) (by omega)) ?_
    rw [le_div_iff₀ hlR]
    refine le_trans ?_ hsum
    calc (2 : ℝ) ^ (-264 : ℤ) * zs.length ≤ 2 ^ (-264 : ℤ) * 2 ^ (53 : ℤ) := mul_le_mul_of_nonneg_left hltR.le (by positivity)
      _ = 2 ^ (-211 : ℤ) := by rw [← zpow_add₀ (by norm_num)]; norm_num
      _ ≤ _ := zpow_le_zpow_right₀ (by norm_num) (by omega)
  have hsqrt : (2 : ℝ) ^ (-132 : ℤ) ≤ √(M.mean ys) := by
    apply Real.le_sqrt_of_sq_le
    refine le_trans (le_of_eq ?_) hmq
    rw [← zpow_natCast, ← zpow_mul]
    norm_num
  exact lt_of_lt_of_le (by positivity) (rnd_ge ok.rounds (double_pow (-132) (by omega) (by omega)) hsqrt)

/-- The integer types of up to 32 bits. -/
def Small (t : CType) : Prop := t ∈ [CType.u8, .u16, .u32, .i8, .i16, .i32]

theorem small_bound {t : CType} (ht : Small t) {i : Int} (hf : FitsScalar t (.int i)) : |i| ≤ 2 ^ 32 - 1 := by
  simp only [Small, List.mem_cons, List.not_mem_nil, or_false] at ht
  rw [abs_le]
  rcases ht with rfl | rfl | rfl | rfl | rfl | rfl <;> simp only [FitsScalar] at hf <;> constructor <;> omega

theorem fits_between {t : CType} (ht : Small t) {a b i : Int} (ha : FitsScalar t (.int a)) (hb : FitsScalar t (.int b))
    (h1 : a ≤ i) (h2 : i ≤ b) : FitsScalar t (.int i) := by
  simp only [Small, List.mem_cons, List.not_mem_nil, or_false] at ht
  rcases ht with rfl | rfl | rfl | rfl | rfl | rfl <;> simp only [FitsScalar] at ha hb ⊢ <;> omega

theorem nums_ints (zs : List ℤ) : (zs.map Val.int).mapM numValue = some (zs.map fun z : ℤ => (z : ℚ)) := by
  induction zs with
  | nil => rfl
  | cons z zs ih =>
    rw [List.map_cons, List.mapM_cons, ih]
    rfl

/-- C128: a field of integers of up to 32 bits, and any window of at most 2^21 samples of it that is not empty. `norm.fit`
returns; the deviation is never negative, and zero just if all samples are the same; the mean lies between the smallest and the
largest sample; and the mean can be written back into the field. So a field model over such a field never raises, and takes the
field for constant just if it is. -/
theorem c128_decides (ok : M.Ok) (t : CType) (ht : Small t) (zs : List ℤ) (hne : zs ≠ []) (hn : zs.length ≤ 2 ^ 21)
    (hf : ∀ z ∈ zs, FitsScalar t (.int z)) :
    ∃ m d, M.ops.fit (zs.map Val.int) = .ok (m, d) ∧ 0 ≤ d ∧
      (M.ops.nonPos d = true ↔ ∀ a ∈ zs, ∀ b ∈ zs, a = b) ∧
      (∃ a ∈ zs, ∃ b ∈ zs, (a : ℝ) ≤ m ∧ m ≤ b) ∧
      ∃ i bs, FitsScalar t (.int i) ∧ packScalar t (.int i) = .ok bs ∧ M.ops.toBits m t = .ok (bytesBits bs) ∧ |m - i| ≤ 1 / 2 := by
  have hB : ∀ z ∈ zs, |z| ≤ 2 ^ 32 - 1 := fun z hz => small_bound ht (hf z hz)
  have hn' : (zs.length : ℤ) * (2 ^ 32 - 1) < 2 ^ 53 := by
    have : (zs.length : ℤ) ≤ 2 ^ 21 := by exact_mod_cast hn
    nlinarith
  have hsmall : ∀ z ∈ zs, |z| < 2 ^ 53 := fun z hz => lt_of_le_of_lt (hB z hz) (by norm_num)
  have hx : ((zs.map fun z : ℤ => (z : ℚ)).map fun q : ℚ => M.rnd q) = zs.map fun z : ℤ => (z : ℝ) := by
    rw [List.map_map]
    refine List.map_congr_left fun z hz => ?_
    simp only [Function.comp_apply, Rat.cast_intCast]
    exact rnd_double ok.rounds (double_int z (hsmall z hz))
  refine ⟨_, _, fit_nums _ _ (nums_ints zs), ?_⟩
  rw [hx]
  obtain ⟨hm, hbt⟩ := mean_ints ok zs hne _ hB hn'
  obtain ⟨lo, hlo, hlo'⟩ : ∃ lo ∈ zs, ∀ z ∈ zs, lo ≤ z := by
    obtain ⟨a, h1, h2⟩ := Finset.exists_min_image zs.toFinset id (by simpa using hne)
    exact ⟨a, by simpa using h1, fun z hz => h2 z (by simpa using hz)⟩
  obtain ⟨hi, hhi, hhi'⟩ : ∃ hi ∈ zs, ∀ z ∈ zs, z ≤ hi := by
    obtain ⟨a, h1, h2⟩ := Finset.exists_max_image zs.toFinset id (by simpa using hne)
    exact ⟨a, by simpa using h1, fun z hz => h2 z (by simpa using hz)⟩
  obtain ⟨b1, b2⟩ := hbt lo hi (hsmall lo hlo) (hsmall hi hhi) fun z hz => ⟨hlo' z hz, hhi' z hz⟩
  have hconst : (∀ a ∈ zs, ∀ b ∈ zs, a = b) → M.std (zs.map fun z : ℤ => (z : ℝ)) = 0 := by
    intro h
    refine (c128_constant ok lo 0 (by omega) (by omega) _ (by simpa using hne) ?_ ?_).2
    · rw [List.length_map]
      refine lt_of_le_of_lt ?_ hn'
      exact mul_le_mul_of_nonneg_left (hB lo hlo) (by positivity)
    · intro x hx'
      obtain ⟨z, hz, rfl⟩ := List.mem_map.1 hx'
      rw [h z hz lo hlo]
      simp
  have hvar : (¬ ∀ a ∈ zs, ∀ b ∈ zs, a = b) → 0 < M.std (zs.map fun z : ℤ => (z : ℝ)) := by
    intro h
    push Not at h
    exact c128_varied ok zs _ hB hn' h
  refine ⟨?_, ?_, ⟨lo, hlo, hi, hhi, b1, b2⟩, ?_⟩
  · by_cases h : ∀ a ∈ zs, ∀ b ∈ zs, a = b
    · exact (hconst h).ge
    · exact (hvar h).le
  · show decide (_ ≤ (0 : ℝ)) = true ↔ _
    rw [decide_eq_true_eq]
    constructor
    · intro hle
      by_contra h
      linarith [hvar h]
    · intro h
      exact (hconst h).le
  · obtain ⟨q, hq⟩ : ∃ q : ℚ, (q : ℝ) = M.mean (zs.map fun z : ℤ => (z : ℝ)) := by
      rw [hm]
      exact double_rat (ok.rounds.double _)
    rw [← hq] at b1 b2 ⊢
    have b1' : (lo : ℚ) ≤ q := by exact_mod_cast b1
    have b2' : q ≤ (hi : ℚ) := by exact_mod_cast b2
    have htt : t.isUInt ∨ t.isSInt := by
      simp only [Small, List.mem_cons, List.not_mem_nil, or_false] at ht
      rcases ht with rfl | rfl | rfl | rfl | rfl | rfl <;> simp [CType.isUInt, CType.isSInt]
    obtain ⟨i, hst, _, hfit, _⟩ := c33_number M.toF32 t htt q
    have hnu : ¬ (t.isUInt ∧ q < 0) := by
      rintro ⟨hu, hneg⟩
      have hl0 : 0 ≤ lo := by
        have := hf lo hlo
        cases t <;> simp [CType.isUInt] at hu <;> exact this.1
      have : (0 : ℚ) ≤ lo := by exact_mod_cast hl0
      linarith
    unfold Stored at hst
    rw [if_neg hnu] at hst
    have habs := abs_le.1 hst.1
    have h1 : lo ≤ i := by
      have : (lo : ℚ) < i + 1 := by linarith
      have : lo < i + 1 := by exact_mod_cast this
      omega
    have h2 : i ≤ hi := by
      have : (i : ℚ) < hi + 1 := by linarith
      have : i < hi + 1 := by exact_mod_cast this
      omega
    have hfi := fits_between ht (hf lo hlo) (hf hi hhi) h1 h2
    obtain ⟨bs, g1, g2, g3⟩ := hfit hfi
    refine ⟨i, bs, hfi, ?_, by rw [toBits_rat, g1], ?_⟩
    · rw [← g3]
      exact packScalar_unpackScalar (by rw [g2, width_size])
    · have : ((|q - i| : ℚ) : ℝ) ≤ ((1 / 2 : ℚ) : ℝ) := by exact_mod_cast hst.1
      push_cast at this
      exact this

/-- C128: a field of integers of up to 32 bits whose window holds nothing but `i`. -/
theorem c128_exact_small (ok : M.Ok) (w : Option Nat) (hw : Keeps w (2 ^ 21)) (t : CType) (ht : Small t) (i : Int)
    (hf : FitsScalar t (.int i)) : ExactFor M.ops w t (.int i) :=
  c128_exact_int ok w _ hw t i hf (by have := small_bound ht hf; push_cast; linarith)
    (fun _ hj => lt_of_le_of_lt (small_bound ht hj) (by norm_num))

/-! ### Fields of floats -/

theorem sum_bound (R : Rounding rnd) (k : ℤ) (hk0 : 0 ≤ k) (e : ℤ) (h1 : -1074 ≤ e) (h2 : e ≤ 971) (n : Nat)
    (hk : (n : ℤ) * k < 2 ^ 53) (xs : List ℝ) (hx : ∀ x ∈ xs, |x| ≤ k * (2 : ℝ) ^ e) (t : SumTree)
    (hin : ∀ i ∈ t.leaves, i < xs.length) (hlen : t.leaves.length ≤ n) :
    |t.sum rnd xs| ≤ t.leaves.length * (k * (2 : ℝ) ^ e) := by
  induction t with
  | leaf i =>
    have hi := hin i (by simp [SumTree.leaves])
    simp only [SumTree.sum, SumTree.leaves, List.length_singleton, Nat.cast_one, one_mul]
    rw [List.getD_eq_getElem?_getD, List.getElem?_eq_getElem hi]
    exact hx _ (List.getElem_mem hi)
  | node l r ihl ihr =>
    simp only [SumTree.leaves, List.length_append] at hlen
    have g1 := abs_le.1 (ihl (fun i hi => hin i (by simp [SumTree.leaves, hi])) (by omega))
    have g2 := abs_le.1 (ihr (fun i hi => hin i (by simp [SumTree.leaves, hi])) (by omega))
    have hd : IsDouble (((l.leaves.length + r.leaves.length : ℕ) : ℝ) * (k * (2 : ℝ) ^ e)) := by
      refine ⟨((l.leaves.length + r.leaves.length : ℕ) : ℤ) * k, e, ?_, h1, h2, by push_cast; ring⟩
      rw [abs_mul, Nat.abs_cast, abs_of_nonneg hk0]
      refine lt_of_le_of_lt ?_ hk
      exact mul_le_mul_of_nonneg_right (by exact_mod_cast hlen) hk0
    have he : ((l.leaves.length + r.leaves.length : ℕ) : ℝ) * (k * (2 : ℝ) ^ e) =
        l.leaves.length * (k * (2 : ℝ) ^ e) + r.leaves.length * (k * (2 : ℝ) ^ e) := by push_cast; ring
    simp only [SumTree.sum, SumTree.leaves, List.length_append]
    rw [abs_le]
    constructor
    · refine rnd_ge R (double_neg hd) ?_
      rw [he]
      linarith [g1.1, g2.1]
    · refine rnd_le R hd ?_
      rw [he]
      linarith [g1.2, g2.2]

/-- The largest number of single precision. -/
noncomputable def largest : ℝ := (2 ^ 24 - 1) * 2 ^ 104

theorem largest_eq : largest = ((2 ^ 24 - 1 : ℤ) : ℝ) * (2 : ℝ) ^ (104 : ℤ) := by unfold largest; norm_num

theorem f32_bound (b : BitVec 32) (u : Int) (h : f32Value b = .fin u) : |(((u : ℚ) / 2 ^ 149 : ℚ) : ℝ)| ≤ largest := by
  obtain ⟨k, e, h1, h2, h3, h4⟩ := f32_parts b u h
  rw [h4, largest_eq, abs_mul, abs_of_pos (by positivity : (0 : ℝ) < 2 ^ e), ← Int.cast_abs]
  refine mul_le_mul ?_ (zpow_le_zpow_right₀ (by norm_num) h3) (by positivity) (by norm_num)
  exact_mod_cast (by omega : |k| ≤ 2 ^ 24 - 1)

theorem mean_floats (ok : M.Ok) (xs : List ℝ) (hne : xs ≠ []) (hn : xs.length ≤ 2 ^ 29) (hx : ∀ x ∈ xs, |x| ≤ largest) :
    |M.mean xs| ≤ largest := by
  obtain ⟨g1, g2⟩ := order_facts ok xs hne
  have hpos : (0 : ℝ) < xs.length := by exact_mod_cast List.length_pos_iff.2 hne
  have hs := sum_bound ok.rounds (2 ^ 24 - 1) (by norm_num) 104 (by omega) (by omega) xs.length (by
    have : (xs.length : ℤ) ≤ 2 ^ 29 := by exact_mod_cast hn
    nlinarith) xs (by rw [← largest_eq]; exact hx) (M.order xs.length) (fun i hi => (g2 i).1 hi) g1.le
  rw [g1, ← largest_eq] at hs
  have hd : IsDouble largest := ⟨2 ^ 24 - 1, 104, by norm_num, by omega, by omega, largest_eq⟩
  have hs' := abs_le.1 hs
  unfold Machine.mean
  rw [abs_le]
  constructor
  · refine rnd_ge ok.rounds (double_neg hd) ?_
    rw [le_div_iff₀ hpos]
    linarith [hs'.1]
  · refine rnd_le ok.rounds hd ?_
    rw [div_le_iff₀ hpos]
    linarith [hs'.2]

/-- A single precision number that is finite. -/
def Finite (b : BitVec 32) : Prop := ∃ u, f32Value b = .fin u

/-- C128: samples that are not numbers stop the fit: bytes raise TypeError, and otherwise an infinite or undefined float raises
ValueError. -/
theorem c128_stops (M : Machine) (l : List Val) :
    ((∃ bs, Val.raw bs ∈ l) → M.ops.fit l = .error .typeError) ∧
    ((∀ bs, Val.raw bs ∉ l) → (∃ b, Val.flt b ∈ l ∧ ¬ Finite b) → M.ops.fit l = .error .valueError) := by
  constructor
  · rintro ⟨bs, hbs⟩
    show M.fit l = _
    unfold Machine.fit
    rw [if_pos (List.any_eq_true.2 ⟨_, hbs, rfl⟩)]
  · rintro hraw ⟨b, hb, hnf⟩
    show M.fit l = _
    unfold Machine.fit
    have hany : ¬ l.any isBytes = true := by
      intro h
      obtain ⟨v, hv, h'⟩ := List.any_eq_true.1 h
      cases v with
      | raw bs => exact hraw bs hv
      | int i => simp [isBytes] at h'
      | flt b => simp [isBytes] at h'
    have hnum : numValue (.flt b) = none := by
      unfold numValue
      split
      · rename_i u hu
        cases hu
      · rename_i b' hb'
        cases hb'
        split
        · rename_i u hu
          exact absurd ⟨u, hu⟩ hnf
        · rfl
      · rfl
    have hmap : ∀ l : List Val, Val.flt b ∈ l → l.mapM numValue = none := by
      intro l hl
      induction l with
      | nil => cases hl
      | cons v l ih =>
        rw [List.mapM_cons]
        rcases List.mem_cons.1 hl with h | h
        · rw [← h, hnum]
          rfl
        · rw [ih h]
          cases numValue v <;> rfl
    rw [if_neg hany, hmap l hb]

/-- C128: how a number is judged. If all samples were equal, an infinite or undefined float scores 0, and any other number 1 if it
rounds to the mean and 0 if not; if they varied, a number scores the probability of a value at least as far from the mean under the
normal distribution of the fit, so 1 at the mean, and the less the farther from it. -/
theorem c128_judges (M : Machine) (m d : ℝ) :
    (∀ b, ¬ Finite b → FieldModel.classify M.ops m 0 (.flt b) = (0, 0)) ∧
    (∀ i : ℤ, FieldModel.classify M.ops m 0 (.int i) = (if M.rnd i = m then 1 else 0, 0)) ∧
    (0 < d → (∀ i : ℤ, FieldModel.classify M.ops m d (.int i) = (1 - erf (|m - i| / d / √2), d)) ∧
      (∀ i : ℤ, (i : ℝ) = m → FieldModel.classify M.ops m d (.int i) = (1, d)) ∧
      ∀ i j : ℤ, |m - i| < |m - j| →
        (FieldModel.classify M.ops m d (.int j)).1 < (FieldModel.classify M.ops m d (.int i)).1) := by
  have h0 : M.ops.nonPos 0 = true := by simp [Machine.ops]
  refine ⟨fun b hb => ?_, fun i => ?_, fun hd => ?_⟩
  · have hnum : numValue (.flt b) = none := by
      have : ∀ r, f32Value b = r → (∀ u, r ≠ .fin u) → numValue (.flt b) = none := by
        intro r hr hnf
        show (match f32Value b with
          | .fin u => some ((u : ℚ) / 2 ^ 149)
          | _ => none) = none
        rw [hr]
        cases r with
        | fin u => exact absurd rfl (hnf u)
        | _ => rfl
      exact this _ rfl fun u hu => hb ⟨u, hu⟩
    have he : M.ops.eqMean (.flt b) m = false := by
      show (match numValue (.flt b) with
        | some q => decide (M.rnd q = m)
        | none => false) = false
      rw [hnum]
    simp [FieldModel.classify, h0, he, show M.ops.zero = 0 from rfl]
  · have he : M.ops.eqMean (.int i) m = decide (M.rnd i = m) := by
      show decide (M.rnd ((i : ℚ) : ℝ) = m) = _
      simp
    by_cases h : M.rnd i = m
    · simp [FieldModel.classify, h0, he, h, show M.ops.zero = 0 from rfl, show M.ops.one = 1 from rfl]
    · simp [FieldModel.classify, h0, he, h, show M.ops.zero = 0 from rfl]
  · have hn : M.ops.nonPos d = false := by simp [Machine.ops, hd]
    have hc : ∀ i : ℤ, FieldModel.classify M.ops m d (.int i) = (1 - erf (|m - i| / d / √2), d) := by
      intro i
      have hs : M.ops.score m d (.int i) = 1 - erf (|m - i| / d / √2) := by
        show 1 - erf (|m - (((i : ℚ) : ℚ) : ℝ)| / d / √2) = _
        simp
      simp [FieldModel.classify, hn, hs]
    refine ⟨hc, fun i hi => ?_, fun i j hij => ?_⟩
    · rw [hc, hi]
      simp [erf_zero]
    · rw [hc, hc]
      have : erf (|m - i| / d / √2) < erf (|m - j| / d / √2) := erf_strictMono (by gcongr)
      simp only
      linarith

/-- C128: a field of floats, and any window of at most 2^29 finite samples of it that is not empty. `norm.fit` returns, the
deviation is not negative, and the mean can be written back into the field. -/
theorem c128_floats (ok : M.Ok) (fs : List (BitVec 32)) (hne : fs ≠ []) (hn : fs.length ≤ 2 ^ 29) (hf : ∀ b ∈ fs, Finite b) :
    ∃ m d bs, M.ops.fit (fs.map Val.flt) = .ok (m, d) ∧ 0 ≤ d ∧ |m| ≤ largest ∧ M.ops.toBits m .f32 = .ok (bytesBits bs) ∧
      bs.length = 4 := by
  obtain ⟨qs, hqs, hlen, hb⟩ : ∃ qs : List ℚ, (fs.map Val.flt).mapM numValue = some qs ∧ qs.length = fs.length ∧
      ∀ q ∈ qs, IsDouble (q : ℝ) ∧ |(q : ℝ)| ≤ largest := by
    clear hne hn
    induction fs with
    | nil => exact ⟨[], rfl, rfl, by simp⟩
    | cons b fs ih =>
      obtain ⟨qs, h1, h2, h3⟩ := ih fun c hc => hf c (List.mem_cons_of_mem _ hc)
      obtain ⟨u, hu⟩ := hf b List.mem_cons_self
      have hv : numValue (.flt b) = some ((u : ℚ) / 2 ^ 149) := by simp [numValue, hu]
      refine ⟨((u : ℚ) / 2 ^ 149) :: qs, ?_, by simp [h2], ?_⟩
      · rw [List.map_cons, List.mapM_cons, h1, hv]
        rfl
      · intro q hq
        rcases List.mem_cons.1 hq with rfl | hq
        · obtain ⟨k, e, g1, g2, g3, g4⟩ := f32_parts b u hu
          exact ⟨⟨k, e, by omega, by omega, by omega, g4⟩, f32_bound b u hu⟩
        · exact h3 q hq
  have hxs : ∀ x ∈ qs.map (fun q : ℚ => M.rnd q), |x| ≤ largest := by
    intro x hx
    obtain ⟨q, hq, rfl⟩ := List.mem_map.1 hx
    rw [rnd_double ok.rounds (hb q hq).1]
    exact (hb q hq).2
  have hm := mean_floats ok (qs.map fun q : ℚ => M.rnd q) (by
    intro h0
    have := congrArg List.length h0
    simp [hlen] at this
    exact hne this) (by rw [List.length_map, hlen]; exact hn) hxs
  obtain ⟨q, hq⟩ := double_rat (ok.rounds.double
    ((M.order (qs.map fun q : ℚ => M.rnd q).length).sum M.rnd (qs.map fun q : ℚ => M.rnd q) / (qs.map fun q : ℚ => M.rnd q).length))
  change (q : ℝ) = M.mean (qs.map fun q : ℚ => M.rnd q) at hq
  obtain ⟨b, hb'⟩ := ok.packs q (by
    rw [← hq] at hm
    unfold largest at hm
    exact_mod_cast hm)
  refine ⟨_, _, leBytes 4 b.toNat, fit_nums _ _ hqs, rnd_ge ok.rounds double_zero (Real.sqrt_nonneg _), hm, ?_, by simp [leBytes]⟩
  rw [← hq, toBits_rat, show CType.f32.cname = "float" from rfl, c33_float M.toF32 _ (by simp), hb']
  rfl

/-! ### Where floating point fails -/

/-- Seven samples of a clock, all the same. -/
def clock : List ℤ := List.replicate 7 1600000000000001

theorem total_clock (t : SumTree) (h : ∀ i ∈ t.leaves, i < 7) : total clock t = t.leaves.length * 1600000000000001 := by
  obtain ⟨h1, h2⟩ := total_bound clock 1600000000000001 1600000000000001
    (fun z hz => by rw [List.eq_of_mem_replicate hz]; exact ⟨le_refl _, le_refl _⟩) t (by simpa [clock] using h)
  exact le_antisymm h2 h1

theorem leaves_pos (t : SumTree) : 0 < t.leaves.length := by
  induction t with
  | leaf i => simp [SumTree.leaves]
  | node a b _ _ => simp only [SumTree.leaves, List.length_append]; omega

theorem clock_part (R : Rounding rnd) (t : SumTree) (h : ∀ i ∈ t.leaves, i < 7) (hl : t.leaves.length ≤ 6) :
    t.sum rnd (clock.map fun z : ℤ => (z : ℝ)) = t.leaves.length * 1600000000000001 := by
  induction t with
  | leaf i =>
    have hi := h i (by simp [SumTree.leaves])
    have : clock.length = 7 := rfl
    simp only [SumTree.sum, SumTree.leaves, List.length_singleton]
    rw [List.getD_eq_getElem?_getD, List.getElem?_map, List.getElem?_eq_getElem (by omega)]
    have hv : clock[i]'(by omega) = 1600000000000001 := List.eq_of_mem_replicate (n := 7) (List.getElem_mem (l := clock) (by omega))
    rw [hv]
    norm_num
  | node l r ihl ihr =>
    have hl' := hl
    simp only [SumTree.leaves, List.length_append] at hl'
    rw [SumTree.sum, ihl (fun i hi => h i (by simp [SumTree.leaves, hi])) (by omega),
      ihr (fun i hi => h i (by simp [SumTree.leaves, hi])) (by omega)]
    have he : (l.leaves.length : ℝ) * 1600000000000001 + r.leaves.length * 1600000000000001 =
        ((SumTree.node l r).leaves.length : ℝ) * 1600000000000001 := by
      simp only [SumTree.leaves, List.length_append]
      push_cast
      ring
    rw [he, rnd_double R]
    generalize (SumTree.node l r).leaves.length = n at hl
    have : n ≤ 5 ∨ n = 6 := by omega
    rcases this with h5 | rfl
    · refine ⟨n * 1600000000000001, 0, ?_, by omega, by omega, by push_cast; simp⟩
      rw [abs_lt]; constructor <;> omega
    · exact ⟨4800000000000003, 1, by norm_num, by omega, by omega, by norm_num⟩

theorem clock_sum (ok : M.Ok) : (M.order 7).sum M.rnd (clock.map fun z : ℤ => (z : ℝ)) = 11200000000000006 ∨
    (M.order 7).sum M.rnd (clock.map fun z : ℤ => (z : ℝ)) = 11200000000000008 := by
  have hperm := ok.all 7 (by omega)
  have hin : ∀ i ∈ (M.order 7).leaves, i < 7 := fun i hi => by rwa [hperm.mem_iff, List.mem_range] at hi
  have hlen : (M.order 7).leaves.length = 7 := by simpa using hperm.length_eq
  generalize M.order 7 = t at hin hlen
  cases t with
  | leaf i => simp [SumTree.leaves] at hlen
  | node l r =>
    have hl := leaves_pos l
    have hr := leaves_pos r
    simp only [SumTree.leaves, List.length_append] at hlen
    rw [SumTree.sum, clock_part ok.rounds l (fun i hi => hin i (by simp [SumTree.leaves, hi])) (by omega),
      clock_part ok.rounds r (fun i hi => hin i (by simp [SumTree.leaves, hi])) (by omega), ← add_mul, ← Nat.cast_add, hlen]
    have h1 : (11200000000000006 : ℝ) ≤ M.rnd (((7 : ℕ) : ℝ) * 1600000000000001) :=
      rnd_ge ok.rounds ⟨5600000000000003, 1, by norm_num, by omega, by omega, by norm_num⟩ (by norm_num)
    have h2 : M.rnd (((7 : ℕ) : ℝ) * 1600000000000001) ≤ 11200000000000008 :=
      rnd_le ok.rounds ⟨5600000000000004, 1, by norm_num, by omega, by omega, by norm_num⟩ (by norm_num)
    obtain ⟨m, hm⟩ := double_step (ok.rounds.double (((7 : ℕ) : ℝ) * 1600000000000001)) 53 (by
      rw [abs_of_nonneg (by linarith)]
      refine le_trans ?_ h1
      norm_num)
    rw [hm] at h1 h2 ⊢
    norm_num at h1 h2 ⊢
    have g1 : (11200000000000006 : ℤ) ≤ m * 2 := by exact_mod_cast h1
    have g2 : m * 2 ≤ (11200000000000008 : ℤ) := by exact_mod_cast h2
    have : m = 5600000000000003 ∨ m = 5600000000000004 := by omega
    rcases this with rfl | rfl <;> norm_num

theorem clock_mean (ok : M.Ok) : M.mean (clock.map fun z : ℤ => (z : ℝ)) = 1600000000000001 - 1 / 4 ∨
    M.mean (clock.map fun z : ℤ => (z : ℝ)) = 1600000000000001 + 1 / 4 := by
  have hq : ∀ x : ℝ, |x - 1600000000000001| = 1 / 7 → ∀ y : ℝ, IsDouble y → |y - x| = 3 / 28 → (1600000000000000 : ℝ) ≤ M.rnd x ∧
      ∃ m : ℤ, M.rnd x = m / 4 ∧ |(m : ℝ) / 4 - x| ≤ 3 / 28 := by
    intro x hx y hy hyx
    have hn := ok.rounds.nearest x y hy
    rw [hyx] at hn
    have h1 := abs_le.1 hn
    have h2 := abs_le.1 hx.le
    have h3 : (1600000000000000 : ℝ) ≤ M.rnd x := by linarith
    obtain ⟨m, hm⟩ := double_step (ok.rounds.double x) 50 (by
      rw [abs_of_nonneg (by linarith)]
      refine le_trans ?_ h3
      norm_num)
    have hm' : M.rnd x = m / 4 := by rw [hm]; norm_num; ring
    exact ⟨h3, m, hm', by rw [← hm']; exact hn⟩
  unfold Machine.mean
  have hlen : (clock.map fun z : ℤ => (z : ℝ)).length = 7 := by simp [clock]
  rw [hlen]
  rcases clock_sum ok with h | h <;> rw [h]
  · left
    obtain ⟨_, m, h1, h2⟩ := hq (11200000000000006 / (7 : ℕ)) (by norm_num [abs_of_neg]) (1600000000000001 - 1 / 4)
      ⟨6400000000000003, -2, by norm_num, by omega, by omega, by norm_num⟩ (by norm_num [abs_of_neg])
    rw [h1]
    have h3 := abs_le.1 h2
    norm_num at h3
    have g1 : (m : ℝ) < 6400000000000004 := by linarith
    have g2 : (6400000000000002 : ℝ) < m := by linarith
    have g1 : m < 6400000000000004 := by exact_mod_cast g1
    have g2 : 6400000000000002 < m := by exact_mod_cast g2
    have : m = 6400000000000003 := by omega
    subst this
    norm_num
  · right
    obtain ⟨_, m, h1, h2⟩ := hq (11200000000000008 / (7 : ℕ)) (by norm_num) (1600000000000001 + 1 / 4)
      ⟨6400000000000005, -2, by norm_num, by omega, by omega, by norm_num⟩ (by norm_num)
    rw [h1]
    have h3 := abs_le.1 h2
    norm_num at h3
    have g1 : (m : ℝ) < 6400000000000006 := by linarith
    have g2 : (6400000000000004 : ℝ) < m := by linarith
    have g1 : m < 6400000000000006 := by exact_mod_cast g1
    have g2 : 6400000000000004 < m := by exact_mod_cast g2
    have : m = 6400000000000005 := by omega
    subst this
    norm_num

/-- C128: this is not so for all 64-bit fields. A clock that stands still at 1600000000000001 for seven words is not recognised
as constant, whatever the order of the additions: the deviation is 1/4 and not zero, so no value is ever taken for certainly
wrong, and the true value itself is given a score strictly between zero and one. -/
theorem c128_constant_false (ok : M.Ok) : ∃ m, M.ops.fit (List.replicate 7 (.int 1600000000000001)) = .ok (m, 1 / 4) ∧
    m ≠ 1600000000000001 ∧ (∀ x, (FieldModel.classify M.ops m (1 / 4) x).2 = 1 / 4) ∧
    0 < (FieldModel.classify M.ops m (1 / 4) (.int 1600000000000001)).1 ∧
    (FieldModel.classify M.ops m (1 / 4) (.int 1600000000000001)).1 < 1 := by
  have hcl : ∀ m x, FieldModel.classify M.ops m (1 / 4) x = (M.ops.score m (1 / 4) x, 1 / 4) := by
    intro m x
    unfold FieldModel.classify
    rw [if_neg]
    show ¬ decide ((1 / 4 : ℝ) ≤ 0) = true
    norm_num
  have hd : IsDouble (1600000000000001 : ℝ) := ⟨1600000000000001, 0, by norm_num, by omega, by omega, by norm_num⟩
  have hx : ((clock.map fun z : ℤ => (z : ℚ)).map fun q : ℚ => M.rnd q) = clock.map fun z : ℤ => (z : ℝ) := by
    simp only [clock, List.map_replicate]
    norm_num
    exact rnd_double ok.rounds hd
  have hm := clock_mean ok
  have hsub : ∀ x ∈ clock.map (fun z : ℤ => (z : ℝ)), M.rnd (M.rnd (x - M.mean (clock.map fun z : ℤ => (z : ℝ))) *
      M.rnd (x - M.mean (clock.map fun z : ℤ => (z : ℝ)))) = 1 / 16 := by
    intro x hx
    have hxv : x = 1600000000000001 := by
      simp only [clock, List.map_replicate] at hx
      rw [List.eq_of_mem_replicate hx]
      norm_num
    have d1 : IsDouble (1 / 4 : ℝ) := ⟨1, -2, by norm_num, by omega, by omega, by norm_num⟩
    have d2 : IsDouble (1 / 16 : ℝ) := ⟨1, -4, by norm_num, by omega, by omega, by norm_num⟩
    rcases hm with h | h <;> rw [h, hxv]
    · rw [show (1600000000000001 : ℝ) - (1600000000000001 - 1 / 4) = 1 / 4 by ring, rnd_double ok.rounds d1,
        show (1 / 4 * (1 / 4) : ℝ) = 1 / 16 by norm_num, rnd_double ok.rounds d2]
    · rw [show (1600000000000001 : ℝ) - (1600000000000001 + 1 / 4) = -(1 / 4) by ring, rnd_double ok.rounds (double_neg d1),
        show (-(1 / 4) * -(1 / 4) : ℝ) = 1 / 16 by norm_num, rnd_double ok.rounds d2]
  have hstd : M.std (clock.map fun z : ℤ => (z : ℝ)) = 1 / 4 := by
    unfold Machine.std
    rw [List.map_congr_left hsub]
    rw [mean_const ok 1 (-4) (by omega) (by omega) _ (by simp [clock]) (by simp [clock]) (by
      intro y hy
      obtain ⟨_, _, rfl⟩ := List.mem_map.1 hy
      norm_num)]
    have : √(((1 : ℤ) : ℝ) * (2 : ℝ) ^ (-4 : ℤ)) = 1 / 4 := by
      rw [show (((1 : ℤ) : ℝ) * (2 : ℝ) ^ (-4 : ℤ)) = (1 / 4) ^ 2 by norm_num]
      exact Real.sqrt_sq (by norm_num)
    rw [this]
    exact rnd_double ok.rounds ⟨1, -2, by norm_num, by omega, by omega, by norm_num⟩
  refine ⟨M.mean (clock.map fun z : ℤ => (z : ℝ)), ?_, ?_, fun x => by rw [hcl], ?_⟩
  · have := fit_nums (M := M) _ _ (nums_ints clock)
    rw [hx, hstd] at this
    exact this
  · rcases hm with h | h <;> rw [h] <;> norm_num
  · rw [hcl]
    have hs : M.ops.score (M.mean (clock.map fun z : ℤ => (z : ℝ))) (1 / 4) (.int 1600000000000001) = 1 - erf (1 / √2) := by
      show 1 - erf (|_ - (((1600000000000001 : ℤ) : ℚ) : ℝ)| / (1 / 4) / √2) = _
      congr 2
      rw [Rat.cast_intCast]
      congr 1
      rcases hm with h | h <;> rw [h] <;> norm_num [abs_of_neg]
    simp only [hs]
    have h1 := erf_lt_one (1 / √2)
    have h2 := erf_strictMono (show (0 : ℝ) < 1 / √2 by positivity)
    rw [erf_zero] at h2
    constructor <;> linarith

/-- C128: a 64-bit field that is always all ones. The largest number of the field is no double; the mean is 2^64, which does not
fit the field: the bits of the mean cannot be formed, and `bitwise_mean` raises a struct.error. -/
theorem c128_ones_false (ok : M.Ok) (n : Nat) (h0 : 0 < n) (hn : n < 2 ^ 53) :
    M.ops.fit (List.replicate n (.int (2 ^ 64 - 1))) = .ok (2 ^ 64, 0) ∧ FitsScalar .u64 (.int (2 ^ 64 - 1)) ∧
      M.ops.toBits (2 ^ 64) .u64 = .error .structError := by
  have hr : M.rnd (((2 ^ 64 - 1 : ℤ) : ℚ) : ℝ) = 2 ^ 64 := by
    have hx : (((2 ^ 64 - 1 : ℤ) : ℚ) : ℝ) = 2 ^ 64 - 1 := by norm_num
    rw [hx]
    have hd : IsDouble ((2 : ℝ) ^ 64) := by
      have := double_pow 64 (by omega) (by omega)
      norm_cast at this ⊢
    have hn := abs_le.1 (ok.rounds.nearest (2 ^ 64 - 1) _ hd)
    have he : |(2 : ℝ) ^ 64 - (2 ^ 64 - 1)| = 1 := by norm_num
    rw [he] at hn
    obtain ⟨m, hm⟩ := double_step (ok.rounds.double (2 ^ 64 - 1)) 63 (by
      rw [abs_of_nonneg (by norm_num at hn ⊢; linarith)]
      norm_num at hn ⊢
      linarith)
    rw [hm] at hn ⊢
    norm_num at hn ⊢
    obtain ⟨g1, g2⟩ := hn
    have g1' : (18446744073709551614 : ℝ) ≤ m * 2048 := by linarith
    have g1'' : (18446744073709551614 : ℤ) ≤ m * 2048 := by exact_mod_cast g1'
    have g2' : m * 2048 ≤ (18446744073709551616 : ℤ) := by exact_mod_cast (by linarith : (m : ℝ) * 2048 ≤ 18446744073709551616)
    have : m = 9007199254740992 := by omega
    subst this
    norm_num
  refine ⟨?_, by decide, ?_⟩
  · have := fit_nums (M := M) (List.replicate n (.int (2 ^ 64 - 1))) _
      (nums_const _ (.int (2 ^ 64 - 1)) _ rfl (fun u hu => List.eq_of_mem_replicate hu))
    rw [List.map_replicate, hr, List.length_replicate] at this
    obtain ⟨g1, g2⟩ := c128_constant ok 1 64 (by omega) (by omega) (List.replicate n ((2 : ℝ) ^ 64))
      (by intro h; rw [List.replicate_eq_nil_iff] at h; omega)
      (by rw [List.length_replicate]; simpa using (by exact_mod_cast hn : (n : ℤ) < 2 ^ 53))
      (by intro x hx; rw [List.eq_of_mem_replicate hx]; norm_num)
    rw [g1, g2] at this
    show M.fit _ = _
    rw [this]
    norm_num
  · rw [show ((2 : ℝ) ^ 64) = (((2 ^ 64 : ℤ) : ℚ) : ℝ) by norm_num, toBits_rat]
    obtain ⟨i, hst, _, _, hbad⟩ := c33_number M.toF32 .u64 (Or.inl rfl) ((2 ^ 64 : ℤ) : ℚ)
    refine hbad ?_
    unfold Stored at hst
    rw [if_neg (by rintro ⟨_, h⟩; norm_num at h)] at hst
    have := abs_le.1 hst.1
    have h1 : (2 ^ 64 : ℤ) < i + 1 := by
      obtain ⟨_, h⟩ := this
      generalize (2 ^ 64 : ℤ) = z at h ⊢
      have : (z : ℚ) < i + 1 := by linarith
      exact_mod_cast this
    simp only [FitsScalar]
    omega

/-- C128: a float field that is always zero. A received minus zero differs in the sign bit, but compares equal to the mean and is
taken for certainly right: the sign bit is not repaired. -/
theorem c128_zero_false (ok : M.Ok) (n : Nat) (h0 : 0 < n) :
    M.ops.fit (List.replicate n (.flt 0)) = .ok (0, 0) ∧ unpackScalar .f32 [0, 0, 0, 128] ≠ .flt 0 ∧
      FieldModel.classify M.ops 0 0 (unpackScalar .f32 [0, 0, 0, 128]) = (1, 0) := by
  have hv : numValue (.flt 0) = some 0 := by decide +kernel
  have hneg : numValue (unpackScalar .f32 [0, 0, 0, 128]) = some 0 := by decide +kernel
  have r0 : M.rnd 0 = 0 := rnd_double ok.rounds double_zero
  refine ⟨?_, by decide, ?_⟩
  · have := fit_const ok (List.replicate n (.flt 0)) (by intro h; rw [List.replicate_eq_nil_iff] at h; omega) (.flt 0)
      (fun u hu => List.eq_of_mem_replicate hu) 0 hv 0 0 (by omega) (by omega) (by simp) (by simp)
    show M.fit _ = _
    rw [this]
    simp
  · have he : M.ops.eqMean (unpackScalar .f32 [0, 0, 0, 128]) 0 = true := by
      unfold Machine.ops
      simp only [hneg]
      simp [r0]
    have hnp : M.ops.nonPos 0 = true := by simp [Machine.ops]
    unfold FieldModel.classify
    rw [if_pos hnp, if_pos he]
    rfl

/-! ### A mission -/

theorem mission_types : ∀ n ∈ [1, 2, 3], ∀ st ∈ partLayouts n, ∀ q ∈ fieldPlaces st,
    q.type ∈ [CType.u8, .u16, .u32, .i8, .i16, .i32] ∨ q.type = .f32 := by
  decide +kernel

theorem mission_names : ∀ n ∈ [1, 2, 3], ∀ st ∈ partLayouts n, ∀ q ∈ fieldPlaces st,
    (q.type = .u8 ∧ (q.name = "seq" ∨ ∃ m ∈ five, ∃ x ∈ header m, x.1 = q.name)) ∨
    ∃ m ∈ five, ∃ i < m.fieldnames.length, m.orders.getD i 0 < m.orderedFieldnames.length ∧ m.fieldtypes.getD i .char = q.type ∧
      q.name = m.name ++ "_" ++ m.orderedFieldnames.getD (m.orders.getD i 0) "" := by
  decide +kernel

theorem header_fits : ∀ m ∈ five, ∀ x ∈ header m, FitsScalar .u8 (.int x.2) := by decide +kernel

/-- The floats in the rows of the recording used for these times are finite. -/
def FiniteRows (r : Recording) (ts : List Int) : Prop :=
  ∀ x ∈ r.messages, ∀ t ∈ ts, ∀ i j, RowFor x.2.2.times t i → ∀ b, recorded x.2.2 j i = .num (.flt b) → Finite b

theorem five_sensor (r : Recording) (hr : RecordingFits r) (m : MsgClass) (hm : m ∈ five) :
    ∃ x ∈ r.messages, x.1 = m ∧ SensorFits m x.2.2 := by
  obtain ⟨r1, r2, r3, r4, r5⟩ := hr
  simp only [five, List.mem_cons, List.not_mem_nil, or_false] at hm
  unfold Recording.messages
  rcases hm with rfl | rfl | rfl | rfl | rfl
  · exact ⟨_, List.mem_cons_self, rfl, r1⟩
  · exact ⟨_, List.mem_cons_of_mem _ List.mem_cons_self, rfl, r2⟩
  · exact ⟨_, List.mem_cons_of_mem _ (List.mem_cons_of_mem _ List.mem_cons_self), rfl, r3⟩
  · exact ⟨_, List.mem_cons_of_mem _ (List.mem_cons_of_mem _ (List.mem_cons_of_mem _ List.mem_cons_self)), rfl, r4⟩
  · exact ⟨_, List.mem_cons_of_mem _ (List.mem_cons_of_mem _ (List.mem_cons_of_mem _ (List.mem_cons_of_mem _ List.mem_cons_self))),
      rfl, r5⟩

/-- What is kept under the name of a field of the mission fits the field, and is finite if the recording is. -/
theorem mission_samples (r : Recording) (hr : RecordingFits r) (ts : List Int) (hfin : FiniteRows r ts) (n : Nat) (h1 : 1 ≤ n)
    (h3 : n ≤ 3) (seq : Nat) (words : List (List (List Bool))) (xs : List Sent) (msgs : List MavMsg)
    (hm : Mission r n ts seq words xs msgs) (st : List (Nat × Nat)) (hst : st ∈ partLayouts n) (q : Place) (hq : q ∈ fieldPlaces st) :
    ∀ u ∈ under q.name msgs, FitsScalar q.type u ∧ ∀ b, u = .flt b → Finite b := by
  intro u hu
  rcases mission_names n (by simp; omega) st hst q hq with ⟨ht, hn | ⟨m, hmm, x, hx, hxn⟩⟩ | ⟨m, hmm, i, hi, hj, hti, hn⟩
  · rw [hn, hm.seqs] at hu
    obtain ⟨k, _, rfl⟩ := List.mem_map.1 hu
    rw [ht]
    refine ⟨?_, by intro b hb; cases hb⟩
    simp only [FitsScalar]
    omega
  · obtain ⟨msg, hmsg, hnm⟩ := mem_under hu
    obtain ⟨f, hf, hd⟩ := decoded_of_mem hm.decoded hmsg
    obtain ⟨z, hz, rfl⟩ := List.mem_map.1 hf
    obtain ⟨x', hx', hz⟩ := List.mem_flatMap.1 hz
    obtain ⟨hpk, hna⟩ := hm.ok x' hx' z hz
    obtain ⟨k1, k2, k3⟩ := packed_decoded hpk hna hd
    obtain ⟨g1, g2, g3⟩ := hm.heads msg hmsg
    rw [← hxn] at hnm
    have := header_value m hmm x hx msg g1 g2 g3 (by rw [k2, k1]) (by rw [k3, k1]) u hnm
    subst this
    rw [ht]
    exact ⟨header_fits m hmm x hx, by intro b hb; cases hb⟩
  · obtain ⟨x, hx, rfl, hs⟩ := five_sensor r hr m hmm
    obtain ⟨vals, g1, g2⟩ := hm.fields x hx _ hj
    rw [hn, g2] at hu
    have : ∀ (tl : List Int) (vs : List Val), List.Forall₂ (fun t v => ∃ i', RowFor x.2.2.times t i' ∧
        recorded x.2.2 (x.1.orders.getD i 0) i' = .num v) tl vs → ∀ u ∈ vs, ∃ t ∈ tl, ∃ i', RowFor x.2.2.times t i' ∧
        recorded x.2.2 (x.1.orders.getD i 0) i' = .num u := by
      intro tl vs h
      induction h with
      | nil => intro u hu; cases hu
      | cons h _ ih =>
        intro u hu
        rcases List.mem_cons.1 hu with rfl | hu
        · exact ⟨_, List.mem_cons_self, h⟩
        · obtain ⟨t, ht, h⟩ := ih u hu
          exact ⟨t, List.mem_cons_of_mem _ ht, h⟩
    obtain ⟨t, ht, i', hrow, hrec⟩ := this ts vals g1 u hu
    refine ⟨?_, ?_⟩
    · have := hs.2.2.2 i hi i' (rowFor_lt hrow)
      rw [hti, hrec] at this
      cases u with
      | int z => exact this.2.2
      | flt b => exact this.2.2
      | raw b =>
        obtain ⟨h1', h2'⟩ := this
        rw [h1']
        exact h2' rfl
    · rintro b rfl
      exact hfin x hx t ht i' _ hrow b hrec

theorem five_ids : ∀ a ∈ five, ∀ m ∈ five, a.id = m.id → a.name = m.name := by decide +kernel

theorem five_fields : ∀ m ∈ five, 0 < m.orderedFieldnames.length := by decide +kernel

theorem under_header (r : Recording) (hr : RecordingFits r) (ts : List Int) (hts : ts ≠ []) (n : Nat) (seq : Nat)
    (words : List (List (List Bool))) (xs : List Sent) (msgs : List MavMsg) (hm : Mission r n ts seq words xs msgs) (m : MsgClass)
    (hmm : m ∈ five) (x : String × Int) (hx : x ∈ header m) : under x.1 msgs ≠ [] := by
  obtain ⟨y, hy, rfl, _⟩ := five_sensor r hr m hmm
  obtain ⟨vals, g1, g2⟩ := hm.fields y hy 0 (five_fields _ hmm)
  obtain ⟨u, hu⟩ : ∃ u, u ∈ vals := List.exists_mem_of_ne_nil _ fun h0 => hts (List.length_eq_zero_iff.1 (by rw [g1.length_eq, h0]; rfl))
  rw [← g2] at hu
  obtain ⟨msg, hmsg, hn⟩ := mem_under hu
  have hc := (hm.heads msg hmsg).1
  have hnm : msg.cls.name = y.1.name := by
    have hmem : y.1.orderedFieldnames.getD 0 "" ∈ y.1.orderedFieldnames := by
      rw [getD_lt _ _ (five_fields _ hmm)]
      exact List.getElem_mem _
    obtain ⟨h1, h2⟩ := five_names msg.cls hc y.1 hmm _ hmem
    unfold named at hn
    rcases List.mem_append.1 hn with hn | hn
    · exfalso
      simp only [List.mem_cons, List.not_mem_nil, or_false] at hn
      rcases hn with h | h | h | h | h | h
      · exact h1 "magic" (by simp [headNames]) (congrArg Prod.fst h).symm
      · exact h1 (msg.cls.name ++ "_mlen") (by simp [headNames]) (congrArg Prod.fst h).symm
      · exact h1 "seq" (by simp [headNames]) (congrArg Prod.fst h).symm
      · exact h1 "srcSystem" (by simp [headNames]) (congrArg Prod.fst h).symm
      · exact h1 (msg.cls.name ++ "_srcComponent") (by simp [headNames]) (congrArg Prod.fst h).symm
      · exact h1 (msg.cls.name ++ "_msgId") (by simp [headNames]) (congrArg Prod.fst h).symm
    · obtain ⟨nm, hnm, he⟩ := List.mem_map.1 hn
      have h3 : nm ∈ (msg.cls.orderedFieldnames.filter fun x => msg.cls.name ++ "_" ++ x = y.1.name ++ "_" ++ y.1.orderedFieldnames.getD 0 "") :=
        List.mem_filter.2 ⟨hnm, by simpa using congrArg Prod.fst he⟩
      rw [h2] at h3
      by_cases hid : msg.cls.id = y.1.id
      · exact five_ids _ hc _ hmm hid
      · rw [if_neg hid] at h3; cases h3
  have : ∃ v, (x.1, v) ∈ named msg := by
    unfold named
    rw [hnm]
    simp only [header, List.mem_cons, List.not_mem_nil, or_false] at hx
    rcases hx with rfl | rfl | rfl | rfl | rfl
    · exact ⟨.int 254, by simp⟩
    · exact ⟨.int msg.mlen, by simp⟩
    · exact ⟨.int msg.srcSystem, by simp⟩
    · exact ⟨.int msg.srcComponent, by simp⟩
    · exact ⟨.int msg.msgId, by simp⟩
  obtain ⟨v, hv⟩ := this
  exact List.ne_nil_of_mem (under_mem hmsg hv)

theorem keeps_windowed {w : Option Nat} {n : Nat} (hw : Keeps w n) (l : List Val) : (windowed w l).length ≤ n :=
  keeps_length hw _ (windowed_idem w l)

theorem fitted_small (ok : M.Ok) (t : CType) (ht : Small t) (l : List Val) (hne : l ≠ []) (hn : l.length ≤ 2 ^ 21)
    (hf : ∀ u ∈ l, FitsScalar t u) : ∃ m d b, M.ops.fit l = .ok (m, d) ∧ M.ops.toBits m t = .ok b ∧ b.length = 8 * width t := by
  obtain ⟨zs, rfl⟩ : ∃ zs : List ℤ, l = zs.map Val.int := by
    clear hne hn
    induction l with
    | nil => exact ⟨[], rfl⟩
    | cons u l ih =>
      obtain ⟨zs, rfl⟩ := ih fun v hv => hf v (List.mem_cons_of_mem _ hv)
      have hu := hf u List.mem_cons_self
      cases u with
      | int z => exact ⟨z :: zs, rfl⟩
      | flt b => exfalso; simp only [Small, List.mem_cons, List.not_mem_nil, or_false] at ht
                 rcases ht with h | h | h | h | h | h <;> rw [h] at hu <;> exact hu
      | raw b => exfalso; simp only [Small, List.mem_cons, List.not_mem_nil, or_false] at ht
                 rcases ht with h | h | h | h | h | h <;> rw [h] at hu <;> exact hu
  obtain ⟨m, d, g1, _, _, _, i, bs, _, g2, g3, _⟩ := c128_decides ok t ht zs (by simpa using hne) (by simpa using hn)
    (fun z hz => hf _ (List.mem_map.2 ⟨z, hz, rfl⟩))
  exact ⟨m, d, _, g1, g3, by rw [bytesBits_length, packScalar_length g2, width_size]⟩

theorem fitted_float (ok : M.Ok) (l : List Val) (hne : l ≠ []) (hn : l.length ≤ 2 ^ 29)
    (hf : ∀ u ∈ l, FitsScalar .f32 u ∧ ∀ b, u = .flt b → Finite b) :
    ∃ m d b, M.ops.fit l = .ok (m, d) ∧ M.ops.toBits m .f32 = .ok b ∧ b.length = 8 * width .f32 := by
  obtain ⟨fs, rfl⟩ : ∃ fs : List (BitVec 32), l = fs.map Val.flt := by
    clear hne hn
    induction l with
    | nil => exact ⟨[], rfl⟩
    | cons u l ih =>
      obtain ⟨zs, rfl⟩ := ih fun v hv => hf v (List.mem_cons_of_mem _ hv)
      have hu := (hf u List.mem_cons_self).1
      cases u with
      | int z => exact hu.elim
      | flt b => exact ⟨b :: zs, rfl⟩
      | raw b => exact hu.elim
  obtain ⟨m, d, bs, g1, _, _, g2, g3⟩ := c128_floats ok fs (by simpa using hne) (by simpa using hn)
    (fun b hb => (hf _ (List.mem_map.2 ⟨b, hb, rfl⟩)).2 b rfl)
  exact ⟨m, d, _, g1, g2, by rw [bytesBits_length, g3]; rfl⟩

variable {σ Λ : Type}

/-- C128: the next word of a mission, on the machine. This is C126 with the statistics computed in floating point, for windows of
up to 2^21 words and recordings whose floats are finite: no statistic raises, and the headers and all fields whose recorded number
stayed the same are handed over as sent, outside the messages found, except for floats that stayed zero. -/
theorem c128_mission {G : Type} (rng : G → Nat → G × (Nat → Bool)) (r : Recording) (hr : RecordingFits r) (ts : List Int)
    (hts : ts ≠ []) (hfin : FiniteRows r ts)
    (seq seq' : Nat) (hseq : seq ≤ 255) (bufs : List (List Byte)) (hb : createBuffers r ts seq = .ok (seq', bufs))
    (n k : Nat) (h1 : 1 ≤ n) (h3 : n ≤ 3) (hk : infoBits n = .ok k) (words : List (List (List Bool)))
    (hw : List.Forall₂ (fun buf ws => ∃ g, (infoWords rng g n k (bytesBits buf)).2 = .ok ws) bufs words)
    (hq : ∀ p ∈ (words.headD []).zipIdx, messagesIn (packBits p.1) = (partLayouts n).getD p.2 [])
    (ok : M.Ok) {c : MavCfg} (hM : c.stats = M.ops)
    (hl : c.learning = true) (hc : c.nClusters = n) (hv : 0 < c.validFactor) (hi : 0 < c.invalidFactor)
    (hinfo : ∀ w, 8 * (c.infoBytes w).length ≤ w.length)
    (cls : Labeler σ) (ldpc : Ldpc Λ) (w : Option Nat) (hwin : Keeps w (2 ^ 21)) (cs : σ)
    (l : Λ) (chs : List (List ℝ)) (s : Mav σ Λ) (evs : List MavEvent)
    (hs : s = (Mav.run c cls ldpc (Mav.new n (BufferModel.new w) cs l) chs).1)
    (hev : evs = (Mav.run c cls ldpc (Mav.new n (BufferModel.new w) cs l) chs).2.flatMap MavStep.events)
    (ha : List.Forall₂ (WordArrives c.infoBytes) (words.flatMap List.zipIdx) evs)
    (t : Int) (seq'' : Nat) (buf : List Byte) (hb' : createBuffer r t seq' = .ok (seq'', buf)) (g : G) (ws : List (List Bool))
    (hw' : (infoWords rng g n k (bytesBits buf)).2 = .ok ws) (p : List Bool × Nat) (hp : p ∈ ws.zipIdx)
    (sent : List Bool) (hsent : p.1 <+: sent) (obs : List ℝ) (len : Nat) (hobs : obs.length = 8 * len)
    (hlen : sent.length = 8 * len) (hne : ∃ y ∈ obs, y ≠ 0) :
    ∃ out, (s.predict c obs p.2).2 = .ok out ∧
      (∀ q ∈ fieldPlaces ((partLayouts n).getD p.2 []), ∀ v, (IsHeader q v ∨ C126.SameNumber r (t :: ts) q v) →
        v ≠ .flt 0 → v ≠ .flt 0x80000000 → RepairedIn c q obs out.llr sent) ∧
      ∀ ret, (s.decode c cls ldpc obs).result = .ok ret → 0 ≤ ret.label →
        ∃ e rest, (s.decode c cls ldpc obs).events = e :: rest ∧ (e.pos = p.2 → e.handed = out.llr) := by
  have hst : ∀ q ∈ fieldPlaces ((partLayouts n).getD p.2 []), (partLayouts n).getD p.2 [] ∈ partLayouts n := by
    intro q hqm
    rw [List.getD_eq_getElem?_getD] at hqm ⊢
    cases hx : (partLayouts n)[p.2]? with
    | some st => exact List.mem_of_getElem? hx
    | none => rw [hx] at hqm; simp [fieldPlaces] at hqm
  have hall : ∃ xs msgs, Mission r n ts seq words xs msgs ∧ (∀ name, ((s.model.models.lookup name).map FieldModel.samples).getD [] =
      windowed w (under name msgs)) := by
    obtain ⟨xs, msgs, hm⟩ := mission_of_buffers rng r hr n k h1 h3 hk ts bufs words hw seq hseq seq' hb
    obtain ⟨harr, hsteady⟩ := mission_steady r n ts seq words xs msgs hm hq c.infoBytes evs ha
    exact ⟨xs, msgs, hm, (c117_learned hl cls ldpc w cs l chs s evs (by rw [hc]; exact hs) (by rw [hc]; exact hev) _ xs hsteady harr
      msgs hm.decoded).2.2⟩
  obtain ⟨xs, msgs, hm, hsamp⟩ := hall
  have hgood : ∀ q ∈ fieldPlaces ((partLayouts n).getD p.2 []), ∀ u ∈ under q.name msgs, FitsScalar q.type u ∧
      ∀ b, u = .flt b → Finite b :=
    fun q hqm => mission_samples r hr ts hfin n h1 h3 seq words xs msgs hm _ (hst q hqm) q hqm
  have hnonempty : ∀ q ∈ fieldPlaces ((partLayouts n).getD p.2 []), under q.name msgs ≠ [] := by
    intro q hqm h0
    rcases mission_names n (by simp; omega) _ (hst q hqm) q hqm with ⟨_, hn | ⟨m, hmm, x, hx, hxn⟩⟩ | ⟨m, hmm, i, hi, hj, hti, hn⟩
    · rw [hn, hm.seqs] at h0
      have := congrArg List.length h0
      have hl0 := List.length_pos_iff.2 hts
      simp at this
      exact hts this
    · exact under_header r hr ts hts n seq words xs msgs hm m hmm x hx (by rw [hxn]; exact h0)
    · obtain ⟨x, hx, rfl, _⟩ := five_sensor r hr m hmm
      obtain ⟨vals, g1, g2⟩ := hm.fields x hx _ hj
      rw [hn, g2] at h0
      have := g1.length_eq
      rw [h0] at this
      exact hts (List.length_eq_zero_iff.1 this)
  have hfit : Fitted c s.model ((partLayouts n).getD p.2 []) := by
    intro q hqm
    rw [hsamp, hM]
    have hwne := windowed_ne w _ (hnonempty q hqm)
    have hlen' := keeps_windowed hwin (under q.name msgs)
    rcases mission_types n (by simp; omega) _ (hst q hqm) q hqm with hty | hty
    · exact fitted_small ok q.type hty _ hwne hlen' fun u hu => (hgood q hqm u (windowed_sub hu)).1
    · have hg := hgood q hqm
      rw [hty] at hg ⊢
      exact fitted_float ok _ hwne (le_trans hlen' (by norm_num)) fun u hu => hg u (windowed_sub hu)
  obtain ⟨out, g1, g2, g3⟩ := c126_mission rng r hr ts hts seq seq' hseq bufs hb n k h1 h3 hk words hw hq hl hc hv hi hinfo cls ldpc
    w cs l chs s evs hs hev ha t seq'' buf hb' g ws hw' p hp hfit sent hsent obs len hobs hlen hne
  refine ⟨out, g1, fun q hqm v hcase hz hz' => g2 q hqm v hcase fun hf => ?_, g3⟩
  have hty := mission_types n (by simp; omega) _ (hst q hqm) q hqm
  rw [hM]
  rcases hty with hty | hty
  · obtain ⟨i, rfl⟩ : ∃ i, v = .int i := by
      cases v with
      | int i => exact ⟨i, rfl⟩
      | flt b => exfalso; simp only [List.mem_cons, List.not_mem_nil, or_false] at hty
                 rcases hty with h | h | h | h | h | h <;> rw [h] at hf <;> exact hf
      | raw b => exfalso; simp only [List.mem_cons, List.not_mem_nil, or_false] at hty
                 rcases hty with h | h | h | h | h | h <;> rw [h] at hf <;> exact hf
    exact c128_exact_small ok w hwin q.type hty i hf
  · obtain ⟨b, rfl⟩ : ∃ b, v = .flt b := by
      rw [hty] at hf
      cases v with
      | int i => exact hf.elim
      | flt b => exact ⟨b, rfl⟩
      | raw b => exact hf.elim
    have hb : Finite b := by
      rcases hcase with ⟨m, _, i, _, hv⟩ | ⟨x, hx, j, hj, hname, hrec⟩
      · cases hv
      · obtain ⟨t0, ht0⟩ := List.exists_mem_of_ne_nil ts hts
        obtain ⟨i, hi⟩ : ∃ i, RowFor x.2.2.times t0 i := by
          obtain ⟨vals, k1, _⟩ := hm.fields x hx j hj
          obtain ⟨a, ha⟩ := List.mem_iff_getElem?.1 ht0
          obtain ⟨hal, hae⟩ := List.getElem?_eq_some_iff.1 ha
          have := (List.forall₂_iff_get.1 k1).2 a hal (by rw [← k1.length_eq]; exact hal)
          obtain ⟨i, hi, _⟩ := this
          rw [← hae]
          exact ⟨i, hi⟩
        exact hfin x hx t0 ht0 i j hi b (hrec t0 (List.mem_cons_of_mem _ ht0) i hi)
    obtain ⟨u, hu⟩ := hb
    rw [hty]
    obtain ⟨k, hk1, hk2, hk3⟩ := hwin
    refine c128_exact_float ok w ⟨k, hk1, hk2, le_trans hk3 (by norm_num)⟩ b ⟨u, hu, ?_⟩
    rintro rfl
    have hsame := (valEq_flt b 0).2 ⟨by rw [hu]; simp, by rw [hu]; decide +kernel⟩
    simp only [valEq, Bool.and_eq_true, Bool.or_eq_true, decide_eq_true_eq, f32IsZero] at hsame
    rcases hsame.2 with h | ⟨h, _⟩
    · exact hz (by rw [h])
    · have := b.isLt
      rcases (by omega : b.toNat = 0 ∨ b.toNat = 2 ^ 31) with h | h
      · exact hz (by rw [show b = 0 from BitVec.eq_of_toNat_eq (by rw [h]; rfl)])
      · exact hz' (by rw [show b = 0x80000000 from BitVec.eq_of_toNat_eq (by rw [h]; rfl)])

/-- A sum from left to right. -/
def leftSum : Nat → SumTree
  | 0 => .leaf 0
  | 1 => .leaf 0
  | n + 2 => .node (leftSum (n + 1)) (.leaf (n + 1))

theorem leftSum_leaves : ∀ n, (leftSum (n + 1)).leaves = List.range (n + 1)
  | 0 => rfl
  | n + 1 => by rw [leftSum, SumTree.leaves, leftSum_leaves n, List.range_succ (n := n + 1)]; rfl

open Classical in
/-- There is such a machine. -/
theorem machine_exists : ∃ M : Machine, M.Ok := by
  obtain ⟨rnd, R⟩ := rounding_exists
  refine ⟨⟨rnd, leftSum, fun x => if h : ∃ b u, f32Value b = .fin u ∧ u ≠ 0 ∧ x = .num (u / 2 ^ 149) then .ok h.choose
    else .ok 0⟩, R, ?_, ?_, fun q _ => ?_⟩
  · intro n hn
    obtain ⟨k, rfl⟩ : ∃ k, n = k + 1 := ⟨n - 1, by omega⟩
    show (leftSum (k + 1)).leaves.Perm _
    rw [leftSum_leaves]
  · intro b u hb hu
    have hex : ∃ b' u', f32Value b' = .fin u' ∧ u' ≠ 0 ∧ NumArg.num ((u : ℚ) / 2 ^ 149) = .num (u' / 2 ^ 149) := ⟨b, u, hb, hu, rfl⟩
    simp only
    rw [dif_pos hex]
    obtain ⟨u', h1, h2, h3⟩ := hex.choose_spec
    have : u' = u := by
      have := NumArg.num.inj h3
      field_simp at this
      exact_mod_cast this.symm
    subst this
    rw [f32_inj h1 hb h2]
  · simp only
    split
    · exact ⟨_, rfl⟩
    · exact ⟨_, rfl⟩

/-- The hypotheses of the theorems on single fields are met: the altitude 2.5 as a float, a speed of -3, and three readings
that differ. -/
example : Proper 0x40200000 ∧ Keeps (some 50) (2 ^ 21) ∧ Small .i16 ∧ FitsScalar .i16 (.int (-3)) ∧
    ∀ z ∈ [3, -4, (5 : ℤ)], FitsScalar .i16 (.int z) := by
  refine ⟨⟨_, show f32Value 0x40200000 = .fin (5 * 2 ^ 148) by decide +kernel, by decide⟩, ⟨50, rfl, by omega, by norm_num⟩, by simp [Small], by decide, by decide⟩

/-- All floats of a recording are finite. -/
def allFinite (r : Recording) : Bool :=
  r.messages.all fun x => x.2.2.cols.all fun c => c.all fun v => match v with
    | .flt b => match f32Value b with
      | .fin _ => true
      | _ => false
    | _ => true

theorem finiteRows_of (r : Recording) (h : allFinite r = true) (ts : List Int) : FiniteRows r ts := by
  intro x hx t _ i j _ b hrec
  unfold allFinite at h
  rw [List.all_eq_true] at h
  have h1 := h x hx
  rw [List.all_eq_true] at h1
  have hnum := FieldVal.num.inj hrec
  have hmem : ∃ c ∈ x.2.2.times.map Val.int :: x.2.2.cols, Val.flt b ∈ c := by
    rw [List.getD_eq_getElem?_getD, List.getD_eq_getElem?_getD] at hnum
    cases hj : (x.2.2.times.map Val.int :: x.2.2.cols)[j]? with
    | none => rw [hj] at hnum; simp at hnum
    | some c =>
      rw [hj, Option.getD_some] at hnum
      cases hi : c[i]? with
      | none => rw [hi] at hnum; simp at hnum
      | some v =>
        rw [hi, Option.getD_some] at hnum
        subst hnum
        exact ⟨c, List.mem_of_getElem? hj, List.mem_of_getElem? hi⟩
  obtain ⟨c, hc, hb⟩ := hmem
  rcases List.mem_cons.1 hc with rfl | hc
  · obtain ⟨z, _, hz⟩ := List.mem_map.1 hb
    cases hz
  · have h2 := h1 c hc
    rw [List.all_eq_true] at h2
    have h3 := h2 _ hb
    simp only at h3
    cases hv : f32Value b with
    | fin u => exact ⟨u, hv⟩
    | nan => rw [hv] at h3; cases h3
    | inf s => rw [hv] at h3; cases h3

/-- `c128_mission` on the sample recording, on any such machine and with a window of fifty words: after the buffer for time 100
arrived, whatever is received for the buffer for time 200, the headers and the fields that stayed the same are handed over as
sent. -/
example (M : Machine) (ok : M.Ok) (obs : List ℝ) (hobs : obs.length = 8 * 162) (hne : ∃ y ∈ obs, y ≠ 0) :
    ∃ (word : List Bool) (buf : List Byte) (seq'' : Nat),
    createBuffer sampleRecording 200 12 = .ok (seq'', buf) ∧ ∃ out,
    ((Mav.run (exCfg M.ops wholeBytes) (fun (_ : Unit) _ => ((), .ok 0)) (exDec word) (Mav.new 1 (BufferModel.new (some 50)) () ())
      [[1, -1]]).1.predict (exCfg M.ops wholeBytes) obs (0 : Nat)).2 = .ok out ∧
    ∀ q ∈ fieldPlaces fiveLayout, ∀ v, (IsHeader q v ∨ C126.SameNumber sampleRecording [200, 100] q v) → v ≠ .flt 0 →
      v ≠ .flt 0x80000000 →
      RepairedIn (exCfg M.ops wholeBytes) q obs out.llr (bytesBits (buf ++ List.replicate 9 0)) := by
  obtain ⟨seq', buf, hb, _, hw, hm⟩ := sample_padded (List.replicate 9 0) rfl [] (by decide +kernel)
  have hr : RecordingFits sampleRecording := by decide +kernel
  have hseq : seq' = 12 := by
    obtain ⟨bs, h, _⟩ := c77_sequence sampleRecording hr [100] 7 (by omega)
    rw [hb] at h
    cases h
    rfl
  subst hseq
  obtain ⟨f1, f2, f3, f4, f5, hb', _⟩ := c77_buffer sampleRecording hr 200 12 (by omega)
  obtain ⟨hlen, _⟩ := c77_segment sampleRecording hr 200 12 (by omega) _ _ hb'
  generalize f1 ++ f2 ++ f3 ++ f4 ++ f5 = buf' at hb' hlen
  have hw' : (infoWords (fun (_ : Unit) _ => ((), fun i => (bytesBits (List.replicate 9 0)).getD i false)) () 1 1296
      (bytesBits buf')).2 = .ok [bytesBits (buf' ++ List.replicate 9 0)] := by
    have hb : (bytesBits buf').length = 1224 := by rw [bytesBits_length, hlen]
    have hn : ((1296 : Nat) : Int) - (1224 : Nat) = (72 : Nat) := rfl
    simp only [infoWords, drawBits, hb, hn, Int.toNat_natCast]
    rw [if_neg (by omega)]
    simp only [Except.ok.injEq, List.cons.injEq, and_true]
    rw [bytesBits_append buf' (List.replicate 9 0)]
    congr 1
  refine ⟨bytesBits (buf ++ List.replicate 9 0), buf', _, hb', ?_⟩
  obtain ⟨out, h1, h2, _⟩ := c128_mission _ sampleRecording hr [100] (by simp) (finiteRows_of _ (by decide +kernel) _) 7 12 (by omega)
    [buf] hb 1 1296 (by omega) (by omega)
    rfl [[bytesBits (buf ++ List.replicate 9 0)]] (List.Forall₂.cons ⟨(), hw⟩ .nil)
    (by
      intro p hp
      simp only [List.headD_cons, List.zipIdx_cons, List.zipIdx_nil, List.mem_singleton] at hp
      rw [hp, packBits_bytesBits, hm]; rfl)
    ok (c := exCfg M.ops wholeBytes) rfl rfl rfl (by norm_num [exCfg]) (by norm_num [exCfg]) (by
      intro w
      show 8 * (wholeBytes w).length ≤ w.length
      simp only [wholeBytes, List.length_take]
      omega) (fun (_ : Unit) _ => ((), .ok 0)) (exDec _) (some 50) ⟨50, rfl, by omega, by norm_num⟩ () () [[1, -1]] _ _
    rfl (first_run M.ops _ wholeBytes (some 50)).symm (List.Forall₂.cons ⟨rfl, rfl, List.prefix_refl _, by
      rw [packBits_bytesBits]
      show wholeBytes _ = _
      rw [wholeBytes, bitsToBytes_bytesBits, bytesBits_length, Nat.mul_div_cancel_left _ (by omega), List.take_length]⟩ .nil)
    200 _ buf' hb' () [bytesBits (buf' ++ List.replicate 9 0)] hw' (bytesBits (buf' ++ List.replicate 9 0), 0) (by simp)
    (bytesBits (buf' ++ List.replicate 9 0)) (List.prefix_refl _) obs 162 hobs
    (by rw [bytesBits_length, List.length_append, hlen]; rfl) hne
  exact ⟨out, h1, h2⟩

end NR.C128
