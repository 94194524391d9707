import Verif.Spec.Denoisers
import Verif.Props.C41_C44
import Verif.Props.C61_C63
/-
C96: what the comparisons of denoisers report.
-/
namespace NR
open Spec Denoisers

theorem unequal_cons (x y : Int) (a b : List Int) : unequal (x :: a) (y :: b) = (if x = y then 0 else 1) + unequal a b := by
  unfold unequal
  rw [List.zip_cons_cons, List.filter_cons]
  by_cases h : x = y <;> simp [h]; omega

theorem unequal_diff : ∀ (a b : List Int), a.length = b.length → unequal a b = diffCount a b
  | [], [], _ => by simp [unequal, diffCount_nil]
  | [], _ :: _, h => by simp at h
  | _ :: _, [], h => by simp at h
  | x :: a, y :: b, h => by rw [unequal_cons, diffCount_cons, unequal_diff a b (by simpa using h)]

theorem binary_bits (l : List Int) (h : Binary l) : ∃ b : List Bool, l = bitsInt b := by
  refine ⟨l.map fun x => decide (x = 1), ?_⟩
  unfold bitsInt
  rw [List.map_map]
  conv_lhs => rw [← List.map_id l]
  apply List.map_congr_left
  intro x hx
  rcases h x hx with rfl | rfl <;> simp

theorem bitsInt_diff : ∀ (a b : List Bool), diffCount (bitsInt a) (bitsInt b) = diffCount a b := by
  intro a b
  unfold diffCount bitsInt
  simp only [List.length_map, List.getElem?_map]
  congr 1
  apply List.filter_congr
  intro i _
  cases a[i]? <;> cases b[i]? <;> simp
  rename_i x y
  cases x <;> cases y <;> simp

/-- The bit error rate of two sequences of bits is their share of unequal positions. -/
theorem ber_unequal (a b : List Int) (ha : Binary a) (hb : Binary b) (hl : a.length = b.length) (hne : a ≠ []) :
    ber .signed a b = .ok (some ((unequal b a : ℚ) / a.length)) := by
  obtain ⟨x, rfl⟩ := binary_bits a ha
  obtain ⟨y, rfl⟩ := binary_bits b hb
  have hxy : x.length = y.length := by simpa [bitsInt] using hl
  have hx : x ≠ [] := by rintro rfl; exact hne rfl
  rw [ber_val _ (by simp) x y hxy hx, ber_sum _ _ _ hxy, unequal_diff _ _ hl.symm, bitsInt_diff, diffCount_comm, ← pairCount_diff _ _ hxy]
  simp [npSub, bitsInt]

theorem bitMatrix_flatten {rows width : Nat} {m : List (List Int)} (h : BitMatrix rows width m) :
    m.flatten.length = rows * width ∧ Binary m.flatten := by
  obtain ⟨h1, h2⟩ := h
  constructor
  · rw [List.length_flatten, ← h1]
    have : m.map List.length = List.replicate m.length width := by
      rw [List.eq_replicate_iff]
      exact ⟨by simp, fun x hx => by obtain ⟨r, hr, rfl⟩ := List.mem_map.1 hx; exact (h2 r hr).1⟩
    rw [this]; simp
  · intro x hx
    obtain ⟨r, hr, hxr⟩ := List.mem_flatten.1 hx
    exact (h2 r hr).2 x hxr

/-- A rule for the decisions that answers with bits and repeats a symbol without context. -/
structure BitDecisions (D : Decide Int) : Prop where
  echo : ∀ x, D.echo x = x
  dec : ∀ counts x, D.dec counts x = 0 ∨ D.dec counts x = 1

theorem dude_bits {D : Decide Int} (hD : BitDecisions D) (k : Nat) (hk : 1 ≤ k) (obs : List Int) (hb : Binary obs) :
    ∃ rs st, OnlineDude.denoiseSequence D { k := k, A := 2 } obs = .ok (rs, st) ∧ rs.length = obs.length ∧ Binary rs := by
  obtain ⟨rs, st, h1, h2, h3⟩ := c41_counts D k 2 hk obs (fun o ho => by rcases hb o ho with rfl | rfl <;> simp)
  refine ⟨rs, st, h1, h2, ?_⟩
  intro x hx
  obtain ⟨i, hi, rfl⟩ := List.getElem_of_mem hx
  have := h3 i (by omega)
  rw [List.getElem?_eq_getElem hi, Option.some.injEq] at this
  rw [this]
  split
  · rw [hD.echo]; exact hb _ (List.getElem_mem _)
  · exact hD.dec _ _

/-- C96: `compare_denoisers` of integer bits reports, for the online denoiser run anew on each column, and for the entropy aided
denoiser, how many bits of its input each has changed, and this number divided by the number of bits. -/
theorem c96_report {D : Decide Int} (hD : BitDecisions D) (emle : MatrixDenoiser) (k rows width : Nat) (hk : 1 ≤ k) (hr : 0 < rows)
    (hw : 0 < width) (source : List (List Int)) (hs : BitMatrix rows width source) (e : List (List Int)) (he : emle source = .ok e)
    (hm : BitMatrix rows width e) :
    ∃ r d, compareDenoisers false D emle k width source = .ok r ∧ BitMatrix rows width d ∧
      (∀ i < width, ∃ st, OnlineDude.denoiseSequence D { k := k, A := 2 } (source.map fun row => row.getD i 0) =
        .ok (d.map fun row => row.getD i 0, st)) ∧
      r.dudeFlips = diffCount d.flatten source.flatten ∧ r.dudeBer = some ((diffCount d.flatten source.flatten : ℚ) / (rows * width)) ∧
      r.emleFlips = diffCount e.flatten source.flatten ∧ r.emleBer = some ((diffCount e.flatten source.flatten : ℚ) / (rows * width)) := by
  have hcol : ∀ i, i < width → Binary (columnAt source i) := by
    intro i hi x hx
    obtain ⟨row, hrow, rfl⟩ := List.mem_map.1 hx
    obtain ⟨h1, h2⟩ := hs.2 row hrow
    rw [List.getD_eq_getElem?_getD, List.getElem?_eq_getElem (by omega)]
    exact h2 _ (List.getElem_mem _)
  have hex : ∀ i, ∃ c : List Int, i < width → denoiseColumn false D k (columnAt source i) = .ok c ∧ c.length = rows ∧ Binary c ∧
      ∃ st, OnlineDude.denoiseSequence D { k := k, A := 2 } (columnAt source i) = .ok (c, st) := by
    intro i
    by_cases hi : i < width
    · obtain ⟨rs, st, h1, h2, h3⟩ := dude_bits hD k hk _ (hcol i hi)
      refine ⟨rs, fun _ => ⟨?_, by rw [h2]; simp [columnAt, hs.1], h3, st, h1⟩⟩
      unfold denoiseColumn
      rw [if_neg (by simp), h1]
      rfl
    · exact ⟨[], fun h => absurd h hi⟩
  choose c hc using hex
  have hmap : (List.range width).mapM (fun i => denoiseColumn false D k (columnAt source i)) = .ok ((List.range width).map c) := by
    have : ∀ l : List Nat, (∀ i ∈ l, i < width) → l.mapM (fun i => denoiseColumn false D k (columnAt source i)) = .ok (l.map c) := by
      intro l
      induction l with
      | nil => intro _; rfl
      | cons i l ih =>
        intro h
        rw [List.mapM_cons, (hc i (h i (by simp))).1, ih (fun j hj => h j (by simp [hj]))]
        rfl
    exact this _ (fun i hi => List.mem_range.1 hi)
  obtain ⟨d, hd⟩ : ∃ d, d = (List.range source.length).map fun t => ((List.range width).map c).map fun c => c.getD t 0 := ⟨_, rfl⟩
  have hdm : BitMatrix rows width d := by
    refine ⟨by rw [hd]; simp [hs.1], ?_⟩
    intro row hrow
    rw [hd] at hrow
    obtain ⟨t, ht, rfl⟩ := List.mem_map.1 hrow
    refine ⟨by simp, ?_⟩
    intro x hx
    simp only [List.map_map, List.mem_map, List.mem_range] at hx
    obtain ⟨i, hi, rfl⟩ := hx
    obtain ⟨_, h2, h3, _⟩ := hc i hi
    rw [List.mem_range, hs.1] at ht
    simp only [Function.comp]
    rw [List.getD_eq_getElem?_getD, List.getElem?_eq_getElem (by omega)]
    exact h3 _ (List.getElem_mem _)
  obtain ⟨s1, s2⟩ := bitMatrix_flatten hs
  obtain ⟨d1, d2⟩ := bitMatrix_flatten hdm
  obtain ⟨e1, e2⟩ := bitMatrix_flatten hm
  have hne : source.flatten ≠ [] := by
    intro h0
    rw [h0] at s1
    have := Nat.mul_pos hr hw
    simp at s1; omega
  refine ⟨⟨some ((diffCount d.flatten source.flatten : ℚ) / (rows * width)), diffCount d.flatten source.flatten,
    some ((diffCount e.flatten source.flatten : ℚ) / (rows * width)), diffCount e.flatten source.flatten⟩, d, ?_, hdm, ?_, rfl, rfl, rfl, rfl⟩
  · unfold compareDenoisers
    simp only [bind, Except.bind, hmap, he]
    rw [← hd, ber_unequal _ _ s2 d2 (by omega) hne, ber_unequal _ _ s2 e2 (by omega) hne, unequal_diff _ _ (by omega),
      unequal_diff _ _ (by omega), s1]
    push_cast
    rfl
  · intro i hi
    obtain ⟨h1, h2, h3, st, h4⟩ := hc i hi
    refine ⟨st, ?_⟩
    unfold columnAt at h4
    rw [h4]
    congr 2
    rw [hd, List.map_map]
    apply List.ext_getElem
    · simp [h2, hs.1]
    · intro t ht1 ht2
      simp [List.getD_eq_getElem?_getD, hi, List.getElem?_eq_getElem ht1]

/-- C96, refuted: the rate reported is not the rate of wrong bits. The third to sixth comparison hand over the noisy sequence only, so
a denoiser that changes nothing is reported with rate 0 whatever the noise was; here all bits are wrong. -/
theorem c96_rate_false (n : Nat) (hn : 0 < n) : ∃ (D : Decide Int) (emle : MatrixDenoiser) (source noise : List Int) (r : Comparison),
    BitDecisions D ∧ Binary source ∧ Binary noise ∧ source.length = n ∧
    compareDenoisers false D emle 1 1 ((addNoise source noise).map fun x => [x]) = .ok r ∧ r.dudeBer = some 0 ∧ r.emleBer = some 0 ∧
    ∀ i < n, (addNoise source noise)[i]? ≠ source[i]? := by
  refine ⟨⟨id, fun _ x => if x = 1 then 1 else 0⟩, .ok, List.replicate n 0, List.replicate n 1, ?_⟩
  have hnoisy : addNoise (List.replicate n 0) (List.replicate n 1) = List.replicate n 1 := by
    unfold addNoise; simp
  have hD : BitDecisions ⟨id, fun _ x => if x = 1 then 1 else 0⟩ := ⟨fun _ => rfl, fun _ x => by
    by_cases h : x = 1 <;> simp [h]⟩
  have hs : BitMatrix n 1 ((List.replicate n (1 : Int)).map fun x => [x]) := by
    refine ⟨by simp, fun r hr => ?_⟩
    obtain ⟨x, hx, rfl⟩ := List.mem_map.1 hr
    rw [List.eq_of_mem_replicate hx]
    exact ⟨rfl, fun y hy => by simp at hy; exact .inr hy⟩
  obtain ⟨r, d, h1, h2, h3, h4, h5, h6, h7⟩ := c96_report hD .ok 1 n 1 le_rfl hn one_pos _ hs _ rfl hs
  refine ⟨r, hD, fun x hx => .inl (List.eq_of_mem_replicate hx), fun x hx => .inr (List.eq_of_mem_replicate hx), by simp,
    by rw [hnoisy]; exact h1, ?_, ?_, ?_⟩
  · have hd : d.flatten = ((List.replicate n (1 : Int)).map fun x => [x]).flatten := by
      have hcol : d = (d.map fun row => row.getD 0 0).map fun x => [x] := by
        rw [List.map_map]
        conv_lhs => rw [← List.map_id d]
        apply List.map_congr_left
        intro row hrow
        obtain ⟨a, ha⟩ := List.length_eq_one_iff.1 (h2.2 row hrow).1
        simp [ha]
      obtain ⟨st, hst⟩ := h3 0 one_pos
      obtain ⟨rs, st', g1, g2, g3⟩ := c41_counts ⟨id, fun _ x => if x = 1 then 1 else 0⟩ 1 2 le_rfl
        (((List.replicate n (1 : Int)).map fun x => [x]).map fun row => row.getD 0 0) (fun o ho => by
          simp at ho; obtain ⟨_, rfl⟩ := ho; simp)
      rw [hst] at g1
      cases g1
      rw [hcol]
      congr 2
      rw [List.eq_replicate_iff]
      refine ⟨by rw [g2]; simp, ?_⟩
      intro b hb
      obtain ⟨i, hi, rfl⟩ := List.getElem_of_mem hb
      have := g3 i (by omega)
      rw [List.getElem?_eq_getElem hi, Option.some.injEq] at this
      rw [this]
      simp
    rw [h5, hd, (diffCount_eq_zero _ _).2 rfl]; simp
  · rw [h7, (diffCount_eq_zero _ _).2 rfl]; simp
  · intro i hi
    rw [hnoisy]
    simp [hi]

/-- C96: the comparison on the fixed source never ends well: its symbols are floats, and the second one raises IndexError. -/
theorem c96_fixed (D : Decide Int) (emle : MatrixDenoiser) (noise : List Int) (hn : 2 ≤ noise.length) :
    Raises (fixedSource D emle noise) .indexError := by
  have hc : (columnAt ((addNoise (noise.map fun _ => 1) noise).map fun x => [x]) 0).length = noise.length := by
    simp [columnAt, addNoise]
  have h : denoiseColumn true D 1 (columnAt ((addNoise (noise.map fun _ => 1) noise).map fun x => [x]) 0) = .error .indexError := by
    unfold denoiseColumn
    rw [if_pos ⟨rfl, by omega⟩]
  show fixedSource D emle noise = .error .indexError
  unfold fixedSource compareDenoisers
  rw [show List.range 1 = [0] from rfl, List.mapM_cons, h]
  rfl

/-! ### The counts of dude_example.py -/

theorem flipsThat_where (wrong : Bool) : ∀ (a b c : List Int), a.length = b.length → a.length = c.length →
    flipsThat wrong a b c = positionsWhere a b c fun x y z => x ≠ y ∧ (x ≠ z ↔ wrong = true)
  | [], [], [], _, _ => rfl
  | [], _ :: _, _, h, _ => by simp at h
  | _ :: _, [], _, h, _ => by simp at h
  | [], _, _ :: _, _, h => by simp at h
  | _ :: _, _, [], _, h => by simp at h
  | x :: a, y :: b, z :: c, h1, h2 => by
    have ih := flipsThat_where wrong a b c (by simpa using h1) (by simpa using h2)
    unfold flipsThat positionsWhere at ih ⊢
    rw [List.length_cons, List.range_succ_eq_map, List.countP_cons, List.countP_map, List.zip_cons_cons, List.zip_cons_cons,
      List.filter_cons]
    simp only [Function.comp_def, List.getD_cons_succ, List.getD_cons_zero]
    rw [← ih]
    cases wrong <;> by_cases hxy : x = y <;> by_cases hxz : x = z <;> simp [hxy, hxz]
    all_goals simp_all

/-- The two kinds of flips, and how they change the number of errors, position by position. -/
theorem flips_balance : ∀ (est noisy seq : List Int), est.length = noisy.length → est.length = seq.length → Binary est → Binary noisy →
    Binary seq → flipsThat true est noisy seq + flipsThat false est noisy seq = unequal est noisy ∧
      unequal est seq + flipsThat false est noisy seq = unequal noisy seq + flipsThat true est noisy seq
  | [], [], [], _, _, _, _, _ => ⟨rfl, rfl⟩
  | [], _ :: _, _, h, _, _, _, _ => by simp at h
  | _ :: _, [], _, h, _, _, _, _ => by simp at h
  | [], _, _ :: _, _, h, _, _, _ => by simp at h
  | _ :: _, _, [], _, h, _, _, _ => by simp at h
  | x :: a, y :: b, z :: c, h1, h2, e1, e2, e3 => by
    obtain ⟨i1, i2⟩ := flips_balance a b c (by simpa using h1) (by simpa using h2) (fun w hw => e1 w (by simp [hw]))
      (fun w hw => e2 w (by simp [hw])) (fun w hw => e3 w (by simp [hw]))
    have f : ∀ w, flipsThat w (x :: a) (y :: b) (z :: c) =
        (if x ≠ y ∧ (x ≠ z ↔ w = true) then 1 else 0) + flipsThat w a b c := by
      intro w
      unfold flipsThat
      rw [List.zip_cons_cons, List.zip_cons_cons, List.filter_cons]
      cases w <;> by_cases hxy : x = y <;> by_cases hxz : x = z <;> simp [hxy, hxz] <;>
        simp_all <;> omega
    rw [f, f, unequal_cons, unequal_cons, unequal_cons]
    rcases e1 x (by simp) with rfl | rfl <;> rcases e2 y (by simp) with rfl | rfl <;> rcases e3 z (by simp) with rfl | rfl <;>
      simp <;> omega

theorem addNoise_binary (seq noise : List Int) (h1 : Binary seq) (h2 : Binary noise) : Binary (addNoise seq noise) := by
  intro x hx
  unfold addNoise at hx
  rw [List.mem_iff_getElem] at hx
  obtain ⟨i, hi, rfl⟩ := hx
  rw [List.getElem_zipWith]
  rw [List.length_zipWith] at hi
  rcases h1 seq[i] (List.getElem_mem (by omega)) with h | h <;> rcases h2 noise[i] (List.getElem_mem (by omega)) with g | g <;>
    rw [h, g] <;> simp

theorem addNoise_unequal : ∀ (seq noise : List Int), Binary seq → Binary noise → seq.length = noise.length →
    unequal (addNoise seq noise) seq = noise.count 1
  | [], [], _, _, _ => rfl
  | [], _ :: _, _, _, h => by simp at h
  | _ :: _, [], _, _, h => by simp at h
  | x :: a, y :: b, h1, h2, h => by
    have ih := addNoise_unequal a b (fun w hw => h1 w (by simp [hw])) (fun w hw => h2 w (by simp [hw])) (by simpa using h)
    unfold addNoise at ih ⊢
    rw [List.zipWith_cons_cons, unequal_cons, ih, List.count_cons]
    rcases h1 x (by simp) with rfl | rfl <;> rcases h2 y (by simp) with rfl | rfl <;> simp <;> omega

/-- C96: the numbers printed for a noisy sequence of bits: the noise errors are the ones of the noise; errors and flips are the
positions where the estimate differs from the true and from the noisy sequence; a flip is good if it restores the true bit and
erroneous if it damages it; so flips are good or erroneous, and the errors left are the noise errors less the good flips plus the
erroneous ones. -/
theorem c96_counts (dude : List Int → Except PyErr (List Int)) (emle : MatrixDenoiser) (seq noise est : List Int) (e : List (List Int))
    (hs : Binary seq) (hn : Binary noise) (hl : seq.length = noise.length) (hd : dude (addNoise seq noise) = .ok est)
    (hel : est.length = seq.length) (heb : Binary est) (he : emle (seq.map fun x => [x]) = .ok e) :
    ∃ p, example_ dude emle seq noise = .ok p ∧ p.noiseErrors = noise.count 1 ∧ p.errors = diffCount est seq ∧
      p.flips = diffCount est (addNoise seq noise) ∧
      p.good = positionsWhere est (addNoise seq noise) seq (fun x y z => x ≠ y ∧ x = z) ∧
      p.erroneous = positionsWhere est (addNoise seq noise) seq (fun x y z => x ≠ y ∧ x ≠ z) ∧
      p.flips = p.good + p.erroneous ∧ p.errors + p.good = p.noiseErrors + p.erroneous := by
  have hnl : (addNoise seq noise).length = seq.length := by simp [addNoise, hl]
  have hnb := addNoise_binary seq noise hs hn
  obtain ⟨b1, b2⟩ := flips_balance est (addNoise seq noise) seq (by omega) hel heb hnb hs
  refine ⟨_, by unfold example_; simp only [bind, Except.bind, hd, he]; rfl, addNoise_unequal seq noise hs hn hl,
    unequal_diff est seq hel, unequal_diff est (addNoise seq noise) (by omega), ?_, ?_, by simp only; omega, b2⟩
  · simp only
    rw [flipsThat_where _ _ _ _ (by omega) hel]
    simp
  · simp only
    rw [flipsThat_where _ _ _ _ (by omega) hel]
    simp

/-- C96, refuted: the errors printed for the entropy aided denoiser do not say how it copes with the noise. It is given the sequence
without noise, so the number is the same for all noise. -/
theorem c96_emle_false (dude : List Int → Except PyErr (List Int)) (emle : MatrixDenoiser) (seq noise noise' : List Int) (p p' : Printed)
    (h : example_ dude emle seq noise = .ok p) (h' : example_ dude emle seq noise' = .ok p') : p.emleErrors = p'.emleErrors := by
  unfold example_ at h h'
  simp only [bind, Except.bind] at h h'
  cases he : emle (seq.map fun x => [x]) with
  | error x => rw [he] at h; split at h <;> cases h
  | ok e =>
    rw [he] at h h'
    split at h
    · cases h
    split at h'
    · cases h'
    cases h
    cases h'
    rfl

/-! ### The hypotheses can be met -/

/-- The decisions of the class with a binary symmetric channel and Hamming loss are bits. -/
theorem hardDecision_bits (chan loss : Matrix (Fin 2) (Fin 2) ℝ) (z : Int → Fin 2) :
    BitDecisions ⟨fun x => x, fun counts x => (hardDecision chan loss counts (z x)).1⟩ := by
  refine ⟨fun _ => rfl, fun counts x => ?_⟩
  classical
  simp only [hardDecision, argmin, List.ofFn_succ, List.ofFn_zero]
  simp only [List.zipIdx_cons, List.zipIdx_nil, List.foldl_cons, List.foldl_nil, List.headD_cons, lt_self_iff_false, if_false]
  split <;> simp

example : (compareDenoisers false ⟨id, fun c _ => if c.getD 0 0 < c.getD 1 0 then 1 else 0⟩ .ok 1 1 [[1], [1], [1], [0], [1]]) =
    .ok ⟨some (1 / 5), 1, some 0, 0⟩ := by decide +kernel

example : example_ (fun l => .ok (l.map fun _ => 1)) .ok [1, 1, 0, 1] [0, 1, 0, 0] = .ok ⟨1, 1, 2, 1, 1, 0, 1⟩ := by decide +kernel

end NR
