import Verif.Model.Turbo
import Verif.Spec.Turbo
import Verif.Spec.Decoder
import Verif.Lemmas.Bits
import Verif.Props.C47_C50
import Mathlib.Data.Finset.Card
import Mathlib.Data.Finset.Dedup
import Mathlib.Data.Int.Order.Basic
import Mathlib.Tactic.Ring
/-
C58: the turbo decoder. C59: confusion counts. C60: track_errors.
-/
namespace NR
open Spec

/-! ### C60 -/

theorem setTrue_spec (n : Nat) (idx : List Int) (h : ∀ i ∈ idx, -(n : Int) ≤ i ∧ i < n) :
    ∃ m, errorMask n idx = .ok m ∧ m.length = n ∧
      ∀ j, j < n → (m[j]? = some true ↔ (j : Int) ∈ idx ∨ (j : Int) - n ∈ idx) ∧ ∃ b, m[j]? = some b := by
  have key : ∀ (idx : List Int) (a : List Bool), a.length = n → (∀ i ∈ idx, -(n : Int) ≤ i ∧ i < n) →
      let m := idx.foldl (fun (a : List Bool) (i : Int) => a.set (if i < 0 then i + n else i).toNat true) a
      m.length = n ∧ ∀ j, j < n → (m[j]? = some true ↔ a[j]? = some true ∨ (j : Int) ∈ idx ∨ (j : Int) - n ∈ idx) := by
    intro idx
    induction idx with
    | nil => intro a ha _; simp [ha]
    | cons i idx ih =>
      intro a ha hi
      obtain ⟨h1, h2⟩ := ih (a.set (if i < 0 then i + n else i).toNat true) (by simp [ha])
        (fun k hk => hi k (List.mem_cons_of_mem _ hk))
      refine ⟨h1, fun j hj => ?_⟩
      rw [List.foldl_cons, h2 j hj]
      have hin := hi i (List.mem_cons_self ..)
      rw [List.getElem?_set]
      by_cases hj' : (if i < 0 then i + n else i).toNat = j
      · rw [if_pos hj', if_pos (by rw [hj', ha]; exact hj)]
        refine ⟨fun _ => Or.inr ?_, fun _ => Or.inl rfl⟩
        simp only [List.mem_cons]
        split at hj' <;> omega
      · rw [if_neg hj']
        have : (j : Int) ≠ i ∧ (j : Int) - n ≠ i := by
          split at hj' <;> omega
        simp only [List.mem_cons, this.1, this.2, false_or]
  obtain ⟨h1, h2⟩ := key idx (List.replicate n false) (by simp) h
  refine ⟨_, ?_, h1, fun j hj => ⟨?_, _, List.getElem?_eq_getElem (by rw [h1]; exact hj)⟩⟩
  · unfold errorMask
    rw [if_pos]
    rw [List.all_eq_true]
    intro i hi
    simpa using h i hi
  · rw [h2 j hj]
    simp [hj]

theorem count_ne_diffCount (x y : List Bool) (h : x.length = y.length) :
    (List.zipWith (fun a b => a != b) x y).count true = diffCount x y := by
  rw [← count_xor_eq_diffCount x y h]

/-- C60. Given the positions at which the received word differs from the transmitted one (in any order, with repetitions),
`track_errors` is the number of positions at which the estimate differs from the transmitted word. -/
theorem c60_counts (tx rx est : List Bool) (errorIdx : List Int) (hlen : tx.length = rx.length)
    (hest : est.length = rx.length)
    (hidx : ∀ i : Int, i ∈ errorIdx ↔ 0 ≤ i ∧ i < rx.length ∧ rx[i.toNat]? ≠ tx[i.toNat]?) :
    trackErrors errorIdx rx est = .ok (diffCount tx est) := by
  obtain ⟨m, hm, hml, hmj⟩ := setTrue_spec rx.length errorIdx (by
    intro i hi
    have := (hidx i).1 hi
    omega)
  have htx : List.zipWith (fun a b => a ^^ b) rx m = tx := by
    apply List.ext_getElem?
    intro j
    by_cases hj : j < rx.length
    · obtain ⟨hj1, b, hb⟩ := hmj j hj
      have hr := List.getElem?_eq_getElem hj
      have ht := List.getElem?_eq_getElem (show j < tx.length by omega)
      rw [List.getElem?_zipWith, hr, hb, ht]
      simp only [Option.some.injEq]
      have h1 : (j : Int) ∈ errorIdx ↔ rx[j] ≠ tx[j] := by
        rw [hidx]
        simp only [Int.toNat_natCast]
        rw [hr, ht]
        simp only [ne_eq, Option.some.injEq]
        constructor
        · exact fun h => h.2.2
        · exact fun h => ⟨by omega, by omega, h⟩
      have h2 : (j : Int) - rx.length ∉ errorIdx := by
        rw [hidx]; omega
      rw [hb] at hj1
      simp only [Option.some.injEq, h1, h2, or_false] at hj1
      clear hb
      revert hj1
      generalize rx[j] = u
      generalize tx[j] = v
      revert b u v
      decide
    · rw [List.getElem?_eq_none (by simp [hml]; omega), List.getElem?_eq_none (by omega)]
  unfold trackErrors
  rw [hm]
  simp only [bind, Except.bind, htx]
  rw [if_pos (by omega), count_ne_diffCount _ _ (by omega)]

/-- C60. It is 0 exactly when the estimate is the transmitted word. -/
theorem c60_zero_iff (tx rx est : List Bool) (errorIdx : List Int) (hlen : tx.length = rx.length)
    (hest : est.length = rx.length)
    (hidx : ∀ i : Int, i ∈ errorIdx ↔ 0 ≤ i ∧ i < rx.length ∧ rx[i.toNat]? ≠ tx[i.toNat]?) :
    trackErrors errorIdx rx est = .ok 0 ↔ est = tx := by
  rw [c60_counts tx rx est errorIdx hlen hest hidx, Except.ok.injEq, diffCount_eq_zero]
  exact eq_comm

/-- C60. A position outside the word raises an IndexError. -/
theorem c60_out_of_range (rx est : List Bool) (errorIdx : List Int) (i : Int) (hi : i ∈ errorIdx)
    (h : i < -(rx.length : Int) ∨ (rx.length : Int) ≤ i) : trackErrors errorIdx rx est = .error .indexError := by
  unfold trackErrors errorMask
  rw [if_neg]
  · rfl
  · rw [List.all_eq_true]
    intro hall
    have := hall i hi
    simp only [decide_eq_true_eq] at this
    omega

example : trackErrors [2, 0, 2] [true, true, true, false] [true, true, false, false] = .ok 1 := by decide

example : ∀ i : Int, i ∈ [2, 0, 2] ↔ 0 ≤ i ∧ i < ([true, true, true, false] : List Bool).length ∧
    [true, true, true, false][i.toNat]? ≠ [false, true, false, false][i.toNat]? := by
  intro i
  simp only [List.mem_cons, List.not_mem_nil, or_false, List.length_cons, List.length_nil]
  constructor
  · rintro (rfl | rfl | rfl) <;> decide
  · rintro ⟨h1, h2, h3⟩
    have : i = 0 ∨ i = 1 ∨ i = 2 ∨ i = 3 := by omega
    rcases this with rfl | rfl | rfl | rfl <;> first | simp; done | exact absurd rfl h3

/-! ### C59 -/

/-- C59. The counts: common, predicted-only and actual-only indices, without repetitions; the number of actual positives
(with repetitions) and the given number of negatives are passed through. -/
theorem c59_counts (predicted actual : List Int) (negative : Int) :
    confusion predicted actual negative =
      [((predicted.toFinset ∩ actual.toFinset).card : Int), ((predicted.toFinset \ actual.toFinset).card : Int),
        negative - (predicted.toFinset \ actual.toFinset).card, ((actual.toFinset \ predicted.toFinset).card : Int),
        actual.length, negative] := by
  have hcard : ∀ (l : List Int) (F : Finset Int), l.Nodup → (∀ x, x ∈ l ↔ x ∈ F) → l.length = F.card := by
    intro l F hn hF
    rw [← List.toFinset_card_of_nodup hn]
    congr 1
    ext x
    rw [List.mem_toFinset, hF]
  have hu : ∀ (l : List Int) x, x ∈ npUnique l ↔ x ∈ l := fun l => (npUnique_spec l).2
  unfold confusion
  simp only
  rw [hcard _ (predicted.toFinset ∩ actual.toFinset) ((npUnique_nodup predicted).filter _) (by
      intro x; simp [List.mem_filter, hu]),
    hcard _ (predicted.toFinset \ actual.toFinset) ((npUnique_nodup predicted).filter _) (by
      intro x; simp [List.mem_filter, hu]),
    hcard _ (actual.toFinset \ predicted.toFinset) ((npUnique_nodup actual).filter _) (by
      intro x; simp [List.mem_filter, hu])]

/-- C59. The totals: distinct predictions, distinct actual positives, negatives. -/
theorem c59_totals (predicted actual : List Int) (negative : Int) (tp fp tn fn pos neg : Int)
    (h : confusion predicted actual negative = [tp, fp, tn, fn, pos, neg]) :
    tp + fp = predicted.toFinset.card ∧ tp + fn = actual.toFinset.card ∧ fp + tn = negative ∧ neg = negative ∧
      0 ≤ tp ∧ 0 ≤ fp ∧ 0 ≤ fn ∧ (actual.Nodup → tp + fn = pos) := by
  rw [c59_counts] at h
  simp only [List.cons.injEq, and_true] at h
  obtain ⟨rfl, rfl, rfl, rfl, rfl, rfl⟩ := h
  have h1 := Finset.card_inter_add_card_sdiff predicted.toFinset actual.toFinset
  have h2 := Finset.card_inter_add_card_sdiff actual.toFinset predicted.toFinset
  rw [Finset.inter_comm] at h2
  refine ⟨by omega, by omega, by omega, rfl, by omega, by omega, by omega, fun hn => ?_⟩
  have h3 := List.toFinset_card_of_nodup hn
  omega

/-- C59. Perfect prediction: no false positives and no false negatives exactly when the same indices are named. -/
theorem c59_perfect (predicted actual : List Int) (negative : Int) (tp fp tn fn pos neg : Int)
    (h : confusion predicted actual negative = [tp, fp, tn, fn, pos, neg]) :
    (fp = 0 ∧ fn = 0) ↔ ∀ i, i ∈ predicted ↔ i ∈ actual := by
  rw [c59_counts] at h
  simp only [List.cons.injEq, and_true] at h
  obtain ⟨_, rfl, _, rfl, _, _⟩ := h
  simp only [Nat.cast_eq_zero, Finset.card_eq_zero, Finset.sdiff_eq_empty_iff_subset]
  constructor
  · rintro ⟨h1, h2⟩ i
    exact ⟨fun hi => List.mem_toFinset.1 (h1 (List.mem_toFinset.2 hi)),
      fun hi => List.mem_toFinset.1 (h2 (List.mem_toFinset.2 hi))⟩
  · intro hi
    exact ⟨fun x hx => List.mem_toFinset.2 ((hi x).1 (List.mem_toFinset.1 hx)),
      fun x hx => List.mem_toFinset.2 ((hi x).2 (List.mem_toFinset.1 hx))⟩

example : confusion [3, 1, 1, 7] [7, 2, 3, 3] 10 = [2, 1, 9, 1, 4, 10] := by decide

/-! ### C58 -/

/-- A decoder that does not raise. -/
def total {S : Type} (d : Soft S) : SoftDec S :=
  fun s x => ((d s x).1, .ok ⟨(d s x).2.1, (d s x).2.2.1, (d s x).2.2.2⟩)

theorem bcast_same {α : Type} (f : α → α → α) (a b : List α) (h : a.length = b.length) :
    bcastWith f a b = .ok (List.zipWith f a b) := by
  unfold bcastWith
  rw [if_pos h]

theorem half_length {S T : Type} (d1 : Soft S) (d2 : Soft T) (ch : List ℝ)
    (h1 : ∀ s x, x.length = ch.length → (d1 s x).2.2.1.length = ch.length)
    (h2 : ∀ t x, x.length = ch.length → (d2 t x).2.2.1.length = ch.length) (s : S) (t : T) (h : Nat) :
    (half d1 d2 ch s t h).2.2.length = ch.length := by
  induction h with
  | zero => rfl
  | succ h ih =>
    simp only [half]
    split
    · simp [nextInput, h1 _ _ ih, ih]
    · simp [nextInput, h2 _ _ ih, ih]

/-- The loop, from the state before round `r`. -/
theorem turboLoop_spec {S T : Type} (d1 : Soft S) (d2 : Soft T) (ch : List ℝ)
    (h1 : ∀ s x, x.length = ch.length → (d1 s x).2.2.1.length = ch.length)
    (h2 : ∀ t x, x.length = ch.length → (d2 t x).2.2.1.length = ch.length) (debug : Bool) (errorIdx : List Int)
    (E : List Bool → Nat) (s : S) (t : T)
    (hE : ∀ r, turboErr debug errorIdx ch (halfOut d1 d2 ch s t (2 * r)).1 (halfOut d1 d2 ch s t (2 * r + 1)).1 =
      .ok (E (halfOut d1 d2 ch s t (2 * r + 1)).1))
    (n : Nat) : ∀ (r : Nat) (p : List ℝ) (last : Option (SoftOut × Nat)), p.length = ch.length →
      List.zipWith (fun (a b : ℝ) => a + b) ch p = (half d1 d2 ch s t (2 * r)).2.2 →
      (∀ h, h < 2 * r → (halfOut d1 d2 ch s t h).2.2 = false) →
      (r = 0 → last = none) →
      (0 < r → last = some (⟨(halfOut d1 d2 ch s t (2 * r - 1)).1, (halfOut d1 d2 ch s t (2 * r - 1)).2.1,
        (halfOut d1 d2 ch s t (2 * r - 1)).2.2⟩, E (halfOut d1 d2 ch s t (2 * r - 1)).1)) →
      (∃ h, h < 2 * (r + n) ∧ (halfOut d1 d2 ch s t h).2.2 = true ∧
        (∀ h', h' < h → (halfOut d1 d2 ch s t h').2.2 = false) ∧
        turboLoop (total d1) (total d2) debug errorIdx ch n (half d1 d2 ch s t (2 * r)).1 (half d1 d2 ch s t (2 * r)).2.1
          p last = ((half d1 d2 ch s t (h + 1)).1, (half d1 d2 ch s t (h + 1)).2.1,
            .ok ⟨(halfOut d1 d2 ch s t h).1, (halfOut d1 d2 ch s t h).2.1, true, h % 2 + 1, 0⟩)) ∨
      ((∀ h, h < 2 * (r + n) → (halfOut d1 d2 ch s t h).2.2 = false) ∧
        turboLoop (total d1) (total d2) debug errorIdx ch n (half d1 d2 ch s t (2 * r)).1 (half d1 d2 ch s t (2 * r)).2.1
          p last = ((half d1 d2 ch s t (2 * (r + n))).1, (half d1 d2 ch s t (2 * (r + n))).2.1,
            if r + n = 0 then .error .unboundLocalError
            else .ok ⟨(halfOut d1 d2 ch s t (2 * (r + n) - 1)).1, (halfOut d1 d2 ch s t (2 * (r + n) - 1)).2.1, false, 2,
              E (halfOut d1 d2 ch s t (2 * (r + n) - 1)).1⟩)) := by
  induction n with
  | zero =>
    intro r p last hp hx hf hl0 hl1
    right
    refine ⟨hf, ?_⟩
    by_cases hr : r = 0
    · rw [hl0 hr, hr]; rfl
    · rw [hl1 (by omega)]
      simp only [turboLoop, Nat.add_zero]
      rw [if_neg hr, hf (2 * r - 1) (by omega)]
  | succ n ih =>
    intro r p last hp hx hf hl0 hl1
    have hlen := half_length d1 d2 ch h1 h2 s t
    have even : (2 * r) % 2 = 0 := by omega
    have odd : (2 * r + 1) % 2 ≠ 0 := by omega
    have o1 : halfOut d1 d2 ch s t (2 * r) = (d1 (half d1 d2 ch s t (2 * r)).1 (half d1 d2 ch s t (2 * r)).2.2).2 := by
      simp only [halfOut]; rw [if_pos even]
    have st1 : half d1 d2 ch s t (2 * r + 1) = ((d1 (half d1 d2 ch s t (2 * r)).1 (half d1 d2 ch s t (2 * r)).2.2).1,
        (half d1 d2 ch s t (2 * r)).2.1,
        nextInput ch (halfOut d1 d2 ch s t (2 * r)).2.1 (half d1 d2 ch s t (2 * r)).2.2) := by
      rw [o1]; simp only [half]; rw [if_pos even]
    have o2 : halfOut d1 d2 ch s t (2 * r + 1) =
        (d2 (half d1 d2 ch s t (2 * r + 1)).2.1 (half d1 d2 ch s t (2 * r + 1)).2.2).2 := by
      simp only [halfOut]; rw [if_neg odd]
    have st2 : half d1 d2 ch s t (2 * r + 2) = ((half d1 d2 ch s t (2 * r + 1)).1,
        (d2 (half d1 d2 ch s t (2 * r + 1)).2.1 (half d1 d2 ch s t (2 * r + 1)).2.2).1,
        nextInput ch (halfOut d1 d2 ch s t (2 * r + 1)).2.1 (half d1 d2 ch s t (2 * r + 1)).2.2) := by
      rw [o2, show 2 * r + 2 = (2 * r + 1) + 1 from rfl, half]
      rw [if_neg odd]
    have l1 : (halfOut d1 d2 ch s t (2 * r)).2.1.length = ch.length := by rw [o1]; exact h1 _ _ (hlen _)
    have l2 : (halfOut d1 d2 ch s t (2 * r + 1)).2.1.length = ch.length := by rw [o2]; exact h2 _ _ (hlen _)
    rw [turboLoop]
    rw [bcast_same _ _ _ hp.symm, hx]
    simp only [total]
    rw [← o1]
    by_cases hs1 : (halfOut d1 d2 ch s t (2 * r)).2.2 = true
    · left
      refine ⟨2 * r, by omega, hs1, hf, ?_⟩
      rw [if_pos hs1, st1, even]
    rw [if_neg hs1]
    -- the second decoder's input
    generalize hll1 : (halfOut d1 d2 ch s t (2 * r)).2.1 = llr1 at *
    rw [bcast_same _ llr1 ch l1]
    simp only [bind, Except.bind]
    rw [bcast_same _ _ p (by simp [l1, hp])]
    simp only
    rw [bcast_same _ _ ch (by simp [l1, hp])]
    simp only [pure, Except.pure]
    generalize hp2 : List.zipWith (fun (a b : ℝ) => a - b) (List.zipWith (fun (a b : ℝ) => a - b) llr1 ch) p = prior2
    have lp2 : prior2.length = ch.length := by rw [← hp2]; simp [l1, hp]
    have hx2 : List.zipWith (fun (a b : ℝ) => a + b) prior2 ch = (half d1 d2 ch s t (2 * r + 1)).2.2 := by
      rw [st1, ← hp2]
      simp only [nextInput]
      rw [← hx]
      apply List.ext_getElem
      · simp [l1, hp]
      · intro i _ _
        simp only [List.getElem_zipWith]
        ring
    rw [hx2]
    have hst1 : (d1 (half d1 d2 ch s t (2 * r)).1 (half d1 d2 ch s t (2 * r)).2.2).1 =
      (half d1 d2 ch s t (2 * r + 1)).1 := by rw [st1]
    have hst1' : (half d1 d2 ch s t (2 * r)).2.1 = (half d1 d2 ch s t (2 * r + 1)).2.1 := by rw [st1]
    rw [hst1, hst1', ← o2]
    by_cases hs2 : (halfOut d1 d2 ch s t (2 * r + 1)).2.2 = true
    · left
      refine ⟨2 * r + 1, by omega, hs2, fun h' hh' => ?_, ?_⟩
      · by_cases hh : h' = 2 * r
        · rw [hh]; simpa using hs1
        · exact hf h' (by omega)
      · rw [if_pos hs2, show 2 * r + 1 + 1 = 2 * r + 2 from rfl, st2, show (2 * r + 1) % 2 = 1 by omega]
    rw [if_neg hs2]
    generalize hll2 : (halfOut d1 d2 ch s t (2 * r + 1)).2.1 = llr2 at *
    rw [bcast_same _ llr2 ch l2]
    simp only
    rw [bcast_same _ _ prior2 (by simp [l2, lp2])]
    simp only
    rw [hE r]
    simp only
    have hst2 : (d2 (half d1 d2 ch s t (2 * r + 1)).2.1 (half d1 d2 ch s t (2 * r + 1)).2.2).1 =
      (half d1 d2 ch s t (2 * (r + 1))).2.1 := by rw [show 2 * (r + 1) = 2 * r + 2 from rfl, st2]
    have hst2' : (half d1 d2 ch s t (2 * r + 1)).1 = (half d1 d2 ch s t (2 * (r + 1))).1 := by
      rw [show 2 * (r + 1) = 2 * r + 2 from rfl, st2]
    rw [hst2, hst2']
    have := ih (r + 1) (List.zipWith (fun (a b : ℝ) => a - b) (List.zipWith (fun (a b : ℝ) => a - b) llr2 ch) prior2)
      (some (⟨(halfOut d1 d2 ch s t (2 * r + 1)).1, llr2, (halfOut d1 d2 ch s t (2 * r + 1)).2.2⟩,
        E (halfOut d1 d2 ch s t (2 * r + 1)).1)) (by simp [l2, lp2]) (by
          rw [show 2 * (r + 1) = 2 * r + 2 from rfl, st2]
          simp only [nextInput]
          rw [← hx2]
          apply List.ext_getElem
          · simp [l2, lp2]
          · intro i _ _
            simp only [List.getElem_zipWith]
            ring) (by
          intro h hh
          by_cases hh1 : h = 2 * r
          · rw [hh1]; simpa using hs1
          · by_cases hh2 : h = 2 * r + 1
            · rw [hh2]; simpa using hs2
            · exact hf h (by omega)) (by omega) (by
          intro _
          rw [show 2 * (r + 1) - 1 = 2 * r + 1 from rfl, hll2])
    rw [show r + (n + 1) = r + 1 + n by omega]
    exact this

/-- C58. Two soft decoders that do not raise: the result is that of the first half-round that succeeds, with the number of
its decoder and 0 errors; if none of the `2 * max_iter` half-rounds succeeds it is that of the last run of the second
decoder, reported as a failure; without any round the call raises. -/
theorem c58_result {S T : Type} (d1 : Soft S) (d2 : Soft T) (ch : List ℝ)
    (h1 : ∀ s x, x.length = ch.length → (d1 s x).2.2.1.length = ch.length)
    (h2 : ∀ t x, x.length = ch.length → (d2 t x).2.2.1.length = ch.length) (s : S) (t : T) (maxIter : Nat)
    (errorIdx : List Int) :
    (∃ h, h < 2 * maxIter ∧ (halfOut d1 d2 ch s t h).2.2 = true ∧
      (∀ h', h' < h → (halfOut d1 d2 ch s t h').2.2 = false) ∧
      (turboDecode (total d1) (total d2) maxIter false s t ch errorIdx).2.2 =
        .ok ⟨(halfOut d1 d2 ch s t h).1, (halfOut d1 d2 ch s t h).2.1, true, h % 2 + 1, 0⟩) ∨
    ((∀ h, h < 2 * maxIter → (halfOut d1 d2 ch s t h).2.2 = false) ∧
      (turboDecode (total d1) (total d2) maxIter false s t ch errorIdx).2.2 =
        if maxIter = 0 then .error .unboundLocalError
        else .ok ⟨(halfOut d1 d2 ch s t (2 * maxIter - 1)).1, (halfOut d1 d2 ch s t (2 * maxIter - 1)).2.1, false, 2,
          0⟩) := by
  have := turboLoop_spec d1 d2 ch h1 h2 false errorIdx (fun _ => 0) s t (fun r => rfl) maxIter 0
    (List.replicate ch.length 0) none (by simp) (by
      apply List.ext_getElem
      · simp [half]
      · intro i _ _; simp [half]) (by simp) (fun _ => rfl) (by simp)
  simp only [Nat.zero_add, Nat.mul_zero] at this
  rcases this with ⟨h, a1, a2, a3, a4⟩ | ⟨a1, a2⟩
  · left
    refine ⟨h, a1, a2, a3, ?_⟩
    unfold turboDecode
    rw [show s = (half d1 d2 ch s t 0).1 from rfl, show t = (half d1 d2 ch s t 0).2.1 from rfl]
    exact congrArg (fun x => x.2.2) a4
  · right
    refine ⟨a1, ?_⟩
    exact congrArg (fun x => x.2.2) a2

/-- C58. Success is reported exactly when one of the constituent decoders succeeds within `max_iter` rounds. -/
theorem c58_success_iff {S T : Type} (d1 : Soft S) (d2 : Soft T) (ch : List ℝ)
    (h1 : ∀ s x, x.length = ch.length → (d1 s x).2.2.1.length = ch.length)
    (h2 : ∀ t x, x.length = ch.length → (d2 t x).2.2.1.length = ch.length) (s : S) (t : T) (maxIter : Nat)
    (hm : 0 < maxIter) (errorIdx : List Int) :
    ∃ o, (turboDecode (total d1) (total d2) maxIter false s t ch errorIdx).2.2 = .ok o ∧
      (o.success = true ↔ ∃ h, h < 2 * maxIter ∧ (halfOut d1 d2 ch s t h).2.2 = true) ∧ (o.which = 1 ∨ o.which = 2) ∧
      (o.success = false → o.which = 2) := by
  rcases c58_result d1 d2 ch h1 h2 s t maxIter errorIdx with ⟨h, a1, a2, a3, a4⟩ | ⟨a1, a2⟩
  · refine ⟨_, a4, ⟨fun _ => ⟨h, a1, a2⟩, fun _ => rfl⟩, ?_, by simp⟩
    simp only
    omega
  · rw [if_neg (by omega)] at a2
    refine ⟨_, a2, ⟨fun hh => (by cases hh), fun ⟨h, b1, b2⟩ => ?_⟩, Or.inr rfl, fun _ => rfl⟩
    rw [a1 h b1] at b2
    cases b2

/-- C58. In debug mode, given the positions where the received word differs from the transmitted one, the number returned
after a failure is the number of remaining errors in the returned estimate; the rest is as without debugging. -/
theorem c58_debug {S T : Type} (d1 : Soft S) (d2 : Soft T) (ch : List ℝ)
    (h1 : ∀ s x, x.length = ch.length → (d1 s x).2.2.1.length = ch.length ∧ (d1 s x).2.1.length = ch.length)
    (h2 : ∀ t x, x.length = ch.length → (d2 t x).2.2.1.length = ch.length ∧ (d2 t x).2.1.length = ch.length) (s : S)
    (t : T) (maxIter : Nat) (errorIdx : List Int) (tx : List Bool) (htx : tx.length = ch.length)
    (hidx : ∀ i : Int, i ∈ errorIdx ↔ 0 ≤ i ∧ i < ch.length ∧ (hardWord ch)[i.toNat]? ≠ tx[i.toNat]?) :
    (turboDecode (total d1) (total d2) maxIter true s t ch errorIdx).2.2 =
      (turboDecode (total d1) (total d2) maxIter false s t ch errorIdx).2.2.map fun o =>
        { o with errors := if o.success then 0 else diffCount tx o.estimate } := by
  have hlen := half_length d1 d2 ch (fun s x hx => (h1 s x hx).1) (fun t x hx => (h2 t x hx).1) s t
  have hest : ∀ h, (halfOut d1 d2 ch s t h).1.length = ch.length := by
    intro h
    simp only [halfOut]
    split
    · exact (h1 _ _ (hlen h)).2
    · exact (h2 _ _ (hlen h)).2
  have hrl : (hardWord ch).length = ch.length := by simp [hardWord]
  have hE : ∀ e1 e2 : List Bool, e1.length = ch.length → e2.length = ch.length →
      turboErr true errorIdx ch e1 e2 = .ok (diffCount tx e2) := by
    intro e1 e2 he1 he2
    have k : ∀ e : List Bool, e.length = ch.length → trackErrors errorIdx (hardWord ch) e = .ok (diffCount tx e) := by
      intro e he
      exact c60_counts tx (hardWord ch) e errorIdx (by omega) (by omega) (by rw [hrl]; exact hidx)
    unfold turboErr
    rw [if_pos rfl]
    change (do
      let _ ← trackErrors errorIdx (hardWord ch) e1
      trackErrors errorIdx (hardWord ch) e2) = _
    rw [k e1 he1, k e2 he2]
    rfl
  have := turboLoop_spec d1 d2 ch (fun s x hx => (h1 s x hx).1) (fun t x hx => (h2 t x hx).1) true errorIdx
    (diffCount tx) s t (fun r => hE _ _ (hest _) (hest _)) maxIter 0
    (List.replicate ch.length 0) none (by simp) (by
      apply List.ext_getElem
      · simp [half]
      · intro i _ _; simp [half]) (by simp) (fun _ => rfl) (by simp)
  simp only [Nat.zero_add, Nat.mul_zero] at this
  rcases c58_result d1 d2 ch (fun s x hx => (h1 s x hx).1) (fun t x hx => (h2 t x hx).1) s t maxIter errorIdx with
    ⟨h, a1, a2, a3, a4⟩ | ⟨a1, a2⟩
  · rcases this with ⟨h', b1, b2, b3, b4⟩ | ⟨b1, b2⟩
    · have : h = h' := by
        rcases Nat.lt_trichotomy h h' with hh | hh | hh
        · rw [b3 h hh] at a2; cases a2
        · exact hh
        · rw [a3 h' hh] at b2; cases b2
      subst this
      rw [a4]
      exact congrArg (fun x => x.2.2) b4
    · rw [b1 h a1] at a2; cases a2
  · rcases this with ⟨h', b1, b2, b3, b4⟩ | ⟨b1, b2⟩
    · rw [a1 h' b1] at b2; cases b2
    · rw [a2]
      have := congrArg (fun x => x.2.2) b2
      simp only at this
      change (turboDecode (total d1) (total d2) maxIter true s t ch errorIdx).2.2 = _ at this
      rw [this]
      split <;> rfl

/-- C58. An exception of the first decoder's first run reaches the caller, and the second decoder is not run. -/
theorem c58_raises {S T : Type} (d1 : SoftDec S) (d2 : SoftDec T) (n : Nat) (debug : Bool) (s : S) (t : T) (ch : List ℝ)
    (errorIdx : List Int) (e : PyErr) (h : (d1 s ch).2 = .error e) :
    turboDecode d1 d2 (n + 1) debug s t ch errorIdx = ((d1 s ch).1, t, .error e) := by
  unfold turboDecode turboLoop
  rw [bcast_same _ _ _ (by simp)]
  have : List.zipWith (fun (a b : ℝ) => a + b) ch (List.replicate ch.length 0) = ch := by
    apply List.ext_getElem
    · simp
    · intro i _ _; simp
  rw [this]
  simp only [h]

-- A first decoder that never succeeds and a second that succeeds in its second run.
example : (turboDecode (total fun (s : Unit) (x : List ℝ) => (s, ([true, false], x, false)))
    (total fun (n : Nat) (x : List ℝ) => (n + 1, ([false, true], x, decide (1 ≤ n)))) 3 false () 0 [1, -1] []).2.2 =
    .ok ⟨[false, true], [1, -1], true, 2, 0⟩ := by
  simp [turboDecode, turboLoop, total, bcastWith, turboErr, bind, Except.bind, pure, Except.pure, List.replicate]

end NR
