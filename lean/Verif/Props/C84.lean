import Verif.Props.C83
/-
C84: what the rates of a recorded experiment (runs/Feb_2022, runs/Feb_2023) mean.
-/
namespace NR
open Spec

variable {σ τ : Type}

/-- The row of a word with its two results. -/
noncomputable def rowOf (r : Recorded) (ea eb : List Bool × Bool) : ExpRow :=
  { mark := r.tx.headD 2, errors := r.errorRow (r.tx.headD 2)
    okA := ea.2, hA := if Known r then diffCount ea.1 (sent r) else -1
    okB := eb.2, hB := if Known r then diffCount eb.1 (sent r) else -1 }

theorem Spec.Proper.mark {n : Nat} {r : Recorded} (h : Proper n r) :
    r.mark = .ok (r.tx.headD 2) ∧ (r.tx.headD 2 < 2 ↔ Known r) ∧ (r.tx.headD 2 = 2 ↔ ¬ Known r) ∧
      (Known r → ∀ x ∈ r.tx, x < 2) := by
  obtain ⟨h0, h1, -, h3⟩ := h
  rcases ht : r.tx with _ | ⟨x, l⟩
  · rw [ht] at h1; simp at h1; omega
  · rw [ht] at h3
    refine ⟨by simp [Recorded.mark, ht], ?_, ?_, ?_⟩
    · rcases h3 with h3 | h3
      · have := h3 x (by simp)
        simp [Known, ht]; omega
      · have := h3 x (by simp)
        simp [Known, ht]; omega
    · simp [Known, ht]
    · intro hk
      rcases h3 with h3 | h3
      · exact h3
      · have := h3 x (by simp)
        simp [Known, ht] at hk
        exact absurd this hk

theorem Spec.Proper.distance {n : Nat} {r : Recorded} (h : Proper n r) (est : List Bool) (he : est.length = n) :
    r.distance (r.tx.headD 2) est = .ok (if Known r then (diffCount est (sent r) : Int) else -1) := by
  obtain ⟨-, m1, m2, m3⟩ := h.mark
  unfold Recorded.distance
  by_cases hk : Known r
  · rw [if_pos (m1.2 hk), if_pos hk]
    have e1 : (est.map fun b => if b then (1 : Int) else 0).map (fun x => x != 0) = est := by
      rw [List.map_map]
      nth_rewrite 2 [← List.map_id est]
      apply List.map_congr_left
      intro b _
      cases b <;> rfl
    have e2 : (r.tx.map Int.ofNat).map (fun x => x != 0) = sent r := by
      rw [List.map_map]
      apply List.map_congr_left
      intro x hx
      have := m3 hk x hx
      have : x = 0 ∨ x = 1 := by omega
      rcases this with rfl | rfl <;> rfl
    have : hammingDistance (.array (est.map fun b => if b then 1 else 0)) (.array (r.tx.map Int.ofNat)) =
        .ok (diffCount est (sent r)) := by
      refine (hammingDistance_ok_iff _ _ _ _).2 ⟨est, sent r, ?_, ?_, ?_, rfl⟩
      · simp only [toBits, e1]
      · simp only [toBits, e2]
      · simp [sent, he, h.tx]
    rw [this]
    rfl
  · rw [if_neg (fun hc => hk (m1.1 hc)), if_neg hk]

/-- The errors of a known word, entry by entry. -/
theorem errorRow_known (tx : List Nat) (rx : List ℝ) (hl : tx.length = rx.length) (hx : ∀ x ∈ tx, x < 2) (row : List Nat)
    (hrow : row = (tx.zip rx).map fun x => if x.1 ≠ (if x.2 < 0 then 1 else 0) then 1 else 0) :
    row.length = tx.length ∧
    (∀ i, i < tx.length → (row.getD i 0 = 1 ↔ (hardBits rx).getD i false ≠ (tx.map fun x => decide (x = 1)).getD i false)) ∧
    row.sum = diffCount (hardBits rx) (tx.map fun x => decide (x = 1)) := by
  subst hrow
  induction tx generalizing rx with
  | nil =>
    cases rx with
    | nil => simp [diffCount, hardBits]
    | cons _ _ => simp at hl
  | cons t tx ih =>
    cases rx with
    | nil => simp at hl
    | cons r rx =>
      obtain ⟨i1, i2, i3⟩ := ih rx (by simpa using hl) fun x h => hx x (List.mem_cons_of_mem _ h)
      have ht : t = 0 ∨ t = 1 := by have := hx t (by simp); omega
      refine ⟨by simp at hl ⊢; omega, ?_, ?_⟩
      · intro i hi
        cases i with
        | zero =>
          rcases ht with rfl | rfl <;> by_cases hr : r < 0 <;> simp [hardBits, hr]
        | succ i =>
          have := i2 i (by simpa using hi)
          simpa [hardBits] using this
      · simp only [List.zip_cons_cons, List.map_cons, List.sum_cons, i3]
        have e : hardBits (r :: rx) = decide (r < 0) :: hardBits rx := by
          simp only [hardBits, List.map_cons]
        rw [e, diffCount_cons]
        rcases ht with rfl | rfl <;> by_cases hr : r < 0 <;> simp [hr]

theorem Spec.Proper.errorRow {n : Nat} {r : Recorded} (h : Proper n r) :
    (r.errorRow (r.tx.headD 2)).length = n ∧
    (List.range (r.errorRow (r.tx.headD 2)).length).filter (fun i => (r.errorRow (r.tx.headD 2)).getD i 0 = 1) = wrongAt r ∧
    (Known r → (r.errorRow (r.tx.headD 2)).sum = diffCount (hardBits r.rx) (sent r)) := by
  obtain ⟨-, m1, m2, m3⟩ := h.mark
  by_cases hk : Known r
  · obtain ⟨e1, e2, e3⟩ := errorRow_known r.tx r.rx (by rw [h.tx, h.rx]) (m3 hk) (r.errorRow (r.tx.headD 2)) (by
      unfold Recorded.errorRow
      rw [if_pos (m1.2 hk)])
    refine ⟨by rw [e1, h.tx], ?_, fun _ => e3⟩
    rw [e1, wrongAt, if_pos hk, positions]
    apply List.filter_congr
    intro i hi
    simp only [decide_eq_decide]
    exact e2 i (List.mem_range.1 hi)
  · have hrow : r.errorRow (r.tx.headD 2) = List.replicate n 2 := by
      unfold Recorded.errorRow
      rw [if_neg (fun hc => hk (m1.1 hc)), h.rx]
    refine ⟨by rw [hrow, List.length_replicate], ?_, fun hc => absurd hc hk⟩
    rw [wrongAt, if_neg hk, List.filter_eq_nil_iff]
    intro i hi
    rw [hrow, List.length_replicate, List.mem_range] at hi
    rw [hrow, List.getD_eq_getElem?_getD, List.getElem?_replicate, if_pos hi]
    simp

/-- What the two decoders are given: both the ratios, the second one also the hint. -/
theorem expLoop_ok (A : Coder σ) (B : Coder τ) (hint : Hint) (n : Nat) (data : List Recorded) (hd : ∀ r ∈ data, Proper n r) (a : σ) (b : τ)
    (oa ob : List (List Bool × Bool)) (hA : outputs A a (data.map fun r => (r.rx, none)) = oa.map .ok)
    (hB : outputs B b (data.map fun r => (r.rx, hint (decide (Known r)) (wrongAt r))) = ob.map .ok) (hla : ∀ o ∈ oa, o.1.length = n)
    (hlb : ∀ o ∈ ob, o.1.length = n) :
    expLoop A B hint a b data = .ok ((data.zip (oa.zip ob)).map fun x => rowOf x.1 x.2.1 x.2.2) := by
  induction data generalizing a b oa ob with
  | nil => rfl
  | cons r data ih =>
    cases oa with
    | nil => simp [outputs] at hA
    | cons xa oa =>
    cases ob with
    | nil => simp [outputs] at hB
    | cons xb ob =>
      have hr := hd r (by simp)
      simp only [List.map_cons, outputs, List.cons.injEq] at hA hB
      have hi := ih (fun x hx => hd x (List.mem_cons_of_mem _ hx)) _ _ oa ob hA.2 hB.2
        (fun o ho => hla o (List.mem_cons_of_mem _ ho)) (fun o ho => hlb o (List.mem_cons_of_mem _ ho))
      have hmk : decide (r.tx.headD 2 < 2) = decide (Known r) := decide_eq_decide.2 hr.mark.2.1
      unfold expLoop
      simp only [bind, Except.bind, hA.1, hr.mark.1, hr.distance xa.1 (hla xa (by simp)), hr.errorRow.2.1, hmk, hB.1,
        hr.distance xb.1 (hlb xb (by simp)), hi]
      rfl

/-- The errors of a known word among its first and among its remaining bits. -/
theorem Spec.Proper.parts {n : Nat} {r : Recorded} (h : Proper n r) (hk : Known r) (k : Nat) :
    ((r.errorRow (r.tx.headD 2)).take k).sum = diffCount ((hardBits r.rx).take k) ((sent r).take k) ∧
    ((r.errorRow (r.tx.headD 2)).drop k).sum = diffCount ((hardBits r.rx).drop k) ((sent r).drop k) := by
  obtain ⟨-, m1, m2, m3⟩ := h.mark
  have hl : r.tx.length = r.rx.length := by rw [h.tx, h.rx]
  have hrow : r.errorRow (r.tx.headD 2) = (r.tx.zip r.rx).map fun x => if x.1 ≠ (if x.2 < 0 then 1 else 0) then 1 else 0 := by
    unfold Recorded.errorRow
    rw [if_pos (m1.2 hk)]
  have h1 := (errorRow_known (r.tx.take k) (r.rx.take k) (by simp [hl]) (fun x hx => m3 hk x (List.mem_of_mem_take hx)) _ rfl).2.2
  have h2 := (errorRow_known (r.tx.drop k) (r.rx.drop k) (by simp [hl]) (fun x hx => m3 hk x (List.mem_of_mem_drop hx)) _ rfl).2.2
  constructor
  · rw [hrow, ← List.map_take, List.zip, List.take_zipWith]
    simp only [sent, ← List.map_take]
    rw [show (hardBits r.rx).take k = hardBits (r.rx.take k) by simp [hardBits, List.map_take]]
    exact h1
  · rw [hrow, ← List.map_drop, List.zip, List.drop_zipWith]
    simp only [sent, ← List.map_drop]
    rw [show (hardBits r.rx).drop k = hardBits (r.rx.drop k) by simp [hardBits, List.map_drop]]
    exact h2

theorem zip_map_fst {α β γ : Type} (f : α → γ) (l : List α) (m : List β) (h : l.length = m.length) :
    (l.zip m).map (fun x => f x.1) = l.map f := by
  induction l generalizing m with
  | nil => rfl
  | cons a l ih => cases m with
    | nil => simp at h
    | cons b m => simp [ih m (by simpa using h)]

theorem known_rows (o : List (List Bool × Bool)) (data : List Recorded) (h : o.length = data.length) :
    NR.known ((data.zip o).map fun x => if Known x.1 then (diffCount x.2.1 (sent x.1) : Int) else -1) =
      wrongKnown (o.map Prod.fst) data := by
  induction data generalizing o with
  | nil => cases o with
    | nil => rfl
    | cons _ _ => simp at h
  | cons r data ih => cases o with
    | nil => simp at h
    | cons x o =>
      have hi := ih o (by simpa using h)
      simp only [NR.known, wrongKnown] at hi ⊢
      by_cases hk : Known r
      · simp only [List.zip_cons_cons, List.map_cons, if_pos hk, List.sum_cons, Nat.cast_add]
        rw [List.filter_cons_of_pos (by simp), List.sum_cons, hi]
      · simp only [List.zip_cons_cons, List.map_cons, if_neg hk, List.sum_cons, Nat.zero_add]
        rw [List.filter_cons_of_neg (by simp), hi]

theorem wrongKnown_le (n : Nat) (o : List (List Bool × Bool)) (data : List Recorded) (hd : ∀ r ∈ data, Proper n r)
    (hl : ∀ x ∈ o, x.1.length = n) : wrongKnown (o.map Prod.fst) data ≤ n * data.countP fun r => decide (Known r) := by
  induction data generalizing o with
  | nil => simp [wrongKnown]
  | cons r data ih => cases o with
    | nil => simp [wrongKnown]
    | cons x o =>
      have hi := ih o (fun r hr => hd r (List.mem_cons_of_mem _ hr)) fun y hy => hl y (List.mem_cons_of_mem _ hy)
      simp only [wrongKnown] at hi ⊢
      have h1 : x.1.length = n := hl x (by simp)
      have h2 : (sent r).length = n := by simp [sent, (hd r (by simp)).tx]
      have h3 := diffCount_le x.1 (sent r) (by rw [h1, h2])
      by_cases hk : Known r
      · simp only [List.map_cons, List.zip_cons_cons, if_pos hk, List.sum_cons]
        rw [List.countP_cons_of_pos (by simp [hk]), Nat.mul_add]
        omega
      · simp only [List.map_cons, List.zip_cons_cons, if_neg hk, List.sum_cons]
        rw [List.countP_cons_of_neg (by simp [hk])]
        omega

/-- The rows, column by column. -/
theorem rows_columns {n : Nat} (k : Nat) (data : List Recorded) (hd : ∀ r ∈ data, Proper n r) (oa ob : List (List Bool × Bool))
    (la : oa.length = data.length) (lb : ob.length = data.length) (rows : List ExpRow)
    (hrows : rows = (data.zip (oa.zip ob)).map fun x => rowOf x.1 x.2.1 x.2.2) :
    rows.length = data.length ∧ rows.countP (·.mark ≠ 2) = data.countP (fun r => decide (Known r)) ∧
    (rows.map fun r => if r.mark = 2 then -1 else (r.errors.sum : ℚ) / n) =
      (data.map fun r => if Known r then (diffCount (hardBits r.rx) (sent r) : ℚ) / n else -1) ∧
    (rows.map fun r => if r.mark = 2 then -1 else ((r.errors.take k).sum : Int)) =
      (data.map fun r => if Known r then (diffCount ((hardBits r.rx).take k) ((sent r).take k) : Int) else -1) ∧
    (rows.map fun r => if r.mark = 2 then -1 else ((r.errors.drop k).sum : Int)) =
      (data.map fun r => if Known r then (diffCount ((hardBits r.rx).drop k) ((sent r).drop k) : Int) else -1) ∧
    rows.countP (·.okA) = oa.countP (·.2) ∧ rows.countP (·.okB) = ob.countP (·.2) ∧
    rows.map (·.hA) = ((data.zip oa).map fun x => if Known x.1 then (diffCount x.2.1 (sent x.1) : Int) else -1) ∧
    rows.map (·.hB) = ((data.zip ob).map fun x => if Known x.1 then (diffCount x.2.1 (sent x.1) : Int) else -1) := by
  subst hrows
  induction data generalizing oa ob with
  | nil =>
    cases oa with
    | nil => cases ob with
      | nil => simp
      | cons _ _ => simp at lb
    | cons _ _ => simp at la
  | cons r data ih =>
    cases oa with
    | nil => simp at la
    | cons xa oa =>
    cases ob with
    | nil => simp at lb
    | cons xb ob =>
      obtain ⟨i1, i2, i3, i4, i5, i6, i7, i8, i9⟩ := ih (fun r hr => hd r (List.mem_cons_of_mem _ hr)) oa ob (by simpa using la)
        (by simpa using lb)
      have hr := hd r (by simp)
      obtain ⟨-, m1, m2, m3⟩ := hr.mark
      simp only [List.zip_cons_cons, List.map_cons, List.length_cons, List.countP_cons, i1, i2, i3, i4, i5, i6, i7, i8, i9]
      by_cases hk : Known r
      · have hm : (rowOf r xa xb).mark ≠ 2 := fun hc => m2.1 hc hk
        have e0 : (rowOf r xa xb).errors = r.errorRow (r.tx.headD 2) := rfl
        refine ⟨trivial, by rw [if_pos (by simpa using hm), if_pos (by simpa using hk)], ?_, ?_, ?_, rfl, rfl, rfl, rfl⟩
        · rw [if_neg hm, if_pos hk, e0, hr.errorRow.2.2 hk]
        · rw [if_neg hm, if_pos hk, e0, (hr.parts hk k).1]
        · rw [if_neg hm, if_pos hk, e0, (hr.parts hk k).2]
      · have hm : (rowOf r xa xb).mark = 2 := m2.2 hk
        refine ⟨trivial, by rw [if_neg (by simpa using hm), if_neg (by simpa using hk)], ?_, ?_, ?_, rfl, rfl, rfl, rfl⟩
        · rw [if_pos hm, if_neg hk]
        · rw [if_pos hm, if_neg hk]
        · rw [if_pos hm, if_neg hk]

/-- C84: the saved numbers. Each recorded word has `n` bits, known or marked unknown throughout; neither decoder raises and the
estimates have `n` bits. If at least one word is known, the run reports: the share of success flags among all words; the wrong bits
of the estimates of known words over all bits of known words, a number between zero and one; and for each known word the share of
wrong hard decisions and their number in the first `k` and in the remaining bits, and -1 for each unknown word. -/
theorem c84_run (A : Coder σ) (B : Coder τ) (hint : Hint) (a : σ) (b : τ) (n k : Nat) (data : List Recorded)
    (hd : ∀ r ∈ data, Proper n r)
    (oa ob : List (List Bool × Bool)) (hA : outputs A a (data.map fun r => (r.rx, none)) = oa.map .ok)
    (hB : outputs B b (data.map fun r => (r.rx, hint (decide (Known r)) (wrongAt r))) = ob.map .ok) (hla : ∀ o ∈ oa, o.1.length = n)
    (hlb : ∀ o ∈ ob, o.1.length = n) (hk : ∃ r ∈ data, Known r) :
    ∃ s, experiment A B hint a b n k data = .ok s ∧
      s.successA * data.length = oa.countP (·.2) ∧ s.successB * data.length = ob.countP (·.2) ∧
      s.berA * (n * (data.countP fun r => decide (Known r) : ℕ)) = wrongKnown (oa.map Prod.fst) data ∧
      s.berB * (n * (data.countP fun r => decide (Known r) : ℕ)) = wrongKnown (ob.map Prod.fst) data ∧
      0 ≤ s.berA ∧ s.berA ≤ 1 ∧ 0 ≤ s.berB ∧ s.berB ≤ 1 ∧
      s.inputBer = (data.map fun r => if Known r then (diffCount (hardBits r.rx) (sent r) : ℚ) / n else -1) ∧
      s.infoErrors = (data.map fun r => if Known r then (diffCount ((hardBits r.rx).take k) ((sent r).take k) : Int) else -1) ∧
      s.parityErrors = (data.map fun r => if Known r then (diffCount ((hardBits r.rx).drop k) ((sent r).drop k) : Int) else -1) := by
  have la : oa.length = data.length := by
    have := congrArg List.length hA
    rw [outputs_length] at this
    simpa using this.symm
  have lb : ob.length = data.length := by
    have := congrArg List.length hB
    rw [outputs_length] at this
    simpa using this.symm
  obtain ⟨r, hr, hkr⟩ := hk
  have hn : 0 < n := (hd r hr).pos
  have hg : 0 < data.countP fun r => decide (Known r) := List.countP_pos_iff.2 ⟨r, hr, by simp [hkr]⟩
  have hlen : 0 < data.length := List.length_pos_of_mem hr
  obtain ⟨c1, c2, c3, c4, c5, c6, c7, c8, c9⟩ := rows_columns k data hd oa ob la lb _ rfl
  have hng : 0 < n * data.countP fun r => decide (Known r) := Nat.mul_pos hn hg
  have hq : (0 : ℚ) < ((n * data.countP fun r => decide (Known r) : ℕ) : ℚ) := by exact_mod_cast hng
  have hlq : ((data.length : ℕ) : ℚ) ≠ 0 := by exact_mod_cast hlen.ne'
  have wa := wrongKnown_le n oa data hd hla
  have wb := wrongKnown_le n ob data hd hlb
  unfold experiment expSummary
  rw [expLoop_ok A B hint n data hd a b oa ob hA hB hla hlb]
  simp only [bind, Except.bind, c1, c2, c3, c4, c5, c6, c7, c8, c9, known_rows oa data la, known_rows ob data lb]
  rw [if_neg (by omega)]
  refine ⟨_, rfl, ?_, ?_, ?_, ?_, ?_, ?_, ?_, ?_, rfl, rfl, rfl⟩
  · exact div_mul_cancel₀ _ hlq
  · exact div_mul_cancel₀ _ hlq
  · rw [← Nat.cast_mul]; simpa using div_mul_cancel₀ _ hq.ne'
  · rw [← Nat.cast_mul]; simpa using div_mul_cancel₀ _ hq.ne'
  · positivity
  · rw [div_le_one hq]; exact_mod_cast wa
  · positivity
  · rw [div_le_one hq]; exact_mod_cast wb

/-- C84: without a known word, or without any word, the run raises after all words were decoded, and nothing is saved. -/
theorem c84_unknown (A : Coder σ) (B : Coder τ) (hint : Hint) (a : σ) (b : τ) (n k : Nat) (data : List Recorded)
    (hd : ∀ r ∈ data, Proper n r)
    (oa ob : List (List Bool × Bool)) (hA : outputs A a (data.map fun r => (r.rx, none)) = oa.map .ok)
    (hB : outputs B b (data.map fun r => (r.rx, hint (decide (Known r)) (wrongAt r))) = ob.map .ok) (hla : ∀ o ∈ oa, o.1.length = n)
    (hlb : ∀ o ∈ ob, o.1.length = n) (hk : ∀ r ∈ data, ¬ Known r) :
    experiment A B hint a b n k data = .error .zeroDivisionError := by
  have la : oa.length = data.length := by
    have := congrArg List.length hA
    rw [outputs_length] at this
    simpa using this.symm
  have lb : ob.length = data.length := by
    have := congrArg List.length hB
    rw [outputs_length] at this
    simpa using this.symm
  obtain ⟨c1, c2, -⟩ := rows_columns k data hd oa ob la lb _ rfl
  have hg : (data.countP fun r => decide (Known r)) = 0 := by
    rw [List.countP_eq_zero]
    intro r hr
    simpa using hk r hr
  unfold experiment expSummary
  rw [expLoop_ok A B hint n data hd a b oa ob hA hB hla hlb]
  simp only [bind, Except.bind, c1, c2, hg, Nat.mul_zero, or_true, if_true]

/-- A known word of two zeros received without errors, and an unknown one. -/
noncomputable def twoWords : List Recorded := [⟨[0, 0], [1, 1]⟩, ⟨[2, 2], [1, -1]⟩]

theorem twoWords_proper : ∀ r ∈ twoWords, Proper 2 r := by
  intro r hr
  simp only [twoWords, List.mem_cons, List.not_mem_nil, or_false] at hr
  rcases hr with rfl | rfl
  · exact ⟨by omega, rfl, rfl, Or.inl (by simp)⟩
  · exact ⟨by omega, rfl, rfl, Or.inr (by simp)⟩

/-- C84, refuted for the success rate: it is the share of words that the decoder says it decoded, known or not. There are decoders
and recordings with success rate one although every bit of every known word is wrong, so that the bit error rate is one as well. -/
theorem c84_success_false : ∃ (A : Coder Unit) (s : ExpSummary), experiment A A (fun _ _ => none) () () 2 1 twoWords = .ok s ∧
    s.successA = 1 ∧ s.berA = 1 := by
  obtain ⟨s, h, h1, -, h2, -⟩ := c84_run (fun (_ : Unit) _ _ => ((), .ok ([true, true], true)))
    (fun (_ : Unit) _ _ => ((), .ok ([true, true], true))) (fun _ _ => none) () () 2 1 twoWords twoWords_proper
    [([true, true], true), ([true, true], true)] [([true, true], true), ([true, true], true)]
    (by simp [outputs, twoWords]) (by simp [outputs, twoWords]) (by simp) (by simp) ⟨_, List.mem_cons_self, by simp [Known]⟩
  have d1 : (twoWords.countP fun r => decide (Known r)) = 1 := by simp [twoWords, Known]
  have d2 : wrongKnown [[true, true], [true, true]] twoWords = 2 := by
    have : diffCount [true, true] [false, false] = 2 := by decide
    simp [twoWords, wrongKnown, Known, sent, this]
  have d3 : twoWords.length = 2 := rfl
  simp only [d1, d2, d3, List.map_cons, List.map_nil] at h1 h2
  simp at h1 h2
  exact ⟨_, s, h, by linarith, by linarith⟩

/-- The word of twos is not known and its input error rate is reported as -1. -/
example : ∃ s, experiment (fun (_ : Unit) llr _ => ((), .ok (hardBits llr, true))) (fun (_ : Unit) llr _ => ((), .ok (hardBits llr, false)))
      (fun _ e => some e) () () 2 1 twoWords = .ok s ∧ s.inputBer = [0, -1] ∧ s.berA = 0 ∧ s.successB = 0 := by
  have e1 : hardBits [1, 1] = [false, false] := by simp [hardBits]
  have e2 : hardBits [1, -1] = [false, true] := by simp [hardBits]
  obtain ⟨s, h, -, h1, h2, -, -, -, -, -, h3, -⟩ := c84_run (fun (_ : Unit) llr _ => ((), .ok (hardBits llr, true)))
    (fun (_ : Unit) llr _ => ((), .ok (hardBits llr, false))) (fun _ e => some e) () () 2 1 twoWords twoWords_proper
    [([false, false], true), ([false, true], true)] [([false, false], false), ([false, true], false)]
    (by simp [outputs, twoWords, e1, e2]) (by simp [outputs, twoWords, e1, e2]) (by simp) (by simp)
    ⟨_, List.mem_cons_self, by simp [Known]⟩
  have d0 : diffCount [false, false] [false, false] = 0 := by decide
  have d1 : (twoWords.countP fun r => decide (Known r)) = 1 := by simp [twoWords, Known]
  have d2 : wrongKnown [[false, false], [false, true]] twoWords = 0 := by
    simp [twoWords, wrongKnown, Known, sent, d0]
  have d3 : twoWords.length = 2 := rfl
  simp only [d1, d2, d3, List.map_cons, List.map_nil] at h1 h2
  simp at h1 h2
  refine ⟨s, h, ?_, by linarith, by linarith⟩
  rw [h3]
  simp [twoWords, Known, sent, e1, d0]

end NR
