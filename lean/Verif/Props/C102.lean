import Verif.Spec.Studies
import Verif.Props.C88
/-
C102: comparisons of any number of decoders.
-/
namespace NR
open Spec Studies

variable {σ : Type}

/-! ### One decoder at a time -/

/-- The distances of one decoder on its own. -/
def solo : Contender σ → List (Reception × List Bool) → Except PyErr (List Nat)
  | _, [] => .ok []
  | c, (r, tx) :: rest => do
    let (c', h) ← c.attempt r tx
    let t ← solo c' rest
    .ok (h :: t)

theorem attempts_iff (cs : List (Contender σ)) (r : Reception) (tx : List Bool) (cs' : List (Contender σ)) (hs : List Nat) :
    attempts cs r tx = .ok (cs', hs) ↔
      ∃ l, List.Forall₂ (fun c x => c.attempt r tx = .ok x) cs l ∧ cs' = l.map Prod.fst ∧ hs = l.map Prod.snd := by
  induction cs generalizing cs' hs with
  | nil =>
    simp only [attempts, Except.ok.injEq, Prod.mk.injEq]
    constructor
    · rintro ⟨rfl, rfl⟩
      exact ⟨[], .nil, rfl, rfl⟩
    · rintro ⟨l, hl, rfl, rfl⟩
      cases hl
      exact ⟨rfl, rfl⟩
  | cons c cs ih =>
    unfold attempts
    constructor
    · intro h
      cases hc : c.attempt r tx with
      | error e => rw [hc] at h; cases h
      | ok x =>
        cases hr : attempts cs r tx with
        | error e => rw [hc, hr] at h; cases h
        | ok y =>
          rw [hc, hr] at h
          obtain ⟨l, h1, h2, h3⟩ := (ih y.1 y.2).1 hr
          have h' : (x.1 :: y.1, x.2 :: y.2) = (cs', hs) := by
            simpa [bind, Except.bind] using h
          cases h'
          exact ⟨x :: l, .cons hc h1, by simp [h2], by simp [h3]⟩
    · rintro ⟨l, hl, rfl, rfl⟩
      cases hl with
      | cons hc hl =>
        rename_i x l
        have := (ih _ _).2 ⟨l, hl, rfl, rfl⟩
        simp [hc, this, bind, Except.bind]

theorem exists_forall₂ {α β : Type} {R : α → β → Prop} (l : List α) (h : ∀ a ∈ l, ∃ b, R a b) : ∃ m, List.Forall₂ R l m := by
  induction l with
  | nil => exact ⟨[], .nil⟩
  | cons a l ih =>
    obtain ⟨b, hb⟩ := h a (by simp)
    obtain ⟨m, hm⟩ := ih fun x hx => h x (List.mem_cons_of_mem _ hx)
    exact ⟨b :: m, .cons hb hm⟩

theorem forall₂_get {α β : Type} {R : α → β → Prop} {l : List α} {m : List β} (h : List.Forall₂ R l m) (j : Nat) (a : α)
    (ha : l[j]? = some a) : ∃ b, m[j]? = some b ∧ R a b := by
  induction h generalizing j with
  | nil => simp at ha
  | cons hr _ ih =>
    cases j with
    | zero => exact ⟨_, rfl, by simp at ha; subst ha; exact hr⟩
    | succ j => exact ih j (by simpa using ha)

theorem solo_step (c : Contender σ) (r : Reception) (tx : List Bool) (rest : List (Reception × List Bool)) :
    solo c ((r, tx) :: rest) = (c.attempt r tx).bind fun x => (solo x.1 rest).bind fun t => .ok (x.2 :: t) := rfl

theorem solo_cons (c : Contender σ) (r : Reception) (tx : List Bool) (rest : List (Reception × List Bool)) (col : List Nat) :
    solo c ((r, tx) :: rest) = .ok col ↔ ∃ x t, c.attempt r tx = .ok x ∧ solo x.1 rest = .ok t ∧ col = x.2 :: t := by
  rw [solo_step]
  constructor
  · intro h
    cases hc : c.attempt r tx with
    | error e => rw [hc] at h; cases h
    | ok x =>
      cases hr : solo x.1 rest with
      | error e => rw [hc] at h; simp [Except.bind, hr] at h
      | ok t =>
        rw [hc] at h
        simp [Except.bind, hr] at h
        exact ⟨x, t, rfl, hr, h.symm⟩
  · rintro ⟨x, t, h1, h2, rfl⟩
    simp [h1, h2, Except.bind]

/-- The loop returns exactly if every decoder on its own does, and then a column is what that decoder gets on its own. -/
theorem loop_iff (cs : List (Contender σ)) (l : List (Reception × List Bool)) (rows : List (List Nat)) :
    loop cs l = .ok rows ↔ rows.length = l.length ∧ (∀ row ∈ rows, row.length = cs.length) ∧
      ∀ j c, cs[j]? = some c → solo c l = .ok (column j rows) := by
  induction l generalizing cs rows with
  | nil =>
    simp only [loop, Except.ok.injEq, List.length_nil, List.length_eq_zero_iff]
    constructor
    · rintro rfl
      exact ⟨rfl, by simp, fun j c _ => rfl⟩
    · rintro ⟨rfl, _⟩
      rfl
  | cons w l ih =>
    obtain ⟨r, tx⟩ := w
    constructor
    · intro h
      unfold loop at h
      cases ha : attempts cs r tx with
      | error e => rw [ha] at h; cases h
      | ok y =>
        rw [ha] at h
        cases hl : loop y.1 l with
        | error e => simp [bind, Except.bind, hl] at h
        | ok t =>
          simp [bind, Except.bind, hl] at h
          subst h
          obtain ⟨m, hm, h1, h2⟩ := (attempts_iff cs r tx y.1 y.2).1 ha
          obtain ⟨i1, i2, i3⟩ := (ih y.1 t).1 hl
          have hlen : m.length = cs.length := hm.length_eq.symm
          refine ⟨by simp [i1], ?_, ?_⟩
          · intro row hr
            rcases List.mem_cons.1 hr with rfl | hr
            · rw [h2]; simp [hlen]
            · rw [i2 row hr, h1]; simp [hlen]
          · intro j c hc
            obtain ⟨x, hx, hcx⟩ := forall₂_get hm j c hc
            rw [solo_cons]
            refine ⟨x, column j t, hcx, i3 j x.1 (by rw [h1]; simp [hx]), ?_⟩
            simp [column, h2, List.getD_eq_getElem?_getD, hx]
    · rintro ⟨h1, h2, h3⟩
      cases rows with
      | nil => simp at h1
      | cons row t =>
        obtain ⟨m, hm⟩ := exists_forall₂ (R := fun c x => c.attempt r tx = .ok x) cs fun c hc => by
          obtain ⟨j, hj⟩ := List.mem_iff_getElem?.1 hc
          obtain ⟨x, _, hx, _⟩ := (solo_cons ..).1 (h3 j c hj)
          exact ⟨x, hx⟩
        have hlen : m.length = cs.length := hm.length_eq.symm
        have hcol : ∀ j x, m[j]? = some x → ∃ c, cs[j]? = some c ∧ c.attempt r tx = .ok x ∧ solo x.1 l = .ok (column j t) ∧
            row.getD j 0 = x.2 := by
          intro j x hx
          have hj : j < cs.length := by rw [← hlen]; exact (List.getElem?_eq_some_iff.1 hx).1
          have hc : cs[j]? = some cs[j] := List.getElem?_eq_getElem hj
          obtain ⟨x', hx', hcx⟩ := forall₂_get hm j _ hc
          rw [hx] at hx'
          cases hx'
          obtain ⟨y, t', g1, g2, g3⟩ := (solo_cons ..).1 (h3 j _ hc)
          rw [hcx] at g1
          cases g1
          simp only [column, List.map_cons, List.cons.injEq] at g3
          exact ⟨_, hc, hcx, by rw [g2, ← g3.2]; rfl, g3.1⟩
        have hrow : row = m.map Prod.snd := by
          apply List.ext_getElem?
          intro j
          have hl : row.length = m.length := by rw [h2 row (by simp), hlen]
          by_cases hj : j < m.length
          · obtain ⟨_, _, _, _, g⟩ := hcol j m[j] (List.getElem?_eq_getElem hj)
            rw [List.getD_eq_getElem?_getD, List.getElem?_eq_getElem (by omega)] at g
            rw [List.getElem?_eq_getElem (by omega), List.getElem?_map, List.getElem?_eq_getElem hj]
            simpa using g
          · rw [List.getElem?_eq_none (by omega), List.getElem?_eq_none (by simp; omega)]
        have hat := (attempts_iff cs r tx (m.map Prod.fst) (m.map Prod.snd)).2 ⟨m, hm, rfl, rfl⟩
        have htl : loop (m.map Prod.fst) l = .ok t := by
          refine (ih _ t).2 ⟨by simpa using h1, fun row' hr => by rw [h2 row' (by simp [hr])]; simp [hlen], ?_⟩
          intro j c hc
          rw [List.getElem?_map] at hc
          obtain ⟨x, hx, rfl⟩ := Option.map_eq_some_iff.1 hc
          obtain ⟨_, _, _, g, _⟩ := hcol j x hx
          exact g
        unfold loop
        rw [hat]
        simp [bind, Except.bind, htl, hrow]

theorem column_length (j : Nat) (rows : List (List Nat)) : (column j rows).length = rows.length := by simp [column]

/-- Columns of the loop with one decoder. -/
theorem loop_single (c : Contender σ) (l : List (Reception × List Bool)) (col : List Nat) (h : solo c l = .ok col)
    (hl : col.length = l.length) : loop [c] l = .ok (col.map fun x => [x]) := by
  rw [loop_iff]
  refine ⟨by simpa using hl, by simp, ?_⟩
  intro j c' hc
  cases j with
  | zero =>
    simp only [List.getElem?_cons_zero, Option.some.injEq] at hc
    subst hc
    rw [h]
    simp [column, Function.comp_def]
  | succ j => simp at hc

theorem solo_length (c : Contender σ) (l : List (Reception × List Bool)) (col : List Nat) (h : solo c l = .ok col) :
    col.length = l.length := by
  induction l generalizing c col with
  | nil => cases h; rfl
  | cons w l ih =>
    obtain ⟨x, t, _, h2, rfl⟩ := (solo_cons c w.1 w.2 l col).1 h
    simp [ih _ _ h2]

/-- The loop returns if every decoder on its own does. -/
theorem loop_of_solo (cs : List (Contender σ)) (l : List (Reception × List Bool)) (h : ∀ c ∈ cs, ∃ col, solo c l = .ok col) :
    ∃ rows, loop cs l = .ok rows := by
  obtain ⟨cols, hc⟩ := exists_forall₂ cs h
  have hlen := hc.length_eq
  refine ⟨(List.range l.length).map fun i => cols.map (·.getD i 0), ?_⟩
  rw [loop_iff]
  refine ⟨by simp, ?_, ?_⟩
  · intro row hr
    simp only [List.mem_map] at hr
    obtain ⟨i, _, rfl⟩ := hr
    simp [hlen]
  · intro j c hj
    obtain ⟨col, h1, h2⟩ := forall₂_get hc j c hj
    rw [h2]
    congr 1
    have hl := solo_length c l col h2
    apply List.ext_getElem
    · simp [column, hl]
    · intro i hi _
      simp [column, List.getD_eq_getElem?_getD, h1, hi]

theorem solo_of (c : Contender σ) (l : List (Reception × List Bool)) (est : List (List Bool))
    (h : Answers c (l.map fun x => c.view.of x.1) est) (hl : List.Forall₂ (fun e x => e.length = x.2.length) est l) :
    solo c l = .ok ((est.zip l).map fun x => diffCount x.1 x.2.2) := by
  induction l generalizing c est with
  | nil => cases hl; rfl
  | cons w l ih =>
    obtain ⟨r, tx⟩ := w
    cases hl with
    | cons he hl =>
      rename_i e est
      obtain ⟨flags, hf, ho⟩ := h
      cases flags with
      | nil => simp at hf
      | cons f flags =>
        simp only [List.map_cons, outputs, List.zip_cons_cons, List.cons.injEq] at ho
        have h1 : hammingDistance (.bits e) (.bits tx) = .ok (diffCount e tx) :=
          (hammingDistance_ok_iff _ _ _ _).2 ⟨_, _, rfl, rfl, he, rfl⟩
        rw [solo_cons]
        refine ⟨({ c with state := (c.run c.state (c.view.of r).1 (c.view.of r).2).1 }, diffCount e tx), _, ?_,
          ih _ est ⟨flags, by simpa using hf, ho.2⟩ hl, rfl⟩
        unfold Contender.attempt
        simp only [ho.1, bind, Except.bind, h1]

/-! ### The binary channel -/

theorem bscReception_ok (p : ℝ) (words : List (List Bool × List Nat)) (hw : ∀ w ∈ words, w.2.Nodup ∧ ∀ e ∈ w.2, e < w.1.length) :
    words.mapM (bscReception p) = .ok (words.map fun w => ((⟨channelLlr p (flipAt w.1 w.2), (flipAt w.1 w.2).map fun b => if b then 1 else 0, w.2⟩ : Reception), w.1)) := by
  induction words with
  | nil => rfl
  | cons w words ih =>
    obtain ⟨h1, h2⟩ := hw w (by simp)
    rw [List.mapM_cons, ih fun x hx => hw x (List.mem_cons_of_mem _ hx)]
    simp only [bscReception, invertAt_eq w.1 w.2 h1 h2]
    rfl

/-- `bscStudy` as a whole. -/
theorem bscStudy_iff (log : LogLines) (cs : List (Contender σ)) (N k : Nat) (p : ℚ) (words : List (List Bool × List Nat))
    (r : Report) (lg : List ℚ) :
    bscStudy log cs N k p words = .ok (r, lg) ↔ ∃ w ws received rows, words = w :: ws ∧ words.mapM (bscReception p) = .ok received ∧
      loop cs received = .ok rows ∧
      log words.length ((List.range cs.length).map fun j => (column j rows).countP (· = 0)) = .ok lg ∧
      r = { rawBer := errorCount N p / (N : ℚ), bufferLen := w.1.length, number := words.length, info := Studies.infoErrors k words,
            parity := Studies.parityErrors k words,
            rates := (List.range cs.length).map fun j => ratesOf words.length w.1.length (column j rows) } := by
  constructor
  · intro h
    unfold bscStudy at h
    cases words with
    | nil => cases h
    | cons w ws =>
      cases h1 : (w :: ws).mapM (bscReception p) with
      | error e => simp only [h1] at h; cases h
      | ok received =>
        cases h2 : loop cs received with
        | error e => simp only [h1, h2, bind, Except.bind] at h; cases h
        | ok rows =>
          cases h3 : log (ws.length + 1) ((List.range cs.length).map fun j => (column j rows).countP (· = 0)) with
          | error e => simp only [h1, h2, h3, bind, Except.bind] at h; cases h
          | ok lg' =>
            simp only [h1, h2, h3, bind, Except.bind, Except.ok.injEq, Prod.mk.injEq] at h
            exact ⟨w, ws, received, rows, rfl, rfl, h2, by rw [← h.2]; exact h3, h.1.symm⟩
  · rintro ⟨w, ws, received, rows, rfl, h1, h2, h3, rfl⟩
    unfold bscStudy
    simp only [h1, h2, bind, Except.bind]
    simp only [List.length_cons] at h3
    simp only [h3, List.length_cons]

/-- C102: a decoder in a comparison gets the rates it gets when it is simulated without the others, on the same words and errors;
everything else that is reported does not depend on the decoders. -/
theorem c102_alone (log : LogLines) (cs : List (Contender σ)) (N k : Nat) (p : ℚ) (words : List (List Bool × List Nat)) (r : Report)
    (lg : List ℚ) (h : bscStudy log cs N k p words = .ok (r, lg)) :
    r.rates.length = cs.length ∧ ∀ (j : Nat) (c : Contender σ), cs[j]? = some c → ∃ x, r.rates[j]? = some x ∧
      bscStudy plainLog [c] N k p words = .ok ({ r with rates := [x] }, []) := by
  obtain ⟨w, ws, received, rows, rfl, h1, h2, h3, rfl⟩ := (bscStudy_iff ..).1 h
  refine ⟨by simp, ?_⟩
  intro j c hc
  have hj : j < cs.length := (List.getElem?_eq_some_iff.1 hc).1
  obtain ⟨g1, g2, g3⟩ := (loop_iff cs received rows).1 h2
  have hs := loop_single c received (column j rows) (g3 j c hc) (by rw [column_length, g1])
  refine ⟨ratesOf (w :: ws).length w.1.length (column j rows), by simp [hj], ?_⟩
  rw [bscStudy_iff]
  refine ⟨w, ws, received, _, rfl, h1, hs, rfl, ?_⟩
  simp [column, List.range_succ, Function.comp_def]

/-- C102: a comparison raises only what one of its decoders raises on its own. -/
theorem c102_joint (cs : List (Contender σ)) (hne : cs ≠ []) (N k : Nat) (p : ℚ) (words : List (List Bool × List Nat))
    (h : ∀ c ∈ cs, ∃ r, bscStudy plainLog [c] N k p words = .ok r) : ∃ r, bscStudy plainLog cs N k p words = .ok r := by
  obtain ⟨c0, hc0⟩ := List.exists_mem_of_ne_nil cs hne
  obtain ⟨⟨r0, l0⟩, h0⟩ := h c0 hc0
  obtain ⟨w, ws, received, _, rfl, h1, _, _, _⟩ := (bscStudy_iff ..).1 h0
  obtain ⟨rows, hrows⟩ := loop_of_solo cs received fun c hc => by
    obtain ⟨⟨r, l⟩, hr⟩ := h c hc
    obtain ⟨_, _, received', rows, _, g1, g2, _, _⟩ := (bscStudy_iff ..).1 hr
    rw [h1] at g1
    cases g1
    exact ⟨_, ((loop_iff [c] received rows).1 g2).2.2 0 c rfl⟩
  exact ⟨(_, []), (bscStudy_iff ..).2 ⟨w, ws, received, rows, rfl, h1, hrows, rfl, rfl⟩⟩

theorem zip_snd {α β γ : Type} (f : α → γ → Nat) (g : β → γ) (l : List α) (m : List β) :
    (l.zip (m.map fun x => g x)).map (fun x => f x.1 x.2) = (l.zip m).map fun x => f x.1 (g x.2) := by
  induction l generalizing m with
  | nil => rfl
  | cons a l ih => cases m with
    | nil => rfl
    | cons b m => simp [ih]

theorem estimates_spec (est : List (List Bool)) (sent : List (List Bool)) :
    ((est.zip sent).map fun x => diffCount x.1 x.2).countP (· = 0) = exact est sent := by
  induction est generalizing sent with
  | nil => rfl
  | cons e est ih => cases sent with
    | nil => rfl
    | cons s sent =>
      have := ih sent
      simp only [exact] at this
      simp only [exact, List.zip_cons_cons, List.map_cons, List.countP_cons, this]
      congr 1
      simp [diffCount_eq_zero]

theorem countP_range (l : List Nat) (hn : l.Nodup) (n : Nat) (P : Nat → Bool) (h : ∀ e ∈ l, e < n) :
    l.countP P = ((List.range n).filter fun i => decide (i ∈ l) && P i).length := by
  rw [List.countP_eq_length_filter]
  apply List.Perm.length_eq
  rw [List.perm_ext_iff_of_nodup (hn.filter _) (List.nodup_range.filter _)]
  intro i
  simp only [List.mem_filter, List.mem_range, Bool.and_eq_true, decide_eq_true_eq]
  exact ⟨fun ⟨a, b⟩ => ⟨h i a, a, b⟩, fun ⟨_, a, b⟩ => ⟨a, b⟩⟩

/-- How many of the first `k` bits, and how many of the others, are received wrong. -/
theorem diff_take (w : List Bool) (errors : List Nat) (hn : errors.Nodup) (hl : ∀ e ∈ errors, e < w.length) (k : Nat) :
    errors.countP (· < k) = diffCount (w.take k) ((flipAt w errors).take k) := by
  rw [countP_range errors hn w.length _ hl]
  unfold diffCount
  have hlen : (flipAt w errors).length = w.length := by simp [flipAt]
  apply List.Perm.length_eq
  rw [List.perm_ext_iff_of_nodup (List.nodup_range.filter _) (List.nodup_range.filter _)]
  intro i
  simp only [List.mem_filter, List.mem_range, Bool.and_eq_true, decide_eq_true_eq, List.length_take, hlen, max_self, ne_eq,
    lt_inf_iff]
  constructor
  · rintro ⟨h1, h2, h3⟩
    refine ⟨⟨h3, h1⟩, ?_⟩
    simp [h3, flipAt, h1, h2]
  · rintro ⟨⟨h1, h2⟩, h3⟩
    refine ⟨h2, ?_, h1⟩
    by_contra hc
    exact h3 (by simp [h1, flipAt, h2, hc])

theorem diff_drop (w : List Bool) (errors : List Nat) (hn : errors.Nodup) (hl : ∀ e ∈ errors, e < w.length) (k : Nat) :
    errors.countP (k ≤ ·) = diffCount (w.drop k) ((flipAt w errors).drop k) := by
  rw [countP_range errors hn w.length _ hl]
  unfold diffCount
  have hlen : (flipAt w errors).length = w.length := by simp [flipAt]
  have hm : ((List.range (max (w.drop k).length ((flipAt w errors).drop k).length)).filter fun i =>
      decide ((w.drop k)[i]? ≠ ((flipAt w errors).drop k)[i]?)).length =
      (((List.range (max (w.drop k).length ((flipAt w errors).drop k).length)).filter fun i =>
      decide ((w.drop k)[i]? ≠ ((flipAt w errors).drop k)[i]?)).map (k + ·)).length := by simp
  rw [hm]
  apply List.Perm.length_eq
  rw [List.perm_ext_iff_of_nodup (List.nodup_range.filter _)
    ((List.nodup_range.filter _).map fun a b h => Nat.add_left_cancel h)]
  intro i
  simp only [List.mem_filter, List.mem_range, Bool.and_eq_true, decide_eq_true_eq, List.mem_map, List.length_drop, hlen, max_self,
    ne_eq, List.getElem?_drop]
  constructor
  · rintro ⟨h1, h2, h3⟩
    refine ⟨i - k, ⟨by omega, ?_⟩, by omega⟩
    simp [show k + (i - k) = i from by omega, flipAt, h1, h2]
  · rintro ⟨a, ⟨h1, h2⟩, rfl⟩
    refine ⟨by omega, ?_, by omega⟩
    by_contra hc
    exact h2 (by simp [flipAt, hc])

theorem rates_spec (est sent : List (List Bool)) (n N : Nat) (hn : 0 < n) (hN : 0 < N) :
    (ratesOf n N ((est.zip sent).map fun x => diffCount x.1 x.2)).success * n = exact est sent ∧
    (ratesOf n N ((est.zip sent).map fun x => diffCount x.1 x.2)).ber * (n * N) = wrongBits est sent := by
  have h1 : (n : ℚ) ≠ 0 := by positivity
  have h2 : (N : ℚ) ≠ 0 := by positivity
  constructor
  · unfold ratesOf
    rw [estimates_spec]
    field_simp
  · unfold ratesOf wrongBits
    push_cast
    field_simp

/-- C102: the numbers a comparison reports. Every decoder is given the same words with the same errors; its success rate times the
number of words is the number of words it decodes exactly, its bit error rate times the number of bits is the number of wrong bits. The
raw error rate times the length of the code is the number of errors of every word, split into the errors in the information bits and in
the parity bits. -/
theorem c102_rates (cs : List (Contender σ)) (N k : Nat) (hN : 0 < N) (p : ℚ) (words : List (List Bool × List Nat)) (hne : words ≠ [])
    (hw : ∀ w ∈ words, w.1.length = N ∧ w.2.Nodup ∧ (∀ e ∈ w.2, e < N) ∧ w.2.length = errorCount N p)
    (est : Nat → List (List Bool))
    (ho : ∀ (j : Nat) (c : Contender σ), cs[j]? = some c →
      Answers c (words.map (bscGiven p c.view)) (est j) ∧ ∀ e ∈ est j, e.length = N) :
    ∃ r, bscStudy plainLog cs N k p words = .ok (r, []) ∧ r.bufferLen = N ∧ r.number = words.length ∧ r.rates.length = cs.length ∧
      (∀ (j : Nat) (x : Rates), r.rates[j]? = some x → x.success * words.length = exact (est j) (words.map Prod.fst) ∧
        x.ber * (words.length * N) = wrongBits (est j) (words.map Prod.fst)) ∧
      r.info.length = words.length ∧ r.parity.length = words.length ∧
      ∀ (i : Nat) (w : List Bool × List Nat), words[i]? = some w → ∃ a b, r.info[i]? = some a ∧ r.parity[i]? = some b ∧
        a = diffCount (w.1.take k) ((flipAt w.1 w.2).take k) ∧ b = diffCount (w.1.drop k) ((flipAt w.1 w.2).drop k) ∧
        r.rawBer * N = a + b := by
  have hrec := bscReception_ok p words fun w hm => ⟨(hw w hm).2.1, fun e he => by rw [(hw w hm).1]; exact (hw w hm).2.2.1 e he⟩
  have hsolo : ∀ (j : Nat) (c : Contender σ), cs[j]? = some c →
      solo c (words.map fun w => ((⟨channelLlr p (flipAt w.1 w.2), (flipAt w.1 w.2).map fun b => if b then 1 else 0, w.2⟩ : Reception), w.1)) =
        .ok (((est j).zip (words.map Prod.fst)).map fun x => diffCount x.1 x.2) := by
    intro j c hc
    obtain ⟨h1, h2⟩ := ho j c hc
    have hlen : (est j).length = words.length := by
      obtain ⟨flags, hf, h1⟩ := h1
      have := congrArg List.length h1
      rw [outputs_length] at this
      simpa [hf] using this.symm
    rw [solo_of c _ (est j) ?_ ?_]
    · congr 1
      rw [zip_snd (fun (e : List Bool) (x : Reception × List Bool) => diffCount e x.2)
          (fun w : List Bool × List Nat => ((⟨channelLlr p (flipAt w.1 w.2), (flipAt w.1 w.2).map fun b => if b then 1 else 0, w.2⟩ : Reception), w.1)),
        zip_snd (fun (e x : List Bool) => diffCount e x) (fun w : List Bool × List Nat => w.1)]
    · rw [List.map_map]
      convert h1 using 2
      funext w
      simp only [Function.comp_apply]
      cases c.view <;> rfl
    · rw [List.forall₂_map_right_iff]
      exact forall₂_of hlen fun e he w hm => by rw [h2 e he, (hw w hm).1]
  obtain ⟨rows, hrows⟩ := loop_of_solo cs _ fun c hc => by
    obtain ⟨j, hj⟩ := List.mem_iff_getElem?.1 hc
    exact ⟨_, hsolo j c hj⟩
  have hcols := ((loop_iff cs _ rows).1 hrows).2.2
  cases words with
  | nil => exact absurd rfl hne
  | cons w0 ws =>
    have hst := (bscStudy_iff plainLog cs N k p (w0 :: ws) _ _).2 ⟨w0, ws, _, rows, rfl, hrec, hrows, rfl, rfl⟩
    have h0 := (hw w0 (by simp)).1
    refine ⟨_, hst, h0, rfl, by simp, ?_, by simp [Studies.infoErrors], by simp [Studies.parityErrors], ?_⟩
    · intro j x hx
      have hj : j < cs.length := by
        have := (List.getElem?_eq_some_iff.1 hx).1
        simpa using this
      simp only [List.getElem?_map, List.getElem?_range hj, Option.map_some, Option.some.injEq] at hx
      have hc : cs[j]? = some cs[j] := List.getElem?_eq_getElem hj
      have heq := Except.ok.inj ((hcols j _ hc).symm.trans (hsolo j _ hc))
      rw [← hx, h0, heq]
      exact rates_spec _ _ _ _ (by simp) hN
    · intro i w hi
      obtain ⟨w1, w2, w3, w4⟩ := hw w (List.mem_of_getElem? hi)
      have w3' : ∀ e ∈ w.2, e < w.1.length := fun e he => by rw [w1]; exact w3 e he
      refine ⟨w.2.countP (· < k), w.2.countP (k ≤ ·), by rw [Studies.infoErrors, List.getElem?_map, hi]; rfl,
        by rw [Studies.parityErrors, List.getElem?_map, hi]; rfl,
        diff_take w.1 w.2 w2 w3' k, diff_drop w.1 w.2 w2 w3' k, ?_⟩
      have hN' : (N : ℚ) ≠ 0 := by positivity
      have hsum : w.2.countP (· < k) + w.2.countP (k ≤ ·) = w.2.length := by
        rw [List.length_eq_countP_add_countP (p := fun e => decide (e < k)) (l := w.2)]
        congr 1
        apply List.countP_congr
        simp
      rw [← w4, ← hsum]
      push_cast
      field_simp

/-! ### What the log divides -/

theorem success_iff (n N : Nat) (hn : 0 < n) (h : List Nat) : (ratesOf n N h).success * n = h.countP (· = 0) := by
  have : (n : ℚ) ≠ 0 := by positivity
  unfold ratesOf
  field_simp

/-- With log lines, the step returns what it returns without, unless the log lines raise; the log lines see the numbers of words
decoded. -/
theorem bscStudy_log (log : LogLines) (cs : List (Contender σ)) (N k : Nat) (p : ℚ) (words : List (List Bool × List Nat)) (r : Report)
    (h : bscStudy plainLog cs N k p words = .ok (r, [])) :
    ∃ s : List Nat, s.length = cs.length ∧ 0 < words.length ∧
      (∀ (j : Nat) (x : Rates), r.rates[j]? = some x → s[j]? = some (s.getD j 0) ∧ x.success * words.length = s.getD j 0 ∧
        s.getD j 0 ≤ words.length) ∧
      bscStudy log cs N k p words = (log words.length s).map fun l => (r, l) := by
  obtain ⟨w, ws, received, rows, rfl, h1, h2, _, rfl⟩ := (bscStudy_iff ..).1 h
  refine ⟨(List.range cs.length).map fun j => (column j rows).countP (· = 0), by simp, by simp, ?_, ?_⟩
  · intro j x hx
    have hj : j < cs.length := by
      have := (List.getElem?_eq_some_iff.1 hx).1
      simpa using this
    simp only [List.getElem?_map, List.getElem?_range hj, Option.map_some, Option.some.injEq] at hx
    subst hx
    have hlen : (column j rows).length = (w :: ws).length := by
      rw [column_length, ((loop_iff cs received rows).1 h2).1]
      have : ∀ (l : List (List Bool × List Nat)) m, l.mapM (bscReception p) = .ok m → m.length = l.length := by
        intro l
        induction l with
        | nil => intro m hm; cases hm; rfl
        | cons a l ih =>
          intro m hm
          rw [List.mapM_cons] at hm
          cases ha : bscReception p a with
          | error e => rw [ha] at hm; cases hm
          | ok x =>
            cases hl : l.mapM (bscReception p) with
            | error e => rw [ha, hl] at hm; cases hm
            | ok y => rw [ha, hl] at hm; cases hm; simp [ih y hl]
      exact this _ _ h1
    refine ⟨by simp [hj], ?_, ?_⟩
    · rw [success_iff _ _ (by simp)]
      simp [List.getD_eq_getElem?_getD, hj]
    · simp only [List.getD_eq_getElem?_getD, List.getElem?_map, List.getElem?_range hj, Option.map_some, Option.getD_some]
      rw [← hlen]
      exact List.countP_le_length
  · unfold bscStudy
    simp only [h1, h2, bind, Except.bind, List.length_cons]
    cases log (ws.length + 1) ((List.range cs.length).map fun j => (column j rows).countP (· = 0)) <;> rfl

/-- C102: the log line of the comparison with the combined decoder raises nothing: it is the gain of the second decoder over the first,
as a share of what the first one missed, and is left out if the first one decodes every word. -/
theorem c102_combined (a b : Contender σ) (cs : List (Contender σ)) (N k : Nat) (p : ℚ) (words : List (List Bool × List Nat))
    (r : Report) (h : bscStudy plainLog (a :: b :: cs) N k p words = .ok (r, [])) :
    ∃ x y lg, r.rates[0]? = some x ∧ r.rates[1]? = some y ∧ bscStudy combinedLog (a :: b :: cs) N k p words = .ok (r, lg) ∧
      x.success ≤ 1 ∧ lg = if x.success = 1 then [] else [(y.success - x.success) / (1 - x.success)] := by
  obtain ⟨s, hs, hn, h1, h2⟩ := bscStudy_log combinedLog _ N k p words r h
  have hr := (c102_alone _ _ N k p words r _ h).1
  have hn' : (0 : ℚ) < words.length := by exact_mod_cast hn
  have e0 : r.rates[0]? = some (r.rates[0]'(by simp [hr])) := List.getElem?_eq_getElem _
  have e1 : r.rates[1]? = some (r.rates[1]'(by simp [hr])) := List.getElem?_eq_getElem _
  obtain ⟨_, x1, x2⟩ := h1 0 _ e0
  obtain ⟨_, y1, _⟩ := h1 1 _ e1
  have hx : (r.rates[0]'(by simp [hr])).success = (s.getD 0 0 : ℚ) / words.length := by rw [eq_div_iff hn'.ne', x1]
  have hy : (r.rates[1]'(by simp [hr])).success = (s.getD 1 0 : ℚ) / words.length := by rw [eq_div_iff hn'.ne', y1]
  refine ⟨_, _, _, e0, e1, h2, ?_, ?_⟩
  · rw [hx, div_le_one hn']
    exact_mod_cast x2
  · by_cases hc : s.getD 0 0 = words.length
    · rw [if_neg (by omega), if_pos (by rw [hx, hc, div_self hn'.ne'])]
    · have hlt : (s.getD 0 0 : ℚ) < words.length := by exact_mod_cast lt_of_le_of_ne x2 hc
      have hne : (r.rates[0]'(by simp [hr])).success ≠ 1 := by
        rw [hx]
        exact (by rw [div_lt_one hn']; exact hlt : (s.getD 0 0 : ℚ) / words.length < 1).ne
      rw [if_pos (by omega), if_neg hne, hx, hy]
      have : (words.length : ℚ) - s.getD 0 0 ≠ 0 := by linarith
      field_simp

/-- C102: the log lines of the comparison with the pretrained model divide by zero, and the step is lost, exactly if the first decoder
decodes every word and the third one does not. Otherwise they are the gains of the second and of the third decoder over the first, as
shares of what the first one missed. -/
theorem c102_pretrained (a b c : Contender σ) (N k : Nat) (p : ℚ) (words : List (List Bool × List Nat))
    (r : Report) (h : bscStudy plainLog [a, b, c] N k p words = .ok (r, [])) :
    ∃ x y z, r.rates = [x, y, z] ∧
      (x.success = 1 ∧ z.success < 1 → bscStudy pretrainedLog [a, b, c] N k p words = .error .zeroDivisionError) ∧
      (x.success = 1 ∧ z.success = 1 → bscStudy pretrainedLog [a, b, c] N k p words = .ok (r, [])) ∧
      (x.success < 1 ∧ z.success < 1 → bscStudy pretrainedLog [a, b, c] N k p words =
        .ok (r, [(y.success - x.success) / (1 - x.success), (z.success - x.success) / (1 - x.success)])) ∧
      (x.success < 1 ∧ z.success = 1 → bscStudy pretrainedLog [a, b, c] N k p words =
        .ok (r, [(y.success - x.success) / (1 - x.success)])) := by
  obtain ⟨s, hs, hn, h1, h2⟩ := bscStudy_log pretrainedLog _ N k p words r h
  have hr := (c102_alone _ _ N k p words r _ h).1
  have hn' : (0 : ℚ) < words.length := by exact_mod_cast hn
  obtain ⟨x, y, z, hxyz⟩ : ∃ x y z, r.rates = [x, y, z] := by
    match hl : r.rates, hr with
    | [x, y, z], _ => exact ⟨x, y, z, rfl⟩
  obtain ⟨_, x1, x2⟩ := h1 0 x (by rw [hxyz]; rfl)
  obtain ⟨_, y1, _⟩ := h1 1 y (by rw [hxyz]; rfl)
  obtain ⟨_, z1, z2⟩ := h1 2 z (by rw [hxyz]; rfl)
  have hx : x.success = (s.getD 0 0 : ℚ) / words.length := by rw [eq_div_iff hn'.ne', x1]
  have hy : y.success = (s.getD 1 0 : ℚ) / words.length := by rw [eq_div_iff hn'.ne', y1]
  have hz : z.success = (s.getD 2 0 : ℚ) / words.length := by rw [eq_div_iff hn'.ne', z1]
  have one : ∀ v : Nat, (v : ℚ) / words.length = 1 ↔ v = words.length := fun v => by
    rw [div_eq_one_iff_eq hn'.ne']; exact_mod_cast Iff.rfl
  have less : ∀ v : Nat, (v : ℚ) / words.length < 1 ↔ v < words.length := fun v => by
    rw [div_lt_one hn']; exact_mod_cast Iff.rfl
  have gain : ∀ u v : Nat, v < words.length →
      ((u : ℚ) - v) / ((words.length : ℚ) - v) = ((u : ℚ) / words.length - (v : ℚ) / words.length) / (1 - (v : ℚ) / words.length) := by
    intro u v hv
    have : (v : ℚ) < words.length := by exact_mod_cast hv
    have : (words.length : ℚ) - v ≠ 0 := by linarith
    field_simp
  refine ⟨x, y, z, hxyz, ?_, ?_, ?_, ?_⟩
  · rw [hx, hz, one, less]
    rintro ⟨g1, g2⟩
    rw [h2]
    simp only [pretrainedLog]
    rw [if_pos (by omega), if_pos (by omega)]
    rfl
  · rw [hx, hz, one, one]
    rintro ⟨g1, g2⟩
    rw [h2]
    simp only [pretrainedLog]
    rw [if_neg (by omega), if_neg (by omega)]
    rfl
  · rw [hx, hy, hz, less, less]
    rintro ⟨g1, g2⟩
    rw [h2]
    simp only [pretrainedLog]
    rw [if_pos (by omega), if_neg (by omega), if_pos (by omega), gain _ _ g1, gain _ _ g1]
    rfl
  · rw [hx, hy, hz, less, one]
    rintro ⟨g1, g2⟩
    rw [h2]
    simp only [pretrainedLog]
    rw [if_neg (by omega), if_pos (by omega), gain _ _ g1]
    rfl

/-! ### The channel with Gaussian noise -/

/-- `awgnStudy` as a whole. -/
theorem awgnStudy_iff (cs : List (Contender σ)) (N k : Nat) (snr : ℝ) (words : List (List Bool × List ℝ)) (r : Report) :
    awgnStudy cs N k snr words = .ok r ↔ ∃ w ws rows, words = w :: ws ∧
      loop cs (words.map (awgnReception (Awgn.sigma snr))) = .ok rows ∧
      r = { rawBer := Awgn.meanRawBer N words.length (words.map (Awgn.errorRow (Awgn.sigma snr))), bufferLen := w.1.length,
            number := words.length, info := Awgn.infoSlice k (words.map (Awgn.errorRow (Awgn.sigma snr))),
            parity := Awgn.paritySlice k (words.map (Awgn.errorRow (Awgn.sigma snr))),
            rates := (List.range cs.length).map fun j => ratesOf words.length w.1.length (column j rows) } := by
  have hdef : awgnStudy cs N k snr words = (loop cs (words.map (awgnReception (Awgn.sigma snr)))).bind fun rows =>
      match words with
      | [] => .error .indexError
      | w :: _ =>
        .ok { rawBer := Awgn.meanRawBer N words.length (words.map (Awgn.errorRow (Awgn.sigma snr))),
              bufferLen := w.1.length, number := words.length,
              info := Awgn.infoSlice k (words.map (Awgn.errorRow (Awgn.sigma snr))),
              parity := Awgn.paritySlice k (words.map (Awgn.errorRow (Awgn.sigma snr))),
              rates := (List.range cs.length).map fun j => ratesOf words.length w.1.length (column j rows) } := rfl
  rw [hdef]
  cases words with
  | nil =>
    constructor
    · intro h; cases hl : loop cs (([] : List (List Bool × List ℝ)).map (awgnReception (Awgn.sigma snr))) <;> rw [hl] at h <;> cases h
    · rintro ⟨_, _, _, h, _⟩; cases h
  | cons w ws =>
    constructor
    · intro h
      cases hl : loop cs ((w :: ws).map (awgnReception (Awgn.sigma snr))) with
      | error e => rw [hl] at h; cases h
      | ok rows =>
        rw [hl] at h
        exact ⟨w, ws, rows, rfl, rfl, (Except.ok.inj h).symm⟩
    · rintro ⟨_, _, rows, h1, h2, rfl⟩
      cases h1
      rw [h2]
      rfl

/-- C102: over the channel with Gaussian noise too, a decoder gets the rates it gets without the others. -/
theorem c102_awgn_alone (cs : List (Contender σ)) (N k : Nat) (snr : ℝ) (words : List (List Bool × List ℝ)) (r : Report)
    (h : awgnStudy cs N k snr words = .ok r) :
    r.rates.length = cs.length ∧ ∀ (j : Nat) (c : Contender σ), cs[j]? = some c → ∃ x, r.rates[j]? = some x ∧
      awgnStudy [c] N k snr words = .ok { r with rates := [x] } := by
  obtain ⟨w, ws, rows, rfl, h2, rfl⟩ := (awgnStudy_iff ..).1 h
  refine ⟨by simp, ?_⟩
  intro j c hc
  have hj : j < cs.length := (List.getElem?_eq_some_iff.1 hc).1
  obtain ⟨g1, g2, g3⟩ := (loop_iff cs _ rows).1 h2
  have hs := loop_single c _ (column j rows) (g3 j c hc) (by rw [column_length, g1])
  refine ⟨ratesOf (w :: ws).length w.1.length (column j rows), by simp [hj], ?_⟩
  rw [awgnStudy_iff]
  refine ⟨w, ws, _, rfl, hs, ?_⟩
  simp [column, List.range_succ, Function.comp_def]

theorem noisy_receive (s : ℝ) (w : List Bool × List ℝ) : Awgn.noisy s w.1 w.2 = receiveWord s w := by
  unfold Awgn.noisy receiveWord
  apply List.map_congr_left
  rintro ⟨b, z⟩ _
  cases b <;> (simp [receive, symbol]; try norm_num)

/-- C102: the numbers of a comparison over the channel with Gaussian noise. Every decoder is given the same samples or their log
likelihood ratios; the rates are as for the binary channel; the errors in the information bits and in the parity bits are the bits
received wrong, and the raw error rate times the number of bits is the sum of them all. -/
theorem c102_awgn (cs : List (Contender σ)) (N k : Nat) (hN : 0 < N) (snr : ℝ) (hsnr : 0 < snr) (words : List (List Bool × List ℝ))
    (hne : words ≠ []) (hw : ∀ w ∈ words, w.1.length = N ∧ w.2.length = N) (est : Nat → List (List Bool))
    (ho : ∀ (j : Nat) (c : Contender σ), cs[j]? = some c →
      Answers c (words.map (awgnGiven (Awgn.sigma snr) c.view)) (est j) ∧ ∀ e ∈ est j, e.length = N) :
    ∃ r, awgnStudy cs N k snr words = .ok r ∧ r.bufferLen = N ∧ r.number = words.length ∧ r.rates.length = cs.length ∧
      (∀ (j : Nat) (x : Rates), r.rates[j]? = some x → x.success * words.length = exact (est j) (words.map Prod.fst) ∧
        x.ber * (words.length * N) = wrongBits (est j) (words.map Prod.fst)) ∧
      r.info = (words.map fun w => receivedWrong (Awgn.sigma snr) w (· < k)) ∧
      r.parity = (words.map fun w => receivedWrong (Awgn.sigma snr) w (k ≤ ·)) ∧
      r.rawBer * (words.length * N) = r.info.sum + r.parity.sum := by
  have hs := sigma_pos snr hsnr
  have hsolo : ∀ (j : Nat) (c : Contender σ), cs[j]? = some c → solo c (words.map (awgnReception (Awgn.sigma snr))) =
        .ok (((est j).zip (words.map Prod.fst)).map fun x => diffCount x.1 x.2) := by
    intro j c hc
    obtain ⟨h1, h2⟩ := ho j c hc
    have hlen : (est j).length = words.length := by
      obtain ⟨flags, hf, h1⟩ := h1
      have := congrArg List.length h1
      rw [outputs_length] at this
      simpa [hf] using this.symm
    rw [solo_of c _ (est j) ?_ ?_]
    · congr 1
      have e1 := zip_snd (fun (e : List Bool) (x : Reception × List Bool) => diffCount e x.2)
        (awgnReception (Awgn.sigma snr)) (est j) words
      have e2 := zip_snd (fun (e x : List Bool) => diffCount e x) (fun w : List Bool × List ℝ => w.1) (est j) words
      exact e1.trans e2.symm
    · rw [List.map_map]
      convert h1 using 2
      funext w
      simp only [Function.comp_apply, awgnReception, noisy_receive]
      cases c.view
      · simp only [View.of, awgnGiven, Prod.mk.injEq, and_true]
        exact List.map_congr_left fun y _ => c88_llr _ hs y
      · simp only [View.of, awgnGiven, Prod.mk.injEq, and_true]
        exact List.map_congr_left fun y _ => c88_llr _ hs y
      · rfl
    · rw [List.forall₂_map_right_iff]
      exact forall₂_of hlen fun e he w hm => by rw [h2 e he]; exact (hw w hm).1.symm
  obtain ⟨rows, hrows⟩ := loop_of_solo cs _ fun c hc => by
    obtain ⟨j, hj⟩ := List.mem_iff_getElem?.1 hc
    exact ⟨_, hsolo j c hj⟩
  have hcols := ((loop_iff cs _ rows).1 hrows).2.2
  cases words with
  | nil => exact absurd rfl hne
  | cons w0 ws =>
    have hst := (awgnStudy_iff cs N k snr (w0 :: ws) _).2 ⟨w0, ws, rows, rfl, hrows, rfl⟩
    have h0 := (hw w0 (by simp)).1
    have hN' : (N : ℚ) ≠ 0 := by positivity
    have hn' : (((w0 :: ws).length : ℕ) : ℚ) ≠ 0 := by simp; positivity
    have hinfo : Awgn.infoSlice k ((w0 :: ws).map (Awgn.errorRow (Awgn.sigma snr))) =
        (w0 :: ws).map fun w => receivedWrong (Awgn.sigma snr) w (· < k) := by
      unfold Awgn.infoSlice
      rw [List.map_map]
      apply List.map_congr_left
      intro w hm
      have hl : w.2.length = w.1.length := by rw [(hw w hm).1, (hw w hm).2]
      rw [Function.comp_apply, count_take, errorRow_length _ hs w hl]
      unfold receivedWrong positions
      congr 1
      apply List.filter_congr
      intro i hi
      rw [List.mem_range] at hi
      rw [decide_eq_decide]
      exact and_congr_right fun _ => errorRow_get _ hs w hl i hi
    have hpar : Awgn.paritySlice k ((w0 :: ws).map (Awgn.errorRow (Awgn.sigma snr))) =
        (w0 :: ws).map fun w => receivedWrong (Awgn.sigma snr) w (k ≤ ·) := by
      unfold Awgn.paritySlice
      rw [List.map_map]
      apply List.map_congr_left
      intro w hm
      have hl : w.2.length = w.1.length := by rw [(hw w hm).1, (hw w hm).2]
      rw [Function.comp_apply, count_drop, errorRow_length _ hs w hl]
      unfold receivedWrong positions
      congr 1
      apply List.filter_congr
      intro i hi
      rw [List.mem_range] at hi
      rw [decide_eq_decide]
      exact and_congr_right fun _ => errorRow_get _ hs w hl i hi
    refine ⟨_, hst, h0, rfl, by simp, ?_, hinfo, hpar, ?_⟩
    · intro j x hx
      have hj : j < cs.length := by
        have := (List.getElem?_eq_some_iff.1 hx).1
        simpa using this
      simp only [List.getElem?_map, List.getElem?_range hj, Option.map_some, Option.some.injEq] at hx
      have hc : cs[j]? = some cs[j] := List.getElem?_eq_getElem hj
      have heq := Except.ok.inj ((hcols j _ hc).symm.trans (hsolo j _ hc))
      rw [← hx, h0, heq]
      exact rates_spec _ _ _ _ (by simp) hN
    · have hsum : ∀ l : List (List Bool),
          ((Awgn.infoSlice k l).sum + (Awgn.paritySlice k l).sum : ℕ) = (l.map (·.count true)).sum := by
        intro l
        induction l with
        | nil => rfl
        | cons x l ih =>
          simp only [Awgn.infoSlice, Awgn.paritySlice] at ih
          simp only [Awgn.infoSlice, Awgn.paritySlice, List.map_cons, List.sum_cons]
          have := List.count_append (a := true) (l₁ := x.take k) (l₂ := x.drop k)
          rw [List.take_append_drop] at this
          omega
      have := hsum ((w0 :: ws).map (Awgn.errorRow (Awgn.sigma snr)))
      simp only
      rw [Awgn.meanRawBer, ← this]
      push_cast
      field_simp

/-! ### A case -/

/-- A decoder that counts its words and answers with prepared estimates. -/
def exAnswers (v : View) (f : List (List Bool)) : Contender Nat := ⟨fun s _ _ => (s + 1, .ok (f.getD s [], true)), 0, v⟩

/-- Two words of four bits with one error each. -/
def exWords : List (List Bool × List Nat) := [([true, false, true, true], [1]), ([false, false, true, false], [3])]

/-- The first decoder decodes both words, the second one of them, the third neither. -/
def exEst : Nat → List (List Bool)
  | 0 => [[true, false, true, true], [false, false, true, false]]
  | 1 => [[true, false, true, true], [false, true, true, false]]
  | _ => [[false, false, true, true], [false, true, true, true]]

def exContenders : List (Contender Nat) :=
  [exAnswers .ratios (exEst 0), exAnswers .ratiosAndErrors (exEst 1), exAnswers .ratios (exEst 2)]

/-- The hypotheses of `c102_rates` are met, with rates 1, 1/2 and 0. -/
theorem c102_example : ∃ r, bscStudy plainLog exContenders 4 3 (1 / 4) exWords = .ok (r, []) ∧
    r.rates = [⟨1, 0⟩, ⟨1 / 2, 1 / 8⟩, ⟨0, 3 / 8⟩] ∧ r.info = [1, 0] ∧ r.parity = [0, 1] := by
  have hec : errorCount 4 (1 / 4) = 1 := by decide +kernel
  have ho : ∀ (j : Nat) (c : Contender Nat), exContenders[j]? = some c →
      Answers c (exWords.map (bscGiven ((1 / 4 : ℚ) : ℝ) c.view)) (exEst j) ∧ ∀ e ∈ exEst j, e.length = 4 := by
    intro j c hc
    match j with
    | 0 => cases hc; exact ⟨⟨[true, true], rfl, rfl⟩, by decide⟩
    | 1 => cases hc; exact ⟨⟨[true, true], rfl, rfl⟩, by decide⟩
    | 2 => cases hc; exact ⟨⟨[true, true], rfl, rfl⟩, by decide⟩
    | j + 3 => simp [exContenders] at hc
  obtain ⟨r, h, _, _, hl, hr, l1, l2, hi⟩ := c102_rates exContenders 4 3 (by norm_num) (1 / 4) exWords (by decide) (by
    rw [hec]; decide) exEst ho
  refine ⟨r, h, ?_, ?_, ?_⟩
  · match hrl : r.rates, hl with
    | [x, y, z], _ =>
      have e : ∀ x : Rates, ∀ a b : ℚ, x.success = a → x.ber = b → x = ⟨a, b⟩ := by rintro ⟨_, _⟩ _ _ rfl rfl; rfl
      obtain ⟨x1, x2⟩ := hr 0 x (by rw [hrl]; rfl)
      obtain ⟨y1, y2⟩ := hr 1 y (by rw [hrl]; rfl)
      obtain ⟨z1, z2⟩ := hr 2 z (by rw [hrl]; rfl)
      have v : exact (exEst 0) (exWords.map Prod.fst) = 2 ∧ exact (exEst 1) (exWords.map Prod.fst) = 1 ∧
        exact (exEst 2) (exWords.map Prod.fst) = 0 ∧ wrongBits (exEst 0) (exWords.map Prod.fst) = 0 ∧
        wrongBits (exEst 1) (exWords.map Prod.fst) = 1 ∧ wrongBits (exEst 2) (exWords.map Prod.fst) = 3 := by decide
      obtain ⟨v1, v2, v3, v4, v5, v6⟩ := v
      have hlen : (exWords.length : ℚ) = 2 := by norm_num [exWords]
      rw [v1, hlen] at x1
      rw [v4, hlen] at x2
      rw [v2, hlen] at y1
      rw [v5, hlen] at y2
      rw [v3, hlen] at z1
      rw [v6, hlen] at z2
      push_cast at x1 x2 y1 y2 z1 z2
      rw [e x 1 0 (by linarith) (by linarith), e y (1 / 2) (1 / 8) (by linarith) (by linarith), e z 0 (3 / 8) (by linarith) (by linarith)]
  · obtain ⟨a0, b0, i1, i2, i3, i4, _⟩ := hi 0 _ rfl
    obtain ⟨a1, b1, j1, j2, j3, j4, _⟩ := hi 1 _ rfl
    match hm : r.info, l1 with
    | [x, y], _ =>
      rw [hm] at i1 j1
      simp only [List.getElem?_cons_zero, Option.some.injEq, List.getElem?_cons_succ] at i1 j1
      rw [i1, j1, i3, j3]
      decide
  · obtain ⟨a0, b0, i1, i2, i3, i4, _⟩ := hi 0 _ rfl
    obtain ⟨a1, b1, j1, j2, j3, j4, _⟩ := hi 1 _ rfl
    match hm : r.parity, l2 with
    | [x, y], _ =>
      rw [hm] at i2 j2
      simp only [List.getElem?_cons_zero, Option.some.injEq, List.getElem?_cons_succ] at i2 j2
      rw [i2, j2, i4, j4]
      decide

/-- The hypotheses of `c102_awgn` are met, for two words of four bits, whatever the noise is: the decoders get the samples or their
ratios and have rates 1, 1/2 and 0. -/
theorem c102_awgn_example (z : ℝ) : ∃ r,
    awgnStudy [exAnswers .ratios (exEst 0), exAnswers .samples (exEst 1), exAnswers .ratiosAndErrors (exEst 2)] 4 3 2
      [([true, false, true, true], [0, z, 0, -z]), ([false, false, true, false], [z, 0, 1, 2])] = .ok r ∧
    r.rates = [⟨1, 0⟩, ⟨1 / 2, 1 / 8⟩, ⟨0, 3 / 8⟩] ∧ r.rawBer * 8 = r.info.sum + r.parity.sum := by
  obtain ⟨r, h, _, _, hl, hr, _, _, hi⟩ := c102_awgn
    [exAnswers .ratios (exEst 0), exAnswers .samples (exEst 1), exAnswers .ratiosAndErrors (exEst 2)] 4 3 (by norm_num) 2 (by norm_num)
    [([true, false, true, true], [0, z, 0, -z]), ([false, false, true, false], [z, 0, 1, 2])] (by simp)
    (by intro w hw; simp at hw; rcases hw with rfl | rfl <;> exact ⟨rfl, rfl⟩) exEst (by
      intro j c hc
      match j with
      | 0 => cases hc; exact ⟨⟨[true, true], rfl, rfl⟩, by decide⟩
      | 1 => cases hc; exact ⟨⟨[true, true], rfl, rfl⟩, by decide⟩
      | 2 => cases hc; exact ⟨⟨[true, true], rfl, rfl⟩, by decide⟩
      | j + 3 => simp at hc)
  refine ⟨r, h, ?_, ?_⟩
  · match hrl : r.rates, hl with
    | [x, y, t], _ =>
      have e : ∀ x : Rates, ∀ a b : ℚ, x.success = a → x.ber = b → x = ⟨a, b⟩ := by rintro ⟨_, _⟩ _ _ rfl rfl; rfl
      have sent : List.map Prod.fst [(([true, false, true, true] : List Bool), ([0, z, 0, -z] : List ℝ)),
        ([false, false, true, false], [z, 0, 1, 2])] = exWords.map Prod.fst := rfl
      rw [sent] at hr
      obtain ⟨x1, x2⟩ := hr 0 x (by rw [hrl]; rfl)
      obtain ⟨y1, y2⟩ := hr 1 y (by rw [hrl]; rfl)
      obtain ⟨z1, z2⟩ := hr 2 t (by rw [hrl]; rfl)
      have v : exact (exEst 0) (exWords.map Prod.fst) = 2 ∧ exact (exEst 1) (exWords.map Prod.fst) = 1 ∧
        exact (exEst 2) (exWords.map Prod.fst) = 0 ∧ wrongBits (exEst 0) (exWords.map Prod.fst) = 0 ∧
        wrongBits (exEst 1) (exWords.map Prod.fst) = 1 ∧ wrongBits (exEst 2) (exWords.map Prod.fst) = 3 := by decide
      obtain ⟨v1, v2, v3, v4, v5, v6⟩ := v
      rw [v1] at x1
      rw [v4] at x2
      rw [v2] at y1
      rw [v5] at y2
      rw [v3] at z1
      rw [v6] at z2
      simp only [List.length_cons, List.length_nil] at x1 x2 y1 y2 z1 z2
      push_cast at x1 x2 y1 y2 z1 z2
      rw [e x 1 0 (by linarith) (by linarith), e y (1 / 2) (1 / 8) (by linarith) (by linarith), e t 0 (3 / 8) (by linarith) (by linarith)]
  · simp only [List.length_cons, List.length_nil] at hi
    rw [← hi]
    norm_num

/-- C102: a step of the comparison with the pretrained model can be lost although no decoder raises anything. -/
theorem c102_pretrained_false : ¬ ∀ (a b c : Contender Nat) (words : List (List Bool × List Nat)),
    (∃ r, bscStudy plainLog [a, b, c] 4 3 (1 / 4) words = .ok r) → ∃ r, bscStudy pretrainedLog [a, b, c] 4 3 (1 / 4) words = .ok r := by
  intro h
  obtain ⟨r, hr, hrates, _⟩ := c102_example
  obtain ⟨r', hr'⟩ := h _ _ _ exWords ⟨_, hr⟩
  obtain ⟨x, y, z, hx, h1, _⟩ := c102_pretrained _ _ _ 4 3 (1 / 4) exWords r hr
  rw [hrates] at hx
  cases hx
  rw [h1 ⟨rfl, by norm_num⟩] at hr'
  cases hr'

end NR
