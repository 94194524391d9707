import Verif.Props.C102
/-
C156: a decoder gets the same rates in a simulation of two decoders and in a comparison of more.
-/
namespace NR.C156
open NR Spec Studies

variable {σ τ ρ : Type}

/-- The distances of estimates to the words sent. -/
def dists : List (Except PyErr (List Bool × Bool)) → List (List Bool) → Except PyErr (List Nat)
  | o :: os, t :: ts => do
    let e ← o
    let h ← hammingDistance (.bits e.1) (.bits t)
    let r ← dists os ts
    .ok (h :: r)
  | _, _ => .ok []

theorem dists_cons (o : Except PyErr (List Bool × Bool)) (os : List (Except PyErr (List Bool × Bool))) (t : List Bool) (ts : List (List Bool))
    (l : List Nat) : dists (o :: os) (t :: ts) = .ok l ↔
      ∃ e h r, o = .ok e ∧ hammingDistance (.bits e.1) (.bits t) = .ok h ∧ dists os ts = .ok r ∧ l = h :: r := by
  constructor
  · intro hl
    unfold dists at hl
    cases o with
    | error e => cases hl
    | ok e =>
      simp only [bind, Except.bind] at hl
      cases hh : hammingDistance (.bits e.1) (.bits t) with
      | error e' => rw [hh] at hl; cases hl
      | ok h =>
        rw [hh] at hl
        simp only at hl
        cases hr : dists os ts with
        | error e' => rw [hr] at hl; cases hl
        | ok r => rw [hr] at hl; cases hl; exact ⟨e, h, r, rfl, hh, rfl, rfl⟩
  · rintro ⟨e, h, r, rfl, h1, h2, rfl⟩
    unfold dists
    simp only [bind, Except.bind, h1, h2]

/-- What a decoder achieves on its own depends on what it returns only. -/
theorem solo_dists : ∀ (l : List (Reception × List Bool)) (c : Contender σ) (r : List Nat),
    solo c l = .ok r ↔ dists (outputs c.run c.state (l.map fun x => c.view.of x.1)) (l.map Prod.snd) = .ok r
  | [], c, r => Iff.rfl
  | (x, tx) :: l, c, r => by
    rw [solo_cons]
    simp only [List.map_cons, outputs]
    rw [dists_cons]
    constructor
    · rintro ⟨y, t, h1, h2, rfl⟩
      unfold Contender.attempt at h1
      cases ho : (c.run c.state (c.view.of x).1 (c.view.of x).2).2 with
      | error e => simp only [ho, bind, Except.bind] at h1; cases h1
      | ok e =>
        simp only [ho, bind, Except.bind] at h1
        cases hh : hammingDistance (.bits e.1) (.bits tx) with
        | error e' => rw [hh] at h1; cases h1
        | ok h =>
          rw [hh] at h1
          simp only [Except.ok.injEq] at h1
          subst h1
          exact ⟨e, h, t, rfl, hh, (solo_dists l _ t).1 h2, rfl⟩
    · rintro ⟨e, h, t, h1, h2, h3, rfl⟩
      refine ⟨({ c with state := (c.run c.state (c.view.of x).1 (c.view.of x).2).1 }, h), t, ?_, (solo_dists l _ t).2 h3, rfl⟩
      unfold Contender.attempt
      simp only [h1, bind, Except.bind, h2]

/-- The loop of the simulation of two decoders: the distances of the one and of the other. -/
theorem simLoop_dists (A : Coder σ) (B : Coder τ) (p : ℝ) : ∀ (words : List (List Bool × List Nat)) (a : σ) (b : τ) (h : List (Nat × Nat)),
    (∀ x ∈ words, x.2.Nodup ∧ ∀ e ∈ x.2, e < x.1.length) →
    (simLoop A B p a b words = .ok h ↔ dists (outputs A a (simInputs p words)) (words.map Prod.fst) = .ok (h.map Prod.fst) ∧
      dists (outputs B b (simInputs p words)) (words.map Prod.fst) = .ok (h.map Prod.snd))
  | [], a, b, h, _ => by
    constructor
    · intro hl
      cases hl
      exact ⟨rfl, rfl⟩
    · rintro ⟨h1, _⟩
      have h1 : ([] : List Nat) = h.map Prod.fst := Except.ok.inj h1
      rw [List.map_eq_nil_iff.1 h1.symm]
      rfl
  | (tx, errors) :: words, a, b, h, hw => by
    obtain ⟨w1, w2⟩ := hw (tx, errors) (by simp)
    have ih := simLoop_dists A B p words
    have hr := invertAt_eq tx errors w1 w2
    unfold simLoop
    simp only [simInputs, List.map_cons, outputs] at ih ⊢
    rw [dists_cons, dists_cons]
    simp only [hr, bind, Except.bind]
    constructor
    · intro hl
      cases hA : (A a (channelLlr p (flipAt tx errors)) (some errors)).2 with
      | error e => rw [hA] at hl; cases hl
      | ok ea =>
        rw [hA] at hl
        simp only at hl
        cases hda : hammingDistance (.bits ea.1) (.bits tx) with
        | error e => rw [hda] at hl; cases hl
        | ok da =>
          rw [hda] at hl
          simp only at hl
          cases hB : (B b (channelLlr p (flipAt tx errors)) (some errors)).2 with
          | error e => rw [hB] at hl; cases hl
          | ok eb =>
            rw [hB] at hl
            simp only at hl
            cases hdb : hammingDistance (.bits eb.1) (.bits tx) with
            | error e => rw [hdb] at hl; cases hl
            | ok db =>
              rw [hdb] at hl
              simp only at hl
              cases ht : simLoop A B p (A a (channelLlr p (flipAt tx errors)) (some errors)).1
                (B b (channelLlr p (flipAt tx errors)) (some errors)).1 words with
              | error e => rw [ht] at hl; cases hl
              | ok t =>
                rw [ht] at hl
                cases hl
                obtain ⟨i1, i2⟩ := (ih _ _ t fun x hx => hw x (List.mem_cons_of_mem _ hx)).1 ht
                exact ⟨⟨ea, da, _, rfl, hda, i1, rfl⟩, ⟨eb, db, _, rfl, hdb, i2, rfl⟩⟩
    · rintro ⟨⟨ea, da, ra, a1, a2, a3, a4⟩, ⟨eb, db, rb, b1, b2, b3, b4⟩⟩
      cases h with
      | nil => simp at a4
      | cons x t =>
        simp only [List.map_cons, List.cons.injEq] at a4 b4
        have ht := (ih _ _ t fun x hx => hw x (List.mem_cons_of_mem _ hx)).2 ⟨by rw [a3, a4.2], by rw [b3, b4.2]⟩
        rw [a1]
        simp only [a2]
        rw [b1]
        simp only [b2]
        rw [ht]
        simp only [Except.ok.injEq, List.cons.injEq, and_true]
        rw [← a4.1, ← b4.1]

/-- A decoder of the comparison that returns for the words of the channel what the decoder `A` of the simulation returns. -/
def ActsAs (p : ℝ) (words : List (List Bool × List Nat)) (c : Contender ρ) (A : Coder σ) (a : σ) : Prop :=
  outputs c.run c.state (words.map (bscGiven p c.view)) = outputs A a (simInputs p words)

theorem solo_acts {p : ℝ} {words : List (List Bool × List Nat)} {c : Contender ρ} {A : Coder σ} {a : σ} (h : ActsAs p words c A a) (r : List Nat) :
    solo c (words.map fun w => ((⟨channelLlr p (flipAt w.1 w.2), (flipAt w.1 w.2).map fun b => if b then 1 else 0, w.2⟩ : Reception), w.1)) =
      .ok r ↔ dists (outputs A a (simInputs p words)) (words.map Prod.fst) = .ok r := by
  rw [solo_dists, ← h, List.map_map, List.map_map]
  have : (fun x : Reception × List Bool => c.view.of x.1) ∘ (fun w : List Bool × List Nat =>
      ((⟨channelLlr p (flipAt w.1 w.2), (flipAt w.1 w.2).map fun b => if b then 1 else 0, w.2⟩ : Reception), w.1)) = bscGiven p c.view := by
    funext w
    cases c.view <;> simp [View.of, bscGiven]
  rw [this]
  rfl

theorem zip_fst {α β : Type} : ∀ (l : List α) (m : List β), l.length = m.length → (l.zip m).map Prod.fst = l ∧ (l.zip m).map Prod.snd = m
  | [], [], _ => ⟨rfl, rfl⟩
  | a :: l, b :: m, h => by
    obtain ⟨h1, h2⟩ := zip_fst l m (by simpa using h)
    simp [h1, h2]

/-- **C156.** If a comparison of any decoders over the binary channel reports rates, the simulation of any two of them, over the same words
and errors, reports the same rates for these two, the same number of words, buffer length and raw error rate. -/
theorem c156_pair (log : LogLines) (cs : List (Contender ρ)) (N k : Nat) (p : ℚ) (words : List (List Bool × List Nat))
    (hw : ∀ x ∈ words, x.2.Nodup ∧ ∀ e ∈ x.2, e < x.1.length) (r : Report) (lg : List ℚ) (h : bscStudy log cs N k p words = .ok (r, lg))
    (i j : Nat) (ca cb : Contender ρ) (hi : cs[i]? = some ca) (hj : cs[j]? = some cb) (A : Coder σ) (B : Coder τ) (a : σ) (b : τ)
    (hA : ActsAs p words ca A a) (hB : ActsAs p words cb B b) :
    ∃ s, simStep A B a b N p words = .ok s ∧ r.rates[i]? = some s.pure ∧ r.rates[j]? = some s.rect ∧
      s.number = r.number ∧ s.bufferLen = r.bufferLen ∧ s.rawBer = r.rawBer := by
  obtain ⟨w, ws, received, rows, rfl, h1, h2, _, rfl⟩ := (bscStudy_iff ..).1 h
  rw [bscReception_ok p _ hw, Except.ok.injEq] at h1
  subst h1
  obtain ⟨l1, _, l3⟩ := (loop_iff ..).1 h2
  have hlen : (column i rows).length = (column j rows).length := by rw [column_length, column_length]
  obtain ⟨z1, z2⟩ := zip_fst _ _ hlen
  have hs := (simLoop_dists A B p (w :: ws) a b ((column i rows).zip (column j rows)) hw).2
    ⟨by rw [z1]; exact (solo_acts hA _).1 (l3 i ca hi), by rw [z2]; exact (solo_acts hB _).1 (l3 j cb hj)⟩
  have hii : i < cs.length := (List.getElem?_eq_some_iff.1 hi).1
  have hjj : j < cs.length := (List.getElem?_eq_some_iff.1 hj).1
  cases hst : simStep A B a b N p (w :: ws) with
  | error e =>
    unfold simStep at hst
    simp only [hs, bind, Except.bind] at hst
    cases hst
  | ok s =>
    unfold simStep at hst
    simp only [hs, bind, Except.bind, Except.ok.injEq] at hst
    subst hst
    refine ⟨_, rfl, ?_, ?_, rfl, rfl, rfl⟩
    · simp [hii, z1]
    · simp [hjj, z2]

/-- **C156.** Conversely, if the simulation of two decoders reports rates, the comparison of these two reports the same, and logs the
recovery rate of the simulation if the first one misses a word. -/
theorem c156_converse (ca cb : Contender ρ) (N k : Nat) (p : ℚ) (words : List (List Bool × List Nat))
    (hw : ∀ x ∈ words, x.2.Nodup ∧ ∀ e ∈ x.2, e < x.1.length) (A : Coder σ) (B : Coder τ) (a : σ) (b : τ)
    (hA : ActsAs p words ca A a) (hB : ActsAs p words cb B b) (s : SimSummary) (h : simStep A B a b N p words = .ok s) :
    ∃ r, bscStudy combinedLog [ca, cb] N k p words = .ok (r, if s.pure.success = 1 then [] else [s.recover]) ∧
      r.rates = [s.pure, s.rect] ∧ r.number = s.number ∧ r.bufferLen = s.bufferLen ∧ r.rawBer = s.rawBer := by
  cases words with
  | nil => cases h
  | cons w ws =>
    unfold simStep at h
    cases hl : simLoop A B p a b (w :: ws) with
    | error e => simp only [hl, bind, Except.bind] at h; cases h
    | ok d =>
      simp only [hl, bind, Except.bind, Except.ok.injEq] at h
      obtain ⟨d1, d2⟩ := (simLoop_dists A B p (w :: ws) a b d hw).1 hl
      have e1 := (solo_acts hA _).2 d1
      have e2 := (solo_acts hB _).2 d2
      have hdl : d.length = (w :: ws).length := by
        have := solo_length _ _ _ e1
        simpa using this
      have c0 : column 0 (d.map fun x => [x.1, x.2]) = d.map Prod.fst := by simp [column, Function.comp_def]
      have c1 : column 1 (d.map fun x => [x.1, x.2]) = d.map Prod.snd := by simp [column, Function.comp_def]
      have hloop : loop [ca, cb] ((w :: ws).map fun w => ((⟨channelLlr p (flipAt w.1 w.2), (flipAt w.1 w.2).map fun b => if b then 1 else 0,
          w.2⟩ : Reception), w.1)) = .ok (d.map fun x => [x.1, x.2]) := by
        rw [loop_iff]
        refine ⟨by simpa using hdl, ?_, ?_⟩
        · intro row hrow
          obtain ⟨x, _, rfl⟩ := List.mem_map.1 hrow
          rfl
        · intro j c hc
          match j with
          | 0 => cases hc; rw [c0]; exact e1
          | 1 => cases hc; rw [c1]; exact e2
          | j + 2 => simp at hc
      have hle : (d.map Prod.fst).countP (· = 0) ≤ ws.length + 1 := by
        have := List.countP_le_length (p := fun x : Nat => decide (x = 0)) (l := d.map Prod.fst)
        rw [List.length_map, hdl, List.length_cons] at this
        exact this
      refine ⟨_, (bscStudy_iff ..).2 ⟨w, ws, _, _, rfl, bscReception_ok p _ hw, hloop, ?_, rfl⟩, ?_, ?_, ?_, ?_⟩
      · subst h
        have hn : ((ws.length + 1 : ℕ) : ℚ) ≠ 0 := by positivity
        simp only [combinedLog, List.length_cons, List.length_nil, List.range_succ, List.range_zero, List.nil_append,
          List.map_cons, List.map_nil, List.cons_append, List.getD_cons_zero, List.getD_cons_succ, c0, c1, Except.ok.injEq]
        have hone : (ratesOf (ws.length + 1) w.1.length (d.map Prod.fst)).success = 1 ↔ (d.map Prod.fst).countP (· = 0) = ws.length + 1 := by
          unfold ratesOf
          rw [div_eq_one_iff_eq hn]
          exact Nat.cast_inj
        by_cases hc : (d.map Prod.fst).countP (· = 0) = ws.length + 1
        · rw [if_neg (by push_cast; omega), if_pos (hone.2 hc)]
        · have hpos : (0 : Int) < ((ws.length + 1 : ℕ) : Int) - ((d.map Prod.fst).countP (· = 0) : ℕ) := by push_cast; omega
          rw [if_pos hpos, if_neg (fun e => hc (hone.1 e)), if_pos hpos]
      · subst h
        simp [List.range_succ, c0, c1]
      · subst h; rfl
      · subst h; rfl
      · subst h; rfl

/-- The decoders of the case of C102, compared by three and simulated by two: the first decodes both words, the third neither. -/
example : ∃ s r, simStep (exAnswers .ratios (exEst 0)).run (exAnswers .ratios (exEst 2)).run 0 0 4 (1 / 4) exWords = .ok s ∧
    bscStudy plainLog exContenders 4 3 (1 / 4) exWords = .ok (r, []) ∧ r.rates[0]? = some s.pure ∧ r.rates[2]? = some s.rect ∧
    s.pure = ⟨1, 0⟩ ∧ s.rect = ⟨0, 3 / 8⟩ := by
  obtain ⟨r, hr, hrates, _⟩ := c102_example
  obtain ⟨s, h1, h2, h3, _⟩ := c156_pair plainLog exContenders 4 3 (1 / 4) exWords (by decide) r [] hr 0 2 _ _ rfl rfl
    (exAnswers .ratios (exEst 0)).run (exAnswers .ratios (exEst 2)).run 0 0 rfl rfl
  refine ⟨s, r, h1, hr, h2, h3, ?_, ?_⟩
  · rw [hrates] at h2
    exact (Option.some.inj h2).symm
  · rw [hrates] at h3
    exact (Option.some.inj h3).symm

/-- And the other way round. -/
example : ∃ s r, simStep (exAnswers .ratios (exEst 1)).run (exAnswers .ratios (exEst 0)).run 0 0 4 (1 / 4) exWords = .ok s ∧
    bscStudy combinedLog [exAnswers .ratios (exEst 1), exAnswers .ratiosAndErrors (exEst 0)] 4 3 (1 / 4) exWords = .ok (r, [s.recover]) ∧
    r.rates = [⟨1 / 2, 1 / 8⟩, ⟨1, 0⟩] := by
  obtain ⟨r, hr, hrates, _⟩ := c102_example
  obtain ⟨s, h1, h2, h3, _⟩ := c156_pair plainLog exContenders 4 3 (1 / 4) exWords (by decide) r [] hr 1 0 _ _ rfl rfl
    (exAnswers .ratios (exEst 1)).run (exAnswers .ratios (exEst 0)).run 0 0 rfl rfl
  rw [hrates] at h2 h3
  have h2 := Option.some.inj h2
  have h3 := Option.some.inj h3
  obtain ⟨r', g1, g2, _⟩ := c156_converse (exAnswers .ratios (exEst 1)) (exAnswers .ratiosAndErrors (exEst 0)) 4 3 (1 / 4) exWords (by decide)
    (exAnswers .ratios (exEst 1)).run (exAnswers .ratios (exEst 0)).run 0 0 rfl rfl s h1
  rw [← h2, ← h3] at g2
  rw [← h2, if_neg (by norm_num)] at g1
  exact ⟨s, r', h1, g1, g2⟩

/-! ### The channel with Gaussian noise -/

/-- The loop over the channel with Gaussian noise: the distances of the one and of the other. -/
theorem awgnLoop_dists (A : Coder σ) (B : Coder τ) (s : ℝ) (hs : 0 < s) : ∀ (words : List (List Bool × List ℝ)) (a : σ) (b : τ)
    (h : List (Nat × Nat)), Awgn.loop A B s a b words = .ok h ↔
      dists (outputs A a (awgnInputs s words)) (words.map Prod.fst) = .ok (h.map Prod.fst) ∧
      dists (outputs B b (awgnInputs s words)) (words.map Prod.fst) = .ok (h.map Prod.snd)
  | [], a, b, h => by
    constructor
    · intro hl
      cases hl
      exact ⟨rfl, rfl⟩
    · rintro ⟨h1, _⟩
      have h1 : ([] : List Nat) = h.map Prod.fst := Except.ok.inj h1
      rw [List.map_eq_nil_iff.1 h1.symm]
      rfl
  | (tx, noise) :: words, a, b, h => by
    have ih := awgnLoop_dists A B s hs words
    have hr := llrs_eq s hs (tx, noise)
    unfold Awgn.loop
    simp only [awgnInputs, List.map_cons, outputs] at ih hr ⊢
    rw [dists_cons, dists_cons]
    simp only [hr, bind, Except.bind]
    generalize (receiveWord s (tx, noise)).map (fun y => Real.log (density s false y / density s true y)) = inp
    constructor
    · intro hl
      cases hA : (A a inp none).2 with
      | error e => rw [hA] at hl; cases hl
      | ok ea =>
        rw [hA] at hl
        simp only at hl
        cases hda : hammingDistance (.bits ea.1) (.bits tx) with
        | error e => rw [hda] at hl; cases hl
        | ok da =>
          rw [hda] at hl
          simp only at hl
          cases hB : (B b inp none).2 with
          | error e => rw [hB] at hl; cases hl
          | ok eb =>
            rw [hB] at hl
            simp only at hl
            cases hdb : hammingDistance (.bits eb.1) (.bits tx) with
            | error e => rw [hdb] at hl; cases hl
            | ok db =>
              rw [hdb] at hl
              simp only at hl
              cases ht : Awgn.loop A B s (A a inp none).1 (B b inp none).1 words with
              | error e => rw [ht] at hl; cases hl
              | ok t =>
                rw [ht] at hl
                cases hl
                obtain ⟨i1, i2⟩ := (ih _ _ t).1 ht
                exact ⟨⟨ea, da, _, rfl, hda, i1, rfl⟩, ⟨eb, db, _, rfl, hdb, i2, rfl⟩⟩
    · rintro ⟨⟨ea, da, ra, a1, a2, a3, a4⟩, ⟨eb, db, rb, b1, b2, b3, b4⟩⟩
      cases h with
      | nil => simp at a4
      | cons x t =>
        simp only [List.map_cons, List.cons.injEq] at a4 b4
        have ht := (ih _ _ t).2 ⟨by rw [a3, a4.2], by rw [b3, b4.2]⟩
        rw [a1]
        simp only [a2]
        rw [b1]
        simp only [b2]
        rw [ht]
        simp only [Except.ok.injEq, List.cons.injEq, and_true]
        rw [← a4.1, ← b4.1]

/-- A decoder of the comparison that returns for the words of the channel with Gaussian noise what the decoder `A` of the simulation
returns. -/
def ActsAsAwgn (s : ℝ) (words : List (List Bool × List ℝ)) (c : Contender ρ) (A : Coder σ) (a : σ) : Prop :=
  outputs c.run c.state (words.map (awgnGiven s c.view)) = outputs A a (awgnInputs s words)

theorem solo_acts_awgn {s : ℝ} (hs : 0 < s) {words : List (List Bool × List ℝ)} {c : Contender ρ} {A : Coder σ} {a : σ}
    (h : ActsAsAwgn s words c A a) (r : List Nat) :
    solo c (words.map (awgnReception s)) = .ok r ↔ dists (outputs A a (awgnInputs s words)) (words.map Prod.fst) = .ok r := by
  rw [solo_dists, ← h, List.map_map, List.map_map]
  have : (fun x : Reception × List Bool => c.view.of x.1) ∘ awgnReception s = awgnGiven s c.view := by
    funext w
    have hl := llrs_eq s hs w
    have hn := noisy_eq s w
    simp only [Function.comp_apply, awgnReception]
    cases c.view
    · simp only [View.of, awgnGiven, hl]
    · simp only [View.of, awgnGiven, hl]
    · simp only [View.of, awgnGiven, hn]
  rw [this]
  rfl

/-- **C156**, over the channel with Gaussian noise: if a comparison of any decoders reports rates, the simulation of any two of them,
over the same words and noise, reports the same rates for these two, the same number of words, buffer length and raw error rate. -/
theorem c156_awgn (cs : List (Contender ρ)) (N k : Nat) (scale : Awgn.Scale) (delta snr lin : ℝ) (hsc : Awgn.snrLinear scale snr = .ok lin)
    (hlin : 0 < lin) (words : List (List Bool × List ℝ)) (r : Report) (h : awgnStudy cs N k lin words = .ok r)
    (i j : Nat) (ca cb : Contender ρ) (hi : cs[i]? = some ca) (hj : cs[j]? = some cb) (A : Coder σ) (B : Coder τ) (a : σ) (b : ℝ → τ)
    (hA : ActsAsAwgn (Awgn.sigma lin) words ca A a) (hB : ActsAsAwgn (Awgn.sigma lin) words cb B (b (Awgn.bitFlip delta lin))) :
    ∃ s, Awgn.step A B a b N k scale delta snr words = .ok s ∧ r.rates[i]? = some s.ldpc ∧ r.rates[j]? = some s.entropy ∧
      s.number = r.number ∧ s.bufferLen = r.bufferLen ∧ s.rawBer = r.rawBer := by
  have hs := sigma_pos lin hlin
  obtain ⟨w, ws, rows, rfl, h2, rfl⟩ := (awgnStudy_iff ..).1 h
  obtain ⟨l1, _, l3⟩ := (loop_iff ..).1 h2
  have hlen : (column i rows).length = (column j rows).length := by rw [column_length, column_length]
  obtain ⟨z1, z2⟩ := zip_fst _ _ hlen
  have hl := (awgnLoop_dists A B _ hs (w :: ws) a (b (Awgn.bitFlip delta lin)) ((column i rows).zip (column j rows))).2
    ⟨by rw [z1]; exact (solo_acts_awgn hs hA _).1 (l3 i ca hi), by rw [z2]; exact (solo_acts_awgn hs hB _).1 (l3 j cb hj)⟩
  have hii : i < cs.length := (List.getElem?_eq_some_iff.1 hi).1
  have hjj : j < cs.length := (List.getElem?_eq_some_iff.1 hj).1
  cases hst : Awgn.step A B a b N k scale delta snr (w :: ws) with
  | error e =>
    unfold Awgn.step at hst
    simp only [hsc, hl, bind, Except.bind] at hst
    cases hst
  | ok s =>
    unfold Awgn.step at hst
    simp only [hsc, hl, bind, Except.bind, Except.ok.injEq] at hst
    subst hst
    refine ⟨_, rfl, ?_, ?_, rfl, rfl, rfl⟩
    · simp [hii, z1]
    · simp [hjj, z2]

/-- The decoders of the case of C102 over the channel with Gaussian noise, with any noise: the second, which is given the samples, and the
first, which is given their ratios. -/
example (z : ℝ) : ∃ s, Awgn.step (exAnswers .ratios (exEst 1)).run (exAnswers .ratios (exEst 0)).run 0 (fun _ => 0) 4 3 .linear 1 2
      [([true, false, true, true], [0, z, 0, -z]), ([false, false, true, false], [z, 0, 1, 2])] = .ok s ∧
    s.ldpc = ⟨1 / 2, 1 / 8⟩ ∧ s.entropy = ⟨1, 0⟩ := by
  obtain ⟨r, hr, hrates, _⟩ := c102_awgn_example z
  obtain ⟨s, h1, h2, h3, _⟩ := c156_awgn _ 4 3 .linear 1 2 2 rfl (by norm_num) _ r hr 1 0 _ _ rfl rfl
    (exAnswers .ratios (exEst 1)).run (exAnswers .ratios (exEst 0)).run 0 (fun _ => 0) rfl rfl
  rw [hrates] at h2 h3
  exact ⟨s, h1, (Option.some.inj h2).symm, (Option.some.inj h3).symm⟩

end NR.C156
