import Verif.Props.C65
/-
C71: what the two models of the weighted decoder learn, and how they change the received word.
-/
namespace NR
open Spec

variable {Λ : Type}

theorem goodWords_cons (idx : List Nat) (e : WbdEvent) (r : List WbdEvent) :
    goodWords idx (e :: r) = goodWords idx [e] ++ goodWords idx r := by
  rw [goodWords, goodWords, goodWords, ← List.filterMap_append, List.singleton_append]

theorem allWords_cons (idx : List Nat) (e : WbdEvent) (r : List WbdEvent) :
    allWords idx (e :: r) = allWords idx [e] ++ allWords idx r := by
  rw [allWords, allWords, allWords, ← List.filterMap_append, List.singleton_append]

theorem learnAll_append (c : WbdCfg) (h : Half) (x y : List (List Bool)) :
    learnAll c h (x ++ y) = learnAll c (learnAll c h x) y := by simp [learnAll, List.foldl_append]

theorem output_estimate {c : WbdCfg} {s : Wbd Λ} {o : LdpcOut} {k : Nat} {out : WbdOut} (h : s.output c o k = .ok out) :
    out.estimate = o.estimate := by
  unfold Wbd.output at h
  cases h1 : maskIdx c.idx (structuralMask c.threshold s.a.ents) with
  | error e => simp [h1, bind, Except.bind] at h
  | ok x =>
    cases h2 : maskIdx c.idx (structuralMask c.threshold s.b.ents) with
    | error e => simp [h1, h2, bind, Except.bind] at h
    | ok y =>
      simp only [h1, h2, bind, Except.bind] at h
      cases h; rfl

/-- A call that returns has learned: the good model the recovered word, if any, the other one its word. -/
theorem wbd_returned_learns {c : WbdCfg} (ldpc : Ldpc Λ) (s : Wbd Λ) (word : List ℝ) {out : WbdOut}
    (hr : (s.decode c ldpc word).result = .ok out) :
    (s.decode c ldpc word).state.a = learnAll c s.a
      (goodWords c.idx [⟨word, (s.decode c ldpc word).handed.length, (s.decode c ldpc word).result⟩]) ∧
    (s.decode c ldpc word).state.b = learnAll c s.b
      (allWords c.idx [⟨word, (s.decode c ldpc word).handed.length, (s.decode c ldpc word).result⟩]) ∧
    (goodWords c.idx [⟨word, (s.decode c ldpc word).handed.length, (s.decode c ldpc word).result⟩] ≠ [] →
      ∀ b ∈ goodWords c.idx [⟨word, (s.decode c ldpc word).handed.length, (s.decode c ldpc word).result⟩],
        b.length = c.idx.length ∧ (s.a.update c b).2 = .ok ()) ∧
    (∀ b ∈ allWords c.idx [⟨word, (s.decode c ldpc word).handed.length, (s.decode c ldpc word).result⟩],
        b.length = c.idx.length ∧ (s.b.update c b).2 = .ok ()) := by
  have fin : ∀ (l : Λ) (handed : List LdpcIn) (o : LdpcOut) (first : Bool), (first = true ↔ handed.length = 1) →
      ∀ st, ({ s with ldpc := l } : Wbd Λ).finish c handed o first word = st → st.result = .ok out →
      st.state.a = learnAll c s.a (goodWords c.idx [⟨word, st.handed.length, st.result⟩]) ∧
      st.state.b = learnAll c s.b (allWords c.idx [⟨word, st.handed.length, st.result⟩]) ∧
      (goodWords c.idx [⟨word, st.handed.length, st.result⟩] ≠ [] →
        ∀ b ∈ goodWords c.idx [⟨word, st.handed.length, st.result⟩], b.length = c.idx.length ∧ (s.a.update c b).2 = .ok ()) ∧
      (∀ b ∈ allWords c.idx [⟨word, st.handed.length, st.result⟩], b.length = c.idx.length ∧ (s.b.update c b).2 = .ok ()) := by
    intro l handed o first hfirst st hst hres
    rcases wbd_finish (c := c) ({ s with ldpc := l } : Wbd Λ) handed o first word with
      ⟨e, he⟩ | ⟨rec, other, k, hl1, hl2, hrec, hoth, hfin⟩
    · rw [hst] at he; rw [he] at hres; cases hres
    · rw [hst] at hfin
      cases rec with
      | true =>
        have hR := hrec.1 rfl
        rw [if_pos (Or.inr hR)] at hoth
        simp only [Wbd.learn, Wbd.updateA, Wbd.updateB, if_true] at hfin
        rcases hu1 : s.a.update c (bitsAt c.idx o.estimate) with ⟨a', r1⟩
        rcases hu2 : s.b.update c (bitsAt c.idx o.estimate) with ⟨b', r2⟩
        rw [hu1] at hfin
        cases r1 with
        | error e => simp only at hfin; rw [hfin] at hres; cases hres
        | ok u =>
          simp only [hu2] at hfin
          cases r2 with
          | error e => simp only at hfin; rw [hfin] at hres; cases hres
          | ok u2 =>
            simp only at hfin
            subst hfin
            have hest := output_estimate hres
            have e1 := goodWords_one c.idx ⟨word, handed.length, Wbd.output c (⟨a', b', l⟩ : Wbd Λ) o k⟩ out hres
            rw [hest, recoveredWord, if_pos hR] at e1
            have e2 := (allWords_one c.idx ⟨word, handed.length, Wbd.output c (⟨a', b', l⟩ : Wbd Λ) o k⟩ out hres).1
              (Or.inr (hest ▸ hR))
            rw [hest] at e2
            simp only at e1 e2 ⊢
            rw [e1, e2]
            simp [learnAll, hu1, hu2, hl1]
      | false =>
        have hR : ¬ Recovered (bytesOf (bitsAt c.idx o.estimate)) := fun h => by simpa using hrec.2 h
        simp only [Wbd.learn, Wbd.updateB, Bool.false_eq_true, if_false] at hfin
        rcases hu2 : s.b.update c other with ⟨b', r2⟩
        rw [hu2] at hfin
        cases r2 with
        | error e => simp only at hfin; rw [hfin] at hres; cases hres
        | ok u2 =>
          simp only at hfin
          subst hfin
          have hest := output_estimate hres
          have e1 := goodWords_one c.idx ⟨word, handed.length, Wbd.output c (⟨s.a, b', l⟩ : Wbd Λ) o k⟩ out hres
          rw [hest, recoveredWord, if_neg hR] at e1
          have e2 : allWords c.idx [⟨word, handed.length, Wbd.output c (⟨s.a, b', l⟩ : Wbd Λ) o k⟩] = [other] := by
            have := allWords_one c.idx ⟨word, handed.length, Wbd.output c (⟨s.a, b', l⟩ : Wbd Λ) o k⟩ out hres
            by_cases hf : first = true
            · rw [this.1 (Or.inl (hfirst.1 hf)), hest, hoth, if_pos (Or.inl hf)]
            · rw [this.2 (by rw [hest]; exact not_or.2 ⟨fun h => hf (hfirst.2 h), hR⟩), hoth,
                if_neg (not_or.2 ⟨hf, hR⟩)]
          simp only at e1 e2 ⊢
          rw [e1, e2]
          simp [learnAll, hu2, hl2]
  revert hr
  unfold Wbd.decode
  rcases ldpc s.ldpc (.llr word) with ⟨l', o⟩
  simp only
  split
  · intro hr
    exact fin l' _ o true (by simp) _ rfl hr
  · split
    · intro hr; cases hr
    · rename_i w' _
      rcases ldpc l' (.llr w') with ⟨l'', o2⟩
      intro hr
      exact fin l'' _ o2 false (by simp) _ rfl hr

theorem wbd_run_learns {c : WbdCfg} (ldpc : Ldpc Λ) (words : List (List ℝ)) : ∀ (s : Wbd Λ),
    (∀ st ∈ (Wbd.run c ldpc s words).2, ∃ out, st.result = .ok out) →
    (Wbd.run c ldpc s words).1.a = learnAll c s.a (goodWords c.idx (wbdEvents words (Wbd.run c ldpc s words).2)) ∧
    (Wbd.run c ldpc s words).1.b = learnAll c s.b (allWords c.idx (wbdEvents words (Wbd.run c ldpc s words).2)) := by
  induction words with
  | nil => intro s _; exact ⟨rfl, rfl⟩
  | cons w rest ih =>
    intro s hall
    simp only [Wbd.run, List.mem_cons, forall_eq_or_imp] at hall
    obtain ⟨⟨out, ho⟩, hrest⟩ := hall
    obtain ⟨h1, h2, _⟩ := wbd_returned_learns ldpc s w ho
    obtain ⟨i1, i2⟩ := ih _ hrest
    have e3 : wbdEvents (w :: rest) ((s.decode c ldpc w) :: (Wbd.run c ldpc (s.decode c ldpc w).state rest).2) =
      ⟨w, (s.decode c ldpc w).handed.length, (s.decode c ldpc w).result⟩ ::
        wbdEvents rest (Wbd.run c ldpc (s.decode c ldpc w).state rest).2 := rfl
    simp only [Wbd.run]
    rw [e3, goodWords_cons, allWords_cons, learnAll_append, learnAll_append, ← h1, ← h2]
    exact ⟨i1, i2⟩

/-- C71. What the two models are after any history: the good model is the one that learns, in order, the recovered words, the
other one the one that learns a word per call that returned - for the Bayes estimator, whatever calls raised; for the other
one, if all calls returned. -/
theorem c71_models {c : WbdCfg} (ldpc : Ldpc Λ) {l : Λ} {s0 s : Wbd Λ} (h0 : Wbd.new c l = .ok s0)
    {words : List (List ℝ)} {steps : List (WbdStep Λ)} (hr : Wbd.run c ldpc s0 words = (s, steps))
    (hc : (c.bayes = true ∧ 0 < c.modelLength ∧ c.idx.length = c.modelLength) ∨
      ∀ st ∈ steps, ∃ out, st.result = .ok out) :
    s.a = learnAll c s0.a (goodWords c.idx (wbdEvents words steps)) ∧
    s.b = learnAll c s0.b (allWords c.idx (wbdEvents words steps)) := by
  rcases hc with ⟨hb, hm, hx⟩ | hall
  · obtain ⟨ha, hbb⟩ := bayes_run hb hm hx ldpc h0 hr
    obtain ⟨rfl, _⟩ := wbd_new h0
    exact ⟨ha.hist, hbb.hist⟩
  · have := wbd_run_learns (c := c) ldpc words s0 (by rw [hr]; exact hall)
    rwa [hr] at this

/-- The probability of a one that the MLE estimator derives from samples. -/
noncomputable def mleProb (c : WbdCfg) (samples : List (List Bool)) (j : Nat) : ℝ :=
  if c.correctedDist then corrected c.bitFlip (oneShare samples j) else oneShare samples j

theorem share_range (samples : List (List Bool)) (j : Nat) : 0 ≤ oneShare samples j ∧ oneShare samples j ≤ 1 := by
  unfold oneShare
  refine ⟨by positivity, div_le_one_of_le₀ ?_ (by positivity)⟩
  exact_mod_cast List.countP_le_length

theorem mleProb_range (c : WbdCfg) (samples : List (List Bool)) (j : Nat) :
    0 ≤ mleProb c samples j ∧ mleProb c samples j ≤ 1 := by
  unfold mleProb
  split
  · exact corrected_range _ _
  · exact share_range _ _

/-- One update with the MLE estimator. -/
theorem mle_update {c : WbdCfg} (hb : c.bayes = false) (hm : 0 < c.modelLength) (hw : c.window ≠ some 0) (h : Half)
    {bits : List Bool} (hl : bits.length = c.modelLength) :
    (h.update c bits).1.data = growData c.window h.data bits ∧
    (BothLetters c.modelLength (growData c.window h.data bits) → (h.update c bits).2 = .ok () ∧
      (h.update c bits).1.dist = (List.range c.modelLength).map (fun (j : Nat) =>
        [1 - mleProb c (growData c.window h.data bits) j, mleProb c (growData c.window h.data bits) j]) ∧
      (h.update c bits).1.ents = rowEntropies (h.update c bits).1.dist) ∧
    (¬ BothLetters c.modelLength (growData c.window h.data bits) → (h.update c bits).2 = .error .indexError ∧
      (h.update c bits).1.dist = List.replicate c.modelLength [1] ∧ (h.update c bits).1.ents = h.ents) := by
  have hne := growData_ne hw h.data bits
  generalize hd : growData c.window h.data bits = data at *
  obtain ⟨dist, h1, h2, h3, h4⟩ := probOf_spec hm hne
  obtain ⟨dist', h1', hD⟩ := probOf_distOf hm hne
  rw [h1] at h1'
  cases h1'
  unfold Half.update
  rw [if_neg (by simp [hl]), hb]
  simp only [Bool.false_eq_true, if_false, hd, h1]
  by_cases hbl : BothLetters c.modelLength data
  · have hdist := hD.2.1 hne hbl
    set p1 : List ℝ := ((List.range c.modelLength).map fun j =>
      ((data.countP fun b => b.getD j false : ℕ) : ℚ) / data.length).map
        fun (q : ℚ) => if c.correctedDist then corrected c.bitFlip q else (q : ℝ) with hp1
    have hp1' : p1 = (List.range c.modelLength).map fun (j : Nat) => mleProb c data j := by
      rw [hp1, List.map_map]
      refine List.map_congr_left fun j _ => ?_
      simp only [Function.comp, mleProb, oneShare]
      push_cast
      rfl
    have hpn : p1 ≠ [] := by
      rw [hp1']
      intro h
      have := congrArg List.length h
      simp at this
      omega
    have hrange : ¬ ∃ p ∈ p1, p > 1 ∨ p < 0 := by
      rintro ⟨p, hp, h⟩
      rw [hp1'] at hp
      obtain ⟨j, _, rfl⟩ := List.mem_map.1 hp
      rcases h with h | h
      · exact absurd (mleProb_range c data j).2 (not_le.2 h)
      · exact absurd (mleProb_range c data j).1 (not_le.2 h)
    simp only [(h3 hbl).1, ← hp1]
    unfold Half.check
    rw [if_neg hpn, if_neg hrange]
    refine ⟨by split <;> rfl, fun _ => ⟨rfl, ?_, rfl⟩, fun h => absurd hbl h⟩
    cases hcd : c.correctedDist with
    | true =>
      simp only [if_true]
      rw [hp1', List.map_map]
      rfl
    | false =>
      simp only [Bool.false_eq_true, if_false]
      rw [hdist]
      refine List.map_congr_left fun j _ => ?_
      simp [mleProb, hcd]
  · simp only [(h4 hbl).1]
    exact ⟨by trivial, fun h => absurd h hbl, fun _ => ⟨by trivial, hD.2.2 hne hbl, by trivial⟩⟩

/-- The state of an MLE model after updates with the words `ws`, the last of which succeeded. -/
structure MleInv (c : WbdCfg) (h : Half) (ws : List (List Bool)) : Prop where
  lens : ∀ x ∈ ws, x.length = c.modelLength
  data : h.data = keep c.window ws
  dist : h.dist = if ws = [] then [] else (List.range c.modelLength).map fun (j : Nat) =>
    [1 - mleProb c (keep c.window ws) j, mleProb c (keep c.window ws) j]
  ents : h.ents = rowEntropies h.dist

theorem mle_update_inv {c : WbdCfg} (hb : c.bayes = false) (hm : 0 < c.modelLength) (hw : c.window ≠ some 0) {h : Half}
    {ws : List (List Bool)} (hi : MleInv c h ws) {bits : List Bool} (hl : bits.length = c.modelLength)
    (hok : (h.update c bits).2 = .ok ()) : MleInv c (h.update c bits).1 (ws ++ [bits]) := by
  obtain ⟨h1, h2, h3⟩ := mle_update hb hm hw h hl
  have hg : growData c.window h.data bits = keep c.window (ws ++ [bits]) := by
    rw [hi.data, growData_keep hm _ _ _ hi.lens]
  rw [hg] at h1 h2 h3
  have hbl : BothLetters c.modelLength (keep c.window (ws ++ [bits])) := by
    by_contra hn
    have := (h3 hn).1
    rw [hok] at this
    cases this
  obtain ⟨_, hd, he⟩ := h2 hbl
  refine ⟨?_, h1, ?_, he⟩
  · intro x hx
    rcases List.mem_append.1 hx with hx | hx
    · exact hi.lens x hx
    · rw [List.mem_singleton.1 hx]; exact hl
  · rw [hd, if_neg (by simp)]

theorem mle_run {c : WbdCfg} (hb : c.bayes = false) (hm : 0 < c.modelLength) (hx : c.idx.length = c.modelLength)
    (hw : c.window ≠ some 0) (ldpc : Ldpc Λ) (words : List (List ℝ)) : ∀ (s : Wbd Λ) (wa wb : List (List Bool)),
    MleInv c s.a wa → MleInv c s.b wb → (∀ st ∈ (Wbd.run c ldpc s words).2, ∃ out, st.result = .ok out) →
    MleInv c (Wbd.run c ldpc s words).1.a (wa ++ goodWords c.idx (wbdEvents words (Wbd.run c ldpc s words).2)) ∧
    MleInv c (Wbd.run c ldpc s words).1.b (wb ++ allWords c.idx (wbdEvents words (Wbd.run c ldpc s words).2)) := by
  induction words with
  | nil => intro s wa wb ha hbb _; simpa [Wbd.run, wbdEvents, goodWords, allWords] using ⟨ha, hbb⟩
  | cons w rest ih =>
    intro s wa wb ha hbb hall
    simp only [Wbd.run, List.mem_cons, forall_eq_or_imp] at hall
    obtain ⟨⟨out, ho⟩, hrest⟩ := hall
    obtain ⟨h1, h2, h3, h4⟩ := wbd_returned_learns ldpc s w ho
    have e3 : wbdEvents (w :: rest) ((s.decode c ldpc w) :: (Wbd.run c ldpc (s.decode c ldpc w).state rest).2) =
      ⟨w, (s.decode c ldpc w).handed.length, (s.decode c ldpc w).result⟩ ::
        wbdEvents rest (Wbd.run c ldpc (s.decode c ldpc w).state rest).2 := rfl
    have step : ∀ (h h' : Half) (ws new : List (List Bool)), MleInv c h ws → new.length ≤ 1 → h' = learnAll c h new →
        (∀ b ∈ new, b.length = c.idx.length ∧ (h.update c b).2 = .ok ()) → MleInv c h' (ws ++ new) := by
      intro h h' ws new hi hlen he hu
      match new, hlen, he, hu with
      | [], _, he, _ => rw [he]; simpa [learnAll] using hi
      | [b], _, he, hu =>
        obtain ⟨u1, u2⟩ := hu b (List.mem_singleton.2 rfl)
        rw [he]
        exact mle_update_inv hb hm hw hi (u1.trans hx) u2
      | _ :: _ :: _, hlen, _, _ => simp at hlen
    have g1 : ∀ e : WbdEvent, (goodWords c.idx [e]).length ≤ 1 := fun e => by
      rw [goodWords]; exact (List.length_filterMap_le _ _).trans (by simp)
    have g2 : ∀ e : WbdEvent, (allWords c.idx [e]).length ≤ 1 := fun e => by
      rw [allWords]; exact (List.length_filterMap_le _ _).trans (by simp)
    have hA := step _ _ _ _ ha (g1 _) h1 (fun b hbm => h3 (List.ne_nil_of_mem hbm) b hbm)
    have hB := step _ _ _ _ hbb (g2 _) h2 h4
    have := ih _ _ _ hA hB hrest
    simp only [Wbd.run]
    rw [e3, goodWords_cons, allWords_cons, ← List.append_assoc, ← List.append_assoc]
    exact this

/-- C71. With the MLE estimator, after any sequence of calls that all returned: each model is empty until its first word, and
then the (channel-corrected, if asked for) distribution of the last `window_length` of its words (all, without a window). The
words of the good model are the recovered ones, the other model gets a word from every call. -/
theorem c71_windows {c : WbdCfg} (hb : c.bayes = false) (hm : 0 < c.modelLength) (hx : c.idx.length = c.modelLength)
    (hw : c.window ≠ some 0) (ldpc : Ldpc Λ) {l : Λ} {s0 s : Wbd Λ} (h0 : Wbd.new c l = .ok s0) {words : List (List ℝ)}
    {steps : List (WbdStep Λ)} (hr : Wbd.run c ldpc s0 words = (s, steps))
    (hall : ∀ st ∈ steps, ∃ out, st.result = .ok out) (h : Half) (ws : List (List Bool))
    (hh : (h = s.a ∧ ws = goodWords c.idx (wbdEvents words steps)) ∨ (h = s.b ∧ ws = allWords c.idx (wbdEvents words steps))) :
    h.data = keep c.window ws ∧
    (h.dist = if ws = [] then [] else (List.range c.modelLength).map fun (j : Nat) =>
      [1 - mleProb c (keep c.window ws) j, mleProb c (keep c.window ws) j]) ∧
    (h.ents = h.dist.map fun r => scipyEntropy r 2) := by
  obtain ⟨rfl, _⟩ := wbd_new h0
  have hn : MleInv c (Half.new c) [] := by
    have hk : keep c.window ([] : List (List Bool)) = [] := by cases c.window <;> simp [keep, lastN]
    unfold Half.new
    rw [if_neg (by simp [hb])]
    exact ⟨by simp, hk.symm, rfl, rfl⟩
  have := mle_run hb hm hx hw ldpc words _ [] [] hn hn (by rw [hr]; exact hall)
  rw [hr] at this
  have hi : MleInv c h ws := by
    rcases hh with ⟨rfl, rfl⟩ | ⟨rfl, rfl⟩
    · simpa using this.1
    · simpa using this.2
  exact ⟨hi.data, hi.dist, hi.ents⟩

/-- C71. With the MLE estimator an update raises an IndexError exactly if all bits of all words in the window are then the
same; the word stays in the window. -/
theorem c71_one_letter {c : WbdCfg} (hb : c.bayes = false) (hm : 0 < c.modelLength) (hw : c.window ≠ some 0) (h : Half)
    (ws : List (List Bool)) (hws : ∀ x ∈ ws, x.length = c.modelLength) (hd : h.data = keep c.window ws)
    (bits : List Bool) (hl : bits.length = c.modelLength) :
    ((h.update c bits).2 = .error .indexError ↔ ¬ BothLetters c.modelLength (keep c.window (ws ++ [bits]))) ∧
    (h.update c bits).1.data = keep c.window (ws ++ [bits]) := by
  obtain ⟨h1, h2, h3⟩ := mle_update hb hm hw h hl
  have hg : growData c.window h.data bits = keep c.window (ws ++ [bits]) := by
    rw [hd, growData_keep hm _ _ _ hws]
  rw [hg] at h1 h2 h3
  refine ⟨⟨fun he hbl => ?_, fun hbl => (h3 hbl).1⟩, h1⟩
  rw [(h2 hbl).1] at he
  cases he

open Classical in
/-- The rows of a model fit the model bits. -/
structure Fits (c : WbdCfg) (h : Half) : Prop where
  ents : h.ents.length = c.idx.length
  dist : h.dist.length = c.idx.length
  rows : ∀ r ∈ h.dist, 1 < r.length

open Classical in
/-- What a model adds at model bit `k`: nothing unless the entropy of the bit is below the threshold, and otherwise the
confidence times the log ratio of its probabilities. -/
noncomputable def boost (c : WbdCfg) (h : Half) (conf : ℝ) (k : Nat) : ℝ :=
  if LowAt c.threshold h.ents k then
    conf * Real.log ((floatEps + (h.dist.getD k []).getD 0 0) / ((h.dist.getD k []).getD 1 0 + floatEps)) else 0

theorem addModel_spec {c : WbdCfg} (hnd : c.idx.Nodup) (obs : List ℝ) (hlt : ∀ i ∈ c.idx, i < obs.length) (h : Half)
    (conf : ℝ) (h0 : 0 ≤ conf) (hf : 0 < conf → Fits c h) {st : List Nat}
    (hst : maskIdx c.idx (structuralMask c.threshold h.ents) = .ok st) :
    ∃ w, addModel obs h (structuralMask c.threshold h.ents) st conf = .ok w ∧ w.length = obs.length ∧
      (∀ i, i ∉ c.idx → w.getD i 0 = obs.getD i 0) ∧
      ∀ k (hk : k < c.idx.length), w.getD c.idx[k] 0 = obs.getD c.idx[k] 0 + boost c h conf k := by
  unfold addModel
  by_cases hpos : 0 < conf
  swap
  · have hz : conf = 0 := le_antisymm (not_lt.1 hpos) h0
    rw [if_neg hpos]
    refine ⟨obs, rfl, rfl, fun _ _ => rfl, fun k hk => ?_⟩
    rw [boost, hz]
    simp
  rw [if_pos hpos]
  obtain ⟨he, hd, hrow⟩ := hf hpos
  have hml : (structuralMask c.threshold h.ents).length = c.idx.length := by simp [structuralMask, he]
  have hpairs : rowPairs h.dist = .ok (h.dist.map fun (r : List ℝ) => (r.getD 0 0, r.getD 1 0)) := by
    unfold rowPairs
    rw [if_pos]
    rw [List.all_eq_true]
    intro r h
    simpa using hrow r h
  rw [maskIdx_spec _ _ hml] at hst
  cases hst
  have hall : (((c.idx.zip (structuralMask c.threshold h.ents)).filterMap fun x => if x.2 then some x.1 else none).all
      (· < obs.length)) = true := by
    rw [List.all_eq_true]
    intro j hj
    obtain ⟨x, hx, hxj⟩ := List.mem_filterMap.1 hj
    split at hxj
    · cases hxj
      simpa using hlt _ (List.of_mem_zip hx).1
    · cases hxj
  simp only [bind, Except.bind, hpairs]
  rw [maskIdx_spec _ _ (by simp [hml, hd])]
  simp only [hall, if_true]
  rw [addAt_mask _ _ _ _ (by simp [hd]) hml]
  obtain ⟨a1, a2, a3⟩ := addAt_gen c.idx (List.zipWith (fun (x : ℝ) (m : Bool) => if m then x else 0)
    ((h.dist.map fun (r : List ℝ) => (r.getD 0 0, r.getD 1 0)).map fun (p : ℝ × ℝ) => conf * modelRatio p)
      (structuralMask c.threshold h.ents)) obs hnd hlt (by simp [hml, hd])
  refine ⟨_, rfl, a1, a2, fun k hk => ?_⟩
  rw [a3 k hk]
  congr 1
  have hmk := mask_low c.threshold h.ents k
  have hk1 : k < h.dist.length := by omega
  have hk2 : k < (structuralMask c.threshold h.ents).length := by omega
  rw [List.getD_eq_getElem?_getD, List.getElem?_eq_getElem hk2, Option.getD_some] at hmk
  rw [List.getD_eq_getElem?_getD, List.getElem?_eq_getElem (by simp; omega), Option.getD_some, List.getElem_zipWith, hmk, boost]
  simp only [List.getElem_map, decide_eq_true_eq, modelRatio]
  rw [List.getD_eq_getElem?_getD (l := h.dist), List.getElem?_eq_getElem hk1, Option.getD_some]
  by_cases hlow : LowAt c.threshold h.ents k <;> simp [hlow]

/-- The structural bits are those of low entropy; `.any()` misses the first codeword bit. -/
theorem structural_any {c : WbdCfg} {ents : List ℝ} (he : ents = [] ∨ ents.length = c.idx.length) {st : List Nat}
    (hst : maskIdx c.idx (structuralMask c.threshold ents) = .ok st) :
    st.all (· == 0) = false ↔ ∃ k, LowAt c.threshold ents k ∧ c.idx.getD k 0 ≠ 0 := by
  have hmem : ∀ i, i ∈ st ↔ ∃ k, LowAt c.threshold ents k ∧ c.idx[k]? = some i := by
    rcases he with he | he
    · subst he
      have : st = [] := by
        unfold maskIdx at hst
        simp [structuralMask] at hst
        exact hst
      subst this
      simp [LowAt]
    · rw [maskIdx_spec _ _ (by simp [structuralMask, he])] at hst
      cases hst
      intro i
      rw [List.mem_filterMap]
      constructor
      · rintro ⟨⟨a, b⟩, hx, hxi⟩
        obtain ⟨k, hk, hke⟩ := List.getElem_of_mem hx
        simp only [List.length_zip, lt_inf_iff] at hk
        rw [List.getElem_zip] at hke
        have hb := mask_low c.threshold ents k
        rw [List.getD_eq_getElem?_getD, List.getElem?_eq_getElem hk.2, Option.getD_some] at hb
        simp only [Prod.mk.injEq] at hke
        rw [hke.2] at hb
        split at hxi
        · rename_i hbt
          cases hxi
          simp only at hbt
          rw [hbt] at hb
          exact ⟨k, by simpa using hb.symm, by rw [List.getElem?_eq_getElem hk.1, hke.1]⟩
        · cases hxi
      · rintro ⟨k, hlow, hi⟩
        obtain ⟨hk, hki⟩ := List.getElem?_eq_some_iff.1 hi
        have hk2 : k < (structuralMask c.threshold ents).length := by simp [structuralMask]; omega
        have hb := mask_low c.threshold ents k
        rw [List.getD_eq_getElem?_getD, List.getElem?_eq_getElem hk2, Option.getD_some] at hb
        refine ⟨(c.idx[k], (structuralMask c.threshold ents)[k]), ?_, ?_⟩
        · rw [← List.getElem_zip (h := by simp; omega)]
          exact List.getElem_mem _
        · simp only [hb, hlow, decide_true, if_true, hki]
  rw [List.all_eq_false]
  constructor
  · rintro ⟨i, hi, hne⟩
    obtain ⟨k, h1, h2⟩ := (hmem i).1 hi
    refine ⟨k, h1, ?_⟩
    rw [List.getD_eq_getElem?_getD, h2]
    simpa using hne
  · rintro ⟨k, h1, h2⟩
    rw [List.getD_eq_getElem?_getD] at h2
    cases hk : c.idx[k]? with
    | none => rw [hk] at h2; simp at h2
    | some i =>
      rw [hk] at h2
      exact ⟨i, (hmem i).2 ⟨k, h1, hk⟩, by simpa using h2⟩

/-- C71. What a returning call hands over and returns: if the LDPC decoder succeeds on the received word, its output on that
word, which is all it is asked; otherwise its output on the prediction (`c71_unchanged`, `c71_prediction`, `c71_clipped`), which
is computed from the models as they were before the call. -/
theorem c71_returned {c : WbdCfg} (ldpc : Ldpc Λ) (s : Wbd Λ) (word : List ℝ) (out : WbdOut)
    (h : (s.decode c ldpc word).result = .ok out) :
    let first := ldpc s.ldpc (.llr word)
    (first.2.success = true → (s.decode c ldpc word).handed = [.llr word] ∧ out.success = true ∧
      out.estimate = first.2.estimate ∧ out.llr = first.2.llr ∧ out.iterations = first.2.iterations) ∧
    (first.2.success = false → ∃ w, s.predict c word = .ok w ∧ (s.decode c ldpc word).handed = [.llr word, .llr w] ∧
      let second := ldpc first.1 (.llr w)
      out.estimate = second.2.estimate ∧ out.llr = second.2.llr ∧ out.success = second.2.success ∧
      out.iterations = second.2.iterations) := by
  have outp : ∀ (t : Wbd Λ) (o : LdpcOut) (k : Nat) (out : WbdOut), t.output c o k = .ok out →
      out.estimate = o.estimate ∧ out.llr = o.llr ∧ out.success = o.success ∧ out.iterations = o.iterations := by
    intro t o k out h
    unfold Wbd.output at h
    cases ha : maskIdx c.idx (structuralMask c.threshold t.a.ents) with
    | error e => rw [ha] at h; cases h
    | ok x =>
      cases hb : maskIdx c.idx (structuralMask c.threshold t.b.ents) with
      | error e => rw [ha, hb] at h; cases h
      | ok y => rw [ha, hb] at h; cases h; exact ⟨rfl, rfl, rfl, rfl⟩
  have fin : ∀ (t : Wbd Λ) (handed : List LdpcIn) (o : LdpcOut) (first : Bool) (out : WbdOut),
      (t.finish c handed o first word).result = .ok out →
      (t.finish c handed o first word).handed = handed ∧ out.estimate = o.estimate ∧ out.llr = o.llr ∧
      out.success = o.success ∧ out.iterations = o.iterations := by
    intro t handed o first out h
    unfold Wbd.finish at h ⊢
    cases htk : takeIdx o.estimate c.idx with
    | error e => rw [htk] at h; cases h
    | ok bits =>
      simp only [htk] at h ⊢
      cases hseg : segmentBuffer decode (packBits bits) with
      | error e => simp only [hseg] at h; cases h
      | ok seg =>
        simp only [hseg] at h ⊢
        generalize (if (first || decide (MsgPart.unknown ∉ seg.parts)) = true then Except.ok bits
          else takeIdx (hardBits word) c.idx) = q at h ⊢
        cases q with
        | error e => cases h
        | ok other =>
          simp only at h ⊢
          rcases hq : t.learn c (decide (MsgPart.unknown ∉ seg.parts)) bits other with ⟨t', r⟩
          simp only [hq] at h ⊢
          cases r with
          | error e => cases h
          | ok u => exact ⟨by trivial, outp _ _ _ _ h⟩
  intro first
  unfold Wbd.decode at h ⊢
  have hf : ldpc s.ldpc (.llr word) = first := rfl
  rw [hf] at h ⊢
  obtain ⟨l', o⟩ := first
  simp only at h ⊢
  have hpe : ({ s with ldpc := l' } : Wbd Λ).predict c word = s.predict c word := rfl
  rw [hpe] at h ⊢
  split at h
  · rename_i hs
    simp only [hs, if_true]
    obtain ⟨h1, h2, h3, h4, h5⟩ := fin _ _ _ _ _ h
    exact ⟨fun _ => ⟨h1, by rw [h4, hs], h2, h3, h5⟩, fun hx => by cases hx⟩
  · rename_i hs
    rw [if_neg hs]
    refine ⟨fun hx => absurd hx hs, fun _ => ?_⟩
    cases hw : s.predict c word with
    | error e => rw [hw] at h; cases h
    | ok w =>
      simp only [hw] at h ⊢
      obtain ⟨h1, h2, h3, h4, h5⟩ := fin _ _ _ _ _ h
      exact ⟨w, rfl, h1, h2, h3, h4, h5⟩

/-- C71. If no model bit other than the first codeword bit has low entropy in either model, the second attempt gets the
received word, unclipped. -/
theorem c71_unchanged {c : WbdCfg} (s : Wbd Λ) (ha : s.a.ents = [] ∨ s.a.ents.length = c.idx.length)
    (hb : s.b.ents = [] ∨ s.b.ents.length = c.idx.length)
    (hna : ∀ k, LowAt c.threshold s.a.ents k → c.idx.getD k 0 = 0)
    (hnb : ∀ k, LowAt c.threshold s.b.ents k → c.idx.getD k 0 = 0) (obs : List ℝ) : s.predict c obs = .ok obs := by
  obtain ⟨aS, hA⟩ := maskIdx_ents (c := c) ha
  obtain ⟨bS, hB⟩ := maskIdx_ents (c := c) hb
  have h1 : aS.all (· == 0) = true := by
    by_contra hc
    obtain ⟨k, h1, h2⟩ := (structural_any ha hA).1 (by simpa using hc)
    exact h2 (hna k h1)
  have h2 : bS.all (· == 0) = true := by
    by_contra hc
    obtain ⟨k, h1, h2⟩ := (structural_any hb hB).1 (by simpa using hc)
    exact h2 (hnb k h1)
  unfold Wbd.predict
  simp only [hA, hB, bind, Except.bind, h1, h2, Bool.and_self, if_true]

/-- C71. Otherwise the second attempt gets the received word with what the two models add at their low-entropy bits, and all
of it - at model bits or not - is clipped to plus or minus the clipping factor times the largest received value. -/
theorem c71_prediction {c : WbdCfg} (s : Wbd Λ) (hnd : c.idx.Nodup) (ha : s.a.ents = [] ∨ s.a.ents.length = c.idx.length)
    (hb : s.b.ents = [] ∨ s.b.ents.length = c.idx.length)
    (hlow : ∃ k, (LowAt c.threshold s.a.ents k ∨ LowAt c.threshold s.b.ents k) ∧ c.idx.getD k 0 ≠ 0)
    {na nb : Nat} (hna : s.a.size c = .ok na) (hnb : s.b.size c = .ok nb) {ca cb : ℝ}
    (hconf : confidences c.scheme (modelConfidence na c.aCenter c.aSlope) (modelConfidence nb c.bCenter c.bSlope)
      s.a.var s.b.var = .ok (ca, cb)) (hca : 0 ≤ ca) (hcb : 0 ≤ cb) (hfa : 0 < ca → Fits c s.a) (hfb : 0 < cb → Fits c s.b)
    (obs : List ℝ) (hlt : ∀ i ∈ c.idx, i < obs.length) {m : ℝ} (hm : pyMax obs = .ok m) :
    ∃ w, s.predict c obs = .ok w ∧ w.length = obs.length ∧
      (∀ i < obs.length, i ∉ c.idx → w.getD i 0 = npClip (-(c.clipping * m)) (c.clipping * m) (obs.getD i 0)) ∧
      ∀ k (hk : k < c.idx.length), w.getD c.idx[k] 0 = npClip (-(c.clipping * m)) (c.clipping * m)
        (obs.getD c.idx[k] 0 + boost c s.a ca k + boost c s.b cb k) := by
  obtain ⟨aS, hA⟩ := maskIdx_ents (c := c) ha
  obtain ⟨bS, hB⟩ := maskIdx_ents (c := c) hb
  have hany : (aS.all (· == 0) && bS.all (· == 0)) = false := by
    obtain ⟨k, hk | hk, hi⟩ := hlow
    · rw [(structural_any ha hA).2 ⟨k, hk, hi⟩]; rfl
    · rw [(structural_any hb hB).2 ⟨k, hk, hi⟩, Bool.and_false]
  obtain ⟨w1, e1, l1, o1, k1⟩ := addModel_spec hnd obs hlt s.a ca hca hfa hA
  obtain ⟨w2, e2, l2, o2, k2⟩ := addModel_spec hnd w1 (fun i hi => by rw [l1]; exact hlt i hi) s.b cb hcb hfb hB
  have hget : ∀ (f : ℝ → ℝ) i, i < obs.length → (w2.map f).getD i 0 = f (w2.getD i 0) := by
    intro f i hi
    rw [List.getD_eq_getElem?_getD, List.getElem?_map, List.getD_eq_getElem?_getD,
      List.getElem?_eq_getElem (by omega)]
    rfl
  refine ⟨w2.map fun (x : ℝ) => npClip (-(c.clipping * m)) (c.clipping * m) x, ?_, by simp [l2, l1], ?_, ?_⟩
  · unfold Wbd.predict
    simp only [hA, hB, bind, Except.bind, hany, Bool.false_eq_true, if_false, hna, hnb, hconf, hm, e1, e2]
  · intro i hi hni
    rw [hget _ i hi, o2 i hni, o1 i hni]
  · intro k hk
    rw [hget _ _ (hlt _ (List.getElem_mem _)), k2 k hk, k1 k hk]

/-- C71. The confidences of the two models. Scheme 0 (and every number without a meaning, among them 2) uses them as they are,
scheme 1 weighs each by its share, 3 ignores the second model and 5 the first; all are between 0 and 1. -/
theorem c71_confidences (n : Nat) (center slope : ℝ) :
    (0 ≤ modelConfidence n center slope ∧ modelConfidence n center slope ≤ 1) ∧
    (n ≤ 1 → modelConfidence n center slope = 0) ∧
    ∀ (scheme : Int) (a b : ℝ) (va vb : Variance), 0 ≤ a → a ≤ 1 → 0 ≤ b → b ≤ 1 → scheme ≠ 4 →
      ∃ ca cb, confidences scheme a b va vb = .ok (ca, cb) ∧ 0 ≤ ca ∧ ca ≤ a ∧ 0 ≤ cb ∧ cb ≤ b ∧
        (scheme ∉ [1, 3, 5] → ca = a ∧ cb = b) ∧ (scheme = 3 → ca = a ∧ cb = 0) ∧ (scheme = 5 → ca = 0 ∧ cb = b) ∧
        (scheme = 1 → 0 < a + b → ca = a ^ 2 / (a + b) ∧ cb = b ^ 2 / (a + b)) := by
  refine ⟨?_, fun h => by rw [modelConfidence, if_pos h], ?_⟩
  · unfold modelConfidence
    split
    · exact ⟨le_refl _, zero_le_one⟩
    · have := Real.exp_pos (-((n : ℝ) - center) * slope)
      exact ⟨by positivity, by rw [div_le_one (by positivity)]; linarith⟩
  · intro scheme a b va vb ha0 ha1 hb0 hb1 h4
    unfold confidences
    split
    · rename_i h; subst h
      exact ⟨a, b, rfl, ha0, le_refl _, hb0, le_refl _, fun _ => ⟨rfl, rfl⟩, by simp, by simp, by simp⟩
    split
    · rename_i h; subst h
      split
      · rename_i hpos
        have e1 : a / (a + b) ≤ 1 := by rw [div_le_one hpos]; linarith
        have e2 : b / (a + b) ≤ 1 := by rw [div_le_one hpos]; linarith
        refine ⟨_, _, rfl, by positivity, mul_le_of_le_one_right ha0 e1, by positivity, mul_le_of_le_one_right hb0 e2,
          by simp, by simp, by simp, fun _ _ => ⟨by ring, by ring⟩⟩
      · rename_i hpos
        exact ⟨a, b, rfl, ha0, le_refl _, hb0, le_refl _, by simp, by simp, by simp, fun _ h => absurd h hpos⟩
    split
    · rename_i h; subst h
      exact ⟨a, 0, rfl, ha0, le_refl _, le_refl _, hb0, by simp, fun _ => ⟨rfl, rfl⟩, by simp, by simp⟩
    split
    · rename_i h; subst h
      exact ⟨0, b, rfl, le_refl _, ha0, hb0, le_refl _, by simp, by simp, fun _ => ⟨rfl, rfl⟩, by simp⟩
    · rename_i h0 h1 h3 h5
      exact ⟨a, b, rfl, ha0, le_refl _, hb0, le_refl _, fun _ => ⟨rfl, rfl⟩, fun h => absurd h h3, fun h => absurd h h5,
        fun h => absurd h h1⟩

/-- C71. Scheme 4 scales each confidence by a number between 0 and 1, once both models have learned a word. -/
theorem c71_variance_weight (a b x y : ℝ) (ha : 0 ≤ a) (hb : 0 ≤ b) (hx : 0 ≤ x) (hy : 0 ≤ y) :
    ∃ ca cb, confidences 4 a b (.val x) (.val y) = .ok (ca, cb) ∧ 0 ≤ ca ∧ ca ≤ a ∧ 0 ≤ cb ∧ cb ≤ b := by
  have hf : ∀ x : ℝ, 0 ≤ x → ∃ f, (Variance.val x).factor = .ok f ∧ 0 ≤ f ∧ f ≤ 1 := by
    intro x hx
    unfold Variance.factor
    refine ⟨_, rfl, ?_⟩
    split
    · exact ⟨zero_le_one, le_refl _⟩
    · have h1 : -(1 / 10) / x ≤ 0 := div_nonpos_of_nonpos_of_nonneg (by norm_num) hx
      have h2 := Real.exp_le_one_iff.2 h1
      have h3 := Real.exp_pos (-(1 / 10) / x)
      exact ⟨by linarith, by linarith⟩
  obtain ⟨f, hf1, hf2, hf3⟩ := hf x hx
  obtain ⟨g, hg1, hg2, hg3⟩ := hf y hy
  unfold confidences
  simp only [show ¬ ((4 : Int) = 0) by decide, show ¬ ((4 : Int) = 1) by decide, show ¬ ((4 : Int) = 3) by decide, if_false,
    if_true, hf1, hg1, bind, Except.bind]
  exact ⟨_, _, rfl, mul_nonneg ha hf2, mul_le_of_le_one_right ha hf3, mul_nonneg hb hg2, mul_le_of_le_one_right hb hg3⟩

/-- C71. The scheme documented as preferring the good model, 2, is not reachable: a decoder with it behaves on every history
as one with scheme 0. -/
theorem c71_scheme_two (c : WbdCfg) (ldpc : Ldpc Λ) (s : Wbd Λ) (words : List (List ℝ)) :
    Wbd.run { c with scheme := 2 } ldpc s words = Wbd.run { c with scheme := 0 } ldpc s words := by
  have hp : ∀ (s : Wbd Λ) (w : List ℝ), s.predict { c with scheme := 2 } w = s.predict { c with scheme := 0 } w := by
    intro s w
    unfold Wbd.predict confidences
    rfl
  have hd : ∀ (s : Wbd Λ) (w : List ℝ), s.decode { c with scheme := 2 } ldpc w = s.decode { c with scheme := 0 } ldpc w := by
    intro s w
    unfold Wbd.decode
    simp only [hp]
    rfl
  induction words generalizing s with
  | nil => rfl
  | cons w rest ih => simp only [Wbd.run, hd, ih]

/-- C71. With scheme 4 and a good model that has never learned, a second attempt raises as soon as the other model has a
low-entropy bit: a ZeroDivisionError with the Bayes estimator, an AttributeError with the other one. -/
theorem c71_variance_scheme {c : WbdCfg} (hs : c.scheme = 4) (s : Wbd Λ) (hnew : s.a = Half.new c) (hm : 0 < c.idx.length)
    (hb : s.b.ents.length = c.idx.length) (hlow : ∃ k, LowAt c.threshold s.b.ents k ∧ c.idx.getD k 0 ≠ 0)
    {nb : Nat} (hnb : s.b.size c = .ok nb) (obs : List ℝ) :
    s.predict c obs = .error (if c.bayes then .zeroDivisionError else .attributeError) := by
  have hae : s.a.ents = [] := by rw [hnew, Half.new]; split <;> rfl
  obtain ⟨aS, hA⟩ := maskIdx_ents (c := c) (Or.inl hae)
  obtain ⟨bS, hB⟩ := maskIdx_ents (c := c) (Or.inr hb)
  have hany : (aS.all (· == 0) && bS.all (· == 0)) = false := by
    rw [(structural_any (Or.inr hb) hB).2 hlow, Bool.and_false]
  have hna : ∃ na, s.a.size c = .ok na := by
    rw [hnew]
    unfold Half.size Half.new
    cases c.bayes with
    | true =>
      simp only [if_true]
      obtain ⟨n, hn⟩ : ∃ n, c.idx.length = n + 1 := ⟨c.idx.length - 1, by omega⟩
      rw [hn, List.replicate_succ]
      exact ⟨_, rfl⟩
    | false => exact ⟨_, rfl⟩
  obtain ⟨na, hna⟩ := hna
  have hconf : ∀ a b, confidences c.scheme a b s.a.var s.b.var =
      .error (if c.bayes then .zeroDivisionError else .attributeError) := by
    intro a b
    rw [hs, hnew]
    unfold confidences Half.new
    cases c.bayes <;> rfl
  unfold Wbd.predict
  simp only [hA, hB, bind, Except.bind, hany, Bool.false_eq_true, if_false, hna, hnb, hconf]

theorem npClip_range {b x : ℝ} (hb : 0 ≤ b) : |npClip (-b) b x| ≤ b := by
  unfold npClip
  rw [abs_le]
  exact ⟨le_min (by linarith) (le_max_left _ _), min_le_left _ _⟩

theorem npClip_neg {b x : ℝ} (hb : b < 0) : npClip (-b) b x = b := by
  unfold npClip
  exact min_eq_left (le_trans (by linarith) (le_max_left _ _))

/-- C71. Clipping, whenever a prediction is made: with a non-negative factor and a non-negative largest received value all
values handed on are within the bound. If all received values are negative (and the factor is positive), everything handed on
is the same number: the received word is lost. -/
theorem c71_clipped {c : WbdCfg} (s : Wbd Λ) (obs w : List ℝ) (hp : s.predict c obs = .ok w) {m : ℝ} (hm : pyMax obs = .ok m)
    (hlow : ∃ k, (LowAt c.threshold s.a.ents k ∨ LowAt c.threshold s.b.ents k) ∧ c.idx.getD k 0 ≠ 0)
    (ha : s.a.ents = [] ∨ s.a.ents.length = c.idx.length) (hb : s.b.ents = [] ∨ s.b.ents.length = c.idx.length) :
    (0 ≤ c.clipping * m → ∀ x ∈ w, |x| ≤ c.clipping * m) ∧ (c.clipping * m < 0 → ∀ x ∈ w, x = c.clipping * m) := by
  obtain ⟨aS, hA⟩ := maskIdx_ents (c := c) ha
  obtain ⟨bS, hB⟩ := maskIdx_ents (c := c) hb
  have hany : (aS.all (· == 0) && bS.all (· == 0)) = false := by
    obtain ⟨k, hk | hk, hi⟩ := hlow
    · rw [(structural_any ha hA).2 ⟨k, hk, hi⟩]; rfl
    · rw [(structural_any hb hB).2 ⟨k, hk, hi⟩, Bool.and_false]
  have : ∃ w' : List ℝ, w = w'.map fun (x : ℝ) => npClip (-(c.clipping * m)) (c.clipping * m) x := by
    unfold Wbd.predict at hp
    simp only [hA, hB, bind, Except.bind, hany, Bool.false_eq_true, if_false, hm] at hp
    split at hp
    · cases hp
    split at hp
    · cases hp
    split at hp
    · cases hp
    split at hp
    · cases hp
    split at hp
    · cases hp
    cases hp
    exact ⟨_, rfl⟩
  obtain ⟨w', rfl⟩ := this
  constructor
  · intro h0 x hx
    obtain ⟨y, _, rfl⟩ := List.mem_map.1 hx
    exact npClip_range h0
  · intro h0 x hx
    obtain ⟨y, _, rfl⟩ := List.mem_map.1 hx
    exact npClip_neg h0

/-- A decoder for two bits with the MLE estimator. -/
noncomputable def mleCfg : WbdCfg := { twoBitCfg with bayes := false, window := some 2, scheme := 3 }

/-- An LDPC decoder that always decides for the word 01. -/
def constLdpc : Ldpc Unit := fun _ _ => ((), ⟨[false, true], [], true, 1, [], []⟩)

/-- The hypotheses of `c71_windows` are met: a call that returns and teaches the second model the word 01. -/
example (word : List ℝ) : ∃ s0 s steps, Wbd.new mleCfg () = .ok s0 ∧ Wbd.run mleCfg constLdpc s0 [word] = (s, steps) ∧
    (∀ st ∈ steps, ∃ out, st.result = .ok out) ∧ allWords mleCfg.idx (wbdEvents [word] steps) = [[false, true]] := by
  set h0 := Half.new mleCfg with hh0
  have hn : MleInv mleCfg h0 [] := ⟨by simp, rfl, rfl, rfl⟩
  have hbl : BothLetters mleCfg.modelLength (growData mleCfg.window h0.data [false, true]) :=
    ⟨⟨[false, true], by decide, 0, by decide, rfl⟩, ⟨[false, true], by decide, 1, by decide, rfl⟩⟩
  have hu := ((mle_update (c := mleCfg) rfl (by decide) (by decide) h0 (bits := [false, true]) rfl).2.1 hbl).1
  have hi := mle_update_inv (c := mleCfg) rfl (by decide) (by decide) hn (bits := [false, true]) rfl hu
  rcases he : h0.update mleCfg [false, true] with ⟨h', r⟩
  rw [he] at hu hi
  simp only at hu hi
  subst hu
  obtain ⟨seg, hseg, _⟩ := c20_never_raises (packBits [false, true])
  have htk : takeIdx [false, true] mleCfg.idx = .ok [false, true] := rfl
  have hents : h'.ents = [] ∨ h'.ents.length = mleCfg.idx.length := by
    right
    rw [hi.ents, hi.dist, if_neg (by simp), rowEntropies]
    simp
    rfl
  have : ∃ st : WbdStep Unit, (⟨h0, h0, ()⟩ : Wbd Unit).decode mleCfg constLdpc word = st ∧ st.handed.length = 1 ∧
      ∃ out, st.result = .ok out ∧ out.estimate = [false, true] := by
    have hd : (⟨h0, h0, ()⟩ : Wbd Unit).decode mleCfg constLdpc word =
        Wbd.finish mleCfg ⟨h0, h0, ()⟩ [.llr word] ⟨[false, true], [], true, 1, [], []⟩ true word := by
      unfold Wbd.decode constLdpc
      rfl
    refine ⟨_, rfl, ?_⟩
    rw [hd]
    unfold Wbd.finish
    simp only [htk, hseg, Bool.true_or, if_true, Wbd.learn, Wbd.updateA, Wbd.updateB, he]
    cases decide (MsgPart.unknown ∉ seg.parts)
    · obtain ⟨out, ho, he, _⟩ := wbd_output (c := mleCfg) (⟨h0, h', ()⟩ : Wbd Unit) ⟨[false, true], [], true, 1, [], []⟩
        seg.struct.length (Or.inl rfl) hents
      exact ⟨rfl, out, ho, he⟩
    · obtain ⟨out, ho, he, _⟩ := wbd_output (c := mleCfg) (⟨h', h', ()⟩ : Wbd Unit) ⟨[false, true], [], true, 1, [], []⟩
        seg.struct.length hents hents
      exact ⟨rfl, out, ho, he⟩
  obtain ⟨st, hst, hk, out, ho, he⟩ := this
  refine ⟨⟨h0, h0, ()⟩, st.state, [st], rfl, ?_, ?_, ?_⟩
  · simp only [Wbd.run, hst]
  · intro x hx
    rw [List.mem_singleton.1 hx]
    exact ⟨out, ho⟩
  · have := (allWords_one mleCfg.idx ⟨word, st.handed.length, st.result⟩ out ho).1 (Or.inl hk)
    rw [he] at this
    exact this

/-- A model of two bits learned from three words. -/
noncomputable def exHalf : Half := ⟨[[1, 0], [0, 1]], [0, 0], [], [], [[false, true], [false, true], [false, true]], .val 0⟩

/-- The hypotheses of `c71_prediction` and `c71_clipped` are met by two models with low-entropy bits. -/
example : Fits mleCfg exHalf ∧ mleCfg.idx.Nodup ∧
    (∃ k, (LowAt mleCfg.threshold exHalf.ents k ∨ LowAt mleCfg.threshold exHalf.ents k) ∧ mleCfg.idx.getD k 0 ≠ 0) ∧
    exHalf.size mleCfg = .ok 3 ∧ pyMax [1, 2] = .ok 2 ∧
    ∃ ca, confidences mleCfg.scheme (modelConfidence 3 20 1) (modelConfidence 3 40 1) exHalf.var exHalf.var = .ok (ca, 0) ∧
      0 < ca := by
  refine ⟨⟨rfl, rfl, by simp [exHalf]⟩, by decide, ⟨1, Or.inl ⟨0, rfl, ?_⟩, by decide⟩, rfl, ?_, modelConfidence 3 20 1, ?_, ?_⟩
  · simp only [mleCfg, twoBitCfg, oneBitCfg]; norm_num
  · simp only [pyMax, List.foldl_cons, List.foldl_nil]; norm_num
  · unfold confidences
    simp only [mleCfg]
    norm_num
  · unfold modelConfidence
    rw [if_neg (by norm_num)]
    have := Real.exp_pos (-(((3 : ℕ) : ℝ) - 20) * 1)
    positivity

end NR
