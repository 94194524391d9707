import Verif.Props.C160
/-
C161: the success rate the simulation reports for the DUDE decoder in the long run.
-/
namespace NR.C161
open NR NR.Spec NR.C137 NR.C157 NR.C159
open NR.C147 (errorsOff Corrects)

variable {σ Λ Μ : Type}

theorem dude_outputs (c : DudeCfg) (cls : Labeler σ) (ldpc : Ldpc Λ) : ∀ (inputs : List (List ℝ × Option (List Nat))) (s : DudeDec σ Λ),
    outputs (dudeCoder c cls ldpc) s inputs = (s.run c cls ldpc (inputs.map Prod.fst)).2.map fun st => st.result.map fun o => (o.estimate, o.success)
  | [], _ => rfl
  | x :: inputs, s => by
    simp only [outputs, List.map_cons, DudeDec.run]
    rw [dude_outputs c cls ldpc inputs]
    rfl

/-- A word decoded to the word sent has distance 0. -/
theorem dists_zero : ∀ (os : List (Except PyErr (List Bool × Bool))) (ts : List (List Bool)) (l : List Nat), C156.dists os ts = .ok l →
    ∀ (j : Nat) (e : List Bool × Bool), os[j]? = some (.ok e) → ts[j]? = some e.1 → l[j]? = some 0
  | [], _, _, _, j, e, ho, _ => by simp at ho
  | _ :: _, [], _, _, j, e, _, ht => by simp at ht
  | o :: os, t :: ts, l, h, j, e, ho, ht => by
    obtain ⟨e', d, r, h1, h2, h3, rfl⟩ := (C156.dists_cons ..).1 h
    cases j with
    | zero =>
      simp only [List.getElem?_cons_zero, Option.some.injEq] at ho ht ⊢
      rw [h1, Except.ok.injEq] at ho
      subst ho
      rw [ht, (c01_zero_iff_eq _ _ 8).2 rfl, Except.ok.injEq] at h2
      exact h2.symm
    | succ j =>
      simp only [List.getElem?_cons_succ] at ho ht ⊢
      exact dists_zero os ts r h3 j e ho ht

theorem dists_length : ∀ (os : List (Except PyErr (List Bool × Bool))) (ts : List (List Bool)) (l : List Nat), C156.dists os ts = .ok l →
    os.length = ts.length → l.length = ts.length
  | [], [], l, h, _ => by cases h; rfl
  | [], _ :: _, _, _, hl => by simp at hl
  | _ :: _, [], _, _, hl => by simp at hl
  | o :: os, t :: ts, l, h, hl => by
    obtain ⟨e', d, r, h1, h2, h3, rfl⟩ := (C156.dists_cons ..).1 h
    simp only [List.length_cons, Nat.add_right_cancel_iff] at hl ⊢
    exact dists_length os ts r h3 hl

theorem count_late (l : List Nat) (N : Nat) (h : ∀ j, N ≤ j → j < l.length → l[j]? = some 0) : l.length - N ≤ l.countP (· = 0) := by
  have h1 : (l.drop N).countP (fun x => decide (x = 0)) = (l.drop N).length := by
    rw [List.countP_eq_length]
    intro a ha
    obtain ⟨j, hj, rfl⟩ := List.mem_iff_getElem.1 ha
    rw [List.length_drop] at hj
    have := h (N + j) (by omega) (by omega)
    rw [List.getElem?_eq_getElem (by omega), Option.some.injEq] at this
    rw [List.getElem_drop, decide_eq_true_eq]
    exact this
  have h2 := List.Sublist.countP_le (p := fun x => decide (x = 0)) (List.drop_sublist N l)
  rw [h1, List.length_drop] at h2
  exact h2

/-- A model bit `i` of the `j`-th word of a simulation was received right the last `k` times and wrong in few of all earlier words. -/
def SettledBit (c : DudeCfg) (received : List (List Bool)) (j i : Nat) (v : Bool) : Prop :=
  i < c.modelLength ∧ ((received.take j).map fun w => w.getD i false).drop (j - c.context) = List.replicate c.context v ∧
    (1 - c.bitFlip) * (slips v ((received.take j).map fun w => w.getD i false) + 1) ≤
      c.bitFlip * (j - c.context - (c.context + 1) * slips v ((received.take j).map fun w => w.getD i false))

/-- **C161.** The simulation over the binary symmetric channel with one cluster: there is a number `N`, depending on the parameters only, such
that for every `M` from `N` on, in every simulation whose words from the `M`-th on have, but for as many bits as the LDPC decoder corrects, settled model bits, the
success rate reported for the DUDE decoder is at least `1 - M / n`. -/
theorem c161_rate {c : DudeCfg} {p : ℚ} (P : Params c p) (hp0 : 2 ^ (-52 : ℤ) ≤ c.bitFlip) (h1 : c.nClusters = 1) (hs : 0 < c.slope) :
    ∃ N : ℕ, ∀ M, N ≤ M → ∀ {σ Λ Μ : Type} (cls : Labeler σ) (ldpc : Ldpc Λ) (cs : σ) (ls : Λ) (s0 : DudeDec σ Λ), DudeDec.new c cs ls = .ok s0 →
      ∀ (A : Coder Μ) (a : Μ) (code : List Bool → Prop) (T : Nat), Corrects ldpc code T → ∀ (len : Nat) (words : List (List Bool × List Nat)),
      (∀ x ∈ words, (x.2.Nodup ∧ ∀ e ∈ x.2, e < x.1.length) ∧ c.modelLength ≤ x.1.length ∧ code x.1) →
      (∀ j tx errors, words[j]? = some (tx, errors) → M ≤ j → ∃ S : Finset Nat,
        (∀ i ∈ S, SettledBit c (words.map fun x => flipAt x.1 x.2) j i (tx.getD i false)) ∧
        (c.modelLength - S.card) + errorsOff (List.range c.modelLength) tx (channelLlr p (flipAt tx errors)) ≤ T) →
      ∀ s, simStep A (dudeCoder c cls ldpc) a s0 len p words = .ok s → 1 - (M : ℚ) / words.length ≤ s.rect.success := by
  obtain ⟨N, hN⟩ := C160.c160_run hp0 P.flip P.context P.model P.clipping P.prefixed h1 hs
  refine ⟨N, fun M hNM {σ Λ Μ} cls ldpc cs ls s0 hnew A a code T hcor len words hw hset s h => ?_⟩
  cases words with
  | nil => cases h
  | cons w ws =>
    unfold simStep at h
    simp only [bind, Except.bind] at h
    cases hl : simLoop A (dudeCoder c cls ldpc) p a s0 (w :: ws) with
    | error e => rw [hl] at h; cases h
    | ok d =>
      rw [hl] at h
      cases h
      obtain ⟨_, hd⟩ := (C156.simLoop_dists A (dudeCoder c cls ldpc) p (w :: ws) a s0 d (fun x hx => (hw x hx).1)).1 hl
      rw [dude_outputs] at hd
      have hin : (simInputs (p : ℝ) (w :: ws)).map Prod.fst = ((w :: ws).map fun x => flipAt x.1 x.2).map (channelLlr c.bitFlip) := by
        unfold simInputs
        rw [List.map_map, List.map_map, P.told]
        rfl
      rw [hin] at hd
      generalize hW : w :: ws = words at *
      have hn : words.length = ws.length + 1 := by rw [← hW]; rfl
      have hlen : (d.map Prod.snd).length = words.length := by
        have := dists_length _ _ _ hd (by
          rw [List.length_map, List.length_map, (run_append c cls ldpc [] _ s0).2, List.length_map, List.length_map])
        rw [this, List.length_map]
      have hz : ∀ j, M ≤ j → j < (d.map Prod.snd).length → (d.map Prod.snd)[j]? = some 0 := by
        intro j hj hjl
        rw [hlen] at hjl
        obtain ⟨⟨tx, errors⟩, hx'⟩ : ∃ x, words[j]? = some x := ⟨words[j], List.getElem?_eq_getElem hjl⟩
        obtain ⟨⟨w1, w2⟩, w3, w4⟩ := hw (tx, errors) (List.mem_of_getElem? hx')
        obtain ⟨S, hS, hT⟩ := hset j tx errors hx' hj
        have hfl : (flipAt tx errors).length = tx.length := by simp [flipAt]
        obtain ⟨st, out, r1, r2, _, r4⟩ := hN cls ldpc cs ls s0 hnew code T hcor (words.map fun x : List Bool × List Nat => flipAt x.1 x.2) (by
          intro r hr
          obtain ⟨x, hx, rfl⟩ := List.mem_map.1 hr
          have : (flipAt x.1 x.2).length = x.1.length := by simp [flipAt]
          rw [this]
          exact (hw x hx).2.1) j (flipAt tx errors) (by rw [List.getElem?_map, hx']; rfl) (hNM.trans hj) tx w4 hfl S (fun i hi => hS i hi) (by
          rw [P.told]; exact hT)
        refine dists_zero _ _ _ hd j (out.estimate, out.success) ?_ ?_
        · rw [List.getElem?_map, r1, Option.map_some, r2]
          rfl
        · rw [List.getElem?_map, hx', r4]
          rfl
      have hc := count_late _ M hz
      rw [hlen] at hc
      show 1 - (M : ℚ) / words.length ≤ (((d.map Prod.snd).countP (· = 0) : ℕ) : ℚ) / ((ws.length + 1 : ℕ) : ℚ)
      rw [← hn]
      have hpos : (0 : ℚ) < words.length := by rw [hn]; positivity
      rw [le_div_iff₀ hpos, sub_mul, one_mul, div_mul_cancel₀ _ hpos.ne']
      have : words.length ≤ (d.map Prod.snd).countP (· = 0) + M := by omega
      have : (words.length : ℚ) ≤ (((d.map Prod.snd).countP (· = 0) : ℕ) : ℚ) + M := by exact_mod_cast this
      linarith

/-! ### A case that meets the hypotheses -/

theorem trusting_corrects : Corrects trusting (fun _ => True) 0 := by
  intro s x w _ hw he
  refine ⟨rfl, ?_⟩
  show hardWord w = x
  apply List.ext_getElem?
  intro i
  by_cases hi : i < x.length
  · by_contra hc
    have : i ∈ (Finset.range x.length).filter fun i => (hardWord w)[i]? ≠ x[i]? := Finset.mem_filter.2 ⟨Finset.mem_range.2 hi, hc⟩
    have h0 : ((Finset.range x.length).filter fun i => (hardWord w)[i]? ≠ x[i]?) = ∅ := Finset.card_eq_zero.1 (Nat.le_zero.1 he)
    rw [h0] at this
    simp at this
  · rw [List.getElem?_eq_none (by unfold hardWord; rw [List.length_map]; omega), List.getElem?_eq_none (by omega)]

/-- Words of zeros, the last of twice as many with both model bits wrong, and an LDPC decoder that corrects nothing. -/
example (cls : Labeler Unit) : ∃ M s0, DudeDec.new C160.demo () () = .ok s0 ∧ ∃ s, simStep (ldpcCoder trusting) (dudeCoder C160.demo cls trusting) ()
    s0 4 (1 / 10) (List.replicate (2 * M) ([false, false, false, false], []) ++ [([false, false, false, false], [0, 1])]) = .ok s ∧
    1 / 2 < s.rect.success := by
  obtain ⟨s0, hnew⟩ := (c72_constructor (σ := Unit) (Λ := Unit) C160.demo () ()).2 (by norm_num [C160.demo, C157.demo])
  have hpre : Prefixed C160.demo := Or.inr (by
      refine ⟨by simp [C160.demo, C157.demo], fun i hi => ?_⟩
      have hi : i < 2 := hi
      match i with
      | 0 => rfl
      | 1 => rfl)
  have P : Params C160.demo (1 / 10) :=
    ⟨by norm_num [C160.demo, C157.demo], by norm_num [C160.demo, C157.demo], by norm_num [C160.demo, C157.demo],
      by norm_num [C160.demo, C157.demo], by norm_num [C160.demo, C157.demo], by norm_num [C160.demo, C157.demo], hpre⟩
  obtain ⟨N, hN⟩ := c161_rate P (by norm_num [C160.demo, C157.demo]) rfl (by norm_num [C160.demo, C157.demo])
  have hw : ∀ x ∈ List.replicate (2 * (N + 11)) (([false, false, false, false], []) : List Bool × List Nat) ++
      [([false, false, false, false], [0, 1])], (x.2.Nodup ∧ ∀ e ∈ x.2, e < x.1.length) ∧ C160.demo.modelLength ≤ x.1.length ∧ True := by
    intro x hx
    have h2 : C160.demo.modelLength = 2 := rfl
    rcases List.mem_append.1 hx with h | h
    · rw [(List.mem_replicate.1 h).2, h2]; simp
    · rw [List.mem_singleton.1 h, h2]; simp
  obtain ⟨s, h⟩ := c159_reports P rfl cls trusting () () s0 hnew (fun b => (b, true)) (fun _ => rfl) (fun _ _ => rfl) trusting ()
    (fun _ _ => rfl) 4 _ (by simp) (fun x hx => ⟨(hw x hx).1, (hw x hx).2.1⟩)
  refine ⟨N + 11, s0, hnew, s, h, lt_of_lt_of_le ?_ (hN (N + 11) (by omega) cls trusting () () s0 hnew (ldpcCoder trusting) () _ 0 trusting_corrects
    4 _ hw ?_ s h)⟩
  · rw [List.length_append, List.length_replicate, List.length_singleton]
    have : (0 : ℚ) ≤ N := Nat.cast_nonneg N
    push_cast
    rw [lt_sub_iff_add_lt, ← lt_sub_iff_add_lt', div_lt_iff₀ (by positivity)]
    linarith
  · intro j tx errors hj hMj
    have hjl := (List.getElem?_eq_some_iff.1 hj).1
    rw [List.length_append, List.length_replicate, List.length_singleton] at hjl
    have htx : tx = [false, false, false, false] := by
      rcases List.mem_append.1 (List.mem_of_getElem? hj) with h | h
      · exact congrArg Prod.fst (List.mem_replicate.1 h).2
      · exact congrArg Prod.fst (List.mem_singleton.1 h)
    have hflip : ∀ i, 2 ≤ i → (flipAt tx errors)[i]? = tx[i]? := by
      intro i hi
      rcases List.mem_append.1 (List.mem_of_getElem? hj) with h | h
      · obtain ⟨rfl, rfl⟩ := Prod.ext_iff.1 (List.mem_replicate.1 h).2
        rfl
      · obtain ⟨rfl, rfl⟩ := Prod.ext_iff.1 (List.mem_singleton.1 h)
        match i, hi with
        | 2, _ => rfl
        | 3, _ => rfl
        | n + 4, _ => rfl
    refine ⟨Finset.range 2, ?_, ?_⟩
    · intro i hi
      have hi := Finset.mem_range.1 hi
      have hv : ([false, false, false, false] : List Bool).getD i false = false := by
        match i with
        | 0 => rfl
        | 1 => rfl
      have hfl : flipAt [false, false, false, false] [] = [false, false, false, false] := rfl
      have hm : ((((List.replicate (2 * (N + 11)) (([false, false, false, false], []) : List Bool × List Nat) ++
          [([false, false, false, false], [0, 1])]).map fun x : List Bool × List Nat => flipAt x.1 x.2).take j).map fun w : List Bool => w.getD i false) = List.replicate j false := by
        rw [List.map_append, List.map_replicate, hfl, List.take_append_of_le_length (by rw [List.length_replicate]; omega), List.take_replicate,
          List.map_replicate, hv, Nat.min_eq_left (by omega)]
      unfold SettledBit
      rw [htx, hv, hm]
      refine ⟨hi, ?_, ?_⟩
      · rw [List.drop_replicate]
        congr 1
        show j - (j - 2) = 2
        omega
      · have : slips false (List.replicate j false) = 0 := by
          unfold slips
          rw [List.countP_replicate]
          simp
        rw [this]
        have : (11 : ℝ) ≤ j := by
          have : 11 ≤ j := by omega
          exact_mod_cast this
        norm_num [C160.demo, C157.demo]
        linarith
    · rw [Finset.card_range]
      have : errorsOff (List.range C160.demo.modelLength) tx (channelLlr ((1 / 10 : ℚ) : ℝ) (flipAt tx errors)) = 0 := by
        unfold errorsOff
        rw [hardWord_channel (by norm_num) (by norm_num), Finset.card_eq_zero, Finset.filter_eq_empty_iff]
        intro i hi
        rintro ⟨h1, h2⟩
        have h1 : ¬ i < 2 := fun h => h1 (List.mem_range.2 h)
        exact h2 (hflip i (by omega))
      rw [this]
      exact le_rfl

end NR.C161
