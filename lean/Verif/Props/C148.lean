import Verif.Props.C147_Loop
import Verif.Props.C135
/-
C148: with an LDPC decoder that corrects and detects a number of errors, the weighted decoder goes on decoding.
-/
namespace NR.C148
open NR NR.C134 NR.C135
open NR.Spec hiding trust after
open NR.C145 (Template strays varying)
open NR.C147 (errors errorsOff Corrects Detects errors_le bitsAt_get growData_mem)

variable {Λ : Type}

/-- A decoder and what its words have in common. -/
structure Setup (c : WbdCfg) (t : Template) (V enough total : Nat) : Prop where
  sensible : Sensible c
  clips : 0 < c.clipping
  scheme : c.scheme ≠ 4
  bitsPos : 0 < c.modelLength
  bits : c.idx.length = c.modelLength
  distinct : c.idx.Nodup
  slopes : 0 ≤ c.aSlope ∧ 0 ≤ c.bSlope
  /-- How many words make the models trusted. -/
  trusted : 2 ≤ enough ∧ c.aCenter ≤ enough ∧ c.bCenter ≤ enough
  /-- The Bayes estimator may not have to rescale its counters; the window of MLE holds enough words. -/
  estimator : (c.bayes = true ∧ ∃ w, c.window = some w ∧ total + 2 ≤ 2 * w) ∨ (c.bayes = false ∧ ∀ w, c.window = some w → enough ≤ w)
  length : t.length = c.modelLength
  varying : varying t ≤ V
  both : ∃ k k' : Nat, t[k]? = some (some true) ∧ t[k']? = some (some false)

/-- What was sent, how it was received, and how many words came before. -/
structure Received (c : WbdCfg) (t : Template) (code : List Bool → Prop) (R T E enough : Nat) (x : List Bool) (w : List ℝ) (before : Nat) : Prop where
  sent : code x
  same : w.length = x.length
  long : ∀ i ∈ c.idx, i < w.length
  fits : C145.Fits t (bitsAt c.idx x)
  messages : Recovered (bytesOf (bitsAt c.idx x))
  positive : ∃ r ∈ w, 0 < r
  moderate : ∀ r ∈ w, |r| ≤ 18
  outside : errorsOff c.idx x w ≤ R
  total : errors x w ≤ E
  early : before < enough → errors x w ≤ T

theorem run_append (c : WbdCfg) (ldpc : Ldpc Λ) : ∀ (x y : List (List ℝ)) (s : Wbd Λ),
    Wbd.run c ldpc s (x ++ y) = ((Wbd.run c ldpc (Wbd.run c ldpc s x).1 y).1, (Wbd.run c ldpc s x).2 ++ (Wbd.run c ldpc (Wbd.run c ldpc s x).1 y).2)
  | [], y, s => rfl
  | w :: x, y, s => by simp only [List.cons_append, Wbd.run, run_append c ldpc x y]

theorem run_length (c : WbdCfg) (ldpc : Ldpc Λ) : ∀ (x : List (List ℝ)) (s : Wbd Λ), (Wbd.run c ldpc s x).2.length = x.length
  | [], s => rfl
  | w :: x, s => by simp only [Wbd.run, List.length_cons, run_length c ldpc x]

/-- A model learns a word with both letters. -/
theorem half_learns {c : WbdCfg} (hm : 0 < c.modelLength) (hw : c.bayes = false → c.window ≠ some 0) {h : Half}
    (hinv : c.bayes = true → ∃ ws, BayesInv c h ws) {bits : List Bool} (hl : bits.length = c.modelLength)
    (hboth : (∃ j, j < c.modelLength ∧ bits.getD j false = false) ∧ ∃ j, j < c.modelLength ∧ bits.getD j false = true)
    (hx : c.idx.length = c.modelLength) :
    (h.update c bits).2 = .ok () ∧ ((h.update c bits).1.ents = [] ∨ (h.update c bits).1.ents.length = c.idx.length) := by
  cases hb : c.bayes with
  | true =>
    obtain ⟨ws, hi⟩ := hinv hb
    obtain ⟨h', hu, hi', _⟩ := bayes_update hb hm hi hl
    rw [hu]
    exact ⟨rfl, bayes_ents hi' hx⟩
  | false =>
    have hmem := growData_mem (hw hb) h.data bits
    obtain ⟨_, h2, _⟩ := mle_update hb hm (hw hb) h hl
    obtain ⟨u1, u2, u3⟩ := h2 ⟨⟨bits, hmem, hboth.1⟩, bits, hmem, hboth.2⟩
    refine ⟨u1, .inr ?_⟩
    rw [u3, u2]
    simp [rowEntropies, hx]

/-- The end of a call whose estimate consists of messages: it returns the estimate. -/
theorem finish_ok {c : WbdCfg} (hm : 0 < c.modelLength) (hx : c.idx.length = c.modelLength) (hw : c.bayes = false → c.window ≠ some 0) {s : Wbd Λ}
    (ha : c.bayes = true → ∃ ws, BayesInv c s.a ws) (hb : c.bayes = true → ∃ ws, BayesInv c s.b ws) (handed : List LdpcIn) (o : LdpcOut)
    (first : Bool) (word : List ℝ) (hlt : ∀ i ∈ c.idx, i < o.estimate.length) (hrec : Recovered (bytesOf (bitsAt c.idx o.estimate)))
    (hboth : (∃ j, j < c.modelLength ∧ (bitsAt c.idx o.estimate).getD j false = false) ∧
      ∃ j, j < c.modelLength ∧ (bitsAt c.idx o.estimate).getD j false = true) :
    ∃ out, (s.finish c handed o first word).result = .ok out ∧ out.estimate = o.estimate ∧ out.success = o.success := by
  have htk := takeIdx_of_lt hlt
  obtain ⟨hbits, hlen⟩ := takeIdx_bitsAt htk
  obtain ⟨seg, hseg, _⟩ := c20_never_raises (packBits (c.idx.filterMap (o.estimate[·]?)))
  have hsegB := packBits_eq (c.idx.filterMap (o.estimate[·]?)) ▸ hseg
  have hu := (unknown_iff _ _ hsegB).2 hrec
  obtain ⟨a1, a2⟩ := half_learns hm hw ha (bits := bitsAt c.idx o.estimate) (hlen.trans hx) hboth hx
  obtain ⟨b1, b2⟩ := half_learns hm hw hb (bits := bitsAt c.idx o.estimate) (hlen.trans hx) hboth hx
  unfold bitsAt at a1 a2 b1 b2
  rcases ea : s.a.update c (c.idx.filterMap (o.estimate[·]?)) with ⟨a', ra⟩
  rcases eb : s.b.update c (c.idx.filterMap (o.estimate[·]?)) with ⟨b', rb⟩
  rw [ea] at a1 a2
  rw [eb] at b1 b2
  simp only at a1 a2 b1 b2
  subst a1 b1
  unfold Wbd.finish
  simp only [htk, hseg, hu, not_false_eq_true, decide_true, Bool.or_true, if_true, Wbd.learn, Wbd.updateA, Wbd.updateB, ea, eb]
  obtain ⟨x, hx'⟩ := maskIdx_ents (c := c) a2
  obtain ⟨y, hy⟩ := maskIdx_ents (c := c) b2
  unfold Wbd.output
  rw [hx', hy]
  exact ⟨_, rfl, rfl, rfl⟩

theorem events_append (c : WbdCfg) (ldpc : Ldpc Λ) (s : Wbd Λ) (pre : List (List ℝ)) (w : List ℝ) :
    wbdEvents (pre ++ [w]) (Wbd.run c ldpc s (pre ++ [w])).2 =
      wbdEvents pre (Wbd.run c ldpc s pre).2 ++ [⟨w, ((Wbd.run c ldpc s pre).1.decode c ldpc w).handed.length,
        ((Wbd.run c ldpc s pre).1.decode c ldpc w).result⟩] := by
  rw [run_append]
  unfold wbdEvents
  simp only
  rw [List.zipWith_append (by rw [run_length])]
  rfl

/-- **C148.** Let the LDPC decoder correct up to `T` wrong bits and never take a word with up to `E` wrong bits for another one than was sent. The
words sent consist of messages and have bits in common. The first ones have at most `T` wrong bits, later ones up to `E`, of which at most
`T` may be at bits that vary or lie outside the models. Then all calls return the word sent, with success. -/
theorem c148_forever {c : WbdCfg} {t : Template} {V enough : Nat} (words : List (List ℝ)) (K : Setup c t V enough words.length) (ldpc : Ldpc Λ)
    (code : List Bool → Prop) (R T E : Nat) (hcor : Corrects ldpc code T) (hdet : Detects ldpc code E) (hT : V + R ≤ T)
    (l : Λ) (s0 : Wbd Λ) (h0 : Wbd.new c l = .ok s0) (sent : List (List Bool)) (hlen : sent.length = words.length)
    (hlink : ∀ (j : Nat) (x : List Bool) (w : List ℝ), sent[j]? = some x → words[j]? = some w → Received c t code R T E enough x w j) :
    List.Forall₂ (fun st x => ∃ out, st.result = .ok out ∧ out.success = true ∧ out.estimate = x) (Wbd.run c ldpc s0 words).2 sent := by
  -- prefixes
  suffices h : ∀ n ≤ words.length,
      List.Forall₂ (fun (st : WbdStep Λ) x => ∃ out, st.result = .ok out ∧ out.success = true ∧ out.estimate = x)
        (Wbd.run c ldpc s0 (words.take n)).2 (sent.take n) ∧
      goodWords c.idx (wbdEvents (words.take n) (Wbd.run c ldpc s0 (words.take n)).2) = (sent.take n).map (bitsAt c.idx) ∧
      allWords c.idx (wbdEvents (words.take n) (Wbd.run c ldpc s0 (words.take n)).2) = (sent.take n).map (bitsAt c.idx) by
    have := (h words.length le_rfl).1
    rwa [List.take_length, List.take_of_length_le (by omega)] at this
  have hwin0 : c.bayes = false → c.window ≠ some 0 := by
    intro hb h
    rcases K.estimator with ⟨h1, _⟩ | ⟨_, h2⟩
    · rw [hb] at h1; cases h1
    · have := h2 0 h
      have := K.trusted.1
      omega
  intro n
  induction n with
  | zero =>
    intro _
    simp [Wbd.run, wbdEvents, goodWords, allWords]
  | succ n ih =>
    intro hn
    obtain ⟨i1, i2, i3⟩ := ih (by omega)
    have hw : words[n]? = some words[n] := List.getElem?_eq_getElem (by omega)
    have hx : sent[n]? = some sent[n] := List.getElem?_eq_getElem (by omega)
    have L := hlink n _ _ hx hw
    set w := words[n] with hwdef
    set x := sent[n] with hxdef
    have ew : words.take (n + 1) = words.take n ++ [w] := by rw [List.take_add_one, hw]; rfl
    have ex : sent.take (n + 1) = sent.take n ++ [x] := by rw [List.take_add_one, hx]; rfl
    set s := (Wbd.run c ldpc s0 (words.take n)).1 with hs
    have hltx : ∀ i ∈ c.idx, i < x.length := fun i hi => by rw [← L.same]; exact L.long i hi
    have hbl : (bitsAt c.idx x).length = c.modelLength := L.fits.1.trans K.length
    obtain ⟨k1, k2, hk1, hk2⟩ := K.both
    have hval : ∀ (b : List Bool), C145.Fits t b → ∀ (k : Nat) (v : Bool), t[k]? = some (some v) → k < c.modelLength ∧ b.getD k false = v := by
      intro b hb k v hk
      refine ⟨by rw [← K.length]; exact (List.getElem?_eq_some_iff.1 hk).1, ?_⟩
      rw [List.getD_eq_getElem?_getD, hb.2 k v hk]
      rfl
    have hboth : (∃ j, j < c.modelLength ∧ (bitsAt c.idx x).getD j false = false) ∧ ∃ j, j < c.modelLength ∧ (bitsAt c.idx x).getD j false = true :=
      ⟨⟨k2, hval _ L.fits k2 _ hk2⟩, k1, hval _ L.fits k1 _ hk1⟩
    have hinv : ∀ hb : c.bayes = true, BayesInv c s.a ((sent.take n).map (bitsAt c.idx)) ∧ BayesInv c s.b ((sent.take n).map (bitsAt c.idx)) := by
      intro hb
      have := bayes_run hb K.bitsPos K.bits ldpc h0 (words := words.take n) (s := s) (steps := (Wbd.run c ldpc s0 (words.take n)).2) rfl
      rwa [i2, i3] at this
    -- the call returns the word sent
    have key : ∃ out, (s.decode c ldpc w).result = .ok out ∧ out.success = true ∧ out.estimate = x := by
      have fin : ∀ (l' : Λ) (handed : List LdpcIn) (o : LdpcOut) (first : Bool), o.success = true → o.estimate = x →
          ∃ out, (Wbd.finish c { s with ldpc := l' } handed o first w).result = .ok out ∧ out.success = true ∧ out.estimate = x := by
        intro l' handed o first ho he
        obtain ⟨out, q1, q2, q3⟩ := finish_ok (s := ({ s with ldpc := l' } : Wbd Λ)) K.bitsPos K.bits hwin0 (fun hb => ⟨_, (hinv hb).1⟩)
          (fun hb => ⟨_, (hinv hb).2⟩) handed o first w (by rw [he]; exact hltx) (by rw [he]; exact L.messages) (by rw [he]; exact hboth)
        exact ⟨out, q1, q3.trans ho, q2.trans he⟩
      cases hsucc : (ldpc s.ldpc (.llr w)).2.success with
      | true =>
        have he := hdet s.ldpc x w L.sent L.same L.total hsucc
        unfold Wbd.decode
        simp only [hsucc, if_true]
        exact fin _ _ _ _ hsucc he
      | false =>
        have hen : enough ≤ n := by
          by_contra hc
          have := (hcor s.ldpc x w L.sent L.same (L.early (by omega))).1
          rw [hsucc] at this
          cases this
        -- the models
        set D := counted c ((sent.take n).map (bitsAt c.idx)) with hD
        have hDl : enough ≤ D.length ∧ ∀ b ∈ D, C145.Fits t b := by
          have hall : ∀ b ∈ (sent.take n).map (bitsAt c.idx), C145.Fits t b := by
            intro b hb
            obtain ⟨y, hy, rfl⟩ := List.mem_map.1 hb
            obtain ⟨j, hj, rfl⟩ := List.getElem_of_mem hy
            rw [List.length_take] at hj
            rw [List.getElem_take]
            exact (hlink j _ _ (List.getElem?_eq_getElem (by omega)) (List.getElem?_eq_getElem (by omega))).fits
          have hl' : ((sent.take n).map (bitsAt c.idx)).length = n := by
            rw [List.length_map, List.length_take]; omega
          rw [hD]
          unfold counted
          split
          · exact ⟨by omega, hall⟩
          · rename_i hb
            refine ⟨?_, fun b hb => hall b (keep_mem hb)⟩
            exact (C147.keep_length (n := enough) (r := 0) (by omega) (by positivity) fun k hk => ⟨by
              rcases K.estimator with ⟨h1, _⟩ | ⟨_, h2⟩
              · exact absurd h1 hb
              · exact h2 k hk, by positivity⟩).1
        have H : History c ldpc s D D := by
          refine ⟨K.bitsPos, K.bits, K.distinct, l, s0, words.take n, (Wbd.run c ldpc s0 (words.take n)).2, h0, rfl, by rw [i2], by rw [i3], ?_⟩
          rcases K.estimator with ⟨hb, W, hW, hle⟩ | ⟨hb, _⟩
          · refine .inl ⟨hb, by have := K.sensible.flipsHalf; intro h; linarith, W, hW, ?_⟩
            have : D.length ≤ words.length := by
              rw [hD]
              unfold counted
              rw [if_pos hb, List.length_map, List.length_take]
              omega
            omega
          · refine .inr ⟨hb, hwin0 hb, ?_⟩
            intro st hst
            obtain ⟨j, hj, rfl⟩ := List.getElem_of_mem hst
            obtain ⟨hl', hall⟩ := List.forall₂_iff_get.1 i1
            obtain ⟨out, ho, _⟩ := hall j hj (by omega)
            exact ⟨out, ho⟩
        have hDne : D ≠ [] := by
          intro h
          rw [h] at hDl
          have := hDl.1
          have := K.trusted.1
          simp at *
          omega
        have hconst : ∀ (k : Nat) (v : Bool), t[k]? = some (some v) → ∀ b ∈ D ++ D, b.getD k false = v := by
          intro k v hk b hb
          have : b ∈ D := by simpa using hb
          exact (hval b (hDl.2 b this) k v hk).2
        have hsteady : ∀ (k : Nat) (v : Bool), t[k]? = some (some v) → C135.Steady c D k := by
          intro k v hk
          refine ⟨hDne, ?_⟩
          have hp : C135.prob c D k = if v then 1 else 0 :=
            C131.chance_constant (flips_range K.sensible).2 (C131.constant_of_all (flips_range K.sensible).1 hDne fun b hb => hconst k v hk b (by simp [hb]))
          rw [hp]
          have := K.sensible.threshold
          cases v <;> simpa using this
        have hcase : C135.Case c ldpc s D D w := by
          refine ⟨H, K.clips, fun _ => ⟨hDne, hDne⟩, ?_, L.long, hsucc, L.positive⟩
          have a1 : k1 < c.idx.length := by rw [K.bits, ← K.length]; exact (List.getElem?_eq_some_iff.1 hk1).1
          have a2 : k2 < c.idx.length := by rw [K.bits, ← K.length]; exact (List.getElem?_eq_some_iff.1 hk2).1
          by_cases hz : c.idx[k1] = 0
          · refine ⟨k2, c.idx[k2], List.getElem?_eq_getElem a2, fun hz' => ?_, .inl (hsteady k2 _ hk2)⟩
            have : k1 = k2 := (List.Nodup.getElem_inj_iff K.distinct).1 (hz.trans hz'.symm)
            rw [this, hk2] at hk1
            cases hk1
          · exact ⟨k1, c.idx[k1], List.getElem?_eq_getElem a1, hz, .inl (hsteady k1 _ hk1)⟩
        have G : Seasoned c D D := by
          have hcast : ((enough : Nat) : ℝ) ≤ D.length := by exact_mod_cast hDl.1
          have h2 := K.trusted.1.trans hDl.1
          exact ⟨⟨h2, h2⟩, ⟨K.trusted.2.1.trans hcast, K.trusted.2.2.trans hcast⟩, K.slopes⟩
        obtain ⟨v, v1, v2, v3, v4⟩ := c135_decisions hcase
        obtain ⟨v', v1', v5⟩ := c135_centre K.sensible K.scheme hcase G
        have hvv : v' = v := by
          rw [v1] at v1'
          simpa using v1'.symm
        subst hvv
        have hfix : ∀ (k i : Nat) (b : Bool), c.idx[k]? = some i → t[k]? = some (some b) → (v'.getD i 0 < 0 ↔ b = true) := by
          intro k i b hk hb
          refine v5 k i b hk (hconst k b hb) ?_
          have hi := L.long i (List.mem_of_getElem? hk)
          rw [List.getD_eq_getElem?_getD, List.getElem?_eq_getElem hi]
          have := L.moderate _ (List.getElem_mem hi)
          simp only [Option.getD_some]
          split <;> linarith
        have herr := (errors_le (idx := c.idx) (t := t) (by rw [K.bits, K.length]) L.same v2 hltx L.fits v4 fun k i b hk hb _ => hfix k i b hk hb).2 hfix
        have hV := K.varying
        have hR := L.outside
        -- the second attempt
        have hpred : ({ s with ldpc := (ldpc s.ldpc (.llr w)).1 } : Wbd Λ).predict c w = .ok v' := by
          unfold Wbd.decode at v1
          simp only [hsucc, Bool.false_eq_true, if_false] at v1
          cases hp : ({ s with ldpc := (ldpc s.ldpc (.llr w)).1 } : Wbd Λ).predict c w with
          | error e =>
            rw [hp] at v1
            simp at v1
          | ok u =>
            rw [hp] at v1
            simp only at v1
            rw [finish_handed] at v1
            simp only [List.cons.injEq, LdpcIn.llr.injEq, and_true, true_and] at v1
            rw [v1]
        obtain ⟨c1, c2⟩ := hcor (ldpc s.ldpc (.llr w)).1 x v' L.sent (v2.trans L.same) (by omega)
        unfold Wbd.decode
        simp only [hsucc, Bool.false_eq_true, if_false, hpred]
        exact fin _ _ _ _ c1 c2
    obtain ⟨out, o1, o2, o3⟩ := key
    rw [ew, ex, events_append]
    refine ⟨?_, ?_, ?_⟩
    · rw [run_append]
      exact List.rel_append i1 (.cons ⟨out, o1, o2, o3⟩ .nil)
    · have := goodWords_one c.idx ⟨w, (s.decode c ldpc w).handed.length, (s.decode c ldpc w).result⟩ out o1
      rw [o3, recoveredWord, if_pos L.messages] at this
      have e : ∀ p q : List WbdEvent, goodWords c.idx (p ++ q) = goodWords c.idx p ++ goodWords c.idx q := fun p q => List.filterMap_append
      rw [e, i2, List.map_append, ← hs, this]
      rfl
    · have := (allWords_one c.idx ⟨w, (s.decode c ldpc w).handed.length, (s.decode c ldpc w).result⟩ out o1).1 (.inr (by rw [o3]; exact L.messages))
      rw [o3] at this
      have e : ∀ p q : List WbdEvent, allWords c.idx (p ++ q) = allWords c.idx p ++ allWords c.idx q := fun p q => List.filterMap_append
      rw [e, i3, List.map_append, ← hs, this]
      rfl

/-! ### A case that meets the hypotheses -/

open Classical in
/-- An LDPC decoder for a code with one word, which corrects nothing: it succeeds if it is handed that word. -/
noncomputable def strict : Ldpc Unit := fun _ inp => match inp with
  | .llr w => ((), ⟨hardWord w, w, decide (hardWord w = beat), 1, [], []⟩)
  | _ => ((), ⟨[], [], false, 20, [], []⟩)

theorem same_of_errors {x : List Bool} {w : List ℝ} (h : w.length = x.length) (he : errors x w ≤ 0) : hardWord w = x := by
  apply List.ext_getElem?
  intro i
  by_cases hi : i < x.length
  · by_contra hc
    have hm : i ∈ (Finset.range x.length).filter fun i => (hardWord w)[i]? ≠ x[i]? := Finset.mem_filter.2 ⟨Finset.mem_range.2 hi, hc⟩
    have h0 : ((Finset.range x.length).filter fun i => (hardWord w)[i]? ≠ x[i]?) = ∅ := Finset.card_eq_zero.1 (Nat.le_zero.1 he)
    rw [h0] at hm
    simp at hm
  · rw [List.getElem?_eq_none (by unfold hardWord; rw [List.length_map]; omega), List.getElem?_eq_none (by omega)]

theorem strict_corrects : Corrects strict (fun x => x = beat) 0 := by
  intro s x w hx hw he
  have := same_of_errors hw he
  refine ⟨?_, this⟩
  show decide (hardWord w = beat) = true
  rw [this, hx]
  simp

theorem strict_detects : Detects strict (fun x => x = beat) 2 := by
  intro s x w hx _ _ hs
  have : hardWord w = beat := of_decide_eq_true hs
  exact this.trans hx.symm

/-- Two heartbeats received right and one with two wrong bits, which the LDPC decoder cannot correct: all are decoded. -/
example : List.Forall₂ (fun st x => ∃ out, st.result = .ok out ∧ out.success = true ∧ out.estimate = x)
    (Wbd.run heartCfg strict ⟨Half.new heartCfg, Half.new heartCfg, ()⟩
      [C147.ratios beat, C147.ratios beat, C147.ratios ((beat.set 10 (!beat.getD 10 false)).set 50 (!beat.getD 50 false))]).2 [beat, beat, beat] := by
  have hl : beat.length = 136 := by decide +kernel
  have hb : bitsAt heartCfg.idx beat = beat := by
    show bitsAt (List.range 136) beat = beat
    decide +kernel
  have hfit : C145.Fits (beat.map some) (bitsAt heartCfg.idx beat) := by
    rw [hb]
    refine ⟨by simp, fun i v hi => ?_⟩
    rw [List.getElem?_map] at hi
    cases h : beat[i]? with
    | none => rw [h] at hi; cases hi
    | some u =>
      rw [h] at hi
      exact Option.some.inj hi
  have hkk : ∃ k k' : Nat, (beat.map some)[k]? = some (some true) ∧ (beat.map some)[k']? = some (some false) :=
    ⟨beat.idxOf true, beat.idxOf false, by decide +kernel, by decide +kernel⟩
  have K : Setup heartCfg (beat.map some) 0 2 3 :=
    ⟨⟨by simp [heartCfg, beatCfg], by simp only [heartCfg, beatCfg]; norm_num, by simp [heartCfg, beatCfg]⟩, by simp [heartCfg], by simp [heartCfg],
      by simp [heartCfg, beatCfg], by simp [heartCfg, beatCfg], List.nodup_range, by simp [heartCfg], by simp [heartCfg],
      .inl ⟨rfl, 20, rfl, by decide⟩, by simp [heartCfg, beatCfg, hl], by decide +kernel, hkk⟩
  have hoff : ∀ w : List ℝ, errorsOff heartCfg.idx beat w ≤ 0 := by
    intro w
    unfold errorsOff
    rw [Nat.le_zero, Finset.card_eq_zero, Finset.filter_eq_empty_iff]
    intro i hi h
    rw [Finset.mem_range, hl] at hi
    exact h.1 (by simpa [heartCfg, beatCfg] using hi)
  have hrec : ∀ (b : List Bool) (n : Nat), b.length = 136 → false ∈ b → errors beat (C147.ratios b) ≤ 2 →
      (n < 2 → errors beat (C147.ratios b) ≤ 0) → Received heartCfg (beat.map some) (fun x => x = beat) 0 0 2 2 beat (C147.ratios b) n := by
    intro b n h1 h2 h3 h4
    refine ⟨rfl, by simp [C147.ratios, h1, hl], ?_, hfit, beat_recovered, ⟨5, List.mem_map.2 ⟨false, h2, by simp⟩, by norm_num⟩, ?_, hoff _, h3, h4⟩
    · intro i hi
      simp only [C147.ratios, List.length_map, h1]
      simpa [heartCfg, beatCfg] using hi
    · intro r hr
      obtain ⟨v, _, rfl⟩ := List.mem_map.1 hr
      cases v <;> norm_num
  have hz : errors beat (C147.ratios beat) ≤ 0 := by
    unfold errors
    rw [C147.ratios_hard]
    simp
  refine c148_forever _ K strict (fun x => x = beat) 0 0 2 strict_corrects strict_detects (by decide) () _ rfl [beat, beat, beat] rfl ?_
  intro j x w h1 h2
  match j with
  | 0 => cases h1; cases h2; exact hrec _ _ hl (by decide +kernel) (hz.trans (by decide)) fun _ => hz
  | 1 => cases h1; cases h2; exact hrec _ _ hl (by decide +kernel) (hz.trans (by decide)) fun _ => hz
  | 2 =>
    cases h1; cases h2
    refine hrec _ _ (by simp [hl]) (by decide +kernel) ?_ fun h => absurd h (by decide)
    unfold errors
    rw [C147.ratios_hard]
    decide +kernel
  | j + 3 => cases h1

end NR.C148
