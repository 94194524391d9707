import Verif.Model.TurboEntropy
import Verif.Spec.TurboRuns
import Verif.Props.C58_C60
import Verif.Props.C131
/-
C139: what an entropy decoder learns inside a turbo decoder.
-/
namespace NR.C139
open NR NR.Spec

variable {S T σ Λ : Type}

theorem feed_length (d : SoftDec S) : ∀ (xs : List (List ℝ)) (s : S), (feed d s xs).2.length = xs.length := by
  intro xs
  induction xs with
  | nil => intro s; rfl
  | cons x xs ih => intro s; simp [feed, ih]

/-- One round without success takes the prior `p` of the first decoder to `p'`. -/
def Round (d1 : SoftDec S) (d2 : SoftDec T) (ch p p' : List ℝ) : Prop :=
  ∃ s x1 o1 t x2 o2 q prior2 q', bcastWith (fun (a b : ℝ) => a + b) ch p = .ok x1 ∧ (d1 s x1).2 = .ok o1 ∧ o1.success = false ∧
    bcastWith (fun (a b : ℝ) => a - b) o1.llr ch = .ok q ∧ bcastWith (fun (a b : ℝ) => a - b) q p = .ok prior2 ∧
    bcastWith (fun (a b : ℝ) => a + b) prior2 ch = .ok x2 ∧ (d2 t x2).2 = .ok o2 ∧ o2.success = false ∧
    bcastWith (fun (a b : ℝ) => a - b) o2.llr ch = .ok q' ∧ bcastWith (fun (a b : ℝ) => a - b) q' prior2 = .ok p'

/-- The loop from any round on; `P` holds of the priors of the first decoder. -/
theorem loop_course (d1 : SoftDec S) (d2 : SoftDec T) (debug : Bool) (errorIdx : List Int) (ch : List ℝ) (P : List ℝ → Prop)
    (hP : ∀ p p', P p → Round d1 d2 ch p p' → P p') :
    ∀ (n : Nat) (s : S) (t : T) (p : List ℝ) (last : Option (SoftOut × Nat)), P p → (∀ o e, last = some (o, e) → o.success = false) →
    ∀ (s' : S) (t' : T) (o : TurboOut), turboLoop d1 d2 debug errorIdx ch n s t p last = (s', t', .ok o) →
    ∃ xs ys, (feed d1 s xs).1 = s' ∧ (feed d2 t ys).1 = t' ∧ Course n o (feed d1 s xs).2 (feed d2 t ys).2 ∧
      (0 < n → ∃ x, bcastWith (fun (a b : ℝ) => a + b) ch p = .ok x ∧ xs.head? = some x) ∧
      ∀ x ∈ xs, ∃ p, P p ∧ bcastWith (fun (a b : ℝ) => a + b) ch p = .ok x := by
  intro n
  induction n with
  | zero =>
    intro s t p last hp hlast s' t' o h
    unfold turboLoop at h
    cases last with
    | none => simp at h
    | some l =>
      obtain ⟨q, err⟩ := l
      simp only [Prod.mk.injEq, Except.ok.injEq] at h
      obtain ⟨rfl, rfl, rfl⟩ := h
      refine ⟨[], [], rfl, rfl, .none ?_ ?_ rfl rfl (hlast q err rfl) rfl, fun h => absurd h (by omega), by simp⟩ <;>
        intro r hr <;> cases hr
  | succ n ih =>
    intro s t p last hp _ s' t' o h
    unfold turboLoop at h
    cases hx : bcastWith (fun (a b : ℝ) => a + b) ch p with
    | error e => rw [hx] at h; simp at h
    | ok x1 =>
      rw [hx] at h
      simp only at h
      rcases hd1 : d1 s x1 with ⟨s1, r1⟩
      rw [hd1] at h
      cases r1 with
      | error e => simp at h
      | ok o1 =>
        simp only at h
        by_cases hs1 : o1.success = true
        · rw [if_pos hs1] at h
          simp only [Prod.mk.injEq, Except.ok.injEq] at h
          obtain ⟨rfl, rfl, rfl⟩ := h
          refine ⟨[x1], [], by simp [feed, hd1], rfl, .first [] o1 (by simp [feed, hd1]) ?_ hs1 ?_ rfl (by simp [feed]) rfl,
            fun _ => ⟨x1, rfl, rfl⟩, by simpa using ⟨p, hp, hx⟩⟩ <;> intro r hr <;> cases hr
        · rw [if_neg hs1] at h
          have hf1 : o1.success = false := by simpa using hs1
          split at h
          · simp at h
          · rename_i prior2 x2 hmid
            rcases hd2 : d2 t x2 with ⟨t1, r2⟩
            rw [hd2] at h
            cases r2 with
            | error e => simp at h
            | ok o2 =>
              simp only at h
              by_cases hs2 : o2.success = true
              · rw [if_pos hs2] at h
                simp only [Prod.mk.injEq, Except.ok.injEq] at h
                obtain ⟨rfl, rfl, rfl⟩ := h
                refine ⟨[x1], [x2], by simp [feed, hd1], by simp [feed, hd2], .second [] o2 (by simp [feed, hd2]) ?_ hs2 ?_ rfl
                  (by simp [feed]) rfl, fun _ => ⟨x1, rfl, rfl⟩, by simpa using ⟨p, hp, hx⟩⟩
                · intro r hr; cases hr
                · intro r hr
                  simp only [feed, hd1, List.mem_cons, List.not_mem_nil, or_false] at hr
                  exact ⟨o1, hr, hf1⟩
              · rw [if_neg hs2] at h
                have hf2 : o2.success = false := by simpa using hs2
                split at h
                · simp at h
                · rename_i prior1 err hend
                  have hround : Round d1 d2 ch p prior1 := by
                    simp only [bind, Except.bind, pure, Except.pure] at hmid hend
                    split at hmid
                    · cases hmid
                    rename_i q hq
                    split at hmid
                    · cases hmid
                    rename_i pr hpr
                    split at hmid
                    · cases hmid
                    rename_i x hx2
                    simp only [Except.ok.injEq, Prod.mk.injEq] at hmid
                    obtain ⟨rfl, rfl⟩ := hmid
                    split at hend
                    · cases hend
                    rename_i q' hq'
                    split at hend
                    · cases hend
                    rename_i pr1 hpr1
                    split at hend
                    · cases hend
                    simp only [Except.ok.injEq, Prod.mk.injEq] at hend
                    obtain ⟨rfl, _⟩ := hend
                    exact ⟨s, x1, o1, t, x, o2, q, pr, q', hx, by rw [hd1], hf1, hq, hpr, hx2, by rw [hd2], hf2, hq', hpr1⟩
                  obtain ⟨xs, ys, e1, e2, hc, _, hall⟩ := ih s1 t1 prior1 (some (o2, err)) (hP _ _ hp hround) (by
                    intro o e h; simp only [Option.some.injEq, Prod.mk.injEq] at h; rw [← h.1]; exact hf2) s' t' o h
                  refine ⟨x1 :: xs, x2 :: ys, by simp [feed, hd1, e1], by simp [feed, hd2, e2], ?_, fun _ => ⟨x1, rfl, rfl⟩, fun x hx' => ?_⟩
                  rotate_left
                  · rcases List.mem_cons.1 hx' with rfl | hx'
                    · exact ⟨p, hp, hx⟩
                    · exact hall x hx'
                  have k1 : (feed d1 s (x1 :: xs)).2 = .ok o1 :: (feed d1 s1 xs).2 := by simp [feed, hd1]
                  have k2 : (feed d2 t (x2 :: ys)).2 = .ok o2 :: (feed d2 t1 ys).2 := by simp [feed, hd2]
                  have c1 : ∀ rs, AllFail rs → AllFail (.ok o1 :: rs) := by
                    intro rs h r hr
                    rcases List.mem_cons.1 hr with rfl | hr
                    · exact ⟨o1, rfl, hf1⟩
                    · exact h r hr
                  have c2 : ∀ rs, AllFail rs → AllFail (.ok o2 :: rs) := by
                    intro rs h r hr
                    rcases List.mem_cons.1 hr with rfl | hr
                    · exact ⟨o2, rfl, hf2⟩
                    · exact h r hr
                  rw [k1, k2]
                  cases hc with
                  | first a q h1 ha hq h2 hl hn ho =>
                    exact .first (.ok o1 :: a) q (by rw [h1]; rfl) (c1 _ ha) hq (c2 _ h2) (by simp [hl]) (by simpa using hn) ho
                  | second b q h2 hb hq h1 hl hn ho =>
                    exact .second (.ok o2 :: b) q (by rw [h2]; rfl) (c2 _ hb) hq (c1 _ h1) (by simp [hl]) (by simpa using hn) ho
                  | none h1 h2 l1 l2 ho hw =>
                    exact .none (c1 _ h1) (c2 _ h2) (by simp [l1]) (by simp [l2]) ho hw

theorem add_zeros (ch : List ℝ) : bcastWith (fun (a b : ℝ) => a + b) ch (List.replicate ch.length 0) = .ok ch := by
  rw [bcast_same _ _ _ (by simp)]
  congr 1
  apply List.ext_getElem
  · simp
  · intro i _ _; simp

/-- **C139.** Any two decoders, with any states: a call that returns has run each of them at most once per round, the first decoder first and
on the received word itself. The runs before the last failed; a failure is reported exactly after all `max_iter` rounds. -/
theorem c139_runs (d1 : SoftDec S) (d2 : SoftDec T) (n : Nat) (debug : Bool) (s : S) (t : T) (ch : List ℝ) (errorIdx : List Int)
    (s' : S) (t' : T) (o : TurboOut) (h : turboDecode d1 d2 n debug s t ch errorIdx = (s', t', .ok o)) :
    ∃ xs ys, xs.head? = some ch ∧ (feed d1 s xs).1 = s' ∧ (feed d2 t ys).1 = t' ∧ Course n o (feed d1 s xs).2 (feed d2 t ys).2 := by
  have hn : 0 < n := by
    rcases n with _ | n
    · simp [turboDecode, turboLoop] at h
    · omega
  obtain ⟨xs, ys, e1, e2, hc, hx, _⟩ := loop_course d1 d2 debug errorIdx ch (fun _ => True) (fun _ _ _ _ => trivial) n s t _ none trivial
    (by simp) s' t' o h
  obtain ⟨x, hx1, hx2⟩ := hx hn
  rw [add_zeros] at hx1
  injection hx1 with hx1
  exact ⟨xs, ys, by rw [hx2, hx1], e1, e2, hc⟩

/-- What a run of the entropy decoder with one cluster teaches it: the model bits of the estimate, or of what it was given. -/
noncomputable def taught (c : CedCfg) (x : List ℝ) : List Bool := bitsAt c.idx (hardWord x)

theorem label_zero {c : CedCfg} (h1 : c.nClusters ≤ 1) (cls : Labeler σ) (ldpc : Ldpc Λ) (s : Ced σ Λ) (x : List ℝ) (r : CedOut)
    (h : (s.decode c cls ldpc x).result = .ok r) : r.label = 0 := by
  have e : ∀ bits, pickLabel cls c.nClusters c.cluster s.cls s.running bits = (s.cls, s.running, .ok 0) := by
    intro b; unfold pickLabel; rw [if_neg (by omega)]
  unfold Ced.decode at h
  cases ht : takeIdx (hardBits x) c.idx with
  | error e => rw [ht] at h; simp at h
  | ok b =>
    rw [ht] at h
    simp only [e, lt_irrefl, if_false] at h
    split at h
    · simp at h
    · unfold Ced.finish at h
      split at h
      · simp at h
      · simp only at h
        split at h
        · simp at h
        · split at h
          · split at h
            · simp at h
            · simp only [Except.ok.injEq] at h
              rw [← h]; rfl
          · simp at h

/-- What runs of the entropy decoder teach it. -/
theorem feed_data {c : CedCfg} (h1 : c.nClusters ≤ 1) (ht : c.train = true) (hm : 0 < c.modelLength) (hi : c.idx.length = c.modelLength)
    (cls : Labeler σ) (ldpc : Ldpc Λ) : ∀ (xs : List (List ℝ)) (s : Ced σ Λ) (old : List (List Bool)) (outs : List SoftOut),
    (∀ x ∈ old, x.length = c.modelLength) → s.datas[0]? = some (keep c.window old) →
    (feed (Ced.soft c cls ldpc) s xs).2 = outs.map .ok →
    (feed (Ced.soft c cls ldpc) s xs).1.datas[0]? = some (keep c.window (old ++
      (xs.zip outs).map fun p => bitsAt c.idx (if p.2.success then p.2.estimate else hardWord p.1))) ∧
    ∀ x ∈ old ++ ((xs.zip outs).map fun p => bitsAt c.idx (if p.2.success then p.2.estimate else hardWord p.1)), x.length = c.modelLength := by
  intro xs
  induction xs with
  | nil => intro s old outs hl hs ho; simpa [feed] using ⟨hs, hl⟩
  | cons x xs ih =>
    intro s old outs hl hs ho
    cases outs with
    | nil => simp [feed] at ho
    | cons q outs =>
      simp only [feed, List.map_cons, List.cons.injEq] at ho
      obtain ⟨ho1, ho2⟩ := ho
      obtain ⟨r, hr, hq⟩ : ∃ r, (s.decode c cls ldpc x).result = .ok r ∧ q = ⟨r.estimate, r.llr, r.success⟩ := by
        unfold Ced.soft at ho1
        cases hr : (s.decode c cls ldpc x).result with
        | error e => rw [hr] at ho1; simp [Except.map] at ho1
        | ok r => rw [hr] at ho1; simp only [Except.map, Except.ok.injEq] at ho1; exact ⟨r, rfl, ho1.symm⟩
      have hlab := label_zero h1 cls ldpc s x r hr
      have hlearn := c53_learned c cls ldpc s x r hr
      rw [hlab, if_neg (by omega)] at hlearn
      obtain ⟨d1, d2⟩ := decode_data ht hm hi cls ldpc s x 0 old hl hs
      have hb : learnedBy 0 [s.decode c cls ldpc x] = [bitsAt c.idx (if q.success then q.estimate else hardWord x)] := by
        simp [learnedBy, hlearn, hq]
      rw [hb] at d1 d2
      have := ih (s.decode c cls ldpc x).state (old ++ [bitsAt c.idx (if q.success then q.estimate else hardWord x)]) outs
        (by
          intro y hy
          rcases List.mem_append.1 hy with hy | hy
          · exact hl y hy
          · exact d2 y hy) d1 ho2
      rw [List.append_assoc, List.singleton_append] at this
      simp only [List.zip_cons_cons, List.map_cons]
      exact this

theorem okList (rs : List (Except PyErr SoftOut)) (h : ∀ r ∈ rs, ∃ o, r = .ok o) : ∃ outs : List SoftOut, rs = outs.map .ok := by
  induction rs with
  | nil => exact ⟨[], rfl⟩
  | cons r rs ih =>
    obtain ⟨o, rfl⟩ := h r List.mem_cons_self
    obtain ⟨outs, rfl⟩ := ih (fun r hr => h r (List.mem_cons_of_mem _ hr))
    exact ⟨o :: outs, rfl⟩

theorem failed_map {c : CedCfg} : ∀ (xs : List (List ℝ)) (outs : List SoftOut), outs.length = xs.length → (∀ o ∈ outs, o.success = false) →
    ((xs.zip outs).map fun p => bitsAt c.idx (if p.2.success then p.2.estimate else hardWord p.1)) = xs.map (taught c) := by
  intro xs
  induction xs with
  | nil => intro outs _ _; rfl
  | cons x xs ih =>
    intro outs hl hf
    cases outs with
    | nil => simp at hl
    | cons q outs =>
      simp only [List.zip_cons_cons, List.map_cons]
      rw [ih outs (by simpa using hl) (fun o ho => hf o (List.mem_cons_of_mem _ ho)), hf q List.mem_cons_self]
      rfl

/-- **C139.** An entropy decoder with one cluster inside a turbo decoder, after any history `old` of learned words: a call that returns makes
it learn one word per round. These are the model bits of the hard decisions on what it was given in the round, even when the second decoder
succeeds; only when the entropy decoder itself succeeds, the last word learned is the estimate. -/
theorem c139_learned {c : CedCfg} (h1 : c.nClusters ≤ 1) (ht : c.train = true) (hm : 0 < c.modelLength) (hi : c.idx.length = c.modelLength)
    (cls : Labeler σ) (ldpc : Ldpc Λ) (d2 : SoftDec T) (n : Nat) (debug : Bool) (s : Ced σ Λ) (t : T) (ch : List ℝ) (errorIdx : List Int)
    (old : List (List Bool)) (hl : ∀ x ∈ old, x.length = c.modelLength) (hs : s.datas[0]? = some (keep c.window old))
    (s' : Ced σ Λ) (t' : T) (o : TurboOut) (h : turboDecode (Ced.soft c cls ldpc) d2 n debug s t ch errorIdx = (s', t', .ok o)) :
    ∃ xs : List (List ℝ), xs.head? = some ch ∧ xs.length ≤ n ∧ (o.success = false → xs.length = n) ∧
      s'.datas[0]? = some (keep c.window (old ++
        if o.success = true ∧ o.which = 1 then xs.dropLast.map (taught c) ++ [bitsAt c.idx o.estimate] else xs.map (taught c))) ∧
      ∀ w ∈ (if o.success = true ∧ o.which = 1 then xs.dropLast.map (taught c) ++ [bitsAt c.idx o.estimate] else xs.map (taught c)),
        w.length = c.modelLength := by
  obtain ⟨xs, ys, hx, e1, _, hc⟩ := c139_runs _ d2 n debug s t ch errorIdx s' t' o h
  have hlen := feed_length (Ced.soft c cls ldpc) xs s
  have fails : ∀ outs : List SoftOut, AllFail (outs.map .ok) → ∀ o ∈ outs, o.success = false := by
    intro outs ha o ho
    obtain ⟨o', e, hf⟩ := ha _ (List.mem_map_of_mem ho)
    injection e with e
    rw [e]; exact hf
  have all : AllFail (feed (Ced.soft c cls ldpc) s xs).2 →
      s'.datas[0]? = some (keep c.window (old ++ xs.map (taught c))) ∧ ∀ w ∈ xs.map (taught c), w.length = c.modelLength := by
    intro ha
    obtain ⟨outs, ho⟩ := okList _ (fun r hr => (ha r hr).imp fun _ h => h.1)
    have := feed_data h1 ht hm hi cls ldpc xs s old outs hl hs ho
    rw [failed_map xs outs (by rw [← hlen, ho]; simp) (fails outs (ho ▸ ha)), e1] at this
    exact ⟨this.1, fun w hw => this.2 w (List.mem_append_right _ hw)⟩
  cases hc with
  | first a q g1 ha hq g2 gl gn go =>
    obtain ⟨pre, hpre⟩ := okList a (fun r hr => (ha r hr).imp fun _ h => h.1)
    have hne : xs ≠ [] := by rintro rfl; simp at hx
    obtain ⟨xs', x, rfl⟩ : ∃ xs' x, xs = xs' ++ [x] := ⟨xs.dropLast, xs.getLast hne, (List.dropLast_append_getLast hne).symm⟩
    have hpl : pre.length = xs'.length := by
      have : (feed (Ced.soft c cls ldpc) s (xs' ++ [x])).2.length = (a ++ [Except.ok q]).length := by rw [g1]
      rw [hlen, hpre] at this
      simpa using this.symm
    have := feed_data h1 ht hm hi cls ldpc (xs' ++ [x]) s old (pre ++ [q]) hl hs (by rw [g1, hpre]; simp)
    rw [List.zip_append hpl.symm, List.map_append, failed_map xs' pre hpl (fails pre (hpre ▸ ha)), e1] at this
    have hz : (([x].zip [q]).map fun p : List ℝ × SoftOut => bitsAt c.idx (if p.2.success then p.2.estimate else hardWord p.1)) =
        [bitsAt c.idx o.estimate] := by
      rw [go]; simp [hq]
    rw [hz] at this
    have hcond : o.success = true ∧ o.which = 1 := by rw [go]; exact ⟨rfl, rfl⟩
    refine ⟨_, hx, (by rw [← hlen]; exact gn), (fun hf => by rw [hcond.1] at hf; cases hf), ?_⟩
    rw [if_pos hcond, List.dropLast_concat]
    exact ⟨this.1, fun w hw => this.2 w (List.mem_append_right _ hw)⟩
  | second b q g2 hb hq g1 gl gn go =>
    have hcond : ¬ (o.success = true ∧ o.which = 1) := by rw [go]; simp
    refine ⟨xs, hx, (by rw [← hlen]; exact gn), (fun hf => by rw [go] at hf; cases hf), ?_⟩
    rw [if_neg hcond]
    exact all g1
  | none g1 g2 l1 l2 go gw =>
    have hcond : ¬ (o.success = true ∧ o.which = 1) := by rw [go]; simp
    refine ⟨xs, hx, by rw [← hlen, l1], fun _ => by rw [← hlen, l1], ?_⟩
    rw [if_neg hcond]
    exact all g1

/-! ### A sequence of words -/

/-- **C139.** When no word can be decoded, each word received is learned `max_iter` times: first as received, then as the hard decisions on
it together with what the second decoder adds. -/
theorem c139_repeats {c : CedCfg} (h1 : c.nClusters = 1) (ht : c.train = true) (hm : 0 < c.modelLength) (hi : c.idx.length = c.modelLength)
    (cls : Labeler σ) (ldpc : Ldpc Λ) (d2 : SoftDec T) (n : Nat) (cs : σ) (ls : Λ) (t : T) (words : List (List ℝ))
    (hr : ∀ r ∈ (turboRun (Ced.soft c cls ldpc) d2 n (Ced.new c.nClusters cs ls) t words).2.2, ∃ o, r = .ok o ∧ o.success = false) :
    ∃ blocks : List (List (List Bool)), List.Forall₂ (fun ch b => b.length = n ∧ b.head? = some (taught c ch)) words blocks ∧
      (turboRun (Ced.soft c cls ldpc) d2 n (Ced.new c.nClusters cs ls) t words).1.datas[0]? = some (keep c.window blocks.flatten) := by
  have key : ∀ (words : List (List ℝ)) (s : Ced σ Λ) (t : T) (old : List (List Bool)), (∀ x ∈ old, x.length = c.modelLength) →
      s.datas[0]? = some (keep c.window old) →
      (∀ r ∈ (turboRun (Ced.soft c cls ldpc) d2 n s t words).2.2, ∃ o, r = .ok o ∧ o.success = false) →
      ∃ blocks : List (List (List Bool)), List.Forall₂ (fun ch b => b.length = n ∧ b.head? = some (taught c ch)) words blocks ∧
        (turboRun (Ced.soft c cls ldpc) d2 n s t words).1.datas[0]? = some (keep c.window (old ++ blocks.flatten)) := by
    intro words
    induction words with
    | nil => intro s t old _ hs _; exact ⟨[], .nil, by simpa [turboRun] using hs⟩
    | cons ch rest ih =>
      intro s t old hl hs hr
      rcases hd : turboDecode (Ced.soft c cls ldpc) d2 n false s t ch [] with ⟨s1, t1, r1⟩
      simp only [turboRun, hd, List.mem_cons, forall_eq_or_imp] at hr ⊢
      obtain ⟨⟨o, rfl, ho⟩, hr⟩ := hr
      obtain ⟨xs, hx, _, hn, hdat, hlen⟩ := c139_learned (by omega) ht hm hi cls ldpc d2 n false s t ch [] old hl hs s1 t1 o hd
      rw [if_neg (by rw [ho]; simp)] at hdat hlen
      obtain ⟨blocks, hb, he⟩ := ih s1 t1 (old ++ xs.map (taught c)) (by
        intro y hy
        rcases List.mem_append.1 hy with hy | hy
        · exact hl y hy
        · exact hlen y hy) hdat hr
      refine ⟨xs.map (taught c) :: blocks, .cons ⟨by rw [List.length_map]; exact hn ho, by rw [List.head?_map, hx]; rfl⟩ hb, ?_⟩
      rw [he, List.flatten_cons, List.append_assoc]
  obtain ⟨blocks, hb, he⟩ := key words (Ced.new c.nClusters cs ls) t [] (by simp) (by
    rw [Ced.new, List.getElem?_replicate_of_lt (by omega)]
    cases c.window <;> simp [keep, lastN]) hr
  exact ⟨blocks, hb, by simpa using he⟩

/-! ### A second decoder that adds nothing -/

theorem llr_of {c : CedCfg} (hk : c.kind = .logSpa) (cls : Labeler σ) (ldpc : Ldpc Λ) (s : Ced σ Λ) (x : List ℝ) (r : CedOut)
    (h : (s.decode c cls ldpc x).result = .ok r) : ∃ l inp, r.llr = (ldpc l inp).2.llr ∧ r.success = (ldpc l inp).2.success := by
  unfold Ced.decode at h
  split at h
  · cases h
  rename_i b hb
  rcases hp : pickLabel cls c.nClusters c.cluster s.cls s.running b with ⟨cs, run, lab⟩
  simp only [hp] at h
  split at h
  · cases h
  rename_i label
  split at h
  · simp only [Except.ok.injEq] at h
    rw [← h]
    exact ⟨_, _, if_pos hk, rfl⟩
  · split at h
    · cases h
    · rename_i inp hinp
      unfold Ced.finish at h
      split at h
      · cases h
      · simp only at h
        split at h
        · cases h
        · split at h
          · split at h
            · cases h
            · simp only [Except.ok.injEq] at h
              rw [← h]
              exact ⟨_, inp, if_pos hk, rfl⟩
          · cases h

/-- **C139.** If the second decoder, when it fails, gives back the ratios it was given, and the LDPC decoder of the first one gives as many
ratios as there are in a word, then the entropy decoder is given the received word in every round: a word that cannot be decoded is learned
`max_iter` times, always the same. -/
theorem c139_echo {c : CedCfg} (h1 : c.nClusters ≤ 1) (ht : c.train = true) (hm : 0 < c.modelLength) (hi : c.idx.length = c.modelLength)
    (hk : c.kind = .logSpa) (cls : Labeler σ) (ldpc : Ldpc Λ) (d2 : SoftDec T) (n : Nat) (debug : Bool) (s : Ced σ Λ) (t : T) (ch : List ℝ)
    (errorIdx : List Int) (hld : ∀ l inp, (ldpc l inp).2.llr.length = ch.length)
    (hd2 : ∀ t x o, (d2 t x).2 = .ok o → o.success = false → o.llr = x)
    (old : List (List Bool)) (hl : ∀ x ∈ old, x.length = c.modelLength) (hs : s.datas[0]? = some (keep c.window old))
    (s' : Ced σ Λ) (t' : T) (o : TurboOut) (h : turboDecode (Ced.soft c cls ldpc) d2 n debug s t ch errorIdx = (s', t', .ok o))
    (hf : o.success = false) : s'.datas[0]? = some (keep c.window (old ++ List.replicate n (taught c ch))) := by
  obtain ⟨xs, ys, e1, _, hc, _, hall⟩ := loop_course (Ced.soft c cls ldpc) d2 debug errorIdx ch
    (fun p => p = List.replicate ch.length 0) (by
      rintro p p' rfl ⟨s, x1, o1, t, x2, o2, q, prior2, q', g1, g2, g3, g4, g5, g6, g7, g8, g9, g10⟩
      have hlen1 : o1.llr.length = ch.length := by
        unfold Ced.soft at g2
        simp only at g2
        cases hr : (s.decode c cls ldpc x1).result with
        | error e => rw [hr] at g2; cases g2
        | ok r =>
          rw [hr] at g2
          simp only [Except.map, Except.ok.injEq] at g2
          obtain ⟨l, inp, he, _⟩ := llr_of hk cls ldpc s x1 r hr
          rw [← g2]
          simp only
          rw [he]; exact hld l inp
      rw [bcast_same _ _ _ hlen1] at g4
      injection g4 with g4
      have lq : q.length = ch.length := by rw [← g4]; simp [hlen1]
      rw [bcast_same _ _ _ (by simp [lq])] at g5
      injection g5 with g5
      have lp : prior2.length = ch.length := by rw [← g5]; simp [lq]
      rw [bcast_same _ _ _ lp] at g6
      injection g6 with g6
      have hx2 := hd2 t x2 o2 g7 g8
      have l2 : o2.llr.length = ch.length := by rw [hx2, ← g6]; simp [lp]
      rw [bcast_same _ _ _ l2] at g9
      injection g9 with g9
      have lq' : q'.length = ch.length := by rw [← g9]; simp [l2]
      rw [bcast_same _ _ _ (by rw [lq', lp])] at g10
      injection g10 with g10
      rw [← g10, ← g9, hx2, ← g6]
      apply List.ext_getElem
      · simp [lp]
      · intro i _ _
        simp) n s t _ none rfl (by simp) s' t' o h
  have hx : ∀ x ∈ xs, x = ch := by
    intro x hx
    obtain ⟨p, rfl, hb⟩ := hall x hx
    rw [add_zeros] at hb
    injection hb with hb
    exact hb.symm
  have hlen := feed_length (Ced.soft c cls ldpc) xs s
  have hgo : AllFail (feed (Ced.soft c cls ldpc) s xs).2 ∧ xs.length = n := by
    cases hc with
    | first a q g1 ha hq g2 gl gn go => rw [go] at hf; cases hf
    | second b q g2 hb hq g1 gl gn go => rw [go] at hf; cases hf
    | none g1 g2 l1 l2 go gw => exact ⟨g1, by rw [← hlen, l1]⟩
  obtain ⟨outs, ho⟩ := okList _ (fun r hr => (hgo.1 r hr).imp fun _ h => h.1)
  have := (feed_data h1 ht hm hi cls ldpc xs s old outs hl hs ho).1
  have hxs : xs = List.replicate n ch := List.eq_replicate_iff.2 ⟨hgo.2, hx⟩
  rw [failed_map xs outs (by rw [← hlen, ho]; simp) (by
    intro o ho'
    obtain ⟨o', e, hf⟩ := hgo.1 _ (by rw [ho]; exact List.mem_map_of_mem ho')
    injection e with e
    rw [e]; exact hf), e1, hxs, List.map_replicate] at this
  exact this

/-! ### Several clusters, and decoders without soft output -/

theorem feed_run {c : CedCfg} (cls : Labeler σ) (ldpc : Ldpc Λ) : ∀ (xs : List (List ℝ)) (s : Ced σ Λ),
    (feed (Ced.soft c cls ldpc) s xs).1 = (Ced.run c cls ldpc s xs).1 ∧
    (feed (Ced.soft c cls ldpc) s xs).2 = ((Ced.run c cls ldpc s xs).2.map CedStep.result).map fun r =>
      r.map fun r => ⟨r.estimate, r.llr, r.success⟩ := by
  intro xs
  induction xs with
  | nil => intro s; exact ⟨rfl, rfl⟩
  | cons x xs ih =>
    intro s
    have := ih (s.decode c cls ldpc x).state
    simp only [feed, Ced.run, List.map_cons]
    exact ⟨this.1, by rw [← this.2]; rfl⟩

/-- **C139.** With several clusters and without a classifier, a new entropy decoder uses another cluster in every round: one word is decoded
with, and learned for, the clusters 0, 1, 2 and so on. -/
theorem c139_round_robin {c : CedCfg} (h1 : 1 < c.nClusters) (hcl : c.cluster = false) (cls : Labeler σ) (ldpc : Ldpc Λ) (d2 : SoftDec T)
    (n : Nat) (debug : Bool) (cs : σ) (ls : Λ) (t : T) (ch : List ℝ) (errorIdx : List Int) (s' : Ced σ Λ) (t' : T) (o : TurboOut)
    (h : turboDecode (Ced.soft c cls ldpc) d2 n debug (Ced.new c.nClusters cs ls) t ch errorIdx = (s', t', .ok o)) :
    ∃ xs : List (List ℝ), xs.head? = some ch ∧ (o.success = false → xs.length = n) ∧
      s' = (Ced.run c cls ldpc (Ced.new c.nClusters cs ls) xs).1 ∧
      ∀ i < xs.length, ∃ r, ((Ced.run c cls ldpc (Ced.new c.nClusters cs ls) xs).2.map CedStep.result)[i]? = some (.ok r) ∧
        r.label = (i % c.nClusters : Nat) := by
  obtain ⟨xs, ys, hx, e1, _, hc⟩ := c139_runs _ d2 n debug _ t ch errorIdx s' t' o h
  have hlen := feed_length (Ced.soft c cls ldpc) xs (Ced.new c.nClusters cs ls)
  obtain ⟨f1, f2⟩ := feed_run (c := c) cls ldpc xs (Ced.new c.nClusters cs ls)
  have hok : ∀ r ∈ (feed (Ced.soft c cls ldpc) (Ced.new c.nClusters cs ls) xs).2, ∃ o, r = .ok o := by
    cases hc with
    | first a q g1 ha hq g2 gl gn go =>
      intro r hr
      rw [g1] at hr
      rcases List.mem_append.1 hr with hr | hr
      · exact (ha r hr).imp fun _ h => h.1
      · exact ⟨q, by simpa using hr⟩
    | second b q g2 hb hq g1 gl gn go => exact fun r hr => (g1 r hr).imp fun _ h => h.1
    | none g1 g2 l1 l2 go gw => exact fun r hr => (g1 r hr).imp fun _ h => h.1
  have hres : ∀ i < xs.length, ∃ r, ((Ced.run c cls ldpc (Ced.new c.nClusters cs ls) xs).2.map CedStep.result)[i]? = some (.ok r) := by
    intro i hi
    have hi' : i < (feed (Ced.soft c cls ldpc) (Ced.new c.nClusters cs ls) xs).2.length := by rw [hlen]; exact hi
    obtain ⟨q, hq⟩ := hok _ (List.getElem_mem hi')
    have hq' := List.getElem?_eq_getElem hi'
    rw [hq, f2, List.getElem?_map] at hq'
    cases hg : ((Ced.run c cls ldpc (Ced.new c.nClusters cs ls) xs).2.map CedStep.result)[i]? with
    | none => rw [hg] at hq'; cases hq'
    | some r =>
      rw [hg] at hq'
      cases r with
      | error e => simp [Except.map] at hq'
      | ok r => exact ⟨r, rfl⟩
  have hcov : ∀ (xs : List (List ℝ)) (s : Ced σ Λ),
      (∀ i < xs.length, ∃ r, ((Ced.run c cls ldpc s xs).2.map CedStep.result)[i]? = some (.ok r)) → ∀ w ∈ xs, ∀ j ∈ c.idx, j < w.length := by
    intro xs
    induction xs with
    | nil => intro s _ w hw; cases hw
    | cons x xs ih =>
      intro s hall w hw
      rcases List.mem_cons.1 hw with rfl | hw
      · obtain ⟨r, hr⟩ := hall 0 (by simp)
        simp only [Ced.run, List.map_cons, List.getElem?_cons_zero, Option.some.injEq] at hr
        unfold Ced.decode at hr
        cases ht : takeIdx (hardBits w) c.idx with
        | error e => rw [ht] at hr; cases hr
        | ok b =>
          intro j hj
          have := (takeIdx_ok ht).1 j hj
          simpa [hardBits] using this
      · refine ih (s.decode c cls ldpc x).state (fun i hi => ?_) w hw
        obtain ⟨r, hr⟩ := hall (i + 1) (by simpa using hi)
        exact ⟨r, by simpa [Ced.run] using hr⟩
  refine ⟨xs, hx, ?_, by rw [← f1, e1], fun i hi => ?_⟩
  · intro hf
    cases hc with
    | first a q g1 ha hq g2 gl gn go => rw [go] at hf; cases hf
    | second b q g2 hb hq g1 gl gn go => rw [go] at hf; cases hf
    | none g1 g2 l1 l2 go gw => rw [← hlen, l1]
  · obtain ⟨r, hr⟩ := hres i hi
    exact ⟨r, hr, (c56_round_robin cls ldpc _ rfl xs (hcov xs _ hres) i r hr).1 h1 hcl⟩

/-- **C139.** An entropy decoder over a bit-flipping LDPC decoder returns no ratios, so that the turbo decoder raises as soon as the first
run fails (for words of at least two values). -/
theorem c139_hard {c : CedCfg} (hk : c.kind ≠ .logSpa) (cls : Labeler σ) (ldpc : Ldpc Λ) (d2 : SoftDec T) (n : Nat) (debug : Bool)
    (s : Ced σ Λ) (t : T) (ch : List ℝ) (errorIdx : List Int) (h2 : 2 ≤ ch.length) (r : CedOut)
    (hr : (s.decode c cls ldpc ch).result = .ok r) (hf : r.success = false) :
    turboDecode (Ced.soft c cls ldpc) d2 (n + 1) debug s t ch errorIdx = ((s.decode c cls ldpc ch).state, t, .error .valueError) := by
  have hempty : r.llr = [] := by
    unfold Ced.decode at hr
    split at hr
    · cases hr
    rename_i b hb
    rcases hp : pickLabel cls c.nClusters c.cluster s.cls s.running b with ⟨cs, run, lab⟩
    simp only [hp] at hr
    split at hr
    · cases hr
    split at hr
    · simp only [Except.ok.injEq] at hr
      rw [← hr]
      exact if_neg hk
    · split at hr
      · cases hr
      · unfold Ced.finish at hr
        split at hr
        · cases hr
        · simp only at hr
          split at hr
          · cases hr
          · split at hr
            · split at hr
              · cases hr
              · simp only [Except.ok.injEq] at hr
                rw [← hr]
                exact if_neg hk
            · cases hr
  unfold turboDecode turboLoop
  rw [add_zeros]
  simp only [Ced.soft, hr, Except.map, hf, hempty]
  have : bcastWith (fun (a b : ℝ) => a - b) [] ch = .error .valueError := by
    unfold bcastWith
    rw [if_neg (by rw [List.length_nil]; omega)]
    match ch, h2 with
    | _ :: _ :: _, _ => rfl
  rw [this]
  rfl

/-! ### An example: the decoder of C131 for words of three values of which two are modelled, with LDPC decoders that never succeed. -/

/-- Two decoders that always return failures: so does the call. -/
theorem loop_fails (d1 : SoftDec S) (d2 : SoftDec T) (ch : List ℝ) (Inv : S → Prop)
    (hd1 : ∀ s x, Inv s → x.length = ch.length → Inv (d1 s x).1 ∧ ∃ o, (d1 s x).2 = .ok o ∧ o.success = false ∧ o.llr.length = ch.length)
    (hd2 : ∀ t x, x.length = ch.length → ∃ o, (d2 t x).2 = .ok o ∧ o.success = false ∧ o.llr.length = ch.length) :
    ∀ (n : Nat) (s : S) (t : T) (p : List ℝ) (last : Option (SoftOut × Nat)), Inv s → p.length = ch.length →
      (n = 0 → last ≠ none) → (∀ o e, last = some (o, e) → o.success = false) →
      ∃ s' t' o, turboLoop d1 d2 false [] ch n s t p last = (s', t', .ok o) ∧ o.success = false := by
  intro n
  induction n with
  | zero =>
    intro s t p last _ _ h0 hl
    cases last with
    | none => exact absurd rfl (h0 rfl)
    | some l => exact ⟨s, t, _, rfl, hl l.1 l.2 rfl⟩
  | succ n ih =>
    intro s t p last hi hp _ _
    unfold turboLoop
    rw [bcast_same _ _ _ hp.symm]
    obtain ⟨i1, o1, e1, f1, l1⟩ := hd1 s (List.zipWith (fun (a b : ℝ) => a + b) ch p) hi (by simp [hp])
    simp only [e1, f1, Bool.false_eq_true, if_false]
    rw [bcast_same _ _ _ l1]
    simp only [bind, Except.bind, pure, Except.pure]
    rw [bcast_same _ _ _ (by simp [l1, hp])]
    simp only
    rw [bcast_same _ _ _ (by simp [l1, hp])]
    simp only
    obtain ⟨o2, e2, f2, l2⟩ := hd2 t (List.zipWith (fun (a b : ℝ) => a + b) (List.zipWith (fun (a b : ℝ) => a - b)
      (List.zipWith (fun (a b : ℝ) => a - b) o1.llr ch) p) ch) (by simp [l1, hp])
    simp only [e2, f2, Bool.false_eq_true, if_false]
    rw [bcast_same _ _ _ l2]
    simp only
    rw [bcast_same _ _ _ (by simp [l1, l2, hp])]
    simp only [turboErr, Bool.false_eq_true, if_false]
    exact ih _ _ _ _ i1 (by simp [l1, l2, hp]) (by simp) (by
      intro o e h; simp only [Option.some.injEq, Prod.mk.injEq] at h; rw [← h.1]; exact f2)

/-- An LDPC decoder that never succeeds. -/
noncomputable def fails : Ldpc Unit := fun _ _ => ((), ⟨[false, false, false], [0, 0, 0], false, 1, [], []⟩)

/-- A second decoder that never succeeds and adds nothing. -/
def echoes : SoftDec Unit := fun _ x => ((), .ok ⟨[], x, false⟩)

theorem run_snoc (c : CedCfg) (cls : Labeler σ) (ldpc : Ldpc Λ) : ∀ (pre : List (List ℝ)) (s : Ced σ Λ) (ch : List ℝ),
    (Ced.run c cls ldpc s (pre ++ [ch])).1 = ((Ced.run c cls ldpc s pre).1.decode c cls ldpc ch).state := by
  intro pre
  induction pre with
  | nil => intro s ch; rfl
  | cons x pre ih => intro s ch; simp only [List.cons_append, Ced.run]; exact ih _ _

/-- A word of which both letters occur among the words the cluster then has makes the run return. -/
theorem demo_run (words : List (List ℝ)) (h : List (List Bool)) (hl : ∀ x ∈ h, x.length = 2)
    (hs : (Ced.run C131.demo C131.noCls fails (Ced.new 1 () ()) words).1.datas[0]? = some (keep none h)) (x : List ℝ) (hx : x.length = 3)
    (hb : [false, true] ∈ h ++ [taught C131.demo x]) :
    ∃ r, ((Ced.run C131.demo C131.noCls fails (Ced.new 1 () ()) words).1.decode C131.demo C131.noCls fails x).result = .ok r ∧
      r.success = false ∧ r.llr.length = 3 ∧ ∃ h', (∀ x ∈ h', x.length = 2) ∧ [false, true] ∈ h' ∧
      ((Ced.run C131.demo C131.noCls fails (Ced.new 1 () ()) words).1.decode C131.demo C131.noCls fails x).state.datas[0]? =
        some (keep none h') := by
  obtain ⟨inp, bits, old, h0, h1, h2, h3, _⟩ := c53_returns (c := C131.demo) rfl (by decide) rfl (by simp [C131.demo]) rfl C131.noCls fails
    (Ced.run C131.demo C131.noCls fails (Ced.new C131.demo.nClusters () ()) words).1
    (c55_reachable rfl (by decide) (by simp [C131.demo]) C131.noCls fails () () words) x
    (C131.demo_assigned (Ced.new 1 () ()) x (by omega)).1 0 (by decide) (C131.demo_assigned _ x (by omega)).2 (by simp [C131.demo, fails])
  have hbits : bits = taught C131.demo x := by rw [h0]; rfl
  have hold : old = keep none h := by
    have := h2.symm.trans hs
    injection this
  have hg : growData C131.demo.window old bits = h ++ [taught C131.demo x] := by
    rw [hold, hbits]
    exact growData_keep (m := 2) (by decide) none h _ hl
  obtain ⟨r, hr, hlab⟩ := h3 (by rw [hg]; exact ⟨⟨_, hb, 0, by decide, rfl⟩, ⟨_, hb, 1, by decide, rfl⟩⟩)
  obtain ⟨d1, d2⟩ := decode_data (c := C131.demo) rfl (by decide) rfl C131.noCls fails _ x 0 h hl hs
  have hlearn : learnedBy 0 [(Ced.run C131.demo C131.noCls fails (Ced.new 1 () ()) words).1.decode C131.demo C131.noCls fails x] =
      [taught C131.demo x] := by
    rw [← hbits]
    unfold learnedBy
    rw [List.filterMap_cons, show ((Ced.run C131.demo C131.noCls fails (Ced.new 1 () ()) words).1.decode C131.demo C131.noCls fails x).learned =
      some (0, bits) from h1]
    rfl
  rw [hlearn] at d1 d2
  obtain ⟨l, i, hllr, hsu⟩ := llr_of (c := C131.demo) rfl C131.noCls fails _ x r hr
  refine ⟨r, hr, by rw [hsu]; rfl, by rw [hllr]; rfl, h ++ [taught C131.demo x], ?_, hb, d1⟩
  intro y hy
  rcases List.mem_append.1 hy with hy | hy
  · exact hl y hy
  · exact d2 y hy

/-- An entropy decoder that has seen the word `[1, -1, 1]` once learns it three more times from one call of three rounds. -/
example : ∃ s' t' o, turboDecode (Ced.soft C131.demo C131.noCls fails) echoes 3 false
      ((Ced.new 1 () ()).decode C131.demo C131.noCls fails [1, -1, 1]).state () [1, -1, 1] [] = (s', t', .ok o) ∧
    o.success = false ∧ s'.datas[0]? = some (List.replicate 4 [false, true]) := by
  have ht : taught C131.demo [1, -1, 1] = [false, true] := by
    simp [taught, C131.demo, bitsAt, hardWord]
  have hnew : (Ced.run C131.demo C131.noCls fails (Ced.new 1 () ()) []).1.datas[0]? = some (keep none []) := rfl
  have hstart := decode_data (c := C131.demo) rfl (by decide) rfl C131.noCls fails (Ced.new 1 () ()) [1, -1, 1] 0 [] (by simp) hnew
  obtain ⟨r0, hr0, hf0, _, _⟩ := demo_run [] [] (by simp) hnew [1, -1, 1] rfl (by rw [ht]; simp)
  have hl0 := c53_learned C131.demo C131.noCls fails (Ced.new 1 () ()) [1, -1, 1] r0 hr0
  rw [label_zero (by decide) C131.noCls fails _ _ r0 hr0, hf0, if_neg (by omega)] at hl0
  have hb0 : learnedBy 0 [(Ced.new 1 () ()).decode C131.demo C131.noCls fails [1, -1, 1]] = [[false, true]] := by
    simp only [learnedBy, List.filterMap_cons, hl0, List.filterMap_nil]
    exact congrArg (fun x => [x]) ht
  rw [hb0] at hstart
  obtain ⟨s', t', o, h, hf⟩ := loop_fails (Ced.soft C131.demo C131.noCls fails) echoes [1, -1, 1]
    (fun s => ∃ words h, s = (Ced.run C131.demo C131.noCls fails (Ced.new 1 () ()) words).1 ∧ (∀ x ∈ h, x.length = 2) ∧ [false, true] ∈ h ∧
      s.datas[0]? = some (keep none h)) (by
      rintro s x ⟨words, h, rfl, hl, hm, hd⟩ hx
      obtain ⟨r, hr, hsu, hll, h', hl', hm', hd'⟩ := demo_run words h hl hd x hx (List.mem_append_left _ hm)
      refine ⟨⟨words ++ [x], h', ?_, hl', hm', hd'⟩, ?_⟩
      · rw [run_snoc]; rfl
      · simp only [Ced.soft, hr]
        exact ⟨_, rfl, hsu, hll⟩)
    (fun t x hx => ⟨⟨[], x, false⟩, rfl, rfl, hx⟩) 3 _ () (List.replicate 3 0) none
    ⟨[[1, -1, 1]], [[false, true]], rfl, by simp, by simp, hstart.1⟩ rfl (by simp) (by simp)
  refine ⟨s', t', o, h, hf, ?_⟩
  have := c139_echo (c := C131.demo) (by decide) rfl (by decide) rfl rfl C131.noCls fails echoes 3 false _ () [1, -1, 1] []
    (fun _ _ => rfl) (by
      intro t x o h _
      simp only [echoes, Except.ok.injEq] at h
      rw [← h]) [[false, true]] (by simp [C131.demo]) hstart.1 s' t' o h hf
  rw [this, ht]
  rfl

end NR.C139
