import Verif.Props.C147_Loop
/-
C149: an entropy decoder that learns from its own output does as well as one that is told the words sent.
-/
namespace NR.C149
open NR NR.Spec NR.C131
open NR.C147 (errors Corrects untouched run_append run_length growData_mem wrong_iff decode_finish finish_learned)

variable {σ Λ : Type}

/-- The labels of the words: the classifier (or the counter) is asked for one after the other. -/
noncomputable def asks (c : CedCfg) (cls : Labeler σ) : σ → Int → List (List ℝ) → (σ × Int) × List (Except PyErr Int)
  | s, r, [] => ((s, r), [])
  | s, r, w :: ws =>
    let p := pickLabel cls c.nClusters c.cluster s r (bitsAt c.idx (hardWord w))
    let q := asks c cls p.1 p.2.1 ws
    (q.1, p.2.2 :: q.2)

open Classical in
/-- What the words `D` add to the ratio at position `i` of the codeword. -/
noncomputable def hint (c : CedCfg) (D : List (List Bool)) (i : Nat) : ℝ :=
  if D ≠ [] ∧ Used c D ∧ i ∈ c.idx then push c D (c.idx.idxOf i) else 0

/-- The word received, with what the words `D` say about it. -/
noncomputable def hinted (c : CedCfg) (D : List (List Bool)) (w : List ℝ) : List ℝ := (List.range w.length).map fun i => w.getD i 0 + hint c D i

/-- The model bits of the last words sent with that label, as many as the window holds. -/
def earlier (c : CedCfg) (labels : List Int) (sent : List (List Bool)) (j : Nat) (l : Int) : List (List Bool) :=
  keep c.window (((labels.zip sent).take j).filterMap fun p => if p.1 = l then some (bitsAt c.idx p.2) else none)

/-- A word of the code, and how it was received. -/
structure Received (c : CedCfg) (code : List Bool → Prop) (x : List Bool) (w : List ℝ) : Prop where
  sent : code x
  same : w.length = x.length
  long : ∀ i ∈ c.idx, i < w.length
  letters : true ∈ bitsAt c.idx x ∧ false ∈ bitsAt c.idx x
  positive : ∃ r ∈ w, 0 < r

theorem asks_append (c : CedCfg) (cls : Labeler σ) : ∀ (x y : List (List ℝ)) (s : σ) (r : Int),
    asks c cls s r (x ++ y) = ((asks c cls (asks c cls s r x).1.1 (asks c cls s r x).1.2 y).1,
      (asks c cls s r x).2 ++ (asks c cls (asks c cls s r x).1.1 (asks c cls s r x).1.2 y).2)
  | [], y, s, r => rfl
  | w :: x, y, s, r => by simp only [List.cons_append, asks, asks_append c cls x y]

theorem asks_length (c : CedCfg) (cls : Labeler σ) : ∀ (x : List (List ℝ)) (s : σ) (r : Int), (asks c cls s r x).2.length = x.length
  | [], s, r => rfl
  | w :: x, s, r => by simp only [asks, List.length_cons, asks_length c cls x]

theorem decode_asks (c : CedCfg) (cls : Labeler σ) (ldpc : Ldpc Λ) (s : Ced σ Λ) (ch : List ℝ) (hi : ∀ i ∈ c.idx, i < ch.length) :
    (s.decode c cls ldpc ch).state.cls = (pickLabel cls c.nClusters c.cluster s.cls s.running (bitsAt c.idx (hardWord ch))).1 ∧
    (s.decode c cls ldpc ch).state.running = (pickLabel cls c.nClusters c.cluster s.cls s.running (bitsAt c.idx (hardWord ch))).2.1 := by
  unfold Ced.decode
  have hlen : (hardBits ch).length = ch.length := by simp [hardBits]
  rw [takeIdx_of_lt (by rw [hlen]; exact hi)]
  simp only
  rw [show (c.idx.filterMap ((hardBits ch)[·]?)) = bitsAt c.idx (hardWord ch) from rfl]
  rcases pickLabel cls c.nClusters c.cluster s.cls s.running (bitsAt c.idx (hardWord ch)) with ⟨cs, running, lab⟩
  cases lab with
  | error e => exact ⟨rfl, rfl⟩
  | ok l =>
    simp only
    split
    · exact ⟨rfl, rfl⟩
    · split
      · exact ⟨rfl, rfl⟩
      · rename_i inp _
        unfold Ced.finish
        split
        · exact ⟨rfl, rfl⟩
        · rename_i mb _
          simp only
          obtain ⟨u1, u2, u3, _⟩ := update_other c { s with cls := cs, running := running, ldpc := (ldpc s.ldpc inp).1 }
            (if (ldpc s.ldpc inp).2.success = true then mb else bitsAt c.idx (hardWord ch)) l.toNat
          split
          · exact ⟨u2, u1⟩
          · split
            · split <;> exact ⟨u2, u1⟩
            · exact ⟨u2, u1⟩

/-- A word assigned to a cluster, whatever was learned for it. -/
theorem handed_word {c : CedCfg} (S : Sound c) (hk : c.kind = .logSpa) (hclip : 0 < c.clipping) (cls : Labeler σ) (ldpc : Ldpc Λ) (cs : σ) (ls : Λ)
    (words : List (List ℝ)) (l : Nat) (hl : l < c.nClusters) (D : List (List Bool)) (hD : D = kept c cls ldpc cs ls words l)
    (hb : ∀ x ∈ D, true ∈ x ∧ false ∈ x) (ch : List ℝ) (ha : Assigned c cls (C131.after c cls ldpc cs ls words) ch l)
    (hpos : ∃ x ∈ ch, 0 < x) :
    ∃ w, ((C131.after c cls ldpc cs ls words).decode c cls ldpc ch).handed = some (.llr w) ∧ w.length = ch.length ∧
      ∀ i, i < ch.length → (w.getD i 0 < 0 ↔ (hinted c D ch).getD i 0 < 0) := by
  have hh : ∀ i, i < ch.length → (hinted c D ch).getD i 0 = ch.getD i 0 + hint c D i := by
    intro i hi
    unfold hinted
    rw [List.getD_eq_getElem?_getD, List.getElem?_map, List.getElem?_range hi]
    rfl
  have hchne : ch ≠ [] := by
    rintro rfl
    obtain ⟨x, hx, _⟩ := hpos
    cases hx
  obtain ⟨M, hM, hMem, hMle⟩ := pyMax_spec hchne
  have hcl : 0 < c.clipping * M := by
    obtain ⟨x, hx, h0⟩ := hpos
    exact mul_pos hclip (lt_of_lt_of_le h0 (hMle x hx))
  by_cases hne : D = []
  · have hnil : learnedBy l (Ced.run c cls ldpc (Ced.new c.nClusters cs ls) words).2 = [] := by
      by_contra hc
      have h1 : 1 ≤ (keep c.window (learnedBy l (Ced.run c cls ldpc (Ced.new c.nClusters cs ls) words).2)).length := by
        refine (C147.keep_length (n := 1) (r := 0) (List.length_pos_iff.2 hc) (by positivity) fun k hk => ⟨?_, by positivity⟩).1
        have : k ≠ 0 := fun h => S.window (by rw [hk, h])
        omega
      rw [hne] at hD
      unfold kept at hD
      rw [← hD] at h1
      simp at h1
    obtain ⟨u1, u2, u3⟩ := untouched c cls ldpc l words _ hnil
    rw [show (Ced.new (Λ := Λ) c.nClusters cs ls).datas[l]? = some [] by simp [Ced.new, hl]] at u1
    rw [show (Ced.new (Λ := Λ) c.nClusters cs ls).dists[l]? = some [] by simp [Ced.new, hl]] at u2
    rw [show (Ced.new (Λ := Λ) c.nClusters cs ls).ents[l]? = some [] by simp [Ced.new, hl]] at u3
    have hprep : (C131.after c cls ldpc cs ls words).prepare c ch l =
        .ok (.llr (List.zipWith (fun (a b : ℝ) => npClip (-(c.clipping * M)) (c.clipping * M) (a + b)) ch (List.replicate ch.length 0))) := by
      have hpred : (C131.after c cls ldpc cs ls words).predict c ch.length l = .ok (List.replicate ch.length 0) := by
        unfold Ced.predict C131.after
        rw [u1, u2, u3]
        rfl
      unfold Ced.prepare
      rw [hpred, hk]
      simp only [bind, Except.bind, hM]
    refine ⟨_, decode_handed c cls ldpc _ ch l ha _ hprep, by simp, fun i hi => ?_⟩
    rw [hh i hi, hint, if_neg (by simp [hne]), add_zero, List.getD_eq_getElem?_getD, List.getElem?_zipWith, List.getElem?_eq_getElem hi,
      List.getElem?_replicate, if_pos hi, List.getD_eq_getElem?_getD, List.getElem?_eq_getElem hi]
    simp only [Option.getD_some, add_zero]
    exact clip_neg hcl
  · have hdat : (C131.after c cls ldpc cs ls words).datas[l]? = some D := by
      rw [hD]; exact c53_window S.learns S.bitsPos S.bits cls ldpc cs ls words l hl
    obtain ⟨hlen, hmod⟩ := fresh_run S cls ldpc cs ls words l D hdat
    have hboth : BothLetters c.modelLength D := by
      obtain ⟨x, hx⟩ := List.exists_mem_of_ne_nil _ hne
      obtain ⟨ht, hf⟩ := hb x hx
      have key : ∀ v, v ∈ x → ∃ j, j < c.modelLength ∧ x.getD j false = v := by
        intro v hv
        obtain ⟨j, hj, rfl⟩ := List.getElem_of_mem hv
        exact ⟨j, by rw [← hlen x hx]; exact hj, by rw [List.getD_eq_getElem?_getD, List.getElem?_eq_getElem hj]; rfl⟩
      exact ⟨⟨x, hx, key _ hf⟩, x, hx, key _ ht⟩
    have hrect : ∀ x ∈ D, x ≠ [] := by
      intro x hx h0
      have := hlen x hx
      rw [h0] at this
      have := S.bitsPos
      simp at *
      omega
    obtain ⟨hdist, hents⟩ := hmod hboth
    by_cases hu : Used c D
    · obtain ⟨w, h1, h2, h3, h4⟩ := c131_decisions (⟨S, hk, hclip, hl, hD, hboth, hu, ha, hpos⟩ : Case c cls ldpc cs ls words l D ch)
      refine ⟨w, h1, h2, fun i hi => ?_⟩
      rw [hh i hi, hint]
      by_cases hm : i ∈ c.idx
      · rw [if_pos ⟨hne, hu, hm⟩]
        exact h3 _ i (List.getElem?_idxOf hm)
      · rw [if_neg (fun h => hm h.2.2), add_zero]
        exact h4 i hi hm
    · obtain ⟨w, hp, hwl, _, _, _, w4⟩ := c55_handed hk (C131.after c cls ldpc cs ls words) S.distinct S.bits hents hdist hdat
        (by simp) (by simp) hrect ch ha.1 hM
      refine ⟨w, decode_handed c cls ldpc _ ch l ha _ hp, hwl, fun i hi => ?_⟩
      rw [hh i hi, hint, if_neg (fun h => hu h.2.1), add_zero, w4 ?_ i hi]
      · exact clip_neg hcl
      · rintro ⟨k, hk', hlow, h0⟩
        apply hu
        refine ⟨k, c.idx[k], List.getElem?_eq_getElem hk', h0, ?_⟩
        obtain ⟨h, e, hlt⟩ := hlow
        have hkm : k < c.modelLength := by rw [← S.bits]; exact hk'
        rw [List.getElem?_map, List.getElem?_range hkm] at e
        have e := Option.some.inj e
        rw [← e] at hlt
        exact hlt

/-- A word without a label is handed over as received. -/
theorem decode_unlabelled (c : CedCfg) (hk : c.kind = .logSpa) (cls : Labeler σ) (ldpc : Ldpc Λ) (s : Ced σ Λ) (ch : List ℝ)
    (hi : ∀ i ∈ c.idx, i < ch.length) (l : Int) (hl : l < 0)
    (h : (pickLabel cls c.nClusters c.cluster s.cls s.running (bitsAt c.idx (hardWord ch))).2.2 = .ok l) :
    (s.decode c cls ldpc ch).learned = none ∧ ∃ r, (s.decode c cls ldpc ch).result = .ok r ∧ r.estimate = (ldpc s.ldpc (.llr ch)).2.estimate ∧
      r.success = (ldpc s.ldpc (.llr ch)).2.success ∧ r.label = l := by
  unfold Ced.decode
  have hlen : (hardBits ch).length = ch.length := by simp [hardBits]
  rw [takeIdx_of_lt (by rw [hlen]; exact hi)]
  simp only
  rw [show (c.idx.filterMap ((hardBits ch)[·]?)) = bitsAt c.idx (hardWord ch) from rfl]
  rcases hq : pickLabel cls c.nClusters c.cluster s.cls s.running (bitsAt c.idx (hardWord ch)) with ⟨cs, running, lab⟩
  rw [hq] at h
  simp only at h
  subst h
  simp only
  rw [if_pos hl, hk]
  exact ⟨rfl, _, rfl, rfl, rfl, rfl⟩

theorem errors_congr {x : List Bool} {u w : List ℝ} (hu : u.length = x.length) (hw : w.length = x.length)
    (h : ∀ i, i < x.length → (u.getD i 0 < 0 ↔ w.getD i 0 < 0)) : errors x u = errors x w := by
  unfold errors
  congr 1
  apply Finset.filter_congr
  intro i hi
  have hi := Finset.mem_range.1 hi
  rw [wrong_iff hu hi, wrong_iff hw hi, h i hi]

theorem hinted_length (c : CedCfg) (D : List (List Bool)) (w : List ℝ) : (hinted c D w).length = w.length := by simp [hinted]

/-- **C149.** An LDPC decoder that finds every word of the code from at most `T` wrong bits; words received, with their labels. Suppose that each
word has at most `T` wrong bits once what the words *sent* before it with its label say is added. Then every call decodes its word to what was
sent, although the decoder only has its own earlier answers to learn from. -/
theorem c149_told {c : CedCfg} (S : Sound c) (hk : c.kind = .logSpa) (hclip : 0 < c.clipping) (cls : Labeler σ) (ldpc : Ldpc Λ) (cs : σ) (ls : Λ)
    (code : List Bool → Prop) (T : Nat) (hcor : Corrects ldpc code T) (hest : ∀ s inp, ∀ i ∈ c.idx, i < (ldpc s inp).2.estimate.length)
    (words : List (List ℝ)) (labels : List Int) (sent : List (List Bool))
    (hlab : (asks c cls cs (-1) words).2 = labels.map .ok) (hlt : ∀ l ∈ labels, l < c.nClusters) (hlen : sent.length = words.length)
    (hrec : ∀ (j : Nat) (x : List Bool) (w : List ℝ), sent[j]? = some x → words[j]? = some w → Received c code x w)
    (hfew : ∀ (j : Nat) (x : List Bool) (w : List ℝ) (l : Int), sent[j]? = some x → words[j]? = some w → labels[j]? = some l →
      errors x (if l < 0 then w else hinted c (earlier c labels sent j l) w) ≤ T)
    (j : Nat) (x : List Bool) (l : Int) (hx : sent[j]? = some x) (hl : labels[j]? = some l) :
    ∃ st r, (Ced.run c cls ldpc (Ced.new c.nClusters cs ls) words).2[j]? = some st ∧ st.result = .ok r ∧ r.success = true ∧ r.estimate = x ∧
      r.label = l := by
  have hll : labels.length = words.length := by
    have := congrArg List.length hlab
    rw [asks_length, List.length_map] at this
    exact this.symm
  have hpre : ∀ n, n ≤ words.length →
      (∀ (j : Nat) (x : List Bool) (l : Int), j < n → sent[j]? = some x → labels[j]? = some l →
        ∃ st r, (Ced.run c cls ldpc (Ced.new c.nClusters cs ls) (words.take n)).2[j]? = some st ∧ st.result = .ok r ∧ r.success = true ∧
          r.estimate = x ∧ r.label = l) ∧
      (C131.after c cls ldpc cs ls (words.take n)).cls = (asks c cls cs (-1) (words.take n)).1.1 ∧
      (C131.after c cls ldpc cs ls (words.take n)).running = (asks c cls cs (-1) (words.take n)).1.2 ∧
      ∀ l : Nat, learnedBy l (Ced.run c cls ldpc (Ced.new c.nClusters cs ls) (words.take n)).2 =
        ((labels.zip sent).take n).filterMap fun p => if p.1 = (l : Int) then some (bitsAt c.idx p.2) else none := by
    intro n
    induction n with
    | zero =>
      intro _
      refine ⟨fun j _ _ hj => absurd hj (by omega), ?_, ?_, fun l => ?_⟩
      · simp [C131.after, Ced.run, Ced.new, asks]
      · simp [C131.after, Ced.run, Ced.new, asks]
      · simp [Ced.run, learnedBy]
    | succ n ih =>
      intro hn
      obtain ⟨i1, i2, i3, i4⟩ := ih (by omega)
      have hnw : n < words.length := by omega
      have htake : words.take (n + 1) = words.take n ++ [words[n]] := by rw [List.take_succ_eq_append_getElem hnw]
      have hns : n < sent.length := by omega
      have hnl : n < labels.length := by omega
      set w := words[n] with hw
      set y := sent[n] with hy
      set k := labels[n] with hkdef
      have R := hrec n y w (List.getElem?_eq_getElem hns) (List.getElem?_eq_getElem hnw)
      have hfew := hfew n y w k (List.getElem?_eq_getElem hns) (List.getElem?_eq_getElem hnw) (List.getElem?_eq_getElem hnl)
      have hxi : ∀ i ∈ c.idx, i < y.length := fun i hi => by rw [← R.same]; exact R.long i hi
      set s := C131.after c cls ldpc cs ls (words.take n) with hs
      have hrunlen : (words.take n).length = n := by rw [List.length_take]; omega
      -- the label
      have hpick : (pickLabel cls c.nClusters c.cluster s.cls s.running (bitsAt c.idx (hardWord w))).2.2 = .ok k := by
        have hsplit : words = words.take n ++ w :: words.drop (n + 1) := by rw [hw, List.getElem_cons_drop, List.take_append_drop]
        have h : (asks c cls cs (-1) words).2[n]? = (labels.map Except.ok)[n]? := by rw [hlab]
        rw [hsplit, asks_append] at h
        simp only at h
        rw [List.getElem?_append_right (by rw [asks_length, hrunlen]), asks_length, hrunlen, Nat.sub_self, ← i2, ← i3, List.getElem?_map,
          List.getElem?_eq_getElem hnl] at h
        exact Option.some.inj h
      have hrun : Ced.run c cls ldpc (Ced.new c.nClusters cs ls) (words.take (n + 1)) =
          ((s.decode c cls ldpc w).state, (Ced.run c cls ldpc (Ced.new c.nClusters cs ls) (words.take n)).2 ++ [s.decode c cls ldpc w]) := by
        rw [htake, run_append]
        rfl
      obtain ⟨a1, a2⟩ := decode_asks c cls ldpc s w R.long
      have hask : (asks c cls cs (-1) (words.take (n + 1))).1 =
          ((pickLabel cls c.nClusters c.cluster s.cls s.running (bitsAt c.idx (hardWord w))).1,
            (pickLabel cls c.nClusters c.cluster s.cls s.running (bitsAt c.idx (hardWord w))).2.1) := by
        rw [htake, asks_append, i2, i3]
        rfl
      -- the call itself
      have hcall : (∃ r, (s.decode c cls ldpc w).result = .ok r ∧ r.success = true ∧ r.estimate = y ∧ r.label = k) ∧
          (s.decode c cls ldpc w).learned = if k < 0 then none else some (k.toNat, bitsAt c.idx y) := by
        by_cases hneg : k < 0
        · obtain ⟨d1, r, d2, d3, d4, d5⟩ := decode_unlabelled c hk cls ldpc s w R.long k hneg hpick
          rw [if_pos hneg] at hfew
          obtain ⟨s1, s2⟩ := hcor s.ldpc y w R.sent R.same hfew
          exact ⟨⟨r, d2, d4.trans s1, d3.trans s2, d5⟩, by rw [if_pos hneg]; exact d1⟩
        · obtain ⟨l, hkl⟩ := Int.eq_ofNat_of_zero_le (not_lt.1 hneg)
          rw [hkl] at hpick
          have hlc : l < c.nClusters := by
            have := hlt k (List.getElem_mem hnl)
            omega
          have hD : earlier c labels sent n k = kept c cls ldpc cs ls (words.take n) l := by
            unfold earlier kept
            rw [i4 l, hkl]
          have hmemD : ∀ b ∈ earlier c labels sent n k, true ∈ b ∧ false ∈ b := by
            intro b hb
            unfold earlier at hb
            have hb : b ∈ ((labels.zip sent).take n).filterMap fun p => if p.1 = k then some (bitsAt c.idx p.2) else none := by
              unfold keep at hb
              split at hb
              · exact hb
              · exact List.mem_of_mem_drop hb
            obtain ⟨p, hp, he⟩ := List.mem_filterMap.1 hb
            obtain ⟨i, hi⟩ := List.getElem?_of_mem (List.mem_of_mem_take hp)
            rw [List.getElem?_zip_eq_some] at hi
            have hiw : i < words.length := by
              have := (List.getElem?_eq_some_iff.1 hi.2).1
              omega
            have := (hrec i p.2 words[i] hi.2 (List.getElem?_eq_getElem hiw)).letters
            split at he
            · rw [← Option.some.inj he]
              exact this
            · cases he
          obtain ⟨u, u1, u2, u3⟩ := handed_word S hk hclip cls ldpc cs ls (words.take n) l hlc _ hD hmemD w ⟨R.long, hpick⟩ R.positive
          rw [if_neg hneg] at hfew
          have herr : errors y u ≤ T := by
            rw [errors_congr (u2.trans R.same) ((hinted_length c _ w).trans R.same) fun i hi => u3 i (by rw [R.same]; exact hi)]
            exact hfew
          obtain ⟨s1, s2⟩ := hcor s.ldpc y u R.sent (u2.trans R.same) herr
          obtain ⟨s', hfin⟩ := decode_finish c cls ldpc s w l ⟨R.long, hpick⟩ _ u1
          obtain ⟨f1, f2⟩ := finish_learned c s' (bitsAt c.idx (hardWord w)) l (.llr u) _ (by rw [s2]; exact hxi) s1
          rw [← hfin, s2] at f1 f2
          obtain ⟨inp, bits, old, _, r2, _, r4, _⟩ := c53_returns S.learns S.bitsPos S.bits S.window hk cls ldpc s
            (c55_reachable S.learns S.bitsPos S.window cls ldpc cs ls (words.take n)) w R.long l hlc hpick (fun inp => hest _ inp)
          have hbits : bits = bitsAt c.idx y := by
            have := Option.some.inj (r2.symm.trans f1)
            simp only [Prod.mk.injEq] at this
            exact this.2
          have hmem : bits ∈ growData c.window old bits := growData_mem S.window old bits
          have hval : ∀ v, v ∈ bits → ∃ j, j < c.modelLength ∧ bits.getD j false = v := by
            intro v hv
            obtain ⟨j, hj, rfl⟩ := List.getElem_of_mem hv
            refine ⟨j, ?_, by rw [List.getD_eq_getElem?_getD, List.getElem?_eq_getElem hj]; rfl⟩
            rw [← S.bits]
            refine lt_of_lt_of_le hj ?_
            rw [hbits]
            exact List.length_filterMap_le _ _
          have hl2 := R.letters
          rw [← hbits] at hl2
          obtain ⟨r, hr, hrl⟩ := r4 ⟨⟨bits, hmem, hval _ hl2.2⟩, bits, hmem, hval _ hl2.1⟩
          obtain ⟨f3, f4, f5⟩ := f2 r hr
          exact ⟨⟨r, hr, f4, f3, by rw [f5, hkl]⟩, by rw [if_neg hneg, f1, hkl]; rfl⟩
      obtain ⟨⟨r, q1, q2, q3, q4⟩, q5⟩ := hcall
      refine ⟨?_, ?_, ?_, ?_⟩
      · intro j x l hj hx hl
        rw [hrun]
        rcases Nat.lt_succ_iff_lt_or_eq.1 hj with h | h
        · obtain ⟨st, r, h1, h2⟩ := i1 j x l h hx hl
          exact ⟨st, r, by simp only; rw [List.getElem?_append_left (by rw [run_length, hrunlen]; exact h)]; exact h1, h2⟩
        · subst h
          rw [List.getElem?_eq_getElem hns] at hx
          rw [List.getElem?_eq_getElem hnl] at hl
          cases hx
          cases hl
          exact ⟨_, r, by simp only; rw [List.getElem?_append_right (by rw [run_length, hrunlen]), run_length, hrunlen, Nat.sub_self]; rfl,
            q1, q2, q3, q4⟩
      · rw [hask]
        unfold C131.after
        rw [hrun]
        exact a1
      · rw [hask]
        unfold C131.after
        rw [hrun]
        exact a2
      · intro l
        have hnz : n < (labels.zip sent).length := by rw [List.length_zip]; omega
        rw [hrun, List.take_succ_eq_append_getElem hnz, List.filterMap_append, ← i4 l]
        simp only
        unfold learnedBy
        rw [List.filterMap_append]
        congr 1
        simp only [List.filterMap_cons, List.filterMap_nil, List.getElem_zip, q5]
        rw [← hkdef, ← hy]
        by_cases hneg : k < 0
        · rw [if_pos hneg, if_neg (by show ¬ k = (l : Int); omega)]
        · rw [if_neg hneg]
          by_cases h : k.toNat = l
          · simp only [if_pos h]
            rw [if_pos (by show k = (l : Int); omega)]
          · simp only [if_neg h]
            rw [if_neg (by show ¬ k = (l : Int); omega)]
  have hj : j < words.length := by
    rw [← hlen]
    exact (List.getElem?_eq_some_iff.1 hx).1
  have := (hpre words.length le_rfl).1 j x l hj hx hl
  rw [List.take_length] at this
  exact this

/-- How many bits were received wrong and stay so, because the hint does not outweigh the ratio received. -/
noncomputable def unrepaired (c : CedCfg) (D : List (List Bool)) (x : List Bool) (w : List ℝ) : Nat :=
  ((Finset.range x.length).filter fun i => (hardWord w)[i]? ≠ x[i]? ∧ |hint c D i| ≤ |w.getD i 0|).card

open Classical in
/-- How many bits sent are not what the hint says. -/
noncomputable def misled (c : CedCfg) (D : List (List Bool)) (x : List Bool) : Nat :=
  ((Finset.range x.length).filter fun i => hint c D i ≠ 0 ∧ ¬ (hint c D i < 0 ↔ x.getD i false = true)).card

theorem hinted_getD (c : CedCfg) (D : List (List Bool)) {w : List ℝ} {i : Nat} (hi : i < w.length) :
    (hinted c D w).getD i 0 = w.getD i 0 + hint c D i := by
  unfold hinted
  rw [List.getD_eq_getElem?_getD, List.getElem?_map, List.getElem?_range hi]
  rfl

/-- **C149.** With the hints, at most those bits are wrong. -/
theorem c149_left (c : CedCfg) (D : List (List Bool)) {x : List Bool} {w : List ℝ} (hl : w.length = x.length) :
    errors x (hinted c D w) ≤ unrepaired c D x w + misled c D x := by
  classical
  unfold errors unrepaired misled
  refine (Finset.card_le_card ?_).trans (Finset.card_union_le _ _)
  intro i h
  rw [Finset.mem_filter, Finset.mem_range] at h
  obtain ⟨hi, hw⟩ := h
  rw [wrong_iff ((hinted_length c D w).trans hl) hi, hinted_getD c D (by omega)] at hw
  rw [Finset.mem_union, Finset.mem_filter, Finset.mem_filter, wrong_iff hl hi]
  by_cases hm : hint c D i ≠ 0 ∧ ¬ (hint c D i < 0 ↔ x.getD i false = true)
  · exact .inr ⟨Finset.mem_range.2 hi, hm⟩
  refine .inl ⟨Finset.mem_range.2 hi, ?_⟩
  rcases lt_trichotomy (hint c D i) 0 with hp | hp | hp
  · have hx : x.getD i false = true := by
      by_contra hc
      exact hm ⟨ne_of_lt hp, fun h => hc (h.1 hp)⟩
    rw [hx] at hw ⊢
    simp only [iff_true, not_lt] at hw ⊢
    exact ⟨by linarith, by rw [abs_of_neg hp, abs_of_nonneg (by linarith)]; linarith⟩
  · rw [hp, add_zero] at hw
    exact ⟨hw, by rw [hp, abs_zero]; exact abs_nonneg _⟩
  · have hx : ¬ x.getD i false = true := by
      intro hc
      exact hm ⟨ne_of_gt hp, fun h => absurd (h.2 hc) (by linarith)⟩
    simp only [hx, Bool.false_eq_true, iff_false, not_not] at hw ⊢
    exact ⟨by linarith, by rw [abs_of_pos hp, abs_of_neg (by linarith)]; linarith⟩

/-- **C149.** A hint misleads only about a bit that was steady and is now the less likely letter. -/
theorem c149_misled (c : CedCfg) (D : List (List Bool)) (x : List Bool) (i : Nat) (h0 : hint c D i ≠ 0)
    (h : ¬ (hint c D i < 0 ↔ x.getD i false = true)) :
    ∃ k, c.idx[k]? = some i ∧ Steady c D k ∧
      (x.getD i false = true → chance c.bitFlip D k < 1 / 2) ∧ (x.getD i false = false → 1 / 2 < chance c.bitFlip D k) := by
  unfold hint at h0 h
  split at h0
  · rename_i hc
    rw [if_pos hc] at h
    obtain ⟨s1, s2⟩ := push_sign c D (c.idx.idxOf i)
    refine ⟨c.idx.idxOf i, List.getElem?_idxOf hc.2.2, ?_⟩
    rcases lt_or_gt_of_ne h0 with hp | hp
    · have hx : ¬ x.getD i false = true := fun hx => h ⟨fun _ => hx, fun _ => hp⟩
      exact ⟨(s2 hp).1, fun hx' => absurd hx' hx, fun _ => (s2 hp).2⟩
    · have hx : ¬ x.getD i false = false := fun hx => h ⟨fun hn => absurd hn (by linarith), fun ht => by rw [hx] at ht; cases ht⟩
      exact ⟨(s1 hp).1, fun _ => (s1 hp).2, fun hx' => absurd hx' hx⟩
  · exact absurd rfl h0

/-- **C149.** Hence: if the wrong bits that the hints do not outweigh, and the steady bits that changed, are together never more than the LDPC
decoder corrects, every word is decoded to what was sent. -/
theorem c149_budget {c : CedCfg} (S : Sound c) (hk : c.kind = .logSpa) (hclip : 0 < c.clipping) (cls : Labeler σ) (ldpc : Ldpc Λ) (cs : σ) (ls : Λ)
    (code : List Bool → Prop) (T : Nat) (hcor : Corrects ldpc code T) (hest : ∀ s inp, ∀ i ∈ c.idx, i < (ldpc s inp).2.estimate.length)
    (words : List (List ℝ)) (labels : List Int) (sent : List (List Bool))
    (hlab : (asks c cls cs (-1) words).2 = labels.map .ok) (hlt : ∀ l ∈ labels, l < c.nClusters) (hlen : sent.length = words.length)
    (hrec : ∀ (j : Nat) (x : List Bool) (w : List ℝ), sent[j]? = some x → words[j]? = some w → Received c code x w)
    (hneg : ∀ (j : Nat) (x : List Bool) (w : List ℝ) (l : Int), sent[j]? = some x → words[j]? = some w → labels[j]? = some l → l < 0 →
      errors x w ≤ T)
    (hfew : ∀ (j : Nat) (x : List Bool) (w : List ℝ) (l : Int), sent[j]? = some x → words[j]? = some w → labels[j]? = some l → 0 ≤ l →
      unrepaired c (earlier c labels sent j l) x w + misled c (earlier c labels sent j l) x ≤ T)
    (j : Nat) (x : List Bool) (l : Int) (hx : sent[j]? = some x) (hl : labels[j]? = some l) :
    ∃ st r, (Ced.run c cls ldpc (Ced.new c.nClusters cs ls) words).2[j]? = some st ∧ st.result = .ok r ∧ r.success = true ∧ r.estimate = x ∧
      r.label = l := by
  refine c149_told S hk hclip cls ldpc cs ls code T hcor hest words labels sent hlab hlt hlen hrec ?_ j x l hx hl
  intro j x w l hx hw hl
  split
  · exact hneg j x w l hx hw hl ‹_›
  · exact (c149_left c _ (hrec j x w hx hw).same).trans (hfew j x w l hx hw hl (by omega))

/-! ### A case that meets the hypotheses -/

/-- An LDPC decoder for words of four bits that takes what it is handed. -/
noncomputable def plain : Ldpc Unit := fun _ inp => match inp with
  | .llr w => ((), ⟨if w.length = 4 then hardWord w else List.replicate 4 false, w, true, 1, [], []⟩)
  | _ => ((), ⟨List.replicate 4 false, [], false, 20, [], []⟩)

theorem plain_corrects : Corrects plain (fun x => x.length = 4) 0 := by
  intro s x w hx hw he
  refine ⟨rfl, ?_⟩
  show (if w.length = 4 then hardWord w else List.replicate 4 false) = x
  rw [if_pos (hw.trans hx)]
  apply List.ext_getElem?
  intro i
  by_cases hi : i < x.length
  · by_contra hc
    have : i ∈ (Finset.range x.length).filter fun i => (hardWord w)[i]? ≠ x[i]? := Finset.mem_filter.2 ⟨Finset.mem_range.2 hi, hc⟩
    have h0 : ((Finset.range x.length).filter fun i => (hardWord w)[i]? ≠ x[i]?) = ∅ := Finset.card_eq_zero.1 (Nat.le_zero.1 he)
    rw [h0] at this
    simp at this
  · rw [List.getElem?_eq_none (by unfold hardWord; rw [List.length_map]; omega), List.getElem?_eq_none (by omega)]

theorem plain_long : ∀ s inp, ∀ i ∈ demo.idx, i < (plain s inp).2.estimate.length := by
  intro s inp i hi
  have hi' : i = 0 ∨ i = 1 := by simpa [demo] using hi
  have h4 : i < 4 := by omega
  cases inp with
  | llr w =>
    show i < (if w.length = 4 then hardWord w else List.replicate 4 false).length
    split
    · rename_i h
      unfold hardWord
      rw [List.length_map]
      omega
    · simpa using h4
  | _ => simpa [plain] using h4

/-- Two words received right, then one with both model bits wrong and the others changed: it is decoded to what was sent, although the LDPC
decoder corrects nothing. -/
example : ∃ st r, (Ced.run demo noCls plain (Ced.new 1 () ()) [[-5, 5, -5, 5], [-5, 5, -5, 5], [4, -10, 6, 7]]).2[2]? = some st ∧
    st.result = .ok r ∧ r.success = true ∧ r.estimate = [true, false, false, false] ∧ r.label = 0 := by
  have hrec : ∀ (b b' : Bool) (w : List ℝ), w.length = 4 → (∃ r ∈ w, 0 < r) → Received demo (fun x => x.length = 4) [true, false, b, b'] w := by
    intro b b' w hw hp
    refine ⟨rfl, hw, ?_, by simp [demo, bitsAt], hp⟩
    intro i hi
    have hi' : i = 0 ∨ i = 1 := by simpa [demo] using hi
    omega
  have hno : ∀ (D : List (List Bool)) (i : Nat), D.length ≤ 1 → hint demo D i = 0 := by
    intro D i hD
    unfold hint push entTrust
    rw [if_pos (show demo.train = true from rfl), if_pos hD]
    simp
  have hright : ∀ (D : List (List Bool)) (b b' : Bool) (w : List ℝ), D.length ≤ 1 → hardWord w = [true, false, b, b'] →
      unrepaired demo D [true, false, b, b'] w + misled demo D [true, false, b, b'] ≤ 0 := by
    intro D b b' w hD hw
    unfold unrepaired misled
    rw [hw, Nat.le_zero, Nat.add_eq_zero_iff, Finset.card_eq_zero, Finset.card_eq_zero, Finset.filter_eq_empty_iff, Finset.filter_eq_empty_iff]
    exact ⟨fun i _ h => h.1 rfl, fun i _ h => h.1 (hno D i hD)⟩
  have hhard : hardWord [-5, 5, -5, 5] = [true, false, true, false] := by
    unfold hardWord
    norm_num
  refine c149_budget demo_sound rfl (by norm_num [demo]) noCls plain () () (fun x => x.length = 4) 0 plain_corrects plain_long _ [0, 0, 0]
    [[true, false, true, false], [true, false, true, false], [true, false, false, false]] (by simp [asks, pickLabel, demo]) (by simp [demo]) rfl
    ?_ ?_ ?_ 2 _ 0 rfl rfl
  · intro j x w hx hw
    match j with
    | 0 => cases hx; cases hw; exact hrec _ _ _ rfl ⟨5, by simp, by norm_num⟩
    | 1 => cases hx; cases hw; exact hrec _ _ _ rfl ⟨5, by simp, by norm_num⟩
    | 2 => cases hx; cases hw; exact hrec _ _ _ rfl ⟨6, by simp, by norm_num⟩
    | j + 3 => cases hx
  · intro j x w l hx hw hl hneg
    match j with
    | 0 => cases hl; simp at hneg
    | 1 => cases hl; simp at hneg
    | 2 => cases hl; simp at hneg
    | j + 3 => cases hl
  · intro j x w l hx hw hl _
    match j with
    | 0 => cases hx; cases hw; cases hl; exact hright _ _ _ _ (by decide) hhard
    | 1 => cases hx; cases hw; cases hl; exact hright _ _ _ _ (by decide) hhard
    | 2 =>
      cases hx; cases hw; cases hl
      have hD : earlier demo [0, 0, 0] [[true, false, true, false], [true, false, true, false], [true, false, false, false]] 2 0 =
          [[true, false], [true, false]] := by simp [earlier, keep, demo, bitsAt]
      rw [hD]
      have hconst : ∀ k b, (∀ x ∈ [[true, false], [true, false]], (x : List Bool).getD k false = b) →
          Constant demo.bitFlip [[true, false], [true, false]] k b := fun k b h => constant_of_all (by norm_num [demo]) (by simp) h
      have hu : Used demo [[true, false], [true, false]] := ⟨1, 1, rfl, by decide, steady_constant (b := false) (by norm_num [demo])
        (by norm_num [demo]) (hconst 1 false (by simp))⟩
      have htr : 1 / 2 ≤ entTrust demo 2 := by
        unfold entTrust
        rw [if_pos (show demo.train = true from rfl), if_neg (by decide)]
        have : Real.exp (-(((2 : Nat) : ℝ) - demo.center) * demo.slope) ≤ 1 := by
          rw [Real.exp_le_one_iff]
          norm_num [demo]
        have hp := Real.exp_pos (-(((2 : Nat) : ℝ) - demo.center) * demo.slope)
        exact one_div_le_one_div_of_le (by linarith) (by linarith)
      have hT : 18 < entTrust demo 2 * Real.log ((floatEps + 1) / floatEps) := by
        have := mul_lt_mul_of_pos_left log_eps (show 0 < entTrust demo 2 by linarith)
        linarith
      have h0 : hint demo [[true, false], [true, false]] 0 = -(entTrust demo 2 * Real.log ((floatEps + 1) / floatEps)) := by
        unfold hint
        rw [if_pos ⟨by simp, hu, by simp [demo]⟩, show demo.idx.idxOf 0 = 0 from rfl, push_constant (by norm_num [demo]) (by norm_num [demo])
          (hconst 0 true (by simp))]
        simp
      have h1 : hint demo [[true, false], [true, false]] 1 = entTrust demo 2 * Real.log ((floatEps + 1) / floatEps) := by
        unfold hint
        rw [if_pos ⟨by simp, hu, by simp [demo]⟩, show demo.idx.idxOf 1 = 1 from rfl, push_constant (by norm_num [demo]) (by norm_num [demo])
          (hconst 1 false (by simp))]
        simp
      have hhard2 : hardWord [4, -10, 6, 7] = [false, true, false, false] := by
        unfold hardWord
        norm_num
      have hoff : ∀ i, 2 ≤ i → hint demo [[true, false], [true, false]] i = 0 := by
        intro i hi
        unfold hint
        rw [if_neg]
        rintro ⟨_, _, h⟩
        have hi' : i = 0 ∨ i = 1 := by simpa [demo] using h
        omega
      unfold unrepaired misled
      rw [hhard2, Nat.le_zero, Nat.add_eq_zero_iff, Finset.card_eq_zero, Finset.card_eq_zero, Finset.filter_eq_empty_iff,
        Finset.filter_eq_empty_iff]
      constructor
      · rintro i _ ⟨hne, hle⟩
        match i with
        | 0 =>
          rw [h0, abs_neg, abs_of_pos (by linarith)] at hle
          norm_num at hle
          linarith
        | 1 =>
          rw [h1, abs_of_pos (by linarith)] at hle
          norm_num at hle
          linarith
        | 2 => exact hne rfl
        | 3 => exact hne rfl
        | i + 4 => exact hne rfl
      · rintro i _ ⟨hne, hw⟩
        match i with
        | 0 => exact hw ⟨fun _ => rfl, fun _ => by rw [h0]; linarith⟩
        | 1 => exact hw ⟨fun h => by rw [h1] at h; linarith, fun h => by cases h⟩
        | i + 2 => exact hne (hoff _ (by omega))
    | j + 3 => cases hx

end NR.C149
