import Verif.Lemmas.Decoder
/-
C53: the entropy decoder learns windows per cluster. C54: during classifier training it is the plain LDPC decoder.
C55: the model's influence. C56: round-robin labels. (For the entropy decoder.)
-/
namespace NR
open Spec

variable {σ Λ : Type}

/-- The learned parts of two states agree. -/
def SameModel (s t : Ced σ Λ) : Prop := s.dists = t.dists ∧ s.ents = t.ents ∧ s.datas = t.datas

theorem predict_some {c : CedCfg} {s : Ced σ Λ} {n l : Nat} {m : List ℝ} (h : s.predict c n l = .ok m) :
    l < s.datas.length ∧ l < s.dists.length ∧ l < s.ents.length := by
  unfold Ced.predict at h
  split at h
  · rename_i h1 h2 h3
    exact ⟨(List.getElem?_eq_some_iff.1 h3).1, (List.getElem?_eq_some_iff.1 h2).1, (List.getElem?_eq_some_iff.1 h1).1⟩
  · cases h

theorem prepare_some {c : CedCfg} {s : Ced σ Λ} {ch : List ℝ} {l : Nat} {i : LdpcIn} (h : s.prepare c ch l = .ok i) :
    ∃ m, s.predict c ch.length l = .ok m := by
  unfold Ced.prepare at h
  cases hp : s.predict c ch.length l with
  | error e => rw [hp] at h; cases h
  | ok m => exact ⟨m, rfl⟩

theorem update_other (c : CedCfg) (s : Ced σ Λ) (bits : List Bool) (l : Nat) :
    (s.update c bits l).1.running = s.running ∧ (s.update c bits l).1.cls = s.cls ∧
    (s.update c bits l).1.ldpc = s.ldpc ∧
    (∀ k, k ≠ l → (s.update c bits l).1.datas[k]? = s.datas[k]? ∧ (s.update c bits l).1.dists[k]? = s.dists[k]? ∧
      (s.update c bits l).1.ents[k]? = s.ents[k]?) ∧
    (s.update c bits l).1.datas.length = s.datas.length ∧ (s.update c bits l).1.dists.length = s.dists.length ∧
    (s.update c bits l).1.ents.length = s.ents.length := by
  unfold Ced.update
  have hset : ∀ {α : Type} (a : List α) (x : α) (k : Nat), k ≠ l → (a.set l x)[k]? = a[k]? := by
    intro α a x k hk
    rw [List.getElem?_set_ne (Ne.symm hk)]
  split
  · simp
  · split
    · simp
    · split
      · simp
      · simp only
        split
        · exact ⟨rfl, rfl, rfl, fun k hk => ⟨hset _ _ _ hk, rfl, rfl⟩, by simp, rfl, rfl⟩
        · split
          · exact ⟨rfl, rfl, rfl, fun k hk => ⟨hset _ _ _ hk, rfl, rfl⟩, by simp, rfl, rfl⟩
          · split
            · exact ⟨rfl, rfl, rfl, fun k hk => ⟨hset _ _ _ hk, hset _ _ _ hk, rfl⟩, by simp, by simp, rfl⟩
            · exact ⟨rfl, rfl, rfl, fun k hk => ⟨hset _ _ _ hk, hset _ _ _ hk, hset _ _ _ hk⟩, by simp, by simp,
                by simp⟩

theorem update_data {c : CedCfg} (ht : c.train = true) (s : Ced σ Λ) {bits : List Bool}
    (hb : bits.length = c.modelLength) {l : Nat} {old : List (List Bool)} (ho : s.datas[l]? = some old) :
    (s.update c bits l).1.datas[l]? = some (growData c.window old bits) := by
  have hl : l < s.datas.length := (List.getElem?_eq_some_iff.1 ho).1
  have hset : ∀ x, (s.datas.set l x)[l]? = some x := fun x => List.getElem?_set_self hl
  unfold Ced.update
  rw [ht, if_neg (by simp), if_neg (by simp [hb]), ho]
  simp only
  split
  · exact hset _
  · split
    · exact hset _
    · split
      · exact hset _
      · exact hset _

/-- What one call does, case by case. -/
theorem decode_cases (c : CedCfg) (cls : Labeler σ) (ldpc : Ldpc Λ) (s : Ced σ Λ) (ch : List ℝ) :
    ((s.decode c cls ldpc ch).learned = none ∧ SameModel (s.decode c cls ldpc ch).state s ∧
      ∀ r, (s.decode c cls ldpc ch).result = .ok r → r.label < 0) ∨
    ∃ (chBits : List Bool) (label : Int) (t : Ced σ Λ) (inp : LdpcIn) (o : LdpcOut) (modelBits : List Bool),
      takeIdx (hardBits ch) c.idx = .ok chBits ∧ 0 ≤ label ∧ SameModel t s ∧
      t.prepare c ch label.toNat = .ok inp ∧ takeIdx o.estimate c.idx = .ok modelBits ∧
      (s.decode c cls ldpc ch).learned = some (label.toNat, if o.success then modelBits else chBits) ∧
      (s.decode c cls ldpc ch).state = (t.update c (if o.success then modelBits else chBits) label.toNat).1 ∧
      (∀ r, (s.decode c cls ldpc ch).result = .ok r →
        r.label = label ∧ r.estimate = o.estimate ∧ r.success = o.success ∧
        (t.update c (if o.success then modelBits else chBits) label.toNat).2 = .ok () ∧
        (s.decode c cls ldpc ch).state.dists[label.toNat]? = some r.dist) := by
  unfold Ced.decode
  cases htk : takeIdx (hardBits ch) c.idx with
  | error e => left; exact ⟨rfl, ⟨rfl, rfl, rfl⟩, fun r h => (by cases h)⟩
  | ok chBits =>
    simp only
    rcases hpk : pickLabel cls c.nClusters c.cluster s.cls s.running chBits with ⟨cs, running, lab⟩
    simp only
    cases lab with
    | error e => left; exact ⟨rfl, ⟨rfl, rfl, rfl⟩, fun r h => (by cases h)⟩
    | ok label =>
      simp only
      split
      · rename_i hneg
        left
        refine ⟨rfl, ⟨rfl, rfl, rfl⟩, fun r h => ?_⟩
        cases h
        exact hneg
      · rename_i hneg
        have hlt : ((label.toNat : Nat) : Int) = label := by omega
        cases hpr : ({ s with cls := cs, running := running } : Ced σ Λ).prepare c ch label.toNat with
        | error e => left; exact ⟨rfl, ⟨rfl, rfl, rfl⟩, fun r h => (by cases h)⟩
        | ok inp =>
          simp only
          rcases hld : ldpc s.ldpc inp with ⟨l', o⟩
          simp only
          unfold Ced.finish
          cases hte : takeIdx o.estimate c.idx with
          | error e => left; exact ⟨rfl, ⟨rfl, rfl, rfl⟩, fun r h => (by cases h)⟩
          | ok modelBits =>
            right
            simp only
            refine ⟨chBits, label, { s with cls := cs, running := running, ldpc := l' }, inp, o, modelBits, by trivial,
              by omega, ⟨rfl, rfl, rfl⟩, ?_, hte, ?_⟩
            · exact hpr
            · rcases hup : Ced.update c { s with cls := cs, running := running, ldpc := l' }
                (if o.success then modelBits else chBits) label.toNat with ⟨s', r⟩
              cases r with
              | error e => exact ⟨by trivial, by trivial, fun r h => (by cases h)⟩
              | ok u =>
                simp only
                split
                · rename_i d h hd hh
                  split
                  · exact ⟨by trivial, rfl, fun r h => (by cases h)⟩
                  · refine ⟨by trivial, rfl, fun r hr => ?_⟩
                    cases hr
                    exact ⟨hlt, by trivial, by trivial, by trivial, hd⟩
                · exact ⟨by trivial, rfl, fun r h => (by cases h)⟩

/-- The samples passed to cluster `l` in a sequence of steps. -/
def learnedBy (l : Nat) (steps : List (CedStep σ Λ)) : List (List Bool) :=
  steps.filterMap fun st => match st.learned with
    | some (k, b) => if k = l then some b else none
    | none => none

theorem decode_data {c : CedCfg} (ht : c.train = true) (hm : 0 < c.modelLength) (hi : c.idx.length = c.modelLength)
    (cls : Labeler σ) (ldpc : Ldpc Λ) (s : Ced σ Λ) (ch : List ℝ) (l : Nat) (h : List (List Bool))
    (hl : ∀ x ∈ h, x.length = c.modelLength) (hs : s.datas[l]? = some (keep c.window h)) :
    (s.decode c cls ldpc ch).state.datas[l]? = some (keep c.window (h ++ learnedBy l [s.decode c cls ldpc ch])) ∧
    ∀ x ∈ learnedBy l [s.decode c cls ldpc ch], x.length = c.modelLength := by
  rcases decode_cases c cls ldpc s ch with ⟨h1, h2, _⟩ | ⟨chBits, label, t, inp, o, mb, htk, h0, hsame, hp, hte, hle, hst, _⟩
  · simp only [learnedBy, List.filterMap_cons, h1, List.filterMap_nil, List.append_nil]
    rw [h2.2.2]
    exact ⟨hs, by simp⟩
  · have hbl : (if o.success then mb else chBits).length = c.modelLength := by
      split
      · rw [(takeIdx_ok hte).2.2, hi]
      · rw [(takeIdx_ok htk).2.2, hi]
    simp only [learnedBy, List.filterMap_cons, hle, List.filterMap_nil]
    rw [hst]
    by_cases hk : label.toNat = l
    · subst hk
      rw [if_pos rfl, update_data ht t hbl (by rw [hsame.2.2]; exact hs), growData_keep hm _ _ _ hl]
      refine ⟨rfl, ?_⟩
      intro x hx
      rw [List.mem_singleton.1 hx]
      exact hbl
    · rw [if_neg hk]
      refine ⟨?_, by simp⟩
      rw [((update_other c t _ label.toNat).2.2.2.1 l (Ne.symm hk)).1, hsame.2.2, List.append_nil]
      exact hs

/-- C53. After any sequence of calls, returning or raising, the data kept for a cluster are the last `window_length`
bit vectors (all without a window) that were learned for this cluster, in order. -/
theorem c53_window {c : CedCfg} (ht : c.train = true) (hm : 0 < c.modelLength) (hi : c.idx.length = c.modelLength)
    (cls : Labeler σ) (ldpc : Ldpc Λ) (cs : σ) (ls : Λ) (words : List (List ℝ)) (l : Nat) (hl : l < c.nClusters) :
    (Ced.run c cls ldpc (Ced.new c.nClusters cs ls) words).1.datas[l]? =
      some (keep c.window (learnedBy l (Ced.run c cls ldpc (Ced.new c.nClusters cs ls) words).2)) := by
  have key : ∀ (words : List (List ℝ)) (s : Ced σ Λ) (h : List (List Bool)), (∀ x ∈ h, x.length = c.modelLength) →
      s.datas[l]? = some (keep c.window h) →
      (Ced.run c cls ldpc s words).1.datas[l]? =
        some (keep c.window (h ++ learnedBy l (Ced.run c cls ldpc s words).2)) := by
    intro words
    induction words with
    | nil => intro s h _ hs; simpa [Ced.run, learnedBy] using hs
    | cons ch rest ih =>
      intro s h hlen hs
      obtain ⟨h1, h2⟩ := decode_data ht hm hi cls ldpc s ch l h hlen hs
      have := ih (s.decode c cls ldpc ch).state (h ++ learnedBy l [s.decode c cls ldpc ch])
        (by
          intro x hx
          rcases List.mem_append.1 hx with hx | hx
          · exact hlen x hx
          · exact h2 x hx) h1
      simp only [Ced.run]
      rw [this, List.append_assoc]
      simp only [learnedBy, ← List.filterMap_append, List.singleton_append]
  have := key words (Ced.new c.nClusters cs ls) [] (by simp) (by
    rw [Ced.new, List.getElem?_replicate_of_lt hl]
    cases c.window <;> simp [keep, lastN])
  simpa using this

/-- C53. What a returning call learned, read off its argument and return value: nothing while the label is negative,
otherwise, for the returned label, the model bits of the returned estimate if decoding succeeded and of the received word
if not. -/
theorem c53_learned (c : CedCfg) (cls : Labeler σ) (ldpc : Ldpc Λ) (s : Ced σ Λ) (ch : List ℝ) (r : CedOut)
    (h : (s.decode c cls ldpc ch).result = .ok r) :
    (s.decode c cls ldpc ch).learned =
      if r.label < 0 then none
      else some (r.label.toNat, bitsAt c.idx (if r.success then r.estimate else hardWord ch)) := by
  rcases decode_cases c cls ldpc s ch with ⟨h1, _, h3⟩ | ⟨chBits, label, t, inp, o, mb, htk, h0, _, _, hte, hle, _, hr⟩
  · rw [h1, if_pos (h3 r h)]
  · obtain ⟨e1, e2, e3, _⟩ := hr r h
    have hx : (if o.success then mb else chBits) = bitsAt c.idx (if o.success then o.estimate else hardWord ch) := by
      split
      · exact (takeIdx_ok hte).2.1
      · exact (takeIdx_ok htk).2.1
    rw [hle, e1, e2, e3, hx, if_neg (not_lt.2 h0)]

/-- The vectors learned for cluster `l`, read off the arguments and the return values of the calls. -/
noncomputable def learnedFrom (c : CedCfg) (l : Nat) (calls : List (List ℝ × CedOut)) : List (List Bool) :=
  calls.filterMap fun x =>
    if x.2.label = (l : Int) then some (bitsAt c.idx (if x.2.success then x.2.estimate else hardWord x.1)) else none

theorem learnedBy_from (c : CedCfg) (cls : Labeler σ) (ldpc : Ldpc Λ) (l : Nat) (words : List (List ℝ)) (s : Ced σ Λ)
    (outs : List CedOut) (h : (Ced.run c cls ldpc s words).2.map CedStep.result = outs.map Except.ok) :
    learnedBy l (Ced.run c cls ldpc s words).2 = learnedFrom c l (words.zip outs) := by
  induction words generalizing s outs with
  | nil => simp [Ced.run, learnedBy, learnedFrom]
  | cons ch rest ih =>
    simp only [Ced.run, List.map_cons] at h
    cases outs with
    | nil => simp at h
    | cons r outs =>
      simp only [List.map_cons, List.cons.injEq] at h
      have hc := c53_learned c cls ldpc s ch r h.1
      have := ih (s.decode c cls ldpc ch).state outs h.2
      simp only [learnedBy, learnedFrom, Ced.run, List.filterMap_cons, List.zip_cons_cons] at this ⊢
      rw [this, hc]
      by_cases h1 : r.label < 0
      · rw [if_pos h1, if_neg (by omega)]
      · rw [if_neg h1]
        by_cases h2 : r.label = (l : Int)
        · have : r.label.toNat = l := by omega
          simp only [if_pos h2, this, if_true]
        · have : r.label.toNat ≠ l := by omega
          simp only [if_neg h2, if_neg this]

/-- C53. When all calls returned: the data of a cluster are the last `window_length` of the vectors described by their
arguments and return values. -/
theorem c53_returned {c : CedCfg} (ht : c.train = true) (hm : 0 < c.modelLength) (hi : c.idx.length = c.modelLength)
    (cls : Labeler σ) (ldpc : Ldpc Λ) (cs : σ) (ls : Λ) (words : List (List ℝ)) (l : Nat) (hl : l < c.nClusters)
    (outs : List CedOut)
    (h : (Ced.run c cls ldpc (Ced.new c.nClusters cs ls) words).2.map CedStep.result = outs.map Except.ok) :
    (Ced.run c cls ldpc (Ced.new c.nClusters cs ls) words).1.datas[l]? =
      some (keep c.window (learnedFrom c l (words.zip outs))) := by
  rw [c53_window ht hm hi cls ldpc cs ls words l hl, learnedBy_from c cls ldpc l words _ outs h]

/-- C53. A call changes nothing of the clusters other than the one it learned for; in particular nothing at all when it
learned for none. -/
theorem c53_others (c : CedCfg) (cls : Labeler σ) (ldpc : Ldpc Λ) (s : Ced σ Λ) (ch : List ℝ) (k : Nat)
    (hk : ∀ b, (s.decode c cls ldpc ch).learned ≠ some (k, b)) :
    (s.decode c cls ldpc ch).state.datas[k]? = s.datas[k]? ∧ (s.decode c cls ldpc ch).state.dists[k]? = s.dists[k]? ∧
      (s.decode c cls ldpc ch).state.ents[k]? = s.ents[k]? := by
  rcases decode_cases c cls ldpc s ch with ⟨_, h2, _⟩ | ⟨chBits, label, t, inp, o, mb, _, _, hsame, _, _, hle, hst, _⟩
  · rw [h2.1, h2.2.1, h2.2.2]; exact ⟨rfl, rfl, rfl⟩
  · have hne : k ≠ label.toNat := by
      rintro rfl
      exact hk _ hle
    obtain ⟨h1, h2, h3⟩ := (update_other c t (if o.success then mb else chBits) label.toNat).2.2.2.1 k hne
    rw [hst, h1, h2, h3, hsame.1, hsame.2.1, hsame.2.2]
    exact ⟨rfl, rfl, rfl⟩

theorem update_dist {c : CedCfg} (ht : c.train = true) (hm : 0 < c.modelLength) {s : Ced σ Λ} {bits : List Bool}
    {l : Nat} {old : List (List Bool)} (ho : s.datas[l]? = some old) (hd : l < s.dists.length)
    (he : l < s.ents.length) (hne : growData c.window old bits ≠ []) :
    ((s.update c bits l).2 = .ok () → BothLetters c.modelLength (growData c.window old bits) ∧
      (s.update c bits l).1.dists[l]? = some ((List.range c.modelLength).map fun (j : Nat) =>
        (1 - corrected c.bitFlip (oneShare (growData c.window old bits) j),
          corrected c.bitFlip (oneShare (growData c.window old bits) j))) ∧
      (s.update c bits l).1.ents[l]? = some ((List.range c.modelLength).map fun (j : Nat) =>
        Real.binEntropy (corrected c.bitFlip (oneShare (growData c.window old bits) j)) / Real.log 2)) ∧
    (bits.length = c.modelLength → BothLetters c.modelLength (growData c.window old bits) →
      (s.update c bits l).2 = .ok ()) ∧
    (bits.length = c.modelLength → ¬ BothLetters c.modelLength (growData c.window old bits) →
      (s.update c bits l).2 = .error .indexError) := by
  classical
  obtain ⟨dist, hp, _, hA, hB⟩ := probOf_spec hm hne
  have hcor : ∀ x : ℝ, 0 ≤ corrected c.bitFlip x ∧ corrected c.bitFlip x ≤ 1 := by
    intro x
    unfold corrected npClip
    exact ⟨le_min (by norm_num) (le_max_left _ _), min_le_left _ _⟩
  by_cases hb : bits.length = c.modelLength
  · by_cases hbl : BothLetters c.modelLength (growData c.window old bits)
    · have hcol := (hA hbl).1
      have hno : ¬ ∃ p ∈ (((List.range c.modelLength).map fun j =>
          (((growData c.window old bits).countP fun b => b.getD j false : ℕ) : ℚ) /
            (growData c.window old bits).length).map fun (q : ℚ) => corrected c.bitFlip q), p > 1 ∨ p < 0 := by
        rintro ⟨p, hp, h⟩
        obtain ⟨q, _, rfl⟩ := List.mem_map.1 hp
        have := hcor q
        rcases h with h | h <;> linarith [this.1, this.2]
      have hcast : ∀ j, (((((growData c.window old bits).countP fun b => b.getD j false : ℕ) : ℚ) /
            (growData c.window old bits).length : ℚ) : ℝ) = oneShare (growData c.window old bits) j := by
        intro j
        rw [oneShare]; push_cast; rfl
      have hupd : s.update c bits l = ({ s with
          datas := s.datas.set l (growData c.window old bits)
          dists := s.dists.set l ((List.range c.modelLength).map fun (j : Nat) =>
            (1 - corrected c.bitFlip (oneShare (growData c.window old bits) j),
              corrected c.bitFlip (oneShare (growData c.window old bits) j)))
          ents := s.ents.set l ((List.range c.modelLength).map fun (j : Nat) =>
            Real.binEntropy (corrected c.bitFlip (oneShare (growData c.window old bits) j)) / Real.log 2) }, .ok ()) := by
        unfold Ced.update
        rw [ht, if_neg (by simp), if_neg (by simp [hb]), ho]
        simp only [hp, hcol]
        rw [if_neg hno]
        simp only [List.map_map, Function.comp_def, hcast, entropyPair]
      rw [hupd]
      refine ⟨fun _ => ⟨hbl, ?_, ?_⟩, fun _ _ => rfl, fun _ h => absurd hbl h⟩
      · exact List.getElem?_set_self hd
      · exact List.getElem?_set_self he
    · have hcol := (hB hbl).1
      have hupd : (s.update c bits l).2 = .error .indexError := by
        unfold Ced.update
        rw [ht, if_neg (by simp), if_neg (by simp [hb]), ho]
        simp only [hp, hcol]
      rw [hupd]
      exact ⟨fun h => (by cases h), fun _ h => absurd h hbl, fun _ _ => rfl⟩
  · have hupd : (s.update c bits l).2 = .error .incorrectBufferLength := by
      unfold Ced.update
      rw [ht, if_neg (by simp), if_pos hb]
    rw [hupd]
    exact ⟨fun h => (by cases h), fun h => absurd h hb, fun h => absurd h hb⟩

/-- C53. The distribution and the entropies a returning call leaves for its cluster are those of its data: the shares of
ones corrected for the bit flips of the channel and clipped to [0,1], and their binary entropies in bits. The returned
distribution is this one. -/
theorem c53_distribution {c : CedCfg} (ht : c.train = true) (hm : 0 < c.modelLength) (hw : c.window ≠ some 0)
    (cls : Labeler σ) (ldpc : Ldpc Λ) (s : Ced σ Λ) (ch : List ℝ) (r : CedOut)
    (h : (s.decode c cls ldpc ch).result = .ok r) (h0 : 0 ≤ r.label) :
    ∃ data, (s.decode c cls ldpc ch).state.datas[r.label.toNat]? = some data ∧ BothLetters c.modelLength data ∧
      (s.decode c cls ldpc ch).state.dists[r.label.toNat]? = some r.dist ∧
      r.dist = ((List.range c.modelLength).map fun (j : Nat) =>
        (1 - min 1 (max 0 ((oneShare data j - c.bitFlip) / (1 - 2 * c.bitFlip))),
          min 1 (max 0 ((oneShare data j - c.bitFlip) / (1 - 2 * c.bitFlip))))) ∧
      (s.decode c cls ldpc ch).state.ents[r.label.toNat]? = some ((List.range c.modelLength).map fun (j : Nat) =>
        Real.binEntropy (min 1 (max 0 ((oneShare data j - c.bitFlip) / (1 - 2 * c.bitFlip)))) / Real.log 2) := by
  rcases decode_cases c cls ldpc s ch with ⟨h1, _, h3⟩ | ⟨chBits, label, t, inp, o, mb, htk, hl0, hsame, hp, hte, hle, hst, hr⟩
  · exact absurd (h3 r h) (by omega)
  · obtain ⟨e1, e2, e3, hok, hd⟩ := hr r h
    obtain ⟨m, hpm⟩ := prepare_some hp
    obtain ⟨l1, l2, l3⟩ := predict_some hpm
    rw [e1]
    have hold := List.getElem?_eq_getElem l1
    have hbl : (if o.success then mb else chBits).length = c.modelLength := by
      by_contra hne
      have : (t.update c (if o.success then mb else chBits) label.toNat).2 = .error .incorrectBufferLength := by
        unfold Ced.update
        rw [ht, if_neg (by simp), if_pos hne]
      rw [this] at hok
      cases hok
    have hne : growData c.window t.datas[label.toNat] (if o.success then mb else chBits) ≠ [] := by
      unfold growData
      have hx : (if (t.datas[label.toNat]).flatten.length = 0 then [if o.success then mb else chBits]
          else t.datas[label.toNat] ++ [if o.success then mb else chBits]) ≠ [] := by split <;> simp
      revert hx
      generalize (if (t.datas[label.toNat]).flatten.length = 0 then [if o.success then mb else chBits]
          else t.datas[label.toNat] ++ [if o.success then mb else chBits]) = z
      intro hx
      cases hwin : c.window with
      | none => exact hx
      | some w =>
        have hw0 : w ≠ 0 := by rintro rfl; exact hw hwin
        have hz := List.length_pos_iff.2 hx
        simp only
        split
        · rw [Ne, List.drop_eq_nil_iff]; omega
        · exact hx
    obtain ⟨hu, _, _⟩ := update_dist ht hm hold l2 l3 hne
    obtain ⟨hboth, hdist, hents⟩ := hu hok
    refine ⟨_, ?_, hboth, ?_, ?_, ?_⟩
    · rw [hst, update_data ht t hbl hold]
    · exact hd
    · rw [hst, hdist] at hd
      exact (Option.some.inj hd).symm
    · rw [hst, hents]
      rfl

/-- C53. With a predefined data model the model never changes, whatever is received. -/
theorem c53_predefined {c : CedCfg} (ht : c.train = false) (cls : Labeler σ) (ldpc : Ldpc Λ) (s : Ced σ Λ)
    (words : List (List ℝ)) : SameModel (Ced.run c cls ldpc s words).1 s := by
  induction words generalizing s with
  | nil => exact ⟨rfl, rfl, rfl⟩
  | cons ch rest ih =>
    have hstep : SameModel (s.decode c cls ldpc ch).state s := by
      rcases decode_cases c cls ldpc s ch with ⟨_, h2, _⟩ | ⟨chBits, label, t, inp, o, mb, _, _, hsame, _, _, _, hst, _⟩
      · exact h2
      · have : (t.update c (if o.success then mb else chBits) label.toNat).1 = t := by
          unfold Ced.update
          rw [ht]; rfl
        rw [hst, this]
        exact hsame
    obtain ⟨h1, h2, h3⟩ := ih (s.decode c cls ldpc ch).state
    simp only [Ced.run]
    exact ⟨h1.trans hstep.1, h2.trans hstep.2.1, h3.trans hstep.2.2⟩

/-- C53. A call whose cluster has then seen only one letter (for instance only zeros) in its window raises an IndexError,
although the sample has been added; and if the model bits are not as many as `model_length`, no learning call returns. -/
theorem c53_raises {c : CedCfg} (ht : c.train = true) (hm : 0 < c.modelLength) (s : Ced σ Λ) (bits : List Bool) (l : Nat)
    (old : List (List Bool)) (ho : s.datas[l]? = some old) (hd : l < s.dists.length) (he : l < s.ents.length) :
    (bits.length ≠ c.modelLength → s.update c bits l = (s, .error .incorrectBufferLength)) ∧
    (bits.length = c.modelLength → growData c.window old bits ≠ [] →
      ¬ BothLetters c.modelLength (growData c.window old bits) →
      (s.update c bits l).2 = .error .indexError ∧
        (s.update c bits l).1.datas[l]? = some (growData c.window old bits)) := by
  refine ⟨fun h => ?_, fun hb hne hbl => ⟨(update_dist ht hm ho hd he hne).2.2 hb hbl, update_data ht s hb ho⟩⟩
  unfold Ced.update
  rw [ht, if_neg (by simp), if_pos h]

/-- C54. While the label is negative the entropy decoder hands the received word unchanged to the LDPC decoder (its hard
decisions to a hard decoder), returns that decoder's estimate and success flag, and learns nothing. -/
theorem c54_training_passthrough (c : CedCfg) (cls : Labeler σ) (ldpc : Ldpc Λ) (s : Ced σ Λ) (ch : List ℝ)
    (r : CedOut) (h : (s.decode c cls ldpc ch).result = .ok r) (hneg : r.label < 0) :
    (s.decode c cls ldpc ch).handed = some (plainInput c.kind ch) ∧
    r.estimate = (ldpc s.ldpc (plainInput c.kind ch)).2.estimate ∧
    r.success = (ldpc s.ldpc (plainInput c.kind ch)).2.success ∧
    r.iterations = (ldpc s.ldpc (plainInput c.kind ch)).2.iterations ∧
    (s.decode c cls ldpc ch).learned = none ∧ SameModel (s.decode c cls ldpc ch).state s ∧
    (s.decode c cls ldpc ch).state.running = s.running := by
  have hl := c53_learned c cls ldpc s ch r h
  rw [if_pos hneg] at hl
  rcases decode_cases c cls ldpc s ch with ⟨h1, h2, h3⟩ | ⟨chBits, label, t, inp, o, mb, _, _, _, _, _, hle, _, _⟩
  swap
  · rw [hle] at hl; cases hl
  have hmain : (s.decode c cls ldpc ch).handed = some (plainInput c.kind ch) ∧
    r.estimate = (ldpc s.ldpc (plainInput c.kind ch)).2.estimate ∧
    r.success = (ldpc s.ldpc (plainInput c.kind ch)).2.success ∧
    r.iterations = (ldpc s.ldpc (plainInput c.kind ch)).2.iterations ∧
    (s.decode c cls ldpc ch).state.running = s.running := by
    unfold Ced.decode at h ⊢
    cases htk : takeIdx (hardBits ch) c.idx with
    | error e => rw [htk] at h; cases h
    | ok chBits =>
      rw [htk] at h
      simp only at h ⊢
      rcases hpk : pickLabel cls c.nClusters c.cluster s.cls s.running chBits with ⟨cs, running, lab⟩
      rw [hpk] at h
      simp only at h ⊢
      cases lab with
      | error e => cases h
      | ok label =>
        simp only at h ⊢
        by_cases hlab : label < 0
        · rw [if_pos hlab] at h ⊢
          cases h
          refine ⟨rfl, rfl, rfl, rfl, ?_⟩
          unfold pickLabel at hpk
          split at hpk
          · split at hpk
            · exact (congrArg (fun x => x.2.1) hpk).symm
            · rename_i h1 _
              cases hpk
              have : (0 : Int) ≤ (s.running + 1) % c.nClusters := Int.emod_nonneg _ (by omega)
              omega
          · cases hpk; omega
        · rw [if_neg hlab] at h ⊢
          cases hpr : ({ s with cls := cs, running := running } : Ced σ Λ).prepare c ch label.toNat with
          | error e => rw [hpr] at h; cases h
          | ok inp =>
            rw [hpr] at h
            simp only at h
            unfold Ced.finish at h
            split at h
            · cases h
            · simp only at h
              split at h
              · cases h
              · split at h
                · split at h
                  · cases h
                  · cases h
                    simp only at hneg
                    omega
                · cases h
  exact ⟨hmain.1, hmain.2.1, hmain.2.2.1, hmain.2.2.2.1, hl, h2, hmain.2.2.2.2⟩

/-- C54. A classifier in training: with several clusters and clustering on, a negative label of the classifier makes the
call return that label (for a word that covers the model bits). -/
theorem c54_negative_label (c : CedCfg) (cls : Labeler σ) (ldpc : Ldpc Λ) (s : Ced σ Λ) (ch : List ℝ)
    (hn : 1 < c.nClusters) (hc : c.cluster = true) (hi : ∀ i ∈ c.idx, i < ch.length) (l : Int) (hl : l < 0)
    (h : (cls s.cls (bitsAt c.idx (hardWord ch))).2 = .ok l) :
    ∃ r, (s.decode c cls ldpc ch).result = .ok r ∧ r.label = l := by
  unfold Ced.decode
  have hlen : (hardBits ch).length = ch.length := by simp [hardBits]
  rw [takeIdx_of_lt (by rw [hlen]; exact hi)]
  simp only [pickLabel, if_pos hn, hc, if_true]
  change (cls s.cls (c.idx.filterMap ((hardBits ch)[·]?))).2 = .ok l at h
  rw [h]
  simp only
  rw [if_pos hl]
  exact ⟨_, rfl, rfl⟩

theorem addAt_gen : ∀ (idx : List Nat) (v : List ℝ) (a : List ℝ), idx.Nodup → (∀ i ∈ idx, i < a.length) →
    v.length = idx.length →
    (addAt a idx v).length = a.length ∧ (∀ i, i ∉ idx → (addAt a idx v).getD i 0 = a.getD i 0) ∧
    ∀ k (hk : k < idx.length), (addAt a idx v).getD idx[k] 0 = a.getD idx[k] 0 + v.getD k 0 := by
  intro idx
  induction idx with
  | nil => intro v a _ _ _; simp [addAt]
  | cons j idx ih =>
    intro v a hnd hlt hlen
    cases v with
    | nil => simp at hlen
    | cons y v =>
      rw [List.nodup_cons] at hnd
      have e : addAt a (j :: idx) (y :: v) = addAt (a.set j (a.getD j 0 + y)) idx v := rfl
      obtain ⟨i1, i2, i3⟩ := ih v (a.set j (a.getD j 0 + y)) hnd.2
        (fun i hi => by rw [List.length_set]; exact hlt i (List.mem_cons_of_mem _ hi)) (by simpa using hlen)
      have hget : ∀ i, i ≠ j → (a.set j (a.getD j 0 + y)).getD i 0 = a.getD i 0 := by
        intro i hi
        simp only [List.getD_eq_getElem?_getD, List.getElem?_set_ne (Ne.symm hi)]
      have hself : (a.set j (a.getD j 0 + y)).getD j 0 = a.getD j 0 + y := by
        rw [List.getD_eq_getElem?_getD, List.getElem?_set_self (hlt j (List.mem_cons_self ..))]; rfl
      rw [e]
      refine ⟨by rw [i1, List.length_set], fun i hi => ?_, fun k hk => ?_⟩
      · rw [List.mem_cons, not_or] at hi
        rw [i2 i hi.2, hget i hi.1]
      · cases k with
        | zero =>
          simp only [List.getElem_cons_zero, List.getD_cons_zero]
          rw [i2 j hnd.1, hself]
        | succ k =>
          have hk' : k < idx.length := by simpa using hk
          simp only [List.getElem_cons_succ, List.getD_cons_succ]
          rw [i3 k hk', hget _ (fun he => hnd.1 (he ▸ List.getElem_mem hk'))]

theorem addAt_spec (n : Nat) (idx : List Nat) (v : List ℝ) (hnd : idx.Nodup) (hlt : ∀ i ∈ idx, i < n)
    (hlen : v.length = idx.length) :
    (addAt (List.replicate n 0) idx v).length = n ∧
    (∀ i, i ∉ idx → (addAt (List.replicate n 0) idx v).getD i 0 = 0) ∧
    ∀ k (hk : k < idx.length), (addAt (List.replicate n 0) idx v).getD idx[k] 0 = v.getD k 0 := by
  obtain ⟨h1, h2, h3⟩ := addAt_gen idx v (List.replicate n 0) hnd (by simpa using hlt) hlen
  refine ⟨by simpa using h1, fun i hi => ?_, fun k hk => ?_⟩
  · rw [h2 i hi]
    simp only [List.getD_eq_getElem?_getD, List.getElem?_replicate]
    split <;> rfl
  · rw [h3 k hk]
    have : (List.replicate n (0 : ℝ)).getD idx[k] 0 = 0 := by
      simp only [List.getD_eq_getElem?_getD, List.getElem?_replicate]
      split <;> rfl
    rw [this, zero_add]


/-- Adding at the masked indices is adding the masked values at all indices. -/
theorem addAt_mask (a : List ℝ) (idx : List Nat) (v : List ℝ) (mask : List Bool) (h1 : v.length = idx.length)
    (h2 : mask.length = idx.length) :
    addAt a ((idx.zip mask).filterMap fun x => if x.2 then some x.1 else none)
      ((v.zip mask).filterMap fun x => if x.2 then some x.1 else none) =
    addAt a idx (List.zipWith (fun (x : ℝ) (m : Bool) => if m then x else 0) v mask) := by
  induction idx generalizing a v mask with
  | nil =>
    cases v with
    | nil => simp [addAt]
    | cons _ _ => simp at h1
  | cons j idx ih =>
    cases v with
    | nil => simp at h1
    | cons y v =>
      cases mask with
      | nil => simp at h2
      | cons m mask =>
        have e : ∀ (z : ℝ) (w : List ℝ), addAt a (j :: idx) (z :: w) = addAt (a.set j (a.getD j 0 + z)) idx w :=
          fun _ _ => rfl
        have e' : ∀ (z : ℝ) (is : List Nat) (w : List ℝ),
            addAt a (j :: is) (z :: w) = addAt (a.set j (a.getD j 0 + z)) is w := fun _ _ _ => rfl
        cases m
        · simp only [List.zip_cons_cons, List.filterMap_cons, Bool.false_eq_true, if_false, List.zipWith_cons_cons]
          rw [e, ih _ _ _ (by simpa using h1) (by simpa using h2)]
          congr 1
          rw [add_zero]
          by_cases hj : j < a.length
          · rw [List.getD_eq_getElem?_getD, List.getElem?_eq_getElem hj, Option.getD_some, List.set_getElem_self]
          · rw [List.set_eq_of_length_le (by omega)]
        · simp only [List.zip_cons_cons, List.filterMap_cons, if_true, List.zipWith_cons_cons]
          rw [e', ih _ _ _ (by simpa using h1) (by simpa using h2), ← e]

/-- The clusters of a state hold either no model or a model of `model_length` bits. -/
def WellFormed (c : CedCfg) (s : Ced σ Λ) : Prop :=
  s.dists.length = c.nClusters ∧ s.ents.length = c.nClusters ∧ s.datas.length = c.nClusters ∧
  ∀ l, l < c.nClusters → (s.ents[l]? = some [] ∧ s.dists[l]? = some []) ∨
    ∃ e d, s.ents[l]? = some e ∧ s.dists[l]? = some d ∧ e.length = c.modelLength ∧ d.length = c.modelLength

/-- C55. All states reached from a new decoder are of this form. -/
theorem c55_reachable {c : CedCfg} (ht : c.train = true) (hm : 0 < c.modelLength) (hw : c.window ≠ some 0)
    (cls : Labeler σ) (ldpc : Ldpc Λ) (cs : σ) (ls : Λ) (words : List (List ℝ)) :
    WellFormed c (Ced.run c cls ldpc (Ced.new c.nClusters cs ls) words).1 := by
  have hupd : ∀ (t : Ced σ Λ) (bits : List Bool) (l : Nat), WellFormed c t → WellFormed c (t.update c bits l).1 := by
    intro t bits l ⟨w1, w2, w3, w4⟩
    obtain ⟨_, _, _, u1, u2, u3, u4⟩ := update_other c t bits l
    refine ⟨by rw [u3, w1], by rw [u4, w2], by rw [u2, w3], fun k hk => ?_⟩
    by_cases hkl : k = l
    swap
    · rw [(u1 k hkl).2.1, (u1 k hkl).2.2]
      exact w4 k hk
    subst hkl
    have hold := List.getElem?_eq_getElem (show k < t.datas.length by omega)
    have hne : growData c.window t.datas[k] bits ≠ [] := by
      unfold growData
      have hx : (if (t.datas[k]).flatten.length = 0 then [bits] else t.datas[k] ++ [bits]) ≠ [] := by split <;> simp
      revert hx
      generalize (if (t.datas[k]).flatten.length = 0 then [bits] else t.datas[k] ++ [bits]) = z
      intro hx
      cases hwin : c.window with
      | none => exact hx
      | some w =>
        have hw0 : w ≠ 0 := by rintro rfl; exact hw hwin
        have hz := List.length_pos_iff.2 hx
        simp only
        split
        · rw [Ne, List.drop_eq_nil_iff]; omega
        · exact hx
    obtain ⟨hA, hB, hC⟩ := update_dist (s := t) ht hm hold (by omega) (by omega) hne
    by_cases hb : bits.length = c.modelLength
    · by_cases hbl : BothLetters c.modelLength (growData c.window t.datas[k] bits)
      · obtain ⟨_, h1, h2⟩ := hA (hB hb hbl)
        right
        exact ⟨_, _, h2, h1, by simp, by simp⟩
      · have herr := hC hb hbl
        have : (t.update c bits k).1.dists = t.dists ∧ (t.update c bits k).1.ents = t.ents := by
          obtain ⟨dist, hp, _, _, hB'⟩ := probOf_spec hm hne
          unfold Ced.update
          rw [ht, if_neg (by simp), if_neg (by simp [hb]), hold]
          simp only [hp, (hB' hbl).1]
          exact ⟨trivial, trivial⟩
        rw [this.1, this.2]
        exact w4 k hk
    · have : t.update c bits k = (t, .error .incorrectBufferLength) := by
        unfold Ced.update
        rw [ht, if_neg (by simp), if_pos hb]
      rw [this]
      exact w4 k hk
  have key : ∀ (words : List (List ℝ)) (s : Ced σ Λ), WellFormed c s → WellFormed c (Ced.run c cls ldpc s words).1 := by
    intro words
    induction words with
    | nil => intro s h; exact h
    | cons ch rest ih =>
      intro s h
      simp only [Ced.run]
      apply ih
      rcases decode_cases c cls ldpc s ch with ⟨_, h2, _⟩ | ⟨chBits, label, t, inp, o, mb, _, _, hs, _, _, _, hst, _⟩
      · unfold WellFormed
        rw [h2.1, h2.2.1, h2.2.2]
        exact h
      · rw [hst]
        apply hupd
        unfold WellFormed
        rw [hs.1, hs.2.1, hs.2.2]
        exact h
  apply key
  refine ⟨by simp [Ced.new], by simp [Ced.new], by simp [Ced.new], fun l hl => Or.inl ⟨?_, ?_⟩⟩
  · rw [Ced.new, List.getElem?_replicate_of_lt hl]
  · rw [Ced.new, List.getElem?_replicate_of_lt hl]

/-- The decoder's confidence in a cluster: 1 for a predefined model, 0 with at most one sample, otherwise the logistic
function of the number of samples. -/
noncomputable def confidenceOf (c : CedCfg) (samples : Nat) : ℝ :=
  if c.train then (if samples ≤ 1 then 0 else 1 / (1 + Real.exp (-((samples : ℝ) - c.center) * c.slope))) else 1

/-- Bit `k` of the model is structural: its entropy is below the threshold. -/
def Low (c : CedCfg) (ents : List ℝ) (k : Nat) : Prop := ∃ h, ents[k]? = some h ∧ h < c.threshold

/-- The positions of the low-entropy bits of a model. -/
theorem structural_mem {c : CedCfg} (hi : c.idx.length = c.modelLength) {ents : List ℝ} (hel : ents.length = c.modelLength) :
    (structuralMask c.threshold ents).length = c.idx.length ∧
    (∀ k, (structuralMask c.threshold ents).getD k false = true ↔ Low c ents k) ∧
    ∀ j, j ∈ ((c.idx.zip (structuralMask c.threshold ents)).filterMap fun x => if x.2 then some x.1 else none) ↔
      ∃ k, ∃ hk : k < c.idx.length, Low c ents k ∧ c.idx[k] = j := by
  classical
  have hml : (structuralMask c.threshold ents).length = c.idx.length := by simp [structuralMask, hel, hi]
  have hmask : ∀ k, (structuralMask c.threshold ents).getD k false = decide (Low c ents k) := by
    intro k
    by_cases hk : k < ents.length
    · simp [structuralMask, List.getD_eq_getElem?_getD, List.getElem?_map, Low, List.getElem?_eq_getElem hk]
    · simp [structuralMask, List.getD_eq_getElem?_getD, List.getElem?_map, Low,
        List.getElem?_eq_none (not_lt.1 hk)]
  refine ⟨hml, fun k => by rw [hmask k, decide_eq_true_eq], ?_⟩
  intro j
  rw [List.mem_filterMap]
  constructor
  · rintro ⟨⟨a, b⟩, hab, hj⟩
    obtain ⟨k, hk, hab'⟩ := List.mem_iff_getElem.1 hab
    rw [List.getElem_zip] at hab'
    have hk1 : k < c.idx.length := by simp only [List.length_zip] at hk; omega
    have hk2 : k < (structuralMask c.threshold ents).length := by omega
    have h1 : c.idx[k] = a := (Prod.mk.inj hab').1
    have h2 : (structuralMask c.threshold ents)[k] = b := (Prod.mk.inj hab').2
    by_cases hb : b = true
    · simp only [hb, if_true, Option.some.injEq] at hj
      refine ⟨k, hk1, ?_, by rw [h1, hj]⟩
      have := hmask k
      rw [List.getD_eq_getElem?_getD, List.getElem?_eq_getElem hk2, Option.getD_some, h2, hb] at this
      exact of_decide_eq_true this.symm
    · simp [hb] at hj
  · rintro ⟨k, hk, hlow, hj⟩
    have hk2 : k < (structuralMask c.threshold ents).length := by omega
    refine ⟨(c.idx[k], (structuralMask c.threshold ents)[k]), ?_, ?_⟩
    · rw [List.mem_iff_getElem]
      exact ⟨k, by simp only [List.length_zip]; omega, by rw [List.getElem_zip]⟩
    · have := hmask k
      rw [List.getD_eq_getElem?_getD, List.getElem?_eq_getElem hk2, Option.getD_some] at this
      rw [this]
      simp [hlow, hj]

/-- The model's word: zero except at the positions of the low-entropy bits. -/
theorem predict_spec {c : CedCfg} (s : Ced σ Λ) (hnd : c.idx.Nodup)
    (hi : c.idx.length = c.modelLength) {l : Nat} {ents : List ℝ} {dist : List (ℝ × ℝ)} {data : List (List Bool)}
    (he : s.ents[l]? = some ents) (hd : s.dists[l]? = some dist) (hda : s.datas[l]? = some data)
    (hel : ents.length = c.modelLength) (hdl : dist.length = c.modelLength)
    (hrect : ∀ x ∈ data, x ≠ []) (ch : List ℝ) (hlt : ∀ i ∈ c.idx, i < ch.length) :
    ∃ mod, s.predict c ch.length l = .ok mod ∧ mod.length = ch.length ∧
      (∀ i, i ∉ c.idx → mod.getD i 0 = 0) ∧
      (∀ k (hk : k < c.idx.length), ¬ Low c ents k → mod.getD c.idx[k] 0 = 0) ∧
      ((∃ k, ∃ hk : k < c.idx.length, Low c ents k ∧ c.idx[k] ≠ 0) → ∀ k (hk : k < c.idx.length), Low c ents k →
        mod.getD c.idx[k] 0 = confidenceOf c data.length *
            Real.log ((floatEps + (dist.getD k (0, 0)).1) / ((dist.getD k (0, 0)).2 + floatEps))) ∧
      ((¬ ∃ k, ∃ hk : k < c.idx.length, Low c ents k ∧ c.idx[k] ≠ 0) → ∀ i, mod.getD i 0 = 0) := by
  classical
  have hml : (structuralMask c.threshold ents).length = c.idx.length := by simp [structuralMask, hel, hi]
  have hmask : ∀ k, (structuralMask c.threshold ents).getD k false = decide (Low c ents k) := by
    intro k
    by_cases hk : k < ents.length
    · simp [structuralMask, List.getD_eq_getElem?_getD, List.getElem?_map, Low, List.getElem?_eq_getElem hk]
    · simp [structuralMask, List.getD_eq_getElem?_getD, List.getElem?_map, Low,
        List.getElem?_eq_none (not_lt.1 hk)]
  have hsize : (if data.flatten.length = 0 then 0 else data.length) = data.length := by
    split
    · rename_i h0
      cases data with
      | nil => rfl
      | cons x xs =>
        have := hrect x (List.mem_cons_self ..)
        simp only [List.flatten_cons, List.length_append] at h0
        have : x.length ≠ 0 := fun h => this (List.length_eq_zero_iff.1 h)
        omega
    · rfl
  have hst := (structural_mem (c := c) hi hel).2.2
  have hz : ∀ i, (List.replicate ch.length (0 : ℝ)).getD i 0 = 0 := by
    intro i
    simp only [List.getD_eq_getElem?_getD, List.getElem?_replicate]
    split <;> rfl
  unfold Ced.predict
  rw [he, hd, hda]
  simp only
  rw [maskIdx_spec _ _ hml]
  simp only [bind, Except.bind]
  by_cases hall : ((c.idx.zip (structuralMask c.threshold ents)).filterMap
      fun x => if x.2 then some x.1 else none).all (· == 0) = true
  · rw [if_pos hall]
    have hno : ¬ ∃ k, ∃ hk : k < c.idx.length, Low c ents k ∧ c.idx[k] ≠ 0 := by
      rintro ⟨k, hk, h1, h2⟩
      have := List.all_eq_true.1 hall c.idx[k] ((hst _).2 ⟨k, hk, h1, rfl⟩)
      exact h2 (by simpa using this)
    exact ⟨_, rfl, by simp, fun i _ => hz i, fun k _ _ => hz _, fun h => absurd h hno, fun _ => hz⟩
  · rw [if_neg hall]
    have hyes : ∃ k, ∃ hk : k < c.idx.length, Low c ents k ∧ c.idx[k] ≠ 0 := by
      by_contra hno
      apply hall
      rw [List.all_eq_true]
      intro j hj
      obtain ⟨k, hk, h1, h2⟩ := (hst j).1 hj
      by_contra hj0
      exact hno ⟨k, hk, h1, by rw [h2]; simpa using hj0⟩
    have hconf : (if c.train = true then modelConfidence (if data.flatten.length = 0 then 0 else data.length)
        c.center c.slope else 1) = confidenceOf c data.length := by
      rw [hsize]; rfl
    rw [hconf]
    by_cases hpos : 0 < confidenceOf c data.length
    · rw [if_pos hpos, maskIdx_spec _ _ (by simp [structuralMask, hel, hdl])]
      simp only
      rw [if_pos (by
        rw [List.all_eq_true]
        intro j hj
        obtain ⟨k, hk, _, h2⟩ := (hst j).1 hj
        simpa using hlt j (h2 ▸ List.getElem_mem hk)), addAt_mask _ _ _ _ (by simp [hdl, hi]) hml]
      have hvl : (List.zipWith (fun (x : ℝ) (m : Bool) => if m then x else 0)
          (dist.map fun p => confidenceOf c data.length * modelRatio p) (structuralMask c.threshold ents)).length
          = c.idx.length := by simp [structuralMask, hel, hdl, hi]
      obtain ⟨a1, a2, a3⟩ := addAt_spec ch.length c.idx _ hnd hlt hvl
      have hval : ∀ k, k < c.idx.length → (List.zipWith (fun (x : ℝ) (m : Bool) => if m then x else 0)
          (dist.map fun p => confidenceOf c data.length * modelRatio p) (structuralMask c.threshold ents)).getD k 0
          = if Low c ents k then confidenceOf c data.length * modelRatio (dist.getD k (0, 0)) else 0 := by
        intro k hk
        have hk1 : k < dist.length := by omega
        have hk2 : k < (structuralMask c.threshold ents).length := by omega
        have hm' := hmask k
        rw [List.getD_eq_getElem?_getD, List.getElem?_eq_getElem hk2, Option.getD_some] at hm'
        rw [List.getD_eq_getElem?_getD, List.getElem?_eq_getElem (by rw [hvl]; exact hk), Option.getD_some,
          List.getElem_zipWith, List.getElem_map, hm', List.getD_eq_getElem?_getD, List.getElem?_eq_getElem hk1,
          Option.getD_some]
        by_cases hlow : Low c ents k <;> simp [hlow]
      refine ⟨_, rfl, a1, a2, fun k hk hlow => ?_, fun _ k hk hlow => ?_, fun h => absurd hyes h⟩
      · rw [a3 k hk, hval k hk, if_neg hlow]
      · rw [a3 k hk, hval k hk, if_pos hlow]; rfl
    · rw [if_neg hpos]
      have hzero : confidenceOf c data.length = 0 := by
        unfold confidenceOf at hpos ⊢
        split
        · rename_i h1
          rw [if_pos h1] at hpos
          split
          · rfl
          · rename_i h2
            rw [if_neg h2] at hpos
            exact absurd (by positivity) hpos
        · rename_i h1
          rw [if_neg h1] at hpos
          exact absurd one_pos hpos
      refine ⟨_, rfl, by simp, fun i _ => hz i, fun k _ _ => hz _, fun _ k _ _ => ?_, fun _ => hz⟩
      rw [hzero, zero_mul]
      exact hz _

/-- C55. The word handed to an LDPC decoder working on log-likelihood ratios: position by position the channel's value,
plus, at the positions of the low-entropy model bits only, the confidence times the model's log-likelihood ratio, clipped
to plus or minus the clipping factor times the largest channel value. (Exception: if the only low-entropy bit is bit 0 of
the codeword, the model is ignored.) -/
theorem c55_handed {c : CedCfg} (hk : c.kind = .logSpa) (s : Ced σ Λ) (hnd : c.idx.Nodup)
    (hi : c.idx.length = c.modelLength) {l : Nat} {ents : List ℝ} {dist : List (ℝ × ℝ)} {data : List (List Bool)}
    (he : s.ents[l]? = some ents) (hd : s.dists[l]? = some dist) (hda : s.datas[l]? = some data)
    (hel : ents.length = c.modelLength) (hdl : dist.length = c.modelLength)
    (hrect : ∀ x ∈ data, x ≠ [])
    (ch : List ℝ) (hlt : ∀ i ∈ c.idx, i < ch.length) {m : ℝ} (hm : pyMax ch = .ok m) :
    ∃ w, s.prepare c ch l = .ok (.llr w) ∧ w.length = ch.length ∧
      (∀ i, i < ch.length → i ∉ c.idx → w.getD i 0 = npClip (-(c.clipping * m)) (c.clipping * m) (ch.getD i 0)) ∧
      (∀ k (hk : k < c.idx.length), ¬ Low c ents k →
        w.getD c.idx[k] 0 = npClip (-(c.clipping * m)) (c.clipping * m) (ch.getD c.idx[k] 0)) ∧
      ((∃ k, ∃ hk : k < c.idx.length, Low c ents k ∧ c.idx[k] ≠ 0) →
        ∀ k (hk : k < c.idx.length), Low c ents k →
        w.getD c.idx[k] 0 = npClip (-(c.clipping * m)) (c.clipping * m) (ch.getD c.idx[k] 0 +
          confidenceOf c data.length *
            Real.log ((floatEps + (dist.getD k (0, 0)).1) / ((dist.getD k (0, 0)).2 + floatEps)))) ∧
      ((¬ ∃ k, ∃ hk : k < c.idx.length, Low c ents k ∧ c.idx[k] ≠ 0) →
        ∀ i, i < ch.length → w.getD i 0 = npClip (-(c.clipping * m)) (c.clipping * m) (ch.getD i 0)) := by
  classical
  obtain ⟨mod, hp, hlen, p1, p2, p3, p4⟩ := predict_spec s hnd hi he hd hda hel hdl hrect ch hlt
  have hw : ∀ i, i < ch.length → (List.zipWith (fun (a b : ℝ) => npClip (-(c.clipping * m)) (c.clipping * m) (a + b))
      ch mod).getD i 0 = npClip (-(c.clipping * m)) (c.clipping * m) (ch.getD i 0 + mod.getD i 0) := by
    intro i hi
    have h2 : i < mod.length := by omega
    simp only [List.getD_eq_getElem?_getD, List.getElem?_zipWith, List.getElem?_eq_getElem hi,
      List.getElem?_eq_getElem h2, Option.getD_some]
  refine ⟨List.zipWith (fun (a b : ℝ) => npClip (-(c.clipping * m)) (c.clipping * m) (a + b)) ch mod, ?_,
    by simp [hlen], fun i hi hni => ?_, fun k hk hlow => ?_, fun hex k hk hlow => ?_, fun hno i hi => ?_⟩
  · unfold Ced.prepare
    rw [hp, hk]
    simp only [bind, Except.bind, hm]
  · rw [hw i hi, p1 i hni, add_zero]
  · rw [hw _ (hlt _ (List.getElem_mem hk)), p2 k hk hlow, add_zero]
  · rw [hw _ (hlt _ (List.getElem_mem hk)), p3 hex k hk hlow]
  · rw [hw i hi, p4 hno i, add_zero]

/-- C55. In every case the word handed over stays within the bound if the largest channel value is not negative (and the
clipping factor is not); if all values of the received word are negative, every position is handed over as the same
number: the received word is lost. -/
theorem c55_bounded {c : CedCfg} (hk : c.kind = .logSpa) (s : Ced σ Λ) (ch : List ℝ) (l : Nat) (w : List ℝ)
    (h : s.prepare c ch l = .ok (.llr w)) (hc : 0 < c.clipping) :
    ∃ m, pyMax ch = .ok m ∧ (∀ x ∈ ch, x ≤ m) ∧ m ∈ ch ∧ (0 ≤ m → ∀ x ∈ w, |x| ≤ c.clipping * m) ∧
      ((∀ x ∈ ch, x < 0) → ∀ x ∈ w, x = c.clipping * m) := by
  have hmax : ∀ (xs : List ℝ) (x : ℝ), (∀ y ∈ x :: xs, y ≤ xs.foldl max x) ∧ xs.foldl max x ∈ x :: xs := by
    intro xs
    induction xs with
    | nil => intro x; simp
    | cons y ys ih =>
      intro x
      obtain ⟨h1, h2⟩ := ih (max x y)
      simp only [List.foldl_cons]
      refine ⟨fun z hz => ?_, ?_⟩
      · have hb := h1 (max x y) (List.mem_cons_self ..)
        rcases List.mem_cons.1 hz with rfl | hz
        · exact (le_max_left _ _).trans hb
        · rcases List.mem_cons.1 hz with rfl | hz
          · exact (le_max_right _ _).trans hb
          · exact h1 z (List.mem_cons_of_mem _ hz)
      · rcases List.mem_cons.1 h2 with h2 | h2
        · rw [h2]
          rcases max_choice x y with hm | hm <;> rw [hm] <;> simp
        · exact List.mem_cons_of_mem _ (List.mem_cons_of_mem _ h2)
  unfold Ced.prepare at h
  cases hp : s.predict c ch.length l with
  | error e => rw [hp] at h; cases h
  | ok mod =>
    rw [hp, hk] at h
    simp only [bind, Except.bind] at h
    cases ch with
    | nil => cases h
    | cons x xs =>
      simp only [pyMax, Except.ok.injEq, LdpcIn.llr.injEq] at h
      have hin : ∀ v ∈ w, ∃ y, v = npClip (-(c.clipping * xs.foldl max x)) (c.clipping * xs.foldl max x) y := by
        intro v hv
        rw [← h] at hv
        obtain ⟨i, hi, rfl⟩ := List.mem_iff_getElem.1 hv
        rw [List.getElem_zipWith]
        exact ⟨_, rfl⟩
      refine ⟨_, rfl, (hmax xs x).1, (hmax xs x).2, fun h0 v hv => ?_, fun hneg v hv => ?_⟩
      · obtain ⟨y, rfl⟩ := hin v hv
        have hb : 0 ≤ c.clipping * xs.foldl max x := mul_nonneg hc.le h0
        unfold npClip
        rw [abs_le]
        exact ⟨le_min (by linarith) (le_max_left _ _), min_le_left _ _⟩
      · obtain ⟨y, rfl⟩ := hin v hv
        have hm0 : xs.foldl max x < 0 := hneg _ (hmax xs x).2
        have hb : c.clipping * xs.foldl max x < 0 := mul_neg_of_pos_of_neg hc hm0
        unfold npClip
        rw [min_eq_left]
        exact le_trans (by linarith) (le_max_left _ _)

/-- C55. What a returning call with a label that is not negative hands to the LDPC decoder is the word described by
`c55_handed`, with the model the state holds for that label, and what it returns is that decoder's answer to it. -/
theorem c55_decode {c : CedCfg} (cls : Labeler σ) (ldpc : Ldpc Λ) (s : Ced σ Λ) (ch : List ℝ) {r : CedOut}
    (h : (s.decode c cls ldpc ch).result = .ok r) (h0 : 0 ≤ r.label) :
    ∃ inp, s.prepare c ch r.label.toNat = .ok inp ∧ (s.decode c cls ldpc ch).handed = some inp ∧
      r.estimate = (ldpc s.ldpc inp).2.estimate ∧ r.success = (ldpc s.ldpc inp).2.success ∧
      r.iterations = (ldpc s.ldpc inp).2.iterations := by
  unfold Ced.decode at h ⊢
  cases htk : takeIdx (hardBits ch) c.idx with
  | error e => rw [htk] at h; cases h
  | ok chBits =>
    rw [htk] at h
    rcases hpk : pickLabel cls c.nClusters c.cluster s.cls s.running chBits with ⟨cs, running, lab⟩
    simp only [hpk] at h ⊢
    cases lab with
    | error e => cases h
    | ok label =>
      simp only at h ⊢
      split at h
      · rename_i hneg
        cases h
        exact absurd h0 (not_le.2 hneg)
      · rename_i hneg
        rw [if_neg hneg]
        have hpe : ({ s with cls := cs, running := running } : Ced σ Λ).prepare c ch label.toNat =
            s.prepare c ch label.toNat := rfl
        rw [hpe] at h ⊢
        cases hpr : s.prepare c ch label.toNat with
        | error e => rw [hpr] at h; cases h
        | ok inp =>
          simp only [hpr] at h ⊢
          rcases hld : ldpc s.ldpc inp with ⟨l', o⟩
          simp only [hld] at h ⊢
          unfold Ced.finish at h ⊢
          cases hte : takeIdx o.estimate c.idx with
          | error e => simp only [hte] at h; cases h
          | ok modelBits =>
            simp only [hte] at h ⊢
            rcases hup : Ced.update c { s with cls := cs, running := running, ldpc := l' }
              (if o.success then modelBits else chBits) label.toNat with ⟨s', u⟩
            simp only [hup] at h ⊢
            cases u with
            | error e => cases h
            | ok u =>
              simp only at h ⊢
              split at h
              · split at h
                · cases h
                · rename_i st hst
                  cases h
                  refine ⟨inp, ?_, ?_, ?_⟩
                  · rw [show (((label.toNat : Nat) : Int)).toNat = label.toNat by omega]
                    exact hpr
                  · simp only [*]
                  · rw [hld]
                    exact ⟨rfl, rfl, rfl⟩
              · cases h

/-- C55. The bound and the collapse for every returning call: what is handed over is within the clipping factor times the
largest received value, and a word of negative values only is handed over as one number repeated. -/
theorem c55_decode_bounded {c : CedCfg} (hk : c.kind = .logSpa) (cls : Labeler σ) (ldpc : Ldpc Λ) (s : Ced σ Λ)
    (ch : List ℝ) {r : CedOut} (h : (s.decode c cls ldpc ch).result = .ok r) (h0 : 0 ≤ r.label) (hc : 0 < c.clipping) :
    ∃ w m, (s.decode c cls ldpc ch).handed = some (.llr w) ∧ (∀ x ∈ ch, x ≤ m) ∧ m ∈ ch ∧
      (0 ≤ m → ∀ x ∈ w, |x| ≤ c.clipping * m) ∧ ((∀ x ∈ ch, x < 0) → ∀ x ∈ w, x = c.clipping * m) := by
  obtain ⟨inp, hp, hh, _⟩ := c55_decode cls ldpc s ch h h0
  have : ∃ w, inp = .llr w := by
    unfold Ced.prepare at hp
    cases hq : s.predict c ch.length r.label.toNat with
    | error e => rw [hq] at hp; cases hp
    | ok mod =>
      rw [hq, hk] at hp
      simp only [bind, Except.bind] at hp
      cases hm : pyMax ch with
      | error e => rw [hm] at hp; cases hp
      | ok m => rw [hm] at hp; cases hp; exact ⟨_, rfl⟩
  obtain ⟨w, rfl⟩ := this
  obtain ⟨m, _, h2, h3, h4, h5⟩ := c55_bounded hk s ch _ w hp hc
  exact ⟨w, m, hh, h2, h3, h4, h5⟩

/-- C55. The model pushes towards the letter it finds likelier: its log-likelihood ratio is positive, zero or negative as
the probability of a zero is larger than, equal to or smaller than that of a one. -/
theorem c55_direction (p0 p1 : ℝ) (h0 : 0 ≤ p0) (h1 : 0 ≤ p1) :
    (0 < modelRatio (p0, p1) ↔ p1 < p0) ∧ (modelRatio (p0, p1) < 0 ↔ p0 < p1) := by
  have he : (0 : ℝ) < floatEps := by unfold floatEps; positivity
  have hpos : 0 < (floatEps + p0) / (p1 + floatEps) := by positivity
  unfold modelRatio
  constructor
  · rw [Real.log_pos_iff hpos.le, one_lt_div (by linarith)]
    constructor <;> intro h <;> linarith
  · rw [Real.log_neg_iff hpos, div_lt_one (by linarith)]
    constructor <;> intro h <;> linarith

/-- C56. With clustering off and several clusters, the i-th call (counting from 0, including calls that raised) carries
label i mod n; with one cluster the label is 0. The words must be long enough to contain the model bits. -/
theorem c56_round_robin {c : CedCfg} (cls : Labeler σ) (ldpc : Ldpc Λ) (s0 : Ced σ Λ) (hs : s0.running = -1)
    (words : List (List ℝ)) (hcov : ∀ w ∈ words, ∀ j ∈ c.idx, j < w.length) (i : Nat) (r : CedOut)
    (h : ((Ced.run c cls ldpc s0 words).2.map CedStep.result)[i]? = some (.ok r)) :
    (1 < c.nClusters → c.cluster = false → r.label = (i % c.nClusters : Nat)) ∧ (c.nClusters ≤ 1 → r.label = 0) := by
  have step : ∀ (s : Ced σ Λ) (w : List ℝ), (∀ j ∈ c.idx, j < w.length) →
      (1 < c.nClusters → c.cluster = false →
        (s.decode c cls ldpc w).state.running = (s.running + 1) % c.nClusters ∧
        ∀ r, (s.decode c cls ldpc w).result = .ok r → r.label = (s.running + 1) % c.nClusters) ∧
      (c.nClusters ≤ 1 → ∀ r, (s.decode c cls ldpc w).result = .ok r → r.label = 0) := by
    intro s w hw
    have hlen : (hardBits w).length = w.length := by simp [hardBits]
    have gen : ∀ (cs : σ) (run : Int) (lab : Int),
        pickLabel cls c.nClusters c.cluster s.cls s.running (c.idx.filterMap ((hardBits w)[·]?)) = (cs, run, .ok lab) →
        0 ≤ lab →
        (s.decode c cls ldpc w).state.running = run ∧ ∀ r, (s.decode c cls ldpc w).result = .ok r → r.label = lab := by
      intro cs run lab hpk hlab
      have hlt : ((lab.toNat : Nat) : Int) = lab := by omega
      unfold Ced.decode
      rw [takeIdx_of_lt (by rw [hlen]; exact hw)]
      simp only [hpk]
      rw [if_neg (not_lt.2 hlab)]
      cases hpr : ({ s with cls := cs, running := run } : Ced σ Λ).prepare c w lab.toNat with
      | error e => exact ⟨rfl, fun r h => (by cases h)⟩
      | ok inp =>
        simp only
        rcases hld : ldpc s.ldpc inp with ⟨l', o⟩
        simp only
        unfold Ced.finish
        cases hte : takeIdx o.estimate c.idx with
        | error e => exact ⟨rfl, fun r h => (by cases h)⟩
        | ok modelBits =>
          simp only
          have hrun := (update_other c ({ s with cls := cs, running := run, ldpc := l' } : Ced σ Λ)
            (if o.success then modelBits else c.idx.filterMap ((hardBits w)[·]?)) lab.toNat).1
          rcases hup : Ced.update c ({ s with cls := cs, running := run, ldpc := l' } : Ced σ Λ)
            (if o.success then modelBits else c.idx.filterMap ((hardBits w)[·]?)) lab.toNat with ⟨s', u⟩
          rw [hup] at hrun
          cases u with
          | error e => exact ⟨hrun, fun r h => (by cases h)⟩
          | ok u =>
            simp only
            split
            · split
              · exact ⟨hrun, fun r h => (by cases h)⟩
              · refine ⟨hrun, fun r hr => ?_⟩
                cases hr
                exact hlt
            · exact ⟨hrun, fun r h => (by cases h)⟩
    refine ⟨fun hn hc => ?_, fun hn => ?_⟩
    · exact gen s.cls _ _ (by rw [pickLabel, if_pos hn, hc]; rfl) (Int.emod_nonneg _ (by omega))
    · exact (gen s.cls s.running 0 (by rw [pickLabel, if_neg (by omega)]) le_rfl).2
  have key : ∀ (words : List (List ℝ)) (s : Ced σ Λ) (k i : Nat) (r : CedOut),
      (∀ w ∈ words, ∀ j ∈ c.idx, j < w.length) →
      ((Ced.run c cls ldpc s words).2.map CedStep.result)[i]? = some (.ok r) →
      (1 < c.nClusters → c.cluster = false → (s.running + 1) % c.nClusters = ((k % c.nClusters : Nat) : Int) →
        r.label = (((k + i) % c.nClusters : Nat) : Int)) ∧ (c.nClusters ≤ 1 → r.label = 0) := by
    intro words
    induction words with
    | nil => intro s k i r _ h; simp [Ced.run] at h
    | cons w rest ih =>
      intro s k i r hcov h
      obtain ⟨s1, s2⟩ := step s w (hcov w (List.mem_cons_self ..))
      simp only [Ced.run, List.map_cons] at h
      cases i with
      | zero =>
        simp only [List.getElem?_cons_zero, Option.some.injEq] at h
        refine ⟨fun hn hc hk => ?_, fun hn => s2 hn r h⟩
        rw [(s1 hn hc).2 r h, hk]; rfl
      | succ i =>
        simp only [List.getElem?_cons_succ] at h
        obtain ⟨i1, i2⟩ := ih (s.decode c cls ldpc w).state (k + 1) i r
          (fun w' hw' => hcov w' (List.mem_cons_of_mem _ hw')) h
        refine ⟨fun hn hc hk => ?_, i2⟩
        rw [i1 hn hc ?_]
        · congr 2; omega
        · rw [(s1 hn hc).1, hk]
          push_cast
          rw [Int.emod_add_emod]
  obtain ⟨k1, k2⟩ := key words s0 0 i r hcov h
  refine ⟨fun hn hc => ?_, k2⟩
  rw [k1 hn hc (by rw [hs]; simp), Nat.zero_add]

/-- C53. When calls return: with an LDPC decoder on log-likelihood ratios, a non-empty word covering the model bits and a
label among the clusters, the call learns, and then returns if both letters occur in the data of the cluster and raises an
IndexError if not. -/
theorem c53_returns {c : CedCfg} (ht : c.train = true) (hm : 0 < c.modelLength) (hi : c.idx.length = c.modelLength)
    (hw : c.window ≠ some 0) (hk : c.kind = .logSpa) (cls : Labeler σ) (ldpc : Ldpc Λ) (s : Ced σ Λ)
    (hwf : WellFormed c s) (ch : List ℝ) (hlt : ∀ i ∈ c.idx, i < ch.length) (label : Nat) (hl : label < c.nClusters)
    (hpk : (pickLabel cls c.nClusters c.cluster s.cls s.running (bitsAt c.idx (hardWord ch))).2.2 = .ok (label : Int))
    (hest : ∀ inp, ∀ i ∈ c.idx, i < (ldpc s.ldpc inp).2.estimate.length) :
    ∃ inp bits old, bits = bitsAt c.idx
        (if (ldpc s.ldpc inp).2.success then (ldpc s.ldpc inp).2.estimate else hardWord ch) ∧
      (s.decode c cls ldpc ch).learned = some (label, bits) ∧ s.datas[label]? = some old ∧
      (BothLetters c.modelLength (growData c.window old bits) →
        ∃ r, (s.decode c cls ldpc ch).result = .ok r ∧ r.label = label) ∧
      (¬ BothLetters c.modelLength (growData c.window old bits) →
        (s.decode c cls ldpc ch).result = .error .indexError) := by
  classical
  obtain ⟨w1, w2, w3, w4⟩ := hwf
  have hlen : (hardBits ch).length = ch.length := by simp [hardBits]
  have hold := List.getElem?_eq_getElem (show label < s.datas.length by omega)
  -- the model can be used
  have hpred : ∃ mod, s.predict c ch.length label = .ok mod := by
    unfold Ced.predict
    rw [hold]
    rcases w4 label hl with ⟨h1, h2⟩ | ⟨e, d, h1, h2, h3, h4⟩
    · rw [h1, h2]
      exact ⟨List.replicate ch.length 0, rfl⟩
    · rw [h1, h2]
      simp only
      rw [maskIdx_spec _ _ (by simp [structuralMask, h3, hi])]
      simp only [bind, Except.bind]
      generalize (if c.train = true then modelConfidence (if (s.datas[label]).flatten.length = 0 then 0
        else (s.datas[label]).length) c.center c.slope else 1) = conf
      split
      · exact ⟨_, rfl⟩
      · split
        · rw [maskIdx_spec _ _ (by simp [structuralMask, h3, h4])]
          simp only
          rw [if_pos]
          · exact ⟨_, rfl⟩
          · rw [List.all_eq_true]
            intro j hj
            obtain ⟨⟨a, b⟩, hab, hj'⟩ := List.mem_filterMap.1 hj
            have ha := (List.of_mem_zip hab).1
            split at hj'
            · cases hj'
              simpa using hlt _ ha
            · cases hj'
        · exact ⟨_, rfl⟩
  obtain ⟨mod, hmod⟩ := hpred
  have hprep : ∃ inp, s.prepare c ch label = .ok inp := by
    have hne : ch ≠ [] := by
      rintro rfl
      have h0 : 0 < c.idx.length := by omega
      have := hlt c.idx[0] (List.getElem_mem h0)
      simp at this
    obtain ⟨x, xs, rfl⟩ := List.exists_cons_of_ne_nil hne
    unfold Ced.prepare
    rw [hmod, hk]
    exact ⟨_, rfl⟩
  obtain ⟨inp, hinp⟩ := hprep
  rcases hpk' : pickLabel cls c.nClusters c.cluster s.cls s.running (c.idx.filterMap ((hardBits ch)[·]?))
    with ⟨cs, run, lab⟩
  have hlab : lab = .ok (label : Int) := by
    have : (pickLabel cls c.nClusters c.cluster s.cls s.running (c.idx.filterMap ((hardBits ch)[·]?))).2.2 =
      .ok (label : Int) := hpk
    rw [hpk'] at this
    exact this
  subst hlab
  rcases hld : ldpc s.ldpc inp with ⟨l', o⟩
  have hte := takeIdx_of_lt (a := o.estimate) (idx := c.idx) (by
    have := hest inp
    rw [hld] at this
    exact this)
  have htk := takeIdx_of_lt (a := hardBits ch) (idx := c.idx) (by rw [hlen]; exact hlt)
  have hdec : s.decode c cls ldpc ch = Ced.finish c { s with cls := cs, running := run, ldpc := l' }
      (c.idx.filterMap ((hardBits ch)[·]?)) label inp o := by
    unfold Ced.decode
    rw [htk]
    simp only [hpk']
    rw [if_neg (by omega)]
    have : ({ s with cls := cs, running := run } : Ced σ Λ).prepare c ch (label : Int).toNat = .ok inp := hinp
    rw [this]
    simp only [hld]
    rfl
  generalize hb : (if o.success then c.idx.filterMap (o.estimate[·]?) else c.idx.filterMap ((hardBits ch)[·]?)) = bits
  have hbl : bits.length = c.modelLength := by
    rw [← hb, ← hi]
    split
    · exact (takeIdx_ok hte).2.2
    · exact (takeIdx_ok htk).2.2
  have hne : growData c.window s.datas[label] bits ≠ [] := by
    unfold growData
    have hx : (if (s.datas[label]).flatten.length = 0 then [bits] else s.datas[label] ++ [bits]) ≠ [] := by
      split <;> simp
    revert hx
    generalize (if (s.datas[label]).flatten.length = 0 then [bits] else s.datas[label] ++ [bits]) = z
    intro hx
    cases hwin : c.window with
    | none => exact hx
    | some w =>
      have hw0 : w ≠ 0 := by rintro rfl; exact hw hwin
      have hz := List.length_pos_iff.2 hx
      simp only
      split
      · rw [Ne, List.drop_eq_nil_iff]; omega
      · exact hx
  obtain ⟨hA, hB, hC⟩ := update_dist (s := ({ s with cls := cs, running := run, ldpc := l' } : Ced σ Λ)) (l := label)
    (bits := bits) ht hm hold (show label < s.dists.length by omega) (show label < s.ents.length by omega) hne
  rcases hup : Ced.update c ({ s with cls := cs, running := run, ldpc := l' } : Ced σ Λ) bits label with ⟨s', u⟩
  rw [hup] at hA hB hC
  refine ⟨inp, bits, s.datas[label], ?_, ?_, hold, fun hboth => ?_, fun hnot => ?_⟩
  · rw [← hb, hld]
    split <;> rfl
  · rw [hdec]
    unfold Ced.finish
    rw [hte]
    simp only [hb, hup]
    cases u with
    | error e => rfl
    | ok u =>
      simp only
      split
      · split <;> rfl
      · rfl
  · have hu : u = .ok () := hB hbl hboth
    obtain ⟨_, h1, h2⟩ := hA hu
    simp only at h1 h2
    rw [hdec]
    unfold Ced.finish
    rw [hte]
    simp only [hb, hup, hu, h1, h2]
    rw [maskIdx_spec _ _ (by simp [structuralMask, hi])]
    exact ⟨_, rfl, rfl⟩
  · have hu : u = .error .indexError := hC hbl hnot
    rw [hdec]
    unfold Ced.finish
    rw [hte]
    simp only [hb, hup, hu]

/-! Non-vacuity: two clusters served in turn, three model bits at the positions 0, 2 and 3 of a codeword of 4 bits. -/

/-- The parameters of the example. -/
noncomputable def cedDemo : CedCfg :=
  { kind := .logSpa, modelLength := 3, threshold := 1 / 2, idx := [0, 2, 3], clipping := 5, train := true, center := 2,
    slope := 1, bitFlip := 0, window := some 2, nClusters := 2, cluster := false, method := 0, meanDegree := 3 }

/-- An LDPC decoder that always finds the codeword 1101. -/
def ldpcDemo : Ldpc Unit := fun _ _ => ((), ⟨[true, true, false, true], [], true, 1, [], []⟩)

/-- A classifier that is still in training. -/
def clsDemo : Labeler Unit := fun _ _ => ((), .ok (-1))

-- A call that returns.
example (s : Ced Unit Unit) (hs : WellFormed cedDemo s) (hr : s.running = -1) (hd : s.datas[0]? = some []) :
    ∃ r, (s.decode cedDemo clsDemo ldpcDemo [1, 2, 3, -4]).result = .ok r ∧ r.label = 0 := by
  obtain ⟨inp, bits, old, h0, h1, h2, h3, _⟩ := c53_returns (c := cedDemo) rfl (by decide) rfl (by simp [cedDemo]) rfl
    clsDemo ldpcDemo s hs [1, 2, 3, -4] (by simp [cedDemo]) 0 (by decide) (by simp [pickLabel, cedDemo, hr])
    (by simp [cedDemo, ldpcDemo])
  have hold : old = [] := by rw [hd] at h2; exact (Option.some.inj h2).symm
  apply h3
  have hb : bits = [true, false, true] := by rw [h0]; rfl
  rw [hold, hb]
  exact ⟨⟨[true, false, true], by simp [growData, cedDemo], 1, by decide, rfl⟩,
    ⟨[true, false, true], by simp [growData, cedDemo], 0, by decide, rfl⟩⟩

-- The word handed over by that call is within five times the largest received value.
example (s : Ced Unit Unit) (hs : WellFormed cedDemo s) (hr : s.running = -1) (hd : s.datas[0]? = some []) :
    ∃ w, (s.decode cedDemo clsDemo ldpcDemo [1, 2, 3, -4]).handed = some (.llr w) ∧ ∀ x ∈ w, |x| ≤ 5 * 3 := by
  have hret : ∃ r, (s.decode cedDemo clsDemo ldpcDemo [1, 2, 3, -4]).result = .ok r ∧ r.label = 0 := by
    obtain ⟨inp, bits, old, h0, h1, h2, h3, _⟩ := c53_returns (c := cedDemo) rfl (by decide) rfl (by simp [cedDemo]) rfl
      clsDemo ldpcDemo s hs [1, 2, 3, -4] (by simp [cedDemo]) 0 (by decide) (by simp [pickLabel, cedDemo, hr])
      (by simp [cedDemo, ldpcDemo])
    have hold : old = [] := by rw [hd] at h2; exact (Option.some.inj h2).symm
    apply h3
    have hb : bits = [true, false, true] := by rw [h0]; rfl
    rw [hold, hb]
    exact ⟨⟨[true, false, true], by simp [growData, cedDemo], 1, by decide, rfl⟩,
      ⟨[true, false, true], by simp [growData, cedDemo], 0, by decide, rfl⟩⟩
  obtain ⟨r, hr1, hr2⟩ := hret
  obtain ⟨w, m, h1, h2, h3, h4, _⟩ := c55_decode_bounded (c := cedDemo) rfl clsDemo ldpcDemo s _ hr1 (by rw [hr2])
    (by simp [cedDemo])
  have hm : m = 3 := le_antisymm (by simp only [List.mem_cons, List.not_mem_nil, or_false] at h3; rcases h3 with rfl | rfl | rfl | rfl <;> norm_num)
    (h2 3 (by simp))
  subst hm
  exact ⟨w, h1, h4 (by norm_num)⟩

-- Five calls: the windows are those of `c53_window`.
example : (Ced.run cedDemo clsDemo ldpcDemo (Ced.new 2 () ()) (List.replicate 5 [1, 2, 3, -4])).1.datas[1]? =
    some (keep (some 2) (learnedBy 1
      (Ced.run cedDemo clsDemo ldpcDemo (Ced.new 2 () ()) (List.replicate 5 [1, 2, 3, -4])).2)) :=
  c53_window (c := cedDemo) rfl (by decide) rfl clsDemo ldpcDemo () () _ 1 (by decide)

-- A training call of the entropy decoder with a classifier.
example : ∃ r, ((Ced.new 2 () ()).decode { cedDemo with cluster := true } clsDemo ldpcDemo [1, 2, 3, -4]).result = .ok r ∧
    r.label = -1 :=
  c54_negative_label _ clsDemo ldpcDemo _ [1, 2, 3, -4] (by decide) rfl (by simp [cedDemo]) (-1) (by decide) rfl

-- A word of negative values only collapses.
example (s : Ced Unit Unit) (w : List ℝ) (h : s.prepare cedDemo [-1, -2, -3, -4] 0 = .ok (.llr w)) :
    ∃ m, ∀ x ∈ w, x = 5 * m := by
  obtain ⟨m, _, _, _, _, h2⟩ := c55_bounded (c := cedDemo) rfl s _ 0 w h (by simp [cedDemo])
  exact ⟨m, h2 (by simp)⟩

-- A state with a model: bits 0 and 3 of the codeword are structural.
example : ∃ w, (Ced.prepare (σ := Unit) (Λ := Unit) cedDemo
      ⟨[[(1, 0), (1 / 2, 1 / 2), (0, 1)]], [[0, 1, 0]], [[[false, true, true], [false, false, true]]], -1, (), ()⟩
      [1, 2, 3, -4] 0) = .ok (.llr w) ∧ w.length = 4 := by
  obtain ⟨w, h1, h2, _⟩ := c55_handed (c := cedDemo) (σ := Unit) (Λ := Unit) rfl
    ⟨[[(1, 0), (1 / 2, 1 / 2), (0, 1)]], [[0, 1, 0]], [[[false, true, true], [false, false, true]]], -1, (), ()⟩
    (by decide) rfl (l := 0) rfl rfl rfl rfl rfl (by simp) [1, 2, 3, -4] (by simp [cedDemo]) rfl
  exact ⟨w, h1, h2⟩

end NR
