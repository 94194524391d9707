import Verif.Model.FixResults
import Verif.Spec.FixResults
import Verif.Props.C25_C26
import Verif.Props.C115
import Mathlib.Data.List.Forall2
/-
C119: the results of a run over the AWGN channel, saved in parts.
-/
namespace NR.Fix
open NR

variable {α : Type}

theorem lookup_filter (d : Step α) (k key : String) :
    (d.filter fun p => p.1 ≠ k).lookup key = if key = k then none else d.lookup key := by
  induction d with
  | nil => simp
  | cons p d ih =>
    rcases p with ⟨a, v⟩
    by_cases h : a = k
    · subst h
      rw [List.filter_cons_of_neg (by simp), ih]
      by_cases hk : key = a
      · simp [hk]
      · rw [if_neg hk, if_neg hk, List.lookup_cons, beq_eq_false_iff_ne.2 hk]
    · rw [List.filter_cons_of_pos (by simpa using h), List.lookup_cons, List.lookup_cons, ih]
      by_cases hk : key = a
      · subst hk
        simp [h]
      · rw [beq_eq_false_iff_ne.2 hk]

theorem convert_ok (key : String) (s : Step α) (c : List (String × List α)) (h : s.lookup key = some (.frame c)) :
    ∃ t, convert key s = .ok t ∧ ∀ k, t.lookup k = if k = key then some (.dict c) else s.lookup k := by
  refine ⟨dictSet s key (.dict c), ?_, fun k => ?_⟩
  · simp [convert, item, h, toDict, bind, Except.bind]
  · rw [lookup_dictSet]

theorem convert_some (key : String) (s t : Step α) (h : convert key s = .ok t) : ∃ c, s.lookup key = some (.frame c) ∧
    ∀ k, t.lookup k = if k = key then some (.dict c) else s.lookup k := by
  rcases hl : s.lookup key with _ | v
  · simp [convert, item, hl, bind, Except.bind] at h
  · rcases v with c | c | c
    · obtain ⟨t', h', hk⟩ := convert_ok key s c hl
      rw [h] at h'
      injection h' with h'
      subst h'
      exact ⟨c, rfl, hk⟩
    · simp [convert, item, hl, toDict, bind, Except.bind] at h
    · simp [convert, item, hl, toDict, bind, Except.bind] at h

theorem pop_ok (key : String) (s : Step α) (c : List (String × List α)) (h : s.lookup key = some (.frame c)) :
    ∃ t, popDict key s = .ok (.dict c, t) ∧ ∀ k, t.lookup k = if k = key then none else s.lookup k :=
  ⟨s.filter fun p => p.1 ≠ key, by simp [popDict, item, h, toDict, bind, Except.bind], fun k => lookup_filter s key k⟩

theorem pop_some (key : String) (s : Step α) (r : Cell α × Step α) (h : popDict key s = .ok r) :
    ∃ c, s.lookup key = some (.frame c) ∧ r.1 = .dict c ∧ ∀ k, r.2.lookup k = if k = key then none else s.lookup k := by
  rcases hl : s.lookup key with _ | v
  · simp [popDict, item, hl, bind, Except.bind] at h
  · rcases v with c | c | c
    · obtain ⟨t', h', hk⟩ := pop_ok key s c hl
      rw [h] at h'
      injection h' with h'
      subst h'
      exact ⟨c, rfl, rfl, hk⟩
    · simp [popDict, item, hl, toDict, bind, Except.bind] at h
    · simp [popDict, item, hl, toDict, bind, Except.bind] at h

/-- A loop that does not raise. -/
theorem loop_iff {β γ : Type} (f : β → Except PyErr γ) : ∀ (l : List β) (r : List γ),
    l.mapM f = .ok r ↔ List.Forall₂ (fun b c => f b = .ok c) l r
  | [], r => by
    constructor
    · intro h
      cases h
      exact .nil
    · intro h
      cases h
      rfl
  | b :: l, r => by
    rw [List.mapM_cons]
    rcases hb : f b with e | c
    · constructor
      · intro h
        cases h
      · intro h
        cases h with
        | cons h1 _ =>
          rw [hb] at h1
          cases h1
    · rcases hl : l.mapM f with e | cs
      · constructor
        · intro h
          cases h
        · intro h
          cases h with
          | cons _ h2 =>
            rw [← loop_iff f l] at h2
            rw [hl] at h2
            cases h2
      · constructor
        · intro h
          cases h
          exact .cons hb ((loop_iff f l cs).1 hl)
        · intro h
          cases h with
          | cons h1 h2 =>
            rw [hb] at h1
            rw [← loop_iff f l, hl] at h2
            cases h1
            cases h2
            rfl

theorem loop_total {β γ : Type} (f : β → Except PyErr γ) (P : β → γ → Prop) (l : List β) (h : ∀ b ∈ l, ∃ c, f b = .ok c ∧ P b c) :
    ∃ r, l.mapM f = .ok r ∧ List.Forall₂ P l r := by
  induction l with
  | nil => exact ⟨[], rfl, .nil⟩
  | cons b l ih =>
    obtain ⟨c, h1, h2⟩ := h b (by simp)
    obtain ⟨r, h3, h4⟩ := ih fun b hb => h b (by simp [hb])
    refine ⟨c :: r, ?_, .cons h2 h4⟩
    rw [List.mapM_cons, h1, h3]
    rfl

theorem whole_step (s : Step α) (h : HoldsTables s) : ∃ w, (do
    let s ← convert "data" s
    let s ← convert "decoded_entropy" s
    convert "decoded_ldpc" s : Except PyErr (Step α)) = .ok w ∧ ∀ d e l, s.lookup "data" = some (.frame d) →
      s.lookup "decoded_entropy" = some (.frame e) → s.lookup "decoded_ldpc" = some (.frame l) → ∀ k, w.lookup k =
        if k = "decoded_ldpc" then some (.dict l) else if k = "decoded_entropy" then some (.dict e)
        else if k = "data" then some (.dict d) else s.lookup k := by
  obtain ⟨d, hd⟩ := h "data" (by simp)
  obtain ⟨e, he⟩ := h "decoded_entropy" (by simp)
  obtain ⟨l, hl⟩ := h "decoded_ldpc" (by simp)
  obtain ⟨s1, h1, k1⟩ := convert_ok "data" s d hd
  obtain ⟨s2, h2, k2⟩ := convert_ok "decoded_entropy" s1 e (by rw [k1]; simpa using he)
  obtain ⟨s3, h3, k3⟩ := convert_ok "decoded_ldpc" s2 l (by rw [k2, k1]; simpa using hl)
  refine ⟨s3, by simp only [bind, Except.bind, h1, h2, h3], ?_⟩
  intro d' e' l' hd' he' hl' k
  rw [hd] at hd'
  rw [he] at he'
  rw [hl] at hl'
  cases hd'
  cases he'
  cases hl'
  rw [k3, k2, k1]

theorem forall2_get {β γ : Type} {P : β → γ → Prop} {l : List β} {m : List γ} (h : List.Forall₂ P l m) :
    l.length = m.length ∧ ∀ (k : Nat) b c, l[k]? = some b → m[k]? = some c → P b c := by
  refine ⟨h.length_eq, ?_⟩
  intro k b c hb hc
  obtain ⟨h1, rfl⟩ := List.getElem?_eq_some_iff.1 hb
  obtain ⟨h2, rfl⟩ := List.getElem?_eq_some_iff.1 hc
  exact h.get h1 h2

/-- C119: the parts. If every step of the results holds its three tables, the three files hold together what the one file would: for
every step, the two decoded tables are those under its number in two of the files, everything else is in the third, and the entries of
the summary are there too. -/
theorem c119_parts (summary : List (String × MatVal α)) (results : List (Step α)) (h : ∀ s ∈ results, HoldsTables s) :
    ∃ (whole : List (String × MatVal α)) (parts : Parts α) (steps rests : List (Step α)) (es ls : List (Cell α)),
      wholeMat summary results = .ok whole ∧ fixResults summary results = .ok parts ∧
      whole.lookup "results" = some (.steps steps) ∧ parts.data.lookup "stats" = some (.steps rests) ∧
      parts.entropy = [("decoded_entropy", .cells es)] ∧ parts.ldpc = [("decoded_ldpc", .cells ls)] ∧
      steps.length = results.length ∧ rests.length = results.length ∧ es.length = results.length ∧ ls.length = results.length ∧
      (∀ (k : Nat) step rest e l, steps[k]? = some step → rests[k]? = some rest → es[k]? = some e → ls[k]? = some l →
        TakenApart step rest e l) ∧
      ∀ key, key ≠ "results" → key ≠ "stats" → whole.lookup key = summary.lookup key ∧ parts.data.lookup key = summary.lookup key := by
  obtain ⟨ws, hw, fw⟩ := loop_total _ _ results fun s hs => whole_step s (h s hs)
  obtain ⟨r1, h1, f1⟩ := loop_total (convert "data") (fun s t => HoldsTables s ∧ ∀ d, s.lookup "data" = some (.frame d) →
      ∀ k, t.lookup k = if k = "data" then some (.dict d) else s.lookup k) results (by
    intro s hs
    obtain ⟨d, hd⟩ := h s hs "data" (by simp)
    obtain ⟨t, ht, hk⟩ := convert_ok "data" s d hd
    refine ⟨t, ht, h s hs, fun d' hd' => ?_⟩
    rw [hd] at hd'
    cases hd'
    exact hk)
  have m1 : ∀ t ∈ r1, ∃ e l, t.lookup "decoded_entropy" = some (.frame e) ∧ t.lookup "decoded_ldpc" = some (.frame l) := by
    intro t ht
    obtain ⟨k, hk⟩ := List.mem_iff_getElem?.1 ht
    have hlt : k < results.length := by
      rw [f1.length_eq]
      exact (List.getElem?_eq_some_iff.1 hk).1
    obtain ⟨hs, hp⟩ := (forall2_get f1).2 k _ t (List.getElem?_eq_getElem hlt) hk
    obtain ⟨d, hd⟩ := hs "data" (by simp)
    obtain ⟨e, he⟩ := hs "decoded_entropy" (by simp)
    obtain ⟨l, hl⟩ := hs "decoded_ldpc" (by simp)
    exact ⟨e, l, by rw [hp d hd]; simpa using he, by rw [hp d hd]; simpa using hl⟩
  obtain ⟨r2, h2, f2⟩ := loop_total (popDict "decoded_entropy") (fun t p => ∃ e l, t.lookup "decoded_entropy" = some (.frame e) ∧
      t.lookup "decoded_ldpc" = some (.frame l) ∧ p.1 = .dict e ∧
      ∀ k, p.2.lookup k = if k = "decoded_entropy" then none else t.lookup k) r1 (by
    intro t ht
    obtain ⟨e, l, he, hl⟩ := m1 t ht
    obtain ⟨p, hp, hk⟩ := pop_ok "decoded_entropy" t e he
    exact ⟨_, hp, e, l, he, hl, rfl, hk⟩)
  have f2' : List.Forall₂ (fun t u => ∃ l, t.lookup "decoded_ldpc" = some (.frame l) ∧
      ∀ k, u.lookup k = if k = "decoded_entropy" then none else t.lookup k) r1 (r2.map Prod.snd) := by
    rw [List.forall₂_map_right_iff]
    exact f2.imp fun t p ⟨e, l, _, hl, _, hk⟩ => ⟨l, hl, hk⟩
  have m2 : ∀ u ∈ r2.map Prod.snd, ∃ l, u.lookup "decoded_ldpc" = some (.frame l) := by
    intro u hu
    obtain ⟨k, hk⟩ := List.mem_iff_getElem?.1 hu
    have hlt : k < r1.length := by
      rw [f2'.length_eq]
      exact (List.getElem?_eq_some_iff.1 hk).1
    obtain ⟨l, hl, hp⟩ := (forall2_get f2').2 k _ u (List.getElem?_eq_getElem hlt) hk
    exact ⟨l, by rw [hp]; simpa using hl⟩
  obtain ⟨r3, h3, f3⟩ := loop_total (popDict "decoded_ldpc") (fun u p => ∃ l, u.lookup "decoded_ldpc" = some (.frame l) ∧
      p.1 = .dict l ∧ ∀ k, p.2.lookup k = if k = "decoded_ldpc" then none else u.lookup k) (r2.map Prod.snd) (by
    intro u hu
    obtain ⟨l, hl⟩ := m2 u hu
    obtain ⟨p, hp, hk⟩ := pop_ok "decoded_ldpc" u l hl
    exact ⟨_, hp, l, hl, rfl, hk⟩)
  have L0 := fw.length_eq
  have L1 := f1.length_eq
  have L2 := f2.length_eq
  have L3 := f3.length_eq
  rw [List.length_map] at L3
  refine ⟨_, _, ws, r3.map Prod.snd, r2.map Prod.fst, r3.map Prod.fst,
    by unfold wholeMat; rw [hw]; rfl, by unfold fixResults; simp only [h1, h2, h3, bind, Except.bind]; rfl, ?_, ?_, rfl, rfl,
    by omega, by simp; omega, by simp; omega, by simp; omega, ?_, ?_⟩
  · rw [lookup_dictSet]; simp
  · rw [lookup_dictSet]; simp
  · intro k step rest e l hstep hrest he hl
    rw [List.getElem?_map, Option.map_eq_some_iff] at hrest he hl
    obtain ⟨p3, g3, rfl⟩ := hrest
    obtain ⟨p2, g2, rfl⟩ := he
    obtain ⟨p3', g3', rfl⟩ := hl
    rw [g3] at g3'
    cases g3'
    have hlt : k < results.length := by
      rw [L0]
      exact (List.getElem?_eq_some_iff.1 hstep).1
    have hs := List.getElem?_eq_getElem hlt
    have ht := List.getElem?_eq_getElem (show k < r1.length by omega)
    have hu : (r2.map Prod.snd)[k]? = some p2.2 := by rw [List.getElem?_map, g2]; rfl
    obtain ⟨d, hd⟩ := h _ (List.mem_of_getElem? hs) "data" (by simp)
    have q1 := ((forall2_get f1).2 k _ _ hs ht).2 d hd
    obtain ⟨e, l, he, hl, e1, q2⟩ := (forall2_get f2).2 k _ _ ht g2
    obtain ⟨l', hl', e2, q3⟩ := (forall2_get f3).2 k _ _ hu g3
    have hl2 : l' = l := by
      rw [q2] at hl'
      simp only [String.reduceEq, if_false] at hl'
      rw [hl] at hl'
      simpa using hl'.symm
    subst hl2
    rw [q1] at he hl
    simp only [String.reduceEq, if_false] at he hl
    have qw := (forall2_get fw).2 k _ _ hs hstep d e l' hd he hl
    intro key
    rw [qw, e1, e2, q3, q2, q1]
    by_cases k1 : key = "decoded_ldpc"
    · subst k1; simp
    · by_cases k2 : key = "decoded_entropy"
      · subst k2; simp
      · simp [k1, k2]
  · intro key n1 n2
    refine ⟨?_, ?_⟩
    · rw [lookup_dictSet]; simp [n1]
    · rw [lookup_dictSet]; simp [n2]

/-- C119: the script returns exactly when every step holds its three tables; otherwise nothing is saved. -/
theorem c119_returns (summary : List (String × MatVal α)) (results : List (Step α)) :
    (∃ parts, fixResults summary results = .ok parts) ↔ ∀ s ∈ results, HoldsTables s := by
  constructor
  · rintro ⟨parts, hp⟩
    unfold fixResults at hp
    rcases h1 : results.mapM (convert "data") with e | r1
    · simp [h1, bind, Except.bind] at hp
    · rcases h2 : r1.mapM (popDict "decoded_entropy") with e | r2
      · simp [h1, h2, bind, Except.bind] at hp
      · rcases h3 : (r2.map Prod.snd).mapM (popDict "decoded_ldpc") with e | r3
        · simp [h1, h2, h3, bind, Except.bind] at hp
        · intro s hs
          have f1 := (loop_iff _ _ _).1 h1
          have f2 := (loop_iff _ _ _).1 h2
          have f3 := (loop_iff _ _ _).1 h3
          obtain ⟨k, hk⟩ := List.mem_iff_getElem?.1 hs
          have hlt := (List.getElem?_eq_some_iff.1 hk).1
          have L1 := f1.length_eq
          have L2 := f2.length_eq
          have L3 := f3.length_eq
          rw [List.length_map] at L3
          have g1 := List.getElem?_eq_getElem (show k < r1.length by omega)
          have g2 := List.getElem?_eq_getElem (show k < r2.length by omega)
          have g3 := List.getElem?_eq_getElem (show k < r3.length by omega)
          obtain ⟨d, hd, q1⟩ := convert_some _ _ _ ((forall2_get f1).2 k _ _ hk g1)
          obtain ⟨e, he, -, q2⟩ := pop_some _ _ _ ((forall2_get f2).2 k _ _ g1 g2)
          obtain ⟨l, hl, -, -⟩ := pop_some _ _ _ ((forall2_get f3).2 k _ _ (by rw [List.getElem?_map, g2]; rfl) g3)
          rw [q2, q1] at hl
          rw [q1] at he
          simp only [String.reduceEq, if_false] at he hl
          intro key hkey
          simp only [List.mem_cons, List.not_mem_nil, or_false] at hkey
          rcases hkey with rfl | rfl | rfl
          · exact ⟨d, hd⟩
          · exact ⟨e, he⟩
          · exact ⟨l, hl⟩
  · intro h
    obtain ⟨_, parts, _, _, _, _, _, hp, -⟩ := c119_parts summary results h
    exact ⟨parts, hp⟩

/-- C119. What is raised for the first step whose results hold no table of data: a KeyError if there is nothing under this name, an
AttributeError if there is something else. -/
theorem c119_raises (summary : List (String × MatVal α)) (pre post : List (Step α)) (s : Step α)
    (hpre : ∀ t ∈ pre, ∃ c, t.lookup "data" = some (.frame c)) :
    (s.lookup "data" = none → fixResults summary (pre ++ s :: post) = .error .keyError) ∧
    (∀ v, s.lookup "data" = some v → (∀ c, v ≠ .frame c) → fixResults summary (pre ++ s :: post) = .error .attributeError) := by
  have key : ∀ (e : PyErr), convert "data" s = .error e → fixResults summary (pre ++ s :: post) = .error e := by
    intro e he
    have hm : ∀ pre : List (Step α), (∀ t ∈ pre, ∃ c, t.lookup "data" = some (.frame c)) →
        (pre ++ s :: post).mapM (convert "data") = .error e := by
      intro pre
      induction pre with
      | nil => intro _; rw [List.nil_append, List.mapM_cons, he]; rfl
      | cons t pre ih =>
        intro h
        obtain ⟨c, hc⟩ := h t List.mem_cons_self
        obtain ⟨t', ht, -⟩ := convert_ok "data" t c hc
        rw [List.cons_append, List.mapM_cons, ht, ih fun x hx => h x (List.mem_cons_of_mem _ hx)]
        rfl
    unfold fixResults
    rw [hm pre hpre]
    rfl
  refine ⟨fun h => key _ ?_, fun v h hv => key _ ?_⟩
  · unfold convert item
    rw [h]
    rfl
  · unfold convert item
    rw [h]
    cases v with
    | frame c => exact absurd rfl (hv c)
    | dict i => rfl
    | plain a => rfl

/-! ### After an interrupted run -/

open NR.Results NR.C115 in
/-- C119: whatever runs side by side, raise or are killed, once a run over the AWGN channel has begun its last mat file, the two files
`fix_results.py` reads are complete and its own, and they stay so. -/
theorem c119_rescue (S : Nat → Script) (hS : ∀ i, S i ∈ allScripts) (es fs : List (Nat × Act)) (i : Nat) (hi : S i = awgnScript)
    (hm : ((after S es).runs i).made = true) (s : String) (hs : s = ((after S es).runs i).name)
    (hb : (after S es).disk.file s (.stamped "_simulation_AWGN_classifying_entropy_{dec_type}_decoder.mat") ≠ none) :
    (after S (es ++ fs)).disk.file s (.stamped "_simulation_AWGN_classifying_entropy_{dec_type}_decoder.xz") = some (i, true) ∧
    (after S (es ++ fs)).disk.file s (.stamped "_summary_classifying_entropy__{dec_type}_decoder.pickle") = some (i, true) := by
  subst hs
  obtain ⟨k, -, -, hk⟩ := (c115_order S hS es i).1 hm
  rw [hi] at hk
  have n6 : (fileNames awgnScript.prog)[6]? = some (.stamped "_simulation_AWGN_classifying_entropy_{dec_type}_decoder.mat") := by decide +kernel
  have n1 : (fileNames awgnScript.prog)[1]? = some (.stamped "_simulation_AWGN_classifying_entropy_{dec_type}_decoder.xz") := by decide +kernel
  have n4 : (fileNames awgnScript.prog)[4]? = some (.stamped "_summary_classifying_entropy__{dec_type}_decoder.pickle") := by decide +kernel
  have h6 : 6 ≤ k := by
    by_contra hlt
    exact hb ((hk 6 _ n6).2.2 (by omega))
  exact ⟨c115_keep S hS es fs _ _ _ ((hk 1 _ n1).1 (by omega)), c115_keep S hS es fs _ _ _ ((hk 4 _ n4).1 (by omega))⟩

/-! ### The hypotheses are met -/

/-- Two steps. -/
example : ∃ parts, fixResults [("snr", .plain 3)] [[("snr", .plain 1), ("data", .frame [("encoded", [1, 2])]),
    ("decoded_entropy", .frame [("hamming", [0])]), ("decoded_ldpc", .frame [("hamming", [4])])],
    [("snr", .plain 2), ("data", .frame []), ("decoded_entropy", .frame [("hamming", [5])]), ("decoded_ldpc", .frame [])]] = .ok parts ∧
    parts.entropy = [("decoded_entropy", .cells [.dict [("hamming", [0])], .dict [("hamming", [5])]])] ∧
    parts.data = [("snr", .plain 3), ("stats", .steps [[("snr", .plain 1), ("data", .dict [("encoded", [1, 2])])],
      [("snr", .plain 2), ("data", .dict [])]])] := ⟨_, rfl, rfl, rfl⟩

open NR.Results NR.C115 in
/-- A run that is killed while it writes its last file. -/
example : let w := after (fun _ => awgnScript) (goes 0 24 "A")
    w.disk.file "A" (.stamped "_simulation_AWGN_classifying_entropy_{dec_type}_decoder.mat") = some (0, false) ∧
    (w.runs 0).made = true ∧ (w.runs 0).name = "A" := by decide +kernel

end NR.Fix
