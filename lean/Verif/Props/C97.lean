import Verif.Spec.Unify
import Mathlib.Data.List.Sort
import Mathlib.Tactic.Linarith
/-
C97: putting the results of a broken run together.
-/
namespace NR
open Spec Unify

theorem pair_or {α : Type} {a b : α} (hne : a ≠ b) : ∀ {l : List α}, a ∈ l → b ∈ l → List.Sublist [a, b] l ∨ List.Sublist [b, a] l
  | [], ha, _ => by simp at ha
  | x :: l, ha, hb => by
    rcases List.mem_cons.1 ha with rfl | ha'
    · rcases List.mem_cons.1 hb with rfl | hb'
      · exact absurd rfl hne
      · exact .inl ((List.singleton_sublist.2 hb').cons_cons _)
    · rcases List.mem_cons.1 hb with rfl | hb'
      · exact .inr ((List.singleton_sublist.2 ha').cons_cons _)
      · rcases pair_or hne ha' hb' with h | h
        · exact .inl (h.cons _)
        · exact .inr (h.cons _)

theorem pair_not_both {α : Type} {a b : α} : ∀ {l : List α}, l.Nodup → List.Sublist [a, b] l → List.Sublist [b, a] l → False
  | [], _, h, _ => by cases h
  | x :: l, hn, h1, h2 => by
    rw [List.nodup_cons] at hn
    cases h1 with
    | cons _ h1 =>
      cases h2 with
      | cons _ h2 => exact pair_not_both hn.2 h1 h2
      | cons_cons _ h2 => exact hn.1 (h1.subset (by simp))
    | cons_cons _ h1 =>
      cases h2 with
      | cons _ h2 => exact hn.1 (h2.subset (by simp))
      | cons_cons _ h2 => exact hn.1 (h1.subset (by simp))

theorem ordered_spec (listing : List File) (hn : (listing.map File.name).Nodup) :
    (ordered listing).Perm (listing.filter fun f => decide (".pickle".toList <:+ f.name.toList)) ∧ (ordered listing).Pairwise Earlier := by
  constructor
  · refine ((List.mergeSort_perm _ _).trans (List.mergeSort_perm _ _)).trans (List.Perm.of_eq ?_)
    apply List.filter_congr
    intro f _
    unfold isPickle
    rw [Bool.eq_iff_iff, List.isSuffixOf_iff_suffix, decide_eq_true_eq]
  · have t1 : ∀ a b c : File, decide (a.name ≤ b.name) = true → decide (b.name ≤ c.name) = true → decide (a.name ≤ c.name) = true := by
      intro a b c h1 h2
      simp only [decide_eq_true_eq] at *
      exact le_trans h1 h2
    have o1 : ∀ a b : File, (decide (a.name ≤ b.name) || decide (b.name ≤ a.name)) = true := by
      intro a b
      simp only [Bool.or_eq_true, decide_eq_true_eq]
      exact le_total _ _
    have t2 : ∀ a b c : File, decide (a.mtime ≤ b.mtime) = true → decide (b.mtime ≤ c.mtime) = true → decide (a.mtime ≤ c.mtime) = true := by
      intro a b c h1 h2
      simp only [decide_eq_true_eq] at *
      exact le_trans h1 h2
    have o2 : ∀ a b : File, (decide (a.mtime ≤ b.mtime) || decide (b.mtime ≤ a.mtime)) = true := by
      intro a b
      simp only [Bool.or_eq_true, decide_eq_true_eq]
      exact le_total _ _
    have hnodup : (ordered listing).Nodup := by
      have : listing.Nodup := List.Nodup.of_map _ hn
      exact ((List.mergeSort_perm _ _).trans (List.mergeSort_perm _ _)).nodup_iff.2 (this.filter _)
    rw [List.pairwise_iff_forall_sublist]
    intro a b hab
    have p2 := List.pairwise_iff_forall_sublist.1 (List.pairwise_mergeSort t2 o2
      ((listing.filter isPickle).mergeSort fun a b => decide (a.name ≤ b.name))) hab
    simp only [decide_eq_true_eq] at p2
    rcases lt_or_eq_of_le p2 with h | h
    · exact .inl h
    · refine .inr ⟨h, ?_⟩
      have hne : a ≠ b := by
        rintro rfl
        exact (List.nodup_iff_sublist.1 hnodup a) hab
      have hmem : ∀ x, x ∈ ordered listing → x ∈ (listing.filter isPickle).mergeSort fun a b => decide (a.name ≤ b.name) :=
        fun x hx => (List.mergeSort_perm _ _).mem_iff.1 hx
      have ha := hmem a (hab.subset (by simp))
      have hb := hmem b (hab.subset (by simp))
      rcases pair_or hne ha hb with h1 | h1
      · have := List.pairwise_iff_forall_sublist.1 (List.pairwise_mergeSort t1 o1 (listing.filter isPickle)) h1
        simpa using this
      · exact (pair_not_both hnodup hab (List.pair_sublist_mergeSort t2 o2 (by simp [h]) h1)).elim

/-- C97: all files ending in `.pickle`, and no others, are read, each once, older files first and files of the same age by name. -/
theorem c97_order (listing : List File) (hn : (listing.map File.name).Nodup) :
    ∃ files : List File, files.Perm (listing.filter fun f => decide (".pickle".toList <:+ f.name.toList)) ∧ files.Pairwise Earlier ∧
      (unify listing).1.head? = some (.results (files.map File.content)) := by
  refine ⟨ordered listing, (ordered_spec listing hn).1, (ordered_spec listing hn).2, ?_⟩
  unfold unify
  simp only
  split
  · rfl
  · split <;> rfl

theorem earlier_antisymm {l : List File} (hn : (l.map File.name).Nodup) {a b : File} (ha : a ∈ l) (hb : b ∈ l) (h1 : Earlier a b)
    (h2 : Earlier b a) : a = b := by
  have hname : a.name = b.name := by
    rcases h1 with h1 | h1 <;> rcases h2 with h2 | h2
    · linarith
    · linarith [h2.1]
    · linarith [h1.1]
    · exact le_antisymm h1.2 h2.2
  exact List.inj_on_of_nodup_map hn ha hb hname

/-- C97: the outcome does not depend on the order in which the directory is listed. -/
theorem c97_listing (l l' : List File) (hn : (l.map File.name).Nodup) (hp : l.Perm l') : unify l = unify l' := by
  have hn' : (l'.map File.name).Nodup := (hp.map File.name).nodup_iff.1 hn
  suffices h : ordered l = ordered l' by unfold unify; rw [h]
  obtain ⟨a2, a1⟩ := ordered_spec l hn
  obtain ⟨b2, b1⟩ := ordered_spec l' hn'
  refine List.Perm.eq_of_pairwise ?_ a1 b1 (a2.trans ((hp.filter _).trans b2.symm))
  intro a b ha hb h1 h2
  have hal : a ∈ l := List.mem_of_mem_filter (a2.mem_iff.1 ha)
  have hbl : b ∈ l := hp.mem_iff.2 (List.mem_of_mem_filter (b2.mem_iff.1 hb))
  exact earlier_antisymm hn hal hbl h1 h2

theorem mapM_id_some {α : Type} : ∀ {l : List (Option α)} {r : List α}, l.mapM id = some r ↔ l = r.map some
  | [], r => by cases r <;> simp
  | x :: l, r => by
    rw [List.mapM_cons]
    cases x with
    | none => cases r <;> simp
    | some x =>
      cases h : l.mapM id with
      | none =>
        simp only [id, bind, Option.bind]
        cases r with
        | nil => simp
        | cons y r =>
          have := mapM_id_some (l := l) (r := r)
          rw [h] at this
          simp at this
          simp [this]
      | some t =>
        have := (mapM_id_some (l := l) (r := t)).1 h
        simp only [id, bind, Option.bind, pure, Option.some.injEq]
        constructor
        · rintro rfl; simp [this]
        · intro hr
          cases r with
          | nil => simp at hr
          | cons y r =>
            simp only [List.map_cons, List.cons.injEq, Option.some.injEq] at hr
            obtain ⟨rfl, hr⟩ := hr
            rw [this] at hr
            rw [List.map_injective_iff.2 (Option.some_injective _) hr]

/-- C97: if there are files and all of them are results of steps, everything is written: the list of all results, the figures and the
summary, whose arrays have the numbers of the files in that order; `minflip` becomes the raw bit error rate of the oldest file. -/
theorem c97_complete (listing : List File) (hn : (listing.map File.name).Nodup)
    (hs : ∀ f ∈ listing, ".pickle".toList <:+ f.name.toList → f.content.isSome) (hne : ∃ f ∈ listing, ".pickle".toList <:+ f.name.toList) :
    ∃ (files : List File) (steps : List Step) (first : Step),
      files.Perm (listing.filter fun f => decide (".pickle".toList <:+ f.name.toList)) ∧ files.Pairwise Earlier ∧
      files.map File.content = steps.map some ∧ steps.head? = some first ∧
      unify listing = ([.results (steps.map some), .berFigure, .rateFigure, .summary ⟨first.rawBer, steps.map (·.rawBer),
        steps.map (·.ldpcBer), steps.map (·.entropyBer), steps.map (·.ldpcRate), steps.map (·.entropyRate)⟩], .ok ()) := by
  obtain ⟨o1, o2⟩ := ordered_spec listing hn
  have hall : ∀ f ∈ ordered listing, f.content.isSome := by
    intro f hf
    have := o1.mem_iff.1 hf
    rw [List.mem_filter, decide_eq_true_eq] at this
    exact hs f this.1 this.2
  have hsteps : ∃ steps : List Step, (ordered listing).map File.content = steps.map some := by
    generalize ordered listing = l at hall
    clear o1 o2
    induction l with
    | nil => exact ⟨[], rfl⟩
    | cons f l ih =>
      obtain ⟨st, h⟩ := ih (fun g hg => hall g (by simp [hg]))
      obtain ⟨x, hx⟩ := Option.isSome_iff_exists.1 (hall f (by simp))
      exact ⟨x :: st, by simp [hx, h]⟩
  obtain ⟨steps, hst⟩ := hsteps
  have hnil : steps ≠ [] := by
    rintro rfl
    obtain ⟨f, hf, hp⟩ := hne
    have : f ∈ ordered listing := o1.mem_iff.2 (by rw [List.mem_filter]; exact ⟨hf, decide_eq_true hp⟩)
    simp only [List.map_nil, List.map_eq_nil_iff] at hst
    rw [hst] at this
    simp at this
  obtain ⟨first, rest, rfl⟩ := List.exists_cons_of_ne_nil hnil
  refine ⟨ordered listing, first :: rest, first, o1, o2, hst, rfl, ?_⟩
  unfold unify
  simp only [hst, mapM_id_some.2 rfl]

/-- C97: a file with other contents ends the script with KeyError, and a directory without such files with IndexError; what was
written before stays, but there is no summary. -/
theorem c97_broken (listing : List File) (hn : (listing.map File.name).Nodup) :
    ((∃ f ∈ listing, ".pickle".toList <:+ f.name.toList ∧ f.content = none) →
      ∃ l, unify listing = ([.results l], .error .keyError)) ∧
    ((∀ f ∈ listing, ¬ ".pickle".toList <:+ f.name.toList) →
      unify listing = ([.results [], .berFigure, .rateFigure], .error .indexError)) := by
  obtain ⟨o1, o2⟩ := ordered_spec listing hn
  constructor
  · rintro ⟨f, hf, hp, hc⟩
    have hmem : f ∈ ordered listing := o1.mem_iff.2 (by rw [List.mem_filter]; exact ⟨hf, decide_eq_true hp⟩)
    refine ⟨(ordered listing).map File.content, ?_⟩
    have : ((ordered listing).map File.content).mapM id = none := by
      cases h : ((ordered listing).map File.content).mapM id with
      | none => rfl
      | some r =>
        have := mapM_id_some.1 h
        have hm : (none : Option Step) ∈ (ordered listing).map File.content := List.mem_map.2 ⟨f, hmem, hc⟩
        rw [this] at hm
        simp at hm
    unfold unify
    simp only [this]
  · intro h
    have : listing.filter (fun f => decide (".pickle".toList <:+ f.name.toList)) = [] := by
      rw [List.filter_eq_nil_iff]
      intro f hf
      rw [decide_eq_true_eq]
      exact h f hf
    rw [this] at o1
    unfold unify
    rw [List.perm_nil.1 o1]
    rfl

/-- Two steps of a broken run, the one with the smaller rate run later. -/
def exFiles : List File := [⟨"a.pickle", 2, some ⟨1 / 100, 0, 0, 1, 1⟩⟩, ⟨"b.txt", 0, none⟩, ⟨"b.pickle", 1, some ⟨1 / 50, 0, 0, 1, 1⟩⟩]

theorem exFiles_unify : unify exFiles = ([.results [some ⟨1 / 50, 0, 0, 1, 1⟩, some ⟨1 / 100, 0, 0, 1, 1⟩], .berFigure, .rateFigure,
    .summary ⟨1 / 50, [1 / 50, 1 / 100], [0, 0], [0, 0], [1, 1], [1, 1]⟩], .ok ()) := by
  have ho : ordered exFiles = [⟨"b.pickle", 1, some ⟨1 / 50, 0, 0, 1, 1⟩⟩, ⟨"a.pickle", 2, some ⟨1 / 100, 0, 0, 1, 1⟩⟩] := by
    have hn : (exFiles.map File.name).Nodup := by decide +kernel
    have hf : (exFiles.filter fun f => decide (".pickle".toList <:+ f.name.toList)) =
        [⟨"a.pickle", 2, some ⟨1 / 100, 0, 0, 1, 1⟩⟩, ⟨"b.pickle", 1, some ⟨1 / 50, 0, 0, 1, 1⟩⟩] := by decide +kernel
    obtain ⟨o1, o2⟩ := ordered_spec exFiles hn
    have hp := (o1.trans (by rw [hf])).trans (List.Perm.swap _ _ [])
    refine List.Perm.eq_of_pairwise ?_ o2 ?_ hp
    · intro a b ha hb
      exact earlier_antisymm hn (List.mem_of_mem_filter (o1.mem_iff.1 ha)) (List.mem_of_mem_filter (o1.mem_iff.1 (hp.mem_iff.2 hb)))
    · simp only [List.pairwise_cons, List.mem_singleton, forall_eq, List.not_mem_nil, false_imp_iff, implies_true,
        List.Pairwise.nil, and_true]
      exact Or.inl (by norm_num)
  unfold unify
  rw [ho]
  rfl

/-- C97, refuted: the `minflip` of the summary need not be the smallest rate. -/
theorem c97_minflip_false : ∃ (listing : List File) (l : List Artifact) (s : Summary), (listing.map File.name).Nodup ∧
    unify listing = (l, .ok ()) ∧ .summary s ∈ l ∧ ∃ x ∈ s.rawBer, x < s.minflip :=
  ⟨exFiles, _, ⟨1 / 50, [1 / 50, 1 / 100], [0, 0], [0, 0], [1, 1], [1, 1]⟩, by decide +kernel, exFiles_unify,
    List.mem_cons_of_mem _ (List.mem_cons_of_mem _ (List.mem_cons_of_mem _ List.mem_cons_self)), 1 / 100,
    List.mem_cons_of_mem _ List.mem_cons_self, by norm_num⟩

/-- The hypotheses of C97 hold of such a directory. -/
example : (exFiles.map File.name).Nodup ∧ (∀ f ∈ exFiles, ".pickle".toList <:+ f.name.toList → f.content.isSome) ∧
    ∃ f ∈ exFiles, ".pickle".toList <:+ f.name.toList := by decide +kernel

end NR
