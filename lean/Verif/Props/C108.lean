import Verif.Spec.Logging
import Mathlib.Data.List.Nodup
import Mathlib.Data.List.Count
import Mathlib.Data.List.Range
import Mathlib.Algebra.BigOperators.Group.List.Basic
/-
C108: where the records of a logger go, after any history of calls of `setup_logger`.
-/
namespace NR.C108
open NR NR.Logging NR.Spec

/-! ### The table -/

theorem lookup_change (r : Registry) (n m : Name) (f : Logger → Logger) :
    (change r n f).lookup m = if m = n then (r.lookup m).map f else r.lookup m := by
  induction r with
  | nil => simp [change]
  | cons p r ih =>
    obtain ⟨a, l⟩ := p
    unfold change at ih ⊢
    rw [List.map_cons]
    by_cases ha : a = n
    · subst ha
      rw [if_pos rfl]
      by_cases hm : m = a
      · subst hm
        simp
      · have hb : (m == a) = false := by simpa using hm
        rw [List.lookup_cons, List.lookup_cons, ih]
        simp [hm, hb]
    · rw [if_neg ha, List.lookup_cons, List.lookup_cons, ih]
      by_cases hm : m = a
      · subst hm
        simp [ha]
      · have : (m == a) = false := by simpa using hm
        simp [this]

theorem lookup_get (r : Registry) (n m : Name) :
    (getLogger r n).lookup m = if m = n then some ((r.lookup m).getD ⟨0, []⟩) else r.lookup m := by
  unfold getLogger
  by_cases hs : (r.lookup n).isSome
  · rw [if_pos hs]
    split
    · next hm =>
      subst hm
      obtain ⟨l, hl⟩ := Option.isSome_iff_exists.1 hs
      simp [hl]
    · rfl
  · rw [if_neg hs, List.lookup_append]
    split
    · next hm =>
      subst hm
      rw [Option.not_isSome_iff_eq_none.1 hs]
      simp
    · next hm =>
      have : (m == n) = false := by simpa using hm
      simp [List.lookup_cons, this]

/-- What a call adds. -/
def adds (opens : String → Bool) (c : Call) : List Sink := if opens c.file then [.stdout, .file c.file] else []

theorem lookup_setup (opens : String → Bool) (r : Registry) (c : Call) (m : Name) :
    (setupLogger opens r c.name c.file c.level).1.lookup m =
      if m = key c.name then some ⟨c.level, ((r.lookup m).getD ⟨0, []⟩).handlers ++ adds opens c⟩ else r.lookup m := by
  unfold setupLogger adds
  cases opens c.file
  · simp only [Bool.false_eq_true, if_false, lookup_change, lookup_get]
    split <;> simp
  · simp only [if_true, lookup_change, lookup_get]
    split <;> simp

theorem key_root (n : Name) : key n ≠ "root".toList := by
  unfold key
  split
  · decide
  · assumption

theorem key_nil (n : Name) : key n = [] ↔ IsRoot n := by
  unfold key IsRoot
  split
  · next h => simp [h]
  · next h => exact ⟨.inl, fun h' => h'.resolve_right h⟩

theorem key_eq (a n : Name) : key a = key n ↔ SameLogger a n := by
  unfold SameLogger
  constructor
  · intro h
    by_cases ha : IsRoot a
    · exact .inr ⟨ha, (key_nil n).1 (h ▸ (key_nil a).2 ha)⟩
    · left
      have hn : ¬ IsRoot n := fun hn => ha ((key_nil a).1 (h.trans ((key_nil n).2 hn)))
      unfold key at h
      rw [if_neg fun e => ha (.inr e), if_neg fun e => hn (.inr e)] at h
      exact h
  · rintro (rfl | ⟨h1, h2⟩)
    · rfl
    · rw [(key_nil a).2 h1, (key_nil n).2 h2]

/-- The handlers of a logger. -/
def handlersOf (r : Registry) (m : Name) : List Sink := ((r.lookup m).map (·.handlers)).getD []

theorem handlers_fold (opens : String → Bool) (m : Name) : ∀ (cs : List Call) (r : Registry),
    handlersOf (cs.foldl (fun r c => (setupLogger opens r c.name c.file c.level).1) r) m =
      handlersOf r m ++ (cs.filter fun c => decide (key c.name = m)).flatMap (adds opens)
  | [], r => by simp
  | c :: cs, r => by
    rw [List.foldl_cons, handlers_fold opens m cs]
    have h1 : handlersOf (setupLogger opens r c.name c.file c.level).1 m =
        handlersOf r m ++ if key c.name = m then adds opens c else [] := by
      unfold handlersOf
      rw [lookup_setup]
      by_cases h : m = key c.name
      · rw [if_pos h, if_pos h.symm]
        cases r.lookup m <;> simp
      · rw [if_neg h, if_neg fun e => h e.symm]
        simp
    rw [h1]
    by_cases h : key c.name = m
    · simp [h]
    · simp [h]

theorem handlers_after (opens : String → Bool) (cs : List Call) (m : Name) :
    handlersOf (after opens cs) m = (cs.filter fun c => decide (key c.name = m)).flatMap (adds opens) := by
  unfold after
  rw [handlers_fold]
  have : handlersOf initial m = [] := by
    unfold handlersOf initial
    rw [List.lookup_cons]
    cases h : m == [] <;> simp
  rw [this, List.nil_append]

theorem level_fold (opens : String → Bool) (m : Name) : ∀ (cs : List Call) (r : Registry), (∀ c ∈ cs, key c.name ≠ m) →
    (cs.foldl (fun r c => (setupLogger opens r c.name c.file c.level).1) r).lookup m = r.lookup m
  | [], r, _ => rfl
  | c :: cs, r, h => by
    rw [List.foldl_cons, level_fold opens m cs _ fun c' hc' => h c' (by simp [hc']), lookup_setup,
      if_neg fun e => h c (by simp) e.symm]

theorem level_after {opens : String → Bool} {cs : List Call} {n : Name} {level : Nat} (h : LastLevel cs n level) :
    ∃ l, (after opens cs).lookup (key n) = some l ∧ l.level = level := by
  obtain ⟨pre, c, post, rfl, hc, rfl, hp⟩ := h
  unfold after
  rw [List.foldl_append, List.foldl_cons, level_fold opens (key n) post _ fun c' hc' e => hp c' hc' ((key_eq _ _).1 e), lookup_setup,
    if_pos ((key_eq _ _).2 hc).symm]
  exact ⟨_, rfl, rfl⟩

/-! ### The ancestors -/

theorem mem_above (a n : Name) : key a ∈ key n :: ancestors (key n) ↔ Above a n := by
  rw [List.mem_cons, key_eq]
  unfold ancestors
  rw [List.mem_append, List.mem_map]
  have hpre : a ++ ['.'] <+: n ↔ ∃ t, n = a ++ '.' :: t := by
    constructor
    · rintro ⟨t, ht⟩
      exact ⟨t, by rw [← ht]; simp⟩
    · rintro ⟨t, rfl⟩
      exact ⟨t, by simp⟩
  unfold Above
  rw [hpre]
  constructor
  · rintro (h | ⟨i, hi, he⟩ | h)
    · rcases h with rfl | ⟨h, _⟩
      · exact .inl rfl
      · exact .inr (.inl h)
    · rw [List.mem_filter, List.mem_reverse, List.mem_range, decide_eq_true_eq] at hi
      obtain ⟨hl, hdot, h0⟩ := hi
      by_cases hn : key n = n
      · rw [hn] at hl hdot he
        have ha : key a = a := by
          unfold key at he ⊢
          split
          · next hr =>
            rw [if_pos hr] at he
            have := congrArg List.length he
            rw [List.length_take, List.length_nil] at this
            omega
          · rfl
        rw [ha] at he
        refine .inr (.inr ⟨?_, n.drop (i + 1), ?_⟩)
        · rintro rfl
          have := congrArg List.length he
          rw [List.length_take, List.length_nil] at this
          omega
        · rw [← he]
          have h1 : n[i] = '.' := by
            rw [List.getElem?_eq_getElem hl] at hdot
            exact Option.some.inj hdot
          rw [← h1, ← List.drop_eq_getElem_cons hl, List.take_append_drop]
      · have : key n = [] := by
          unfold key at hn ⊢
          split
          · rfl
          · next hh => exact absurd (if_neg hh) hn
        rw [this] at hl
        simp at hl
    · split at h
      · simp at h
      · rw [List.mem_singleton] at h
        exact .inr (.inl ((key_nil a).1 h))
  · rintro (rfl | h | ⟨h1, t, ht⟩)
    · exact .inl (.inl rfl)
    · by_cases hn : IsRoot n
      · exact .inl (.inr ⟨h, hn⟩)
      · rw [(key_nil a).2 h, if_neg fun e => hn ((key_nil n).1 e)]
        exact .inr (.inr (by simp))
    · by_cases ha : IsRoot a
      · by_cases hn : IsRoot n
        · exact .inl (.inr ⟨ha, hn⟩)
        · rw [(key_nil a).2 ha, if_neg fun e => hn ((key_nil n).1 e)]
          exact .inr (.inr (by simp))
      · have hka : key a = a := if_neg fun e => ha (.inr e)
        have hkn : key n = n := by
          apply if_neg
          intro e
          have : '.' ∈ n := by rw [ht]; simp
          rw [e] at this
          revert this
          decide
        refine .inr (.inl ⟨a.length, ?_, ?_⟩)
        · rw [List.mem_filter, List.mem_reverse, List.mem_range, decide_eq_true_eq, hkn]
          refine ⟨by rw [ht]; simp, by rw [ht]; simp, List.length_pos_of_ne_nil h1⟩
        · rw [hka, hkn, ht]
          simp

theorem chain_nodup (n : Name) : (n :: ancestors n).Nodup := by
  have hlen : ∀ i, i ∈ (List.range n.length).reverse.filter (fun i => n[i]? = some '.' ∧ 0 < i) → i < n.length ∧ 0 < i := by
    intro i hi
    rw [List.mem_filter, List.mem_reverse, List.mem_range, decide_eq_true_eq] at hi
    exact ⟨hi.1, hi.2.2⟩
  have hne : ∀ i, i < n.length → (n.take i).length = i := fun i hi => by rw [List.length_take]; omega
  rw [List.nodup_cons]
  unfold ancestors
  constructor
  · rw [List.mem_append, List.mem_map, not_or]
    constructor
    · rintro ⟨i, hi, he⟩
      have := congrArg List.length he
      rw [hne i (hlen i hi).1] at this
      have := (hlen i hi).1
      omega
    · split
      · simp
      · simpa using ‹_›
  · rw [List.nodup_append]
    refine ⟨?_, ?_, ?_⟩
    · refine List.Nodup.map_on ?_ ((List.nodup_reverse.2 List.nodup_range).filter _)
      intro i hi j hj he
      have := congrArg List.length he
      rwa [hne i (hlen i hi).1, hne j (hlen j hj).1] at this
    · split <;> simp
    · intro x hx y hy
      rw [List.mem_map] at hx
      obtain ⟨i, hi, rfl⟩ := hx
      split at hy
      · simp at hy
      · rw [List.mem_singleton] at hy
        subst hy
        intro e
        have := congrArg List.length e
        rw [hne i (hlen i hi).1] at this
        have := (hlen i hi).2
        simp at *
        omega

/-! ### Counting -/

theorem count_adds (opens : String → Bool) (c : Call) :
    (adds opens c).count .stdout = (if opens c.file then 1 else 0) ∧
    ∀ f, (adds opens c).count (.file f) = if opens c.file ∧ c.file = f then 1 else 0 := by
  unfold adds
  cases opens c.file
  · simp
  · refine ⟨by simp, fun f => ?_⟩
    by_cases h : c.file = f
    · simp [h]
    · simp [h]

theorem flatMap_handlers (r : Registry) (L : List Name) :
    (L.filterMap fun a => r.lookup a).flatMap (·.handlers) = L.flatMap (handlersOf r) := by
  induction L with
  | nil => rfl
  | cons a L ih =>
    rw [List.filterMap_cons, List.flatMap_cons, ← ih]
    unfold handlersOf
    cases r.lookup a <;> simp

theorem count_calls (x : Sink) (opens : String → Bool) (p : Call → Bool) (hp : ∀ c, (adds opens c).count x = if p c then 1 else 0) :
    ∀ cs : List Call, (cs.flatMap (adds opens)).count x = cs.countP p
  | [] => rfl
  | c :: cs => by
    rw [List.flatMap_cons, List.count_append, count_calls x opens p hp cs, hp, List.countP_cons]
    omega

theorem count_names (p : Call → Bool) (cs : List Call) : ∀ L : List Name, L.Nodup →
    (L.map fun a => (cs.filter fun c => decide (key c.name = a)).countP p).sum = cs.countP fun c => decide (key c.name ∈ L) && p c
  | [], _ => by simp
  | a :: L, h => by
    rw [List.nodup_cons] at h
    rw [List.map_cons, List.sum_cons, count_names p cs L h.2, List.countP_filter]
    induction cs with
    | nil => rfl
    | cons c cs ih =>
      rw [List.countP_cons, List.countP_cons, List.countP_cons, ← ih]
      by_cases ha : key c.name = a
      · have : key c.name ∉ L := ha ▸ h.1
        simp [ha, h.1]
        omega
      · simp [ha]
        omega

theorem count_chain (x : Sink) (opens : String → Bool) (p : Call → Bool) (hp : ∀ c, (adds opens c).count x = if p c then 1 else 0)
    (cs : List Call) (L : List Name) (hL : L.Nodup) :
    (L.flatMap (handlersOf (after opens cs))).count x = cs.countP fun c => decide (key c.name ∈ L) && p c := by
  rw [← count_names p cs L hL, List.count_flatMap]
  congr 1
  apply List.map_congr_left
  intro a _
  rw [Function.comp_apply, handlers_after, count_calls x opens p hp]

/-! ### C108 -/

/-- The level of a logger in the table. -/
def levelIn (r : Registry) (m : Name) : Nat := ((r.lookup m).map (·.level)).getD 0

theorem effective_split (r : Registry) (pre post : List Name) (a : Name) (hp : ∀ b ∈ pre, levelIn r b = 0) (ha : levelIn r a ≠ 0) :
    effective ((pre ++ a :: post).filterMap fun x => r.lookup x) = levelIn r a := by
  induction pre with
  | nil =>
    rw [List.nil_append, List.filterMap_cons]
    unfold levelIn at ha ⊢
    cases h : r.lookup a with
    | none => rw [h] at ha; exact absurd rfl ha
    | some l => rw [h] at ha; exact if_neg ha
  | cons b pre ih =>
    rw [List.cons_append, List.filterMap_cons]
    have hb := hp b (by simp)
    unfold levelIn at hb
    cases h : r.lookup b with
    | none => exact ih fun x hx => hp x (by simp [hx])
    | some l =>
      rw [h] at hb
      exact (if_pos hb).trans (ih fun x hx => hp x (by simp [hx]))

theorem effective_zero (r : Registry) : ∀ L : List Name, (∀ b ∈ L, levelIn r b = 0) → effective (L.filterMap fun x => r.lookup x) = 0
  | [], _ => rfl
  | b :: L, hL => by
    rw [List.filterMap_cons]
    have hb := hL b (by simp)
    have ih := effective_zero r L fun x hx => hL x (by simp [hx])
    unfold levelIn at hb
    cases h : r.lookup b with
    | none => exact ih
    | some l =>
      rw [h] at hb
      exact (if_pos hb).trans ih

theorem level_own {opens : String → Bool} {cs : List Call} {n : Name} {level : Nat} (h : OwnLevel cs n level) :
    levelIn (after opens cs) (key n) = level := by
  rcases h with h | ⟨h, hr⟩
  · obtain ⟨l, hl, rfl⟩ := level_after (opens := opens) h
    unfold levelIn
    rw [hl]
    rfl
  · unfold levelIn after
    rw [level_fold opens (key n) cs initial fun c hc e => h c hc ((key_eq _ _).1 e)]
    unfold initial
    rcases hr with ⟨h1, rfl⟩ | ⟨h1, rfl⟩
    · rw [(key_nil n).2 h1]
      rfl
    · have : (key n == []) = false := by simpa using fun e => h1 ((key_nil n).1 e)
      rw [List.lookup_cons, this]
      rfl

theorem level_root (opens : String → Bool) (cs : List Call) : levelIn (after opens cs) "root".toList = 0 := by
  unfold levelIn after
  rw [level_fold opens _ cs initial fun c _ => key_root c.name]
  rfl

theorem chain_longer (n : Name) : (n :: ancestors n).Pairwise (fun a b => b.length < a.length) := by
  have hlen : ∀ i, i ∈ (List.range n.length).reverse.filter (fun i => n[i]? = some '.' ∧ 0 < i) → i < n.length ∧ 0 < i := by
    intro i hi
    rw [List.mem_filter, List.mem_reverse, List.mem_range, decide_eq_true_eq] at hi
    exact ⟨hi.1, hi.2.2⟩
  have hne : ∀ i, i < n.length → (n.take i).length = i := fun i hi => by rw [List.length_take]; omega
  rw [List.pairwise_cons]
  unfold ancestors
  constructor
  · intro x hx
    rw [List.mem_append, List.mem_map] at hx
    rcases hx with ⟨i, hi, rfl⟩ | hx
    · rw [hne i (hlen i hi).1]
      exact (hlen i hi).1
    · split at hx
      · simp at hx
      · rw [List.mem_singleton] at hx
        rw [hx]
        exact List.length_pos_of_ne_nil ‹_›
  · rw [List.pairwise_append]
    refine ⟨?_, ?_, ?_⟩
    · rw [List.pairwise_map]
      refine List.Pairwise.imp_of_mem (R := fun i j => j < i) ?_ ((List.pairwise_reverse.2 List.pairwise_lt_range).filter _)
      intro i j hi hj h
      rw [hne i (hlen i hi).1, hne j (hlen j hj).1]
      exact h
    · split <;> simp
    · intro x hx y hy
      rw [List.mem_map] at hx
      obtain ⟨i, hi, rfl⟩ := hx
      split at hy
      · simp at hy
      · rw [List.mem_singleton] at hy
        rw [hy, hne i (hlen i hi).1]
        exact (hlen i hi).2

theorem above_between {a b n : Name} (ha : Above a n) (hb : Above b n) (hl : (key a).length < (key b).length) :
    Above a b ∧ ¬ SameLogger a b := by
  have hns : ¬ SameLogger a b := fun h => by
    rw [(key_eq a b).2 h] at hl
    omega
  refine ⟨?_, hns⟩
  by_cases hra : IsRoot a
  · exact .inr (.inl hra)
  have hka : key a = a := if_neg fun e => hra (.inr e)
  have hrb : ¬ IsRoot b := fun h => by
    rw [(key_nil b).2 h] at hl
    simp at hl
  have hkb : key b = b := if_neg fun e => hrb (.inr e)
  rw [hka, hkb] at hl
  rcases hb with rfl | hb | ⟨hb0, hb⟩
  · exact ha
  · exact absurd hb hrb
  · rcases ha with rfl | ha | ⟨ha0, ha⟩
    · have := hb.length_le
      rw [List.length_append] at this
      simp at this
      omega
    · exact absurd ha hra
    · refine .inr (.inr ⟨ha0, List.prefix_of_prefix_length_le ha ((List.prefix_append b ['.']).trans hb) ?_⟩)
      rw [List.length_append]
      exact hl

theorem decides_effective {opens : String → Bool} {cs : List Call} {n : Name} {limit : Nat} (h : Decides cs n limit) :
    effective (chain (after opens cs) (key n)) = limit := by
  unfold chain
  have hmem : ∀ b ∈ key n :: ancestors (key n), b = "root".toList ∨ (key b = b ∧ Above b n) := by
    intro b hb
    by_cases hr : b = "root".toList
    · exact .inl hr
    · have hk : key b = b := if_neg hr
      exact .inr ⟨hk, (mem_above b n).1 (hk.symm ▸ hb)⟩
  rcases h with ⟨a, ha, hown, h0, hb⟩ | ⟨rfl, hall⟩
  · obtain ⟨pre, post, he⟩ := List.append_of_mem ((mem_above a n).2 ha)
    have hord := chain_longer (key n)
    rw [he]
    have hlev := level_own (opens := opens) hown
    rw [effective_split _ pre post (key a) ?_ (hlev.symm ▸ h0), hlev]
    intro b hbp
    rcases hmem b (by rw [he]; simp [hbp]) with rfl | ⟨hk, hbn⟩
    · exact level_root opens cs
    · rw [he] at hord
      have hl := (List.pairwise_append.1 hord).2.2 b hbp (key a) (by simp)
      rw [← hk] at hl
      obtain ⟨h1, h2⟩ := above_between ha hbn hl
      rw [← hk]
      exact level_own (hb b hbn h1 h2)
  · refine effective_zero _ _ fun b hb => ?_
    rcases hmem b hb with rfl | ⟨hk, hbn⟩
    · exact level_root opens cs
    · rw [← hk]
      exact level_own (hall b hbn)

/-- C108. After any history of calls, what becomes of a record of any logger, set up or not: below the level that decides for it, which is that of
the nearest of the logger and its ancestors that has one, it is dropped; any other is written to standard output once for every call that
returned and was for its logger or an ancestor of it, and to each file once for every such call with this file. -/
theorem c108_any (opens : String → Bool) (cs : List Call) (name : Name) (limit level : Nat) (h : Decides cs name limit) :
    (level < limit → log (after opens cs) name level = []) ∧
    (limit ≤ level →
      (log (after opens cs) name level).count .stdout = (cs.countP fun c => opens c.file = true ∧ Above c.name name) ∧
      ∀ f, (log (after opens cs) name level).count (.file f) =
        cs.countP fun c => opens c.file = true ∧ c.file = f ∧ Above c.name name) := by
  unfold log
  simp only [decides_effective h]
  constructor
  · intro hlt
    rw [if_neg (by omega)]
  · intro hle
    rw [if_pos hle]
    unfold chain
    rw [flatMap_handlers]
    constructor
    · rw [count_chain .stdout opens (fun c => opens c.file) (fun c => (count_adds opens c).1) cs _ (chain_nodup _)]
      refine List.countP_congr fun c _ => ?_
      rw [Bool.and_eq_true, decide_eq_true_eq, decide_eq_true_eq, mem_above]
      exact and_comm
    · intro f
      rw [count_chain (.file f) opens (fun c => opens c.file && decide (c.file = f))
        (fun c => by rw [(count_adds opens c).2 f]; simp) cs _ (chain_nodup _)]
      refine List.countP_congr fun c _ => ?_
      rw [Bool.and_eq_true, Bool.and_eq_true, decide_eq_true_eq, decide_eq_true_eq, decide_eq_true_eq, mem_above]
      tauto

theorem own_exists (cs : List Call) (n : Name) : ∃ level, OwnLevel cs n level := by
  classical
  by_cases h : ∃ c ∈ cs, SameLogger c.name n
  · have : ∃ level, LastLevel cs n level := by
      induction cs with
      | nil => obtain ⟨c, hc, _⟩ := h; cases hc
      | cons c cs ih =>
        by_cases h' : ∃ c ∈ cs, SameLogger c.name n
        · obtain ⟨level, pre, d, post, rfl, hd⟩ := ih h'
          exact ⟨level, c :: pre, d, post, rfl, hd⟩
        · obtain ⟨d, hd, hs⟩ := h
          rcases List.mem_cons.1 hd with rfl | hd
          · exact ⟨d.level, [], d, cs, rfl, hs, rfl, fun c' hc' hs' => h' ⟨c', hc', hs'⟩⟩
          · exact absurd ⟨d, hd, hs⟩ h'
    exact ⟨_, .inl this.choose_spec⟩
  · by_cases hr : IsRoot n
    · exact ⟨30, .inr ⟨fun c hc hs => h ⟨c, hc, hs⟩, .inl ⟨hr, rfl⟩⟩⟩
    · exact ⟨0, .inr ⟨fun c hc hs => h ⟨c, hc, hs⟩, .inr ⟨hr, rfl⟩⟩⟩

theorem first_nonzero (f : Name → Nat) : ∀ L : List Name, (∀ b ∈ L, f b = 0) ∨ ∃ pre a post, L = pre ++ a :: post ∧ f a ≠ 0 ∧ ∀ b ∈ pre, f b = 0
  | [] => .inl (by simp)
  | a :: L => by
    by_cases ha : f a = 0
    · rcases first_nonzero f L with h | ⟨pre, c, post, rfl, hc, hp⟩
      · exact .inl (by simpa [ha] using h)
      · exact .inr ⟨a :: pre, c, post, rfl, hc, by simpa [ha] using hp⟩
    · exact .inr ⟨[], a, L, rfl, ha, by simp⟩

theorem own_of_level {opens : String → Bool} {cs : List Call} {n : Name} {level : Nat} (h : levelIn (after opens cs) (key n) = level) :
    OwnLevel cs n level := by
  obtain ⟨l, hl⟩ := own_exists cs n
  rw [← h, level_own hl]
  exact hl

/-- C108. For every logger after every history there is exactly one level that decides, so c108_any covers all records. -/
theorem c108_decided (cs : List Call) (name : Name) : ∃! limit, Decides cs name limit := by
  have hkk : ∀ m, key (key m) = key m := fun m => if_neg (key_root m)
  have huniq : ∀ l, Decides cs name l → l = effective (chain (after (fun _ => true) cs) (key name)) := fun l hl => (decides_effective hl).symm
  rcases first_nonzero (levelIn (after (fun _ => true) cs)) (key name :: ancestors (key name)) with h | ⟨pre, a, post, he, ha, hp⟩
  · have : Decides cs name 0 := .inr ⟨rfl, fun b hb => own_of_level (opens := fun _ => true) (h _ ((mem_above b name).2 hb))⟩
    exact ⟨0, this, fun l hl => (huniq l hl).trans (huniq 0 this).symm⟩
  · have hra : a ≠ "root".toList := fun e => ha (e ▸ level_root _ cs)
    have hka : key a = a := if_neg hra
    have hab : Above a name := (mem_above a name).1 (by rw [hka, he]; simp)
    have hord := chain_longer (key name)
    have : Decides cs name (levelIn (after (fun _ => true) cs) a) := by
      refine .inl ⟨a, hab, own_of_level (opens := fun _ => true) (by rw [hka]), ha, fun b hb h1 h2 => own_of_level (opens := fun _ => true) ?_⟩
      have hbm := (mem_above b name).2 hb
      rw [he, List.mem_append, List.mem_cons] at hbm
      rcases hbm with hbm | hbm | hbm
      · exact hp _ hbm
      · exact absurd ((key_eq a b).1 (hka.trans hbm.symm)) h2
      · exfalso
        rw [he] at hord
        have hl := (List.pairwise_cons.1 (List.pairwise_append.1 hord).2.1).1 _ hbm
        have hl' : (key b).length < (key a).length := by rw [hka]; exact hl
        obtain ⟨h3, _⟩ := above_between hb hab hl'
        have hrb : ¬ IsRoot a := fun h => by
          rw [(key_nil a).2 h] at hl'
          simp at hl'
        rcases h1 with rfl | h1 | ⟨_, h1⟩
        · omega
        · exact hrb h1
        · have h4 := h1.length_le
          rw [List.length_append] at h4
          have hkb : key b = b := by
            refine if_neg fun e => ?_
            rw [e] at h1
            have : '.' ∈ "root".toList := h1.subset (by simp)
            revert this
            decide
          rw [hka, hkb] at hl'
          omega
    exact ⟨_, this, fun l hl => (huniq l hl).trans (huniq _ this).symm⟩

/-- C108. After any history of calls, a record below the level of the last call for its logger is dropped; any other is written to
standard output once for every call that returned and was for its logger or an ancestor of it, and to each file once for every such call
with this file. A call that could not open its file adds nothing but has set the level. -/
theorem c108_lines (opens : String → Bool) (cs : List Call) (name : Name) (limit level : Nat) (h : LastLevel cs name limit) (h0 : limit ≠ 0) :
    (level < limit → log (after opens cs) name level = []) ∧
    (limit ≤ level →
      (log (after opens cs) name level).count .stdout = (cs.countP fun c => opens c.file = true ∧ Above c.name name) ∧
      ∀ f, (log (after opens cs) name level).count (.file f) =
        cs.countP fun c => opens c.file = true ∧ c.file = f ∧ Above c.name name) := by
  refine c108_any opens cs name limit level (.inl ⟨name, .inl rfl, .inl h, h0, fun b hb h1 h2 => absurd ?_ h2⟩)
  rcases h1 with h1 | h1 | ⟨_, h1⟩
  · exact .inl h1
  · rcases hb with hb | hb | ⟨h3, hb⟩
    · exact .inl hb.symm
    · exact .inr ⟨h1, hb⟩
    · exfalso
      rcases h1 with rfl | rfl
      · have := hb.length_le
        rw [List.length_append] at this
        simp at this
      · have : '.' ∈ "root".toList := hb.subset (by simp)
        revert this
        decide
  · rcases hb with hb | hb | ⟨_, hb⟩
    · exact .inl hb.symm
    · exfalso
      rcases hb with rfl | rfl
      · have := h1.length_le
        rw [List.length_append] at this
        simp at this
      · have : '.' ∈ "root".toList := h1.subset (by simp)
        revert this
        decide
    · have h4 := h1.length_le
      have h5 := hb.length_le
      rw [List.length_append] at h4 h5
      simp at h4 h5
      omega

/-- C108. `setup_logger` returns exactly if the file can be opened. -/
theorem c108_returns (opens : String → Bool) (r : Registry) (name : Name) (file : String) (level : Nat) :
    (setupLogger opens r name file level).2 = opens file := by
  unfold setupLogger
  cases h : opens file <;> simp

/-- C108. Called `k` times for the same name and file, each record is written `k` times to both. -/
theorem c108_repeated (opens : String → Bool) (c : Call) (hc : opens c.file = true) (h0 : c.level ≠ 0) (k level : Nat) (hk : 0 < k)
    (hl : c.level ≤ level) :
    (log (after opens (List.replicate k c)) c.name level).count .stdout = k ∧
    (log (after opens (List.replicate k c)) c.name level).count (.file c.file) = k := by
  have hlast : LastLevel (List.replicate k c) c.name c.level := by
    obtain ⟨n, rfl⟩ : ∃ n, k = n + 1 := ⟨k - 1, by omega⟩
    exact ⟨List.replicate n c, c, [], List.replicate_succ', .inl rfl, rfl, by simp⟩
  obtain ⟨-, h⟩ := c108_lines opens _ c.name c.level level hlast h0
  obtain ⟨h1, h2⟩ := h hl
  constructor
  · rw [h1, List.countP_replicate, if_pos (decide_eq_true ⟨hc, .inl rfl⟩)]
  · rw [h2, List.countP_replicate, if_pos (decide_eq_true ⟨hc, rfl, .inl rfl⟩)]

/-- C108, expectation that fails: one line per record. -/
theorem c108_once_false : ¬ ∀ (cs : List Call) (c : Call) (level : Nat), c ∈ cs → c.level ≤ level →
    (log (after (fun _ => true) cs) c.name level).count .stdout = 1 := by
  intro h
  have := (c108_repeated (fun _ => true) ⟨['a'], "log.log", 20⟩ rfl (by decide) 2 20 (by decide) (by decide)).1
  rw [h _ ⟨['a'], "log.log", 20⟩ 20 (by simp) (by decide)] at this
  exact absurd this (by decide)

/-! The hypotheses are met: a script, and a second one whose name continues its name after a dot. -/

example : log (after (fun _ => true) [⟨"run.py".toList, "a", 20⟩, ⟨"run".toList, "b", 40⟩]) "run.py".toList 20 =
    [.stdout, .file "a", .stdout, .file "b"] := by decide +kernel

example : log (after (fun f => f == "b") [⟨"run.py".toList, "b", 20⟩, ⟨"run.py".toList, "a", 40⟩]) "run.py".toList 30 = [] := by
  decide +kernel

example : LastLevel [⟨"run.py".toList, "b", 20⟩, ⟨"run.py".toList, "a", 40⟩] "run.py".toList 40 :=
  ⟨[⟨"run.py".toList, "b", 20⟩], _, [], rfl, .inl rfl, rfl, by simp⟩

/-- A logger that was not set up takes the level of the root logger. -/
example : Decides [] "run.py".toList 30 :=
  .inl ⟨[], .inr (.inl (.inl rfl)), .inr ⟨by simp, .inl ⟨.inl rfl, rfl⟩⟩, by decide, fun b _ _ h =>
    .inr ⟨by simp, .inr ⟨fun hr => h (.inr ⟨.inl rfl, hr⟩), rfl⟩⟩⟩

end NR.C108
