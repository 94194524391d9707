import Verif.Props.C30
import Mathlib.Data.List.Sort
/-
C35: find_damaged_fields. C36: predict.
-/
namespace NR
open Spec Dialect FieldModel

/-! ### C35 -/

/-- The field (name and index) a byte belongs to. -/
def fieldAt (s : List (Nat × Nat)) (k : Nat) : Option (String × Nat) :=
  ((fieldPlaces s).zipIdx.find? fun pj => pj.1.Has k).map fun pj => (pj.1.name, pj.2)

theorem c35_field_at {len : Nat} {s : List (Nat × Nat)} (hs : InRange len s) (hn : NonOverlapping s) (k : Nat)
    (name : String) (j : Nat) :
    fieldAt s k = some (name, j) ↔ ∃ p, (fieldPlaces s)[j]? = some p ∧ p.name = name ∧ p.Has k := by
  unfold fieldAt
  constructor
  · intro h
    rw [Option.map_eq_some_iff] at h
    obtain ⟨⟨p, j'⟩, h1, h2⟩ := h
    injection h2 with h2 h3
    simp only at h2 h3
    subst h3
    have hm := List.mem_of_find?_eq_some h1
    have hh := List.find?_some h1
    have hg : (fieldPlaces s)[j']? = some p := by
      obtain ⟨_, hh2⟩ := List.mem_zipIdx' hm
      rw [List.getElem?_eq_getElem, hh2]
    exact ⟨p, hg, h2, by simpa using hh⟩
  · rintro ⟨p, h1, rfl, h3⟩
    cases hf : (fieldPlaces s).zipIdx.find? fun pj => decide (pj.1.Has k) with
    | none =>
      rw [List.find?_eq_none] at hf
      have hmem : (p, j) ∈ (fieldPlaces s).zipIdx := by
        rw [List.mem_iff_getElem?]
        exact ⟨j, by rw [List.getElem?_zipIdx, h1]; simp⟩
      have := hf _ hmem
      simp [h3] at this
    | some pj =>
      obtain ⟨p', j'⟩ := pj
      have hm := List.mem_of_find?_eq_some hf
      have hh := List.find?_some hf
      have hg : (fieldPlaces s)[j']? = some p' := by
        obtain ⟨_, hh2⟩ := List.mem_zipIdx' hm
        rw [List.getElem?_eq_getElem, hh2]
      have : j' = j := pairwise_unique (fieldPlaces_pairwise hs hn) hg h1 (by simpa using hh) h3
      subst this
      rw [h1] at hg
      injection hg with hg
      subst hg
      rfl

theorem fieldAt_cover {len : Nat} {s : List (Nat × Nat)} (hs : InRange len s) (hn : NonOverlapping s) (k : Nat) :
    (coverIdx (fieldPlaces s) k = -1 ∧ fieldAt s k = none) ∨
      ∃ (j : Nat) (p : Place), coverIdx (fieldPlaces s) k = (j : Int) ∧ (fieldPlaces s)[j]? = some p ∧
        fieldAt s k = some (p.name, j) := by
  rcases coverIdx_spec (fieldPlaces s) k with ⟨h1, h2⟩ | ⟨j, p, h1, h2, h3, _⟩
  · left
    refine ⟨h1, ?_⟩
    cases hf : fieldAt s k with
    | none => rfl
    | some x =>
      obtain ⟨p, hp, _, hh⟩ := (c35_field_at hs hn k x.1 x.2).1 hf
      exact absurd hh (h2 p (List.mem_of_getElem? hp))
  · right
    exact ⟨j, p, h1, h2, (c35_field_at hs hn k p.name j).2 ⟨p, h2, rfl, h3⟩⟩

/-- C35: the answer lists, in increasing order of the error positions, the name and index of the field each error lies
in, skipping errors outside the buffer and outside all fields. -/
theorem c35_damaged (len : Nat) (s : List (Nat × Nat)) (hs : InRange len s) (hn : NonOverlapping s) (errors : List Nat) :
    ∃ sorted : List Nat, sorted.Perm errors ∧ sorted.Pairwise (· ≤ ·) ∧
      BufferModel.findDamaged errors s len =
        .ok (some (sorted.filterMap fun e => if e < 8 * len then fieldAt s (e / 8) else none)) := by
  obtain ⟨arr, h1, h2⟩ := unpackStructure_ok hs
  refine ⟨errors.mergeSort (fun a b => decide (a ≤ b)), List.mergeSort_perm _ _, ?_, ?_⟩
  · have := List.pairwise_mergeSort (le := fun a b : Nat => decide (a ≤ b))
      (by intro a b c; simp; omega) (by intro a b; simp; omega) errors
    simpa using this
  · unfold BufferModel.findDamaged
    simp only [h1, bind, Except.bind]
    congr 1
    generalize errors.mergeSort (fun a b => decide (a ≤ b)) = l
    induction l with
    | nil => rfl
    | cons e l ih =>
      rw [List.filter_cons, List.filterMap_cons]
      by_cases he : e < 8 * len
      · have hv := h2.value e (by omega)
        have hlt : e < arr.length := by rw [h2.length]; omega
        have hg : arr.getD e (-1) = coverIdx (fieldPlaces s) (e / 8) := by
          rw [List.getD_eq_getElem?_getD, hv]; rfl
        rw [hg]
        rcases fieldAt_cover hs hn (e / 8) with ⟨h3, h4⟩ | ⟨j, p, h3, h4, h5⟩
        · rw [h3]
          simp only [hlt, he, h4, if_true, decide_true, Bool.true_and]
          rw [if_neg (by decide)]
          exact ih
        · rw [h3]
          simp only [hlt, he, h5, if_true, decide_true, Bool.true_and]
          rw [if_pos (by simp), List.mapM_cons, hg, h3, ih]
          simp [List.getElem?_zipIdx, h4]
      · have hlt : ¬ e < arr.length := by rw [h2.length]; omega
        simp only [he, hlt, if_false, decide_false, Bool.false_and, Bool.false_eq_true]
        exact ih

/-- Three errors, one of them behind the message, one in the `seq` byte. -/
example : BufferModel.findDamaged [400, 21, 0] [(0, 0)] 17 = .ok (some [("magic", 0), ("seq", 2)]) := by
  have h : [400, 21, 0].mergeSort (fun a b : Nat => decide (a ≤ b)) = [0, 21, 400] := by
    simp [List.mergeSort, List.MergeSort.Internal.splitInTwo, List.merge]
  unfold BufferModel.findDamaged
  rw [h]
  decide +kernel

/-! ### C36 -/

section
variable {μ : Type} (O : StatOps Val μ)

/-- The score a field model gives to a value, computed from the field's history. -/
def scoreOf (w : Option Nat) (fitv : List Val → μ × μ) (hist : List Val) (v : Val) : Option (μ × μ) :=
  if hist = [] then none
  else some (classify O (fitv (windowed w hist)).1 (fitv (windowed w hist)).2 v)

/-- The loop of `predict` without the cache. -/
def purePredict (bits : List Int) (sc : String → Val → Option (μ × μ)) (p : BufferModel.Prediction μ)
    (x : Nat × String × Val) : BufferModel.Prediction μ :=
  match sc x.2.1 x.2.2 with
  | none => p
  | some (a, s) => ⟨p.fields.set x.1 (some (x.2.1, a, s)), BufferModel.assignMask p.bitProb bits x.1 (some a),
      BufferModel.assignMask p.bitStd bits x.1 (some s)⟩

theorem predictLoop_pure {w : Option Nat} {fitv : List Val → μ × μ} {H : String → List Val} (bits : List Int)
    (items : List (Nat × String × Val))
    (hfit : ∀ x ∈ items, H x.2.1 ≠ [] → O.fit (windowed w (H x.2.1)) = .ok (fitv (windowed w (H x.2.1))))
    (p : BufferModel.Prediction μ) (ms : List (String × FieldModel Val μ)) (h : BufInv O w H ms) :
    ∃ ms', BufferModel.predictLoop O bits ms p items =
        (ms', .ok (items.foldl (purePredict bits fun n v => scoreOf O w fitv (H n) v) p)) ∧ BufInv O w H ms' := by
  induction items generalizing p ms with
  | nil => exact ⟨ms, rfl, h⟩
  | cons x items ih =>
    obtain ⟨j, name, v⟩ := x
    have hfit0 := hfit _ List.mem_cons_self
    have ih := ih fun x hx => hfit x (List.mem_cons_of_mem _ hx)
    simp only [BufferModel.predictLoop, List.foldl_cons]
    cases hl : ms.lookup name with
    | none =>
      have h0 := (h.absent name).1 hl
      have : purePredict bits (fun n v => scoreOf O w fitv (H n) v) p (j, name, v) = p := by
        simp [purePredict, scoreOf, h0]
      rw [this]
      exact ih p ms h
    | some m =>
      obtain ⟨t, hm⟩ := h.model name m hl
      have hne : H name ≠ [] := by
        intro h0
        rw [(h.absent name).2 h0] at hl
        cases hl
      obtain ⟨hm', hans⟩ := inv_read O hm (.classifyValue v)
      have hst : statsOf O (windowed w (H name)) = .ok (fitv (windowed w (H name))) := by
        rw [statsOf, if_neg (by rw [windowed_eq_nil]; exact hne), hfit0 hne]
      simp only [hst, Except.bind, answer] at hans
      have hpp : purePredict bits (fun n v => scoreOf O w fitv (H n) v) p (j, name, v) =
          ⟨p.fields.set j (some (name, (classify O (fitv (windowed w (H name))).1 (fitv (windowed w (H name))).2 v))),
            BufferModel.assignMask p.bitProb bits j (some (classify O (fitv (windowed w (H name))).1 (fitv (windowed w (H name))).2 v).1),
            BufferModel.assignMask p.bitStd bits j (some (classify O (fitv (windowed w (H name))).1 (fitv (windowed w (H name))).2 v).2)⟩ := by
        simp [purePredict, scoreOf, hne]
      rw [hpp]
      simp only
      generalize m.read O (.classifyValue v) = rd at hm' hans ⊢
      obtain ⟨m2, r2⟩ := rd
      simp only at hans hm'
      subst hans
      simp only
      apply ih
      constructor
      · intro n
        rw [lookup_dictSet]
        by_cases hn : n = name
        · subst hn
          simp [hne]
        · rw [if_neg hn]; exact h.absent n
      · intro n m' hm''
        rw [lookup_dictSet] at hm''
        by_cases hn : n = name
        · subst hn
          rw [if_pos rfl] at hm''
          injection hm'' with hm''
          subst hm''
          exact ⟨t, hm'⟩
        · rw [if_neg hn] at hm''
          exact h.model n m' hm''

theorem assignMask_getElem {α : Type} {a : List α} {map : List Int} (hl : a.length = map.length) (j : Int) (v : α) (b : Nat) :
    (BufferModel.assignMask a map j v)[b]? = (a[b]?).map fun x => if map[b]? = some j then v else x := by
  unfold BufferModel.assignMask
  by_cases hb : b < a.length
  · rw [List.getElem?_eq_getElem (by simp [List.length_zipWith, ← hl]; exact hb), List.getElem?_eq_getElem hb]
    simp [List.getElem?_eq_getElem (show b < map.length by omega)]
  · rw [List.getElem?_eq_none (by simp [List.length_zipWith]; omega), List.getElem?_eq_none (l := a) (by omega)]
    rfl

/-- State of the pure loop after the first `n` fields. -/
theorem purePredict_range (bits : List Int) (sc : String → Val → Option (μ × μ)) (nm : Nat → String) (v : Nat → Val)
    (N n : Nat) (hn : n ≤ N) :
    let p := ((List.range n).map fun j => (j, nm j, v j)).foldl (purePredict bits sc)
      ⟨List.replicate N none, List.replicate bits.length none, List.replicate bits.length none⟩
    p.fields.length = N ∧ p.bitProb.length = bits.length ∧ p.bitStd.length = bits.length ∧
    (∀ j, j < N → p.fields[j]? = some (if j < n then (sc (nm j) (v j)).map fun x => (nm j, x) else none)) ∧
    (∀ (b : Nat) (k : Int), bits[b]? = some k →
      p.bitProb[b]? = some (if 0 ≤ k ∧ k < n then (sc (nm k.toNat) (v k.toNat)).map Prod.fst else none) ∧
      p.bitStd[b]? = some (if 0 ≤ k ∧ k < n then (sc (nm k.toNat) (v k.toNat)).map Prod.snd else none)) := by
  induction n with
  | zero =>
    refine ⟨by simp, by simp, by simp, ?_, ?_⟩
    · intro j hj
      simp [List.getElem?_replicate, hj]
    · intro b k hk
      have hb : b < bits.length := (List.getElem?_eq_some_iff.1 hk).1
      have : ¬ (0 ≤ k ∧ k < ((0 : Nat) : Int)) := by omega
      rw [if_neg this, if_neg this]
      simp [List.getElem?_replicate, hb]
  | succ n ih =>
    obtain ⟨h1, h2, h3, h4, h5⟩ := ih (by omega)
    rw [List.range_succ, List.map_append, List.foldl_append]
    simp only [List.map_cons, List.map_nil, List.foldl_cons, List.foldl_nil]
    generalize ((List.range n).map fun j => (j, nm j, v j)).foldl (purePredict bits sc)
      ⟨List.replicate N none, List.replicate bits.length none, List.replicate bits.length none⟩ = p at *
    unfold purePredict
    simp only
    cases hs : sc (nm n) (v n) with
    | none =>
      refine ⟨h1, h2, h3, ?_, ?_⟩
      · intro j hj
        rw [h4 j hj]
        congr 1
        by_cases hjn : j = n
        · subst hjn; simp [hs]
        · have : j < n + 1 ↔ j < n := by omega
          simp [this]
      · intro b k hk
        obtain ⟨g1, g2⟩ := h5 b k hk
        rw [g1, g2]
        by_cases hkn : k = (n : Int)
        · subst hkn
          simp [hs]
        · have : (0 ≤ k ∧ k < ((n + 1 : Nat) : Int)) ↔ (0 ≤ k ∧ k < (n : Int)) := by push_cast; omega
          simp only [this, and_self]
    | some x =>
      obtain ⟨a, s⟩ := x
      refine ⟨by simpa using h1, ?_, ?_, ?_, ?_⟩
      · simp [BufferModel.assignMask, h2]
      · simp [BufferModel.assignMask, h3]
      · intro j hj
        rw [List.getElem?_set]
        by_cases hjn : n = j
        · subst hjn
          simp [h1, hj, hs]
        · rw [if_neg hjn, h4 j hj]
          have : j < n + 1 ↔ j < n := by omega
          simp [this]
      · intro b k hk
        obtain ⟨g1, g2⟩ := h5 b k hk
        rw [assignMask_getElem h2, assignMask_getElem h3, g1, g2, hk]
        simp only [Option.map_some, Option.some_inj]
        by_cases hkn : k = (n : Int)
        · subst hkn
          simp [hs]
          omega
        · have : (0 ≤ k ∧ k < ((n + 1 : Nat) : Int)) ↔ (0 ≤ k ∧ k < (n : Int)) := by push_cast; omega
          simp only [this, Option.some_inj, hkn, if_false, and_self]

theorem zip_range {α β : Type} [Inhabited α] [Inhabited β] (a : List α) (b : List β) (h : a.length = b.length) :
    (List.range b.length).zip (a.zip b) = (List.range b.length).map fun j => (j, a.getD j default, b.getD j default) := by
  apply List.ext_getElem
  · simp [h]
  · intro i h1 h2
    simp at h1 h2
    simp [List.getElem_zip, h2, h1]

instance : Inhabited Val := ⟨.int 0⟩

/-- `predict` of a model whose fields hold the windows of the histories `hist`. -/
theorem predict_of_inv (fitv : List Val → μ × μ) (w : Option Nat)
    (bm : BufferModel μ) (hist : String → List Val) (hinv : BufInv O w hist bm.models)
    (buf : List Byte) (s : List (Nat × Nat)) (hs : InRange buf.length s) (hn : NonOverlapping s)
    (hfit : ∀ q ∈ fieldPlaces s, hist q.name ≠ [] → O.fit (windowed w (hist q.name)) = .ok (fitv (windowed w (hist q.name)))) :
    ∃ p, (bm.predict O (.bytes buf) s).2 = .ok p ∧
      p.fields = (fieldPlaces s).map (fun q =>
        (scoreOf O w fitv (hist q.name) (unpackScalar q.type (q.bytes buf))).map fun x => (q.name, x)) ∧
      p.bitProb.length = 8 * buf.length ∧ p.bitStd.length = 8 * buf.length ∧
      (∀ b < 8 * buf.length, ∀ q ∈ fieldPlaces s, q.Has (b / 8) →
        p.bitProb[b]? = some ((scoreOf O w fitv (hist q.name) (unpackScalar q.type (q.bytes buf))).map Prod.fst) ∧
        p.bitStd[b]? = some ((scoreOf O w fitv (hist q.name) (unpackScalar q.type (q.bytes buf))).map Prod.snd)) ∧
      (∀ b < 8 * buf.length, (∀ q ∈ fieldPlaces s, ¬ q.Has (b / 8)) → p.bitProb[b]? = some none ∧ p.bitStd[b]? = some none) := by
  obtain ⟨arr, h1, h2⟩ := unpackStructure_ok hs
  have hu := unpackLoop_ok hs
  unfold BufferModel.predict
  simp only [BufferModel.argLen, h1, unpackValues, hu, bind, Except.bind]
  generalize hps : fieldPlaces s = ps at *
  have hz := zip_range (ps.map Place.name) (ps.map fun p => unpackScalar p.type (p.bytes buf)) (by simp)
  rw [hz]
  have hfit' : ∀ x ∈ (List.range (ps.map fun p => unpackScalar p.type (p.bytes buf)).length).map (fun j =>
      (j, (ps.map Place.name).getD j default, (ps.map fun p => unpackScalar p.type (p.bytes buf)).getD j default)),
      hist x.2.1 ≠ [] → O.fit (windowed w (hist x.2.1)) = .ok (fitv (windowed w (hist x.2.1))) := by
    intro x hx
    obtain ⟨j, hj, rfl⟩ := List.mem_map.1 hx
    have hj' : j < ps.length := by simpa using hj
    have := hfit (ps[j]) (List.getElem_mem _)
    simpa only [List.getD_eq_getElem?_getD, List.getElem?_map, List.getElem?_eq_getElem hj', Option.map_some, Option.getD_some] using this
  obtain ⟨ms', hloop, _⟩ := predictLoop_pure O arr _ hfit'
    ⟨List.replicate (ps.map fun p => unpackScalar p.type (p.bytes buf)).length none, List.replicate arr.length none, List.replicate arr.length none⟩
    bm.models hinv
  rw [hloop]
  obtain ⟨g1, g2, g3, g4, g5⟩ := purePredict_range arr (fun n v => scoreOf O w fitv (hist n) v)
    (fun j => (ps.map Place.name).getD j default) (fun j => (ps.map fun p => unpackScalar p.type (p.bytes buf)).getD j default)
    (ps.map fun p => unpackScalar p.type (p.bytes buf)).length _ (Nat.le_refl _)
  refine ⟨_, rfl, ?_, ?_, ?_, ?_, ?_⟩
  · apply List.ext_getElem?
    intro j
    by_cases hj : j < ps.length
    · rw [g4 j (by simpa using hj)]
      simp [hj]
    · rw [List.getElem?_eq_none (by rw [g1]; simp; omega), List.getElem?_eq_none (by simp; omega)]
  · rw [g2, h2.length]; omega
  · rw [g3, h2.length]; omega
  · intro b hb q hq hh
    obtain ⟨j, hj⟩ := List.mem_iff_getElem?.1 hq
    have hpw := fieldPlaces_pairwise hs hn
    rw [hps] at hpw
    have hc := (coverIdx_iff hpw (b / 8) j).2 ⟨q, hj, hh⟩
    have hlt : j < ps.length := (List.getElem?_eq_some_iff.1 hj).1
    obtain ⟨k1, k2⟩ := g5 b (j : Int) (by rw [h2.value b (by omega), hc])
    rw [k1, k2]
    have he : ps[j] = q := (List.getElem?_eq_some_iff.1 hj).2
    have hcond : (0 ≤ (j : Int) ∧ (j : Int) < ((ps.map fun p => unpackScalar p.type (p.bytes buf)).length : Nat)) := by
      simp; omega
    rw [if_pos hcond, if_pos hcond]
    simp [hlt, he]
  · intro b hb hno
    rcases coverIdx_spec ps (b / 8) with ⟨c1, _⟩ | ⟨j, q, _, c2, c3, _⟩
    · obtain ⟨k1, k2⟩ := g5 b (-1) (by rw [h2.value b (by omega), c1])
      rw [k1, k2]
      simp
    · exact absurd c3 (hno q (List.mem_of_getElem? c2))

open Classical in
/-- C36: `predict` on non-overlapping array-free messages inside the buffer, fitting not raising on the windows of
their fields. Per field, in wire order, the entry is the field's name with its score when the field has a model and `None`
otherwise. A bit of a modelled field carries that field's score and deviation; every other bit is NaN. -/
theorem c36_predict (fitv : List Val → μ × μ) (w : Option Nat)
    (as : List (BufArg × List (Nat × Nat))) (bm : BufferModel μ) (hbm : bm = addAll O (BufferModel.new w) as)
    (hist : String → List Val) (hhist : hist = fun n => (as.filter (fun a => Addable a)).flatMap (takes n))
    (buf : List Byte) (s : List (Nat × Nat)) (hs : InRange buf.length s) (hn : NonOverlapping s)
    (hfit : ∀ q ∈ fieldPlaces s, hist q.name ≠ [] → O.fit (windowed w (hist q.name)) = .ok (fitv (windowed w (hist q.name)))) :
    ∃ p, (bm.predict O (.bytes buf) s).2 = .ok p ∧
      p.fields = (fieldPlaces s).map (fun q =>
        (scoreOf O w fitv (hist q.name) (unpackScalar q.type (q.bytes buf))).map fun x => (q.name, x)) ∧
      p.bitProb.length = 8 * buf.length ∧ p.bitStd.length = 8 * buf.length ∧
      (∀ b < 8 * buf.length, ∀ q ∈ fieldPlaces s, q.Has (b / 8) →
        p.bitProb[b]? = some ((scoreOf O w fitv (hist q.name) (unpackScalar q.type (q.bytes buf))).map Prod.fst) ∧
        p.bitStd[b]? = some ((scoreOf O w fitv (hist q.name) (unpackScalar q.type (q.bytes buf))).map Prod.snd)) ∧
      (∀ b < 8 * buf.length, (∀ q ∈ fieldPlaces s, ¬ q.Has (b / 8)) → p.bitProb[b]? = some none ∧ p.bitStd[b]? = some none) := by
  obtain ⟨_, _, hinv⟩ := addAll_inv O w as
  rw [← hbm, ← hhist] at hinv
  exact predict_of_inv O fitv w bm hist hinv buf s hs hn hfit

/-- C36: outside its domain `predict` raises. -/
theorem c36_raises (bm : BufferModel μ) (buf : List Byte) (s : List (Nat × Nat)) (hs : ¬ InRange buf.length s) :
    ∃ e, bm.predict O (.bytes buf) s = (bm, .error e) := by
  have h1 : ¬ Returns (unpackStructure true buf.length s) := fun h => hs ((c31_returns_iff _ _).1 h)
  cases hu : unpackStructure true buf.length s with
  | ok r => exact absurd ⟨r, hu⟩ h1
  | error e =>
    refine ⟨e, ?_⟩
    simp [BufferModel.predict, BufferModel.argLen, hu, bind, Except.bind]

end

end NR
