import Verif.Props.C33
import Verif.Props.C35_C36
/-
C69: bitwise_model_mean.
-/
namespace NR
open Spec Dialect FieldModel

/-- The positions of `j` before `k` in a list where `j` stands exactly on `[a, a + n)`. -/
theorem count_before {l : List Int} {j : Int} {a n : Nat} (h : ∀ i < l.length, l[i]? = some j ↔ a ≤ i ∧ i < a + n)
    (k : Nat) (hk : k ≤ l.length) : ((l.take k).filter (· = j)).length = min (k - a) n := by
  induction k with
  | zero => simp
  | succ k ih =>
    have hk' : k < l.length := by omega
    rw [List.take_succ_eq_append_getElem hk', List.filter_append, List.length_append, ih (by omega)]
    have h1 := h k hk'
    rw [List.getElem?_eq_getElem hk', Option.some_inj] at h1
    by_cases hj : l[k] = j
    · have := h1.1 hj
      simp [hj]
      omega
    · have := mt h1.2 hj
      simp [hj]
      omega

theorem assignMaskArr_ok {acc : List Bool} {map : List Int} {j : Int} {vs : List Bool} {a : Nat}
    (hl : acc.length = map.length) (h : ∀ i < map.length, map[i]? = some j ↔ a ≤ i ∧ i < a + vs.length)
    (hfit : a + vs.length ≤ map.length) :
    ∃ r, BufferModel.assignMaskArr acc map j vs = .ok r ∧ r.length = acc.length ∧
      ∀ b < acc.length, r[b]? = if map[b]? = some j then vs[b - a]? else acc[b]? := by
  unfold BufferModel.assignMaskArr
  have hc := count_before h map.length (Nat.le_refl _)
  rw [List.take_length] at hc
  rw [if_pos (by rw [hc]; omega)]
  refine ⟨_, rfl, by simp [hl], ?_⟩
  intro b hb
  have hb' : b < map.length := by omega
  rw [List.getElem?_mapIdx, List.getElem?_eq_getElem (by simp; omega)]
  simp only [List.getElem_zip, Option.map_some, List.getElem?_eq_getElem hb', Option.some_inj,
    List.getElem?_eq_getElem hb]
  have hh := h b hb'
  rw [List.getElem?_eq_getElem hb', Option.some_inj] at hh
  by_cases hj : map[b] = j
  · obtain ⟨h1, h2⟩ := hh.1 hj
    rw [if_pos hj, if_pos hj, count_before h b (by omega), show min (b - a) vs.length = b - a by omega]
    rw [List.getD_eq_getElem?_getD, List.getElem?_eq_getElem (by omega)]
    rfl
  · rw [if_neg hj, if_neg hj]

variable {μ : Type} (O : StatOps Val μ)

theorem bufInv_set {w : Option Nat} {H : String → List Val} {ms : List (String × FieldModel Val μ)} {name : String}
    {m m' : FieldModel Val μ} {t : CType} (h : BufInv O w H ms) (hl : ms.lookup name = some m)
    (hm' : FieldInv O w t (H name) m') : BufInv O w H (dictSet ms name m') := by
  have hne : H name ≠ [] := by
    intro h0
    rw [(h.absent name).2 h0] at hl
    cases hl
  constructor
  · intro n
    rw [lookup_dictSet]
    by_cases hn : n = name
    · subst hn
      simp [hne]
    · rw [if_neg hn]; exact h.absent n
  · intro n m'' hm''
    rw [lookup_dictSet] at hm''
    by_cases hn : n = name
    · subst hn
      rw [if_pos rfl] at hm''
      injection hm'' with hm''
      subst hm''
      exact ⟨t, hm'⟩
    · rw [if_neg hn] at hm''
      exact h.model n m'' hm''

/-- Bits of the mean of a field with history `hist` when stored as type `t`. -/
def meanBits (w : Option Nat) (hist : List Val) (t : CType) : Except PyErr (List Bool) :=
  if hist = [] then .error .keyError else (O.fit (windowed w hist)).bind fun s => O.toBits s.1 t

/-- One round of the loop, with the answer computed from the history. -/
theorem meanLoop_cons {w : Option Nat} {H : String → List Val} (bits : List Int) (acc : List Bool) (j : Nat)
    (name : String) (t : CType) (rest : List (Nat × String × CType)) (ms : List (String × FieldModel Val μ))
    (h : BufInv O w H ms) :
    ∃ ms', BufInv O w H ms' ∧ BufferModel.meanLoop O bits ms acc ((j, name, t) :: rest) =
      match (meanBits O w (H name) t).bind fun b => BufferModel.assignMaskArr acc bits j b with
      | .error e => (ms', .error e)
      | .ok acc' => BufferModel.meanLoop O bits ms' acc' rest := by
  simp only [BufferModel.meanLoop]
  cases hl : ms.lookup name with
  | none =>
    refine ⟨ms, h, ?_⟩
    simp only [meanBits, (h.absent name).1 hl, if_true, Except.bind]
  | some m =>
    obtain ⟨t', hm⟩ := h.model name m hl
    have hne : H name ≠ [] := by
      intro h0
      rw [(h.absent name).2 h0] at hl
      cases hl
    obtain ⟨hm', hans⟩ := inv_read O hm .mean
    simp only
    generalize m.read O .mean = rd at hm' hans ⊢
    obtain ⟨m2, r2⟩ := rd
    simp only at hans hm'
    refine ⟨_, bufInv_set O h hl hm', ?_⟩
    simp only [statsOf, windowed_eq_nil, hne, if_false] at hans
    simp only [meanBits, hne, if_false]
    cases hf : O.fit (windowed w (H name)) with
    | error e =>
      rw [hf] at hans
      simp only [Except.bind] at hans
      subst hans
      rfl
    | ok s =>
      rw [hf] at hans
      simp only [Except.bind, answer] at hans
      subst hans
      simp only [Except.bind]
      cases hb : O.toBits s.1 t with
      | error e => rfl
      | ok b =>
        simp only
        cases hc : BufferModel.assignMaskArr acc bits j b with
        | error e => rfl
        | ok acc' => rfl

/-- The map of bits to fields, in the form used here. -/
theorem map_field {len : Nat} {s : List (Nat × Nat)} {arr : List Int} (hs : InRange len s) (hn : NonOverlapping s)
    (h2 : MapOK len arr (fieldPlaces s)) {j : Nat} {p : Place} (hj : (fieldPlaces s)[j]? = some p) (i : Nat)
    (hi : i < arr.length) : arr[i]? = some (j : Int) ↔ 8 * p.start ≤ i ∧ i < 8 * p.start + 8 * width p.type := by
  rw [h2.value i (by rw [← h2.length]; exact hi), Option.some_inj,
    coverIdx_iff (fieldPlaces_pairwise hs hn) (i / 8) j]
  constructor
  · rintro ⟨q, hq, hh⟩
    rw [hj] at hq
    injection hq with hq
    subst hq
    obtain ⟨a, b⟩ := hh
    omega
  · rintro ⟨a, b⟩
    exact ⟨p, hj, by constructor <;> omega⟩

theorem meanLoop_ok {len : Nat} {s : List (Nat × Nat)} {arr : List Int} (hs : InRange len s) (hn : NonOverlapping s)
    (h2 : MapOK len arr (fieldPlaces s)) {w : Option Nat} {H : String → List Val} (mb : Place → List Bool)
    (hmb : ∀ p ∈ fieldPlaces s, meanBits O w (H p.name) p.type = .ok (mb p) ∧ (mb p).length = 8 * width p.type)
    (items : List (Nat × String × CType)) (n : Nat)
    (hitems : items = ((List.range (fieldPlaces s).length).zip
      (((fieldPlaces s).map Place.name).zip ((fieldPlaces s).map Place.type))).drop n)
    (ms : List (String × FieldModel Val μ)) (h : BufInv O w H ms) (acc : List Bool) (hl : acc.length = arr.length)
    (hacc : ∀ b < acc.length, ∀ k, arr[b]? = some k → acc[b]? =
      if 0 ≤ k ∧ k < n then ((fieldPlaces s)[k.toNat]?).bind fun p => (mb p)[b - 8 * p.start]? else some false) :
    ∃ ms' r, BufferModel.meanLoop O arr ms acc items = (ms', .ok r) ∧ r.length = arr.length ∧
      ∀ b < r.length, ∀ k, arr[b]? = some k → r[b]? =
        if 0 ≤ k then ((fieldPlaces s)[k.toNat]?).bind fun p => (mb p)[b - 8 * p.start]? else some false := by
  induction items generalizing n ms acc with
  | nil =>
    refine ⟨ms, acc, rfl, hl, ?_⟩
    intro b hb k hk
    rw [hacc b hb k hk]
    have hlen : (fieldPlaces s).length ≤ n := by
      have := congrArg List.length hitems
      simp at this
      omega
    have hkk : k < (fieldPlaces s).length := by
      rw [h2.value b (by rw [← h2.length, ← hl]; exact hb)] at hk
      injection hk with hk
      rcases coverIdx_spec (fieldPlaces s) (b / 8) with ⟨c1, _⟩ | ⟨j, q, c1, c2, _, _⟩
      · omega
      · have := (List.getElem?_eq_some_iff.1 c2).1
        omega
    have : (0 ≤ k ∧ k < (n : Int)) ↔ 0 ≤ k := by omega
    simp only [this]
  | cons x items ih =>
    have hn' : n < (fieldPlaces s).length := by
      have := congrArg List.length hitems
      simp at this
      omega
    have hx : x = (n, (fieldPlaces s)[n].name, (fieldPlaces s)[n].type) ∧ items =
        ((List.range (fieldPlaces s).length).zip
          (((fieldPlaces s).map Place.name).zip ((fieldPlaces s).map Place.type))).drop (n + 1) := by
      rw [List.drop_eq_getElem_cons (by simp; exact hn')] at hitems
      injection hitems with e1 e2
      refine ⟨?_, e2⟩
      rw [e1]
      simp [List.getElem_zip]
    obtain ⟨rfl, hrest⟩ := hx
    obtain ⟨ms', hinv, hstep⟩ := meanLoop_cons O arr acc n (fieldPlaces s)[n].name (fieldPlaces s)[n].type items ms h
    have hget : (fieldPlaces s)[n]? = some (fieldPlaces s)[n] := List.getElem?_eq_getElem hn'
    obtain ⟨g1, g2⟩ := hmb (fieldPlaces s)[n] (List.getElem_mem _)
    have hbound := fieldPlaces_bound hs (List.getElem_mem hn')
    obtain ⟨r, r1, r2, r3⟩ := assignMaskArr_ok (acc := acc) (map := arr) (j := (n : Int)) (vs := mb (fieldPlaces s)[n])
      (a := 8 * (fieldPlaces s)[n].start) hl (by
        intro i hi
        rw [g2]
        exact map_field hs hn h2 hget i hi) (by rw [g2, h2.length]; omega)
    rw [hstep, g1]
    simp only [Except.bind, r1]
    apply ih (n + 1) hrest ms' hinv r (by rw [r2, hl])
    intro b hb k hk
    rw [r2] at hb
    rw [r3 b hb, hk]
    by_cases hkn : k = (n : Int)
    · subst hkn
      rw [if_pos rfl, if_pos (by constructor <;> omega)]
      simp [hget]
    · rw [if_neg (by rw [Option.some_inj]; exact hkn), hacc b hb k hk]
      have : (0 ≤ k ∧ k < ((n + 1 : Nat) : Int)) ↔ (0 ≤ k ∧ k < (n : Int)) := by push_cast; omega
      simp only [this]

/-- `bitwise_model_mean` of a model whose fields hold the windows of the histories `hist`. -/
theorem mean_of_inv (w : Option Nat) (bm : BufferModel μ) (hist : String → List Val) (hinv : BufInv O w hist bm.models)
    (len : Nat) (s : List (Nat × Nat)) (hs : InRange len s) (hn : NonOverlapping s) (mb : Place → List Bool)
    (hmb : ∀ p ∈ fieldPlaces s, meanBits O w (hist p.name) p.type = .ok (mb p) ∧ (mb p).length = 8 * width p.type)
    (idx : List Nat) (hidx : ∀ b ∈ idx, b < 8 * len) :
    ∃ r, (bm.bitwiseModelMean O idx len s).2 = .ok r ∧ r.length = idx.length ∧
      ∀ (k : Nat) (b : Nat), idx[k]? = some b →
        (∀ p ∈ fieldPlaces s, p.Has (b / 8) → r[k]? = (mb p)[b - 8 * p.start]?) ∧
        ((∀ p ∈ fieldPlaces s, ¬ p.Has (b / 8)) → r[k]? = some false) := by
  obtain ⟨arr, h1, h2⟩ := unpackStructure_ok hs
  unfold BufferModel.bitwiseModelMean
  simp only [h1]
  obtain ⟨ms', r, hr1, hr2, hr3⟩ := meanLoop_ok O hs hn h2 mb hmb _ 0 rfl bm.models hinv
    (List.replicate (len * 8) false) (by simp [h2.length]) (by
      intro b hb k hk
      have : ¬ (0 ≤ k ∧ k < ((0 : Nat) : Int)) := by omega
      rw [if_neg this]
      simp at hb
      simp [hb])
  rw [List.drop_zero] at hr1
  rw [List.length_map]
  rw [hr1]
  simp only
  have hlen : r.length = 8 * len := by rw [hr2, h2.length]; omega
  have hmap : (idx.mapM fun i => match r[i]? with
      | some b => (Except.ok b : Except PyErr Bool)
      | none => .error .indexError) = .ok (idx.map fun i => r.getD i false) := by
    clear hr3
    induction idx with
    | nil => rfl
    | cons b idx ih =>
      have hb : b < r.length := by rw [hlen]; exact hidx b List.mem_cons_self
      rw [List.mapM_cons, ih fun b hb => hidx b (List.mem_cons_of_mem _ hb)]
      simp [List.getElem?_eq_getElem hb, bind, Except.bind, pure, Except.pure]
  refine ⟨_, hmap, by simp, ?_⟩
  intro k b hk
  have hb : b < 8 * len := hidx b (List.mem_of_getElem? hk)
  have hgb : (idx.map fun i => r.getD i false)[k]? = r[b]? := by
    rw [List.getElem?_map, hk]
    simp only [Option.map_some]
    rw [getD_lt _ _ (by rw [hlen]; exact hb), List.getElem?_eq_getElem]
  rw [hgb]
  constructor
  · intro p hp hh
    obtain ⟨j, hj⟩ := List.mem_iff_getElem?.1 hp
    have hc := (coverIdx_iff (fieldPlaces_pairwise hs hn) (b / 8) j).2 ⟨p, hj, hh⟩
    rw [hr3 b (by rw [hlen]; exact hb) (j : Int) (by rw [h2.value b (by omega), hc]), if_pos (by omega)]
    simp [hj]
  · intro hno
    rcases coverIdx_spec (fieldPlaces s) (b / 8) with ⟨c1, _⟩ | ⟨j, q, _, c2, c3, _⟩
    · rw [hr3 b (by rw [hlen]; exact hb) (-1) (by rw [h2.value b (by omega), c1]), if_neg (by decide)]
    · exact absurd c3 (hno q (List.mem_of_getElem? c2))

open Classical in
/-- C69: `bitwise_model_mean` after any `add_buffer` history, for non-overlapping array-free messages inside the buffer
all of whose fields have been seen: requested bits inside a field are the bits of that field's mean as stored in the
field's type, bits outside all fields are 0. -/
theorem c69_mean (w : Option Nat) (as : List (BufArg × List (Nat × Nat))) (bm : BufferModel μ)
    (hbm : bm = addAll O (BufferModel.new w) as)
    (hist : String → List Val) (hhist : hist = fun n => (as.filter (fun a => Addable a)).flatMap (takes n))
    (len : Nat) (s : List (Nat × Nat)) (hs : InRange len s) (hn : NonOverlapping s) (mb : Place → List Bool)
    (hmb : ∀ p ∈ fieldPlaces s, meanBits O w (hist p.name) p.type = .ok (mb p) ∧ (mb p).length = 8 * width p.type)
    (idx : List Nat) (hidx : ∀ b ∈ idx, b < 8 * len) :
    ∃ r, (bm.bitwiseModelMean O idx len s).2 = .ok r ∧ r.length = idx.length ∧
      ∀ (k : Nat) (b : Nat), idx[k]? = some b →
        (∀ p ∈ fieldPlaces s, p.Has (b / 8) → r[k]? = (mb p)[b - 8 * p.start]?) ∧
        ((∀ p ∈ fieldPlaces s, ¬ p.Has (b / 8)) → r[k]? = some false) := by
  obtain ⟨_, _, hinv⟩ := addAll_inv O w as
  rw [← hbm, ← hhist] at hinv
  exact mean_of_inv O w bm hist hinv len s hs hn mb hmb idx hidx

theorem meanLoop_raises {w : Option Nat} {H : String → List Val} (bits : List Int)
    (items : List (Nat × String × CType)) (hx : ∃ x ∈ items, H x.2.1 = []) (ms : List (String × FieldModel Val μ))
    (h : BufInv O w H ms) (acc : List Bool) : ∃ ms' e, BufferModel.meanLoop O bits ms acc items = (ms', .error e) := by
  induction items generalizing ms acc with
  | nil => simp at hx
  | cons x items ih =>
    obtain ⟨j, name, t⟩ := x
    obtain ⟨ms', hinv, hstep⟩ := meanLoop_cons O bits acc j name t items ms h
    rw [hstep]
    cases hb : (meanBits O w (H name) t).bind fun b => BufferModel.assignMaskArr acc bits j b with
    | error e => exact ⟨ms', e, rfl⟩
    | ok acc' =>
      simp only
      apply ih _ ms' hinv
      obtain ⟨x, hx, h0⟩ := hx
      rcases List.mem_cons.1 hx with rfl | hx
      · simp [meanBits, h0, Except.bind] at hb
      · exact ⟨x, hx, h0⟩

open Classical in
/-- C69: a field that no added buffer contained makes the call raise. -/
theorem c69_unseen (w : Option Nat) (as : List (BufArg × List (Nat × Nat))) (bm : BufferModel μ)
    (hbm : bm = addAll O (BufferModel.new w) as) (len : Nat) (s : List (Nat × Nat)) (p : Place) (hp : p ∈ fieldPlaces s)
    (hun : ∀ a ∈ as, Addable a → takes p.name a = []) (idx : List Nat) :
    ¬ Returns (bm.bitwiseModelMean O idx len s).2 := by
  by_cases hs : InRange len s
  · obtain ⟨_, _, hinv⟩ := addAll_inv O w as
    rw [← hbm] at hinv
    obtain ⟨arr, h1, h2⟩ := unpackStructure_ok hs
    unfold BufferModel.bitwiseModelMean
    simp only [h1]
    obtain ⟨ms', e, he⟩ := meanLoop_raises O arr ((List.range ((fieldPlaces s).map Place.name).length).zip
      (((fieldPlaces s).map Place.name).zip ((fieldPlaces s).map Place.type))) (by
        obtain ⟨j, hj⟩ := List.mem_iff_getElem?.1 hp
        have hlt := (List.getElem?_eq_some_iff.1 hj).1
        refine ⟨(j, p.name, p.type), ?_, ?_⟩
        · rw [List.mem_iff_getElem?]
          refine ⟨j, ?_⟩
          have he : (fieldPlaces s)[j] = p := (List.getElem?_eq_some_iff.1 hj).2
          rw [List.getElem?_eq_getElem (by simp; exact hlt)]
          simp [List.getElem_zip, he]
        · simp only [List.flatMap_eq_nil_iff, List.mem_filter, decide_eq_true_eq]
          rintro a ⟨ha, hadd⟩
          exact hun a ha hadd) bm.models hinv (List.replicate (len * 8) false)
    rw [he]
    rintro ⟨r, hr⟩
    cases hr
  · have h1 : ¬ Returns (unpackStructure true len s) := fun h => hs ((c31_returns_iff _ _).1 h)
    unfold BufferModel.bitwiseModelMean
    cases hu : unpackStructure true len s with
    | ok r => exact absurd ⟨r, hu⟩ h1
    | error e =>
      rintro ⟨r, hr⟩
      cases hr

theorem bytesBits_drop_take (buf : List Byte) (a n : Nat) :
    bytesBits ((buf.drop a).take n) = ((bytesBits buf).drop (8 * a)).take (8 * n) := by
  induction buf generalizing a n with
  | nil => simp [bytesBits]
  | cons x buf ih =>
    cases a with
    | zero =>
      cases n with
      | zero => simp [bytesBits]
      | succ n =>
        have := ih 0 n
        simp only [List.drop_zero, Nat.mul_zero] at this ⊢
        rw [List.take_succ_cons, bytesBits_cons, bytesBits_cons, this, List.take_append, byteBits_length,
          List.take_of_length_le (l := byteBits x) (by rw [byteBits_length]; omega)]
        congr 1
    | succ a =>
      rw [List.drop_succ_cons, ih a n, bytesBits_cons, List.drop_append, byteBits_length,
        List.drop_eq_nil_of_le (as := byteBits x) (by rw [byteBits_length]; omega), List.nil_append]
      congr 2

open Classical in
/-- C69: a model that has only seen copies of one buffer reproduces it: every bit of a message (header or payload)
comes back as it was, every other bit as 0. Fields are integers, or floats that survive the conversion from and to
single precision, and fields with the same name (such as `seq` of two messages) hold the same value. -/
theorem c69_constant (toF32 : NumArg → Except PyErr (BitVec 32)) (fval : BitVec 32 → ℚ) (fitStd : List ℚ → ℚ)
    (score pdf cdf : ℚ → ℚ → Val → ℚ) (w : Option Nat) (n : Nat) (buf : List Byte) (s : List (Nat × Nat))
    (hs : InRange buf.length s) (hn : NonOverlapping s)
    (hchar : ∀ p ∈ fieldPlaces s, p.type ≠ .char)
    (hflt : ∀ p ∈ fieldPlaces s, ∀ b, unpackScalar p.type (p.bytes buf) = .flt b → toF32 (.num (fval b)) = .ok b)
    (hsame : ∀ p ∈ fieldPlaces s, ∀ q ∈ fieldPlaces s, p.name = q.name →
      unpackScalar p.type (p.bytes buf) = unpackScalar q.type (q.bytes buf))
    (O : StatOps Val ℚ) (hO : O = ratOps toF32 fval fitStd score pdf cdf) (bm : BufferModel ℚ)
    (hbm : bm = addAll O (BufferModel.new w) (List.replicate (n + 1) (.bytes buf, s))) (b : Nat) (hb : b < 8 * buf.length) :
    (bm.bitwiseModelMean O [b] buf.length s).2 =
      .ok [if ∃ r ∈ s, Occupies r (b / 8) then (bytesBits buf).getD b false else false] := by
  have hadd : Addable (.bytes buf, s) := ⟨buf, rfl, hs⟩
  have hfil : (List.replicate (n + 1) ((.bytes buf, s) : BufArg × List (Nat × Nat))).filter (fun a => Addable a) =
      List.replicate (n + 1) (.bytes buf, s) := by
    rw [List.filter_replicate]
    simp [hadd]
  have hmb : ∀ p ∈ fieldPlaces s, meanBits O w ((fun nm => ((List.replicate (n + 1) ((.bytes buf, s) : BufArg × List (Nat × Nat))).filter
      (fun a => Addable a)).flatMap (takes nm)) p.name) p.type = .ok (bytesBits (p.bytes buf)) ∧
      (bytesBits (p.bytes buf)).length = 8 * width p.type := by
    intro p hp
    have hbound := fieldPlaces_bound hs hp
    have hpl : (p.bytes buf).length = width p.type := by
      simp [Place.bytes]; omega
    refine ⟨?_, by rw [bytesBits_length, hpl]⟩
    simp only [hfil]
    generalize hh : (List.replicate (n + 1) ((.bytes buf, s) : BufArg × List (Nat × Nat))).flatMap (takes p.name) = hist
    have hall : ∀ x ∈ hist, x = unpackScalar p.type (p.bytes buf) := by
      intro x hx
      rw [← hh] at hx
      obtain ⟨a, ha, hx⟩ := List.mem_flatMap.1 hx
      rw [List.eq_of_mem_replicate ha] at hx
      simp only [takes, argBytes, List.mem_map, List.mem_filter, decide_eq_true_eq] at hx
      obtain ⟨q, ⟨hq, hqn⟩, rfl⟩ := hx
      exact hsame q hq p hp hqn
    have hne : hist ≠ [] := by
      rw [← hh, ne_eq, List.flatMap_eq_nil_iff]
      intro hc
      have := hc (.bytes buf, s) (by simp)
      simp only [takes, argBytes, List.map_eq_nil_iff, List.filter_eq_nil_iff, decide_eq_true_eq] at this
      exact this p hp rfl
    have hwne : windowed w hist ≠ [] := by rw [ne_eq, windowed_eq_nil]; exact hne
    have hwall : ∀ x ∈ windowed w hist, x = unpackScalar p.type (p.bytes buf) := fun x hx => hall x (windowed_mem hx)
    have hpack := packScalar_unpackScalar (t := p.type) (bs := p.bytes buf) (by rw [hpl, width_size])
    have hfit := packScalar_ok hpack
    simp only [meanBits, hne, if_false]
    cases hv : unpackScalar p.type (p.bytes buf) with
    | int i =>
      rw [hv] at hpack hfit hwall
      obtain ⟨sd, hsd⟩ := ratOps_fit_const toF32 fval fitStd score pdf cdf (.int i) i rfl _ hwne hwall
      obtain ⟨bs, c1, c2, _⟩ := c33_integer toF32 p.type i hfit
      rw [c1] at hpack
      injection hpack with hpack
      subst hpack
      rw [hO, hsd]
      exact c2
    | flt c =>
      have hty : p.type = .f32 := by
        generalize p.type = t at hv
        cases t <;> simp only [unpackScalar] at hv <;> (try split at hv) <;> first | rfl | cases hv
      have hconv := hflt p hp c hv
      rw [hv] at hpack hfit hwall
      obtain ⟨sd, hsd⟩ := ratOps_fit_const toF32 fval fitStd score pdf cdf (.flt c) (fval c) rfl _ hwne hwall
      rw [hO, hsd, hty]
      rw [hty] at hpack
      simp only [packScalar] at hpack
      injection hpack with hpack
      show num2bits toF32 (.num (fval c)) CType.f32.cname = _
      rw [show CType.f32.cname = "float" from rfl, c33_float toF32 _ (by intro s h; cases h), hconv, ← hpack]
      rfl
    | raw c =>
      exfalso
      apply hchar p hp
      generalize p.type = t at hv
      cases t <;> simp only [unpackScalar] at hv <;> (try split at hv) <;> first | rfl | cases hv
  obtain ⟨r, h1, h2, h3⟩ := c69_mean O w _ bm hbm _ rfl buf.length s hs hn (fun p => bytesBits (p.bytes buf)) hmb [b]
    (by simpa using hb)
  rw [h1]
  obtain ⟨x, rfl⟩ : ∃ x, r = [x] := List.length_eq_one_iff.1 h2
  obtain ⟨g1, g2⟩ := h3 0 b rfl
  simp only [List.getElem?_cons_zero] at g1 g2
  congr 2
  have hneg := coverIdx_neg hs (b / 8)
  rcases coverIdx_spec (fieldPlaces s) (b / 8) with ⟨c1, c2⟩ | ⟨j, q, c1, c2, c3, _⟩
  · have hno := hneg.1 c1
    rw [if_neg (by rintro ⟨r, hr, ho⟩; exact hno r hr ho)]
    simpa using g2 c2
  · have hyes : ∃ r ∈ s, Occupies r (b / 8) := by
      by_contra hc
      have := hneg.2 fun r hr ho => hc ⟨r, hr, ho⟩
      rw [c1] at this
      omega
    rw [if_pos hyes]
    have hq := List.mem_of_getElem? c2
    have hbound := fieldPlaces_bound hs hq
    have := g1 q hq c3
    obtain ⟨e1, e2⟩ := c3
    rw [Place.bytes, bytesBits_drop_take, List.getElem?_take, if_pos (by omega), List.getElem?_drop,
      show 8 * q.start + (b - 8 * q.start) = b by omega] at this
    rw [List.getD_eq_getElem?_getD, ← this]
    rfl

/-- The hypotheses are met by a heartbeat, all of whose fields are integers with different names. -/
example : InRange 17 [(0, 0)] ∧ NonOverlapping [(0, 0)] ∧ (∀ p ∈ fieldPlaces [(0, 0)], p.type ≠ .char ∧ p.type ≠ .f32) ∧
    ((fieldPlaces [(0, 0)]).map Place.name).Nodup := by
  refine ⟨?_, by simp [NonOverlapping], by decide +kernel, by decide +kernel⟩
  intro r hr
  simp at hr
  subst hr
  exact ⟨msg0, by decide +kernel, by decide, by decide, by decide⟩

end NR
