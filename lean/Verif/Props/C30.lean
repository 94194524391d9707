import Verif.Props.C27_C28
import Verif.Props.C31_C32
import Verif.Props.C25_C26
/-
C30: BufferModel counts buffers and windows every field.
-/
namespace NR
open Spec Dialect FieldModel

variable {μ : Type} (O : StatOps Val μ)

theorem typeOfName_cname (t : CType) : typeOfName t.cname = some t := by cases t <;> decide

/-- Every field model of the buffer model is the model of the history `H name` of that field. -/
structure BufInv (w : Option Nat) (H : String → List Val) (ms : List (String × FieldModel Val μ)) : Prop where
  absent : ∀ name, ms.lookup name = none ↔ H name = []
  model : ∀ name m, ms.lookup name = some m → ∃ t, FieldInv O w t (H name) m

theorem bufInv_new (w : Option Nat) : BufInv O w (fun _ => []) ([] : List (String × FieldModel Val μ)) :=
  ⟨by simp, by simp⟩

theorem bufInv_add {w : Option Nat} {H : String → List Val} {bm : BufferModel μ} (hw : bm.windowSize = w)
    (h : BufInv O w H bm.models) (name : String) (v : Val) (t : CType) :
    ∃ ms, bm.addSample O name v t.cname = .ok { bm with models := ms } ∧
      BufInv O w (fun n => H n ++ if n = name then [v] else []) ms := by
  have key : ∀ m : FieldModel Val μ, (∃ t, FieldInv O w t (H name) m) →
      BufInv O w (fun n => H n ++ if n = name then [v] else []) (dictSet bm.models name (m.addSample (.one v))) := by
    rintro m ⟨t, hm⟩
    constructor
    · intro n
      rw [lookup_dictSet]
      by_cases hn : n = name
      · simp [hn]
      · simp [hn, h.absent n]
    · intro n m' hm'
      rw [lookup_dictSet] at hm'
      by_cases hn : n = name
      · rw [if_pos hn] at hm'
        injection hm' with hm'
        subst hm' hn
        simp only [if_true]
        exact ⟨t, inv_add O hm (.one v)⟩
      · rw [if_neg hn] at hm'
        simp only [hn, if_false, List.append_nil]
        exact h.model n m' hm'
  unfold BufferModel.addSample
  cases hl : bm.models.lookup name with
  | some m => exact ⟨_, rfl, key m (h.model name m hl)⟩
  | none =>
    obtain ⟨m, h1, h2, _⟩ := inv_new O (name := name) (w := bm.windowSize) (typeOfName_cname t)
    simp only [h1, bind, Except.bind]
    refine ⟨_, rfl, key m ⟨t, ?_⟩⟩
    rw [(h.absent name).1 hl, ← hw]
    exact h2

theorem bufInv_adds {w : Option Nat} (l : List (String × Val × CType)) {H : String → List Val} {bm : BufferModel μ}
    (hw : bm.windowSize = w) (h : BufInv O w H bm.models) :
    ∃ ms, bm.addSamples O l = ({ bm with models := ms }, .ok ()) ∧
      BufInv O w (fun n => H n ++ (l.filter fun x => x.1 = n).map fun x => x.2.1) ms := by
  induction l generalizing H bm with
  | nil => exact ⟨bm.models, rfl, by simpa using h⟩
  | cons x l ih =>
    obtain ⟨name, v, t⟩ := x
    obtain ⟨ms, h1, h2⟩ := bufInv_add O hw h name v t
    obtain ⟨ms', h3, h4⟩ := ih (bm := { bm with models := ms }) hw h2
    refine ⟨ms', by simp only [BufferModel.addSamples, h1, h3], ?_⟩
    have : (fun n => (H n ++ if n = name then [v] else []) ++ (l.filter fun x => x.1 = n).map fun x => x.2.1) =
        fun n => H n ++ (((name, v, t) :: l).filter fun x => x.1 = n).map fun x => x.2.1 := by
      funext n
      by_cases hn : n = name
      · subst hn; simp
      · have : ¬ name = n := fun h => hn h.symm
        simp [hn, this]
    rw [← this]
    exact h4

/-- The bytes of a buffer argument. -/
def argBytes : BufArg → Option (List Byte)
  | .bytes b => some b
  | .bits l => some (bitsToBytes l)
  | .other => none

/-- The buffer can be added with this structure: it is bytes or bits, and every message of the structure is a known
array-free one lying inside it. -/
def Addable (a : BufArg × List (Nat × Nat)) : Prop := ∃ b, argBytes a.1 = some b ∧ InRange b.length a.2

/-- The values a field takes in a buffer, in wire order (a header field such as `seq` occurs in every message). -/
def takes (name : String) (a : BufArg × List (Nat × Nat)) : List Val :=
  match argBytes a.1 with
  | none => []
  | some b => ((fieldPlaces a.2).filter fun p => p.name = name).map fun p => unpackScalar p.type (p.bytes b)

theorem zip_places (ps : List Place) (f : Place → Val) :
    (ps.map Place.name).zip ((ps.map f).zip (ps.map Place.type)) = ps.map fun p => (p.name, f p, p.type) := by
  induction ps with
  | nil => rfl
  | cons p ps ih => simp [ih]

/-- C30: adding a buffer succeeds exactly when it can be added; otherwise it raises and changes nothing. -/
theorem c30_step {w : Option Nat} {H : String → List Val} (bm : BufferModel μ) (hw : bm.windowSize = w)
    (h : BufInv O w H bm.models) (a : BufArg × List (Nat × Nat)) :
    (Addable a ∧ ∃ ms, bm.addBuffer O a.1 a.2 =
        ({ bm with
            models := ms
            modelSize := BufferModel.nextSize w bm.modelSize }, .ok ()) ∧
        BufInv O w (fun n => H n ++ takes n a) ms) ∨
    (¬ Addable a ∧ ∃ e, bm.addBuffer O a.1 a.2 = (bm, .error e)) := by
  obtain ⟨arg, s⟩ := a
  unfold BufferModel.addBuffer
  have main : ∀ (b : List Byte) (len : Nat), argBytes arg = some b → BufferModel.argLen arg = .ok len →
      unpackValues arg s = unpackLoop b s →
      (Addable (arg, s) ∧ ∃ ms, (match (do
          let len ← BufferModel.argLen arg
          let (_, names, types) ← unpackStructure false len s
          let fields ← unpackValues arg s
          .ok (names, fields, types) : Except PyErr (List String × List Val × List CType)) with
        | .error e => (bm, .error e)
        | .ok (names, fields, types) =>
          BufferModel.addSamples O { bm with modelSize := BufferModel.nextSize bm.windowSize bm.modelSize } (names.zip (fields.zip types))) =
        ({ bm with
            models := ms
            modelSize := BufferModel.nextSize w bm.modelSize }, .ok ()) ∧
        BufInv O w (fun n => H n ++ takes n (arg, s)) ms) ∨
    (¬ Addable (arg, s) ∧ ∃ e, (match (do
          let len ← BufferModel.argLen arg
          let (_, names, types) ← unpackStructure false len s
          let fields ← unpackValues arg s
          .ok (names, fields, types) : Except PyErr (List String × List Val × List CType)) with
        | .error e => (bm, .error e)
        | .ok (names, fields, types) =>
          BufferModel.addSamples O { bm with modelSize := BufferModel.nextSize bm.windowSize bm.modelSize } (names.zip (fields.zip types))) = (bm, .error e)) := by
    intro b len hb hlen hu
    simp only [hlen, hu, bind, Except.bind]
    by_cases hs : InRange b.length s
    · left
      refine ⟨⟨b, hb, hs⟩, ?_⟩
      have hnames := unpackStructure_names (s := s) (fun r hr => by
        obtain ⟨m, hm, hid, _⟩ := hs r hr
        exact ⟨m, hm, hid⟩) len
      simp only [hnames, unpackLoop_ok hs, zip_places]
      obtain ⟨ms, h1, h2⟩ := bufInv_adds O ((fieldPlaces s).map fun p => (p.name, unpackScalar p.type (p.bytes b), p.type))
        (bm := { bm with modelSize := BufferModel.nextSize bm.windowSize bm.modelSize }) hw h
      refine ⟨ms, ?_, ?_⟩
      · rw [h1]
        subst hw
        rfl
      · have : (fun n => H n ++ takes n (arg, s)) = fun n => H n ++ (((fieldPlaces s).map fun p => (p.name, unpackScalar p.type (p.bytes b), p.type)).filter fun x => x.1 = n).map fun x => x.2.1 := by
          funext n
          simp only [takes, hb]
          rw [List.filter_map, List.map_map]
          rfl
        rw [this]
        exact h2
    · right
      constructor
      · rintro ⟨b', hb', hs'⟩
        simp only at hb'
        rw [hb] at hb'
        injection hb' with hb'
        subst hb'
        exact hs hs'
      · cases unpackStructure false len s with
        | error e => exact ⟨e, rfl⟩
        | ok r =>
          obtain ⟨e, he⟩ := unpackLoop_fail hs
          refine ⟨e, ?_⟩
          simp only [he]
  cases arg with
  | bytes b => exact main b b.length rfl rfl rfl
  | bits l => exact main (bitsToBytes l) (l.length / 8) rfl rfl rfl
  | other =>
    right
    refine ⟨?_, .valueError, rfl⟩
    rintro ⟨b, hb, _⟩
    cases hb

/-- A history of `add_buffer` calls; exceptions are caught by the caller. -/
def addAll (bm : BufferModel μ) (as : List (BufArg × List (Nat × Nat))) : BufferModel μ :=
  as.foldl (fun bm a => (bm.addBuffer O a.1 a.2).1) bm

/-- `model_size` after `n` successful additions. -/
def sizeAfter (w : Option Nat) (n : Nat) : Nat :=
  match w with
  | none => n
  | some w => min n w

open Classical in
theorem addAll_inv (w : Option Nat) (as : List (BufArg × List (Nat × Nat))) :
    (addAll O (BufferModel.new w) as).windowSize = w ∧
    (addAll O (BufferModel.new w) as).modelSize = sizeAfter w (as.filter (fun a => Addable a)).length ∧
    BufInv O w (fun n => (as.filter (fun a => Addable a)).flatMap (takes n)) (addAll O (BufferModel.new w) as).models := by
  have key : ∀ (as : List (BufArg × List (Nat × Nat))) (bm : BufferModel μ) (H : String → List Val) (n : Nat),
      bm.windowSize = w → bm.modelSize = sizeAfter w n → BufInv O w H bm.models →
      (addAll O bm as).windowSize = w ∧ (addAll O bm as).modelSize = sizeAfter w (n + (as.filter (fun a => Addable a)).length) ∧
      BufInv O w (fun k => H k ++ (as.filter (fun a => Addable a)).flatMap (takes k)) (addAll O bm as).models := by
    intro as
    induction as with
    | nil => intro bm H n h1 h2 h3; simpa [addAll] using ⟨h1, h2, h3⟩
    | cons a as ih =>
      intro bm H n h1 h2 h3
      have hstep : addAll O bm (a :: as) = addAll O (bm.addBuffer O a.1 a.2).1 as := rfl
      rw [hstep]
      rcases c30_step O bm h1 h3 a with ⟨ha, ms, he, hi⟩ | ⟨ha, e, he⟩
      · rw [he]
        have := ih { bm with
            models := ms
            modelSize := BufferModel.nextSize w bm.modelSize } _ (n + 1) h1 (by
            cases w with
            | none => simp only [sizeAfter, BufferModel.nextSize] at h2 ⊢; omega
            | some w => simp only [sizeAfter, BufferModel.nextSize] at h2 ⊢; split <;> omega) hi
        simp only [List.filter_cons, ha, decide_true, if_true, List.length_cons, List.flatMap_cons]
        simp only [List.append_assoc] at this
        refine ⟨this.1, ?_, this.2.2⟩
        rw [this.2.1]
        congr 1
        omega
      · rw [he]
        simp only [List.filter_cons, ha, decide_false, Bool.false_eq_true, if_false]
        exact ih bm H n h1 h2 h3
  have := key as (BufferModel.new w) (fun _ => []) 0 rfl (by cases w <;> simp [sizeAfter, BufferModel.new]) (bufInv_new O w)
  simpa using this

open Classical in
/-- C30: after any history of `add_buffer` calls (some of which may raise), `model_size` is the number of buffers
added, capped at the window, and every field's model holds the window of the values that field took in those buffers,
in order; there is a model exactly for the fields that occurred. -/
theorem c30_history (w : Option Nat) (as : List (BufArg × List (Nat × Nat))) (bm : BufferModel μ)
    (hbm : bm = addAll O (BufferModel.new w) as) :
    bm.modelSize = sizeAfter w (as.filter (fun a => Addable a)).length ∧
    ∀ name, ((bm.models.lookup name).map FieldModel.samples).getD [] =
        windowed w ((as.filter (fun a => Addable a)).flatMap (takes name)) ∧
      ((bm.models.lookup name).isSome ↔ ∃ a ∈ as, Addable a ∧ takes name a ≠ []) := by
  obtain ⟨h1, h2, h3⟩ := addAll_inv O w as
  subst hbm
  refine ⟨h2, fun name => ?_⟩
  constructor
  · cases hl : (addAll O (BufferModel.new w) as).models.lookup name with
    | none =>
      have := (h3.absent name).1 hl
      simp only [this]
      exact (windowed_eq_nil.2 rfl).symm
    | some m =>
      obtain ⟨t, hm⟩ := h3.model name m hl
      simpa using hm.samples
  · rw [Option.isSome_iff_ne_none, ne_eq, h3.absent name]
    simp only [List.flatMap_eq_nil_iff, List.mem_filter, decide_eq_true_eq]
    constructor
    · intro hc
      by_contra hcon
      apply hc
      rintro a ⟨ha, hadd⟩
      by_contra hne
      exact hcon ⟨a, ha, hadd, hne⟩
    · rintro ⟨a, ha, hadd, hne⟩ hc
      exact hne (hc a ⟨ha, hadd⟩)

/-- C30: each call either adds the buffer and returns, or raises and leaves the model as it was. -/
theorem c30_calls (w : Option Nat) (as : List (BufArg × List (Nat × Nat))) (a : BufArg × List (Nat × Nat)) :
    (Addable a ∧ ((addAll O (BufferModel.new w) as).addBuffer O a.1 a.2).2 = .ok ()) ∨
    (¬ Addable a ∧ ∃ e, (addAll O (BufferModel.new w) as).addBuffer O a.1 a.2 =
      (addAll O (BufferModel.new w) as, .error e)) := by
  obtain ⟨h1, h2, h3⟩ := addAll_inv O w as
  rcases c30_step O _ h1 h3 a with ⟨ha, ms, he, _⟩ | h
  · exact Or.inl ⟨ha, by rw [he]⟩
  · exact Or.inr h

/-- A buffer holding one heartbeat can be added. -/
example : Addable (.bytes [254, 9, 7, 1, 1, 0, 1, 2, 3, 4, 5, 6, 7, 8, 9, 0, 0], [(0, 0)]) := by
  refine ⟨_, rfl, ?_⟩
  intro r hr
  simp at hr
  subst hr
  exact ⟨msg0, by decide +kernel, by decide, by decide, by decide⟩

end NR
