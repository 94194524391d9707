import Verif.Model.SaveLoad
import Verif.Props.C69
/-
C34: load after save.
-/
namespace NR
open Spec FieldModel

variable {μ : Type} (O : StatOps Val μ)

theorem fromHex_cons (b : Byte) (cs : List Char) :
    fromHex (hexDigit (b.toNat / 16) :: hexDigit (b.toNat % 16) :: cs) = (fromHex cs).map (b :: ·) := by
  have h : ∀ b : Byte, (hexDigit (b.toNat / 16)).isWhitespace = false ∧ hexVal (hexDigit (b.toNat / 16)) = some (b.toNat / 16) ∧
      hexVal (hexDigit (b.toNat % 16)) = some (b.toNat % 16) ∧ BitVec.ofNat 8 (16 * (b.toNat / 16) + b.toNat % 16) = b := by
    decide +kernel
  obtain ⟨h1, h2, h3, h4⟩ := h b
  rw [fromHex, h1, h2, h3]
  simp only [Bool.false_eq_true, if_false, h4]

theorem fromHex_hexBytes (bs : List Byte) : fromHex (hexBytes bs) = .ok bs := by
  induction bs with
  | nil => rfl
  | cons b bs ih =>
    show fromHex (hexDigit (b.toNat / 16) :: hexDigit (b.toNat % 16) :: hexBytes bs) = _
    rw [fromHex_cons, ih]
    rfl

theorem hexBytes_ne_crc (bs : List Byte) : hexBytes bs ≠ "crc".toList := by
  intro h
  have := congrArg List.length h
  have h2 : (hexBytes bs).length = 2 * bs.length := by
    clear h this
    induction bs with
    | nil => rfl
    | cons b bs ih =>
      show (hexBytes bs).length + 1 + 1 = _
      rw [ih]; simp; omega
  rw [h2] at this
  simp at this
  omega

theorem loadDesc_descJson (d : DescItem) : loadDesc (descJson d : Json μ) = .ok d := by
  cases d with
  | header b =>
    have : ¬ String.ofList (hexBytes b) = "crc" := by
      intro h
      apply hexBytes_ne_crc b
      rw [← h, String.toList_ofList]
    simp only [descJson, loadDesc, if_neg this, String.toList_ofList, fromHex_hexBytes]
    rfl
  | field n t => simp only [descJson, loadDesc, typeOfName_cname]
  | crc => rfl

theorem mapM_left_inv {α β : Type} (f : α → β) (g : β → Except PyErr α) (l : List α) (h : ∀ x ∈ l, g (f x) = .ok x) :
    (l.map f).mapM g = .ok l := by
  induction l with
  | nil => rfl
  | cons x l ih =>
    rw [List.map_cons, List.mapM_cons, h x List.mem_cons_self, ih fun y hy => h y (List.mem_cons_of_mem _ hy)]
    rfl

theorem lookup_perm {α : Type} {l l' : List (String × α)} (hp : l.Perm l') (hn : (l.map Prod.fst).Nodup) (k : String) :
    l.lookup k = l'.lookup k := by
  have hn' : (l'.map Prod.fst).Nodup := (hp.map Prod.fst).nodup_iff.1 hn
  have key : ∀ (l : List (String × α)), (l.map Prod.fst).Nodup → ∀ v, l.lookup k = some v ↔ (k, v) ∈ l := by
    intro l hn v
    induction l with
    | nil => simp
    | cons x l ih =>
      obtain ⟨a, b⟩ := x
      simp only [List.map_cons, List.nodup_cons] at hn
      rw [List.lookup_cons]
      by_cases hk : k = a
      · subst hk
        simp only [beq_self_eq_true]
        constructor
        · intro h; injection h with h; subst h; exact List.mem_cons_self
        · intro h
          rcases List.mem_cons.1 h with h | h
          · injection h with _ h; rw [h]
          · exact absurd (List.mem_map_of_mem (f := Prod.fst) h) hn.1
      · have hb : (k == a) = false := by simpa using hk
        simp only [hb]
        rw [ih hn.2]
        constructor
        · exact List.mem_cons_of_mem _
        · intro h
          rcases List.mem_cons.1 h with h | h
          · injection h with h _; exact absurd h hk
          · exact h
  apply Option.ext
  intro v
  rw [key l hn, key l' hn']
  exact hp.mem_iff

theorem sortKeys_perm {α : Type} (l : List (String × α)) : (sortKeys l).Perm l := List.mergeSort_perm _ _

theorem sortKeys_sorted {α : Type} (l : List (String × α)) : ((sortKeys l).map Prod.fst).Pairwise (· ≤ ·) := by
  have := List.pairwise_mergeSort (le := fun a b : String × α => decide (a.1 ≤ b.1))
      (by intro a b c; simp; exact String.le_trans) (by intro a b; simp; exact String.le_total _ _) l
  rw [List.pairwise_map]
  refine this.imp ?_
  intro a b h
  simpa using h

theorem sortKeys_lookup {α : Type} (l : List (String × α)) (hn : (l.map Prod.fst).Nodup) (k : String) :
    (sortKeys l).lookup k = l.lookup k :=
  lookup_perm (sortKeys_perm l) ((sortKeys_perm l).map Prod.fst |>.nodup_iff.2 hn) k

/-- The saved form of a field model yields its parts again. -/
theorem fieldJson_get (m : FieldModel Val μ) :
    (fieldJson m).item "field_type" = .ok (.str m.fieldType.cname) ∧
    (fieldJson m).item "window_size" = .ok (optJson m.windowSize) ∧
    (fieldJson m).item "samples" = .ok (.arr (m.samples.map sampleJson)) := by
  unfold fieldJson Json.item
  simp only
  refine ⟨?_, ?_, ?_⟩ <;> rw [sortKeys_lookup _ (by simp)] <;> rfl

theorem loadOpt_optJson (w : Option Nat) : loadOpt (optJson w : Json μ) = .ok w := by
  cases w <;> simp [optJson, loadOpt]

/-- A field model as a buffer model keeps it: named by its key, with at least one sample and no more than the window,
all of them numbers. -/
structure FieldOK (k : String) (m : FieldModel Val μ) : Prop where
  name : m.name = k
  samples : m.samples ≠ []
  window : windowed m.windowSize m.samples = m.samples
  numeric : ∀ v ∈ m.samples, ∀ b, v ≠ .raw b

/-- A field model whose statistics have been computed: what `save` leaves and `load` builds. -/
def Refreshed (m m' : FieldModel Val μ) : Prop :=
  ∃ a b, O.fit m.samples = .ok (a, b) ∧ m' = { m with
    mean := a
    std := b
    up2date := true }

theorem loadField_ok {k : String} {m m' : FieldModel Val μ} (h : FieldOK k m) (hr : Refreshed O m m')
    (ms : List (String × FieldModel Val μ)) : loadField O ms (k, fieldJson m') = .ok (dictSet ms k m') := by
  obtain ⟨a, b, hf, rfl⟩ := hr
  obtain ⟨g1, g2, g3⟩ := fieldJson_get { m with
    mean := a
    std := b
    up2date := true }
  unfold loadField
  simp only [g1, g2, g3, loadStr, loadOpt_optJson, loadArr, bind, Except.bind, FieldModel.new, typeOfName_cname]
  rw [mapM_left_inv _ _ _ (by
    intro v hv
    cases v with
    | int i => rfl
    | flt b => rfl
    | raw b => exact absurd rfl (h.numeric _ hv b))]
  simp only
  rw [addSample_samples]
  simp only [SampleArg.toList, List.nil_append, h.window, FieldModel.update, h.samples, if_false, hf, h.name]

theorem updateAll_ok {ms ms' : List (String × FieldModel Val μ)} (hs : ∀ p ∈ ms, p.2.samples ≠ [])
    (h : updateAll O ms = (ms', .ok ())) :
    List.Forall₂ (fun p p' => p'.1 = p.1 ∧ Refreshed O p.2 p'.2) ms ms' := by
  induction ms generalizing ms' with
  | nil => simp only [updateAll] at h; injection h with h _; subst h; exact .nil
  | cons p ms ih =>
    obtain ⟨k, m⟩ := p
    have hne := hs (k, m) List.mem_cons_self
    simp only at hne
    simp only [updateAll, FieldModel.update, hne, if_false] at h
    cases hf : O.fit m.samples with
    | error e => rw [hf] at h; injection h with _ h; cases h
    | ok s =>
      obtain ⟨a, b⟩ := s
      rw [hf] at h
      simp only at h
      injection h with h1 h2
      subst h1
      refine .cons ⟨rfl, a, b, hf, rfl⟩ (ih (fun p hp => hs p (List.mem_cons_of_mem _ hp)) ?_)
      exact Prod.ext rfl h2

theorem foldlM_loadField {l : List (String × FieldModel Val μ)}
    (hl : ∀ p ∈ l, ∃ m, FieldOK p.1 m ∧ Refreshed O m p.2) (hn : (l.map Prod.fst).Nodup)
    (ms : List (String × FieldModel Val μ)) (hd : ∀ p ∈ l, ∀ q ∈ ms, q.1 ≠ p.1) :
    (l.map fun p => (p.1, fieldJson p.2)).foldlM (loadField O) ms = .ok (ms ++ l) := by
  induction l generalizing ms with
  | nil => simp [pure, Except.pure]
  | cons p l ih =>
    obtain ⟨k, m'⟩ := p
    obtain ⟨m, h1, h2⟩ := hl (k, m') List.mem_cons_self
    simp only [List.map_cons, List.nodup_cons] at hn
    rw [List.map_cons, List.foldlM_cons, loadField_ok O h1 h2, dictSet_fresh _ _ _ (hd (k, m') List.mem_cons_self)]
    simp only [bind, Except.bind]
    rw [ih (fun p hp => hl p (List.mem_cons_of_mem _ hp)) hn.2]
    · simp
    · intro p hp q hq
      rcases List.mem_append.1 hq with hq | hq
      · exact hd p (List.mem_cons_of_mem _ hp) q hq
      · simp at hq
        subst hq
        intro he
        simp only at he
        rw [he] at hn
        exact hn.1 (List.mem_map_of_mem (f := Prod.fst) hp)

/-- The names of the fields of a description. -/
def descNames (d : List DescItem) : List (List Byte) := d.filterMap fun
  | .field n _ => some n
  | _ => none

theorem sortKeys_map {α β : Type} (l : List (String × α)) (f : α → β) :
    sortKeys (l.map fun p => (p.1, f p.2)) = (sortKeys l).map fun p => (p.1, f p.2) := by
  unfold sortKeys
  rw [List.map_mergeSort]
  intro a _ b _
  rfl

/-- Round trip for any well-formed buffer model. -/
theorem load_save (bm bm' : BufferModel μ) (hok : ∀ p ∈ bm.models, FieldOK p.1 p.2)
    (hn : (bm.models.map Prod.fst).Nodup) (hd : bm.orderedFieldNames = bm.description.map descNames) (j : Json μ)
    (h : bm.save O = (bm', .ok j)) :
    BufferModel.load O j = .ok { bm' with models := sortKeys bm'.models } ∧
    bm' = { bm with models := bm'.models } ∧
    List.Forall₂ (fun p p' => p'.1 = p.1 ∧ Refreshed O p.2 p'.2) bm.models bm'.models := by
  unfold BufferModel.save at h
  cases hu : updateAll O bm.models with
  | mk ms r =>
    rw [hu] at h
    cases r with
    | error e => injection h with _ h; cases h
    | ok u =>
      cases u
      simp only at h
      injection h with h1 h2
      injection h2 with h2
      subst h1 h2
      have hf := updateAll_ok O (fun p hp => (hok p hp).samples) hu
      refine ⟨?_, rfl, hf⟩
      have hkeys : ms.map Prod.fst = bm.models.map Prod.fst := by
        clear hn hok hu hd
        generalize bm.models = l at hf
        induction hf with
        | nil => rfl
        | cons h _ ih => simp [h.1, ih]
      have hl : ∀ p ∈ ms, ∃ m, FieldOK p.1 m ∧ Refreshed O m p.2 := by
        clear hn hu hkeys hd
        generalize bm.models = l at hf hok
        induction hf with
        | nil => simp
        | @cons p p' l l' h _ ih =>
          intro q hq
          rcases List.mem_cons.1 hq with rfl | hq
          · exact ⟨p.2, h.1 ▸ hok p List.mem_cons_self, h.2⟩
          · exact ih (fun x hx => hok x (List.mem_cons_of_mem _ hx)) q hq
      have hfold := foldlM_loadField O (l := sortKeys ms) (fun p hp => hl p ((sortKeys_perm ms).mem_iff.1 hp))
        (((sortKeys_perm ms).map Prod.fst).nodup_iff.2 (hkeys ▸ hn)) [] (by simp)
      have hget : ∀ key v, ([("field_models", Json.obj (sortKeys (ms.map fun p => (p.1, fieldJson p.2)))),
          ("buffer_description", descriptionJson bm.description),
          ("window_size", optJson bm.windowSize), ("model_size", .int bm.modelSize)] : List (String × Json μ)).lookup key =
            some v → (Json.obj (sortKeys [("field_models", Json.obj (sortKeys (ms.map fun p => (p.1, fieldJson p.2)))),
          ("buffer_description", descriptionJson bm.description),
          ("window_size", optJson bm.windowSize), ("model_size", .int bm.modelSize)])).get key = .ok v := by
        intro key v hv
        simp only [Json.get]
        rw [sortKeys_lookup _ (by simp), hv]; rfl
      have g1 := hget "field_models" _ rfl
      have g2 := hget "buffer_description" _ rfl
      have g3 := hget "window_size" _ rfl
      have g4 := hget "model_size" _ rfl
      clear hget
      generalize Json.obj (sortKeys [("field_models", Json.obj (sortKeys (ms.map fun p => (p.1, fieldJson p.2)))),
          ("buffer_description", descriptionJson bm.description),
          ("window_size", optJson bm.windowSize), ("model_size", .int bm.modelSize)]) = J at g1 g2 g3 g4 ⊢
      unfold BufferModel.load
      simp only [g1, g2, g3, g4, bind, Except.bind, loadOpt_optJson]
      simp only [loadOpt, loadItems, sortKeys_map, hfold]
      cases hdesc : bm.description with
      | none =>
        rw [hdesc] at hd
        simp only [descriptionJson, loadDescription, List.nil_append, Int.toNat_natCast, Option.getD_some, hd]
        rfl
      | some d =>
        rw [hdesc] at hd
        have hm := mapM_left_inv (descJson (μ := μ)) loadDesc d (fun x _ => loadDesc_descJson x)
        simp only [descriptionJson, loadDescription, hm, bind, Except.bind, BufferModel.setDescription,
          List.nil_append, Int.toNat_natCast, Option.getD_some, hd]
        rfl

/-! ### Reachable models -/

/-- Keys are unique and every field model carries its key as its name. -/
def KeyInv (ms : List (String × FieldModel Val μ)) : Prop := (ms.map Prod.fst).Nodup ∧ ∀ p ∈ ms, p.2.name = p.1

theorem keyInv_set {ms : List (String × FieldModel Val μ)} (h : KeyInv ms) {k : String} {m : FieldModel Val μ}
    (hm : m.name = k) : KeyInv (dictSet ms k m) := by
  obtain ⟨h1, h2⟩ := h
  unfold dictSet
  split
  · constructor
    · rw [List.map_map]
      have : (Prod.fst ∘ fun p : String × FieldModel Val μ => if p.1 = k then (k, m) else p) = Prod.fst := by
        funext p
        by_cases hp : p.1 = k <;> simp [hp]
      rw [this]
      exact h1
    · intro p hp
      obtain ⟨q, hq, rfl⟩ := List.mem_map.1 hp
      by_cases hk : q.1 = k
      · simp only [hk, if_true, hm]
      · simp only [hk, if_false]; exact h2 q hq
  · rename_i hnm
    constructor
    · rw [List.map_append, List.nodup_append]
      refine ⟨h1, by simp, ?_⟩
      intro a ha b hb
      simp at hb
      subst hb
      rintro rfl
      exact hnm ha
    · intro p hp
      rcases List.mem_append.1 hp with hp | hp
      · exact h2 p hp
      · simp at hp; subst hp; exact hm

theorem mem_of_lookup {α : Type} {l : List (String × α)} {k : String} {v : α} (h : l.lookup k = some v) : (k, v) ∈ l := by
  induction l with
  | nil => simp at h
  | cons x l ih =>
    obtain ⟨a, b⟩ := x
    rw [List.lookup_cons] at h
    by_cases hk : k = a
    · subst hk
      simp only [beq_self_eq_true] at h
      injection h with h
      subst h
      exact List.mem_cons_self
    · have hb : (k == a) = false := by simpa using hk
      simp only [hb] at h
      exact List.mem_cons_of_mem _ (ih h)

theorem lookup_of_mem {α : Type} {l : List (String × α)} (hn : (l.map Prod.fst).Nodup) {k : String} {v : α} (h : (k, v) ∈ l) :
    l.lookup k = some v := by
  induction l with
  | nil => simp at h
  | cons x l ih =>
    obtain ⟨a, b⟩ := x
    simp only [List.map_cons, List.nodup_cons] at hn
    rw [List.lookup_cons]
    rcases List.mem_cons.1 h with h | h
    · injection h with e1 e2
      subst e1 e2
      simp
    · have hk : k ∈ l.map Prod.fst := List.mem_map_of_mem (f := Prod.fst) h
      have : ¬ k = a := by
        rintro rfl
        exact hn.1 hk
      have hb : (k == a) = false := by simpa using this
      simp only [hb]
      exact ih hn.2 h

theorem keyInv_addSample {bm bm' : BufferModel μ} (h : KeyInv bm.models) {name ty : String} {v : Val}
    (he : bm.addSample O name v ty = .ok bm') : KeyInv bm'.models := by
  unfold BufferModel.addSample at he
  split at he
  · rename_i m hl
    injection he with he
    subst he
    apply keyInv_set h
    rw [addSample_samples]
    exact h.2 _ (mem_of_lookup hl)
  · simp only [bind, Except.bind, FieldModel.new] at he
    cases ht : typeOfName ty with
    | none => rw [ht] at he; cases he
    | some t =>
      rw [ht] at he
      injection he with he
      subst he
      apply keyInv_set h
      rw [addSample_samples]

theorem keyInv_addSamples (l : List (String × Val × CType)) {bm : BufferModel μ} (h : KeyInv bm.models) :
    KeyInv (bm.addSamples O l).1.models := by
  induction l generalizing bm with
  | nil => exact h
  | cons x l ih =>
    obtain ⟨name, v, t⟩ := x
    simp only [BufferModel.addSamples]
    cases he : bm.addSample O name v t.cname with
    | error e => exact h
    | ok bm' => exact ih (keyInv_addSample O h he)

theorem keyInv_addAll (w : Option Nat) (as : List (BufArg × List (Nat × Nat))) :
    KeyInv (addAll O (BufferModel.new w) as).models := by
  have key : ∀ (as : List (BufArg × List (Nat × Nat))) (bm : BufferModel μ), KeyInv bm.models → KeyInv (addAll O bm as).models := by
    intro as
    induction as with
    | nil => intro bm h; exact h
    | cons a as ih =>
      intro bm h
      show KeyInv (addAll O (bm.addBuffer O a.1 a.2).1 as).models
      apply ih
      unfold BufferModel.addBuffer
      split
      · exact h
      · exact keyInv_addSamples O _ h
  exact key as _ ⟨by simp [BufferModel.new], by simp [BufferModel.new]⟩

theorem addAll_description (as : List (BufArg × List (Nat × Nat))) (bm : BufferModel μ) :
    (addAll O bm as).description = bm.description ∧ (addAll O bm as).orderedFieldNames = bm.orderedFieldNames := by
  have hs : ∀ (l : List (String × Val × CType)) (bm : BufferModel μ),
      (bm.addSamples O l).1.description = bm.description ∧ (bm.addSamples O l).1.orderedFieldNames = bm.orderedFieldNames := by
    intro l
    induction l with
    | nil => intro bm; exact ⟨rfl, rfl⟩
    | cons x l ih =>
      intro bm
      obtain ⟨name, v, t⟩ := x
      simp only [BufferModel.addSamples]
      cases he : bm.addSample O name v t.cname with
      | error e => exact ⟨rfl, rfl⟩
      | ok bm' =>
        obtain ⟨i1, i2⟩ := ih bm'
        simp only
        rw [i1, i2]
        unfold BufferModel.addSample at he
        split at he
        · injection he with he; subst he; exact ⟨rfl, rfl⟩
        · simp only [bind, Except.bind] at he
          split at he
          · cases he
          · injection he with he; subst he; exact ⟨rfl, rfl⟩
  induction as generalizing bm with
  | nil => exact ⟨rfl, rfl⟩
  | cons a as ih =>
    show (addAll O (bm.addBuffer O a.1 a.2).1 as).description = _ ∧ (addAll O (bm.addBuffer O a.1 a.2).1 as).orderedFieldNames = _
    obtain ⟨i1, i2⟩ := ih (bm.addBuffer O a.1 a.2).1
    rw [i1, i2]
    unfold BufferModel.addBuffer
    split
    · exact ⟨rfl, rfl⟩
    · exact hs _ _

/-- A buffer model as a user builds it: buffers added (raising calls caught), possibly with a description set. -/
def build (w : Option Nat) (as : List (BufArg × List (Nat × Nat))) (d : Option (List DescItem)) : BufferModel μ :=
  match d with
  | none => addAll O (BufferModel.new w) as
  | some d => (addAll O (BufferModel.new w) as).setDescription d

/-- C34: saving a model and loading the file gives a model with the same window, size, description and field names,
whose fields (listed alphabetically) have the same type, window and samples and answer every question exactly as before.
The statistics routine is arbitrary, except that like `norm.fit` it raises on samples that are not numbers. -/
theorem c34_roundtrip (hraw : ∀ l : List Val, (∃ b, .raw b ∈ l) → ∃ e, O.fit l = .error e)
    (w : Option Nat) (as : List (BufArg × List (Nat × Nat))) (d : Option (List DescItem)) (bm bm' : BufferModel μ)
    (hbm : bm = build O w as d) (j : Json μ) (h : bm.save O = (bm', .ok j)) :
    ∃ ld, BufferModel.load O j = .ok ld ∧ ld.windowSize = bm.windowSize ∧ ld.modelSize = bm.modelSize ∧
      ld.description = bm.description ∧ ld.orderedFieldNames = bm.orderedFieldNames ∧
      (ld.models.map Prod.fst).Perm (bm.models.map Prod.fst) ∧ (ld.models.map Prod.fst).Pairwise (· ≤ ·) ∧
      ∀ name,
        (ld.models.lookup name).map (fun m => (m.name, m.fieldType, m.windowSize, m.samples)) =
          (bm.models.lookup name).map (fun m => (m.name, m.fieldType, m.windowSize, m.samples)) ∧
        ∀ r, (ld.models.lookup name).map (fun m => (m.read O r).2) = (bm.models.lookup name).map (fun m => (m.read O r).2) := by
  obtain ⟨h1, h2, hinv⟩ := addAll_inv O w as
  have hkey := keyInv_addAll O w as
  obtain ⟨e1, e2⟩ := addAll_description O as (BufferModel.new (μ := μ) w)
  have hms : bm.models = (addAll O (BufferModel.new w) as).models := by
    subst hbm; cases d <;> rfl
  rw [← hms] at hinv hkey
  have hd : bm.orderedFieldNames = bm.description.map descNames := by
    subst hbm
    cases d with
    | none => simp only [build]; rw [e1, e2]; rfl
    | some d => rfl
  obtain ⟨ms, r, hu⟩ : ∃ ms r, updateAll O bm.models = (ms, r) := ⟨_, _, rfl⟩
  have hr : r = .ok () := by
    cases r with
    | ok u => rfl
    | error e => simp only [BufferModel.save, hu] at h; injection h with _ h; cases h
  subst hr
  have hsam : ∀ p ∈ bm.models, p.2.samples ≠ [] ∧ windowed p.2.windowSize p.2.samples = p.2.samples := by
    intro p hp
    obtain ⟨k, m⟩ := p
    have hl := lookup_of_mem hkey.1 hp
    obtain ⟨t, hm⟩ := hinv.model k m hl
    simp only
    rw [hm.window, hm.samples]
    refine ⟨?_, windowed_idem _ _⟩
    rw [ne_eq, windowed_eq_nil]
    intro h0
    rw [(hinv.absent k).2 h0] at hl
    cases hl
  have hf := updateAll_ok O (fun p hp => (hsam p hp).1) hu
  have hok : ∀ p ∈ bm.models, FieldOK p.1 p.2 := by
    intro p hp
    refine ⟨hkey.2 p hp, (hsam p hp).1, (hsam p hp).2, ?_⟩
    rintro v hv b rfl
    obtain ⟨e, he⟩ := hraw p.2.samples ⟨b, hv⟩
    have : ∃ p', Refreshed O p.2 p' := by
      clear hu hsam hkey hinv hms hd
      generalize bm.models = l at hf hp
      induction hf with
      | nil => simp at hp
      | @cons q q' l l' hq _ ih =>
        rcases List.mem_cons.1 hp with rfl | hp
        · exact ⟨_, hq.2⟩
        · exact ih hp
    obtain ⟨p', a, c, hfit, _⟩ := this
    rw [he] at hfit
    cases hfit
  obtain ⟨g1, g2, g3⟩ := load_save O bm bm' hok hkey.1 hd j h
  have hkeys : bm'.models.map Prod.fst = bm.models.map Prod.fst := by
    clear hu hsam hkey hinv hms hd hf hok h g2 g1 hbm
    generalize bm.models = l at g3
    generalize bm'.models = l' at g3 ⊢
    induction g3 with
    | nil => rfl
    | cons h _ ih => simp [h.1, ih]
  have hnod' : (bm'.models.map Prod.fst).Nodup := hkeys ▸ hkey.1
  refine ⟨_, g1, by rw [g2], by rw [g2], by rw [g2], by rw [g2], ?_, sortKeys_sorted _, ?_⟩
  · rw [← hkeys]
    exact (sortKeys_perm _).map _
  · intro name
    simp only
    rw [sortKeys_lookup _ hnod']
    have hlook : (bm.models.lookup name = none ∧ bm'.models.lookup name = none) ∨
        ∃ m m', bm.models.lookup name = some m ∧ bm'.models.lookup name = some m' ∧ Refreshed O m m' := by
      clear hu hsam hkey hinv hms hd hf hok h g2 g1 hbm hkeys hnod'
      generalize bm.models = l at g3
      generalize bm'.models = l' at g3 ⊢
      induction g3 with
      | nil => left; simp
      | @cons q q' l l' hq _ ih =>
        obtain ⟨a, m⟩ := q
        obtain ⟨a', m'⟩ := q'
        obtain ⟨q1, q2⟩ := hq
        simp only at q1 q2
        subst q1
        rw [List.lookup_cons, List.lookup_cons]
        cases name == a'
        · simpa using ih
        · right; exact ⟨m, m', rfl, rfl, q2⟩
    rcases hlook with ⟨l1, l2⟩ | ⟨m, m', l1, l2, a, b, hfit, rfl⟩
    · rw [l1, l2]; exact ⟨rfl, fun _ => rfl⟩
    · rw [l1, l2]
      refine ⟨rfl, fun r => ?_⟩
      obtain ⟨t, hm⟩ := hinv.model name m l1
      have hne := (hsam (name, m) (mem_of_lookup l1)).1
      simp only at hne
      have hm' : FieldInv O w t ((as.filter (fun a => @decide (Addable a) (Classical.propDecidable _))).flatMap (takes name)) { m with
          mean := a
          std := b
          up2date := true } := by
        refine ⟨hm.window, hm.type, hm.samples, ?_, fun h0 => absurd h0 hne⟩
        intro _
        simp only [statsOf, hne, if_false, hfit]
      simp only [Option.map_some]
      rw [(inv_read O hm' r).2, (inv_read O hm r).2]

/-- C34. A file that holds no dict of field models makes `load` raise an AttributeError. -/
theorem c34_foreign (v : Json μ) (hno : ∀ l items, v = .obj l → l.lookup "field_models" ≠ some (.obj items)) :
    BufferModel.load O v = .error .attributeError := by
  unfold BufferModel.load
  cases v
  case obj l =>
    simp only [Json.get, bind, Except.bind]
    have h : ∀ w : Json μ, (∀ items, w ≠ .obj items) → loadItems w = .error .attributeError := by
      intro w hw
      cases w
      case obj items => exact absurd rfl (hw items)
      all_goals rfl
    rw [h]
    intro items hi
    cases hl : l.lookup "field_models" with
    | none => rw [hl] at hi; cases hi
    | some w =>
      rw [hl] at hi
      exact hno l items rfl (by rw [hl]; exact congrArg some hi)
  all_goals rfl

/-- C34: saving succeeds whenever the statistics of every field can be computed, and changes only cached statistics:
the model answers as before. -/
theorem c34_save_ok (w : Option Nat) (as : List (BufArg × List (Nat × Nat))) (d : Option (List DescItem))
    (bm : BufferModel μ) (hbm : bm = build O w as d)
    (hfit : ∀ name m, bm.models.lookup name = some m → Returns (O.fit m.samples)) :
    ∃ j, (bm.save O).2 = .ok j := by
  have hkey := keyInv_addAll O w as
  have hms : bm.models = (addAll O (BufferModel.new w) as).models := by
    subst hbm; cases d <;> rfl
  rw [← hms] at hkey
  have : ∀ l : List (String × FieldModel Val μ), (∀ p ∈ l, Returns (O.fit p.2.samples)) → ∃ ms, updateAll O l = (ms, .ok ()) := by
    intro l hl
    induction l with
    | nil => exact ⟨_, rfl⟩
    | cons p l ih =>
      obtain ⟨k, m⟩ := p
      obtain ⟨ms, hms⟩ := ih fun p hp => hl p (List.mem_cons_of_mem _ hp)
      obtain ⟨⟨a, b⟩, hf⟩ := hl (k, m) List.mem_cons_self
      simp only at hf
      simp only [updateAll, FieldModel.update, hf]
      by_cases hs : m.samples = []
      · simp only [hs, if_true, hms]; exact ⟨_, rfl⟩
      · simp only [hs, if_false, hms]; exact ⟨_, rfl⟩
  obtain ⟨ms, hu⟩ := this bm.models fun p hp => hfit p.1 p.2 (lookup_of_mem hkey.1 hp)
  unfold BufferModel.save
  rw [hu]
  exact ⟨_, rfl⟩

/-- A model of one heartbeat can be built, saved and loaded. -/
example : ∃ (O : StatOps Val Nat) (ld : BufferModel Nat) (j : Json Nat),
    ((build O (some 3) [(.bytes [254, 9, 7, 1, 1, 0, 1, 2, 3, 4, 5, 6, 7, 8, 9, 0, 0], [(0, 0)])] (some [.header [254, 9], .crc])).save O).2 =
      .ok j ∧ BufferModel.load O j = .ok ld := by
  let O : StatOps Val Nat := ⟨0, 1, fun l => if l.any (fun v => match v with | .raw _ => true | _ => false) then .error .typeError else .ok (l.length, 0),
    fun _ => false, fun _ _ => false, fun a _ _ => a, fun a _ _ => a, fun a _ _ => a, fun _ _ => .error .structError⟩
  have hO : ∀ l : List Val, (∃ b, .raw b ∈ l) → ∃ e, O.fit l = .error e := by
    rintro l ⟨b, hb⟩
    refine ⟨.typeError, ?_⟩
    show (if _ then _ else _) = _
    rw [if_pos]
    rw [List.any_eq_true]
    exact ⟨_, hb, rfl⟩
  have hs : ∃ j, ((build O (some 3) [(.bytes [254, 9, 7, 1, 1, 0, 1, 2, 3, 4, 5, 6, 7, 8, 9, 0, 0], [(0, 0)])]
      (some [.header [254, 9], .crc])).save O).2 = .ok j := by
    apply c34_save_ok O (some 3) _ _ _ rfl
    intro name m hm
    have : ∀ p ∈ (build O (some 3) [(.bytes [254, 9, 7, 1, 1, 0, 1, 2, 3, 4, 5, 6, 7, 8, 9, 0, 0], [(0, 0)])]
      (some [.header [254, 9], .crc])).models, Returns (O.fit p.2.samples) := by
      decide +kernel
    exact this (name, m) (mem_of_lookup hm)
  obtain ⟨j, hj⟩ := hs
  obtain ⟨ld, hld, _⟩ := c34_roundtrip O hO (some 3) _ _ _ _ rfl j (Prod.ext rfl hj)
  exact ⟨O, ld, j, hj, hld⟩

end NR
