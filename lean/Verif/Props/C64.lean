import Verif.Spec.Bitwise
import Verif.Lemmas.Decoder
import Verif.Props.C53_C56
import Verif.Props.C57
/-
C64: the model of the bitwise entropy decoders is predefined and frozen, or windowed.
-/
namespace NR
open Spec

variable {α Λ : Type}

/-- No byte is left unknown exactly if the bytes consist of messages. -/
theorem unknown_iff (b : List Byte) (seg : SegState) (h : segmentBuffer decode b = .ok seg) :
    MsgPart.unknown ∉ seg.parts ↔ Recovered b := by
  have hm : messagesIn b = seg.struct := by rw [messagesIn, h]
  have hlen : seg.parts.length = b.length := by
    rw [(segment_scan decode b seg h).1, scanL_length]
  constructor
  · intro hno k hk
    rw [hm]
    by_contra hc
    push Not at hc
    exact hno (List.mem_of_getElem? ((c18_labels decode b seg h k hk).2.2 hc))
  · intro hr hu
    obtain ⟨k, hk, he⟩ := List.getElem_of_mem hu
    obtain ⟨r, hr1, hr2⟩ := hr k (hlen ▸ hk)
    rw [hm] at hr1
    have := (c18_labels decode b seg h k (hlen ▸ hk)).2.1 r hr1 hr2
    rw [List.getElem?_eq_getElem hk, he] at this
    unfold partOf at this
    split at this
    · cases this
    · split at this <;> cases this

/-- `np.packbits` is the grouping of the specification. -/
theorem packBits_eq (l : List Bool) : packBits l = bytesOf l := by
  have key : ∀ a b c d e f g h : Bool, BitVec.ofNat 8 (bitsVal [a, b, c, d, e, f, g, h]) =
      ((List.range 8).map fun j => if [a, b, c, d, e, f, g, h].getD j false then BitVec.ofNat 8 (2 ^ (7 - j)) else 0).sum := by
    decide +kernel
  unfold packBits bytesOf
  apply List.map_congr_left
  intro i _
  have h8 : ((pySlice l (8 * i) (8 * i + 8) ++ List.replicate 8 false).take 8) =
      (List.range 8).map fun j => l.getD (8 * i + j) false := by
    apply List.ext_getElem?
    intro k
    by_cases hk : k < 8
    · rw [List.getElem?_take_of_lt hk, List.getElem?_map, List.getElem?_range hk, Option.map_some]
      by_cases hl : k < (pySlice l (8 * i) (8 * i + 8)).length
      · rw [List.getElem?_append_left hl]
        simp only [pySlice, List.length_drop, List.length_take] at hl
        simp only [pySlice]
        rw [List.getElem?_drop, List.getElem?_take_of_lt (by omega), List.getD_eq_getElem?_getD,
          List.getElem?_eq_getElem (by omega)]
        rfl
      · rw [List.getElem?_append_right (by omega)]
        simp only [pySlice, List.length_drop, List.length_take] at hl ⊢
        rw [List.getElem?_replicate, if_pos (by omega), List.getD_eq_getElem?_getD, List.getElem?_eq_none (by omega)]
        rfl
    · rw [List.getElem?_eq_none (by simp; omega), List.getElem?_eq_none (by simp; omega)]
  rw [h8]
  generalize hf : (fun j => l.getD (8 * i + j) false) = f
  have := key (f 0) (f 1) (f 2) (f 3) (f 4) (f 5) (f 6) (f 7)
  subst hf
  exact this

theorem packBits_length (l : List Bool) : (packBits l).length = (l.length + 7) / 8 := by simp [packBits]

theorem growData_ne {w : Option Nat} (hw : w ≠ some 0) (d : List (List Bool)) (b : List Bool) : growData w d b ≠ [] := by
  unfold growData
  have hx : (if d.flatten.length = 0 then [b] else d ++ [b]) ≠ [] := by split <;> simp
  revert hx
  generalize (if d.flatten.length = 0 then [b] else d ++ [b]) = z
  intro hx
  cases w with
  | none => exact hx
  | some w =>
    have hw0 : w ≠ 0 := by rintro rfl; exact hw rfl
    have hz := List.length_pos_iff.2 hx
    simp only
    split
    · rw [Ne, List.drop_eq_nil_iff]; omega
    · exact hx

/-- The distribution of a set of samples: no rows without samples; otherwise one row per bit, with the shares of zeros and
ones - or, when all bits of all samples have the same value, the share 1 of that value only. -/
def DistOf (n : Nat) (samples : List (List Bool)) (dist : List (List ℝ)) : Prop :=
  (samples = [] → dist = []) ∧
  (samples ≠ [] → BothLetters n samples →
    dist = (List.range n).map fun (j : Nat) => [1 - oneShare samples j, oneShare samples j]) ∧
  (samples ≠ [] → ¬ BothLetters n samples → dist = List.replicate n [1])

theorem probOf_distOf {n : Nat} (hn : 0 < n) {data : List (List Bool)} (hd : data ≠ []) :
    ∃ dist, probOf n data = .ok dist ∧ DistOf n data (dist.map fun (r : List ℚ) => r.map fun (q : ℚ) => (q : ℝ)) := by
  obtain ⟨dist, h1, h2, h3, h4⟩ := probOf_spec hn hd
  refine ⟨dist, h1, fun h => absurd h hd, fun _ hb => ?_, fun _ hb => ?_⟩
  · rw [(h3 hb).2, List.map_map]
    refine List.map_congr_left fun j _ => ?_
    have hlen : (data.length : ℝ) ≠ 0 := by
      have := List.length_pos_iff.2 hd
      positivity
    have hc : (data.countP fun b => !b.getD j false) = data.length - data.countP fun b => b.getD j false := by
      have := List.length_eq_countP_add_countP (fun b : List Bool => b.getD j false) (l := data)
      simp only [Bool.not_eq_true, Bool.decide_eq_false] at this
      omega
    have hle : (data.countP fun b => b.getD j false) ≤ data.length := List.countP_le_length
    simp only [Function.comp, List.map_cons, List.map_nil, oneShare, List.cons.injEq, and_true]
    constructor
    · rw [hc]; push_cast [hle]; field_simp
    · push_cast; rfl
  · rw [(h4 hb).2]
    simp

theorem ebd_update_learn {c : EbdCfg} (hp : c.predefined = false) (hm : 0 < c.modelLength) (hw : c.window ≠ some 0)
    (s : Ebd Λ) {bits : List Bool} (hb : bits.length = c.modelLength) :
    ∃ dist, s.update c bits = ({ s with data := growData c.window s.data bits, dist, ents := rowEntropies dist }, .ok ()) ∧
      DistOf c.modelLength (growData c.window s.data bits) dist := by
  obtain ⟨dist, h1, h2⟩ := probOf_distOf hm (growData_ne hw s.data bits)
  refine ⟨_, ?_, h2⟩
  unfold Ebd.update
  rw [hp, if_neg (by simp), if_neg (by simp [hb])]
  simp only [h1]

/-- The end of a call, case by case: it raises and the model is as before, or it returns and has learned the recovered
word, if any. -/
theorem ebd_finish {c : EbdCfg} (hp : c.predefined = false) (hm : 0 < c.modelLength) (hi : c.idx.length = c.modelLength)
    (hw : c.window ≠ some 0) (s : Ebd Λ) (handed : List LdpcIn) (o : LdpcOut) :
    ((∃ e, s.finish c handed o = ⟨s, handed, .error e⟩)) ∨
    ∃ k, (s.finish c handed o).result = .ok ⟨o.estimate, o.llr, o.success, o.iterations, k⟩ ∧
      (recoveredWord c.idx o.estimate = none ∧ (s.finish c handed o).state = s ∨
       ∃ b dist, recoveredWord c.idx o.estimate = some b ∧ b.length = c.modelLength ∧
        (s.finish c handed o).state =
          { s with data := growData c.window s.data b, dist, ents := rowEntropies dist } ∧
        DistOf c.modelLength (growData c.window s.data b) dist) := by
  unfold Ebd.finish
  cases htk : takeIdx o.estimate c.idx with
  | error e => exact Or.inl ⟨e, rfl⟩
  | ok bits =>
    obtain ⟨_, hbits, hlen⟩ := takeIdx_ok htk
    replace hbits : bits = bitsAt c.idx o.estimate := hbits
    obtain ⟨seg, hseg, _⟩ := c20_never_raises (packBits bits)
    have hsegB := packBits_eq bits ▸ hseg
    right
    simp only [hseg]
    by_cases hu : MsgPart.unknown ∉ seg.parts
    · rw [if_pos hu]
      obtain ⟨dist, h1, h2⟩ := ebd_update_learn hp hm hw s (bits := bits) (by omega)
      refine ⟨seg.struct.length, by rw [h1]; rfl, Or.inr ⟨bits, dist, ?_, by omega, by rw [h1], h2⟩⟩
      rw [recoveredWord, ← hbits, if_pos ((unknown_iff _ _ hsegB).1 hu)]
    · rw [if_neg hu]
      refine ⟨seg.struct.length, rfl, Or.inl ⟨?_, rfl⟩⟩
      rw [recoveredWord, ← hbits, if_neg (fun h => hu ((unknown_iff _ _ hsegB).2 h))]

/-- The state of a decoder that has learned the words `h`. -/
structure EbdInv (c : EbdCfg) (s : Ebd Λ) (h : List (List Bool)) : Prop where
  lens : ∀ x ∈ h, x.length = c.modelLength
  data : s.data = keep c.window h
  dist : DistOf c.modelLength (keep c.window h) s.dist
  ents : s.ents = rowEntropies s.dist

theorem ebd_decode_inv {c : EbdCfg} (hp : c.predefined = false) (hm : 0 < c.modelLength) (hi : c.idx.length = c.modelLength)
    (hw : c.window ≠ some 0) (inj : α → LdpcIn) (predict : Ebd Λ → α → Except PyErr α) (ldpc : Ldpc Λ) (s : Ebd Λ)
    (word : α) (h : List (List Bool)) (hs : EbdInv c s h) :
    EbdInv c (s.decode c inj predict ldpc word).state (h ++ learnedOf c.idx [(s.decode c inj predict ldpc word).result]) := by
  have fin : ∀ (l : Λ) (handed : List LdpcIn) (o : LdpcOut),
      EbdInv c (({ s with ldpc := l } : Ebd Λ).finish c handed o).state
        (h ++ learnedOf c.idx [(({ s with ldpc := l } : Ebd Λ).finish c handed o).result]) := by
    intro l handed o
    rcases ebd_finish hp hm hi hw ({ s with ldpc := l } : Ebd Λ) handed o with ⟨e, he⟩ | ⟨k, hr, ⟨hn, hst⟩ | ⟨b, dist, hb, hbl, hst, hd⟩⟩
    · rw [he]
      simp only [learnedOf, List.filterMap_cons, List.filterMap_nil, List.append_nil]
      exact ⟨hs.lens, hs.data, hs.dist, hs.ents⟩
    · rw [hr, hst]
      simp only [learnedOf, List.filterMap_cons, hn, List.filterMap_nil, List.append_nil]
      exact ⟨hs.lens, hs.data, hs.dist, hs.ents⟩
    · rw [hr, hst]
      simp only [learnedOf, List.filterMap_cons, hb, List.filterMap_nil]
      have hg : growData c.window s.data b = keep c.window (h ++ [b]) := by
        rw [hs.data, growData_keep hm _ _ _ hs.lens]
      simp only [hg] at hd ⊢
      refine ⟨?_, rfl, hd, rfl⟩
      intro x hx
      rcases List.mem_append.1 hx with hx | hx
      · exact hs.lens x hx
      · rw [List.mem_singleton.1 hx]; exact hbl
  unfold Ebd.decode
  rcases hl : ldpc s.ldpc (inj word) with ⟨l', o⟩
  simp only
  split
  · exact fin l' _ o
  · split
    · simp only [learnedOf, List.filterMap_cons, List.filterMap_nil, List.append_nil]
      exact ⟨hs.lens, hs.data, hs.dist, hs.ents⟩
    · rename_i w _
      rcases hl2 : ldpc l' (inj w) with ⟨l'', o2⟩
      exact fin l'' _ o2

theorem ebd_run_inv {c : EbdCfg} (hp : c.predefined = false) (hm : 0 < c.modelLength) (hi : c.idx.length = c.modelLength)
    (hw : c.window ≠ some 0) (inj : α → LdpcIn) (predict : Ebd Λ → α → Except PyErr α) (ldpc : Ldpc Λ) (l : Λ)
    (words : List α) (s : Ebd Λ) (steps : List (EbdStep Λ))
    (hr : Ebd.run (Ebd.decode c inj predict ldpc) (Ebd.new l) words = (s, steps)) :
    EbdInv c s (learnedOf c.idx (steps.map EbdStep.result)) := by
  have key : ∀ (words : List α) (s : Ebd Λ) (h : List (List Bool)), EbdInv c s h →
      EbdInv c (Ebd.run (Ebd.decode c inj predict ldpc) s words).1
        (h ++ learnedOf c.idx ((Ebd.run (Ebd.decode c inj predict ldpc) s words).2.map EbdStep.result)) := by
    intro words
    induction words with
    | nil => intro s h hs; simpa [Ebd.run, learnedOf] using hs
    | cons w rest ih =>
      intro s h hs
      have h1 := ih _ _ (ebd_decode_inv hp hm hi hw inj predict ldpc s w h hs)
      simp only [Ebd.run, List.map_cons]
      rw [List.append_assoc] at h1
      convert h1 using 2
      simp only [learnedOf, ← List.filterMap_append, List.singleton_append]
  have h0 : EbdInv c (Ebd.new l) [] := by
    have hk : keep c.window ([] : List (List Bool)) = [] := by cases c.window <;> simp [keep, lastN]
    refine ⟨by simp, by rw [hk]; rfl, ?_, rfl⟩
    rw [hk]
    exact ⟨fun _ => rfl, fun h => absurd rfl h, fun h => absurd rfl h⟩
  have := key words _ _ h0
  rw [hr, List.nil_append] at this
  exact this

/-- C64. A learning decoder - soft or flipping - after any sequence of calls, some of which may raise, and for any LDPC
decoder: its model is the distribution of the last `window_length` (all, without a window) learned words, where the words
learned are the model bits of the returned estimates that consist of messages only. -/
theorem c64_windowed {c : EbdCfg} (hp : c.predefined = false) (hm : 0 < c.modelLength) (hi : c.idx.length = c.modelLength)
    (hw : c.window ≠ some 0) (inj : α → LdpcIn) (predict : Ebd Λ → α → Except PyErr α) (ldpc : Ldpc Λ) (l : Λ)
    (words : List α) (s : Ebd Λ) (steps : List (EbdStep Λ))
    (hr : Ebd.run (Ebd.decode c inj predict ldpc) (Ebd.new l) words = (s, steps)) :    DistOf c.modelLength (keep c.window (learnedOf c.idx (steps.map EbdStep.result))) s.dist ∧
    s.ents = s.dist.map (fun r => scipyEntropy r 2) ∧
    s.data = keep c.window (learnedOf c.idx (steps.map EbdStep.result)) := by
  have := ebd_run_inv hp hm hi hw inj predict ldpc l words s steps hr
  exact ⟨this.dist, this.ents, this.data⟩

/-- C64. The model is used once the window holds at least `min_data` learned words, and at least one. -/
theorem c64_ready {c : EbdCfg} (hp : c.predefined = false) (hm : 0 < c.modelLength) (hi : c.idx.length = c.modelLength)
    (hw : c.window ≠ some 0) (inj : α → LdpcIn) (predict : Ebd Λ → α → Except PyErr α) (ldpc : Ldpc Λ) (l : Λ)
    (words : List α) (s : Ebd Λ) (steps : List (EbdStep Λ))
    (hr : Ebd.run (Ebd.decode c inj predict ldpc) (Ebd.new l) words = (s, steps)) :
    s.ready c = true ↔ 1 ≤ (keep c.window (learnedOf c.idx (steps.map EbdStep.result))).length ∧
      c.minData ≤ (keep c.window (learnedOf c.idx (steps.map EbdStep.result))).length := by
  have hinv := ebd_run_inv hp hm hi hw inj predict ldpc l words s steps hr
  rw [← hinv.data]
  have hl : ∀ x ∈ s.data, x.length = c.modelLength := by
    intro x hx
    rw [hinv.data] at hx
    exact hinv.lens x (keep_mem hx)
  have hf : 0 < s.data.flatten.length ↔ 1 ≤ s.data.length := by
    cases hd : s.data with
    | nil => simp
    | cons x rest =>
      have := hl x (by rw [hd]; exact List.mem_cons_self)
      simp only [List.flatten_cons, List.length_append, List.length_cons]
      omega
  simp only [Ebd.ready, hp, Bool.false_or, Bool.and_eq_true, decide_eq_true_eq, hf]

/-- C64. With a predefined model no sequence of calls changes the distribution or the entropies. -/
theorem c64_frozen {c : EbdCfg} (hp : c.predefined = true) (inj : α → LdpcIn) (predict : Ebd Λ → α → Except PyErr α)
    (ldpc : Ldpc Λ) (s : Ebd Λ) (words : List α) :
    (Ebd.run (Ebd.decode c inj predict ldpc) s words).1.dist = s.dist ∧
    (Ebd.run (Ebd.decode c inj predict ldpc) s words).1.ents = s.ents ∧
    (Ebd.run (Ebd.decode c inj predict ldpc) s words).1.data = s.data := by
  have fin : ∀ (t : Ebd Λ) (handed : List LdpcIn) (o : LdpcOut), (t.finish c handed o).state = t := by
    intro t handed o
    unfold Ebd.finish
    split
    · rfl
    · split
      · rfl
      · simp only [Ebd.update, hp, if_true]
        split <;> rfl
  have step : ∀ (s : Ebd Λ) (w : α), ∃ l, (s.decode c inj predict ldpc w).state = { s with ldpc := l } := by
    intro s w
    unfold Ebd.decode
    rcases ldpc s.ldpc (inj w) with ⟨l', o⟩
    simp only
    split
    · exact ⟨l', fin _ _ _⟩
    · split
      · exact ⟨l', rfl⟩
      · rename_i w' _
        rcases ldpc l' (inj w') with ⟨l'', o2⟩
        exact ⟨l'', fin _ _ _⟩
  induction words generalizing s with
  | nil => exact ⟨rfl, rfl, rfl⟩
  | cons w rest ih =>
    simp only [Ebd.run]
    obtain ⟨l, hl⟩ := step s w
    obtain ⟨h1, h2, h3⟩ := ih (s.decode c inj predict ldpc w).state
    rw [h1, h2, h3, hl]
    exact ⟨rfl, rfl, rfl⟩

/-- C64. What a returning call returns: if the LDPC decoder succeeds on the received word, its output on that word, which is
all it is asked; otherwise its output on the model's prediction. -/
theorem c64_returned {c : EbdCfg} (inj : α → LdpcIn) (predict : Ebd Λ → α → Except PyErr α) (ldpc : Ldpc Λ) (s : Ebd Λ)
    (word : α) (out : EbdOut) (h : (s.decode c inj predict ldpc word).result = .ok out) :
    let first := ldpc s.ldpc (inj word)
    (first.2.success = true → (s.decode c inj predict ldpc word).handed = [inj word] ∧ out.success = true ∧
      out.estimate = first.2.estimate ∧ out.llr = first.2.llr ∧ out.iterations = first.2.iterations) ∧
    (first.2.success = false → ∃ w, predict { s with ldpc := first.1 } word = .ok w ∧
      (s.decode c inj predict ldpc word).handed = [inj word, inj w] ∧
      let second := ldpc first.1 (inj w)
      out.estimate = second.2.estimate ∧ out.llr = second.2.llr ∧ out.success = second.2.success ∧
      out.iterations = second.2.iterations) := by
  have fin : ∀ (t : Ebd Λ) (handed : List LdpcIn) (o : LdpcOut) (out : EbdOut), (t.finish c handed o).result = .ok out →
      (t.finish c handed o).handed = handed ∧ out.estimate = o.estimate ∧ out.llr = o.llr ∧ out.success = o.success ∧
      out.iterations = o.iterations := by
    intro t handed o out h
    unfold Ebd.finish at h ⊢
    split at h
    · cases h
    · rename_i bits _
      split at h
      · cases h
      · rename_i seg hseg
        simp only
        generalize (if MsgPart.unknown ∉ seg.parts then t.update c bits else (t, Except.ok ())) = q at h ⊢
        obtain ⟨s', r⟩ := q
        cases r with
        | error e => cases h
        | ok u => cases h; exact ⟨by trivial, rfl, rfl, rfl, rfl⟩
  intro first
  unfold Ebd.decode at h ⊢
  have hf : ldpc s.ldpc (inj word) = first := rfl
  rw [hf] at h ⊢
  obtain ⟨l', o⟩ := first
  simp only at h ⊢
  split at h
  · rename_i hs
    simp only [hs, if_true]
    obtain ⟨h1, h2, h3, h4, h5⟩ := fin _ _ _ _ h
    exact ⟨fun _ => ⟨h1, by rw [h4, hs], h2, h3, h5⟩, fun hx => by cases hx⟩
  · rename_i hs
    rw [if_neg hs]
    split at h
    · cases h
    · rename_i w hw
      refine ⟨fun hx => absurd hx hs, fun _ => ⟨w, hw, ?_⟩⟩
      obtain ⟨h1, h2, h3, h4, h5⟩ := fin _ _ _ _ h
      exact ⟨h1, h2, h3, h4, h5⟩

/-- C64. A learning decoder whose model bits are not as many as `model_length` never learns: no sequence of calls changes
its model, and a call whose (last) estimate consists of messages raises IncorrectBufferLength. -/
theorem c64_never_learns {c : EbdCfg} (hp : c.predefined = false) (hi : c.idx.length ≠ c.modelLength)
    (inj : α → LdpcIn) (predict : Ebd Λ → α → Except PyErr α) (ldpc : Ldpc Λ) (s : Ebd Λ) (words : List α) :
    ((Ebd.run (Ebd.decode c inj predict ldpc) s words).1.dist = s.dist ∧
      (Ebd.run (Ebd.decode c inj predict ldpc) s words).1.ents = s.ents ∧
      (Ebd.run (Ebd.decode c inj predict ldpc) s words).1.data = s.data) ∧
    ∀ r ∈ (Ebd.run (Ebd.decode c inj predict ldpc) s words).2, ∀ out, r.result = .ok out →
      recoveredWord c.idx out.estimate = none := by
  have fin : ∀ (t : Ebd Λ) (handed : List LdpcIn) (o : LdpcOut), (t.finish c handed o).state = t ∧
      ∀ out, (t.finish c handed o).result = .ok out → recoveredWord c.idx out.estimate = none := by
    intro t handed o
    unfold Ebd.finish
    cases htk : takeIdx o.estimate c.idx with
    | error e => exact ⟨rfl, fun out h => by cases h⟩
    | ok bits =>
      obtain ⟨_, hbits, hlen⟩ := takeIdx_ok htk
      replace hbits : bits = bitsAt c.idx o.estimate := hbits
      obtain ⟨seg, hseg, _⟩ := c20_never_raises (packBits bits)
      have hsegB := packBits_eq bits ▸ hseg
      simp only [hseg]
      have hu : t.update c bits = (t, .error .incorrectBufferLength) := by
        unfold Ebd.update
        rw [hp, if_neg (by simp), if_pos (by omega)]
      by_cases hk : MsgPart.unknown ∉ seg.parts
      · rw [if_pos hk, hu]
        exact ⟨rfl, fun out h => by cases h⟩
      · rw [if_neg hk]
        refine ⟨rfl, fun out h => ?_⟩
        cases h
        rw [recoveredWord, ← hbits, if_neg (fun h => hk ((unknown_iff _ _ hsegB).2 h))]
  have step : ∀ (s : Ebd Λ) (w : α), (∃ l, (s.decode c inj predict ldpc w).state = { s with ldpc := l }) ∧
      ∀ out, (s.decode c inj predict ldpc w).result = .ok out → recoveredWord c.idx out.estimate = none := by
    intro s w
    unfold Ebd.decode
    rcases ldpc s.ldpc (inj w) with ⟨l', o⟩
    simp only
    split
    · exact ⟨⟨l', (fin _ _ _).1⟩, (fin _ _ _).2⟩
    · split
      · exact ⟨⟨l', rfl⟩, fun out h => by cases h⟩
      · rename_i w' _
        rcases ldpc l' (inj w') with ⟨l'', o2⟩
        exact ⟨⟨l'', (fin _ _ _).1⟩, (fin _ _ _).2⟩
  induction words generalizing s with
  | nil => exact ⟨⟨rfl, rfl, rfl⟩, by simp [Ebd.run]⟩
  | cons w rest ih =>
    simp only [Ebd.run]
    obtain ⟨⟨l, hl⟩, hout⟩ := step s w
    obtain ⟨⟨h1, h2, h3⟩, h4⟩ := ih (s.decode c inj predict ldpc w).state
    refine ⟨?_, ?_⟩
    · rw [h1, h2, h3, hl]
      exact ⟨rfl, rfl, rfl⟩
    · intro r hr
      rcases List.mem_cons.1 hr with rfl | hr
      · exact hout
      · exact h4 r hr

/-- C64. The model bits are as many as `model_length` exactly if the first `model_length` bits of the codeword are all
information bits; then they are these bits. -/
theorem c64_model_bits (infoIdx : List Bool) (m : Nat) :
    ((modelBitsIdxPlain infoIdx m).length = m ↔ m ≤ infoIdx.length ∧ ∀ i < m, infoIdx.getD i false = true) ∧
    ((modelBitsIdxPlain infoIdx m).length = m → modelBitsIdxPlain infoIdx m = List.range m) := by
  have hbound : ∀ i, i < m → infoIdx.getD i false = true → i < infoIdx.length := by
    intro i _ h
    by_contra hc
    rw [List.getD_eq_getElem?_getD, List.getElem?_eq_none (by omega)] at h
    cases h
  have hall : (∀ i < m, infoIdx.getD i false = true) → modelBitsIdxPlain infoIdx m = List.range m := by
    intro h
    unfold modelBitsIdxPlain
    have hle : m ≤ infoIdx.length := by
      by_contra hc
      have := hbound infoIdx.length (by omega) (h _ (by omega))
      omega
    have e : List.range infoIdx.length = List.range m ++ (List.range (infoIdx.length - m)).map (m + ·) := by
      rw [← List.range_add]; congr 1; omega
    rw [e, List.filter_append, List.filter_eq_self.2, List.filter_eq_nil_iff.2, List.append_nil]
    · intro x hx
      obtain ⟨y, _, rfl⟩ := List.mem_map.1 hx
      simp
    · intro x hx
      have := List.mem_range.1 hx
      rw [h x this]
      simp [this]
  have hsub : (modelBitsIdxPlain infoIdx m).length = m → ∀ i < m, infoIdx.getD i false = true := by
    intro hl i hi
    have hnd : (modelBitsIdxPlain infoIdx m).Nodup := List.Nodup.filter _ List.nodup_range
    have hss : modelBitsIdxPlain infoIdx m ⊆ List.range m := by
      intro x hx
      have := (List.mem_filter.1 hx).2
      simp at this
      simpa using this.1
    have hperm := (List.subperm_of_subset hnd hss).perm_of_length_le (by simp [hl])
    have hmem : i ∈ modelBitsIdxPlain infoIdx m := hperm.symm.subset (by simpa using hi)
    have := (List.mem_filter.1 hmem).2
    simp only [Bool.and_eq_true] at this
    exact this.2
  refine ⟨⟨fun hl => ⟨?_, hsub hl⟩, fun h => ?_⟩, fun hl => hall (hsub hl)⟩
  · have h1 := hall (hsub hl)
    by_contra hc
    have := hbound infoIdx.length (by omega) (hsub hl _ (by omega))
    omega
  · rw [hall h.2]; simp

/-- The entropy of row `k` is below the threshold. -/
def LowAt (thr : ℝ) (ents : List ℝ) (k : Nat) : Prop := ∃ h, ents[k]? = some h ∧ h < thr

theorem mask_low (thr : ℝ) (ents : List ℝ) (k : Nat) :
    (structuralMask thr ents).getD k false = open Classical in decide (LowAt thr ents k) := by
  by_cases hk : k < ents.length
  · simp [structuralMask, List.getD_eq_getElem?_getD, List.getElem?_map, LowAt, List.getElem?_eq_getElem hk]
  · simp [structuralMask, List.getD_eq_getElem?_getD, List.getElem?_map, LowAt, List.getElem?_eq_none (not_lt.1 hk)]

/-- C64. Until the model may be used (not predefined, and without data or with fewer than `min_data` words), the second
attempt gets the received word unchanged. -/
theorem c64_not_ready {c : EbdCfg} (s : Ebd Λ) (hr : s.ready c = false) (obs : List ℝ) (bits : List Bool)
    (he : s.ents = [] ∨ s.ents.length = c.idx.length) :
    s.predictSoft c obs = .ok obs ∧ s.predictHard c bits = .ok bits := by
  constructor
  · have : ∃ st, maskIdx c.idx (structuralMask c.threshold s.ents) = .ok st := by
      unfold maskIdx
      rcases he with he | he
      · rw [he]; exact ⟨[], by simp [structuralMask]⟩
      · split
        · exact ⟨_, rfl⟩
        · rw [if_neg (by simp [structuralMask, he])]; exact ⟨_, rfl⟩
    obtain ⟨st, hst⟩ := this
    unfold Ebd.predictSoft
    rw [hst]
    simp only [bind, Except.bind, hr]
    rfl
  · unfold Ebd.predictHard
    rw [hr]
    rfl

open Classical in
/-- C64. Once the model may be used, the soft decoder's second attempt gets the received word with, at the positions of the
low-entropy model bits only, the model's log-likelihood ratio added, clipped to plus or minus the clipping factor times the
largest received value. -/
theorem c64_prediction {c : EbdCfg} (s : Ebd Λ) (hr : s.ready c = true) (hnd : c.idx.Nodup)
    (he : s.ents.length = c.idx.length) (hd : s.dist.length = c.idx.length) (hrow : ∀ r ∈ s.dist, 1 < r.length)
    (obs : List ℝ) (hlt : ∀ i ∈ c.idx, i < obs.length) {m : ℝ} (hm : pyMax obs = .ok m) :
    ∃ w, s.predictSoft c obs = .ok w ∧ w.length = obs.length ∧ (∀ i, i ∉ c.idx → w.getD i 0 = obs.getD i 0) ∧
      ∀ k (hk : k < c.idx.length), w.getD c.idx[k] 0 = obs.getD c.idx[k] 0 +
        if LowAt c.threshold s.ents k then npClip (-(c.clipping * m)) (c.clipping * m)
          (Real.log ((floatEps + (s.dist.getD k []).getD 0 0) / ((s.dist.getD k []).getD 1 0 + floatEps))) else 0 := by
  have hml : (structuralMask c.threshold s.ents).length = c.idx.length := by simp [structuralMask, he]
  have hpairs : rowPairs s.dist = .ok (s.dist.map fun (r : List ℝ) => (r.getD 0 0, r.getD 1 0)) := by
    unfold rowPairs
    rw [if_pos]
    rw [List.all_eq_true]
    intro r h
    simpa using hrow r h
  have hall : (((c.idx.zip (structuralMask c.threshold s.ents)).filterMap fun x => if x.2 then some x.1 else none).all
      (· < obs.length)) = true := by
    rw [List.all_eq_true]
    intro j hj
    obtain ⟨x, hx, hxj⟩ := List.mem_filterMap.1 hj
    split at hxj
    · cases hxj
      simpa using hlt _ (List.of_mem_zip hx).1
    · cases hxj
  unfold Ebd.predictSoft
  rw [maskIdx_spec _ _ hml]
  simp only [bind, Except.bind, hr, if_true, hm, hpairs]
  rw [maskIdx_spec _ _ (by simp [hml, hd])]
  simp only [hall, if_true]
  rw [addAt_mask _ _ _ _ (by simp [hd]) hml]
  obtain ⟨a1, a2, a3⟩ := addAt_gen c.idx (List.zipWith (fun (x : ℝ) (m : Bool) => if m then x else 0)
    ((s.dist.map fun (r : List ℝ) => (r.getD 0 0, r.getD 1 0)).map fun (p : ℝ × ℝ) =>
      npClip (-(c.clipping * m)) (c.clipping * m) (modelRatio p)) (structuralMask c.threshold s.ents)) obs hnd hlt
    (by simp [hml, hd])
  refine ⟨_, rfl, a1, a2, fun k hk => ?_⟩
  rw [a3 k hk]
  congr 1
  have hmk := mask_low c.threshold s.ents k
  have hk1 : k < s.dist.length := by omega
  have hk2 : k < (structuralMask c.threshold s.ents).length := by omega
  rw [List.getD_eq_getElem?_getD, List.getElem?_eq_getElem hk2, Option.getD_some] at hmk
  rw [List.getD_eq_getElem?_getD, List.getElem?_eq_getElem (by simp; omega), Option.getD_some, List.getElem_zipWith, hmk]
  simp only [List.getElem_map, decide_eq_true_eq, modelRatio]
  rw [List.getD_eq_getElem?_getD (l := s.dist), List.getElem?_eq_getElem hk1, Option.getD_some]

/-- C64: a predefined model is cut to the model bits of the code; a model with a row for each of them is ready for
prediction, and a shorter one makes every prediction raise an IndexError. -/
theorem c64_predefined {c : EbdCfg} (hp : c.predefined = true) (model : List (List ℝ))
    (hl : c.modelLength = predefinedLength model.length c.idx.length) (l : Λ) :
    let s : Ebd Λ := Ebd.newWith c.modelLength model l
    s.ready c = true ∧ s.dist = model.take c.idx.length ∧
    s.ents = (model.take c.idx.length).map (fun r => scipyEntropy r 2) ∧
    (c.idx.length ≤ model.length → s.ents.length = c.idx.length ∧ s.dist.length = c.idx.length) ∧
    (0 < model.length → model.length < c.idx.length → ∀ (obs : List ℝ) (bits : List Bool),
      s.predictSoft c obs = .error .indexError ∧ s.predictHard c bits = .error .indexError) := by
  have ht : model.take c.modelLength = model.take c.idx.length := by
    rw [hl, predefinedLength]
    rcases Nat.le_total model.length c.idx.length with h | h
    · rw [Nat.min_eq_left h, List.take_of_length_le (Nat.le_refl _), List.take_of_length_le h]
    · rw [Nat.min_eq_right h]
  intro s
  have hd : s.dist = model.take c.idx.length := ht
  have he : s.ents = (model.take c.idx.length).map (fun r => scipyEntropy r 2) := by
    show rowEntropies (model.take c.modelLength) = _
    rw [ht]; rfl
  have hr : s.ready c = true := by simp [Ebd.ready, hp]
  refine ⟨hr, hd, he, fun h => ?_, fun h0 h1 obs bits => ?_⟩
  · rw [he, hd]; simp [h]
  · have hm : maskIdx c.idx (structuralMask c.threshold s.ents) = .error .indexError := by
      have : (structuralMask c.threshold s.ents).length = model.length := by
        rw [he]; simp [structuralMask]; omega
      unfold maskIdx
      rw [if_neg (by omega), if_pos (by omega)]
    constructor
    · unfold Ebd.predictSoft
      rw [hm]; rfl
    · unfold Ebd.predictHard
      rw [if_pos hr, hm]; rfl

/-- A model of one row for two model bits makes every prediction raise. -/
example : (Ebd.newWith (Λ := Unit) 1 [[1, 0]] ()).predictSoft ⟨[0, 1], 1, 1 / 2, 1, 1, none, true⟩ [3, -2] =
    .error .indexError :=
  ((c64_predefined (c := ⟨[0, 1], 1, 1 / 2, 1, 1, none, true⟩) rfl [[1, 0]] rfl ()).2.2.2.2 (by simp) (by simp)
    [3, -2] []).1

/-- C64. When the learned words show one letter only, the model has no second column and a prediction from it raises an
IndexError. -/
theorem c64_one_letter {c : EbdCfg} (s : Ebd Λ) (hr : s.ready c = true) (n : Nat) (hn : 0 < n)
    (hd : s.dist = List.replicate n [1]) (bits : List Bool) (he : s.ents.length = c.idx.length) :
    s.predictHard c bits = .error .indexError := by
  have hml : (structuralMask c.threshold s.ents).length = c.idx.length := by simp [structuralMask, he]
  unfold Ebd.predictHard
  rw [hr, maskIdx_spec _ _ hml]
  have : rowPairs s.dist = .error .indexError := by
    unfold rowPairs
    rw [if_neg]
    rw [List.all_eq_true]
    intro h
    have := h [1] (by rw [hd]; simp; omega)
    simp at this
  simp only [if_true, bind, Except.bind, this]

theorem setAt_map (f : Nat → Bool) (idx : List Nat) (a : List Bool) (hlt : ∀ i ∈ idx, i < a.length) :
    (setAt a idx (idx.map f)).length = a.length ∧
    ∀ i, (setAt a idx (idx.map f)).getD i false = if i ∈ idx then f i else a.getD i false := by
  induction idx generalizing a with
  | nil => simp [setAt]
  | cons j idx ih =>
    have e : setAt a (j :: idx) ((j :: idx).map f) = setAt (a.set j (f j)) idx (idx.map f) := rfl
    obtain ⟨h1, h2⟩ := ih (a.set j (f j)) (fun i hi => by rw [List.length_set]; exact hlt i (List.mem_cons_of_mem _ hi))
    rw [e]
    refine ⟨by rw [h1, List.length_set], fun i => ?_⟩
    rw [h2 i]
    by_cases hi : i ∈ idx
    · rw [if_pos hi, if_pos (List.mem_cons_of_mem _ hi)]
    · rw [if_neg hi]
      by_cases hij : i = j
      · subst hij
        rw [if_pos (List.mem_cons_self ..), List.getD_eq_getElem?_getD,
          List.getElem?_set_self (hlt i (List.mem_cons_self ..))]
        rfl
      · rw [if_neg (by simp [hi, hij])]
        simp only [List.getD_eq_getElem?_getD, List.getElem?_set_ne (Ne.symm hij)]

open Classical in
/-- C64. Once the model may be used, the flipping decoder's second attempt gets the received word with the low-entropy model
bits set to the value the model considers more probable - provided the model bits are the first bits of the codeword. -/
theorem c64_flip {c : EbdCfg} (s : Ebd Λ) (hr : s.ready c = true) (n : Nat) (hidx : c.idx = List.range n)
    (he : s.ents.length = n) (hd : s.dist.length = n) (hrow : ∀ r ∈ s.dist, 1 < r.length)
    (obs : List Bool) (hlt : n ≤ obs.length) :
    ∃ w, s.predictHard c obs = .ok w ∧ w.length = obs.length ∧
      ∀ k, w.getD k false = if LowAt c.threshold s.ents k then decide (1 / 2 < (s.dist.getD k []).getD 1 0)
        else obs.getD k false := by
  have hml : (structuralMask c.threshold s.ents).length = c.idx.length := by simp [structuralMask, he, hidx]
  have hpairs : rowPairs s.dist = .ok (s.dist.map fun (r : List ℝ) => (r.getD 0 0, r.getD 1 0)) := by
    unfold rowPairs
    rw [if_pos]
    rw [List.all_eq_true]
    intro r h
    simpa using hrow r h
  have hmem : ∀ i, i ∈ ((c.idx.zip (structuralMask c.threshold s.ents)).filterMap fun x => if x.2 then some x.1 else none) ↔
      LowAt c.threshold s.ents i := by
    intro i
    have hmk := mask_low c.threshold s.ents i
    constructor
    · intro h
      obtain ⟨x, hx, hxj⟩ := List.mem_filterMap.1 h
      obtain ⟨k, hk, hkx⟩ := List.getElem_of_mem hx
      rw [List.getElem_zip] at hkx
      split at hxj
      · rename_i h2
        cases hxj
        have hk2 : k < (structuralMask c.threshold s.ents).length := by simp at hk; omega
        have hi : x.1 = k := by rw [← hkx]; simp [hidx]
        rw [hi, List.getD_eq_getElem?_getD, List.getElem?_eq_getElem hk2, Option.getD_some] at hmk
        rw [hi]
        have : x.2 = (structuralMask c.threshold s.ents)[k] := by rw [← hkx]
        rw [← this, h2] at hmk
        exact of_decide_eq_true hmk.symm
      · cases hxj
    · intro h
      have hi : i < (structuralMask c.threshold s.ents).length := by
        obtain ⟨v, hv, _⟩ := h
        have := (List.getElem?_eq_some_iff.1 hv).1
        simp [structuralMask]; exact this
      have hi' : i < c.idx.length := by omega
      rw [decide_eq_true h, List.getD_eq_getElem?_getD, List.getElem?_eq_getElem hi, Option.getD_some] at hmk
      refine List.mem_filterMap.2 ⟨(c.idx[i], (structuralMask c.threshold s.ents)[i]), ?_, ?_⟩
      · rw [← List.getElem_zip (h := by simp; omega)]
        exact List.getElem_mem _
      · simp [hmk, hidx]
  have hin : ∀ i ∈ ((c.idx.zip (structuralMask c.threshold s.ents)).filterMap fun x => if x.2 then some x.1 else none),
      i < n := by
    intro i hi
    obtain ⟨v, hv, _⟩ := (hmem i).1 hi
    have := (List.getElem?_eq_some_iff.1 hv).1
    omega
  unfold Ebd.predictHard
  rw [hr, maskIdx_spec _ _ hml]
  simp only [if_true, bind, Except.bind, hpairs]
  rw [takeIdx_of_lt (by simpa [hd] using hin)]
  simp only
  rw [if_pos (by rw [List.all_eq_true]; intro i hi; have := hin i hi; simp; omega)]
  generalize hst : ((c.idx.zip (structuralMask c.threshold s.ents)).filterMap fun x => if x.2 then some x.1 else none) = st
  rw [hst] at hmem hin
  have hval : (st.filterMap fun x => (((s.dist.map fun (r : List ℝ) => (r.getD 0 0, r.getD 1 0)).map
      fun (p : ℝ × ℝ) => decide (1 / 2 < p.2)))[x]?) = st.map fun i => decide (1 / 2 < (s.dist.getD i []).getD 1 0) := by
    rw [← List.filterMap_eq_map (f := fun i => decide (1 / 2 < (s.dist.getD i []).getD 1 0))]
    refine List.filterMap_congr fun i hi => ?_
    have := hin i hi
    rw [List.getElem?_eq_getElem (by simp; omega)]
    simp only [List.getElem_map, Function.comp, List.getD_eq_getElem?_getD (l := s.dist),
      List.getElem?_eq_getElem (show i < s.dist.length by omega), Option.getD_some]
  rw [hval]
  obtain ⟨h1, h2⟩ := setAt_map (fun i => decide (1 / 2 < (s.dist.getD i []).getD 1 0)) st obs
    (fun i hi => by have := hin i hi; omega)
  refine ⟨_, rfl, h1, fun k => ?_⟩
  rw [h2 k]
  by_cases hk : LowAt c.threshold s.ents k
  · rw [if_pos hk, if_pos ((hmem k).2 hk)]
  · rw [if_neg hk, if_neg (fun h => hk ((hmem k).1 h))]

/-- C64. When the model bits are not the first bits of the codeword - possible with a predefined model - the flipping decoder
sets a structural bit from the wrong row: here the model is certain that its first bit, bit 1 of the codeword, is 1, and a
received 1 is turned into 0. -/
theorem c64_flip_false :
    ∃ (c : EbdCfg) (s : Ebd Unit), c.idx = modelBitsIdxPlain [false, true, true] 3 ∧ c.predefined = true ∧
      s = Ebd.newWith c.modelLength [[0, 1], [1 / 2, 1 / 2]] () ∧ c.modelLength = predefinedLength 2 c.idx.length ∧
      c.idx[0]? = some 1 ∧ LowAt c.threshold s.ents 0 ∧ (s.dist.getD 0 []).getD 1 0 = 1 ∧
      s.predictHard c [true, true, true] = .ok [true, false, true] := by
  refine ⟨⟨[1, 2], 2, 1 / 2, 1, 1, none, true⟩, _, by decide, rfl, rfl, rfl, rfl, ?_, ?_, ?_⟩
  · refine ⟨0, ?_, by norm_num⟩
    simp [Ebd.newWith, rowEntropies, scipyEntropy]
  · simp [Ebd.newWith]
  · have h0 : scipyEntropy [0, 1] 2 = 0 := by simp [scipyEntropy]
    have h1 : scipyEntropy [1 / 2, 1 / 2] 2 = 1 := by
      have := entropyPair (1 / 2)
      norm_num at this
      have h2 : Real.log 2 ≠ 0 := by positivity
      rw [this, show (1 : ℝ) / 2 = 2⁻¹ by norm_num, Real.binEntropy_two_inv, div_self h2]
    have hmask : structuralMask (1 / 2) (Ebd.newWith 2 [[0, 1], [1 / 2, 1 / 2]] ()).ents = [true, false] := by
      simp only [Ebd.newWith, rowEntropies, List.take, List.map, structuralMask, h0, h1]
      norm_num
    unfold Ebd.predictHard
    simp only [Ebd.ready, Bool.true_or, if_true, hmask]
    simp [maskIdx, bind, Except.bind, rowPairs, Ebd.newWith, takeIdx, setAt]

/-- A learning decoder with 136 model bits, the bits of one heartbeat: an LDPC decoder that succeeds with this word makes it
learn the word (`c64_windowed` with a non-empty history). -/
example : Recovered (bytesOf (bitsAt (List.range 136) (exWord.drop (8 * 20)))) := by
  have hb : bytesOf (bitsAt (List.range 136) (exWord.drop (8 * 20))) = sampleBuffer.drop 20 := by decide +kernel
  rw [hb]
  have hm : messagesIn (sampleBuffer.drop 20) = [(0, 0)] := by decide +kernel
  have hl : (sampleBuffer.drop 20).length = 17 := by decide
  intro k hk
  rw [hm]
  refine ⟨(0, 0), by simp, ?_⟩
  rw [hl] at hk
  have h9 : lenOf 0 = 9 := by decide +kernel
  unfold Covers
  simp only [h9]
  omega

/-- The hypotheses of `c64_prediction` and `c64_flip` are met by a decoder with a predefined model. -/
example : ∃ (c : EbdCfg) (s : Ebd Unit), s.ready c = true ∧ c.idx.Nodup ∧ c.idx = List.range 2 ∧
    s.ents.length = c.idx.length ∧ s.dist.length = c.idx.length ∧ (∀ r ∈ s.dist, 1 < r.length) ∧
    LowAt c.threshold s.ents 0 ∧ pyMax [3, -1] = .ok 3 ∧ (1 : ℝ) / 2 < (s.dist.getD 0 []).getD 1 0 := by
  refine ⟨⟨[0, 1], 2, 1 / 2, 1, 1, none, true⟩, Ebd.newWith 2 [[0, 1], [1 / 2, 1 / 2]] (), by simp [Ebd.ready], by simp,
    by decide, by simp [Ebd.newWith, rowEntropies], by simp [Ebd.newWith], by simp [Ebd.newWith], ?_, ?_, ?_⟩
  · refine ⟨0, ?_, by norm_num⟩
    simp [Ebd.newWith, rowEntropies, scipyEntropy]
  · simp [pyMax]; norm_num
  · simp [Ebd.newWith]; norm_num

end NR
