import Mathlib.Data.Nat.Find
import Verif.Lemmas.Segment
import Verif.Lemmas.Packed
/-
C16-C24: segmentation of a buffer into messages (inference/buffer_segmentation.py).
-/
namespace NR
open Spec Dialect

/-! Correspondence between the head of a suffix and `FrameAt`. -/

theorem getD_drop {α : Type _} (l : List α) (i j : Nat) (d : α) : (l.drop i).getD j d = l.getD (i + j) d := by
  simp [List.getD, List.getElem?_drop]

theorem headerAt_iff (buf : List Byte) (i id L : Nat) : HeaderAt buf i id L ↔
    isValidHeader ((buf.drop i).take 6) = true ∧ ((buf.drop i).getD 5 0).toNat = id ∧
      ((buf.drop i).getD 1 0).toNat = L := by
  have hg : ∀ j < 6, ((buf.drop i).take 6).getD j 0 = buf.getD (i + j) 0 := by
    intro j hj
    rw [← getD_drop]
    simp only [List.getD, List.getElem?_take_of_lt hj]
  constructor
  · rintro ⟨h1, h2, h3, h4, h5⟩
    rw [getD_drop, getD_drop]
    refine ⟨?_, h4, h3⟩
    have h6 : ((buf.drop i).take 6).length = 6 := by simp; omega
    obtain ⟨b0, b1, b2, b3, b4, b5, hb⟩ := six_bytes h6
    have g0 := hg 0 (by omega)
    have g1 := hg 1 (by omega)
    have g5 := hg 5 (by omega)
    rw [hb] at g0 g1 g5 ⊢
    simp only [List.getD_cons_zero, List.getD_cons_succ] at g0 g1 g5
    rw [isValidHeader_six, g0, g1, g5]
    exact ⟨h2, by rw [h4, h3]; exact h5⟩
  · rintro ⟨h1, h2, h3⟩
    rw [getD_drop] at h2 h3
    have h6 := isValidHeader_length h1
    have hlen : i + 6 ≤ buf.length := by simp at h6; omega
    obtain ⟨b0, b1, b2, b3, b4, b5, hb⟩ := six_bytes h6
    have g0 := hg 0 (by omega)
    have g1 := hg 1 (by omega)
    have g5 := hg 5 (by omega)
    rw [hb] at g0 g1 g5 h1
    simp only [List.getD_cons_zero, List.getD_cons_succ] at g0 g1 g5
    rw [isValidHeader_six, g0, g1, g5] at h1
    exact ⟨hlen, h1.1, h3, h2, by rw [← h2, ← h3]; exact h1.2⟩

theorem frameHead_iff (acc : List Byte → Bool) (buf : List Byte) (i id L : Nat) :
    frameHead acc (buf.drop i) = some (id, L) ↔ FrameAt (fun c => acc c = true) buf i id L := by
  unfold frameHead FrameAt
  rw [headerAt_iff]
  constructor
  · intro h
    split at h
    · rename_i hc
      injection h with h
      injection h with hid hL
      refine ⟨⟨hc.2.1, hid, hL⟩, ?_, ?_⟩
      · have := hc.1; simp at this; omega
      · have := hc.2.2; rw [hL] at this; exact this
    · cases h
  · rintro ⟨⟨h1, h2, h3⟩, h4, h5⟩
    rw [if_pos]
    · rw [h2, h3]
    · refine ⟨by simp; omega, h1, ?_⟩
      rw [h3]; exact h5

theorem frameAt_lenOf {acc : List Byte → Prop} {buf : List Byte} {i id L : Nat} (h : FrameAt acc buf i id L) :
    lenOf id = L := by unfold lenOf; rw [h.1.known]; rfl

theorem scanS_facts (acc : List Byte → Bool) (buf : List Byte) : ∀ (n off : Nat), buf.length - off = n →
    (∀ r ∈ scanS acc (buf.drop off) off, off ≤ r.1 ∧ FrameAt (fun c => acc c = true) buf r.1 r.2 (lenOf r.2)) ∧
    (scanS acc (buf.drop off) off).Pairwise (fun a b => a.1 + lenOf a.2 + 8 ≤ b.1) ∧
    (∀ i id L, off ≤ i → FrameAt (fun c => acc c = true) buf i id L →
      (i, id) ∈ scanS acc (buf.drop off) off ∨ ∃ r ∈ scanS acc (buf.drop off) off, r.1 < i ∧ Covers r i) ∧
    (∀ k, off ≤ k → k < buf.length →
      (∀ r ∈ scanS acc (buf.drop off) off, Covers r k → (scanL acc (buf.drop off))[k - off]? = some (partOf r k)) ∧
      ((∀ r ∈ scanS acc (buf.drop off) off, ¬ Covers r k) → (scanL acc (buf.drop off))[k - off]? = some .unknown)) := by
  intro n
  induction n using Nat.strongRecOn with
  | ind n ih =>
    intro off hn
    by_cases hoff : buf.length ≤ off
    · rw [List.drop_eq_nil_of_le hoff, scanS, scanL]
      refine ⟨by simp, .nil, ?_, by omega⟩
      intro i id L hi hf
      have := hf.2.1
      omega
    · obtain ⟨b, hb⟩ := drop_cons_of_lt (l := buf) (n := off) (by omega)
      cases hf : frameHead acc (buf.drop off) with
      | none =>
        have hS : scanS acc (buf.drop off) off = scanS acc (buf.drop (off + 1)) (off + 1) := by
          rw [hb, scanS, ← hb, hf]
        have hL : scanL acc (buf.drop off) = .unknown :: scanL acc (buf.drop (off + 1)) := by
          rw [hb, scanL, ← hb, hf]
        obtain ⟨i1, i2, i3, i4⟩ := ih (buf.length - (off + 1)) (by omega) (off + 1) rfl
        rw [hS, hL]
        refine ⟨fun r hr => ⟨by have := (i1 r hr).1; omega, (i1 r hr).2⟩, i2, ?_, ?_⟩
        · intro i id L hi hfr
          rcases Nat.eq_or_lt_of_le hi with h | h
          · subst h
            rw [← frameHead_iff, hf] at hfr
            cases hfr
          · exact i3 i id L h hfr
        · intro k hk hkl
          rcases Nat.eq_or_lt_of_le hk with h | h
          · subst h
            refine ⟨?_, fun _ => by simp⟩
            intro r hr hc
            have := (i1 r hr).1
            have := hc.1
            omega
          · have := i4 k h hkl
            rw [show k - off = (k - (off + 1)) + 1 by omega, List.getElem?_cons_succ]
            exact this
      | some x =>
        obtain ⟨id, L⟩ := x
        have hfr := (frameHead_iff acc buf off id L).1 hf
        have hlen := frameAt_lenOf hfr
        have hS : scanS acc (buf.drop off) off = (off, id) :: scanS acc (buf.drop (off + L + 8)) (off + L + 8) := by
          rw [hb, scanS, ← hb, hf]
          simp only [List.drop_drop]
          rw [show off + 1 + (L + 7) = off + L + 8 by omega]
        have hL : scanL acc (buf.drop off) =
            (msgLabels L).take (buf.length - off) ++ scanL acc (buf.drop (off + L + 8)) := by
          rw [hb, scanL, ← hb, hf]
          simp only [List.drop_drop, List.length_drop]
          rw [show buf.length - (off + 1) + 1 = buf.length - off by omega, show off + 1 + (L + 7) = off + L + 8 by omega]
        obtain ⟨i1, i2, i3, i4⟩ := ih (buf.length - (off + L + 8)) (by omega) (off + L + 8) rfl
        rw [hS, hL]
        refine ⟨?_, ?_, ?_, ?_⟩
        · intro r hr
          rcases List.mem_cons.1 hr with rfl | hr
          · simp only [hlen]; exact ⟨Nat.le_refl _, hfr⟩
          · exact ⟨by have := (i1 r hr).1; omega, (i1 r hr).2⟩
        · refine List.pairwise_cons.2 ⟨?_, i2⟩
          intro r hr
          have := (i1 r hr).1
          simp only [hlen]; omega
        · intro i id' L' hi hfr'
          rcases Nat.eq_or_lt_of_le hi with h | h
          · subst h
            rw [← frameHead_iff, hf] at hfr'
            injection hfr' with h'
            injection h' with h1 h2
            subst h1
            exact Or.inl List.mem_cons_self
          · by_cases hin : i < off + L + 8
            · exact Or.inr ⟨(off, id), List.mem_cons_self, h, by unfold Covers; simp only [hlen]; omega⟩
            · rcases i3 i id' L' (by omega) hfr' with h' | ⟨r, hr, h'⟩
              · exact Or.inl (List.mem_cons_of_mem _ h')
              · exact Or.inr ⟨r, List.mem_cons_of_mem _ hr, h'⟩
        · intro k hk hkl
          by_cases hin : k < off + L + 8
          · have hget : ((msgLabels L).take (buf.length - off) ++ scanL acc (buf.drop (off + L + 8)))[k - off]? =
                some (partOf (off, id) k) := by
              rw [List.getElem?_append_left (by simp [msgLabels_length]; omega), List.getElem?_take_of_lt (by omega),
                msgLabels_get]
              unfold partOf
              simp only [hlen]
              by_cases h1 : k < off + 6
              · rw [if_pos h1, if_pos (by omega)]
              · by_cases h2 : k < off + 6 + L
                · rw [if_neg h1, if_pos h2, if_neg (by omega), if_pos (by omega)]
                · rw [if_neg h1, if_neg h2, if_neg (by omega), if_neg (by omega), if_pos (by omega)]
            refine ⟨?_, ?_⟩
            · intro r hr hc
              rcases List.mem_cons.1 hr with rfl | hr
              · exact hget
              · have := (i1 r hr).1
                have := hc.1
                omega
            · intro hno
              exact absurd (show Covers (off, id) k by unfold Covers; simp only [hlen]; omega)
                (hno _ List.mem_cons_self)
          · have := i4 k (by omega) hkl
            rw [List.getElem?_append_right (by simp [msgLabels_length]; omega)]
            have hlt : k - off - ((msgLabels L).take (buf.length - off)).length = k - (off + L + 8) := by
              simp [msgLabels_length]; omega
            rw [hlt]
            refine ⟨?_, ?_⟩
            · intro r hr hc
              rcases List.mem_cons.1 hr with rfl | hr
              · have := hc.2
                simp only [hlen] at this
                omega
              · exact this.1 r hr hc
            · intro hno
              exact this.2 (fun r hr => hno r (List.mem_cons_of_mem _ hr))

section
variable {ρ : Type _} (parser : List Byte → Except PyErr ρ) (buf : List Byte) (st : SegState)
  (h : segmentBuffer parser buf = .ok st)
include h

open Classical in
theorem segment_facts :
    (∀ r ∈ st.struct, FrameAt (fun c => Returns (parser c)) buf r.1 r.2 (lenOf r.2)) ∧
    st.struct.Pairwise (fun a b => a.1 + lenOf a.2 + 8 ≤ b.1) ∧
    (∀ i id L, FrameAt (fun c => Returns (parser c)) buf i id L →
      (i, id) ∈ st.struct ∨ ∃ r ∈ st.struct, r.1 < i ∧ Covers r i) ∧
    (∀ k, k < buf.length →
      (∀ r ∈ st.struct, Covers r k → st.parts[k]? = some (partOf r k)) ∧
      ((∀ r ∈ st.struct, ¬ Covers r k) → st.parts[k]? = some .unknown)) := by
  obtain ⟨hp, _, hs⟩ := segment_scan parser buf st h
  obtain ⟨i1, i2, i3, i4⟩ := scanS_facts (fun c => decide (Returns (parser c))) buf _ 0 rfl
  simp only [List.drop_zero, decide_eq_true_eq, Nat.sub_zero] at i1 i2 i3 i4
  rw [hs, hp]
  exact ⟨fun r hr => (i1 r hr).2, i2, fun i id L hf => i3 i id L (by omega) hf, fun k hk => i4 k (by omega) hk⟩

/-- C16: every reported message has a valid header of that id at that index and its bytes are accepted by the
parser. -/
theorem c16_genuine (i id : Nat) (hr : (i, id) ∈ st.struct) :
    ∃ L, HeaderAt buf i id L ∧ Returns (parser (frameBytes buf i L)) := by
  have := (segment_facts parser buf st h).1 _ hr
  exact ⟨_, this.1, this.2.2⟩

/-- C17: start indices increase and message ranges are disjoint. -/
theorem c17_ordered_disjoint : st.struct.Pairwise (fun a b => a.1 < b.1 ∧ ∀ k, ¬ (Covers a k ∧ Covers b k)) := by
  refine List.Pairwise.imp ?_ (segment_facts parser buf st h).2.1
  intro a b hab
  refine ⟨by omega, ?_⟩
  rintro k ⟨⟨_, h1⟩, ⟨h2, _⟩⟩
  omega

/-- C18: labels describe exactly the reported messages. -/
theorem c18_labels (k : Nat) (hk : k < buf.length) :
    st.parts.length = buf.length ∧
    (∀ r ∈ st.struct, Covers r k → st.parts[k]? = some (partOf r k)) ∧
    ((∀ r ∈ st.struct, ¬ Covers r k) → st.parts[k]? = some .unknown) := by
  obtain ⟨hp, _, _⟩ := segment_scan parser buf st h
  refine ⟨?_, (segment_facts parser buf st h).2.2.2 k hk⟩
  rw [hp, scanL_length]

/-- C18: eight validity entries per byte, 1 on the bytes of reported messages and 0 elsewhere. -/
theorem c18_validity :
    st.validity.length = 8 * buf.length ∧
    ∀ b, b < 8 * buf.length →
      ((∃ r ∈ st.struct, Covers r (b / 8)) → st.validity[b]? = some 1) ∧
      ((¬ ∃ r ∈ st.struct, Covers r (b / 8)) → st.validity[b]? = some 0) := by
  obtain ⟨hp, hv, _⟩ := segment_scan parser buf st h
  have hlen : st.parts.length = buf.length := by rw [hp, scanL_length]
  have hvl : ∀ l : List MsgPart, (validOf l).length = 8 * l.length := by
    intro l
    induction l with
    | nil => rfl
    | cons p l ih => simp only [validOf, List.flatMap_cons, List.length_append, List.length_replicate, List.length_cons] at *; omega
  refine ⟨by rw [hv, hvl, hlen], ?_⟩
  intro b hb
  obtain ⟨h1, h2⟩ := (segment_facts parser buf st h).2.2.2 (b / 8) (by omega)
  constructor
  · rintro ⟨r, hr, hc⟩
    rw [hv, validOf_get, h1 r hr hc]
    simp only [Option.map_some, Option.some.injEq]
    unfold partOf
    split
    · rfl
    · split <;> rfl
  · intro hno
    rw [hv, validOf_get, h2 (fun r hr hc => hno ⟨r, hr, hc⟩)]
    rfl

/-- C19: a message is reported exactly when a frame starts there and the position is not inside a message reported
at an earlier position. -/
theorem c19_greedy (i id : Nat) :
    (i, id) ∈ st.struct ↔
      (∃ L, FrameAt (fun c => Returns (parser c)) buf i id L) ∧ ∀ r ∈ st.struct, r.1 < i → ¬ Covers r i := by
  obtain ⟨h1, h2, h3, _⟩ := segment_facts parser buf st h
  constructor
  · intro hm
    refine ⟨⟨_, h1 _ hm⟩, ?_⟩
    intro r hr hlt hc
    -- two different reported messages do not overlap
    have hself : Covers (i, id) i := ⟨Nat.le_refl _, by simp only; omega⟩
    have hne : r ≠ (i, id) := by intro he; subst he; simp at hlt
    have hpw := c17_ordered_disjoint parser buf st h
    have : ∀ (l : List (Nat × Nat)) (a b : Nat × Nat), a ∈ l → b ∈ l → a ≠ b →
        l.Pairwise (fun a b => a.1 < b.1 ∧ ∀ k, ¬ (Covers a k ∧ Covers b k)) → ¬ (Covers a i ∧ Covers b i) := by
      intro l
      induction l with
      | nil => simp
      | cons x l ih =>
        intro a b ha hb hab hp
        obtain ⟨hp1, hp2⟩ := List.pairwise_cons.1 hp
        rcases List.mem_cons.1 ha with ha' | ha' <;> rcases List.mem_cons.1 hb with hb' | hb'
        · exact absurd (ha'.trans hb'.symm) hab
        · subst ha'; exact (hp1 b hb').2 i
        · subst hb'; exact fun hh => (hp1 a ha').2 i ⟨hh.2, hh.1⟩
        · exact ih a b ha' hb' hab hp2
    exact this _ _ _ hr hm hne hpw ⟨hc, hself⟩
  · rintro ⟨⟨L, hf⟩, hno⟩
    rcases h3 i id L hf with hm | ⟨r, hr, hlt, hc⟩
    · exact hm
    · exact absurd hc (hno r hr hlt)

/-- C19: no acceptable frame starts at a byte labelled UNKNOWN. -/
theorem c19_unknown (i id L : Nat) (hu : st.parts[i]? = some .unknown) :
    ¬ FrameAt (fun c => Returns (parser c)) buf i id L := by
  intro hf
  have hi : i < buf.length := by have := hf.2.1; omega
  obtain ⟨_, _, h3, h4⟩ := segment_facts parser buf st h
  have hcov : ∃ r ∈ st.struct, Covers r i := by
    rcases h3 i id L hf with hm | ⟨r, hr, _, hc⟩
    · exact ⟨_, hm, Nat.le_refl _, by simp only; omega⟩
    · exact ⟨r, hr, hc⟩
  obtain ⟨r, hr, hc⟩ := hcov
  have := (h4 i hi).1 r hr hc
  rw [hu] at this
  injection this with this
  unfold partOf at this
  split at this
  · cases this
  · split at this <;> cases this

end

/-- C16: with the dialect's decoder every reported message lies inside the buffer. -/
theorem c16_fits (buf : List Byte) (st : SegState) (h : segmentBuffer decode buf = .ok st) (i id : Nat)
    (hr : (i, id) ∈ st.struct) : ∃ L, HeaderAt buf i id L ∧ Returns (decode (frameBytes buf i L)) ∧
      i + L + 8 ≤ buf.length ∧ (frameBytes buf i L).length = L + 8 := by
  obtain ⟨L, hh, hd⟩ := c16_genuine decode buf st h i id hr
  have hh' := hh
  obtain ⟨h1, h2, h3, h4, h5⟩ := hh'
  have hg : ∀ j, j < L + 8 → (frameBytes buf i L).getD j 0 = buf.getD (i + j) 0 := by
    intro j hj
    rw [← getD_drop]
    simp only [frameBytes, List.getD, List.getElem?_take_of_lt hj]
  have hv1 : (frameBytes buf i L).head? = some 254 := by
    have hne : 0 < (frameBytes buf i L).length := by simp [frameBytes]; omega
    have := hg 0 (by omega)
    rw [List.head?_eq_getElem?, List.getElem?_eq_getElem hne, Option.some.injEq]
    rw [getD_lt _ _ hne] at this
    rw [this]
    exact BitVec.eq_of_toNat_eq (by simpa using h2)
  obtain ⟨h8, hl, _⟩ := (c13_accept_iff _ hv1).1 hd
  rw [hg 1 (by omega), h3] at hl
  have hlen : (frameBytes buf i L).length = min (L + 8) (buf.length - i) := by simp [frameBytes]
  exact ⟨L, hh, hd, by omega, by omega⟩

/-! ### C20 -/

theorem segStep_error {ρ : Type _} (parser : List Byte → Except PyErr ρ) {buf : List Byte} {n : Nat} {st : SegState}
    {e : PyErr} (hn : n + 8 ≤ buf.length) (hlen : st.parts.length = buf.length)
    (h : segStep parser buf st n = .error e) :
    st.parts[n]? = some .unknown ∧ e ≠ .mavError ∧
      ∃ id L, HeaderAt buf n id L ∧ parser (frameBytes buf n L) = .error e := by
  unfold segStep at h
  rw [List.getElem?_eq_getElem (by omega)] at h
  simp only at h
  split at h
  · cases h
  · rename_i hu
    simp only [headerLen, pySlice_add, show protocolOverhead = 8 from rfl] at h
    split at h
    · rename_i hv
      obtain ⟨hd, hfb, hdl, hdi⟩ := fromBuffer_valid hv
      simp only [hfb, hdl, hdi, Nat.add_assoc, pySlice_add] at h
      split at h
      · cases h
      · rename_i e' hne hpar
        injection h with h
        subst h
        refine ⟨?_, hne, ((buf.drop n).getD 5 0).toNat, ((buf.drop n).getD 1 0).toNat,
          (headerAt_iff _ _ _ _).2 ⟨hv, rfl, rfl⟩, hpar⟩
        rw [List.getElem?_eq_getElem (by omega)]
        simpa using hu
      · cases h
    · cases h

open Classical in
theorem segLoop_error {ρ : Type _} (parser : List Byte → Except PyErr ρ) (buf : List Byte) (n : Nat)
    (hn : n ≤ buf.length + 1 - 8) (e : PyErr)
    (h : (List.range n).foldlM (segStep parser buf) (segInit buf) = .error e) :
    ∃ i id L, i + 8 ≤ buf.length ∧ HeaderAt buf i id L ∧ e ≠ .mavError ∧ parser (frameBytes buf i L) = .error e := by
  induction n with
  | zero => simp [List.range_zero, pure, Except.pure] at h
  | succ n ih =>
    rw [foldlM_range_succ] at h
    cases h1 : (List.range n).foldlM (segStep parser buf) (segInit buf) with
    | error e' =>
      rw [h1] at h
      injection h with h
      subst h
      exact ih (by omega) h1
    | ok st1 =>
      rw [h1] at h
      obtain ⟨cur, P, inv⟩ := segLoop_inv parser buf n (by omega) st1 h1
      have hlen : st1.parts.length = buf.length := by
        rw [inv.parts, List.length_append, List.length_replicate, inv.plen]
        have := inv.leLen
        omega
      obtain ⟨_, hne, id, L, hh, hp⟩ := segStep_error parser (by omega) hlen h
      exact ⟨n, id, L, by omega, hh, hne, hp⟩

/-- C20: the only exceptions `segment_buffer` can raise are those the parser raised, other than MAVError, on the
bytes following a valid header. -/
theorem c20_raises {ρ : Type _} (parser : List Byte → Except PyErr ρ) (buf : List Byte) (e : PyErr)
    (h : Raises (segmentBuffer parser buf) e) :
    e ≠ .mavError ∧ ∃ i id L, HeaderAt buf i id L ∧ Raises (parser (frameBytes buf i L)) e := by
  obtain ⟨i, id, L, _, hh, hne, hp⟩ := segLoop_error parser buf _ (Nat.le_refl _) e h
  exact ⟨hne, i, id, L, hh, hp⟩

open Classical in
/-- C20: conversely, if the parser raises something other than MAVError at a valid header that is not inside an
earlier message, `segment_buffer` does not return. -/
theorem c20_propagates {ρ : Type _} (parser : List Byte → Except PyErr ρ) (buf : List Byte) (st : SegState)
    (h : segmentBuffer parser buf = .ok st) (i id L : Nat) (hh : HeaderAt buf i id L) (h8 : i + 8 ≤ buf.length)
    (e : PyErr) (hp : Raises (parser (frameBytes buf i L)) e) :
    e = .mavError ∨ ∃ r ∈ st.struct, r.1 < i ∧ Covers r i := by
  by_cases hcov : ∃ r ∈ st.struct, r.1 < i ∧ Covers r i
  · exact Or.inr hcov
  · left
    -- the label is unknown at the end
    have hnc : ∀ r ∈ st.struct, ¬ Covers r i := by
      intro r hr hc
      rcases Nat.lt_or_ge r.1 i with hlt | hge
      · exact hcov ⟨r, hr, hlt, hc⟩
      · have hi : r.1 = i := by have := hc.1; omega
        obtain ⟨L', hh', hd'⟩ := c16_genuine parser buf st h r.1 r.2 hr
        rw [hi] at hh' hd'
        have : L' = L := by rw [← hh'.lenByte, ← hh.lenByte]
        rw [this, hp] at hd'
        obtain ⟨_, hd'⟩ := hd'; cases hd'
    have hunk := ((segment_facts parser buf st h).2.2.2 i (by omega)).2 hnc
    -- look at the state when the loop reaches `i`
    have hsplit : List.range (buf.length + 1 - protocolOverhead) =
        List.range i ++ (i :: (List.range (buf.length + 1 - protocolOverhead)).drop (i + 1)) := by
      have hi : i < (List.range (buf.length + 1 - protocolOverhead)).length := by
        simp [show protocolOverhead = 8 from rfl]; omega
      conv => lhs; rw [← List.take_append_drop i (List.range (buf.length + 1 - protocolOverhead)),
        List.drop_eq_getElem_cons hi]
      rw [List.getElem_range, List.take_range, Nat.min_eq_left (by simp at hi; omega)]
    have h' := h
    unfold segmentBuffer at h'
    rw [hsplit, List.foldlM_append] at h'
    cases h1 : (List.range i).foldlM (segStep parser buf) (segInit buf) with
    | error e' => rw [h1] at h'; cases h'
    | ok st1 =>
      rw [h1] at h'
      simp only [bind, Except.bind, List.foldlM_cons] at h'
      obtain ⟨cur, P, inv⟩ := segLoop_inv parser buf i (by omega) st1 h1
      have hcur : cur = i := by
        rcases Nat.lt_or_ge i cur with hlt | hge
        · exfalso
          have hP : i < P.length := by rw [inv.plen]; exact hlt
          have hb := inv.busy i (Nat.le_refl _) hlt _ (List.getElem?_eq_getElem hP)
          obtain ⟨hsp, _, _⟩ := segment_scan parser buf st h
          rw [hsp, ← inv.labels, List.getElem?_append_left hP, List.getElem?_eq_getElem hP] at hunk
          injection hunk with hunk
          exact hb hunk
        · have := inv.le; omega
      have hget : st1.parts[i]? = some .unknown := by
        rw [inv.parts, List.getElem?_append_right (by rw [inv.plen]; omega), inv.plen, List.getElem?_replicate,
          if_pos (by omega)]
      obtain ⟨hv, hid, hL⟩ := (headerAt_iff _ _ _ _).1 hh
      obtain ⟨hd, hfb, hdl, hdi⟩ := fromBuffer_valid hv
      cases hs : segStep parser buf st1 i with
      | error e' => rw [hs] at h'; cases h'
      | ok st2 =>
        unfold segStep at hs
        simp only [hget, ne_eq, not_true_eq_false, if_false, headerLen, pySlice_add,
          show protocolOverhead = 8 from rfl, hv, if_true, hfb, hdl, hdi, Nat.add_assoc, hL] at hs
        have hp' : parser ((buf.drop i).take (L + 8)) = .error e := hp
        rw [hp'] at hs
        cases e
        case mavError => rfl
        all_goals cases hs

/-- C20: with the dialect's decoder `segment_buffer` returns normally for every byte string, with one label per
byte. -/
theorem c20_never_raises (buf : List Byte) :
    ∃ st, segmentBuffer decode buf = .ok st ∧ st.parts.length = buf.length := by
  cases h : segmentBuffer decode buf with
  | ok st =>
    obtain ⟨hp, _, _⟩ := segment_scan decode buf st h
    exact ⟨st, rfl, by rw [hp, scanL_length]⟩
  | error e =>
    exfalso
    obtain ⟨hne, i, id, L, hh, hp⟩ := c20_raises decode buf e h
    have hnil : frameBytes buf i L ≠ [] := by
      intro h0
      have h1 := congrArg List.length h0
      have h2 := hh.inside
      simp [frameBytes] at h1
      omega
    rcases c12_only_maverror _ hnil with ⟨a, ha⟩ | hm
    · rw [Raises, ha] at hp; cases hp
    · rw [Raises, hm] at hp; injection hp with hp; exact hne hp.symm

/-- Junk, a heartbeat, a stray marker and a second heartbeat: the hypotheses of the theorems above are met, with both
messages reported and the junk left unknown. -/
def sampleBuffer : List Byte :=
  [7, 254, 254, 9, 7, 1, 1, 0, 255, 255, 255, 255, 2, 3, 81, 4, 3, 241, 77, 254,
   254, 9, 8, 1, 1, 0, 255, 255, 255, 255, 2, 3, 81, 4, 3, 21, 210]

example : ∃ st, segmentBuffer decode sampleBuffer = .ok st ∧ st.struct = [(2, 0), (20, 0)] ∧
    st.parts.getD 19 .header = .unknown ∧ st.parts.getD 2 .unknown = .header := by
  obtain ⟨st, h⟩ : Returns (segmentBuffer decode sampleBuffer) := by decide +kernel
  refine ⟨st, h, ?_⟩
  have h1 : (segmentBuffer decode sampleBuffer).toOption.map (fun st => (st.struct, st.parts.getD 19 .header,
      st.parts.getD 2 .unknown)) = some ([(2, 0), (20, 0)], .unknown, .header) := by decide +kernel
  rw [h] at h1
  simpa [Except.toOption] using h1

/-- A parser that fails with something other than MAVError at a valid header: `segment_buffer` raises it. -/
example : Raises (segmentBuffer (fun _ => (.error .structError : Except PyErr Unit)) sampleBuffer) .structError := by
  decide +kernel

/-! ### C22 -/

/-- Frames accepted by the decoder at the head of `s` fit in `s`. -/
theorem accepted_fits {s : List Byte} (hv : isValidHeader (s.take 6) = true)
    (hd : Returns (decode (s.take ((s.getD 1 0).toNat + 8)))) : (s.getD 1 0).toNat + 8 ≤ s.length := by
  have h6 := isValidHeader_length hv
  have h6' : 6 ≤ s.length := by simp at h6; omega
  obtain ⟨b0, b1, b2, b3, b4, b5, hb⟩ := six_bytes h6
  rw [hb, isValidHeader_six] at hv
  generalize hL : (s.getD 1 0).toNat = L at hd
  have h0 : s[0]? = some 254 := by
    have h1 : (s.take 6)[0]? = some b0 := by rw [hb]; rfl
    rw [List.getElem?_take_of_lt (by omega)] at h1
    have e0 : b0 = 254 := by apply BitVec.eq_of_toNat_eq; simpa using hv.1
    rw [h1, e0]
  have hv1 : (s.take (L + 8)).head? = some 254 := by
    rw [List.head?_eq_getElem?, List.getElem?_take_of_lt (by omega)]; exact h0
  obtain ⟨h8, hl, _⟩ := (c13_accept_iff _ hv1).1 hd
  have hg : (s.take (L + 8)).getD 1 0 = s.getD 1 0 := by
    simp only [List.getD, List.getElem?_take_of_lt (show 1 < L + 8 by omega)]
  rw [hg, hL] at hl
  simp at hl h8
  omega

theorem frameHead_append {acc : List Byte → Bool} (hacc : ∀ c, acc c = true → Returns (decode c)) {a b : List Byte}
    {id L : Nat} (h : frameHead acc a = some (id, L)) :
    L + 8 ≤ a.length ∧ frameHead acc (a ++ b) = some (id, L) := by
  unfold frameHead at h
  split at h
  · rename_i hc
    injection h with h
    injection h with h1 h2
    have hfit := accepted_fits hc.2.1 (hacc _ hc.2.2)
    rw [h2] at hfit
    have hg : ∀ i, i < a.length → (a ++ b).getD i 0 = a.getD i 0 := by
      intro i hi
      simp only [List.getD, List.getElem?_append_left hi]
    refine ⟨hfit, ?_⟩
    unfold frameHead
    rw [hg 1 (by omega), hg 5 (by omega), h1, h2]
    refine if_pos ⟨by simp; omega, ?_, ?_⟩
    · rw [List.take_append_of_le_length (by omega)]; exact hc.2.1
    · rw [List.take_append_of_le_length (by omega)]
      have := hc.2.2
      rw [h2] at this
      exact this
  · cases h

theorem scan_append {acc : List Byte → Bool} (hacc : ∀ c, acc c = true → Returns (decode c)) (a b : List Byte)
    (hfull : ∀ p ∈ scanL acc a, p ≠ .unknown) :
    scanL acc (a ++ b) = scanL acc a ++ scanL acc b ∧
      ∀ off, scanS acc (a ++ b) off = scanS acc a off ++ scanS acc b (off + a.length) := by
  generalize hn : a.length = n
  induction n using Nat.strongRecOn generalizing a with
  | ind n ih =>
    subst hn
    match a with
    | [] => simp [scanL, scanS]
    | x :: s =>
      cases hf : frameHead acc (x :: s) with
      | none =>
        exfalso
        apply hfull .unknown _ rfl
        rw [scanL, hf]
        exact List.mem_cons_self
      | some y =>
        obtain ⟨id, L⟩ := y
        obtain ⟨hfit, hf'⟩ := frameHead_append hacc (b := b) hf
        have hsd : (s ++ b).drop (L + 7) = s.drop (L + 7) ++ b := by
          rw [List.drop_append_of_le_length (by simp at hfit; omega)]
        have hsl : (s.drop (L + 7)).length < (x :: s).length := by simp; omega
        have hrest : ∀ p ∈ scanL acc (s.drop (L + 7)), p ≠ .unknown := by
          intro p hp
          apply hfull
          rw [scanL, hf]
          exact List.mem_append_right _ hp
        obtain ⟨hL, hS⟩ := ih _ hsl _ hrest rfl
        have htake : ∀ k, s.length + 1 ≤ k → (msgLabels L).take k = msgLabels L := by
          intro k hk
          apply List.take_of_length_le
          rw [msgLabels_length]
          simp at hfit; omega
        constructor
        · rw [List.cons_append, scanL]
          rw [List.cons_append] at hf'
          rw [hf', scanL, hf]
          simp only [hsd, hL]
          rw [htake _ (by simp), htake _ (by omega), List.append_assoc]
        · intro off
          rw [List.cons_append, scanS]
          rw [List.cons_append] at hf'
          rw [hf', scanS, hf]
          simp only [hsd, hS, List.cons_append]
          congr 3
          simp at hfit ⊢
          omega

theorem scanS_shift (acc : List Byte → Bool) (s : List Byte) (off d : Nat) :
    scanS acc s (off + d) = (scanS acc s off).map fun r => (r.1 + d, r.2) := by
  fun_induction scanS acc s off with
  | case1 => rw [scanS]; rfl
  | case2 off b s h ih =>
    rw [scanS, h]
    simp only
    rw [← ih]
    congr 1
    omega
  | case3 off b s id L h ih =>
    rw [scanS, h]
    simp only [List.map_cons]
    rw [← ih]
    congr 2
    omega

theorem validOf_append (a b : List MsgPart) : validOf (a ++ b) = validOf a ++ validOf b := by simp [validOf]

/-- C22: a fully recovered prefix does not influence what is found after it, and nothing after it influences what is
found in it. -/
theorem c22_prefix (a b : List Byte) (sa sb sab : SegState) (ha : segmentBuffer decode a = .ok sa)
    (hb : segmentBuffer decode b = .ok sb) (hab : segmentBuffer decode (a ++ b) = .ok sab)
    (hfull : ∀ p ∈ sa.parts, p ≠ .unknown) :
    sab.parts = sa.parts ++ sb.parts ∧ sab.validity = sa.validity ++ sb.validity ∧
      sab.struct = sa.struct ++ sb.struct.map (fun r => (r.1 + a.length, r.2)) := by
  obtain ⟨pa, va, ta⟩ := segment_scan decode a sa ha
  obtain ⟨pb, vb, tb⟩ := segment_scan decode b sb hb
  obtain ⟨pab, vab, tab⟩ := segment_scan decode (a ++ b) sab hab
  rw [pa] at hfull
  obtain ⟨hL, hS⟩ := scan_append (fun c hc => of_decide_eq_true hc) a b hfull
  have hp : sab.parts = sa.parts ++ sb.parts := by rw [pab, pa, pb, hL]
  refine ⟨hp, ?_, ?_⟩
  · rw [vab, va, vb, hp, validOf_append]
  · rw [tab, ta, tb, hS, Nat.zero_add, ← scanS_shift, Nat.zero_add]

/-- The hypothesis of `c22_prefix` is met by a buffer holding one whole heartbeat. -/
example : ∃ sa, segmentBuffer decode (sampleBuffer.drop 20) = .ok sa ∧ sa.parts.length = 17 ∧
    ∀ p ∈ sa.parts, p ≠ .unknown := by
  obtain ⟨st, h⟩ : Returns (segmentBuffer decode (sampleBuffer.drop 20)) := by decide +kernel
  refine ⟨st, h, ?_⟩
  have h1 : (segmentBuffer decode (sampleBuffer.drop 20)).toOption.map (fun st => decide (st.parts.length = 17 ∧
      ∀ p ∈ st.parts, p ≠ .unknown)) = some true := by decide +kernel
  rw [h] at h1
  simpa [Except.toOption] using h1

/-! ### C21, C23 -/

/-- `f` is a frame the packer emits for a message of type `m`. -/
def PackedFrame (m : MsgClass) (f : List Byte) : Prop :=
  m ∈ mavlinkMap ∧ ∃ (fields : List FieldVal) (seq sys comp : Int), packMsg m fields seq sys comp = .ok f

/-- Offsets and ids of frames standing back to back from `off` on. -/
def layout (off : Nat) : List (MsgClass × List Byte) → List (Nat × Nat)
  | [] => []
  | (m, f) :: rest => (off, m.id) :: layout (off + f.length) rest

theorem packed_head {m : MsgClass} {f : List Byte} (hp : PackedFrame m f) :
    8 ≤ f.length ∧ f.length < 264 ∧ f.getD 0 0 = 254 ∧ (f.getD 1 0).toNat = f.length - 8 ∧ (f.getD 5 0).toNat = m.id ∧
      Returns (decode f) := by
  obtain ⟨hm, fields, seq, sys, comp, hp⟩ := hp
  have hacc := packMsg_accepted hm hp
  obtain ⟨p, fmt, _, _, _, h256, _, _, _, rfl⟩ := packMsg_shape hp
  refine ⟨by simp [leBytes_length], by simp [leBytes_length]; omega, rfl, ?_, ?_, hacc⟩
  · simp [leBytes_length]; omega
  · simpa using (classOK hm).idLt

theorem packed_frameHead {m : MsgClass} {f : List Byte} (hp : PackedFrame m f) (hn : NoArrays m)
    {acc : List Byte → Bool} (hacc : ∀ c, Returns (decode c) → acc c = true) :
    frameHead acc f = some (m.id, f.length - 8) := by
  obtain ⟨h8, h264, h0, h1, h5, hd⟩ := packed_head hp
  obtain ⟨hm, fields, seq, sys, comp, hp⟩ := hp
  have hlen := c08_no_arrays m hm hn fields seq sys comp f hp
  unfold frameHead
  rw [h1, h5]
  refine if_pos ⟨h8, ?_, ?_⟩
  · have h6 : (f.take 6).length = 6 := by simp; omega
    obtain ⟨b0, b1, b2, b3, b4, b5, hb⟩ := six_bytes h6
    have hg : ∀ j < 6, (f.take 6).getD j 0 = f.getD j 0 := by
      intro j hj
      simp only [List.getD, List.getElem?_take_of_lt hj]
    have g0 := hg 0 (by omega)
    have g1 := hg 1 (by omega)
    have g5 := hg 5 (by omega)
    rw [hb] at g0 g1 g5 ⊢
    simp only [List.getD_cons_zero, List.getD_cons_succ] at g0 g1 g5
    rw [isValidHeader_six, g0, g1, g5, h0, h1, h5]
    exact ⟨rfl, hlen⟩
  · apply hacc
    rw [List.take_of_length_le (by omega)]
    exact hd

theorem msgLabels_known (L : Nat) : ∀ p ∈ msgLabels L, p ≠ .unknown := by
  intro p hp
  simp only [msgLabels, List.mem_append, List.mem_replicate] at hp
  rcases hp with (⟨_, rfl⟩ | ⟨_, rfl⟩) | ⟨_, rfl⟩ <;> decide

/-- C21: back-to-back packed messages without array fields are all recovered: their ids at their offsets, no byte
unknown, every bit valid. -/
theorem c21_concatenation (msgs : List (MsgClass × List Byte))
    (hp : ∀ x ∈ msgs, PackedFrame x.1 x.2 ∧ NoArrays x.1) :
    ∃ st, segmentBuffer decode (msgs.map Prod.snd).flatten = .ok st ∧ st.struct = layout 0 msgs ∧
      (∀ p ∈ st.parts, p ≠ .unknown) ∧ ∀ v ∈ st.validity, v = 1 := by
  obtain ⟨st, hst, hlen⟩ := c20_never_raises (msgs.map Prod.snd).flatten
  obtain ⟨h1, h2, h3⟩ := segment_scan decode _ st hst
  refine ⟨st, hst, ?_⟩
  classical
  have key : ∀ (acc : List Byte → Bool), (∀ c, Returns (decode c) → acc c = true) →
      (∀ c, acc c = true → Returns (decode c)) → ∀ off,
      (∀ p ∈ scanL acc (msgs.map Prod.snd).flatten, p ≠ .unknown) ∧
      scanS acc (msgs.map Prod.snd).flatten off = layout off msgs := by
    intro acc hacc hacc'
    clear h1 h2 h3 hst hlen st
    induction msgs with
    | nil => intro off; simp [scanL, scanS, layout]
    | cons x msgs ih =>
      intro off
      obtain ⟨m, f⟩ := x
      obtain ⟨hpf, hn⟩ := hp (m, f) List.mem_cons_self
      obtain ⟨h8, h264, _⟩ := packed_head hpf
      have hf := packed_frameHead hpf hn hacc
      have hih := ih (fun x hx => hp x (List.mem_cons_of_mem _ hx))
      have hfl : scanL acc f = msgLabels (f.length - 8) ∧ ∀ off, scanS acc f off = [(off, m.id)] := by
        match f, h8, hf with
        | b :: s, h8, hf =>
          have hd : s.drop ((b :: s).length - 8 + 7) = [] := List.drop_eq_nil_of_le (by simp at h8 ⊢; omega)
          refine ⟨?_, fun off => ?_⟩
          · rw [scanL, hf]
            simp only [hd]
            rw [scanL, List.append_nil]
            apply List.take_of_length_le
            rw [msgLabels_length]; simp at h8 ⊢; omega
          · rw [scanS, hf]
            simp only [hd]
            rw [scanS]
      obtain ⟨hL, hS⟩ := scan_append hacc' f (msgs.map Prod.snd).flatten
        (by rw [hfl.1]; exact msgLabels_known _)
      simp only [List.map_cons, List.flatten_cons]
      refine ⟨?_, ?_⟩
      · rw [hL]
        intro p hp
        rcases List.mem_append.1 hp with h | h
        · rw [hfl.1] at h; exact msgLabels_known _ p h
        · exact (hih 0).1 p h
      · rw [hS, hfl.2, (hih _).2]
        rfl
  obtain ⟨hk1, hk2⟩ := key _ (fun c hc => decide_eq_true hc) (fun c hc => of_decide_eq_true hc) 0
  rw [h3, h1]
  refine ⟨hk2, hk1, ?_⟩
  intro v hv
  rw [h2, h1] at hv
  simp only [validOf, List.mem_flatMap, List.mem_replicate] at hv
  obtain ⟨p, hp, _, rfl⟩ := hv
  rw [if_neg (hk1 p hp)]

/-- Two heartbeats meet the hypotheses of `c21_concatenation`. -/
example : ∃ f g, f ≠ g ∧ ∀ x ∈ [(msg0, f), (msg0, g)], PackedFrame x.1 x.2 ∧ NoArrays x.1 := by
  refine ⟨[254, 9, 7, 1, 1, 0, 255, 255, 255, 255, 2, 3, 81, 4, 3, 241, 77],
    [254, 9, 8, 1, 1, 0, 255, 255, 255, 255, 2, 3, 81, 4, 3, 21, 210], by decide, ?_⟩
  intro x hx
  have h0 : msg0 ∈ mavlinkMap := by decide +kernel
  have hn : NoArrays msg0 := by decide
  simp only [List.mem_cons, List.not_mem_nil, or_false] at hx
  rcases hx with rfl | rfl
  · exact ⟨⟨h0, [.num (.int 2), .num (.int 3), .num (.int 81), .num (.int 4294967295), .num (.int 4), .num (.int 3)],
      7, 1, 1, by decide +kernel⟩, hn⟩
  · exact ⟨⟨h0, [.num (.int 2), .num (.int 3), .num (.int 81), .num (.int 4294967295), .num (.int 4), .num (.int 3)],
      8, 1, 1, by decide +kernel⟩, hn⟩

/-- C23: a packed message whose type has an array field is accepted by the decoder but never reported at its own
offset, whatever surrounds it and whatever the parser. -/
theorem c23_arrays_missed {ρ : Type _} (parser : List Byte → Except PyErr ρ) (m : MsgClass) (f pre post : List Byte)
    (hp : PackedFrame m f) (hn : ¬ NoArrays m) :
    Returns (decode f) ∧ ∀ st, segmentBuffer parser (pre ++ f ++ post) = .ok st → ∀ id, (pre.length, id) ∉ st.struct := by
  obtain ⟨h8, h264, h0, h1, h5, hd⟩ := packed_head hp
  refine ⟨hd, ?_⟩
  intro st hst id hmem
  obtain ⟨L, hh, _⟩ := c16_genuine parser _ st hst _ _ hmem
  have hg : ∀ j, j < f.length → (pre ++ f ++ post).getD (pre.length + j) 0 = f.getD j 0 := by
    intro j hj
    rw [← getD_drop, List.append_assoc, List.drop_left]
    simp only [List.getD, List.getElem?_append_left hj]
  have hL := hh.lenByte
  have hid := hh.idByte
  rw [hg 1 (by omega), h1] at hL
  rw [hg 5 (by omega), h5] at hid
  obtain ⟨hm, fields, seq, sys, comp, hp⟩ := hp
  obtain ⟨L', hL', hlt⟩ := c08_arrays m hm hn fields seq sys comp f hp
  have hk := hh.known
  rw [← hid, hL'] at hk
  injection hk with hk
  omega

/-- C23: so the expectation that every packed message is found is false. -/
theorem c23_every_message_found_false : ¬ ∀ (m : MsgClass) (f : List Byte), PackedFrame m f →
    ∀ st, segmentBuffer decode f = .ok st → (0, m.id) ∈ st.struct := by
  intro h
  have h1 : msg253 ∈ mavlinkMap := by decide +kernel
  obtain ⟨f, hf⟩ : Returns (packMsg msg253 [.num (.int 6), .num (.raw [72, 105])] 0 1 1) := by decide +kernel
  have hp : PackedFrame msg253 f := ⟨h1, _, _, _, _, hf⟩
  obtain ⟨st, hst, _⟩ := c20_never_raises f
  have := (c23_arrays_missed decode msg253 f [] [] hp (by decide)).2 st (by simpa using hst) 253
  exact this (h msg253 f hp st hst)

/-! ### C24 -/

/-- `[s, e)` is a maximal run of unknown labels. -/
def IsRun (l : List MsgPart) (s e : Nat) : Prop :=
  s < e ∧ (∀ k, s ≤ k → k < e → l[k]? = some .unknown) ∧
    (s = 0 ∨ l[s - 1]? ≠ some .unknown) ∧ l[e]? ≠ some .unknown

theorem badLoop_spec (l : List MsgPart) : ∀ (rest : List MsgPart) (idx len : Nat), rest = l.drop idx → idx ≤ l.length →
    len ≤ idx → (∀ k, idx - len ≤ k → k < idx → l[k]? = some .unknown) →
    (idx - len = 0 ∨ l[idx - len - 1]? ≠ some .unknown) →
    (∀ s e, (s, e) ∈ badLoop rest idx len ↔ IsRun l s e ∧ idx - len ≤ s) ∧
      (badLoop rest idx len).Pairwise (fun a b => a.2 < b.1) := by
  -- a run starting in `[idx - len, idx)` when the label at `idx` is not unknown
  have close : ∀ (idx len : Nat), len ≤ idx → (∀ k, idx - len ≤ k → k < idx → l[k]? = some .unknown) →
      (idx - len = 0 ∨ l[idx - len - 1]? ≠ some .unknown) → l[idx]? ≠ some .unknown →
      ∀ s e, (IsRun l s e ∧ idx - len ≤ s ∧ s < idx + 1) ↔ (0 < len ∧ s = idx - len ∧ e = idx) := by
    intro idx len hle hunk hstart hidx s e
    constructor
    · rintro ⟨⟨h1, h2, h3, h4⟩, h5, h6⟩
      have hs : s ≠ idx := by rintro rfl; exact hidx (h2 s (Nat.le_refl _) h1)
      have he : e = idx := by
        rcases Nat.lt_trichotomy e idx with h | h | h
        · exact absurd (hunk e (by omega) h) h4
        · exact h
        · exact absurd (h2 idx (by omega) h) hidx
      refine ⟨by omega, ?_, he⟩
      rcases Nat.eq_or_lt_of_le h5 with h | h
      · exact h.symm
      · rcases h3 with h3 | h3
        · omega
        · exact absurd (hunk (s - 1) (by omega) (by omega)) h3
    · rintro ⟨h1, rfl, rfl⟩
      exact ⟨⟨by omega, hunk, hstart, hidx⟩, Nat.le_refl _, by omega⟩
  intro rest
  induction rest with
  | nil =>
    intro idx len hr hi hle hunk hstart
    have hidx : idx = l.length := by
      have := congrArg List.length hr; simp at this; omega
    have hnone : l[idx]? = none := by rw [hidx]; simp
    have hcl := close idx len hle hunk hstart (by rw [hnone]; simp)
    have hmem : ∀ s e, (s, e) ∈ badLoop [] idx len ↔ 0 < len ∧ s = idx - len ∧ e = idx := by
      intro s e
      simp only [badLoop]
      split
      · rename_i h; simp; omega
      · rename_i h; simp; omega
    refine ⟨?_, ?_⟩
    · intro s e
      rw [hmem, ← hcl]
      constructor
      · rintro ⟨h1, h2, _⟩; exact ⟨h1, h2⟩
      · rintro ⟨h1, h2⟩
        refine ⟨h1, h2, ?_⟩
        have h3 := h1.2.1 s (Nat.le_refl _) h1.1
        obtain ⟨h4, _⟩ := List.getElem?_eq_some_iff.1 h3
        omega
    · simp only [badLoop]
      split <;> simp
  | cons p rest ih =>
    intro idx len hr hi hle hunk hstart
    have hlt : idx < l.length := by
      have := congrArg List.length hr; simp at this; omega
    have hd := List.drop_eq_getElem_cons hlt
    rw [← hr] at hd
    injection hd with hp hrest
    have hget : l[idx]? = some p := by rw [List.getElem?_eq_getElem hlt, hp]
    rw [badLoop]
    split
    · rename_i hpu
      subst hpu
      have := ih (idx + 1) (len + 1) hrest hlt (by omega)
        (by
          intro k h1 h2
          rcases Nat.eq_or_lt_of_le (Nat.le_of_lt_succ h2) with h | h
          · rw [h]; exact hget
          · exact hunk k (by omega) h)
        (by rw [Nat.add_sub_add_right]; exact hstart)
      rwa [Nat.add_sub_add_right] at this
    · rename_i hpu
      have hidx : l[idx]? ≠ some .unknown := by rw [hget]; simpa using hpu
      have hcl := close idx len hle hunk hstart hidx
      obtain ⟨hm, hpw⟩ := ih (idx + 1) 0 hrest hlt (by omega) (by intro k h1 h2; omega)
        (Or.inr (by simpa using hidx))
      have hsplit : ∀ s e, (IsRun l s e ∧ idx - len ≤ s) ↔
          ((0 < len ∧ s = idx - len ∧ e = idx) ∨ (s, e) ∈ badLoop rest (idx + 1) 0) := by
        intro s e
        rw [← hcl, hm]
        constructor
        · rintro ⟨h1, h2⟩
          rcases Nat.lt_or_ge s (idx + 1) with h | h
          · exact Or.inl ⟨h1, h2, h⟩
          · exact Or.inr ⟨h1, h⟩
        · rintro (⟨h1, h2, _⟩ | ⟨h1, h2⟩)
          · exact ⟨h1, h2⟩
          · exact ⟨h1, by omega⟩
      split
      · rename_i hpos
        refine ⟨?_, ?_⟩
        · intro s e
          rw [hsplit, List.mem_cons]
          simp only [Prod.mk.injEq]
          constructor
          · rintro (⟨rfl, rfl⟩ | h)
            · exact Or.inl ⟨hpos, rfl, rfl⟩
            · exact Or.inr h
          · rintro (⟨_, h⟩ | h)
            · exact Or.inl h
            · exact Or.inr h
        · rw [List.pairwise_cons]
          refine ⟨?_, hpw⟩
          rintro ⟨s, e⟩ h
          have := ((hm s e).1 h).2
          simp only
          omega
      · rename_i hpos
        refine ⟨?_, hpw⟩
        intro s e
        rw [hsplit]
        constructor
        · exact Or.inr
        · rintro (⟨h, _⟩ | h)
          · omega
          · exact h

theorem badLoop_runs (l : List MsgPart) :
    (∀ s e, (s, e) ∈ badLoop l 0 0 ↔ IsRun l s e) ∧ (badLoop l 0 0).Pairwise (fun a b => a.2 < b.1) := by
  obtain ⟨h1, h2⟩ := badLoop_spec l l 0 0 rfl (Nat.zero_le _) (Nat.le_refl _) (by intro k h h'; omega) (Or.inl rfl)
  refine ⟨fun s e => ?_, h2⟩
  rw [h1]
  simp

theorem run_containing (parts : List MsgPart) (k : Nat) (hk : parts[k]? = some .unknown) :
    ∃ s e, IsRun parts s e ∧ s ≤ k ∧ k < e := by
  classical
  have hkl := (List.getElem?_eq_some_iff.1 hk).1
  have hE : ∃ e, k < e ∧ parts[e]? ≠ some .unknown :=
    ⟨parts.length, hkl, by simp⟩
  let e := Nat.find hE
  have he := Nat.find_spec hE
  have hemin := fun j (hj : j < e) => Nat.find_min hE hj
  have hS : ∃ d, d ≤ k ∧ (d = k ∨ parts[k - d - 1]? ≠ some .unknown) := ⟨k, Nat.le_refl _, Or.inl rfl⟩
  let d := Nat.find hS
  have hd := Nat.find_spec hS
  have hdmin := fun j (hj : j < d) => Nat.find_min hS hj
  refine ⟨k - d, e, ⟨?_, ?_, ?_, he.2⟩, Nat.sub_le _ _, he.1⟩
  · have : k < e := he.1
    omega
  · intro j h1 h2
    rcases Nat.lt_trichotomy j k with h | h | h
    · have h3 := hdmin (k - j - 1) (by omega)
      have h4 : ¬ (k - j - 1 = k ∨ parts[k - (k - j - 1) - 1]? ≠ some .unknown) := fun hh => h3 ⟨by omega, hh⟩
      have h5 : k - (k - j - 1) - 1 = j := by omega
      rw [h5] at h4
      by_contra h6
      exact h4 (Or.inr h6)
    · rw [h]; exact hk
    · by_contra h6
      exact hemin j h2 ⟨h, h6⟩
  · rcases hd.2 with h | h
    · left
      have : d = k := h
      omega
    · exact Or.inr h

/-- C24: `bad_buffer_idx` returns None exactly when no label is UNKNOWN; otherwise the maximal UNKNOWN runs as
half-open ranges, in increasing order and separated by at least one byte. -/
theorem c24_idx (buffer : List Byte) (parts : List MsgPart) (hl : parts.length = buffer.length) :
    (MsgPart.unknown ∉ parts → badBufferIdx buffer parts = .ok none) ∧
    (MsgPart.unknown ∈ parts → ∃ runs, badBufferIdx buffer parts = .ok (some runs) ∧ runs ≠ [] ∧
      (∀ s e, (s, e) ∈ runs ↔ IsRun parts s e) ∧ runs.Pairwise (fun a b => a.2 < b.1)) := by
  constructor
  · intro h
    simp [badBufferIdx, h]
  · intro h
    have ht : parts.take buffer.length = parts := List.take_of_length_le (by omega)
    refine ⟨badLoop parts 0 0, ?_, ?_, badLoop_runs parts⟩
    · simp [badBufferIdx, h, hl, ht]
    · intro h0
      obtain ⟨k, hk⟩ := List.getElem?_of_mem h
      -- the run containing `k`
      obtain ⟨s, e, hr, _⟩ := run_containing parts k hk
      have := ((badLoop_runs parts).1 s e).2 hr
      rw [h0] at this
      exact absurd this (by simp)

theorem foldl_dictSet_fresh {α : Type _} (f : Nat × Nat → α) (runs : List (Nat × Nat)) (d : List (Nat × α))
    (h1 : ∀ x ∈ d, ∀ r ∈ runs, x.1 ≠ r.1) (h2 : runs.Pairwise (fun a b => a.1 ≠ b.1)) :
    runs.foldl (fun d r => dictSet d r.1 (f r)) d = d ++ runs.map (fun r => (r.1, f r)) := by
  induction runs generalizing d with
  | nil => simp
  | cons r runs ih =>
    rw [List.pairwise_cons] at h2
    rw [List.foldl_cons, dictSet_fresh _ _ _ (fun x hx => h1 x hx r List.mem_cons_self), ih _ ?_ h2.2]
    · simp
    · intro x hx r' hr'
      rcases List.mem_append.1 hx with h | h
      · exact h1 x h r' (List.mem_cons_of_mem _ hr')
      · simp only [List.mem_singleton] at h
        subst h
        exact h2.1 r' hr'

/-- C24: `bad_buffer_parts` holds exactly the bytes of those ranges, keyed by their starts. -/
theorem c24_parts (buffer : List Byte) (parts : List MsgPart) (hl : parts.length = buffer.length) :
    ∃ d, badBufferParts buffer parts = .ok d ∧
      (∀ s bytes, (s, bytes) ∈ d ↔ ∃ e, IsRun parts s e ∧ bytes = (buffer.take e).drop s) ∧
      (d.map Prod.fst).Pairwise (· < ·) := by
  by_cases h : MsgPart.unknown ∈ parts
  · have ht : parts.take buffer.length = parts := List.take_of_length_le (by omega)
    obtain ⟨hm, hpw⟩ := badLoop_runs parts
    have hlt : (badLoop parts 0 0).Pairwise (fun a b => a.1 < b.1) := by
      refine List.Pairwise.imp_of_mem ?_ hpw
      rintro ⟨s, e⟩ b ha _ hab
      have := ((hm s e).1 ha).1
      simp only at hab ⊢
      omega
    refine ⟨(badLoop parts 0 0).map (fun r => (r.1, pySlice buffer r.1 r.2)), ?_, ?_, ?_⟩
    · simp only [badBufferParts, h, hl, ht, not_true_eq_false, if_false, Nat.lt_irrefl]
      rw [foldl_dictSet_fresh (fun r => pySlice buffer r.1 r.2) _ [] (by simp)
        (hlt.imp (fun h => Nat.ne_of_lt h))]
      simp
    · intro s bytes
      rw [List.mem_map]
      constructor
      · rintro ⟨⟨s', e⟩, h1, h2⟩
        simp only [Prod.mk.injEq] at h2
        obtain ⟨rfl, rfl⟩ := h2
        exact ⟨e, (hm _ _).1 h1, by simp [pySlice, List.drop_take]⟩
      · rintro ⟨e, h1, rfl⟩
        exact ⟨(s, e), (hm _ _).2 h1, by simp [pySlice, List.drop_take]⟩
    · rw [List.pairwise_map]
      exact List.pairwise_map.2 (hlt.imp id) |> fun h => by simpa [List.pairwise_map] using h
  · refine ⟨[], by simp [badBufferParts, h], ?_, by simp⟩
    intro s bytes
    simp only [List.not_mem_nil, false_iff]
    rintro ⟨e, h1, _⟩
    exact h (List.mem_of_getElem? (h1.2.1 s (Nat.le_refl _) h1.1))

/-- C24 for the labels `segment_buffer` itself returns: a byte lies in one of the bad parts exactly when no reported
message covers it. -/
theorem c24_after_segmentation {ρ : Type _} (parser : List Byte → Except PyErr ρ) (buf : List Byte) (st : SegState)
    (h : segmentBuffer parser buf = .ok st) :
    ∃ d, badBufferParts buf st.parts = .ok d ∧ ∀ k, k < buf.length →
      ((∃ s bytes, (s, bytes) ∈ d ∧ s ≤ k ∧ k < s + bytes.length) ↔ ∀ r ∈ st.struct, ¬ Covers r k) := by
  obtain ⟨_, _, _, hfacts⟩ := segment_facts parser buf st h
  have hl : st.parts.length = buf.length := by rw [(segment_scan parser buf st h).1, scanL_length]
  obtain ⟨d, hd, hm, _⟩ := c24_parts buf st.parts hl
  refine ⟨d, hd, fun k hk => ?_⟩
  have hiff : (∀ r ∈ st.struct, ¬ Covers r k) ↔ st.parts[k]? = some .unknown := by
    refine ⟨(hfacts k hk).2, fun h1 r hr hc => ?_⟩
    rw [(hfacts k hk).1 r hr hc] at h1
    simp only [partOf, Option.some.injEq] at h1
    split at h1
    · cases h1
    · split at h1 <;> cases h1
  rw [hiff]
  constructor
  · rintro ⟨s, bytes, h1, h2, h3⟩
    obtain ⟨e, hr, rfl⟩ := (hm s bytes).1 h1
    simp at h3
    exact hr.2.1 k h2 (by omega)
  · intro hu
    obtain ⟨s, e, hr, h1, h2⟩ := run_containing st.parts k hu
    refine ⟨s, _, (hm s _).2 ⟨e, hr, rfl⟩, h1, ?_⟩
    simp
    omega

example : badBufferIdx [9, 9, 9, 9, 9] [.unknown, .header, .unknown, .unknown, .payload] =
    .ok (some [(0, 1), (2, 4)]) := by decide
example : badBufferParts [1, 2, 3, 4, 5] [.unknown, .header, .unknown, .unknown, .unknown] =
    .ok [(0, [1]), (2, [3, 4, 5])] := by decide

end NR
