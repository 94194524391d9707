import Verif.Spec.Segment
import Verif.Lemmas.Table
import Verif.Lemmas.Struct
import Verif.Props.C03_C05
/-
Refinement of the segmentation loop to a left-to-right scan.
-/
namespace NR
open Spec Dialect

/-- The frame a scan finds at the head of `s`: `(id, payload length)`. -/
def frameHead (acc : List Byte → Bool) (s : List Byte) : Option (Nat × Nat) :=
  if 8 ≤ s.length ∧ isValidHeader (s.take 6) = true ∧ acc (s.take ((s.getD 1 0).toNat + 8)) = true then
    some ((s.getD 5 0).toNat, (s.getD 1 0).toNat)
  else none

/-- Labels of one whole message with payload length `L`. -/
def msgLabels (L : Nat) : List MsgPart :=
  List.replicate 6 .header ++ List.replicate L .payload ++ List.replicate 2 .checksum

theorem msgLabels_length (L : Nat) : (msgLabels L).length = L + 8 := by simp [msgLabels]

/-- Labels found by the left-to-right scan. -/
def scanL (acc : List Byte → Bool) : List Byte → List MsgPart
  | [] => []
  | b :: s =>
    match frameHead acc (b :: s) with
    | none => .unknown :: scanL acc s
    | some (_, L) => (msgLabels L).take (s.length + 1) ++ scanL acc (s.drop (L + 7))
  termination_by s => s.length

/-- Messages found by the left-to-right scan starting at offset `off`. -/
def scanS (acc : List Byte → Bool) : List Byte → Nat → List (Nat × Nat)
  | [], _ => []
  | b :: s, off =>
    match frameHead acc (b :: s) with
    | none => scanS acc s (off + 1)
    | some (id, L) => (off, id) :: scanS acc (s.drop (L + 7)) (off + L + 8)
  termination_by s => s.length

theorem frameHead_short {acc : List Byte → Bool} {s : List Byte} (h : s.length < 8) : frameHead acc s = none := by
  unfold frameHead; rw [if_neg (by omega)]

theorem scanL_short (acc : List Byte → Bool) (s : List Byte) (h : s.length < 8) :
    scanL acc s = List.replicate s.length .unknown := by
  induction s with
  | nil => rw [scanL]; rfl
  | cons b s ih =>
    rw [scanL, frameHead_short h, ih (by simp at h; omega)]
    rfl

theorem scanS_short (acc : List Byte → Bool) (s : List Byte) (off : Nat) (h : s.length < 8) : scanS acc s off = [] := by
  induction s generalizing off with
  | nil => rw [scanS]
  | cons b s ih =>
    rw [scanS, frameHead_short h]
    exact ih _ (by simp at h; omega)

theorem scanL_length (acc : List Byte → Bool) (s : List Byte) : (scanL acc s).length = s.length := by
  fun_induction scanL acc s with
  | case1 => rfl
  | case2 b s h ih => simp [ih]
  | case3 b s id L h ih => simp [msgLabels_length, ih]; omega

/-- Bit validity belonging to labels. -/
def validOf (l : List MsgPart) : List Int := l.flatMap fun p => List.replicate 8 (if p = .unknown then 0 else 1)

theorem validOf_get (l : List MsgPart) (k : Nat) :
    (validOf l)[k]? = (l[k / 8]?).map fun p => if p = .unknown then (0 : Int) else 1 := by
  induction l generalizing k with
  | nil => simp [validOf]
  | cons p l ih =>
    have hc : validOf (p :: l) = List.replicate 8 (if p = .unknown then (0 : Int) else 1) ++ validOf l := by
      simp [validOf]
    rw [hc, List.getElem?_append]
    by_cases hk : k < 8
    · have : k / 8 = 0 := by omega
      rw [if_pos (by simpa using hk), this, List.getElem?_replicate, if_pos hk]; rfl
    · have h8 : k / 8 = (k - 8) / 8 + 1 := by omega
      rw [if_neg (by simpa using hk), List.length_replicate, ih, h8, List.getElem?_cons_succ]

theorem validOf_replicate (n : Nat) : validOf (List.replicate n .unknown) = List.replicate (n * 8) 0 := by
  apply List.ext_getElem?
  intro k
  rw [validOf_get]
  simp only [List.getElem?_replicate]
  by_cases h : k / 8 < n
  · rw [if_pos h, if_pos (by omega)]; rfl
  · rw [if_neg h, if_neg (by omega)]; rfl

theorem setSlice_get {α : Type _} (l : List α) (i j : Nat) (v : α) (k : Nat) :
    (setSlice l i j v)[k]? = (l[k]?).map fun x => if i ≤ k ∧ k < j then v else x := by
  simp [setSlice, List.getElem?_mapIdx]

theorem setSlice_length {α : Type _} (l : List α) (i j : Nat) (v : α) : (setSlice l i j v).length = l.length := by
  simp [setSlice]

theorem pySlice_add {α : Type _} (l : List α) (i n : Nat) : pySlice l i (i + n) = (l.drop i).take n := by
  unfold pySlice
  rw [List.drop_take]
  congr 1
  omega

theorem msgLabels_get (L k : Nat) : (msgLabels L)[k]? =
    if k < 6 then some .header else if k < 6 + L then some .payload else if k < L + 8 then some .checksum else none := by
  unfold msgLabels
  rw [List.getElem?_append, List.getElem?_append]
  simp only [List.length_append, List.length_replicate, List.getElem?_replicate]
  by_cases h1 : k < 6
  · simp [h1, show k < 6 + L by omega]
  · by_cases h2 : k < 6 + L
    · simp [h1, h2, show k - 6 < L by omega]
    · by_cases h3 : k < L + 8
      · simp [h1, h2, h3, show k - (6 + L) < 2 by omega]
      · simp [h1, h2, h3, show ¬ k - (6 + L) < 2 by omega]

/-- The three slice assignments on a buffer that is unknown from `i` on. -/
theorem paint (P : List MsgPart) (n L : Nat) (h : 8 ≤ n) :
    setSlice (setSlice (setSlice (P ++ List.replicate n .unknown) P.length (P.length + 6) .header)
        (P.length + 6) (P.length + 6 + L) .payload) (P.length + 6 + L) (P.length + 8 + L) .checksum
      = P ++ (msgLabels L).take n ++ List.replicate (n - (L + 8)) .unknown := by
  apply List.ext_getElem?
  intro k
  rw [setSlice_get, setSlice_get, setSlice_get, List.append_assoc, List.getElem?_append, List.getElem?_append]
  by_cases hk : k < P.length
  · simp only [hk, if_true]
    cases P[k]? with
    | none => rfl
    | some p =>
      simp only [Option.map_some]
      rw [if_neg (by omega), if_neg (by omega), if_neg (by omega)]
  · simp only [hk, if_false]
    rw [List.getElem?_append]
    simp only [List.length_take, msgLabels_length, List.getElem?_replicate, List.getElem?_take, msgLabels_get]
    generalize hd : k - P.length = d
    have hkd : k = P.length + d := by omega
    subst hkd
    by_cases h1 : d < n
    · simp only [h1, if_true, Option.map_some]
      by_cases h2 : d < L + 8
      · rw [if_pos (show d < min n (L + 8) by omega)]
        by_cases h3 : d < 6
        · rw [if_pos h3, if_neg (by omega), if_neg (by omega), if_pos (by omega)]
        · by_cases h4 : d < 6 + L
          · rw [if_neg h3, if_pos h4, if_neg (by omega), if_pos (by omega)]
          · rw [if_neg h3, if_neg h4, if_pos h2, if_pos (by omega)]
      · rw [if_neg (show ¬ d < min n (L + 8) by omega), if_neg (by omega), if_neg (by omega), if_neg (by omega),
          if_pos (by omega)]
    · rw [if_neg h1, if_neg (by omega), if_neg (by omega)]
      rfl

theorem repaint_validity (parts parts' : List MsgPart) (i c : Nat)
    (hlen : parts'.length = parts.length)
    (hin : ∀ k, i ≤ k → k < i + c → ∀ p, parts'[k]? = some p → p ≠ .unknown)
    (hout : ∀ k, ¬ (i ≤ k ∧ k < i + c) → parts'[k]? = parts[k]?) :
    setSlice (validOf parts) (i * 8) ((i + c) * 8) 1 = validOf parts' := by
  apply List.ext_getElem?
  intro k
  rw [setSlice_get, validOf_get, validOf_get]
  by_cases hk : i ≤ k / 8 ∧ k / 8 < i + c
  · cases hp : parts'[k / 8]? with
    | none =>
      have : parts[k / 8]? = none := by
        rw [List.getElem?_eq_none_iff] at hp ⊢; omega
      rw [this]; rfl
    | some p =>
      have hlt : k / 8 < parts.length := by
        rw [← hlen]; exact (List.getElem?_eq_some_iff.1 hp).1
      rw [List.getElem?_eq_getElem hlt]
      simp only [Option.map_some, hin _ hk.1 hk.2 _ hp, if_false]
      rw [if_pos (by omega)]
  · rw [hout _ hk]
    cases parts[k / 8]? with
    | none => rfl
    | some p =>
      simp only [Option.map_some]
      rw [if_neg (by omega)]

/-- What `segStep` does at a byte labelled unknown with a valid header: the header read back. -/
theorem fromBuffer_valid {s : List Byte} (h : isValidHeader (s.take 6) = true) :
    ∃ hd, FrameHeader.fromBuffer (s.take 6) = .ok hd ∧ hd.length = (s.getD 1 0).toNat ∧
      hd.msgId = (s.getD 5 0).toNat := by
  have h6 := isValidHeader_length h
  obtain ⟨b0, b1, b2, b3, b4, b5, hb⟩ := six_bytes h6
  rw [hb] at h ⊢
  obtain ⟨_, hp⟩ := (isValidHeader_six _ _ _ _ _ _).1 h
  obtain ⟨m, hm, hid, hl⟩ := payloadLen_eq_some.1 hp
  have hg : ∀ i < 6, s.getD i 0 = [b0, b1, b2, b3, b4, b5].getD i 0 := by
    intro i hi
    rw [← hb]
    simp only [List.getD, List.getElem?_take_of_lt hi]
  refine ⟨⟨[254, BitVec.ofNat 8 (msgLen m), b2, b3, b4, BitVec.ofNat 8 m.id]⟩, ?_, ?_, ?_⟩
  · have := c03_buffer m hm b3 b4 b2
    simp only [FrameHeader.fromBuffer, List.length_cons, List.length_nil, headerLen]
    simp only [List.getD_cons_zero, List.getD_cons_succ, Option.getD_none]
    rw [← hid]
    exact this
  · rw [hg 1 (by omega)]
    simp [FrameHeader.length, hl]
  · rw [hg 5 (by omega)]
    simp [FrameHeader.msgId, hid]

/-- Loop invariant: everything before `cur` is settled. -/
structure SegInv (acc : List Byte → Bool) (buf : List Byte) (n : Nat) (st : SegState) (cur : Nat) (P : List MsgPart) : Prop where
  le : n ≤ cur
  leLen : cur ≤ buf.length
  plen : P.length = cur
  parts : st.parts = P ++ List.replicate (buf.length - cur) .unknown
  valid : st.validity = validOf st.parts
  labels : P ++ scanL acc (buf.drop cur) = scanL acc buf
  struct : st.struct ++ scanS acc (buf.drop cur) cur = scanS acc buf 0
  busy : ∀ k, n ≤ k → k < cur → ∀ p, P[k]? = some p → p ≠ .unknown
  keys : ∀ r ∈ st.struct, r.1 < n

theorem dictSet_fresh {κ ν : Type _} [DecidableEq κ] (d : List (κ × ν)) (k : κ) (v : ν) (h : ∀ r ∈ d, r.1 ≠ k) :
    dictSet d k v = d ++ [(k, v)] := by
  unfold dictSet
  rw [if_neg]
  intro hm
  obtain ⟨r, hr, he⟩ := List.mem_map.1 hm
  exact h r hr he

theorem drop_cons_of_lt {α : Type _} {l : List α} {n : Nat} (h : n < l.length) : ∃ b, l.drop n = b :: l.drop (n + 1) :=
  ⟨l[n], List.drop_eq_getElem_cons h⟩

open Classical in
theorem segStep_inv {ρ : Type _} (parser : List Byte → Except PyErr ρ) {buf : List Byte} {n : Nat} {st st' : SegState}
    {cur : Nat} {P : List MsgPart} (hn : n + 8 ≤ buf.length)
    (inv : SegInv (fun c => decide (Returns (parser c))) buf n st cur P)
    (hs : segStep parser buf st n = .ok st') :
    ∃ cur' P', SegInv (fun c => decide (Returns (parser c))) buf (n + 1) st' cur' P' := by
  obtain ⟨hle, hleL, hpl, hparts, hvalid, hlab, hstr, hbusy, hkeys⟩ := inv
  rcases Nat.lt_or_ge n cur with hlt | hge
  · -- inside an already recovered message
    have hP : ∃ p, P[n]? = some p := ⟨P[n], List.getElem?_eq_getElem (by omega)⟩
    obtain ⟨p, hp⟩ := hP
    have hpu := hbusy n (Nat.le_refl _) hlt p hp
    have hget : st.parts[n]? = some p := by
      rw [hparts, List.getElem?_append_left (by omega)]; exact hp
    unfold segStep at hs
    simp only [hget, hpu, ne_eq, not_false_eq_true, if_true] at hs
    injection hs with hs
    subst hs
    exact ⟨cur, P, by omega, hleL, hpl, hparts, hvalid, hlab, hstr,
      fun k h1 h2 => hbusy k (by omega) h2, fun r hr => Nat.lt_succ_of_lt (hkeys r hr)⟩
  · have hcur : cur = n := by omega
    subst hcur
    have hget : st.parts[cur]? = some .unknown := by
      rw [hparts, List.getElem?_append_right (by omega)]
      rw [List.getElem?_replicate, if_pos (by omega)]
    obtain ⟨b, hb⟩ := drop_cons_of_lt (l := buf) (n := cur) (by omega)
    have hslen : (buf.drop cur).length = buf.length - cur := by simp
    -- the case where nothing is recovered at `cur`
    have stay : frameHead (fun c => decide (Returns (parser c))) (buf.drop cur) = none → st' = st →
        ∃ cur' P', SegInv (fun c => decide (Returns (parser c))) buf (cur + 1) st' cur' P' := by
      intro hf he
      subst he
      have hsl : scanL (fun c => decide (Returns (parser c))) (buf.drop cur) =
          .unknown :: scanL (fun c => decide (Returns (parser c))) (buf.drop (cur + 1)) := by
        rw [hb, scanL, ← hb, hf]
      have hss : scanS (fun c => decide (Returns (parser c))) (buf.drop cur) cur =
          scanS (fun c => decide (Returns (parser c))) (buf.drop (cur + 1)) (cur + 1) := by
        rw [hb, scanS, ← hb, hf]
      refine ⟨cur + 1, P ++ [.unknown], ⟨by omega, by omega, by simp [hpl], ?_, hvalid, ?_, ?_, by omega,
        fun r hr => Nat.lt_succ_of_lt (hkeys r hr)⟩⟩
      · rw [hparts, List.append_assoc]
        congr 1
        rw [show buf.length - cur = (buf.length - (cur + 1)) + 1 by omega, List.replicate_succ]
        rfl
      · rw [List.append_assoc, ← hlab, hsl]; rfl
      · rw [← hstr, hss]
    unfold segStep at hs
    simp only [hget, ne_eq, not_true_eq_false, if_false, headerLen, pySlice_add, show protocolOverhead = 8 from rfl] at hs
    by_cases hv : isValidHeader ((buf.drop cur).take 6) = true
    · rw [if_pos hv] at hs
      obtain ⟨hd, hfb, hdl, hdi⟩ := fromBuffer_valid hv
      simp only [hfb, hdl, hdi, Nat.add_assoc, pySlice_add] at hs
      generalize hL : ((buf.drop cur).getD 1 0).toNat = L at hs
      generalize hid : ((buf.drop cur).getD 5 0).toNat = id at hs
      cases hpar : parser ((buf.drop cur).take (L + 8)) with
      | error e =>
        rw [hpar] at hs
        have hf : frameHead (fun c => decide (Returns (parser c))) (buf.drop cur) = none := by
          unfold frameHead
          rw [if_neg]
          rintro ⟨_, _, hc⟩
          rw [hL] at hc
          simp only [decide_eq_true_eq] at hc
          rw [hpar] at hc
          obtain ⟨_, hc⟩ := hc; cases hc
        cases e
        case mavError => simp only at hs; injection hs with hs; exact stay hf hs.symm
        all_goals cases hs
      | ok r =>
        rw [hpar] at hs
        simp only at hs
        injection hs with hs
        have hf : frameHead (fun c => decide (Returns (parser c))) (buf.drop cur) = some (id, L) := by
          unfold frameHead
          rw [hL, hid]
          exact if_pos ⟨by omega, hv, decide_eq_true ⟨r, hpar⟩⟩
        have hsl : scanL (fun c => decide (Returns (parser c))) (buf.drop cur) =
            (msgLabels L).take (buf.length - cur) ++
              scanL (fun c => decide (Returns (parser c))) (buf.drop (cur + (L + 8))) := by
          rw [hb, scanL, ← hb, hf]
          simp only [List.drop_drop, List.length_drop]
          rw [show buf.length - (cur + 1) + 1 = buf.length - cur by omega, show cur + 1 + (L + 7) = cur + (L + 8) by omega]
        have hss : scanS (fun c => decide (Returns (parser c))) (buf.drop cur) cur =
            (cur, id) :: scanS (fun c => decide (Returns (parser c))) (buf.drop (cur + (L + 8))) (cur + L + 8) := by
          rw [hb, scanS, ← hb, hf]
          simp only [List.drop_drop]
          rw [show cur + 1 + (L + 7) = cur + (L + 8) by omega]
        have hpaint := paint P (buf.length - cur) L (by omega)
        rw [hpl, ← hparts] at hpaint
        simp only [Nat.add_assoc] at hpaint
        subst hs
        -- new current position
        have hdrop : buf.drop (min (cur + (L + 8)) buf.length) = buf.drop (cur + (L + 8)) := by
          rcases Nat.le_total (cur + (L + 8)) buf.length with h | h
          · rw [Nat.min_eq_left h]
          · rw [Nat.min_eq_right h, List.drop_length, List.drop_eq_nil_of_le h]
        refine ⟨min (cur + (L + 8)) buf.length, P ++ (msgLabels L).take (buf.length - cur),
          ⟨by omega, by omega, ?_, ?_, ?_, ?_, ?_, ?_, ?_⟩⟩
        · simp [hpl, msgLabels_length]; omega
        · simp only
          rw [hpaint]
          congr 2
          omega
        · simp only
          rw [hvalid]
          have hcl : ((buf.drop cur).take (L + 8)).length = min (L + 8) (buf.length - cur) := by simp
          rw [hcl]
          apply repaint_validity
          · simp only [setSlice_length]
          · intro k h1 h2 p hp
            rw [hpaint, List.append_assoc, List.getElem?_append_right (by omega),
              List.getElem?_append_left (by simp [msgLabels_length]; omega), List.getElem?_take_of_lt (by omega),
              msgLabels_get, hpl] at hp
            rw [if_pos (show k - cur < L + 8 by omega)] at hp
            split at hp
            · injection hp with hp; rw [← hp]; decide
            · split at hp <;> (injection hp with hp; rw [← hp]; decide)
          · intro k hk
            rw [setSlice_get, setSlice_get, setSlice_get]
            cases hpk : st.parts[k]? with
            | none => rfl
            | some p =>
              have hkl : k < st.parts.length := (List.getElem?_eq_some_iff.1 hpk).1
              rw [hparts, List.length_append, List.length_replicate, hpl] at hkl
              simp only [Option.map_some]
              rw [if_neg (by omega), if_neg (by omega), if_neg (by omega)]
        · rw [List.append_assoc, hdrop, ← hsl, hlab]
        · simp only
          rw [dictSet_fresh _ _ _ (fun r hr => Nat.ne_of_lt (hkeys r hr)), List.append_assoc, hdrop, ← hstr, hss]
          rcases Nat.le_total (cur + (L + 8)) buf.length with h | h
          · rw [Nat.min_eq_left h]; rfl
          · rw [List.drop_eq_nil_of_le h, scanS, scanS]; rfl
        · intro k h1 h2 p hp
          rw [List.getElem?_append_right (by omega), List.getElem?_take_of_lt (by omega), msgLabels_get, hpl,
            if_pos (show k - cur < L + 8 by omega)] at hp
          split at hp
          · injection hp with hp; rw [← hp]; decide
          · split at hp <;> (injection hp with hp; rw [← hp]; decide)
        · intro r hr
          simp only at hr
          rw [dictSet_fresh _ _ _ (fun r hr => Nat.ne_of_lt (hkeys r hr))] at hr
          rcases List.mem_append.1 hr with h | h
          · exact Nat.lt_succ_of_lt (hkeys r h)
          · simp at h; subst h; simp
    · rw [if_neg hv] at hs
      injection hs with hs
      refine stay ?_ hs.symm
      unfold frameHead
      rw [if_neg (fun h => hv h.2.1)]

theorem foldlM_range_succ {σ : Type _} (f : σ → Nat → Except PyErr σ) (s : σ) (n : Nat) :
    (List.range (n + 1)).foldlM f s = (do let t ← (List.range n).foldlM f s; f t n) := by
  rw [List.range_succ, List.foldlM_append]
  simp

open Classical in
theorem segLoop_inv {ρ : Type _} (parser : List Byte → Except PyErr ρ) (buf : List Byte) (n : Nat)
    (hn : n ≤ buf.length + 1 - 8) (st : SegState)
    (h : (List.range n).foldlM (segStep parser buf) (segInit buf) = .ok st) :
    ∃ cur P, SegInv (fun c => decide (Returns (parser c))) buf n st cur P := by
  induction n generalizing st with
  | zero =>
    simp only [List.range_zero, List.foldlM_nil, pure, Except.pure] at h
    injection h with h
    subst h
    exact ⟨0, [], by omega, by omega, rfl, by simp [segInit], by simp [segInit, validOf_replicate], by simp,
      by simp [segInit], by omega, by simp [segInit]⟩
  | succ n ih =>
    rw [foldlM_range_succ] at h
    cases h1 : (List.range n).foldlM (segStep parser buf) (segInit buf) with
    | error e => rw [h1] at h; cases h
    | ok st1 =>
      rw [h1] at h
      obtain ⟨cur, P, inv⟩ := ih (by omega) st1 h1
      exact segStep_inv parser (by omega) inv h

open Classical in
/-- A run that returns computes the left-to-right scan. -/
theorem segment_scan {ρ : Type _} (parser : List Byte → Except PyErr ρ) (buf : List Byte) (st : SegState)
    (h : segmentBuffer parser buf = .ok st) :
    st.parts = scanL (fun c => decide (Returns (parser c))) buf ∧ st.validity = validOf st.parts ∧
      st.struct = scanS (fun c => decide (Returns (parser c))) buf 0 := by
  obtain ⟨cur, P, inv⟩ := segLoop_inv parser buf _ (Nat.le_refl _) st h
  have hsh : (buf.drop cur).length < 8 := by
    have := inv.le
    simp; omega
  refine ⟨?_, inv.valid, ?_⟩
  · rw [← inv.labels, inv.parts, scanL_short _ _ hsh]; simp
  · rw [← inv.struct, scanS_short _ _ _ hsh]; simp

end NR
