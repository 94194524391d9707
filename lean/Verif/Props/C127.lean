import Verif.Props.C120
/-
C127: the parser as it is by default, with `robust_parsing` off (HC_dialect.py:8618): exceptions instead of bad-data
items. What a caller that goes on after exceptions gets, compared with what robust parsing returns for the same bytes.
-/
namespace NR.C127
open NR Dialect C120

/-! ### Specification -/

/-- The items robust parsing finds in a stream (`c14_chunks`: however it is cut), and the bytes left over. -/
def RobustGives (stream : List Byte) (items : List Parsed) (left : List Byte) : Prop :=
  ∃ st, feed (Parser.init true) [stream] = some (st, items) ∧ st.pending = left

/-- A byte outside any frame. -/
def isStray : Parsed → Bool
  | .bad [_] => true
  | _ => false

/-- The messages among the items. -/
def messages (items : List Parsed) : List Parsed := items.filter (fun o => !o.isBad)

/-- How often somebody who reads the items complains, when each refused frame is a complaint and each unbroken run of
stray bytes is one complaint. `quiet` says whether the current run was already complained about. -/
def complaints : Bool → List Parsed → Nat
  | _, [] => 0
  | quiet, .bad d :: r =>
    if isStray (.bad d) then (if quiet then 0 else 1) + complaints true r else 1 + complaints false r
  | _, .msg _ _ :: r => complaints false r

/-- Calls of `parse_char`, one per portion; exceptions are caught and the next call is made. -/
def calls : Parser → List (List Byte) → Parser × List (Except PyErr (Option Parsed))
  | st, [] => (st, [])
  | st, c :: cs =>
    let r := parseChar st c
    let q := calls r.1 cs
    (q.1, r.2 :: q.2)

/-- The messages among the results of `parse_char` calls. -/
def returned (rs : List (Except PyErr (Option Parsed))) : List Parsed :=
  rs.filterMap (fun r => match r with | .ok (some m) => some m | _ => none)

/-- The exceptions among the results. -/
def raised {α : Type} (rs : List (Except PyErr α)) : List PyErr :=
  rs.filterMap (fun r => match r with | .error e => some e | .ok _ => none)

/-- Calls of `parse_buffer`, one per portion; exceptions are caught and the next call is made. `none` if some call
does not come back. -/
def bufferCalls : Parser → List (List Byte) → Option (Parser × List (Except PyErr (Option (List Parsed))))
  | st, [] => some (st, [])
  | st, c :: cs =>
    match parseBuffer st c with
    | none => none
    | some (st', r) =>
      match bufferCalls st' cs with
      | none => none
      | some (st'', rs) => some (st'', r :: rs)

/-- How a `parse_buffer` call that took the items `seg` from the stream may end. -/
def Handled (r : Except PyErr (Option (List Parsed))) (seg : List Parsed) : Prop :=
  match r with
  | .ok none => seg = [] ∨ ∃ b, seg = [.bad [b]]
  | .ok (some ms) => ms ≠ [] ∧ seg = ms ∧ ∀ o ∈ ms, o.isBad = false
  | .error e => e = .mavError ∧ ∃ ms d, seg = ms ++ [.bad d] ∧ ∀ o ∈ ms, o.isBad = false

/-- The messages `parse_buffer` calls returned. -/
def bufferReturned (rs : List (Except PyErr (Option (List Parsed)))) : List Parsed :=
  (rs.map (fun r => match r with | .ok (some ms) => ms | _ => [])).flatten

/-! ### One call -/

/-- Reachable states in default mode. -/
structure DefaultOK (st : Parser) : Prop where
  plain : st.robustParsing = false
  index : st.bufIndex ≤ st.buf.length
  exp : 8 ≤ st.expectedLength

/-- The counters advance by `np`, `nb` and `ne`. -/
def Counted (st st' : Parser) (np nb ne : Nat) : Prop :=
  st'.totalPacketsReceived = st.totalPacketsReceived + np ∧ st'.totalBytesReceived = st.totalBytesReceived + nb ∧
    st'.totalReceiveErrors = st.totalReceiveErrors + ne

/-- What a call answers to the item at the head of the pending bytes. -/
def answer (quiet : Bool) : Parsed → Except PyErr (Option Parsed)
  | .msg b m => .ok (some (.msg b m))
  | .bad d => if isStray (.bad d) then (if quiet then .ok none else .error .mavError) else .error .mavError

/-- Packets counted for an item. -/
def np : Parsed → Nat
  | .msg _ _ => 1
  | .bad _ => 0

/-- Errors counted for an item. -/
def ne (quiet : Bool) (o : Parsed) : Nat := if isStray o then (if quiet then 0 else 1) else 0

theorem take_not_stray {p : List Byte} {el : Nat} (h8 : 8 ≤ el) (hle : el ≤ p.length) :
    isStray (.bad (p.take el)) = false := by
  have : (p.take el).length = el := by simp; omega
  match h : p.take el with
  | [] => rfl
  | [_] => rw [h] at this; simp at this; omega
  | _ :: _ :: _ => rfl

theorem legacy_idle (st : Parser) (ok : DefaultOK st) (h : nextOut st.pending = none) :
    ∃ st', parseCharLegacy st = (st', .ok none) ∧ DefaultOK st' ∧ st'.pending = st.pending ∧
      st'.havePrefixError = false ∧ Counted st st' 0 0 0 := by
  obtain ⟨hr, hi, he⟩ := ok
  obtain ⟨buf, idx, x, hpe, rob, a1, a2, a3⟩ := st
  simp only at hr hi he
  subst hr
  simp only [Parser.pending] at h ⊢
  generalize hP : buf.drop idx = p at *
  have hpl : buf.length - idx = p.length := by rw [← hP]; simp
  unfold nextOut at h
  unfold parseCharLegacy
  simp only [hP, Parser.bufLen, hpl]
  cases hh : p.head? with
  | none =>
    have : p = [] := by cases p with
      | nil => rfl
      | cons => cases hh
    subst this
    simp only [List.length_nil]
    rw [if_neg (by omega)]
    exact ⟨_, rfl, ⟨rfl, hi, he⟩, hP, rfl, rfl, rfl, rfl⟩
  | some b =>
    rw [hh] at h
    simp only at h ⊢
    split at h
    · cases h
    · rename_i hb
      rw [if_neg hb]
      cases hr : readHeader3 (if (some b : Option Byte) = some 253 then 10 else 6) p with
      | none =>
        have h3 := readHeader3_none hr
        simp only
        rw [if_neg (by omega)]
        exact ⟨_, rfl, ⟨rfl, hi, he⟩, hP, rfl, rfl, rfl, rfl⟩
      | some w =>
        obtain ⟨magic, inc, el⟩ := w
        have h6 : 6 ≤ (if (some b : Option Byte) = some 253 then 10 else 6) := by split <;> omega
        have hel := (readHeader3_some hr).2.2
        rw [hr] at h
        simp only at h ⊢
        split at h
        · split at h <;> cases h
        · rename_i hle
          rw [if_neg (by omega)]
          exact ⟨_, rfl, ⟨rfl, hi, by simp only; omega⟩, hP, rfl, rfl, rfl, rfl⟩

theorem legacy_item (st : Parser) (ok : DefaultOK st) {o : Parsed} {k x e : Nat}
    (h : nextOut st.pending = some (o, k, x, e)) :
    ∃ st', parseCharLegacy st = (st', answer st.havePrefixError o) ∧ DefaultOK st' ∧
      st'.pending = st.pending.drop k ∧ st'.havePrefixError = isStray o ∧
      Counted st st' 0 0 (ne st.havePrefixError o) := by
  have hk := (nextOut_facts h).2.1
  obtain ⟨hr, hi, he⟩ := ok
  obtain ⟨buf, idx, xl, hpe, rob, a1, a2, a3⟩ := st
  simp only at hr hi he
  subst hr
  simp only [Parser.pending] at h hk ⊢
  generalize hP : buf.drop idx = p at *
  have hpl : buf.length - idx = p.length := by rw [← hP]; simp
  have hdrop : ∀ n, buf.drop (idx + n) = p.drop n := by intro n; rw [← hP, List.drop_drop]
  unfold nextOut at h
  unfold parseCharLegacy
  simp only [hP, Parser.bufLen, hpl]
  cases hh : p.head? with
  | none => rw [hh] at h; cases h
  | some b =>
    rw [hh] at h
    simp only at h ⊢
    split at h
    · rename_i hb
      rw [if_pos hb]
      simp only [Option.some.injEq, Prod.mk.injEq] at h
      obtain ⟨rfl, rfl, rfl, rfl⟩ := h
      simp only [Bool.false_eq_true, if_false, answer, isStray, if_true]
      cases hpe with
      | true =>
        simp only [if_true]
        exact ⟨_, rfl, ⟨rfl, by simp only; omega, he⟩, hdrop 1, rfl, rfl, rfl, rfl⟩
      | false =>
        simp only [Bool.false_eq_true, if_false]
        exact ⟨_, rfl, ⟨rfl, by simp only; omega, he⟩, hdrop 1, rfl, rfl, rfl, rfl⟩
    · rename_i hb
      rw [if_neg hb]
      cases hr : readHeader3 (if (some b : Option Byte) = some 253 then 10 else 6) p with
      | none => rw [hr] at h; cases h
      | some w =>
        obtain ⟨magic, inc, el⟩ := w
        obtain ⟨h3, _, hel⟩ := readHeader3_some hr
        have h6 : 6 ≤ (if (some b : Option Byte) = some 253 then 10 else 6) := by split <;> omega
        rw [hr] at h
        simp only at h ⊢
        split at h
        · rename_i hle
          rw [if_pos ⟨hel, by omega⟩]
          unfold parseFrame
          simp only [hP]
          split at h
          · rename_i m hm
            simp only [hm]
            simp only [Option.some.injEq, Prod.mk.injEq] at h
            obtain ⟨rfl, rfl, rfl, rfl⟩ := h
            exact ⟨_, rfl, ⟨rfl, by simp only; omega, by simp only; omega⟩, hdrop _, rfl, rfl, rfl, rfl⟩
          · rename_i er hm
            simp only [hm]
            simp only [Option.some.injEq, Prod.mk.injEq] at h
            obtain ⟨rfl, rfl, rfl, rfl⟩ := h
            have : er = .mavError := by
              split at hm
              · injection hm with hm; exact hm.symm
              · have hne : p.take el ≠ [] := by
                  intro h0
                  have := congrArg List.length h0
                  simp only [List.length_take, List.length_nil] at this
                  omega
                rcases c12_only_maverror _ hne with ⟨_, h1⟩ | h1
                · rw [h1] at hm; cases hm
                · rw [h1] at hm; injection hm with hm; exact hm.symm
            subst this
            have hns := take_not_stray (p := p) (el := el) (by omega) hle
            simp only [Bool.false_eq_true, false_and, if_false, answer, hns]
            exact ⟨_, rfl, ⟨rfl, by simp only; omega, by simp only; omega⟩, hdrop _, rfl, rfl, rfl, by simp [ne, hns]⟩
        · cases h

theorem char_idle (st : Parser) (ok : DefaultOK st) (c : List Byte) (h : nextOut (st.pending ++ c) = none) :
    ∃ st', parseChar st c = (st', .ok none) ∧ DefaultOK st' ∧ st'.pending = st.pending ++ c ∧
      st'.havePrefixError = false ∧ Counted st st' 0 c.length 0 := by
  have hpend : ({ st with buf := st.buf ++ c, totalBytesReceived := st.totalBytesReceived + c.length } : Parser).pending
      = st.pending ++ c := by
    simp only [Parser.pending]
    rw [List.drop_append_of_le_length ok.index]
  have ok' : DefaultOK { st with buf := st.buf ++ c, totalBytesReceived := st.totalBytesReceived + c.length } :=
    ⟨ok.plain, by have := ok.index; simp; omega, ok.exp⟩
  obtain ⟨s, h1, h2, h3, h4, h6, h7, h8⟩ := legacy_idle _ ok' (by rw [hpend]; exact h)
  unfold parseChar
  simp only
  rw [h1]
  simp only
  split
  · rename_i hz
    refine ⟨_, rfl, ⟨h2.plain, by simp, h2.exp⟩, ?_, h4, h6, h7, h8⟩
    have h5 := hz.1
    rw [bufLen_eq, h3, hpend] at h5
    rw [List.eq_nil_of_length_eq_zero h5]
    rfl
  · exact ⟨_, rfl, h2, h3.trans hpend, h4, h6, h7, h8⟩

theorem char_item (st : Parser) (ok : DefaultOK st) (c : List Byte) {o : Parsed} {k x e : Nat}
    (h : nextOut (st.pending ++ c) = some (o, k, x, e)) :
    ∃ st', parseChar st c = (st', answer st.havePrefixError o) ∧ DefaultOK st' ∧
      st'.pending = (st.pending ++ c).drop k ∧ st'.havePrefixError = isStray o ∧
      Counted st st' (np o) c.length (ne st.havePrefixError o) := by
  have hpend : ({ st with buf := st.buf ++ c, totalBytesReceived := st.totalBytesReceived + c.length } : Parser).pending
      = st.pending ++ c := by
    simp only [Parser.pending]
    rw [List.drop_append_of_le_length ok.index]
  have ok' : DefaultOK { st with buf := st.buf ++ c, totalBytesReceived := st.totalBytesReceived + c.length } :=
    ⟨ok.plain, by have := ok.index; simp; omega, ok.exp⟩
  obtain ⟨s, h1, h2, h3, h4, h6, h7, h8⟩ := legacy_item _ ok' (by rw [hpend]; exact h)
  rw [hpend] at h3
  unfold parseChar
  simp only
  rw [h1]
  simp only
  cases ha : answer st.havePrefixError o with
  | error er =>
    have : np o = 0 := by
      cases o with
      | msg _ _ => simp [answer] at ha
      | bad _ => rfl
    exact ⟨_, rfl, h2, h3, h4, by rw [this]; exact h6, h7, h8⟩
  | ok v =>
    cases v with
    | some m =>
      have : np o = 1 := by
        cases o with
        | msg _ _ => rfl
        | bad _ =>
          simp only [answer] at ha
          split at ha
          · split at ha <;> simp at ha
          · simp at ha
      exact ⟨_, rfl, ⟨h2.plain, h2.index, h2.exp⟩, h3, h4, by rw [this]; simp only; rw [h6], h7, h8⟩
    | none =>
      have : np o = 0 := by
        cases o with
        | msg _ _ => simp [answer] at ha
        | bad _ => rfl
      simp only
      split
      · rename_i hz
        refine ⟨_, rfl, ⟨h2.plain, by simp, h2.exp⟩, ?_, h4, by rw [this]; exact h6, h7, h8⟩
        have h5 := hz.1
        rw [bufLen_eq, h3] at h5
        rw [List.eq_nil_of_length_eq_zero h5]
        rfl
      · exact ⟨_, rfl, h2, h3, h4, by rw [this]; exact h6, h7, h8⟩

/-! ### Many calls -/

theorem complaints_mono (q : Bool) (items : List Parsed) : complaints q items ≤ complaints false items := by
  cases items with
  | nil => simp [complaints]
  | cons o r =>
    cases o with
    | msg b m => simp [complaints]
    | bad d =>
      simp only [complaints]
      split
      · cases q <;> simp
      · exact Nat.le_refl _

theorem complaints_cons (q : Bool) (o : Parsed) (r : List Parsed) :
    complaints q (o :: r) = (raised [answer q o]).length + complaints (isStray o) r := by
  cases o with
  | msg b m => simp [complaints, raised, answer, isStray]
  | bad d =>
    simp only [complaints, answer]
    cases h : isStray (.bad d)
    · simp [raised]
    · cases q <;> simp [raised]

theorem badCount_le (q : Bool) (o : Parsed) : (raised [answer q o]).length ≤ badCount [o] := by
  cases o with
  | msg b m => simp [raised, answer, badCount, Parsed.isBad]
  | bad d =>
    have : badCount [.bad d] = 1 := rfl
    rw [this]
    simp only [answer]
    split
    · cases q <;> simp [raised]
    · simp [raised]

/-- The refused frames among the items. -/
def refused (items : List Parsed) : List Parsed := items.filter (fun o => o.isBad && !isStray o)

theorem nextOut_marker {p : List Byte} (hp : p ≠ []) (h : nextOut p = none) (q : List Byte)
    {o : Parsed} {k x e : Nat} (h' : nextOut (p ++ q) = some (o, k, x, e)) : isStray o = false ∧ p.length < k := by
  obtain ⟨b, hh⟩ : ∃ b, p.head? = some b := by
    match p, hp with
    | b :: r, _ => exact ⟨b, rfl⟩
  have hh' := head_append q hh
  unfold nextOut at h h'
  rw [hh] at h
  rw [hh'] at h'
  simp only at h h'
  have h6 : 6 ≤ (if (some b : Option Byte) = some 253 then 10 else 6) := by split <;> omega
  generalize (if (some b : Option Byte) = some 253 then 10 else 6) = hl at *
  split at h
  · cases h
  · rename_i hb
    rw [if_neg hb] at h'
    cases hr : readHeader3 hl (p ++ q) with
    | none => rw [hr] at h'; cases h'
    | some w =>
      obtain ⟨magic, inc, el⟩ := w
      have hel := (readHeader3_some hr).2.2
      rw [hr] at h'
      simp only at h'
      split at h'
      · rename_i hle
        have hk : k = el ∧ isStray o = false := by
          split at h'
          · simp only [Option.some.injEq, Prod.mk.injEq] at h'
            exact ⟨h'.2.1.symm, by rw [← h'.1]; rfl⟩
          · simp only [Option.some.injEq, Prod.mk.injEq] at h'
            exact ⟨h'.2.1.symm, by rw [← h'.1]; exact take_not_stray (by omega) hle⟩
        refine ⟨hk.2, ?_⟩
        rw [hk.1]
        by_contra hlt
        cases hr2 : readHeader3 hl p with
        | none => have := readHeader3_none hr2; omega
        | some w =>
          have := readHeader3_append q hr2
          rw [hr] at this
          injection this with this
          subst this
          rw [hr2] at h
          simp only at h
          rw [if_pos (by omega)] at h
          split at h <;> cases h
      · cases h'

theorem calls_spec (chunks : List (List Byte)) (st : Parser) (ok : DefaultOK st) (x : Nat) :
    ∃ done rest, (drain (st.pending ++ chunks.flatten) x).1 = done ++ rest ∧
      DefaultOK (calls st chunks).1 ∧
      returned (calls st chunks).2 = messages done ∧
      (∀ e ∈ raised (calls st chunks).2, e = .mavError) ∧
      complaints st.havePrefixError done ≤ (raised (calls st chunks).2).length ∧
      (raised (calls st chunks).2).length ≤ badCount done ∧
      ((∀ c ∈ chunks, c ≠ []) →
        (raised (calls st chunks).2).length = complaints st.havePrefixError done) ∧
      (calls st chunks).1.pending = (rest.map Parsed.bytes).flatten ++ (drain (st.pending ++ chunks.flatten) x).2.1 ∧
      (∃ x', (drain (calls st chunks).1.pending x').1 = rest) ∧
      (calls st chunks).1.totalPacketsReceived = st.totalPacketsReceived + (messages done).length ∧
      (calls st chunks).1.totalBytesReceived = st.totalBytesReceived + chunks.flatten.length ∧
      (calls st chunks).1.totalReceiveErrors + (refused done).length =
        st.totalReceiveErrors + (raised (calls st chunks).2).length ∧
      (nextOut st.pending = none → (∀ c ∈ chunks, c.length ≤ 1) → rest = []) := by
  induction chunks generalizing st x with
  | nil =>
    refine ⟨[], (drain st.pending x).1, by simp, ok, rfl, by simp [calls, raised], by simp [complaints],
      by simp [calls, raised], by simp [calls, raised, complaints], ?_, ⟨x, rfl⟩, rfl, rfl, rfl, ?_⟩
    · have := (drain_bytes st.pending x).1
      simp only [List.flatten_nil, List.append_nil]
      exact this.symm
    · intro h _
      rw [drain_none h]
  | cons c cs ih =>
    have hflat : st.pending ++ (c :: cs).flatten = st.pending ++ c ++ cs.flatten := by simp
    rw [hflat]
    cases hn : nextOut (st.pending ++ c) with
    | none =>
      obtain ⟨st1, h1, h2, h3, h4, h5, h6, h7⟩ := char_idle st ok c hn
      obtain ⟨done, rest, i1, i2, i3, i4, i5, i6, i7, i8, i9, i10, i11, i12, i13⟩ := ih st1 h2 x
      rw [h3] at i1 i8 i13
      rw [h4] at i5 i7
      have hcalls : calls st (c :: cs) = ((calls st1 cs).1, .ok none :: (calls st1 cs).2) := by
        simp only [calls, h1]
      rw [hcalls]
      have hr1 : raised (Except.ok none :: (calls st1 cs).2) = raised (calls st1 cs).2 := rfl
      have hr2 : returned (Except.ok none :: (calls st1 cs).2) = returned (calls st1 cs).2 := rfl
      simp only [hr1, hr2]
      refine ⟨done, rest, i1, i2, i3, i4, Nat.le_trans (complaints_mono _ _) i5, i6, ?_, i8, i9, ?_, ?_, ?_, ?_⟩
      · intro hne
        rw [i7 (fun d hd => hne d (by simp [hd]))]
        have hcne : st.pending ++ c ≠ [] := by simp [hne c (by simp)]
        cases done with
        | nil => simp [complaints]
        | cons o r =>
          cases hd : nextOut (st.pending ++ c ++ cs.flatten) with
          | none => rw [drain_none hd] at i1; simp at i1
          | some v =>
            obtain ⟨o', k, x', e⟩ := v
            rw [drain_some hd] at i1
            have ho : o' = o := by simp only [List.cons_append, List.cons.injEq] at i1; exact i1.1
            subst ho
            have := (nextOut_marker hcne hn _ hd).1
            cases o' with
            | msg b m => simp [complaints]
            | bad d => simp [complaints, this]
      · rw [i10, h5]; omega
      · rw [i11, h6]; simp; omega
      · rw [i12, h7]; omega
      · intro _ hl
        exact i13 hn (fun d hd => hl d (by simp [hd]))
    | some v =>
      obtain ⟨o, k, x', e⟩ := v
      obtain ⟨f1, f2, _, f4, _⟩ := nextOut_facts hn
      obtain ⟨st1, h1, h2, h3, h4, h5, h6, h7⟩ := char_item st ok c hn
      obtain ⟨done, rest, i1, i2, i3, i4, i5, i6, i7, i8, i9, i10, i11, i12, i13⟩ := ih st1 h2 x'
      have hdr : st1.pending ++ cs.flatten = (st.pending ++ c ++ cs.flatten).drop k := by
        rw [h3, List.drop_append_of_le_length f2]
      rw [hdr] at i1 i8
      rw [h4] at i5 i7
      have hcalls : calls st (c :: cs) = ((calls st1 cs).1, answer st.havePrefixError o :: (calls st1 cs).2) := by
        simp only [calls, h1]
      rw [hcalls, drain_some (nextOut_append cs.flatten hn)]
      have hr1 : ∀ (a : Except PyErr (Option Parsed)) l, raised (a :: l) = raised [a] ++ raised l := by
        intro a l; cases a <;> rfl
      have hr2 : ∀ (a : Except PyErr (Option Parsed)) l, returned (a :: l) = returned [a] ++ returned l := by
        intro a l
        match a with
        | .error _ => rfl
        | .ok none => rfl
        | .ok (some _) => rfl
      have hret : returned [answer st.havePrefixError o] = messages [o] := by
        cases o with
        | msg b m => rfl
        | bad d =>
          simp only [answer]
          split
          · cases st.havePrefixError <;> rfl
          · rfl
      have herr : ∀ e ∈ raised [answer st.havePrefixError o], e = .mavError := by
        cases o with
        | msg b m => simp [answer, raised]
        | bad d =>
          simp only [answer]
          split
          · cases st.havePrefixError <;> simp [raised]
          · simp [raised]
      simp only
      refine ⟨o :: done, rest, by rw [i1]; rfl, i2, ?_, ?_, ?_, ?_, ?_, i8, i9, ?_, ?_, ?_, ?_⟩
      · rw [hr2, hret, i3]
        simp only [messages, List.filter_cons]
        split <;> simp
      · intro er her
        rw [hr1, List.mem_append] at her
        rcases her with her | her
        · exact herr er her
        · exact i4 er her
      · rw [hr1, complaints_cons, List.length_append]; omega
      · rw [hr1, badCount_cons, List.length_append]
        have := badCount_le st.havePrefixError o
        omega
      · intro hne
        rw [hr1, complaints_cons, List.length_append, i7 (fun d hd => hne d (by simp [hd]))]
      · rw [i10, h5]
        cases o with
        | msg b m => simp [messages, np, Parsed.isBad]; omega
        | bad d => simp [messages, np, Parsed.isBad]
      · rw [i11, h6]; simp; omega
      · rw [hr1, List.length_append]
        have : (refused (o :: done)).length + ne st.havePrefixError o =
            (refused done).length + (raised [answer st.havePrefixError o]).length := by
          cases o with
          | msg b m => simp [refused, ne, answer, raised, isStray, Parsed.isBad]
          | bad d =>
            simp only [ne, answer, refused, List.filter_cons, Parsed.isBad, Bool.true_and]
            cases h : isStray (.bad d)
            · simp [raised]
            · cases st.havePrefixError <;> simp [raised]
        omega
      · intro hp hl
        refine i13 ?_ (fun d hd => hl d (by simp [hd]))
        have hc := hl c (by simp)
        have hkl : k = (st.pending ++ c).length := by
          by_cases h0 : st.pending = []
          · rw [h0] at f2 ⊢
            simp only [List.nil_append] at f2 ⊢
            omega
          · have := (nextOut_marker h0 hp c hn).2
            simp only [List.length_append] at f2 ⊢
            omega
        rw [h3, hkl, List.drop_length]
        rfl

/-! ### parse_char -/

theorem defaultOK_init : DefaultOK (Parser.init false) := ⟨rfl, by simp [Parser.init], by simp [Parser.init]⟩

theorem robust_iff {stream : List Byte} {items : List Parsed} {left : List Byte} (h : RobustGives stream items left) :
    items = (drain stream 8).1 ∧ left = (drain stream 8).2.1 := by
  obtain ⟨st, h1, h2⟩ := h
  obtain ⟨s, a1, a2, _⟩ := feed_spec [stream] _ parserOK_init (Or.inl rfl)
  rw [h1] at a1
  simp only [Option.some.injEq, Prod.mk.injEq] at a1
  obtain ⟨rfl, rfl⟩ := a1
  have hp : (Parser.init true).pending ++ [stream].flatten = stream := by simp [Parser.init, Parser.pending]
  rw [hp] at a2 ⊢
  exact ⟨rfl, h2.symm.trans a2⟩

theorem robust_gives (stream : List Byte) : RobustGives stream (drain stream 8).1 (drain stream 8).2.1 := by
  obtain ⟨s, a1, a2, _⟩ := feed_spec [stream] _ parserOK_init (Or.inl rfl)
  have hp : (Parser.init true).pending ++ [stream].flatten = stream := by simp [Parser.init, Parser.pending]
  rw [hp] at a1 a2
  exact ⟨s, a1, a2⟩

theorem robust_gives' (stream left : List Byte)
    (h : (feed (Parser.init true) [stream]).map (fun r => r.1.pending) = some left) :
    RobustGives stream (((feed (Parser.init true) [stream]).map Prod.snd).getD []) left := by
  cases hf : feed (Parser.init true) [stream] with
  | none => rw [hf] at h; cases h
  | some v =>
    rw [hf] at h
    simp only [Option.map_some, Option.some.injEq] at h
    exact ⟨v.1, by rw [hf]; rfl, h⟩

/-- C127 (`parse_char`): for every stream and every way of cutting it, a parser in default mode whose caller goes on
after exceptions has dealt with a first part of the items robust parsing finds in the stream: it returned exactly the
messages among them, in order; it raised nothing but MAVError, at least once for each refused frame and each run of
stray bytes and at most once for each bad item, and exactly the former if no call was made without bytes; the bytes of
the other items are still pending, in front of what robust parsing has left over. -/
theorem c127_calls (chunks : List (List Byte)) (items : List Parsed) (left : List Byte)
    (h : RobustGives chunks.flatten items left) :
    ∃ done rest, items = done ++ rest ∧
      returned (calls (Parser.init false) chunks).2 = messages done ∧
      (∀ e ∈ raised (calls (Parser.init false) chunks).2, e = .mavError) ∧
      complaints false done ≤ (raised (calls (Parser.init false) chunks).2).length ∧
      (raised (calls (Parser.init false) chunks).2).length ≤ (done.filter Parsed.isBad).length ∧
      ((∀ c ∈ chunks, c ≠ []) → (raised (calls (Parser.init false) chunks).2).length = complaints false done) ∧
      (calls (Parser.init false) chunks).1.pending = (rest.map Parsed.bytes).flatten ++ left ∧
      (calls (Parser.init false) chunks).1.totalPacketsReceived = (messages done).length ∧
      (calls (Parser.init false) chunks).1.totalBytesReceived = chunks.flatten.length ∧
      (calls (Parser.init false) chunks).1.totalReceiveErrors + (refused done).length =
        (raised (calls (Parser.init false) chunks).2).length := by
  obtain ⟨rfl, rfl⟩ := robust_iff h
  obtain ⟨done, rest, i1, _, i3, i4, i5, i6, i7, i8, _, i10, i11, i12, _⟩ :=
    calls_spec chunks _ defaultOK_init 8
  have hp : (Parser.init false).pending ++ chunks.flatten = chunks.flatten := by simp [Parser.init, Parser.pending]
  rw [hp] at i1 i8
  refine ⟨done, rest, i1, i3, i4, i5, i6, i7, i8, ?_, ?_, ?_⟩
  · rw [i10]; simp [Parser.init]
  · rw [i11]; simp [Parser.init]
  · rw [i12]; simp [Parser.init]

theorem flatten_singletons (l : List Byte) : (l.map fun b => [b]).flatten = l := by
  induction l with
  | nil => rfl
  | cons b r ih => simp [ih]

/-- C127: byte by byte nothing is left behind: the messages returned are all messages robust parsing finds, in order,
and the exceptions are one for each refused frame and one for each run of stray bytes. -/
theorem c127_bytewise (stream : List Byte) (items : List Parsed) (left : List Byte)
    (h : RobustGives stream items left) :
    returned (calls (Parser.init false) (stream.map fun b => [b])).2 = messages items ∧
      raised (calls (Parser.init false) (stream.map fun b => [b])).2 = List.replicate (complaints false items) .mavError ∧
      (calls (Parser.init false) (stream.map fun b => [b])).1.pending = left := by
  have hfl : (stream.map fun b => [b]).flatten = stream := flatten_singletons stream
  obtain ⟨rfl, rfl⟩ := robust_iff h
  obtain ⟨done, rest, i1, _, i3, i4, i5, i6, i7, i8, _, _, _, _, i13⟩ :=
    calls_spec (stream.map fun b => [b]) _ defaultOK_init 8
  have hp : (Parser.init false).pending ++ (stream.map fun b => [b]).flatten = stream := by
    simp [Parser.init, Parser.pending, hfl]
  rw [hp] at i1 i8
  have hr : rest = [] := i13 rfl (by
    intro c hc
    obtain ⟨b, _, rfl⟩ := List.mem_map.1 hc
    simp)
  subst hr
  rw [List.append_nil] at i1
  rw [i1]
  refine ⟨i3, ?_, i8⟩
  refine List.eq_replicate_iff.2 ⟨?_, i4⟩
  exact i7 (by
    intro c hc
    obtain ⟨b, _, rfl⟩ := List.mem_map.1 hc
    simp)

theorem calls_append (st : Parser) (a b : List (List Byte)) :
    calls st (a ++ b) = ((calls (calls st a).1 b).1, (calls st a).2 ++ (calls (calls st a).1 b).2) := by
  induction a generalizing st with
  | nil => rfl
  | cons c cs ih => simp only [List.cons_append, calls, ih]

theorem calls_empties (n : Nat) (st : Parser) (ok : DefaultOK st) (x : Nat) (h : (drain st.pending x).1.length ≤ n) :
    nextOut (calls st (List.replicate n [])).1.pending = none := by
  induction n generalizing st x with
  | zero =>
    cases hn : nextOut st.pending with
    | none => exact hn
    | some v =>
      obtain ⟨o, k, x', e⟩ := v
      rw [drain_some hn] at h
      simp at h
  | succ n ih =>
    simp only [List.replicate_succ, calls]
    cases hn : nextOut st.pending with
    | none =>
      obtain ⟨st1, h1, h2, h3, _⟩ := char_idle st ok [] (by simpa using hn)
      rw [h1]
      rw [List.append_nil] at h3
      refine ih st1 h2 0 ?_
      rw [h3, drain_none hn]
      simp
    | some v =>
      obtain ⟨o, k, x', e⟩ := v
      obtain ⟨st1, h1, h2, h3, _⟩ := char_item st ok [] (by rw [List.append_nil]; exact hn)
      rw [h1]
      rw [List.append_nil] at h3
      refine ih st1 h2 x' ?_
      rw [h3]
      rw [drain_some hn] at h
      simpa using h

/-- C127: with larger portions the parser lags behind, one item for each call, but it catches up: after as many calls
without bytes as there are items, all messages robust parsing finds have been returned, in order. -/
theorem c127_catch_up (chunks : List (List Byte)) (n : Nat) (items : List Parsed) (left : List Byte)
    (h : RobustGives chunks.flatten items left) (hn : items.length ≤ n) :
    returned (calls (Parser.init false) (chunks ++ List.replicate n [])).2 = messages items ∧
      (calls (Parser.init false) (chunks ++ List.replicate n [])).1.pending = left := by
  obtain ⟨rfl, rfl⟩ := robust_iff h
  have hp : (Parser.init false).pending ++ chunks.flatten = chunks.flatten := by simp [Parser.init, Parser.pending]
  have hfl : (chunks ++ List.replicate n ([] : List Byte)).flatten = chunks.flatten := by simp
  obtain ⟨done, rest, i1, i2, _, _, _, _, _, _, ⟨x', i9⟩, _⟩ := calls_spec chunks _ defaultOK_init 8
  obtain ⟨done', rest', j1, _, j3, _, _, _, _, j8, ⟨y', j9⟩, _⟩ :=
    calls_spec (chunks ++ List.replicate n []) _ defaultOK_init 8
  rw [hp] at i1
  rw [hfl, hp] at j1 j8
  have hlast : nextOut (calls (Parser.init false) (chunks ++ List.replicate n [])).1.pending = none := by
    rw [calls_append]
    refine calls_empties n _ i2 x' ?_
    rw [i9]
    rw [i1] at hn
    simp at hn
    omega
  rw [drain_none hlast] at j9
  subst j9
  rw [List.append_nil] at j1
  rw [j1]
  exact ⟨j3, j8⟩

/-! ### parse_buffer -/

theorem answer_cases (q : Bool) (o : Parsed) :
    (o.isBad = false ∧ isStray o = false ∧ answer q o = .ok (some o)) ∨
      (∃ b, o = .bad [b] ∧ q = true ∧ answer q o = .ok none) ∨
      (∃ d, o = .bad d ∧ (isStray o = true → q = false) ∧ answer q o = .error .mavError) := by
  cases o with
  | msg b m => exact Or.inl ⟨rfl, rfl, rfl⟩
  | bad d =>
    right
    cases hs : isStray (.bad d) with
    | false => exact Or.inr ⟨d, rfl, by simp, by simp [answer, hs]⟩
    | true =>
      cases q with
      | false => exact Or.inr ⟨d, rfl, by simp, by simp [answer, hs]⟩
      | true =>
        match d, hs with
        | [b], _ => exact Or.inl ⟨b, rfl, rfl, by simp [answer, isStray]⟩

theorem loop_default (n : Nat) (st : Parser) (ok : DefaultOK st) (hq : st.havePrefixError = false) (x : Nat)
    (ret : List Parsed) (hret : ret ≠ []) (hall : ∀ o ∈ ret, o.isBad = false) (hn : st.pending.length < n) :
    ∃ st' r seg rest x', parseLoop n st ret = some (st', r) ∧ DefaultOK st' ∧
      (drain st.pending x).1 = seg ++ rest ∧ (drain st'.pending x').1 = rest ∧
      (drain st'.pending x').2 = (drain st.pending x).2 ∧
      Handled r (ret ++ seg) ∧ ((∀ o ∈ (drain st.pending x).1, o.isBad = false) →
        rest = [] ∧ st'.havePrefixError = false) := by
  induction n generalizing st x ret with
  | zero => omega
  | succ n ih =>
    simp only [parseLoop]
    cases hno : nextOut st.pending with
    | none =>
      obtain ⟨st1, h1, h2, h3, h4, _⟩ := char_idle st ok [] (by simpa using hno)
      rw [h1]
      rw [List.append_nil] at h3
      refine ⟨st1, _, [], [], x, rfl, h2, by rw [drain_none hno]; rfl, by rw [h3, drain_none hno], by rw [h3], ?_,
        fun _ => ⟨rfl, h4⟩⟩
      rw [List.append_nil]
      exact ⟨hret, rfl, hall⟩
    | some v =>
      obtain ⟨o, k, x', e⟩ := v
      obtain ⟨f1, f2, _⟩ := nextOut_facts hno
      obtain ⟨st1, h1, h2, h3, h4, _⟩ := char_item st ok [] (by rw [List.append_nil]; exact hno)
      rw [List.append_nil] at h3
      rw [h1, hq, drain_some hno]
      rcases answer_cases false o with ⟨a1, a2, a3⟩ | ⟨b, _, a2, _⟩ | ⟨d, rfl, _, a3⟩
      · rw [a3]
        simp only
        obtain ⟨st2, r, seg, rest, x2, i1, i2, i3, i4, i5, i6, i7⟩ := ih st1 h2 (h4.trans a2) x' (ret ++ [o]) (by simp)
          (by intro p hp; rcases List.mem_append.1 hp with hp | hp
              · exact hall p hp
              · rw [List.mem_singleton.1 hp]; exact a1)
          (by rw [h3]; simp; omega)
        rw [h3] at i3 i5 i7
        refine ⟨st2, r, o :: seg, rest, x2, i1, i2, by rw [i3]; rfl, i4, i5, ?_, ?_⟩
        · rw [List.append_assoc] at i6; exact i6
        · intro hg
          exact i7 (fun p hp => hg p (by simp [hp]))
      · cases a2
      · rw [a3]
        refine ⟨st1, _, [.bad d], (drain (st.pending.drop k) x').1, x', rfl, h2, rfl, by rw [h3], by rw [h3], ?_, ?_⟩
        · exact ⟨rfl, ret, d, rfl, hall⟩
        · intro hg
          have := hg (.bad d) (by simp)
          cases this

theorem buffer_default (st : Parser) (ok : DefaultOK st) (c : List Byte) (x : Nat) :
    ∃ st' r seg rest x', parseBuffer st c = some (st', r) ∧ DefaultOK st' ∧
      (drain (st.pending ++ c) x).1 = seg ++ rest ∧ (drain st'.pending x').1 = rest ∧
      (drain st'.pending x').2 = (drain (st.pending ++ c) x).2 ∧
      Handled r seg ∧ ((∀ o ∈ (drain (st.pending ++ c) x).1, o.isBad = false) →
        rest = [] ∧ st'.havePrefixError = false) := by
  unfold parseBuffer
  cases hno : nextOut (st.pending ++ c) with
  | none =>
    obtain ⟨st1, h1, h2, h3, h4, _⟩ := char_idle st ok c hno
    rw [h1]
    exact ⟨st1, _, [], [], x, rfl, h2, by rw [drain_none hno]; rfl, by rw [h3, drain_none hno], by rw [h3],
      Or.inl rfl, fun _ => ⟨rfl, h4⟩⟩
  | some v =>
    obtain ⟨o, k, x', e⟩ := v
    obtain ⟨st1, h1, h2, h3, h4, _⟩ := char_item st ok c hno
    rw [h1, drain_some hno]
    rcases answer_cases st.havePrefixError o with ⟨a1, a2, a3⟩ | ⟨b, rfl, _, a3⟩ | ⟨d, rfl, _, a3⟩
    · rw [a3]
      simp only
      obtain ⟨st2, r, seg, rest, x2, i1, i2, i3, i4, i5, i6, i7⟩ :=
        loop_default (st1.bufLen + 1) st1 h2 (h4.trans a2) x' [o] (by simp)
          (by intro p hp; rw [List.mem_singleton.1 hp]; exact a1) (by rw [bufLen_eq]; omega)
      rw [h3] at i3 i5 i7
      refine ⟨st2, r, o :: seg, rest, x2, i1, i2, by rw [i3]; rfl, i4, i5, i6, ?_⟩
      intro hg
      exact i7 (fun p hp => hg p (by simp [hp]))
    · rw [a3]
      refine ⟨st1, _, [.bad [b]], (drain ((st.pending ++ c).drop k) x').1, x', rfl, h2, rfl, by rw [h3], by rw [h3],
        Or.inr ⟨b, rfl⟩, ?_⟩
      intro hg
      have := hg (.bad [b]) (by simp)
      cases this
    · rw [a3]
      refine ⟨st1, _, [.bad d], (drain ((st.pending ++ c).drop k) x').1, x', rfl, h2, rfl, by rw [h3], by rw [h3],
        ⟨rfl, [], d, rfl, by simp⟩, ?_⟩
      intro hg
      have := hg (.bad d) (by simp)
      cases this

theorem bufferCalls_spec (chunks : List (List Byte)) (st : Parser) (ok : DefaultOK st) (x : Nat) :
    ∃ st' rs segs rest x', bufferCalls st chunks = some (st', rs) ∧ DefaultOK st' ∧
      (drain (st.pending ++ chunks.flatten) x).1 = segs.flatten ++ rest ∧ (drain st'.pending x').1 = rest ∧
      (drain st'.pending x').2.1 = (drain (st.pending ++ chunks.flatten) x).2.1 ∧
      List.Forall₂ Handled rs segs ∧
      ((∀ o ∈ (drain (st.pending ++ chunks.flatten) x).1, o.isBad = false) → nextOut st.pending = none → rest = []) := by
  induction chunks generalizing st x with
  | nil =>
    refine ⟨st, [], [], (drain st.pending x).1, x, rfl, ok, by simp, rfl, by simp, .nil, ?_⟩
    intro _ h
    rw [drain_none h]
  | cons c cs ih =>
    obtain ⟨st1, r, seg, rest1, x1, h1, h2, h3, h4, h5, h6, h7⟩ := buffer_default st ok c x
    obtain ⟨st2, rs, segs, rest, x2, i1, i2, i3, i4, i5, i6, i7⟩ := ih st1 h2 x1
    have hflat : st.pending ++ (c :: cs).flatten = st.pending ++ c ++ cs.flatten := by simp
    have e1 := drain_append (st.pending ++ c) cs.flatten x
    have e2 := drain_append st1.pending cs.flatten x1
    rw [h5, h4] at e2
    have hitems : (drain (st.pending ++ (c :: cs).flatten) x).1 = seg ++ (drain (st1.pending ++ cs.flatten) x1).1 := by
      rw [hflat, e1, e2, h3]
      simp
    have hleft : (drain (st.pending ++ (c :: cs).flatten) x).2 = (drain (st1.pending ++ cs.flatten) x1).2 := by
      rw [hflat, e1, e2]
    refine ⟨st2, r :: rs, seg :: segs, rest, x2, ?_, i2, ?_, i4, ?_, .cons h6 i6, ?_⟩
    · simp only [bufferCalls, h1, i1]
    · rw [hitems, i3]; simp
    · rw [i5, hleft]
    · intro hg _
      have hrest : rest1 = [] := (h7 (by
        intro o ho
        apply hg
        rw [hflat, e1]
        exact List.mem_append_left _ ho)).1
      rw [hitems] at hg
      refine i7 (fun o ho => hg o (List.mem_append_right _ ho)) ?_
      cases hn : nextOut st1.pending with
      | none => rfl
      | some v =>
        obtain ⟨o, k, x', e⟩ := v
        rw [drain_some hn, hrest] at h4
        simp at h4

/-- C127 (`parse_buffer`): for every stream and every way of cutting it, every call comes back or raises MAVError; the
calls take the items robust parsing finds in the stream in order, each call the next few of them: one that returns
messages takes exactly these; one that raises takes some messages, which nobody gets, and the bad item it complains
about; one that returns None takes nothing or a stray byte. The rest is still pending. -/
theorem c127_buffer (chunks : List (List Byte)) (items : List Parsed) (left : List Byte)
    (h : RobustGives chunks.flatten items left) :
    ∃ st rs segs rest, bufferCalls (Parser.init false) chunks = some (st, rs) ∧
      items = segs.flatten ++ rest ∧ List.Forall₂ Handled rs segs ∧
      st.pending = (rest.map Parsed.bytes).flatten ++ left := by
  obtain ⟨rfl, rfl⟩ := robust_iff h
  obtain ⟨st, rs, segs, rest, x', i1, i2, i3, i4, i5, i6, _⟩ := bufferCalls_spec chunks _ defaultOK_init 8
  have hp : (Parser.init false).pending ++ chunks.flatten = chunks.flatten := by simp [Parser.init, Parser.pending]
  rw [hp] at i3 i5
  refine ⟨st, rs, segs, rest, i1, i3, i6, ?_⟩
  rw [← i5, ← i4]
  exact (drain_bytes st.pending x').1.symm

theorem handled_sublist {rs : List (Except PyErr (Option (List Parsed)))} {segs : List (List Parsed)}
    (h : List.Forall₂ Handled rs segs) :
    (bufferReturned rs).Sublist (messages segs.flatten) ∧ (∀ e ∈ raised rs, e = .mavError) ∧
      (raised rs = [] → bufferReturned rs = messages segs.flatten) := by
  have hm : ∀ ms : List Parsed, (∀ o ∈ ms, o.isBad = false) → messages ms = ms := by
    intro ms hms
    apply List.filter_eq_self.2
    intro o ho
    simp [hms o ho]
  have happ : ∀ a b : List Parsed, messages (a ++ b) = messages a ++ messages b := by
    intro a b; simp [messages]
  induction h with
  | nil => exact ⟨by simp [bufferReturned], by simp [raised], fun _ => rfl⟩
  | @cons r seg rs segs h1 h2 ih =>
    obtain ⟨i1, i2, i3⟩ := ih
    simp only [List.flatten_cons, happ]
    match r, h1 with
    | .ok none, h1 =>
      have h0 : messages seg = [] := by
        rcases h1 with rfl | ⟨b, rfl⟩ <;> rfl
      rw [h0]
      exact ⟨i1, i2, i3⟩
    | .ok (some ms), ⟨_, hs, hb⟩ =>
      have e : bufferReturned (.ok (some ms) :: rs) = ms ++ bufferReturned rs := rfl
      rw [hs, hm ms hb, e]
      refine ⟨List.Sublist.append_left i1 ms, i2, fun hr => ?_⟩
      rw [i3 hr]
    | .error e, ⟨he, ms, d, hs, hb⟩ =>
      have e1 : bufferReturned (.error e :: rs) = bufferReturned rs := rfl
      have e2 : raised (.error e :: rs) = e :: raised rs := rfl
      rw [e1, e2]
      refine ⟨List.Sublist.trans i1 (List.sublist_append_right _ _), ?_, by simp⟩
      intro e' he'
      rcases List.mem_cons.1 he' with rfl | he'
      · exact he
      · exact i2 e' he'

/-- C127 (`parse_buffer`): in order and at most once each, only messages robust parsing finds in the stream are
returned. -/
theorem c127_buffer_sound (chunks : List (List Byte)) (items : List Parsed) (left : List Byte)
    (h : RobustGives chunks.flatten items left) :
    ∃ st rs, bufferCalls (Parser.init false) chunks = some (st, rs) ∧ (bufferReturned rs).Sublist (messages items) ∧
      ∀ e ∈ raised rs, e = .mavError := by
  obtain ⟨st, rs, segs, rest, h1, h2, h3, _⟩ := c127_buffer chunks items left h
  obtain ⟨g1, g2, _⟩ := handled_sublist h3
  refine ⟨st, rs, h1, ?_, g2⟩
  rw [h2]
  refine List.Sublist.trans g1 ?_
  simp [messages]

/-- C127: on a stream without bad data the default mode is as good as robust parsing: no call raises, and however the
stream is cut the messages returned and the bytes left over are the same. -/
theorem c127_clean (chunks : List (List Byte)) (items : List Parsed) (left : List Byte)
    (h : RobustGives chunks.flatten items left) (hclean : ∀ o ∈ items, o.isBad = false) :
    ∃ st rs, bufferCalls (Parser.init false) chunks = some (st, rs) ∧ raised rs = [] ∧ bufferReturned rs = items ∧
      st.pending = left := by
  obtain ⟨rfl, rfl⟩ := robust_iff h
  obtain ⟨st, rs, segs, rest, x', i1, i2, i3, i4, i5, i6, i7⟩ := bufferCalls_spec chunks _ defaultOK_init 8
  have hp : (Parser.init false).pending ++ chunks.flatten = chunks.flatten := by simp [Parser.init, Parser.pending]
  rw [hp] at i3 i5 i7
  have hrest := i7 hclean rfl
  subst hrest
  rw [List.append_nil] at i3
  rw [i3] at hclean ⊢
  have hnone : raised rs = [] := by
    clear i1 i3
    induction i6 with
    | nil => rfl
    | @cons r seg rs segs h1 h2 ih =>
      have ih := ih (fun o ho => hclean o (by simp only [List.flatten_cons]; exact List.mem_append_right _ ho))
      match r, h1 with
      | .ok _, _ => exact ih
      | .error e, ⟨_, ms, d, hs, _⟩ =>
        have := hclean (.bad d) (by simp [hs])
        cases this
  refine ⟨st, rs, i1, hnone, ?_, ?_⟩
  · rw [(handled_sublist i6).2.2 hnone]
    apply List.filter_eq_self.2
    intro o ho
    simp [hclean o ho]
  · have := (drain_bytes st.pending x').1
    rw [i4, i5] at this
    exact this.symm

theorem nextOut_stray {b : Byte} (h1 : b ≠ 254) (h2 : b ≠ 253) (r : List Byte) :
    nextOut (b :: r) = some (.bad [b], 1, 8, 1) := by
  unfold nextOut
  simp only [List.head?_cons]
  rw [if_pos ⟨h1, h2⟩]

/-- C127, what does not hold: that `parse_buffer` returns every message of the stream. Whatever the frame, if the same
portion brings one stray byte after it, the call raises, the message is returned by no call and nothing is pending. -/
theorem c127_lost_false (m : MsgClass) (f : List Byte) (hp : PackedFrame m f) (b : Byte) (h1 : b ≠ 254) (h2 : b ≠ 253) :
    ∃ msg st, decode f = .ok msg ∧ RobustGives (f ++ [b]) [.msg f msg, .bad [b]] [] ∧
      bufferCalls (Parser.init false) [f ++ [b]] = some (st, [.error .mavError]) ∧ st.pending = [] := by
  obtain ⟨msg, hd, hn⟩ := nextOut_packed hp [b]
  have hdr : drain (f ++ [b]) 8 = ([.msg f msg, .bad [b]], [], 8) := by
    rw [drain_some hn, List.drop_left, drain_some (nextOut_stray h1 h2 []), drain_none (by rfl)]
    rfl
  have hg := robust_gives (f ++ [b])
  rw [hdr] at hg
  obtain ⟨st1, g1, g2, g3, g4, _⟩ := char_item _ defaultOK_init (f ++ [b]) hn
  have g3' : st1.pending = [b] := by
    rw [g3]
    have : (Parser.init false).pending ++ (f ++ [b]) = f ++ [b] := by simp [Parser.init, Parser.pending]
    rw [this, List.drop_left]
  obtain ⟨st2, k1, k2, k3, k4, _⟩ := char_item st1 g2 [] (by rw [g3', List.append_nil]; exact nextOut_stray h1 h2 [])
  refine ⟨msg, st2, hd, hg, ?_, ?_⟩
  · have hpb : parseBuffer (Parser.init false) (f ++ [b]) = some (st2, .error .mavError) := by
      unfold parseBuffer
      rw [g1]
      simp only [answer]
      have : st1.bufLen = 1 := by rw [bufLen_eq, g3']; rfl
      rw [this]
      simp only [parseLoop]
      rw [k1, g4]
      simp [answer, isStray]
    simp only [bufferCalls, hpb]
  · rw [k3, g3']; rfl

/-- C127, what does not hold: that None means there is nothing to be had. After two stray bytes and a frame in one
portion the first call raises and the second returns None although the whole frame is in the buffer; the third returns
the message. -/
theorem c127_none_false (m : MsgClass) (f : List Byte) (hp : PackedFrame m f) (b c : Byte) (h1 : b ≠ 254) (h2 : b ≠ 253)
    (h3 : c ≠ 254) (h4 : c ≠ 253) :
    ∃ msg st st', decode f = .ok msg ∧
      bufferCalls (Parser.init false) [b :: c :: f, []] = some (st, [.error .mavError, .ok none]) ∧ st.pending = f ∧
      bufferCalls (Parser.init false) [b :: c :: f, [], []] =
        some (st', [.error .mavError, .ok none, .ok (some [.msg f msg])]) ∧ st'.pending = [] := by
  obtain ⟨msg, hd, hn⟩ := nextOut_packed hp []
  have hn1 : nextOut ((Parser.init false).pending ++ b :: c :: f) = some (.bad [b], 1, 8, 1) := nextOut_stray h1 h2 _
  obtain ⟨st1, g1, g2, g3, g4, _⟩ := char_item _ defaultOK_init _ hn1
  have g3' : st1.pending = c :: f := g3
  obtain ⟨st2, k1, k2, k3, k4, _⟩ := char_item st1 g2 [] (by rw [g3', List.append_nil]; exact nextOut_stray h3 h4 f)
  have k3' : st2.pending = f := by rw [k3, g3', List.append_nil]; rfl
  obtain ⟨st3, l1, l2, l3, l4, _⟩ := char_item st2 k2 [] (by rw [k3']; exact hn)
  have l3' : st3.pending = [] := by rw [l3, k3', List.append_nil, List.drop_length]
  obtain ⟨st4, m1, m2, m3, _⟩ := char_idle st3 l2 [] (by rw [l3']; rfl)
  have b1 : parseBuffer (Parser.init false) (b :: c :: f) = some (st1, .error .mavError) := by
    unfold parseBuffer
    rw [g1]
    simp [answer, isStray, Parser.init]
  have b2 : parseBuffer st1 [] = some (st2, .ok none) := by
    unfold parseBuffer
    rw [k1, g4]
    simp [answer, isStray]
  have b3 : parseBuffer st2 [] = some (st4, .ok (some [.msg f msg])) := by
    unfold parseBuffer
    rw [l1]
    simp only [answer]
    have : st3.bufLen = 0 := by rw [bufLen_eq, l3']; rfl
    rw [this]
    simp only [parseLoop]
    rw [m1]
  refine ⟨msg, st2, st4, hd, ?_, k3', ?_, by rw [m3, l3']; rfl⟩
  · simp only [bufferCalls, b1, b2]
  · simp only [bufferCalls, b1, b2, b3]

/-- Two stray bytes, a message, a damaged copy of it (last byte changed), a stray byte, the message again and the first
bytes of another one: two messages and three complaints, whether bytewise or with calls to catch up. -/
def noisy : List Byte := [7, 9] ++ beat ++ (beat.dropLast ++ [0]) ++ [1] ++ beat ++ [254, 9]

example : (∃ items, RobustGives noisy items [254, 9] ∧ items.length = 6 ∧ (messages items).length = 2 ∧
      complaints false items = 3 ∧ (refused items).length = 1) ∧
    raised (calls (Parser.init false) (noisy.map fun b => [b])).2 = [.mavError, .mavError, .mavError] ∧
    (returned (calls (Parser.init false) [noisy, [], [], [], []]).2).length = 1 ∧
    (returned (calls (Parser.init false) ([noisy] ++ List.replicate 6 [])).2).length = 2 := by
  refine ⟨⟨_, robust_gives' noisy [254, 9] (by decide +kernel), by decide +kernel⟩, ?_⟩
  decide +kernel

example : ∃ items, RobustGives (beat ++ beat) items [] ∧ items ≠ [] ∧ ∀ o ∈ items, o.isBad = false := by
  refine ⟨_, robust_gives' _ [] (by decide +kernel), by decide +kernel⟩

/-- The frames of `c127_lost_false` and `c127_none_false`. -/
example : ∃ st, bufferCalls (Parser.init false) [beat ++ [7]] = some (st, [.error .mavError]) ∧ st.pending = [] := by
  obtain ⟨_, st, _, _, h⟩ := c127_lost_false msg0 beat beat_packed 7 (by decide) (by decide)
  exact ⟨st, h⟩

end NR.C127
