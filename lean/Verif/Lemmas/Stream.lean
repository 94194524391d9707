import Verif.Model.Stream
import Verif.Props.C10_C13
/-
A pure view of the stream parser in robust mode: what it does depends only on the pending bytes.
-/
namespace NR
open Dialect

/-- The next item in the pending bytes: the item, how many bytes it takes, the new `expected_length`, and the number
of errors counted. -/
def nextOut (p : List Byte) : Option (Parsed × Nat × Nat × Nat) :=
  match p.head? with
  | none => none
  | some b =>
    if b ≠ 254 ∧ b ≠ 253 then some (.bad [b], 1, 8, 1)
    else
      let hl := if p.head? = some 253 then 10 else 6
      match readHeader3 hl p with
      | none => none
      | some (magic, inc, el) =>
        if el ≤ p.length then
          match (if magic = 253 ∧ inc.toNat / 2 ≠ 0 then .error .mavError else decode (p.take el) : Except PyErr MavMsg) with
          | .ok m => some (.msg (p.take el) m, el, hl + 2, 0)
          | .error _ => some (.bad (p.take el), el, hl + 2, 1)
        else none

/-- `expected_length` after a call that produced nothing. -/
def idleExp (p : List Byte) (x : Nat) : Nat :=
  match readHeader3 (if p.head? = some 253 then 10 else 6) p with
  | some (_, _, el) => el
  | none => x

theorem readHeader3_some {hl : Nat} {p : List Byte} {a b : Byte} {el : Nat} (h : readHeader3 hl p = some (a, b, el)) :
    3 ≤ p.length ∧ p.head? = some a ∧ hl + 2 ≤ el := by
  match p, h with
  | x :: y :: z :: r, h =>
    simp only [readHeader3, Option.some.injEq, Prod.mk.injEq] at h
    obtain ⟨rfl, rfl, rfl⟩ := h
    refine ⟨by simp, rfl, by omega⟩
  | [], h => cases h
  | [_], h => cases h
  | [_, _], h => cases h

theorem readHeader3_none {hl : Nat} {p : List Byte} (h : readHeader3 hl p = none) : p.length < 3 := by
  match p, h with
  | x :: y :: z :: r, h => cases h
  | [], _ => simp
  | [_], _ => simp
  | [_, _], _ => simp

theorem readHeader3_append {hl : Nat} {p : List Byte} (q : List Byte) {v : Byte × Byte × Nat}
    (h : readHeader3 hl p = some v) : readHeader3 hl (p ++ q) = some v := by
  match p, h with
  | x :: y :: z :: r, h => exact h
  | [], h => cases h
  | [_], h => cases h
  | [_, _], h => cases h

theorem head_append {p : List Byte} {b : Byte} (q : List Byte) (h : p.head? = some b) : (p ++ q).head? = some b := by
  cases p with
  | nil => cases h
  | cons x xs => exact h

theorem nextOut_facts {p : List Byte} {o : Parsed} {k x e : Nat} (h : nextOut p = some (o, k, x, e)) :
    0 < k ∧ k ≤ p.length ∧ 8 ≤ x ∧ o.bytes = p.take k ∧
      (match o with | .msg b m => decode b = .ok m ∧ e = 0 | .bad _ => e = 1) := by
  unfold nextOut at h
  cases hh : p.head? with
  | none => rw [hh] at h; cases h
  | some b =>
    rw [hh] at h
    simp only at h
    split at h
    · simp only [Option.some.injEq, Prod.mk.injEq] at h
      obtain ⟨rfl, rfl, rfl, rfl⟩ := h
      match p, hh with
      | x :: r, hh =>
        injection hh with hh
        subst hh
        simp [Parsed.bytes]
    · split at h
      · cases h
      · rename_i magic inc el hr
        obtain ⟨h3, _, hel⟩ := readHeader3_some hr
        split at h
        · rename_i hle
          have hel8 : 8 ≤ el := by
            have : 6 ≤ (if (some b : Option Byte) = some 253 then 10 else 6) := by split <;> omega
            omega
          split at h
          · rename_i m hm
            simp only [Option.some.injEq, Prod.mk.injEq] at h
            obtain ⟨rfl, rfl, rfl, rfl⟩ := h
            refine ⟨by omega, hle, by split <;> omega, rfl, ?_⟩
            split at hm
            · cases hm
            · exact ⟨hm, rfl⟩
          · simp only [Option.some.injEq, Prod.mk.injEq] at h
            obtain ⟨rfl, rfl, rfl, rfl⟩ := h
            exact ⟨by omega, hle, by split <;> omega, rfl, rfl⟩
        · cases h

theorem nextOut_append {p : List Byte} (q : List Byte) {v : Parsed × Nat × Nat × Nat} (h : nextOut p = some v) :
    nextOut (p ++ q) = some v := by
  unfold nextOut at h ⊢
  cases hh : p.head? with
  | none => rw [hh] at h; cases h
  | some b =>
    rw [hh] at h
    rw [head_append q hh]
    simp only at h ⊢
    split at h
    · rename_i hb
      rw [if_pos hb]; exact h
    · rename_i hb
      rw [if_neg hb]
      cases hr : readHeader3 (if (some b : Option Byte) = some 253 then 10 else 6) p with
      | none => rw [hr] at h; cases h
      | some w =>
        obtain ⟨magic, inc, el⟩ := w
        rw [hr] at h
        rw [readHeader3_append q hr]
        simp only at h ⊢
        split at h
        · rename_i hle
          rw [if_pos (by simp; omega), List.take_append_of_le_length hle]
          exact h
        · cases h

theorem idleExp_append (p q : List Byte) (x : Nat) (h : nextOut (p ++ q) = none) :
    idleExp (p ++ q) (idleExp p x) = idleExp (p ++ q) x := by
  unfold idleExp
  cases hr : readHeader3 (if p.head? = some 253 then 10 else 6) p with
  | none => rfl
  | some w =>
    obtain ⟨magic, inc, el⟩ := w
    have h1 := readHeader3_some hr
    rw [head_append q h1.2.1]
    rw [h1.2.1] at hr
    rw [readHeader3_append q hr]

/-- Everything the parser gets out of the pending bytes: the items, what is left, the new `expected_length`. -/
def drain (p : List Byte) (x : Nat) : List Parsed × List Byte × Nat :=
  match h : nextOut p with
  | none => ([], p, idleExp p x)
  | some (o, k, x', _) =>
    let r := drain (p.drop k) x'
    (o :: r.1, r.2)
termination_by p.length
decreasing_by
  have := nextOut_facts h
  simp; omega

theorem drain_none {p : List Byte} {x : Nat} (h : nextOut p = none) : drain p x = ([], p, idleExp p x) := by
  rw [drain]
  split
  · rfl
  · rename_i h'; rw [h] at h'; cases h'

theorem drain_some {p : List Byte} {x : Nat} {o : Parsed} {k x' e : Nat} (h : nextOut p = some (o, k, x', e)) :
    drain p x = (o :: (drain (p.drop k) x').1, (drain (p.drop k) x').2) := by
  rw [drain]
  split
  · rename_i h'; rw [h] at h'; cases h'
  · rename_i h'
    rw [h] at h'
    simp only [Option.some.injEq, Prod.mk.injEq] at h'
    obtain ⟨rfl, rfl, rfl, rfl⟩ := h'
    rfl

theorem drain_idle (p q : List Byte) (x : Nat) : drain (p ++ q) (idleExp p x) = drain (p ++ q) x := by
  cases h : nextOut (p ++ q) with
  | none => rw [drain_none h, drain_none h, idleExp_append p q x h]
  | some v =>
    obtain ⟨o, k, x', e⟩ := v
    rw [drain_some h, drain_some h]

/-- Draining in two portions is draining in one. -/
theorem drain_append (p q : List Byte) (x : Nat) :
    drain (p ++ q) x = ((drain p x).1 ++ (drain ((drain p x).2.1 ++ q) (drain p x).2.2).1,
      (drain ((drain p x).2.1 ++ q) (drain p x).2.2).2) := by
  generalize hn : p.length = n
  induction n using Nat.strongRecOn generalizing p x with
  | ind n ih =>
    subst hn
    cases h : nextOut p with
    | none =>
      rw [drain_none h]
      simp only [List.nil_append]
      rw [drain_idle]
    | some v =>
      obtain ⟨o, k, x', e⟩ := v
      obtain ⟨h1, h2, _⟩ := nextOut_facts h
      have := ih _ (by simp; omega) (p.drop k) x' rfl
      rw [drain_some h, drain_some (nextOut_append q h), List.drop_append_of_le_length h2, this]
      simp

theorem drain_bytes (p : List Byte) (x : Nat) :
    ((drain p x).1.map Parsed.bytes).flatten ++ (drain p x).2.1 = p ∧
      (∀ b m, Parsed.msg b m ∈ (drain p x).1 → decode b = .ok m) ∧ nextOut (drain p x).2.1 = none := by
  generalize hn : p.length = n
  induction n using Nat.strongRecOn generalizing p x with
  | ind n ih =>
    subst hn
    cases h : nextOut p with
    | none => rw [drain_none h]; simp [h]
    | some v =>
      obtain ⟨o, k, x', e⟩ := v
      obtain ⟨h1, h2, _, h4, h5⟩ := nextOut_facts h
      obtain ⟨i1, i2, i3⟩ := ih _ (by simp; omega) (p.drop k) x' rfl
      rw [drain_some h]
      refine ⟨?_, ?_, i3⟩
      · simp only [List.map_cons, List.flatten_cons, List.append_assoc, i1, h4, List.take_append_drop]
      · intro b m hm
        rcases List.mem_cons.1 hm with rfl | hm
        · exact h5.1
        · exact i2 b m hm

/-! The model refines the view. -/

/-- Reachable states in robust mode. -/
structure ParserOK (st : Parser) : Prop where
  robust : st.robustParsing = true
  prefixErr : st.havePrefixError = false
  index : st.bufIndex ≤ st.buf.length
  exp : 8 ≤ st.expectedLength

/-- The unconsumed bytes. -/
def Parser.pending (st : Parser) : List Byte := st.buf.drop st.bufIndex

theorem bufLen_eq (st : Parser) : st.bufLen = st.pending.length := by simp [Parser.bufLen, Parser.pending]

theorem legacy_none (st : Parser) (ok : ParserOK st) (h : nextOut st.pending = none) :
    parseCharLegacy st = ({ st with expectedLength := idleExp st.pending st.expectedLength }, .ok none) := by
  obtain ⟨hr, hp, hi, he⟩ := ok
  obtain ⟨buf, idx, x, hpe, rob, a1, a2, a3⟩ := st
  simp only at hr hp hi he
  subst hr hp
  simp only [Parser.pending] at h ⊢
  generalize hP : buf.drop idx = p at *
  have hpl : buf.length - idx = p.length := by rw [← hP]; simp
  unfold nextOut at h
  unfold parseCharLegacy idleExp
  simp only [hP, Parser.bufLen, hpl]
  cases hh : p.head? with
  | none =>
    have : p = [] := by cases p with
      | nil => rfl
      | cons => cases hh
    subst this
    simp only [List.length_nil, readHeader3]
    rw [if_neg (by omega)]
  | some b =>
    rw [hh] at h
    simp only at h ⊢
    split at h
    · cases h
    · rename_i hb
      rw [if_neg hb]
      cases hr : readHeader3 (if (some b : Option Byte) = some 253 then 10 else 6) p with
      | none =>
        have h3 := readHeader3_none hr
        simp only
        rw [if_neg (by omega)]
      | some w =>
        obtain ⟨magic, inc, el⟩ := w
        rw [hr] at h
        simp only at h ⊢
        split at h
        · split at h <;> cases h
        · rename_i hle
          rw [if_neg (by omega)]

theorem legacy_some (st : Parser) (ok : ParserOK st) {o : Parsed} {k x e : Nat}
    (h : nextOut st.pending = some (o, k, x, e)) :
    parseCharLegacy st = ({ st with
      bufIndex := st.bufIndex + k, expectedLength := x,
      totalReceiveErrors := st.totalReceiveErrors + e }, .ok (some o)) := by
  obtain ⟨hr, hp, hi, he⟩ := ok
  obtain ⟨buf, idx, xl, hpe, rob, a1, a2, a3⟩ := st
  simp only at hr hp hi he
  subst hr hp
  simp only [Parser.pending] at h ⊢
  generalize hP : buf.drop idx = p at *
  have hpl : buf.length - idx = p.length := by rw [← hP]; simp
  unfold nextOut at h
  unfold parseCharLegacy
  simp only [hP, Parser.bufLen, hpl]
  cases hh : p.head? with
  | none => rw [hh] at h; cases h
  | some b =>
    rw [hh] at h
    simp only at h ⊢
    split at h
    · rename_i hb
      rw [if_pos hb]
      simp only [Option.some.injEq, Prod.mk.injEq] at h
      obtain ⟨rfl, rfl, rfl, rfl⟩ := h
      simp only [if_true]
      have : (some b : Option Byte) ≠ some 253 := by simpa using hb.2
      rw [if_neg this]
    · rename_i hb
      rw [if_neg hb]
      cases hr : readHeader3 (if (some b : Option Byte) = some 253 then 10 else 6) p with
      | none => rw [hr] at h; cases h
      | some w =>
        obtain ⟨magic, inc, el⟩ := w
        obtain ⟨h3, _, hel⟩ := readHeader3_some hr
        rw [hr] at h
        simp only at h ⊢
        split at h
        · rename_i hle
          rw [if_pos ⟨hel, by omega⟩]
          unfold parseFrame
          simp only [hP]
          split at h
          · rename_i m hm
            simp only [hm]
            simp only [Option.some.injEq, Prod.mk.injEq] at h
            obtain ⟨rfl, rfl, rfl, rfl⟩ := h
            simp
          · rename_i er hm
            simp only [hm]
            simp only [Option.some.injEq, Prod.mk.injEq] at h
            obtain ⟨rfl, rfl, rfl, rfl⟩ := h
            have : er = .mavError := by
              split at hm
              · injection hm with hm; exact hm.symm
              · have hne : p.take el ≠ [] := by
                  intro h0
                  have := congrArg List.length h0
                  simp only [List.length_take, List.length_nil] at this
                  omega
                rcases c12_only_maverror _ hne with ⟨_, h1⟩ | h1
                · rw [h1] at hm; cases hm
                · rw [h1] at hm; injection hm with hm; exact hm.symm
            subst this
            simp
        · cases h

/-- The state after draining: same configuration, pending bytes `p`, `expected_length` `x`, counters advanced. -/
structure After (st st' : Parser) (p : List Byte) (x np nb ne : Nat) : Prop where
  ok : ParserOK st'
  pend : st'.pending = p
  exp : st'.expectedLength = x
  packets : st'.totalPacketsReceived = st.totalPacketsReceived + np
  bytes : st'.totalBytesReceived = st.totalBytesReceived + nb
  errors : st'.totalReceiveErrors = st.totalReceiveErrors + ne

/-- Number of bad-data items. -/
def badCount (out : List Parsed) : Nat := (out.filter Parsed.isBad).length

theorem parseChar_none (st : Parser) (ok : ParserOK st) (c : List Byte) (h : nextOut (st.pending ++ c) = none) :
    ∃ st', parseChar st c = (st', .ok none) ∧
      After st st' (st.pending ++ c) (idleExp (st.pending ++ c) st.expectedLength) 0 c.length 0 := by
  have hpend : ({ st with buf := st.buf ++ c, totalBytesReceived := st.totalBytesReceived + c.length } : Parser).pending
      = st.pending ++ c := by
    simp only [Parser.pending]
    rw [List.drop_append_of_le_length ok.index]
  have ok' : ParserOK { st with buf := st.buf ++ c, totalBytesReceived := st.totalBytesReceived + c.length } :=
    ⟨ok.robust, ok.prefixErr, by have := ok.index; simp; omega, ok.exp⟩
  have hx8 : 8 ≤ idleExp (st.pending ++ c) st.expectedLength := by
    unfold idleExp
    split
    · rename_i hr
      have := (readHeader3_some hr).2.2
      have : 6 ≤ (if (st.pending ++ c).head? = some 253 then 10 else 6) := by split <;> omega
      omega
    · exact ok.exp
  unfold parseChar
  simp only
  rw [legacy_none _ ok' (by rw [hpend]; exact h), hpend]
  simp only
  split
  · rename_i hz
    refine ⟨_, rfl, ?_, ?_, rfl, rfl, rfl, rfl⟩
    · exact ⟨ok.robust, ok.prefixErr, by simp, hx8⟩
    · have h1 := hz.1
      rw [bufLen_eq] at h1
      have h2 := List.eq_nil_of_length_eq_zero h1
      have h3 : ({ st with
          buf := st.buf ++ c, totalBytesReceived := st.totalBytesReceived + c.length,
          expectedLength := idleExp (st.pending ++ c) st.expectedLength } : Parser).pending = st.pending ++ c := hpend
      rw [← h3, h2]
      rfl
  · exact ⟨_, rfl, ⟨ok.robust, ok.prefixErr, by have := ok.index; simp; omega, hx8⟩, hpend, rfl, rfl, rfl, rfl⟩

theorem parseChar_some (st : Parser) (ok : ParserOK st) (c : List Byte) {o : Parsed} {k x e : Nat}
    (h : nextOut (st.pending ++ c) = some (o, k, x, e)) :
    ∃ st', parseChar st c = (st', .ok (some o)) ∧
      After st st' ((st.pending ++ c).drop k) x 1 c.length (badCount [o]) := by
  have hpend : ({ st with buf := st.buf ++ c, totalBytesReceived := st.totalBytesReceived + c.length } : Parser).pending
      = st.pending ++ c := by
    simp only [Parser.pending]
    rw [List.drop_append_of_le_length ok.index]
  have ok' : ParserOK { st with buf := st.buf ++ c, totalBytesReceived := st.totalBytesReceived + c.length } :=
    ⟨ok.robust, ok.prefixErr, by have := ok.index; simp; omega, ok.exp⟩
  obtain ⟨h1, h2, h3, h4, h5⟩ := nextOut_facts h
  have hl : (st.pending ++ c).length = st.buf.length + c.length - st.bufIndex := by
    rw [← hpend]; simp [Parser.pending]
  unfold parseChar
  simp only
  rw [legacy_some _ ok' (by rw [hpend]; exact h)]
  simp only
  refine ⟨_, rfl, ⟨ok.robust, ok.prefixErr, ?_, h3⟩, ?_, rfl, rfl, rfl, ?_⟩
  · have := ok.index
    simp
    omega
  · rw [← hpend]
    simp [Parser.pending, List.drop_drop]
  · simp only
    cases o with
    | msg b m => rw [h5.2]; rfl
    | bad d => rw [h5]; rfl

theorem badCount_append (a b : List Parsed) : badCount (a ++ b) = badCount a + badCount b := by simp [badCount]

theorem badCount_cons (o : Parsed) (b : List Parsed) : badCount (o :: b) = badCount [o] + badCount b :=
  badCount_append [o] b

theorem parseLoop_spec (n : Nat) (st : Parser) (ok : ParserOK st) (hn : st.pending.length < n) (ret : List Parsed) :
    ∃ st', parseLoop n st ret = some (st', .ok (some (ret ++ (drain st.pending st.expectedLength).1))) ∧
      After st st' (drain st.pending st.expectedLength).2.1 (drain st.pending st.expectedLength).2.2
        (drain st.pending st.expectedLength).1.length 0 (badCount (drain st.pending st.expectedLength).1) := by
  induction n generalizing st ret with
  | zero => omega
  | succ n ih =>
    cases h : nextOut st.pending with
    | none =>
      obtain ⟨st', h1, h2⟩ := parseChar_none st ok [] (by rw [List.append_nil]; exact h)
      rw [List.append_nil] at h2
      refine ⟨st', ?_, ?_⟩
      · simp only [parseLoop, h1, drain_none h, List.append_nil]
      · rw [drain_none h]; exact h2
    | some v =>
      obtain ⟨o, k, x, e⟩ := v
      obtain ⟨st1, h1, h2⟩ := parseChar_some st ok [] (by rw [List.append_nil]; exact h)
      rw [List.append_nil] at h2
      obtain ⟨f1, f2, _⟩ := nextOut_facts h
      obtain ⟨st2, g1, g2⟩ := ih st1 h2.ok (by rw [h2.pend]; simp; omega) (ret ++ [o])
      rw [h2.pend, h2.exp] at g1 g2
      refine ⟨st2, ?_, ?_⟩
      · simp only [parseLoop, h1, g1, drain_some h, List.append_assoc, List.singleton_append]
      · rw [drain_some h]
        refine ⟨g2.ok, g2.pend, g2.exp, ?_, ?_, ?_⟩
        · rw [g2.packets, h2.packets]; simp; omega
        · rw [g2.bytes, h2.bytes]; simp
        · rw [g2.errors, h2.errors]
          simp only [badCount_cons o (drain _ x).1]
          omega

theorem parseBuffer_spec (st : Parser) (ok : ParserOK st) (s : List Byte) :
    ∃ st' r, parseBuffer st s = some (st', .ok r) ∧ r.getD [] = (drain (st.pending ++ s) st.expectedLength).1 ∧
      After st st' (drain (st.pending ++ s) st.expectedLength).2.1 (drain (st.pending ++ s) st.expectedLength).2.2
        (drain (st.pending ++ s) st.expectedLength).1.length s.length
        (badCount (drain (st.pending ++ s) st.expectedLength).1) := by
  cases h : nextOut (st.pending ++ s) with
  | none =>
    obtain ⟨st', h1, h2⟩ := parseChar_none st ok s h
    refine ⟨st', none, ?_, ?_, ?_⟩
    · simp only [parseBuffer, h1]
    · rw [drain_none h]; rfl
    · rw [drain_none h]; exact h2
  | some v =>
    obtain ⟨o, k, x, e⟩ := v
    obtain ⟨st1, h1, h2⟩ := parseChar_some st ok s h
    obtain ⟨st2, g1, g2⟩ := parseLoop_spec (st1.bufLen + 1) st1 h2.ok (by rw [bufLen_eq]; omega) [o]
    rw [h2.pend, h2.exp] at g1 g2
    refine ⟨st2, some ([o] ++ (drain (List.drop k (st.pending ++ s)) x).1), ?_, ?_, ?_⟩
    · simp only [parseBuffer, h1, g1]
    · rw [drain_some h]; rfl
    · rw [drain_some h]
      refine ⟨g2.ok, g2.pend, g2.exp, ?_, ?_, ?_⟩
      · rw [g2.packets, h2.packets]; simp; omega
      · rw [g2.bytes, h2.bytes]; simp
      · rw [g2.errors, h2.errors]
        simp only [badCount_cons o (drain _ x).1]
        omega

end NR
