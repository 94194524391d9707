import Verif.Model.Minimal
import Verif.Props.C14_C15
/-!
C87: the minimal dialect (mavlink_utils/minimal_dialect.py) against the HC dialect (mavlink_utils/HC_dialect.py).
-/
namespace NR
open Spec

/-- The message ids of the minimal dialect. -/
def minimalIds : List Nat := [0, 33, 212, 218, 225, 234]

theorem decodeWith_hc : decodeWith lookupMsg = decode := rfl
theorem parseBufferWith_hc : parseBufferWith decode = parseBuffer := by
  have h1 : ∀ n st ret, parseLoopWith decode n st ret = parseLoop n st ret := by
    intro n
    induction n with
    | zero => intro st ret; rfl
    | succ n ih =>
      intro st ret
      unfold parseLoopWith parseLoop
      have : parseCharWith decode st [] = parseChar st [] := rfl
      rw [this]
      simp only [ih]
      rfl
  funext st s
  unfold parseBufferWith parseBuffer
  simp only [h1]
  rfl

/-- Each message class of the minimal dialect is the class of the HC dialect with the same id. -/
theorem minimal_sub : ∀ m ∈ Minimal.mavlinkMap, m ∈ Dialect.mavlinkMap := by decide +kernel

theorem minimal_lookup (id : Nat) : Minimal.lookupMsg id = if id ∈ minimalIds then lookupMsg id else none := by
  by_cases h : id ∈ minimalIds
  · rw [if_pos h]
    simp only [minimalIds, List.mem_cons, List.not_mem_nil, or_false] at h
    rcases h with rfl | rfl | rfl | rfl | rfl | rfl <;> decide +kernel
  · rw [if_neg h]
    simp only [Minimal.lookupMsg, List.find?_eq_none, beq_iff_eq]
    intro m hm he
    exact h (he ▸ (by decide +kernel : ∀ m ∈ Minimal.mavlinkMap, m.id ∈ minimalIds) m hm)

/-- C87. The two dialects pack the messages of the minimal one to the same bytes. -/
theorem c87_pack : ∀ m ∈ Minimal.mavlinkMap, ∃ m' ∈ Dialect.mavlinkMap, m'.id = m.id ∧ m'.name = m.name ∧
    m'.fieldnames = m.fieldnames ∧ ∀ fields seq sys cmp, packMsg m' fields seq sys cmp = packMsg m fields seq sys cmp :=
  fun m hm => ⟨m, minimal_sub m hm, rfl, rfl, rfl, fun _ _ _ _ => rfl⟩

theorem decodeBodyWith_min (f : List Byte) (a b c d e g h i j : Nat) :
    decodeBodyWith Minimal.lookupMsg f a b c d e g h i j =
      if j ∈ minimalIds then decodeBody f a b c d e g h i j else .error .mavError := by
  unfold decodeBodyWith
  rw [minimal_lookup]
  by_cases hj : j ∈ minimalIds
  · rw [if_pos hj, if_pos hj]
    rfl
  · rw [if_neg hj, if_neg hj]
    simp only [ite_self]

theorem decodeBody_id {f : List Byte} {a b c d e g h i j : Nat} {m : MavMsg} (hm : decodeBody f a b c d e g h i j = .ok m) :
    m.msgId = j := by
  rw [decodeBody_eq] at hm
  simp only at hm
  cases hl : lookupMsg j with
  | none => rw [hl] at hm; cases hm
  | some x =>
    rw [hl] at hm
    simp only at hm
    split at hm
    · split at hm
      · cases hm; rfl
      · cases hm
    · split at hm
      · cases hm; rfl
      · cases hm

/-- C87. `decode` of the minimal dialect on any byte string: what the HC dialect gives, except that messages the minimal
dialect does not define raise MAVError. -/
theorem c87_decode (f : List Byte) : Minimal.decode f = match decode f with
    | .ok m => if m.msgId ∈ minimalIds then .ok m else .error .mavError
    | .error e => .error e := by
  have key : ∀ a b c d e g h i j, decodeBodyWith Minimal.lookupMsg f a b c d e g h i j =
      match decodeBody f a b c d e g h i j with
      | .ok m => if m.msgId ∈ minimalIds then .ok m else .error .mavError
      | .error e => .error e := by
    intro a b c d e g h i j
    rw [decodeBodyWith_min]
    have hx := decodeBody_err f a b c d e g h i j
    cases hd : decodeBody f a b c d e g h i j with
    | ok m => simp only [decodeBody_id hd]
    | error e =>
      rcases hx with ⟨m, hm⟩ | hm
      · rw [hd] at hm; cases hm
      · rw [hd] at hm; cases hm; simp
  unfold Minimal.decode decodeWith decode
  rcases f with _ | ⟨b0, _ | ⟨b1, _ | ⟨b2, _ | ⟨b3, _ | ⟨b4, _ | ⟨b5, _ | ⟨b6, _ | ⟨b7, _ | ⟨b8, _ | ⟨b9, r⟩⟩⟩⟩⟩⟩⟩⟩⟩⟩
  · rfl
  all_goals
    by_cases hb : b0 = 254
    · subst hb
      simp only [ne_eq, not_true_eq_false, if_false, key]
    · simp only [hb, ne_eq, not_false_eq_true, if_true, key]

/-- C87. A message packed with the minimal dialect is decoded by both dialects to the same message, with the values packed. -/
theorem c87_round_trip (m : MsgClass) (hm : m ∈ Minimal.mavlinkMap) (fields : List FieldVal) (hw : WellTyped m fields)
    (seq sys cmp : Nat) (h2 : seq ≤ 255) (h3 : sys ≤ 255) (h4 : cmp ≤ 255) :
    ∃ frame msg, packMsg m fields seq sys cmp = .ok frame ∧ Minimal.decode frame = .ok msg ∧ decode frame = .ok msg ∧
      msg.msgId = m.id ∧ msg.seq = seq ∧ msg.srcSystem = sys ∧ msg.srcComponent = cmp ∧ msg.fields = fields := by
  have hc : CType.char ∉ m.fieldtypes :=
    (by decide +kernel : ∀ m ∈ Minimal.mavlinkMap, CType.char ∉ m.fieldtypes) m hm
  have hid : m.id ∈ minimalIds := (by decide +kernel : ∀ m ∈ Minimal.mavlinkMap, m.id ∈ minimalIds) m hm
  obtain ⟨frame, msg, e1, e2, _, e3, e4, e5, e6, _⟩ := c10_round_trip m (minimal_sub m hm) fields hw seq sys cmp h2 h3 h4
  obtain ⟨frame', msg', f1, f2, f3⟩ := c10_round_trip_exact m (minimal_sub m hm) hc fields hw seq sys cmp h2 h3 h4
  rw [e1] at f1; cases f1
  rw [e2] at f2; cases f2
  refine ⟨frame, msg, e1, ?_, e2, e3, e4, e5, e6, f3⟩
  rw [c87_decode, e2]
  simp only [e3, hid, if_true]

/-- C87. With the minimal dialect every flipped bit of an accepted version-1 frame is detected, without the exception of the
HC dialect (C11). -/
theorem c87_single_bit (f : List Byte) (hf : Returns (Minimal.decode f)) (hv1 : f.head? = some 254) (k b : Nat)
    (hk : k < f.length) (hb : b < 8) : Raises (Minimal.decode (flipBit f k b)) .mavError := by
  obtain ⟨m, hm⟩ := hf
  rw [c87_decode] at hm
  cases hd : decode f with
  | error e => rw [hd] at hm; cases hm
  | ok m' =>
    rw [hd] at hm
    simp only at hm
    split at hm
    · rename_i hid
      have hr : Raises (decode (flipBit f k b)) .mavError := by
        refine c11_single_bit f ⟨m', hd⟩ hv1 k b hk hb fun hx => ?_
        obtain ⟨_, hlen, hx⟩ := hx
        obtain ⟨l, sq, sys, cmp, id, rest, rfl⟩ := v1_shape hv1 (by omega)
        rw [decode_v1] at hd
        rw [decodeBody_id hd] at hid
        simp only [List.getD_cons_zero, List.getD_cons_succ] at hx
        rcases hx with ⟨h, _⟩ | ⟨h, _⟩ <;> rw [h] at hid <;> revert hid <;> decide
      unfold Raises at hr ⊢
      rw [c87_decode, hr]
    · cases hm

/-- What the minimal dialect makes of an item handed out by the HC dialect's parser. -/
def Parsed.minimal : Parsed → Parsed
  | .msg b m => if m.msgId ∈ minimalIds then .msg b m else .bad b
  | .bad b => .bad b

/-- The number of messages the minimal dialect does not define. -/
def unknownMsgs (l : List Parsed) : Nat := l.countP fun x => !x.isBad && x.minimal.isBad

/-- The parser state with `n` more receive errors. -/
def Parser.moreErrors (st : Parser) (n : Nat) : Parser := { st with totalReceiveErrors := st.totalReceiveErrors + n }

theorem parseFrame_min (st : Parser) (hr : st.robustParsing = true) (n hl : Nat) (h3 : Option (Byte × Byte × Nat)) :
    parseFrameWith Minimal.decode (st.moreErrors n) hl h3 =
      match parseFrame st hl h3 with
      | (st', .ok (some x)) => (st'.moreErrors (n + unknownMsgs [x]), .ok (some x.minimal))
      | (st', r) => (st'.moreErrors n, r) := by
  unfold parseFrameWith parseFrame
  cases h3 with
  | none => rfl
  | some q =>
    obtain ⟨magic, incompat, el⟩ := q
    simp only [Parser.moreErrors]
    by_cases hb : magic = 253 ∧ incompat.toNat / 2 ≠ 0
    · simp only [hb, if_true, hr, and_self, ne_eq, not_false_eq_true, unknownMsgs, Parsed.minimal, Parsed.isBad, List.countP_singleton,
        Bool.not_true, Bool.false_and, Bool.false_eq_true, if_false, Nat.add_zero]
      congr 2
      omega
    · simp only [hb, if_false]
      rw [c87_decode]
      cases hd : decode (List.take st.expectedLength (List.drop st.bufIndex st.buf)) with
      | error e =>
        by_cases he : e = .mavError
        · simp only [hr, he, and_self, if_true, unknownMsgs, Parsed.minimal, Parsed.isBad, List.countP_singleton,
            Bool.not_true, Bool.false_and, Bool.false_eq_true, if_false, Nat.add_zero]
          congr 2
          omega
        · simp only [hr, he, and_false, if_false]
      | ok m =>
        by_cases hm : m.msgId ∈ minimalIds
        · simp only [hm, if_true, unknownMsgs, Parsed.minimal, Parsed.isBad, List.countP_singleton,
            Bool.not_false, Bool.and_false, Bool.false_eq_true, if_false, Nat.add_zero]
        · simp only [hm, if_false, hr, and_self, if_true, unknownMsgs, Parsed.minimal, Parsed.isBad, List.countP_singleton,
            Bool.not_false, Bool.and_true]
          rfl

/-- What the minimal parser does where the HC parser does the given step. -/
def minimalStep (n : Nat) : Parser × Except PyErr (Option Parsed) → Parser × Except PyErr (Option Parsed)
  | (st', .ok (some x)) => (st'.moreErrors (n + unknownMsgs [x]), .ok (some x.minimal))
  | (st', r) => (st'.moreErrors n, r)

theorem parseFrame_robust (st : Parser) (hl : Nat) (h3 : Option (Byte × Byte × Nat)) :
    (parseFrame st hl h3).1.robustParsing = st.robustParsing := by
  unfold parseFrame
  cases h3 with
  | none => rfl
  | some q =>
    simp only
    split
    · rfl
    · split <;> rfl

set_option linter.overlappingInstances false in
theorem ite_min (n : Nat) (p : Prop) [d1 : Decidable p] [d2 : Decidable p] [d3 : Decidable p] {a b x y : Parser × Except PyErr (Option Parsed)}
    (hx : a = minimalStep n x) (hy : b = minimalStep n y) (rx : x.1.robustParsing = true) (ry : y.1.robustParsing = true) :
    (@ite _ p d1 a b) = minimalStep n (@ite _ p d2 x y) ∧ (@ite _ p d3 x y).1.robustParsing = true := by
  by_cases h : p
  · simp only [if_pos h]; exact ⟨hx, rx⟩
  · simp only [if_neg h]; exact ⟨hy, ry⟩

theorem parseCharLegacy_min (st : Parser) (hr : st.robustParsing = true) (n : Nat) :
    parseCharLegacyWith Minimal.decode (st.moreErrors n) = minimalStep n (parseCharLegacy st) ∧
      (parseCharLegacy st).1.robustParsing = true := by
  have hf : ∀ (s : Parser), s.robustParsing = true → ∀ hl h3, parseFrameWith Minimal.decode (s.moreErrors n) hl h3 =
      minimalStep n (parseFrame s hl h3) := by
    intro s hs hl h3
    rw [parseFrame_min s hs]
    rfl
  unfold parseCharLegacyWith parseCharLegacy
  have e1 : (st.moreErrors n).buf = st.buf := rfl
  have e2 : (st.moreErrors n).bufIndex = st.bufIndex := rfl
  simp only [e1, e2]
  cases hh : (List.drop st.bufIndex st.buf).head? with
  | none =>
    simp only
    generalize (if none = some (253 : Byte) then 10 else 6) = hl
    have hx := hf { st with havePrefixError := false } hr hl none
    have hy := parseFrame_robust { st with havePrefixError := false } hl none
    simp only [Parser.moreErrors, Parser.bufLen] at hx hy ⊢
    exact ite_min n _ hx rfl (hy.trans hr) hr
  | some magic =>
    simp only
    by_cases hm : magic ≠ 254 ∧ magic ≠ 253
    · rw [if_pos hm, if_pos hm]
      have : (st.moreErrors n).robustParsing = true := hr
      simp only [this, hr, if_true, and_true]
      simp only [minimalStep, Parser.moreErrors, unknownMsgs, Parsed.minimal, Parsed.isBad, List.countP_singleton,
        Bool.not_true, Bool.false_and, Bool.false_eq_true, if_false, Nat.add_zero]
      congr 2
      omega
    · rw [if_neg hm, if_neg hm]
      generalize (if some magic = some (253 : Byte) then 10 else 6) = hl
      cases h3 : readHeader3 hl (List.drop st.bufIndex st.buf) with
      | none =>
        have hx := hf { st with havePrefixError := false } hr hl none
        have hy := parseFrame_robust { st with havePrefixError := false } hl none
        simp only [Parser.moreErrors, Parser.bufLen] at hx hy ⊢
        exact ite_min n _ hx rfl (hy.trans hr) hr
      | some q =>
        obtain ⟨a, b, el⟩ := q
        have hx := hf { st with havePrefixError := false, expectedLength := el } hr hl (some (a, b, el))
        have hy := parseFrame_robust { st with havePrefixError := false, expectedLength := el } hl (some (a, b, el))
        simp only [Parser.moreErrors, Parser.bufLen] at hx hy ⊢
        exact ite_min n _ hx rfl (hy.trans hr) hr

/-- The parser with bytes added to its buffer. -/
def Parser.push (st : Parser) (c : List Byte) : Parser :=
  { st with buf := st.buf ++ c, totalBytesReceived := st.totalBytesReceived + c.length }

/-- The end of `parse_char`. -/
def finishChar : Parser × Except PyErr (Option Parsed) → Parser × Except PyErr (Option Parsed)
  | (st, .error e) => (st, .error e)
  | (st, .ok (some m)) => ({ st with totalPacketsReceived := st.totalPacketsReceived + 1 }, .ok (some m))
  | (st, .ok none) =>
    if st.bufLen = 0 ∧ st.bufIndex ≠ 0 then ({ st with buf := [], bufIndex := 0 }, .ok none) else (st, .ok none)

theorem parseChar_min (st : Parser) (hr : st.robustParsing = true) (n : Nat) (c : List Byte) :
    parseCharWith Minimal.decode (st.moreErrors n) c = minimalStep n (parseChar st c) ∧
      (parseChar st c).1.robustParsing = true := by
  obtain ⟨h1, h2⟩ := parseCharLegacy_min (st.push c) hr n
  have e1 : parseCharWith Minimal.decode (st.moreErrors n) c =
      finishChar (parseCharLegacyWith Minimal.decode ((st.push c).moreErrors n)) := by
    unfold parseCharWith
    show _ = finishChar (parseCharLegacyWith Minimal.decode ((st.moreErrors n).push c))
    unfold Parser.push
    simp only
    generalize parseCharLegacyWith Minimal.decode _ = q
    obtain ⟨s', r⟩ := q
    rcases r with e | _ | x <;> rfl
  have e2 : parseChar st c = finishChar (parseCharLegacy (st.push c)) := by
    unfold parseChar Parser.push
    simp only
    generalize parseCharLegacy _ = q
    obtain ⟨s', r⟩ := q
    rcases r with e | _ | x <;> rfl
  rw [e1, e2, h1]
  revert h2
  generalize parseCharLegacy (st.push c) = q
  obtain ⟨s', r⟩ := q
  intro h2
  rcases r with e | _ | x
  · exact ⟨rfl, h2⟩
  · exact ite_min n (s'.bufLen = 0 ∧ s'.bufIndex ≠ 0) (a := (({ s' with buf := [], bufIndex := 0 } : Parser).moreErrors n, .ok none))
      (b := (s'.moreErrors n, .ok none)) (x := ({ s' with buf := [], bufIndex := 0 }, .ok none)) (y := (s', .ok none)) rfl rfl h2 h2
  · exact ⟨rfl, h2⟩

theorem unknownMsgs_append (a b : List Parsed) : unknownMsgs (a ++ b) = unknownMsgs a + unknownMsgs b := List.countP_append

theorem parseLoop_min (k : Nat) (st : Parser) (hr : st.robustParsing = true) (n : Nat) (ret : List Parsed)
    (st' : Parser) (o : Option (List Parsed)) (h : parseLoop k st ret = some (st', .ok o)) :
    ∃ l, o = some (ret ++ l) ∧ st'.robustParsing = true ∧
      parseLoopWith Minimal.decode k (st.moreErrors n) (ret.map Parsed.minimal) =
        some (st'.moreErrors (n + unknownMsgs l), .ok (some ((ret ++ l).map Parsed.minimal))) := by
  induction k generalizing st n ret with
  | zero => cases h
  | succ k ih =>
    obtain ⟨h1, h2⟩ := parseChar_min st hr n []
    unfold parseLoop at h
    unfold parseLoopWith
    rw [h1]
    revert h2 h
    generalize parseChar st [] = q
    obtain ⟨s', r⟩ := q
    intro h2 h
    cases r with
    | error e => cases h
    | ok p =>
      cases p with
      | none =>
        cases h
        exact ⟨[], by simp, h2, by simp [minimalStep, unknownMsgs]⟩
      | some x =>
        obtain ⟨l, e1, e2, e3⟩ := ih s' h2 (n + unknownMsgs [x]) (ret ++ [x]) h
        refine ⟨x :: l, by rw [e1]; simp, e2, ?_⟩
        simp only [minimalStep]
        rw [List.map_append, List.map_singleton] at e3
        rw [e3, List.append_assoc, List.singleton_append, Nat.add_assoc, ← unknownMsgs_append, List.singleton_append]

/-- C87. One call of `parse_buffer` with robust parsing: where the HC dialect returns items, the minimal dialect returns the same
items with the messages it does not define turned into bad data of the same bytes; its state differs by the number of these in
the error counter. -/
theorem c87_parse_buffer (st : Parser) (hr : st.robustParsing = true) (n : Nat) (s : List Byte) (st' : Parser)
    (o : Option (List Parsed)) (h : parseBuffer st s = some (st', .ok o)) :
    st'.robustParsing = true ∧ Minimal.parseBuffer (st.moreErrors n) s =
      some (st'.moreErrors (n + unknownMsgs (o.getD [])), .ok (o.map fun l => l.map Parsed.minimal)) := by
  obtain ⟨h1, h2⟩ := parseChar_min st hr n s
  unfold parseBuffer at h
  unfold Minimal.parseBuffer parseBufferWith
  rw [h1]
  revert h2 h
  generalize parseChar st s = q
  obtain ⟨s', r⟩ := q
  intro h h2
  cases r with
  | error e => cases h
  | ok p =>
    cases p with
    | none => cases h; exact ⟨h2, rfl⟩
    | some x =>
      simp only at h
      obtain ⟨l, e1, e2, e3⟩ := parseLoop_min _ s' h2 (n + unknownMsgs [x]) [x] st' o h
      refine ⟨e2, ?_⟩
      simp only [minimalStep]
      have hb : (s'.moreErrors (n + unknownMsgs [x])).bufLen = s'.bufLen := rfl
      rw [hb]
      rw [List.map_singleton] at e3
      rw [e3, e1, Nat.add_assoc, ← unknownMsgs_append]
      rfl

/-- Feeding a stream to the minimal dialect's parser in chunks, as `feed` does for the HC dialect. -/
def Minimal.feed : Parser → List (List Byte) → Option (Parser × List Parsed)
  | st, [] => some (st, [])
  | st, c :: cs =>
    match Minimal.parseBuffer st c with
    | some (st', .ok r) =>
      match Minimal.feed st' cs with
      | some (st'', out) => some (st'', r.getD [] ++ out)
      | none => none
    | _ => none

theorem feed_min (chunks : List (List Byte)) (st : Parser) (hr : st.robustParsing = true) (n : Nat) (st' : Parser) (out : List Parsed)
    (h : feed st chunks = some (st', out)) :
    Minimal.feed (st.moreErrors n) chunks = some (st'.moreErrors (n + unknownMsgs out), out.map Parsed.minimal) := by
  induction chunks generalizing st n out with
  | nil => cases h; rfl
  | cons c cs ih =>
    unfold feed at h
    unfold Minimal.feed
    split at h
    · rename_i s1 r hp
      split at h
      · rename_i s2 o2 hf
        cases h
        obtain ⟨e1, e2⟩ := c87_parse_buffer st hr n c s1 r hp
        rw [e2]
        simp only
        rw [ih s1 e1 _ _ hf]
        cases r <;> simp [unknownMsgs, Nat.add_assoc]
      · cases h
    · cases h

/-- C87. A whole stream, cut into any chunks: both parsers get through it; the minimal one hands out the same bytes in the same
pieces, with bad data in place of the messages it does not define, and counts each of them as an error. -/
theorem c87_stream (chunks : List (List Byte)) :
    ∃ st out, feed (Parser.init true) chunks = some (st, out) ∧
      Minimal.feed (Parser.init true) chunks = some ({ st with totalReceiveErrors := st.totalReceiveErrors +
        (out.countP fun x => match x with | .msg _ m => decide (m.msgId ∉ minimalIds) | .bad _ => false) },
        out.map fun x => match x with | .msg b m => if m.msgId ∈ minimalIds then .msg b m else .bad b | .bad b => .bad b) := by
  obtain ⟨st, _, out, h, _⟩ := c14_chunks chunks chunks rfl
  refine ⟨st, out, h, ?_⟩
  have hm := feed_min chunks (Parser.init true) rfl 0 st out h
  have e0 : (Parser.init true).moreErrors 0 = Parser.init true := rfl
  rw [e0] at hm
  rw [hm, Nat.zero_add]
  have hc : unknownMsgs out = out.countP fun x => match x with | .msg _ m => decide (m.msgId ∉ minimalIds) | .bad _ => false := by
    unfold unknownMsgs
    congr 1
    funext x
    cases x with
    | bad b => rfl
    | msg b m => by_cases hm : m.msgId ∈ minimalIds <;> simp [Parsed.minimal, Parsed.isBad, hm]
  rw [← hc]
  rfl

-- A heartbeat is in both dialects, a ping only in the HC dialect.
example : (∃ m ∈ Minimal.mavlinkMap, m.name = "HEARTBEAT") ∧ Returns (decode longPing) ∧ Raises (Minimal.decode longPing) .mavError := by
  refine ⟨by decide +kernel, by decide +kernel, by decide +kernel⟩

-- A heartbeat packed with the minimal dialect: the hypotheses of `c87_round_trip` and `c87_single_bit`.
example : WellTyped Minimal.min0 [.num (.int 1), .num (.int 2), .num (.int 3), .num (.int 4), .num (.int 5), .num (.int 3)] ∧
    ∃ frame, packMsg Minimal.min0 [.num (.int 1), .num (.int 2), .num (.int 3), .num (.int 4), .num (.int 5), .num (.int 3)] 7 1 1 = .ok frame ∧
      frame.head? = some 254 ∧ frame.length = 17 ∧ Returns (Minimal.decode frame) := by
  have hw : WellTyped Minimal.min0 [.num (.int 1), .num (.int 2), .num (.int 3), .num (.int 4), .num (.int 5), .num (.int 3)] := by
    decide +kernel
  refine ⟨hw, ?_⟩
  obtain ⟨frame, msg, h1, h2, _⟩ := c87_round_trip Minimal.min0 (by decide +kernel) _ hw 7 1 1 (by omega) (by omega) (by omega)
  have h1' : packMsg Minimal.min0 [.num (.int 1), .num (.int 2), .num (.int 3), .num (.int 4), .num (.int 5), .num (.int 3)] 7 1 1 =
    .ok frame := h1
  refine ⟨frame, h1, ?_, ?_, ⟨msg, h2⟩⟩
  · have : (packMsg Minimal.min0 [.num (.int 1), .num (.int 2), .num (.int 3), .num (.int 4), .num (.int 5), .num (.int 3)] 7 1 1).toOption.bind
      List.head? = some 254 := by decide +kernel
    rw [h1'] at this
    exact this
  · have : (packMsg Minimal.min0 [.num (.int 1), .num (.int 2), .num (.int 3), .num (.int 4), .num (.int 5), .num (.int 3)] 7 1 1).toOption.map
      List.length = some 17 := by decide +kernel
    rw [h1'] at this
    exact Option.some.inj this

end NR
