import Verif.Model.Callbacks
import Verif.Props.C120
/-
C125: callbacks that raise and writes that fail: which items a callback sees, which the caller gets, and which frames are on the line.
-/
namespace NR.C125
open NR Dialect

/-! ### receiving -/

/-- A callback that also writes down what it is called with. -/
def logged {κ : Type} (f : κ → Parsed → κ × Except PyErr Unit) (k : κ × List Parsed) (o : Parsed) : (κ × List Parsed) × Except PyErr Unit :=
  (((f k.1 o).1, k.2 ++ [o]), (f k.1 o).2)

/-- Handing chunks to `parse_buffer` one after the other, going on after an exception: the results of the calls (None counts as the empty
list). `none` if a call does not come back. -/
def serve {κ : Type} (cb : OnItem κ) : Parser → κ → List (List Byte) → Option (Parser × κ × List (Except PyErr (List Parsed)))
  | st, k, [] => some (st, k, [])
  | st, k, c :: cs =>
    match parseBufferC cb st k c with
    | none => none
    | some (st, k, r) => match serve cb st k cs with
      | none => none
      | some (st, k, rs) => some (st, k, r.map (fun x => x.getD []) :: rs)

/-- What a call did: it handed the items `seen` to the callback; it returns them, or the callback raised on the last of them. -/
def CallDid {κ : Type} (f : κ → Parsed → κ × Except PyErr Unit) (r : Except PyErr (List Parsed)) (seen : List Parsed) : Prop :=
  r = .ok seen ∨ ∃ e l o k, r = .error e ∧ seen = l ++ [o] ∧ (f k o).2 = .error e

theorem parseCharC_none {κ : Type} (f : κ → Parsed → κ × Except PyErr Unit) (st : Parser) (ok : ParserOK st) (k : κ × List Parsed) (c : List Byte)
    (h : nextOut (st.pending ++ c) = none) :
    ∃ st', parseCharC (some (logged f)) st k c = (st', k, .ok none) ∧
      After st st' (st.pending ++ c) (idleExp (st.pending ++ c) st.expectedLength) 0 c.length 0 := by
  obtain ⟨st', h1, h2⟩ := parseChar_none st ok c h
  exact ⟨st', by simp only [parseCharC, h1], h2⟩

theorem parseCharC_some {κ : Type} (f : κ → Parsed → κ × Except PyErr Unit) (st : Parser) (ok : ParserOK st) (k : κ × List Parsed) (c : List Byte)
    {o : Parsed} {n x e : Nat} (h : nextOut (st.pending ++ c) = some (o, n, x, e)) :
    ∃ st' k', After st st' ((st.pending ++ c).drop n) x 1 c.length (badCount [o]) ∧ k'.2 = k.2 ++ [o] ∧
      ((parseCharC (some (logged f)) st k c = (st', k', .ok (some o))) ∨
        ∃ er, (f k.1 o).2 = .error er ∧ parseCharC (some (logged f)) st k c = (st', k', .error er)) := by
  obtain ⟨st', h1, h2⟩ := parseChar_some st ok c h
  refine ⟨st', ((f k.1 o).1, k.2 ++ [o]), h2, rfl, ?_⟩
  cases hr : (f k.1 o).2 with
  | ok u => left; simp only [parseCharC, h1, logged, hr]
  | error er => right; exact ⟨er, rfl, by simp only [parseCharC, h1, logged, hr]⟩

/-- One step of the bookkeeping: what was pending is what was seen followed by what is pending. -/
structure Took (st st' : Parser) (stream : List Byte) (seen : List Parsed) (all : Bool) : Prop where
  ok : ParserOK st'
  items : drain stream st.expectedLength =
    (seen ++ (drain st'.pending st'.expectedLength).1, (drain st'.pending st'.expectedLength).2)
  idle : all = true → nextOut st'.pending = none
  packets : st'.totalPacketsReceived = st.totalPacketsReceived + seen.length
  errors : st'.totalReceiveErrors = st.totalReceiveErrors + badCount seen

theorem parseLoopC_spec {κ : Type} (f : κ → Parsed → κ × Except PyErr Unit) (n : Nat) (st : Parser) (ok : ParserOK st)
    (hn : st.pending.length < n) (k : κ × List Parsed) (ret : List Parsed) :
    ∃ st' k' r seen, parseLoopC (some (logged f)) n st k ret = some (st', k', r) ∧ k'.2 = k.2 ++ seen ∧
      Took st st' st.pending seen r.isOk ∧
      (r = .ok (some (ret ++ seen)) ∨ ∃ e l o kk, r = .error e ∧ seen = l ++ [o] ∧ (f kk o).2 = .error e) := by
  induction n generalizing st k ret with
  | zero => omega
  | succ n ih =>
    cases h : nextOut st.pending with
    | none =>
      obtain ⟨st', h1, h2⟩ := parseCharC_none f st ok k [] (by rw [List.append_nil]; exact h)
      rw [List.append_nil] at h2
      refine ⟨st', k, .ok (some ret), [], ?_, by simp, ⟨h2.ok, ?_, fun _ => by rw [h2.pend]; exact h, by rw [h2.packets]; rfl, by rw [h2.errors]; rfl⟩,
        by simp⟩
      · simp only [parseLoopC, h1]
      · rw [h2.pend, h2.exp, List.nil_append]
        have := drain_idle st.pending [] st.expectedLength
        rw [List.append_nil] at this
        rw [this]
    | some v =>
      obtain ⟨o, m, x, e⟩ := v
      obtain ⟨st1, k1, h2, hk, hc⟩ := parseCharC_some f st ok k [] (by rw [List.append_nil]; exact h)
      rw [List.append_nil] at h2
      obtain ⟨f1, f2, _⟩ := nextOut_facts h
      rcases hc with h1 | ⟨er, he, h1⟩
      · obtain ⟨st2, k2, r, seen, g1, g2, g3, g4⟩ := ih st1 h2.ok (by rw [h2.pend]; simp; omega) k1 (ret ++ [o])
        refine ⟨st2, k2, r, o :: seen, ?_, by rw [g2, hk]; simp, ⟨g3.ok, ?_, g3.idle, ?_, ?_⟩, ?_⟩
        · simp only [parseLoopC, h1, g1]
        · have := g3.items
          rw [h2.pend, h2.exp] at this
          rw [drain_some h, this]; rfl
        · rw [g3.packets, h2.packets]; simp; omega
        · rw [g3.errors, h2.errors, badCount_cons o seen]; omega
        · rcases g4 with g4 | ⟨er, l, o', kk, g4, g5, g6⟩
          · left; rw [g4]; simp
          · right; exact ⟨er, o :: l, o', kk, g4, by rw [g5]; rfl, g6⟩
      · refine ⟨st1, k1, .error er, [o], ?_, hk, ⟨h2.ok, ?_, fun h => by simp [Except.isOk, Except.toBool] at h, h2.packets, h2.errors⟩,
          .inr ⟨er, [], o, k.1, rfl, rfl, he⟩⟩
        · simp only [parseLoopC, h1]
        · rw [h2.pend, h2.exp, drain_some h]; rfl

theorem parseBufferC_spec {κ : Type} (f : κ → Parsed → κ × Except PyErr Unit) (st : Parser) (ok : ParserOK st) (k : κ × List Parsed)
    (s : List Byte) :
    ∃ st' k' r seen, parseBufferC (some (logged f)) st k s = some (st', k', r) ∧ k'.2 = k.2 ++ seen ∧
      Took st st' (st.pending ++ s) seen r.isOk ∧ CallDid f (r.map fun x => x.getD []) seen := by
  cases h : nextOut (st.pending ++ s) with
  | none =>
    obtain ⟨st', h1, h2⟩ := parseCharC_none f st ok k s h
    refine ⟨st', k, .ok none, [], ?_, by simp, ⟨h2.ok, ?_, fun _ => by rw [h2.pend]; exact h, by rw [h2.packets]; rfl, by rw [h2.errors]; rfl⟩,
      .inl rfl⟩
    · simp only [parseBufferC, h1]
    · rw [h2.pend, h2.exp, List.nil_append]
      have := drain_idle (st.pending ++ s) [] st.expectedLength
      rw [List.append_nil] at this
      rw [this]
  | some v =>
    obtain ⟨o, m, x, e⟩ := v
    obtain ⟨st1, k1, h2, hk, hc⟩ := parseCharC_some f st ok k s h
    rcases hc with h1 | ⟨er, he, h1⟩
    · obtain ⟨st2, k2, r, seen, g1, g2, g3, g4⟩ := parseLoopC_spec f (st1.bufLen + 1) st1 h2.ok (by rw [bufLen_eq]; omega) k1 [o]
      refine ⟨st2, k2, r, o :: seen, ?_, by rw [g2, hk]; simp, ⟨g3.ok, ?_, g3.idle, ?_, ?_⟩, ?_⟩
      · simp only [parseBufferC, h1, g1]
      · have := g3.items
        rw [h2.pend, h2.exp] at this
        rw [drain_some h, this]; rfl
      · rw [g3.packets, h2.packets]; simp; omega
      · rw [g3.errors, h2.errors, badCount_cons o seen]; omega
      · rcases g4 with g4 | ⟨er, l, o', kk, g4, g5, g6⟩
        · left; rw [g4]; rfl
        · right; exact ⟨er, o :: l, o', kk, by rw [g4]; rfl, by rw [g5]; rfl, g6⟩
    · refine ⟨st1, k1, .error er, [o], ?_, hk, ⟨h2.ok, ?_, fun h => by simp [Except.isOk, Except.toBool] at h, h2.packets, h2.errors⟩,
        .inr ⟨er, [], o, k.1, rfl, rfl, he⟩⟩
      · simp only [parseBufferC, h1]
      · rw [h2.pend, h2.exp, drain_some h]; rfl

theorem serve_spec {κ : Type} (f : κ → Parsed → κ × Except PyErr Unit) (chunks : List (List Byte)) (st : Parser) (ok : ParserOK st)
    (k : κ × List Parsed) :
    ∃ st' k' rs seens, serve (some (logged f)) st k chunks = some (st', k', rs) ∧ k'.2 = k.2 ++ seens.flatten ∧
      Took st st' (st.pending ++ chunks.flatten) seens.flatten (match rs.getLast? with | some r => r.isOk | none => false) ∧
      List.Forall₂ (CallDid f) rs seens := by
  induction chunks generalizing st k with
  | nil =>
    refine ⟨st, k, [], [], rfl, by simp, ⟨ok, by simp, fun h => by simp at h, rfl, rfl⟩, .nil⟩
  | cons c cs ih =>
    obtain ⟨st1, k1, r, seen, a1, a2, a3, a4⟩ := parseBufferC_spec f st ok k c
    obtain ⟨st2, k2, rs, seens, b1, b2, b3, b4⟩ := ih st1 a3.ok k1
    refine ⟨st2, k2, r.map (fun x => x.getD []) :: rs, seen :: seens, ?_, by rw [b2, a2]; simp, ⟨b3.ok, ?_, ?_, ?_, ?_⟩, .cons a4 b4⟩
    · simp only [serve, a1, b1]
    · have h1 := a3.items
      have h2 := b3.items
      have e : st.pending ++ (c :: cs).flatten = st.pending ++ c ++ cs.flatten := by simp
      rw [e]
      have hd := drain_append (st.pending ++ c) cs.flatten st.expectedLength
      rw [hd, h1]
      have hd1 := drain_append st1.pending cs.flatten st1.expectedLength
      rw [h2] at hd1
      have e1 := congrArg Prod.fst hd1
      have e2 := congrArg Prod.snd hd1
      simp only at e1 e2
      simp only [List.flatten_cons]
      rw [List.append_assoc, ← e1, ← e2, List.append_assoc]
    · intro h
      cases rs with
      | nil =>
        cases b4
        cases cs with
        | nil =>
          simp only [serve, Option.some.injEq, Prod.mk.injEq] at b1
          obtain ⟨rfl, _⟩ := b1
          apply a3.idle
          cases r with
          | ok _ => rfl
          | error _ => simp [Except.map, Except.isOk, Except.toBool] at h
        | cons d ds =>
          simp only [serve] at b1
          split at b1
          · cases b1
          · split at b1 <;> simp at b1
      | cons r' rs' => exact b3.idle (by simpa using h)
    · rw [b3.packets, a3.packets]; simp; omega
    · rw [b3.errors, a3.errors, List.flatten_cons, badCount_append]; omega

/-- C125: whatever a callback does and however often it raises, if the caller goes on after exceptions every item of the stream is handed to it
exactly once and in order. It has seen a first part of the items a parser without callback returns for the stream, the rest is still in the
buffer, and after a call that returned there is no rest. A call returns the items handed over in it, or raises what the callback
raised on the last of them. Items are counted when they are handed over. -/
theorem c125_seen {κ : Type} (f : κ → Parsed → κ × Except PyErr Unit) (k₀ : κ) (chunks : List (List Byte)) :
    ∃ st k log rs all seens,
      serve (some (logged f)) (Parser.init true) (k₀, []) chunks = some (st, (k, log), rs) ∧
      (∃ st', feed (Parser.init true) [chunks.flatten] = some (st', all)) ∧
      log <+: all ∧ (log.map Parsed.bytes).flatten ++ st.pending = chunks.flatten ∧
      ((∃ l, rs.getLast? = some (.ok l)) → log = all) ∧
      log = seens.flatten ∧ List.Forall₂ (CallDid f) rs seens ∧
      st.totalPacketsReceived = log.length ∧ st.totalReceiveErrors = (log.filter Parsed.isBad).length := by
  obtain ⟨st, ⟨k, log⟩, rs, seens, h1, h2, h3, h4⟩ := serve_spec f chunks (Parser.init true) parserOK_init (k₀, [])
  obtain ⟨st', g1, g2⟩ := NR.C120.feed_init [chunks.flatten]
  have hfl : [chunks.flatten].flatten = chunks.flatten := by simp
  rw [hfl] at g1 g2
  simp only [List.nil_append] at h2
  have hit := h3.items
  have hp : (Parser.init true).pending ++ chunks.flatten = chunks.flatten := rfl
  have hx : (Parser.init true).expectedLength = 8 := rfl
  rw [hp, hx, ← h2] at hit
  have hb := (c14_bytes [chunks.flatten] st' _ g1).1
  rw [hfl, g2, hit] at hb
  obtain ⟨d1, _, _⟩ := drain_bytes st.pending st.expectedLength
  refine ⟨st, k, log, rs, _, seens, h1, ⟨st', g1⟩, ?_, ?_, ?_, h2, h4, ?_, ?_⟩
  · rw [hit]; exact List.prefix_append _ _
  · rw [← hb]
    simp only [List.map_append, List.flatten_append, List.append_assoc]
    rw [d1]
  · rintro ⟨l, hl⟩
    rw [hl] at h3
    rw [hit, drain_none (h3.idle rfl)]
    simp
  · rw [h3.packets, ← h2]; simp [Parser.init]
  · rw [h3.errors, ← h2]; simp [Parser.init, badCount]

/-- A callback that raises on every second item. -/
def everyOther (k : Nat) (_ : Parsed) : Nat × Except PyErr Unit := (k + 1, if k % 2 = 1 then .error .keyError else .ok ())

/-- Three stray bytes. -/
def stray : List Byte := [1, 2, 3]

/-- C125: expectation that fails: the caller gets every item as a return value. What a call had received before the callback raised is
not returned by it or by any later call. -/
theorem c125_returned_false : ∃ st k rs, serve (some (logged everyOther)) (Parser.init true) (0, []) [stray, []] = some (st, k, rs) ∧
    k.2 = [.bad [1], .bad [2], .bad [3]] ∧ rs = [.error .keyError, .ok [.bad [3]]] := by
  refine ⟨(((serve (some (logged everyOther)) (Parser.init true) (0, []) [stray, []]).getD (Parser.init true, (0, []), [])).1), (3, [.bad [1], .bad [2], .bad [3]]), [.error .keyError, .ok [.bad [3]]], ?_, rfl, rfl⟩
  rfl

/-! ### sending -/

/-- A line that also writes down what is written to it and whether that succeeded. -/
def tapped {ω : Type} (write : ω → List Byte → ω × Except PyErr Unit) (w : ω × List (List Byte × Bool)) (buf : List Byte) :
    (ω × List (List Byte × Bool)) × Except PyErr Unit :=
  (((write w.1 buf).1, w.2 ++ [(buf, (write w.1 buf).2.isOk)]), (write w.1 buf).2)

/-- Sending messages one after the other, going on after exceptions. -/
def sendAllC {ω κ : Type} (write : ω → List Byte → ω × Except PyErr Unit)
    (cb : Option (κ → MsgClass × List FieldVal → κ × Except PyErr Unit)) :
    SenderC × ω × κ → List (MsgClass × List FieldVal) → SenderC × ω × κ
  | s, [] => s
  | (st, w, k), (m, fs) :: rest =>
    let (st, w, k, _) := sendC write cb st w k m fs
    sendAllC write cb (st, w, k) rest

/-- The frames of which the whole was written. -/
def sent (log : List (List Byte × Bool)) : List (List Byte) := (log.filter Prod.snd).map Prod.fst

/-- A new sender. -/
def newSender (sys cmp : Int) : SenderC := ⟨0, sys, cmp, 0, 0⟩

/-- C125: a call of `send` ends in one of four ways: it raises before anything is written; the write raises, the call raises the same, and the
sender is as before and the callback not called; the frame is written and counted and no callback is set; or the frame is written and counted,
the callback is called once, and the call returns or raises as it does. -/
theorem c125_send {ω κ : Type} (write : ω → List Byte → ω × Except PyErr Unit)
    (cb : Option (κ → MsgClass × List FieldVal → κ × Except PyErr Unit)) (st : SenderC) (w : ω) (log : List (List Byte × Bool)) (k : κ)
    (m : MsgClass) (fields : List FieldVal) :
    ∃ st' w' log' k' r, sendC (tapped write) cb st (w, log) k m fields = (st', (w', log'), k', r) ∧
      ((∃ e, packMsg m fields st.seq st.srcSystem st.srcComponent = .error e ∧ r = .error e ∧ st' = st ∧ log' = log ∧ k' = k) ∨
      ∃ f, packMsg m fields st.seq st.srcSystem st.srcComponent = .ok f ∧
        ((∃ e, (write w f).2 = .error e ∧ r = .error e ∧ st' = st ∧ log' = log ++ [(f, false)] ∧ k' = k) ∨
        ((write w f).2 = .ok () ∧ log' = log ++ [(f, true)] ∧
          st' = ⟨(st.seq + 1) % 256, st.srcSystem, st.srcComponent, st.totalPacketsSent + 1, st.totalBytesSent + f.length⟩ ∧
          ((cb = none ∧ k' = k ∧ r = .ok ()) ∨ ∃ g, cb = some g ∧ g k (m, fields) = (k', r))))) := by
  unfold sendC
  cases hp : packMsg m fields st.seq st.srcSystem st.srcComponent with
  | error e => exact ⟨_, _, _, _, _, rfl, .inl ⟨e, rfl, rfl, rfl, rfl, rfl⟩⟩
  | ok f =>
    cases hw : (write w f).2 with
    | error e =>
      refine ⟨st, (write w f).1, log ++ [(f, false)], k, .error e, ?_, .inr ⟨f, rfl, .inl ⟨e, hw, rfl, rfl, rfl, rfl⟩⟩⟩
      simp [tapped, hw, Except.isOk, Except.toBool]
    | ok u =>
      cases cb with
      | none =>
        refine ⟨_, (write w f).1, log ++ [(f, true)], k, .ok (), ?_, .inr ⟨f, rfl, .inr ⟨hw, rfl, rfl, .inl ⟨rfl, rfl, rfl⟩⟩⟩⟩
        simp [tapped, hw, Except.isOk, Except.toBool]
      | some g =>
        refine ⟨_, (write w f).1, log ++ [(f, true)], (g k (m, fields)).1, (g k (m, fields)).2, ?_,
          .inr ⟨f, rfl, .inr ⟨hw, rfl, rfl, .inr ⟨g, rfl, rfl⟩⟩⟩⟩
        simp [tapped, hw, Except.isOk, Except.toBool]

theorem sent_append (a b : List (List Byte × Bool)) : sent (a ++ b) = sent a ++ sent b := by simp [sent]

/-- C125: whatever writes and callbacks do, the frames written as a whole are numbered one after the other modulo 256 and the counters count them;
every attempt to write carries the number of frames written as a whole before it, so the number of a failed write is used again. -/
theorem c125_numbers {ω κ : Type} (write : ω → List Byte → ω × Except PyErr Unit)
    (cb : Option (κ → MsgClass × List FieldVal → κ × Except PyErr Unit)) (sys cmp : Int) (w₀ : ω) (k₀ : κ)
    (msgs : List (MsgClass × List FieldVal)) :
    ∃ st w log k, sendAllC (tapped write) cb (newSender sys cmp, (w₀, []), k₀) msgs = (st, (w, log), k) ∧
      st.seq = (sent log).length % 256 ∧ st.totalPacketsSent = (sent log).length ∧ st.totalBytesSent = (sent log).flatten.length ∧
      ∀ i f b, log[i]? = some (f, b) →
        (∃ x ∈ msgs, packMsg x.1 x.2 (((sent (log.take i)).length % 256 : Nat) : Int) sys cmp = .ok f) ∧
        (f.getD 2 0).toNat = (sent (log.take i)).length % 256 := by
  have key : ∀ (msgs : List (MsgClass × List FieldVal)) (P : MsgClass × List FieldVal → Prop) (st : SenderC) (w : ω)
      (log : List (List Byte × Bool)) (k : κ), (∀ x ∈ msgs, P x) → st.srcSystem = sys → st.srcComponent = cmp →
      st.seq = (sent log).length % 256 → st.totalPacketsSent = (sent log).length → st.totalBytesSent = (sent log).flatten.length →
      (∀ i f b, log[i]? = some (f, b) → ∃ x, P x ∧ packMsg x.1 x.2 (((sent (log.take i)).length % 256 : Nat) : Int) sys cmp = .ok f) →
      ∃ st' w' log' k', sendAllC (tapped write) cb (st, (w, log), k) msgs = (st', (w', log'), k') ∧
        st'.seq = (sent log').length % 256 ∧ st'.totalPacketsSent = (sent log').length ∧
        st'.totalBytesSent = (sent log').flatten.length ∧
        ∀ i f b, log'[i]? = some (f, b) → ∃ x, P x ∧ packMsg x.1 x.2 (((sent (log'.take i)).length % 256 : Nat) : Int) sys cmp = .ok f := by
    intro msgs P
    induction msgs with
    | nil => intro st w log k _ _ _ h1 h2 h3 h4; exact ⟨st, w, log, k, rfl, h1, h2, h3, h4⟩
    | cons x msgs ih =>
      intro st w log k hP hs hc h1 h2 h3 h4
      obtain ⟨m, fields⟩ := x
      obtain ⟨st', w', log', k', r, e, hcase⟩ := c125_send write cb st w log k m fields
      have hstep : sendAllC (tapped write) cb (st, (w, log), k) ((m, fields) :: msgs) = sendAllC (tapped write) cb (st', (w', log'), k') msgs := by
        simp only [sendAllC, e]
      rw [hstep]
      have hP' : ∀ x ∈ msgs, P x := fun x hx => hP x (List.mem_cons_of_mem _ hx)
      have hlast : ∀ (f : List Byte) (b : Bool), packMsg m fields st.seq st.srcSystem st.srcComponent = .ok f →
          ∀ i g c, (log ++ [(f, b)])[i]? = some (g, c) →
            ∃ x, P x ∧ packMsg x.1 x.2 (((sent ((log ++ [(f, b)]).take i)).length % 256 : Nat) : Int) sys cmp = .ok g := by
        intro f b hf i g c hi
        by_cases hlt : i < log.length
        · rw [List.getElem?_append_left hlt] at hi
          rw [List.take_append_of_le_length (by omega)]
          exact h4 i g c hi
        · have hle : i < (log ++ [(f, b)]).length := (List.getElem?_eq_some_iff.1 hi).1
          rw [List.length_append, List.length_singleton] at hle
          have hi' : i = log.length := by omega
          subst hi'
          rw [List.getElem?_append_right (by omega)] at hi
          simp at hi
          obtain ⟨rfl, rfl⟩ := hi
          refine ⟨(m, fields), hP _ List.mem_cons_self, ?_⟩
          rw [List.take_left, ← h1, ← hs, ← hc]
          exact hf
      rcases hcase with ⟨er, _, _, rfl, rfl, _⟩ | ⟨f, hf, ⟨er, _, _, rfl, rfl, _⟩ | ⟨_, rfl, rfl, _⟩⟩
      · exact ih _ _ _ _ hP' hs hc h1 h2 h3 h4
      · have hz : sent (log ++ [(f, false)]) = sent log := by simp [sent]
        exact ih _ _ _ _ hP' hs hc (by rw [hz]; exact h1) (by rw [hz]; exact h2) (by rw [hz]; exact h3) (hlast f false hf)
      · have hz : sent (log ++ [(f, true)]) = sent log ++ [f] := by simp [sent]
        refine ih _ _ _ _ hP' hs hc ?_ ?_ ?_ (hlast f true hf)
        · rw [hz]; simp only [List.length_append, List.length_singleton]; rw [h1]; omega
        · rw [hz]; simp only [List.length_append, List.length_singleton]; rw [h2]
        · rw [hz]; simp only [List.flatten_append, List.length_append, List.flatten_singleton]; rw [h3]
  obtain ⟨st, w, log, k, e, g1, g2, g3, g4⟩ := key msgs (· ∈ msgs) (newSender sys cmp) w₀ [] k₀ (fun x h => h) rfl rfl rfl rfl rfl (by simp)
  refine ⟨st, w, log, k, e, g1, g2, g3, fun i f b h => ?_⟩
  obtain ⟨x, hx, hf⟩ := g4 i f b h
  refine ⟨⟨x, hx, hf⟩, ?_⟩
  obtain ⟨p, fmt, _, _, _, _, _, _, _, rfl⟩ := packMsg_shape hf
  simp
  omega

/-- A HEARTBEAT. -/
def beat : MsgClass × List FieldVal := (msg0, [.num (.int 6), .num (.int 8), .num (.int 0), .num (.int 0), .num (.int 3), .num (.int 3)])

/-- A line that breaks on every third write, and then raises. -/
def flaky (n : Nat) (_ : List Byte) : Nat × Except PyErr Unit := (n + 1, if n % 3 = 2 then .error .valueError else .ok ())

/-- A callback that raises when it is called for the second time. -/
def touchy (n : Nat) (_ : MsgClass × List FieldVal) : Nat × Except PyErr Unit := (n + 1, if n = 1 then .error .keyError else .ok ())

/-- C125: expectation that fails: a message whose `send` raised was not sent. The second of these two frames is on the line, is received,
and is sent again by a caller that tries again, under another number. -/
theorem c125_unsent_false : ∃ st w log k r st' w' k', sendAllC (tapped flaky) (some touchy) (newSender 1 1, (0, []), 0) [beat] = (st, w, k) ∧
    sendC (tapped flaky) (some touchy) st w k beat.1 beat.2 = (st', (w', log), k', r) ∧ r = .error .keyError ∧
    log.map (fun x => (x.2, (x.1.getD 2 0).toNat)) = [(true, 0), (true, 1)] ∧ st'.totalPacketsSent = 2 ∧
    ∀ x ∈ log, Returns (decode x.1) := by
  obtain ⟨f0, h0, d0⟩ : ∃ f, packMsg beat.1 beat.2 0 1 1 = .ok f ∧ Returns (decode f) := by
    cases h : packMsg beat.1 beat.2 0 1 1 with
    | ok f => exact ⟨f, rfl, packMsg_accepted (by decide +kernel) h⟩
    | error e =>
      have : (packMsg beat.1 beat.2 0 1 1).isOk = true := by decide +kernel
      rw [h] at this
      cases this
  obtain ⟨f1, h1, d1⟩ : ∃ f, packMsg beat.1 beat.2 1 1 1 = .ok f ∧ Returns (decode f) := by
    cases h : packMsg beat.1 beat.2 1 1 1 with
    | ok f => exact ⟨f, rfl, packMsg_accepted (by decide +kernel) h⟩
    | error e =>
      have : (packMsg beat.1 beat.2 1 1 1).isOk = true := by decide +kernel
      rw [h] at this
      cases this
  have e0 : sendAllC (tapped flaky) (some touchy) (newSender 1 1, (0, []), 0) [beat] =
      (⟨1, 1, 1, 1, f0.length⟩, (1, [(f0, true)]), 1) := by
    simp only [sendAllC, beat, newSender, sendC] at h0 ⊢
    rw [show ((0 : Nat) : Int) = 0 from rfl, h0]
    simp [tapped, flaky, touchy, Except.isOk, Except.toBool]
  refine ⟨_, _, [(f0, true), (f1, true)], _, .error .keyError, ⟨2, 1, 1, 2, f0.length + f1.length⟩, 2, 2, e0, ?_, rfl, ?_, rfl, ?_⟩
  · simp only [sendC]
    rw [show ((1 : Nat) : Int) = 1 from rfl, h1]
    simp [tapped, flaky, touchy, Except.isOk, Except.toBool]
  · obtain ⟨p, fmt, _, _, _, _, _, _, _, rfl⟩ := packMsg_shape h0
    obtain ⟨p', fmt', _, _, _, _, _, _, _, rfl⟩ := packMsg_shape h1
    simp
  · simp [d0, d1]

/-- Sending four HEARTBEATs over the line that breaks: the third write fails and its number is used again by the fourth. -/
example : (sendAllC (tapped flaky) (none : Option (Unit → MsgClass × List FieldVal → Unit × Except PyErr Unit)) (newSender 1 1, (0, []), ())
    [beat, beat, beat, beat]).2.1.2.map (fun x => (x.2, (x.1.getD 2 0).toNat)) = [(true, 0), (true, 1), (false, 2), (true, 2)] := by
  decide +kernel

end NR.C125
