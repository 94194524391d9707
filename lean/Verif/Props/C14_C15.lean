import Verif.Lemmas.Stream
import Verif.Props.C16_C24
/-
C14: the stream parser (MAVLink.parse_buffer). C15: the sender (MAVLink.send).
-/
namespace NR
open Dialect

/-! ### C14 -/

/-- Feeding the chunks one after the other with `parse_buffer` and collecting what it returns (None counts as
nothing). The result is `none` if some call raises or does not come back. -/
def feed : Parser → List (List Byte) → Option (Parser × List Parsed)
  | st, [] => some (st, [])
  | st, c :: cs =>
    match parseBuffer st c with
    | some (st', .ok r) =>
      match feed st' cs with
      | some (st'', out) => some (st'', r.getD [] ++ out)
      | none => none
    | _ => none

theorem feed_spec (chunks : List (List Byte)) (st : Parser) (ok : ParserOK st) (hidle : st.pending = [] ∨ nextOut st.pending = none) :
    ∃ st', feed st chunks = some (st', (drain (st.pending ++ chunks.flatten) st.expectedLength).1) ∧
      st'.pending = (drain (st.pending ++ chunks.flatten) st.expectedLength).2.1 ∧
      (chunks ≠ [] → st'.expectedLength = (drain (st.pending ++ chunks.flatten) st.expectedLength).2.2) ∧
      st'.totalPacketsReceived = st.totalPacketsReceived + (drain (st.pending ++ chunks.flatten) st.expectedLength).1.length ∧
      st'.totalBytesReceived = st.totalBytesReceived + chunks.flatten.length ∧
      st'.totalReceiveErrors = st.totalReceiveErrors +
        badCount (drain (st.pending ++ chunks.flatten) st.expectedLength).1 := by
  induction chunks generalizing st with
  | nil =>
    have hn : nextOut st.pending = none := by
      rcases hidle with h | h
      · rw [h]; rfl
      · exact h
    refine ⟨st, ?_⟩
    simp only [List.flatten_nil, List.append_nil, drain_none hn, feed]
    refine ⟨trivial, trivial, by simp, by simp, by simp, by simp [badCount]⟩
  | cons c cs ih =>
    obtain ⟨st1, r, h1, h2, h3⟩ := parseBuffer_spec st ok c
    obtain ⟨st2, g1, g2, g3, g4, g5, g6⟩ := ih st1 h3.ok (Or.inr (by rw [h3.pend]; exact (drain_bytes _ _).2.2))
    rw [h3.pend, h3.exp] at g1 g2 g3 g4 g6
    have happ := drain_append (st.pending ++ c) cs.flatten st.expectedLength
    have hflat : st.pending ++ (c :: cs).flatten = st.pending ++ c ++ cs.flatten := by simp
    rw [hflat, happ]
    refine ⟨st2, ?_, g2, ?_, ?_, ?_, ?_⟩
    · simp only [feed, h1, g1, h2]
    · intro _
      cases cs with
      | nil =>
        simp only [feed, Option.some.injEq, Prod.mk.injEq] at g1
        rw [← g1.1, h3.exp]
        simp only [List.flatten_nil, List.append_nil]
        rw [drain_none (drain_bytes _ _).2.2]
        have hd := drain_append (st.pending ++ c) [] st.expectedLength
        rw [List.append_nil, List.append_nil, drain_none (p := (drain (st.pending ++ c) st.expectedLength).2.1)
          (drain_bytes _ _).2.2] at hd
        have := congrArg (fun t => t.2.2) hd
        simpa using this
      | cons d ds => exact g3 (by simp)
    · rw [g4, h3.packets]; simp; omega
    · rw [g5, h3.bytes]; simp; omega
    · rw [g6, h3.errors, badCount_append]; omega

theorem parserOK_init : ParserOK (Parser.init true) := ⟨rfl, rfl, by simp [Parser.init], by simp [Parser.init]⟩

/-- C14: with robust parsing, two ways of cutting the same stream into chunks give the same items in the same order,
the same unconsumed bytes and the same counters; no call raises and every call returns. -/
theorem c14_chunks (chunks₁ chunks₂ : List (List Byte)) (h : chunks₁.flatten = chunks₂.flatten) :
    ∃ st₁ st₂ out, feed (Parser.init true) chunks₁ = some (st₁, out) ∧
      feed (Parser.init true) chunks₂ = some (st₂, out) ∧
      st₁.pending = st₂.pending ∧ st₁.totalPacketsReceived = st₂.totalPacketsReceived ∧
      st₁.totalBytesReceived = st₂.totalBytesReceived ∧ st₁.totalReceiveErrors = st₂.totalReceiveErrors := by
  obtain ⟨s1, a1, a2, _, a3, a4, a5⟩ := feed_spec chunks₁ _ parserOK_init (Or.inl rfl)
  obtain ⟨s2, b1, b2, _, b3, b4, b5⟩ := feed_spec chunks₂ _ parserOK_init (Or.inl rfl)
  rw [h] at a1 a2 a3 a4 a5
  exact ⟨s1, s2, _, a1, b1, a2.trans b2.symm, a3.trans b3.symm, a4.trans b4.symm, a5.trans b5.symm⟩

/-- C14: the number of bytes the parser asks for next does not depend on the chunks either. -/
theorem c14_bytes_needed (chunks₁ chunks₂ : List (List Byte)) (h : chunks₁.flatten = chunks₂.flatten)
    (hne₁ : chunks₁ ≠ []) (hne₂ : chunks₂ ≠ []) (st₁ st₂ : Parser) (out₁ out₂ : List Parsed)
    (h₁ : feed (Parser.init true) chunks₁ = some (st₁, out₁)) (h₂ : feed (Parser.init true) chunks₂ = some (st₂, out₂)) :
    st₁.bytesNeeded = st₂.bytesNeeded := by
  obtain ⟨s1, a1, a2, a3, _⟩ := feed_spec chunks₁ _ parserOK_init (Or.inl rfl)
  obtain ⟨s2, b1, b2, b3, _⟩ := feed_spec chunks₂ _ parserOK_init (Or.inl rfl)
  rw [h₁] at a1
  rw [h₂] at b1
  simp only [Option.some.injEq, Prod.mk.injEq] at a1 b1
  obtain ⟨rfl, _⟩ := a1
  obtain ⟨rfl, _⟩ := b1
  have e1 := a3 hne₁
  have e2 := b3 hne₂
  rw [h] at e1 a2
  unfold Parser.bytesNeeded
  rw [bufLen_eq, bufLen_eq, a2, b2, e1, e2]

/-- C14: no byte is lost, duplicated or reordered, every message returned is what the decoder makes of its bytes, and
the counters count items, bytes and bad items. -/
theorem c14_bytes (chunks : List (List Byte)) (st : Parser) (out : List Parsed)
    (h : feed (Parser.init true) chunks = some (st, out)) :
    (out.map Parsed.bytes).flatten ++ st.pending = chunks.flatten ∧
      (∀ b m, Parsed.msg b m ∈ out → decode b = .ok m) ∧
      st.totalPacketsReceived = out.length ∧ st.totalBytesReceived = chunks.flatten.length ∧
      st.totalReceiveErrors = (out.filter Parsed.isBad).length := by
  obtain ⟨s1, a1, a2, _, a3, a4, a5⟩ := feed_spec chunks _ parserOK_init (Or.inl rfl)
  rw [h] at a1
  simp only [Option.some.injEq, Prod.mk.injEq] at a1
  obtain ⟨rfl, rfl⟩ := a1
  obtain ⟨d1, d2, _⟩ := drain_bytes (([] : List Byte) ++ chunks.flatten) (Parser.init true).expectedLength
  refine ⟨?_, d2, ?_, ?_, ?_⟩
  · rw [a2]; exact d1
  · rw [a3]; simp [Parser.init]
  · rw [a4]; simp [Parser.init]
  · rw [a5]; simp [Parser.init, badCount]

theorem nextOut_packed {m : MsgClass} {f : List Byte} (hp : PackedFrame m f) (rest : List Byte) :
    ∃ msg, decode f = .ok msg ∧ nextOut (f ++ rest) = some (.msg f msg, f.length, 8, 0) := by
  obtain ⟨h8, _, h0, h1, _, msg, hd⟩ := packed_head hp
  refine ⟨msg, hd, nextOut_append rest ?_⟩
  match f, h8, h0, h1, hd with
  | b0 :: b1 :: b2 :: s, h8, h0, h1, hd =>
    simp only [List.getD_cons_zero, List.getD_cons_succ] at h0 h1
    subst h0
    have hel : b1.toNat + (if (254 : Byte) = 253 ∧ b2.toNat % 2 = 1 then 13 else 0) + (6 + 2) = (254 :: b1 :: b2 :: s).length := by
      rw [if_neg (by intro h; exact absurd h.1 (by decide)), h1]
      simp at h8 ⊢; omega
    unfold nextOut
    simp only [List.head?_cons]
    rw [if_neg (by decide)]
    have h253 : ((some 254 : Option Byte) = some 253) = False := by decide
    simp only [h253, if_false, readHeader3, hel, Nat.le_refl, if_true, List.take_length]
    rw [if_neg (by intro h; exact absurd h.1 (by decide)), hd]
  | [], h8, _, _, _ => simp at h8
  | [_], h8, _, _, _ => simp at h8
  | [_, _], h8, _, _, _ => simp at h8

/-- C14: packed messages sent back to back, cut anywhere, come out as exactly those messages, in order, with nothing
left over. All message types of the dialect. -/
theorem c14_packed (msgs : List (MsgClass × List Byte)) (hp : ∀ x ∈ msgs, PackedFrame x.1 x.2)
    (chunks : List (List Byte)) (hc : chunks.flatten = (msgs.map Prod.snd).flatten) :
    ∃ st out, feed (Parser.init true) chunks = some (st, out) ∧ st.pending = [] ∧ st.totalReceiveErrors = 0 ∧
      List.Forall₂ (fun x o => ∃ msg, decode x.2 = .ok msg ∧ o = Parsed.msg x.2 msg) msgs out := by
  obtain ⟨s1, a1, a2, _, a3, a4, a5⟩ := feed_spec chunks _ parserOK_init (Or.inl rfl)
  rw [hc] at a1 a2 a5
  have hpe : (Parser.init true).pending = [] := rfl
  rw [hpe, List.nil_append] at a1 a2 a5
  have key : ∀ x, (drain (msgs.map Prod.snd).flatten x).2.1 = [] ∧
      badCount (drain (msgs.map Prod.snd).flatten x).1 = 0 ∧
      List.Forall₂ (fun x o => ∃ msg, decode x.2 = .ok msg ∧ o = Parsed.msg x.2 msg) msgs
        (drain (msgs.map Prod.snd).flatten x).1 := by
    clear a1 a2 a3 a4 a5 hc
    induction msgs with
    | nil =>
      intro x
      have : nextOut ([] : List Byte) = none := rfl
      simp [drain_none this, badCount]
    | cons y msgs ih =>
      intro x
      obtain ⟨m, f⟩ := y
      obtain ⟨msg, h1, h2⟩ := nextOut_packed (hp (m, f) List.mem_cons_self) (msgs.map Prod.snd).flatten
      obtain ⟨i1, i2, i3⟩ := ih (fun x hx => hp x (List.mem_cons_of_mem _ hx)) 8
      simp only [List.map_cons, List.flatten_cons]
      rw [drain_some h2, List.drop_left]
      refine ⟨i1, ?_, List.Forall₂.cons ⟨msg, h1, rfl⟩ i3⟩
      rw [badCount_cons, i2]
      rfl
  obtain ⟨k1, k2, k3⟩ := key (Parser.init true).expectedLength
  refine ⟨s1, _, a1, by rw [a2, k1], ?_, k3⟩
  rw [a5, k2]
  rfl

/-- Without robust parsing the chunks do matter: after a second bad prefix byte `parse_buffer` returns None although a
complete message is waiting behind it. -/
theorem c14_not_robust_false : ¬ ∀ (st : Parser) (a b : List Byte), st.robustParsing = false →
    feed st [a ++ b] = feed st [a, b] := by
  intro h
  have := h { Parser.init false with havePrefixError := true } [1] (sampleBuffer.drop 20) rfl
  revert this
  decide +kernel

/-- The hypotheses of `c14_packed` are met by the two heartbeats of `c21_concatenation`'s example; here the parser is
fed a noisy stream one way and another. -/
example : (feed (Parser.init true) [sampleBuffer]).isSome = true ∧
    (feed (Parser.init true) [sampleBuffer.take 5, sampleBuffer.drop 5]).map Prod.snd =
      (feed (Parser.init true) [sampleBuffer]).map Prod.snd := by decide +kernel

/-! ### C15 -/

/-- A history of sends: exceptions are caught by the caller and the history goes on. -/
def sendAll (st : Sender) (msgs : List (MsgClass × List FieldVal)) : Sender :=
  msgs.foldl (fun st x => (send st x.1 x.2).1) st

theorem send_step (st : Sender) (x : MsgClass × List FieldVal) (h : st.seq < 256) :
    ((∃ e, Raises (send st x.1 x.2).2 e) ∧ (send st x.1 x.2).1 = st) ∨
    ∃ f, packMsg x.1 x.2 st.seq st.srcSystem st.srcComponent = .ok f ∧ (send st x.1 x.2).2 = .ok () ∧
      (f.getD 2 0).toNat = st.seq ∧
      (send st x.1 x.2).1 = { st with
        file := st.file ++ [f], seq := (st.seq + 1) % 256, totalPacketsSent := st.totalPacketsSent + 1,
        totalBytesSent := st.totalBytesSent + f.length } := by
  unfold send
  cases hp : packMsg x.1 x.2 st.seq st.srcSystem st.srcComponent with
  | error e => exact Or.inl ⟨⟨e, rfl⟩, rfl⟩
  | ok f =>
    refine Or.inr ⟨f, rfl, rfl, ?_, rfl⟩
    obtain ⟨p, fmt, _, _, _, _, _, _, _, rfl⟩ := packMsg_shape hp
    simp
    omega

/-- C15: after any history of sends, started from a state that has written nothing, the `i`-th frame written carries
the start number plus `i` modulo 256, and the counters count the frames and bytes written. -/
theorem c15_sequence (st₀ : Sender) (hseq : st₀.seq < 256) (hfile : st₀.file = []) (hp : st₀.totalPacketsSent = 0)
    (hb : st₀.totalBytesSent = 0) (msgs : List (MsgClass × List FieldVal)) :
    (∀ i f, (sendAll st₀ msgs).file[i]? = some f → (f.getD 2 0).toNat = (st₀.seq + i) % 256) ∧
      (sendAll st₀ msgs).totalPacketsSent = (sendAll st₀ msgs).file.length ∧
      (sendAll st₀ msgs).totalBytesSent = (sendAll st₀ msgs).file.flatten.length ∧
      (sendAll st₀ msgs).seq = (st₀.seq + (sendAll st₀ msgs).file.length) % 256 := by
  have key : ∀ (msgs : List (MsgClass × List FieldVal)) (st : Sender),
      ((∀ i f, st.file[i]? = some f → (f.getD 2 0).toNat = (st₀.seq + i) % 256) ∧
      st.totalPacketsSent = st.file.length ∧ st.totalBytesSent = st.file.flatten.length ∧
      st.seq = (st₀.seq + st.file.length) % 256) →
      ((∀ i f, (sendAll st msgs).file[i]? = some f → (f.getD 2 0).toNat = (st₀.seq + i) % 256) ∧
      (sendAll st msgs).totalPacketsSent = (sendAll st msgs).file.length ∧
      (sendAll st msgs).totalBytesSent = (sendAll st msgs).file.flatten.length ∧
      (sendAll st msgs).seq = (st₀.seq + (sendAll st msgs).file.length) % 256) := by
    intro msgs
    induction msgs with
    | nil => intro st h; exact h
    | cons x msgs ih =>
      intro st h
      simp only [sendAll, List.foldl_cons] at ih ⊢
      apply ih
      obtain ⟨h1, h2, h3, h4⟩ := h
      rcases send_step st x (by omega) with ⟨_, hs⟩ | ⟨f, _, _, hf, hs⟩
      · rw [hs]; exact ⟨h1, h2, h3, h4⟩
      · rw [hs]
        refine ⟨?_, ?_, ?_, ?_⟩
        · intro i g hg
          simp only at hg
          rcases Nat.lt_trichotomy i st.file.length with hi | hi | hi
          · rw [List.getElem?_append_left hi] at hg; exact h1 i g hg
          · rw [hi, List.getElem?_append_right (Nat.le_refl _)] at hg
            simp at hg
            rw [← hg, hf, hi, h4]
          · rw [List.getElem?_eq_none (by simp; omega)] at hg
            cases hg
        · simp [h2]
        · simp [h3]
        · simp only [List.length_append, List.length_cons, List.length_nil, h4]
          omega
  apply key
  rw [hfile, hp, hb]
  refine ⟨by simp, rfl, rfl, ?_⟩
  simp
  omega

/-- C15: a send either raises and changes nothing, or writes exactly the packed message and succeeds. -/
theorem c15_send (st : Sender) (hseq : st.seq < 256) (m : MsgClass) (fields : List FieldVal) :
    ((∃ e, Raises (send st m fields).2 e) ∧ (send st m fields).1 = st) ∨
    ∃ f, packMsg m fields st.seq st.srcSystem st.srcComponent = .ok f ∧ (send st m fields).2 = .ok () ∧
      (send st m fields).1.file = st.file ++ [f] ∧ (send st m fields).1.seq = (st.seq + 1) % 256 := by
  rcases send_step st (m, fields) hseq with h | ⟨f, h1, h2, _, h3⟩
  · exact Or.inl h
  · exact Or.inr ⟨f, h1, h2, by rw [h3], by rw [h3]⟩

/-- C14 and C15 together: what a sender wrote, cut anywhere, is received as exactly the messages written, numbered
consecutively. -/
theorem c15_received (sys comp : Int) (msgs : List (MsgClass × List FieldVal)) (hm : ∀ x ∈ msgs, x.1 ∈ mavlinkMap)
    (chunks : List (List Byte)) (hc : chunks.flatten = (sendAll (Sender.init sys comp) msgs).file.flatten) :
    ∃ st out, feed (Parser.init true) chunks = some (st, out) ∧ st.pending = [] ∧
      out.map Parsed.bytes = (sendAll (Sender.init sys comp) msgs).file ∧
      ∀ o ∈ out, ∃ b msg, o = Parsed.msg b msg := by
  have key : ∀ (msgs : List (MsgClass × List FieldVal)) (st : Sender) (l : List (MsgClass × List Byte)),
      (∀ x ∈ msgs, x.1 ∈ mavlinkMap) → (∀ x ∈ l, PackedFrame x.1 x.2) → l.map Prod.snd = st.file → st.seq < 256 →
      ∃ l' : List (MsgClass × List Byte), (∀ x ∈ l', PackedFrame x.1 x.2) ∧ l'.map Prod.snd = (sendAll st msgs).file := by
    intro msgs
    induction msgs with
    | nil => intro st l _ h1 h2 _; exact ⟨l, h1, h2⟩
    | cons x msgs ih =>
      intro st l hm h1 h2 h3
      simp only [sendAll, List.foldl_cons] at ih ⊢
      rcases send_step st x h3 with ⟨_, hs⟩ | ⟨f, hp, _, _, hs⟩
      · rw [hs]; exact ih st l (fun y hy => hm y (List.mem_cons_of_mem _ hy)) h1 h2 h3
      · apply ih _ (l ++ [(x.1, f)]) (fun y hy => hm y (List.mem_cons_of_mem _ hy))
        · intro y hy
          rcases List.mem_append.1 hy with h | h
          · exact h1 y h
          · rw [List.mem_singleton] at h
            subst h
            exact ⟨hm x List.mem_cons_self, _, _, _, _, hp⟩
        · rw [hs]; simp [h2]
        · rw [hs]; simp only; omega
  obtain ⟨l, h1, h2⟩ := key msgs (Sender.init sys comp) [] hm (by simp) rfl (by simp [Sender.init])
  obtain ⟨st, out, g1, g2, _, g4⟩ := c14_packed l h1 chunks (by rw [h2]; exact hc)
  refine ⟨st, out, g1, g2, ?_, ?_⟩
  · rw [← h2]
    clear g1 h1 h2
    induction g4 with
    | nil => rfl
    | cons h _ ih =>
      obtain ⟨msg, _, rfl⟩ := h
      simp only [List.map_cons, ih, Parsed.bytes]
  · clear g1 h1 h2
    intro o ho
    induction g4 with
    | nil => cases ho
    | cons h _ ih =>
      rcases List.mem_cons.1 ho with rfl | ho
      · obtain ⟨msg, _, rfl⟩ := h
        exact ⟨_, msg, rfl⟩
      · exact ih ho

/-- Two heartbeats and a failing send in between: two frames, numbered 0 and 1. -/
example : (sendAll (Sender.init 1 1)
    [(msg0, [.num (.int 2), .num (.int 3), .num (.int 81), .num (.int 0), .num (.int 4), .num (.int 3)]),
     (msg0, [.num (.int 2), .num (.int 3), .num (.int 810), .num (.int 0), .num (.int 4), .num (.int 3)]),
     (msg0, [.num (.int 2), .num (.int 3), .num (.int 81), .num (.int 0), .num (.int 4), .num (.int 3)])]).file.map
      (fun f => f.getD 2 0) = [0, 1] := by decide +kernel

end NR
