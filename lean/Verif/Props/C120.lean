import Verif.Props.C14_C15
/-
C120: the stream parser (MAVLink.parse_buffer, robust parsing) on a noisy line: what is received before, between and after
noise, and how long it may take to find the frames again.
-/
namespace NR.C120
open NR Dialect

/-- The values that start a frame: 254 for version 1, 253 for version 2. -/
def Marker (b : Byte) : Prop := b = 254 ∨ b = 253

/-- The items are the messages, in order, each as what the decoder makes of its frame. -/
def Received (msgs : List (MsgClass × List Byte)) (out : List Parsed) : Prop :=
  List.Forall₂ (fun x o => ∃ msg, decode x.2 = .ok msg ∧ o = Parsed.msg x.2 msg) msgs out

/-- The frames, one after the other. -/
def wire (msgs : List (MsgClass × List Byte)) : List Byte := (msgs.map Prod.snd).flatten

/-! ### one item -/

theorem nextOut_noise {b : Byte} (h : ¬ Marker b) (p : List Byte) : nextOut (b :: p) = some (.bad [b], 1, 8, 1) := by
  have h' : b ≠ 254 ∧ b ≠ 253 := ⟨fun e => h (.inl e), fun e => h (.inr e)⟩
  unfold nextOut
  simp only [List.head?_cons]
  rw [if_pos h']

theorem header3_le {hl : Nat} {p : List Byte} {a b : Byte} {el : Nat} (h : readHeader3 hl p = some (a, b, el)) :
    el ≤ 255 + 13 + (hl + 2) := by
  match p, h with
  | x :: y :: z :: r, h =>
    simp only [readHeader3, Option.some.injEq, Prod.mk.injEq] at h
    obtain ⟨_, _, rfl⟩ := h
    have := y.isLt
    split <;> omega
  | [], h => cases h
  | [_], h => cases h
  | [_, _], h => cases h

/-- An item takes at most 280 bytes, and with that many bytes pending there is one. -/
theorem nextOut_long (p : List Byte) (h : 280 ≤ p.length) :
    ∃ o k x e, nextOut p = some (o, k, x, e) ∧ 0 < k ∧ k ≤ 280 := by
  have hsome : ∃ v, nextOut p = some v ∧ v.2.1 ≤ 280 := by
    unfold nextOut
    split
    · rename_i hh
      rw [List.head?_eq_none_iff] at hh
      subst hh
      simp at h
    · rename_i b hh
      split
      · exact ⟨_, rfl, by simp⟩
      · dsimp only
        split
        · rename_i hr
          have := readHeader3_none hr
          omega
        · rename_i m i el hr
          have h1 := header3_le hr
          have h2 : el ≤ 280 := by split at h1 <;> omega
          rw [if_pos (by omega)]
          split
          · exact ⟨_, rfl, h2⟩
          · exact ⟨_, rfl, h2⟩
  obtain ⟨⟨o, k, x, e⟩, h1, h2⟩ := hsome
  exact ⟨o, k, x, e, h1, (nextOut_facts h1).1, h2⟩

/-! ### many items -/

theorem drain_noise (n q : List Byte) (h : ∀ b ∈ n, ¬ Marker b) (x : Nat) :
    ∃ y, drain (n ++ q) x = (n.map (fun b => Parsed.bad [b]) ++ (drain q y).1, (drain q y).2) := by
  induction n generalizing x with
  | nil => exact ⟨x, rfl⟩
  | cons b n ih =>
    obtain ⟨y, hy⟩ := ih (fun c hc => h c (List.mem_cons_of_mem _ hc)) 8
    refine ⟨y, ?_⟩
    rw [List.cons_append, drain_some (nextOut_noise (h b List.mem_cons_self) _)]
    simp only [List.drop_succ_cons, List.drop_zero, hy, List.map_cons, List.cons_append]

theorem drain_packed (msgs : List (MsgClass × List Byte)) (hp : ∀ x ∈ msgs, PackedFrame x.1 x.2) (q : List Byte) (x : Nat) :
    ∃ o y, Received msgs o ∧ drain (wire msgs ++ q) x = (o ++ (drain q y).1, (drain q y).2) := by
  induction msgs generalizing x with
  | nil => exact ⟨[], x, .nil, rfl⟩
  | cons z msgs ih =>
    obtain ⟨m, f⟩ := z
    obtain ⟨msg, h1, h2⟩ := nextOut_packed (hp (m, f) List.mem_cons_self) (wire msgs ++ q)
    obtain ⟨o, y, r, e⟩ := ih (fun c hc => hp c (List.mem_cons_of_mem _ hc)) 8
    refine ⟨.msg f msg :: o, y, .cons ⟨msg, h1, rfl⟩ r, ?_⟩
    have : wire ((m, f) :: msgs) ++ q = f ++ (wire msgs ++ q) := by simp [wire]
    rw [this, drain_some h2, List.drop_left, e]
    rfl

/-- From any place inside frames that hold no marker but their first byte, the parser reaches the end of the last one. -/
theorem drain_inside (a : List (MsgClass × List Byte)) (hp : ∀ x ∈ a, PackedFrame x.1 x.2)
    (hc : ∀ x ∈ a, ∀ b ∈ x.2.tail, ¬ Marker b) (q : List Byte) (j : Nat) (hj : j ≤ (wire a).length) (x : Nat) :
    ∃ o y, drain ((wire a).drop j ++ q) x = (o ++ (drain q y).1, (drain q y).2) := by
  induction a generalizing j x with
  | nil => exact ⟨[], x, by simp [wire]⟩
  | cons z a ih =>
    obtain ⟨m, f⟩ := z
    have ih := ih (fun c h => hp c (List.mem_cons_of_mem _ h)) (fun c h => hc c (List.mem_cons_of_mem _ h))
    have hw : wire ((m, f) :: a) = f ++ wire a := by simp [wire]
    rw [hw] at hj ⊢
    rw [List.length_append] at hj
    by_cases h0 : j = 0
    · subst h0
      obtain ⟨msg, h1, h2⟩ := nextOut_packed (hp (m, f) List.mem_cons_self) (wire a ++ q)
      obtain ⟨o, y, e⟩ := ih 0 (by omega) 8
      refine ⟨.msg f msg :: o, y, ?_⟩
      rw [List.drop_zero, List.append_assoc, drain_some h2, List.drop_left]
      rw [List.drop_zero] at e
      rw [e]
      rfl
    · by_cases hf : f.length ≤ j
      · obtain ⟨o, y, e⟩ := ih (j - f.length) (by omega) x
        refine ⟨o, y, ?_⟩
        rw [List.drop_append, List.drop_eq_nil_of_le hf, List.nil_append]
        exact e
      · have hn : ∀ b ∈ f.drop j, ¬ Marker b := by
          intro b hb
          apply hc (m, f) List.mem_cons_self
          have : f.drop j = f.tail.drop (j - 1) := by
            rw [← List.drop_one, List.drop_drop]; congr 1; omega
          rw [this] at hb
          exact List.mem_of_mem_drop hb
        rw [List.drop_append_of_le_length (by omega), List.append_assoc]
        obtain ⟨y1, e1⟩ := drain_noise (f.drop j) (wire a ++ q) hn x
        obtain ⟨o, y, e⟩ := ih 0 (by omega) y1
        rw [List.drop_zero] at e
        refine ⟨(f.drop j).map (fun b => Parsed.bad [b]) ++ o, y, ?_⟩
        rw [e1, e]
        simp

/-- Whatever the noise, the parser is at most 279 bytes beyond it when it has consumed it. -/
theorem drain_overrun (n q : List Byte) (hq : 279 ≤ q.length) (x : Nat) :
    ∃ o j y, j ≤ 279 ∧ drain (n ++ q) x = (o ++ (drain (q.drop j) y).1, (drain (q.drop j) y).2) := by
  generalize hl : n.length = l
  induction l using Nat.strongRecOn generalizing n x with
  | ind l ih =>
    subst hl
    match n with
    | [] => exact ⟨[], 0, x, by omega, rfl⟩
    | b :: n' =>
      obtain ⟨o, k, x', e, h1, h2, h3⟩ := nextOut_long (b :: n' ++ q) (by simp; omega)
      rw [drain_some h1]
      by_cases hk : k ≤ (b :: n').length
      · obtain ⟨o', j, y, hj, e'⟩ := ih ((b :: n').drop k).length (by simp; omega) ((b :: n').drop k) x' rfl
        refine ⟨o :: o', j, y, hj, ?_⟩
        rw [List.drop_append_of_le_length hk, e']
        rfl
      · refine ⟨[o], k - (b :: n').length, x', by simp at hk ⊢; omega, ?_⟩
        rw [List.drop_append, List.drop_eq_nil_of_le (by omega), List.nil_append]
        rfl

theorem received_bytes {msgs : List (MsgClass × List Byte)} {out : List Parsed} (h : Received msgs out) :
    (out.map Parsed.bytes).flatten = wire msgs := by
  unfold Received at h
  induction h with
  | nil => rfl
  | cons h _ ih =>
    obtain ⟨msg, _, rfl⟩ := h
    simp only [List.map_cons, List.flatten_cons, ih, wire, Parsed.bytes]

theorem received_good {msgs : List (MsgClass × List Byte)} {out : List Parsed} (h : Received msgs out) :
    ∀ o ∈ out, o.isBad = false := by
  unfold Received at h
  induction h with
  | nil => simp
  | cons h _ ih =>
    obtain ⟨msg, _, rfl⟩ := h
    intro o ho
    rcases List.mem_cons.1 ho with rfl | ho
    · rfl
    · exact ih o ho

/-- Feeding chunks to a new parser. -/
theorem feed_init (chunks : List (List Byte)) :
    ∃ st, feed (Parser.init true) chunks = some (st, (drain chunks.flatten 8).1) ∧ st.pending = (drain chunks.flatten 8).2.1 := by
  obtain ⟨st, h1, h2, _⟩ := feed_spec chunks _ parserOK_init (Or.inl rfl)
  exact ⟨st, h1, h2⟩

/-! ### C120 -/

/-- C120: noise that holds no marker does no harm, however long it is and however the stream is cut: all messages are received, in order,
and every byte of noise is reported once, as an item of its own. -/
theorem c120_gaps (parts : List (List Byte × MsgClass × List Byte)) (last : List Byte)
    (hp : ∀ p ∈ parts, PackedFrame p.2.1 p.2.2) (hn : ∀ p ∈ parts, ∀ b ∈ p.1, ¬ Marker b) (hl : ∀ b ∈ last, ¬ Marker b)
    (chunks : List (List Byte)) (hc : chunks.flatten = (parts.map fun p => p.1 ++ p.2.2).flatten ++ last) :
    ∃ st out, feed (Parser.init true) chunks = some (st, out) ∧ st.pending = [] ∧
      Received (parts.map Prod.snd) (out.filter fun o => !o.isBad) ∧
      out.filter Parsed.isBad = ((parts.map Prod.fst).flatten ++ last).map (fun b => Parsed.bad [b]) := by
  obtain ⟨st, h1, h2⟩ := feed_init chunks
  refine ⟨st, _, h1, ?_⟩
  rw [h2, hc]
  clear h1 h2 hc
  generalize 8 = x
  induction parts generalizing x with
  | nil =>
    obtain ⟨y, e⟩ := drain_noise last [] hl x
    have hnil : drain ([] : List Byte) y = ([], [], idleExp [] y) := drain_none rfl
    simp only [List.append_nil] at e
    simp only [List.map_nil, List.flatten_nil, List.nil_append, e, hnil, List.append_nil, true_and]
    constructor
    · have : (last.map fun b => Parsed.bad [b]).filter (fun o => !o.isBad) = [] := by
        rw [List.filter_eq_nil_iff]; intro o ho
        obtain ⟨b, _, rfl⟩ := List.mem_map.1 ho
        simp [Parsed.isBad]
      rw [this]; exact .nil
    · rw [List.filter_eq_self]; intro o ho
      obtain ⟨b, _, rfl⟩ := List.mem_map.1 ho
      rfl
  | cons p parts ih =>
    obtain ⟨n, m, f⟩ := p
    have ih := ih (fun c h => hp c (List.mem_cons_of_mem _ h)) (fun c h => hn c (List.mem_cons_of_mem _ h))
    set rest := (parts.map fun p => p.1 ++ p.2.2).flatten ++ last with hrest
    have hs : (((n, m, f) :: parts).map fun p => p.1 ++ p.2.2).flatten ++ last = n ++ (f ++ rest) := by simp [hrest]
    obtain ⟨y, e⟩ := drain_noise n (f ++ rest) (hn _ List.mem_cons_self) x
    obtain ⟨msg, d1, d2⟩ := nextOut_packed (hp (n, m, f) List.mem_cons_self) rest
    obtain ⟨i1, i2, i3⟩ := ih 8
    rw [hs, e, drain_some d2, List.drop_left]
    refine ⟨i1, ?_, ?_⟩
    · have : (n.map fun b => Parsed.bad [b]).filter (fun o => !o.isBad) = [] := by
        rw [List.filter_eq_nil_iff]; intro o ho
        obtain ⟨b, _, rfl⟩ := List.mem_map.1 ho
        simp [Parsed.isBad]
      rw [List.filter_append, this, List.nil_append, List.filter_cons_of_pos (by rfl)]
      exact .cons ⟨msg, d1, rfl⟩ i2
    · have : (n.map fun b => Parsed.bad [b]).filter Parsed.isBad = n.map fun b => Parsed.bad [b] := by
        rw [List.filter_eq_self]; intro o ho
        obtain ⟨b, _, rfl⟩ := List.mem_map.1 ho
        rfl
      rw [List.filter_append, this, List.filter_cons_of_neg (by simp [Parsed.isBad]), i3]
      simp

/-- C120: messages before the noise are received whatever follows, and messages that begin at least 279 bytes after its end are received
again, if the frames in between hold no marker except as their first byte. Nothing is said about the frames after those. -/
theorem c120_resync (before between after : List (MsgClass × List Byte)) (noise : List Byte)
    (hp : ∀ x ∈ before ++ between ++ after, PackedFrame x.1 x.2)
    (hc : ∀ x ∈ between, ∀ b ∈ x.2.tail, ¬ Marker b) (hlen : 279 ≤ (wire between).length)
    (chunks : List (List Byte)) (hs : chunks.flatten = wire before ++ noise ++ wire between ++ wire after) :
    ∃ st o₁ mid o₂, feed (Parser.init true) chunks = some (st, o₁ ++ mid ++ o₂) ∧ st.pending = [] ∧
      Received before o₁ ∧ Received after o₂ ∧ (mid.map Parsed.bytes).flatten = noise ++ wire between := by
  obtain ⟨st, h1, h2⟩ := feed_init chunks
  have hs' : chunks.flatten = wire before ++ (noise ++ (wire between ++ wire after)) := by rw [hs]; simp
  rw [hs'] at h1 h2
  obtain ⟨o₁, y, r1, e1⟩ := drain_packed before (fun x hx => hp x (by simp [hx])) (noise ++ (wire between ++ wire after)) 8
  obtain ⟨oa, j, y2, hj, e2⟩ := drain_overrun noise (wire between ++ wire after) (by simp; omega) y
  rw [List.drop_append_of_le_length (by omega)] at e2
  obtain ⟨ob, y3, e3⟩ := drain_inside between (fun x hx => hp x (by simp [hx])) hc (wire after) j (by omega) y2
  obtain ⟨o₂, y4, r2, e4⟩ := drain_packed after (fun x hx => hp x (by simp [hx])) [] y3
  have hnil : drain ([] : List Byte) y4 = ([], [], idleExp [] y4) := drain_none rfl
  rw [List.append_nil, hnil] at e4
  rw [e1, e2, e3, e4] at h1 h2
  simp only [List.append_nil] at h1 h2
  have hb := (c14_bytes chunks st _ h1).1
  rw [h2, List.append_nil, hs'] at hb
  refine ⟨st, o₁, oa ++ ob, o₂, by rw [h1]; simp, h2, r1, r2, ?_⟩
  simp only [List.map_append, List.flatten_append, received_bytes r1, received_bytes r2] at hb
  have := List.append_cancel_left hb
  rw [← List.append_assoc, ← List.append_assoc, List.append_left_inj] at this
  simpa using this

/-! ### a receiver that never finds the frames again -/

/-- The origin of the map at 32.79 degrees north and 34.89 degrees east. -/
def originFields : List FieldVal := [.num (.int 327945470), .num (.int 348980057), .num (.int 0)]

/-- The shape of its frames that matters. -/
def Shifted (f : List Byte) : Prop :=
  f.length = 20 ∧ ∃ (a b c : Byte) (r : List Byte), f.drop 6 = 254 :: 12 :: a :: b :: c :: 3 :: r

theorem origin_payload : packPayload msg49 originFields = .ok [254, 12, 140, 19, 89, 3, 205, 20, 0, 0, 0, 0] := by decide +kernel

theorem origin_frame {seq sys comp : Int} {f : List Byte} (h : packMsg msg49 originFields seq sys comp = .ok f) : Shifted f := by
  obtain ⟨p, fmt, hp, _, _, _, _, _, _, rfl⟩ := packMsg_shape h
  rw [origin_payload] at hp
  cases hp
  exact ⟨by simp [leBytes_length], 140, 19, 89, _, rfl⟩

theorem drain_shifted (l : List (List Byte)) (hl : ∀ f ∈ l, Shifted f) (f : List Byte) (hf : Shifted f) (x : Nat) :
    ∀ o ∈ (drain (f.drop 6 ++ l.flatten) x).1, o.isBad = true := by
  induction l generalizing f x with
  | nil =>
    obtain ⟨h20, a, b, c, r, hd⟩ := hf
    have hlen : (f.drop 6).length = 14 := by simp [h20]
    have hnone : nextOut (f.drop 6 ++ ([] : List (List Byte)).flatten) = none := by
      rw [List.flatten_nil, List.append_nil]
      rw [hd] at hlen ⊢
      unfold nextOut
      simp only [List.head?_cons]
      rw [if_neg (by decide)]
      have h253 : ((some 254 : Option Byte) = some 253) = False := by decide
      simp only [h253, if_false, readHeader3]
      have hel : (12 : Byte).toNat + (if (254 : Byte) = 253 ∧ a.toNat % 2 = 1 then 13 else 0) + (6 + 2) = 20 := by
        rw [if_neg (by intro h; exact absurd h.1 (by decide))]; rfl
      rw [hel, if_neg (by omega)]
    rw [drain_none hnone]
    simp
  | cons g l ih =>
    have hg := hl g List.mem_cons_self
    have hgl : g.length = 20 := hg.1
    obtain ⟨h20, a, b, c, r, hd⟩ := hf
    have hlen : (f.drop 6).length = 14 := by simp [h20]
    have hnext : nextOut (f.drop 6 ++ (g :: l).flatten) =
        some (.bad ((f.drop 6 ++ (g :: l).flatten).take 20), 20, 8, 1) := by
      have htake : (f.drop 6 ++ (g :: l).flatten).take 20 =
          254 :: 12 :: a :: b :: c :: 3 :: (r ++ g.take 6) := by
        rw [List.flatten_cons, List.take_append, hlen, List.take_of_length_le (by omega),
          List.take_append_of_le_length (by omega), hd]
        rfl
      have hdec : decode (254 :: 12 :: a :: b :: c :: 3 :: (r ++ g.take 6)) = .error .mavError := by
        rw [decode_v1]
        have hunk : lookupMsg (3 : Byte).toNat = none := by decide +kernel
        unfold decodeBody
        simp only [hunk]
        split
        · rfl
        · split <;> split <;> rfl
      have hle : 20 ≤ (f.drop 6 ++ (g :: l).flatten).length := by
        rw [List.length_append, hlen, List.flatten_cons, List.length_append, hgl]; omega
      rw [← htake] at hdec
      revert hdec hle
      rw [hd, List.cons_append, List.cons_append, List.cons_append]
      intro hdec hle
      unfold nextOut
      simp only [List.head?_cons]
      rw [if_neg (by decide)]
      have h253 : ((some 254 : Option Byte) = some 253) = False := by decide
      have hel : (12 : Byte).toNat + (if (254 : Byte) = 253 ∧ a.toNat % 2 = 1 then 13 else 0) + (6 + 2) = 20 := by
        rw [if_neg (by intro h; exact absurd h.1 (by decide))]; rfl
      simp only [h253, if_false, readHeader3, hel]
      rw [if_pos hle, if_neg (by intro h; exact absurd h.1 (by decide)), hdec]
    rw [drain_some hnext]
    have hdrop : (f.drop 6 ++ (g :: l).flatten).drop 20 = g.drop 6 ++ l.flatten := by
      rw [List.flatten_cons, List.drop_append, hlen, List.drop_eq_nil_of_le (by omega), List.nil_append,
        List.drop_append_of_le_length (by omega)]
    rw [hdrop]
    intro o ho
    rcases List.mem_cons.1 ho with rfl | ho
    · rfl
    · exact ih (fun f hf => hl f (List.mem_cons_of_mem _ hf)) g hg 8 o ho

/-- C120: after two stray bytes a receiver may never get a message again: a sender that sends the origin of its map, again and again,
numbered as always, is heard without errors from the start; with the bytes 254 and 0 before it, not one of its messages is
received, however many it sends and however the stream is cut. -/
theorem c120_silent (n : Nat) (chunks : List (List Byte))
    (hc : chunks.flatten = [254, 0] ++
      (sendAll (Sender.init 1 1) (List.replicate n (msg49, originFields))).file.flatten) :
    (sendAll (Sender.init 1 1) (List.replicate n (msg49, originFields))).file.length = n ∧
    ∃ st out, feed (Parser.init true) chunks = some (st, out) ∧ ∀ o ∈ out, o.isBad = true := by
  have key : ∀ (n : Nat) (st : Sender), st.seq < 256 → st.srcSystem = 1 → st.srcComponent = 1 →
      ∃ l : List (List Byte), (sendAll st (List.replicate n (msg49, originFields))).file = st.file ++ l ∧ l.length = n ∧
        (∀ f ∈ l, Shifted f) ∧
        ∀ f, l[0]? = some f → packMsg msg49 originFields st.seq 1 1 = .ok f := by
    intro n
    induction n with
    | zero => intro st _ _ _; exact ⟨[], by simp [sendAll], rfl, by simp, by simp⟩
    | succ n ih =>
      intro st h1 h2 h3
      have hok : ∃ f, packMsg msg49 originFields st.seq 1 1 = .ok f := by
        obtain ⟨f, _, h, _⟩ := c10_round_trip msg49 (by decide +kernel) originFields (by decide +kernel) st.seq 1 1
          (by omega) (by omega) (by omega)
        exact ⟨f, h⟩
      obtain ⟨f, hf⟩ := hok
      have hsend : (send st msg49 originFields).1 = { st with
          file := st.file ++ [f], seq := (st.seq + 1) % 256, totalPacketsSent := st.totalPacketsSent + 1,
          totalBytesSent := st.totalBytesSent + f.length } := by
        unfold send
        rw [h2, h3, hf]
      obtain ⟨l, g1, g2, g3, _⟩ := ih (send st msg49 originFields).1 (by rw [hsend]; exact Nat.mod_lt _ (by decide))
        (by rw [hsend]; exact h2) (by rw [hsend]; exact h3)
      refine ⟨f :: l, ?_, by simp [g2], ?_, ?_⟩
      · simp only [sendAll, List.replicate_succ, List.foldl_cons] at g1 ⊢
        rw [g1, hsend]
        simp
      · intro g hg
        rcases List.mem_cons.1 hg with rfl | hg
        · exact origin_frame hf
        · exact g3 g hg
      · intro g hg
        simp only [List.getElem?_cons_zero, Option.some.injEq] at hg
        rw [← hg]; exact hf
  obtain ⟨l, k1, k2, k3, k4⟩ := key n (Sender.init 1 1) (by decide) rfl rfl
  have hfile : (sendAll (Sender.init 1 1) (List.replicate n (msg49, originFields))).file = l := by rw [k1]; rfl
  rw [hfile] at hc ⊢
  obtain ⟨st, h1, _⟩ := feed_init chunks
  refine ⟨k2, st, _, h1, ?_⟩
  rw [hc]
  match l, k3, k4 with
  | [], _, _ =>
    have : nextOut ([254, 0] ++ ([] : List (List Byte)).flatten) = none := by decide
    rw [drain_none this]; simp
  | f :: l, k3, k4 =>
    have hpk := k4 f rfl
    have hfirst : nextOut ([254, 0] ++ f) = some (.bad [254, 0, 254, 12, 0, 1, 1, 49], 8, 8, 1) := by
      have h0 : (packMsg msg49 originFields (Sender.init 1 1).seq 1 1).map (fun f => nextOut ([254, 0] ++ f)) =
          .ok (some (.bad [254, 0, 254, 12, 0, 1, 1, 49], 8, 8, 1)) := by decide +kernel
      rw [hpk] at h0
      exact Except.ok.inj h0
    have hnext := nextOut_append l.flatten hfirst
    rw [List.append_assoc] at hnext
    have hfl : f.length = 20 := (k3 f List.mem_cons_self).1
    rw [List.flatten_cons, drain_some hnext]
    have hdrop : ([254, 0] ++ (f ++ l.flatten)).drop 8 = f.drop 6 ++ l.flatten := by
      rw [List.drop_append, List.drop_eq_nil_of_le (by simp), List.nil_append, List.drop_append_of_le_length (by simp; omega)]
      rfl
    rw [hdrop]
    intro o ho
    rcases List.mem_cons.1 ho with rfl | ho
    · rfl
    · exact drain_shifted l (fun g hg => k3 g (List.mem_cons_of_mem _ hg)) f (k3 f List.mem_cons_self) 8 o ho

/-- C120: so there is no bound: for no number `B` is it true that noise followed by more than `B` messages leaves at least one of them
received. -/
theorem c120_bound_false : ¬ ∃ B : Nat, ∀ (noise : List Byte) (msgs : List (MsgClass × List FieldVal)) (st : Parser) (out : List Parsed),
    feed (Parser.init true) [noise ++ (sendAll (Sender.init 1 1) msgs).file.flatten] = some (st, out) →
    B < (sendAll (Sender.init 1 1) msgs).file.length → ∃ o ∈ out, o.isBad = false := by
  rintro ⟨B, h⟩
  obtain ⟨h1, st, out, h2, h3⟩ := c120_silent (B + 1) [[254, 0] ++
    (sendAll (Sender.init 1 1) (List.replicate (B + 1) (msg49, originFields))).file.flatten] (by simp)
  obtain ⟨o, ho, hb⟩ := h [254, 0] _ st out h2 (by rw [h1]; omega)
  rw [h3 o ho] at hb
  cases hb

/-! ### examples -/

/-- A heartbeat, number 8, from system 1. -/
def beat : List Byte := [254, 9, 8, 1, 1, 0, 255, 255, 255, 255, 2, 3, 81, 4, 3, 21, 210]

theorem beat_packed : PackedFrame msg0 beat := by
  refine ⟨by decide +kernel, [.num (.int 2), .num (.int 3), .num (.int 81), .num (.int 4294967295), .num (.int 4), .num (.int 3)], 8, 1, 1, ?_⟩
  decide +kernel

/-- `c120_gaps`: a heartbeat between two pieces of noise. -/
example : ∃ (parts : List (List Byte × MsgClass × List Byte)) (last : List Byte), parts.length = 1 ∧ last.length = 2 ∧
    (∀ p ∈ parts, PackedFrame p.2.1 p.2.2) ∧ (∀ p ∈ parts, p.1.length = 3 ∧ ∀ b ∈ p.1, ¬ Marker b) ∧ ∀ b ∈ last, ¬ Marker b := by
  refine ⟨[([7, 0, 255], msg0, beat)], [1, 2], rfl, rfl, ?_, ?_, ?_⟩
  · intro p hp; rw [List.mem_singleton] at hp; subst hp; exact beat_packed
  · intro p hp; rw [List.mem_singleton] at hp; subst hp; unfold Marker; decide
  · unfold Marker; decide

/-- `c120_resync`: seventeen heartbeats are long enough. -/
example : ∃ between : List (MsgClass × List Byte), (∀ x ∈ between, PackedFrame x.1 x.2) ∧
    (∀ x ∈ between, ∀ b ∈ x.2.tail, ¬ Marker b) ∧ 279 ≤ (wire between).length := by
  refine ⟨List.replicate 17 (msg0, beat), ?_, ?_, by decide +kernel⟩
  · intro x hx; rw [List.eq_of_mem_replicate hx]; exact beat_packed
  · intro x hx; rw [List.eq_of_mem_replicate hx]; unfold Marker; decide

/-- Without the two stray bytes the same sender is heard. -/
example : (feed (Parser.init true) [(sendAll (Sender.init 1 1) (List.replicate 2 (msg49, originFields))).file.flatten]).map
    (fun r => r.2.map Parsed.isBad) = some [false, false] := by decide +kernel

/-- With them, both of its messages are lost. -/
example : (feed (Parser.init true) [[254, 0] ++ (sendAll (Sender.init 1 1) (List.replicate 2 (msg49, originFields))).file.flatten]).map
    (fun r => r.2.map Parsed.isBad) = some [true, true] := by decide +kernel

end NR.C120
