import Verif.Model.Wire2
import Verif.Props.C75
import Verif.Props.C120
import Verif.Props.C123
/-
C124: version 2 of the protocol on the line: what a sender switched to it sends, and what a receiver of a stream makes of frames of both versions.
-/
namespace NR.C124
open NR Spec Dialect NR.C123 NR.C120

/-! ### the sender -/

theorem strip_split (p : List Byte) (n : Nat) (hn : n ≤ p.length) :
    stripLen p n ≤ n ∧ ∃ k, p.take n = p.take (stripLen p n) ++ List.replicate k 0 := by
  induction n with
  | zero => exact ⟨le_refl _, 0, by simp [stripLen]⟩
  | succ n ih =>
    match n, hn, ih with
    | 0, _, _ => exact ⟨le_refl _, 0, by simp [stripLen]⟩
    | n + 1, hn, ih =>
      rw [stripLen]
      split
      · rename_i h
        obtain ⟨h1, k, h2⟩ := ih (by omega)
        refine ⟨by omega, k + 1, ?_⟩
        rw [List.replicate_succ', ← List.append_assoc, ← h2, List.take_add_one]
        rw [List.getD_eq_getElem?_getD, List.getElem?_eq_getElem (by omega)] at h
        rw [List.getElem?_eq_getElem (by omega), Option.toList_some]
        rw [show p[n + 1] = 0 from h]
      · exact ⟨le_refl _, 0, by simp⟩

theorem packScalar_u16 {i : Int} {bs : List Byte} (h : packScalar .u16 (.int i) = .ok bs) : bs = leBytes 2 i.toNat := by
  simp only [packScalar, CType.isUInt, if_true] at h
  split at h
  · injection h with h
    exact h.symm
  · cases h

theorem header2_inv {len inc comp seq sys cmp lo hi : Int} {hd : List Byte}
    (h : structPack (List.replicate 7 (.scalar .u8) ++ [.scalar .u16, .scalar .u8])
      [.int 254, .int len, .int inc, .int comp, .int seq, .int sys, .int cmp, .int lo, .int hi] = .ok hd) :
    (0 ≤ len ∧ len ≤ 255) ∧ (0 ≤ seq ∧ seq ≤ 255) ∧ (0 ≤ sys ∧ sys ≤ 255) ∧ (0 ≤ cmp ∧ cmp ≤ 255) ∧
      hd = [254, BitVec.ofNat 8 len.toNat, BitVec.ofNat 8 inc.toNat, BitVec.ofNat 8 comp.toNat, BitVec.ofNat 8 seq.toNat,
        BitVec.ofNat 8 sys.toNat, BitVec.ofNat 8 cmp.toNat] ++ leBytes 2 lo.toNat ++ [BitVec.ofNat 8 hi.toNat] := by
  obtain ⟨a0, c0, h0, g0, e0⟩ := structPack_cons_inv h
  obtain ⟨a1, c1, h1, g1, e1⟩ := structPack_cons_inv g0
  obtain ⟨a2, c2, h2, g2, e2⟩ := structPack_cons_inv g1
  obtain ⟨a3, c3, h3, g3, e3⟩ := structPack_cons_inv g2
  obtain ⟨a4, c4, h4, g4, e4⟩ := structPack_cons_inv g3
  obtain ⟨a5, c5, h5, g5, e5⟩ := structPack_cons_inv g4
  obtain ⟨a6, c6, h6, g6, e6⟩ := structPack_cons_inv g5
  obtain ⟨a7, c7, h7, g7, e7⟩ := structPack_cons_inv g6
  obtain ⟨a8, c8, h8, g8, e8⟩ := structPack_cons_inv g7
  simp only [packItem] at h0 h1 h2 h3 h4 h5 h6 h7 h8
  obtain ⟨_, _, rfl⟩ := packScalar_u8 h0
  obtain ⟨l1, u1, rfl⟩ := packScalar_u8 h1
  obtain ⟨l2, u2, rfl⟩ := packScalar_u8 h2
  obtain ⟨l3, u3, rfl⟩ := packScalar_u8 h3
  obtain ⟨l4, u4, rfl⟩ := packScalar_u8 h4
  obtain ⟨l5, u5, rfl⟩ := packScalar_u8 h5
  obtain ⟨l6, u6, rfl⟩ := packScalar_u8 h6
  obtain rfl := packScalar_u16 h7
  obtain ⟨l8, u8, rfl⟩ := packScalar_u8 h8
  simp only [structPack] at g8
  injection g8 with g8
  subst g8 e8 e7 e6 e5 e4 e3 e2 e1 e0
  exact ⟨⟨l1, u1⟩, ⟨l4, u4⟩, ⟨l5, u5⟩, ⟨l6, u6⟩, rfl⟩

/-- C124: with the version as shipped the sender sends the version-1 frames of the other claims, and a sender told to send version 1
does so whatever the version is set to, without a signature. -/
theorem c124_version1 (H : List Byte → List Byte) (wire : String) (s : Signing) (m : MsgClass) (fields : List FieldVal)
    (seq sys cmp : Int) :
    packMsgW H "1.0" false s m fields seq sys cmp = packMsgS H s m fields seq sys cmp ∧
    packMsgW H wire true s m fields seq sys cmp = (s, packMsg m fields seq sys cmp) := by
  constructor
  · unfold packMsgW packMsgS packMsg
    cases packPayload m fields with
    | error e => rfl
    | ok p =>
      simp only [packHeader, bind, Except.bind, packFrame]
      rw [if_neg (by simp), if_neg (by decide), List.take_length]
      cases structPack (List.replicate 6 (.scalar .u8)) [.int 254, .int p.length, .int seq, .int sys, .int cmp, .int m.id] with
      | error e => rfl
      | ok hd => simp
  · unfold packMsgW packMsg
    cases packPayload m fields with
    | error e => rfl
    | ok p =>
      simp only [packHeader, bind, Except.bind, packFrame]
      rw [if_neg (by simp), if_neg (by simp), List.take_length]
      cases structPack (List.replicate 6 (.scalar .u8)) [.int 254, .int p.length, .int seq, .int sys, .int cmp, .int m.id] with
      | error e => rfl
      | ok hd => simp

/-- What a sender set to version 2 sends: the header of version 2 behind the marker of version 1, the payload without the zeros at its
end, and 13 bytes more if it signs. -/
theorem packW_shape {H : List Byte → List Byte} {s s' : Signing} {m : MsgClass} {fields : List FieldVal} {seq sys cmp : Int}
    {f : List Byte} (h : packMsgW H "2.0" false s m fields seq sys cmp = (s', .ok f)) :
    ∃ (p q : List Byte) (k : Nat) (inc : Byte) (sig : List Byte), packPayload m fields = .ok p ∧ p = q ++ List.replicate k 0 ∧ q.length < 256 ∧
      (0 ≤ seq ∧ seq ≤ 255) ∧ (0 ≤ sys ∧ sys ≤ 255) ∧ (0 ≤ cmp ∧ cmp ≤ 255) ∧ inc = (if s.signOutgoing then 1 else 0) ∧
      ((∀ x, 6 ≤ (H x).length) → sig.length = sigSize inc) ∧
      f = 254 :: body2 m inc 0 (BitVec.ofNat 8 seq.toNat) (BitVec.ofNat 8 sys.toNat) (BitVec.ofNat 8 cmp.toNat) q ++
        sumOf m (body2 m inc 0 (BitVec.ofNat 8 seq.toNat) (BitVec.ofNat 8 sys.toNat) (BitVec.ofNat 8 cmp.toNat) q) ++ sig := by
  unfold packMsgW at h
  cases hp : packPayload m fields with
  | error e => simp [hp] at h
  | ok p =>
    simp only [hp] at h
    rw [if_pos (by decide)] at h
    obtain ⟨hle, k, hk⟩ := strip_split p p.length (le_refl _)
    rw [List.take_length] at hk
    generalize hq : p.take (stripLen p p.length) = q at h hk
    unfold packHeader at h
    rw [if_pos (by decide)] at h
    split at h
    · cases h
    · rename_i hd hhd
      obtain ⟨h1, h2, h3, h4, h5⟩ := header2_inv hhd
      have hinc : BitVec.ofNat 8 (if s.signOutgoing then (1 : Int) else 0).toNat = if s.signOutgoing then 1 else 0 := by
        cases s.signOutgoing <;> rfl
      have hhdr : hd ++ q = 254 :: body2 m (if s.signOutgoing then 1 else 0) 0 (BitVec.ofNat 8 seq.toNat) (BitVec.ofNat 8 sys.toNat)
          (BitVec.ofNat 8 cmp.toNat) q := by
        rw [h5, hinc]
        have e1 : BitVec.ofNat 8 (m.id % 65536) = BitVec.ofNat 8 m.id := by
          apply BitVec.eq_of_toNat_eq; simp only [BitVec.toNat_ofNat]; omega
        have e2 : BitVec.ofNat 8 (m.id % 65536 / 256) = BitVec.ofNat 8 (m.id / 256) := by
          apply BitVec.eq_of_toNat_eq; simp only [BitVec.toNat_ofNat]; omega
        simp only [Int.toNat_natCast, leBytes, e1, e2, body2]
        rfl
      simp only [hhdr] at h
      refine ⟨p, q, k, if s.signOutgoing then 1 else 0, ?_⟩
      cases hs : s.signOutgoing with
      | false =>
        simp only [hs] at h
        refine ⟨[], rfl, hk, by omega, h2, h3, h4, rfl, fun _ => rfl, ?_⟩
        simp at h
        rw [← h.2, List.append_nil, sumOf_eq]
        rfl
      | true =>
        simp only [hs] at h
        rw [if_pos ⟨trivial, trivial⟩] at h
        unfold signPacket at h
        split at h
        · cases h
        · rename_i bs hbs
          cases hkey : s.secretKey with
          | none => simp [hkey] at h
          | some key =>
            simp only [hkey, Prod.mk.injEq, Except.ok.injEq] at h
            have hb : bs.length = 9 := by rw [structPack_length hbs]; rfl
            have hsig : ∀ B X : List Byte, B ++ bs.take 7 ++ (H X).take 6 = f →
                ∃ sig : List Byte, ((∀ x, 6 ≤ (H x).length) → sig.length = 13) ∧ f = B ++ sig := by
              rintro B X rfl
              refine ⟨bs.take 7 ++ (H X).take 6, fun hH => ?_, by rw [List.append_assoc]⟩
              rw [List.length_append, List.length_take, List.length_take, hb, Nat.min_eq_left (hH _)]
              rfl
            obtain ⟨sig, g1, g2⟩ := hsig _ _ h.2
            refine ⟨sig, rfl, hk, by omega, h2, h3, h4, rfl, g1, ?_⟩
            rw [g2, sumOf_eq]
            rfl

/-- C124: expectation that fails: setting the version to 2 makes the sender send version-2 frames that are understood. Every frame it
sends, signed or not, is refused by every receiver: it carries the marker of version 1. -/
theorem c124_version2_false (H H' : List Byte → List Byte) (s s' r : Signing) (m : MsgClass) (fields : List FieldVal)
    (seq sys cmp : Int) (f : List Byte) (h : packMsgW H "2.0" false s m fields seq sys cmp = (s', .ok f)) :
    Raises (decode f) .mavError ∧ Raises (decodeS H' r f).2 .mavError := by
  obtain ⟨p, q, k, inc, sig, _, _, hq, _, _, _, _, _, rfl⟩ := packW_shape h
  have hpl : (BitVec.ofNat 8 q.length).toNat = q.length := by
    rw [BitVec.toNat_ofNat]; exact Nat.mod_eq_of_lt hq
  have hdec : decode (254 :: body2 m inc 0 (BitVec.ofNat 8 seq.toNat) (BitVec.ofNat 8 sys.toNat) (BitVec.ofNat 8 cmp.toNat) q ++
      sumOf m (body2 m inc 0 (BitVec.ofNat 8 seq.toNat) (BitVec.ofNat 8 sys.toNat) (BitVec.ofNat 8 cmp.toNat) q) ++ sig) =
      .error .mavError := by
    generalize hsum : sumOf m _ = su
    have hsl : su.length = 2 := by rw [← hsum, sumOf_eq]; exact leBytes_length _ _
    simp only [body2, List.cons_append, List.nil_append]
    rw [decode_v1, decodeBody_eq, hpl]
    simp only
    split
    · rfl
    · rw [if_neg]
      rintro ⟨_, hl, _⟩
      simp at hl
      omega
  refine ⟨hdec, ?_⟩
  cases hk : r.secretKey with
  | none =>
    rw [Raises, (c75_no_key H' r hk _).1, hdec]
    rfl
  | some key =>
    apply c75_refused H' r _ (by simp)
    rw [c75_accept_iff H' key r hk]
    rintro ⟨m, hm, _⟩
    rw [hdec] at hm
    cases hm

/-- C124: the marker is all that is wrong: with 253 in its place the frame is accepted and says what the version-1 frame of the same message
says, and it is flagged as signed iff the sender signs. -/
theorem c124_marker (H : List Byte → List Byte) (hH : ∀ x, 6 ≤ (H x).length) (s s' : Signing) {m : MsgClass} (hm : m ∈ mavlinkMap)
    (fields : List FieldVal) (seq sys cmp : Int) (f g : List Byte)
    (hf : packMsg m fields seq sys cmp = .ok f) (hg : packMsgW H "2.0" false s m fields seq sys cmp = (s', .ok g)) :
    ∃ a b, decode f = .ok a ∧ decode (253 :: g.tail) = .ok b ∧ SameContent a b ∧ (b.incompat = if s.signOutgoing then 1 else 0) := by
  obtain ⟨p, q, k, inc, sig, hp, hpq, hq, h1, h2, h3, hinc, hsig, rfl⟩ := packW_shape hg
  obtain ⟨p', fmt, hp', _, _, hlen, _, _, _, rfl⟩ := packMsg_shape hf
  rw [hp] at hp'
  injection hp' with hp'
  subst hp'
  have e1 : 253 :: (254 :: body2 m inc 0 (BitVec.ofNat 8 seq.toNat) (BitVec.ofNat 8 sys.toNat) (BitVec.ofNat 8 cmp.toNat) q ++
      sumOf m (body2 m inc 0 (BitVec.ofNat 8 seq.toNat) (BitVec.ofNat 8 sys.toNat) (BitVec.ofNat 8 cmp.toNat) q) ++ sig).tail =
      frame2 m inc 0 (BitVec.ofNat 8 seq.toNat) (BitVec.ofNat 8 sys.toNat) (BitVec.ofNat 8 cmp.toNat) q sig := rfl
  obtain ⟨a, a1, a2, a3, a4, a5, a6, a7, _⟩ := decode_frame1 hm (BitVec.ofNat 8 seq.toNat) (BitVec.ofNat 8 sys.toNat)
    (BitVec.ofNat 8 cmp.toNat) p hlen
  obtain ⟨b, b1, b2, b3, b4, b5, b6, b7, b8, _⟩ := decode_frame2 hm inc 0 (BitVec.ofNat 8 seq.toNat) (BitVec.ofNat 8 sys.toNat)
    (BitVec.ofNat 8 cmp.toNat) q sig hq (hsig hH)
  refine ⟨a, b, ?_, ?_, ⟨by rw [a2, b2], by rw [a3, b3], by rw [a4, b4], by rw [a5, b5], by rw [a6, b6], ?_⟩, ?_⟩
  · rw [frame1, sumOf_eq] at a1
    exact a1
  · rw [e1, b1]
  · rw [a7, b7, hpq, fit_zeros]
  · rw [b8, hinc]
    cases s.signOutgoing <;> rfl

/-! ### the receiver of a stream -/

/-- A frame of version 2 with a flag the receiver does not know: any but the lowest. -/
def UnknownFlags (f : List Byte) : Prop := f.head? = some 253 ∧ 2 ≤ (f.getD 2 0).toNat

/-- What comes out for a frame: its message, or bad data if it has unknown flags. -/
def Item (f : List Byte) (o : Parsed) : Prop :=
  (UnknownFlags f ∧ o = .bad f) ∨ (¬ UnknownFlags f ∧ ∃ msg, decode f = .ok msg ∧ o = .msg f msg)

theorem decode_head {f : List Byte} (h : Returns (decode f)) : f.head? = some 254 ∨ f.head? = some 253 := by
  by_contra hc
  push Not at hc
  obtain ⟨a, ha⟩ := h
  by_cases h0 : f = []
  · subst h0; cases ha
  · rw [c123_other f h0 hc.1 hc.2] at ha
    cases ha

/-- The size of an accepted frame is the one its first three bytes announce. -/
theorem header3_of {f : List Byte} (h : Returns (decode f)) (q : List Byte) :
    ∃ a hl, f.head? = some a ∧ (a = 254 ∨ a = 253) ∧ (if (f ++ q).head? = some 253 then 10 else 6) = hl ∧
      readHeader3 hl (f ++ q) = some (a, f.getD 2 0, f.length) := by
  rcases decode_head h with h0 | h0
  · obtain ⟨h1, h2, _⟩ := (c13_accept_iff f h0).1 h
    obtain ⟨mlen, seq, sys, cmp, id, rest, rfl⟩ := v1_shape h0 (by omega)
    refine ⟨254, 6, rfl, .inl rfl, rfl, ?_⟩
    simp only [List.getD_cons_zero, List.getD_cons_succ] at h1 h2
    simp only [List.cons_append, readHeader3, List.getD_cons_succ, List.getD_cons_zero]
    rw [if_neg (fun h => absurd h.1 (by decide))]
    congr 3
    omega
  · obtain ⟨h1, h2, _⟩ := (c123_accept_iff f h0).1 h
    obtain ⟨mlen, inc, comp, seq, sys, cmp, i0, i1, i2, rest, rfl⟩ := v2_shape h0 (by omega)
    refine ⟨253, 10, rfl, .inr rfl, rfl, ?_⟩
    simp only [List.getD_cons_zero, List.getD_cons_succ] at h1 h2
    simp only [List.cons_append, readHeader3, true_and, List.getD_cons_succ, List.getD_cons_zero]
    have : (if inc.toNat % 2 = 1 then 13 else 0) = sigSize inc := rfl
    rw [this]
    congr 3
    omega

theorem nextOut_frame {f : List Byte} (h : Returns (decode f)) (q : List Byte) :
    ∃ o x e, Item f o ∧ nextOut (f ++ q) = some (o, f.length, x, e) := by
  obtain ⟨a, hl, h0, ha, hhl, h3⟩ := header3_of h q
  have hh : (f ++ q).head? = some a := by
    cases f with
    | nil => simp at h0
    | cons b r => simpa using h0
  have hle : f.length ≤ (f ++ q).length := by rw [List.length_append]; omega
  have htk : (f ++ q).take f.length = f := List.take_left
  have ha' : ¬ (a ≠ 254 ∧ a ≠ 253) := by rcases ha with rfl | rfl <;> decide
  obtain ⟨msg, hd⟩ := h
  unfold nextOut
  rw [hhl]
  dsimp only
  rw [hh, h3]
  dsimp only
  rw [if_neg ha', if_pos hle, htk]
  by_cases hu : UnknownFlags f
  · have : a = 253 := by rw [hu.1] at h0; injection h0 with h0; exact h0.symm
    have h2 := hu.2
    rw [if_pos ⟨this, by omega⟩]
    exact ⟨.bad f, _, _, .inl ⟨hu, rfl⟩, rfl⟩
  · rw [if_neg, hd]
    · exact ⟨.msg f msg, _, _, .inr ⟨hu, msg, hd, rfl⟩, rfl⟩
    · rintro ⟨rfl, hn⟩
      exact hu ⟨h0, by omega⟩

/-- C124: frames of both versions, signed or not, with noise without markers in between, are received one by one, however the stream is
cut: each frame the decoder accepts gives exactly one item, its message, or bad data if it is of version 2 and has a flag set that the
receiver does not know; each byte of noise gives one item of bad data; nothing is left over. -/
theorem c124_mixed (parts : List (List Byte × List Byte)) (last : List Byte) (hp : ∀ p ∈ parts, Returns (decode p.2))
    (hn : ∀ p ∈ parts, ∀ b ∈ p.1, ¬ Marker b) (hl : ∀ b ∈ last, ¬ Marker b)
    (chunks : List (List Byte)) (hc : chunks.flatten = (parts.map fun p => p.1 ++ p.2).flatten ++ last) :
    ∃ st outs, feed (Parser.init true) chunks = some (st, outs.flatten ++ last.map fun b => .bad [b]) ∧ st.pending = [] ∧
      List.Forall₂ (fun p os => ∃ o, Item p.2 o ∧ os = (p.1.map fun b => .bad [b]) ++ [o]) parts outs := by
  obtain ⟨st, h1, h2⟩ := feed_init chunks
  rw [hc] at h1 h2
  suffices hs : ∀ x, ∃ outs : List (List Parsed), (drain ((parts.map fun p => p.1 ++ p.2).flatten ++ last) x).1 =
      outs.flatten ++ last.map (fun b => .bad [b]) ∧ (drain ((parts.map fun p => p.1 ++ p.2).flatten ++ last) x).2.1 = [] ∧
      List.Forall₂ (fun p os => ∃ o, Item p.2 o ∧ os = (p.1.map fun b => .bad [b]) ++ [o]) parts outs by
    obtain ⟨outs, e1, e2, e3⟩ := hs 8
    rw [e1] at h1
    exact ⟨st, outs, h1, by rw [h2, e2], e3⟩
  clear h1 h2 hc
  induction parts with
  | nil =>
    intro x
    obtain ⟨y, e⟩ := drain_noise last [] hl x
    have hnil : drain ([] : List Byte) y = ([], [], idleExp [] y) := drain_none rfl
    rw [List.append_nil, hnil, List.append_nil] at e
    exact ⟨[], by simp [e], by simp [e], .nil⟩
  | cons p parts ih =>
    intro x
    obtain ⟨n, f⟩ := p
    have ih := ih (fun c h => hp c (List.mem_cons_of_mem _ h)) (fun c h => hn c (List.mem_cons_of_mem _ h))
    set rest := (parts.map fun p => p.1 ++ p.2).flatten ++ last with hrest
    have hs : (((n, f) :: parts).map fun p => p.1 ++ p.2).flatten ++ last = n ++ (f ++ rest) := by simp [hrest]
    obtain ⟨y, e⟩ := drain_noise n (f ++ rest) (hn _ List.mem_cons_self) x
    obtain ⟨o, z, er, hi, d⟩ := nextOut_frame (hp (n, f) List.mem_cons_self) rest
    obtain ⟨outs, i1, i2, i3⟩ := ih z
    rw [hs, e, drain_some d, List.drop_left]
    refine ⟨((n.map fun b => .bad [b]) ++ [o]) :: outs, ?_, i2, .cons ⟨o, hi, rfl⟩ i3⟩
    simp [i1]

/-- C124: expectation that fails: the receiver of a stream gives the messages that `decode` gives. A frame with an unknown flag is decoded by
the one, whatever it says, and never by the other. -/
theorem c124_flags_false {m : MsgClass} (hm : m ∈ mavlinkMap) (inc comp seq sys cmp : Byte) (p sig : List Byte)
    (hp : p.length < 256) (hs : sig.length = sigSize inc) (hinc : 2 ≤ inc.toNat) (chunks : List (List Byte))
    (hc : chunks.flatten = frame2 m inc comp seq sys cmp p sig) :
    Returns (decode (frame2 m inc comp seq sys cmp p sig)) ∧
    ∃ st, feed (Parser.init true) chunks = some (st, [.bad (frame2 m inc comp seq sys cmp p sig)]) := by
  obtain ⟨msg, hd, _⟩ := decode_frame2 hm inc comp seq sys cmp p sig hp hs
  refine ⟨⟨msg, hd⟩, ?_⟩
  obtain ⟨st, outs, h1, _, h3⟩ := c124_mixed [([], frame2 m inc comp seq sys cmp p sig)] [] (by simpa using ⟨msg, hd⟩) (by simp)
    (by simp) chunks (by simpa using hc)
  refine ⟨st, ?_⟩
  cases h3 with
  | cons h h' =>
    cases h'
    obtain ⟨o, hi, rfl⟩ := h
    rcases hi with ⟨_, rfl⟩ | ⟨hu, _⟩
    · simpa using h1
    · exact absurd ⟨rfl, hinc⟩ hu

/-- A HEARTBEAT. -/
def beat : List FieldVal := [.num (.int 6), .num (.int 8), .num (.int 0), .num (.int 0), .num (.int 3), .num (.int 3)]

/-- A sender that signs, with a key of three bytes. -/
def signer : Signing := { Signing.init with secretKey := some [1, 2, 3], signOutgoing := true }

/-- The sender set to version 2 sends frames: without a signature the one of a HEARTBEAT has 21 bytes, with one 34. -/
example : ((packMsgW (fun _ => List.replicate 32 9) "2.0" false Signing.init msg0 beat 1 1 1).2.toOption.map List.length) = some 21 ∧
    ((packMsgW (fun _ => List.replicate 32 9) "2.0" false signer msg0 beat 1 1 1).2.toOption.map List.length) = some 34 ∧
    (packMsg msg0 beat 1 1 1).toOption.map List.length = some 17 := by decide +kernel

/-- A stream with noise, a version-1 frame, a signed version-2 frame and one with an unknown flag. -/
example : ∀ p ∈ ([([7], frame1 msg0 5 1 2 [0, 0, 0, 0, 6, 8, 0, 0, 0]), ([], signedBeat),
    ([1, 2], frame2 msg0 4 0 5 1 2 [] [])] : List (List Byte × List Byte)), Returns (decode p.2) := by
  simp only [List.mem_cons, List.not_mem_nil, or_false, forall_eq_or_imp, forall_eq]
  refine ⟨?_, ?_, ?_⟩
  · obtain ⟨a, h, _⟩ := decode_frame1 (m := msg0) (by decide +kernel) 5 1 2 [0, 0, 0, 0, 6, 8, 0, 0, 0] (by decide)
    exact ⟨a, h⟩
  · obtain ⟨a, h, _⟩ := decode_frame2 (m := msg0) (by decide +kernel) 1 0 5 1 2 [0, 0, 0, 0, 6, 8] (List.replicate 13 7) (by decide)
      (by decide)
    exact ⟨a, h⟩
  · obtain ⟨a, h, _⟩ := decode_frame2 (m := msg0) (by decide +kernel) 4 0 5 1 2 [] [] (by decide) (by decide)
    exact ⟨a, h⟩

end NR.C124
