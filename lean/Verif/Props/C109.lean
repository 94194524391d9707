import Verif.Model.MinimalMethods
import Verif.Props.C75
import Verif.Props.C87
import Verif.Props.C91
/-
C109: the methods and the signature check of the minimal dialect (mavlink_utils/minimal_dialect.py:2505-2547, 2684-2868).
-/
namespace NR
open Spec
set_option maxRecDepth 100000

deriving instance DecidableEq for InitDef, EncodeDef, SendDef

/-! ### The methods -/

theorem minimal_inits : ∀ i ∈ Minimal.inits, Dialect.inits.find? (fun j => j.cls = i.cls) = some i := by decide +kernel

theorem minimal_encodes : ∀ d ∈ Minimal.encodeDefs, Dialect.encodeDefs.find? (fun e => e.name = d.name) = some d ∧
    (Minimal.inits.find? fun i => i.cls = d.callee).isSome := by decide +kernel

theorem minimal_sends : ∀ d ∈ Minimal.sendDefs, Dialect.sendDefs.find? (fun e => e.name = d.name) = some d ∧
    (Minimal.encodeDefs.find? fun i => i.name = d.encode).isSome := by decide +kernel

theorem minimal_encode_names : Minimal.encodeDefs.map (·.name) = Minimal.mavlinkMap.map (methodName · "_encode") := by decide +kernel

theorem minimal_send_names : Minimal.sendDefs.map (·.name) = Minimal.mavlinkMap.map (methodName · "_send") := by decide +kernel

theorem minimal_construct {cls : String} (h : (Minimal.inits.find? fun i => i.cls = cls).isSome) (vals : List FieldVal) :
    Minimal.construct cls vals = construct cls vals := by
  obtain ⟨i, hi⟩ := Option.isSome_iff_exists.1 h
  have hm := minimal_inits i (List.mem_of_find?_eq_some hi)
  have hc : i.cls = cls := by simpa using List.find?_some hi
  rw [hc] at hm
  unfold Minimal.construct construct
  rw [hi, hm]

theorem minimal_encodeNamed {name : String} (h : (Minimal.encodeDefs.find? fun d => d.name = name).isSome) (pos : List FieldVal)
    (kw : List (String × FieldVal)) : Minimal.encodeNamed name pos kw = encodeNamed name pos kw := by
  obtain ⟨d, hd⟩ := Option.isSome_iff_exists.1 h
  obtain ⟨hm, hi⟩ := minimal_encodes d (List.mem_of_find?_eq_some hd)
  have hc : d.name = name := by simpa using List.find?_some hd
  rw [hc] at hm
  unfold Minimal.encodeNamed encodeNamed
  rw [hd, hm]
  simp only [minimal_construct hi]

theorem minimal_sendNamed {name : String} (h : (Minimal.sendDefs.find? fun d => d.name = name).isSome) (st : Sender) (pos : List FieldVal)
    (kw : List (String × FieldVal)) : Minimal.sendNamed st name pos kw = sendNamed st name pos kw := by
  obtain ⟨d, hd⟩ := Option.isSome_iff_exists.1 h
  obtain ⟨hm, hi⟩ := minimal_sends d (List.mem_of_find?_eq_some hd)
  have hc : d.name = name := by simpa using List.find?_some hd
  rw [hc] at hm
  unfold Minimal.sendNamed sendNamed
  rw [hd, hm]
  simp only [minimal_encodeNamed hi]
  rfl

theorem minimal_find {m : MsgClass} (hm : m ∈ Minimal.mavlinkMap) :
    (Minimal.encodeDefs.find? fun d => d.name = methodName m "_encode").isSome ∧
    (Minimal.sendDefs.find? fun d => d.name = methodName m "_send").isSome := by
  constructor
  · have : methodName m "_encode" ∈ Minimal.encodeDefs.map (·.name) := by
      rw [minimal_encode_names]
      exact List.mem_map.2 ⟨m, hm, rfl⟩
    obtain ⟨d, hd, he⟩ := List.mem_map.1 this
    rw [List.find?_isSome]
    exact ⟨d, hd, by simpa using he⟩
  · have : methodName m "_send" ∈ Minimal.sendDefs.map (·.name) := by
      rw [minimal_send_names]
      exact List.mem_map.2 ⟨m, hm, rfl⟩
    obtain ⟨d, hd, he⟩ := List.mem_map.1 this
    rw [List.find?_isSome]
    exact ⟨d, hd, by simpa using he⟩

/-- C109. An `*_encode` call of the minimal dialect builds a message of the type it is named after in which every field has the value given
for its name; a call that does not give every field one value raises a TypeError; there are no other such methods. -/
theorem c109_encode :
    (∀ m ∈ Minimal.mavlinkMap, ∀ (pos : List FieldVal) (kw : List (String × FieldVal)), Keywords kw →
      (∀ vals, Gives m.fieldnames (fieldDefault m) pos kw vals →
        ∃ o, Minimal.encodeNamed (methodName m "_encode") pos kw = .ok o ∧ o.cls = m ∧ o.fields = .ok vals ∧
          ∀ (i : Nat) name v, m.fieldnames[i]? = some name → vals[i]? = some v → o.getattr name = .ok v) ∧
      ((¬ ∃ vals, Gives m.fieldnames (fieldDefault m) pos kw vals) →
        Raises (Minimal.encodeNamed (methodName m "_encode") pos kw) .typeError)) ∧
    ∀ name, (∀ m ∈ Minimal.mavlinkMap, name ≠ methodName m "_encode") → ∀ pos kw, Raises (Minimal.encodeNamed name pos kw) .attributeError := by
  constructor
  · intro m hm pos kw hk
    rw [minimal_encodeNamed (minimal_find hm).1]
    exact c91_encode m (minimal_sub m hm) pos kw hk
  · intro name hn pos kw
    have hnone : Minimal.encodeDefs.find? (fun d => d.name = name) = none := by
      rw [List.find?_eq_none]
      intro d hd
      have : d.name ∈ Minimal.encodeDefs.map (·.name) := List.mem_map.2 ⟨d, hd, rfl⟩
      rw [minimal_encode_names] at this
      obtain ⟨m, hm, he⟩ := List.mem_map.1 this
      simpa [← he] using fun e => hn m hm e.symm
    unfold Minimal.encodeNamed
    rw [hnone]

/-- C109. A `*_send` call of the minimal dialect sends the message with the values given for its fields, as one frame that both dialects
decode to these values; a call that does not give every field one value raises a TypeError and sends nothing. -/
theorem c109_send (st : Sender) (m : MsgClass) (hm : m ∈ Minimal.mavlinkMap) (pos : List FieldVal) (kw : List (String × FieldVal))
    (hk : Keywords kw) :
    (∀ vals force, Gives (sendNames m) (sendDefault m) pos kw (vals ++ [force]) →
      Minimal.sendNamed st (methodName m "_send") pos kw = send st m vals ∧
      (WellTyped m vals → st.seq < 256 → ∀ sys cmp : Nat, st.srcSystem = sys → st.srcComponent = cmp → sys ≤ 255 → cmp ≤ 255 →
        ∃ frame msg, (Minimal.sendNamed st (methodName m "_send") pos kw).1.file = st.file ++ [frame] ∧ Minimal.decode frame = .ok msg ∧
          decode frame = .ok msg ∧ msg.cls = m ∧ msg.seq = st.seq ∧ msg.srcSystem = sys ∧ msg.srcComponent = cmp ∧ msg.fields = vals)) ∧
    ((¬ ∃ vals, Gives (sendNames m) (sendDefault m) pos kw vals) →
      Minimal.sendNamed st (methodName m "_send") pos kw = (st, .error .typeError)) := by
  rw [minimal_sendNamed (minimal_find hm).2]
  obtain ⟨h1, h2⟩ := c91_send st m (minimal_sub m hm) pos kw hk
  refine ⟨fun vals force hg => ⟨h1 vals force hg, fun hw hseq sys cmp hs hc h3 h4 => ?_⟩, h2⟩
  obtain ⟨frame, msg, g1, g2, g3, g4, g5, g6, g7, g8⟩ := c87_round_trip m hm vals hw st.seq sys cmp (by omega) h3 h4
  obtain ⟨frame', msg', k1, k2, k3, -⟩ := c10_round_trip m (minimal_sub m hm) vals hw st.seq sys cmp (by omega) h3 h4
  rw [g1] at k1
  cases k1
  rw [g3] at k2
  cases k2
  refine ⟨frame, msg, ?_, g2, g3, k3, g5, g6, g7, g8⟩
  rw [h1 vals force hg, send, hs, hc, g1]

/-! ### Signatures -/

theorem min_decodeBodyS (H : List Byte → List Byte) (t : Bool) (c : Minimal.Container) (s : Signing) (f : List Byte)
    (hl magic mlen inc comp seq sys cmp id : Nat) :
    Minimal.decodeBodyS H t c s f hl magic mlen inc comp seq sys cmp id =
      match decodeBodyWith Minimal.lookupMsg f hl magic mlen inc comp seq sys cmp id with
      | .error e => (s, .error e)
      | .ok m =>
        match Minimal.signatureGate H t c s f (if m.incompat % 2 = 1 then 13 else 0) m.srcSystem m.srcComponent m.msgId with
        | (s, .error e) => (s, .error e)
        | (s, .ok b) => (s, .ok ⟨m, b, if b then some (linkOf f) else none⟩) := by
  by_cases hid : id ∈ minimalIds
  · have hdb := decodeBody_eq f hl magic mlen inc comp seq sys cmp id
    rw [decodeBodyWith_min, if_pos hid]
    unfold Minimal.decodeBodyS
    rw [minimal_lookup, if_pos hid]
    have hdb' := hdb
    unfold decodeBody at hdb ⊢
    simp only at hdb hdb' ⊢
    generalize hs : (if inc % 2 = 1 then 13 else 0) = sig at hdb hdb' ⊢
    split
    · rfl
    rename_i hmag
    rw [if_neg hmag] at hdb
    split
    · rfl
    rename_i hlen
    rw [if_neg hlen] at hdb
    cases hm : lookupMsg id with
    | none => rfl
    | some type =>
      rw [hm] at hdb
      simp only at hdb ⊢
      split
      · rfl
      rename_i hcl
      rw [if_neg hcl] at hdb
      split
      · rfl
      rename_i hcrc
      rw [if_neg hcrc] at hdb
      have hpre : (magic = 254 ∨ magic = 253) ∧ f.length = mlen + hl + 2 + sig ∧
          leNat ((f.drop (f.length - (2 + sig))).take 2) =
            (x25 (pySlice f 1 (f.length - (2 + sig)) ++ [BitVec.ofNat 8 type.crcExtra])).toNat :=
        ⟨by omega, by omega, by simpa using hcrc⟩
      rw [if_pos hpre] at hdb
      have hp : decodePayload type f hl (f.length - (2 + sig)) mlen inc comp seq sys cmp id
          (leNat ((f.drop (f.length - (2 + sig))).take 2)) = _ := hdb
      rw [hdb, hp]
      simp only [hs]
      rcases Minimal.signatureGate H t c s f sig sys cmp id with ⟨s', e | b⟩ <;> rfl
  · rw [decodeBodyWith_min, if_neg hid]
    unfold Minimal.decodeBodyS
    rw [minimal_lookup, if_neg hid]
    simp only [ite_self]

theorem min_decodeS (H : List Byte → List Byte) (t : Bool) (c : Minimal.Container) (s : Signing) (f : List Byte) :
    Minimal.decodeS H t c s f =
      match Minimal.decode f with
      | .error e => (s, .error e)
      | .ok m =>
        match Minimal.signatureGate H t c s f (if m.incompat % 2 = 1 then 13 else 0) m.srcSystem m.srcComponent m.msgId with
        | (s, .error e) => (s, .error e)
        | (s, .ok b) => (s, .ok ⟨m, b, if b then some (linkOf f) else none⟩) := by
  have key := min_decodeBodyS H t c s f
  unfold Minimal.decodeS Minimal.decode decodeWith
  rcases f with _ | ⟨b0, _ | ⟨b1, _ | ⟨b2, _ | ⟨b3, _ | ⟨b4, _ | ⟨b5, _ | ⟨b6, _ | ⟨b7, _ | ⟨b8, _ | ⟨b9, r⟩⟩⟩⟩⟩⟩⟩⟩⟩⟩
  · rfl
  all_goals
    by_cases hb : b0 = 254
    · subst hb
      simp only [ne_eq, not_true_eq_false, if_false, key]
    · simp only [hb, ne_eq, not_false_eq_true, if_true, key]

theorem min_gate (H : List Byte → List Byte) (t : Bool) (c : Minimal.Container) (s : Signing) (f : List Byte) (sig sys cmp id : Nat)
    (h : ¬ (c = .array ∧ t = false) ∨ s.secretKey = none ∨ sig ≠ 13) :
    Minimal.signatureGate H t c s f sig sys cmp id = signatureGate H s f sig sys cmp id := by
  unfold Minimal.signatureGate signatureGate
  by_cases hs : sig = 13
  · simp only [hs, if_true]
    cases hk : s.secretKey with
    | none => rfl
    | some key =>
      have hc : ¬ (c = .array ∧ t = false) := by
        rcases h with h | h | h
        · exact h
        · rw [hk] at h; cases h
        · exact absurd hs h
      simp only [Minimal.checkSignature, if_neg hc]
  · simp only [hs, if_false]
    cases s.secretKey <;> rfl

/-- C109. Given a `bytearray`, or with a Python whose arrays have `tostring`, `decode` of the minimal dialect with signing treats every frame
it defines as the HC dialect does (C75), and refuses all others without a trace. -/
theorem c109_signed (H : List Byte → List Byte) (tostring : Bool) (c : Minimal.Container) (h : c = .bytearray ∨ tostring = true)
    (s : Signing) (f : List Byte) :
    Minimal.decodeS H tostring c s f =
      match Minimal.decode f with
      | .ok _ => decodeS H s f
      | .error e => (s, .error e) := by
  rw [min_decodeS]
  cases hd : Minimal.decode f with
  | error e => rfl
  | ok m =>
    have hd' : decode f = .ok m := by
      rw [c87_decode] at hd
      cases h' : decode f with
      | error e => rw [h'] at hd; cases hd
      | ok m' =>
        rw [h'] at hd
        simp only at hd
        split at hd
        · cases hd; rfl
        · cases hd
    have hc : ¬ (c = .array ∧ tostring = false) := by
      rintro ⟨h1, h2⟩
      rcases h with h | h
      · rw [h] at h1; cases h1
      · rw [h] at h2; cases h2
    rw [decodeS_eq, hd']
    simp only
    rw [min_gate H tostring c s f _ _ _ _ (.inl hc)]
    rfl

/-- C109, expectation that fails: "as the HC dialect, or MAVError". Given an array, with a Python whose arrays have no `tostring` (3.9 and
later), a receiver with a key raises AttributeError for every well-formed frame flagged as signed; for all other frames the array makes no
difference. -/
theorem c109_array (H : List Byte → List Byte) (s : Signing) (f : List Byte) :
    (∀ m, Minimal.decode f = .ok m → Flagged m → s.secretKey ≠ none →
      Minimal.decodeS H false .array s f = ({ s with sigCount := s.sigCount + 1 }, .error .attributeError)) ∧
    ((∀ m, Minimal.decode f = .ok m → ¬ Flagged m ∨ s.secretKey = none) →
      Minimal.decodeS H false .array s f = Minimal.decodeS H false .bytearray s f) := by
  constructor
  · intro m hd hf hk
    rw [min_decodeS, hd]
    simp only
    unfold Flagged at hf
    rw [if_pos hf]
    have : Minimal.signatureGate H false .array s f 13 m.srcSystem m.srcComponent m.msgId =
        ({ s with sigCount := s.sigCount + 1 }, .error .attributeError) := by
      unfold Minimal.signatureGate
      cases hk' : s.secretKey with
      | none => exact absurd hk' hk
      | some key => simp [Minimal.checkSignature]
    rw [this]
  · intro h
    rw [min_decodeS, min_decodeS]
    cases hd : Minimal.decode f with
    | error e => rfl
    | ok m =>
      simp only
      rw [min_gate, min_gate]
      · left
        rintro ⟨h1, _⟩
        cases h1
      · rcases h m hd with h | h
        · right; right
          unfold Flagged at h
          rw [if_neg h]
          decide
        · exact .inr (.inl h)

/-- C109. The stream parser hands arrays to `decode`: with such a Python a receiver with a key, however robust, raises AttributeError out of
`parse_buffer` when such a frame arrives (flagged as signed and nothing else). -/
theorem c109_parser (H : List Byte → List Byte) (s : Signing) (hk : s.secretKey ≠ none) (robust : Bool) (f : List Byte) (m : MavMsg)
    (hd : Minimal.decode f = .ok m) (hf : m.incompat = 1) :
    ∃ st, parseBufferWith (fun b => (Minimal.decodeS H false .array s b).2.map (·.msg)) (Parser.init robust) f =
      some (st, .error .attributeError) := by
  have hx : ((Minimal.decodeS H false .array s f).2.map (·.msg)) = .error .attributeError := by
    rw [((c109_array H s f).1 m hd (by unfold Flagged; rw [hf]) hk)]
    rfl
  have hd' : decode f = .ok m := by
    rw [c87_decode] at hd
    cases h' : decode f with
    | error e => rw [h'] at hd; cases hd
    | ok m' =>
      rw [h'] at hd
      simp only at hd
      split at hd
      · cases hd; rfl
      · cases hd
  -- the header
  have key : ∀ a b c d e g h i j, decodeBody f a b c d e g h i j = .ok m → d = 1 ∧ f.length = c + a + 2 + 13 ∧ (b = 254 ∨ b = 253) := by
    intro a b c d e g h i j hb
    rw [decodeBody_eq] at hb
    simp only at hb
    generalize hs : (if d % 2 = 1 then 13 else 0) = sig at hb
    split at hb
    · cases hb
    · split at hb
      · next hp =>
        cases hb
        have hf' : d = 1 := hf
        subst hf'
        rw [if_pos (by decide)] at hs
        exact ⟨rfl, by omega, hp.1⟩
      · cases hb
  have shape : ∃ b1 r, f = 253 :: b1 :: 1 :: r ∧ f.length = b1.toNat + 25 := by
    unfold decode at hd'
    rcases f with _ | ⟨b0, _ | ⟨b1, _ | ⟨b2, _ | ⟨b3, _ | ⟨b4, _ | ⟨b5, _ | ⟨b6, _ | ⟨b7, _ | ⟨b8, _ | ⟨b9, r⟩⟩⟩⟩⟩⟩⟩⟩⟩⟩
    · cases hd'
    all_goals
      by_cases hb : b0 = 254
      · subst hb
        simp only [ne_eq, not_true_eq_false, if_false] at hd'
        first
          | cases hd'
          | exact absurd (key _ _ _ _ _ _ _ _ _ hd').1 (by decide)
      · simp only [hb, ne_eq, not_false_eq_true, if_true] at hd'
        first
          | cases hd'
          | obtain ⟨k1, k2, k3⟩ := key _ _ _ _ _ _ _ _ _ hd'
            have e0 : b0 = 253 := by
              rcases k3 with k3 | k3
              · exact absurd (BitVec.eq_of_toNat_eq (by simpa using k3)) hb
              · exact BitVec.eq_of_toNat_eq (by simpa using k3)
            have e2 : b2 = 1 := BitVec.eq_of_toNat_eq (by simpa using k1)
            subst e0 e2
            exact ⟨b1, _, rfl, by rw [k2]⟩
  obtain ⟨b1, r, hfr, hlen⟩ := shape
  subst hfr
  have h3 : readHeader3 10 (253 :: b1 :: 1 :: r) = some (253, 1, b1.toNat + 25) := by
    unfold readHeader3
    simp only
    rw [if_pos (by decide)]
  have htake : (253 :: b1 :: 1 :: r).take (b1.toNat + 25) = 253 :: b1 :: 1 :: r := List.take_of_length_le (by omega)
  unfold parseBufferWith parseCharWith parseCharLegacyWith
  simp only [Parser.init, List.nil_append, List.drop_zero, List.head?_cons, if_true, h3]
  rw [if_neg (by decide)]
  have hge : 10 + 2 ≤ b1.toNat + 25 := by omega
  have hle : b1.toNat + 25 ≤ (253 :: b1 :: 1 :: r).length := by omega
  simp only [Parser.bufLen, Nat.sub_zero, ge_iff_le, hge, hle, and_self, if_true, parseFrameWith, List.drop_zero, htake]
  rw [if_neg (by decide), hx]
  simp

/-! The hypotheses are met: a signed HEARTBEAT. -/

theorem sg_minimal (t : Byte) (l : List Byte) (hl : l.length = 6) : ∃ m, Minimal.decode (sgBody t 0 ++ l) = .ok m ∧ m.incompat = 1 := by
  obtain ⟨m, h1, h2, -⟩ := sg_decode t 0 l hl
  refine ⟨m, ?_, h2⟩
  rw [c87_decode, h1]
  match l, hl with
  | [a, b, c, d, e, g], _ =>
    cases h1
    rfl

/-- C109, expectation that fails: a frame is decoded, or refused with MAVError, whatever it is kept in. A properly signed HEARTBEAT that is
accepted from a `bytearray` raises AttributeError from an array. -/
theorem c109_array_false (H : List Byte → List Byte) (hH : ∀ x, 6 ≤ (H x).length) (key : List Byte) :
    ¬ ∀ (c : Minimal.Container) (s : Signing) (f : List Byte), f ≠ [] →
      Returns (Minimal.decodeS H false c s f).2 ∨ Raises (Minimal.decodeS H false c s f).2 .mavError := by
  intro h
  have hl : ((H (key ++ sgBody 1 0)).take 6).length = 6 := by
    rw [List.length_take]
    have := hH (key ++ sgBody 1 0)
    omega
  obtain ⟨m, hm, hi⟩ := sg_minimal 1 _ hl
  have ha := (c109_array H (sgStart key) (sgFrame H key 1)).1 m hm (by unfold Flagged; rw [hi]) (by simp [sgStart])
  have := h .array (sgStart key) (sgFrame H key 1) (by unfold sgFrame sgBody; simp)
  rw [ha] at this
  rcases this with ⟨_, h⟩ | h
  · cases h
  · cases h

example (H : List Byte → List Byte) (hH : ∀ x, 6 ≤ (H x).length) (key : List Byte) :
    Returns (Minimal.decodeS H false .bytearray (sgStart key) (sgFrame H key 1)).2 := by
  have hl : ((H (key ++ sgBody 1 0)).take 6).length = 6 := by
    rw [List.length_take]
    have := hH (key ++ sgBody 1 0)
    omega
  obtain ⟨m, hm, -⟩ := sg_minimal 1 _ hl
  rw [c109_signed H false .bytearray (.inl rfl), show Minimal.decode (sgFrame H key 1) = .ok m from hm, c75_accept_iff H key _ rfl]
  obtain ⟨m', d1, g1, -⟩ := sg_genuine hH key (sgStart key) 1 (by change (0 : Nat) ≤ _; omega)
  exact ⟨m', d1, .inl g1⟩

example : methodName Minimal.min234 "_send" = "pinger_data_send" := by decide +kernel

example : Raises (Minimal.encodeNamed "ping_encode" [] []) .attributeError := by decide +kernel

end NR
