import Verif.Spec.Numbers
import Verif.Props.C57
import Verif.Props.C30
import Verif.Props.C31_C32
import Verif.Props.C16_C24
/-
C116: the numbers the buffer model takes from a buffer are those of the messages MAVLink decodes in it.
-/
namespace NR.C116
open NR Spec Dialect

/-! ### Reading the payload -/

theorem payload_fields {m : MsgClass} (hm : m ∈ mavlinkMap) (hn : NoArrays m) (p : List Byte)
    (vals : List Val) (hv : vals = unpackItems ((wireTypes m).map FmtItem.scalar) p) :
    payloadFields m p = (List.range m.fieldnames.length).map fun i => FieldVal.num (vals.getD (m.orders.getD i 0) (.int 0)) := by
  have ok := classOK hm
  have h0 : ∀ j < m.fieldnames.length, m.arrayLengths.getD j 0 = 0 := by
    intro j hj
    rw [getD_lt _ _ (by rw [ok.lenArr]; exact hj)]
    exact hn _ (List.getElem_mem _)
  have hc : ∀ j < m.fieldnames.length, wireType m j ≠ .char := fun j hj h => ok.noPlainChar j hj h (h0 j hj)
  have hl1 : ∀ j < m.fieldnames.length, m.lengths.getD j 0 = 1 := by
    intro j hj
    rw [ok.lengthsEq j hj, if_pos (Or.inr (h0 j hj))]
  have hlen : vals.length = m.fieldnames.length := by
    rw [hv, unpackItems_length]
    simp [wireTypes, ok.lenOrdered]
  have hflat : vals = (List.range m.fieldnames.length).flatMap fun j => [vals.getD j (.int 0)] := by
    rw [← hlen]
    have : ∀ l : List Val, l = (List.range l.length).map fun j => l.getD j (.int 0) := by
      intro l
      apply List.ext_getElem
      · simp
      · intro i h1 h2
        simp [List.getD, List.getElem?_eq_getElem h1]
    conv => lhs; rw [this vals]
    have one : ∀ (f : Nat → Val) (l : List Nat), l.map f = l.flatMap fun j => [f j] := by
      intro f l
      induction l with
      | nil => rfl
      | cons x l ih => simp [ih]
    exact one _ _
  have hr := ok.reorder_ok (fun j => [vals.getD j (.int 0)]) (fun j hj => by rw [hl1 j hj]; rfl)
  rw [← hflat] at hr
  unfold payloadFields
  simp only [(plain_facts hm hn).2.1, ← hv, hr, bind, Except.bind]
  rw [ok.terminate_ok _ (by simp)]
  simp only
  apply List.ext_getElem
  · simp
  · intro i h1 h2
    have hi : i < m.fieldnames.length := by simpa using h1
    simp only [List.getElem_mapIdx, List.getElem_map, List.getElem_range, reordered]
    rw [if_neg (by rw [← ok.wireType_orders hi]; exact hc _ (ok.ordersLt i hi)), if_pos (hl1 _ (ok.ordersLt i hi))]
    rfl

theorem payload_attr {m : MsgClass} (hm : m ∈ mavlinkMap) (hn : NoArrays m) (p : List Byte)
    (vals : List Val) (hv : vals = unpackItems ((wireTypes m).map FmtItem.scalar) p) (msg : MavMsg) (hmc : msg.cls = m)
    (hf : msg.fields = payloadFields m p) :
    (∀ nm ∈ m.orderedFieldnames, msg.attr nm = some (.num (numberOf msg nm))) ∧
    m.orderedFieldnames.map (numberOf msg) = vals := by
  have ok := classOK hm
  have hlen : vals.length = m.fieldnames.length := by
    rw [hv, unpackItems_length]
    simp [wireTypes, ok.lenOrdered]
  have key : ∀ j, (hj : j < m.fieldnames.length) →
      msg.attr (m.orderedFieldnames.getD j "") = some (.num (vals.getD j (.int 0))) := by
    intro j hj
    unfold MavMsg.attr
    rw [hmc, hf, payload_fields hm hn p vals hv, ok.lookup_field (by simp) hj,
      getD_lt _ _ (by simpa using ok.idx_lt hj)]
    simp only [List.getElem_map, List.getElem_range]
    rw [ok.orders_idx hj]
  have key' : ∀ j, (hj : j < m.fieldnames.length) → numberOf msg (m.orderedFieldnames.getD j "") = vals.getD j (.int 0) := by
    intro j hj
    unfold numberOf
    rw [key j hj]
  constructor
  · intro nm hnm
    obtain ⟨j, hj, rfl⟩ := List.getElem_of_mem hnm
    have hj' : j < m.fieldnames.length := by rw [← ok.lenOrdered]; exact hj
    have h1 := key j hj'
    have h2 := key' j hj'
    rw [getD_lt _ _ hj] at h1 h2
    rw [h1, h2]
  · apply List.ext_getElem
    · simp [ok.lenOrdered, hlen]
    · intro j h1 h2
      have hj : j < m.orderedFieldnames.length := by simpa using h1
      have := key' j (by rw [← ok.lenOrdered]; exact hj)
      rw [getD_lt _ _ hj, getD_lt _ _ h2] at this
      simpa using this

theorem take_six {l : List Byte} (h : 6 ≤ l.length) :
    ∃ b0 b1 b2 b3 b4 b5 r, l = b0 :: b1 :: b2 :: b3 :: b4 :: b5 :: r := by
  match l, h with
  | b0 :: b1 :: b2 :: b3 :: b4 :: b5 :: r, _ => exact ⟨b0, b1, b2, b3, b4, b5, r, rfl⟩

theorem u8_byte (b : Byte) : unpackScalar .u8 [b] = .int b.toNat := by
  simp [unpackScalar, leNat, CType.isSInt]

/-- The numbers read at the places of one message are those of the decoded message. -/
theorem message_read {m : MsgClass} (hm : m ∈ mavlinkMap) (hn : NoArrays m) (buf : List Byte) (i : Nat)
    (hin : i + msgLen m + 8 ≤ buf.length) (hmark : (buf.getD i 0).toNat = 254) (hlb : (buf.getD (i + 1) 0).toNat = msgLen m)
    (hid : (buf.getD (i + 5) 0).toNat = m.id) (hret : Returns (decode (frameBytes buf i (msgLen m)))) :
    ∃ msg, decode (frameBytes buf i (msgLen m)) = .ok msg ∧ msg.cls = m ∧ msg.msgId = m.id ∧ msg.mlen = msgLen m ∧
      (∀ nm ∈ msg.cls.orderedFieldnames, msg.attr nm = some (.num (numberOf msg nm))) ∧
      (msgPlaces (i, m.id)).map (fun q => (q.name, unpackScalar q.type (q.bytes buf))) = named msg := by
  obtain ⟨b0, b1, b2, b3, b4, b5, r, hb⟩ := take_six (l := buf.drop i) (by rw [List.length_drop]; omega)
  have hr : r.length = buf.length - i - 6 := by
    have := congrArg List.length hb
    simp only [List.length_drop, List.length_cons] at this
    omega
  have hg : ∀ k, buf.getD (i + k) 0 = (b0 :: b1 :: b2 :: b3 :: b4 :: b5 :: r).getD k 0 := by
    intro k
    rw [← hb, getD_drop]
  have e0 : b0 = 254 := by
    have := hg 0
    rw [Nat.add_zero] at this
    rw [this] at hmark
    exact BitVec.eq_of_toNat_eq (by simpa using hmark)
  have e1 : b1.toNat = msgLen m := by rw [hg 1] at hlb; simpa using hlb
  have e5 : b5.toNat = m.id := by rw [hg 5] at hid; simpa using hid
  subst e0
  have hfb : frameBytes buf i (msgLen m) = 254 :: b1 :: b2 :: b3 :: b4 :: b5 :: r.take (msgLen m + 2) := by
    unfold frameBytes
    rw [hb]
    simp
  obtain ⟨msg, hmsg⟩ := hret
  have hpay : ∀ (x : List Byte), x = r.take (msgLen m) → pySlice ((254 : Byte) :: b1 :: b2 :: b3 :: b4 :: b5 :: r.take (msgLen m + 2)) 6
      (((254 : Byte) :: b1 :: b2 :: b3 :: b4 :: b5 :: r.take (msgLen m + 2)).length - 2) = x := by
    rintro x rfl
    have hl : ((254 : Byte) :: b1 :: b2 :: b3 :: b4 :: b5 :: r.take (msgLen m + 2)).length - 2 = msgLen m + 6 := by
      simp only [List.length_cons, List.length_take]
      omega
    rw [hl]
    simp [pySlice, List.take_take]
  have hpl : (r.take (msgLen m)).length = msgLen m := by rw [List.length_take]; omega
  have hfit : fitPayload m (r.take (msgLen m)) = r.take (msgLen m) := by
    apply fitPayload_self
    rw [hpl, ClassOK.wireSize_eq (plain_facts hm hn).2.1, calcsize_scalars, (plain_facts hm hn).2.2]
  have hd := hmsg
  rw [hfb, decode_v1, decodeBody_eq] at hd
  simp only [e5, lookupMsg_mem hm, Nat.zero_mod, Nat.zero_ne_one, if_false, Nat.add_zero] at hd
  rw [hpay _ rfl, hfit] at hd
  split at hd
  · injection hd with hd
    have hcls : msg.cls = m := by rw [← hd]
    have hfields : msg.fields = payloadFields m (r.take (msgLen m)) := by rw [← hd]
    have hdrop6 : buf.drop (i + 6) = r := by
      rw [← List.drop_drop, hb]
      rfl
    obtain ⟨ha, hvals⟩ := payload_attr hm hn _ _ rfl msg hcls hfields
    rw [← hdrop6, ← payloadList_types, show msgLen m = widthSum (payloadList m) from (widthSum_payload hm hn).symm,
      unpackItems_places] at hvals
    refine ⟨msg, hmsg, hcls, by rw [← hd], by rw [← hd]; exact e1, by rw [hcls]; exact ha, ?_⟩
    rw [msgPlaces_eq hm, List.map_append]
    unfold named
    congr 1
    · have hbyte : ∀ k, k < 6 → ∀ nm : String, (Place.mk nm .u8 (i + k)).bytes buf =
          [((254 : Byte) :: b1 :: b2 :: b3 :: b4 :: b5 :: r).getD k 0] := by
        intro k hk nm
        simp only [Place.bytes, width]
        rw [← List.drop_drop, hb]
        match k, hk with
        | 0, _ => rfl
        | 1, _ => rfl
        | 2, _ => rfl
        | 3, _ => rfl
        | 4, _ => rfl
        | 5, _ => rfl
      have hbyte0 := hbyte 0 (by omega)
      rw [Nat.add_zero] at hbyte0
      simp only [headerList, placeFrom, List.map_cons, List.map_nil, width, Nat.add_assoc, Nat.reduceAdd]
      rw [hbyte0, hbyte 1 (by omega), hbyte 2 (by omega), hbyte 3 (by omega), hbyte 4 (by omega), hbyte 5 (by omega)]
      simp only [u8_byte, List.getD_cons_zero, List.getD_cons_succ, hcls]
      rw [e5, ← hd]
      rfl
    · rw [hcls]
      have hnames := placeFrom_names (i + 6) (payloadList m)
      have hz : ∀ (ps : List Place) (f : Place → Val), ps.map (fun q => (q.name, f q)) = (ps.map Place.name).zip (ps.map f) := by
        intro ps f
        rw [List.zip_map']
      rw [hz, hnames, ← hvals, payloadList, List.map_map, List.zip_map']
      rfl
  · cases hd

/-- The messages of a structure, all of known types without arrays. -/
def Plain (s : List (Nat × Nat)) : Prop := ∀ r ∈ s, ∀ m ∈ mavlinkMap, m.id = r.2 → NoArrays m

/-- Everything read at the places of the found messages. -/
theorem structure_read (buf : List Byte) (st : SegState) (hst : segmentBuffer decode buf = .ok st) :
    ∀ s : List (Nat × Nat), (∀ r ∈ s, r ∈ st.struct) → Plain s →
    InRange buf.length s ∧ ∃ msgs, DecodedAs buf s msgs ∧
      (fieldPlaces s).map (fun q => (q.name, unpackScalar q.type (q.bytes buf))) = msgs.flatMap named := by
  intro s
  induction s with
  | nil => intro _ _; exact ⟨(by intro r hr; cases hr), [], List.Forall₂.nil, rfl⟩
  | cons x s ih =>
    intro hsub hp
    obtain ⟨i, id⟩ := x
    obtain ⟨hr, msgs, hd, hv⟩ := ih (fun r hr => hsub r (List.mem_cons_of_mem _ hr))
      (fun r hr => hp r (List.mem_cons_of_mem _ hr))
    obtain ⟨L, hh, hret, hle, _⟩ := c16_fits buf st hst i id (hsub _ List.mem_cons_self)
    obtain ⟨m, hm, hid, hl⟩ := payloadLen_eq_some.1 hh.known
    have hn := hp _ List.mem_cons_self m hm hid
    subst hid hl
    have hlen : lenOf m.id = msgLen m := by unfold lenOf; rw [payloadLen_mem hm]; rfl
    obtain ⟨msg, h1, h2, h3, h4, h5, h6⟩ := message_read hm hn buf i hle hh.marker hh.lenByte hh.idByte hret
    refine ⟨?_, msg :: msgs, List.Forall₂.cons ⟨by rw [hlen]; exact h1, h3, by rw [hlen]; exact h4, h5⟩ hd, ?_⟩
    · intro r hr'
      rcases List.mem_cons.1 hr' with rfl | hr'
      · exact ⟨m, hm, rfl, hn, by simp only; omega⟩
      · exact hr r hr'
    · simp only [fieldPlaces, List.flatMap_cons, List.map_append] at hv ⊢
      rw [h6, hv]

/-- C116: for every byte string in which only messages without arrays are found, the names and values the buffer model
reads there are those of the messages the MAVLink parser decodes at these places: header and fields, in order. -/
theorem c116_values (buf : List Byte) (st : SegState) (hst : segmentBuffer decode buf = .ok st) (hp : Plain st.struct) :
    ∃ msgs, DecodedAs buf st.struct msgs ∧ unpackValues (.bytes buf) st.struct = .ok ((msgs.flatMap named).map Prod.snd) ∧
      unpackValues (.bits (bytesBits buf)) st.struct = .ok ((msgs.flatMap named).map Prod.snd) ∧
      ∀ bitwise, ∃ map types, unpackStructure bitwise buf.length st.struct =
        .ok (map, (msgs.flatMap named).map Prod.fst, types) := by
  obtain ⟨hr, msgs, hd, hv⟩ := structure_read buf st hst _ (fun r h => h) hp
  have hvals : unpackValues (.bytes buf) st.struct = .ok ((msgs.flatMap named).map Prod.snd) := by
    rw [unpackValues, unpackLoop_ok hr, ← hv, List.map_map]
    rfl
  have hnames : (fieldPlaces st.struct).map Place.name = (msgs.flatMap named).map Prod.fst := by
    rw [← hv, List.map_map]
    rfl
  refine ⟨msgs, hd, hvals, by rw [c32_bits]; exact hvals, fun bitwise => ?_⟩
  cases bitwise with
  | true =>
    obtain ⟨arr, h1, _⟩ := unpackStructure_ok hr
    rw [hnames] at h1
    exact ⟨_, _, h1⟩
  | false =>
    have := unpackStructure_names (s := st.struct) (fun r h => by
      obtain ⟨m, hm, hid, _⟩ := hr r h
      exact ⟨m, hm, hid⟩) buf.length
    rw [hnames] at this
    exact ⟨_, _, this⟩

theorem decoded_unique {buf : List Byte} {s : List (Nat × Nat)} {a b : List MavMsg} (ha : DecodedAs buf s a) (hb : DecodedAs buf s b) :
    a = b := by
  unfold DecodedAs at ha hb
  induction ha generalizing b with
  | nil => cases hb; rfl
  | cons h _ ih =>
    cases hb with
    | cons h' hb' =>
      have := h.1.symm.trans h'.1
      injection this with this
      rw [this, ih hb']

/-- What the numbers of these messages are under one name. -/
def under (name : String) (msgs : List MavMsg) : List Val :=
  ((msgs.flatMap named).filter fun x => x.1 = name).map Prod.snd

theorem takes_decoded (buf : List Byte) (hp : Plain (messagesIn buf)) (msgs : List MavMsg)
    (hd : DecodedAs buf (messagesIn buf) msgs) (name : String) :
    Addable (.bytes buf, messagesIn buf) ∧ takes name (.bytes buf, messagesIn buf) = under name msgs := by
  obtain ⟨st, hst, he⟩ := messagesIn_ok buf
  rw [he] at hp hd ⊢
  obtain ⟨hr, msgs', hd', hv⟩ := structure_read buf st hst _ (fun r h => h) hp
  rw [decoded_unique hd hd']
  refine ⟨⟨buf, rfl, hr⟩, ?_⟩
  unfold under
  rw [← hv]
  simp only [takes, argBytes, List.filter_map, List.map_map]
  rfl

open Classical in
/-- C116: a buffer model that is given any byte strings, each with the messages found in it (none with arrays), holds under
every name the window of the numbers the MAVLink parser decodes from them, in order, and has counted every byte string. -/
theorem c116_learned {μ : Type} (O : StatOps Val μ) (w : Option Nat) (bufs : List (List Byte)) (msgs : List (List MavMsg))
    (hp : ∀ b ∈ bufs, Plain (messagesIn b)) (hd : List.Forall₂ (fun b ms => DecodedAs b (messagesIn b) ms) bufs msgs)
    (bm : BufferModel μ) (hbm : bm = addAll O (BufferModel.new w) (bufs.map fun b => (.bytes b, messagesIn b))) :
    bm.modelSize = sizeAfter w bufs.length ∧
    ∀ name, ((bm.models.lookup name).map FieldModel.samples).getD [] = windowed w (under name msgs.flatten) := by
  obtain ⟨h1, h2⟩ := c30_history O w _ bm hbm
  have hall : (bufs.map fun b => (BufArg.bytes b, messagesIn b)).filter (fun a => Addable a) =
      bufs.map fun b => (BufArg.bytes b, messagesIn b) := by
    rw [List.filter_eq_self]
    intro a ha
    obtain ⟨b, hb, rfl⟩ := List.mem_map.1 ha
    obtain ⟨st, hst, he⟩ := messagesIn_ok b
    have hpb := hp b hb
    rw [he] at hpb
    have hr := (structure_read b st hst _ (fun r h => h) hpb).1
    simp only [decide_eq_true_eq]
    rw [he]
    exact ⟨b, rfl, hr⟩
  rw [hall] at h1
  refine ⟨by rw [h1, List.length_map], fun name => ?_⟩
  have h3 := (h2 name).1
  rw [hall] at h3
  rw [h3]
  congr 1
  clear h1 h2 h3 hall hbm
  induction hd with
  | nil => rfl
  | cons h _ ih =>
    rw [List.map_cons, List.flatMap_cons, ih (fun b hb => hp b (List.mem_cons_of_mem _ hb)),
      (takes_decoded _ (hp _ List.mem_cons_self) _ h name).2]
    simp [under]

/-- C116: the values of the found messages can be read if and only if none of these has an array, whatever the byte string. -/
theorem c116_readable (buf : List Byte) (st : SegState) (hst : segmentBuffer decode buf = .ok st) :
    Returns (unpackValues (.bytes buf) st.struct) ↔ Plain st.struct := by
  constructor
  · intro h r hr m hm hid
    have hin : InRange buf.length st.struct := by
      by_contra hcon
      have := c32_raises buf st.struct hcon
      obtain ⟨v, hv⟩ := h
      rw [hv] at this
      obtain ⟨e, he⟩ := this
      cases he
    obtain ⟨m', hm', hid', hn', _⟩ := hin r hr
    have h1 := lookupMsg_mem hm
    have h2 := lookupMsg_mem hm'
    rw [hid, ← hid', h2] at h1
    injection h1 with h1
    rw [← h1]
    exact hn'
  · intro hp
    obtain ⟨msgs, _, h, _⟩ := c116_values buf st hst hp
    exact ⟨_, h⟩

/-! ### Concrete cases -/

/-- A frame of AUTH_KEY (id 7, a text of 32 characters) with one byte of payload is found, and accepted by the parser, but
has an array. -/
example : messagesIn [254, 1, 0, 1, 1, 7, 0, 152, 112] = [(0, 7)] ∧ Returns (decode [254, 1, 0, 1, 1, 7, 0, 152, 112]) ∧
    ¬ Plain [(0, 7)] := by
  refine ⟨by decide +kernel, by decide +kernel, ?_⟩
  intro h
  have hm : msg7 ∈ mavlinkMap := by decide +kernel
  exact absurd (h (0, 7) (by simp) msg7 hm rfl) (by decide)

/-- Two heartbeats with the sequence numbers 0 and 1 and two bytes of noise in front. -/
example : Plain (messagesIn sampleBuffer) ∧ messagesIn sampleBuffer ≠ [] := by
  rw [exMessages]
  refine ⟨?_, by simp⟩
  intro r hr m hm hid
  have hall : mavlinkMap.all (fun m => decide (m.id = 0 → NoArrays m)) = true := by decide +kernel
  have := List.all_eq_true.1 hall m hm
  simp only [decide_eq_true_eq] at this
  simp only [List.mem_cons, List.not_mem_nil, or_false] at hr
  rcases hr with rfl | rfl <;> exact this hid

/-- What a model that is given this buffer twice holds under `seq`. -/
example {μ : Type} (O : StatOps Val μ) :
    (((addAll O (BufferModel.new none) (List.replicate 2 (.bytes sampleBuffer, messagesIn sampleBuffer))).models.lookup "seq").map
      FieldModel.samples).getD [] = [.int 7, .int 8, .int 7, .int 8] := by
  have hp : Plain (messagesIn sampleBuffer) := by
    rw [exMessages]
    intro r hr m hm hid
    have hall : mavlinkMap.all (fun m => decide (m.id = 0 → NoArrays m)) = true := by decide +kernel
    have := List.all_eq_true.1 hall m hm
    simp only [decide_eq_true_eq] at this
    simp only [List.mem_cons, List.not_mem_nil, or_false] at hr
    rcases hr with rfl | rfl <;> exact this hid
  obtain ⟨st, hst, he⟩ := messagesIn_ok sampleBuffer
  obtain ⟨msgs, hd, hv, _⟩ := c116_values _ st hst (he ▸ hp)
  rw [← he] at hd hv
  have := (c116_learned O none (List.replicate 2 sampleBuffer) (List.replicate 2 msgs) (by simp [hp])
    (List.Forall₂.cons hd (List.Forall₂.cons hd List.Forall₂.nil)) _ rfl).2 "seq"
  rw [List.map_replicate] at this
  rw [this]
  rw [exMessages] at hd
  unfold DecodedAs at hd
  obtain ⟨a, ms1, ha, hd1, rfl⟩ := List.forall₂_cons_left_iff.1 hd
  obtain ⟨b, ms2, hb, hd2, rfl⟩ := List.forall₂_cons_left_iff.1 hd1
  cases hd2
  have one : ∀ (f : List Byte) (n : Nat) (msg : MavMsg), decode f = .ok msg →
      (decode f).toOption.map (fun m => (m.seq, m.cls.name, m.cls.orderedFieldnames)) =
        some (n, msg0.name, msg0.orderedFieldnames) → under "seq" [msg] = [.int n] := by
    intro f n msg h1 h2
    rw [h1] at h2
    simp only [Except.toOption, Option.map_some, Option.some.injEq, Prod.mk.injEq] at h2
    obtain ⟨h3, h4, h5⟩ := h2
    simp only [under, named, List.flatMap_cons, List.flatMap_nil, List.append_nil, h3, h4, h5]
    have hs : ((msg0.orderedFieldnames.map fun nm => (msg0.name ++ "_" ++ nm, numberOf msg nm)).filter fun x => x.1 = "seq") = [] := by
      rw [List.filter_eq_nil_iff]
      intro x hx
      obtain ⟨nm, hnm, rfl⟩ := List.mem_map.1 hx
      have : msg0.orderedFieldnames.all (fun nm => !decide (msg0.name ++ "_" ++ nm = "seq")) = true := by decide +kernel
      have := List.all_eq_true.1 this nm hnm
      simpa using this
    rw [List.filter_append, hs, List.append_nil]
    have e1 : msg0.name ++ "_mlen" ≠ "seq" := by decide +kernel
    have e2 : msg0.name ++ "_srcComponent" ≠ "seq" := by decide +kernel
    have e3 : msg0.name ++ "_msgId" ≠ "seq" := by decide +kernel
    simp [e1, e2, e3]
  have split : ∀ (x : MavMsg) (l : List MavMsg), under "seq" (x :: l) = under "seq" [x] ++ under "seq" l := by
    intro x l
    simp [under]
  have ha' := one _ 7 a ha.1 (by decide +kernel)
  have hb' := one _ 8 b hb.1 (by decide +kernel)
  simp only [List.replicate, List.flatten_cons, List.flatten_nil, List.append_nil, List.cons_append, List.nil_append]
  rw [split, ha', split, hb', split, ha', hb']
  rfl

end NR.C116
