import Verif.Model.MsgFields
import Verif.Lemmas.Fields
import Verif.Props.C16_C24
import Mathlib.Data.List.Nodup
import Mathlib.Data.List.Perm.Subperm
/-
C25: get_msg_fields. C26: BufferStructure.
-/
namespace NR
open Spec Dialect

/-! ### C25 -/

/-- The entry expected for the field called `nm` of a decoded message. -/
def fieldEntry (msg : MavMsg) (nm : String) : List Byte × FieldVal × CType :=
  (fieldKey msg nm, (msg.attr nm).getD (.text []), ((msg.cls.fieldnames.zip msg.cls.fieldtypes).lookup nm).getD .char)

/-- What the decoder returns on a version-1 frame. -/
theorem decode_v1_facts {f : List Byte} {msg : MavMsg} (hd : decode f = .ok msg) (h0 : f.head? = some 254)
    (h6 : 6 ≤ f.length) :
    ∃ b1 b2 b3 b4 b5 : Byte, f.take 6 = [254, b1, b2, b3, b4, b5] ∧ msg.mlen = b1.toNat ∧ msg.seq = b2.toNat ∧
      msg.srcSystem = b3.toNat ∧ msg.srcComponent = b4.toNat ∧ msg.msgId = b5.toNat ∧ msg.cls ∈ mavlinkMap ∧
      msg.cls.id = b5.toNat ∧ ∃ p, msg.fields = payloadFields msg.cls (fitPayload msg.cls p) := by
  obtain ⟨b1, b2, b3, b4, b5, rest, rfl⟩ := v1_shape h0 h6
  rw [decode_v1, decodeBody_eq] at hd
  refine ⟨b1, b2, b3, b4, b5, rfl, ?_⟩
  simp only at hd
  cases hm : lookupMsg b5.toNat with
  | none => rw [hm] at hd; cases hd
  | some m =>
    rw [hm] at hd
    simp only [show (0 % 2 = 1) = False by decide, if_false] at hd
    split at hd
    · injection hd with hd
      subst hd
      obtain ⟨h1, h2⟩ := lookupMsg_eq_some.1 hm
      exact ⟨rfl, rfl, rfl, rfl, rfl, h1, h2, _, rfl⟩
    · cases hd

theorem mapM_all_ok {α β : Type _} (l : List α) (f : α → Except PyErr β) (g : α → β) (h : ∀ x ∈ l, f x = .ok (g x)) :
    l.mapM f = .ok (l.map g) := by
  induction l with
  | nil => rfl
  | cons x xs ih =>
    rw [List.mapM_cons, h x List.mem_cons_self, ih (fun y hy => h y (List.mem_cons_of_mem _ hy))]
    rfl

theorem msgEntries_ok {msg : MavMsg} (hm : msg.cls ∈ mavlinkMap) {p : List Byte}
    (hf : msg.fields = payloadFields msg.cls (fitPayload msg.cls p)) :
    msgEntries msg = .ok (msg.cls.orderedFieldnames.map (fieldEntry msg)) ∧
      ∀ nm ∈ msg.cls.orderedFieldnames, (msg.attr nm).isSome ∧
        ((msg.cls.fieldnames.zip msg.cls.fieldtypes).lookup nm).isSome := by
  have ok := classOK hm
  have hfl : msg.fields.length = msg.cls.fieldnames.length := by
    rw [hf, ok.payloadFields_eq (fitPayload_length _ _)]; simp
  have hattr : ∀ j, j < msg.cls.fieldnames.length → msg.attr (msg.cls.orderedFieldnames.getD j "") =
      some (msg.fields.getD (msg.cls.orders.idxOf j) (.text [])) := fun j hj => ok.lookup_field hfl hj
  have hname : ∀ nm ∈ msg.cls.orderedFieldnames, ∃ j, j < msg.cls.fieldnames.length ∧
      msg.cls.orderedFieldnames.getD j "" = nm := by
    intro nm hnm
    obtain ⟨j, hj, he⟩ := List.getElem_of_mem hnm
    refine ⟨j, by rw [← ok.lenOrdered]; exact hj, ?_⟩
    rw [List.getD_eq_getElem?_getD, List.getElem?_eq_getElem hj]
    exact he
  constructor
  · unfold msgEntries
    rw [mapM_all_ok _ _ (fun j => fieldEntry msg (msg.cls.orderedFieldnames.getD j ""))]
    · congr 1
      apply List.ext_getElem
      · simp
      · intro i h1 h2
        simp at h1 h2
        simp [h1]
    · intro j hj
      rw [List.mem_range, ok.lenOrdered] at hj
      have hmem := ok.ordersOnto j hj
      have hidx := ok.idx_lt hj
      have hfa : formatAttr msg (msg.cls.orderedFieldnames.getD j "") =
          .ok (msg.fields.getD (msg.cls.orders.idxOf j) (.text [])) := by
        unfold formatAttr
        rw [hattr j hj]
        have hnr : ∀ bs, msg.fields.getD (msg.cls.orders.idxOf j) (.text []) ≠ .num (.raw bs) := by
          intro bs he
          apply payloadFields_not_raw ok (fitPayload_length msg.cls p) bs
          rw [← hf, ← he, List.getD_eq_getElem?_getD, List.getElem?_eq_getElem (by rw [hfl]; exact hidx)]
          exact List.getElem_mem _
        split
        · rename_i h; cases h
        · rename_i bs h; injection h with h; exact absurd h (hnr bs)
        · rename_i v _ h; injection h with h; rw [h]
      have hty : msg.cls.fieldtypes[msg.cls.orders.idxOf j]? = some (wireType msg.cls j) := by
        rw [wireType, List.getElem?_eq_getElem (by rw [ok.lenTypes]; exact hidx), List.getD_eq_getElem?_getD,
          List.getElem?_eq_getElem (by rw [ok.lenTypes]; exact hidx)]
        rfl
      simp only [pyIndex]
      rw [if_pos (by simpa using hmem)]
      simp only [bind, Except.bind, hfa, hty]
      simp only [fieldEntry, hattr j hj, ok.lookup_type hj, Option.getD_some]
  · intro nm hnm
    obtain ⟨j, hj, rfl⟩ := hname nm hnm
    rw [hattr j hj, ok.lookup_type hj]
    simp

/-- The description of one recovered message. -/
def describe (buf : List Byte) (r : Nat × Nat) (msg : MavMsg) : List DescItem :=
  [.header ((buf.drop r.1).take 6)] ++
    msg.cls.orderedFieldnames.map (fun nm => .field (fieldEntry msg nm).1 (fieldEntry msg nm).2.2) ++ [.crc]

theorem msgFieldsStep_ok {buf : List Byte} {st : SegState} (h : segmentBuffer decode buf = .ok st) {r : Nat × Nat}
    (hr : r ∈ st.struct) :
    ∃ msg, decode (frameBytes buf r.1 (lenOf r.2)) = .ok msg ∧ msg.cls ∈ mavlinkMap ∧ msg.cls.id = r.2 ∧
      (∀ nm ∈ msg.cls.orderedFieldnames, (msg.attr nm).isSome ∧
        ((msg.cls.fieldnames.zip msg.cls.fieldtypes).lookup nm).isSome) ∧
      ∀ acc, msgFieldsStep buf acc r =
        .ok ((msg.cls.orderedFieldnames.map (fieldEntry msg)).foldl (fun d e => dictSet d e.1 e.2) acc.1,
          acc.2 ++ describe buf r msg) := by
  obtain ⟨i, id⟩ := r
  obtain ⟨L, hh, ⟨msg, hd⟩, hfit, hfl⟩ := c16_fits buf st h i id hr
  have hL : lenOf id = L := by simp [lenOf, hh.known]
  have hget : ∀ j, j < L + 8 → (frameBytes buf i L).getD j 0 = buf.getD (i + j) 0 := by
    intro j hj
    rw [← getD_drop]
    simp only [frameBytes, List.getD, List.getElem?_take_of_lt hj]
  have h0 : (frameBytes buf i L).head? = some 254 := by
    have h1 := hget 0 (by omega)
    have h2 : buf.getD i 0 = 254 := by apply BitVec.eq_of_toNat_eq; simpa using hh.marker
    rw [List.head?_eq_getElem?, List.getElem?_eq_getElem (by omega)]
    rw [List.getD_eq_getElem?_getD, List.getElem?_eq_getElem (by omega)] at h1
    simp only [Option.getD_some, Nat.add_zero] at h1
    rw [h1, h2]
  obtain ⟨b1, b2, b3, b4, b5, ht, e1, e2, e3, e4, e5, hm, hid, p, hf⟩ := decode_v1_facts hd h0 (by omega)
  have ht' : (buf.drop i).take 6 = [254, b1, b2, b3, b4, b5] := by
    rw [← ht, frameBytes, List.take_take, Nat.min_eq_left (by omega)]
  have hid5 : b5.toNat = id := by
    have h1 := hget 5 (by omega)
    have h2 : (frameBytes buf i L).getD 5 0 = b5 := by
      have : ((frameBytes buf i L).take 6).getD 5 0 = b5 := by rw [ht]; rfl
      simpa [List.getD, List.getElem?_take_of_lt] using this
    rw [← h2, h1]; exact hh.idByte
  obtain ⟨hent, hsome⟩ := msgEntries_ok hm hf
  rw [hL]
  refine ⟨msg, hd, hm, hid.trans hid5, hsome, fun acc => ?_⟩
  have hsl : pySlice buf i (i + L + protocolOverhead) = frameBytes buf i L := by
    rw [frameBytes, pySlice, List.drop_take]
    congr 1
    simp [show protocolOverhead = 8 from rfl]; omega
  have hhdr : headerPack msg = .ok [254, b1, b2, b3, b4, b5] := by
    unfold headerPack
    rw [e1, e2, e3, e4, e5, structPack_header _ _ _ _ _ b1.isLt b2.isLt b3.isLt b4.isLt b5.isLt]
    simp
  unfold msgFieldsStep
  simp only [hh.known, hsl, hd, bind, Except.bind, hhdr, hent]
  simp only [describe, ht', List.map_map, Function.comp_def]

/-- Last value stored under a key. -/
def lastValue {α : Type _} (entries : List (List Byte × α)) (key : List Byte) : Option α := entries.reverse.lookup key

theorem lookup_append {α β : Type _} [BEq α] (l₁ l₂ : List (α × β)) (k : α) :
    (l₁ ++ l₂).lookup k = (l₁.lookup k).or (l₂.lookup k) := by
  induction l₁ with
  | nil => simp
  | cons x xs ih =>
    obtain ⟨a, b⟩ := x
    simp only [List.cons_append, List.lookup_cons]
    cases k == a
    · simpa using ih
    · simp

theorem lookup_replace {κ ν : Type _} [BEq κ] [LawfulBEq κ] [DecidableEq κ] (d : List (κ × ν)) (k : κ) (v : ν) (key : κ) :
    (d.map fun p => if p.1 = k then (k, v) else p).lookup key =
      if key = k then (if k ∈ d.map Prod.fst then some v else none) else d.lookup key := by
  induction d with
  | nil => simp
  | cons x xs ih =>
    obtain ⟨a, b⟩ := x
    rw [List.map_cons]
    by_cases ha : a = k
    · subst ha
      rw [if_pos rfl, List.lookup_cons, ih]
      by_cases hk : key = a
      · subst hk; simp
      · have hb : (key == a) = false := by simpa using hk
        rw [List.lookup_cons]
        simp [hb, hk]
    · rw [if_neg ha, List.lookup_cons, ih, List.lookup_cons]
      by_cases hk : key = a
      · subst hk; simp [ha]
      · have hb : (key == a) = false := by simpa using hk
        have : (k = a) = False := by simpa using fun h => ha h.symm
        have h2 : k ∈ List.map Prod.fst ((a, b) :: xs) ↔ k ∈ List.map Prod.fst xs := by
          rw [List.map_cons, List.mem_cons]; simp [this]
        simp only [hb, h2]

theorem lookup_dictSet {κ ν : Type _} [BEq κ] [LawfulBEq κ] [DecidableEq κ] (d : List (κ × ν)) (k : κ) (v : ν) (key : κ) :
    (dictSet d k v).lookup key = if key = k then some v else d.lookup key := by
  unfold dictSet
  split
  · rename_i hm
    rw [lookup_replace, if_pos hm]
  · rename_i hm
    rw [lookup_append]
    by_cases hk : key = k
    · subst hk
      have : d.lookup key = none := by
        rw [List.lookup_eq_none_iff]
        intro p hp
        have : p.1 ≠ key := by
          intro he; apply hm; rw [← he]; exact List.mem_map_of_mem hp
        simpa using fun h => this h.symm
      simp [this]
    · rw [if_neg hk]
      have hb : (key == k) = false := by simpa using hk
      simp [List.lookup_cons, hb]

theorem lookup_foldl_dictSet {α : Type _} (es : List (List Byte × α)) (d : List (List Byte × α)) (key : List Byte) :
    (es.foldl (fun d e => dictSet d e.1 e.2) d).lookup key = (lastValue es key).or (d.lookup key) := by
  induction es generalizing d with
  | nil => simp [lastValue]
  | cons e es ih =>
    obtain ⟨k, v⟩ := e
    rw [List.foldl_cons, ih, lookup_dictSet]
    simp only [lastValue, List.reverse_cons, lookup_append, Option.or_assoc]
    congr 1
    by_cases hk : key = k
    · subst hk; simp
    · have hb : (key == k) = false := by simpa using hk
      rw [if_neg hk]
      simp [List.lookup_cons, hb]

/-- C25: with at least one recovered message, the description lists per message its six header bytes as they stand in
the buffer, its fields in wire order with their types, and "crc"; the dictionary maps every key to the value and type
of the last field with that key. -/
theorem c25_fields (buf : List Byte) (st : SegState) (h : segmentBuffer decode buf = .ok st) (hne : st.struct ≠ []) :
    ∃ dict msgs, List.Forall₂ (fun (r : Nat × Nat) (msg : MavMsg) =>
        decode (frameBytes buf r.1 (lenOf r.2)) = .ok msg ∧ msg.cls ∈ mavlinkMap ∧ msg.cls.id = r.2 ∧
        ∀ nm ∈ msg.cls.orderedFieldnames, (msg.attr nm).isSome ∧
          ((msg.cls.fieldnames.zip msg.cls.fieldtypes).lookup nm).isSome) st.struct msgs ∧
      getMsgFields decode buf = .ok (some (dict, (List.zipWith (describe buf) st.struct msgs).flatten)) ∧
      ∀ key, dict.lookup key =
        lastValue (msgs.flatMap fun msg => msg.cls.orderedFieldnames.map (fieldEntry msg)) key := by
  have key : ∀ (l : List (Nat × Nat)), (∀ r ∈ l, r ∈ st.struct) → ∀ acc, ∃ dict msgs,
      List.Forall₂ (fun (r : Nat × Nat) (msg : MavMsg) =>
        decode (frameBytes buf r.1 (lenOf r.2)) = .ok msg ∧ msg.cls ∈ mavlinkMap ∧ msg.cls.id = r.2 ∧
        ∀ nm ∈ msg.cls.orderedFieldnames, (msg.attr nm).isSome ∧
          ((msg.cls.fieldnames.zip msg.cls.fieldtypes).lookup nm).isSome) l msgs ∧
      l.foldlM (msgFieldsStep buf) acc = .ok (dict, acc.2 ++ (List.zipWith (describe buf) l msgs).flatten) ∧
      ∀ key, dict.lookup key =
        (lastValue (msgs.flatMap fun msg => msg.cls.orderedFieldnames.map (fieldEntry msg)) key).or (acc.1.lookup key) := by
    intro l
    induction l with
    | nil => intro _ acc; exact ⟨acc.1, [], List.Forall₂.nil, by simp [pure, Except.pure], by simp [lastValue]⟩
    | cons r l ih =>
      intro hl acc
      obtain ⟨msg, h1, h2, h3, h4, h5⟩ := msgFieldsStep_ok h (hl r List.mem_cons_self)
      obtain ⟨dict, msgs, g1, g2, g3⟩ := ih (fun r hr => hl r (List.mem_cons_of_mem _ hr))
        ((msg.cls.orderedFieldnames.map (fieldEntry msg)).foldl (fun d e => dictSet d e.1 e.2) acc.1,
          acc.2 ++ describe buf r msg)
      refine ⟨dict, msg :: msgs, List.Forall₂.cons ⟨h1, h2, h3, h4⟩ g1, ?_, ?_⟩
      · rw [List.foldlM_cons, h5]
        simp only [bind, Except.bind]
        rw [g2]
        simp
      · intro k
        rw [g3, lookup_foldl_dictSet, List.flatMap_cons]
        simp only [lastValue, List.reverse_append, lookup_append, Option.or_assoc]
  obtain ⟨dict, msgs, g1, g2, g3⟩ := key st.struct (fun _ h => h) ([], [])
  refine ⟨dict, msgs, g1, ?_, fun k => ?_⟩
  · unfold getMsgFields
    simp only [h, bind, Except.bind]
    rw [if_neg hne, g2]
    simp
  · rw [g3]; simp

/-- C25: keys are "<message name>_<field name>"; a message with a text field called `name` shows that text instead of
the message name. -/
theorem c25_key (msg : MavMsg) (nm : String) :
    ("name" ∉ msg.cls.fieldnames → fieldKey msg nm = strBytes msg.cls.name ++ strBytes "_" ++ strBytes nm) ∧
      ∀ t, (msg.cls.fieldnames.zip msg.fields).lookup "name" = some (.text t) →
        fieldKey msg nm = t ++ strBytes "_" ++ strBytes nm := by
  constructor
  · intro h
    have : msg.attr "name" = none := by
      rw [MavMsg.attr, List.lookup_eq_none_iff]
      intro p hp
      have h1 : p.1 ∈ msg.cls.fieldnames := (List.of_mem_zip (show (p.1, p.2) ∈ _ from hp)).1
      simp only [beq_eq_false_iff_ne, bne_iff_ne, ne_eq]
      intro he
      exact h (he ▸ h1)
    simp only [fieldKey, MavMsg.pyName, this]
    rfl
  · intro t ht
    have : msg.attr "name" = some (.text t) := ht
    simp only [fieldKey, MavMsg.pyName, this]
    rfl

/-- C25: with no recovered message the result is not a pair. -/
theorem c25_nothing (buf : List Byte) (st : SegState) (h : segmentBuffer decode buf = .ok st) (hne : st.struct = []) :
    getMsgFields decode buf = .ok none := by
  unfold getMsgFields
  simp only [h, bind, Except.bind]
  rw [if_pos hne]

example : ∃ r, getMsgFields decode sampleBuffer = .ok (some r) ∧ r.1.length = 6 ∧ r.2.length = 16 := by
  have h1 : (getMsgFields decode sampleBuffer).toOption.map (fun r => r.map fun r => (r.1.length, r.2.length)) =
      some (some (6, 16)) := by decide +kernel
  cases h : getMsgFields decode sampleBuffer with
  | error e => rw [h] at h1; cases h1
  | ok r =>
    rw [h] at h1
    cases r with
    | none => cases h1
    | some r => exact ⟨r, rfl, by simpa [Except.toOption] using h1⟩

/-! ### C26 -/

/-- The buffer carries the message ids of the structure at the structure's indices. -/
def Carries (buffer : List Byte) (msgs : List (Nat × Nat)) : Prop :=
  ∀ r ∈ msgs, r.1 + 6 ≤ buffer.length ∧ (buffer.getD (r.1 + 5) 0).toNat = r.2 ∧ ∃ m ∈ mavlinkMap, m.id = r.2

theorem adheres_iff (buffer : List Byte) (msgs : List (Nat × Nat)) :
    adheres buffer msgs = .ok true ↔ Carries buffer msgs := by
  induction msgs with
  | nil => simp [adheres, Carries]
  | cons r rest ih =>
    obtain ⟨idx, id⟩ := r
    have hsl : pySlice buffer idx (idx + headerLen) = (buffer.drop idx).take 6 := by
      rw [pySlice, List.drop_take]
      congr 1
      simp [headerLen]
    have hcons : Carries buffer ((idx, id) :: rest) ↔
        (idx + 6 ≤ buffer.length ∧ (buffer.getD (idx + 5) 0).toNat = id ∧ ∃ m ∈ mavlinkMap, m.id = id) ∧
          Carries buffer rest := by
      simp [Carries]
    rw [hcons, adheres, hsl]
    by_cases hlen : idx + 6 ≤ buffer.length
    · have h6 : ((buffer.drop idx).take 6).length = 6 := by simp; omega
      obtain ⟨b0, b1, b2, b3, b4, b5, hb⟩ := six_bytes h6
      have h5 : (buffer.getD (idx + 5) 0) = b5 := by
        have : ((buffer.drop idx).take 6).getD 5 0 = b5 := by rw [hb]; rfl
        rw [← getD_drop]
        simpa [List.getD, List.getElem?_take_of_lt] using this
      rw [hb, h5]
      by_cases hk : KnownId b5.toNat
      · obtain ⟨h, hh, hv, hd, _⟩ := c05_repair b0 b1 b2 b3 b4 b5 hk
        have hid : h.msgId = b5.toNat := by
          have h1 : (h.buffer.drop 2).getD 3 0 = b5 := by rw [hd]; rfl
          rw [getD_drop] at h1
          simp only [FrameHeader.msgId]
          rw [h1]
        simp only [hh, bind, Except.bind, hid]
        obtain ⟨m, hm, he⟩ := hk
        by_cases hi : b5.toNat = id
        · rw [if_neg (by simpa using hi), ih]
          constructor
          · intro hc; exact ⟨⟨hlen, hi, m, hm, by rw [← hi]; exact_mod_cast he⟩, hc⟩
          · rintro ⟨_, hc⟩; exact hc
        · rw [if_pos hi]
          constructor
          · intro hc; cases hc
          · rintro ⟨⟨_, h2, _⟩, _⟩; exact absurd h2 hi
      · have := c05_unknown_id b0 b1 b2 b3 b4 b5 none (by simpa using hk)
        simp only [this, bind, Except.bind]
        constructor
        · intro hc; cases hc
        · rintro ⟨⟨_, h2, m, hm, he⟩, _⟩
          exact absurd ⟨m, hm, by rw [he, h2]⟩ hk
    · have : FrameHeader.fromBuffer ((buffer.drop idx).take 6) = .error .headerLength :=
        (c05_wrong_length _ none).2 (by simp; omega)
      simp only [this, bind, Except.bind]
      constructor
      · intro hc; cases hc
      · rintro ⟨⟨h1, _⟩, _⟩; exact absurd h1 hlen

/-- C26: a registration succeeds exactly for buffers carrying the structure; then the buffer is stored and counted.
Otherwise it raises and changes nothing. -/
theorem c26_register (s : BufferStructure) (buffer : List Byte) :
    (Carries buffer s.structure ∧ (s.registerBuffer buffer).2 = .ok () ∧
      (s.registerBuffer buffer).1 =
        { s with receivedBuffers := s.receivedBuffers ++ [buffer], receptionCount := s.receptionCount + 1 }) ∨
    (¬ Carries buffer s.structure ∧ (∃ e, Raises (s.registerBuffer buffer).2 e) ∧ (s.registerBuffer buffer).1 = s) := by
  unfold BufferStructure.registerBuffer
  cases h : adheres buffer s.structure with
  | error e =>
    refine Or.inr ⟨?_, ⟨e, rfl⟩, rfl⟩
    rw [← adheres_iff, h]; simp
  | ok b =>
    cases b with
    | true => exact Or.inl ⟨(adheres_iff _ _).1 h, rfl, rfl⟩
    | false =>
      refine Or.inr ⟨?_, ⟨_, rfl⟩, rfl⟩
      rw [← adheres_iff, h]; simp

/-- A history of registrations; exceptions are caught by the caller. -/
def registerAll (s : BufferStructure) (bufs : List (List Byte)) : BufferStructure :=
  bufs.foldl (fun s b => (s.registerBuffer b).1) s

open Classical in
/-- C26: after any history the stored buffers are exactly the accepted ones, in order, the count is their number, and
the structure is unchanged. -/
theorem c26_history (msgs : List (Nat × Nat)) (bufs : List (List Byte)) :
    (registerAll (BufferStructure.new msgs) bufs).receivedBuffers = bufs.filter (fun b => Carries b msgs) ∧
      (registerAll (BufferStructure.new msgs) bufs).receptionCount =
        (registerAll (BufferStructure.new msgs) bufs).receivedBuffers.length ∧
      (registerAll (BufferStructure.new msgs) bufs).structure = msgs := by
  have key : ∀ (bufs : List (List Byte)) (s : BufferStructure), s.structure = msgs →
      s.receptionCount = s.receivedBuffers.length →
      (registerAll s bufs).receivedBuffers = s.receivedBuffers ++ bufs.filter (fun b => Carries b msgs) ∧
      (registerAll s bufs).receptionCount = (registerAll s bufs).receivedBuffers.length ∧
      (registerAll s bufs).structure = msgs := by
    intro bufs
    induction bufs with
    | nil => intro s h1 h2; simp [registerAll, h1, h2]
    | cons b bufs ih =>
      intro s h1 h2
      have hstep : registerAll s (b :: bufs) = registerAll (s.registerBuffer b).1 bufs := rfl
      rw [hstep]
      rcases c26_register s b with ⟨hc, _, he⟩ | ⟨hc, _, he⟩
      · rw [h1] at hc
        obtain ⟨g1, g2, g3⟩ := ih (s.registerBuffer b).1 (by rw [he]; exact h1) (by rw [he]; simp [h2])
        refine ⟨?_, g2, g3⟩
        rw [g1, he]
        simp [hc]
      · rw [h1] at hc
        rw [he]
        obtain ⟨g1, g2, g3⟩ := ih s h1 h2
        refine ⟨?_, g2, g3⟩
        rw [g1]
        simp [hc]
  have := key bufs (BufferStructure.new msgs) rfl rfl
  simpa [BufferStructure.new] using this

/-- C26: equality ignores the history. -/
theorem c26_equality (s t : BufferStructure) (bufs bufs' : List (List Byte)) :
    (registerAll s bufs).eqStructure (registerAll t bufs') = s.eqStructure t := by
  have key : ∀ (bufs : List (List Byte)) (s : BufferStructure), (registerAll s bufs).structure = s.structure := by
    intro bufs
    induction bufs with
    | nil => intro s; rfl
    | cons b bufs ih =>
      intro s
      have hstep : registerAll s (b :: bufs) = registerAll (s.registerBuffer b).1 bufs := rfl
      rw [hstep, ih]
      rcases c26_register s b with ⟨_, _, he⟩ | ⟨_, _, he⟩ <;> rw [he]
  simp [BufferStructure.eqStructure, key]

/-- C26: two structures are equal exactly when they hold the same messages at the same offsets. -/
theorem c26_equal_iff (a b : List (Nat × Nat)) (ha : (a.map Prod.fst).Nodup) (hb : (b.map Prod.fst).Nodup) :
    (BufferStructure.new a).eqStructure (BufferStructure.new b) = true ↔ ∀ x, x ∈ a ↔ x ∈ b := by
  have hmem : (a.all fun (k, v) => b.lookup k == some v) = true ↔ a ⊆ b := by
    rw [List.all_eq_true]
    refine ⟨fun h => ?_, fun h => ?_⟩
    · rintro ⟨k, v⟩ hx
      exact (lookup_of_nodup b hb k v).1 (by simpa using h (k, v) hx)
    · rintro ⟨k, v⟩ hx
      simpa using (lookup_of_nodup b hb k v).2 (h hx)
  have na : a.Nodup := List.Nodup.of_map _ ha
  have nb : b.Nodup := List.Nodup.of_map _ hb
  unfold BufferStructure.eqStructure dictEq
  rw [Bool.and_eq_true]
  simp only [BufferStructure.new]
  rw [hmem, beq_iff_eq]
  constructor
  · rintro ⟨hl, hs⟩ x
    exact ((List.subperm_of_subset na hs).perm_of_length_le (by omega)).mem_iff
  · intro h
    exact ⟨((List.perm_ext_iff_of_nodup na nb).2 h).length_eq, fun x hx => (h x).1 hx⟩

/-- C26: the structures found in two buffers are equal exactly when the same messages are found at the same offsets. -/
theorem c26_equal_buffers (x y : List Byte) (s t : BufferStructure) (hx : getBufferStructure decode x = .ok s)
    (hy : getBufferStructure decode y = .ok t) : s.eqStructure t = true ↔ s.structure = t.structure := by
  have sorted : ∀ (b : List Byte) (st : SegState), segmentBuffer decode b = .ok st →
      st.struct.Pairwise (fun p q => p.1 < q.1) := by
    intro b st h
    exact (c17_ordered_disjoint decode b st h).imp fun h => h.1
  have nd : ∀ l : List (Nat × Nat), l.Pairwise (fun p q => p.1 < q.1) → (l.map Prod.fst).Nodup := by
    intro l h
    rw [List.nodup_iff_pairwise_ne, List.pairwise_map]
    exact h.imp fun h => by omega
  unfold getBufferStructure at hx hy
  cases hsx : segmentBuffer decode x with
  | error e => rw [hsx] at hx; cases hx
  | ok sx =>
    cases hsy : segmentBuffer decode y with
    | error e => rw [hsy] at hy; cases hy
    | ok sy =>
      rw [hsx] at hx; rw [hsy] at hy
      cases hx; cases hy
      have px := sorted x sx hsx
      have py := sorted y sy hsy
      rw [c26_equal_iff _ _ (nd _ px) (nd _ py)]
      constructor
      · intro h
        refine List.Perm.eq_of_pairwise (fun p q _ _ h1 h2 => by omega) px py ?_
        exact (List.perm_ext_iff_of_nodup (List.Nodup.of_map _ (nd _ px)) (List.Nodup.of_map _ (nd _ py))).2 h
      · intro h z
        simp only [BufferStructure.new] at h
        rw [h]

/-- C26: the structure found in a buffer is carried by that buffer, so it can be registered. -/
theorem c26_own_buffer (buf : List Byte) : ∃ s, getBufferStructure decode buf = .ok s ∧
    (s.registerBuffer buf).2 = .ok () := by
  obtain ⟨st, h, _⟩ := c20_never_raises buf
  refine ⟨BufferStructure.new st.struct, by simp [getBufferStructure, h, bind, Except.bind], ?_⟩
  rcases c26_register (BufferStructure.new st.struct) buf with ⟨_, h1, _⟩ | ⟨hn, _⟩
  · exact h1
  · exfalso
    apply hn
    rintro ⟨i, id⟩ hr
    obtain ⟨L, hh, _⟩ := c16_genuine decode buf st h i id hr
    obtain ⟨m, hm, he, _⟩ := payloadLen_eq_some.1 hh.known
    exact ⟨hh.inside, hh.idByte, m, hm, he⟩

/-- A structure of two heartbeats accepts the sample buffer and rejects a short one. -/
example : (registerAll (BufferStructure.new [(2, 0), (20, 0)]) [sampleBuffer, [1, 2, 3], sampleBuffer]).receptionCount = 2 := by
  decide +kernel

end NR
