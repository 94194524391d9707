import Verif.Lemmas.XmlDefs
import Verif.Lemmas.XmlEnums
import Verif.Model.Enums
import Verif.Props.C08_C09
import Verif.Props.C10_C13
import Verif.Props.C87
/-
C106: the dialects are what their definition files say.
-/
namespace NR.C106
open NR Dialect Spec XmlLemmas
set_option linter.unusedSectionVars false

/-! ### Messages -/

theorem wireOrder_map {α β : Type} (f : α → β) (key : β → CType) (l : List α) :
    wireOrder key (l.map f) = (wireOrder (fun a => key (f a)) l).map f := by
  unfold wireOrder
  rw [List.map_flatMap]
  congr 1
  funext n
  rw [List.filter_map]
  rfl

theorem mem_wireOrder {α : Type} {key : α → CType} {l : List α} {a : α} (h : a ∈ wireOrder key l) : a ∈ l := by
  unfold wireOrder at h
  obtain ⟨n, _, hn⟩ := List.mem_flatMap.1 h
  exact (List.mem_filter.1 hn).1

section
variable {m : MsgClass} {x : XmlMsg} (hi : Implements m x) (ok : ClassOK m) {vals : List FieldVal} (hv : vals.length = x.fields.length)
include hi

theorem len_fields : m.fieldnames.length = x.fields.length := by rw [hi.fieldnames, List.length_map]

theorem name_at {i : Nat} (h : i < x.fields.length) : m.fieldnames[i]? = some x.fields[i].name := by
  rw [hi.fieldnames, List.getElem?_map, List.getElem?_eq_getElem h]
  rfl

include hv in
theorem wire_fst : wireOrder XmlField.type x.fields =
    (wireOrder (fun fv : XmlField × FieldVal => fv.1.type) (x.fields.zip vals)).map Prod.fst := by
  rw [← wireOrder_map Prod.fst XmlField.type, List.map_fst_zip (by omega)]

include ok

/-- An index with a given name. -/
theorem idx_of_name {i k : Nat} {s : String} (h1 : m.fieldnames[i]? = some s) (h2 : m.fieldnames[k]? = some s) : i = k := by
  obtain ⟨l1, e1⟩ := List.getElem?_eq_some_iff.1 h1
  obtain ⟨l2, e2⟩ := List.getElem?_eq_some_iff.1 h2
  exact (List.getElem_inj ok.namesNodup).1 (e1.trans e2.symm)

theorem ordered_at {j : Nat} (hj : j < m.fieldnames.length) :
    m.orderedFieldnames[j]? = m.fieldnames[m.orders.idxOf j]? := by
  have h1 : j < m.orderedFieldnames.length := by rw [ok.lenOrdered]; exact hj
  have := ok.ordered_eq hj
  rw [getD_lt _ _ h1, getD_lt _ _ (ok.idx_lt hj)] at this
  rw [List.getElem?_eq_getElem h1, List.getElem?_eq_getElem (ok.idx_lt hj), this]

include hv in
theorem wire_length : (wireOrder (fun fv : XmlField × FieldVal => fv.1.type) (x.fields.zip vals)).length = m.fieldnames.length := by
  rw [← ok.lenOrdered, hi.ordered, wire_fst hi hv, List.length_map, List.length_map]

include hv in
/-- The field at place `j` of the wire order. -/
theorem wire_at {j : Nat} (hj : j < m.fieldnames.length) :
    ∃ f v, x.fields[m.orders.idxOf j]? = some f ∧ vals[m.orders.idxOf j]? = some v ∧
      (wireOrder (fun fv : XmlField × FieldVal => fv.1.type) (x.fields.zip vals))[j]? = some (f, v) := by
  have hl := wire_length hi ok hv
  have hjw : j < (wireOrder (fun fv : XmlField × FieldVal => fv.1.type) (x.fields.zip vals)).length := by omega
  have hmem := mem_wireOrder (List.getElem_mem hjw)
  obtain ⟨i, hiz, he⟩ := List.getElem_of_mem hmem
  have hif : i < x.fields.length := by rw [List.length_zip] at hiz; omega
  have hiv : i < vals.length := by omega
  rw [List.getElem_zip] at he
  have h1 : m.orderedFieldnames[j]? = some x.fields[i].name := by
    rw [hi.ordered, wire_fst hi hv, List.map_map, List.getElem?_map, List.getElem?_eq_getElem hjw, ← he]
    rfl
  rw [ordered_at hi ok hj] at h1
  have hii := idx_of_name hi ok h1 (name_at hi hif)
  refine ⟨x.fields[i], vals[i], ?_, ?_, ?_⟩
  · rw [hii, List.getElem?_eq_getElem hif]
  · rw [hii, List.getElem?_eq_getElem hiv]
  · rw [List.getElem?_eq_getElem hjw, he]

include hv in
theorem array_at {j : Nat} (hj : j < m.fieldnames.length) {f : XmlField} (hf : x.fields[m.orders.idxOf j]? = some f) :
    m.arrayLengths[j]? = some f.count := by
  obtain ⟨f', v, h1, _, h3⟩ := wire_at hi ok hv hj
  rw [hf] at h1
  cases h1
  rw [hi.arrays, wire_fst hi hv, List.map_map, List.getElem?_map, h3]
  rfl

include hv in
theorem array_orders {i : Nat} (h : i < x.fields.length) : m.arrayLengths.getD (m.orders.getD i 0) 0 = x.fields[i].count := by
  have hi' : i < m.fieldnames.length := by rw [len_fields hi]; exact h
  have hj := ok.ordersLt i hi'
  have := array_at hi ok hv hj (f := x.fields[i]) (by rw [ok.idx_orders hi', List.getElem?_eq_getElem h])
  rw [List.getD_eq_getElem?_getD, this]
  rfl

theorem wellTyped (hf : Fits x vals) : WellTyped m vals := by
  have hv : vals.length = x.fields.length := hf.length_eq.symm
  refine ⟨by rw [hv, len_fields hi], ?_⟩
  intro i h
  have h' : i < x.fields.length := by rw [← len_fields hi]; exact h
  have := List.forall₂_iff_get.1 hf
  have h2 := this.2 i h' (by omega)
  rw [array_orders hi ok hv h', hi.fieldtypes]
  simpa [List.getD_eq_getElem?_getD, h', hv ▸ h'] using h2

theorem received_eq (hf : Fits x vals) : receivedFields m vals = (x.fields.zip vals).map fun fv => received fv.1.count fv.2 := by
  have hv : vals.length = x.fields.length := hf.length_eq.symm
  apply List.ext_getElem
  · simp [receivedFields, hv]
  · intro i h1 h2
    have h' : i < x.fields.length := by simp [receivedFields] at h1; omega
    simp only [receivedFields, List.getElem_mapIdx, List.getElem_map, List.getElem_zip, array_orders hi ok hv h']

end

theorem leBytes2 (c : BitVec 16) : leBytes 2 c.toNat = [c.setWidth 8, (c >>> 8).setWidth 8] := by
  have hc := c.isLt
  simp only [leBytes]
  congr 1
  · refine congrArg (fun b : Byte => [b]) (BitVec.eq_of_toNat_eq ?_)
    simp [BitVec.toNat_ofNat, Nat.shiftRight_eq_div_pow]

theorem extra_eq {m : MsgClass} {x : XmlMsg} (hi : Implements m x) : BitVec.ofNat 8 m.crcExtra = fingerprint x := by
  rw [hi.extra, BitVec.ofNat_toNat, BitVec.setWidth_eq]

theorem pack_frame {m : MsgClass} (hm : m ∈ mavlinkMap) {x : XmlMsg} (hi : Implements m x) {vals : List FieldVal} (hf : Fits x vals)
    {seq sys cmp : Nat} (h2 : seq ≤ 255) (h3 : sys ≤ 255) (h4 : cmp ≤ 255) :
    ∃ frame, packMsg m vals seq sys cmp = .ok frame ∧ IsFrame x vals seq sys cmp frame := by
  have ok := classOK hm
  have hv : vals.length = x.fields.length := hf.length_eq.symm
  have hw := wellTyped hi ok hf
  obtain ⟨p, fmt, _, _, _, _, _, hp⟩ := packMsg_ok hm hw (seq := seq) (sys := sys) (cmp := cmp) (by omega) (by omega) (by omega)
  obtain ⟨hdr, chunks, sum, hc, l1, l2, l3, hat⟩ := c09_wire_order m hm vals hw seq sys cmp h2 h3 h4
  have hpc : p = chunks.flatten := by
    rw [hp] at hc
    have := Except.ok.inj hc
    have h := List.append_inj' this (by rw [leBytes_length, l2])
    exact (List.append_inj h.1 (by rw [l1]; rfl)).2
  have hlen : (msgFields m).length = m.fieldnames.length := by simp [msgFields]
  refine ⟨_, hp, p, [BitVec.ofNat 8 p.length, BitVec.ofNat 8 seq, BitVec.ofNat 8 sys, BitVec.ofNat 8 cmp, BitVec.ofNat 8 x.id] ++ p,
    ⟨chunks, hpc, ?_⟩, rfl, ?_⟩
  · refine List.forall₂_iff_get.2 ⟨by rw [wire_length hi ok hv, l3, hlen], ?_⟩
    intro j hj hj'
    rw [l3] at hj
    obtain ⟨i, t, n, v, a1, a2, a3, a4, a5, a6⟩ := hat j hj
    rw [hlen] at hj
    obtain ⟨f, v', b1, b2, b3⟩ := wire_at hi ok hv hj
    have hname : (msgFields m)[j].1 = m.fieldnames.getD (m.orders.idxOf j) "" := by simp [msgFields_eq ok]
    rw [hname, List.getD_eq_getElem?_getD, List.getElem?_eq_getElem (ok.idx_lt hj)] at a1
    have hij := idx_of_name hi ok a1 (List.getElem?_eq_getElem (ok.idx_lt hj))
    subst hij
    rw [b2] at a5
    cases a5
    rw [array_at hi ok hv hj b1] at a4
    cases a4
    rw [hi.fieldtypes, List.getElem?_map, b1] at a2
    cases a2
    rw [List.getElem?_eq_getElem hj'] at b3
    have b3 := Option.some.inj b3
    simp only [List.get_eq_getElem, b3]
    rwa [getD_lt _ _ (by rw [l3, hlen]; exact hj)] at a6
  · rw [extra_eq hi, hi.id, leBytes2, x25_eq_bits]
    rfl

theorem scalar_unique {t : CType} {v : Val} {a b : List Byte} (ha : ScalarBytes t a v) (hb : ScalarBytes t b v) : a = b := by
  cases v with
  | int i =>
    obtain ⟨a1, a2⟩ := ha
    obtain ⟨b1, b2⟩ := hb
    exact leNat_inj (by omega) (by omega)
  | flt i =>
    obtain ⟨a1, a2⟩ := ha
    obtain ⟨b1, b2⟩ := hb
    exact leNat_inj (by omega) (by omega)
  | raw s => exact Eq.trans ha (Eq.symm hb)

theorem forall₂_unique {α β : Type} {R : α → β → Prop} (h : ∀ a a' b, R a b → R a' b → a = a') :
    ∀ {l l' : List α} {k : List β}, List.Forall₂ R l k → List.Forall₂ R l' k → l = l'
  | _, _, _, .nil, .nil => rfl
  | _, _, _, .cons a as, .cons b bs => by rw [h _ _ _ a b, forall₂_unique h as bs]

theorem field_unique {t : CType} {n : Nat} {v : FieldVal} {a b : List Byte} (ha : FieldBytes t n a v) (hb : FieldBytes t n b v) :
    a = b := by
  match v, ha, hb with
  | .num (.raw s), ha, hb => exact Eq.trans ha (Eq.symm hb)
  | .num (.int i), ha, hb => exact scalar_unique (v := .int i) ha hb
  | .num (.flt i), ha, hb => exact scalar_unique (t := t) (v := .flt i) ha hb
  | .arr vs, ⟨cs, h1, h2⟩, ⟨ds, h3, h4⟩ =>
    rw [h1, h3, forall₂_unique (R := ScalarBytes t) (fun _ _ _ => scalar_unique) h2 h4]

theorem frame_unique {x : XmlMsg} {vals : List FieldVal} {seq sys cmp : Nat} {a b : List Byte} (ha : IsFrame x vals seq sys cmp a)
    (hb : IsFrame x vals seq sys cmp b) : a = b := by
  obtain ⟨p, body, ⟨cs, h1, h2⟩, h3, h4⟩ := ha
  obtain ⟨q, body', ⟨ds, g1, g2⟩, g3, g4⟩ := hb
  have hcd : cs = ds := forall₂_unique (R := fun c (fv : XmlField × FieldVal) => FieldBytes fv.1.type fv.1.count c fv.2)
    (fun _ _ _ => field_unique) h2 g2
  have hpq : p = q := by rw [h1, g1, hcd]
  subst hpq
  subst g3
  subst h3
  exact h4.trans g4.symm

theorem forall₂_right {α β : Type} {R : α → β → Prop} : ∀ {l : List α} {k : List β}, List.Forall₂ R l k → ∀ b ∈ k, ∃ a ∈ l, R a b
  | _, _, .nil, _, h => by cases h
  | _, _, .cons (a := a) h hs, b, hb => by
    rcases List.mem_cons.1 hb with rfl | hb
    · exact ⟨a, List.mem_cons_self, h⟩
    · obtain ⟨a', ha', hr⟩ := forall₂_right hs b hb
      exact ⟨a', List.mem_cons_of_mem _ ha', hr⟩

/-- C106. The HC dialect has one class for each message of its definition file, in the same order and under the same number, with the
names, types and array lengths of the definition, the fields in the order of MAVLink, and the extra checksum byte computed from the
definition. -/
theorem c106_messages : List.Forall₂ Implements mavlinkMap HcXml.messages ∧ (HcXml.messages.map XmlMsg.id).Nodup :=
  ⟨all_of hc_table, by decide +kernel⟩

/-- C106. The same for the minimal dialect. -/
theorem c106_minimal_messages : List.Forall₂ Implements Minimal.mavlinkMap MinimalXml.messages ∧ (MinimalXml.messages.map XmlMsg.id).Nodup :=
  ⟨all_of minimal_table, by decide +kernel⟩

/-- C106. For every message of the definition file and all values that fit it, the class of that name and number packs the values to
the frame MAVLink prescribes, the only one there is. -/
theorem c106_pack (x : XmlMsg) (hx : x ∈ HcXml.messages) (vals : List FieldVal) (hf : Fits x vals)
    (seq sys cmp : Nat) (h2 : seq ≤ 255) (h3 : sys ≤ 255) (h4 : cmp ≤ 255) :
    ∃ m ∈ mavlinkMap, m.id = x.id ∧ m.name = x.name ∧ ∃ frame, packMsg m vals seq sys cmp = .ok frame ∧
      ∀ f, IsFrame x vals seq sys cmp f ↔ f = frame := by
  obtain ⟨m, hm, hi⟩ := forall₂_right c106_messages.1 x hx
  obtain ⟨frame, hp, hfr⟩ := pack_frame hm hi hf h2 h3 h4
  exact ⟨m, hm, hi.id, hi.name, frame, hp, fun f => ⟨fun h => frame_unique h hfr, fun h => h ▸ hfr⟩⟩

/-- C106. Whoever follows the definition file is understood: a frame MAVLink prescribes for a message of the file is decoded to the
class of that name and number, with the sender's numbers and the values (character arrays as text). -/
theorem c106_decode (x : XmlMsg) (hx : x ∈ HcXml.messages) (vals : List FieldVal) (hf : Fits x vals)
    (seq sys cmp : Nat) (h2 : seq ≤ 255) (h3 : sys ≤ 255) (h4 : cmp ≤ 255) (frame : List Byte) (h : IsFrame x vals seq sys cmp frame) :
    ∃ msg, decode frame = .ok msg ∧ msg.msgId = x.id ∧ msg.cls.name = x.name ∧ msg.cls.fieldnames = x.fields.map XmlField.name ∧
      msg.seq = seq ∧ msg.srcSystem = sys ∧ msg.srcComponent = cmp ∧
      msg.fields = (x.fields.zip vals).map fun fv => received fv.1.count fv.2 := by
  obtain ⟨m, hm, hi⟩ := forall₂_right c106_messages.1 x hx
  obtain ⟨frame', hp, hfr⟩ := pack_frame hm hi hf h2 h3 h4
  obtain ⟨f, msg, e1, e2, e3, e4, e5, e6, e7, e8⟩ := c10_round_trip m hm vals (wellTyped hi (classOK hm) hf) seq sys cmp h2 h3 h4
  rw [hp] at e1
  cases e1
  rw [frame_unique h hfr]
  refine ⟨msg, e2, e4.trans hi.id, ?_, ?_, e5, e6, e7, ?_⟩
  · rw [e3, hi.name]
  · rw [e3, hi.fieldnames]
  · rw [e8, received_eq hi (classOK hm) hf]

/-- C106. The same for the minimal dialect. -/
theorem c106_minimal_pack (x : XmlMsg) (hx : x ∈ MinimalXml.messages) (vals : List FieldVal) (hf : Fits x vals)
    (seq sys cmp : Nat) (h2 : seq ≤ 255) (h3 : sys ≤ 255) (h4 : cmp ≤ 255) :
    ∃ m ∈ Minimal.mavlinkMap, m.id = x.id ∧ m.name = x.name ∧ ∃ frame, packMsg m vals seq sys cmp = .ok frame ∧
      ∀ f, IsFrame x vals seq sys cmp f ↔ f = frame := by
  obtain ⟨m, hm, hi⟩ := forall₂_right c106_minimal_messages.1 x hx
  obtain ⟨frame, hp, hfr⟩ := pack_frame (minimal_sub m hm) hi hf h2 h3 h4
  exact ⟨m, hm, hi.id, hi.name, frame, hp, fun f => ⟨fun h => frame_unique h hfr, fun h => h ▸ hfr⟩⟩

/-- C106. The same for the minimal dialect. -/
theorem c106_minimal_decode (x : XmlMsg) (hx : x ∈ MinimalXml.messages) (vals : List FieldVal) (hf : Fits x vals)
    (seq sys cmp : Nat) (h2 : seq ≤ 255) (h3 : sys ≤ 255) (h4 : cmp ≤ 255) (frame : List Byte) (h : IsFrame x vals seq sys cmp frame) :
    ∃ msg, Minimal.decode frame = .ok msg ∧ msg.msgId = x.id ∧ msg.cls.name = x.name ∧
      msg.cls.fieldnames = x.fields.map XmlField.name ∧ msg.seq = seq ∧ msg.srcSystem = sys ∧ msg.srcComponent = cmp ∧
      msg.fields = (x.fields.zip vals).map fun fv => received fv.1.count fv.2 := by
  obtain ⟨m, hm, hi⟩ := forall₂_right c106_minimal_messages.1 x hx
  have hm' := minimal_sub m hm
  have hw := wellTyped hi (classOK hm') hf
  obtain ⟨frame', hp, hfr⟩ := pack_frame hm' hi hf h2 h3 h4
  obtain ⟨f, msg, e1, e2, e3, e4, e5, e6, e7, e8⟩ := c10_round_trip m hm' vals hw seq sys cmp h2 h3 h4
  obtain ⟨f', msg', g1, g2, g3, _⟩ := c87_round_trip m hm vals hw seq sys cmp h2 h3 h4
  rw [hp] at e1 g1
  cases e1
  cases g1
  rw [e2] at g3
  cases g3
  rw [frame_unique h hfr]
  refine ⟨msg, g2, e4.trans hi.id, ?_, ?_, e5, e6, e7, ?_⟩
  · rw [e3, hi.name]
  · rw [e3, hi.fieldnames]
  · rw [e8, received_eq hi (classOK hm') hf]

/-- C106. The definition file of the minimal dialect agrees with the other one: its messages are in it. -/
theorem c106_minimal_sub : ∀ x ∈ MinimalXml.messages, x ∈ HcXml.messages := by decide +kernel

/-- Values for a message of the file, and its frame. -/
example : HcXml.msg0 ∈ HcXml.messages ∧ Fits HcXml.msg0
    [.num (.int 2), .num (.int 3), .num (.int 81), .num (.int 4294967295), .num (.int 4), .num (.int 3)] := by
  refine ⟨by decide +kernel, ?_⟩
  unfold Fits HcXml.msg0
  repeat' constructor
  all_goals decide

example : HcXml.msg253 ∈ HcXml.messages ∧ Fits HcXml.msg253 [.num (.int 6), .num (.raw [72, 105])] := by
  refine ⟨by decide +kernel, ?_⟩
  unfold Fits HcXml.msg253
  repeat' constructor
  all_goals decide

/-! ### Enumerations -/

theorem lookup_iff {α β : Type} [BEq α] [LawfulBEq α] {a : α} {b : β} : ∀ {l : List (α × β)}, (l.map Prod.fst).Nodup →
    (l.lookup a = some b ↔ (a, b) ∈ l)
  | [], _ => by simp
  | (c, d) :: l, h => by
    rw [List.map_cons, List.nodup_cons] at h
    rw [List.lookup_cons, List.mem_cons]
    by_cases hc : a = c
    · subst hc
      simp only [beq_self_eq_true, Option.some.injEq, Prod.mk.injEq, true_and]
      constructor
      · exact fun h => .inl h.symm
      · rintro (h' | h')
        · exact h'.symm
        · exact absurd (List.mem_map_of_mem h') h.1
    · have hb : (a == c) = false := by simpa using hc
      simp only [hb, Prod.mk.injEq, hc, false_and, false_or]
      exact lookup_iff h.2

theorem lookup_reverse_iff {α β : Type} [BEq α] [LawfulBEq α] {a : α} {b : β} {l : List (α × β)} (h : (l.map Prod.fst).Nodup) :
    l.reverse.lookup a = some b ↔ (a, b) ∈ l := by
  rw [lookup_iff (by rw [List.map_reverse]; exact List.nodup_reverse.2 h), List.mem_reverse]

theorem find_name {l : List PyEnum} (h : (l.map PyEnum.name).Nodup) {e : PyEnum} (he : e ∈ l) :
    l.find? (fun p => p.name == e.name) = some e := by
  induction l with
  | nil => cases he
  | cons p l ih =>
    rw [List.map_cons, List.nodup_cons] at h
    rw [List.find?_cons]
    rcases List.mem_cons.1 he with rfl | he
    · simp
    · have hne : (p.name == e.name) = false := by
        simp only [beq_eq_false_iff_ne, ne_eq]
        exact fun heq => h.1 (heq ▸ List.mem_map_of_mem he)
      simp only [hne]
      exact ih h.2 he

theorem enums_of {py : List PyEnum} {xml : List XmlEnum} {cs : List (String × Nat)}
    (h1 : py = xml.map fun e => ⟨e.name, sortN (XmlValues e)⟩) (h2 : cs = py.flatMap fun e => e.entries.map fun p => (p.2, p.1))
    (h3 : (cs.map Prod.fst).Nodup) (h4 : ∀ e ∈ py, (e.entries.map Prod.fst).Nodup) (h5 : (py.map PyEnum.name).Nodup) :
    (∀ s, s ∈ py.map PyEnum.name ↔ ∃ e ∈ xml, e.name = s) ∧
    (∀ e ∈ xml, ∀ v n, enumEntry py e.name v = some n ↔ (v, n) ∈ XmlValues e) ∧
    (∀ n v, constantOf cs n = some v ↔ ∃ e ∈ xml, (v, n) ∈ XmlValues e) := by
  refine ⟨?_, ?_, ?_⟩
  · intro s
    rw [h1, List.map_map, List.mem_map]
    rfl
  · intro e he v n
    have hmem : (⟨e.name, sortN (XmlValues e)⟩ : PyEnum) ∈ py := by rw [h1]; exact List.mem_map.2 ⟨e, he, rfl⟩
    unfold enumEntry
    rw [find_name h5 hmem, Option.bind_some, lookup_reverse_iff (h4 _ hmem), mem_sortN]
  · intro n v
    unfold constantOf
    rw [lookup_reverse_iff h3, h2, List.mem_flatMap, h1]
    constructor
    · rintro ⟨p, hp, hn⟩
      obtain ⟨e, he, rfl⟩ := List.mem_map.1 hp
      obtain ⟨q, hq, hqe⟩ := List.mem_map.1 hn
      obtain ⟨v', n'⟩ := q
      cases hqe
      exact ⟨e, he, mem_sortN.1 hq⟩
    · rintro ⟨e, he, hv⟩
      exact ⟨_, List.mem_map.2 ⟨e, he, rfl⟩, List.mem_map.2 ⟨(v, n), mem_sortN.2 hv, rfl⟩⟩

/-- C106. The enumerations of the HC dialect are those of its definition file: the same names; for each, a number stands for an entry
exactly if the file gives the entry that number; and the module's constants are exactly the entries with their numbers. -/
theorem c106_enums : (∀ s, s ∈ HcXml.pyEnums.map PyEnum.name ↔ ∃ e ∈ HcXml.enums, e.name = s) ∧
    (∀ e ∈ HcXml.enums, ∀ v n, enumEntry HcXml.pyEnums e.name v = some n ↔ (v, n) ∈ XmlValues e) ∧
    (∀ n v, constantOf HcXml.constants n = some v ↔ ∃ e ∈ HcXml.enums, (v, n) ∈ XmlValues e) :=
  enums_of hc_enums hc_consts hc_nodup hc_values hc_names

example : enumEntry HcXml.pyEnums "MAV_MODE_FLAG" 128 = some "MAV_MODE_FLAG_SAFETY_ARMED" ∧
    constantOf HcXml.constants "MAV_MODE_FLAG_SAFETY_ARMED" = some 128 ∧ enumEntry HcXml.pyEnums "MAV_MODE_FLAG" 3 = none := by
  decide +kernel

/-- C106. The same for the minimal dialect. -/
theorem c106_minimal_enums : (∀ s, s ∈ MinimalXml.pyEnums.map PyEnum.name ↔ ∃ e ∈ MinimalXml.enums, e.name = s) ∧
    (∀ e ∈ MinimalXml.enums, ∀ v n, enumEntry MinimalXml.pyEnums e.name v = some n ↔ (v, n) ∈ XmlValues e) ∧
    (∀ n v, constantOf MinimalXml.constants n = some v ↔ ∃ e ∈ MinimalXml.enums, (v, n) ∈ XmlValues e) :=
  enums_of minimal_enums minimal_consts minimal_nodup minimal_values minimal_names

end NR.C106
