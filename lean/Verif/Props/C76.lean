import Verif.Lemmas.Utf8
import Verif.Lemmas.Float32
import Verif.Lemmas.Segment
import Verif.Props.C10_C13
/-
C76: comparison of messages and their dictionaries.
-/
namespace NR
open Spec Dialect

/-! ### Helper lemmas -/

theorem table_names_nodup : (mavlinkMap.map MsgClass.name).Nodup := by decide +kernel

theorem no_packettype : mavlinkMap.all (fun m => decide ("mavpackettype" ∉ m.fieldnames)) = true := by decide +kernel

theorem inj_of_nodup_map {α β : Type _} (f : α → β) {l : List α} (hn : (l.map f).Nodup) {x y : α} (hx : x ∈ l) (hy : y ∈ l)
    (h : f x = f y) : x = y := by
  induction l with
  | nil => cases hx
  | cons a l ih =>
    simp only [List.map_cons, List.nodup_cons, List.mem_map, not_exists, not_and] at hn
    rcases List.mem_cons.1 hx with h1 | h1 <;> rcases List.mem_cons.1 hy with h2 | h2
    · rw [h1, h2]
    · exact absurd (h1 ▸ h.symm) (hn.1 _ h2)
    · exact absurd (h2 ▸ h) (hn.1 _ h1)
    · exact ih hn.2 h1 h2

theorem dropWhile_zero_nil (l : List Byte) : l.dropWhile (· = 0) = [] ↔ ∀ c ∈ l, c = 0 := by
  induction l with
  | nil => simp
  | cons a l ih =>
    rw [List.dropWhile_cons]
    by_cases h : a = 0
    · subst h
      simpa using ih
    · rw [if_neg (by simpa using h)]
      exact ⟨(fun he => by cases he), fun hh => absurd (hh a (by simp)) h⟩

theorem cls_of_name {m m' : MsgClass} (h : m ∈ mavlinkMap) (h' : m' ∈ mavlinkMap) (hn : m.name = m'.name) : m = m' :=
  inj_of_nodup_map _ table_names_nodup h h' hn

theorem rstripNul_cons_ne (b : Byte) (r : List Byte) (h : ¬ (b = 0 ∧ ∀ c ∈ r, c = 0)) :
    rstripNul (b :: r) = b :: rstripNul r := by
  unfold rstripNul
  rw [List.reverse_cons, List.dropWhile_append]
  split
  · rename_i he
    have hall : ∀ c ∈ r, c = 0 := by
      intro c hc
      have : r.reverse.dropWhile (· = 0) = [] := by simpa using he
      exact (dropWhile_zero_nil _).1 this c (by simpa using hc)
    have hb : b ≠ 0 := fun hb => h ⟨hb, hall⟩
    have he' : r.reverse.dropWhile (· = 0) = [] := by simpa using he
    rw [he', List.dropWhile_cons]
    simpa using hb
  · simp

theorem rstripNul_eq (s : List Byte) : rstripNul s = stripNuls s := by
  induction s with
  | nil => rfl
  | cons b r ih =>
    unfold stripNuls
    split
    · rename_i h
      have hall : ∀ c ∈ (b :: r).reverse, c = 0 := by
        intro c hc
        rcases List.mem_cons.1 (List.mem_reverse.1 hc) with rfl | hc
        · exact h.1
        · exact h.2 c hc
      unfold rstripNul
      have : (b :: r).reverse.dropWhile (· = 0) = [] := (dropWhile_zero_nil _).2 hall
      rw [this]; rfl
    · rename_i h
      rw [rstripNul_cons_ne b r h, ih]

theorem attrShown_eq (v : FieldVal) : attrShown v = shownAttr v := by
  unfold shownAttr shownText
  split
  · rename_i t h
    match v with
    | .text s => cases h; rfl
    | .num (.raw bs) => cases h; simp only [attrShown, toStringPy, rstripNul_eq]
    | .num (.int _) => cases h
    | .num (.flt _) => cases h
    | .arr _ => cases h
  · rename_i h
    match v with
    | .text s => cases h
    | .num (.raw bs) => cases h
    | .num (.int _) => rfl
    | .num (.flt _) => rfl
    | .arr _ => rfl

theorem valEq_iff (a b : Val) : valEq a b = true ↔ SameNumber a b := by
  match a, b with
  | .flt a, .flt b => exact valEq_flt a b
  | .int a, .int b => simp [valEq, SameNumber]
  | .raw a, .raw b => simp [valEq, SameNumber]
  | .int _, .flt _ => simp [valEq, SameNumber]
  | .int _, .raw _ => simp [valEq, SameNumber]
  | .flt _, .int _ => simp [valEq, SameNumber]
  | .flt _, .raw _ => simp [valEq, SameNumber]
  | .raw _, .int _ => simp [valEq, SameNumber]
  | .raw _, .flt _ => simp [valEq, SameNumber]

theorem listEq_iff (as bs : List Val) : listEq as bs = true ↔ List.Forall₂ SameNumber as bs := by
  induction as generalizing bs with
  | nil => cases bs <;> simp [listEq]
  | cons a as ih => cases bs with
    | nil => simp [listEq]
    | cons b bs => simp [listEq, valEq_iff, ih]

theorem attrEq_iff (x y : FieldVal) : attrEq (attrShown x) (attrShown y) = true ↔ SameAttr x y := by
  rw [attrShown_eq, attrShown_eq]
  match x, y with
  | .text _, .text _ => simp [shownAttr, shownText, SameAttr, attrEq]
  | .text _, .num (.raw _) => simp [shownAttr, shownText, SameAttr, attrEq]
  | .text _, .num (.int _) => simp [shownAttr, shownText, SameAttr, attrEq]
  | .text _, .num (.flt _) => simp [shownAttr, shownText, SameAttr, attrEq]
  | .text _, .arr _ => simp [shownAttr, shownText, SameAttr, attrEq]
  | .arr _, .text _ => simp [shownAttr, shownText, SameAttr, attrEq]
  | .arr _, .num (.raw _) => simp [shownAttr, shownText, SameAttr, attrEq]
  | .arr _, .num (.int _) => simp [shownAttr, shownText, SameAttr, attrEq]
  | .arr _, .num (.flt _) => simp [shownAttr, shownText, SameAttr, attrEq]
  | .arr _, .arr _ => simp [shownAttr, shownText, SameAttr, attrEq, listEq_iff]
  | .num (.raw _), .text _ => simp [shownAttr, shownText, SameAttr, attrEq]
  | .num (.raw _), .arr _ => simp [shownAttr, shownText, SameAttr, attrEq]
  | .num (.raw _), .num (.raw _) => simp [shownAttr, shownText, SameAttr, attrEq]
  | .num (.raw _), .num (.int _) => simp [shownAttr, shownText, SameAttr, attrEq]
  | .num (.raw _), .num (.flt _) => simp [shownAttr, shownText, SameAttr, attrEq]
  | .num (.int _), .text _ => simp [shownAttr, shownText, SameAttr, attrEq]
  | .num (.int _), .arr _ => simp [shownAttr, shownText, SameAttr, attrEq]
  | .num (.int _), .num (.raw _) => simp [shownAttr, shownText, SameAttr, attrEq]
  | .num (.int _), .num (.int _) => simp [shownAttr, shownText, SameAttr, attrEq, valEq_iff]
  | .num (.int _), .num (.flt _) => simp [shownAttr, shownText, SameAttr, attrEq, valEq_iff]
  | .num (.flt _), .text _ => simp [shownAttr, shownText, SameAttr, attrEq]
  | .num (.flt _), .arr _ => simp [shownAttr, shownText, SameAttr, attrEq]
  | .num (.flt _), .num (.raw _) => simp [shownAttr, shownText, SameAttr, attrEq]
  | .num (.flt _), .num (.int _) => simp [shownAttr, shownText, SameAttr, attrEq, valEq_iff]
  | .num (.flt _), .num (.flt _) => simp [shownAttr, shownText, SameAttr, attrEq, valEq_iff]

theorem attrs_found {m : MsgObj} (hm : Complete m) :
    List.Forall₂ (fun n x => m.attr n = some x) m.cls.fieldnames m.fields := by
  rw [List.forall₂_iff_get]
  refine ⟨hm.2.symm, ?_⟩
  intro i h1 h2
  have : Inhabited FieldVal := ⟨.text []⟩
  have := lookup_zip (ks := m.cls.fieldnames) (vs := m.fields) (classOK hm.1).namesNodup hm.2 h1 (d := .text [])
  rw [getD_lt _ _ h1, getD_lt _ _ h2] at this
  exact this

theorem attrsEq_spec {a b : MsgObj} {ns : List String} {xs ys : List FieldVal}
    (hx : List.Forall₂ (fun n x => a.attr n = some x) ns xs) (hy : List.Forall₂ (fun n y => b.attr n = some y) ns ys) :
    ∃ r, attrsEq a b ns = .ok r ∧ (r = true ↔ List.Forall₂ SameAttr xs ys) := by
  induction hx generalizing ys with
  | nil => cases hy; exact ⟨true, rfl, by simp⟩
  | @cons n x ns xs h hs ih =>
    cases hy with
    | @cons _ y _ ys h' hs' =>
      obtain ⟨r, hr, hi⟩ := ih hs'
      simp only [attrsEq, h, h', List.forall₂_cons]
      by_cases he : attrEq (attrShown x) (attrShown y) = true
      · rw [if_pos he]
        exact ⟨r, hr, by rw [hi, ← attrEq_iff]; simp [he]⟩
      · rw [if_neg he]
        exact ⟨false, rfl, by rw [← attrEq_iff]; simp [he]⟩

/-! ### C76 -/

/-- C76: comparing two messages never raises, and they are equal exactly when class, sequence number, system, component
and the values of all fields agree. -/
theorem c76_eq_iff (a b : MsgObj) (ha : Complete a) (hb : Complete b) :
    ∃ r, msgEq a (some b) = .ok r ∧ (r = true ↔ SameMsg a b) := by
  unfold msgEq SameMsg
  simp only
  by_cases h1 : a.cls.name = b.cls.name
  · have hc := cls_of_name ha.1 hb.1 h1
    rw [if_neg (by simpa using h1)]
    by_cases h2 : a.seq = b.seq
    · rw [if_neg (by simpa using h2)]
      by_cases h3 : a.srcSystem = b.srcSystem
      · rw [if_neg (by simpa using h3)]
        by_cases h4 : a.srcComponent = b.srcComponent
        · rw [if_neg (by simpa using h4)]
          obtain ⟨r, hr, hi⟩ := attrsEq_spec (attrs_found ha) (hc ▸ attrs_found hb)
          exact ⟨r, hr, by rw [hi]; simp [hc, h2, h3, h4]⟩
        · rw [if_pos h4]; exact ⟨false, rfl, by simp [h4]⟩
      · rw [if_pos h3]; exact ⟨false, rfl, by simp [h3]⟩
    · rw [if_pos h2]; exact ⟨false, rfl, by simp [h2]⟩
  · rw [if_pos h1]
    exact ⟨false, rfl, by simp only [Bool.false_eq_true, false_iff]; rintro ⟨hc, _⟩; exact h1 (by rw [hc])⟩

/-- C76: no message equals `None`. -/
theorem c76_none (a : MsgObj) : msgEq a none = .ok false := rfl

/-- C76: `!=` is the negation of `==`. -/
theorem c76_ne (a b : MsgObj) (ha : Complete a) (hb : Complete b) :
    ∃ r, msgNe a (some b) = .ok r ∧ (r = true ↔ ¬ SameMsg a b) := by
  obtain ⟨r, hr, hi⟩ := c76_eq_iff a b ha hb
  refine ⟨!r, by simp [msgNe, hr, Except.map], ?_⟩
  rw [← hi]; cases r <;> simp

theorem same_of_eq {a b : MsgObj} (ha : Complete a) (hb : Complete b) : msgEq a (some b) = .ok true ↔ SameMsg a b := by
  obtain ⟨r, hr, hi⟩ := c76_eq_iff a b ha hb
  rw [hr, ← hi]; simp

theorem sameNumber_symm {a b : Val} (h : SameNumber a b) : SameNumber b a := by
  match a, b, h with
  | .int _, .int _, h => exact Eq.symm h
  | .flt _, .flt _, h => exact ⟨h.2 ▸ h.1, h.2.symm⟩
  | .raw _, .raw _, h => exact Eq.symm h

theorem sameNumber_trans {a b c : Val} (h : SameNumber a b) (h' : SameNumber b c) : SameNumber a c := by
  match a, b, c, h, h' with
  | .int _, .int _, .int _, h, h' => exact Eq.trans h h'
  | .flt _, .flt _, .flt _, h, h' => exact ⟨h.1, h.2.trans h'.2⟩
  | .raw _, .raw _, .raw _, h, h' => exact Eq.trans h h'

theorem sameNumber_refl (a : Val) : SameNumber a a ↔ NotNaN a := by
  cases a <;> simp [SameNumber, NotNaN]

theorem sameAttr_symm {x y : FieldVal} (h : SameAttr x y) : SameAttr y x := by
  unfold SameAttr at h ⊢
  cases hx : shownText x with
  | some s => cases hy : shownText y with
    | some t => rw [hx, hy] at h; exact Eq.symm h
    | none => rw [hx, hy] at h; exact h
  | none => cases hy : shownText y with
    | some t => rw [hx, hy] at h; exact h
    | none =>
      rw [hx, hy] at h
      match x, y, h with
      | .num a, .num b, h => exact sameNumber_symm h
      | .arr as, .arr bs, h => exact List.Forall₂.flip (List.Forall₂.imp (fun _ _ h => sameNumber_symm h) h)

theorem forall₂_trans' {α : Type _} {R : α → α → Prop} (ht : ∀ a b c, R a b → R b c → R a c) :
    ∀ {as bs cs : List α}, List.Forall₂ R as bs → List.Forall₂ R bs cs → List.Forall₂ R as cs
  | _, _, _, .nil, .nil => .nil
  | _, _, _, .cons h hs, .cons h' hs' => .cons (ht _ _ _ h h') (forall₂_trans' ht hs hs')

theorem sameAttr_trans {x y z : FieldVal} (h : SameAttr x y) (h' : SameAttr y z) : SameAttr x z := by
  unfold SameAttr at h h' ⊢
  cases hx : shownText x with
  | some s => cases hy : shownText y with
    | some t => cases hz : shownText z with
      | some u => rw [hx, hy] at h; rw [hy, hz] at h'; exact Eq.trans h h'
      | none => rw [hy, hz] at h'; exact h'.elim
    | none => rw [hx, hy] at h; exact h.elim
  | none => cases hy : shownText y with
    | some t => rw [hx, hy] at h; exact h.elim
    | none => cases hz : shownText z with
      | some u => rw [hy, hz] at h'; exact h'.elim
      | none =>
        rw [hx, hy] at h; rw [hy, hz] at h'
        match x, y, z, h, h' with
        | .num a, .num b, .num c, h, h' => exact sameNumber_trans h h'
        | .arr as, .arr bs, .arr cs, h, h' => exact forall₂_trans' (R := SameNumber) (fun _ _ _ h h' => sameNumber_trans h h') h h'

theorem forall₂_self {α : Type _} {R : α → α → Prop} (l : List α) : List.Forall₂ R l l ↔ ∀ x ∈ l, R x x := by
  induction l with
  | nil => simp
  | cons a l ih => simp

theorem sameAttr_refl (x : FieldVal) : SameAttr x x ↔ NaNFree x := by
  match x with
  | .text _ => simp [SameAttr, shownText, NaNFree]
  | .num (.raw _) => simp [SameAttr, shownText, NaNFree, NotNaN]
  | .num (.int _) => simp [SameAttr, shownText, NaNFree, NotNaN, SameNumber]
  | .num (.flt _) => simp [SameAttr, shownText, NaNFree, NotNaN, SameNumber]
  | .arr vs => simp [SameAttr, shownText, NaNFree, sameNumber_refl]

/-- C76: `==` is symmetric. -/
theorem c76_symm (a b : MsgObj) (ha : Complete a) (hb : Complete b) (h : msgEq a (some b) = .ok true) :
    msgEq b (some a) = .ok true := by
  rw [same_of_eq ha hb] at h
  rw [same_of_eq hb ha]
  obtain ⟨h1, h2, h3, h4, h5⟩ := h
  exact ⟨h1.symm, h2.symm, h3.symm, h4.symm, List.Forall₂.flip (List.Forall₂.imp (fun _ _ h => sameAttr_symm h) h5)⟩

/-- C76: `==` is transitive. -/
theorem c76_trans (a b c : MsgObj) (ha : Complete a) (hb : Complete b) (hc : Complete c)
    (h : msgEq a (some b) = .ok true) (h' : msgEq b (some c) = .ok true) : msgEq a (some c) = .ok true := by
  rw [same_of_eq ha hb] at h
  rw [same_of_eq hb hc] at h'
  rw [same_of_eq ha hc]
  obtain ⟨h1, h2, h3, h4, h5⟩ := h
  obtain ⟨g1, g2, g3, g4, g5⟩ := h'
  exact ⟨h1.trans g1, h2.trans g2, h3.trans g3, h4.trans g4, forall₂_trans' (R := SameAttr) (fun _ _ _ h h' => sameAttr_trans h h') h5 g5⟩

/-- C76: a message equals a copy of itself exactly when none of its numbers is a NaN. -/
theorem c76_refl (a : MsgObj) (ha : Complete a) :
    msgEq a (some a) = .ok true ↔ ∀ x ∈ a.fields, NaNFree x := by
  rw [same_of_eq ha ha]
  simp [SameMsg, sameAttr_refl]

/-! ### The wire -/

theorem takeWhile_nul {t : List Byte} (h : (0 : Byte) ∉ t) (k : Nat) :
    (t ++ List.replicate k 0).takeWhile (· ≠ 0) = t := by
  induction t with
  | nil => cases k <;> simp [List.replicate_succ]
  | cons b t ih =>
    have hb : b ≠ 0 := fun e => h (by simp [e])
    rw [List.cons_append, List.takeWhile_cons]
    simp only [hb, ne_eq, not_false_eq_true, decide_true, if_true]
    rw [ih (fun hm => h (List.mem_cons_of_mem _ hm))]

theorem stripNuls_pad {t : List Byte} (h : (0 : Byte) ∉ t) (k : Nat) : stripNuls (t ++ List.replicate k 0) = t := by
  induction t with
  | nil =>
    cases k with
    | zero => rfl
    | succ k =>
      rw [List.nil_append, List.replicate_succ, stripNuls, if_pos ⟨rfl, fun c hc => (List.mem_replicate.1 hc).2⟩]
  | cons b t ih =>
    have hb : b ≠ 0 := fun e => h (by simp [e])
    rw [List.cons_append, stripNuls, if_neg (fun hh => hb hh.1), ih (fun hm => h (List.mem_cons_of_mem _ hm))]

theorem received_same {t : CType} {n : Nat} {v : FieldVal} (hf : FitsField t n v) (hn : NaNFree v) (hp : PlainText n v) :
    SameAttr v (received n v) := by
  match v, hf, hn, hp with
  | .num (.int _), _, hn, _ => exact (sameAttr_refl _).2 hn
  | .num (.flt _), _, hn, _ => exact (sameAttr_refl _).2 hn
  | .arr _, _, hn, _ => exact (sameAttr_refl _).2 hn
  | .num (.raw bs), hf, _, ⟨hl, s, k, hbs, h0⟩ =>
    have hpad : (bs ++ List.replicate n 0).take (if n = 0 then 1 else n) = bs ++ List.replicate (n - bs.length) 0 := by
      by_cases h : n = 0
      · have := hf.2 h; omega
      · rw [if_neg h, List.take_append, List.take_of_length_le hl, List.take_replicate, Nat.min_eq_left (by omega)]
    simp only [received, SameAttr, shownText, hpad, utf8_pad]
    by_cases hu : utf8Valid bs = true
    · simp only [hu, if_true]
      rw [hbs, stripNuls_pad h0, List.append_assoc, List.replicate_append_replicate, takeWhile_nul h0]
    · simp only [hu]
      rfl

/-- C76: a packed and decoded message equals the original, if no number is a NaN and character fields fit and contain NULs
only at their end. -/
theorem c76_round_trip (m : MsgClass) (hm : m ∈ mavlinkMap) (fields : List FieldVal) (hw : WellTyped m fields)
    (hnan : ∀ x ∈ fields, NaNFree x)
    (htext : ∀ i < fields.length, PlainText (m.arrayLengths.getD (m.orders.getD i 0) 0) (fields.getD i (.text [])))
    (seq sys cmp : Nat) (h2 : seq ≤ 255) (h3 : sys ≤ 255) (h4 : cmp ≤ 255) :
    ∃ frame msg, packMsg m fields seq sys cmp = .ok frame ∧ decode frame = .ok msg ∧
      msgEq ⟨m, seq, sys, cmp, fields⟩ (some msg.obj) = .ok true := by
  obtain ⟨frame, msg, hp, hd, e1, _, e2, e3, e4, e5⟩ := c10_round_trip m hm fields hw seq sys cmp h2 h3 h4
  refine ⟨frame, msg, hp, hd, ?_⟩
  have hlen : (receivedFields m fields).length = fields.length := by simp [receivedFields]
  rw [same_of_eq ⟨hm, hw.1⟩ (by refine ⟨?_, ?_⟩ <;> simp only [MavMsg.obj, e1, e5, hlen]; exact hm; exact hw.1)]
  refine ⟨e1.symm, e2.symm, e3.symm, e4.symm, ?_⟩
  simp only [MavMsg.obj, e5]
  rw [List.forall₂_iff_get]
  refine ⟨hlen.symm, ?_⟩
  intro i h1 h2'
  simp only [List.get_eq_getElem, receivedFields, List.getElem_mapIdx]
  have hf := hw.2 i (hw.1 ▸ h1)
  have ht := htext i h1
  rw [getD_lt _ _ h1] at hf ht
  exact received_same hf (hnan _ (List.getElem_mem h1)) ht

theorem sameNumber_ints {a b : Val} (h : SameNumber a b) (ha : ∀ f, a ≠ .flt f) : a = b := by
  match a, b, h with
  | .int _, .int _, h => exact congrArg _ h
  | .flt f, .flt _, _ => exact absurd rfl (ha f)
  | .raw _, .raw _, h => exact congrArg _ h

/-- C76: for classes with integer fields only, messages are equal exactly when their packed frames are. -/
theorem c76_frames (m : MsgClass) (hm : m ∈ mavlinkMap) (hc : CType.char ∉ m.fieldtypes) (hf : CType.f32 ∉ m.fieldtypes)
    (xs ys : List FieldVal) (hx : WellTyped m xs) (hy : WellTyped m ys) (seq sys cmp seq' sys' cmp' : Nat)
    (h2 : seq ≤ 255) (h3 : sys ≤ 255) (h4 : cmp ≤ 255) (h2' : seq' ≤ 255) (h3' : sys' ≤ 255) (h4' : cmp' ≤ 255) :
    msgEq ⟨m, seq, sys, cmp, xs⟩ (some ⟨m, seq', sys', cmp', ys⟩) = .ok true ↔
      packMsg m xs seq sys cmp = packMsg m ys seq' sys' cmp' := by
  have hint : ∀ (zs : List FieldVal), WellTyped m zs → ∀ z ∈ zs, (∃ a, z = .num (.int a)) ∨
      ∃ as, z = .arr as ∧ ∀ v ∈ as, ∃ a, v = .int a := by
    intro zs hz z hmem
    obtain ⟨i, hi, rfl⟩ := List.getElem_of_mem hmem
    have hi' : i < m.fieldnames.length := hz.1 ▸ hi
    have hit : i < m.fieldtypes.length := by rw [(classOK hm).lenTypes]; exact hi'
    have h := hz.2 i hi'
    rw [getD_lt _ _ hi, getD_lt _ _ hit] at h
    have hty := List.getElem_mem hit
    revert h hty
    generalize zs[i] = fv
    generalize m.fieldtypes[i] = t
    intro h hty
    have hsc : ∀ v, FitsScalar t v → ∃ a, v = .int a := by
      intro v hv
      match t, v, hv with
      | .f32, .flt _, _ => exact absurd hty hf
      | .char, .raw _, _ => exact absurd hty hc
      | .u8, .int a, _ => exact ⟨a, rfl⟩
      | .u16, .int a, _ => exact ⟨a, rfl⟩
      | .u32, .int a, _ => exact ⟨a, rfl⟩
      | .u64, .int a, _ => exact ⟨a, rfl⟩
      | .i8, .int a, _ => exact ⟨a, rfl⟩
      | .i16, .int a, _ => exact ⟨a, rfl⟩
      | .i32, .int a, _ => exact ⟨a, rfl⟩
      | .i64, .int a, _ => exact ⟨a, rfl⟩
    match fv, h with
    | .num (.int a), _ => exact Or.inl ⟨a, rfl⟩
    | .num (.flt b), h => obtain ⟨a, ha⟩ := hsc _ h.2.2; cases ha
    | .num (.raw b), h => exact absurd (h.1 ▸ hty) hc
    | .arr vs, h => exact Or.inr ⟨vs, rfl, fun v hv => hsc v (h.2.2.2 v hv)⟩
  have hsame : List.Forall₂ SameAttr xs ys → xs = ys := by
    intro h
    rw [List.forall₂_iff_get] at h
    refine List.ext_getElem h.1 ?_
    intro i g1 g2
    have := h.2 i g1 g2
    simp only [List.get_eq_getElem] at this
    rcases hint xs hx _ (List.getElem_mem g1) with ⟨a, ha⟩ | ⟨as, ha, hai⟩ <;>
      rcases hint ys hy _ (List.getElem_mem g2) with ⟨b, hb⟩ | ⟨bs, hb, hbi⟩ <;> rw [ha, hb] at this ⊢
    · exact congrArg _ (congrArg _ this)
    · exact this.elim
    · exact this.elim
    · have hl : List.Forall₂ SameNumber as bs := this
      congr 1
      rw [List.forall₂_iff_get] at hl
      refine List.ext_getElem hl.1 ?_
      intro j k1 k2
      have := hl.2 j k1 k2
      simp only [List.get_eq_getElem] at this
      apply sameNumber_ints this
      intro f hf
      obtain ⟨a, ha⟩ := hai _ (List.getElem_mem k1)
      rw [ha] at hf; cases hf
  have hrefl : List.Forall₂ SameAttr xs xs := by
    rw [forall₂_self]
    intro x hmem
    rw [sameAttr_refl]
    rcases hint xs hx x hmem with ⟨a, rfl⟩ | ⟨as, rfl, hi⟩
    · trivial
    · intro v hv
      obtain ⟨a, rfl⟩ := hi v hv
      trivial
  rw [same_of_eq ⟨hm, hx.1⟩ ⟨hm, hy.1⟩]
  constructor
  · rintro ⟨_, e1, e2, e3, e4⟩
    simp only at e1 e2 e3 e4
    rw [e1, e2, e3, hsame e4]
  · intro he
    obtain ⟨f, m1, p1, d1, _, _, s1, s2, s3, _⟩ := c10_round_trip m hm xs hx seq sys cmp h2 h3 h4
    obtain ⟨g, m2, p2, d2, _, _, t1, t2, t3, _⟩ := c10_round_trip m hm ys hy seq' sys' cmp' h2' h3' h4'
    obtain ⟨f', m1', p1', d1', f1⟩ := c10_round_trip_exact m hm hc xs hx seq sys cmp h2 h3 h4
    obtain ⟨g', m2', p2', d2', f2⟩ := c10_round_trip_exact m hm hc ys hy seq' sys' cmp' h2' h3' h4'
    rw [p1] at p1'; cases p1'
    rw [p2] at p2'; cases p2'
    rw [d1] at d1'; cases d1'
    rw [d2] at d2'; cases d2'
    rw [p1, p2] at he; cases he
    rw [d1] at d2; cases d2
    rw [f1] at f2; cases f2
    exact ⟨rfl, s1.symm.trans t1, s2.symm.trans t2, s3.symm.trans t3, hrefl⟩

/-! ### `to_dict` -/

theorem toDict_loop {m : MsgObj} {ns : List String} {xs : List FieldVal}
    (hx : List.Forall₂ (fun n x => m.attr n = some x) ns xs) (hn : ns.Nodup) (d : List (String × DictVal))
    (hd : ∀ r ∈ d, r.1 ∉ ns) :
    ns.foldlM (toDictStep m) d = .ok (d ++ ns.zip (xs.map fun x => .attr (shownAttr x))) := by
  induction hx generalizing d with
  | nil => simp; rfl
  | @cons n x ns xs h hs ih =>
    simp only [List.nodup_cons] at hn
    simp only [List.foldlM_cons, toDictStep, h, bind, Except.bind]
    rw [dictSet_fresh d n _ (fun r hr he => hd r hr (by simp [he])), ih hn.2, attrShown_eq]
    · simp
    · intro r hr
      rcases List.mem_append.1 hr with hr | hr
      · exact fun hm => hd r hr (List.mem_cons_of_mem _ hm)
      · rw [List.mem_singleton.1 hr]; exact hn.1

/-- C76: the dictionary of a message has the key `mavpackettype` with the class's name, then every field's name once, in
constructor order, with the value shown. -/
theorem c76_to_dict (m : MsgObj) (hm : Complete m) :
    toDict m = .ok (("mavpackettype", .str m.cls.name) ::
      m.cls.fieldnames.zip (m.fields.map fun x => .attr (shownAttr x))) ∧
    ("mavpackettype" :: m.cls.fieldnames).Nodup := by
  have h0 : "mavpackettype" ∉ m.cls.fieldnames := by
    have := List.all_eq_true.1 no_packettype m.cls hm.1
    simpa using this
  refine ⟨?_, List.nodup_cons.2 ⟨h0, (classOK hm.1).namesNodup⟩⟩
  unfold toDict
  rw [toDict_loop (attrs_found hm) (classOK hm.1).namesNodup _ (by simpa using h0)]
  rfl

/-! ### Concrete messages -/

/-- A STATUSTEXT (id 253) with text `Hi` and a trailing NUL meets the hypotheses of `c76_round_trip`. -/
example : WellTyped msg253 [.num (.int 6), .num (.raw [72, 105, 0])] ∧ msg253 ∈ mavlinkMap ∧
    PlainText 50 (.num (.raw [72, 105, 0])) :=
  ⟨by decide +kernel, by decide +kernel, by decide, [72, 105], 1, rfl, by decide⟩

/-- An ATTITUDE message (id 30) with roll given by a pattern. -/
def attitude (roll : BitVec 32) : MsgObj :=
  ⟨msg30, 1, 2, 3, [.num (.int 5), .num (.flt roll), .num (.flt 0), .num (.flt 0), .num (.flt 0), .num (.flt 0),
    .num (.flt 0)]⟩

theorem attitude_complete (roll : BitVec 32) : Complete (attitude roll) :=
  ⟨show msg30 ∈ mavlinkMap by decide +kernel, rfl⟩

/-- C76: a message with a NaN is not even equal to itself, although both have the same frame. -/
theorem c76_self_false : ¬ ∀ a : MsgObj, Complete a → msgEq a (some a) = .ok true := by
  intro h
  have := (c76_refl _ (attitude_complete 0x7FC00000)).1 (h _ (attitude_complete 0x7FC00000))
    (.num (.flt 0x7FC00000)) (by simp [attitude])
  exact this (by decide)

/-- C76: with float fields, equal messages can have different frames: the two zeros are equal. -/
theorem c76_frames_false : ¬ ∀ a b : MsgObj, Complete a → Complete b → msgEq a (some b) = .ok true →
    packMsg a.cls a.fields a.seq a.srcSystem a.srcComponent = packMsg b.cls b.fields b.seq b.srcSystem b.srcComponent := by
  intro h
  have := h (attitude 0) (attitude 0x80000000) (attitude_complete _) (attitude_complete _) (by decide +kernel)
  revert this
  decide +kernel

/-- C76: with a character field holding a NUL in the middle, the decoded message differs from the original. -/
theorem c76_text_false : ¬ ∀ (m : MsgClass) (fields : List FieldVal) (frame : List Byte) (msg : MavMsg),
    m ∈ mavlinkMap → WellTyped m fields → (∀ x ∈ fields, NaNFree x) → packMsg m fields 0 1 1 = .ok frame →
    decode frame = .ok msg → msgEq ⟨m, 0, 1, 1, fields⟩ (some msg.obj) = .ok true := by
  intro h
  have hm : msg253 ∈ mavlinkMap := by decide +kernel
  have hw : WellTyped msg253 [.num (.int 6), .num (.raw [72, 0, 105])] := by decide +kernel
  obtain ⟨frame, msg, h1, h2, e1, _, _, _, _, e5⟩ := c10_round_trip msg253 hm _ hw 0 1 1 (by decide) (by decide) (by decide)
  have := h msg253 _ frame msg hm hw (by simp [NaNFree, NotNaN]) h1 h2
  have hl : (receivedFields msg253 [.num (.int 6), .num (.raw [72, 0, 105])]).length = msg253.fieldnames.length := rfl
  rw [same_of_eq ⟨hm, hw.1⟩ ⟨by simpa only [MavMsg.obj, e1] using hm, by simpa only [MavMsg.obj, e1, e5] using hl⟩] at this
  have := this.2.2.2.2
  simp only [MavMsg.obj, e5] at this
  have hr : receivedFields msg253 [.num (.int 6), .num (.raw [72, 0, 105])] = [.num (.int 6), .text [72]] := by
    decide +kernel
  rw [hr, List.forall₂_cons, List.forall₂_cons] at this
  have h3 : stripNuls (if utf8Valid [72, 0, 105] then [72, 0, 105] else xxxText) = [72] := this.2.1
  revert h3
  decide +kernel

end NR
