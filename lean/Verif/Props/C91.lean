import Verif.Spec.Wrappers
import Verif.Props.C14_C15
import Verif.Lemmas.NodupText
/-
C91: the `*_encode` and `*_send` methods of the dialect put every argument into the field of its name.
-/
namespace NR
open Dialect Spec
set_option maxRecDepth 100000

/-! ### Binding -/

theorem kw_lookup_of_mem {β : Type} {l : List (String × β)} (hn : (l.map Prod.fst).Nodup) {a : String} {b : β}
    (h : (a, b) ∈ l) : l.lookup a = some b := by
  induction l with
  | nil => cases h
  | cons x l ih =>
    obtain ⟨x, y⟩ := x
    rw [List.map_cons, List.nodup_cons] at hn
    rw [List.lookup_cons]
    rcases List.mem_cons.1 h with h | h
    · cases h; simp
    · have hne : a ≠ x := fun he => hn.1 (he ▸ List.mem_map.2 ⟨_, h, rfl⟩)
      rw [beq_false_of_ne hne]
      exact ih hn.2 h

theorem kw_mem_of_lookup {β : Type} {l : List (String × β)} {a : String} {b : β} (h : l.lookup a = some b) : (a, b) ∈ l := by
  induction l with
  | nil => cases h
  | cons x l ih =>
    obtain ⟨x, y⟩ := x
    rw [List.lookup_cons] at h
    by_cases he : a = x
    · subst he; simp at h; subst h; exact List.mem_cons_self
    · rw [beq_false_of_ne he] at h
      exact List.mem_cons_of_mem _ (ih h)

theorem kw_lookup_none {β : Type} {l : List (String × β)} {a : String} (h : l.lookup a = none) : ∀ x ∈ l, x.1 ≠ a := by
  induction l with
  | nil => simp
  | cons x l ih =>
    obtain ⟨x, y⟩ := x
    rw [List.lookup_cons] at h
    by_cases he : a = x
    · subst he; simp at h
    · rw [beq_false_of_ne he] at h
      intro z hz
      rcases List.mem_cons.1 hz with hz | hz
      · subst hz; exact fun h' => he h'.symm
      · exact ih h z hz

theorem mapM_typeError {α β : Type} (f : α → Except PyErr β) (l : List α)
    (h : ∀ x ∈ l, Returns (f x) ∨ f x = .error .typeError) (hx : ∃ x ∈ l, f x = .error .typeError) :
    l.mapM f = .error .typeError := by
  induction l with
  | nil => obtain ⟨x, hx, _⟩ := hx; cases hx
  | cons a l ih =>
    rw [List.mapM_cons]
    rcases h a List.mem_cons_self with ⟨b, hb⟩ | hb
    · rw [hb]
      obtain ⟨x, hx, he⟩ := hx
      rcases List.mem_cons.1 hx with hx | hx
      · subst hx; rw [hb] at he; cases he
      · have := ih (fun y hy => h y (List.mem_cons_of_mem _ hy)) ⟨x, hx, he⟩
        simp only [bind, Except.bind, this]
    · rw [hb]; rfl

/-- The value bound to the parameter at a position. -/
def boundVal (defaults : List (String × FieldVal)) (pos : List FieldVal) (kw : List (String × FieldVal)) (p : String × Nat) :
    Option FieldVal :=
  (pos[p.2]?).or ((kw.lookup p.1).or (defaults.lookup p.1))

theorem bindCall_eq (params : List String) (defaults : List (String × FieldVal)) (pos : List FieldVal)
    (kw : List (String × FieldVal)) :
    bindCall params defaults pos kw =
      if params.length < pos.length then .error .typeError
      else if kw.any (fun a => decide (a.1 ∉ params.drop pos.length)) then .error .typeError
      else params.zipIdx.mapM fun p => match boundVal defaults pos kw p with
        | some v => .ok (p.1, v)
        | none => .error .typeError := by
  unfold bindCall
  congr 2
  congr 1
  funext p
  unfold boundVal
  cases pos[p.2]? with
  | some v => rfl
  | none => cases kw.lookup p.1 with
    | some v => rfl
    | none => cases defaults.lookup p.1 <;> rfl

/-- A call whose arguments give every parameter a value binds these values. -/
theorem bindCall_ok {params : List String} {defaults : List (String × FieldVal)} {pos : List FieldVal}
    {kw : List (String × FieldVal)} {vals : List FieldVal} (hk : Keywords kw)
    (h : Gives params (fun n => defaults.lookup n) pos kw vals) :
    bindCall params defaults pos kw = .ok (params.zip vals) := by
  obtain ⟨h1, h2, h3, h4⟩ := h
  rw [bindCall_eq, if_neg (by omega), if_neg]
  · have hv : ∀ p ∈ params.zipIdx, (match boundVal defaults pos kw p with
        | some v => (.ok (p.1, v) : Except PyErr (String × FieldVal))
        | none => .error .typeError) = .ok (p.1, vals.getD p.2 (.num (.int 0))) := by
      intro p hp
      obtain ⟨name, i⟩ := p
      rw [List.mem_zipIdx_iff_getElem?] at hp
      simp only at hp ⊢
      have hi : i < params.length := by
        by_contra hc
        rw [List.getElem?_eq_none (by omega)] at hp; cases hp
      have hvi : vals[i]? = some (vals.getD i (.num (.int 0))) := by
        rw [List.getD_eq_getElem?_getD, List.getElem?_eq_getElem (by omega)]; rfl
      have : boundVal defaults pos kw (name, i) = some (vals.getD i (.num (.int 0))) := by
        unfold boundVal
        rcases h4 i name _ hp hvi with h | ⟨hge, h⟩ | ⟨hge, hno, h⟩
        · simp only [h, Option.some_or]
        · simp only [List.getElem?_eq_none hge, kw_lookup_of_mem hk h, Option.none_or, Option.some_or]
        · have hl : kw.lookup name = none := by
            cases hl : kw.lookup name with
            | none => rfl
            | some v => exact absurd rfl (hno _ (kw_mem_of_lookup hl))
          simp only [List.getElem?_eq_none hge, hl, Option.none_or, h]
      rw [this]
    rw [mapM_ok hv]
    congr 1
    apply List.ext_getElem
    · simp [h2]
    · intro i hi hi'
      have : i < vals.length := by simp at hi; omega
      simp [List.getElem?_eq_getElem this]
  · rw [Bool.not_eq_true, List.any_eq_false]
    intro a ha
    obtain ⟨i, hi, hn⟩ := h3 a ha
    simp only [decide_eq_true_eq, not_not]
    rw [List.mem_iff_getElem?]
    exact ⟨i - pos.length, by rw [List.getElem?_drop, show pos.length + (i - pos.length) = i by omega, hn]⟩

/-- Any other call raises a TypeError. -/
theorem bindCall_fails {params : List String} {defaults : List (String × FieldVal)} {pos : List FieldVal}
    {kw : List (String × FieldVal)}
    (h : ¬ ∃ vals, Gives params (fun n => defaults.lookup n) pos kw vals) :
    bindCall params defaults pos kw = .error .typeError := by
  rw [bindCall_eq]
  by_cases h1 : params.length < pos.length
  · rw [if_pos h1]
  · rw [if_neg h1]
    by_cases h2 : kw.any (fun a => decide (a.1 ∉ params.drop pos.length)) = true
    · rw [if_pos h2]
    · rw [if_neg h2]
      apply mapM_typeError
      · intro p _
        cases boundVal defaults pos kw p with
        | some v => exact Or.inl ⟨_, rfl⟩
        | none => exact Or.inr rfl
      · by_contra hc
        push Not at hc
        apply h
        have hb : ∀ i name, params[i]? = some name → ∃ v, boundVal defaults pos kw (name, i) = some v := by
          intro i name hi
          have := hc (name, i) (by rw [List.mem_zipIdx_iff_getElem?]; exact hi)
          cases hv : boundVal defaults pos kw (name, i) with
          | some v => exact ⟨v, rfl⟩
          | none => simp [hv] at this
        refine ⟨params.zipIdx.map fun p => (boundVal defaults pos kw p).getD (.num (.int 0)), by omega, by simp, ?_, ?_⟩
        · intro a ha
          rw [Bool.not_eq_true, List.any_eq_false] at h2
          have := h2 a ha
          simp only [decide_eq_true_eq, not_not] at this
          obtain ⟨j, hj⟩ := List.mem_iff_getElem?.1 this
          rw [List.getElem?_drop] at hj
          exact ⟨_, Nat.le_add_right _ _, hj⟩
        · intro i name v hi hv
          obtain ⟨w, hw⟩ := hb i name hi
          rw [List.getElem?_map, List.getElem?_zipIdx, hi] at hv
          simp only [Option.map_some, Nat.zero_add, hw, Option.getD_some, Option.some.injEq] at hv
          subst hv
          unfold boundVal at hw
          simp only at hw
          cases hp : pos[i]? with
          | some u => rw [hp, Option.some_or] at hw; exact Or.inl hw
          | none =>
            have hge : pos.length ≤ i := List.getElem?_eq_none_iff.1 hp
            rw [hp, Option.none_or] at hw
            cases hl : kw.lookup name with
            | some u =>
              rw [hl, Option.some_or] at hw
              cases hw
              exact Or.inr (Or.inl ⟨hge, kw_mem_of_lookup hl⟩)
            | none =>
              rw [hl, Option.none_or] at hw
              exact Or.inr (Or.inr ⟨hge, kw_lookup_none hl, hw⟩)

theorem zip_keys {names : List String} {vals : List FieldVal} (h : vals.length = names.length) :
    (names.zip vals).map Prod.fst = names := List.map_fst_zip (by omega)

theorem evalNames_zip {names more : List String} {vals extra : List FieldVal} (hn : (names ++ more).Nodup)
    (h : vals.length = names.length) (he : extra.length = more.length) :
    evalNames ((names ++ more).zip (vals ++ extra)) names = .ok vals := by
  have hk : (((names ++ more).zip (vals ++ extra)).map Prod.fst).Nodup := by
    rw [zip_keys (by simp [h, he])]; exact hn
  have : ∀ (k : Nat), k ≤ names.length →
      evalNames ((names ++ more).zip (vals ++ extra)) (names.drop k) = .ok (vals.drop k) := by
    intro k hk'
    induction hd : names.length - k generalizing k with
    | zero =>
      rw [List.drop_of_length_le (by omega), List.drop_of_length_le (by omega)]; rfl
    | succ d ih =>
      have hlt : k < names.length := by omega
      have hlt' : k < vals.length := by omega
      rw [List.drop_eq_getElem_cons hlt, List.drop_eq_getElem_cons hlt']
      have hm : (names[k], vals[k]) ∈ (names ++ more).zip (vals ++ extra) := by
        rw [List.mem_iff_getElem?]
        refine ⟨k, ?_⟩
        rw [List.getElem?_zip_eq_some]
        exact ⟨by rw [List.getElem?_append_left hlt, List.getElem?_eq_getElem hlt],
          by rw [List.getElem?_append_left hlt', List.getElem?_eq_getElem hlt']⟩
      have ih' := ih (k + 1) (by omega) (by omega)
      unfold evalNames at ih' ⊢
      rw [List.mapM_cons, kw_lookup_of_mem hk hm, ih']
      rfl
  simpa using this 0 (by omega)

theorem evalNames_all {names : List String} {vals : List FieldVal} (hn : names.Nodup) (h : vals.length = names.length) :
    evalNames (names.zip vals) names = .ok vals := by
  have := evalNames_zip (more := []) (extra := []) (by simpa using hn) h rfl
  simpa using this

/-! ### The table -/

/-- The constructor called by a class name. -/
def initOK (m : MsgClass) (cls : String) : Bool :=
  match inits.find? (fun i => i.cls = cls) with
  | none => false
  | some i => decide (i.msg = m) && decide (i.params = m.fieldnames) &&
    decide (i.assigns = m.fieldnames.map fun x => (x, x))

def encodeOK (m : MsgClass) : Bool :=
  match encodeDefs.find? (fun d => d.name = methodName m "_encode") with
  | none => false
  | some d => decide (d.params = m.fieldnames) && decide (d.args = m.fieldnames) &&
    decide (d.defaults = if m.name = "HEARTBEAT" then [("mavlink_version", 3)] else []) && initOK m d.callee

def sendOK (m : MsgClass) : Bool :=
  match sendDefs.find? (fun d => d.name = methodName m "_send") with
  | none => false
  | some d => decide (d.params = m.fieldnames ++ ["force_mavlink1"]) && decide (d.args = m.fieldnames) &&
    decide (d.defaults = (if m.name = "HEARTBEAT" then [("mavlink_version", 3)] else []) ++ [("force_mavlink1", 0)]) &&
    decide (d.encode = methodName m "_encode")

/-! The names and parameters of the tables agree row by row. -/

theorem inits_msg : inits.map InitDef.msg = mavlinkMap := by rfl
theorem inits_params : inits.map InitDef.params = mavlinkMap.map MsgClass.fieldnames := by rfl
theorem inits_assigns : inits.map InitDef.assigns = mavlinkMap.map fun m => m.fieldnames.map fun x => (x, x) := by rfl
theorem encode_params : encodeDefs.map EncodeDef.params = mavlinkMap.map MsgClass.fieldnames := by rfl
theorem encode_args : encodeDefs.map EncodeDef.args = mavlinkMap.map MsgClass.fieldnames := by rfl
theorem encode_callee : encodeDefs.map EncodeDef.callee = inits.map InitDef.cls := by rfl
theorem send_params : sendDefs.map SendDef.params = mavlinkMap.map fun m => m.fieldnames ++ ["force_mavlink1"] := by rfl
theorem send_args : sendDefs.map SendDef.args = mavlinkMap.map MsgClass.fieldnames := by rfl
theorem send_encode : sendDefs.map SendDef.encode = encodeDefs.map EncodeDef.name := by rfl
theorem encode_defaults : encodeDefs.map EncodeDef.defaults =
    mavlinkMap.map fun m => if m.name = "HEARTBEAT" then [("mavlink_version", 3)] else [] := by decide +kernel
theorem send_defaults : sendDefs.map SendDef.defaults =
    encodeDefs.map fun d => d.defaults ++ [("force_mavlink1", 0)] := by decide +kernel

theorem encode_names : encodeDefs.map EncodeDef.name = mavlinkMap.map (methodName · "_encode") := by decide +kernel

theorem send_names : sendDefs.map SendDef.name = mavlinkMap.map (methodName · "_send") := by decide +kernel

theorem encode_nodup : (encodeDefs.map EncodeDef.name).Nodup := XmlLemmas.nodup_texts (by decide +kernel)
theorem send_nodup : (sendDefs.map SendDef.name).Nodup := XmlLemmas.nodup_texts (by decide +kernel)
theorem inits_nodup : (inits.map InitDef.cls).Nodup := XmlLemmas.nodup_texts (by decide +kernel)

theorem row {α β γ : Type} {f : α → γ} {g : β → γ} {l : List α} {k : List β} (h : l.map f = k.map g) {j : Nat} {a : α} {b : β}
    (ha : l[j]? = some a) (hb : k[j]? = some b) : f a = g b := by
  have h1 : (l.map f)[j]? = some (f a) := by rw [List.getElem?_map, ha]; rfl
  have h2 : (k.map g)[j]? = some (g b) := by rw [List.getElem?_map, hb]; rfl
  rw [h, h2] at h1
  exact (Option.some.inj h1).symm

theorem row_exists {α β γ : Type} {f : α → γ} {g : β → γ} {l : List α} {k : List β} (h : l.map f = k.map g) {j : Nat} {b : β}
    (hb : k[j]? = some b) : ∃ a, l[j]? = some a := by
  have hl : l.length = k.length := by simpa using congrArg List.length h
  have hj := (List.getElem?_eq_some_iff.1 hb).1
  exact ⟨l[j], List.getElem?_eq_getElem (by omega)⟩

theorem row_find {α : Type} {key : α → String} {l : List α} (hn : (l.map key).Nodup) {a : α} (ha : a ∈ l) {s : String} (hs : key a = s) :
    l.find? (fun d => decide (key d = s)) = some a := by
  subst hs
  induction l with
  | nil => cases ha
  | cons d l ih =>
    rw [List.map_cons, List.nodup_cons] at hn
    rw [List.find?_cons]
    rcases List.mem_cons.1 ha with rfl | ha
    · simp
    · have hne : key d ≠ key a := fun he => hn.1 (he ▸ List.mem_map_of_mem ha)
      simp only [hne, decide_false]
      exact ih hn.2 ha

theorem all_encode : ∀ m ∈ mavlinkMap, encodeOK m = true := by
  intro m hm
  obtain ⟨j, hj⟩ := List.mem_iff_getElem?.1 hm
  obtain ⟨d, hd⟩ := row_exists encode_params hj
  obtain ⟨i, hi⟩ := row_exists inits_params hj
  have h1 : i.msg = m := by
    have := row (f := InitDef.msg) (g := id) (inits_msg.trans (List.map_id _).symm) hi hj
    exact this
  unfold encodeOK initOK
  rw [row_find encode_nodup (List.mem_of_getElem? hd) (row encode_names hd hj)]
  simp only
  rw [row_find inits_nodup (List.mem_of_getElem? hi) (row encode_callee hd hi).symm]
  simp only [Bool.and_eq_true, decide_eq_true_eq]
  exact ⟨⟨⟨row encode_params hd hj, row encode_args hd hj⟩, row encode_defaults hd hj⟩, ⟨h1, row inits_params hi hj⟩, row inits_assigns hi hj⟩

theorem all_send : ∀ m ∈ mavlinkMap, sendOK m = true := by
  intro m hm
  obtain ⟨j, hj⟩ := List.mem_iff_getElem?.1 hm
  obtain ⟨d, hd⟩ := row_exists send_params hj
  obtain ⟨e, he⟩ := row_exists encode_params hj
  unfold sendOK
  rw [row_find send_nodup (List.mem_of_getElem? hd) (row send_names hd hj)]
  simp only [Bool.and_eq_true, decide_eq_true_eq]
  refine ⟨⟨⟨row send_params hd hj, row send_args hd hj⟩, ?_⟩, ?_⟩
  · rw [row send_defaults hd he, row encode_defaults he hj]
  · rw [row send_encode hd he, row encode_names he hj]

theorem all_names : ∀ m ∈ mavlinkMap, (m.fieldnames ++ ["force_mavlink1"]).Nodup := by decide +kernel

theorem field_default (m : MsgClass) :
    (fun n => (defaultVals (if m.name = "HEARTBEAT" then [("mavlink_version", 3)] else [])).lookup n) = fieldDefault m := by
  funext n
  unfold fieldDefault defaultVals
  by_cases h : m.name = "HEARTBEAT"
  · rw [if_pos h]
    by_cases hn : n = "mavlink_version"
    · subst hn; simp [h]
    · simp [h, hn, List.lookup_cons, beq_false_of_ne hn]
  · simp [h]

theorem send_default (m : MsgClass) :
    (fun n => (defaultVals ((if m.name = "HEARTBEAT" then [("mavlink_version", 3)] else []) ++ [("force_mavlink1", 0)])).lookup n)
      = sendDefault m := by
  funext n
  unfold sendDefault fieldDefault defaultVals
  by_cases hf : n = "force_mavlink1"
  · subst hf
    by_cases h : m.name = "HEARTBEAT"
    · simp [h, List.lookup_cons, beq_false_of_ne (show "force_mavlink1" ≠ "mavlink_version" by decide)]
    · simp [h]
  · by_cases h : m.name = "HEARTBEAT"
    · by_cases hn : n = "mavlink_version"
      · subst hn; simp [h]
      · simp [h, hn, hf, List.lookup_cons, beq_false_of_ne hn, beq_false_of_ne hf]
    · simp [h, hf, List.lookup_cons, beq_false_of_ne hf]

/-- A call by position only gives the values themselves. -/
theorem gives_positional {names : List String} (default : String → Option FieldVal) {vals : List FieldVal}
    (h : vals.length = names.length) : Gives names default vals [] vals :=
  ⟨by omega, h, by simp, fun _ _ _ _ hv => Or.inl hv⟩

theorem construct_ok {m : MsgClass} (hm : m ∈ mavlinkMap) {cls : String} (hc : initOK m cls = true) {vals : List FieldVal}
    (hv : vals.length = m.fieldnames.length) : construct cls vals = .ok ⟨m, m.fieldnames.zip vals⟩ := by
  have hn : m.fieldnames.Nodup := (List.nodup_append.1 (all_names m hm)).1
  unfold initOK at hc
  unfold construct
  cases hi : inits.find? (fun i => i.cls = cls) with
  | none => rw [hi] at hc; cases hc
  | some i =>
    rw [hi] at hc
    simp only [Bool.and_eq_true, decide_eq_true_eq] at hc
    obtain ⟨⟨h1, h2⟩, h3⟩ := hc
    have hb := bindCall_ok (defaults := []) (kw := []) (by simp [Keywords])
      (gives_positional (fun n => ([] : List (String × FieldVal)).lookup n) hv)
    simp only [h1, h2, h3, List.map_map, Function.comp_def, List.map_id', hb, bind, Except.bind, evalNames_all hn hv]

theorem getattr_zip {m : MsgClass} (hm : m ∈ mavlinkMap) {vals : List FieldVal} {i : Nat} {name : String} {v : FieldVal}
    (hv : vals.length = m.fieldnames.length) (hi : m.fieldnames[i]? = some name) (hvi : vals[i]? = some v) :
    (⟨m, m.fieldnames.zip vals⟩ : MsgInst).getattr name = .ok v := by
  have hn : m.fieldnames.Nodup := (List.nodup_append.1 (all_names m hm)).1
  have : (m.fieldnames.zip vals).reverse.lookup name = some v := by
    apply kw_lookup_of_mem
    · rw [List.map_reverse, zip_keys hv]; exact List.pairwise_reverse.2 (hn.imp fun h => h.symm)
    · rw [List.mem_reverse, List.mem_iff_getElem?]
      exact ⟨i, by rw [List.getElem?_zip_eq_some]; exact ⟨hi, hvi⟩⟩
  simp only [MsgInst.getattr, this]

theorem fields_zip {m : MsgClass} (hm : m ∈ mavlinkMap) {vals : List FieldVal} (hv : vals.length = m.fieldnames.length) :
    (⟨m, m.fieldnames.zip vals⟩ : MsgInst).fields = .ok vals := by
  have : ∀ (k : Nat), k ≤ m.fieldnames.length →
      (m.fieldnames.drop k).mapM (⟨m, m.fieldnames.zip vals⟩ : MsgInst).getattr = .ok (vals.drop k) := by
    intro k hk
    induction hd : m.fieldnames.length - k generalizing k with
    | zero => rw [List.drop_of_length_le (by omega), List.drop_of_length_le (by omega)]; rfl
    | succ d ih =>
      have hlt : k < m.fieldnames.length := by omega
      have hlt' : k < vals.length := by omega
      rw [List.drop_eq_getElem_cons hlt, List.drop_eq_getElem_cons hlt', List.mapM_cons, ih (k + 1) (by omega) (by omega),
        getattr_zip hm hv (List.getElem?_eq_getElem hlt) (List.getElem?_eq_getElem hlt')]
      rfl
  have := this 0 (by omega)
  rw [List.drop_zero, List.drop_zero] at this
  exact this

theorem encode_ok {m : MsgClass} (hm : m ∈ mavlinkMap) {pos : List FieldVal} {kw : List (String × FieldVal)}
    (hk : Keywords kw) {vals : List FieldVal} (h : Gives m.fieldnames (fieldDefault m) pos kw vals) :
    encodeNamed (methodName m "_encode") pos kw = .ok ⟨m, m.fieldnames.zip vals⟩ := by
  have hn : m.fieldnames.Nodup := (List.nodup_append.1 (all_names m hm)).1
  have ht := all_encode m hm
  unfold encodeOK at ht
  unfold encodeNamed
  cases hd : encodeDefs.find? (fun d => d.name = methodName m "_encode") with
  | none => rw [hd] at ht; cases ht
  | some d =>
    rw [hd] at ht
    simp only [Bool.and_eq_true, decide_eq_true_eq] at ht
    obtain ⟨⟨⟨h1, h2⟩, h3⟩, h4⟩ := ht
    rw [← field_default, ← h3] at h
    simp only [h1, h2, bindCall_ok hk h, bind, Except.bind, evalNames_all hn h.2.1, construct_ok hm h4 h.2.1]

/-- C91: every message type of the dialect has an `*_encode` method and a `*_send` method, named after the type in lower
case, and there are no others. -/
theorem c91_methods (name : String) :
    ((∃ d ∈ encodeDefs, d.name = name) ↔ ∃ m ∈ mavlinkMap, name = methodName m "_encode") ∧
    ((∃ d ∈ sendDefs, d.name = name) ↔ ∃ m ∈ mavlinkMap, name = methodName m "_send") := by
  constructor
  · have : name ∈ encodeDefs.map EncodeDef.name ↔ name ∈ mavlinkMap.map (methodName · "_encode") := by rw [encode_names]
    simpa [eq_comm] using this
  · have : name ∈ sendDefs.map SendDef.name ↔ name ∈ mavlinkMap.map (methodName · "_send") := by rw [send_names]
    simpa [eq_comm] using this

/-- C91: an `*_encode` call builds a message of the type it is named after in which every field has the value given for its
name, by position, by keyword or by default; a call that does not give every field one value raises a TypeError. -/
theorem c91_encode (m : MsgClass) (hm : m ∈ mavlinkMap) (pos : List FieldVal) (kw : List (String × FieldVal))
    (hk : Keywords kw) :
    (∀ vals, Gives m.fieldnames (fieldDefault m) pos kw vals →
      ∃ o, encodeNamed (methodName m "_encode") pos kw = .ok o ∧ o.cls = m ∧ o.fields = .ok vals ∧
        ∀ (i : Nat) name v, m.fieldnames[i]? = some name → vals[i]? = some v → o.getattr name = .ok v) ∧
    ((¬ ∃ vals, Gives m.fieldnames (fieldDefault m) pos kw vals) →
      Raises (encodeNamed (methodName m "_encode") pos kw) .typeError) := by
  constructor
  · intro vals h
    exact ⟨_, encode_ok hm hk h, rfl, fields_zip hm h.2.1, fun i name v h1 h2 => getattr_zip hm h.2.1 h1 h2⟩
  · intro h
    have ht := all_encode m hm
    unfold encodeOK at ht
    unfold encodeNamed
    cases hd : encodeDefs.find? (fun d => d.name = methodName m "_encode") with
    | none => rw [hd] at ht; cases ht
    | some d =>
      rw [hd] at ht
      simp only [Bool.and_eq_true, decide_eq_true_eq] at ht
      obtain ⟨⟨⟨h1, h2⟩, h3⟩, h4⟩ := ht
      rw [← field_default, ← h3] at h
      simp only [h1, bindCall_fails h, bind, Except.bind]

/-- C91: a `*_send` call sends the message of its type with the given field values, whatever `force_mavlink1` is; a call that
does not give every field one value raises a TypeError and sends nothing. -/
theorem c91_send (st : Sender) (m : MsgClass) (hm : m ∈ mavlinkMap) (pos : List FieldVal) (kw : List (String × FieldVal))
    (hk : Keywords kw) :
    (∀ vals force, Gives (sendNames m) (sendDefault m) pos kw (vals ++ [force]) →
      sendNamed st (methodName m "_send") pos kw = send st m vals) ∧
    ((¬ ∃ vals, Gives (sendNames m) (sendDefault m) pos kw vals) →
      sendNamed st (methodName m "_send") pos kw = (st, .error .typeError)) := by
  have ht := all_send m hm
  unfold sendOK at ht
  unfold sendNamed
  cases hd : sendDefs.find? (fun d => d.name = methodName m "_send") with
  | none => rw [hd] at ht; cases ht
  | some d =>
    rw [hd] at ht
    simp only [Bool.and_eq_true, decide_eq_true_eq] at ht
    obtain ⟨⟨⟨h1, h2⟩, h3⟩, h4⟩ := ht
    constructor
    · intro vals force h
      rw [sendNames, ← send_default, ← h3] at h
      have hl : vals.length = m.fieldnames.length := by have := h.2.1; simp at this; exact this
      have hf : evalNames ((m.fieldnames ++ ["force_mavlink1"]).zip (vals ++ [force])) ["force_mavlink1"] = .ok [force] := by
        have hkeys : (((m.fieldnames ++ ["force_mavlink1"]).zip (vals ++ [force])).map Prod.fst).Nodup := by
          rw [zip_keys (by simp [hl])]; exact all_names m hm
        have : (("force_mavlink1", force) : String × FieldVal) ∈ (m.fieldnames ++ ["force_mavlink1"]).zip (vals ++ [force]) := by
          rw [List.zip_append (by rw [hl])]; simp
        simp only [evalNames, List.mapM_cons, List.mapM_nil, kw_lookup_of_mem hkeys this, bind, Except.bind, pure, Except.pure]
      have he := encode_ok hm (kw := []) (by simp [Keywords]) (gives_positional (fieldDefault m) hl)
      simp only [h1, h2, h4, bindCall_ok hk h, bind, Except.bind, evalNames_zip (all_names m hm) hl (extra := [force]) rfl, he, hf,
        fields_zip hm hl]
    · intro h
      rw [sendNames, ← send_default, ← h3] at h
      simp only [h1, bindCall_fails h, bind, Except.bind]

/-- C91 with C10: what a `*_send` call wrote is decoded as the message of that type with the given values. -/
theorem c91_received (st : Sender) (hseq : st.seq < 256) (sys comp : Nat) (hs : st.srcSystem = sys) (hc : st.srcComponent = comp)
    (h3 : sys ≤ 255) (h4 : comp ≤ 255) (m : MsgClass) (hm : m ∈ mavlinkMap) (pos : List FieldVal)
    (kw : List (String × FieldVal)) (hk : Keywords kw) (vals : List FieldVal) (force : FieldVal)
    (h : Gives (sendNames m) (sendDefault m) pos kw (vals ++ [force])) (hw : WellTyped m vals) :
    ∃ frame msg, (sendNamed st (methodName m "_send") pos kw).1.file = st.file ++ [frame] ∧ decode frame = .ok msg ∧
      msg.cls = m ∧ msg.seq = st.seq ∧ msg.srcSystem = sys ∧ msg.srcComponent = comp ∧
      msg.fields = receivedFields m vals := by
  obtain ⟨frame, msg, g1, g2, g3, _, g5, g6, g7, g8⟩ := c10_round_trip m hm vals hw st.seq sys comp (by omega) h3 h4
  refine ⟨frame, msg, ?_, g2, g3, g5, g6, g7, g8⟩
  rw [(c91_send st m hm pos kw hk).1 vals force h, send, hs, hc, g1]

/-- `heartbeat_send(2, 3, custom_mode=7, base_mode=81, system_status=4)` is complete: the version is 3 and `force_mavlink1` is
`False`. -/
example : methodName msg0 "_send" = "heartbeat_send" ∧
    Gives (sendNames msg0) (sendDefault msg0) [.num (.int 2), .num (.int 3)]
      [("custom_mode", .num (.int 7)), ("base_mode", .num (.int 81)), ("system_status", .num (.int 4))]
      ([.num (.int 2), .num (.int 3), .num (.int 81), .num (.int 7), .num (.int 4), .num (.int 3)] ++ [.num (.int 0)]) ∧
    WellTyped msg0 [.num (.int 2), .num (.int 3), .num (.int 81), .num (.int 7), .num (.int 4), .num (.int 3)] := by
  refine ⟨by decide +kernel, ⟨by decide, by decide, ?_, ?_⟩, by decide +kernel⟩
  · intro a ha
    simp only [List.mem_cons, List.not_mem_nil, or_false] at ha
    rcases ha with rfl | rfl | rfl
    · exact ⟨3, by decide, by decide⟩
    · exact ⟨2, by decide, by decide⟩
    · exact ⟨4, by decide, by decide⟩
  · intro i name v h1 h2
    match i with
    | 0 => cases h1; cases h2; exact Or.inl rfl
    | 1 => cases h1; cases h2; exact Or.inl rfl
    | 2 => cases h1; cases h2; exact Or.inr (Or.inl ⟨by decide, by simp⟩)
    | 3 => cases h1; cases h2; exact Or.inr (Or.inl ⟨by decide, by simp⟩)
    | 4 => cases h1; cases h2; exact Or.inr (Or.inl ⟨by decide, by simp⟩)
    | 5 => cases h1; cases h2; exact Or.inr (Or.inr ⟨by decide, by simp, by decide⟩)
    | 6 => cases h1; cases h2; exact Or.inr (Or.inr ⟨by decide, by simp, by decide⟩)
    | n + 7 => simp [sendNames, msg0] at h1

/-- A heartbeat without `system_status` is not complete. -/
example : Raises (encodeNamed "heartbeat_encode" [.num (.int 2), .num (.int 3)]
    [("custom_mode", .num (.int 7)), ("base_mode", .num (.int 81))]) .typeError := by decide +kernel

end NR
