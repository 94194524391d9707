import Verif.Model.FieldTraining
import Verif.Lemmas.AsciiNames
import Verif.Props.C116
/-
C138: training a buffer model field by field, and how that differs from giving it whole buffers.
-/
namespace NR.C138
open NR NR.Spec NR.C116 Dialect FieldModel

variable {μ : Type} (O : StatOps Val μ)

/-- The payload numbers of a message with their names. -/
def payload (msg : MavMsg) : List (String × Val) :=
  msg.cls.orderedFieldnames.map fun nm => (msg.cls.name ++ "_" ++ nm, numberOf msg nm)

/-- The last number under a name in the payloads of these messages, if any. -/
def lastUnder (name : String) (msgs : List MavMsg) : Option Val :=
  (((msgs.flatMap payload).filter fun x => x.1 = name).map Prod.snd).getLast?

theorem char_inj : Function.Injective (fun b : Byte => Char.ofNat b.toNat) := by
  intro a b h
  have v : ∀ c : Byte, (Char.ofNat c.toNat).toNat = c.toNat := by
    intro c
    have hc : c.toNat < 256 := c.isLt
    have : c.toNat.isValidChar := Or.inl (by omega)
    rw [Char.ofNat, dif_pos this]
    rfl
  have := congrArg Char.toNat h
  simp only [v] at this
  exact BitVec.eq_of_toNat_eq this

theorem keyString_inj : Function.Injective keyString := by
  intro a b h
  unfold keyString at h
  exact (List.map_injective_iff.2 char_inj) (String.ofList_injective h)

theorem keyString_append (a b : List Byte) : keyString (a ++ b) = keyString a ++ keyString b := by
  unfold keyString
  rw [List.map_append, String.ofList_append]

theorem keyString_ascii {s : String} (h : s.toList.all (fun c => decide (c.toNat < 128)) = true) : keyString (strBytes s) = s := by
  unfold keyString strBytes
  rw [List.map_map]
  have : s.toList.map ((fun b : Byte => Char.ofNat b.toNat) ∘ fun c => BitVec.ofNat 8 c.toNat) = s.toList.map id := by
    refine List.map_congr_left fun c hc => ?_
    have hc := List.all_eq_true.1 h c hc
    simp only [decide_eq_true_eq] at hc
    simp only [Function.comp, BitVec.toNat_ofNat, id]
    rw [Nat.mod_eq_of_lt (by omega), Char.ofNat_toNat]
  rw [this, List.map_id, String.ofList_toList]

/-! ### Dictionaries as association lists -/

theorem keys_nodup {κ ν : Type} [DecidableEq κ] (d : List (κ × ν)) (k : κ) (v : ν) (h : (d.map Prod.fst).Nodup) :
    ((dictSet d k v).map Prod.fst).Nodup := by
  unfold dictSet
  split
  · rename_i hk
    have : (d.map fun p => if p.1 = k then (k, v) else p).map Prod.fst = d.map Prod.fst := by
      rw [List.map_map]
      refine List.map_congr_left fun p _ => ?_
      simp only [Function.comp]
      split
      · rename_i he; exact he.symm
      · rfl
    rw [this]; exact h
  · rename_i hk
    rw [List.map_append, List.nodup_append]
    refine ⟨h, by simp, ?_⟩
    intro a ha b hb
    simp only [List.map_cons, List.map_nil, List.mem_singleton] at hb
    rintro rfl
    exact hk (hb ▸ ha)

theorem fields_nodup {buf : List Byte} {dict : List (List Byte × FieldVal × CType)} {desc : List DescItem}
    (h : getMsgFields decode buf = .ok (some (dict, desc))) : (dict.map Prod.fst).Nodup := by
  have sets : ∀ (es : List (List Byte × FieldVal × CType)) (d : List (List Byte × FieldVal × CType)), (d.map Prod.fst).Nodup →
      ((es.foldl (fun d e => dictSet d e.1 e.2) d).map Prod.fst).Nodup := by
    intro es
    induction es with
    | nil => intro d h; exact h
    | cons e es ih => intro d h; exact ih _ (keys_nodup d _ _ h)
  have step : ∀ (acc acc' : List (List Byte × FieldVal × CType) × List DescItem) (r : Nat × Nat), msgFieldsStep buf acc r = .ok acc' →
      (acc.1.map Prod.fst).Nodup → (acc'.1.map Prod.fst).Nodup := by
    intro acc acc' r h hn
    unfold msgFieldsStep at h
    split at h
    · cases h
    · simp only [bind, Except.bind] at h
      split at h
      · cases h
      split at h
      · cases h
      split at h
      · cases h
      injection h with h
      rw [← h]
      exact sets _ _ hn
  have all : ∀ (l : List (Nat × Nat)) (acc acc' : List (List Byte × FieldVal × CType) × List DescItem),
      l.foldlM (msgFieldsStep buf) acc = .ok acc' → (acc.1.map Prod.fst).Nodup → (acc'.1.map Prod.fst).Nodup := by
    intro l
    induction l with
    | nil =>
      intro acc acc' h hn
      simp only [List.foldlM_nil, pure, Except.pure] at h
      injection h with h
      rw [← h]; exact hn
    | cons r l ih =>
      intro acc acc' h hn
      rw [List.foldlM_cons] at h
      simp only [bind, Except.bind] at h
      cases hs : msgFieldsStep buf acc r with
      | error e => rw [hs] at h; cases h
      | ok a => rw [hs] at h; exact ih a acc' h (step _ _ _ hs hn)
  unfold getMsgFields at h
  simp only [bind, Except.bind] at h
  split at h
  · cases h
  split at h
  · injection h with h; cases h
  split at h
  · cases h
  rename_i a ha
  injection h with h
  injection h with h
  have := all _ _ _ ha List.nodup_nil
  rw [h] at this
  exact this

theorem filter_lookup {ν : Type} (n : String) : ∀ l : List (String × ν), (l.map Prod.fst).Nodup →
    (l.filter fun x => x.1 = n).map Prod.snd = (l.lookup n).toList := by
  intro l
  induction l with
  | nil => intro _; rfl
  | cons x l ih =>
    obtain ⟨a, b⟩ := x
    intro h
    rw [List.map_cons, List.nodup_cons] at h
    rw [List.filter_cons, List.lookup_cons]
    by_cases hn : a = n
    · subst hn
      have : (l.filter fun x => x.1 = a) = [] := by
        rw [List.filter_eq_nil_iff]
        intro x hx hc
        simp only [decide_eq_true_eq] at hc
        exact h.1 (List.mem_map.2 ⟨x, hx, hc⟩)
      simp [this]
    · have hb : (n == a) = false := by simpa using fun h => hn h.symm
      simp only [hn, decide_false, Bool.false_eq_true, if_false, hb]
      exact ih h.2

theorem lookup_last {ν : Type} (n : String) (l : List (String × ν)) :
    l.reverse.lookup n = ((l.filter fun x => x.1 = n).map Prod.snd).getLast? := by
  induction l using List.reverseRecOn with
  | nil => rfl
  | append_singleton l x ih =>
    obtain ⟨a, b⟩ := x
    rw [List.reverse_append, List.filter_append, List.map_append]
    simp only [List.reverse_cons, List.reverse_nil, List.nil_append, List.singleton_append, List.lookup_cons, List.filter_cons, List.filter_nil]
    by_cases hn : a = n
    · subst hn; simp
    · have hb : (n == a) = false := by simpa using fun h => hn h.symm
      simp [hn, hb, ih]

theorem lookup_mapped {ν ρ : Type} (g : ν → ρ) (d : List (List Byte × ν)) (k : List Byte) :
    (d.map fun e => (keyString e.1, g e.2)).lookup (keyString k) = (d.lookup k).map g := by
  induction d with
  | nil => rfl
  | cons x d ih =>
    obtain ⟨a, b⟩ := x
    rw [List.map_cons, List.lookup_cons, List.lookup_cons, ih]
    by_cases h : k = a
    · subst h; simp
    · have h1 : (k == a) = false := by simpa using h
      have h2 : (keyString k == keyString a) = false := by simpa using fun he => h (keyString_inj he)
      rw [h1, h2]

theorem lookup_outside {ν ρ : Type} (g : ν → ρ) (d : List (List Byte × ν)) (n : String) (hn : ∀ k, keyString k ≠ n) :
    (d.map fun e => (keyString e.1, g e.2)).lookup n = none := by
  rw [List.lookup_eq_none_iff]
  intro p hp
  obtain ⟨e, _, rfl⟩ := List.mem_map.1 hp
  simpa using fun h => hn e.1 h.symm

/-! ### One buffer -/

theorem entries_payload {buf : List Byte} {s : List (Nat × Nat)} (hp : Plain s) {msgs : List MavMsg} (hd : DecodedAs buf s msgs)
    (hc : List.Forall₂ (fun (r : Nat × Nat) (msg : MavMsg) => msg.cls ∈ mavlinkMap ∧ msg.cls.id = r.2) s msgs) :
    ((msgs.flatMap fun msg => msg.cls.orderedFieldnames.map (fieldEntry msg)).map fun e => (keyString e.1, sampleOf e.2.1)) =
      msgs.flatMap payload := by
  unfold DecodedAs at hd
  induction hd with
  | nil => rfl
  | cons h _ ih =>
    rename_i r msg s msgs _
    cases hc with
    | cons hc1 hc2 =>
      rw [List.flatMap_cons, List.flatMap_cons, List.map_append, ih (fun r hr => hp r (List.mem_cons_of_mem _ hr)) hc2]
      congr 1
      unfold payload
      rw [List.map_map]
      refine List.map_congr_left fun nm hnm => ?_
      have hna := hp r List.mem_cons_self msg.cls hc1.1 hc1.2
      have hname : "name" ∉ msg.cls.fieldnames := by
        have := List.all_eq_true.1 table_name msg.cls hc1.1
        simp only [decide_eq_true_eq] at this
        exact this hna
      have hasc := List.all_eq_true.1 table_ascii msg.cls hc1.1
      rw [List.all_eq_true] at hasc
      simp only [Function.comp, fieldEntry]
      rw [(c25_key msg nm).1 hname, keyString_append, keyString_append, keyString_ascii (hasc _ List.mem_cons_self),
        keyString_ascii (hasc _ (List.mem_cons_of_mem _ hnm)), keyString_ascii (by decide), h.2.2.2 nm hnm]
      rfl

theorem train_step {w : Option Nat} {H : String → List Val} {bm : BufferModel μ} (hw : bm.windowSize = w) (h : BufInv O w H bm.models)
    (buf : List Byte) (hne : messagesIn buf ≠ []) (hp : Plain (messagesIn buf)) (msgs : List MavMsg)
    (hd : DecodedAs buf (messagesIn buf) msgs) :
    ∃ ms, trainFields O bm buf = ({ bm with models := ms }, .ok ()) ∧ BufInv O w (fun n => H n ++ (lastUnder n msgs).toList) ms := by
  obtain ⟨st, hst, he⟩ := messagesIn_ok buf
  rw [he] at hne hp hd
  obtain ⟨dict, msgs', hF, hget, hlook⟩ := c25_fields buf st hst hne
  have hm : msgs' = msgs := by
    unfold DecodedAs at hd
    clear hlook hget hp hne he hst
    generalize st.struct = l at hd hF
    induction hd generalizing msgs' with
    | nil => cases hF; rfl
    | cons h _ ih =>
      cases hF with
      | cons h' hF' =>
        rw [ih _ hF']
        have := h.1.symm.trans h'.1
        injection this with this
        rw [this]
  subst hm
  have hE := entries_payload hp hd (hF.imp fun r msg h => ⟨h.2.1, h.2.2.1⟩)
  unfold trainFields
  rw [hget]
  simp only
  obtain ⟨ms, h1, h2⟩ := bufInv_adds O (dict.map fun e => (keyString e.1, sampleOf e.2.1, e.2.2)) hw h
  refine ⟨ms, h1, ?_⟩
  have hnd := fields_nodup hget
  have key : (fun n => H n ++ (((dict.map fun e => (keyString e.1, sampleOf e.2.1, e.2.2)).filter fun x => x.1 = n).map fun x => x.2.1)) =
      fun n => H n ++ (lastUnder n msgs').toList := by
    funext n
    congr 1
    have e1 : ((dict.map fun e => (keyString e.1, sampleOf e.2.1, e.2.2)).filter fun x => x.1 = n).map (fun x => x.2.1) =
        ((dict.map fun e => (keyString e.1, sampleOf e.2.1)).filter fun x => x.1 = n).map Prod.snd := by
      rw [List.filter_map, List.filter_map, List.map_map, List.map_map]
      rfl
    have hnd' : ((dict.map fun e => (keyString e.1, sampleOf e.2.1)).map Prod.fst).Nodup := by
      rw [List.map_map, show (Prod.fst ∘ fun e : List Byte × FieldVal × CType => (keyString e.1, sampleOf e.2.1)) = keyString ∘ Prod.fst from rfl,
        ← List.map_map]
      exact hnd.map keyString_inj
    rw [e1, filter_lookup n _ hnd']
    congr 1
    unfold lastUnder
    rw [← lookup_last, ← hE, ← List.map_reverse]
    by_cases hn : ∃ k, keyString k = n
    · obtain ⟨k, rfl⟩ := hn
      rw [lookup_mapped (fun v : FieldVal × CType => sampleOf v.1), lookup_mapped (fun v : FieldVal × CType => sampleOf v.1), hlook]
      rfl
    · rw [lookup_outside (fun v : FieldVal × CType => sampleOf v.1) _ _ (fun k hk => hn ⟨k, hk⟩),
        lookup_outside (fun v : FieldVal × CType => sampleOf v.1) _ _ (fun k hk => hn ⟨k, hk⟩)]
  rw [← key]
  exact h2

/-! ### Any number of buffers -/

theorem train_inv {w : Option Nat} : ∀ (bufs : List (List Byte)) (msgs : List (List MavMsg)),
    (∀ b ∈ bufs, messagesIn b ≠ [] ∧ Plain (messagesIn b)) → List.Forall₂ (fun b ms => DecodedAs b (messagesIn b) ms) bufs msgs →
    ∀ (H : String → List Val) (bm : BufferModel μ), bm.windowSize = w → BufInv O w H bm.models →
      ∃ ms, (∀ rest, trainAll O bm (bufs ++ rest) = trainAll O { bm with models := ms } rest) ∧
        BufInv O w (fun n => H n ++ msgs.flatMap fun m => (lastUnder n m).toList) ms := by
  intro bufs msgs hb hd
  induction hd with
  | nil => intro H bm _ h; exact ⟨bm.models, fun rest => rfl, by simpa using h⟩
  | cons h1 _ ih =>
    rename_i b ms bufs msgs _
    intro H bm hw h
    obtain ⟨hne, hp⟩ := hb b List.mem_cons_self
    obtain ⟨m1, e1, i1⟩ := train_step O hw h b hne hp ms h1
    obtain ⟨m2, e2, i2⟩ := ih (fun x hx => hb x (List.mem_cons_of_mem _ hx)) _ { bm with models := m1 } hw i1
    refine ⟨m2, fun rest => ?_, by simpa using i2⟩
    rw [List.cons_append, trainAll, e1]
    exact e2 rest

theorem samples_of {w : Option Nat} {H : String → List Val} {ms : List (String × FieldModel Val μ)} (h : BufInv O w H ms) (name : String) :
    ((ms.lookup name).map FieldModel.samples).getD [] = windowed w (H name) := by
  cases hl : ms.lookup name with
  | none =>
    have := (h.absent name).1 hl
    simp only [this]
    exact (windowed_eq_nil.2 rfl).symm
  | some m =>
    obtain ⟨t, hm⟩ := h.model name m hl
    simpa using hm.samples

/-- **C138.** A buffer model trained field by field on buffers with at least one message each (none with arrays): no call raises, under every
name it holds the window of the last numbers the MAVLink parser decodes under that name from each buffer, and it has counted no buffer. -/
theorem c138_learned (w : Option Nat) (bufs : List (List Byte)) (msgs : List (List MavMsg))
    (hb : ∀ b ∈ bufs, messagesIn b ≠ [] ∧ Plain (messagesIn b)) (hd : List.Forall₂ (fun b ms => DecodedAs b (messagesIn b) ms) bufs msgs) :
    ∃ bm, trainAll O (BufferModel.new w) bufs = (bm, .ok ()) ∧ bm.modelSize = 0 ∧
      ∀ name, ((bm.models.lookup name).map FieldModel.samples).getD [] = windowed w (msgs.flatMap fun m => (lastUnder name m).toList) := by
  obtain ⟨ms, h1, h2⟩ := train_inv O (w := w) bufs msgs hb hd _ (BufferModel.new w) rfl (bufInv_new O w)
  refine ⟨_, by simpa [trainAll] using h1 [], rfl, fun name => ?_⟩
  have := samples_of O h2 name
  simpa using this

/-- The numbers of the header of a message with their names. -/
def headerNames (msg : MavMsg) : List String :=
  ["magic", msg.cls.name ++ "_mlen", "seq", "srcSystem", msg.cls.name ++ "_srcComponent", msg.cls.name ++ "_msgId"]

/-- **C138.** Given whole, the same buffers leave the same samples under every name that is not one of a header and occurs at most once in
each buffer; but then they are counted. -/
theorem c138_agrees (w : Option Nat) (bufs : List (List Byte)) (msgs : List (List MavMsg))
    (hb : ∀ b ∈ bufs, messagesIn b ≠ [] ∧ Plain (messagesIn b)) (hd : List.Forall₂ (fun b ms => DecodedAs b (messagesIn b) ms) bufs msgs)
    (bm bm' : BufferModel μ) (h1 : bm = (trainAll O (BufferModel.new w) bufs).1)
    (h2 : bm' = addAll O (BufferModel.new w) (bufs.map fun b => (.bytes b, messagesIn b))) :
    bm.modelSize = 0 ∧ bm'.modelSize = sizeAfter w bufs.length ∧
    ∀ name, (∀ ms ∈ msgs, ∀ msg ∈ ms, name ∉ headerNames msg) → (∀ ms ∈ msgs, (under name ms).length ≤ 1) →
      ((bm.models.lookup name).map FieldModel.samples).getD [] = ((bm'.models.lookup name).map FieldModel.samples).getD [] := by
  obtain ⟨b0, e0, s0, l0⟩ := c138_learned O w bufs msgs hb hd
  obtain ⟨s1, l1⟩ := c116_learned O w bufs msgs (fun b h => (hb b h).2) hd bm' h2
  rw [e0] at h1
  simp only at h1
  subst h1
  refine ⟨s0, s1, fun name hn hone => ?_⟩
  rw [l0, l1]
  congr 1
  have e : ∀ ms ∈ msgs, under name ms = (lastUnder name ms).toList := by
    intro ms hms
    have e1 : under name ms = ((ms.flatMap payload).filter fun x => x.1 = name).map Prod.snd := by
      have hn := hn ms hms
      clear hone hms
      unfold under
      induction ms with
      | nil => rfl
      | cons msg ms ih =>
        rw [List.flatMap_cons, List.flatMap_cons, List.filter_append, List.filter_append, List.map_append, List.map_append,
          ih (fun m hm => hn m (List.mem_cons_of_mem _ hm))]
        congr 1
        have := hn msg List.mem_cons_self
        unfold headerNames at this
        simp only [List.mem_cons, List.not_mem_nil, or_false, not_or] at this
        obtain ⟨a1, a2, a3, a4, a5, a6⟩ := this
        unfold named
        rw [List.filter_append]
        simp only [List.filter_cons, List.filter_nil, Ne.symm a1, Ne.symm a2, Ne.symm a3, Ne.symm a4, Ne.symm a5, Ne.symm a6, decide_false,
          Bool.false_eq_true, if_false, List.nil_append]
        rfl
    have h1 := hone ms hms
    rw [e1] at h1 ⊢
    unfold lastUnder
    generalize ((ms.flatMap payload).filter fun x => x.1 = name).map Prod.snd = l at *
    match l, h1 with
    | [], _ => rfl
    | [x], _ => rfl
    | _ :: _ :: _, h => simp at h
  clear l0 l1 hd hb hn hone
  induction msgs with
  | nil => rfl
  | cons m ms ih =>
    have h := e m List.mem_cons_self
    have ih := ih (fun x hx => e x (List.mem_cons_of_mem _ hx))
    unfold under at h ih ⊢
    rw [List.flatten_cons, List.flatMap_append, List.filter_append, List.map_append, h, ← ih]
    rfl

/-- **C138.** There is a model under a name exactly if it is the name of a payload number of some message: the names of the headers, which a
model given whole buffers has, get none. -/
theorem c138_headers (w : Option Nat) (bufs : List (List Byte)) (msgs : List (List MavMsg))
    (hb : ∀ b ∈ bufs, messagesIn b ≠ [] ∧ Plain (messagesIn b)) (hd : List.Forall₂ (fun b ms => DecodedAs b (messagesIn b) ms) bufs msgs)
    (name : String) :
    ((trainAll O (BufferModel.new w) bufs).1.models.lookup name = none ↔
      ∀ ms ∈ msgs, ∀ msg ∈ ms, ∀ nm ∈ msg.cls.orderedFieldnames, name ≠ msg.cls.name ++ "_" ++ nm) ∧
    ('_' ∉ name.toList → (trainAll O (BufferModel.new w) bufs).1.models.lookup name = none) := by
  have main : (trainAll O (BufferModel.new w) bufs).1.models.lookup name = none ↔
      ∀ ms ∈ msgs, ∀ msg ∈ ms, ∀ nm ∈ msg.cls.orderedFieldnames, name ≠ msg.cls.name ++ "_" ++ nm := by
    obtain ⟨ms, h1, h2⟩ := train_inv O (w := w) bufs msgs hb hd _ (BufferModel.new w) rfl (bufInv_new O w)
    have e := h1 []
    rw [List.append_nil] at e
    rw [e]
    simp only [trainAll]
    rw [h2.absent]
    simp only [List.nil_append, List.flatMap_eq_nil_iff, Option.toList_eq_nil_iff, lastUnder, List.getLast?_eq_none_iff, List.map_eq_nil_iff,
      List.filter_eq_nil_iff, decide_eq_true_eq, List.mem_flatMap, payload, List.mem_map]
    constructor
    · rintro h ms hms msg hmsg nm hnm rfl
      exact h ms hms _ ⟨msg, hmsg, nm, hnm, rfl⟩ rfl
    · rintro h ms hms _ ⟨msg, hmsg, nm, hnm, rfl⟩ he
      exact h ms hms msg hmsg nm hnm he.symm
  refine ⟨main, fun hn => main.2 ?_⟩
  rintro ms _ msg _ nm _ rfl
  exact hn (by simp)

/-- **C138.** The first buffer without any message ends the training with a ValueError; what was learned before it stays. -/
theorem c138_nothing (w : Option Nat) (bufs rest : List (List Byte)) (b : List Byte) (msgs : List (List MavMsg))
    (hb : ∀ b ∈ bufs, messagesIn b ≠ [] ∧ Plain (messagesIn b)) (hd : List.Forall₂ (fun b ms => DecodedAs b (messagesIn b) ms) bufs msgs)
    (hn : messagesIn b = []) :
    trainAll O (BufferModel.new w) (bufs ++ b :: rest) = ((trainAll O (BufferModel.new w) bufs).1, .error .valueError) := by
  obtain ⟨ms, h1, _⟩ := train_inv O (w := w) bufs msgs hb hd _ (BufferModel.new w) rfl (bufInv_new O w)
  have e := h1 []
  rw [List.append_nil] at e
  rw [h1, e]
  obtain ⟨st, hst, he⟩ := messagesIn_ok b
  rw [he] at hn
  simp only [trainAll, trainFields]
  rw [c25_nothing b st hst hn]

/-- The buffer of two heartbeats and two bytes of noise meets the hypotheses. Given twice it leaves no model under `seq`, under which a model
given the buffers whole holds four numbers (C116), and no counted buffer; an empty buffer after it ends the training. -/
example : (trainAll O (BufferModel.new none) [sampleBuffer, sampleBuffer]).1.models.lookup "seq" = none ∧
    (trainAll O (BufferModel.new none) [sampleBuffer, sampleBuffer]).1.modelSize = 0 ∧
    (trainAll O (BufferModel.new none) [sampleBuffer, sampleBuffer]).1.models.lookup "HEARTBEAT_type" ≠ none ∧
    (trainAll O (BufferModel.new none) [sampleBuffer, [], sampleBuffer]).2 = .error .valueError := by
  have hp : Plain (messagesIn sampleBuffer) := by
    rw [exMessages]
    intro r hr m hm hid
    have hall : mavlinkMap.all (fun m => decide (m.id = 0 → NoArrays m)) = true := by decide +kernel
    have := List.all_eq_true.1 hall m hm
    simp only [decide_eq_true_eq] at this
    simp only [List.mem_cons, List.not_mem_nil, or_false] at hr
    rcases hr with rfl | rfl <;> exact this hid
  have hne : messagesIn sampleBuffer ≠ [] := by rw [exMessages]; simp
  obtain ⟨st, hst, he⟩ := messagesIn_ok sampleBuffer
  obtain ⟨msgs, hd, _, _⟩ := c116_values _ st hst (he ▸ hp)
  rw [← he] at hd
  have hb : ∀ b ∈ [sampleBuffer, sampleBuffer], messagesIn b ≠ [] ∧ Plain (messagesIn b) := by
    intro b h
    simp only [List.mem_cons, List.not_mem_nil, or_false, or_self] at h
    exact h ▸ ⟨hne, hp⟩
  have hf : List.Forall₂ (fun b ms => DecodedAs b (messagesIn b) ms) [sampleBuffer, sampleBuffer] [msgs, msgs] :=
    List.Forall₂.cons hd (List.Forall₂.cons hd List.Forall₂.nil)
  refine ⟨(c138_headers O none _ _ hb hf "seq").2 (by decide), ?_, fun h => ?_, ?_⟩
  · obtain ⟨bm, e, h, _⟩ := c138_learned O none _ _ hb hf
    rw [e]; exact h
  · rw [exMessages] at hd
    unfold DecodedAs at hd
    obtain ⟨a, ms1, ha, _, rfl⟩ := List.forall₂_cons_left_iff.1 hd
    have h := (c138_headers O none _ _ hb hf "HEARTBEAT_type").1.1 h _ List.mem_cons_self a List.mem_cons_self
    have hc : (decode (frameBytes sampleBuffer 2 (lenOf 0))).toOption.map (fun m => (m.cls.name, decide ("type" ∈ m.cls.orderedFieldnames))) =
        some ("HEARTBEAT", true) := by decide +kernel
    have ha1 : decode (frameBytes sampleBuffer 2 (lenOf 0)) = .ok a := ha.1
    rw [ha1] at hc
    simp only [Except.toOption, Option.map_some, Option.some.injEq, Prod.mk.injEq, decide_eq_true_eq] at hc
    exact h "type" hc.2 (by rw [hc.1]; decide)
  · have hb1 : ∀ b ∈ [sampleBuffer], messagesIn b ≠ [] ∧ Plain (messagesIn b) := fun b h => hb b (List.mem_cons_of_mem _ h)
    have h0 : messagesIn [] = [] := by decide +kernel
    have := c138_nothing O none [sampleBuffer] [sampleBuffer] [] [msgs] hb1 (List.Forall₂.cons hd List.Forall₂.nil) h0
    exact congrArg Prod.snd this

end NR.C138
