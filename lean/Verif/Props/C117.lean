import Verif.Props.C116
import Verif.Props.C78
/-
C117: what the MAVLink decoder learns from words that arrive, and from a recorded mission.
-/
namespace NR.C117
open NR Spec Dialect NR.C116

variable {σ Λ : Type}

/-! ### Packing the bits of a word -/

theorem bitsToBytes_cons (b : Byte) (l : List Bool) : bitsToBytes (byteBits b ++ l) = b :: bitsToBytes l := by
  unfold bitsToBytes
  have hlen : ((byteBits b ++ l).length + 7) / 8 = (l.length + 7) / 8 + 1 := by
    rw [List.length_append, byteBits_length]; omega
  rw [hlen, List.range_succ_eq_map, List.map_cons, List.map_map]
  congr 1
  · have h : pySlice (byteBits b ++ l) (8 * 0) (8 * 0 + 8) = byteBits b := by
      simp only [pySlice, Nat.mul_zero, Nat.zero_add, List.drop_zero]
      rw [List.take_append_of_le_length (by rw [byteBits_length]), List.take_of_length_le (by rw [byteBits_length])]
    rw [h, bitsVal_byteBits]
    simp

theorem bitsToBytes_bytes (a : List Byte) (l : List Bool) : bitsToBytes (bytesBits a ++ l) = a ++ bitsToBytes l := by
  induction a with
  | nil => rfl
  | cons b a ih => rw [bytesBits_cons, List.append_assoc, bitsToBytes_cons, ih]; rfl

/-! ### Frames standing in a buffer -/

/-- The numbers at the places of frames standing one after the other are those of the decoded frames. -/
theorem frames_read (xs : List (MsgClass × List Byte)) (hp : ∀ x ∈ xs, PackedFrame x.1 x.2 ∧ NoArrays x.1)
    (pre post : List Byte) :
    InRange (pre ++ (xs.map Prod.snd).flatten ++ post).length (layout pre.length xs) ∧
    ∃ msgs, List.Forall₂ (fun (x : MsgClass × List Byte) msg => decode x.2 = .ok msg ∧ msg.cls = x.1) xs msgs ∧
      (fieldPlaces (layout pre.length xs)).map (fun q => (q.name, unpackScalar q.type
        (q.bytes (pre ++ (xs.map Prod.snd).flatten ++ post)))) = msgs.flatMap named := by
  induction xs generalizing pre with
  | nil => exact ⟨(by intro r hr; cases hr), [], List.Forall₂.nil, rfl⟩
  | cons x xs ih =>
    obtain ⟨m, f⟩ := x
    obtain ⟨hpf, hn⟩ : PackedFrame m f ∧ NoArrays m := hp (m, f) List.mem_cons_self
    obtain ⟨hr, msgs, hd, hv⟩ := ih (fun x hx => hp x (List.mem_cons_of_mem _ hx)) (pre ++ f)
    obtain ⟨h8, _, g0, g1, g5, hret⟩ := packed_head hpf
    have hm := hpf.1
    have hflen : f.length = msgLen m + 8 := by
      obtain ⟨_, fields, seq, sys, comp, hpk⟩ := hpf
      have h1 := c08_no_arrays m hm hn _ _ _ _ f hpk
      rw [payloadLen_mem hm] at h1
      have := Option.some.inj h1
      omega
    have hbuf : pre ++ f ++ (xs.map Prod.snd).flatten ++ post = pre ++ (((m, f) :: xs).map Prod.snd).flatten ++ post := by
      simp
    rw [hbuf, List.length_append (as := pre) (bs := f)] at hr hv
    generalize hB : pre ++ (((m, f) :: xs).map Prod.snd).flatten ++ post = B at hr hv ⊢
    have hBd : B.drop pre.length = f ++ ((xs.map Prod.snd).flatten ++ post) := by
      rw [← hB]; simp
    have hBl : pre.length + f.length ≤ B.length := by rw [← hB]; simp
    have hg : ∀ k, k < f.length → B.getD (pre.length + k) 0 = f.getD k 0 := by
      intro k hk
      rw [← getD_drop, hBd]
      simp [List.getD, List.getElem?_append_left hk]
    have hfb : frameBytes B pre.length (msgLen m) = f := by
      unfold frameBytes
      rw [hBd, ← hflen]
      simp
    obtain ⟨msg, k1, k2, _, _, _, k6⟩ := message_read hm hn B pre.length (by omega)
      (by have := hg 0 (by omega); rw [Nat.add_zero] at this; rw [this, g0]; rfl)
      (by rw [hg 1 (by omega), g1]; omega) (by rw [hg 5 (by omega), g5]) (by rw [hfb]; exact hret)
    rw [hfb] at k1
    refine ⟨?_, msg :: msgs, List.Forall₂.cons ⟨k1, k2⟩ hd, ?_⟩
    · intro r hr'
      simp only [layout] at hr'
      rcases List.mem_cons.1 hr' with rfl | hr'
      · exact ⟨m, hm, rfl, hn, by simp only; omega⟩
      · exact hr r hr'
    · simp only [layout, fieldPlaces, List.flatMap_cons, List.map_append] at hv ⊢
      rw [k6, hv]

/-! ### Words that arrive -/

/-- A word as it was sent: the cluster, the messages with their frames, and the bits after them. -/
structure Sent where
  cluster : Nat
  frames : List (MsgClass × List Byte)
  pad : List Bool

/-- The bytes of the messages. -/
def Sent.bytes (x : Sent) : List Byte := (x.frames.map Prod.snd).flatten

/-- The information bits sent. -/
def Sent.word (x : Sent) : List Bool := bytesBits x.bytes ++ x.pad

/-- The run of the LDPC decoder was for the cluster of the word, succeeded, and its result begins with the word, which the
package also extracts from it. -/
structure Arrives (infoBytes : List Bool → List Byte) (x : Sent) (e : MavEvent) : Prop where
  pos : e.pos = x.cluster
  success : e.out.success = true
  estimate : x.word <+: e.out.estimate
  info : infoBytes e.out.estimate = packBits x.word

/-- Packed messages without arrays. -/
def Sent.Ok (x : Sent) : Prop := ∀ y ∈ x.frames, PackedFrame y.1 y.2 ∧ NoArrays y.1

/-- The bits after the messages hold no further message. -/
def Sent.Quiet (x : Sent) : Prop := messagesIn (packBits x.word) = layout 0 x.frames

theorem takes_word (x : Sent) (hx : x.Ok) (est : List Bool) (he : x.word <+: est) :
    Addable (.bits est, layout 0 x.frames) ∧ ∃ msgs, List.Forall₂ (fun (y : MsgClass × List Byte) msg => decode y.2 = .ok msg ∧ msg.cls = y.1) x.frames msgs ∧
      ∀ name, takes name (.bits est, layout 0 x.frames) = under name msgs := by
  obtain ⟨tail, rfl⟩ := he
  have hb : bitsToBytes (x.word ++ tail) = [] ++ (x.frames.map Prod.snd).flatten ++ bitsToBytes (x.pad ++ tail) := by
    unfold Sent.word Sent.bytes
    rw [List.append_assoc, bitsToBytes_bytes]
    rfl
  obtain ⟨hr, msgs, hd, hv⟩ := frames_read x.frames hx [] (bitsToBytes (x.pad ++ tail))
  rw [← hb] at hr hv
  refine ⟨⟨_, rfl, hr⟩, msgs, hd, fun name => ?_⟩
  unfold under
  rw [← hv]
  simp only [takes, argBytes, List.filter_map, List.map_map]
  rfl

/-- The structure of a cluster after words have arrived. -/
theorem structure_arrived (infoBytes : List Bool → List Byte) (j : Nat) (l : List (Nat × Nat)) :
    ∀ (xs : List Sent) (evs : List MavEvent), List.Forall₂ (Arrives infoBytes) xs evs →
    (∀ x ∈ xs, x.cluster = j → layout 0 x.frames = l) →
    (∀ pre x post, xs = pre ++ x :: post → x.cluster = j → (∀ y ∈ pre, y.cluster ≠ j) → x.Quiet) →
    structureAfter infoBytes evs j = if ∃ x ∈ xs, x.cluster = j then some l else none := by
  intro xs evs h
  induction h with
  | nil => intro _ _; simp [structureAfter]
  | @cons x e xs evs hxe _ ih =>
    intro hl hq
    unfold structureAfter
    rw [List.find?_cons]
    by_cases hj : e.pos = j
    · have hxj : x.cluster = j := hxe.pos ▸ hj
      have : (e.pos == j && e.out.success) = true := by simp [hj, hxe.success]
      rw [this]
      simp only [Option.map_some]
      rw [if_pos ⟨x, List.mem_cons_self, hxj⟩, hxe.info, hq [] x xs rfl hxj (by simp), hl x List.mem_cons_self hxj]
    · have hxj : x.cluster ≠ j := by rw [← hxe.pos]; exact hj
      have : (e.pos == j && e.out.success) = false := by simp [hj]
      rw [this]
      simp only
      have h2 := ih (fun y hy => hl y (List.mem_cons_of_mem _ hy)) (fun pre y post he hy hpre => by
        refine hq (x :: pre) y post (by rw [he]; rfl) hy ?_
        intro z hz
        rcases List.mem_cons.1 hz with rfl | hz
        · exact hxj
        · exact hpre z hz)
      unfold structureAfter at h2
      rw [h2]
      have hiff : (∃ y ∈ x :: xs, y.cluster = j) ↔ ∃ y ∈ xs, y.cluster = j := by
        simp [hxj]
      simp only [hiff]

/-- The words sent to a cluster all consist of the same messages, and the bits after the messages of the first of them hold no
further message. -/
structure Steady (lay : Nat → List (Nat × Nat)) (xs : List Sent) : Prop where
  ok : ∀ x ∈ xs, x.Ok
  same : ∀ x ∈ xs, layout 0 x.frames = lay x.cluster
  quiet : ∀ pre x post, xs = pre ++ x :: post → (∀ y ∈ pre, y.cluster ≠ x.cluster) → x.Quiet

theorem learned_arrived (infoBytes : List Bool → List Byte) (lay : Nat → List (Nat × Nat)) (all : List Sent)
    (hs : Steady lay all) (xs : List Sent) (evs : List MavEvent) (h : List.Forall₂ (Arrives infoBytes) xs evs) :
    ∀ (done : List Sent) (before : List MavEvent), List.Forall₂ (Arrives infoBytes) done before → all = done ++ xs →
    learnedWords infoBytes before evs = (xs.zip evs).map fun p => (.bits p.2.out.estimate, layout 0 p.1.frames) := by
  induction h with
  | nil => intro _ _ _ _; rfl
  | @cons x e xs evs hxe _ ih =>
    intro done before hd hall
    have hd' : List.Forall₂ (Arrives infoBytes) (done ++ [x]) (before ++ [e]) :=
      List.rel_append hd (List.Forall₂.cons hxe List.Forall₂.nil)
    have hst := structure_arrived infoBytes x.cluster (lay x.cluster) _ _ hd'
      (fun y hy hc => by rw [hs.same y (by rw [hall]; simp only [List.mem_append, List.mem_cons] at hy ⊢; tauto), hc])
      (fun pre y post he hy hpre => hs.quiet pre y (post ++ xs) (by
        rw [hall, show done ++ x :: xs = done ++ [x] ++ xs by simp, he]; simp) (by rw [hy]; exact hpre))
    rw [if_pos ⟨x, by simp, rfl⟩] at hst
    simp only [learnedWords, List.zip_cons_cons, List.map_cons]
    rw [hxe.pos, hst]
    simp only [hxe.success, if_true]
    rw [hs.same x (by rw [hall]; simp), ih _ _ hd' (by rw [hall]; simp)]
    rfl

theorem forall₂_split {α β : Type} {R : α → β → Prop} {a b : List α} {l : List β} (h : List.Forall₂ R (a ++ b) l) :
    ∃ l1 l2, List.Forall₂ R a l1 ∧ List.Forall₂ R b l2 ∧ l = l1 ++ l2 := by
  induction a generalizing l with
  | nil => exact ⟨[], l, List.Forall₂.nil, h, rfl⟩
  | cons x a ih =>
    rw [List.cons_append] at h
    cases h with
    | cons h1 h2 =>
      obtain ⟨l1, l2, k1, k2, rfl⟩ := ih h2
      exact ⟨_ :: l1, l2, List.Forall₂.cons h1 k1, k2, rfl⟩

/-- The values taken from the words that arrived are the numbers of the messages sent. -/
theorem hist_arrived (infoBytes : List Bool → List Byte) (xs : List Sent) (evs : List MavEvent)
    (ha : List.Forall₂ (Arrives infoBytes) xs evs) (hok : ∀ x ∈ xs, x.Ok) (msgs : List MavMsg)
    (hm : List.Forall₂ (fun f msg => decode f = .ok msg) ((xs.flatMap Sent.frames).map Prod.snd) msgs) (name : String) :
    ((xs.zip evs).map fun p => (BufArg.bits p.2.out.estimate, layout 0 p.1.frames)).flatMap (takes name) = under name msgs := by
  induction ha generalizing msgs with
  | nil => simp at hm; subst hm; rfl
  | @cons x e xs evs hxe _ ih =>
    rw [List.flatMap_cons, List.map_append] at hm
    obtain ⟨m1, m2, hm1, hm2, rfl⟩ : ∃ m1 m2, List.Forall₂ (fun f msg => decode f = .ok msg) (x.frames.map Prod.snd) m1 ∧
        List.Forall₂ (fun f msg => decode f = .ok msg) ((xs.flatMap Sent.frames).map Prod.snd) m2 ∧ msgs = m1 ++ m2 := by
      exact forall₂_split hm
    obtain ⟨_, ms, hd, ht⟩ := takes_word x (hok x List.mem_cons_self) _ hxe.estimate
    have hms : ms = m1 := by
      clear ht hm hm2 hxe ih hok
      generalize x.frames = fs at hd hm1
      induction hd generalizing m1 with
      | nil => cases hm1; rfl
      | cons h _ ih =>
        rw [List.map_cons] at hm1
        cases hm1 with
        | cons h' hr =>
          have := h.1.symm.trans h'
          injection this with this
          rw [this, ih _ hr]
    rw [List.zip_cons_cons, List.map_cons, List.flatMap_cons, ih (fun y hy => hok y (List.mem_cons_of_mem _ hy)) _ hm2, ht name, hms]
    simp [under]

open Classical in
/-- Every word that arrived was learned. -/
theorem learned_all (infoBytes : List Bool → List Byte) (lay : Nat → List (Nat × Nat)) (xs : List Sent) (hx : Steady lay xs)
    (evs : List MavEvent) (ha : List.Forall₂ (Arrives infoBytes) xs evs) :
    (learnedWords infoBytes [] evs).filter (fun a => Addable a) =
      (xs.zip evs).map fun p => (.bits p.2.out.estimate, layout 0 p.1.frames) := by
  rw [learned_arrived infoBytes lay xs hx xs evs ha [] [] List.Forall₂.nil rfl, List.filter_eq_self]
  intro a hmem
  obtain ⟨⟨x, e⟩, hp, rfl⟩ := List.mem_map.1 hmem
  have hxe : Arrives infoBytes x e := (List.forall₂_iff_zip.1 ha).2 hp
  simp only [decide_eq_true_eq]
  exact (takes_word x (hx.ok x (List.of_mem_zip hp).1) _ hxe.estimate).1

open Classical in
/-- C117: if every run of the LDPC decoder returns the word that was sent, words of a cluster consist of the same messages
(without arrays), and the bits after the messages of the first word of a cluster hold no message, then the structure of every
cluster is that of its messages, the model has counted every word, and it holds under every name the window of the numbers of
the messages that were sent, in order. This is so for every window, classifier, LDPC decoder, channel and number of words. -/
theorem c117_learned {c : MavCfg} (hl : c.learning = true) (cls : Labeler σ) (ldpc : Ldpc Λ) (w : Option Nat) (cs : σ)
    (l : Λ) (words : List (List ℝ)) (s : Mav σ Λ) (evs : List MavEvent)
    (hs : s = (Mav.run c cls ldpc (Mav.new c.nClusters (BufferModel.new w) cs l) words).1)
    (hev : evs = (Mav.run c cls ldpc (Mav.new c.nClusters (BufferModel.new w) cs l) words).2.flatMap MavStep.events)
    (lay : Nat → List (Nat × Nat)) (xs : List Sent) (hx : Steady lay xs) (ha : List.Forall₂ (Arrives c.infoBytes) xs evs)
    (msgs : List MavMsg) (hm : List.Forall₂ (fun f msg => decode f = .ok msg) ((xs.flatMap Sent.frames).map Prod.snd) msgs) :
    (∀ j < c.nClusters, s.structures[j]? = some (if ∃ x ∈ xs, x.cluster = j then some (lay j) else none)) ∧
    s.model.modelSize = sizeAfter w xs.length ∧
    ∀ name, ((s.model.models.lookup name).map FieldModel.samples).getD [] = windowed w (under name msgs) := by
  obtain ⟨h1, h2, h3⟩ := c57_learned hl cls ldpc w cs l words s evs _ hs hev rfl
  have hall := learned_all c.infoBytes lay xs hx evs ha
  rw [hall] at h2 h3
  refine ⟨?_, ?_, fun name => ?_⟩
  · intro j hj
    rw [h1, List.getElem?_map, List.getElem?_range hj, Option.map_some, structure_arrived c.infoBytes j (lay j) xs evs ha
      (fun x hxm hc => by rw [hx.same x hxm, hc]) (fun pre x post he hc hpre => hx.quiet pre x post he (by rw [hc]; exact hpre))]
  · rw [h2, List.length_map, List.length_zip, ha.length_eq, Nat.min_self]
  · rw [h3 name]
    congr 1
    exact hist_arrived c.infoBytes xs evs ha hx.ok msgs hm name

/-! ### A recorded mission -/

/-- Names of the header fields of a class. -/
def headNames (m : MsgClass) : List String :=
  ["magic", m.name ++ "_mlen", "seq", "srcSystem", m.name ++ "_srcComponent", m.name ++ "_msgId"]

/-- The five message classes of a mission. -/
def five : List MsgClass := [msg33, msg234, msg30, msg212, msg218]

theorem five_names : ∀ a ∈ five, ∀ m ∈ five, ∀ nm ∈ m.orderedFieldnames,
    (∀ h ∈ headNames a, h ≠ m.name ++ "_" ++ nm) ∧
    (a.orderedFieldnames.filter fun x => a.name ++ "_" ++ x = m.name ++ "_" ++ nm) = if a.id = m.id then [nm] else [] := by
  decide +kernel

theorem five_seq : ∀ a ∈ five, a.name ++ "_mlen" ≠ "seq" ∧ a.name ++ "_srcComponent" ≠ "seq" ∧ a.name ++ "_msgId" ≠ "seq" ∧
    ∀ x ∈ a.orderedFieldnames, a.name ++ "_" ++ x ≠ "seq" := by
  decide +kernel

theorem under_cons (name : String) (x : MavMsg) (l : List MavMsg) : under name (x :: l) = under name [x] ++ under name l := by
  simp [under]

theorem under_append (name : String) (a b : List MavMsg) : under name (a ++ b) = under name a ++ under name b := by
  simp [under]

theorem under_field (msg : MavMsg) (ha : msg.cls ∈ five) (m : MsgClass) (hm : m ∈ five) (nm : String)
    (hn : nm ∈ m.orderedFieldnames) :
    under (m.name ++ "_" ++ nm) [msg] = if msg.cls.id = m.id then [numberOf msg nm] else [] := by
  obtain ⟨h1, h2⟩ := five_names _ ha m hm nm hn
  simp only [under, named, List.flatMap_cons, List.flatMap_nil, List.append_nil, List.filter_append, List.map_append]
  simp only [headNames, List.mem_cons, List.not_mem_nil, or_false, forall_eq_or_imp, forall_eq] at h1
  obtain ⟨a1, a2, a3, a4, a5, a6⟩ := h1
  simp only [List.filter_map, List.map_map, Function.comp_def]
  rw [h2]
  simp only [List.filter_cons, a1, a2, a3, a4, a5, a6, decide_false, Bool.false_eq_true, if_false, List.filter_nil, List.map_nil,
    List.nil_append]
  split <;> rfl

theorem under_seq (msg : MavMsg) (ha : msg.cls ∈ five) : under "seq" [msg] = [.int msg.seq] := by
  obtain ⟨a1, a2, a3, a4⟩ := five_seq _ ha
  simp only [under, named, List.flatMap_cons, List.flatMap_nil, List.append_nil, List.filter_append, List.map_append]
  have hs : ((msg.cls.orderedFieldnames.map fun nm => (msg.cls.name ++ "_" ++ nm, numberOf msg nm)).filter fun x => x.1 = "seq") = [] := by
    rw [List.filter_eq_nil_iff]
    intro x hx
    obtain ⟨nm, hnm, rfl⟩ := List.mem_map.1 hx
    simpa using a4 nm hnm
  rw [hs]
  simp [a1, a2, a3]

/-- What a buffer of a mission contributes: the numbers recorded for its time, and five sequence numbers. -/
structure Contributes (r : Recording) (t : Int) (seq : Nat) (msgs : List MavMsg) : Prop where
  fields : ∀ x ∈ r.messages, ∀ j < x.1.orderedFieldnames.length, ∃ v i, RowFor x.2.2.times t i ∧
    recorded x.2.2 j i = .num v ∧ under (x.1.name ++ "_" ++ x.1.orderedFieldnames.getD j "") msgs = [v]
  seq : under "seq" msgs = (List.range 5).map fun k => .int ((seq + k) % 256 : Nat)
  heads : ∀ msg ∈ msgs, msg.cls ∈ five ∧ msg.srcSystem = 1 ∧ msg.srcComponent = 1

theorem carries_number {m : MsgClass} {s : Sensor} {t : Int} {seq : Nat} {f : List Byte} (h : CarriesRow m s t seq f) :
    ∃ msg i, decode f = .ok msg ∧ msg.cls = m ∧ msg.seq = seq ∧ (msg.srcSystem = 1 ∧ msg.srcComponent = 1) ∧
      RowFor s.times t i ∧ ∀ j < m.orderedFieldnames.length, recorded s j i = .num (numberOf msg (m.orderedFieldnames.getD j "")) := by
  obtain ⟨msg, i, h1, h2, h3, h4, h5, h6, h7⟩ := h
  refine ⟨msg, i, h1, h2, h3, ⟨h4, h5⟩, h6, fun j hj => ?_⟩
  have := h7 j hj
  unfold numberOf
  rw [this]
  rfl

theorem frames_contribute (r : Recording) (t : Int) (seq : Nat) (f1 f2 f3 f4 f5 : List Byte)
    (h : FiveFrames r t seq f1 f2 f3 f4 f5) :
    ∃ msgs, List.Forall₂ (fun f msg => decode f = .ok msg) [f1, f2, f3, f4, f5] msgs ∧ Contributes r t seq msgs := by
  obtain ⟨m1, i1, d1, c1, s1, e1, r1, v1⟩ := carries_number h.position
  obtain ⟨m2, i2, d2, c2, s2, e2, r2, v2⟩ := carries_number h.pinger
  obtain ⟨m3, i3, d3, c3, s3, e3, r3, v3⟩ := carries_number h.attitude
  obtain ⟨m4, i4, d4, c4, s4, e4, r4, v4⟩ := carries_number h.svs
  obtain ⟨m5, i5, d5, c5, s5, e5, r5, v5⟩ := carries_number h.chamber
  have k1 : m1.cls ∈ five := by rw [c1]; simp [five]
  have k2 : m2.cls ∈ five := by rw [c2]; simp [five]
  have k3 : m3.cls ∈ five := by rw [c3]; simp [five]
  have k4 : m4.cls ∈ five := by rw [c4]; simp [five]
  have k5 : m5.cls ∈ five := by rw [c5]; simp [five]
  have key : ∀ m ∈ five, ∀ nm ∈ m.orderedFieldnames, under (m.name ++ "_" ++ nm) [m1, m2, m3, m4, m5] =
      (if msg33.id = m.id then [numberOf m1 nm] else []) ++ ((if msg234.id = m.id then [numberOf m2 nm] else []) ++
      ((if msg30.id = m.id then [numberOf m3 nm] else []) ++ ((if msg212.id = m.id then [numberOf m4 nm] else []) ++
      (if msg218.id = m.id then [numberOf m5 nm] else [])))) := by
    intro m hm nm hnm
    rw [under_cons, under_cons _ m2, under_cons _ m3, under_cons _ m4, under_field _ k1 m hm nm hnm, under_field _ k2 m hm nm hnm,
      under_field _ k3 m hm nm hnm, under_field _ k4 m hm nm hnm, under_field _ k5 m hm nm hnm, c1, c2, c3, c4, c5]
  have mem : ∀ (m : MsgClass) (j : Nat), j < m.orderedFieldnames.length → m.orderedFieldnames.getD j "" ∈ m.orderedFieldnames := by
    intro m j hj
    rw [getD_lt _ _ hj]
    exact List.getElem_mem _
  refine ⟨[m1, m2, m3, m4, m5], ?_, ?_, ?_, ?_⟩
  · exact .cons d1 (.cons d2 (.cons d3 (.cons d4 (.cons d5 .nil))))
  · intro x hx j hj
    simp only [Recording.messages, List.mem_cons, List.not_mem_nil, or_false] at hx
    rcases hx with rfl | rfl | rfl | rfl | rfl
    · exact ⟨_, i1, r1, v1 j hj, by rw [key msg33 (by simp [five]) _ (mem _ j hj)]; rfl⟩
    · exact ⟨_, i2, r2, v2 j hj, by rw [key msg234 (by simp [five]) _ (mem _ j hj)]; rfl⟩
    · exact ⟨_, i3, r3, v3 j hj, by rw [key msg30 (by simp [five]) _ (mem _ j hj)]; rfl⟩
    · exact ⟨_, i4, r4, v4 j hj, by rw [key msg212 (by simp [five]) _ (mem _ j hj)]; rfl⟩
    · exact ⟨_, i5, r5, v5 j hj, by rw [key msg218 (by simp [five]) _ (mem _ j hj)]; rfl⟩
  · rw [under_cons, under_cons _ m2, under_cons _ m3, under_cons _ m4, under_seq _ k1, under_seq _ k2, under_seq _ k3,
      under_seq _ k4, under_seq _ k5, s1, s2, s3, s4, s5]
    rfl
  · intro msg hmsg
    simp only [List.mem_cons, List.not_mem_nil, or_false] at hmsg
    rcases hmsg with rfl | rfl | rfl | rfl | rfl
    exacts [⟨k1, e1⟩, ⟨k2, e2⟩, ⟨k3, e3⟩, ⟨k4, e4⟩, ⟨k5, e5⟩]

/-- The words sent for one buffer. -/
structure Block (r : Recording) (n : Nat) (t : Int) (seq : Nat) (ws : List (List Bool)) (xs : List Sent) (msgs : List MavMsg) :
    Prop where
  words : xs.map (fun x => (x.word, x.cluster)) = ws.zipIdx
  clusters : xs.map Sent.cluster = List.range n
  ok : ∀ x ∈ xs, x.Ok
  same : ∀ x ∈ xs, layout 0 x.frames = (partLayouts n).getD x.cluster []
  decoded : List.Forall₂ (fun f msg => decode f = .ok msg) ((xs.flatMap Sent.frames).map Prod.snd) msgs
  numbers : Contributes r t seq msgs

theorem block_of_buffer {G : Type} (rng : G → Nat → G × (Nat → Bool)) (g : G) (r : Recording) (hr : RecordingFits r) (t : Int)
    (seq : Nat) (hseq : seq ≤ 255) (seq' : Nat) (buf : List Byte) (hb : createBuffer r t seq = .ok (seq', buf)) (n k : Nat)
    (h1 : 1 ≤ n) (h3 : n ≤ 3) (hk : infoBits n = .ok k) (ws : List (List Bool))
    (hw : (infoWords rng g n k (bytesBits buf)).2 = .ok ws) : ∃ xs msgs, Block r n t seq ws xs msgs := by
  obtain ⟨f1, f2, f3, f4, f5, h, hf, p1, p2, p3, p4, p5⟩ := five_ok r hr t seq hseq
  rw [hb] at h; cases h
  obtain ⟨msgs, hd, hc⟩ := frames_contribute r t seq f1 f2 f3 f4 f5 hf
  obtain ⟨l1, l2, l3, l4, l5, _⟩ := hf
  have q1 : PackedFrame msg33 f1 ∧ NoArrays msg33 := ⟨p1, by decide⟩
  have q2 : PackedFrame msg234 f2 ∧ NoArrays msg234 := ⟨p2, by decide⟩
  have q3 : PackedFrame msg30 f3 ∧ NoArrays msg30 := ⟨p3, by decide⟩
  have q4 : PackedFrame msg212 f4 ∧ NoArrays msg212 := ⟨p4, by decide⟩
  have q5 : PackedFrame msg218 f5 ∧ NoArrays msg218 := ⟨p5, by decide⟩
  have hlen : (bytesBits (f1 ++ f2 ++ f3 ++ f4 ++ f5)).length = 1224 := by
    rw [bytesBits_length]; simp [l1, l2, l3, l4, l5]
  obtain ⟨k', parts, pads, hk', hparts, hws, hpl, _⟩ := c78_words rng g (bytesBits (f1 ++ f2 ++ f3 ++ f4 ++ f5)) hlen n h1 h3
  rw [hk] at hk'; cases hk'
  rw [hw] at hws; cases hws
  have hn : n = 1 ∨ n = 2 ∨ n = 3 := by omega
  rcases hn with rfl | rfl | rfl
  · cases hparts
    match pads, hpl with
    | [pad], _ =>
      refine ⟨[⟨0, [(msg33, f1), (msg234, f2), (msg30, f3), (msg212, f4), (msg218, f5)], pad⟩], msgs, ?_, rfl, ?_, ?_, hd, hc⟩
      · simp [Sent.word, Sent.bytes]
      · intro x hx
        rw [List.mem_singleton.1 hx]
        intro y hy
        simp only [List.mem_cons, List.not_mem_nil, or_false] at hy
        rcases hy with rfl | rfl | rfl | rfl | rfl
        exacts [q1, q2, q3, q4, q5]
      · intro x hx
        rw [List.mem_singleton.1 hx]
        simp [layout, l1, l2, l3, l4, partLayouts, fiveLayout]
        decide
  · have hcut := cut_bits (f1 ++ f2) (f3 ++ f4 ++ f5) 576 (by simp [l1, l2])
    rw [show f1 ++ f2 ++ (f3 ++ f4 ++ f5) = f1 ++ f2 ++ f3 ++ f4 ++ f5 by simp] at hcut
    cases hparts
    match pads, hpl with
    | [pad, pad2], _ =>
      refine ⟨[⟨0, [(msg33, f1), (msg234, f2)], pad⟩, ⟨1, [(msg30, f3), (msg212, f4), (msg218, f5)], pad2⟩], msgs, ?_, rfl, ?_, ?_,
        hd, hc⟩
      · simp only [List.append_assoc] at hcut
        simp [Sent.word, Sent.bytes, hcut.1, hcut.2, List.zipIdx_cons]
      · intro x hx
        simp only [List.mem_cons, List.not_mem_nil, or_false] at hx
        rcases hx with rfl | rfl <;> intro y hy <;> simp only [List.mem_cons, List.not_mem_nil, or_false] at hy
        · rcases hy with rfl | rfl
          exacts [q1, q2]
        · rcases hy with rfl | rfl | rfl
          exacts [q3, q4, q5]
      · intro x hx
        simp only [List.mem_cons, List.not_mem_nil, or_false] at hx
        rcases hx with rfl | rfl
        · simp [layout, l1, partLayouts]; decide
        · simp [layout, l3, l4, partLayouts]; decide
  · have hcut := cut_bits f1 (f2 ++ f3 ++ f4 ++ f5) 416 (by simp [l1])
    rw [show f1 ++ (f2 ++ f3 ++ f4 ++ f5) = f1 ++ f2 ++ f3 ++ f4 ++ f5 by simp] at hcut
    have hd2 := cut_bits (f1 ++ (f2 ++ f3)) (f4 ++ f5) 864 (by simp [l1, l2, l3])
    rw [show f1 ++ (f2 ++ f3) ++ (f4 ++ f5) = f1 ++ f2 ++ f3 ++ f4 ++ f5 by simp] at hd2
    have he := cut_bits f1 (f2 ++ f3) 416 (by simp [l1])
    cases hparts
    match pads, hpl with
    | [pad, pad2, pad3], _ =>
      refine ⟨[⟨0, [(msg33, f1)], pad⟩, ⟨1, [(msg234, f2), (msg30, f3)], pad2⟩, ⟨2, [(msg212, f4), (msg218, f5)], pad3⟩], msgs,
        ?_, rfl, ?_, ?_, hd, hc⟩
      · simp only [List.append_assoc] at hcut hd2 he
        simp [Sent.word, Sent.bytes, pySlice, hd2.1, hd2.2, he.2, hcut.1, List.zipIdx_cons]
      · intro x hx
        simp only [List.mem_cons, List.not_mem_nil, or_false] at hx
        rcases hx with rfl | rfl | rfl <;> intro y hy <;> simp only [List.mem_cons, List.not_mem_nil, or_false] at hy
        · rw [hy]; exact q1
        · rcases hy with rfl | rfl
          exacts [q2, q3]
        · rcases hy with rfl | rfl
          exacts [q4, q5]
      · intro x hx
        simp only [List.mem_cons, List.not_mem_nil, or_false] at hx
        rcases hx with rfl | rfl | rfl
        · simp [layout, partLayouts]; decide
        · simp [layout, l2, partLayouts]; decide
        · simp [layout, l4, partLayouts]; decide

/-- The words of a mission and what they contribute. -/
structure Mission (r : Recording) (n : Nat) (ts : List Int) (seq : Nat) (words : List (List (List Bool))) (xs : List Sent)
    (msgs : List MavMsg) : Prop where
  sent : xs.map (fun x => (x.word, x.cluster)) = words.flatMap List.zipIdx
  first : ts ≠ [] → ∃ a b, xs = a ++ b ∧ a.map (fun x => (x.word, x.cluster)) = (words.headD []).zipIdx ∧
    a.map Sent.cluster = List.range n
  cluster : ∀ x ∈ xs, x.cluster < n
  len : xs.length = n * ts.length
  ok : ∀ x ∈ xs, x.Ok
  same : ∀ x ∈ xs, layout 0 x.frames = (partLayouts n).getD x.cluster []
  decoded : List.Forall₂ (fun f msg => decode f = .ok msg) ((xs.flatMap Sent.frames).map Prod.snd) msgs
  fields : ∀ x ∈ r.messages, ∀ j < x.1.orderedFieldnames.length, ∃ vals,
    List.Forall₂ (fun t v => ∃ i, RowFor x.2.2.times t i ∧ recorded x.2.2 j i = .num v) ts vals ∧
    under (x.1.name ++ "_" ++ x.1.orderedFieldnames.getD j "") msgs = vals
  heads : ∀ msg ∈ msgs, msg.cls ∈ five ∧ msg.srcSystem = 1 ∧ msg.srcComponent = 1
  seqs : under "seq" msgs = (List.range (5 * ts.length)).map fun k => .int ((seq + k) % 256 : Nat)

theorem mission_of_buffers {G : Type} (rng : G → Nat → G × (Nat → Bool)) (r : Recording) (hr : RecordingFits r) (n k : Nat)
    (h1 : 1 ≤ n) (h3 : n ≤ 3) (hk : infoBits n = .ok k) (ts : List Int) (bufs : List (List Byte)) (words : List (List (List Bool)))
    (hw : List.Forall₂ (fun buf ws => ∃ g, (infoWords rng g n k (bytesBits buf)).2 = .ok ws) bufs words) :
    ∀ (seq : Nat) (_ : seq ≤ 255) (seq' : Nat), createBuffers r ts seq = .ok (seq', bufs) →
      ∃ xs msgs, Mission r n ts seq words xs msgs := by
  induction ts generalizing bufs words with
  | nil =>
    intro seq _ seq' hb
    simp only [createBuffers, Except.ok.injEq, Prod.mk.injEq] at hb
    rw [← hb.2] at hw
    cases hw
    refine ⟨[], [], rfl, by simp, by simp, rfl, by simp, by simp, List.Forall₂.nil, ?_, by simp, rfl⟩
    intro x _ j _
    exact ⟨[], List.Forall₂.nil, rfl⟩
  | cons t ts ih =>
    intro seq hseq seq' hb
    obtain ⟨f1, f2, f3, f4, f5, h, _⟩ := c77_buffer r hr t seq hseq
    simp only [createBuffers, h, bind, Except.bind] at hb
    obtain ⟨bs, hbs, hl, _⟩ := c77_sequence r hr ts ((seq + 5) % 256) (by omega)
    rw [hbs] at hb
    simp only [Except.ok.injEq, Prod.mk.injEq] at hb
    rw [← hb.2] at hw
    cases hw with
    | @cons _ ws _ words hg hw' =>
      obtain ⟨g, hg⟩ := hg
      obtain ⟨a, ma, B⟩ := block_of_buffer rng g r hr t seq hseq _ _ h n k h1 h3 hk ws hg
      obtain ⟨xs, msgs, M⟩ := ih bs words hw' ((seq + 5) % 256) (by omega) _ hbs
      have ha : a.length = n := by
        have := congrArg List.length B.clusters
        simpa using this
      refine ⟨a ++ xs, ma ++ msgs, ?_, fun _ => ⟨a, xs, rfl, B.words, B.clusters⟩, ?_, ?_, ?_, ?_, ?_, ?_, ?_, ?_⟩
      · rw [List.map_append, B.words, M.sent]; rfl
      · intro x hx
        rcases List.mem_append.1 hx with hx | hx
        · have : x.cluster ∈ List.range n := by rw [← B.clusters]; exact List.mem_map.2 ⟨x, hx, rfl⟩
          simpa using this
        · exact M.cluster x hx
      · rw [List.length_append, ha, M.len, List.length_cons, Nat.mul_add, Nat.mul_one, Nat.add_comm]
      · intro x hx
        rcases List.mem_append.1 hx with hx | hx
        exacts [B.ok x hx, M.ok x hx]
      · intro x hx
        rcases List.mem_append.1 hx with hx | hx
        exacts [B.same x hx, M.same x hx]
      · rw [List.flatMap_append, List.map_append]
        exact List.rel_append B.decoded M.decoded
      · intro x hx j hj
        obtain ⟨v, i, h1, h2, h3⟩ := B.numbers.fields x hx j hj
        obtain ⟨vals, k1, k2⟩ := M.fields x hx j hj
        exact ⟨v :: vals, List.Forall₂.cons ⟨i, h1, h2⟩ k1, by rw [under_append, h3, k2]; rfl⟩
      · intro msg hmsg
        rcases List.mem_append.1 hmsg with h | h
        exacts [B.numbers.heads msg h, M.heads msg h]
      · rw [under_append, B.numbers.seq, M.seqs, List.length_cons, Nat.mul_add, Nat.mul_one, Nat.add_comm (5 * ts.length) 5,
          List.range_add, List.map_append, List.map_map]
        congr 1
        apply List.map_congr_left
        intro k _
        simp only [Function.comp_apply]
        congr 2
        omega

/-- A run for the word `p.1` sent to cluster `p.2` that succeeded and returned that word, followed by anything. -/
def WordArrives (infoBytes : List Bool → List Byte) (p : List Bool × Nat) (e : MavEvent) : Prop :=
  e.pos = p.2 ∧ e.out.success = true ∧ p.1 <+: e.out.estimate ∧ infoBytes e.out.estimate = packBits p.1

/-- The words of a mission that arrive are steady, if the padding of the first buffer holds no message. -/
theorem mission_steady (r : Recording) (n : Nat) (ts : List Int) (seq : Nat) (words : List (List (List Bool))) (xs : List Sent)
    (msgs : List MavMsg) (M : Mission r n ts seq words xs msgs)
    (hq : ∀ p ∈ (words.headD []).zipIdx, messagesIn (packBits p.1) = (partLayouts n).getD p.2 [])
    (infoBytes : List Bool → List Byte) (evs : List MavEvent)
    (ha : List.Forall₂ (WordArrives infoBytes) (words.flatMap List.zipIdx) evs) :
    List.Forall₂ (Arrives infoBytes) xs evs ∧ Steady (fun j => (partLayouts n).getD j []) xs := by
  have harr : List.Forall₂ (Arrives infoBytes) xs evs := by
    rw [← M.sent, List.forall₂_map_left_iff] at ha
    exact ha.imp fun x e h => ⟨h.1, h.2.1, h.2.2.1, h.2.2.2⟩
  have hsteady : Steady (fun j => (partLayouts n).getD j []) xs := by
    refine ⟨M.ok, M.same, ?_⟩
    intro pre x post he hpre
    have hxm : x ∈ xs := by rw [he]; simp
    have hts : ts ≠ [] := by
      rintro rfl
      have := M.len
      rw [List.length_nil, Nat.mul_zero] at this
      rw [List.eq_nil_of_length_eq_zero this] at hxm
      cases hxm
    obtain ⟨a, b, hab, hwa, hca⟩ := M.first hts
    have hxa : x ∈ a := by
      rw [he] at hab
      rcases List.append_eq_append_iff.1 hab with ⟨d, hd1, hd2⟩ | ⟨d, hd1, hd2⟩
      · cases d with
        | nil =>
          exfalso
          have hcx : x.cluster ∈ a.map Sent.cluster := by rw [hca]; simpa using M.cluster x hxm
          obtain ⟨y, hy, hyc⟩ := List.mem_map.1 hcx
          exact hpre y (by rw [List.append_nil] at hd1; rw [← hd1]; exact hy) hyc
        | cons z d =>
          rw [List.cons_append, List.cons.injEq] at hd2
          rw [hd1, hd2.1]
          simp
      · exfalso
        have hcx : x.cluster ∈ a.map Sent.cluster := by rw [hca]; simpa using M.cluster x hxm
        obtain ⟨y, hy, hyc⟩ := List.mem_map.1 hcx
        exact hpre y (by rw [hd1]; exact List.mem_append_left _ hy) hyc
    have := hq (x.word, x.cluster) (by rw [← hwa]; exact List.mem_map.2 ⟨x, hxa, rfl⟩)
    unfold Sent.Quiet
    rw [M.same x hxm]
    exact this
  exact ⟨harr, hsteady⟩

open Classical in
/-- C117: the whole chain, from a recorded mission to the receiver's model, for one, two or three clusters. For every recording
whose numbers fit, all times, sequence numbers, random padding, classifiers, LDPC decoders, channels and windows: if every word
arrives and the padding of the first buffer holds no message, the receiver knows the structure of every part of the buffers,
and its model holds, under the name of every field of the five messages, the window of the numbers recorded for these times,
and under `seq` the window of the sequence numbers. -/
theorem c117_mission {G : Type} (rng : G → Nat → G × (Nat → Bool)) (r : Recording) (hr : RecordingFits r) (ts : List Int)
    (seq seq' : Nat) (hseq : seq ≤ 255) (bufs : List (List Byte)) (hb : createBuffers r ts seq = .ok (seq', bufs))
    (n k : Nat) (h1 : 1 ≤ n) (h3 : n ≤ 3) (hk : infoBits n = .ok k) (words : List (List (List Bool)))
    (hw : List.Forall₂ (fun buf ws => ∃ g, (infoWords rng g n k (bytesBits buf)).2 = .ok ws) bufs words)
    (hq : ∀ p ∈ (words.headD []).zipIdx, messagesIn (packBits p.1) = (partLayouts n).getD p.2 [])
    {c : MavCfg} (hl : c.learning = true) (hc : c.nClusters = n) (cls : Labeler σ) (ldpc : Ldpc Λ) (w : Option Nat) (cs : σ)
    (l : Λ) (chs : List (List ℝ)) (s : Mav σ Λ) (evs : List MavEvent)
    (hs : s = (Mav.run c cls ldpc (Mav.new n (BufferModel.new w) cs l) chs).1)
    (hev : evs = (Mav.run c cls ldpc (Mav.new n (BufferModel.new w) cs l) chs).2.flatMap MavStep.events)
    (ha : List.Forall₂ (WordArrives c.infoBytes) (words.flatMap List.zipIdx) evs) :
    (ts ≠ [] → s.structures = (partLayouts n).map some) ∧
    s.model.modelSize = sizeAfter w (n * ts.length) ∧
    (∀ x ∈ r.messages, ∀ j < x.1.orderedFieldnames.length, ∃ vals,
      List.Forall₂ (fun t v => ∃ i, RowFor x.2.2.times t i ∧ recorded x.2.2 j i = .num v) ts vals ∧
      ((s.model.models.lookup (x.1.name ++ "_" ++ x.1.orderedFieldnames.getD j "")).map FieldModel.samples).getD [] =
        windowed w vals) ∧
    ((s.model.models.lookup "seq").map FieldModel.samples).getD [] =
      windowed w ((List.range (5 * ts.length)).map fun k => .int ((seq + k) % 256 : Nat)) := by
  obtain ⟨xs, msgs, M⟩ := mission_of_buffers rng r hr n k h1 h3 hk ts bufs words hw seq hseq seq' hb
  obtain ⟨harr, hsteady⟩ := mission_steady r n ts seq words xs msgs M hq c.infoBytes evs ha
  obtain ⟨g1, g2, g3⟩ := c117_learned hl cls ldpc w cs l chs s evs (by rw [hc]; exact hs) (by rw [hc]; exact hev) _ xs hsteady harr
    msgs M.decoded
  refine ⟨?_, by rw [g2, M.len], ?_, by rw [g3, M.seqs]⟩
  · intro hts
    have hpl : (partLayouts n).length = n := by
      have hn : n = 1 ∨ n = 2 ∨ n = 3 := by omega
      rcases hn with rfl | rfl | rfl <;> rfl
    have hsl : s.structures.length = n := by
      obtain ⟨h, _⟩ := c57_learned hl cls ldpc w cs l chs s evs _ (by rw [hc]; exact hs) (by rw [hc]; exact hev) rfl
      rw [h]; simp [hc]
    apply List.ext_getElem?
    intro j
    by_cases hj : j < n
    · rw [g1 j (by rw [hc]; exact hj), if_pos]
      · rw [List.getElem?_map, List.getElem?_eq_getElem (by rw [hpl]; exact hj), Option.map_some,
          getD_lt _ _ (by rw [hpl]; exact hj)]
      · obtain ⟨a, b, hab, _, hca⟩ := M.first hts
        have : j ∈ a.map Sent.cluster := by rw [hca]; simpa using hj
        obtain ⟨x, hx, hxj⟩ := List.mem_map.1 this
        exact ⟨x, by rw [hab]; exact List.mem_append_left _ hx, hxj⟩
    · rw [List.getElem?_eq_none (by omega), List.getElem?_eq_none (by rw [List.length_map]; omega)]
  · intro x hx j hj
    obtain ⟨vals, k1, k2⟩ := M.fields x hx j hj
    exact ⟨vals, k1, by rw [g3, k2]⟩

/-- The parameters of the examples: one cluster, learning, one iteration. -/
noncomputable def exCfg (O : StatOps Val ℝ) (infoBytes : List Bool → List Byte := packBits) : MavCfg :=
  ⟨[0], 1/10, 1/10, 2, 1/2, 10, 1, 1, false, true, 1, infoBytes, O⟩

/-- An LDPC decoder of the examples, which returns a given word. -/
def exDec (w : List Bool) : Ldpc Unit := fun _ _ => ((), ⟨w, [1, 1], true, 3, [], []⟩)

/-- A first call runs the LDPC decoder once, on the word as given. -/
theorem first_call (O : StatOps Val ℝ) (w : List Bool) (bm : BufferModel ℝ) (ib : List Bool → List Byte := packBits) :
    ((Mav.new 1 bm () ()).decode (exCfg O ib) (fun _ _ => ((), .ok 0)) (exDec w) [1, -1]).events =
      [⟨0, [1, -1], ⟨w, [1, 1], true, 3, [], []⟩, hardBits [1, -1]⟩] := by
  unfold Mav.decode
  have hpk : pickLabel (fun (_ : Unit) _ => ((), .ok 0)) (exCfg O ib).nClusters (exCfg O ib).cluster () (-1) [] =
      ((), -1, .ok ((0 : Nat) : Int)) := by simp [pickLabel, exCfg]
  have hit : (exCfg O ib).segIterations = 1 := rfl
  rw [hit, Mav.loop, if_neg (by simp [exCfg])]
  simp only [Mav.new, hpk]
  rw [if_neg (by omega), c57_no_structure _ _ _ _ (by simp)]
  rcases hdu : ({ structures := List.replicate 1 none, model := bm, running := -1, cls := (), ldpc := () } : Mav Unit Unit).decodeUpdate
    (exCfg O ib) (exDec w) [1, -1] ((0 : Nat) : Int) (hardBits [1, -1]) with ⟨s', o, r⟩
  have ho : o = ⟨w, [1, 1], true, 3, [], []⟩ := by
    have := congrArg (fun x => x.2.1) hdu
    simp only [Mav.decodeUpdate, exDec] at this
    rw [← this]
    split <;> rfl
  simp only [hdu, ho]
  rw [eventOf_some (j := 0) (by simp [pyPos])]
  cases r with
  | error e => rfl
  | ok u => simp only; split <;> rfl

theorem first_run (O : StatOps Val ℝ) (w : List Bool) (ib : List Bool → List Byte := packBits) (win : Option Nat := none) :
    (Mav.run (exCfg O ib) (fun (_ : Unit) _ => ((), .ok 0)) (exDec w) (Mav.new 1 (BufferModel.new win) () ()) [[1, -1]]).2.flatMap
      MavStep.events = [⟨0, [1, -1], ⟨w, [1, 1], true, 3, [], []⟩, hardBits [1, -1]⟩] :=
  (by simp [Mav.run] : _ = ((Mav.new 1 (BufferModel.new win) () ()).decode (exCfg O ib)
    (fun _ _ => ((), .ok 0)) (exDec w) [1, -1]).events).trans (first_call O w _ ib)

/-- The buffer of the sample recording, followed by nine bytes. -/
theorem sample_padded (pad : List Byte) (hl : pad.length = 9) (l : List (Nat × Nat))
    (hp : (segmentBuffer decode pad).toOption.map (·.struct) = some l) :
    ∃ seq' buf, createBuffers sampleRecording [100] 7 = .ok (seq', [buf]) ∧ buf.length = 153 ∧
      (infoWords (fun (_ : Unit) _ => ((), fun i => (bytesBits pad).getD i false)) () 1 1296 (bytesBits buf)).2 =
        .ok [bytesBits (buf ++ pad)] ∧
      messagesIn (buf ++ pad) = fiveLayout ++ l.map fun x => (x.1 + 153, x.2) := by
  have hr : RecordingFits sampleRecording := by decide +kernel
  obtain ⟨f1, f2, f3, f4, f5, hc, _⟩ := c77_buffer sampleRecording hr 100 7 (by omega)
  obtain ⟨hlen, sa, hsa, hls, hk⟩ := c77_segment sampleRecording hr 100 7 (by omega) _ _ hc
  obtain ⟨st, hst, hm⟩ := messagesIn_ok ((f1 ++ f2 ++ f3 ++ f4 ++ f5) ++ pad)
  obtain ⟨sb, hsb, _⟩ := messagesIn_ok pad
  obtain ⟨_, _, h3⟩ := c22_prefix _ _ sa sb st hsa hsb hst hk
  refine ⟨(7 + 5) % 256, f1 ++ f2 ++ f3 ++ f4 ++ f5, by simp only [createBuffers, hc, bind, Except.bind], hlen, ?_, ?_⟩
  · have hb : (bytesBits (f1 ++ f2 ++ f3 ++ f4 ++ f5)).length = 1224 := by rw [bytesBits_length, hlen]
    have hp9 : (bytesBits pad).length = 72 := by rw [bytesBits_length, hl]
    have hn : ((1296 : Nat) : Int) - (1224 : Nat) = (72 : Nat) := rfl
    simp only [infoWords, drawBits, hb, hn, Int.toNat_natCast]
    rw [if_neg (by omega)]
    simp only [Except.ok.injEq, List.cons.injEq, and_true]
    rw [bytesBits_append (f1 ++ f2 ++ f3 ++ f4 ++ f5) pad]
    congr 1
    apply List.ext_getElem (by simp [hp9])
    intro i h1 h2
    rw [List.getElem_map, List.getElem_range, List.getD_eq_getElem?_getD, List.getElem?_eq_getElem h2, Option.getD_some]
  · rw [hsb] at hp
    have hsb' : sb.struct = l := by simpa [Except.toOption] using hp
    rw [hm, h3, hls, hsb', hlen]

/-- `c117_mission` on one buffer of the sample recording, padded with zeros: its structure is known and one word was learned. -/
example (O : StatOps Val ℝ) : ∃ w : List Bool,
    (Mav.run (exCfg O) (fun (_ : Unit) _ => ((), .ok 0)) (exDec w) (Mav.new 1 (BufferModel.new none) () ()) [[1, -1]]).1.structures =
      [some fiveLayout] ∧
    (((Mav.run (exCfg O) (fun (_ : Unit) _ => ((), .ok 0)) (exDec w) (Mav.new 1 (BufferModel.new none) () ())
      [[1, -1]]).1.model.models.lookup "seq").map FieldModel.samples).getD [] = [.int 7, .int 8, .int 9, .int 10, .int 11] := by
  obtain ⟨seq', buf, hb, _, hw, hm⟩ := sample_padded (List.replicate 9 0) rfl [] (by decide +kernel)
  have hr : RecordingFits sampleRecording := by decide +kernel
  refine ⟨bytesBits (buf ++ List.replicate 9 0), ?_⟩
  obtain ⟨h1, _, _, h4⟩ := c117_mission _ sampleRecording hr [100] 7 seq' (by omega) [buf] hb 1 1296 (by omega) (by omega) rfl
    [[bytesBits (buf ++ List.replicate 9 0)]] (List.Forall₂.cons ⟨(), hw⟩ .nil)
    (by
      intro p hp
      simp only [List.headD_cons, List.zipIdx_cons, List.zipIdx_nil, List.mem_singleton] at hp
      rw [hp, packBits_bytesBits, hm]; rfl)
    (c := exCfg O) rfl rfl (fun (_ : Unit) _ => ((), .ok 0)) (exDec _) none () () [[1, -1]] _ _ rfl (first_run O _).symm
    (List.Forall₂.cons ⟨rfl, rfl, List.prefix_refl _, rfl⟩ .nil)
  exact ⟨h1 (by simp), h4⟩

open Classical in
/-- C117: if the first word of a cluster that is decoded holds a message with an array (an AUTH_KEY in the padding, say), the
decoder never learns a number for that cluster, whatever it decodes afterwards. -/
theorem c117_poisoned {c : MavCfg} (hl : c.learning = true) (cls : Labeler σ) (ldpc : Ldpc Λ) (w : Option Nat) (cs : σ) (l : Λ)
    (chs : List (List ℝ)) (s : Mav σ Λ) (evs pre rest : List MavEvent) (e : MavEvent)
    (hs : s = (Mav.run c cls ldpc (Mav.new c.nClusters (BufferModel.new w) cs l) chs).1)
    (hev : evs = (Mav.run c cls ldpc (Mav.new c.nClusters (BufferModel.new w) cs l) chs).2.flatMap MavStep.events)
    (hsplit : evs = pre ++ e :: rest) (hone : ∀ x ∈ evs, x.pos = e.pos) (hpre : ∀ x ∈ pre, x.out.success = false)
    (he : e.out.success = true) (harr : ¬ Plain (messagesIn (c.infoBytes e.out.estimate))) :
    s.model.modelSize = sizeAfter w 0 ∧
    ∀ name, ((s.model.models.lookup name).map FieldModel.samples).getD [] = windowed w [] := by
  have hL : (learnedWords c.infoBytes [] evs).filter (fun a => Addable a) = [] := by
    rw [List.filter_eq_nil_iff]
    intro a ha
    have key : ∀ (tail before : List MavEvent), before ++ tail = evs → ∀ a ∈ learnedWords c.infoBytes before tail,
        a.2 = messagesIn (c.infoBytes e.out.estimate) := by
      intro tail
      induction tail with
      | nil => intro _ _ a ha; cases ha
      | cons x tail ih =>
        intro before hbt a ha
        rw [learnedWords, List.mem_append] at ha
        rcases ha with ha | ha
        · split at ha
          · rename_i st hst
            rw [List.mem_singleton] at ha
            rw [ha]
            simp only
            unfold structureAfter at hst
            rw [Option.map_eq_some_iff] at hst
            obtain ⟨y, hy, rfl⟩ := hst
            rw [List.find?_eq_some_iff_append] at hy
            obtain ⟨hy1, a1, a2, hy2, hy3⟩ := hy
            simp only [Bool.and_eq_true, beq_iff_eq] at hy1
            have hall : a1 ++ y :: (a2 ++ tail) = pre ++ e :: rest := by
              rw [← hsplit, ← hbt, show before ++ x :: tail = (before ++ [x]) ++ tail by simp, hy2]; simp
            rcases List.append_eq_append_iff.1 hall with ⟨d, hd1, hd2⟩ | ⟨d, hd1, hd2⟩
            · cases d with
              | nil =>
                rw [List.nil_append, List.cons.injEq] at hd2
                rw [hd2.1]
              | cons z d =>
                rw [List.cons_append, List.cons.injEq] at hd2
                have := hpre y (by rw [hd1, hd2.1]; simp)
                rw [hy1.2] at this; cases this
            · cases d with
              | nil =>
                rw [List.nil_append, List.cons.injEq] at hd2
                rw [hd2.1]
              | cons z d =>
                rw [List.cons_append, List.cons.injEq] at hd2
                have h1 := hy3 e (by rw [hd1, hd2.1]; simp)
                have hx : x.pos = e.pos := hone x (by rw [← hbt]; simp)
                simp [he, hx] at h1
          · cases ha
        · exact ih (before ++ [x]) (by rw [← hbt]; simp) a ha
    have h2 := key evs [] rfl a ha
    simp only [decide_eq_true_eq]
    rintro ⟨b, _, hin⟩
    rw [h2] at hin
    apply harr
    intro r hr m hm hid
    obtain ⟨m', hm', hid', hna, _⟩ := hin r hr
    have h1 := lookupMsg_mem hm
    rw [hid, ← hid', lookupMsg_mem hm'] at h1
    injection h1 with h1
    rwa [← h1]
  obtain ⟨_, g2, g3⟩ := c57_learned hl cls ldpc w cs l chs s evs _ hs hev rfl
  rw [hL] at g2 g3
  exact ⟨g2, g3⟩

/-- C117: expectation that fails: the words of a mission arriving is enough. The padding of the first word can be an AUTH_KEY
message; the decoder then takes it for a part of every buffer and learns nothing, though every word arrives. -/
theorem c117_padding_false (O : StatOps Val ℝ) : ∃ (rng : Unit → Nat → Unit × (Nat → Bool)) (seq' : Nat) (buf : List Byte)
    (word : List Bool), createBuffers sampleRecording [100] 7 = .ok (seq', [buf]) ∧
    (infoWords rng () 1 1296 (bytesBits buf)).2 = .ok [word] ∧
    List.Forall₂ (WordArrives (exCfg O).infoBytes) [(word, 0)] ((Mav.run (exCfg O) (fun (_ : Unit) _ => ((), .ok 0)) (exDec word)
      (Mav.new 1 (BufferModel.new none) () ()) [[1, -1]]).2.flatMap MavStep.events) ∧
    (Mav.run (exCfg O) (fun (_ : Unit) _ => ((), .ok 0)) (exDec word) (Mav.new 1 (BufferModel.new none) () ())
      [[1, -1]]).1.structures = [some (fiveLayout ++ [(153, 7)])] ∧
    (Mav.run (exCfg O) (fun (_ : Unit) _ => ((), .ok 0)) (exDec word) (Mav.new 1 (BufferModel.new none) () ())
      [[1, -1]]).1.model.modelSize = 0 := by
  obtain ⟨seq', buf, hb, _, hw, hm⟩ := sample_padded paddingFrame rfl [(0, 7)] (by decide +kernel)
  refine ⟨_, seq', buf, _, hb, hw, ?_, ?_, ?_⟩
  · rw [first_run]
    exact List.Forall₂.cons ⟨rfl, rfl, List.prefix_refl _, rfl⟩ .nil
  · obtain ⟨h1, _⟩ := c57_learned (c := exCfg O) rfl (fun (_ : Unit) _ => ((), .ok 0)) (exDec (bytesBits (buf ++ paddingFrame)))
      none () () [[1, -1]] _ _ _ rfl (first_run O _).symm rfl
    refine Eq.trans h1 ?_
    have hi : (exCfg O).infoBytes (bytesBits (buf ++ paddingFrame)) = buf ++ paddingFrame := packBits_bytesBits _
    have hn : (exCfg O).nClusters = 1 := rfl
    simp [hn, List.range_succ, structureAfter, hi, hm]
  · have hi : (exCfg O).infoBytes (bytesBits (buf ++ paddingFrame)) = buf ++ paddingFrame := packBits_bytesBits _
    obtain ⟨h1, _⟩ := c117_poisoned (c := exCfg O) rfl (fun (_ : Unit) _ => ((), .ok 0)) (exDec (bytesBits (buf ++ paddingFrame)))
      none () () [[1, -1]] _ _ [] [] _ rfl (first_run O _).symm rfl (by simp) (by simp) rfl (by
        simp only [hi, hm]
        intro hp
        exact absurd (hp (153, 7) (by simp) Dialect.msg7 (by decide +kernel) rfl) (by decide))
    exact h1

end NR.C117
