import Verif.Props.C117
import Verif.Props.C122
/-
C126: what a mission teaches about the next word: its headers and the numbers that did not change are repaired.
-/
namespace NR.C126
open NR Spec Dialect NR.C116 NR.C117 NR.C122

variable {σ Λ : Type}

/-- The word handed to the LDPC decoder in place of the received word `obs` carries, on every bit of the field `q` that does
not lie in a message found in the received word, the bit of the word sent. -/
def RepairedIn (c : MavCfg) (q : Place) (obs handed : List ℝ) (sent : List Bool) : Prop :=
  ∀ i, q.Has (i / 8) → ¬ InMessages (messagesIn (c.infoBytes (hardBits obs))) i → (hardBits handed)[i]? = sent[i]?

/-- The fields of a structure can be fitted and their means written: the statistics package raises on none of them. -/
def Fitted (c : MavCfg) (bm : BufferModel ℝ) (st : List (Nat × Nat)) : Prop :=
  ∀ q ∈ fieldPlaces st, ∃ m d b, c.stats.fit (((bm.models.lookup q.name).map FieldModel.samples).getD []) = .ok (m, d) ∧
    c.stats.toBits m q.type = .ok b ∧ b.length = 8 * width q.type

open Classical in
/-- C126: words that all arrived, and the next one. Let the words so far have arrived, words of a cluster consisting of the same
messages, and let the next word `x` be for a cluster already seen and laid out like it. If all numbers kept under the name of a
field are `v`, and the word sent carries `v` there too, then the field is repaired before the LDPC decoder sees it, whatever was
received. The messages found in the received word are passed on as they were received. -/
theorem c126_words {c : MavCfg} (hl : c.learning = true) (hv : 0 < c.validFactor) (hi : 0 < c.invalidFactor)
    (cls : Labeler σ) (ldpc : Ldpc Λ) (w : Option Nat) (cs : σ) (l : Λ) (words : List (List ℝ)) (s : Mav σ Λ)
    (evs : List MavEvent)
    (hs : s = (Mav.run c cls ldpc (Mav.new c.nClusters (BufferModel.new w) cs l) words).1)
    (hev : evs = (Mav.run c cls ldpc (Mav.new c.nClusters (BufferModel.new w) cs l) words).2.flatMap MavStep.events)
    (hinfo : ∀ w, 8 * (c.infoBytes w).length ≤ w.length)
    (lay : Nat → List (Nat × Nat)) (xs : List Sent) (hx : Steady lay xs) (ha : List.Forall₂ (Arrives c.infoBytes) xs evs)
    (msgs : List MavMsg) (hm : List.Forall₂ (fun f msg => decode f = .ok msg) ((xs.flatMap Sent.frames).map Prod.snd) msgs)
    (x : Sent) (hok : x.Ok) (hlay : layout 0 x.frames = lay x.cluster) (hcl : x.cluster < c.nClusters)
    (hold : ∃ y ∈ xs, y.cluster = x.cluster)
    (new : List MavMsg) (hnew : List.Forall₂ (fun f msg => decode f = .ok msg) (x.frames.map Prod.snd) new)
    (hfit : Fitted c s.model (lay x.cluster))
    (sent : List Bool) (hsent : x.word <+: sent) (obs : List ℝ) (len : Nat) (hobs : obs.length = 8 * len)
    (hlen : sent.length = 8 * len) (hne : ∃ y ∈ obs, y ≠ 0) :
    ∃ out, (s.predict c obs x.cluster).2 = .ok out ∧ out.llr.length = obs.length ∧
      (∀ q ∈ fieldPlaces (lay x.cluster), ∀ v, (FitsScalar q.type v → ExactFor c.stats w q.type v) →
        (∀ u ∈ windowed w (under q.name msgs), u = v) → (∀ u ∈ under q.name new, u = v) →
        RepairedIn c q obs out.llr sent) ∧
      ∀ i < obs.length, InMessages (messagesIn (c.infoBytes (hardBits obs))) i →
        (hardBits out.llr)[i]? = (hardBits obs)[i]? := by
  have hall := learned_all c.infoBytes lay xs hx evs ha
  have hist := hist_arrived c.infoBytes xs evs ha hx.ok msgs hm
  obtain ⟨_, _, hsamp⟩ := c117_learned hl cls ldpc w cs l words s evs hs hev lay xs hx ha msgs hm
  have hst : structureAfter c.infoBytes evs x.cluster = some (lay x.cluster) := by
    rw [structure_arrived c.infoBytes x.cluster (lay x.cluster) xs evs ha
      (fun y hy hc => by rw [hx.same y hy, hc]) (fun pre y post he hc hpre => hx.quiet pre y post he (by rw [hc]; exact hpre)),
      if_pos hold]
  -- the word sent
  obtain ⟨hadd, ms, hd, ht⟩ := takes_word x hok sent hsent
  have hms : ms = new := by
    clear ht hadd
    generalize x.frames = fs at hd hnew
    induction hd generalizing new with
    | nil => cases hnew; rfl
    | cons h _ ih =>
      rw [List.map_cons] at hnew
      cases hnew with
      | cons h' hr =>
        have := h.1.symm.trans h'
        injection this with this
        rw [this, ih _ hr]
  subst hms
  have hbl := bytesBits_bitsToBytes len sent hlen
  have hr : InRange len (lay x.cluster) := by
    obtain ⟨b, hb, hr⟩ := hadd
    cases hb
    rw [← hlay, ← hbl.1]
    exact hr
  have hseen : ∀ q ∈ fieldPlaces (lay x.cluster), ∃ b, meanBits c.stats w (under q.name msgs) q.type = .ok b ∧
      b.length = 8 * width q.type := by
    intro q hq
    obtain ⟨m, d, b, h2, h3, h4⟩ := hfit q hq
    rw [hsamp q.name] at h2
    have hu : under q.name msgs ≠ [] := by
      -- an old word of the cluster carries the field
      obtain ⟨y, hy, hyc⟩ := hold
      obtain ⟨e, hye, hmem⟩ : ∃ e, Arrives c.infoBytes y e ∧ (y, e) ∈ xs.zip evs := by
        obtain ⟨k, hk⟩ := List.mem_iff_getElem?.1 hy
        obtain ⟨hkl, hky⟩ := List.getElem?_eq_some_iff.1 hk
        have hke : k < evs.length := by rw [← ha.length_eq]; exact hkl
        have hz : (y, evs[k]) ∈ xs.zip evs := List.mem_iff_getElem.2 ⟨k, by simp; omega, by simp [hky]⟩
        exact ⟨evs[k], (List.forall₂_iff_zip.1 ha).2 hz, hz⟩
      rw [← hist]
      intro h0
      have h5 := List.flatMap_eq_nil_iff.1 h0 (.bits e.out.estimate, layout 0 y.frames)
        (List.mem_map.2 ⟨(y, e), hmem, rfl⟩)
      rw [hx.same y hy, hyc] at h5
      simp only [takes, argBytes, List.map_eq_nil_iff, List.filter_eq_nil_iff] at h5
      exact h5 q hq (by simp)
    refine ⟨b, ?_, h4⟩
    rw [meanBits, if_neg hu, h2]
    exact h3
  obtain ⟨out, ho, hdec⟩ := c122_learned hl hv hi cls ldpc w cs l words s evs _ hs hev rfl hinfo x.cluster hcl (lay x.cluster) hst
    obs len hobs hne hr (fun name => under name msgs) (by
      funext name
      rw [hall]
      exact (hist name).symm) hseen
  refine ⟨out, ho, hdec.1, ?_, fun i hilt him => ((hdec.2 i hilt).2 (Or.inl him))⟩
  intro q hq v hex hkept hcar i hh hnm
  have hbound := fieldPlaces_bound hr hq
  have hilt : i < obs.length := by
    obtain ⟨_, h2⟩ := hh
    omega
  have hval : unpackScalar q.type (q.bytes (bitsToBytes sent)) = v := by
    apply hcar
    rw [← ht]
    simp only [takes, argBytes]
    rw [hlay]
    exact List.mem_map.2 ⟨q, List.mem_filter.2 ⟨hq, by simp⟩, rfl⟩
  have hpack := packScalar_unpackScalar (bytes_len hlen hr hq)
  rw [hval] at hpack
  have := (hdec.2 i hilt).1 q hq v _ hh ⟨hkept, hex (packScalar_ok hpack)⟩ hpack hnm
  rw [this, bit_of_place sent hlen q i hh]

/-! ### A mission -/

theorem packed_decoded {m : MsgClass} {f : List Byte} (hp : PackedFrame m f) (hn : NoArrays m) {msg : MavMsg}
    (h : decode f = .ok msg) : msg.cls = m ∧ msg.msgId = m.id ∧ msg.mlen = msgLen m := by
  obtain ⟨h8, _, g0, g1, g5, hret⟩ := packed_head hp
  have hm := hp.1
  have hflen : f.length = msgLen m + 8 := by
    obtain ⟨_, fields, seq, sys, comp, hpk⟩ := hp
    have h1 := c08_no_arrays m hm hn _ _ _ _ f hpk
    rw [payloadLen_mem hm] at h1
    have := Option.some.inj h1
    omega
  have hfb : frameBytes f 0 (msgLen m) = f := by
    unfold frameBytes
    rw [← hflen]
    simp
  obtain ⟨msg', k1, k2, k3, k4, _⟩ := message_read hm hn f 0 (by omega) (by rw [g0]; rfl) (by rw [g1]; omega) (by rw [g5])
    (by rw [hfb]; exact hret)
  rw [hfb, h] at k1
  cases k1
  exact ⟨k2, k3, k4⟩

theorem mem_under {name : String} {msgs : List MavMsg} {u : Val} (h : u ∈ under name msgs) :
    ∃ msg ∈ msgs, (name, u) ∈ named msg := by
  obtain ⟨⟨nm, u'⟩, hx, rfl⟩ := List.mem_map.1 h
  obtain ⟨hx1, hn⟩ := List.mem_filter.1 hx
  obtain ⟨msg, hm, hx2⟩ := List.mem_flatMap.1 hx1
  have hn : nm = name := by simpa using hn
  subst hn
  exact ⟨msg, hm, hx2⟩

theorem under_mem {name : String} {msgs : List MavMsg} {u : Val} {msg : MavMsg} (hm : msg ∈ msgs) (h : (name, u) ∈ named msg) :
    u ∈ under name msgs :=
  List.mem_map.2 ⟨(name, u), List.mem_filter.2 ⟨List.mem_flatMap.2 ⟨msg, hm, h⟩, by simp⟩, rfl⟩

theorem decoded_of_mem {fs : List (List Byte)} {msgs : List MavMsg} (h : List.Forall₂ (fun f msg => decode f = .ok msg) fs msgs)
    {msg : MavMsg} (hm : msg ∈ msgs) : ∃ f ∈ fs, decode f = .ok msg := by
  induction h with
  | nil => cases hm
  | cons h _ ih =>
    rcases List.mem_cons.1 hm with rfl | hm
    · exact ⟨_, List.mem_cons_self, h⟩
    · obtain ⟨f, hf, hd⟩ := ih hm
      exact ⟨f, List.mem_cons_of_mem _ hf, hd⟩

theorem decoded_mem {fs : List (List Byte)} {msgs : List MavMsg} (h : List.Forall₂ (fun f msg => decode f = .ok msg) fs msgs)
    {f : List Byte} (hf : f ∈ fs) {msg : MavMsg} (hd : decode f = .ok msg) : msg ∈ msgs := by
  induction h with
  | nil => cases hf
  | cons h _ ih =>
    rcases List.mem_cons.1 hf with rfl | hf
    · rw [hd] at h
      cases h
      exact List.mem_cons_self
    · exact List.mem_cons_of_mem _ (ih hf)

/-- The header of a message of the mission apart from the sequence number, which the sender (system 1, component 1) never changes:
name of the field and value. -/
def header (m : MsgClass) : List (String × Int) :=
  [("magic", 254), (m.name ++ "_mlen", msgLen m), ("srcSystem", 1), (m.name ++ "_srcComponent", 1), (m.name ++ "_msgId", m.id)]

theorem header_apart : ∀ a ∈ five, ∀ b ∈ five, ∀ x ∈ header a, x.1 ≠ "seq" ∧
    (∀ y ∈ header b, y.1 = x.1 → y.2 = x.2) ∧ ∀ nm ∈ b.orderedFieldnames, b.name ++ "_" ++ nm ≠ x.1 := by
  decide +kernel

theorem header_value (a : MsgClass) (ha : a ∈ five) (x : String × Int) (hx : x ∈ header a) (msg : MavMsg) (hc : msg.cls ∈ five)
    (h1 : msg.srcSystem = 1) (h2 : msg.srcComponent = 1) (h3 : msg.msgId = msg.cls.id) (h4 : msg.mlen = msgLen msg.cls) (u : Val)
    (hu : (x.1, u) ∈ named msg) : u = .int x.2 := by
  obtain ⟨hs, hh, hp⟩ := header_apart a ha msg.cls hc x hx
  unfold named at hu
  rcases List.mem_append.1 hu with hu | hu
  · have key : ∀ (nm : String) (v : Int), (nm, v) ∈ header msg.cls → (x.1, u) = (nm, Val.int v) → u = .int x.2 := by
      intro nm v hm he
      have h5 := congrArg Prod.fst he
      have h6 := congrArg Prod.snd he
      simp only at h5 h6
      rw [h6, ← hh _ hm h5.symm]
    simp only [List.mem_cons, List.not_mem_nil, or_false] at hu
    rcases hu with h | h | h | h | h | h
    · exact key "magic" 254 (by simp [header]) h
    · rw [h4] at h
      exact key (msg.cls.name ++ "_mlen") (msgLen msg.cls) (by simp [header]) h
    · exact absurd (congrArg Prod.fst h) hs
    · rw [h1] at h
      exact key "srcSystem" 1 (by simp [header]) h
    · rw [h2] at h
      exact key (msg.cls.name ++ "_srcComponent") 1 (by simp [header]) h
    · rw [h3] at h
      exact key (msg.cls.name ++ "_msgId") msg.cls.id (by simp [header]) h
  · obtain ⟨nm, hnm, he⟩ := List.mem_map.1 hu
    exact absurd (congrArg Prod.fst he) (hp nm hnm)

/-- The field is part of a header, and not the sequence number: the number there is `v`. -/
def IsHeader (q : Place) (v : Val) : Prop := ∃ m ∈ five, ∃ i, (q.name, i) ∈ header m ∧ v = .int i

/-- The field is one of the five messages of a buffer, and the rows of the recording used for these times all hold the same
number there. -/
def SameNumber (r : Recording) (ts : List Int) (q : Place) (v : Val) : Prop :=
  ∃ x ∈ r.messages, ∃ j < x.1.orderedFieldnames.length, q.name = x.1.name ++ "_" ++ x.1.orderedFieldnames.getD j "" ∧
    ∀ t ∈ ts, ∀ i, RowFor x.2.2.times t i → recorded x.2.2 j i = .num v

theorem windowed_sub {α : Type} {w : Option Nat} {l : List α} {u : α} (h : u ∈ windowed w l) : u ∈ l := by
  unfold windowed at h
  split at h
  · exact h
  · exact h
  · exact List.mem_of_mem_drop h

/-- C126: the next word of a mission. Let the buffers made from a recording, for one, two or three clusters, all have arrived at
the learning decoder (and the padding of the first hold no message), and take the next buffer of the recording, any of its words
and whatever is received for it. In the word the decoder hands to the LDPC decoder for the cluster of the word sent, the headers
and all fields whose recorded number stayed the same are those that were sent, on every bit outside the messages found in the
received word, as far as the statistics are exact for the number. This is the first word a returning call hands over, if it takes the word for one of that cluster. -/
theorem c126_mission {G : Type} (rng : G → Nat → G × (Nat → Bool)) (r : Recording) (hr : RecordingFits r) (ts : List Int)
    (hts : ts ≠ [])
    (seq seq' : Nat) (hseq : seq ≤ 255) (bufs : List (List Byte)) (hb : createBuffers r ts seq = .ok (seq', bufs))
    (n k : Nat) (h1 : 1 ≤ n) (h3 : n ≤ 3) (hk : infoBits n = .ok k) (words : List (List (List Bool)))
    (hw : List.Forall₂ (fun buf ws => ∃ g, (infoWords rng g n k (bytesBits buf)).2 = .ok ws) bufs words)
    (hq : ∀ p ∈ (words.headD []).zipIdx, messagesIn (packBits p.1) = (partLayouts n).getD p.2 [])
    {c : MavCfg} (hl : c.learning = true) (hc : c.nClusters = n) (hv : 0 < c.validFactor) (hi : 0 < c.invalidFactor)
    (hinfo : ∀ w, 8 * (c.infoBytes w).length ≤ w.length)
    (cls : Labeler σ) (ldpc : Ldpc Λ) (w : Option Nat) (cs : σ)
    (l : Λ) (chs : List (List ℝ)) (s : Mav σ Λ) (evs : List MavEvent)
    (hs : s = (Mav.run c cls ldpc (Mav.new n (BufferModel.new w) cs l) chs).1)
    (hev : evs = (Mav.run c cls ldpc (Mav.new n (BufferModel.new w) cs l) chs).2.flatMap MavStep.events)
    (ha : List.Forall₂ (WordArrives c.infoBytes) (words.flatMap List.zipIdx) evs)
    (t : Int) (seq'' : Nat) (buf : List Byte) (hb' : createBuffer r t seq' = .ok (seq'', buf)) (g : G) (ws : List (List Bool))
    (hw' : (infoWords rng g n k (bytesBits buf)).2 = .ok ws) (p : List Bool × Nat) (hp : p ∈ ws.zipIdx)
    (hfit : Fitted c s.model ((partLayouts n).getD p.2 []))
    (sent : List Bool) (hsent : p.1 <+: sent) (obs : List ℝ) (len : Nat) (hobs : obs.length = 8 * len)
    (hlen : sent.length = 8 * len) (hne : ∃ y ∈ obs, y ≠ 0) :
    ∃ out, (s.predict c obs p.2).2 = .ok out ∧
      (∀ q ∈ fieldPlaces ((partLayouts n).getD p.2 []), ∀ v, (IsHeader q v ∨ SameNumber r (t :: ts) q v) →
        (FitsScalar q.type v → ExactFor c.stats w q.type v) → RepairedIn c q obs out.llr sent) ∧
      ∀ ret, (s.decode c cls ldpc obs).result = .ok ret → 0 ≤ ret.label →
        ∃ e rest, (s.decode c cls ldpc obs).events = e :: rest ∧ (e.pos = p.2 → e.handed = out.llr) := by
  obtain ⟨xs, msgs, M⟩ := mission_of_buffers rng r hr n k h1 h3 hk ts bufs words hw seq hseq seq' hb
  obtain ⟨harr, hsteady⟩ := mission_steady r n ts seq words xs msgs M hq c.infoBytes evs ha
  have hseq' : seq' ≤ 255 := by
    obtain ⟨bs, h, _⟩ := c77_sequence r hr ts seq hseq
    rw [hb] at h
    cases h
    omega
  obtain ⟨ys, new, B⟩ := block_of_buffer rng g r hr t seq' hseq' seq'' buf hb' n k h1 h3 hk ws hw'
  rw [← B.words] at hp
  obtain ⟨x, hx, rfl⟩ := List.mem_map.1 hp
  have hxn : x.cluster < n := by
    have : x.cluster ∈ List.range n := by rw [← B.clusters]; exact List.mem_map.2 ⟨x, hx, rfl⟩
    simpa using this
  obtain ⟨_, own, hown, _⟩ := takes_word x (B.ok x hx) x.word (List.prefix_refl _)
  have hown' : List.Forall₂ (fun f msg => decode f = .ok msg) (x.frames.map Prod.snd) own := by
    rw [List.forall₂_map_left_iff]
    exact hown.imp fun a b h => h.1
  have hsub : ∀ msg ∈ own, msg ∈ new := by
    intro msg hm
    obtain ⟨f, hf, hd⟩ := decoded_of_mem hown' hm
    refine decoded_mem B.decoded ?_ hd
    obtain ⟨y, hy, rfl⟩ := List.mem_map.1 hf
    exact List.mem_map.2 ⟨y, List.mem_flatMap.2 ⟨x, hx, hy⟩, rfl⟩
  obtain ⟨o, ho, _, hrep, _⟩ := c126_words hl hv hi cls ldpc w cs l chs s evs (by rw [hc]; exact hs) (by rw [hc]; exact hev) hinfo
    _ xs hsteady harr msgs M.decoded x (B.ok x hx) (B.same x hx) (by rw [hc]; exact hxn)
    (by
      obtain ⟨a, b, hab, _, hca⟩ := M.first hts
      have : x.cluster ∈ a.map Sent.cluster := by rw [hca]; simpa using hxn
      obtain ⟨y, hy, hyj⟩ := List.mem_map.1 this
      exact ⟨y, by rw [hab]; exact List.mem_append_left _ hy, hyj⟩)
    own hown' hfit sent hsent obs len hobs hlen hne
  refine ⟨o, ho, fun q hq v hcase hexact => ?_, fun ret hret hlab => ?_⟩
  rotate_left
  · obtain ⟨e, rest, pr, he, _, hpr, hhand⟩ := c80_handed c cls ldpc s obs ret hret hlab
    refine ⟨e, rest, he, fun hpos => ?_⟩
    rw [hpos, ho] at hpr
    cases hpr
    exact hhand
  rcases hcase with ⟨m, hm, i, hmv, rfl⟩ | ⟨y, hy, j, hj, hname, hrec⟩
  · -- headers
    have old : ∀ (zs : List Sent) (ms : List MavMsg),
        List.Forall₂ (fun f msg => decode f = .ok msg) ((zs.flatMap Sent.frames).map Prod.snd) ms → (∀ z ∈ zs, z.Ok) →
        (∀ msg ∈ ms, msg.cls ∈ five ∧ msg.srcSystem = 1 ∧ msg.srcComponent = 1) →
        ∀ u ∈ under q.name ms, u = .int i := by
      intro zs ms hdec hok hheads u hu
      obtain ⟨msg, hmsg, hn⟩ := mem_under hu
      obtain ⟨f, hf, hd⟩ := decoded_of_mem hdec hmsg
      obtain ⟨z, hz, rfl⟩ := List.mem_map.1 hf
      obtain ⟨x', hx', hz⟩ := List.mem_flatMap.1 hz
      obtain ⟨hpk, hna⟩ := hok x' hx' z hz
      obtain ⟨k1, k2, k3⟩ := packed_decoded hpk hna hd
      obtain ⟨g1, g2, g3⟩ := hheads msg hmsg
      exact header_value m hm (q.name, i) hmv msg g1 g2 g3 (by rw [k2, k1]) (by rw [k3, k1]) u hn
    refine hrep q hq (.int i) hexact (fun u hu => old xs msgs M.decoded M.ok M.heads u (windowed_sub hu)) (fun u hu => ?_)
    obtain ⟨msg, hmsg, hn⟩ := mem_under hu
    exact old ys new B.decoded B.ok B.numbers.heads u (under_mem (hsub msg hmsg) hn)
  · refine hrep q hq v hexact (fun u hu => ?_) (fun u hu => ?_)
    · obtain ⟨vals, k1, k2⟩ := M.fields y hy j hj
      rw [hname, k2] at hu
      have hu := windowed_sub hu
      have : ∀ (tl : List Int) (vs : List Val), List.Forall₂ (fun t v => ∃ i, RowFor y.2.2.times t i ∧ recorded y.2.2 j i = .num v) tl vs →
          (∀ t ∈ tl, t ∈ ts) → ∀ u ∈ vs, u = v := by
        intro tl vs h
        induction h with
        | nil => intro _ u hu; cases hu
        | cons h _ ih =>
          intro hsubt u hu
          rcases List.mem_cons.1 hu with rfl | hu
          · obtain ⟨i, hi1, hi2⟩ := h
            have := hrec _ (List.mem_cons_of_mem _ (hsubt _ List.mem_cons_self)) i hi1
            rw [hi2] at this
            cases this
            rfl
          · exact ih (fun t' ht' => hsubt t' (List.mem_cons_of_mem _ ht')) u hu
      exact this ts vals k1 (fun _ h => h) u hu
    · obtain ⟨msg, hmsg, hn⟩ := mem_under hu
      have hu' := under_mem (hsub msg hmsg) hn
      obtain ⟨v', i, hi1, hi2, hi3⟩ := B.numbers.fields y hy j hj
      rw [hname, hi3, List.mem_singleton] at hu'
      have := hrec t List.mem_cons_self i hi1
      rw [hi2] at this
      cases this
      exact hu'

open Classical in
/-- Statistics for the example: those of `trueOps`; a mean that is not an integer of the field is stored as zeros. -/
noncomputable def exOps : StatOps Val ℝ :=
  { trueOps with
    toBits := fun x t => if h : ∃ i : Int, (i : ℝ) = x ∧ FitsScalar t (.int i) then
        num2bits (fun _ => .error .structError) (.num h.choose) t.cname
      else .ok (List.replicate (8 * width t) false) }

theorem exOps_exact (w : Option Nat) (t : CType) (i : Int) (hf : FitsScalar t (.int i)) : ExactFor exOps w t (.int i) where
  zero := rfl
  one := rfl
  nonPos := (trueOps_exact w t i hf).nonPos
  mean := ⟨i, fun l hne _ h => trueOps_fit l hne i h, fun bs _ => trueOps_eqMean t i hf bs, fun bs hp => by
    obtain ⟨bs', g1, g2, _⟩ := c33_integer (fun _ => .error .structError) t i hf
    rw [hp] at g1
    cases g1
    rw [← g2]
    have hex : ∃ j : Int, (j : ℝ) = (i : ℝ) ∧ FitsScalar t (.int j) := ⟨i, rfl, hf⟩
    unfold exOps
    simp only
    rw [dif_pos hex]
    congr 3
    exact_mod_cast hex.choose_spec.1⟩

/-- The whole bytes of a word. -/
def wholeBytes (w : List Bool) : List Byte := (bitsToBytes w).take (w.length / 8)

theorem exOps_fitted (bm : BufferModel ℝ) (st : List (Nat × Nat)) : Fitted (exCfg exOps wholeBytes) bm st := by
  intro q _
  have : ∀ x : ℝ, ∃ b, exOps.toBits x q.type = .ok b ∧ b.length = 8 * width q.type := by
    intro x
    unfold exOps
    simp only
    split
    · rename_i h
      obtain ⟨bs, g1, g2, _⟩ := c33_integer (fun _ => .error .structError) q.type h.choose h.choose_spec.2
      exact ⟨_, g2, by rw [bytesBits_length, packScalar_length g1, width_size]⟩
    · exact ⟨_, rfl, by simp⟩
  obtain ⟨b, h1, h2⟩ := this (average ((((bm.models.lookup q.name).map FieldModel.samples).getD []).map realOf))
  exact ⟨_, _, b, rfl, h1, h2⟩

/-- `c126_mission` on the sample recording, with real statistics: after the buffer for time 100 arrived, whatever is received for
the buffer for time 200, the headers and the fields that stayed the same are handed over as sent. -/
example (obs : List ℝ) (hobs : obs.length = 8 * 162) (hne : ∃ y ∈ obs, y ≠ 0) : ∃ (word : List Bool) (buf : List Byte) (seq'' : Nat),
    createBuffer sampleRecording 200 12 = .ok (seq'', buf) ∧ ∃ out,
    ((Mav.run (exCfg exOps wholeBytes) (fun (_ : Unit) _ => ((), .ok 0)) (exDec word) (Mav.new 1 (BufferModel.new none) () ())
      [[1, -1]]).1.predict (exCfg exOps wholeBytes) obs (0 : Nat)).2 = .ok out ∧
    ∀ q ∈ fieldPlaces fiveLayout, ∀ i : Int, (IsHeader q (.int i) ∨ SameNumber sampleRecording [200, 100] q (.int i)) →
      RepairedIn (exCfg exOps wholeBytes) q obs out.llr (bytesBits (buf ++ List.replicate 9 0)) := by
  obtain ⟨seq', buf, hb, _, hw, hm⟩ := sample_padded (List.replicate 9 0) rfl [] (by decide +kernel)
  have hr : RecordingFits sampleRecording := by decide +kernel
  have hseq : seq' = 12 := by
    obtain ⟨bs, h, _⟩ := c77_sequence sampleRecording hr [100] 7 (by omega)
    rw [hb] at h
    cases h
    rfl
  subst hseq
  obtain ⟨f1, f2, f3, f4, f5, hb', _⟩ := c77_buffer sampleRecording hr 200 12 (by omega)
  obtain ⟨hlen, _⟩ := c77_segment sampleRecording hr 200 12 (by omega) _ _ hb'
  generalize f1 ++ f2 ++ f3 ++ f4 ++ f5 = buf' at hb' hlen
  have hw' : (infoWords (fun (_ : Unit) _ => ((), fun i => (bytesBits (List.replicate 9 0)).getD i false)) () 1 1296
      (bytesBits buf')).2 = .ok [bytesBits (buf' ++ List.replicate 9 0)] := by
    have hb : (bytesBits buf').length = 1224 := by rw [bytesBits_length, hlen]
    have hn : ((1296 : Nat) : Int) - (1224 : Nat) = (72 : Nat) := rfl
    simp only [infoWords, drawBits, hb, hn, Int.toNat_natCast]
    rw [if_neg (by omega)]
    simp only [Except.ok.injEq, List.cons.injEq, and_true]
    rw [bytesBits_append buf' (List.replicate 9 0)]
    congr 1
  refine ⟨bytesBits (buf ++ List.replicate 9 0), buf', _, hb', ?_⟩
  obtain ⟨out, h1, h2, _⟩ := c126_mission _ sampleRecording hr [100] (by simp) 7 12 (by omega) [buf] hb 1 1296 (by omega) (by omega)
    rfl [[bytesBits (buf ++ List.replicate 9 0)]] (List.Forall₂.cons ⟨(), hw⟩ .nil)
    (by
      intro p hp
      simp only [List.headD_cons, List.zipIdx_cons, List.zipIdx_nil, List.mem_singleton] at hp
      rw [hp, packBits_bytesBits, hm]; rfl)
    (c := exCfg exOps wholeBytes) rfl rfl (by norm_num [exCfg]) (by norm_num [exCfg]) (by
      intro w
      show 8 * (wholeBytes w).length ≤ w.length
      simp only [wholeBytes, List.length_take]
      omega) (fun (_ : Unit) _ => ((), .ok 0)) (exDec _) none () () [[1, -1]] _ _
    rfl (first_run exOps _ wholeBytes).symm (List.Forall₂.cons ⟨rfl, rfl, List.prefix_refl _, by
      rw [packBits_bytesBits]
      show wholeBytes _ = _
      rw [wholeBytes, bitsToBytes_bytesBits, bytesBits_length, Nat.mul_div_cancel_left _ (by omega), List.take_length]⟩ .nil)
    200 _ buf' hb' () [bytesBits (buf' ++ List.replicate 9 0)] hw' (bytesBits (buf' ++ List.replicate 9 0), 0) (by simp)
    (exOps_fitted _ _) (bytesBits (buf' ++ List.replicate 9 0)) (List.prefix_refl _) obs 162 hobs
    (by rw [bytesBits_length, List.length_append, hlen]; rfl) hne
  exact ⟨out, h1, fun q hq i hc => h2 q hq (.int i) hc (exOps_exact _ _ _)⟩

end NR.C126
