import Verif.Props.C153
/-
C154: a combined decoder that learns its field models, its buffer structures and its entropy models from its own answers goes on decoding
words with more errors than the LDPC decoder corrects.
-/
namespace NR.C154
open NR NR.C136 NR.C153
open NR.Spec hiding Steady
open NR.C147 (errors Corrects)
open NR.C151 (asks)

variable {σ Λ : Type}

/-- The structure of a cluster: the messages in the first word sent for it. -/
def layOf (infoBytes : List Bool → List Byte) (done : List Call) (g : Nat) : Option (List (Nat × Nat)) :=
  (done.find? fun x => x.cluster == g).map fun x => messagesIn (infoBytes x.sent)

/-- What the field models have learned after words were sent: each word, with the structure of its cluster. -/
def added (infoBytes : List Bool → List Byte) (done : List Call) : List (BufArg × List (Nat × Nat)) :=
  done.map fun x => (.bits x.sent, (layOf infoBytes done x.cluster).getD [])

/-- The codeword `x.sent` is received as `x.obs` after the words `done` were sent: it has a zero and a one among its model bits, and is
long enough for the structure of its cluster. The first word of a cluster is received with at most `T` wrong bits. Of a later one, the
statistics of the numbers sent so far exist for each field of the structure, and the word specified by C85 - for the model bits and the
numbers *sent* - has at most `T` wrong bits. -/
structure Heard (c : CombCfg) (w : Option Nat) (code : List Bool → Prop) (T n : Nat) (done : List Call) (x : Call) : Prop where
  word : code x.sent
  sentLength : x.sent.length = n
  obsLength : x.obs.length = n
  cluster : x.cluster < c.mav.nClusters
  zero : ∃ j < c.modelLength, x.sent[j]? = some false
  one : ∃ j < c.modelLength, x.sent[j]? = some true
  fits : Addable (.bits x.sent, (layOf c.mav.infoBytes (done ++ [x]) x.cluster).getD [])
  first : layOf c.mav.infoBytes done x.cluster = none → errors x.sent x.obs ≤ T
  later : ∀ st, layOf c.mav.infoBytes done x.cluster = some st → ∃ fitv mb,
    Lay c w (fun name => (added c.mav.infoBytes done).flatMap (takes name)) fitv mb (n / 8) st ∧
    ∀ peak, IsPeak x.obs peak → errors x.sent (combinedWord c (sizeAfter w done.length) (keep c.window (wordsFor c done x.cluster))
      (bitSays c.mav.stats w fitv (fun name => (added c.mav.infoBytes done).flatMap (takes name)) mb st (bitsToBytes (hardBits x.obs)))
      peak x.obs) ≤ T

/-- A run of the LDPC decoder that returned the word sent. -/
def Told (x : Call) (e : MavEvent) : Prop := e.pos = x.cluster ∧ e.out.success = true ∧ e.out.estimate = x.sent

theorem told_structure (ib : List Bool → List Byte) {done : List Call} {evs : List MavEvent} (h : List.Forall₂ Told done evs) (g : Nat) :
    structureAfter ib evs g = layOf ib done g := by
  unfold structureAfter layOf
  induction h with
  | nil => rfl
  | @cons x e done evs hx _ ih =>
    rw [List.find?_cons, List.find?_cons, hx.1, hx.2.1, Bool.and_true]
    by_cases hg : (x.cluster == g) = true
    · rw [hg]
      simp [hx.2.2]
    · rw [Bool.not_eq_true] at hg
      rw [hg]
      exact ih

theorem layOf_append (ib : List Bool → List Byte) (a b : List Call) (g : Nat) (st : List (Nat × Nat)) (h : layOf ib a g = some st) :
    layOf ib (a ++ b) g = some st := by
  unfold layOf at h ⊢
  rw [List.find?_append]
  cases hf : a.find? fun x => x.cluster == g with
  | none => rw [hf] at h; cases h
  | some y => rw [hf] at h; exact h

theorem layOf_some (ib : List Bool → List Byte) (done : List Call) (x : Call) (hx : x ∈ done) : ∃ st, layOf ib done x.cluster = some st := by
  unfold layOf
  cases hf : done.find? fun y => y.cluster == x.cluster with
  | none =>
    have := List.find?_eq_none.1 hf x hx
    simp at this
  | some y => exact ⟨_, rfl⟩

theorem added_snoc (ib : List Bool → List Byte) (done : List Call) (x : Call) :
    added ib (done ++ [x]) = added ib done ++ [(.bits x.sent, (layOf ib (done ++ [x]) x.cluster).getD [])] := by
  unfold added
  rw [List.map_append]
  congr 1
  refine List.map_congr_left fun y hy => ?_
  obtain ⟨st, hst⟩ := layOf_some ib done y hy
  rw [hst, layOf_append ib done [x] _ st hst]

theorem told_added (ib : List Bool → List Byte) {done : List Call} {evs : List MavEvent} (h : List.Forall₂ Told done evs) :
    learnedWords ib [] evs = added ib done := by
  induction done using List.reverseRecOn generalizing evs with
  | nil => cases h; rfl
  | append_singleton done x ih =>
    obtain ⟨evs1, evs2, h1, h2, rfl⟩ : ∃ e1 e2, List.Forall₂ Told done e1 ∧ List.Forall₂ Told [x] e2 ∧ evs = e1 ++ e2 := by
      refine ⟨evs.take done.length, evs.drop done.length, ?_, ?_, (List.take_append_drop _ _).symm⟩
      · exact (List.forall₂_take_append _ _ _ h.flip).flip
      · exact (List.forall₂_drop_append _ _ _ h.flip).flip
    rcases h2 with _ | ⟨he, h2⟩
    cases h2
    rename_i e
    rw [learnedWords_append, ih h1, added_snoc, List.nil_append]
    congr 1
    simp only [learnedWords, List.append_nil]
    have hst := told_structure ib (List.rel_append h1 (.cons he .nil)) e.pos
    obtain ⟨st, hs⟩ := layOf_some ib (done ++ [x]) x (by simp)
    rw [he.1, hs] at hst
    rw [he.1, hst, hs, he.2.1, he.2.2]
    rfl

/-- Learning from a word that fits raises nothing. -/
theorem learns {c : MavCfg} {w : Option Nat} {s : Mav σ Λ} {evs : List MavEvent} (h : MavInv c c.nClusters w s evs) (done : List Call)
    (ht : List.Forall₂ Told done evs) (x : Call) (hcl : x.cluster < c.nClusters)
    (hfit : Addable (.bits x.sent, (layOf c.infoBytes (done ++ [x]) x.cluster).getD [])) (o : LdpcOut) (ho : o.success = true)
    (he : o.estimate = x.sent) (rx : List Bool) : (s.learn c x.cluster o rx).2 = .ok () := by
  have hadds : (s.model.addBuffer c.stats (.bits x.sent) ((layOf c.infoBytes (done ++ [x]) x.cluster).getD [])).2 = .ok () := by
    rcases c30_step c.stats s.model h.window h.fields (.bits x.sent, (layOf c.infoBytes (done ++ [x]) x.cluster).getD []) with
      ⟨_, ms, he, _⟩ | ⟨hn, _⟩
    · rw [he]
    · exact absurd hfit hn
  have hst := told_structure c.infoBytes ht x.cluster
  unfold Mav.learn
  by_cases hl : c.learning = true
  swap
  · rw [Bool.not_eq_true] at hl
    rw [hl]; rfl
  rw [hl, getD_structures h hcl, hst, if_pos ho, he]
  simp only [Bool.not_true, Bool.false_eq_true, if_false]
  cases hlay : layOf c.infoBytes done x.cluster with
  | some st =>
    rw [layOf_append c.infoBytes done [x] _ st hlay] at hadds
    exact hadds
  | none =>
    obtain ⟨seg, hs1, hs2⟩ := messagesIn_ok (c.infoBytes x.sent)
    have hnew : layOf c.infoBytes (done ++ [x]) x.cluster = some (messagesIn (c.infoBytes x.sent)) := by
      unfold layOf at hlay ⊢
      rw [List.find?_append]
      cases hf : done.find? fun y => y.cluster == x.cluster with
      | none => simp
      | some y => rw [hf] at hlay; cases hlay
    rw [hnew, hs2] at hadds
    simp only [hs1]
    exact hadds

/-- What a call does when its predictions do not raise. -/
theorem call_learns {c : CombCfg} (hl : c.mav.learning = true) (cls : Labeler σ) (ldpc : Ldpc Λ) {w : Option Nat} {s : Comb σ Λ}
    {evs : List MavEvent} (h : MavInv c.mav c.mav.nClusters w s.mav evs) (ch : List ℝ)
    (label : Nat) (hs : label < c.mav.nClusters) (hidx : ∀ i ∈ c.mav.idx, i < ch.length) (cs : σ) (run : Int)
    (hpk : pickLabel cls c.mav.nClusters c.mav.cluster s.mav.cls s.mav.running
      (if 1 < c.mav.nClusters ∧ c.mav.cluster = true then bitsAt c.mav.idx (hardWord ch) else []) = (cs, run, .ok (label : Int)))
    (inp0 inp : List ℝ)
    (hp : (({ s with mav := { s.mav with cls := cs, running := run } } : Comb σ Λ).mavlinkPrediction c ch label).2 = .ok inp0)
    (ha : s.addEntropy c ch inp0 label = .ok inp) (o : LdpcOut) (ho : o = (ldpc s.mav.ldpc (.llr inp)).2)
    (hlearn : ∀ m : Mav σ Λ, MavInv c.mav c.mav.nClusters w m evs → (m.learn c.mav label o (hardBits ch)).2 = .ok ()) :
    (s.decode c cls ldpc ch).learned = some (label, c.learnedBits (if o.success then o.estimate else hardBits ch)) ∧
    (s.decode c cls ldpc ch).state.mav.cls = cs ∧ (s.decode c cls ldpc ch).state.mav.running = run ∧
    MavInv c.mav c.mav.nClusters w (s.decode c cls ldpc ch).state.mav (evs ++ [⟨label, inp, o, hardBits ch⟩]) ∧
    ∀ r, (s.decode c cls ldpc ch).result = .ok r → r.estimate = o.estimate ∧ r.success = o.success ∧ r.label = label := by
  classical
  have hbits : (if 1 < c.mav.nClusters ∧ c.mav.cluster = true then takeIdx (hardBits ch) c.mav.idx else .ok []) =
      .ok (if 1 < c.mav.nClusters ∧ c.mav.cluster = true then bitsAt c.mav.idx (hardWord ch) else []) := by
    split
    · rw [takeIdx_of_lt (by simpa [hardBits] using hidx)]
      rfl
    · rfl
  obtain ⟨model, g1, g2⟩ := combPredict_pres c ({ s with mav := { s.mav with cls := cs, running := run } } : Comb σ Λ) ch label
    (fun bm => SameContent bm s.mav.model ∧ BufInv c.mav.stats w
      (fun name => ((learnedWords c.mav.infoBytes [] evs).filter (fun a => Addable a)).flatMap (takes name)) bm.models)
    (fun bm name m r hl hb => ⟨cache_same c.mav.stats s.mav.model bm name m r hl hb.1, cache_bufInv c.mav.stats w _ bm name m r hl hb.2⟩)
    ⟨.rfl' _, h.fields⟩
  have hinv : MavInv c.mav c.mav.nClusters w
      ({ s.mav with model, cls := cs, running := run, ldpc := (ldpc s.mav.ldpc (.llr inp)).1 } : Mav σ Λ) evs :=
    ⟨h.structures, g2.1.window.trans h.window, g2.1.size.trans h.size, g2.2⟩
  have hlen : s.mav.structures.length = c.mav.nClusters := by rw [h.structures]; simp
  have hl1 := hlearn _ hinv
  have hl2 := mavInv_learn hl hinv hs inp o (hardBits ch)
  have hl3 := C151.learn_keeps c.mav ({ s.mav with model, cls := cs, running := run, ldpc := (ldpc s.mav.ldpc (.llr inp)).1 } : Mav σ Λ) label o (hardBits ch)
  unfold Comb.decode
  rw [hbits]
  simp only [hpk]
  rw [if_neg (by omega)]
  simp only [Int.toNat_natCast]
  rcases hmp : ({ s with mav := { s.mav with cls := cs, running := run } } : Comb σ Λ).mavlinkPrediction c ch label with ⟨s1, r⟩
  rw [hmp] at hp g1
  simp only at hp g1
  subst hp g1
  have hb : ({ s with mav := { s.mav with model, cls := cs, running := run } } : Comb σ Λ).addEntropy c ch inp0 label = .ok inp := ha
  simp only [hb]
  unfold Comb.decodeUpdate
  rcases hle : Mav.learn c.mav ({ s.mav with model, cls := cs, running := run, ldpc := (ldpc s.mav.ldpc (.llr inp)).1 } : Mav σ Λ) label o (hardBits ch)
    with ⟨s3, r3⟩
  rw [hle] at hl1 hl2 hl3
  simp only at hl1 hl2 hl3
  subst hl1
  have hmav : Mav.decodeUpdate c.mav ldpc { s.mav with model, cls := cs, running := run } inp (label : Int) (hardBits ch) = (s3, o, .ok ()) := by
    unfold Mav.decodeUpdate
    have : pyPos s.mav.structures.length (label : Int) = some label := by
      unfold pyPos
      rw [if_pos (by omega), if_pos (by omega)]
      simp
    simp only [this, ← ho, hle]
  simp only [hmav]
  refine ⟨by trivial, hl3.1, hl3.2, hl2, fun r hr => ?_⟩
  cases hu : (s.ent.update c.ced (c.learnedBits (if o.success then o.estimate else hardBits ch)) label).2 with
  | error e => rw [hu] at hr; cases hr
  | ok u => rw [hu] at hr; cases hr; exact ⟨rfl, rfl, rfl⟩

open Classical in
/-- The decoder between calls. -/
structure Ready (c : CombCfg) (w : Option Nat) (done : List Call) (evs : List MavEvent) (s : Comb σ Λ) : Prop where
  told : List.Forall₂ Told done evs
  mav : MavInv c.mav c.mav.nClusters w s.mav evs
  adds : ∀ a ∈ added c.mav.infoBytes done, Addable a
  ents : ∀ g < c.mav.nClusters, EntKnows c s.ent g (keep c.window (wordsFor c done g))
  words : ∀ g, ∀ y ∈ wordsFor c done g, y.length = c.modelLength

section
variable {c : CombCfg} {n len : Nat} {w : Option Nat} {code : List Bool → Prop} {T : Nat}

theorem one_call (hf : c.Fits n) (hn : n = 8 * len) (hm : 0 < c.modelLength) (hw0 : c.window ≠ some 0)
    (hnd : c.mav.idx.Nodup) (hi : c.mav.idx.length = c.modelLength) (hlt : ∀ i ∈ c.mav.idx, i < n)
    (hinfo : ∀ w, 8 * (c.mav.infoBytes w).length ≤ w.length) (hl : c.mav.learning = true) (hcen : 0 ≤ c.mav.center)
    (cls : Labeler σ) (ldpc : Ldpc Λ) (hest : ∀ l i, (ldpc l i).2.estimate.length = n) (hcor : Corrects ldpc code T)
    (done : List Call) (evs : List MavEvent) (s : Comb σ Λ) (hs : Ready c w done evs s) (x : Call)
    (hx : Heard c w code T n done x) (cs : σ) (run : Int)
    (hpk : pickLabel cls c.mav.nClusters c.mav.cluster s.mav.cls s.mav.running
      (if 1 < c.mav.nClusters ∧ c.mav.cluster = true then bitsAt c.mav.idx (hardWord x.obs) else []) = (cs, run, .ok (x.cluster : Int))) :
    (∃ r, (s.decode c cls ldpc x.obs).result = .ok r ∧ r.success = true ∧ r.estimate = x.sent ∧ r.label = x.cluster) ∧
    (∃ e, Ready c w (done ++ [x]) (evs ++ [e]) (s.decode c cls ldpc x.obs).state) ∧
    (s.decode c cls ldpc x.obs).state.mav.cls = cs ∧ (s.decode c cls ldpc x.obs).state.mav.running = run := by
  classical
  have hmn : c.modelLength ≤ n := by rcases hf with ⟨_, h⟩ | h <;> omega
  have hE := hs.ents x.cluster hx.cluster
  have hne : x.obs ≠ [] := by
    intro h0
    have := hx.obsLength
    rw [h0] at this
    simp at this
    omega
  have hst := told_structure c.mav.infoBytes hs.told x.cluster
  have hadd := told_added c.mav.infoBytes hs.told
  have hfa : (learnedWords c.mav.infoBytes [] evs).filter (fun a => decide (Addable a)) = added c.mav.infoBytes done := by
    rw [hadd]
    exact List.filter_eq_self.2 fun a ha => by simpa using hs.adds a ha
  have hget : s.mav.structures[x.cluster]? = some (layOf c.mav.infoBytes done x.cluster) := by
    rw [hs.mav.structures, List.getElem?_map, List.getElem?_range hx.cluster, Option.map_some, hst]
  have hpred : ∃ mw inp : List ℝ, mw.length = n ∧ inp.length = n ∧
      (({ s with mav := { s.mav with cls := cs, running := run } } : Comb σ Λ).mavlinkPrediction c x.obs x.cluster).2 = .ok mw ∧
      s.addEntropy c x.obs mw x.cluster = .ok inp ∧ errors x.sent inp ≤ T := by
    cases hlay : layOf c.mav.infoBytes done x.cluster with
    | none =>
      obtain ⟨peak, p2, p1⟩ := maxAbs_peak hne
      have hnil : wordsFor c done x.cluster = [] := by
        unfold wordsFor
        rw [List.map_eq_nil_iff, List.filter_eq_nil_iff]
        intro y hy hyc
        obtain ⟨st, h'⟩ := layOf_some c.mav.infoBytes done y hy
        rw [of_decide_eq_true hyc, hlay] at h'
        cases h'
      have hk : keep c.window (wordsFor c done x.cluster) = [] := by rw [hnil]; cases c.window <;> simp [keep, lastN]
      refine ⟨x.obs, x.obs, hx.obsLength, hx.obsLength, ?_, ?_, hx.first hlay⟩
      · unfold Comb.mavlinkPrediction
        simp only [hget, hlay]
      · rw [entropy_part c hm s x.cluster _ hE hnd hi x.obs x.obs (by rw [hx.obsLength]; exact hlt) peak p2, hk]
        congr 1
        apply List.ext_getElem
        · simp
        · intro i h1 h2
          simp [entAdd, h2]
    | some st =>
      obtain ⟨fitv, mb, g2, hfew⟩ := hx.later st hlay
      have hrange : n / 8 = len := by omega
      rw [hrange] at g2
      have hfields := hs.mav.fields
      have hsize := hs.mav.size
      rw [hfa] at hfields hsize
      obtain ⟨peak, p1, p2, p3⟩ := model_prediction c hm hinfo ({ s with mav := { s.mav with cls := cs, running := run } } : Comb σ Λ)
        x.cluster st (by rw [hlay] at hget; exact hget) (len := len) ⟨g2.fit, hfields, g2.range, g2.apart, g2.mean⟩ _ hE
        (Or.inl hcen) x.obs (by rw [hx.obsLength, hn]) (by rw [hx.obsLength]; exact hmn)
      have hsz : s.mav.model.modelSize = sizeAfter w done.length := by rw [hsize]; simp [added]
      obtain ⟨mw, hmw⟩ : ∃ mw, mw = modelWord c (sizeAfter w done.length) (keep c.window (wordsFor c done x.cluster))
        (bitSays c.mav.stats w fitv (fun name => (added c.mav.infoBytes done).flatMap (takes name)) mb st (bitsToBytes (hardBits x.obs)))
        peak x.obs := ⟨_, rfl⟩
      have hmwl : mw.length = n := by rw [hmw, modelWord_length, hx.obsLength]
      refine ⟨mw, (List.range mw.length).map fun i => mw.getD i 0 +
        if i ∈ c.mav.idx then entAdd c (keep c.window (wordsFor c done x.cluster)) peak (c.mav.idx.idxOf i) else 0, hmwl, by simp [hmwl], ?_,
        entropy_part c hm s x.cluster _ hE hnd hi x.obs mw (by rw [hmwl]; exact hlt) peak p2, ?_⟩
      · rw [hmw, ← hsz]
        exact p3
      · have := hfew peak p1
        unfold combinedWord at this
        rw [← hmw] at this
        rw [hmwl, ← hx.obsLength]
        exact this
  obtain ⟨mw, inp, _, hinpl, p3, ha, hT⟩ := hpred
  obtain ⟨k1, k2⟩ := hcor s.mav.ldpc x.sent inp hx.word (by rw [hinpl, hx.sentLength]) hT
  obtain ⟨q1, q2, q3, q5, q4⟩ := call_learns hl cls ldpc hs.mav x.obs x.cluster hx.cluster (by rw [hx.obsLength]; exact hlt) cs run hpk _ _
    p3 ha _ rfl (fun m hmi => learns hmi done hs.told x hx.cluster hx.fits _ k1 k2 _)
  have hb := (learnedBits_fit hf hx.sentLength)
  have hlearn : (s.decode c cls ldpc x.obs).learned = some (x.cluster, x.sent.take c.modelLength) := by
    rw [q1]
    simp only [k1, k2, if_true, hb.2]
  obtain ⟨_, data, hd, hret, _⟩ := c68_fits_returns hf hm hw0 cls ldpc hest s x.obs hx.obsLength hlearn
  have hmem : x.sent.take c.modelLength ∈ data := by
    rcases comb_ent_cases c cls ldpc s x.obs with ⟨h1, _⟩ | ⟨label, o, inp, lst, ho, _, d1, d2, d3, hlearn', hst, hres⟩
    · rw [h1] at hlearn; cases hlearn
    · rw [hlearn'] at hlearn
      injection hlearn with hlearn
      injection hlearn with hl1 hl2
      subst hl1
      rw [hl2] at hst
      have hdd := update_data (c := c.ced) rfl s.ent (bits := x.sent.take c.modelLength) (by rw [← hb.2]; exact hb.1) hE.held
      rw [← hst, hd] at hdd
      injection hdd with hdd
      rw [hdd]
      exact grow_mem hw0 _ _
  have hbit : ∀ j b, j < c.modelLength → x.sent[j]? = some b → (x.sent.take c.modelLength).getD j false = b := by
    intro j b hj hb
    rw [List.getD_eq_getElem?_getD, List.getElem?_take, if_pos hj, hb, Option.getD_some]
  obtain ⟨r, hr⟩ := hret ⟨by
      obtain ⟨j, hj, e⟩ := hx.zero
      exact ⟨_, hmem, j, hj, hbit j _ hj e⟩, by
      obtain ⟨j, hj, e⟩ := hx.one
      exact ⟨_, hmem, j, hj, hbit j _ hj e⟩⟩
  obtain ⟨r1, r2, r3⟩ := q4 r hr
  have hnew : ∀ g, wordsFor c (done ++ [x]) g = wordsFor c done g ++ combLearnedBy g [s.decode c cls ldpc x.obs] := by
    intro g
    unfold wordsFor
    rw [List.filter_append, List.map_append]
    congr 1
    by_cases hg : x.cluster = g <;> simp [combLearnedBy, hlearn, hg]
  refine ⟨⟨r, hr, by rw [r2, k1], by rw [r1, k2], r3⟩, ⟨_, List.rel_append hs.told (.cons ⟨rfl, k1, k2⟩ .nil), q5, ?_, fun g hg => ?_,
    fun g y hy => ?_⟩, q2, q3⟩
  · intro a ha
    rw [added_snoc] at ha
    rcases List.mem_append.1 ha with ha | ha
    · exact hs.adds a ha
    · rw [List.mem_singleton.1 ha]
      exact hx.fits
  · rw [hnew]
    exact (entKnows_step hf hm hw0 cls ldpc hest s x.obs hx.obsLength g _ (hs.words g) (hs.ents g hg) r hr).1
  · rw [hnew] at hy
    rcases List.mem_append.1 hy with hy | hy
    · exact hs.words g y hy
    · simp only [combLearnedBy, hlearn, List.filterMap_cons, List.filterMap_nil] at hy
      by_cases hg : x.cluster = g
      · simp only [hg, if_true, List.mem_singleton] at hy
        rw [hy, ← hb.2]; exact hb.1
      · simp [hg] at hy

theorem calls_from (hf : c.Fits n) (hn : n = 8 * len) (hm : 0 < c.modelLength) (hw0 : c.window ≠ some 0)
    (hnd : c.mav.idx.Nodup) (hi : c.mav.idx.length = c.modelLength) (hlt : ∀ i ∈ c.mav.idx, i < n)
    (hinfo : ∀ w, 8 * (c.mav.infoBytes w).length ≤ w.length) (hl : c.mav.learning = true) (hcen : 0 ≤ c.mav.center)
    (cls : Labeler σ) (ldpc : Ldpc Λ) (hest : ∀ l i, (ldpc l i).2.estimate.length = n) (hcor : Corrects ldpc code T)
    (rest : List Call) : ∀ (done : List Call) (evs : List MavEvent) (s : Comb σ Λ), Ready c w done evs s →
    (∀ j x, rest[j]? = some x → Heard c w code T n (done ++ rest.take j) x) →
    (asks c.mav cls s.mav.cls s.mav.running (rest.map Call.obs)).2 = rest.map (fun x => .ok (x.cluster : Int)) →
    List.Forall₂ (fun st x => ∃ r, st.result = .ok r ∧ r.success = true ∧ r.estimate = x.sent ∧ r.label = (x.cluster : Int))
      (Comb.run c cls ldpc s (rest.map Call.obs)).2 rest := by
  induction rest with
  | nil => intro _ _ _ _ _ _; exact .nil
  | cons x rest ih =>
    intro done evs s hs hx hask
    rw [List.map_cons, List.map_cons, asks] at hask
    injection hask with h1 h2
    have h0 := hx 0 x rfl
    rw [List.take_zero, List.append_nil] at h0
    obtain ⟨a1, ⟨e, a2⟩, a3, a4⟩ := one_call hf hn hm hw0 hnd hi hlt hinfo hl hcen cls ldpc hest hcor done evs s hs x h0 _ _
      (Prod.ext rfl (Prod.ext rfl h1))
    rw [List.map_cons, Comb.run]
    refine .cons a1 (ih (done ++ [x]) _ _ a2 (fun j y hy => ?_) (by rw [a3, a4]; exact h2))
    have := hx (j + 1) y (by simpa using hy)
    rwa [List.take_succ_cons, List.append_cons] at this

/-- **C154.** A combined decoder of either kind that starts with nothing and learns, and an LDPC decoder that corrects `T` wrong bits. Words
are sent and each call takes its word for the cluster it belongs to. The first word of each cluster is received with at most `T` wrong
bits; of the word specified by C85 for each later one - for the numbers and model bits of the words *sent* before - at most `T` bits are
wrong, however many were received wrong. Then every call returns the word sent, with success and that cluster, although structures, field
models and entropy models are learned from what the decoder decoded itself. -/
theorem c154_forever (hf : c.Fits n) (hn : n = 8 * len) (hm : 0 < c.modelLength) (hw0 : c.window ≠ some 0)
    (hnd : c.mav.idx.Nodup) (hi : c.mav.idx.length = c.modelLength) (hlt : ∀ i ∈ c.mav.idx, i < n)
    (hinfo : ∀ w, 8 * (c.mav.infoBytes w).length ≤ w.length) (hl : c.mav.learning = true) (hcen : 0 ≤ c.mav.center)
    (cls : Labeler σ) (ldpc : Ldpc Λ) (hest : ∀ l i, (ldpc l i).2.estimate.length = n) (hcor : Corrects ldpc code T)
    (cs : σ) (ls : Λ) (calls : List Call)
    (hheard : ∀ j x, calls[j]? = some x → Heard c w code T n (calls.take j) x)
    (hask : (asks c.mav cls cs (-1) (calls.map Call.obs)).2 = calls.map (fun x => .ok (x.cluster : Int))) :
    List.Forall₂ (fun st x => ∃ r, st.result = .ok r ∧ r.success = true ∧ r.estimate = x.sent ∧ r.label = (x.cluster : Int))
      (Comb.run c cls ldpc (Comb.new c.mav.nClusters (BufferModel.new w) cs ls) (calls.map Call.obs)).2 calls := by
  refine calls_from (w := w) hf hn hm hw0 hnd hi hlt hinfo hl hcen cls ldpc hest hcor calls [] [] _ ?_
    (fun j x hx => by rw [List.nil_append]; exact hheard j x hx) hask
  refine ⟨.nil, mavInv_new c.mav c.mav.nClusters w cs ls, by simp [added], fun g hg => ?_, fun g y hy => by simp [wordsFor] at hy⟩
  exact entKnows_new c g hg (BufferModel.new w) cs ls

end

/-! ### An example: a heartbeat received right and one with three wrong bits, for an LDPC decoder that corrects nothing -/

open NR.C116 NR.C117 NR.C126
open NR.C122 hiding hit
open NR.C151 (Same beats beats_ok sentMsgs hit errors_handed c151_spared hardBitsOf)

/-- A decoder that learns from nothing, with all 136 bits as model bits. -/
noncomputable def exComb : CombCfg :=
  { mav := { exCfg exOps wholeBytes with idx := List.range 136 }, modelLength := 136, threshold := 1/2, clipping := 5, bitFlip := 0,
    window := none, unified := false, flip := false }

open Classical in
/-- An LDPC decoder for the code of this heartbeat only, which corrects nothing. -/
noncomputable def exLdpc : Ldpc Unit := fun _ inp => match inp with
  | .llr w => ((), ⟨beats.word, w, decide (hardWord w = beats.word), 1, [], []⟩)
  | _ => ((), ⟨beats.word, [], false, 20, [], []⟩)

theorem exLdpc_corrects : Corrects exLdpc (fun x => x = beats.word) 0 := by
  intro s x w hx hw he
  have := C148.same_of_errors hw he
  refine ⟨?_, hx.symm⟩
  show decide (hardWord w = beats.word) = true
  rw [this, hx]
  simp

noncomputable def call1 : Call := ⟨0, beats.word, C147.ratios beats.word⟩

noncomputable def call2 : Call := ⟨0, beats.word, C147.ratios hit⟩

theorem beats_length : beats.word.length = 136 := by decide +kernel

theorem hit_length : hit.length = 136 := by decide +kernel

theorem beats_layout : layout 0 beats.frames = [(0, 0)] := by decide +kernel

theorem beats_found : messagesIn (exComb.mav.infoBytes beats.word) = [(0, 0)] := by
  have h : messagesIn (wholeBytes beats.word) = [(0, 0)] := by decide +kernel
  have hib : exComb.mav.infoBytes = wholeBytes := rfl
  rw [hib, h]

theorem beats_addable : Addable (.bits beats.word, [(0, 0)]) := by
  have := (takes_word beats beats_ok beats.word (List.prefix_refl _)).1
  rwa [beats_layout] at this

theorem range_of {est : List Bool} {len : Nat} {st : List (Nat × Nat)} (h : Addable (.bits est, st)) (hl : est.length = 8 * len) :
    InRange len st := by
  obtain ⟨b, hb, hr⟩ := h
  cases hb
  rwa [(bytesBits_bitsToBytes len est hl).1] at hr

theorem beats_range : InRange 17 [(0, 0)] := range_of beats_addable beats_length

theorem beats_takes (name : String) : takes name (.bits beats.word, [(0, 0)]) = under name (sentMsgs [beats]) := by
  obtain ⟨_, ms, hd, ht⟩ := takes_word beats beats_ok beats.word (List.prefix_refl _)
  have hms : ms = sentMsgs [beats] := by
    unfold sentMsgs
    rw [List.flatMap_cons, List.flatMap_nil, List.append_nil]
    clear ht
    generalize beats.frames = fs at hd
    induction hd with
    | nil => rfl
    | cons h _ ih => rw [List.filterMap_cons, h.1, ih]; rfl
  rw [← hms, ← ht, beats_layout]

theorem beats_same (q : Place) (hq : q ∈ fieldPlaces [(0, 0)]) : ∃ v : Int, Same exComb.mav none [beats] q (.int v) (q.bytes C120.beat) ∧
    under q.name (sentMsgs [beats]) = [.int v] := by
  obtain ⟨v, h1, h2⟩ := C151.beat_constant q hq
  refine ⟨v, ⟨?_, h1, exOps_exact none _ v (packScalar_ok h1)⟩, h2⟩
  intro u hu
  have hu := windowed_sub hu
  rw [h2] at hu
  simpa using hu

theorem hit_word (fitv : List Val → ℝ × ℝ) (mb : Place → List Bool) (len : Nat) (hlen : len = 17)
    (h : Lay exComb none (fun name => under name (sentMsgs [beats])) fitv mb len [(0, 0)]) (size : Nat) (peak : ℝ)
    (hp : IsPeak (C147.ratios hit) peak) :
    errors beats.word (handedWord exComb.mav size (bitSays exComb.mav.stats none fitv (fun name => under name (sentMsgs [beats])) mb [(0, 0)]
      (bitsToBytes (hardBits (C147.ratios hit)))) peak (C147.ratios hit)) ≤ 0 := by
  classical
  subst hlen
  have hrl : (C147.ratios hit).length = 136 := by rw [C147.ratios, List.length_map, hit_length]
  have hnz : ∃ y ∈ C147.ratios hit, y ≠ 0 := by
    have hb := hit_length
    generalize hit = b at hb
    match b, hb with
    | a :: rest, _ => exact ⟨_, List.mem_cons_self, by cases a <;> norm_num⟩
  have hd := decided exComb.mav (by norm_num [exComb, exCfg]) (by norm_num [exComb, exCfg]) size none 17 [(0, 0)] h.range h.apart
    (C147.ratios hit) (by rw [hrl]) hnz (fun name => under name (sentMsgs [beats])) fitv mb h.fit h.mean peak hp _ rfl
  refine (errors_handed exComb.mav none [beats] [(0, 0)] beats.word _ _ (by rw [hrl, beats_length]) hd fun q hq => ?_).trans ?_
  · obtain ⟨v, h1, _⟩ := beats_same q hq
    exact .inl ⟨_, _, h1⟩
  have hmes : messagesIn (exComb.mav.infoBytes (hardBits (C147.ratios hit))) = [] := by
    have h0 : messagesIn (wholeBytes hit) = [] := by decide +kernel
    have h1 : hardBits (C147.ratios hit) = hit := C147.ratios_hard hit
    have hib : exComb.mav.infoBytes = wholeBytes := rfl
    rw [h1, hib, h0]
  have hnot : ∀ i, ¬ InMessages (messagesIn (exComb.mav.infoBytes (hardBits (C147.ratios hit)))) i := by
    rw [hmes]
    rintro i ⟨r, hr, _⟩
    simp at hr
  have hcover : ∀ k < 17, (∃ q ∈ fieldPlaces [(0, 0)], q.Has k) ↔ k < 15 := by decide +kernel
  unfold hardBitsOf
  rw [Nat.le_zero, Finset.card_eq_zero, Finset.filter_eq_empty_iff]
  intro i hi
  rw [Finset.mem_range, beats_length] at hi
  by_cases h15 : i / 8 < 15
  · obtain ⟨q, hq, hhas⟩ := (hcover (i / 8) (by omega)).2 h15
    obtain ⟨v, h1, h2⟩ := beats_same q hq
    have := c151_spared _ none [beats] beats beats_ok 17 beats.word beats_length (List.prefix_refl _)
      (by rw [beats_layout]; simp [NonOverlapping]) _ q (by rw [beats_layout]; exact hq) _ _ h1 (by rw [h2]; simp) (by rw [h2]; simp) i hhas (hnot i)
    rwa [beats_layout] at this
  · rintro (⟨_, hne⟩ | ⟨_, q, hq, hhas, _⟩)
    · rw [C147.ratios_hard] at hne
      have : ∀ i < 136, 15 ≤ i / 8 → hit[i]? = beats.word[i]? := by decide +kernel
      exact hne (this i hi (by omega))
    · exact h15 ((hcover (i / 8) (by omega)).1 ⟨q, hq, hhas⟩)

/-- Both are decoded. -/
example (cls : Labeler Unit) :
    List.Forall₂ (fun st x => ∃ r, st.result = .ok r ∧ r.success = true ∧ r.estimate = x.sent ∧ r.label = (x.cluster : Int))
      (Comb.run exComb cls exLdpc (Comb.new exComb.mav.nClusters (BufferModel.new none) () ()) ([call1, call2].map Call.obs)).2 [call1, call2] := by
  have hidx : exComb.mav.idx = List.range 136 := rfl
  have hlets : (∃ j < 136, beats.word[j]? = some false) ∧ (∃ j < 136, beats.word[j]? = some true) := by decide +kernel
  have hfind : ∀ done : List Call, (∀ y ∈ done, y.cluster = 0 ∧ y.sent = beats.word) → done ≠ [] →
      layOf exComb.mav.infoBytes done 0 = some [(0, 0)] := by
    intro done hd hne
    match done, hne with
    | y :: rest, _ =>
      unfold layOf
      obtain ⟨h1, h2⟩ := hd y (by simp)
      rw [List.find?_cons, h1]
      simp only [BEq.rfl, Option.map_some, h2, beats_found]
  refine c154_forever (c := exComb) (n := 136) (len := 17) (w := none) (T := 0) (code := fun x => x = beats.word)
    (Or.inr rfl) rfl (by decide) (by decide) (by rw [hidx]; exact List.nodup_range) (by rw [hidx]; simp; rfl)
    (by intro i hi; rw [hidx] at hi; simpa using hi) ?_ rfl (by norm_num [exComb, exCfg]) cls exLdpc
    (by
      intro l i
      have : (exLdpc l i).2.estimate = beats.word := by cases i <;> rfl
      rw [this, beats_length]) exLdpc_corrects () () [call1, call2] ?_ ?_
  · intro w
    show 8 * (wholeBytes w).length ≤ w.length
    simp only [wholeBytes, List.length_take]
    omega
  · intro j x hx
    match j, hx with
    | 0, hx =>
      cases hx
      refine ⟨rfl, beats_length, ?_, Nat.one_pos, hlets.1, hlets.2, ?_, fun _ => ?_, fun st hst => ?_⟩
      · show (C147.ratios beats.word).length = 136
        rw [C147.ratios, List.length_map, beats_length]
      · have := hfind [call1] (by simp [call1]) (by simp)
        show Addable (.bits beats.word, (layOf exComb.mav.infoBytes [call1] 0).getD [])
        rw [this]
        exact beats_addable
      · show errors beats.word (C147.ratios beats.word) ≤ 0
        unfold errors
        rw [C147.ratios_hard]
        simp
      · cases hst
    | 1, hx =>
      cases hx
      have hl1 := hfind [call1] (by simp [call1]) (by simp)
      have hl2 := hfind [call1, call2] (by simp [call1, call2]) (by simp)
      have hadd : (fun name => (added exComb.mav.infoBytes [call1]).flatMap (takes name)) = fun name => under name (sentMsgs [beats]) := by
        funext name
        rw [← beats_takes]
        unfold added
        simp only [List.map_cons, List.map_nil, List.flatMap_cons, List.flatMap_nil, List.append_nil]
        show takes name (.bits beats.word, (layOf exComb.mav.infoBytes [call1] 0).getD []) = _
        rw [hl1]
        rfl
      refine ⟨rfl, beats_length, ?_, Nat.one_pos, hlets.1, hlets.2, ?_, fun h0 => ?_, fun st hst => ?_⟩
      · show (C147.ratios hit).length = 136
        rw [C147.ratios, List.length_map, hit_length]
      · show Addable (.bits beats.word, (layOf exComb.mav.infoBytes [call1, call2] 0).getD [])
        rw [hl2]
        exact beats_addable
      · have h0 : layOf exComb.mav.infoBytes [call1] 0 = none := h0
        rw [hl1] at h0
        cases h0
      · have hst : layOf exComb.mav.infoBytes [call1] 0 = some st := hst
        rw [hl1] at hst
        cases hst
        have hd : (List.take 1 [call1, call2]) = [call1] := rfl
        rw [hd, hadd]
        let fitv : List Val → ℝ × ℝ := fun l => match exComb.mav.stats.fit l with | .ok r => r | .error _ => (0, 0)
        have hL : Lay exComb none (fun name => under name (sentMsgs [beats])) fitv (fun q => bytesBits (q.bytes C120.beat)) (136 / 8) [(0, 0)] := by
          have hfit : ∀ q ∈ fieldPlaces [(0, 0)], ∃ μ, exComb.mav.stats.fit (windowed none (under q.name (sentMsgs [beats]))) = .ok (μ, 0) ∧
              exComb.mav.stats.toBits μ q.type = .ok (bytesBits (q.bytes C120.beat)) := by
            intro q hq
            obtain ⟨v, h1, h2⟩ := beats_same q hq
            obtain ⟨μ, k1, _, k3⟩ := h1.exact.mean
            exact ⟨μ, k1 _ (windowed_ne none _ (by rw [h2]; simp)) (windowed_idem none _) h1.kept, k3 _ h1.bytes⟩
          refine ⟨by simp [NonOverlapping], ?_, fun q hq => ?_, fun q hq => ?_⟩
          · exact beats_range
          · obtain ⟨μ, h1, _⟩ := hfit q hq
            simp only [fitv, h1]
          · obtain ⟨μ, h1, h2⟩ := hfit q hq
            obtain ⟨v, h3, h4⟩ := beats_same q hq
            refine ⟨?_, ?_⟩
            · unfold meanBits
              rw [if_neg (by rw [h4]; simp), h1]
              exact h2
            · rw [bytesBits_length, packScalar_length h3.bytes, width_size]
        refine ⟨fitv, _, hL, fun peak hp => ?_⟩
        have hw : keep exComb.window (wordsFor exComb [call1] call2.cluster) = [beats.word.take 136] := rfl
        have hcw : ∀ info, combinedWord exComb (sizeAfter none [call1].length) (keep exComb.window (wordsFor exComb [call1] call2.cluster)) info
            peak call2.obs = handedWord exComb.mav (sizeAfter none [call1].length) info peak call2.obs := by
          intro info
          rw [hw]
          have hmw : modelWord exComb (sizeAfter none [call1].length) [beats.word.take 136] info peak call2.obs =
              handedWord exComb.mav (sizeAfter none [call1].length) info peak call2.obs := by
            unfold modelWord
            rw [if_neg (by simp [exComb])]
          unfold combinedWord
          rw [hmw]
          have hlen : (handedWord exComb.mav (sizeAfter none [call1].length) info peak call2.obs).length = call2.obs.length := by simp [handedWord]
          generalize handedWord exComb.mav (sizeAfter none [call1].length) info peak call2.obs = v at hlen
          apply List.ext_getElem
          · simp [hlen]
          · intro i h1 h2
            simp [entAdd, h2]
        rw [hcw]
        exact hit_word fitv _ (136 / 8) rfl hL _ peak hp
    | j + 2, hx => simp at hx
  · rw [C151.asks_in_turn _ _ le_rfl rfl]
    simp [call1, call2, exComb, exCfg, List.range_succ, Nat.mod_one]

end NR.C154
