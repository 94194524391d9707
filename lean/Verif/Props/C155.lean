import Verif.Props.C102
import Verif.Props.C105
import Verif.Props.C143
import Verif.Props.C150
import Verif.Props.C153
/-
C155: the comparison of four decoders in which the combined decoder with a predefined field model decodes every word.
-/
namespace NR.C155
open NR NR.Studies Dialect
open NR.Spec hiding Steady
open NR.C147 (errors Corrects)
open NR.C150 (exact_self)
open NR.C151 (asks)
open NR.C153 (Call Heard Lay saying c153_forever)

variable {σ Λ τ : Type}

/-- The combined decoder as it is used in the comparison, with `debug` on and the positions of the errors: simulated_data_combined_decoder.py
:148-156, 189. -/
noncomputable def combined (c : CombCfg) (cls : Labeler σ) (ldpc : Ldpc Λ) (N : Nat) : Coder (Comb σ Λ) := fun s obs inverted =>
  ((s.decodeDebug c cls ldpc N obs inverted).state,
    (s.decodeDebug c cls ldpc N obs inverted).result.map fun r => (r.estimate, r.success))

/-- A word sent: its cluster, its bits and the positions inverted by the channel. -/
structure Sent where
  cluster : Nat
  bits : List Bool
  inverted : List Nat

/-- The word and the positions inverted. -/
def Sent.word (x : Sent) : List Bool × List Nat := (x.bits, x.inverted)

/-- As the channel delivers it. -/
noncomputable def Sent.call (p : ℝ) (x : Sent) : Call := ⟨x.cluster, x.bits, channelLlr p (flipAt x.bits x.inverted)⟩

theorem runDebug_snoc (c : CombCfg) (cls : Labeler σ) (ldpc : Ldpc Λ) (N : Nat) : ∀ (l : List (List ℝ × Option (List Nat)))
    (s : Comb σ Λ) (x : List ℝ × Option (List Nat)),
    (Comb.runDebug c cls ldpc N s (l ++ [x])).1 = ((Comb.runDebug c cls ldpc N s l).1.decodeDebug c cls ldpc N x.1 x.2).state
  | [], s, x => by simp [Comb.runDebug]
  | y :: l, s, x => by
    rw [List.cons_append, Comb.runDebug, Comb.runDebug]
    exact runDebug_snoc c cls ldpc N l _ x

/-- The decoder at work: while the calls without `debug` return the words sent, so do the calls with it. -/
theorem outputs_combined {c : CombCfg} {len : Nat} (hl : c.mav.learning = false) (cls : Labeler σ) (ldpc : Ldpc Λ)
    {w : Option Nat} {hist : String → List Val} {fitv : List Val → ℝ × ℝ} {mb : Place → List Bool}
    (as : List (BufArg × List (Nat × Nat))) (has : ∀ a ∈ as, Addable a) (hhist : hist = fun name => as.flatMap (takes name))
    {structures : List (Option (List (Nat × Nat)))} (lay : Nat → List (Nat × Nat))
    (hlay : ∀ g < c.mav.nClusters, structures[g]? = some (some (lay g)) ∧ Lay c w hist fitv mb len (lay g))
    (cs : σ) (ls : Λ) (s0 : Comb σ Λ)
    (hset : (Comb.new c.mav.nClusters (addAll c.mav.stats (BufferModel.new w) as) cs ls).setStructures c structures = (s0, .ok ())) (p : ℝ) :
    ∀ (sent : List Sent) (pre : List (List ℝ × Option (List Nat))) (s : Comb σ Λ), s = (Comb.runDebug c cls ldpc (8 * len) s0 pre).1 →
      (∀ x ∈ sent, x.cluster < c.mav.nClusters ∧ (x.call p).obs.length = 8 * len ∧ ∀ e ∈ x.inverted, e < 8 * len) →
      List.Forall₂ (fun st (x : Call) => ∃ r, st.result = .ok r ∧ r.success = true ∧ r.estimate = x.sent ∧ r.label = (x.cluster : Int))
        (Comb.run c cls ldpc s ((sent.map (Sent.call p)).map Call.obs)).2 (sent.map (Sent.call p)) →
      outputs (combined c cls ldpc (8 * len)) s (sent.map fun x => ((x.call p).obs, some x.inverted)) =
        sent.map fun x => .ok (x.bits, true)
  | [], _, _, _, _, _ => rfl
  | x :: sent, pre, s, hs, hx, h => by
    obtain ⟨x1, x2, x3⟩ := hx x (by simp)
    rw [List.map_cons, List.map_cons, Comb.run] at h
    simp only at h
    obtain ⟨⟨r, r1, r2, r3, r4⟩, ht⟩ := List.forall₂_cons.1 h
    obtain ⟨l1, l2⟩ := hlay x.cluster x1
    have he := c105_predefined (c := c) (len := len) hl cls ldpc w as has structures cs ls s0 hset pre s hs x.cluster (lay x.cluster) l1
      l2.apart l2.range (x.call p).obs x2 hist hhist fitv mb l2.fit l2.mean x.inverted x3 r r1 r4
    rw [List.map_cons, List.map_cons, outputs]
    have ih := outputs_combined hl cls ldpc as has hhist lay hlay cs ls s0 hset p sent (pre ++ [((x.call p).obs, some x.inverted)])
      (s.decode c cls ldpc (x.call p).obs).state (by rw [runDebug_snoc, ← hs, ← he]) (fun y hy => hx y (List.mem_cons_of_mem _ hy)) ht
    congr 1
    · show Except.map _ (s.decodeDebug c cls ldpc (8 * len) (x.call p).obs (some x.inverted)).result = _
      rw [he, r1]
      show Except.ok (r.estimate, r.success) = _
      rw [r2, r3]
      rfl
    · show outputs _ (s.decodeDebug c cls ldpc (8 * len) (x.call p).obs (some x.inverted)).state _ = _
      rw [he]
      exact ih

/-- **C155.** A point of the comparison of the LDPC decoder (`a`), the combined decoder of either kind with a predefined field model and
structures set (`b`) and any other decoders, over the binary channel. The combined decoder takes each word for one of its cluster, every
word is received as in C153 - of what the decoder would hand over at most `T` bits are wrong, as many as its LDPC decoder corrects -,
and the others raise nothing. Then the step raises nothing and reports success rate 1 and bit error rate 0 for the combined decoder,
however many bits were inverted, for the first decoder the rate of the words it decodes, and the recovery rate 1 if that is not 1. -/
theorem c155_rates {c : CombCfg} {len : Nat} (hlen : 0 < len) {w : Option Nat} {hist : String → List Val} {fitv : List Val → ℝ × ℝ}
    {mb : Place → List Bool} {structures : List (Option (List (Nat × Nat)))} {code : List Bool → Prop} {T : Nat}
    (hf : c.Fits (8 * len)) (hm : 0 < c.modelLength) (hw0 : c.window ≠ some 0)
    (hnd : c.mav.idx.Nodup) (hi : c.mav.idx.length = c.modelLength) (hlt : ∀ i ∈ c.mav.idx, i < 8 * len)
    (hinfo : ∀ w, 8 * (c.mav.infoBytes w).length ≤ w.length) (hl : c.mav.learning = false) (hcen : 0 ≤ c.mav.center)
    (cls : Labeler σ) (ldpc : Ldpc Λ) (hest : ∀ l i, (ldpc l i).2.estimate.length = 8 * len) (hcor : Corrects ldpc code T)
    (as : List (BufArg × List (Nat × Nat))) (has : ∀ a ∈ as, Addable a) (hhist : hist = fun name => as.flatMap (takes name))
    (lay : Nat → List (Nat × Nat)) (hlay : ∀ g < c.mav.nClusters, structures[g]? = some (some (lay g)) ∧ Lay c w hist fitv mb len (lay g))
    (cs : σ) (ls : Λ) (s0 : Comb σ Λ)
    (hset : (Comb.new c.mav.nClusters (addAll c.mav.stats (BufferModel.new w) as) cs ls).setStructures c structures = (s0, .ok ()))
    (p : ℚ) (k : Nat) (sent : List Sent) (hne : sent ≠ [])
    (hinv : ∀ x ∈ sent, x.inverted.Nodup ∧ (∀ e ∈ x.inverted, e < 8 * len) ∧ x.inverted.length = errorCount (8 * len) p)
    (hheard : ∀ j x, sent[j]? = some x → Heard c code T (8 * len) (sizeAfter w as.length) (saying c w hist fitv mb lay)
      ((sent.take j).map (Sent.call p)) (x.call p))
    (hask : (asks c.mav cls cs (-1) (sent.map fun x => (x.call p).obs)).2 = sent.map fun x => .ok (x.cluster : Int))
    (a b : Contender τ) (others : List (Contender τ)) (hview : b.view = .ratiosAndErrors)
    (hb : ∀ given, outputs b.run b.state given = outputs (combined c cls ldpc (8 * len)) s0 given)
    (est : Nat → List (List Bool))
    (ho : ∀ (j : Nat) (d : Contender τ), j ≠ 1 → (a :: b :: others)[j]? = some d →
      Answers d (sent.map fun x => bscGiven p d.view x.word) (est j) ∧ ∀ e ∈ est j, e.length = 8 * len) :
    ∃ (r : Report) (x : Rates), bscStudy combinedLog (a :: b :: others) (8 * len) k p (sent.map Sent.word) =
        .ok (r, if x.success = 1 then [] else [1]) ∧
      r.number = sent.length ∧ r.rates.length = others.length + 2 ∧ r.rates[0]? = some x ∧ r.rates[1]? = some ⟨1, 0⟩ ∧
      x.success * (sent.length : ℚ) = (exact (est 0) (sent.map Sent.bits) : ℚ) := by
  have hN : 0 < 8 * len := by omega
  have hpos : 0 < sent.length := List.length_pos_of_ne_nil hne
  have hget : ∀ x ∈ sent, ∃ done, Heard c code T (8 * len) (sizeAfter w as.length) (saying c w hist fitv mb lay) done (x.call p) := by
    intro x hx
    obtain ⟨j, hj⟩ := List.getElem?_of_mem hx
    exact ⟨_, hheard j x hj⟩
  have hforever := c153_forever (n := 8 * len) hf rfl hm hw0 hnd hi hlt hinfo hl hcen cls ldpc hest hcor as has hhist lay hlay cs ls s0 hset
    (sent.map (Sent.call p)) (by
      intro j x hx
      rw [List.getElem?_map] at hx
      obtain ⟨y, hy, rfl⟩ := Option.map_eq_some_iff.1 hx
      rw [← List.map_take]
      exact hheard j y hy) (by
      rw [List.map_map, List.map_map]
      exact hask)
  have hout := outputs_combined hl cls ldpc as has hhist lay hlay cs ls s0 hset p sent [] s0 rfl (by
    intro x hx
    obtain ⟨_, H⟩ := hget x hx
    exact ⟨H.cluster, H.obsLength, (hinv x hx).2.1⟩) hforever
  have hans : Answers b (sent.map fun x => bscGiven p b.view x.word) (sent.map Sent.bits) := by
    refine ⟨sent.map fun _ => true, by simp, ?_⟩
    rw [hb, hview]
    refine Eq.trans ?_ (hout.trans ?_)
    · rfl
    · have : ∀ l : List Sent, ((l.map Sent.bits).zip (l.map fun _ => true)).map Except.ok =
          l.map fun x => (Except.ok (x.bits, true) : Except PyErr (List Bool × Bool)) := by
        intro l; induction l with
        | nil => rfl
        | cons x l ih => simp only [List.map_cons, List.zip_cons_cons, ih]
      exact (this sent).symm
  obtain ⟨r, h, _, r2, r3, r4, _⟩ := c102_rates (a :: b :: others) (8 * len) k hN p (sent.map Sent.word) (by simpa using hne)
    (by
      intro y hy
      obtain ⟨x, hx, rfl⟩ := List.mem_map.1 hy
      obtain ⟨_, H⟩ := hget x hx
      exact ⟨H.sentLength, hinv x hx⟩)
    (fun j => if j = 1 then sent.map Sent.bits else est j) (by
      intro j d hd
      rw [List.map_map]
      by_cases hj : j = 1
      · subst hj
        simp only [List.getElem?_cons_succ, List.getElem?_cons_zero, Option.some.injEq] at hd
        subst hd
        rw [if_pos rfl]
        refine ⟨hans, ?_⟩
        intro e he
        obtain ⟨x, hx, rfl⟩ := List.mem_map.1 he
        obtain ⟨_, H⟩ := hget x hx
        exact H.sentLength
      · rw [if_neg hj]
        exact ho j d hj hd)
  obtain ⟨x, y, lg, h0, h1, hlog, _, hlg⟩ := c102_combined a b others (8 * len) k p _ r h
  have hn : ((sent.length : ℕ) : ℚ) ≠ 0 := by exact_mod_cast hpos.ne'
  have hsent : (sent.map Sent.word).map Prod.fst = sent.map Sent.bits := by rw [List.map_map]; rfl
  obtain ⟨x1, _⟩ := r4 0 x h0
  obtain ⟨y1, y2⟩ := r4 1 y h1
  rw [hsent, if_pos rfl, (exact_self _).1, List.length_map, List.length_map] at y1
  rw [hsent, if_pos rfl, (exact_self _).2, List.length_map] at y2
  rw [hsent, if_neg (by decide), List.length_map] at x1
  have hy1 : y.success = 1 := mul_right_cancel₀ hn (by rw [y1, one_mul])
  have hy2 : y.ber = 0 := by
    have hb : ((sent.length : ℕ) : ℚ) * ((8 * len : ℕ) : ℚ) ≠ 0 := mul_ne_zero hn (by exact_mod_cast hN.ne')
    rcases mul_eq_zero.1 (y2.trans (by norm_num)) with h | h
    · exact h
    · exact absurd h hb
  have hy : y = ⟨1, 0⟩ := by
    cases y
    simp only at hy1 hy2
    rw [hy1, hy2]
  refine ⟨r, x, ?_, by simpa using r2, by simpa using r3, h0, by rw [h1, hy], x1⟩
  rw [hlog, hlg, hy1]
  by_cases hx : x.success = 1
  · rw [if_pos hx, if_pos hx]
  · rw [if_neg hx, if_neg hx, div_self (by intro h; exact hx (by linarith))]

/-- **C155.** With the option that the model is learned, no step reports anything: the structures are set although the field model is
empty, and the combined decoder raises for the first word, whatever is sent and inverted and whatever the other decoders do. For one
cluster, or several without a classifier. -/
theorem c155_learning_false {c : CombCfg} (hc : c.mav.cluster = false ∨ c.mav.nClusters ≤ 1) (hn : 0 < c.mav.nClusters) (cls : Labeler σ)
    (ldpc : Ldpc Λ) (w : Option Nat) (cs : σ) (ls : Λ) (len : Nat) (structs : List (Option (List (Nat × Nat))))
    (hl : structs.length = c.mav.nClusters) (hst : ∀ x ∈ structs, ∃ st, x = some st ∧ st ≠ [] ∧ InRange len st) :
    ∃ s0, (Comb.new c.mav.nClusters (BufferModel.new w) cs ls).setStructures c structs = (s0, .ok ()) ∧
      ∀ (log : LogLines) (contenders : List (Contender τ)) (j : Nat) (b : Contender τ) (k : Nat) (p : ℚ) (words : List (List Bool × List Nat)),
        contenders[j]? = some b → b.view = .ratiosAndErrors →
        (∀ given, outputs b.run b.state given = outputs (combined c cls ldpc (8 * len)) s0 given) →
        (∀ x ∈ words, x.1.length = 8 * len ∧ x.2.Nodup ∧ ∀ e ∈ x.2, e < 8 * len) →
        ∀ r, bscStudy log contenders (8 * len) k p words ≠ .ok r := by
  have fresh := C143.c143_fresh_combined c hc hn cls ldpc w cs ls structs hl len hst
  obtain ⟨s0, h0, _⟩ := fresh [] (by simp)
  refine ⟨s0, h0, ?_⟩
  rintro log contenders j b k p words hj hview hb hw ⟨r, lg⟩ h
  obtain ⟨x, ws, received, rows, rfl, h1, h2, _⟩ := (bscStudy_iff ..).1 h
  obtain ⟨g1, g2, g3⟩ := hw x List.mem_cons_self
  rw [bscReception_ok p _ fun y hy => ⟨(hw y hy).2.1, fun e he => by rw [(hw y hy).1]; exact (hw y hy).2.2 e he⟩, Except.ok.injEq] at h1
  subst h1
  have hs := ((loop_iff ..).1 h2).2.2 j b hj
  rw [List.map_cons, solo_cons] at hs
  obtain ⟨y, _, hy, _⟩ := hs
  have hfirst := hb [(channelLlr p (flipAt x.1 x.2), some x.2)]
  simp only [outputs, List.cons.injEq, and_true] at hfirst
  have hraise : ∃ e, (combined c cls ldpc (8 * len) s0 (channelLlr p (flipAt x.1 x.2)) (some x.2)).2 = .error e := by
    obtain ⟨t, t1, t2, _⟩ := fresh [channelLlr p (flipAt x.1 x.2)] (by
      intro ch hch
      rw [List.mem_singleton.1 hch]
      have : (channelLlr p (flipAt x.1 x.2)).length = x.1.length := by
        rw [← flipAt_length x.1 x.2]
        simp [channelLlr, bscLlr]
      omega)
    rw [h0, Prod.mk.injEq] at t1
    rw [← t1.1] at t2
    have hdec := (t2 _ (by rw [Comb.run]; exact List.mem_cons_self)).1
    have hk : KeysOk s0.mav.model := by
      have h0' : ((Comb.new c.mav.nClusters (BufferModel.new w) cs ls).setStructures c structs).1 = s0 := congrArg Prod.fst h0
      unfold Comb.setStructures Mav.setStructures at h0'
      rw [if_neg (by simpa using hl)] at h0'
      rw [← h0']
      exact new_keys w
    show ∃ e, Except.map _ (s0.decodeDebug c cls ldpc (8 * len) (channelLlr p (flipAt x.1 x.2)) (some x.2)).result = .error e
    cases hd : (s0.decodeDebug c cls ldpc (8 * len) (channelLlr p (flipAt x.1 x.2)) (some x.2)).result with
    | error e => exact ⟨e, rfl⟩
    | ok r' =>
      rw [c105_returns c cls ldpc (8 * len) s0 _ _ hk r' hd, hdec] at hd
      cases hd
  obtain ⟨e, he⟩ := hraise
  rw [he] at hfirst
  unfold Contender.attempt at hy
  rw [hview] at hy
  simp only [View.of, hfirst, bind, Except.bind] at hy
  cases hy

/-! ### An example: 60 of 136 bits are inverted in every word -/

open Classical in
/-- An LDPC decoder for the code with the word of the example of C153 only, which corrects nothing and returns what it received. -/
noncomputable def strict : Ldpc Unit := fun _ inp => match inp with
  | .llr w => ((), ⟨if w.length = 136 then hardWord w else C153.exWord, w, decide (hardWord w = C153.exWord), 1, [], []⟩)
  | _ => ((), ⟨C153.exWord, [], false, 20, [], []⟩)

theorem strict_corrects : Corrects strict (fun x => x = C153.exWord) 0 := by
  intro s x w hx hw he
  have := C148.same_of_errors hw he
  unfold strict
  simp only
  rw [this, hx]
  refine ⟨by simp, ?_⟩
  split <;> rfl

theorem strict_length (s : Unit) (inp : LdpcIn) : (strict s inp).2.estimate.length = 8 * 17 := by
  unfold strict
  cases inp with
  | llr w =>
    simp only
    split
    · rename_i h; simpa [hardWord] using h
    · exact C153.exWord_length
  | _ => exact C153.exWord_length

/-- The word sent: a heartbeat of zeros and a checksum of ones; the first 60 bits are inverted. -/
def exSent : Sent := ⟨0, C153.exWord, List.range 60⟩

theorem ex_rx (i : Nat) (hi : i < 136) : (flipAt C153.exWord (List.range 60)).getD i false = decide (i < 60 ∨ 120 ≤ i) := by
  rw [flipAt_getD _ _ (by rw [C153.exWord_length]; exact hi), List.getD_eq_getElem?_getD, C153.exWord_get i hi, Option.getD_some]
  by_cases h : i < 60
  · have : ¬ 120 ≤ i := by omega
    simp [h, this]
  · simp [h]

attribute [local irreducible] C153.exWord flipAt channelLlr

theorem ex_bits : flipAt C153.exWord (List.range 60) = List.replicate 60 true ++ List.replicate 60 false ++ List.replicate 16 true := by
  apply List.ext_getElem
  · rw [flipAt_length, C153.exWord_length]; simp
  · intro i h1 h2
    have hi : i < 136 := by rwa [flipAt_length, C153.exWord_length] at h1
    have h := ex_rx i hi
    rw [List.getD_eq_getElem?_getD, List.getElem?_eq_getElem h1, Option.getD_some] at h
    rw [h, List.getElem_append]
    by_cases h3 : i < 120
    · rw [dif_pos (by simpa using h3), List.getElem_append]
      by_cases h4 : i < 60
      · rw [dif_pos (by simpa using h4), List.getElem_replicate, decide_eq_true (.inl h4)]
      · rw [dif_neg (by simpa using h4), List.getElem_replicate, decide_eq_false (by omega)]
    · rw [dif_neg (by simpa using h3), List.getElem_replicate, decide_eq_true (.inr (by omega))]

theorem exWord_differs : flipAt C153.exWord (List.range 60) ≠ C153.exWord := by
  intro h
  have h1 := ex_rx 0 (by omega)
  rw [h, List.getD_eq_getElem?_getD, C153.exWord_get 0 (by omega)] at h1
  exact absurd h1 (by decide)

theorem half {p : ℝ} (h0 : 0 < p) (h1 : p < 1 / 2) : 0 < Real.log ((1 - p) / p) :=
  Real.log_pos (by rw [lt_div_iff₀ h0]; linarith)

theorem ex_model {p : ℝ} (h0 : 0 < p) (h1 : p < 1 / 2) (size : Nat) (data : List (List Bool)) {peak : ℝ} (hpk : 0 < peak) (i : Nat) (hi : i < 136) :
    (modelWord C153.exComb size data (bitSays zeroOps none (fun _ => (0, 0))
      (fun name => ([(BufArg.bytes zeroBeat, [(0, 0)])] : List (BufArg × List (Nat × Nat))).flatMap (takes name))
      (fun p => List.replicate (8 * width p.type) false) [(0, 0)] (bitsToBytes (hardBits (exSent.call p).obs))) peak
      (exSent.call p).obs).getD i 0 < 0 ↔ 120 ≤ i := by
  obtain ⟨c1, c2⟩ := C150.channel_at h0 h1 C153.exWord (List.range 60) (i := i) (by rw [C153.exWord_length]; exact hi)
  have hhard : hardBits (exSent.call p).obs = List.replicate 60 true ++ List.replicate 60 false ++ List.replicate 16 true := by
    rw [← ex_bits]
    exact (c83_channel p h0 h1 C153.exWord (List.range 60)).1
  have hlen : (exSent.call p).obs.length = 136 := by
    have := congrArg List.length hhard
    rw [hardBits_length] at this
    simpa using this
  have hmsg : messagesIn (C153.exComb.mav.infoBytes (hardBits (exSent.call p).obs)) = [] := by
    rw [hhard]
    have he : C153.exComb.mav.infoBytes (List.replicate 60 true ++ List.replicate 60 false ++ List.replicate 16 true) =
        bitsToBytes (List.replicate 60 true ++ List.replicate 60 false ++ List.replicate 16 true) := by
      have hg : ∀ w, C153.exComb.mav.infoBytes w = if w.length = 136 then bitsToBytes w else [] := fun _ => rfl
      rw [hg, if_pos (by simp)]
    rw [he]
    decide +kernel
  have hg : (exSent.call p).obs.getD i 0 < 0 ↔ i < 60 ∨ 120 ≤ i := by
    refine c1.trans ?_
    rw [ex_rx i hi, decide_eq_true_eq]
  have hne : (exSent.call p).obs.getD i 0 ≠ 0 := by
    intro h
    have c2 : |(exSent.call p).obs.getD i 0| = _ := c2
    rw [h, abs_zero] at c2
    exact absurd c2 (half h0 h1).ne
  obtain ⟨y, g1, _, g3⟩ := c85_decisions C153.exComb (by norm_num [C153.exComb, zeroComb, zeroCfg])
    (by norm_num [C153.exComb, zeroComb, zeroCfg]) size (entSays C153.exComb data)
    (bitSays zeroOps none (fun _ => (0, 0)) (fun name => [(BufArg.bytes zeroBeat, [(0, 0)])].flatMap (takes name))
      (fun p => List.replicate (8 * width p.type) false) [(0, 0)] (bitsToBytes (hardBits (exSent.call p).obs))) peak
      (exSent.call p).obs hpk i (by rw [hlen]; exact hi) hne
  unfold modelWord
  rw [if_pos (show C153.exComb.unified = true from rfl), List.getD_eq_getElem?_getD, g1, Option.getD_some]
  have hno : ¬ InMessages [] i := by rintro ⟨r, hr, _⟩; simp at hr
  rw [hmsg] at g3
  obtain ⟨g4, g5⟩ := g3 hno
  have hhas : ∀ k < 17, (∃ q ∈ fieldPlaces [(0, 0)], q.Has k) ↔ k < 15 := by decide +kernel
  have hhas := hhas (i / 8) (by omega)
  rcases bitSays_of (O := zeroOps) (w := none) (fitv := fun _ => (0, 0))
    (hist := fun name => ([(BufArg.bytes zeroBeat, [(0, 0)])] : List (BufArg × List (Nat × Nat))).flatMap (takes name))
    (mb := fun p => List.replicate (8 * width p.type) false) (st := [(0, 0)]) (bitsToBytes (hardBits (exSent.call p).obs)) i with
    ⟨q, hq, hh, he⟩ | ⟨hnone, he⟩
  · have h15 := hhas.1 ⟨q, hq, hh⟩
    rw [(g5 _ he).1 (by
      unfold BitSays.Forced
      refine ⟨fun h => absurd h (by decide), ?_⟩
      have hcl : ∀ v, (FieldModel.classify zeroOps 0 0 v).2 = 0 := by
        intro v
        unfold FieldModel.classify
        simp only [zeroOps]
        by_cases hv : v = Val.int 0 <;> simp [hv]
      exact hcl _)]
    simp only [List.getD_eq_getElem?_getD, List.getElem?_replicate]
    constructor
    · intro h; split at h <;> simp at h
    · intro h; omega
  · have h15 : ¬ i / 8 < 15 := fun h => by
      obtain ⟨q, hq, hh⟩ := hhas.2 h
      exact hnone q hq hh
    rw [g4 he, hg]
    omega

/-- Any number of such words over a channel with error probability 15/34: the LDPC decoder alone decodes none of them, the combined
decoder all of them. -/
example (cls : Labeler Unit) (m : Nat) : ∃ r, bscStudy combinedLog
    [(⟨fun s obs _ => (s, .ok ((strict () (.llr obs)).2.estimate, (strict () (.llr obs)).2.success)), zeroState, .ratios⟩ : Contender (Comb Unit Unit)),
      ⟨combined C153.exComb cls strict 136, zeroState, .ratiosAndErrors⟩] 136 120 (15 / 34)
      (List.replicate (m + 1) (C153.exWord, List.range 60)) = .ok (r, [1]) ∧
    r.rates[1]? = some ⟨1, 0⟩ ∧ ∃ x, r.rates[0]? = some x ∧ x.success = 0 := by
  classical
  have hp0 : (0 : ℝ) < ((15 / 34 : ℚ) : ℝ) := by norm_num
  have hp1 : ((15 / 34 : ℚ) : ℝ) < 1 / 2 := by norm_num
  have hf0 : C153.exComb.bitFlip = 0 := rfl
  have hidx : C153.exComb.mav.idx = List.range 136 := rfl
  have hobs : (exSent.call ((15 / 34 : ℚ) : ℝ)).obs.length = 136 := by
    show (channelLlr _ (flipAt C153.exWord (List.range 60))).length = 136
    rw [← C153.exWord_length, ← flipAt_length C153.exWord (List.range 60)]
    simp [channelLlr, bscLlr]
  have hone : ∀ x ∈ List.replicate (m + 1) exSent, x = exSent := fun x hx => List.eq_of_mem_replicate hx
  have hsa : ∀ (k : Nat) (s : Comb Unit Unit), outputs (fun (s : Comb Unit Unit) (obs : List ℝ) (_ : Option (List Nat)) =>
      (s, (Except.ok ((strict () (.llr obs)).2.estimate, (strict () (.llr obs)).2.success) : Except PyErr (List Bool × Bool)))) s
      (List.replicate k (bscGiven ((15 / 34 : ℚ) : ℝ) .ratios exSent.word)) =
      ((List.replicate k (flipAt C153.exWord (List.range 60))).zip (List.replicate k false)).map .ok := by
    have c1 := (c83_channel _ hp0 hp1 C153.exWord (List.range 60)).1
    have hst : (strict () (.llr (channelLlr ((15 / 34 : ℚ) : ℝ) (flipAt C153.exWord (List.range 60))))).2.estimate =
        flipAt C153.exWord (List.range 60) := by
      unfold strict
      simp only
      rw [if_pos (show (channelLlr ((15 / 34 : ℚ) : ℝ) (flipAt C153.exWord (List.range 60))).length = 136 from hobs)]
      exact c1
    have hsf : (strict () (.llr (channelLlr ((15 / 34 : ℚ) : ℝ) (flipAt C153.exWord (List.range 60))))).2.success = false := by
      unfold strict
      simp only
      refine decide_eq_false fun h => exWord_differs ?_
      exact c1.symm.trans h
    intro k
    induction k with
    | zero => intro s; rfl
    | succ k ih =>
      intro s
      rw [List.replicate_succ, List.replicate_succ, List.replicate_succ, outputs, List.zip_cons_cons, List.map_cons]
      congr 1
      · show Except.ok _ = Except.ok _
        rw [show (bscGiven ((15 / 34 : ℚ) : ℝ) .ratios exSent.word).1 = channelLlr ((15 / 34 : ℚ) : ℝ) (flipAt C153.exWord (List.range 60)) from rfl,
          hst, hsf]
      · exact ih s
  refine Exists.elim (c155_rates (c := C153.exComb) (len := 17) (by omega) (w := none) (T := 0) (code := fun x => x = C153.exWord)
    (hist := fun name => ([(BufArg.bytes zeroBeat, [(0, 0)])] : List (BufArg × List (Nat × Nat))).flatMap (takes name))
    (fitv := fun _ => (0, 0)) (mb := fun p => List.replicate (8 * width p.type) false) (structures := [some [(0, 0)]])
    (Or.inl ⟨rfl, le_rfl⟩) (by decide) (by decide) (by rw [hidx]; exact List.nodup_range) (by rw [hidx]; simp; rfl)
    (by intro i hi; rw [hidx] at hi; simpa using hi) zero_info rfl (by norm_num [C153.exComb, zeroComb, zeroCfg]) cls strict
    strict_length strict_corrects _ zero_addable rfl (fun _ => [(0, 0)])
    (by
      intro g hg
      have : g = 0 := by
        have : g < 1 := hg
        omega
      subst this
      exact ⟨rfl, by simp [NonOverlapping], zero_range, fun _ _ => rfl, fun p hp => ⟨zero_mean p hp, by simp⟩⟩) () () zeroState rfl
    (15 / 34) 120 (List.replicate (m + 1) exSent) (by simp) ?_ ?_ ?_
    ⟨fun s obs _ => (s, .ok ((strict () (.llr obs)).2.estimate, (strict () (.llr obs)).2.success)), zeroState, .ratios⟩
    ⟨combined C153.exComb cls strict 136, zeroState, .ratiosAndErrors⟩ [] rfl (fun _ => rfl)
    (fun _ => List.replicate (m + 1) (flipAt C153.exWord (List.range 60))) ?_) ?_
  · intro x hx
    rw [hone x hx]
    refine ⟨List.nodup_range, fun e he => ?_, ?_⟩
    · have := List.mem_range.1 he
      omega
    · show (List.range 60).length = _
      rw [List.length_range]
      decide +kernel
  · intro j x hx
    have hx : x = exSent := hone x (List.mem_of_getElem? hx)
    subst hx
    refine C153.c153_heard (by rw [hf0]; norm_num) (by norm_num [C153.exComb, zeroComb]) (by norm_num [C153.exComb, zeroComb])
      (by rw [hidx]; exact List.nodup_range) rfl C153.exWord_length hobs (by decide)
      ⟨0, by decide, C153.exWord_get 0 (by omega)⟩ ⟨120, by decide, C153.exWord_get 120 (by omega)⟩ ?_
    intro peak hp
    have hpk : 0 < peak := by
      obtain ⟨c1, c2⟩ := C150.channel_at hp0 hp1 C153.exWord (List.range 60) (i := 0) (by rw [C153.exWord_length]; omega)
      have hm : (exSent.call ((15 / 34 : ℚ) : ℝ)).obs.getD 0 0 ∈ (exSent.call ((15 / 34 : ℚ) : ℝ)).obs := by
        rw [List.getD_eq_getElem?_getD, List.getElem?_eq_getElem (by rw [hobs]; omega), Option.getD_some]
        exact List.getElem_mem _
      have := hp.2 _ hm
      have c2 : |(exSent.call ((15 / 34 : ℚ) : ℝ)).obs.getD 0 0| = _ := c2
      have := half hp0 hp1
      linarith
    rw [Nat.le_zero, Finset.card_eq_zero, Finset.filter_eq_empty_iff]
    intro i hi
    rw [Finset.mem_range] at hi
    have hi : i < 136 := by
      have h : i < C153.exWord.length := hi
      rwa [C153.exWord_length] at h
    obtain ⟨done, hdone⟩ : ∃ d, d = ((List.replicate (m + 1) exSent).take j).map (Sent.call ((15 / 34 : ℚ) : ℝ)) := ⟨_, rfl⟩
    rw [← hdone]
    obtain ⟨data, hdata⟩ : ∃ d, d = keep C153.exComb.window (C153.wordsFor C153.exComb done (exSent.call ((15 / 34 : ℚ) : ℝ)).cluster) := ⟨_, rfl⟩
    have hall : ∀ y ∈ data, y.getD i false = decide (120 ≤ i) := by
      intro y hy
      rw [hdata] at hy
      have hy : y ∈ C153.wordsFor C153.exComb done (exSent.call ((15 / 34 : ℚ) : ℝ)).cluster := hy
      unfold C153.wordsFor at hy
      obtain ⟨z, hz, rfl⟩ := List.mem_map.1 hy
      have hz := List.mem_of_mem_filter hz
      rw [hdone] at hz
      obtain ⟨u, hu, rfl⟩ := List.mem_map.1 hz
      have hu := hone u (List.mem_of_mem_take hu)
      subst hu
      rw [List.getD_eq_getElem?_getD, List.getElem?_take, if_pos (by exact hi)]
      show (C153.exWord[i]?).getD false = _
      rw [C153.exWord_get i hi, Option.getD_some]
    rw [← hdata]
    have hmod := ex_model hp0 hp1 (sizeAfter none 1) data hpk i hi
    rintro (⟨hw, _⟩ | ⟨hu, k, hk, hst, hno⟩)
    · apply hw
      show _ = C153.exWord[i]?
      rw [C153.exWord_get i hi, C153.hard_at _ i (by rw [modelWord_length, hobs]; exact hi), Option.some.injEq]
      exact decide_eq_decide.2 hmod
    · have hki : k = i := by
        rw [hidx] at hk
        obtain ⟨h1, h2⟩ := List.getElem?_eq_some_iff.1 hk
        rwa [List.getElem_range] at h2
      subst hki
      refine hno (decide (120 ≤ k)) (C131.constant_of_all (by rw [hf0]) ?_ hall) (C153.exWord_get k hi)
      intro h0
      have := hu.1
      rw [h0] at this
      simp at this
  · rw [C151.asks_in_turn _ _ le_rfl rfl, List.length_map, List.length_replicate, List.map_replicate]
    apply List.ext_getElem
    · simp
    · intro i h1 h2
      simp [exSent, C153.exComb, zeroComb, zeroCfg, Nat.mod_one]
  · intro j d hj hd
    match j with
    | 0 =>
      simp only [List.getElem?_cons_zero, Option.some.injEq] at hd
      subst hd
      refine ⟨⟨List.replicate (m + 1) false, by simp, ?_⟩, ?_⟩
      · rw [List.map_replicate]
        exact hsa (m + 1) zeroState
      · intro e he
        rw [List.eq_of_mem_replicate he, flipAt_length, C153.exWord_length]
    | 1 => exact absurd rfl hj
    | j + 2 => simp at hd
  · rintro r ⟨x, h1, _, _, h4, h5, h6⟩
    have hx : x.success = 0 := by
      have he : exact (List.replicate (m + 1) (flipAt C153.exWord (List.range 60))) ((List.replicate (m + 1) exSent).map Sent.bits) = 0 := by
        rw [List.map_replicate]
        unfold exact
        rw [List.zip_replicate', List.countP_replicate]
        rw [if_neg (by simpa using (show flipAt C153.exWord (List.range 60) ≠ exSent.bits from exWord_differs))]
      rw [he, List.length_replicate] at h6
      rcases mul_eq_zero.1 (h6.trans (by norm_num)) with h | h
      · exact h
      · exact absurd h (by positivity)
    rw [List.map_replicate, if_neg (by rw [hx]; norm_num)] at h1
    exact ⟨r, h1, h5, x, h4, hx⟩

/-- The same decoders and word when the model is learned: the step raises. -/
example (cls : Labeler Unit) : ∃ s0 : Comb Unit Unit,
    (Comb.new 1 (BufferModel.new none) () ()).setStructures { C153.exComb with mav := { C153.exComb.mav with learning := true } } [some [(0, 0)]] = (s0, .ok ()) ∧
    ∀ r, bscStudy combinedLog [(⟨fun s _ _ => (s, .ok (C153.exWord, true)), s0, .ratios⟩ : Contender (Comb Unit Unit)),
      ⟨combined { C153.exComb with mav := { C153.exComb.mav with learning := true } } cls strict 136, s0, .ratiosAndErrors⟩] 136 120 (15 / 34)
      [(C153.exWord, List.range 60)] ≠ .ok r := by
  obtain ⟨s0, h1, h2⟩ := c155_learning_false (τ := Comb Unit Unit) (c := { C153.exComb with mav := { C153.exComb.mav with learning := true } })
    (Or.inr le_rfl) Nat.one_pos cls strict none () () 17 [some [(0, 0)]] rfl (by
      intro x hx
      exact ⟨_, List.mem_singleton.1 hx, by simp, zero_range⟩)
  refine ⟨s0, h1, h2 combinedLog _ 1 ⟨combined _ cls strict 136, s0, .ratiosAndErrors⟩ 120 (15 / 34) _ rfl rfl (fun _ => rfl) ?_⟩
  intro x hx
  rw [List.mem_singleton.1 hx]
  refine ⟨C153.exWord_length, List.nodup_range, fun e he => ?_⟩
  have := List.mem_range.1 he
  omega

end NR.C155
