import Verif.Props.C143
import Verif.Props.C150
import Verif.Props.C151
import Verif.Model.MavRun
/-
C152: a simulation in which the rectifying decoder with a model loaded decodes every word, although the LDPC decoder alone does not.
-/
namespace NR.C152
open NR Spec Dialect NR.C122
open NR.C147 (errors Corrects)
open NR.C150 (alone outputs_alone exact_self)
open NR.C151 (asks asks_append asks_length asks_in_turn run_append)

variable {σ Λ Λ' : Type}

/-- The numbers in a field of the buffers the model was made from. -/
def numbers (as : List (BufArg × List (Nat × Nat))) (name : String) : List Val := as.flatMap (takes name)

/-- In the buffers of the model the field always holds `v`, written as the bytes `bs`. -/
structure Constant (c : MavCfg) (w : Option Nat) (as : List (BufArg × List (Nat × Nat))) (q : Place) (v : Val) (bs : List Byte) : Prop where
  field : ConstantField c.stats w (numbers as) q v
  bytes : packScalar q.type v = .ok bs

/-- In the buffers of the model the field varies, and the mean can be written in it. -/
def Varied (c : MavCfg) (w : Option Nat) (as : List (BufArg × List (Nat × Nat))) (q : Place) : Prop :=
  ∃ m d b, c.stats.fit (windowed w (numbers as q.name)) = .ok (m, d) ∧ 0 < d ∧ c.stats.nonPos d = false ∧
    c.stats.toBits m q.type = .ok b ∧ b.length = 8 * width q.type

/-- A bit of the word `tx`, received as `rx`, that the decoder does not get right by itself: an error in a message that was found, in a
field that varies or in no field; or a bit in which a field that is constant in the model has another value now. -/
def Missed (c : MavCfg) (w : Option Nat) (as : List (BufArg × List (Nat × Nat))) (st : List (Nat × Nat)) (tx rx : List Bool) (i : Nat) : Prop :=
  (rx[i]? ≠ tx[i]? ∧ (InMessages (messagesIn (c.infoBytes rx)) i ∨ ∀ q ∈ fieldPlaces st, q.Has (i / 8) → Varied c w as q)) ∨
  (¬ InMessages (messagesIn (c.infoBytes rx)) i ∧ ∃ q ∈ fieldPlaces st, q.Has (i / 8) ∧
    ∃ v bs, Constant c w as q v bs ∧ (bytesBits bs)[i - 8 * q.start]? ≠ tx[i]?)

open Classical in
/-- How many bits of the word are missed. -/
noncomputable def missed (c : MavCfg) (w : Option Nat) (as : List (BufArg × List (Nat × Nat))) (st : List (Nat × Nat)) (tx rx : List Bool) : Nat :=
  ((Finset.range tx.length).filter fun i => Missed c w as st tx rx i).card

/-- A word of the simulation of a cluster with structure `st`: what is sent and which bits are inverted. -/
structure Word (c : MavCfg) (w : Option Nat) (as : List (BufArg × List (Nat × Nat))) (code : List Bool → Prop) (T len : Nat)
    (st : List (Nat × Nat)) (tx : List Bool) (inv : List Nat) : Prop where
  sent : code tx
  length : tx.length = 8 * len
  distinct : inv.Nodup
  inside : ∀ e ∈ inv, e < 8 * len
  budget : missed c w as st tx (flipAt tx inv) ≤ T

/-- What is handed over has at most the missed bits wrong. -/
theorem errors_handed (c : MavCfg) (w : Option Nat) (as : List (BufArg × List (Nat × Nat))) (st : List (Nat × Nat)) (tx : List Bool)
    (obs llr : List ℝ) (hlen : tx.length = obs.length) (hd : Decided c w (numbers as) st obs llr)
    (hk : ∀ q ∈ fieldPlaces st, (∃ v bs, Constant c w as q v bs) ∨ Varied c w as q) :
    errors tx llr ≤ missed c w as st tx (hardBits obs) := by
  classical
  unfold errors missed
  apply Finset.card_le_card
  intro i hi
  simp only [Finset.mem_filter, Finset.mem_range] at hi ⊢
  refine ⟨hi.1, ?_⟩
  obtain ⟨h1, h2⟩ := hd.2 i (by omega)
  by_cases hm : InMessages (messagesIn (c.infoBytes (hardBits obs))) i
  · refine .inl ⟨?_, .inl hm⟩
    rw [← h2 (.inl hm)]
    exact hi.2
  · by_cases hv : ∀ q ∈ fieldPlaces st, q.Has (i / 8) → Varied c w as q
    · refine .inl ⟨?_, .inr hv⟩
      rw [← h2 (.inr fun q hq hh => by
        obtain ⟨m, d, b, g1, g2, g3, _⟩ := hv q hq hh
        exact ⟨m, d, g1, g2, g3⟩)]
      exact hi.2
    · push Not at hv
      obtain ⟨q, hq, hh, hnv⟩ := hv
      obtain ⟨v, bs, hs⟩ := (hk q hq).resolve_right hnv
      refine .inr ⟨hm, q, hq, hh, v, bs, hs, ?_⟩
      rw [← h1 q hq v bs hh hs.field hs.bytes hm]
      exact hi.2

/-- One call of a decoder that does not learn. -/
theorem call {c : MavCfg} (hl : c.learning = false) (hit : 0 < c.segIterations) (cls : Labeler σ) (ldpc : Ldpc Λ) (s : Mav σ Λ)
    (code : List Bool → Prop) (T : Nat) (hcor : Corrects ldpc code T) (tx : List Bool) (hcode : code tx) (obs : List ℝ)
    (hidx : ∀ i ∈ c.idx, i < obs.length) (label : Nat) (p : MavPred) (hpred : (s.predict c obs label).2 = .ok p)
    (hplen : p.llr.length = tx.length) (hT : errors tx p.llr ≤ T)
    (hlab : (pickLabel cls c.nClusters c.cluster s.cls s.running
      (if 1 < c.nClusters ∧ c.cluster = true then bitsAt c.idx (hardWord obs) else [])).2.2 = .ok (label : Int)) :
    (∃ out, (s.decode c cls ldpc obs).result = .ok out ∧ out.success = true ∧ out.estimate = tx) ∧
    ((s.decode c cls ldpc obs).state.cls, (s.decode c cls ldpc obs).state.running) =
      ((pickLabel cls c.nClusters c.cluster s.cls s.running
        (if 1 < c.nClusters ∧ c.cluster = true then bitsAt c.idx (hardWord obs) else [])).1,
       (pickLabel cls c.nClusters c.cluster s.cls s.running
        (if 1 < c.nClusters ∧ c.cluster = true then bitsAt c.idx (hardWord obs) else [])).2.1) := by
  have hbits : (if 1 < c.nClusters ∧ c.cluster = true then takeIdx (hardBits obs) c.idx else .ok []) =
      .ok (if 1 < c.nClusters ∧ c.cluster = true then bitsAt c.idx (hardWord obs) else []) := by
    split
    · rw [takeIdx_of_lt (by simpa [hardBits] using hidx)]
      rfl
    · rfl
  obtain ⟨left, hleft⟩ : ∃ left, c.segIterations = left + 1 := ⟨c.segIterations - 1, by omega⟩
  unfold Mav.decode
  rw [hleft, Mav.loop, hbits]
  simp only
  rcases hpk : pickLabel cls c.nClusters c.cluster s.cls s.running
    (if 1 < c.nClusters ∧ c.cluster = true then bitsAt c.idx (hardWord obs) else []) with ⟨cs', run, lab⟩
  rw [hpk] at hlab
  simp only at hlab
  subst hlab
  simp only
  rw [if_neg (by omega)]
  have hcon := predict_congr c s cs' run obs label
  obtain ⟨model, hm1, -⟩ := mavPredict_pres c ({ s with cls := cs', running := run } : Mav σ Λ) obs label
    (fun _ => True) (fun _ _ _ _ _ _ => trivial) trivial
  rcases hpr : ({ s with cls := cs', running := run } : Mav σ Λ).predict c obs label with ⟨s2, r⟩
  rw [hpr] at hcon hm1
  simp only at hcon hm1
  rw [hpred] at hcon
  subst hcon
  simp only
  obtain ⟨hsucc, hest⟩ := hcor s2.ldpc tx p.llr hcode hplen hT
  rcases hld : ldpc s2.ldpc (.llr p.llr) with ⟨l', o⟩
  rw [hld] at hsucc hest
  simp only at hsucc hest
  have hup : Mav.decodeUpdate c ldpc s2 p.llr label (hardBits obs) = ({ s2 with ldpc := l' }, o, .ok ()) := by
    unfold Mav.decodeUpdate
    rw [hld]
    simp only
    split
    · simp [hl]
    · unfold Mav.learn
      simp [hl]
  rw [hup]
  simp only [hsucc, if_true]
  refine ⟨⟨_, rfl, rfl, hest⟩, ?_⟩
  rw [hm1]

theorem outputs_rectifying (c : MavCfg) (cls : Labeler σ) (ldpc : Ldpc Λ) (p : ℝ) : ∀ (words : List (List Bool × List Nat)) (s : Mav σ Λ),
    List.Forall₂ (fun (st : MavStep σ Λ) (w : List Bool × List Nat) => ∃ out, st.result = .ok out ∧ out.success = true ∧ out.estimate = w.1)
      (Mav.run c cls ldpc s (words.map fun w => channelLlr p (flipAt w.1 w.2))).2 words →
    outputs (rectifying c cls ldpc) s (simInputs p words) = (words.map fun w => (w.1, true)).map .ok
  | [], s, _ => rfl
  | w :: words, s, h => by
    simp only [List.map_cons, Mav.run] at h
    obtain ⟨⟨out, h1, h2, h3⟩, ht⟩ := List.forall₂_cons.1 h
    have ih := outputs_rectifying c cls ldpc p words _ ht
    unfold simInputs at ih ⊢
    simp only [List.map_cons, outputs, rectifying, h1, h2, h3] at ih ⊢
    rw [← ih]

theorem structuresOf_ok : ∀ parts : List (List Byte), structuresOf parts = .ok (parts.map fun part => some (messagesIn part))
  | [] => rfl
  | part :: rest => by
    obtain ⟨seg, h1, h2⟩ := messagesIn_ok part
    unfold structuresOf
    rw [h1, structuresOf_ok rest, List.map_cons, h2]
    rfl

/-- What a step reports if the second decoder returns all words sent. -/
theorem rates {τ : Type} (A : Coder σ) (B : Coder τ) (a : σ) (b : τ) (N : Nat) (hN : 0 < N) (p : ℚ) (words : List (List Bool × List Nat))
    (hne : words ≠ []) (hw : ∀ x ∈ words, x.1.length = N ∧ x.2.Nodup ∧ ∀ e ∈ x.2, e < N) (oa : List (List Bool × Bool))
    (hA : outputs A a (simInputs p words) = oa.map .ok) (hla : ∀ o ∈ oa, o.1.length = N)
    (hB : outputs B b (simInputs p words) = (words.map fun w => (w.1, true)).map .ok) :
    ∃ r, simStep A B a b N p words = .ok r ∧ r.number = words.length ∧
      r.pure.success * words.length = exact (oa.map Prod.fst) (words.map Prod.fst) ∧
      r.rect.success = 1 ∧ r.rect.ber = 0 ∧ r.recover = if r.pure.success < 1 then 1 else 0 := by
  obtain ⟨r, r1, _, r3, r4, r5, _, r7, r8, r9⟩ := c83_step A B a b N N p words hne hN hw oa (words.map fun w => (w.1, true)) hA hB hla
    (by
      intro o ho
      obtain ⟨w, hw', rfl⟩ := List.mem_map.1 ho
      exact (hw w hw').1)
  have hfst : (words.map fun w => (w.1, true)).map Prod.fst = words.map Prod.fst := by simp [Function.comp_def]
  obtain ⟨e1, e2⟩ := exact_self (words.map Prod.fst)
  rw [hfst, e1, List.length_map] at r5 r8
  rw [hfst, e2] at r7
  have hpos : (0 : ℚ) < words.length := by exact_mod_cast List.length_pos_iff.2 hne
  have hNq : (0 : ℚ) < N := by exact_mod_cast hN
  refine ⟨r, r1, r3, r4, ?_, ?_, ?_⟩
  · exact mul_right_cancel₀ (ne_of_gt hpos) (by rw [r5, one_mul])
  · have := r7
    rw [Nat.cast_zero] at this
    rcases mul_eq_zero.1 this with h | h
    · exact h
    · exact absurd h (ne_of_gt (mul_pos hpos hNq))
  · by_cases hfail : exact (oa.map Prod.fst) (words.map Prod.fst) < words.length
    · have hq : ((exact (oa.map Prod.fst) (words.map Prod.fst) : ℕ) : ℚ) < words.length := by exact_mod_cast hfail
      rw [if_pos hfail] at r8
      rw [if_pos]
      · refine mul_right_cancel₀ (b := (words.length : ℚ) - exact (oa.map Prod.fst) (words.map Prod.fst)) (by linarith) ?_
        rw [r8, one_mul]
      · by_contra hc
        have := mul_le_mul_of_nonneg_right (not_lt.1 hc) hpos.le
        rw [r4, one_mul] at this
        linarith
    · rw [if_neg]
      · exact r9 (not_lt.1 hfail)
      · intro hc
        have := mul_lt_mul_of_pos_right hc hpos
        rw [r4, one_mul] at this
        exact hfail (by exact_mod_cast this)

/-- **C152.** A point of the simulation without clustering, with a model loaded that was made from the buffers `as`, and the structures of
the parts of one buffer. The words are of these parts in turn, and the LDPC decoder corrects `T` errors. If of no word more than `T` bits are
missed - errors in fields that vary, in messages found or outside the fields, and changes of fields that are constant in the model - then the
run reports success rate 1 and bit error rate 0 for the rectifying decoder, however many bits are inverted in constant fields, and the
recover rate is 1 if the LDPC decoder on its own failed on any word. -/
theorem c152_rates {c : MavCfg} (hl : c.learning = false) (hcl : c.cluster = false) (hit : 0 < c.segIterations) (hv : 0 < c.validFactor)
    (hi : 0 < c.invalidFactor) (hinfo : ∀ w, 8 * (c.infoBytes w).length ≤ w.length) (cls : Labeler σ) (pure : Ldpc Λ') (ldpc : Ldpc Λ)
    (cs : σ) (l1 : Λ') (l2 : Λ) (code : List Bool → Prop) (T len : Nat) (hlen : 0 < len) (hidx : ∀ i ∈ c.idx, i < 8 * len)
    (hcor : Corrects ldpc code T) (hest : ∀ s inp, (pure s inp).2.estimate.length = 8 * len)
    (w : Option Nat) (as : List (BufArg × List (Nat × Nat))) (has : ∀ a ∈ as, Addable a) (parts : List (List Byte))
    (hparts : parts.length = c.nClusters) (hn : 1 ≤ c.nClusters) (hrange : ∀ part ∈ parts, InRange len (messagesIn part))
    (hseen : ∀ part ∈ parts, ∀ q ∈ fieldPlaces (messagesIn part), numbers as q.name ≠ [] ∧ ((∃ v bs, Constant c w as q v bs) ∨ Varied c w as q))
    (p : ℚ) (hp : 0 < p) (hp2 : p < 1 / 2) (words : List (List Bool × List Nat)) (hne : words ≠ [])
    (hword : ∀ (j : Nat) (x : List Bool × List Nat) (part : List Byte), words[j]? = some x → parts[j % c.nClusters]? = some part →
      Word c w as code T len (messagesIn part) x.1 x.2) :
    ∃ (s : Mav σ Λ) (r : SimSummary) (oa : List (List Bool × Bool)), setUp c (addAll c.stats (BufferModel.new w) as) cs l2 parts = .ok s ∧
      simStep (alone pure) (rectifying c cls ldpc) l1 s (8 * len) p words = .ok r ∧ r.number = words.length ∧
      outputs (alone pure) l1 (simInputs p words) = oa.map .ok ∧
      r.pure.success * words.length = exact (oa.map Prod.fst) (words.map Prod.fst) ∧
      r.rect.success = 1 ∧ r.rect.ber = 0 ∧ r.recover = if r.pure.success < 1 then 1 else 0 := by
  have hpr : (0 : ℝ) < (p : ℝ) := by exact_mod_cast hp
  have hpr2 : (p : ℝ) < 1 / 2 := by
    have : ((p : ℚ) : ℝ) < ((1 / 2 : ℚ) : ℝ) := by exact_mod_cast hp2
    simpa using this
  let s0 : Mav σ Λ := ⟨parts.map fun part => some (messagesIn part), addAll c.stats (BufferModel.new w) as, -1, cs, l2⟩
  have hset : setUp c (addAll c.stats (BufferModel.new w) as) cs l2 parts = .ok s0 := by
    unfold setUp
    rw [structuresOf_ok]
    simp [Mav.setStructures, hparts, Mav.new, bind, Except.bind, s0]
  have hW : ∀ (j : Nat) (x : List Bool × List Nat), words[j]? = some x → ∃ part, parts[j % c.nClusters]? = some part ∧
      Word c w as code T len (messagesIn part) x.1 x.2 := by
    intro j x hx
    have : j % c.nClusters < parts.length := by rw [hparts]; exact Nat.mod_lt _ (by omega)
    exact ⟨_, List.getElem?_eq_getElem this, hword j x _ hx (List.getElem?_eq_getElem this)⟩
  have hclen : ∀ x : List Bool × List Nat, (channelLlr p (flipAt x.1 x.2)).length = x.1.length := by
    intro x
    rw [← flipAt_length x.1 x.2]
    simp [channelLlr, bscLlr]
  have key : List.Forall₂ (fun (st : MavStep σ Λ) (x : List Bool × List Nat) => ∃ out, st.result = .ok out ∧ out.success = true ∧ out.estimate = x.1)
      (Mav.run c cls ldpc s0 (words.map fun x => channelLlr p (flipAt x.1 x.2))).2 words := by
    suffices h : ∀ n ≤ words.length,
        List.Forall₂ (fun (st : MavStep σ Λ) (x : List Bool × List Nat) => ∃ out, st.result = .ok out ∧ out.success = true ∧ out.estimate = x.1)
          (Mav.run c cls ldpc s0 ((words.take n).map fun x => channelLlr p (flipAt x.1 x.2))).2 (words.take n) ∧
        ((Mav.run c cls ldpc s0 ((words.take n).map fun x => channelLlr p (flipAt x.1 x.2))).1.cls,
          (Mav.run c cls ldpc s0 ((words.take n).map fun x => channelLlr p (flipAt x.1 x.2))).1.running) =
          (asks c cls cs (-1) ((words.take n).map fun x => channelLlr p (flipAt x.1 x.2))).1 by
      have := (h words.length le_rfl).1
      rwa [List.take_length] at this
    intro n
    induction n with
    | zero => intro _; exact ⟨.nil, rfl⟩
    | succ n ih =>
      intro hle
      obtain ⟨ih1, ih2⟩ := ih (by omega)
      have hwn : words[n]? = some words[n] := List.getElem?_eq_getElem (by omega)
      obtain ⟨part, hpart, W⟩ := hW n _ hwn
      have hmem : part ∈ parts := List.mem_of_getElem? hpart
      have htw : words.take (n + 1) = words.take n ++ [words[n]] := by rw [List.take_add_one, hwn]; rfl
      have hobs := (hclen words[n]).trans W.length
      have hask : (pickLabel cls c.nClusters c.cluster (asks c cls cs (-1) ((words.take n).map fun x => channelLlr p (flipAt x.1 x.2))).1.1
          (asks c cls cs (-1) ((words.take n).map fun x => channelLlr p (flipAt x.1 x.2))).1.2
          (if 1 < c.nClusters ∧ c.cluster = true then bitsAt c.idx (hardWord (channelLlr p (flipAt words[n].1 words[n].2))) else [])).2.2 =
          .ok ((n % c.nClusters : Nat) : Int) := by
        have h1 := asks_in_turn c cls hn hcl cs ((words.take (n + 1)).map fun x => channelLlr p (flipAt x.1 x.2))
        rw [htw, List.map_append, asks_append] at h1
        have h2 := congrArg (fun l => l[n]?) h1
        simp only at h2
        rw [List.getElem?_append_right (by rw [asks_length]; simp), asks_length, List.length_map, List.length_take,
          min_eq_left (by omega), Nat.sub_self] at h2
        have hmin : min n words.length = n := by omega
        simpa [asks, hmin] using h2
      obtain ⟨out, ho, hd⟩ := c122_predefined hl hv hi cls ldpc w as s0 rfl
        ((words.take n).map fun x => channelLlr p (flipAt x.1 x.2)) _ rfl hinfo (n % c.nClusters) (messagesIn part)
        (by simp only [s0, List.getElem?_map, hpart, Option.map_some]) (messagesIn_apart _) (channelLlr p (flipAt words[n].1 words[n].2)) len
        hobs
        (by
          have h0 : 0 < (channelLlr p (flipAt words[n].1 words[n].2)).length := by omega
          refine ⟨_, List.getElem_mem h0, fun hz => ?_⟩
          have := (c83_channel p hpr hpr2 words[n].1 words[n].2).2 _ (List.getElem_mem h0)
          rw [hz, abs_zero] at this
          have hpos : 0 < Real.log ((1 - (p : ℝ)) / p) := Real.log_pos (by rw [lt_div_iff₀ hpr]; linarith)
          linarith)
        (hrange part hmem) has (numbers as) rfl
        (by
          intro q hq
          obtain ⟨hu, hk⟩ := hseen part hmem q hq
          unfold meanBits
          rw [if_neg hu]
          rcases hk with ⟨v, bs, h1, h2⟩ | ⟨m, d, b, g1, _, _, g4, g5⟩
          · obtain ⟨μ, k1, _, k3⟩ := h1.exact.mean
            refine ⟨bytesBits bs, ?_, by rw [bytesBits_length, packScalar_length h2, width_size]⟩
            rw [k1 _ (windowed_ne w _ hu) (windowed_idem w _) h1.kept]
            exact k3 bs h2
          · refine ⟨b, ?_, g5⟩
            rw [g1]
            exact g4)
      have herr := errors_handed c w as (messagesIn part) words[n].1 _ out.llr (hclen words[n]).symm hd (fun q hq => (hseen part hmem q hq).2)
      rw [(c83_channel p hpr hpr2 words[n].1 words[n].2).1] at herr
      generalize hrun : Mav.run c cls ldpc s0 ((words.take n).map fun x => channelLlr p (flipAt x.1 x.2)) = r at *
      obtain ⟨s, steps⟩ := r
      simp only at ih1 ih2 ho
      rw [← ih2] at hask
      obtain ⟨k1, k2⟩ := call hl hit cls ldpc s code T hcor words[n].1 W.sent (channelLlr p (flipAt words[n].1 words[n].2))
        (fun i h => by rw [hobs]; exact hidx i h) (n % c.nClusters) out ho (hd.1.trans (hclen words[n])) (herr.trans W.budget) hask
      rw [htw, List.map_append, run_append, hrun, asks_append, ← ih2]
      simp only [List.map_cons, List.map_nil, Mav.run]
      refine ⟨List.rel_append ih1 (.cons k1 .nil), ?_⟩
      simp only [asks]
      exact k2
  obtain ⟨oa, ha1, ha2⟩ := outputs_alone pure (simInputs p words) l1
  obtain ⟨r, hr1, hr2, hr3⟩ := rates (alone pure) (rectifying c cls ldpc) l1 s0 (8 * len) (by omega) p words hne
    (by
      intro x hx
      obtain ⟨j, hj⟩ := List.getElem?_of_mem hx
      obtain ⟨part, _, W⟩ := hW j x hj
      exact ⟨W.length, W.distinct, W.inside⟩)
    oa ha1
    (by
      intro o ho
      obtain ⟨s, x, h⟩ := ha2 o ho
      rw [h, hest])
    (outputs_rectifying c cls ldpc p words s0 key)
  exact ⟨s0, r, oa, hset, hr1, hr2, ha1, hr3⟩

/-! ### The default options -/

/-- A decoder without structures that does not learn leaves the LDPC decoder as a call on the received word does. -/
theorem unused_ldpc (c : MavCfg) (hl : c.learning = false) (hi : c.segIterations = 1) (cls : Labeler σ) (ldpc : Ldpc Λ) (s : Mav σ Λ) (ch : List ℝ)
    (h : ∀ x ∈ s.structures, x = none) (out : MavOut) (ho : (s.decode c cls ldpc ch).result = .ok out) :
    (s.decode c cls ldpc ch).state.ldpc = (ldpc s.ldpc (.llr ch)).1 := by
  have hup : ∀ (t : Mav σ Λ) (label : Int) (rx : List Bool), t.decodeUpdate c ldpc ch label rx =
      ({ t with ldpc := (ldpc t.ldpc (.llr ch)).1 }, (ldpc t.ldpc (.llr ch)).2, .ok ()) := by
    intro t label rx
    unfold Mav.decodeUpdate
    simp only
    split
    · simp [hl]
    · unfold Mav.learn
      simp [hl]
  revert ho
  unfold Mav.decode
  rw [hi]
  unfold Mav.loop
  cases (if 1 < c.nClusters ∧ c.cluster = true then takeIdx (hardBits ch) c.idx else .ok []) with
  | error e => intro ho; cases ho
  | ok bits =>
    simp only
    rcases pickLabel cls c.nClusters c.cluster s.cls s.running bits with ⟨cs, run, lab⟩
    cases lab with
    | error e => intro ho; cases ho
    | ok label =>
      simp only
      split
      · rw [hup]
        exact fun _ => rfl
      · have hp : ({ s with cls := cs, running := run } : Mav σ Λ).predict c ch label =
            ({ s with cls := cs, running := run }, .error .indexError) ∨
            ({ s with cls := cs, running := run } : Mav σ Λ).predict c ch label =
              ({ s with cls := cs, running := run }, .ok ⟨ch, [], [], 0, none, []⟩) := by
          unfold Mav.predict
          simp only
          cases hpos : pyPos s.structures.length label with
          | none => exact Or.inl rfl
          | some j =>
            have hj := pyPos_lt hpos
            have : s.structures.getD j none = none := by
              rw [List.getD_eq_getElem?_getD, List.getElem?_eq_getElem hj]
              exact h _ (List.getElem_mem hj)
            simp only [this]
            exact Or.inr trivial
        rcases hp with hp | hp
        · rw [hp]
          intro ho
          cases ho
        · rw [hp]
          simp only
          rw [hup]
          simp only
          split <;> exact fun _ => rfl

theorem same_loop (c : MavCfg) (hl : c.learning = false) (hi : c.segIterations = 1) (cls : Labeler σ) (ldpc : Ldpc Λ) (p : ℝ) :
    ∀ (words : List (List Bool × List Nat)) (l : Λ) (s : Mav σ Λ), (∀ x ∈ s.structures, x = none) → s.ldpc = l → ∀ h,
    simLoop (alone ldpc) (rectifying c cls ldpc) p l s words = .ok h → ∀ x ∈ h, x.1 = x.2
  | [], l, s, _, _, h, hh => by
    cases hh
    simp
  | (tx, errors) :: rest, l, s, hs, hsl, h, hh => by
    unfold simLoop at hh
    rcases hrx : invertAt tx errors with e | rx
    · rw [hrx] at hh; cases hh
    rw [hrx] at hh
    simp only [bind, Except.bind, alone] at hh
    rcases hA : hammingDistance (.bits (ldpc l (.llr (channelLlr p rx))).2.estimate) (.bits tx) with e | a
    · rw [hA] at hh; cases hh
    rw [hA] at hh
    simp only [rectifying] at hh
    rcases hB : (s.decode c cls ldpc (channelLlr p rx)).result with e | out
    · rw [hB] at hh; cases hh
    rw [hB] at hh
    simp only at hh
    obtain ⟨d1, _, d3⟩ := C143.unused_step c hl hi cls ldpc s (channelLlr p rx) hs
    rw [(d3 out hB).1, hsl, hA] at hh
    simp only at hh
    rcases hT : simLoop (alone ldpc) (rectifying c cls ldpc) p (ldpc l (.llr (channelLlr p rx))).1 (s.decode c cls ldpc (channelLlr p rx)).state rest with e | t
    · rw [hT] at hh; cases hh
    have ih := same_loop c hl hi cls ldpc p rest _ _ (by rw [d1]; exact hs) (by rw [unused_ldpc c hl hi cls ldpc s _ hs out hB, hsl]) t hT
    rw [hT] at hh
    cases hh
    intro x hx
    rcases List.mem_cons.1 hx with rfl | hx
    · rfl
    · exact ih x hx

/-- C152: expectation that fails: the model that is loaded helps. With the default options, clustering without learning and one segmentation
iteration, the decoder never gets a structure: whatever the model, the words and the errors, a step that reports anything reports the same
rates for both decoders and a recover rate of zero. -/
theorem c152_defaults_false {c : MavCfg} (hl : c.learning = false) (hi : c.segIterations = 1) (cls : Labeler σ) (ldpc : Ldpc Λ)
    (model : BufferModel ℝ) (cs : σ) (l : Λ) (n : Nat) (p : ℚ) (words : List (List Bool × List Nat)) (r : SimSummary)
    (hr : simStep (alone ldpc) (rectifying c cls ldpc) l (Mav.new c.nClusters model cs l) n p words = .ok r) :
    r.rect = r.pure ∧ r.recover = 0 := by
  cases words with
  | nil => cases hr
  | cons w ws =>
    unfold simStep at hr
    rcases hloop : simLoop (alone ldpc) (rectifying c cls ldpc) p l (Mav.new c.nClusters model cs l) (w :: ws) with e | h
    · simp only [hloop, bind, Except.bind] at hr; cases hr
    simp only [hloop, bind, Except.bind] at hr
    have hs := same_loop c hl hi cls ldpc p _ l (Mav.new c.nClusters model cs l) (fun x hx => (List.mem_replicate.1 hx).2) rfl h hloop
    have he : h.map Prod.snd = h.map Prod.fst := List.map_congr_left fun x hx => (hs x hx).symm
    cases hr
    simp only [he, sub_self, zero_div, ite_self, and_self]

/-- C152: expectation that fails: the model can be learned in the simulation. Without clustering and with learning the decoder gets the
structures of the last buffer and an empty model, and the first word raises a TypeError, whatever the words and the errors. -/
theorem c152_learning_false {c : MavCfg} (hcl : c.cluster = false) (hit : 0 < c.segIterations) (cls : Labeler σ) (pure : Ldpc Λ') (ldpc : Ldpc Λ)
    (cs : σ) (l1 : Λ') (l2 : Λ) (len : Nat) (hest : ∀ s inp, (pure s inp).2.estimate.length = 8 * len) (w : Option Nat) (parts : List (List Byte))
    (hparts : parts.length = c.nClusters) (hn : 0 < c.nClusters) (hfound : ∀ part ∈ parts, messagesIn part ≠ [] ∧ InRange len (messagesIn part))
    (p : ℚ) (words : List (List Bool × List Nat)) (hne : words ≠ [])
    (hw : ∀ x ∈ words, x.1.length = 8 * len ∧ x.2.Nodup ∧ ∀ e ∈ x.2, e < 8 * len) :
    ∃ s, setUp c (BufferModel.new w) cs l2 parts = .ok s ∧
      simStep (alone pure) (rectifying c cls ldpc) l1 s (8 * len) p words = .error .typeError := by
  obtain ⟨t, h1, h2, _⟩ := C143.c143_fresh c (.inl hcl) hit hn cls ldpc w cs l2 (parts.map fun part => some (messagesIn part)) (by simpa using hparts) len
    (by
      intro x hx
      obtain ⟨part, hp, rfl⟩ := List.mem_map.1 hx
      exact ⟨_, rfl, hfound part hp⟩)
    (words.map fun x => channelLlr p (flipAt x.1 x.2))
    (by
      intro ch hch
      obtain ⟨x, hx, rfl⟩ := List.mem_map.1 hch
      have : (channelLlr p (flipAt x.1 x.2)).length = x.1.length := by
        rw [← flipAt_length x.1 x.2]
        simp [channelLlr, bscLlr]
      rw [this, (hw x hx).1])
  refine ⟨t, ?_, ?_⟩
  · unfold setUp
    rw [structuresOf_ok]
    simp only [bind, Except.bind, h1]
  · cases words with
    | nil => exact absurd rfl hne
    | cons x rest =>
      obtain ⟨tx, errors⟩ := x
      obtain ⟨g1, g2, g3⟩ := hw _ List.mem_cons_self
      have hres := (h2 _ (by rw [List.map_cons, Mav.run]; exact List.mem_cons_self)).1
      have hham := fun n => c01_counts_differences (pure l1 (.llr (channelLlr p (flipAt tx errors)))).2.estimate tx n (by rw [hest, g1])
      unfold simStep simLoop
      simp only
      rw [invertAt_eq tx errors g2 (by simpa [g1] using g3)]
      simp only [bind, Except.bind, alone, rectifying, hham, hres]

/-! ### A case that meets the hypotheses -/

open Classical in
/-- An LDPC decoder for a code with this heartbeat only, which corrects nothing. -/
noncomputable def strict : Ldpc Unit := fun _ inp => match inp with
  | .llr w => if w.length = 136 then ((), ⟨hardWord w, w, decide (hardWord w = bytesBits changed), 1, [], []⟩)
    else ((), ⟨List.replicate 136 false, w, false, 20, [], []⟩)
  | _ => ((), ⟨List.replicate 136 false, [], false, 20, [], []⟩)

theorem changed_length : (bytesBits changed).length = 136 := by decide +kernel

theorem strict_corrects : Corrects strict (fun x => x = bytesBits changed) 0 := by
  intro s x w hx hw he
  have hs := C148.same_of_errors hw he
  have hl : w.length = 136 := by rw [hw, hx, changed_length]
  subst hx
  have : strict s (.llr w) = ((), ⟨hardWord w, w, decide (hardWord w = bytesBits changed), 1, [], []⟩) := by
    unfold strict
    simp only
    rw [if_pos hl]
  rw [this]
  exact ⟨by simp [hs], hs⟩

theorem strict_length (s : Unit) (inp : LdpcIn) : (strict s inp).2.estimate.length = 8 * 17 := by
  cases inp with
  | llr w =>
    unfold strict
    simp only
    split
    · rename_i h
      simp [hardWord, h]
    · simp
  | _ => simp [strict]

theorem strict_alone (tx : List Bool) (inv : List Nat) (h : tx.length = 136) (hd : flipAt tx inv ≠ tx) (p : ℚ) (hp : 0 < p) (hp2 : p < 1 / 2)
    (oa : List (List Bool × Bool)) (ho : outputs (alone strict) () (simInputs p [(tx, inv)]) = oa.map .ok) : exact (oa.map Prod.fst) [tx] = 0 := by
  have hpr : (0 : ℝ) < (p : ℝ) := by exact_mod_cast hp
  have hpr2 : (p : ℝ) < 1 / 2 := by
    have : ((p : ℚ) : ℝ) < ((1 / 2 : ℚ) : ℝ) := by exact_mod_cast hp2
    simpa using this
  have c1 := (c83_channel p hpr hpr2 tx inv).1
  have hest : (strict () (.llr (channelLlr p (flipAt tx inv)))).2.estimate = flipAt tx inv := by
    unfold strict
    simp only
    rw [if_pos (by rw [← hardBits_length, c1, flipAt_length, h])]
    exact c1
  match oa, ho with
  | [o], ho =>
    simp only [simInputs, List.map_cons, List.map_nil, outputs, alone, List.cons.injEq, Except.ok.injEq, and_true] at ho
    have h1 : o.1 = flipAt tx inv := by rw [← ho]; exact hest
    simp [exact, h1, hd]
  | [], ho => simp [simInputs, outputs] at ho
  | _ :: _ :: _, ho => simp [simInputs, outputs] at ho

/-- The buffers of the model: one heartbeat. -/
def seen : List (BufArg × List (Nat × Nat)) := [(.bytes changed, [(0, 0)])]

theorem seen_constant (q : Place) (hq : q ∈ fieldPlaces [(0, 0)]) : numbers seen q.name ≠ [] ∧
    ∃ v, Constant beatCfg none seen q v (q.bytes changed) := by
  have h : (fieldPlaces [(0, 0)]).all (fun q => match unpackScalar q.type (q.bytes changed) with
      | .int v => decide (packScalar q.type (.int v) = .ok (q.bytes changed)) && decide (numbers seen q.name = [.int v])
      | _ => false) = true := by decide +kernel
  have := List.all_eq_true.1 h q hq
  cases hu : unpackScalar q.type (q.bytes changed) with
  | int v =>
    rw [hu] at this
    simp only [Bool.and_eq_true, decide_eq_true_eq] at this
    refine ⟨by rw [this.2]; simp, .int v, ⟨?_, trueOps_exact _ _ _ (packScalar_ok this.1)⟩, this.1⟩
    simp only [windowed, this.2]
    simp
  | flt b => rw [hu] at this; simp at this
  | raw b => rw [hu] at this; simp at this

/-- The heartbeat with three wrong bits, in the length, the version and the base mode: the LDPC decoder alone does not decode it, the
rectifying decoder does. -/
example : ∃ s r, setUp beatCfg (addAll beatCfg.stats (BufferModel.new none) seen) () () [changed] = .ok s ∧
    simStep (alone strict) (rectifying beatCfg (fun (_ : Unit) _ => ((), .ok 0)) strict) () s 136 (1 / 50)
      [(bytesBits changed, [10, 70, 100])] = .ok r ∧ r.rect.success = 1 ∧ r.rect.ber = 0 ∧ r.pure.success = 0 ∧ r.recover = 1 := by
  have hm : messagesIn changed = [(0, 0)] := by decide +kernel
  have hr : InRange 17 [(0, 0)] := by
    intro r hr
    simp at hr
    subst hr
    exact ⟨Dialect.msg0, by decide +kernel, by decide, by decide, by decide⟩
  have hinfo : ∀ w, beatCfg.infoBytes w = if w.length = 136 then bitsToBytes w else [] := fun _ => rfl
  have hrx : messagesIn (bitsToBytes (flipAt (bytesBits changed) [10, 70, 100])) = [] := by decide +kernel
  have hrl : (flipAt (bytesBits changed) [10, 70, 100]).length = 136 := by rw [flipAt_length, changed_length]
  obtain ⟨s, r, oa, h1, h2, _, ho, hx, h4, h5, h6⟩ := c152_rates (c := beatCfg) rfl rfl (by simp [beatCfg]) (by norm_num [beatCfg]) (by norm_num [beatCfg])
    (by
      intro w
      rw [hinfo]
      split
      · rename_i hw
        simp [bitsToBytes, hw]
      · simp)
    (fun (_ : Unit) _ => ((), .ok 0)) strict strict () () () (fun x => x = bytesBits changed) 0 17 (by omega) (by simp [beatCfg])
    strict_corrects strict_length none seen (by intro a ha; simp only [seen, List.mem_singleton] at ha; subst ha; exact ⟨_, rfl, hr⟩)
    [changed] (by simp [beatCfg]) (by simp [beatCfg]) (by simp only [List.mem_singleton, forall_eq, hm]; exact hr)
    (by
      simp only [List.mem_singleton, forall_eq, hm]
      intro q hq
      obtain ⟨g1, v, g2⟩ := seen_constant q hq
      exact ⟨g1, .inl ⟨v, _, g2⟩⟩)
    (1 / 50) (by norm_num) (by norm_num) [(bytesBits changed, [10, 70, 100])] (by simp)
    (by
      intro j x part hx hpart
      have hxe : x = (bytesBits changed, [10, 70, 100]) := by simpa using List.mem_of_getElem? hx
      have hpe : part = changed := by simpa using List.mem_of_getElem? hpart
      subst hxe
      subst hpe
      rw [hm]
      refine ⟨rfl, changed_length, by decide, by simp, ?_⟩
      have hnot : ∀ i, ¬ InMessages (messagesIn (beatCfg.infoBytes (flipAt (bytesBits changed) [10, 70, 100]))) i := by
        rw [hinfo, if_pos hrl, hrx]
        rintro i ⟨r, hr, _⟩
        simp at hr
      have hcover : ∀ k < 17, (∃ q ∈ fieldPlaces [(0, 0)], q.Has k) ↔ k < 15 := by decide +kernel
      classical
      unfold missed
      rw [Nat.le_zero, Finset.card_eq_zero, Finset.filter_eq_empty_iff]
      intro i hi
      rw [Finset.mem_range, changed_length] at hi
      have hval : ∀ q ∈ fieldPlaces [(0, 0)], ∀ v bs, Constant beatCfg none seen q v bs → bs = q.bytes changed := by
        intro q hq v bs hs
        obtain ⟨g1, v', g2⟩ := seen_constant q hq
        obtain ⟨u, hu⟩ := List.exists_mem_of_ne_nil _ (windowed_ne none _ g1)
        have hvv : v = v' := by rw [← hs.field.kept u hu, ← g2.field.kept u hu]
        have e1 := hs.bytes
        rw [hvv, g2.bytes] at e1
        exact (Except.ok.inj e1).symm
      rintro (⟨hne, hin | hvar⟩ | ⟨_, q, hq, hh, v, bs, hs, hne⟩)
      · exact hnot i hin
      · by_cases h15 : i / 8 < 15
        · obtain ⟨q, hq, hhas⟩ := (hcover (i / 8) (by omega)).2 h15
          obtain ⟨m, d, b, k1, k2, _⟩ := hvar q hq hhas
          obtain ⟨g1, v, g2⟩ := seen_constant q hq
          obtain ⟨μ, k, _⟩ := g2.field.exact.mean
          have := k _ (windowed_ne none _ g1) (windowed_idem none _) g2.field.kept
          rw [k1] at this
          cases this
          exact lt_irrefl _ k2
        · have : ∀ i < 136, 15 ≤ i / 8 → (flipAt (bytesBits changed) [10, 70, 100])[i]? = (bytesBits changed)[i]? := by decide +kernel
          exact hne (this i hi (by omega))
      · rw [hval q hq v bs hs] at hne
        have hb := bit_of_place (len := 17) (bytesBits changed) changed_length q i hh
        rw [bitsToBytes_bytesBits] at hb
        exact hne hb)
  have hpure : r.pure.success = 0 := by
    have hd : flipAt (bytesBits changed) [10, 70, 100] ≠ bytesBits changed := by decide +kernel
    rw [List.map_cons, List.map_nil, strict_alone _ _ changed_length hd _ (by norm_num) (by norm_num) oa ho] at hx
    rw [List.length_singleton, Nat.cast_one, mul_one] at hx
    rw [hx, Nat.cast_zero]
  refine ⟨s, r, h1, h2, h4, h5, hpure, ?_⟩
  rw [h6, hpure]
  norm_num

/-- With the default options the same heartbeat is not decoded, although the model knows it. -/
example (model : BufferModel ℝ) : ∃ r, simStep (alone strict) (rectifying beatCfg (fun (_ : Unit) _ => ((), .ok 0)) strict) ()
    (Mav.new 1 model () ()) 136 (1 / 50) [(bytesBits changed, [10, 70, 100])] = .ok r ∧ r.rect = r.pure ∧ r.recover = 0 := by
  obtain ⟨oa, ha1, ha2⟩ := outputs_alone strict (simInputs (((1 : ℚ) / 50 : ℚ) : ℝ) [(bytesBits changed, [10, 70, 100])]) ()
  have hst : ∀ x ∈ (Mav.new 1 model () () : Mav Unit Unit).structures, x = none := fun x hx => (List.mem_replicate.1 hx).2
  have hret := C143.c143_unused_returns beatCfg rfl rfl (by decide) (.inl rfl) (fun (_ : Unit) _ => ((), .ok 0)) strict model () ()
    [channelLlr (((1 : ℚ) / 50 : ℚ) : ℝ) (flipAt (bytesBits changed) [10, 70, 100])]
  obtain ⟨out, ho⟩ := hret _ List.mem_cons_self
  obtain ⟨_, _, d3⟩ := C143.unused_step beatCfg rfl rfl (fun (_ : Unit) _ => ((), .ok 0)) strict (Mav.new 1 model () ())
    (channelLlr (((1 : ℚ) / 50 : ℚ) : ℝ) (flipAt (bytesBits changed) [10, 70, 100])) hst
  have hB : outputs (rectifying beatCfg (fun (_ : Unit) _ => ((), .ok 0)) strict) (Mav.new 1 model () ())
      (simInputs (((1 : ℚ) / 50 : ℚ) : ℝ) [(bytesBits changed, [10, 70, 100])]) = [(out.estimate, out.success)].map .ok := by
    generalize bytesBits changed = tx at ho
    generalize (((1 : ℚ) / 50 : ℚ) : ℝ) = p at ho
    have hx : (Mav.decode beatCfg (fun (_ : Unit) _ => ((), .ok 0)) strict (Mav.new 1 model () ()) (channelLlr p (flipAt tx [10, 70, 100]))).result = .ok out := ho
    simp only [simInputs, List.map_cons, List.map_nil, outputs, rectifying, hx]
  obtain ⟨r, r1, _⟩ := c83_step (alone strict) (rectifying beatCfg (fun (_ : Unit) _ => ((), .ok 0)) strict) () (Mav.new 1 model () ()) 136 136 (1 / 50)
    [(bytesBits changed, [10, 70, 100])] (by simp) (by omega) (by simp [changed_length]) oa [(out.estimate, out.success)] ha1 hB
    (by
      intro o ho
      obtain ⟨s, x, h⟩ := ha2 o ho
      rw [h, strict_length])
    (by
      intro o hm
      rw [List.mem_singleton.1 hm, (d3 out ho).1, strict_length])
  exact ⟨r, r1, c152_defaults_false (c := beatCfg) rfl rfl _ strict model () () 136 (1 / 50) _ r r1⟩

/-- With learning, the heartbeat raises even if nothing is inverted. -/
example : ∃ s, setUp { beatCfg with learning := true } (BufferModel.new none) () () [changed] = .ok s ∧
    simStep (alone strict) (rectifying { beatCfg with learning := true } (fun (_ : Unit) _ => ((), .ok 0)) strict) () s 136 (1 / 50)
      [(bytesBits changed, [])] = .error .typeError := by
  have hm : messagesIn changed = [(0, 0)] := by decide +kernel
  have hr : InRange 17 [(0, 0)] := by
    intro r hr
    simp at hr
    subst hr
    exact ⟨Dialect.msg0, by decide +kernel, by decide, by decide, by decide⟩
  exact c152_learning_false (c := { beatCfg with learning := true }) rfl (by simp [beatCfg]) _ strict strict () () () 17 strict_length none [changed]
    (by simp [beatCfg]) (by simp [beatCfg]) (by simp only [List.mem_singleton, forall_eq, hm]; exact ⟨by simp, hr⟩) _ _ (by simp)
    (by simp [changed_length])

end NR.C152
