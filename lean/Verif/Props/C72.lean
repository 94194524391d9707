import Verif.Spec.DudeDecoder
import Verif.Lemmas.Decoder
import Verif.Props.C41_C44
import Verif.Props.C53_C56
import Verif.Props.C64
/-
C72: the DUDE decoder.
-/
namespace NR
open Spec

variable {σ Λ : Type}

theorem dude_sample_prob {f : ℝ} (h0 : 0 ≤ f) (hf : f < 1 / 2) {k : Nat} (hk : 1 ≤ k) {d : OnlineDude} {past : List Bool}
    (hi : OnlineInv k 2 d (past.map sym)) (z : Bool) :
    ∃ d', d.denoiseSample (dudeDecide f) (if z then 1 else 0) = .ok (oneProb f k past z, d') ∧
      OnlineInv k 2 d' ((past ++ [z]).map sym) := by
  obtain ⟨d', h1, h2⟩ := onlineInv_step (dudeDecide f) hk hi (sym z) (by cases z <;> simp [sym]) (by cases z <;> simp [sym])
  refine ⟨d', ?_, by simpa using h2⟩
  change d.denoiseSample (dudeDecide f) (sym z) = _
  rw [h1]
  congr 2
  unfold oneProb
  rw [List.length_map]
  by_cases hlt : past.length < k
  · rw [if_pos hlt, if_pos hlt]
    cases z <;> simp [dudeDecide, sym]
  · rw [if_neg hlt, if_neg hlt]
    have hfc : ∀ a, seen k (past.map sym ++ [sym z]) (before (past.map sym) k past.length) a =
        followCount ((past ++ [z]).map sym) k past.length a := by
      intro a
      have := followCount_seen k (past.map sym) [] (sym z) a (by simp; omega)
      rw [List.length_map] at this
      rw [List.map_append, List.map_cons, List.map_nil, this]
    have hpos : 0 < followCount ((past ++ [z]).map sym) k past.length 0 + followCount ((past ++ [z]).map sym) k past.length 1 := by
      rw [← hfc, ← hfc, seen_append _ _ _ _ _ (by simp; omega), seen_append _ _ _ _ _ (by simp; omega)]
      cases z <;> simp [sym]
    rw [show (List.range 2) = [0, 1] from rfl, List.map_cons, List.map_cons, List.map_nil, hfc, hfc]
    simp only [dudeDecide]
    rw [show (!![1 - f, f; f, 1 - f] : Matrix (Fin 2) (Fin 2) ℝ) = bsc f from rfl,
      (c43_smoothing f h0 hf _ _ hpos _).2]
    cases z <;> simp [onePosterior, sym, bsc]

theorem denoiseAll_spec {f : ℝ} (h0 : 0 ≤ f) (hf : f < 1 / 2) {k : Nat} (hk : 1 ≤ k) :
    ∀ (ds : List OnlineDude) (obs : List Bool) (past : Nat → List Bool), obs.length = ds.length →
      (∀ j, (hj : j < ds.length) → OnlineInv k 2 ds[j] ((past j).map sym)) →
      ∃ ds', denoiseAll f ds obs = (ds', .ok ((List.range ds.length).map fun j => oneProb f k (past j) (obs.getD j false))) ∧
        ds'.length = ds.length ∧
        ∀ j, (hj : j < ds'.length) → OnlineInv k 2 ds'[j] ((past j ++ [obs.getD j false]).map sym) := by
  intro ds
  induction ds with
  | nil => intro obs past _ _; exact ⟨[], rfl, rfl, fun j hj => by simp at hj⟩
  | cons d ds ih =>
    intro obs past hlen hinv
    cases obs with
    | nil => simp at hlen
    | cons o os =>
      obtain ⟨d', h1, h2⟩ := dude_sample_prob h0 hf hk (hinv 0 (by simp)) o
      obtain ⟨ds', e1, e2, e3⟩ := ih os (fun j => past (j + 1)) (by simpa using hlen)
        (fun j hj => hinv (j + 1) (by simpa using hj))
      refine ⟨d' :: ds', ?_, by simp [e2], ?_⟩
      · simp only [denoiseAll]
        rw [show ((d :: ds)[0]'(by simp)) = d from rfl] at h1
        rw [h1]
        simp only
        rw [e1]
        simp only [List.length_cons, List.range_succ_eq_map, List.map_cons, List.map_map, List.getD_cons_zero]
        rfl
      · intro j hj
        cases j with
        | zero => simpa using h2
        | succ j => simpa using e3 j (by simpa using hj)

/-- What the state knows when the words of cluster `l` so far are `H l`. -/
structure DudeInv (c : DudeCfg) (s : DudeDec σ Λ) (H : Nat → List (List ℝ)) : Prop where
  nd : s.dudes.length = c.nClusters
  ns : s.sizes.length = c.nClusters
  sizes : ∀ l, l < c.nClusters → s.sizes[l]? = some (H l).length
  dudes : ∀ l, l < c.nClusters → ∃ ds, s.dudes[l]? = some ds ∧ ds.length = c.modelLength ∧
    ∀ j, (hj : j < ds.length) → OnlineInv c.context 2 ds[j] ((bitHistory j (H l)).map sym)

theorem maxAbs_peak {w : List ℝ} (h : w ≠ []) : ∃ m, maxAbs w = .ok m ∧ IsPeak w m := by
  unfold maxAbs
  have key : ∀ (l : List ℝ) (a : ℝ), (∃ v ∈ a :: l, v = l.foldl max a) ∧ ∀ v ∈ a :: l, v ≤ l.foldl max a := by
    intro l
    induction l with
    | nil => intro a; simp
    | cons b l ih =>
      intro a
      obtain ⟨⟨v, hv, e⟩, hle⟩ := ih (max a b)
      rw [List.foldl_cons]
      refine ⟨?_, fun x hx => ?_⟩
      · rcases List.mem_cons.1 hv with rfl | hv
        · rcases max_choice a b with h | h
          · exact ⟨a, by simp, by rw [← e]; exact h.symm⟩
          · exact ⟨b, by simp, by rw [← e]; exact h.symm⟩
        · exact ⟨v, by simp [hv], e⟩
      · rcases List.mem_cons.1 hx with rfl | hx
        · exact le_trans (le_max_left x b) (hle _ (List.mem_cons_self ..))
        · rcases List.mem_cons.1 hx with rfl | hx
          · exact le_trans (le_max_right a x) (hle _ (List.mem_cons_self ..))
          · exact hle x (by simp [hx])
  cases w with
  | nil => exact absurd rfl h
  | cons a l =>
    obtain ⟨⟨v, hv, e⟩, hle⟩ := key (l.map fun (v : ℝ) => |v|) |a|
    refine ⟨_, rfl, ?_, ?_⟩
    · have : v ∈ (a :: l).map fun (v : ℝ) => |v| := hv
      obtain ⟨u, hu, rfl⟩ := List.mem_map.1 this
      exact ⟨u, hu, e⟩
    · intro u hu
      exact hle |u| (show |u| ∈ (a :: l).map fun (v : ℝ) => |v| from List.mem_map.2 ⟨u, hu, rfl⟩)

/-- The first `model_length` bits of the codeword are the model bits. -/
def Prefixed (c : DudeCfg) : Prop :=
  c.infoIdx.count true ≤ c.modelLength ∨
    c.modelLength ≤ c.infoIdx.length ∧ ∀ i < c.modelLength, c.infoIdx.getD i false = true

theorem prefixed_iff (c : DudeCfg) :
    (Prefixed c → modelBitsIdx c.infoIdx c.modelLength = List.range c.modelLength) ∧
    (¬ Prefixed c → (modelBitsIdx c.infoIdx c.modelLength).length < c.modelLength) := by
  unfold Prefixed modelBitsIdx
  obtain ⟨h1, h2⟩ := c64_model_bits c.infoIdx c.modelLength
  unfold modelBitsIdxPlain at h1 h2
  constructor
  · rintro (h | h)
    · rw [if_pos h]
    · by_cases h' : c.infoIdx.count true ≤ c.modelLength
      · rw [if_pos h']
      · rw [if_neg h', h2 (h1.2 h)]
  · intro h
    rw [not_or] at h
    rw [if_neg h.1]
    have hne := fun he => h.2 (h1.1 he)
    have hle : ((List.range c.infoIdx.length).filter fun i => decide (i < c.modelLength) && c.infoIdx.getD i false).length
        ≤ c.modelLength := by
      have hnd : ((List.range c.infoIdx.length).filter fun i => decide (i < c.modelLength) && c.infoIdx.getD i false).Nodup :=
        List.Nodup.filter _ List.nodup_range
      have hss : ((List.range c.infoIdx.length).filter fun i => decide (i < c.modelLength) && c.infoIdx.getD i false) ⊆
          List.range c.modelLength := by
        intro x hx
        have := (List.mem_filter.1 hx).2
        simp at this
        simpa using this.1
      simpa using (List.subperm_of_subset hnd hss).length_le
    exact lt_of_le_of_ne hle hne

theorem getD_hardBits (w : List ℝ) (i : Nat) (hi : i < w.length) :
    (hardBits w).getD i false = (open Classical in decide (w.getD i 0 < 0)) := by
  classical
  unfold hardBits
  simp only [List.getD_eq_getElem?_getD, List.getElem?_map, List.getElem?_eq_getElem hi, Option.map_some, Option.getD_some]

theorem filterMap_range_take {α : Type} (a : List α) (n : Nat) (h : n ≤ a.length) :
    (List.range n).filterMap (a[·]?) = a.take n := by
  induction n with
  | zero => simp
  | succ n ih =>
    rw [List.range_succ, List.filterMap_append, ih (by omega), List.take_add_one, List.getElem?_eq_getElem (by omega)]
    simp [List.getElem?_eq_getElem (show n < a.length by omega)]

/-- What one call does, case by case, when the model bits are the first bits of the codeword. -/
theorem dude_decode_cases {c : DudeCfg} (h0 : 0 ≤ c.bitFlip) (hf : c.bitFlip < 1 / 2) (hk : 1 ≤ c.context)
    (hm : 0 < c.modelLength) (hp : Prefixed c) (cls : Labeler σ) (ldpc : Ldpc Λ) {s : DudeDec σ Λ}
    {H : Nat → List (List ℝ)} (hinv : DudeInv c s H) (ch : List ℝ) (hch : c.modelLength ≤ ch.length) :
    (∃ e, (s.decode c cls ldpc ch).result = .error e ∧ (s.decode c cls ldpc ch).word = ch ∧
      (s.decode c cls ldpc ch).handed = none ∧ DudeInv c (s.decode c cls ldpc ch).state H) ∨
    (∃ out, (s.decode c cls ldpc ch).result = .ok out ∧ out.label < 0 ∧ (s.decode c cls ldpc ch).word = ch ∧
      (s.decode c cls ldpc ch).handed = some ch ∧ out.denoised = hardWord ch ∧
      DudeInv c (s.decode c cls ldpc ch).state H) ∨
    (∃ (out : DudeOut) (l : Nat) (peak : ℝ), l < c.nClusters ∧ (s.decode c cls ldpc ch).result = .ok out ∧ out.label = l ∧
      IsPeak ch peak ∧ (s.decode c cls ldpc ch).word.length = ch.length ∧
      (∀ i, i < ch.length → (s.decode c cls ldpc ch).word.getD i 0 = ch.getD i 0 + if i < c.modelLength then
        dudeTerm c.bitFlip c.context c.center c.slope (bitHistory i (H l)) (open Classical in decide (ch.getD i 0 < 0))
        else 0) ∧
      (s.decode c cls ldpc ch).handed = some ((s.decode c cls ldpc ch).word.map fun (v : ℝ) =>
        min (c.clipping * peak) (max (-(c.clipping * peak)) v)) ∧
      out.denoised = hardWord ((s.decode c cls ldpc ch).word.map fun (v : ℝ) =>
        min (c.clipping * peak) (max (-(c.clipping * peak)) v)) ∧
      DudeInv c (s.decode c cls ldpc ch).state (fun l' => if l' = l then H l ++ [ch] else H l')) := by
  have hidx := (prefixed_iff c).1 hp
  have hlen : (hardBits ch).length = ch.length := by simp [hardBits]
  have htk : takeIdx (hardBits ch) (List.range c.modelLength) = .ok ((hardBits ch).take c.modelLength) := by
    rw [takeIdx_of_lt (by intro i hi; have := List.mem_range.1 hi; omega), filterMap_range_take _ _ (by omega)]
  obtain ⟨peak, hpk, hpeak⟩ := maxAbs_peak (w := ch) (by rintro rfl; simp at hch; omega)
  unfold DudeDec.decode
  simp only [hidx, htk]
  rcases hpl : pickLabel cls c.nClusters c.cluster s.cls s.running ((hardBits ch).take c.modelLength) with ⟨cs, running, lab⟩
  simp only
  have hinv' : ∀ (cs : σ) (running : Int) (ls : Λ), DudeInv c { s with cls := cs, running := running, ldpc := ls } H :=
    fun _ _ _ => ⟨hinv.nd, hinv.ns, hinv.sizes, hinv.dudes⟩
  cases lab with
  | error e => left; exact ⟨e, rfl, rfl, rfl, hinv' _ _ _⟩
  | ok label =>
    simp only
    split
    · rename_i hneg
      right; left
      exact ⟨_, rfl, hneg, rfl, rfl, rfl, hinv' _ _ _⟩
    · rename_i hneg
      by_cases hl : label.toNat < c.nClusters
      swap
      · rw [List.getElem?_eq_none (by rw [hinv.ns]; omega)]
        left; exact ⟨_, rfl, rfl, rfl, hinv' _ _ _⟩
      rw [hinv.sizes _ hl]
      simp only [hpk]
      obtain ⟨ds, hds, hdl, hdi⟩ := hinv.dudes _ hl
      have hsl : label.toNat < s.sizes.length := by rw [hinv.ns]; exact hl
      have hdl' : label.toNat < s.dudes.length := by rw [hinv.nd]; exact hl
      obtain ⟨ds', e1, e2, e3⟩ := denoiseAll_spec h0 hf hk ds ((hardBits ch).take c.modelLength)
        (fun j => bitHistory j (H label.toNat)) (by simp [hdl, hlen, hch]) hdi
      have hbit : ∀ j, j < c.modelLength → ((hardBits ch).take c.modelLength).getD j false =
          (open Classical in decide (ch.getD j 0 < 0)) := by
        intro j hj
        rw [← getD_hardBits ch j (by omega), List.getD_eq_getElem?_getD, List.getElem?_take_of_lt hj,
          List.getD_eq_getElem?_getD]
      have hpred : ∀ (cs : σ) (running : Int), DudeDec.predict c
          { s with cls := cs, running := running, sizes := s.sizes.set label.toNat ((H label.toNat).length + 1) }
          ((hardBits ch).take c.modelLength) label.toNat =
          ({ s with cls := cs, running := running, sizes := s.sizes.set label.toNat ((H label.toNat).length + 1), dudes := s.dudes.set label.toNat ds' },
            .ok ((List.range c.modelLength).map fun j => dudeTerm c.bitFlip c.context c.center c.slope
              (bitHistory j (H label.toNat)) (open Classical in decide (ch.getD j 0 < 0)))) := by
        intro cs running
        unfold DudeDec.predict
        simp only [List.getElem?_set_self hsl, hds, e1]
        have hne : (List.range ds.length).map (fun j => oneProb c.bitFlip c.context (bitHistory j (H label.toNat))
            (((hardBits ch).take c.modelLength).getD j false)) ≠ [] := by
          rw [hdl]
          intro h
          have := congrArg List.length h
          simp at this
          omega
        split
        · rename_i h; cases h
        · rename_i h; exact absurd (Except.ok.inj h) hne
        · rename_i ps _ h
          cases h
          congr 2
          rw [List.map_map, hdl]
          apply List.map_congr_left
          intro j hj
          simp only [Function.comp_apply]
          rw [hbit j (List.mem_range.1 hj)]
          unfold dudeTerm trust modelConfidence floatEps bitHistory
          simp only [List.length_map]
      rw [hpred]
      simp only
      right; right
      obtain ⟨a1, a2, a3⟩ := addAt_gen (List.range c.modelLength) ((List.range c.modelLength).map fun j =>
          dudeTerm c.bitFlip c.context c.center c.slope (bitHistory j (H label.toNat))
            (open Classical in decide (ch.getD j 0 < 0))) ch List.nodup_range
        (by intro i hi; have := List.mem_range.1 hi; omega) (by simp)
      refine ⟨_, label.toNat, peak, hl, rfl, by simp; omega, hpeak, a1, ?_, rfl, rfl, ?_⟩
      · intro i hi
        by_cases him : i < c.modelLength
        · rw [if_pos him]
          have := a3 i (by simpa using him)
          simp only [List.getElem_range] at this
          rw [this]
          congr 1
          rw [List.getD_eq_getElem?_getD, List.getElem?_map, List.getElem?_range him]
          rfl
        · rw [if_neg him, add_zero]
          exact a2 i (by simpa using him)
      · refine ⟨by simp [hinv.nd], by simp [hinv.ns], ?_, ?_⟩
        · intro l hl'
          by_cases h : l = label.toNat
          · subst h; simp [List.getElem?_set_self hsl]
          · simp only [List.getElem?_set_ne (Ne.symm h), if_neg h]
            exact hinv.sizes l hl'
        · intro l hl'
          by_cases h : l = label.toNat
          · subst h
            refine ⟨ds', by simp [List.getElem?_set_self hdl'], by omega, fun j hj => ?_⟩
            have := e3 j hj
            rw [hbit j (by omega)] at this
            simpa [bitHistory] using this
          · simp only [List.getElem?_set_ne (Ne.symm h), if_neg h]
            exact hinv.dudes l hl'

theorem dude_run_inv {c : DudeCfg} (h0 : 0 ≤ c.bitFlip) (hf : c.bitFlip < 1 / 2) (hk : 1 ≤ c.context)
    (hm : 0 < c.modelLength) (hp : Prefixed c) (cls : Labeler σ) (ldpc : Ldpc Λ) (words : List (List ℝ)) :
    ∀ (s : DudeDec σ Λ) (H : Nat → List (List ℝ)), DudeInv c s H → (∀ w ∈ words, c.modelLength ≤ w.length) →
      DudeInv c (s.run c cls ldpc words).1 (fun l => H l ++ ownWords l words (s.run c cls ldpc words).2) := by
  induction words with
  | nil => intro s H h _; simpa [DudeDec.run, ownWords] using h
  | cons ch rest ih =>
    intro s H hinv hlen
    have hstep : DudeInv c (s.decode c cls ldpc ch).state
        (fun l => H l ++ ownWords l [ch] [s.decode c cls ldpc ch]) := by
      rcases dude_decode_cases h0 hf hk hm hp cls ldpc hinv ch (hlen _ (by simp)) with
        ⟨e, hr, _, _, hi⟩ | ⟨out, hr, hneg, _, _, _, hi⟩ | ⟨out, l, peak, hl, hr, hlab, _, _, _, _, _, hi⟩
      · simpa [ownWords, hr] using hi
      · have : ∀ l : Nat, ¬ out.label = l := by intro l; omega
        simpa [ownWords, hr, this] using hi
      · have e : (fun l' => if l' = l then H l ++ [ch] else H l') =
            (fun l' => H l' ++ ownWords l' [ch] [s.decode c cls ldpc ch]) := by
          funext l'
          by_cases h : l' = l
          · subst h; simp [ownWords, hr, hlab]
          · have : ¬ (l = l') := fun e => h e.symm
            simp [ownWords, hr, hlab, h, this]
        rw [← e]; exact hi
    have hrest := ih _ _ hstep (fun w hw => hlen w (List.mem_cons_of_mem _ hw))
    have e : (fun l => (H l ++ ownWords l [ch] [s.decode c cls ldpc ch]) ++
        ownWords l rest ((s.decode c cls ldpc ch).state.run c cls ldpc rest).2) =
        (fun l => H l ++ ownWords l (ch :: rest) (s.run c cls ldpc (ch :: rest)).2) := by
      funext l
      rw [List.append_assoc]
      congr 1
      simp only [DudeDec.run, ownWords, List.zip_cons_cons, List.zip_nil_right, List.filterMap_cons, List.filterMap_nil]
      split <;> simp_all
    rw [← e]
    exact hrest

theorem dude_new_inv {c : DudeCfg} {cs : σ} {ls : Λ} {s0 : DudeDec σ Λ} (h : DudeDec.new c cs ls = .ok s0) :
    DudeInv c s0 (fun _ => []) := by
  unfold DudeDec.new at h
  split at h
  · cases h
  · cases h
    refine ⟨by simp, by simp, fun l hl => by simp [hl], fun l hl => ?_⟩
    refine ⟨List.replicate c.modelLength { k := c.context, A := 2 }, by simp [hl], by simp, ?_⟩
    intro j hj
    rw [List.getElem_replicate]
    refine ⟨rfl, rfl, by simp [bitHistory, before], fun key => ?_⟩
    simp [counts, dictGet, bitHistory]
    rfl

/-- C72. What the DUDE decoder does with a word that is decoded with a label, after any history: to each of the first
`model_length` bits it adds the weighted log-likelihood ratio of the probability that the bit was one, computed from the received
values of that bit in the earlier words decoded with the same label (and nothing else); the result is clipped at the clipping
factor times the largest magnitude received, and handed to the LDPC decoder. The bits reported as denoised are the hard decisions
on what was handed over. The caller's own array is changed by the addition (but not by the clipping). -/
theorem c72_combines {c : DudeCfg} (h0 : 0 ≤ c.bitFlip) (hf : c.bitFlip < 1 / 2) (hk : 1 ≤ c.context)
    (hm : 0 < c.modelLength) (hp : Prefixed c) (cls : Labeler σ) (ldpc : Ldpc Λ) (cs : σ) (ls : Λ) (s0 : DudeDec σ Λ)
    (hnew : DudeDec.new c cs ls = .ok s0) (words : List (List ℝ)) (hw : ∀ w ∈ words, c.modelLength ≤ w.length)
    (ch : List ℝ) (hch : c.modelLength ≤ ch.length) (l : Nat) (out : DudeOut)
    (hr : ((s0.run c cls ldpc words).1.decode c cls ldpc ch).result = .ok out) (hl : out.label = l) :
    ∃ (peak : ℝ) (handed : List ℝ), IsPeak ch peak ∧
      ((s0.run c cls ldpc words).1.decode c cls ldpc ch).handed = some handed ∧ handed.length = ch.length ∧
      ((s0.run c cls ldpc words).1.decode c cls ldpc ch).word.length = ch.length ∧
      (∀ i, i < ch.length →
        ((s0.run c cls ldpc words).1.decode c cls ldpc ch).word.getD i 0 = ch.getD i 0 + (if i < c.modelLength then
          dudeTerm c.bitFlip c.context c.center c.slope
            (bitHistory i (ownWords l words (s0.run c cls ldpc words).2)) (open Classical in decide (ch.getD i 0 < 0))
          else 0) ∧
        handed.getD i 0 = min (c.clipping * peak) (max (-(c.clipping * peak))
          (((s0.run c cls ldpc words).1.decode c cls ldpc ch).word.getD i 0))) ∧
      out.denoised = hardWord handed := by
  have hinv := dude_run_inv h0 hf hk hm hp cls ldpc words s0 _ (dude_new_inv hnew) hw
  rcases dude_decode_cases h0 hf hk hm hp cls ldpc hinv ch hch with
    ⟨e, he, _, _, _⟩ | ⟨out', he, hneg, _, _, _, _⟩ | ⟨out', l', peak, _, he, hlab, hpk, hlen, hword, hh, hden, _⟩
  · rw [he] at hr; cases hr
  · rw [he] at hr; cases hr; omega
  · rw [he] at hr
    cases hr
    have : l' = l := by omega
    subst this
    refine ⟨peak, _, hpk, hh, by simp [hlen], hlen, fun i hi => ⟨?_, ?_⟩, hden⟩
    · simpa using hword i hi
    · rw [List.getD_eq_getElem?_getD, List.getElem?_map, List.getElem?_eq_getElem (by omega), List.getD_eq_getElem?_getD,
        List.getElem?_eq_getElem (by omega)]
      rfl

/-- C72. With at least one cluster a call returns whenever the classifier, if it is asked, returns a label below the number of
clusters. -/
theorem c72_returns {c : DudeCfg} (h0 : 0 ≤ c.bitFlip) (hf : c.bitFlip < 1 / 2) (hk : 1 ≤ c.context)
    (hm : 0 < c.modelLength) (hp : Prefixed c) (hn : 1 ≤ c.nClusters) (cls : Labeler σ) (ldpc : Ldpc Λ) (cs : σ) (ls : Λ)
    (s0 : DudeDec σ Λ) (hnew : DudeDec.new c cs ls = .ok s0) (words : List (List ℝ))
    (hw : ∀ w ∈ words, c.modelLength ≤ w.length) (ch : List ℝ) (hch : c.modelLength ≤ ch.length)
    (hcls : 1 < c.nClusters → c.cluster = true →
      ∃ l : Int, l < c.nClusters ∧
        (cls (s0.run c cls ldpc words).1.cls ((hardWord ch).take c.modelLength)).2 = .ok l) :
    Returns ((s0.run c cls ldpc words).1.decode c cls ldpc ch).result := by
  have hinv := dude_run_inv h0 hf hk hm hp cls ldpc words s0 _ (dude_new_inv hnew) hw
  generalize (s0.run c cls ldpc words).1 = s at *
  rcases dude_decode_cases h0 hf hk hm hp cls ldpc hinv ch hch with
    ⟨e, he, _, hnone, _⟩ | ⟨out', he, _⟩ | ⟨out', l', peak, _, he, _⟩
  · exfalso
    have hidx := (prefixed_iff c).1 hp
    have hlen : (hardBits ch).length = ch.length := by simp [hardBits]
    have htk : takeIdx (hardBits ch) (List.range c.modelLength) = .ok ((hardBits ch).take c.modelLength) := by
      rw [takeIdx_of_lt (by intro i hi; have := List.mem_range.1 hi; omega), filterMap_range_take _ _ (by omega)]
    have hlab : ∃ (cs : σ) (running : Int) (l : Int), l < c.nClusters ∧
        pickLabel cls c.nClusters c.cluster s.cls s.running ((hardBits ch).take c.modelLength) = (cs, running, .ok l) := by
      unfold pickLabel
      by_cases h1 : 1 < c.nClusters
      · rw [if_pos h1]
        by_cases h2 : c.cluster = true
        · rw [if_pos h2]
          obtain ⟨l, hl, e⟩ := hcls h1 h2
          refine ⟨(cls s.cls ((hardBits ch).take c.modelLength)).1, s.running, l, hl, ?_⟩
          rw [hardBits_eq, ← e]
        · rw [if_neg h2]
          exact ⟨_, _, _, Int.emod_lt_of_pos _ (by omega), rfl⟩
      · rw [if_neg h1]
        exact ⟨_, _, 0, by omega, rfl⟩
    obtain ⟨cs, running, l, hl, hpl⟩ := hlab
    -- the call that raised hands nothing over; the call with this label does
    by_cases hneg : l < 0
    · have : (s.decode c cls ldpc ch).handed = some ch := by
        unfold DudeDec.decode
        simp only [hidx, htk, hpl, if_pos hneg]
      rw [this] at hnone; cases hnone
    · have hl' : l.toNat < c.nClusters := by omega
      obtain ⟨ds, hds, hdl, hdi⟩ := hinv.dudes _ hl'
      obtain ⟨peak, hpk, _⟩ := maxAbs_peak (w := ch) (by rintro rfl; simp at hch; omega)
      have hsl : l.toNat < s.sizes.length := by rw [hinv.ns]; exact hl'
      obtain ⟨ds', e1, e2, _⟩ := denoiseAll_spec h0 hf hk ds ((hardBits ch).take c.modelLength) _
        (by simp [hdl, hlen, hch]) hdi
      have : (s.decode c cls ldpc ch).handed ≠ none := by
        unfold DudeDec.decode
        simp only [hidx, htk, hpl, if_neg hneg, hinv.sizes _ hl', hpk, DudeDec.predict, List.getElem?_set_self hsl, hds, e1]
        generalize hps : (List.range ds.length).map _ = ps
        cases ps with
        | nil =>
          have := congrArg List.length hps
          rw [List.length_map, List.length_range, List.length_nil] at this
          omega
        | cons p ps => simp
      exact this hnone
  · exact ⟨_, he⟩
  · exact ⟨_, he⟩

/-- C72. While the classifier returns a negative label the received word is handed over unchanged, the caller's array is not
touched, nothing is learned, the LDPC decoder's results are returned, and the bits reported as denoised are the received ones. -/
theorem c72_training (c : DudeCfg) (cls : Labeler σ) (ldpc : Ldpc Λ) (s : DudeDec σ Λ) (ch : List ℝ) (out : DudeOut)
    (hr : (s.decode c cls ldpc ch).result = .ok out) (hneg : out.label < 0) :
    (s.decode c cls ldpc ch).handed = some ch ∧ (s.decode c cls ldpc ch).word = ch ∧
    (s.decode c cls ldpc ch).state.dudes = s.dudes ∧ (s.decode c cls ldpc ch).state.sizes = s.sizes ∧
    out.estimate = (ldpc s.ldpc (.llr ch)).2.estimate ∧ out.llr = (ldpc s.ldpc (.llr ch)).2.llr ∧
    out.success = (ldpc s.ldpc (.llr ch)).2.success ∧ out.iterations = (ldpc s.ldpc (.llr ch)).2.iterations ∧
    out.denoised = hardWord ch := by
  unfold DudeDec.decode at hr ⊢
  simp only at hr ⊢
  cases htk : takeIdx (hardBits ch) (modelBitsIdx c.infoIdx c.modelLength) with
  | error e => rw [htk] at hr; cases hr
  | ok b =>
    rw [htk] at hr
    simp only at hr ⊢
    rcases hpl : pickLabel cls c.nClusters c.cluster s.cls s.running b with ⟨cs, running, lab⟩
    rw [hpl] at hr
    simp only at hr ⊢
    cases lab with
    | error e => cases hr
    | ok label =>
      simp only at hr ⊢
      by_cases hl : label < 0
      · rw [if_pos hl] at hr ⊢
        cases hr
        exact ⟨rfl, rfl, rfl, rfl, rfl, rfl, rfl, rfl, rfl⟩
      · exfalso
        rw [if_neg hl] at hr
        split at hr
        · cases hr
        · split at hr
          · cases hr
          · split at hr
            · cases hr
            · cases hr
              exact hl hneg

/-- C72. What a returning call returns, with any label: the LDPC decoder's results on the word handed over. -/
theorem c72_returned (c : DudeCfg) (cls : Labeler σ) (ldpc : Ldpc Λ) (s : DudeDec σ Λ) (ch : List ℝ) (out : DudeOut)
    (hr : (s.decode c cls ldpc ch).result = .ok out) :
    ∃ w, (s.decode c cls ldpc ch).handed = some w ∧
      out.estimate = (ldpc s.ldpc (.llr w)).2.estimate ∧ out.llr = (ldpc s.ldpc (.llr w)).2.llr ∧
      out.success = (ldpc s.ldpc (.llr w)).2.success ∧ out.iterations = (ldpc s.ldpc (.llr w)).2.iterations := by
  have hpred : ∀ (t : DudeDec σ Λ) (b : List Bool) (l : Nat), (t.predict c b l).1.ldpc = t.ldpc := by
    intro t b l
    unfold DudeDec.predict
    split
    · simp only
      split <;> rfl
    · rfl
  unfold DudeDec.decode at hr ⊢
  simp only at hr ⊢
  cases htk : takeIdx (hardBits ch) (modelBitsIdx c.infoIdx c.modelLength) with
  | error e => rw [htk] at hr; cases hr
  | ok b =>
    rw [htk] at hr
    simp only at hr ⊢
    rcases hpl : pickLabel cls c.nClusters c.cluster s.cls s.running b with ⟨cs, running, lab⟩
    rw [hpl] at hr
    simp only at hr ⊢
    cases lab with
    | error e => cases hr
    | ok label =>
      simp only at hr ⊢
      by_cases hl : label < 0
      · rw [if_pos hl] at hr ⊢
        cases hr
        exact ⟨ch, rfl, rfl, rfl, rfl, rfl⟩
      · rw [if_neg hl] at hr ⊢
        cases hs : s.sizes[label.toNat]? with
        | none => rw [hs] at hr; cases hr
        | some size =>
          simp only [hs] at hr ⊢
          cases hm : maxAbs ch with
          | error e => simp only [hm] at hr; cases hr
          | ok peak =>
            simp only [hm] at hr ⊢
            have h := hpred ⟨s.dudes, s.sizes.set label.toNat (size + 1), running, cs, s.ldpc⟩ b label.toNat
            generalize hq : DudeDec.predict c ⟨s.dudes, s.sizes.set label.toNat (size + 1), running, cs, s.ldpc⟩ b
              label.toNat = q at hr h ⊢
            obtain ⟨t, r⟩ := q
            cases r with
            | error e => cases hr
            | ok model =>
              simp only at hr h ⊢
              cases hr
              rw [h]
              exact ⟨_, rfl, rfl, rfl, rfl, rfl⟩

/-- C72. The first word of a cluster is not changed by the model: it is handed over as received (with a clipping factor of at
least one), and the caller's array is left as it was. -/
theorem c72_first {c : DudeCfg} (h0 : 0 ≤ c.bitFlip) (hf : c.bitFlip < 1 / 2) (hk : 1 ≤ c.context)
    (hm : 0 < c.modelLength) (hp : Prefixed c) (cls : Labeler σ) (ldpc : Ldpc Λ) (cs : σ) (ls : Λ) (s0 : DudeDec σ Λ)
    (hnew : DudeDec.new c cs ls = .ok s0) (words : List (List ℝ)) (hw : ∀ w ∈ words, c.modelLength ≤ w.length)
    (ch : List ℝ) (hch : c.modelLength ≤ ch.length) (l : Nat) (out : DudeOut)
    (hr : ((s0.run c cls ldpc words).1.decode c cls ldpc ch).result = .ok out) (hl : out.label = l)
    (hown : ownWords l words (s0.run c cls ldpc words).2 = []) :
    ((s0.run c cls ldpc words).1.decode c cls ldpc ch).word = ch ∧
    (1 ≤ c.clipping → ((s0.run c cls ldpc words).1.decode c cls ldpc ch).handed = some ch ∧ out.denoised = hardWord ch) := by
  obtain ⟨peak, handed, hpk, hh, hhl, hwl, hbits, hden⟩ :=
    c72_combines h0 hf hk hm hp cls ldpc cs ls s0 hnew words hw ch hch l out hr hl
  rw [hown] at hbits
  have hterm : ∀ i, (if i < c.modelLength then dudeTerm c.bitFlip c.context c.center c.slope (bitHistory i [])
      (open Classical in decide (ch.getD i 0 < 0)) else 0) = 0 := by
    intro i
    split
    · simp [dudeTerm, trust, bitHistory]
    · rfl
  have hext : ∀ x : List ℝ, x.length = ch.length → (∀ i, i < ch.length → x.getD i 0 = ch.getD i 0) → x = ch := by
    intro x hx h
    apply List.ext_getElem hx
    intro i h1 h2
    have := h i h2
    rw [List.getD_eq_getElem?_getD, List.getD_eq_getElem?_getD, List.getElem?_eq_getElem h1, List.getElem?_eq_getElem h2] at this
    exact this
  have hword : ((s0.run c cls ldpc words).1.decode c cls ldpc ch).word = ch := by
    apply hext _ hwl
    intro i hi
    rw [(hbits i hi).1, hterm i, add_zero]
  refine ⟨hword, fun hc => ?_⟩
  have : handed = ch := by
    apply hext _ hhl
    intro i hi
    rw [(hbits i hi).2, hword]
    have hle : |ch.getD i 0| ≤ peak := by
      rw [List.getD_eq_getElem?_getD, List.getElem?_eq_getElem hi]
      exact hpk.2 _ (List.getElem_mem hi)
    have hb : |ch.getD i 0| ≤ c.clipping * peak := by
      have : 0 ≤ |ch.getD i 0| := abs_nonneg _
      nlinarith
    rw [abs_le] at hb
    rw [max_eq_right hb.1, min_eq_right hb.2]
  rw [hh, hden, this]
  exact ⟨rfl, rfl⟩

/-- C72. As long as a cluster has fewer words than the context length, the model only confirms what was received: no bit is
flipped before the LDPC decoder. -/
theorem c72_no_flip {c : DudeCfg} (h0 : 0 ≤ c.bitFlip) (hf : c.bitFlip < 1 / 2) (hk : 1 ≤ c.context)
    (hm : 0 < c.modelLength) (hp : Prefixed c) (hclip : 0 < c.clipping) (cls : Labeler σ) (ldpc : Ldpc Λ) (cs : σ) (ls : Λ)
    (s0 : DudeDec σ Λ) (hnew : DudeDec.new c cs ls = .ok s0) (words : List (List ℝ))
    (hw : ∀ w ∈ words, c.modelLength ≤ w.length) (ch : List ℝ) (hch : c.modelLength ≤ ch.length) (l : Nat) (out : DudeOut)
    (hr : ((s0.run c cls ldpc words).1.decode c cls ldpc ch).result = .ok out) (hl : out.label = l)
    (hown : (ownWords l words (s0.run c cls ldpc words).2).length < c.context) :
    out.denoised = hardWord ch := by
  obtain ⟨peak, handed, hpk, hh, hhl, hwl, hbits, hden⟩ :=
    c72_combines h0 hf hk hm hp cls ldpc cs ls s0 hnew words hw ch hch l out hr hl
  rw [hden]
  classical
  have heps : (0 : ℝ) < 2 ^ (-52 : ℤ) := by positivity
  have htrust : ∀ n, 0 ≤ trust n c.center c.slope := by
    intro n
    unfold trust
    split
    · exact le_rfl
    · positivity
  have hlog1 : Real.log ((1 - 1 + (2 : ℝ) ^ (-52 : ℤ)) / (1 + 2 ^ (-52 : ℤ))) ≤ 0 := by
    apply Real.log_nonpos
    · positivity
    · rw [div_le_one (by linarith)]; linarith
  have hlog0 : 0 ≤ Real.log ((1 - 0 + (2 : ℝ) ^ (-52 : ℤ)) / (0 + 2 ^ (-52 : ℤ))) := by
    apply Real.log_nonneg
    rw [le_div_iff₀ (by linarith)]; linarith
  unfold hardWord
  apply List.ext_getElem (by simp [hhl])
  intro i h1 h2
  have hi : i < ch.length := by simpa using h2
  have hi' : i < handed.length := by omega
  rw [List.getElem_map, List.getElem_map]
  have e1 : handed[i] = handed.getD i 0 := by rw [List.getD_eq_getElem?_getD, List.getElem?_eq_getElem hi']; rfl
  have e2 : ch[i] = ch.getD i 0 := by rw [List.getD_eq_getElem?_getD, List.getElem?_eq_getElem hi]; rfl
  have hle : |ch.getD i 0| ≤ peak := by rw [← e2]; exact hpk.2 _ (List.getElem_mem hi)
  rw [decide_eq_decide, e1, e2, (hbits i hi).2, (hbits i hi).1]
  have hpnn : 0 ≤ peak := le_trans (abs_nonneg _) hle
  have hB : 0 ≤ c.clipping * peak := by positivity
  have hterm : (ch.getD i 0 < 0 → (if i < c.modelLength then dudeTerm c.bitFlip c.context c.center c.slope
        (bitHistory i (ownWords l words (s0.run c cls ldpc words).2)) (decide (ch.getD i 0 < 0)) else 0) ≤ 0) ∧
      (¬ ch.getD i 0 < 0 → 0 ≤ (if i < c.modelLength then dudeTerm c.bitFlip c.context c.center c.slope
        (bitHistory i (ownWords l words (s0.run c cls ldpc words).2)) (decide (ch.getD i 0 < 0)) else 0)) := by
    have hshort : (bitHistory i (ownWords l words (s0.run c cls ldpc words).2)).length < c.context := by
      simpa [bitHistory] using hown
    split
    · unfold dudeTerm oneProb
      rw [if_pos hshort]
      constructor
      · intro h
        simp only [h, decide_true, if_true]
        exact mul_nonpos_of_nonneg_of_nonpos (htrust _) hlog1
      · intro h
        simp only [h, decide_false]
        exact mul_nonneg (htrust _) hlog0
    · simp
  generalize (if i < c.modelLength then dudeTerm c.bitFlip c.context c.center c.slope
        (bitHistory i (ownWords l words (s0.run c cls ldpc words).2)) (decide (ch.getD i 0 < 0)) else 0) = t at hterm
  constructor
  · intro h
    by_contra hc
    have ht := hterm.2 hc
    have hx : 0 ≤ ch.getD i 0 + t := by linarith [not_lt.1 hc]
    have : 0 ≤ min (c.clipping * peak) (max (-(c.clipping * peak)) (ch.getD i 0 + t)) :=
      le_min hB (le_trans hx (le_max_right _ _))
    linarith
  · intro h
    have ht := hterm.1 h
    have hpp : 0 < peak := lt_of_lt_of_le (abs_pos.2 (ne_of_lt h)) hle
    have hBp : 0 < c.clipping * peak := by positivity
    apply lt_of_le_of_lt (min_le_right _ _)
    rw [max_lt_iff]
    constructor <;> linarith

/-- C72. The call does not leave the caller's array alone: every word of a cluster from the second one up to the context length
is changed in place. -/
theorem c72_input_changed {c : DudeCfg} (h0 : 0 ≤ c.bitFlip) (hf : c.bitFlip < 1 / 2) (hk : 1 ≤ c.context)
    (hm : 0 < c.modelLength) (hp : Prefixed c) (cls : Labeler σ) (ldpc : Ldpc Λ) (cs : σ) (ls : Λ) (s0 : DudeDec σ Λ)
    (hnew : DudeDec.new c cs ls = .ok s0) (words : List (List ℝ)) (hw : ∀ w ∈ words, c.modelLength ≤ w.length)
    (ch : List ℝ) (hch : c.modelLength ≤ ch.length) (l : Nat) (out : DudeOut)
    (hr : ((s0.run c cls ldpc words).1.decode c cls ldpc ch).result = .ok out) (hl : out.label = l)
    (h1 : ownWords l words (s0.run c cls ldpc words).2 ≠ [])
    (hown : (ownWords l words (s0.run c cls ldpc words).2).length < c.context) :
    ((s0.run c cls ldpc words).1.decode c cls ldpc ch).word ≠ ch := by
  obtain ⟨peak, handed, hpk, hh, hhl, hwl, hbits, hden⟩ :=
    c72_combines h0 hf hk hm hp cls ldpc cs ls s0 hnew words hw ch hch l out hr hl
  classical
  intro he
  have h := (hbits 0 (by omega)).1
  rw [he, if_pos hm] at h
  have hz : dudeTerm c.bitFlip c.context c.center c.slope (bitHistory 0 (ownWords l words (s0.run c cls ldpc words).2))
      (decide (ch.getD 0 0 < 0)) = 0 := by linarith
  have heps : (0 : ℝ) < 2 ^ (-52 : ℤ) := by positivity
  have heps1 : (2 : ℝ) ^ (-52 : ℤ) < 1 := by norm_num
  have hpos : 0 < (ownWords l words (s0.run c cls ldpc words).2).length := List.length_pos_iff.2 h1
  unfold dudeTerm oneProb trust at hz
  simp only [bitHistory, List.length_map] at hz
  rw [if_pos hown, if_neg (by omega), mul_eq_zero] at hz
  rcases hz with hz | hz
  · have : (0 : ℝ) < 1 / (1 + Real.exp (-((((ownWords l words (s0.run c cls ldpc words).2).length + 1 : ℕ) : ℝ) - c.center) * c.slope)) := by
      positivity
    linarith
  · by_cases hc : ch.getD 0 0 < 0
    · simp only [hc, decide_true, if_true] at hz
      have : Real.log ((1 - 1 + (2 : ℝ) ^ (-52 : ℤ)) / (1 + 2 ^ (-52 : ℤ))) < 0 := by
        apply Real.log_neg
        · positivity
        · rw [div_lt_one (by linarith)]; linarith
      linarith
    · simp only [hc, decide_false, if_false, Bool.false_eq_true] at hz
      have : 0 < Real.log ((1 - 0 + (2 : ℝ) ^ (-52 : ℤ)) / (0 + 2 ^ (-52 : ℤ))) := by
        apply Real.log_pos
        rw [lt_div_iff₀ (by linarith)]; linarith
      linarith

theorem denoiseAll_short (f : ℝ) : ∀ (ds : List OnlineDude) (obs : List Bool), obs.length < ds.length →
    ∃ ds' e, denoiseAll f ds obs = (ds', .error e) ∧ ds'.length = ds.length := by
  intro ds
  induction ds with
  | nil => intro obs h; simp at h
  | cons d ds ih =>
    intro obs h
    cases obs with
    | nil => exact ⟨d :: ds, _, rfl, rfl⟩
    | cons o os =>
      simp only [denoiseAll]
      split
      · exact ⟨_, _, rfl, rfl⟩
      · obtain ⟨ds', e, h1, h2⟩ := ih os (by simpa using h)
        rw [h1]
        exact ⟨_, _, rfl, by simp [h2]⟩

/-- C72. If there are more than `model_length` information bits but not all of the first `model_length` codeword bits are
information bits, no call that uses the model ever returns: only words with a negative label are decoded. -/
theorem c72_never_returns {c : DudeCfg} (hp : ¬ Prefixed c) (cls : Labeler σ) (ldpc : Ldpc Λ) (cs : σ) (ls : Λ)
    (s0 : DudeDec σ Λ) (hnew : DudeDec.new c cs ls = .ok s0) (words : List (List ℝ)) :
    ∀ st ∈ (s0.run c cls ldpc words).2, ∀ out, st.result = .ok out → out.label < 0 := by
  have hidx := (prefixed_iff c).2 hp
  have step : ∀ (s : DudeDec σ Λ) (ch : List ℝ), (∀ ds ∈ s.dudes, ds.length = c.modelLength) →
      (∀ ds ∈ (s.decode c cls ldpc ch).state.dudes, ds.length = c.modelLength) ∧
      ∀ out, (s.decode c cls ldpc ch).result = .ok out → out.label < 0 := by
    intro s ch hs
    unfold DudeDec.decode
    simp only
    cases htk : takeIdx (hardBits ch) (modelBitsIdx c.infoIdx c.modelLength) with
    | error e => exact ⟨hs, fun out h => by cases h⟩
    | ok b =>
      have hb := (takeIdx_ok htk).2.2
      simp only
      rcases hpl : pickLabel cls c.nClusters c.cluster s.cls s.running b with ⟨cs', running, lab⟩
      simp only
      cases lab with
      | error e => exact ⟨hs, fun out h => by cases h⟩
      | ok label =>
        simp only
        split
        · rename_i hneg
          exact ⟨hs, fun out h => by cases h; exact hneg⟩
        · cases hsz : s.sizes[label.toNat]? with
          | none => exact ⟨hs, fun out h => by cases h⟩
          | some size =>
            simp only
            cases hmx : maxAbs ch with
            | error e => exact ⟨hs, fun out h => by cases h⟩
            | ok peak =>
              simp only
              have hsl : label.toNat < s.sizes.length := (List.getElem?_eq_some_iff.1 hsz).1
              unfold DudeDec.predict
              simp only [List.getElem?_set_self hsl]
              cases hd : s.dudes[label.toNat]? with
              | none => exact ⟨hs, fun out h => by cases h⟩
              | some ds =>
                simp only
                have hdl := hs ds (List.mem_of_getElem? hd)
                obtain ⟨ds', e, e1, e2⟩ := denoiseAll_short c.bitFlip ds b (by omega)
                rw [e1]
                refine ⟨fun x hx => ?_, fun out h => by cases h⟩
                rcases List.mem_or_eq_of_mem_set hx with h | h
                · exact hs x h
                · rw [h]; exact e2.trans hdl
  have run : ∀ (words : List (List ℝ)) (s : DudeDec σ Λ), (∀ ds ∈ s.dudes, ds.length = c.modelLength) →
      ∀ st ∈ (s.run c cls ldpc words).2, ∀ out, st.result = .ok out → out.label < 0 := by
    intro words
    induction words with
    | nil => intro s _ st hst; simp [DudeDec.run] at hst
    | cons ch rest ih =>
      intro s hs st hst
      simp only [DudeDec.run] at hst
      rcases List.mem_cons.1 hst with rfl | hst
      · exact (step s ch hs).2
      · exact ih _ (step s ch hs).1 st hst
  apply run words s0
  unfold DudeDec.new at hnew
  split at hnew
  · cases hnew
  · cases hnew
    intro ds hds
    rw [List.eq_of_mem_replicate hds]
    simp

/-- C72. Without clustering the labels go round robin over the clusters, one step per word; with one cluster the label is 0. -/
theorem c72_round_robin {c : DudeCfg} (cls : Labeler σ) (ldpc : Ldpc Λ) (cs : σ) (ls : Λ) (s0 : DudeDec σ Λ)
    (hnew : DudeDec.new c cs ls = .ok s0) (words : List (List ℝ))
    (hcov : ∀ w ∈ words, ∀ j ∈ modelBitsIdx c.infoIdx c.modelLength, j < w.length) (i : Nat) (out : DudeOut)
    (h : ((s0.run c cls ldpc words).2.map DudeStep.result)[i]? = some (.ok out)) :
    (1 < c.nClusters → c.cluster = false → out.label = (i % c.nClusters : Nat)) ∧ (c.nClusters ≤ 1 → out.label = 0) := by
  have step : ∀ (s : DudeDec σ Λ) (w : List ℝ), (∀ j ∈ modelBitsIdx c.infoIdx c.modelLength, j < w.length) →
      (1 < c.nClusters → c.cluster = false →
        (s.decode c cls ldpc w).state.running = (s.running + 1) % c.nClusters ∧
        ∀ r, (s.decode c cls ldpc w).result = .ok r → r.label = (s.running + 1) % c.nClusters) ∧
      (c.nClusters ≤ 1 → ∀ r, (s.decode c cls ldpc w).result = .ok r → r.label = 0) := by
    intro s w hw
    have hlen : (hardBits w).length = w.length := by simp [hardBits]
    have gen : ∀ (cs : σ) (run : Int) (lab : Int),
        pickLabel cls c.nClusters c.cluster s.cls s.running
          ((modelBitsIdx c.infoIdx c.modelLength).filterMap ((hardBits w)[·]?)) = (cs, run, .ok lab) →
        0 ≤ lab →
        (s.decode c cls ldpc w).state.running = run ∧ ∀ r, (s.decode c cls ldpc w).result = .ok r → r.label = lab := by
      intro cs run lab hpk hlab
      unfold DudeDec.decode
      simp only
      rw [takeIdx_of_lt (by rw [hlen]; exact hw)]
      simp only [hpk]
      rw [if_neg (not_lt.2 hlab)]
      split
      · exact ⟨rfl, fun r h => (by cases h)⟩
      · split
        · exact ⟨rfl, fun r h => (by cases h)⟩
        · have hrun : ∀ (t : DudeDec σ Λ) (b : List Bool) (l : Nat), (t.predict c b l).1.running = t.running := by
            intro t b l
            unfold DudeDec.predict
            split
            · simp only
              split <;> rfl
            · rfl
          split
          · exact ⟨hrun _ _ _, fun r h => (by cases h)⟩
          · refine ⟨hrun _ _ _, fun r hr => ?_⟩
            cases hr
            rfl
    refine ⟨fun hn hc => ?_, fun hn => ?_⟩
    · exact gen s.cls _ _ (by rw [pickLabel, if_pos hn, hc]; rfl) (Int.emod_nonneg _ (by omega))
    · exact (gen s.cls s.running 0 (by rw [pickLabel, if_neg (by omega)]) le_rfl).2
  have key : ∀ (words : List (List ℝ)) (s : DudeDec σ Λ) (k i : Nat) (r : DudeOut),
      (∀ w ∈ words, ∀ j ∈ modelBitsIdx c.infoIdx c.modelLength, j < w.length) →
      ((s.run c cls ldpc words).2.map DudeStep.result)[i]? = some (.ok r) →
      (1 < c.nClusters → c.cluster = false → (s.running + 1) % c.nClusters = ((k % c.nClusters : Nat) : Int) →
        r.label = (((k + i) % c.nClusters : Nat) : Int)) ∧ (c.nClusters ≤ 1 → r.label = 0) := by
    intro words
    induction words with
    | nil => intro s k i r _ h; simp [DudeDec.run] at h
    | cons w rest ih =>
      intro s k i r hcov h
      obtain ⟨s1, s2⟩ := step s w (hcov w (List.mem_cons_self ..))
      simp only [DudeDec.run, List.map_cons] at h
      cases i with
      | zero =>
        simp only [List.getElem?_cons_zero, Option.some.injEq] at h
        refine ⟨fun hn hc hk => ?_, fun hn => s2 hn r h⟩
        rw [(s1 hn hc).2 r h, hk]; rfl
      | succ i =>
        simp only [List.getElem?_cons_succ] at h
        obtain ⟨i1, i2⟩ := ih (s.decode c cls ldpc w).state (k + 1) i r
          (fun w' hw' => hcov w' (List.mem_cons_of_mem _ hw')) h
        refine ⟨fun hn hc hk => ?_, i2⟩
        rw [i1 hn hc ?_]
        · congr 2; omega
        · rw [(s1 hn hc).1, hk]
          push_cast
          rw [Int.emod_add_emod]
  have hs : s0.running = -1 := by
    unfold DudeDec.new at hnew
    split at hnew
    · cases hnew
    · cases hnew; rfl
  obtain ⟨k1, k2⟩ := key words s0 0 i out hcov h
  refine ⟨fun hn hc => ?_, k2⟩
  rw [k1 hn hc (by rw [hs]; simp), Nat.zero_add]

/-- C72. The constructor raises exactly for a flip probability of one half (with at least one model bit and cluster). -/
theorem c72_constructor (c : DudeCfg) (cs : σ) (ls : Λ) :
    (c.bitFlip = 1 / 2 ∧ 0 < c.modelLength ∧ 0 < c.nClusters → Raises (DudeDec.new c cs ls) .linAlgError) ∧
    (¬ (c.bitFlip = 1 / 2 ∧ 0 < c.modelLength ∧ 0 < c.nClusters) → Returns (DudeDec.new c cs ls)) := by
  unfold DudeDec.new
  refine ⟨fun h => ?_, fun h => ?_⟩
  · rw [if_pos h]
  · rw [if_neg h]; exact ⟨_, rfl⟩

/-- A concrete decoder: two information bits, the first one modelled, one cluster, context length 2. -/
noncomputable def dudeExample : DudeCfg :=
  { modelLength := 1, infoIdx := [true, true, false], clipping := 2, bitFlip := 1 / 10, context := 2, center := 40,
    slope := 7 / 20, nClusters := 1, cluster := false }

/-- The hypotheses of the theorems above are met: the second word of a cluster is decoded with the label 0, and the first
word of that cluster is its history. -/
example (ldpc : Ldpc Unit) (cls : Labeler Unit) : ∃ s0 : DudeDec Unit Unit, DudeDec.new dudeExample () () = .ok s0 ∧
    0 ≤ dudeExample.bitFlip ∧ dudeExample.bitFlip < 1 / 2 ∧ Prefixed dudeExample ∧
    ∃ out, ((s0.run dudeExample cls ldpc [[1, 1, 1]]).1.decode dudeExample cls ldpc [-1, 1, 1]).result = .ok out ∧
      out.label = 0 ∧ ownWords 0 [[1, 1, 1]] (s0.run dudeExample cls ldpc [[1, 1, 1]]).2 = [[1, 1, 1]] := by
  obtain ⟨s0, hnew⟩ := (c72_constructor (σ := Unit) (Λ := Unit) dudeExample () ()).2 (by norm_num [dudeExample])
  have hp : Prefixed dudeExample := Or.inr (by simp [dudeExample])
  have h0 : 0 ≤ dudeExample.bitFlip := by norm_num [dudeExample]
  have hf : dudeExample.bitFlip < 1 / 2 := by norm_num [dudeExample]
  have hk : 1 ≤ dudeExample.context := by simp [dudeExample]
  have hm : 0 < dudeExample.modelLength := Nat.one_pos
  have hn : dudeExample.nClusters = 1 := rfl
  have ret : ∀ (words : List (List ℝ)) (ch : List ℝ), (∀ w ∈ words, 1 ≤ w.length) → 1 ≤ ch.length →
      ∃ out, ((s0.run dudeExample cls ldpc words).1.decode dudeExample cls ldpc ch).result = .ok out := by
    intro words ch hw hch
    exact c72_returns h0 hf hk hm hp (by rw [hn]) cls ldpc () () s0 hnew words hw ch hch (by rw [hn]; omega)
  have lab : ∀ (words : List (List ℝ)) (ch : List ℝ) (out : DudeOut), (∀ w ∈ words, 1 ≤ w.length) → 1 ≤ ch.length →
      ((s0.run dudeExample cls ldpc words).1.decode dudeExample cls ldpc ch).result = .ok out → out.label = 0 := by
    intro words ch out hw hch hr
    have happ : ∀ (ws : List (List ℝ)) (s : DudeDec Unit Unit), (s.run dudeExample cls ldpc (ws ++ [ch])).2 =
        (s.run dudeExample cls ldpc ws).2 ++ [(s.run dudeExample cls ldpc ws).1.decode dudeExample cls ldpc ch] := by
      intro ws
      induction ws with
      | nil => intro s; simp [DudeDec.run]
      | cons w ws ih => intro s; simp [DudeDec.run, ih]
    have hlen : ∀ (ws : List (List ℝ)) (s : DudeDec Unit Unit), (s.run dudeExample cls ldpc ws).2.length = ws.length := by
      intro ws
      induction ws with
      | nil => intro s; simp [DudeDec.run]
      | cons w ws ih => intro s; simp [DudeDec.run, ih]
    refine (c72_round_robin cls ldpc () () s0 hnew (words ++ [ch]) ?_ words.length out ?_).2 (by rw [hn])
    · intro w hw' j hj
      rw [(prefixed_iff _).1 hp] at hj
      have : j < 1 := List.mem_range.1 hj
      rcases List.mem_append.1 hw' with h | h
      · have := hw w h; omega
      · rw [List.mem_singleton.1 h]; omega
    · rw [happ, List.map_append, List.getElem?_append_right (by simp [hlen])]
      simp [hlen, hr]
  obtain ⟨out, hout⟩ := ret [[1, 1, 1]] [-1, 1, 1] (by simp) (by simp)
  obtain ⟨out1, hout1⟩ := ret [] [1, 1, 1] (by simp) (by simp)
  have hl1 := lab [] [1, 1, 1] out1 (by simp) (by simp) hout1
  refine ⟨s0, hnew, h0, hf, hp, out, hout, lab _ _ out (by simp) (by simp) hout, ?_⟩
  simp only [DudeDec.run] at hout1
  simp [DudeDec.run, ownWords, hout1, hl1]

end NR
