import Verif.Spec.Weighted
import Verif.Props.C64
import Mathlib.Data.Nat.GCD.Basic
/-
C65: the Bayesian counters of the weighted decoder.
-/
namespace NR
open Spec

variable {Λ : Type}

/-- Counters: as many for zeros as for ones, all positive. -/
structure Counters (n : Nat) (ones zeros : List Nat) : Prop where
  lenO : ones.length = n
  lenZ : zeros.length = n
  posO : ∀ x ∈ ones, 1 ≤ x
  posZ : ∀ x ∈ zeros, 1 ≤ x

theorem zipWith_getD {α β γ : Type} (f : α → β → γ) (a : List α) (b : List β) (da : α) (db : β) (dc : γ)
    (h : a.length = b.length) (j : Nat) (hj : j < a.length) :
    (List.zipWith f a b).getD j dc = f (a.getD j da) (b.getD j db) := by
  rw [List.getD_eq_getElem?_getD, List.getD_eq_getElem?_getD, List.getD_eq_getElem?_getD, List.getElem?_zipWith,
    List.getElem?_eq_getElem hj, List.getElem?_eq_getElem (h ▸ hj)]
  rfl

theorem countBits_spec {n : Nat} {ones zeros : List Nat} (h : Counters n ones zeros) {bits : List Bool}
    (hb : bits.length = n) :
    Counters n (countBits ones zeros bits).1 (countBits ones zeros bits).2 ∧
    ∀ j < n, (countBits ones zeros bits).1.getD j 0 = ones.getD j 0 + (if bits.getD j false then 1 else 0) ∧
      (countBits ones zeros bits).2.getD j 0 = zeros.getD j 0 + (if bits.getD j false then 0 else 1) := by
  obtain ⟨h1, h2, h3, h4⟩ := h
  refine ⟨⟨by simp [countBits, h1, hb], by simp [countBits, h2, hb], ?_, ?_⟩, ?_⟩
  · intro x hx
    obtain ⟨i, hi, rfl⟩ := List.getElem_of_mem hx
    simp only [countBits, List.getElem_zipWith]
    have := h3 _ (List.getElem_mem (l := ones) (n := i) (by simp [countBits] at hi; omega))
    omega
  · intro x hx
    obtain ⟨i, hi, rfl⟩ := List.getElem_of_mem hx
    simp only [countBits, List.getElem_zipWith]
    have := h4 _ (List.getElem_mem (l := zeros) (n := i) (by simp [countBits] at hi; omega))
    omega
  · intro j hj
    unfold countBits
    rw [zipWith_getD _ ones bits 0 false 0 (by omega) j (by omega), zipWith_getD _ zeros bits 0 false 0 (by omega) j (by omega)]
    cases bits.getD j false <;> simp

theorem scale_total {o z w : Nat} (ho : 1 ≤ o) (hz : 1 ≤ z) (hlt : o + z < w) : w ≤ o * (w / o + z) + z * (w / o + z) := by
  have h1 := Nat.div_add_mod w o
  have h2 := Nat.mod_lt w ho
  have h3 : 1 ≤ w / o := Nat.div_pos (by omega) ho
  have h4 : 1 * 1 ≤ z * (w / o) := Nat.mul_le_mul hz h3
  have h5 : o * 1 ≤ o * z := Nat.mul_le_mul_left _ hz
  rw [Nat.mul_add]
  omega

/-- What a rescaling does to positive counters. -/
theorem rescale_spec {n w : Nat} (hn : 0 < n) {ones zeros : List Nat} (h : Counters n ones zeros) :
    ∃ ones' zeros', rescale w ones zeros = .ok (ones', zeros') ∧ Counters n ones' zeros' ∧
      (∀ j, ones'.getD j 0 * zeros.getD j 0 = ones.getD j 0 * zeros'.getD j 0) ∧
      (ones.getD 0 0 + zeros.getD 0 0 ≤ 2 * w → ones' = ones ∧ zeros' = zeros) ∧
      (2 * w < ones.getD 0 0 + zeros.getD 0 0 → w ≤ ones'.getD 0 0 + zeros'.getD 0 0) := by
  obtain ⟨h1, h2, h3, h4⟩ := h
  obtain ⟨o0, os, rfl⟩ : ∃ o os, ones = o :: os := by
    cases ones with
    | nil => simp at h1; omega
    | cons o os => exact ⟨o, os, rfl⟩
  obtain ⟨z0, zs, rfl⟩ : ∃ o os, zeros = o :: os := by
    cases zeros with
    | nil => simp at h2; omega
    | cons o os => exact ⟨o, os, rfl⟩
  unfold rescale
  simp only [List.getD_cons_zero]
  by_cases hbig : 2 * w < o0 + z0
  swap
  · rw [if_neg hbig]
    exact ⟨_, _, rfl, ⟨h1, h2, h3, h4⟩, fun _ => rfl, fun _ => ⟨rfl, rfl⟩, fun h => absurd h hbig⟩
  rw [if_pos hbig]
  generalize hO : o0 :: os = ones at *
  generalize hZ : z0 :: zs = zeros at *
  have hg0 : ones.getD 0 0 = o0 := by rw [← hO]; rfl
  have hz0 : zeros.getD 0 0 = z0 := by rw [← hZ]; rfl
  set g := List.zipWith Nat.gcd ones zeros with hg
  have hgl : g.length = n := by simp [hg, h1, h2]
  set ones' := List.zipWith (· / ·) ones g with hones'
  set zeros' := List.zipWith (· / ·) zeros g with hzeros'
  have hpos : ∀ j < n, 1 ≤ ones.getD j 0 ∧ 1 ≤ zeros.getD j 0 := by
    intro j hj
    rw [List.getD_eq_getElem?_getD, List.getD_eq_getElem?_getD, List.getElem?_eq_getElem (h1 ▸ hj),
      List.getElem?_eq_getElem (h2 ▸ hj)]
    exact ⟨h3 _ (List.getElem_mem _), h4 _ (List.getElem_mem _)⟩
  have hat : ∀ j < n, ones'.getD j 0 = ones.getD j 0 / Nat.gcd (ones.getD j 0) (zeros.getD j 0) ∧
      zeros'.getD j 0 = zeros.getD j 0 / Nat.gcd (ones.getD j 0) (zeros.getD j 0) := by
    intro j hj
    rw [hones', hzeros', zipWith_getD _ ones g 0 0 0 (by omega) j (by omega),
      zipWith_getD _ zeros g 0 0 0 (by omega) j (by omega), hg, zipWith_getD _ ones zeros 0 0 0 (by omega) j (by omega)]
    exact ⟨rfl, rfl⟩
  have hl1 : ones'.length = n := by simp [hones', h1, hgl]
  have hl2 : zeros'.length = n := by simp [hzeros', h2, hgl]
  have hpos' : ∀ j < n, 1 ≤ ones'.getD j 0 ∧ 1 ≤ zeros'.getD j 0 := by
    intro j hj
    obtain ⟨p1, p2⟩ := hpos j hj
    rw [(hat j hj).1, (hat j hj).2]
    have hgp : 0 < Nat.gcd (ones.getD j 0) (zeros.getD j 0) := Nat.gcd_pos_of_pos_left _ p1
    exact ⟨Nat.div_pos (Nat.gcd_le_left _ p1) hgp, Nat.div_pos (Nat.gcd_le_right _ p2) hgp⟩
  have hmem : ∀ (l : List Nat), l.length = n → (∀ j < n, 1 ≤ l.getD j 0) → ∀ x ∈ l, 1 ≤ x := by
    intro l hl hp x hx
    obtain ⟨i, hi, rfl⟩ := List.getElem_of_mem hx
    have := hp i (hl ▸ hi)
    rwa [List.getD_eq_getElem?_getD, List.getElem?_eq_getElem hi] at this
  have hratio : ∀ j, ones'.getD j 0 * zeros.getD j 0 = ones.getD j 0 * zeros'.getD j 0 := by
    intro j
    by_cases hj : j < n
    · rw [(hat j hj).1, (hat j hj).2]
      have d1 := Nat.gcd_dvd_left (ones.getD j 0) (zeros.getD j 0)
      have d2 := Nat.gcd_dvd_right (ones.getD j 0) (zeros.getD j 0)
      rw [← Nat.mul_div_assoc _ d2, Nat.div_mul_right_comm d1]
    · rw [List.getD_eq_getElem?_getD, List.getElem?_eq_none (by omega), List.getD_eq_getElem?_getD (l := ones),
        List.getElem?_eq_none (by omega)]
      simp
  have hc' : Counters n ones' zeros' :=
    ⟨hl1, hl2, hmem _ hl1 fun j hj => (hpos' j hj).1, hmem _ hl2 fun j hj => (hpos' j hj).2⟩
  have hh : ∀ l : List Nat, l.headD 0 = l.getD 0 0 := fun l => by cases l <;> rfl
  have hnb : ¬ (ones.getD 0 0 + zeros.getD 0 0 ≤ 2 * w) := by omega
  simp only [hh]
  split
  · rename_i hlt
    set m := w / ones'.getD 0 0 + zeros'.getD 0 0 with hm
    obtain ⟨p1, p2⟩ := hpos' 0 hn
    have hmp : 1 ≤ m := le_trans p2 (Nat.le_add_left _ _)
    have hgm : ∀ (l : List Nat) (j : Nat), (l.map (· * m)).getD j 0 = l.getD j 0 * m := by
      intro l j
      rw [List.getD_eq_getElem?_getD, List.getD_eq_getElem?_getD, List.getElem?_map]
      cases l[j]? <;> simp
    refine ⟨_, _, rfl, ⟨by simp [hl1], by simp [hl2], ?_, ?_⟩, fun j => ?_, fun h => absurd h (by omega), fun _ => ?_⟩
    · intro x hx
      obtain ⟨y, hy, rfl⟩ := List.mem_map.1 hx
      exact Nat.mul_pos (hc'.posO y hy) hmp
    · intro x hx
      obtain ⟨y, hy, rfl⟩ := List.mem_map.1 hx
      exact Nat.mul_pos (hc'.posZ y hy) hmp
    · rw [hgm, hgm]
      have := hratio j
      calc _ = (ones'.getD j 0 * zeros.getD j 0) * m := by ring
        _ = _ := by rw [this]; ring
    · rw [hgm, hgm]
      exact scale_total p1 p2 hlt
  · rename_i hge
    exact ⟨_, _, rfl, hc', hratio, fun h => absurd h (by omega), fun _ => by omega⟩

theorem corrected_range (f v : ℝ) : 0 ≤ corrected f v ∧ corrected f v ≤ 1 := by
  unfold corrected npClip
  exact ⟨le_min zero_le_one (le_max_left _ _), min_le_left _ _⟩

/-- Learning a sequence of words. -/
noncomputable def learnAll (c : WbdCfg) (h : Half) (ws : List (List Bool)) : Half :=
  ws.foldl (fun h w => (h.update c w).1) h

theorem learnAll_snoc (c : WbdCfg) (h : Half) (ws : List (List Bool)) (b : List Bool) :
    learnAll c h (ws ++ [b]) = ((learnAll c h ws).update c b).1 := by
  simp [learnAll, List.foldl_append]

/-- The state of a Bayesian model that has learned the words `ws`. -/
structure BayesInv (c : WbdCfg) (h : Half) (ws : List (List Bool)) : Prop where
  lens : ∀ x ∈ ws, x.length = c.modelLength
  counters : Counters c.modelLength h.ones h.zeros
  floor : min (c.window.getD 0) (ws.length + 2) ≤ h.ones.getD 0 0 + h.zeros.getD 0 0
  exact : ws.length + 2 ≤ 2 * c.window.getD 0 → ∀ j < c.modelLength,
    h.ones.getD j 0 = countAt true ws j + 1 ∧ h.zeros.getD j 0 = countAt false ws j + 1
  fresh : ws = [] → h.dist = []
  dist : ws ≠ [] → h.dist = (List.range c.modelLength).map fun (j : Nat) =>
    [1 - corrected c.bitFlip (betaMode (h.ones.getD j 0) (h.zeros.getD j 0)),
     corrected c.bitFlip (betaMode (h.ones.getD j 0) (h.zeros.getD j 0))]
  ents : h.ents = rowEntropies h.dist
  hist : h = learnAll c (Half.new c) ws

theorem countAt_total (ws : List (List Bool)) (j : Nat) : countAt true ws j + countAt false ws j = ws.length := by
  unfold countAt
  have := List.length_eq_countP_add_countP (fun w : List Bool => w.getD j false == true) (l := ws)
  rw [this]
  congr 2
  funext w
  cases w.getD j false <;> rfl

theorem countAt_snoc (v : Bool) (ws : List (List Bool)) (b : List Bool) (j : Nat) :
    countAt v (ws ++ [b]) j = countAt v ws j + if b.getD j false = v then 1 else 0 := by
  simp only [countAt, List.countP_append, List.countP_cons, List.countP_nil, Nat.zero_add]
  congr 1
  cases b.getD j false <;> cases v <;> rfl

theorem bayes_update {c : WbdCfg} (hb : c.bayes = true) (hm : 0 < c.modelLength) {h : Half} {ws : List (List Bool)}
    (hi : BayesInv c h ws) {bits : List Bool} (hl : bits.length = c.modelLength) :
    ∃ h', h.update c bits = (h', .ok ()) ∧ BayesInv c h' (ws ++ [bits]) ∧
      ∀ j < c.modelLength, h'.ones.getD j 0 * (h.zeros.getD j 0 + if bits.getD j false then 0 else 1) =
        (h.ones.getD j 0 + if bits.getD j false then 1 else 0) * h'.zeros.getD j 0 := by
  obtain ⟨hc1, hat⟩ := countBits_spec hi.counters hl
  obtain ⟨o, z, hr, hc2, hratio, hsame, hfl⟩ := rescale_spec (w := c.window.getD 0) hm hc1
  set p1 : List ℝ := List.zipWith (fun o z => corrected c.bitFlip (betaMode o z)) o z with hp1
  have hp1l : p1.length = c.modelLength := by simp [hp1, hc2.lenO, hc2.lenZ]
  have hpd : p1.map (fun (p : ℝ) => [1 - p, p]) = (List.range c.modelLength).map fun (j : Nat) =>
      [1 - corrected c.bitFlip (betaMode (o.getD j 0) (z.getD j 0)),
       corrected c.bitFlip (betaMode (o.getD j 0) (z.getD j 0))] := by
    apply List.ext_getElem
    · simp [hp1l]
    · intro j h1 h2
      have hj : j < c.modelLength := by simpa using h2
      simp only [List.getElem_map, List.getElem_range, hp1, List.getElem_zipWith]
      rw [List.getD_eq_getElem?_getD, List.getD_eq_getElem?_getD,
        List.getElem?_eq_getElem (by rw [hc2.lenO]; exact hj), List.getElem?_eq_getElem (by rw [hc2.lenZ]; exact hj)]
      rfl
  have hrange : ¬ ∃ p ∈ p1, p > 1 ∨ p < 0 := by
    rintro ⟨p, hp, h⟩
    obtain ⟨i, hi, rfl⟩ := List.getElem_of_mem hp
    simp only [hp1, List.getElem_zipWith] at h
    rcases h with h | h
    · exact absurd (corrected_range _ _).2 (not_le.2 h)
    · exact absurd (corrected_range _ _).1 (not_le.2 h)
  have hne : p1 ≠ [] := by
    intro h
    rw [h] at hp1l
    simp at hp1l
    omega
  have hupd : h.update c bits = ({ h with ones := o, zeros := z, var := .val (betaVariance c.bitFlip o z),
                                          dist := p1.map fun (p : ℝ) => [1 - p, p],
                                          ents := rowEntropies (p1.map fun (p : ℝ) => [1 - p, p]) }, .ok ()) := by
    unfold Half.update
    rw [if_neg (by simp [hl]), hb, if_pos rfl]
    simp only [hr]
    unfold Half.check
    rw [if_neg hne, if_neg hrange]
  refine ⟨{ h with ones := o, zeros := z, var := .val (betaVariance c.bitFlip o z),
                   dist := p1.map fun (p : ℝ) => [1 - p, p], ents := rowEntropies (p1.map fun (p : ℝ) => [1 - p, p]) },
    ?_, ⟨?_, hc2, ?_, ?_, ?_, fun _ => hpd, rfl, ?_⟩, ?_⟩
  · exact hupd
  · intro x hx
    rcases List.mem_append.1 hx with hx | hx
    · exact hi.lens x hx
    · rw [List.mem_singleton.1 hx]; exact hl
  · have h0 := hat 0 hm
    have hf := hi.floor
    simp only [List.length_append, List.length_singleton]
    by_cases hbig : 2 * c.window.getD 0 <
        (countBits h.ones h.zeros bits).1.getD 0 0 + (countBits h.ones h.zeros bits).2.getD 0 0
    · have := hfl hbig
      omega
    · obtain ⟨rfl, rfl⟩ := hsame (by omega)
      rw [h0.1, h0.2]
      split <;> omega
  · intro hle j hj
    simp only [List.length_append, List.length_singleton] at hle
    have he := hi.exact (by omega)
    obtain ⟨e1, e2⟩ := he 0 hm
    have ht := countAt_total ws 0
    have h0 := hat 0 hm
    obtain ⟨rfl, rfl⟩ := hsame (by rw [h0.1, h0.2]; split <;> omega)
    obtain ⟨a1, a2⟩ := hat j hj
    obtain ⟨f1, f2⟩ := he j hj
    rw [a1, a2, f1, f2, countAt_snoc, countAt_snoc]
    cases bits.getD j false <;> simp
  · intro h
    simp at h
  · rw [learnAll_snoc, ← hi.hist, hupd]
  · intro j hj
    have := hratio j
    rw [(hat j hj).1, (hat j hj).2] at this
    exact this

theorem takeIdx_bitsAt {idx : List Nat} {a r : List Bool} (h : takeIdx a idx = .ok r) :
    r = bitsAt idx a ∧ r.length = idx.length := ⟨(takeIdx_ok h).2.1, (takeIdx_ok h).2.2⟩

open Classical in
/-- The end of a call: it raises before learning, or learns as specified and then returns (or raises) its output. -/
theorem wbd_finish {c : WbdCfg} (s : Wbd Λ) (handed : List LdpcIn) (o : LdpcOut) (first : Bool) (word : List ℝ) :
    (∃ e, s.finish c handed o first word = ⟨s, handed, .error e⟩) ∨
    ∃ (rec : Bool) (other : List Bool) (k : Nat),
      (bitsAt c.idx o.estimate).length = c.idx.length ∧ other.length = c.idx.length ∧
      (rec = true ↔ Recovered (bytesOf (bitsAt c.idx o.estimate))) ∧
      other = (if first = true ∨ Recovered (bytesOf (bitsAt c.idx o.estimate)) then bitsAt c.idx o.estimate
        else bitsAt c.idx (hardWord word)) ∧
      s.finish c handed o first word = (match s.learn c rec (bitsAt c.idx o.estimate) other with
        | (s, .error e) => ⟨s, handed, .error e⟩
        | (s, .ok _) => ⟨s, handed, s.output c o k⟩) := by
  unfold Wbd.finish
  cases htk : takeIdx o.estimate c.idx with
  | error e => exact Or.inl ⟨e, rfl⟩
  | ok bits =>
    obtain ⟨hbits, hlen⟩ := takeIdx_bitsAt htk
    obtain ⟨seg, hseg, _⟩ := c20_never_raises (packBits bits)
    have hsegB := packBits_eq bits ▸ hseg
    simp only [hseg]
    have hu := unknown_iff _ _ hsegB
    rw [← hbits]
    by_cases hf : first = true ∨ Recovered (bytesOf bits)
    · have : (first || decide (MsgPart.unknown ∉ seg.parts)) = true := by
        rcases hf with hf | hf
        · simp [hf]
        · simp [hu.2 hf]
      rw [if_pos this]
      right
      exact ⟨decide (MsgPart.unknown ∉ seg.parts), bits, seg.struct.length, hlen, hlen,
        by rw [decide_eq_true_iff]; exact hu, by rw [if_pos hf], rfl⟩
    · have : ¬ (first || decide (MsgPart.unknown ∉ seg.parts)) = true := by
        rw [Bool.or_eq_true, decide_eq_true_iff, hu]
        exact hf
      rw [if_neg this]
      cases htk2 : takeIdx (hardBits word) c.idx with
      | error e => exact Or.inl ⟨e, rfl⟩
      | ok other =>
        obtain ⟨h1, h2⟩ := takeIdx_bitsAt htk2
        right
        exact ⟨decide (MsgPart.unknown ∉ seg.parts), other, seg.struct.length, hlen, h2,
          by rw [decide_eq_true_iff]; exact hu, by rw [if_neg hf, h1, hardBits_eq], rfl⟩

theorem maskIdx_ents {c : WbdCfg} {ents : List ℝ} (he : ents = [] ∨ ents.length = c.idx.length) :
    ∃ st, maskIdx c.idx (structuralMask c.threshold ents) = .ok st := by
  unfold maskIdx
  rcases he with he | he
  · rw [he]; exact ⟨[], by simp [structuralMask]⟩
  · split
    · exact ⟨_, rfl⟩
    · rw [if_neg (by simp [structuralMask, he])]; exact ⟨_, rfl⟩

theorem bayes_ents {c : WbdCfg} {h : Half} {ws : List (List Bool)} (hi : BayesInv c h ws)
    (hx : c.idx.length = c.modelLength) : h.ents = [] ∨ h.ents.length = c.idx.length := by
  rw [hi.ents]
  by_cases hw : ws = []
  · left; rw [hi.fresh hw]; rfl
  · right; rw [hi.dist hw, rowEntropies]; simp [hx]

theorem wbd_output {c : WbdCfg} (s : Wbd Λ) (o : LdpcOut) (k : Nat)
    (ha : s.a.ents = [] ∨ s.a.ents.length = c.idx.length) (hb : s.b.ents = [] ∨ s.b.ents.length = c.idx.length) :
    ∃ out, s.output c o k = .ok out ∧ out.estimate = o.estimate ∧ out.aDist = s.a.dist ∧ out.bDist = s.b.dist := by
  obtain ⟨x, hx⟩ := maskIdx_ents (c := c) ha
  obtain ⟨y, hy⟩ := maskIdx_ents (c := c) hb
  unfold Wbd.output
  rw [hx, hy]
  exact ⟨_, rfl, rfl, rfl, rfl⟩

theorem goodWords_one (idx : List Nat) (e : WbdEvent) (out : WbdOut) (h : e.result = .ok out) :
    goodWords idx [e] = (recoveredWord idx out.estimate).toList := by
  simp only [goodWords, List.filterMap_cons, List.filterMap_nil, h]
  cases recoveredWord idx out.estimate <;> rfl

theorem allWords_one (idx : List Nat) (e : WbdEvent) (out : WbdOut) (h : e.result = .ok out) :
    (e.attempts = 1 ∨ Recovered (bytesOf (bitsAt idx out.estimate)) → allWords idx [e] = [bitsAt idx out.estimate]) ∧
    (¬ (e.attempts = 1 ∨ Recovered (bytesOf (bitsAt idx out.estimate))) → allWords idx [e] = [bitsAt idx (hardWord e.word)]) := by
  obtain ⟨w, k, r⟩ := e
  cases h
  constructor
  · intro h
    simp only [allWords, List.filterMap_cons, List.filterMap_nil]
    rw [if_pos h]
  · intro h
    simp only [allWords, List.filterMap_cons, List.filterMap_nil]
    rw [if_neg h]

/-- One call of a Bayesian decoder. -/
theorem bayes_decode {c : WbdCfg} (hb : c.bayes = true) (hm : 0 < c.modelLength) (hx : c.idx.length = c.modelLength)
    (ldpc : Ldpc Λ) (s : Wbd Λ) (word : List ℝ) {wa wb : List (List Bool)} (ha : BayesInv c s.a wa) (hbb : BayesInv c s.b wb) :
    BayesInv c (s.decode c ldpc word).state.a
      (wa ++ goodWords c.idx [⟨word, (s.decode c ldpc word).handed.length, (s.decode c ldpc word).result⟩]) ∧
    BayesInv c (s.decode c ldpc word).state.b
      (wb ++ allWords c.idx [⟨word, (s.decode c ldpc word).handed.length, (s.decode c ldpc word).result⟩]) := by
  have fin : ∀ (l : Λ) (handed : List LdpcIn) (o : LdpcOut) (first : Bool), (first = true ↔ handed.length = 1) →
      BayesInv c (({ s with ldpc := l } : Wbd Λ).finish c handed o first word).state.a
        (wa ++ goodWords c.idx [⟨word, (({ s with ldpc := l } : Wbd Λ).finish c handed o first word).handed.length,
          (({ s with ldpc := l } : Wbd Λ).finish c handed o first word).result⟩]) ∧
      BayesInv c (({ s with ldpc := l } : Wbd Λ).finish c handed o first word).state.b
        (wb ++ allWords c.idx [⟨word, (({ s with ldpc := l } : Wbd Λ).finish c handed o first word).handed.length,
          (({ s with ldpc := l } : Wbd Λ).finish c handed o first word).result⟩]) := by
    intro l handed o first hfirst
    rcases wbd_finish (c := c) ({ s with ldpc := l } : Wbd Λ) handed o first word with
      ⟨e, he⟩ | ⟨rec, other, k, hl1, hl2, hrec, hoth, hfin⟩
    · rw [he]
      simpa [goodWords, allWords] using ⟨ha, hbb⟩
    · cases rec with
      | true =>
        obtain ⟨a', hu1, hia, _⟩ := bayes_update hb hm ha (hl1.trans hx)
        obtain ⟨b', hu2, hib, _⟩ := bayes_update hb hm hbb (hl1.trans hx)
        have hR := hrec.1 rfl
        have hlearn : ({ s with ldpc := l } : Wbd Λ).learn c true (bitsAt c.idx o.estimate) other =
            (⟨a', b', l⟩, .ok ()) := by
          simp only [Wbd.learn, Wbd.updateA, Wbd.updateB, hu1, hu2, if_true]
        rw [hlearn] at hfin
        obtain ⟨out, ho, hest, _⟩ := wbd_output (c := c) (⟨a', b', l⟩ : Wbd Λ) o k (bayes_ents hia hx) (bayes_ents hib hx)
        simp only [ho] at hfin
        rw [hfin]
        refine ⟨?_, ?_⟩
        · rw [goodWords_one _ _ out rfl, hest, recoveredWord, if_pos hR]; exact hia
        · rw [(allWords_one _ _ out rfl).1 (Or.inr (hest ▸ hR)), hest]; exact hib
      | false =>
        have hR : ¬ Recovered (bytesOf (bitsAt c.idx o.estimate)) := fun h => by simpa using hrec.2 h
        obtain ⟨b', hu2, hib, _⟩ := bayes_update hb hm hbb (hl2.trans hx)
        have hlearn : ({ s with ldpc := l } : Wbd Λ).learn c false (bitsAt c.idx o.estimate) other =
            (⟨s.a, b', l⟩, .ok ()) := by
          simp [Wbd.learn, Wbd.updateB, hu2]
        rw [hlearn] at hfin
        obtain ⟨out, ho, hest, _⟩ := wbd_output (c := c) (⟨s.a, b', l⟩ : Wbd Λ) o k (bayes_ents ha hx) (bayes_ents hib hx)
        simp only [ho] at hfin
        rw [hfin]
        refine ⟨?_, ?_⟩
        · rw [goodWords_one _ _ out rfl, hest, recoveredWord, if_neg hR]; simpa using ha
        · by_cases hf : first = true
          · rw [(allWords_one _ _ out rfl).1 (Or.inl (hfirst.1 hf)), hest]
            rw [if_pos (Or.inl hf)] at hoth
            exact hoth ▸ hib
          · have hnr : ¬ (first = true ∨ Recovered (bytesOf (bitsAt c.idx o.estimate))) := not_or.2 ⟨hf, hR⟩
            rw [(allWords_one _ _ out rfl).2 (by rw [hest]; exact not_or.2 ⟨fun h => hf (hfirst.2 h), hR⟩)]
            rw [if_neg hnr] at hoth
            exact hoth ▸ hib
  unfold Wbd.decode
  rcases ldpc s.ldpc (.llr word) with ⟨l', o⟩
  simp only
  split
  · exact fin l' _ o true (by simp)
  · split
    · simpa [goodWords, allWords] using ⟨ha, hbb⟩
    · rename_i w' _
      rcases ldpc l' (.llr w') with ⟨l'', o2⟩
      exact fin l'' _ o2 false (by simp)

theorem bayes_new {c : WbdCfg} (hb : c.bayes = true) (hm : 0 < c.modelLength) (hx : c.idx.length = c.modelLength) :
    BayesInv c (Half.new c) [] := by
  unfold Half.new
  rw [if_pos hb]
  have hg : ∀ j < c.modelLength, (List.replicate c.idx.length 1).getD j 0 = 1 := by
    intro j hj
    rw [List.getD_eq_getElem?_getD, List.getElem?_replicate, if_pos (by omega)]; rfl
  refine ⟨by simp, ⟨by simp [hx], by simp [hx], ?_, ?_⟩, ?_, ?_, fun _ => rfl, fun h => absurd rfl h, rfl, ?_⟩
  rotate_right
  · simp only [learnAll, List.foldl_nil, Half.new, if_pos hb]
  · intro x hx; exact (List.eq_of_mem_replicate hx).ge
  · intro x hx; exact (List.eq_of_mem_replicate hx).ge
  · simp only [hg 0 hm, List.length_nil]; omega
  · intro _ j hj
    simp only [hg j hj, countAt, List.countP_nil]
    exact ⟨by trivial, by trivial⟩

theorem wbd_new {c : WbdCfg} {l : Λ} {s : Wbd Λ} (h : Wbd.new c l = .ok s) :
    s = ⟨Half.new c, Half.new c, l⟩ ∧ (c.bayes = true → ∃ w, c.window = some w) := by
  unfold Wbd.new at h
  split at h
  · cases h
  · rename_i hn
    cases h
    refine ⟨rfl, fun hb => ?_⟩
    cases hw : c.window with
    | none => exact absurd ⟨hb, hw⟩ hn
    | some w => exact ⟨w, rfl⟩

/-- A sequence of calls of a Bayesian decoder. -/
theorem bayes_run {c : WbdCfg} (hb : c.bayes = true) (hm : 0 < c.modelLength) (hx : c.idx.length = c.modelLength)
    (ldpc : Ldpc Λ) {l : Λ} {s0 s : Wbd Λ} (h0 : Wbd.new c l = .ok s0) {words : List (List ℝ)} {steps : List (WbdStep Λ)}
    (hr : Wbd.run c ldpc s0 words = (s, steps)) :
    BayesInv c s.a (goodWords c.idx (wbdEvents words steps)) ∧ BayesInv c s.b (allWords c.idx (wbdEvents words steps)) := by
  have key : ∀ (words : List (List ℝ)) (s : Wbd Λ) (wa wb : List (List Bool)), BayesInv c s.a wa → BayesInv c s.b wb →
      BayesInv c (Wbd.run c ldpc s words).1.a (wa ++ goodWords c.idx (wbdEvents words (Wbd.run c ldpc s words).2)) ∧
      BayesInv c (Wbd.run c ldpc s words).1.b (wb ++ allWords c.idx (wbdEvents words (Wbd.run c ldpc s words).2)) := by
    intro words
    induction words with
    | nil => intro s wa wb ha hbb; simpa [Wbd.run, wbdEvents, goodWords, allWords] using ⟨ha, hbb⟩
    | cons w rest ih =>
      intro s wa wb ha hbb
      obtain ⟨h1, h2⟩ := bayes_decode hb hm hx ldpc s w ha hbb
      have h3 := ih _ _ _ h1 h2
      rw [List.append_assoc, List.append_assoc] at h3
      simp only [Wbd.run]
      have e1 : ∀ (e : WbdEvent) (r : List WbdEvent), goodWords c.idx (e :: r) = goodWords c.idx [e] ++ goodWords c.idx r :=
        fun e r => by rw [goodWords, goodWords, goodWords, ← List.filterMap_append, List.singleton_append]
      have e2 : ∀ (e : WbdEvent) (r : List WbdEvent), allWords c.idx (e :: r) = allWords c.idx [e] ++ allWords c.idx r :=
        fun e r => by rw [allWords, allWords, allWords, ← List.filterMap_append, List.singleton_append]
      have e3 : ∀ (st : WbdStep Λ) (r : List (WbdStep Λ)), wbdEvents (w :: rest) (st :: r) =
        ⟨w, st.handed.length, st.result⟩ :: wbdEvents rest r := fun st r => rfl
      rw [e3, e1, e2]
      exact h3
  obtain ⟨rfl, _⟩ := wbd_new h0
  have := key words ⟨Half.new c, Half.new c, l⟩ [] [] (bayes_new hb hm hx) (bayes_new hb hm hx)
  rw [hr] at this
  simpa using this

/-- C65. After any sequence of calls, some of which may raise, and for any LDPC decoder: both models of a Bayesian weighted
decoder have a positive count of ones and of zeros for every model bit. -/
theorem c65_positive {c : WbdCfg} (hb : c.bayes = true) (hm : 0 < c.modelLength) (hx : c.idx.length = c.modelLength)
    (ldpc : Ldpc Λ) {l : Λ} {s0 s : Wbd Λ} (h0 : Wbd.new c l = .ok s0) {words : List (List ℝ)} {steps : List (WbdStep Λ)}
    (hr : Wbd.run c ldpc s0 words = (s, steps)) :
    ∀ h, h = s.a ∨ h = s.b → h.ones.length = c.modelLength ∧ h.zeros.length = c.modelLength ∧
      (∀ n ∈ h.ones, 1 ≤ n) ∧ ∀ n ∈ h.zeros, 1 ≤ n := by
  obtain ⟨ha, hbb⟩ := bayes_run hb hm hx ldpc h0 hr
  rintro h (rfl | rfl)
  · exact ⟨ha.counters.lenO, ha.counters.lenZ, ha.counters.posO, ha.counters.posZ⟩
  · exact ⟨hbb.counters.lenO, hbb.counters.lenZ, hbb.counters.posO, hbb.counters.posZ⟩

/-- C65. The total at the first model bit is at least the configured minimum (`window_length`) once that many words, less
two, were learned; until then it is at least the number of learned words plus two. So it never falls below the minimum by a
rescaling. The good model learns the recovered words, the other one a word per call that returns. -/
theorem c65_floor {c : WbdCfg} (hb : c.bayes = true) (hm : 0 < c.modelLength) (hx : c.idx.length = c.modelLength)
    {w : Nat} (hw : c.window = some w)
    (ldpc : Ldpc Λ) {l : Λ} {s0 s : Wbd Λ} (h0 : Wbd.new c l = .ok s0) {words : List (List ℝ)} {steps : List (WbdStep Λ)}
    (hr : Wbd.run c ldpc s0 words = (s, steps)) :
    min w ((goodWords c.idx (wbdEvents words steps)).length + 2) ≤ s.a.ones.getD 0 0 + s.a.zeros.getD 0 0 ∧
    min w ((allWords c.idx (wbdEvents words steps)).length + 2) ≤ s.b.ones.getD 0 0 + s.b.zeros.getD 0 0 := by
  obtain ⟨ha, hbb⟩ := bayes_run hb hm hx ldpc h0 hr
  have h1 := ha.floor
  have h2 := hbb.floor
  rw [hw] at h1 h2
  exact ⟨h1, h2⟩

theorem betaMode_share {ws : List (List Bool)} (j : Nat) :
    betaMode (countAt true ws j + 1) (countAt false ws j + 1) = oneShare ws j := by
  have ht := countAt_total ws j
  have hc : (ws.countP fun b => b.getD j false) = countAt true ws j := by
    unfold countAt
    congr 1
    funext w
    cases w.getD j false <;> rfl
  unfold betaMode oneShare
  rw [hc, ← ht]
  push_cast
  congr 1 <;> ring

/-- C65. As long as a model has learned at most `2 * window_length - 2` words, nothing is rescaled: its counters are one plus
the numbers of ones and zeros among the learned words, and its probabilities are the channel-corrected shares. -/
theorem c65_exact {c : WbdCfg} (hb : c.bayes = true) (hm : 0 < c.modelLength) (hx : c.idx.length = c.modelLength)
    {w : Nat} (hw : c.window = some w)
    (ldpc : Ldpc Λ) {l : Λ} {s0 s : Wbd Λ} (h0 : Wbd.new c l = .ok s0) {words : List (List ℝ)} {steps : List (WbdStep Λ)}
    (hr : Wbd.run c ldpc s0 words = (s, steps)) (h : Half) (ws : List (List Bool))
    (hh : (h = s.a ∧ ws = goodWords c.idx (wbdEvents words steps)) ∨ (h = s.b ∧ ws = allWords c.idx (wbdEvents words steps)))
    (hle : ws.length + 2 ≤ 2 * w) :
    (∀ j < c.modelLength, h.ones.getD j 0 = countAt true ws j + 1 ∧ h.zeros.getD j 0 = countAt false ws j + 1) ∧
    (ws ≠ [] → h.dist = (List.range c.modelLength).map fun (j : Nat) =>
      [1 - corrected c.bitFlip (oneShare ws j), corrected c.bitFlip (oneShare ws j)]) := by
  obtain ⟨ha, hbb⟩ := bayes_run hb hm hx ldpc h0 hr
  have hi : BayesInv c h ws := by
    rcases hh with ⟨rfl, rfl⟩ | ⟨rfl, rfl⟩
    · exact ha
    · exact hbb
  have he := hi.exact (by rw [hw]; exact hle)
  refine ⟨he, fun hne => ?_⟩
  rw [hi.dist hne]
  refine List.map_congr_left fun j hj => ?_
  obtain ⟨e1, e2⟩ := he j (List.mem_range.1 hj)
  rw [e1, e2, betaMode_share]

/-- C65. The model after any history: no rows before the first learned word, and after it one row `[1 - p, p]` with a
probability `p` per model bit. -/
theorem c65_probabilities {c : WbdCfg} (hb : c.bayes = true) (hm : 0 < c.modelLength) (hx : c.idx.length = c.modelLength)
    (ldpc : Ldpc Λ) {l : Λ} {s0 s : Wbd Λ} (h0 : Wbd.new c l = .ok s0) {words : List (List ℝ)} {steps : List (WbdStep Λ)}
    (hr : Wbd.run c ldpc s0 words = (s, steps)) (h : Half) (ws : List (List Bool))
    (hh : (h = s.a ∧ ws = goodWords c.idx (wbdEvents words steps)) ∨ (h = s.b ∧ ws = allWords c.idx (wbdEvents words steps))) :
    (ws = [] → h.dist = []) ∧ (ws ≠ [] → h.dist.length = c.modelLength) ∧
    (∀ r ∈ h.dist, ∃ p : ℝ, r = [1 - p, p] ∧ 0 ≤ p ∧ p ≤ 1) ∧ h.ents = h.dist.map fun r => scipyEntropy r 2 := by
  obtain ⟨ha, hbb⟩ := bayes_run hb hm hx ldpc h0 hr
  have hi : BayesInv c h ws := by
    rcases hh with ⟨rfl, rfl⟩ | ⟨rfl, rfl⟩
    · exact ha
    · exact hbb
  refine ⟨hi.fresh, fun hne => by rw [hi.dist hne]; simp, ?_, hi.ents⟩
  intro r hr
  by_cases hne : ws = []
  · rw [hi.fresh hne] at hr; simp at hr
  · rw [hi.dist hne] at hr
    obtain ⟨j, _, rfl⟩ := List.mem_map.1 hr
    exact ⟨_, rfl, corrected_range _ _⟩

/-- C65. One update of a Bayesian model with positive counters (any, not only reachable ones) succeeds and keeps them
positive. Either the counts are the old ones plus the word (when the total at the first bit stays within `2 * window_length`),
or they are rescaled: the proportion of ones to zeros at every bit is that of the old counts plus the word, and the total at
the first bit is at least `window_length`. -/
theorem c65_step {c : WbdCfg} (hb : c.bayes = true) (hm : 0 < c.modelLength) {w : Nat} (hw : c.window = some w) (h : Half)
    (hc : Counters c.modelLength h.ones h.zeros) (bits : List Bool) (hl : bits.length = c.modelLength) :
    ∃ h', h.update c bits = (h', .ok ()) ∧ Counters c.modelLength h'.ones h'.zeros ∧
      (h.ones.getD 0 0 + h.zeros.getD 0 0 + 1 ≤ 2 * w → ∀ j < c.modelLength,
        h'.ones.getD j 0 = h.ones.getD j 0 + (if bits.getD j false then 1 else 0) ∧
        h'.zeros.getD j 0 = h.zeros.getD j 0 + (if bits.getD j false then 0 else 1)) ∧
      (2 * w < h.ones.getD 0 0 + h.zeros.getD 0 0 + 1 →
        w ≤ h'.ones.getD 0 0 + h'.zeros.getD 0 0 ∧ ∀ j < c.modelLength,
        h'.ones.getD j 0 * (h.zeros.getD j 0 + if bits.getD j false then 0 else 1) =
          (h.ones.getD j 0 + if bits.getD j false then 1 else 0) * h'.zeros.getD j 0) := by
  obtain ⟨hc1, hat⟩ := countBits_spec hc hl
  obtain ⟨o, z, hr, hc2, hratio, hsame, hfl⟩ := rescale_spec (w := c.window.getD 0) hm hc1
  have hlenp : (List.zipWith (fun o z => corrected c.bitFlip (betaMode o z)) o z).length = c.modelLength := by
    simp [hc2.lenO, hc2.lenZ]
  have hne : List.zipWith (fun o z => corrected c.bitFlip (betaMode o z)) o z ≠ [] := by
    intro h
    rw [h] at hlenp
    simp at hlenp
    omega
  have hrange : ¬ ∃ p ∈ List.zipWith (fun o z => corrected c.bitFlip (betaMode o z)) o z, p > 1 ∨ p < 0 := by
    rintro ⟨p, hp, h⟩
    obtain ⟨i, hi, rfl⟩ := List.getElem_of_mem hp
    simp only [List.getElem_zipWith] at h
    rcases h with h | h
    · exact absurd (corrected_range _ _).2 (not_le.2 h)
    · exact absurd (corrected_range _ _).1 (not_le.2 h)
  have h0 := hat 0 hm
  have htot : (countBits h.ones h.zeros bits).1.getD 0 0 + (countBits h.ones h.zeros bits).2.getD 0 0 =
      h.ones.getD 0 0 + h.zeros.getD 0 0 + 1 := by
    rw [h0.1, h0.2]
    split <;> omega
  have hupd : h.update c bits = Half.check { h with ones := o, zeros := z, var := .val (betaVariance c.bitFlip o z),
                                                      dist := (List.zipWith (fun o z => corrected c.bitFlip (betaMode o z)) o z).map fun (p : ℝ) => [1 - p, p] }
      (List.zipWith (fun o z => corrected c.bitFlip (betaMode o z)) o z) := by
    unfold Half.update
    rw [if_neg (by simp [hl]), hb, if_pos rfl]
    simp only [hr]
  rw [hw, htot] at hsame hfl
  unfold Half.check at hupd
  rw [if_neg hne, if_neg hrange] at hupd
  refine ⟨_, hupd, hc2, fun hle j hj => ?_, fun hlt => ⟨hfl hlt, fun j hj => ?_⟩⟩
  · obtain ⟨rfl, rfl⟩ := hsame hle
    exact hat j hj
  · have := hratio j
    rw [(hat j hj).1, (hat j hj).2] at this
    exact this

/-- C65. A Bayesian decoder whose model bits are not as many as `model_length` cannot be used: every call raises, and nothing
is ever learned. -/
theorem c65_mismatch {c : WbdCfg} (hx : c.idx.length ≠ c.modelLength) (ldpc : Ldpc Λ) (s : Wbd Λ) (words : List (List ℝ)) :
    (Wbd.run c ldpc s words).1.a = s.a ∧ (Wbd.run c ldpc s words).1.b = s.b ∧
    ∀ st ∈ (Wbd.run c ldpc s words).2, ∃ e, st.result = .error e := by
  have fin : ∀ (t : Wbd Λ) (handed : List LdpcIn) (o : LdpcOut) (first : Bool) (word : List ℝ),
      (t.finish c handed o first word).state = t ∧ ∃ e, (t.finish c handed o first word).result = .error e := by
    intro t handed o first word
    rcases wbd_finish (c := c) t handed o first word with ⟨e, he⟩ | ⟨rec, other, k, hl1, hl2, _, _, hfin⟩
    · rw [he]; exact ⟨rfl, e, rfl⟩
    · have hu : ∀ (h : Half) (b : List Bool), b.length = c.idx.length → h.update c b = (h, .error .incorrectBufferLength) := by
        intro h b hb
        unfold Half.update
        rw [if_pos (by omega)]
      have : ∃ e, t.learn c rec (bitsAt c.idx o.estimate) other = (t, .error e) := by
        unfold Wbd.learn Wbd.updateA Wbd.updateB
        simp only [hu t.a _ hl1, hu t.b _ hl2]
        split <;> exact ⟨_, rfl⟩
      obtain ⟨e, he⟩ := this
      rw [hfin, he]
      exact ⟨rfl, e, rfl⟩
  have step : ∀ (t : Wbd Λ) (word : List ℝ), (t.decode c ldpc word).state.a = t.a ∧ (t.decode c ldpc word).state.b = t.b ∧
      ∃ e, (t.decode c ldpc word).result = .error e := by
    intro t word
    unfold Wbd.decode
    rcases ldpc t.ldpc (.llr word) with ⟨l', o⟩
    simp only
    split
    · rw [(fin _ _ _ _ _).1]; exact ⟨rfl, rfl, (fin _ _ _ _ _).2⟩
    · split
      · exact ⟨rfl, rfl, _, rfl⟩
      · rename_i w' _
        rcases ldpc l' (.llr w') with ⟨l'', o2⟩
        simp only
        rw [(fin _ _ _ _ _).1]; exact ⟨rfl, rfl, (fin _ _ _ _ _).2⟩
  induction words generalizing s with
  | nil => exact ⟨rfl, rfl, by simp [Wbd.run]⟩
  | cons w rest ih =>
    simp only [Wbd.run]
    obtain ⟨h1, h2, h3⟩ := step s w
    obtain ⟨i1, i2, i3⟩ := ih (s.decode c ldpc w).state
    refine ⟨i1.trans h1, i2.trans h2, ?_⟩
    intro st hst
    rcases List.mem_cons.1 hst with rfl | hst
    · exact h3
    · exact i3 st hst

/-- C65. The Bayes estimator without a window cannot be constructed. -/
theorem c65_needs_window {c : WbdCfg} (hb : c.bayes = true) (hw : c.window = none) (l : Λ) :
    Wbd.new c l = .error .typeError := by
  unfold Wbd.new
  rw [if_pos ⟨hb, hw⟩]

/-- The update of the counters alone. -/
def bayesStep (w : Nat) (oz : List Nat × List Nat) (bits : List Bool) : List Nat × List Nat :=
  match rescale w (countBits oz.1 oz.2 bits).1 (countBits oz.1 oz.2 bits).2 with
  | .ok r => r
  | .error _ => countBits oz.1 oz.2 bits

theorem half_update_counts {c : WbdCfg} (hb : c.bayes = true) {w : Nat} (hw : c.window = some w) (h : Half) {bits : List Bool}
    (hl : bits.length = c.modelLength) :
    ((h.update c bits).1.ones, (h.update c bits).1.zeros) = bayesStep w (h.ones, h.zeros) bits := by
  unfold Half.update bayesStep
  rw [if_neg (by simp [hl]), hb, if_pos rfl, hw]
  simp only [Option.getD_some]
  cases hr : rescale w (countBits h.ones h.zeros bits).1 (countBits h.ones h.zeros bits).2 with
  | error e => rfl
  | ok r =>
    simp only
    unfold Half.check
    split
    · rfl
    · split <;> rfl

theorem learnAll_counts {c : WbdCfg} (hb : c.bayes = true) {w : Nat} (hw : c.window = some w) (ws : List (List Bool))
    (hl : ∀ x ∈ ws, x.length = c.modelLength) (h : Half) :
    ((learnAll c h ws).ones, (learnAll c h ws).zeros) = ws.foldl (bayesStep w) (h.ones, h.zeros) := by
  induction ws generalizing h with
  | nil => rfl
  | cons x ws ih =>
    rw [learnAll, List.foldl_cons, List.foldl_cons, ← half_update_counts hb hw h (hl x (List.mem_cons_self ..))]
    exact ih (fun y hy => hl y (List.mem_cons_of_mem _ hy)) _

/-- A decoder for one bit. -/
noncomputable def oneBitCfg (w : Nat) : WbdCfg :=
  { idx := [0], modelLength := 1, threshold := 1 / 2, clipping := 1, window := some w, aCenter := 20, aSlope := 1,
    bCenter := 40, bSlope := 1, scheme := 0, bayes := true, bitFlip := 0, correctedDist := false }

/-- An LDPC decoder that always decides for the word 0. -/
def zeroLdpc : Ldpc Unit := fun _ _ => ((), ⟨[false], [], true, 1, [], []⟩)

theorem bayesStep_zero (w n : Nat) : bayesStep w ([1], [n + 1]) [false] = ([1], [n + 2]) := by
  unfold bayesStep countBits rescale
  simp only [List.zipWith_cons_cons, List.zipWith_nil_right, Bool.toNat_false, Nat.add_zero, Nat.sub_zero, Nat.gcd_one_left,
    Nat.div_one, List.headD_cons, List.map_cons, List.map_nil]
  by_cases hbig : 2 * w < 1 + (n + 1 + 1)
  · rw [if_pos hbig, if_neg (by omega)]
  · rw [if_neg hbig]

/-- C65. The configured maximum, `2 * window_length`, is not enforced: whatever the window, the total at the first bit grows
without bound - after `k` received words that decode to 0 it is `k + 2`. -/
theorem c65_max_false (w k : Nat) : ∃ s0, Wbd.new (oneBitCfg w) () = .ok s0 ∧ ∀ words : List (List ℝ), words.length = k →
    (Wbd.run (oneBitCfg w) zeroLdpc s0 words).1.b.ones.getD 0 0 +
      (Wbd.run (oneBitCfg w) zeroLdpc s0 words).1.b.zeros.getD 0 0 = k + 2 := by
  have key : ∀ (words : List (List ℝ)) (s : Wbd Unit) (n : Nat) (wa : List (List Bool)), BayesInv (oneBitCfg w) s.a wa →
      s.b.ones = [1] → s.b.zeros = [n + 1] → (Wbd.run (oneBitCfg w) zeroLdpc s words).1.b.ones = [1] ∧
        (Wbd.run (oneBitCfg w) zeroLdpc s words).1.b.zeros = [n + 1 + words.length] := by
    intro words
    induction words with
    | nil => intro s n wa _ h1 h2; exact ⟨h1, h2⟩
    | cons x rest ih =>
      intro s n wa ha h1 h2
      have hc : Counters (oneBitCfg w).modelLength s.b.ones s.b.zeros := by
        rw [h1, h2]; exact ⟨rfl, rfl, by simp, by simp⟩
      obtain ⟨b', hu, _⟩ := c65_step (c := oneBitCfg w) rfl Nat.one_pos (w := w) rfl s.b hc [false] rfl
      obtain ⟨a', hua, hia, _⟩ := bayes_update (c := oneBitCfg w) rfl Nat.one_pos ha (bits := [false]) rfl
      have hcount := half_update_counts (c := oneBitCfg w) rfl (w := w) rfl s.b (bits := [false]) rfl
      rw [hu, h1, h2, bayesStep_zero] at hcount
      have hcount1 : b'.ones = [1] ∧ b'.zeros = [n + 1 + 1] := by
        simpa using hcount
      have hst : (∃ wa, BayesInv (oneBitCfg w) (s.decode (oneBitCfg w) zeroLdpc x).state.a wa) ∧
          (s.decode (oneBitCfg w) zeroLdpc x).state.b = b' := by
        have hd : s.decode (oneBitCfg w) zeroLdpc x =
            Wbd.finish (oneBitCfg w) ⟨s.a, s.b, ()⟩ [.llr x] ⟨[false], [], true, 1, [], []⟩ true x := rfl
        obtain ⟨seg, hseg, _⟩ := c20_never_raises (packBits [false])
        have htk : takeIdx [false] (oneBitCfg w).idx = .ok [false] := rfl
        rw [hd]
        unfold Wbd.finish
        simp only [htk, hseg, Bool.true_or, if_true, Wbd.learn, Wbd.updateA, Wbd.updateB, hu, hua]
        cases decide (MsgPart.unknown ∉ seg.parts)
        · exact ⟨⟨_, ha⟩, rfl⟩
        · exact ⟨⟨_, hia⟩, rfl⟩
      obtain ⟨⟨wa', ha'⟩, hb'⟩ := hst
      simp only [Wbd.run]
      have := ih (s.decode (oneBitCfg w) zeroLdpc x).state (n + 1) wa' ha'
        (by rw [hb']; exact hcount1.1) (by rw [hb']; exact hcount1.2)
      rw [List.length_cons]
      exact ⟨this.1, by rw [this.2]; congr 1; omega⟩
  refine ⟨⟨Half.new (oneBitCfg w), Half.new (oneBitCfg w), ()⟩, rfl, fun words hk => ?_⟩
  obtain ⟨h1, h2⟩ := key words ⟨Half.new (oneBitCfg w), Half.new (oneBitCfg w), ()⟩ 0 []
    (bayes_new rfl Nat.one_pos rfl) rfl rfl
  rw [h1, h2, hk]
  simp only [List.getD_cons_zero]
  omega

/-- C65. Rescaling can itself exceed the maximum: if the counts at the first bit are equal after the word is counted and their
sum exceeds `2 * window_length`, the new sum is `2 * window_length + 2` (for windows of more than two words). -/
theorem c65_rescaled_exceeds {c : WbdCfg} (hb : c.bayes = true) (hm : 0 < c.modelLength) {w : Nat} (hw : c.window = some w)
    (h2 : 2 < w) (h : Half) (hc : Counters c.modelLength h.ones h.zeros) (bits : List Bool) (hl : bits.length = c.modelLength)
    (heq : h.ones.getD 0 0 + (if bits.getD 0 false then 1 else 0) = h.zeros.getD 0 0 + (if bits.getD 0 false then 0 else 1))
    (hbig : 2 * w < h.ones.getD 0 0 + h.zeros.getD 0 0 + 1) :
    (h.update c bits).1.ones.getD 0 0 + (h.update c bits).1.zeros.getD 0 0 = 2 * w + 2 := by
  have hcount := half_update_counts hb hw h hl
  obtain ⟨hc1, hat⟩ := countBits_spec hc hl
  obtain ⟨a1, a2⟩ := hat 0 hm
  unfold bayesStep at hcount
  revert hcount
  generalize hO : (countBits h.ones h.zeros bits).1 = ones at *
  generalize hZ : (countBits h.ones h.zeros bits).2 = zeros at *
  intro hcount
  obtain ⟨o0, os, rfl⟩ : ∃ o os, ones = o :: os := by
    cases ones with
    | nil => have := hc1.lenO; simp at this; omega
    | cons o os => exact ⟨o, os, rfl⟩
  obtain ⟨z0, zs, rfl⟩ : ∃ o os, zeros = o :: os := by
    cases zeros with
    | nil => have := hc1.lenZ; simp at this; omega
    | cons o os => exact ⟨o, os, rfl⟩
  simp only [List.getD_cons_zero] at a1 a2
  have hoz : o0 = z0 := by omega
  have hpos : 1 ≤ z0 := hc1.posZ z0 (List.mem_cons_self ..)
  have ht : 2 * w < o0 + z0 := by
    rw [a1, a2]; split <;> omega
  subst hoz
  unfold rescale at hcount
  simp only [if_pos ht, List.zipWith_cons_cons, Nat.gcd_self, Nat.div_self hpos, List.headD_cons, if_pos h2, Nat.div_one,
    List.map_cons] at hcount
  have e1 : (h.update c bits).1.ones.getD 0 0 = 1 * (w + 1) := by rw [(Prod.mk.inj hcount).1]; rfl
  have e2 : (h.update c bits).1.zeros.getD 0 0 = 1 * (w + 1) := by rw [(Prod.mk.inj hcount).2]; rfl
  omega

/-- A decoder for two bits. -/
noncomputable def twoBitCfg : WbdCfg :=
  { oneBitCfg 3 with idx := [0, 1], modelLength := 2 }

/-- C65. The minimum is only kept at the first bit: here the total at the second one falls from 7 to 2, below the minimum 3. -/
theorem c65_floor_elsewhere_false :
    let ws := [[false, true], [false, false], [false, true], [false, false], [false, true]]
    (learnAll twoBitCfg (Half.new twoBitCfg) ws).ones.getD 1 0 + (learnAll twoBitCfg (Half.new twoBitCfg) ws).zeros.getD 1 0 = 7 ∧
    (learnAll twoBitCfg (Half.new twoBitCfg) (ws ++ [[false, false]])).ones.getD 1 0 +
      (learnAll twoBitCfg (Half.new twoBitCfg) (ws ++ [[false, false]])).zeros.getD 1 0 = 2 ∧
    twoBitCfg.window = some 3 := by
  intro ws
  have h1 := learnAll_counts (c := twoBitCfg) rfl (w := 3) rfl ws (by decide) (Half.new twoBitCfg)
  have h2 := learnAll_counts (c := twoBitCfg) rfl (w := 3) rfl (ws ++ [[false, false]]) (by decide) (Half.new twoBitCfg)
  have e1 : ws.foldl (bayesStep 3) ((Half.new twoBitCfg).ones, (Half.new twoBitCfg).zeros) = ([1, 4], [6, 3]) := by
    have : ((Half.new twoBitCfg).ones, (Half.new twoBitCfg).zeros) = ([1, 1], [1, 1]) := rfl
    rw [this]; decide
  have e2 : (ws ++ [[false, false]]).foldl (bayesStep 3) ((Half.new twoBitCfg).ones, (Half.new twoBitCfg).zeros) =
      ([1, 1], [7, 1]) := by
    have : ((Half.new twoBitCfg).ones, (Half.new twoBitCfg).zeros) = ([1, 1], [1, 1]) := rfl
    rw [this]; decide
  rw [e1] at h1
  rw [e2] at h2
  rw [(Prod.mk.inj h1).1, (Prod.mk.inj h1).2, (Prod.mk.inj h2).1, (Prod.mk.inj h2).2]
  exact ⟨rfl, rfl, rfl⟩

/-- The hypotheses of the theorems on histories are met: a decoder with window 5, after a call that returns and teaches the
second model the word 0. -/
theorem oneBit_run : ∃ s0 s steps, Wbd.new (oneBitCfg 5) () = .ok s0 ∧ Wbd.run (oneBitCfg 5) zeroLdpc s0 [[1]] = (s, steps) ∧
    allWords (oneBitCfg 5).idx (wbdEvents [[1]] steps) = [[false]] ∧ s.b.zeros = [2] := by
  have hn := bayes_new (c := oneBitCfg 5) rfl Nat.one_pos rfl
  set h0 := Half.new (oneBitCfg 5) with hh0
  obtain ⟨h', hu, hi, _⟩ := bayes_update (c := oneBitCfg 5) rfl Nat.one_pos hn (bits := [false]) rfl
  obtain ⟨seg, hseg, _⟩ := c20_never_raises (packBits [false])
  have htk : takeIdx [false] (oneBitCfg 5).idx = .ok [false] := rfl
  have hcount := half_update_counts (c := oneBitCfg 5) rfl (w := 5) rfl h0 (bits := [false]) rfl
  have hb0 : (h0.ones, h0.zeros) = ([1], [0 + 1]) := rfl
  rw [hu, hb0, bayesStep_zero] at hcount
  have : ∃ st : WbdStep Unit, (⟨h0, h0, ()⟩ : Wbd Unit).decode (oneBitCfg 5) zeroLdpc [1] = st ∧ st.handed.length = 1 ∧
      st.state.b = h' ∧ ∃ out, st.result = .ok out ∧ out.estimate = [false] := by
    have hd : (⟨h0, h0, ()⟩ : Wbd Unit).decode (oneBitCfg 5) zeroLdpc [1] =
        Wbd.finish (oneBitCfg 5) ⟨h0, h0, ()⟩ [.llr [1]] ⟨[false], [], true, 1, [], []⟩ true [1] := rfl
    refine ⟨_, rfl, ?_⟩
    rw [hd]
    unfold Wbd.finish
    simp only [htk, hseg, Bool.true_or, if_true, Wbd.learn, Wbd.updateA, Wbd.updateB, hu]
    cases decide (MsgPart.unknown ∉ seg.parts)
    · obtain ⟨out, ho, he, _⟩ := wbd_output (c := oneBitCfg 5) (⟨h0, h', ()⟩ : Wbd Unit) ⟨[false], [], true, 1, [], []⟩
        seg.struct.length (bayes_ents hn rfl) (bayes_ents hi rfl)
      exact ⟨rfl, rfl, out, ho, he⟩
    · obtain ⟨out, ho, he, _⟩ := wbd_output (c := oneBitCfg 5) (⟨h', h', ()⟩ : Wbd Unit) ⟨[false], [], true, 1, [], []⟩
        seg.struct.length (bayes_ents hi rfl) (bayes_ents hi rfl)
      exact ⟨rfl, rfl, out, ho, he⟩
  obtain ⟨st, hst, hk, hb, out, ho, he⟩ := this
  refine ⟨⟨h0, h0, ()⟩, st.state, [st], rfl, ?_, ?_, ?_⟩
  · simp only [Wbd.run, hst]
  · have := (allWords_one (oneBitCfg 5).idx ⟨[1], st.handed.length, st.result⟩ out ho).1 (Or.inl hk)
    rw [he] at this
    exact this
  · rw [hb]; exact (Prod.mk.inj hcount).2

example : ∃ h : Half, Counters (oneBitCfg 5).modelLength h.ones h.zeros ∧ 2 * 5 < h.ones.getD 0 0 + h.zeros.getD 0 0 + 1 ∧
    h.ones.getD 0 0 + (if [true].getD 0 false then 1 else 0) = h.zeros.getD 0 0 + (if [true].getD 0 false then 0 else 1) :=
  ⟨⟨[], [], [5], [6], [], .pyZero⟩, ⟨rfl, rfl, by simp, by simp⟩, by simp, by simp⟩

end NR
