import Verif.Model.EntropyDecoder
import Verif.Spec.Decoder
import Verif.Props.C47_C50
import Mathlib.Analysis.SpecialFunctions.BinaryEntropy
import Mathlib.Tactic.Linarith
/-
Lemmas on learning windows, indices and empirical distributions of the decoders.
-/
namespace NR
open Spec

theorem growData_keep {m : Nat} (hm : 0 < m) (w : Option Nat) (h : List (List Bool)) (b : List Bool)
    (hl : ∀ x ∈ h, x.length = m) : growData w (keep w h) b = keep w (h ++ [b]) := by
  have hflat : ∀ l : List (List Bool), (∀ x ∈ l, x.length = m) → (l.flatten.length = 0 ↔ l = []) := by
    intro l hl
    cases l with
    | nil => simp
    | cons x l =>
      have := hl x (List.mem_cons_self ..)
      simp only [List.flatten_cons, List.length_append, reduceCtorEq, iff_false]
      omega
  have hk : ∀ x ∈ keep w h, x.length = m := by
    intro x hx
    cases w with
    | none => exact hl x hx
    | some w => exact hl x (List.mem_of_mem_drop hx)
  have happ : (if (keep w h).flatten.length = 0 then [b] else keep w h ++ [b]) = keep w h ++ [b] := by
    split
    · rename_i h0
      rw [(hflat _ hk).1 h0]; rfl
    · rfl
  unfold growData
  rw [happ]
  cases w with
  | none => rfl
  | some w =>
    simp only [keep, lastN, List.length_append, List.length_drop, List.length_singleton]
    by_cases hw : h.length < w
    · rw [if_neg (by omega), show h.length - w = 0 by omega, show h.length + 1 - w = 0 by omega]; simp
    · rw [← List.drop_append_of_le_length (by omega)]
      split
      · rw [List.drop_drop]; congr 1; omega
      · omega

theorem keep_mem {α : Type} {w : Option Nat} {l : List α} {x : α} (h : x ∈ keep w l) : x ∈ l := by
  cases w with
  | none => exact h
  | some w => exact List.mem_of_mem_drop h

theorem takeIdx_ok {α : Type} {a : List α} {idx : List Nat} {r : List α} (h : takeIdx a idx = .ok r) :
    (∀ i ∈ idx, i < a.length) ∧ r = idx.filterMap (a[·]?) ∧ r.length = idx.length := by
  unfold takeIdx at h
  split at h
  · rename_i hall
    cases h
    rw [List.all_eq_true] at hall
    have hlt : ∀ i ∈ idx, i < a.length := fun i hi => by simpa using hall i hi
    refine ⟨hlt, rfl, ?_⟩
    clear hall
    induction idx with
    | nil => rfl
    | cons i idx ih =>
      have hi := hlt i (List.mem_cons_self ..)
      rw [List.filterMap_cons, List.getElem?_eq_getElem hi, List.length_cons, List.length_cons,
        ih fun j hj => hlt j (List.mem_cons_of_mem _ hj)]
  · cases h

theorem takeIdx_of_lt {α : Type} {a : List α} {idx : List Nat} (h : ∀ i ∈ idx, i < a.length) :
    takeIdx a idx = .ok (idx.filterMap (a[·]?)) := by
  unfold takeIdx
  rw [if_pos]
  rw [List.all_eq_true]
  intro i hi
  simpa using h i hi

theorem hardBits_eq (l : List ℝ) : hardBits l = hardWord l := rfl

theorem rowsOf_length (n : Nat) (data : List (List Bool)) : (rowsOf n data).length = n := by simp [rowsOf]

theorem binary_alphabet {al : List Int} (hs : al.Pairwise (· < ·)) (hb : ∀ v ∈ al, v = 0 ∨ v = 1) :
    (0 ∈ al ∧ 1 ∈ al → al = [0, 1]) ∧ (¬ (0 ∈ al ∧ 1 ∈ al) → al.length ≤ 1) := by
  match al with
  | [] => simp
  | [a] => refine ⟨fun h => ?_, fun _ => by simp⟩
           simp only [List.mem_singleton] at h; omega
  | a :: b :: rest =>
    have h1 : a < b := by
      rw [List.pairwise_cons] at hs
      exact hs.1 b (List.mem_cons_self ..)
    have ha := hb a (List.mem_cons_self ..)
    have hbb := hb b (by simp)
    have ha0 : a = 0 := by omega
    have hb1 : b = 1 := by omega
    subst ha0 hb1
    have hr : rest = [] := by
      cases rest with
      | nil => rfl
      | cons c rest =>
        have hc := hb c (by simp)
        rw [List.pairwise_cons, List.pairwise_cons] at hs
        have := hs.2.1 c (List.mem_cons_self ..)
        omega
    subst hr
    exact ⟨fun _ => rfl, fun h => absurd ⟨by simp, by simp⟩ h⟩

/-- Both letters occur among the bits `0..n-1` of the samples. -/
def BothLetters (n : Nat) (data : List (List Bool)) : Prop :=
  (∃ x ∈ data, ∃ j, j < n ∧ x.getD j false = false) ∧ ∃ x ∈ data, ∃ j, j < n ∧ x.getD j false = true

theorem count_one_row (data : List (List Bool)) (j : Nat) :
    (data.map fun c => if c.getD j false then (1 : Int) else 0).count 1 = data.countP fun b => b.getD j false := by
  induction data with
  | nil => rfl
  | cons x data ih =>
    rw [List.map_cons, List.count_cons, List.countP_cons, ih]
    cases h : x.getD j false <;> simp

theorem probOf_spec {n : Nat} (hn : 0 < n) {data : List (List Bool)} (hd : data ≠ []) :
    ∃ dist, probOf n data = .ok dist ∧ dist.length = n ∧
      (BothLetters n data → column1 dist = .ok ((List.range n).map fun j =>
          ((data.countP fun b => b.getD j false : ℕ) : ℚ) / data.length) ∧
        dist = (List.range n).map fun j => [((data.countP fun b => !b.getD j false : ℕ) : ℚ) / data.length,
          ((data.countP fun b => b.getD j false : ℕ) : ℚ) / data.length]) ∧
      (¬ BothLetters n data → column1 dist = .error .indexError ∧ dist = List.replicate n [1]) := by
  have hlen : 0 < data.length := List.length_pos_iff.2 hd
  have hrl : ∀ r ∈ rowsOf n data, r.length = data.length := by
    intro r hr
    simp only [rowsOf, List.mem_map] at hr
    obtain ⟨j, _, rfl⟩ := hr
    simp
  obtain ⟨al, pr, _, hp, hs, hmem, hpr, hrow⟩ := c47_prob2 data.length hlen (rowsOf n data) hrl
  have hmem' : ∀ v : Int, v ∈ al ↔ ∃ j, j < n ∧ ∃ x ∈ data, v = if x.getD j false then 1 else 0 := by
    intro v
    rw [hmem]
    simp only [rowsOf, List.mem_map, List.mem_range]
    constructor
    · rintro ⟨r, ⟨j, hj, rfl⟩, hv⟩
      obtain ⟨x, hx, rfl⟩ := List.mem_map.1 hv
      exact ⟨j, hj, x, hx, rfl⟩
    · rintro ⟨j, hj, x, hx, rfl⟩
      exact ⟨_, ⟨j, hj, rfl⟩, List.mem_map.2 ⟨x, hx, rfl⟩⟩
  have hbin : ∀ v ∈ al, v = 0 ∨ v = 1 := by
    intro v hv
    obtain ⟨j, _, x, _, rfl⟩ := (hmem' v).1 hv
    split <;> simp
  have hboth : (0 ∈ al ∧ 1 ∈ al) ↔ BothLetters n data := by
    rw [hmem', hmem', BothLetters]
    constructor
    · rintro ⟨⟨j, hj, x, hx, h⟩, ⟨j', hj', x', hx', h'⟩⟩
      refine ⟨⟨x, hx, j, hj, ?_⟩, ⟨x', hx', j', hj', ?_⟩⟩
      · cases e : x.getD j false
        · rfl
        · rw [e] at h; exact absurd h (by decide)
      · cases e : x'.getD j' false
        · rw [e] at h'; exact absurd h' (by decide)
        · rfl
    · rintro ⟨⟨x, hx, j, hj, h⟩, ⟨x', hx', j', hj', h'⟩⟩
      exact ⟨⟨j, hj, x, hx, by rw [h]; rfl⟩, ⟨j', hj', x', hx', by rw [h']; rfl⟩⟩
  obtain ⟨hA, hB⟩ := binary_alphabet hs hbin
  have hdl : pr.length = n := by rw [hpr, List.length_map, rowsOf_length]
  have hcol1 : ∀ j, freq 1 (data.map fun c => if c.getD j false then (1 : Int) else 0) =
      ((data.countP fun b => b.getD j false : ℕ) : ℚ) / data.length := by
    intro j; rw [freq, count_one_row, List.length_map]
  have hcol0 : ∀ j, freq 0 (data.map fun c => if c.getD j false then (1 : Int) else 0) =
      ((data.countP fun b => !b.getD j false : ℕ) : ℚ) / data.length := by
    intro j
    rw [freq, List.length_map]
    congr 2
    clear * -
    induction data with
    | nil => rfl
    | cons x data ih =>
      rw [List.map_cons, List.count_cons, List.countP_cons, ih]
      cases h : x.getD j false <;> simp
  refine ⟨pr, hp, hdl, fun hbl => ?_, fun hbl => ?_⟩
  · have hal := hA (hboth.2 hbl)
    subst hal
    have hpr' : pr = (List.range n).map fun j => [((data.countP fun b => !b.getD j false : ℕ) : ℚ) / data.length,
          ((data.countP fun b => b.getD j false : ℕ) : ℚ) / data.length] := by
      rw [hpr, rowsOf, List.map_map]
      refine List.map_congr_left fun j _ => ?_
      simp only [Function.comp, List.map_cons, List.map_nil, hcol0, hcol1]
    refine ⟨?_, hpr'⟩
    rw [hpr']
    unfold column1
    rw [if_pos]
    · rw [List.map_map]
      rfl
    · simp
  · have hle := hB (fun h => hbl (hboth.1 h))
    have hrl1 : ∀ p ∈ pr, p.length = al.length := by
      intro p hp
      rw [hpr] at hp
      obtain ⟨r, _, rfl⟩ := List.mem_map.1 hp
      simp
    have hpr1 : pr = List.replicate n [1] := by
      rw [List.eq_replicate_iff]
      refine ⟨hdl, fun p hp => ?_⟩
      obtain ⟨hsum, _⟩ := hrow p hp
      have := hrl1 p hp
      match p, hsum, this with
      | [], hsum, _ => simp at hsum
      | [a], hsum, _ => simp at hsum; rw [hsum]
      | a :: b :: r, _, h => simp at h; omega
    refine ⟨?_, hpr1⟩
    rw [hpr1]
    unfold column1
    rw [if_neg]
    rw [List.all_eq_true]
    intro h
    have := h [1] (by rw [List.mem_replicate]; exact ⟨by omega, rfl⟩)
    simp at this

theorem entropyPair (p : ℝ) : scipyEntropy [1 - p, p] 2 = Real.binEntropy p / Real.log 2 := by
  simp [scipyEntropy, Real.binEntropy_eq_negMulLog_add_negMulLog_one_sub, add_comm]

theorem maskIdx_spec {α : Type} (a : List α) (mask : List Bool) (h : mask.length = a.length) :
    maskIdx a mask = .ok ((a.zip mask).filterMap fun x => if x.2 then some x.1 else none) := by
  unfold maskIdx
  split
  · rename_i h0
    have ha : a = [] := List.length_eq_zero_iff.1 (by omega)
    subst ha
    simp
  · rw [if_neg (by omega)]

end NR
