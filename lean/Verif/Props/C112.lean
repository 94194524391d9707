import Verif.Spec.FebReader
import Mathlib.Tactic.Ring
import Mathlib.Tactic.NormNum
/-
C112: finding the words sent for the recordings of February 2022 (runs/Feb_2022/data/data_reader.m).
-/
namespace NR.C112
open Spec Feb

/-! ### Correlation -/

theorem firstMax_spec (f : Int → Nat) : ∀ (l : List Int) (x : Int), firstMax f l = some x →
    x ∈ l ∧ (∀ y ∈ l, f y ≤ f x) ∧ ∀ h, l.head? = some h → f h = f x → x = h
  | [], x, h => by simp [firstMax] at h
  | z :: zs, x, h => by
    rw [firstMax] at h
    rcases hz : firstMax f zs with _ | y
    · rw [hz] at h
      simp only [Option.some.injEq] at h
      subst h
      have : zs = [] := by
        cases zs with
        | nil => rfl
        | cons a as =>
          rw [firstMax] at hz
          revert hz
          cases firstMax f as with
          | none => simp
          | some b => simp only; split <;> simp
      subst this
      exact ⟨by simp, by simp, fun h hh _ => by simpa using hh⟩
    · rw [hz] at h
      simp only at h
      obtain ⟨h1, h2, _⟩ := firstMax_spec f zs y hz
      split at h
      · rename_i hle
        simp only [Option.some.injEq] at h
        subst h
        refine ⟨by simp, ?_, fun h hh _ => by simpa using hh⟩
        intro w hw
        rw [List.mem_cons] at hw
        rcases hw with rfl | hw
        · exact le_rfl
        · exact (h2 w hw).trans hle
      · rename_i hlt
        simp only [Option.some.injEq] at h
        subst h
        refine ⟨by simp [h1], ?_, ?_⟩
        · intro w hw
          rw [List.mem_cons] at hw
          rcases hw with rfl | hw
          · omega
          · exact h2 w hw
        · intro h hh he
          simp only [List.head?_cons, Option.some.injEq] at hh
          subst hh
          omega

theorem firstMax_some (f : Int → Nat) (l : List Int) (h : l ≠ []) : ∃ x, firstMax f l = some x := by
  cases l with
  | nil => exact absurd rfl h
  | cons z zs =>
    rw [firstMax]
    cases firstMax f zs with
    | none => exact ⟨z, rfl⟩
    | some y =>
      simp only
      split
      · exact ⟨_, rfl⟩
      · exact ⟨_, rfl⟩

theorem mem_lags (n : Nat) (x : Int) : x ∈ lags n ↔ 0 < n ∧ -(n : Int) < x ∧ x < n := by
  unfold lags
  rw [List.mem_map]
  constructor
  · rintro ⟨i, hi, rfl⟩
    rw [List.mem_range] at hi
    omega
  · intro h
    exact ⟨(x + ((n : Int) - 1)).toNat, by rw [List.mem_range]; omega, by omega⟩

theorem head_lags (n : Nat) (h : 0 < n) : (lags n).head? = some (1 - (n : Int)) := by
  unfold lags
  obtain ⟨k, hk⟩ : ∃ k, 2 * n - 1 = k + 1 := ⟨2 * n - 2, by omega⟩
  rw [hk, List.range_succ_eq_map, List.map_cons, List.head?_cons]
  congr 1
  simp

/-- Counting positions of two words of the same length. -/
theorem count_zip (g : Bool → Bool → Bool) : ∀ (a b : List Bool), a.length = b.length →
    (List.zipWith g a b).count true = (List.range a.length).countP fun n => g (a.getD n false) (b.getD n false)
  | [], [], _ => rfl
  | x :: a, y :: b, h => by
    have ih := count_zip g a b (by simpa using h)
    rw [List.zipWith_cons_cons, List.length_cons, List.range_succ_eq_map, List.countP_cons, List.countP_map]
    have e : ((fun n => g ((x :: a).getD n false) ((y :: b).getD n false)) ∘ Nat.succ) =
        fun n => g (a.getD n false) (b.getD n false) := by
      funext n
      simp
    rw [e, List.count_cons, ih]
    simp
  | [], _ :: _, h => by simp at h
  | _ :: _, [], h => by simp at h

theorem flatten_getD {L : Nat} : ∀ (ws : List (List Bool)) (_ : ∀ w ∈ ws, w.length = L) (k n : Nat), n < L →
    ws.flatten.getD (n + k * L) false = (ws.getD k []).getD n false
  | [], _, k, n, _ => by simp
  | w :: ws, h, 0, n, hn => by
    have hw := h w (by simp)
    simp only [Nat.zero_mul, Nat.add_zero, List.flatten_cons, List.getD_eq_getElem?_getD, List.getElem?_cons_zero,
      Option.getD_some]
    rw [List.getElem?_append_left (by omega)]
  | w :: ws, h, k + 1, n, hn => by
    have hw := h w (by simp)
    have ih := flatten_getD ws (fun w hw => h w (by simp [hw])) k n hn
    have e : n + (k + 1) * L = w.length + (n + k * L) := by rw [hw]; ring
    simp only [List.flatten_cons, List.getD_eq_getElem?_getD, List.getElem?_cons_succ] at ih ⊢
    rw [e, List.getElem?_append_right (by omega), Nat.add_sub_cancel_left]
    exact ih

/-- At a whole number of words the correlation counts the ones in common with that word. -/
theorem overlap_word {L : Nat} (ws : List (List Bool)) (h : ∀ w ∈ ws, w.length = L) (rx : List Bool) (hrx : rx.length = L)
    (k : Nat) (w : List Bool) (hk : ws[k]? = some w) : overlap ws.flatten rx ((k : Int) * L) = commonOnes w rx := by
  have hw : w.length = L := h w (List.mem_of_getElem? hk)
  unfold overlap commonOnes
  rw [count_zip _ w rx (by omega), hrx, hw]
  apply List.countP_congr
  intro n hn
  rw [List.mem_range] at hn
  have e1 : ((n : Int) + (k : Int) * L).toNat = n + k * L := by
    rw [show (n : Int) + (k : Int) * L = ((n + k * L : Nat) : Int) by push_cast; rfl, Int.toNat_natCast]
  have e2 : (0 : Int) ≤ (n : Int) + (k : Int) * L := by positivity
  rw [e1, flatten_getD ws h k n hn]
  simp [hk, e2, Bool.and_comm]

theorem overlap_before {L : Nat} (tx rx : List Bool) (hrx : rx.length = L) (q : Int) (hq : q < 0) :
    overlap tx rx (q * L) = 0 := by
  unfold overlap
  rw [List.countP_eq_zero]
  intro n hn
  rw [List.mem_range, hrx] at hn
  have : (n : Int) + q * L < 0 := by
    have : q * L ≤ -1 * L := Int.mul_le_mul_of_nonneg_right (by omega) (by omega)
    omega
  simp [not_le.2 this]

theorem flatten_length {L : Nat} : ∀ (ws : List (List Bool)) (_ : ∀ w ∈ ws, w.length = L), ws.flatten.length = ws.length * L
  | [], _ => by simp
  | w :: ws, h => by
    rw [List.flatten_cons, List.length_append, flatten_length ws (fun w hw => h w (by simp [hw])), h w (by simp),
      List.length_cons]
    ring

/-- A whole number of words as the best lag: the word at that place has most ones in common. -/
theorem bestLag_word {L : Nat} (hL : 2 ≤ L) (ws : List (List Bool)) (hne : ws ≠ []) (h : ∀ w ∈ ws, w.length = L)
    (rx : List Bool) (hrx : rx.length = L) (lag : Int) (hlag : bestLag ws.flatten rx = some lag) (hd : lag % (L : Int) = 0) :
    ∃ k w, lag / (L : Int) = (k : Nat) ∧ ws[k]? = some w ∧ ∀ w' ∈ ws, commonOnes w' rx ≤ commonOnes w rx := by
  have hlen := flatten_length ws h
  have hwl : 0 < ws.length := List.length_pos_iff.2 hne
  have hmax : max ws.flatten.length rx.length = ws.length * L := by
    rw [hlen, hrx]
    exact max_eq_left (Nat.le_mul_of_pos_left L hwl)
  have hN : 0 < ws.length * L := Nat.mul_pos hwl (by omega)
  unfold bestLag at hlag
  rw [hmax] at hlag
  obtain ⟨h1, h2, h3⟩ := firstMax_spec _ _ _ hlag
  rw [mem_lags] at h1
  obtain ⟨q, rfl⟩ : ∃ q, lag = q * L := ⟨lag / L, (Int.ediv_mul_cancel_of_emod_eq_zero hd).symm⟩
  have hL0 : (L : Int) ≠ 0 := by omega
  have hLp : (0 : Int) < L := by omega
  have hq1 : q < ws.length := by
    have : q * L < (ws.length : Int) * L := by have := h1.2.2; push_cast at this; exact this
    exact lt_of_mul_lt_mul_right this (by omega)
  have hall : ∀ (j : Nat) (w' : List Bool), ws[j]? = some w' → commonOnes w' rx ≤ overlap ws.flatten rx (q * L) := by
    intro j w' hj
    rw [← overlap_word ws h rx hrx j w' hj]
    apply h2
    have hj' : j < ws.length := (List.getElem?_eq_some_iff.1 hj).1
    rw [mem_lags]
    have e1 : (j : Int) * L < ((ws.length * L : Nat) : Int) := by
      push_cast
      exact mul_lt_mul_of_pos_right (by exact_mod_cast hj') hLp
    have e2 : (0 : Int) ≤ (j : Int) * L := by positivity
    exact ⟨hN, by omega, e1⟩
  rcases lt_or_ge q 0 with hneg | hpos
  · exfalso
    have h0 := overlap_before ws.flatten rx hrx q hneg
    have hhead := head_lags (ws.length * L) hN
    have hfirst := h3 _ hhead (by
      have := h2 (1 - ((ws.length * L : Nat) : Int)) (by rw [mem_lags]; omega)
      omega)
    have : (L : Int) ∣ 1 := by
      have e : (1 : Int) = q * L + (ws.length : Int) * L := by rw [hfirst]; push_cast; ring
      rw [e, ← add_mul]
      exact dvd_mul_left _ _
    have := Int.le_of_dvd (by omega) this
    omega
  · obtain ⟨k, rfl⟩ := Int.eq_ofNat_of_zero_le hpos
    have hk : k < ws.length := by exact_mod_cast hq1
    refine ⟨k, ws[k], Int.mul_ediv_cancel _ hL0, List.getElem?_eq_getElem hk, ?_⟩
    intro w' hw'
    obtain ⟨j, hj⟩ := List.getElem?_of_mem hw'
    have := hall j w' hj
    rwa [overlap_word ws h rx hrx k ws[k] (List.getElem?_eq_getElem hk)] at this

/-! ### One unknown word -/

theorem spanStart_spec (day : Day) (hc : List (List Bool)) (before : Option (List Bool)) (a : Nat)
    (h : spanStart day hc before = some a) : ∀ w, before = some w → hc[a]? = some w := by
  rintro w rfl
  cases day with
  | feb14 =>
    rw [spanStart, List.findIdx?_eq_some_iff_getElem] at h
    obtain ⟨hl, he, _⟩ := h
    rw [List.getElem?_eq_getElem hl]
    simpa using he
  | feb16 =>
    rw [spanStart, Option.map_eq_some_iff] at h
    obtain ⟨k, hk, rfl⟩ := h
    rw [List.findIdx?_eq_some_iff_getElem] at hk
    obtain ⟨hl, he, _⟩ := hk
    rw [List.length_reverse] at hl
    rw [List.getElem_reverse] at he
    rw [List.getElem?_eq_getElem (by omega)]
    simpa using he

theorem spanEnd_spec (day : Day) (hc : List (List Bool)) (start : Option Nat) (after : Option (List Bool)) (b : Nat)
    (h : spanEnd day hc start after = some b) : b < hc.length ∧ ∀ w, after = some w → hc[b]? = some w := by
  have key : ∀ (w : List Bool) (fr : Nat), ((hc.drop fr).findIdx? (· == w)).map (· + fr) = some b →
      b < hc.length ∧ hc[b]? = some w := by
    intro w fr h
    rw [Option.map_eq_some_iff] at h
    obtain ⟨k, hk, rfl⟩ := h
    rw [List.findIdx?_eq_some_iff_getElem] at hk
    obtain ⟨hl, he, _⟩ := hk
    rw [List.length_drop] at hl
    rw [List.getElem_drop] at he
    refine ⟨by omega, ?_⟩
    rw [List.getElem?_eq_getElem (by omega)]
    simp only [beq_iff_eq] at he
    rw [← he]
    congr 2
    omega
  cases day <;> cases after with
  | none =>
    simp only [spanEnd] at h
    first
    | (split at h
       · cases h
       · rename_i hne
         have := List.length_pos_iff.2 hne
         simp only [Option.some.injEq] at h
         exact ⟨by omega, by simp⟩)
    | cases h
  | some w =>
    simp only [spanEnd] at h
    have := key w _ h
    exact ⟨this.1, by rintro w' hw; simp only [Option.some.injEq] at hw; subst hw; exact this.2⟩

/-- What happens to a reception with an unknown word. -/
theorem findWord_spec (day : Day) {L : Nat} (hL : 2 ≤ L) (hc : List (List Bool)) (hhc : ∀ w ∈ hc, w.length = L)
    (before after : Option (List Bool)) (r : Reception) (hr : r.src.coded.length = L) :
    ∃ r', findWord day L hc before after r = .ok r' ∧ r'.src = r.src ∧ (r'.success ↔ r.success) ∧
      (r' = r ∨ ∃ (a b k : Nat) (w : List Bool), a < b ∧ a ≤ k ∧ k ≤ b ∧ b < hc.length ∧ hc[k]? = some w ∧ r'.tx = some w ∧
        r'.inputBer = (bitsApart r.src.coded w : ℝ) / L ∧
        (∀ w', before = some w' → hc[a]? = some w') ∧ (∀ w', after = some w' → hc[b]? = some w') ∧
        ∀ j w', a ≤ j → j ≤ b → hc[j]? = some w' → commonOnes w' r.src.coded ≤ commonOnes w r.src.coded) := by
  unfold findWord
  simp only
  rcases hs : spanStart day hc before with _ | a
  · exact ⟨r, rfl, rfl, Iff.rfl, Or.inl rfl⟩
  rcases he : spanEnd day hc (some a) after with _ | b
  · exact ⟨r, rfl, rfl, Iff.rfl, Or.inl rfl⟩
  simp only
  obtain ⟨hb, hbw⟩ := spanEnd_spec day hc (some a) after b he
  by_cases hab : a < b
  swap
  · rw [if_neg hab]; exact ⟨r, rfl, rfl, Iff.rfl, Or.inl rfl⟩
  rw [if_pos hab]
  set ws := (hc.drop a).take (b - a + 1) with hws
  have hwsl : ws.length = b - a + 1 := by rw [hws, List.length_take, List.length_drop]; omega
  have hwsm : ∀ w ∈ ws, w.length = L := fun w hw => hhc w (List.mem_of_mem_drop (List.mem_of_mem_take hw))
  have hget : ∀ j, j < b - a + 1 → ws[j]? = hc[a + j]? := by
    intro j hj
    rw [hws, List.getElem?_take_of_lt hj, List.getElem?_drop]
  rcases hlag : bestLag ws.flatten r.src.coded with _ | lag
  · exact ⟨r, rfl, rfl, Iff.rfl, Or.inl rfl⟩
  simp only
  by_cases hd : lag % (L : Int) = 0
  swap
  · rw [if_neg hd]; exact ⟨r, rfl, rfl, Iff.rfl, Or.inl rfl⟩
  rw [if_pos hd]
  obtain ⟨k, w, hk, hkw, hmax⟩ := bestLag_word hL ws (by intro h; rw [h] at hwsl; simp at hwsl) hwsm r.src.coded hr lag hlag hd
  have hkl : k < b - a + 1 := by rw [← hwsl]; exact (List.getElem?_eq_some_iff.1 hkw).1
  have hkw' : hc[a + k]? = some w := by rw [← hget k hkl]; exact hkw
  rw [hk]
  have e1 : ¬ (a : Int) + (k : Nat) < 0 := by omega
  have e2 : ((a : Int) + (k : Nat)).toNat = a + k := by omega
  rw [if_neg e1, e2, hkw']
  refine ⟨_, rfl, rfl, Iff.rfl, Or.inr ⟨a, b, a + k, w, hab, by omega, by omega, hb, hkw', rfl, rfl,
    spanStart_spec day hc before a hs, hbw, ?_⟩⟩
  intro j w' h1 h2 hj
  apply hmax
  have := hget (j - a) (by omega)
  rw [show a + (j - a) = j by omega, hj] at this
  exact List.mem_of_getElem? this

/-! ### Repeated receptions -/

theorem rxIndexFrom_length : ∀ (ts : List Int) (idx : Nat) (last : Int), (rxIndexFrom idx last ts).length = ts.length
  | [], _, _ => rfl
  | t :: ts, idx, last => by simp [rxIndexFrom, rxIndexFrom_length ts]

theorem rxIndex_length (ts : List Int) : (rxIndex ts).length = ts.length := by
  cases ts <;> simp [rxIndex, rxIndexFrom_length]

theorem rxIndexFrom_ge : ∀ (ts : List Int) (idx : Nat) (last : Int), (last :: ts).Pairwise (· ≤ ·) →
    ∀ (i : Nat) (u : Nat) (x : Int), (rxIndexFrom idx last ts)[i]? = some u → ts[i]? = some x →
      idx ≤ u ∧ (u = idx ↔ x = last)
  | [], _, _, _, i, u, x, h, _ => by simp [rxIndexFrom] at h
  | t :: ts, idx, last, hp, 0, u, x, hu, hx => by
    simp only [rxIndexFrom, List.getElem?_cons_zero, Option.some.injEq] at hu hx
    subst hu hx
    have : last ≤ t := (List.pairwise_cons.1 hp).1 t (by simp)
    split <;> omega
  | t :: ts, idx, last, hp, i + 1, u, x, hu, hx => by
    simp only [rxIndexFrom, List.getElem?_cons_succ] at hu hx
    obtain ⟨hp1, hp2⟩ := List.pairwise_cons.1 hp
    have := rxIndexFrom_ge ts _ t hp2 i u x hu hx
    have h1 : last ≤ t := hp1 t (by simp)
    have h2 : t ≤ x := (List.pairwise_cons.1 hp2).1 x (List.mem_of_getElem? hx)
    split at this <;> omega

theorem rxIndex_eq (ts : List Int) (h : ts.Pairwise (· ≤ ·)) (i j : Nat) (u v : Nat) (x y : Int)
    (hu : (rxIndex ts)[i]? = some u) (hv : (rxIndex ts)[j]? = some v) (hx : ts[i]? = some x) (hy : ts[j]? = some y) :
    u = v ↔ x = y := by
  have key : ∀ (ts : List Int) (idx : Nat) (last : Int), (last :: ts).Pairwise (· ≤ ·) →
      ∀ (i j u v : Nat) (x y : Int), (idx :: rxIndexFrom idx last ts)[i]? = some u →
        (idx :: rxIndexFrom idx last ts)[j]? = some v → (last :: ts)[i]? = some x → (last :: ts)[j]? = some y →
        (u = v ↔ x = y) := by
    intro ts
    induction ts with
    | nil =>
      intro idx last _ i j u v x y hu hv hx hy
      cases i <;> cases j <;> simp_all [rxIndexFrom]
    | cons t ts ih =>
      intro idx last hp i j u v x y hu hv hx hy
      have hge := rxIndexFrom_ge (t :: ts) idx last hp
      cases i with
      | zero =>
        simp only [List.getElem?_cons_zero, Option.some.injEq] at hu hx
        subst hu hx
        cases j with
        | zero =>
          simp only [List.getElem?_cons_zero, Option.some.injEq] at hv hy
          subst hv hy
          simp
        | succ j =>
          rw [List.getElem?_cons_succ] at hv hy
          have := (hge j v y hv hy).2
          rw [eq_comm (a := idx), this, eq_comm]
      | succ i =>
        rw [List.getElem?_cons_succ] at hu hx
        cases j with
        | zero =>
          simp only [List.getElem?_cons_zero, Option.some.injEq] at hv hy
          subst hv hy
          exact (hge i u x hu hx).2
        | succ j =>
          rw [List.getElem?_cons_succ] at hv hy
          rw [rxIndexFrom] at hu hv
          exact ih _ t (List.pairwise_cons.1 hp).2 i j u v x y hu hv hx hy
  cases ts with
  | nil => simp at hx
  | cons t ts => exact key ts 0 t h i j u v x y hu hv hx hy

theorem sortTime_sorted (rs : List Record) : ((sortTime rs).map (·.time)).Pairwise (· ≤ ·) := by
  rw [List.pairwise_map]
  have := List.pairwise_mergeSort (le := fun a b : Record => decide (a.time ≤ b.time)) (by simp; omega) (by simp; omega) rs
  exact this.imp (by simp)

/-- Entry `i` of the annotated receptions. -/
theorem annotate_get (rs : List Record) (i : Nat) (x : Record) (h : rs[i]? = some x) : ∃ u,
    (rxIndex (rs.map (·.time)))[i]? = some u ∧ (annotate rs)[i]? = some
      { src := x, rxIdx := u, inputBer := x.rawBer, success := x.rawBer ≠ -1, tx := none } := by
  have hi : i < rs.length := (List.getElem?_eq_some_iff.1 h).1
  have hl : i < (rxIndex (rs.map (·.time))).length := by rw [rxIndex_length, List.length_map]; exact hi
  refine ⟨(rxIndex (rs.map (·.time)))[i], List.getElem?_eq_getElem hl, ?_⟩
  unfold annotate
  rw [List.getElem?_zipWith, h, List.getElem?_eq_getElem hl]

theorem annotate_length (rs : List Record) : (annotate rs).length = rs.length := by
  unfold annotate
  rw [List.length_zipWith, rxIndex_length, List.length_map, min_self]

theorem annotate_mem (rs : List Record) (r : Reception) (h : r ∈ annotate rs) : ∃ (i : Nat) (x : Record), rs[i]? = some x ∧ r.src = x ∧
    (annotate rs)[i]? = some r := by
  obtain ⟨i, hi⟩ := List.getElem?_of_mem h
  have hl : i < rs.length := by rw [← annotate_length]; exact (List.getElem?_eq_some_iff.1 hi).1
  obtain ⟨u, _, hu⟩ := annotate_get rs i rs[i] (List.getElem?_eq_getElem hl)
  rw [hi] at hu
  injection hu with hu
  exact ⟨i, rs[i], List.getElem?_eq_getElem hl, by rw [hu], hi⟩

/-- Receptions of sorted records have the same index when they have the same time stamp. -/
theorem annotate_time (rs : List Record) (hs : (rs.map (·.time)).Pairwise (· ≤ ·)) (a b : Reception) (ha : a ∈ annotate rs)
    (hb : b ∈ annotate rs) : a.rxIdx = b.rxIdx ↔ a.src.time = b.src.time := by
  obtain ⟨i, x, hx, rfl, hi⟩ := annotate_mem rs a ha
  obtain ⟨j, y, hy, rfl, hj⟩ := annotate_mem rs b hb
  obtain ⟨u, hu, hu'⟩ := annotate_get rs i _ hx
  obtain ⟨v, hv, hv'⟩ := annotate_get rs j _ hy
  rw [hi] at hu'
  rw [hj] at hv'
  injection hu' with hu'
  injection hv' with hv'
  have e1 : a.rxIdx = u := by rw [hu']
  have e2 : b.rxIdx = v := by rw [hv']
  rw [e1, e2]
  exact rxIndex_eq _ hs i j u v _ _ hu hv (by rw [List.getElem?_map, hx]; rfl) (by rw [List.getElem?_map, hy]; rfl)

theorem firstMin_spec {α : Type} (key : α → ℝ) : ∀ (l : List α), l ≠ [] →
    ∃ x, firstMin key l = some x ∧ x ∈ l ∧ ∀ y ∈ l, key x ≤ key y
  | [], h => absurd rfl h
  | z :: zs, _ => by
    by_cases hz : zs = []
    · subst hz
      exact ⟨z, rfl, by simp, by simp⟩
    · obtain ⟨y, hy, hm, hle⟩ := firstMin_spec key zs hz
      rw [firstMin, hy]
      simp only
      split
      · rename_i h
        refine ⟨z, rfl, by simp, ?_⟩
        intro w hw
        rw [List.mem_cons] at hw
        rcases hw with rfl | hw
        · exact le_rfl
        · exact h.trans (hle w hw)
      · rename_i h
        refine ⟨y, rfl, by simp [hm], ?_⟩
        intro w hw
        rw [List.mem_cons] at hw
        rcases hw with rfl | hw
        · exact (not_le.1 h).le
        · exact hle w hw

/-! ### A day -/

/-- The receptions after decoding. -/
noncomputable def decodedRx (day : Day) (L : Nat) (dec : List ℝ → List Bool) (used : List Record) : List Reception :=
  let rx := annotate (sortTime used)
  match day with
  | .feb14 => rx.map (fill14 dec)
  | .feb16 => rx.map (fill16 L dec rx)

theorem readDay_eq (day : Day) (L total : Nat) (dec : List ℝ → List Bool) (ship hc : List Record) :
    readDay day L total dec ship hc = findWords day L total (sentWords L hc) (decodedRx day L dec (usedRx day L ship)) := by
  cases day <;> rfl

/-- Entry `i` after decoding. -/
theorem decodedRx_get (day : Day) (L : Nat) (dec : List ℝ → List Bool) (used : List Record) (i : Nat) (x : Record)
    (hx : (sortTime used)[i]? = some x) : ∃ r, (decodedRx day L dec used)[i]? = some r ∧ r.src = x ∧
      (r.success ↔ x.rawBer ≠ -1) ∧ (r.tx ≠ none ↔ Decoded day used x) ∧
      (x.rawBer ≠ -1 → r.tx = some (dec x.soft) ∧ r.inputBer = x.rawBer) ∧
      (r.tx = none → r.inputBer = -1) ∧
      (x.rawBer = -1 → day = .feb16 → (∃ y ∈ used, y.time = x.time ∧ y.rawBer > 0) → ∃ y ∈ used, y.time = x.time ∧
        (∀ z ∈ used, z.time = x.time → |y.rawBer| ≤ |z.rawBer|) ∧ r.tx = some (dec y.soft) ∧
        r.inputBer = (bitsApart x.coded (dec y.soft) : ℝ) / L) := by
  obtain ⟨u, hu, ha⟩ := annotate_get (sortTime used) i x hx
  have hmem : ∀ y, y ∈ sortTime used ↔ y ∈ used := fun y => (List.mergeSort_perm _ _).mem_iff
  cases day with
  | feb14 =>
    refine ⟨_, by simp only [decodedRx]; rw [List.getElem?_map, ha]; rfl, ?_⟩
    unfold fill14
    by_cases hb : x.rawBer = -1
    · simp [hb, Decoded]
    · simp [hb, Decoded]
  | feb16 =>
    refine ⟨_, by simp only [decodedRx]; rw [List.getElem?_map, ha]; rfl, ?_⟩
    set r0 : Reception := { src := x, rxIdx := u, inputBer := x.rawBer, success := x.rawBer ≠ -1, tx := none } with hr0
    have hr0m : r0 ∈ annotate (sortTime used) := List.mem_of_getElem? ha
    unfold fill16
    by_cases hb : x.rawBer = -1
    · have hgrp : ∀ y : Reception, y ∈ (annotate (sortTime used)).filter (fun z => z.rxIdx = r0.rxIdx) ↔
          y ∈ annotate (sortTime used) ∧ y.src.time = x.time := by
        intro y
        rw [List.mem_filter, decide_eq_true_eq]
        constructor
        · rintro ⟨h1, h2⟩
          exact ⟨h1, (annotate_time _ (sortTime_sorted used) y r0 h1 hr0m).1 h2⟩
        · rintro ⟨h1, h2⟩
          exact ⟨h1, (annotate_time _ (sortTime_sorted used) y r0 h1 hr0m).2 h2⟩
      have hrec : ∀ y ∈ used, ∃ r ∈ annotate (sortTime used), r.src = y := by
        intro y hy
        obtain ⟨j, hj⟩ := List.getElem?_of_mem ((hmem y).2 hy)
        obtain ⟨v, _, hv⟩ := annotate_get (sortTime used) j y hj
        exact ⟨_, List.mem_of_getElem? hv, rfl⟩
      have hsrc : ∀ r ∈ annotate (sortTime used), r.src ∈ used := by
        intro r hr
        obtain ⟨j, y, hj, e, _⟩ := annotate_mem _ r hr
        rw [e]
        exact (hmem y).1 (List.mem_of_getElem? hj)
      have hif : r0.inputBer = -1 := hb
      rw [if_pos hif]
      by_cases hex : ∃ y ∈ used, y.time = x.time ∧ y.rawBer > 0
      · have hex' : ∃ z ∈ (annotate (sortTime used)).filter (fun z => z.rxIdx = r0.rxIdx), z.src.rawBer > 0 := by
          obtain ⟨y, hy, hyt, hyb⟩ := hex
          obtain ⟨r, hr, rfl⟩ := hrec y hy
          exact ⟨r, (hgrp r).2 ⟨hr, hyt⟩, hyb⟩
        simp only
        rw [if_pos hex']
        obtain ⟨best, hbest, hbm, hble⟩ := firstMin_spec (fun z : Reception => |z.src.rawBer|)
          ((annotate (sortTime used)).filter (fun z => z.rxIdx = r0.rxIdx)) (by
            obtain ⟨z, hz, _⟩ := hex'
            exact List.ne_nil_of_mem hz)
        rw [hbest]
        simp only
        have hbm' := (hgrp best).1 hbm
        refine ⟨rfl, Iff.rfl, ?_, fun h => absurd hb h, fun h => absurd h (by simp), ?_⟩
        · constructor
          · intro _; exact Or.inr ⟨rfl, hex⟩
          · intro _ h; cases h
        · intro _ _ _
          refine ⟨best.src, hsrc best hbm'.1, hbm'.2, ?_, rfl, rfl⟩
          intro z hz hzt
          obtain ⟨rz, hrz, rfl⟩ := hrec z hz
          exact hble rz ((hgrp rz).2 ⟨hrz, hzt⟩)
      · have hex' : ¬ ∃ z ∈ (annotate (sortTime used)).filter (fun z => z.rxIdx = r0.rxIdx), z.src.rawBer > 0 := by
          rintro ⟨z, hz, hzb⟩
          have hz' := (hgrp z).1 hz
          exact hex ⟨z.src, hsrc z hz'.1, hz'.2, hzb⟩
        simp only
        rw [if_neg hex']
        refine ⟨rfl, Iff.rfl, ?_, fun h => absurd hb h, fun _ => hb, fun _ _ h => absurd h hex⟩
        constructor
        · intro h; exact absurd rfl h
        · rintro (h | ⟨_, h⟩)
          · exact absurd hb h
          · exact absurd h hex
    · have hif : ¬ r0.inputBer = -1 := hb
      rw [if_neg hif]
      refine ⟨rfl, Iff.rfl, ?_, fun _ => ⟨rfl, rfl⟩, fun h => absurd h (by simp), fun h => absurd h hb⟩
      constructor
      · intro _; exact Or.inl hb
      · intro _ h; cases h

theorem decodedRx_length (day : Day) (L : Nat) (dec : List ℝ → List Bool) (used : List Record) :
    (decodedRx day L dec used).length = (sortTime used).length := by
  cases day <;> simp [decodedRx, annotate_length]

theorem mapM_get {α β : Type} (f : α → Except PyErr β) : ∀ (l : List α), (∀ a ∈ l, ∃ b, f a = .ok b) →
    ∃ bs, l.mapM f = .ok bs ∧ bs.length = l.length ∧ ∀ (i : Nat) (a : α) (b : β), l[i]? = some a → bs[i]? = some b → f a = .ok b
  | [], _ => ⟨[], rfl, rfl, by simp⟩
  | a :: l, h => by
    obtain ⟨b, hb⟩ := h a (by simp)
    obtain ⟨bs, h1, h2, h3⟩ := mapM_get f l fun x hx => h x (by simp [hx])
    refine ⟨b :: bs, by rw [List.mapM_cons, hb, h1]; rfl, by simp [h2], ?_⟩
    intro i x y hx hy
    cases i with
    | zero =>
      simp only [List.getElem?_cons_zero, Option.some.injEq] at hx hy
      rw [← hx, ← hy]
      exact hb
    | succ i => exact h3 i x y hx hy

theorem usedRx_length {day : Day} {L : Nat} {ship : List Record} {x : Record} (h : x ∈ usedRx day L ship) : x.soft.length = L := by
  cases day with
  | feb14 =>
    have key : ∀ (l kept : List Record), (∀ x ∈ kept, x.soft.length = L) → ∀ x ∈ l.foldl (keepRx14 L) kept, x.soft.length = L := by
      intro l
      induction l with
      | nil => intro kept hk; exact hk
      | cons r l ih =>
        intro kept hk
        apply ih
        intro x hx
        unfold keepRx14 at hx
        split at hx
        · rename_i hr
          split at hx
          · rw [List.mem_append, List.mem_singleton] at hx
            rcases hx with hx | rfl
            · exact hk x hx
            · exact hr.1
          · split at hx
            · exact hk x hx
            · rw [List.mem_append, List.mem_singleton] at hx
              rcases hx with hx | rfl
              · exact hk x hx
              · exact hr.1
        · exact hk x hx
    exact key ship [] (by simp) x h
  | feb16 =>
    have := List.mem_filter.1 h
    simp only [decide_eq_true_eq] at this
    exact this.2.1

theorem coded_length (x : Record) : x.coded.length = x.soft.length := by simp [Record.coded]

theorem sent_length (L : Nat) (hc : List Record) : ∀ w ∈ sentWords L hc, w.length = L := by
  intro w hw
  unfold sentWords at hw
  rw [List.mem_map] at hw
  obtain ⟨x, hx, rfl⟩ := hw
  have hx' : x ∈ chooseTx L hc := (List.mergeSort_perm _ _).mem_iff.1 hx
  have := List.mem_filter.1 hx'
  simp only [decide_eq_true_eq] at this
  rw [coded_length]
  exact this.2.1

/-- The reading of a day, entry by entry. -/
theorem readDay_get (day : Day) {L : Nat} (hL : 2 ≤ L) (total : Nat) (dec : List ℝ → List Bool) (ship hc : List Record) :
    ∃ rs, readDay day L total dec ship hc = .ok rs ∧ rs.length = (sortTime (usedRx day L ship)).length ∧
      ∀ (i : Nat) (r : Reception), rs[i]? = some r → ∃ x r0, (sortTime (usedRx day L ship))[i]? = some x ∧
        (decodedRx day L dec (usedRx day L ship))[i]? = some r0 ∧ r.src = x ∧ (r.success ↔ r0.success) ∧
        ((r0.tx ≠ none ∧ r = r0) ∨ (r0.tx = none ∧
          findWord day L (sentWords L hc) (knownBefore (decodedRx day L dec (usedRx day L ship)) i)
            (knownAfter total (decodedRx day L dec (usedRx day L ship)) i) r0 = .ok r)) := by
  rw [readDay_eq]
  set known := decodedRx day L dec (usedRx day L ship) with hk
  have hsrc : ∀ (i : Nat) (r0 : Reception), known[i]? = some r0 → (sortTime (usedRx day L ship))[i]? = some r0.src := by
    intro i r0 h
    have hi : i < (sortTime (usedRx day L ship)).length := by
      rw [← decodedRx_length day L dec]
      exact (List.getElem?_eq_some_iff.1 h).1
    obtain ⟨r, h1, h2, _⟩ := decodedRx_get day L dec (usedRx day L ship) i _ (List.getElem?_eq_getElem hi)
    rw [← hk, h] at h1
    injection h1 with h1
    rw [h1, h2, List.getElem?_eq_getElem hi]
  have hlen : ∀ (i : Nat) (r0 : Reception), known[i]? = some r0 → r0.src.coded.length = L := by
    intro i r0 h
    rw [coded_length]
    have hm : r0.src ∈ sortTime (usedRx day L ship) := List.mem_of_getElem? (hsrc i r0 h)
    exact usedRx_length ((List.mergeSort_perm _ _).mem_iff.1 hm)
  obtain ⟨rs, h1, h2, h3⟩ := mapM_get (fun x : Reception × Nat => match x.1.tx with
      | some _ => Except.ok x.1
      | none => findWord day L (sentWords L hc) (knownBefore known x.2) (knownAfter total known x.2) x.1) known.zipIdx (by
    rintro ⟨r0, i⟩ hmem
    have hget : known[i]? = some r0 := by
      rw [List.mk_mem_zipIdx_iff_getElem?] at hmem
      exact hmem
    rcases htx : r0.tx with _ | w
    · obtain ⟨r', h, _⟩ := findWord_spec day hL (sentWords L hc) (sent_length L hc) (knownBefore known i)
        (knownAfter total known i) r0 (hlen i r0 hget)
      exact ⟨r', by simp only; exact h⟩
    · exact ⟨r0, by simp only⟩)
  refine ⟨rs, h1, by rw [h2, List.length_zipIdx, hk, decodedRx_length], ?_⟩
  intro i r hr
  have hi : i < known.length := by
    rw [← List.length_zipIdx (l := known) (i := 0), ← h2]
    exact (List.getElem?_eq_some_iff.1 hr).1
  have hget : known[i]? = some known[i] := List.getElem?_eq_getElem hi
  have hz : known.zipIdx[i]? = some (known[i], i) := by rw [List.getElem?_zipIdx, hget]; simp
  have hf := h3 i _ r hz hr
  simp only at hf
  refine ⟨known[i].src, known[i], hsrc i _ hget, hget, ?_⟩
  rcases htx : known[i].tx with _ | w
  · rw [htx] at hf
    simp only at hf
    obtain ⟨r', h, e1, e2, _⟩ := findWord_spec day hL (sentWords L hc) (sent_length L hc) (knownBefore known i)
        (knownAfter total known i) known[i] (hlen i _ hget)
    rw [h] at hf
    injection hf with hf
    subst hf
    exact ⟨e1, e2, Or.inr ⟨rfl, h⟩⟩
  · rw [htx] at hf
    simp only at hf
    injection hf with hf
    subst hf
    exact ⟨rfl, Iff.rfl, Or.inl ⟨by simp, rfl⟩⟩

/-! ### Neighbours -/

theorem head_filterMap {α β : Type} (f : α → Option β) : ∀ (l : List α) (p : Nat) (x : α) (w : β), l[p]? = some x →
    f x = some w → (∀ (q : Nat) (z : α), q < p → l[q]? = some z → f z = none) → (l.filterMap f).head? = some w
  | [], p, x, w, h, _, _ => by simp at h
  | y :: l, 0, x, w, h, hx, _ => by
    simp only [List.getElem?_cons_zero, Option.some.injEq] at h
    subst h
    rw [List.filterMap_cons, hx, List.head?_cons]
  | y :: l, p + 1, x, w, h, hx, hn => by
    have h0 := hn 0 y (by omega) rfl
    rw [List.filterMap_cons, h0]
    exact head_filterMap f l p x w h hx fun q z hq hz => hn (q + 1) z (by omega) hz

theorem knownBefore_eq (rs : List Reception) (i i' : Nat) (hi : i ≤ rs.length) (hii : i' < i) (r : Reception) (w : List Bool)
    (hr : rs[i']? = some r) (hw : r.tx = some w)
    (hn : ∀ (m : Nat) (z : Reception), i' < m → m < i → rs[m]? = some z → z.tx = none) : knownBefore rs i = some w := by
  have hl : (rs.take i).length = i := by rw [List.length_take]; omega
  have hg : ∀ q, q < i → (rs.take i).reverse[q]? = rs[i - 1 - q]? := by
    intro q hq
    rw [List.getElem?_reverse (by omega), hl, List.getElem?_take_of_lt (by omega)]
  apply head_filterMap _ _ (i - 1 - i') r w _ hw
  · intro q z hq hz
    rw [hg q (by omega)] at hz
    exact hn _ z (by omega) (by omega) hz
  · rw [hg _ (by omega), show i - 1 - (i - 1 - i') = i' by omega]
    exact hr

theorem knownAfter_eq (total : Nat) (rs : List Reception) (i i' : Nat) (hii : i < i') (ht : i' < total) (r : Reception)
    (w : List Bool) (hr : rs[i']? = some r) (hw : r.tx = some w)
    (hn : ∀ (m : Nat) (z : Reception), i < m → m < i' → rs[m]? = some z → z.tx = none) : knownAfter total rs i = some w := by
  have hg : ∀ q, i + 1 + q < total → ((rs.take total).drop (i + 1))[q]? = rs[i + 1 + q]? := by
    intro q hq
    rw [List.getElem?_drop, List.getElem?_take_of_lt hq]
  apply head_filterMap _ _ (i' - (i + 1)) r w _ hw
  · intro q z hq hz
    rw [hg q (by omega)] at hz
    exact hn _ z (by omega) (by omega) hz
  · rw [hg _ (by omega), show i + 1 + (i' - (i + 1)) = i' by omega]
    exact hr

theorem weights : ∀ (a b : List Bool), a.length = b.length →
    a.count true + b.count true = bitsApart a b + 2 * commonOnes a b
  | [], [], _ => rfl
  | x :: a, y :: b, h => by
    have ih := weights a b (by simpa using h)
    unfold bitsApart commonOnes at ih ⊢
    rw [List.zipWith_cons_cons, List.zipWith_cons_cons]
    simp only [List.count_cons]
    cases x <;> cases y <;> simp <;> omega
  | [], _ :: _, h => by simp at h
  | _ :: _, [], h => by simp at h

theorem commonOnes_comm (a b : List Bool) : commonOnes a b = commonOnes b a := by
  unfold commonOnes
  rw [List.zipWith_comm]
  congr 2
  funext x y
  exact Bool.and_comm _ _

/-! ### The property -/

/-- **C112, missions.** A record's mission number is one more than the number of pauses of more than five minutes before it. -/
theorem c112_missions (ts : List Int) (i : Nat) (hi : i < ts.length) :
    (missions ts)[i]? = some (1 + (List.range i).countP fun j => decide (ts.getD (j + 1) 0 - ts.getD j 0 > 300)) := by
  have key : ∀ (ts : List Int) (m : Nat) (last : Int) (i : Nat), i < ts.length → (missionsFrom m last ts)[i]? =
      some (m + (List.range (i + 1)).countP fun j => decide ((last :: ts).getD (j + 1) 0 - (last :: ts).getD j 0 > 300)) := by
    intro ts
    induction ts with
    | nil => intro m last i h; simp at h
    | cons t ts ih =>
      intro m last i h
      rw [List.range_succ_eq_map, List.countP_cons, List.countP_map, missionsFrom]
      cases i with
      | zero =>
        simp
        split <;> simp_all
      | succ i =>
        rw [List.getElem?_cons_succ, ih _ t i (by simpa using h)]
        congr 1
        have e : ((fun j => decide ((last :: t :: ts).getD (j + 1) 0 - (last :: t :: ts).getD j 0 > 300)) ∘ Nat.succ) =
            fun j => decide ((t :: ts).getD (j + 1) 0 - (t :: ts).getD j 0 > 300) := by
          funext j
          simp
        rw [e]
        simp
        split <;> omega
  cases ts with
  | nil => simp at hi
  | cons t ts =>
    cases i with
    | zero => simp [missions]
    | succ i => exact key ts 1 t i (by simpa using hi)

/-- **C112, which receptions.** On the 16th all receptions of the right length are used; on the 14th a selection of them in the same
order, no two of the same name in a row, at least one of each name. -/
theorem c112_used (L : Nat) (rs : List Record) :
    (∀ x, x ∈ usedRx .feb16 L rs ↔ x ∈ rs ∧ x.soft.length = L ∧ containsText x.name "rx" = true) ∧
    (usedRx .feb14 L rs).Sublist (usedRx .feb16 L rs) ∧
    (usedRx .feb14 L rs).IsChain (fun a b => a.name ≠ b.name) ∧
    ∀ x ∈ usedRx .feb16 L rs, ∃ y ∈ usedRx .feb14 L rs, y.name = x.name := by
  refine ⟨fun x => by simp [usedRx, chooseRx16], ?_⟩
  have key : ∀ (rs kept old : List Record), kept.Sublist old → kept.IsChain (fun a b => a.name ≠ b.name) →
      (∀ x ∈ old, ∃ y ∈ kept, y.name = x.name) →
      (rs.foldl (keepRx14 L) kept).Sublist (old ++ chooseRx16 L rs) ∧
      (rs.foldl (keepRx14 L) kept).IsChain (fun a b => a.name ≠ b.name) ∧
      ∀ x ∈ old ++ chooseRx16 L rs, ∃ y ∈ rs.foldl (keepRx14 L) kept, y.name = x.name := by
    intro rs
    induction rs with
    | nil => intro kept old h1 h2 h3; simpa [chooseRx16] using ⟨h1, h2, h3⟩
    | cons r rs ih =>
      intro kept old h1 h2 h3
      rw [List.foldl_cons]
      by_cases hr : r.soft.length = L ∧ containsText r.name "rx"
      · have e : old ++ chooseRx16 L (r :: rs) = (old ++ [r]) ++ chooseRx16 L rs := by simp [chooseRx16, hr]
        rw [e]
        have hk : keepRx14 L kept r = match kept.getLast? with
            | none => kept ++ [r]
            | some last => if r.name = last.name then kept else kept ++ [r] := by
          rw [keepRx14, if_pos hr]
          cases kept.getLast? <;> rfl
        have happ : (kept ++ [r]).Sublist (old ++ [r]) ∧ (∀ x ∈ old ++ [r], ∃ y ∈ kept ++ [r], y.name = x.name) := by
          refine ⟨List.Sublist.append h1 (List.Sublist.refl _), ?_⟩
          intro x hx
          rw [List.mem_append, List.mem_singleton] at hx
          rcases hx with hx | rfl
          · obtain ⟨y, hy, e⟩ := h3 x hx
            exact ⟨y, by simp [hy], e⟩
          · exact ⟨x, by simp, rfl⟩
        rcases hlast : kept.getLast? with _ | last
        · rw [hlast] at hk
          rw [hk]
          have : kept = [] := List.getLast?_eq_none_iff.1 hlast
          exact ih _ _ happ.1 (by subst this; simp) happ.2
        · rw [hlast] at hk
          simp only at hk
          split at hk
          · rename_i he
            rw [hk]
            refine ih _ _ (h1.trans (List.sublist_append_left _ _)) h2 ?_
            intro x hx
            rw [List.mem_append, List.mem_singleton] at hx
            rcases hx with hx | rfl
            · exact h3 x hx
            · exact ⟨last, List.mem_of_getLast? hlast, he.symm⟩
          · rename_i he
            rw [hk]
            refine ih _ _ happ.1 ?_ happ.2
            rw [List.isChain_append]
            refine ⟨h2, by simp, ?_⟩
            intro a ha b hb
            rw [hlast] at ha
            simp only [Option.mem_def, Option.some.injEq, List.head?_cons] at ha hb
            subst ha hb
            exact fun h => he h.symm
      · have e : chooseRx16 L (r :: rs) = chooseRx16 L rs := by
          unfold chooseRx16
          rw [List.filter_cons_of_neg (by simpa using hr)]
        rw [e, keepRx14, if_neg hr]
        exact ih kept old h1 h2 h3
  exact key rs [] [] (List.Sublist.refl _) (by simp) (by simp)

/-- **C112, reading.** For words of at least two bits the reading never fails. There is one result for each reception used, in the order
of their time stamps; it counts as a success exactly if the modem decoded it, and then its word is what the decoder makes of its soft
bits and its error rate is the modem's. -/
theorem c112_read (day : Day) {L : Nat} (hL : 2 ≤ L) (total : Nat) (dec : List ℝ → List Bool) (ship hc : List Record) :
    ∃ rs, readDay day L total dec ship hc = .ok rs ∧ (rs.map (·.src)).Perm (usedRx day L ship) ∧
      (rs.map (·.src.time)).Pairwise (· ≤ ·) ∧
      ∀ r ∈ rs, (r.success ↔ r.src.rawBer ≠ -1) ∧
        (r.src.rawBer ≠ -1 → r.tx = some (dec r.src.soft) ∧ r.inputBer = r.src.rawBer) := by
  obtain ⟨rs, h1, h2, h3⟩ := readDay_get day hL total dec ship hc
  have hmap : rs.map (·.src) = sortTime (usedRx day L ship) := by
    apply List.ext_getElem?
    intro i
    rw [List.getElem?_map]
    rcases hr : rs[i]? with _ | r
    · rw [List.getElem?_eq_none_iff] at hr
      rw [List.getElem?_eq_none (by omega)]
      rfl
    · obtain ⟨x, r0, hx, _, e, _⟩ := h3 i r hr
      rw [hx, ← e]
      rfl
  refine ⟨rs, h1, by rw [hmap]; exact List.mergeSort_perm _ _, ?_, ?_⟩
  · have : rs.map (·.src.time) = (rs.map (·.src)).map (·.time) := by rw [List.map_map]; rfl
    rw [this, hmap]
    exact sortTime_sorted _
  · intro r hr
    obtain ⟨i, hi⟩ := List.getElem?_of_mem hr
    obtain ⟨x, r0, hx, hr0, e, hs, hc⟩ := h3 i r hi
    obtain ⟨r1, h4, h5, h6, h7, h8, _⟩ := decodedRx_get day L dec (usedRx day L ship) i x hx
    rw [hr0] at h4
    injection h4 with h4
    subst h4
    rw [e]
    refine ⟨hs.trans h6, fun hb => ?_⟩
    rcases hc with ⟨_, rfl⟩ | ⟨hn, _⟩
    · exact h8 hb
    · exact absurd hn (h7.2 (Or.inl hb))

/-- **C112, copies.** On the 16th a reception that was not decoded, but of which a copy with a positive error rate has the same time
stamp, gets the word the decoder makes of the copy with the smallest error rate in absolute value, and as error rate the share of its
bits that differ from that word. -/
theorem c112_copy {L : Nat} (hL : 2 ≤ L) (total : Nat) (dec : List ℝ → List Bool) (ship hc : List Record)
    (rs : List Reception) (hrs : readDay .feb16 L total dec ship hc = .ok rs) (r : Reception) (hr : r ∈ rs)
    (hb : r.src.rawBer = -1) (hex : ∃ y ∈ usedRx .feb16 L ship, y.time = r.src.time ∧ y.rawBer > 0) :
    ∃ y ∈ usedRx .feb16 L ship, y.time = r.src.time ∧
      (∀ z ∈ usedRx .feb16 L ship, z.time = r.src.time → |y.rawBer| ≤ |z.rawBer|) ∧
      r.tx = some (dec y.soft) ∧ r.inputBer = (bitsApart r.src.coded (dec y.soft) : ℝ) / L ∧
      ((∀ z ∈ usedRx .feb16 L ship, z.rawBer = -1 ∨ (0 ≤ z.rawBer ∧ z.rawBer < 1)) → y.rawBer ≠ -1) := by
  obtain ⟨rs', h1, h2, h3⟩ := readDay_get .feb16 hL total dec ship hc
  rw [hrs] at h1
  injection h1 with h1
  subst h1
  obtain ⟨i, hi⟩ := List.getElem?_of_mem hr
  obtain ⟨x, r0, hx, hr0, e, hs, hc⟩ := h3 i r hi
  obtain ⟨r1, h4, h5, h6, h7, h8, h9, h10⟩ := decodedRx_get .feb16 L dec (usedRx .feb16 L ship) i x hx
  rw [hr0] at h4
  injection h4 with h4
  subst h4
  rw [e] at hb hex ⊢
  obtain ⟨y, hy, hyt, hmin, htx, hib⟩ := h10 hb rfl hex
  refine ⟨y, hy, hyt, hmin, ?_⟩
  have hrange : (∀ z ∈ usedRx .feb16 L ship, z.rawBer = -1 ∨ (0 ≤ z.rawBer ∧ z.rawBer < 1)) → y.rawBer ≠ -1 := by
    intro hall hy1
    obtain ⟨z, hz, hzt, hz0⟩ := hex
    have := hmin z hz hzt
    rw [hy1, abs_of_pos hz0, abs_neg, abs_one] at this
    rcases hall z hz with h | h
    · rw [h] at hz0; linarith
    · linarith
  rcases hc with ⟨_, rfl⟩ | ⟨hn, _⟩
  · exact ⟨htx, hib, hrange⟩
  · rw [hn] at htx
    cases htx

/-- **C112, search.** Any other reception either stays without a word, with error rate -1, or gets one of the words sent between the
words of the decoded receptions next to it, namely one with as many ones in common with the received bits as any word of that span; its
error rate is the share of bits that differ from it. If the words sent all have the same number of ones, the word is one of those of the
span that differ from the received bits in the fewest places. -/
theorem c112_search (day : Day) {L : Nat} (hL : 2 ≤ L) (total : Nat) (dec : List ℝ → List Bool) (ship hc : List Record)
    (rs : List Reception) (hrs : readDay day L total dec ship hc = .ok rs) (i : Nat) (r : Reception) (hr : rs[i]? = some r)
    (hnd : ¬ Decoded day (usedRx day L ship) r.src) :
    (r.tx = none ∧ r.inputBer = -1) ∨
    ∃ (a b k : Nat) (w : List Bool), a < b ∧ a ≤ k ∧ k ≤ b ∧ b < (sentWords L hc).length ∧ (sentWords L hc)[k]? = some w ∧
      r.tx = some w ∧ r.inputBer = (bitsApart r.src.coded w : ℝ) / L ∧
      (∀ (i' : Nat) (r' : Reception), i' < i → rs[i']? = some r' → Decoded day (usedRx day L ship) r'.src →
        (∀ (m : Nat) (z : Reception), i' < m → m < i → rs[m]? = some z → ¬ Decoded day (usedRx day L ship) z.src) →
        (sentWords L hc)[a]? = r'.tx) ∧
      (∀ (i' : Nat) (r' : Reception), i < i' → i' < total → rs[i']? = some r' → Decoded day (usedRx day L ship) r'.src →
        (∀ (m : Nat) (z : Reception), i < m → m < i' → rs[m]? = some z → ¬ Decoded day (usedRx day L ship) z.src) →
        (sentWords L hc)[b]? = r'.tx) ∧
      (∀ (j : Nat) (w' : List Bool), a ≤ j → j ≤ b → (sentWords L hc)[j]? = some w' →
        commonOnes w' r.src.coded ≤ commonOnes w r.src.coded) ∧
      ((∀ w' ∈ sentWords L hc, w'.count true = w.count true) →
        ∀ (j : Nat) (w' : List Bool), a ≤ j → j ≤ b → (sentWords L hc)[j]? = some w' →
          bitsApart r.src.coded w ≤ bitsApart r.src.coded w') := by
  obtain ⟨rs', h1, h2, h3⟩ := readDay_get day hL total dec ship hc
  rw [hrs] at h1
  injection h1 with h1
  subst h1
  set known := decodedRx day L dec (usedRx day L ship) with hk
  have hinfo : ∀ (m : Nat) (z : Reception), rs[m]? = some z → ∃ z0, known[m]? = some z0 ∧ z0.src = z.src ∧
      (z0.tx ≠ none ↔ Decoded day (usedRx day L ship) z.src) ∧ (z0.tx ≠ none → z0.tx = z.tx) := by
    intro m z hz
    obtain ⟨x, z0, hx, hz0, e, hs, hc⟩ := h3 m z hz
    obtain ⟨z1, h4, h5, h6, h7, _⟩ := decodedRx_get day L dec (usedRx day L ship) m x hx
    rw [← hk, hz0] at h4
    injection h4 with h4
    subst h4
    refine ⟨z0, hz0, by rw [h5, e], by rw [e]; exact h7, fun hn => ?_⟩
    rcases hc with ⟨_, rfl⟩ | ⟨h, _⟩
    · rfl
    · exact absurd h hn
  have hback : ∀ (m : Nat) (z0 : Reception), known[m]? = some z0 → ∃ z, rs[m]? = some z ∧
      (z0.tx ≠ none ↔ Decoded day (usedRx day L ship) z.src) := by
    intro m z0 hz0
    have hm : m < rs.length := by
      rw [h2, ← decodedRx_length day L dec]
      exact (List.getElem?_eq_some_iff.1 hz0).1
    obtain ⟨z1, h4, _, h5, _⟩ := hinfo m rs[m] (List.getElem?_eq_getElem hm)
    rw [hz0] at h4
    injection h4 with h4
    subst h4
    exact ⟨rs[m], List.getElem?_eq_getElem hm, h5⟩
  obtain ⟨x, r0, hx, hr0, e, hs, hcase⟩ := h3 i r hr
  obtain ⟨r1, h4, h5, h6, h7, h8, h9, _⟩ := decodedRx_get day L dec (usedRx day L ship) i x hx
  rw [← hk, hr0] at h4
  injection h4 with h4
  subst h4
  rw [e] at hnd
  rcases hcase with ⟨hn, _⟩ | ⟨hn, hf⟩
  · exact absurd (h7.1 hn) hnd
  have hrl : r0.src.coded.length = L := by
    rw [coded_length, h5]
    exact usedRx_length ((List.mergeSort_perm _ _).mem_iff.1 (List.mem_of_getElem? hx))
  obtain ⟨r', hf', e1, e2, hres⟩ := findWord_spec day hL (sentWords L hc) (sent_length L hc) (knownBefore known i)
    (knownAfter total known i) r0 hrl
  rw [hf] at hf'
  injection hf' with hf'
  subst hf'
  rcases hres with rfl | ⟨a, b, k, w, hab, hak, hkb, hbl, hkw, htx, hib, hbef, haft, hmax⟩
  · exact Or.inl ⟨hn, h9 hn⟩
  · right
    have hil : i < rs.length := (List.getElem?_eq_some_iff.1 hr).1
    have hsl : r.src.coded.length = L := by rw [e1]; exact hrl
    rw [← e1] at hib hmax
    refine ⟨a, b, k, w, hab, hak, hkb, hbl, hkw, htx, hib, ?_, ?_, hmax, ?_⟩
    · intro i' r' hii hr' hd hno
      obtain ⟨z0, hz0, _, hz1, hz2⟩ := hinfo i' r' hr'
      have hz3 := hz2 (hz1.2 hd)
      rcases hw' : z0.tx with _ | w'
      · exact absurd hw' (hz1.2 hd)
      rw [← hz3, hw']
      refine hbef w' (knownBefore_eq known i i' ?_ hii z0 w' hz0 hw' ?_)
      · rw [hk, decodedRx_length, ← h2]
        exact hil.le
      · intro m z hm1 hm2 hz
        obtain ⟨y, hy, hyd⟩ := hback m z hz
        by_contra hne
        exact hno m y hm1 hm2 hy (hyd.1 hne)
    · intro i' r' hii htot hr' hd hno
      obtain ⟨z0, hz0, _, hz1, hz2⟩ := hinfo i' r' hr'
      have hz3 := hz2 (hz1.2 hd)
      rcases hw' : z0.tx with _ | w'
      · exact absurd hw' (hz1.2 hd)
      rw [← hz3, hw']
      refine haft w' (knownAfter_eq total known i i' hii htot z0 w' hz0 hw' ?_)
      intro m z hm1 hm2 hz
      obtain ⟨y, hy, hyd⟩ := hback m z hz
      by_contra hne
      exact hno m y hm1 hm2 hy (hyd.1 hne)
    · intro hsame j w' h1 h2 hj
      have hc1 := hmax j w' h1 h2 hj
      have hl := sent_length L hc w (List.mem_of_getElem? hkw)
      have hl' := sent_length L hc w' (List.mem_of_getElem? hj)
      have e3 := weights r.src.coded w (by omega)
      have e4 := weights r.src.coded w' (by omega)
      have e5 := hsame w' (List.mem_of_getElem? hj)
      rw [commonOnes_comm] at hc1
      rw [commonOnes_comm w] at hc1
      omega

/-- **C112, rows.** With a decoder that gives words of `L` bits, the row saved for a reception has `L` entries; it starts with a number
below 2 exactly if its word is known, and then it is that word; otherwise all its entries are 2. -/
theorem c112_rows (day : Day) {L : Nat} (hL : 2 ≤ L) (total : Nat) (dec : List ℝ → List Bool)
    (hdec : ∀ s, (dec s).length = L) (ship hc : List Record) (rs : List Reception)
    (hrs : readDay day L total dec ship hc = .ok rs) (r : Reception) (hr : r ∈ rs) :
    (txRow L r).length = L ∧ ((txRow L r).getD 0 0 < 2 ↔ r.tx ≠ none) ∧
      (∀ w, r.tx = some w → ∀ i, (txRow L r).getD i 0 = if w.getD i false then 1 else 0) ∧
      (r.tx = none → ∀ v ∈ txRow L r, v = 2) := by
  have hlen : ∀ w, r.tx = some w → w.length = L := by
    intro w hw
    obtain ⟨i, hi⟩ := List.getElem?_of_mem hr
    by_cases hd : Decoded day (usedRx day L ship) r.src
    · rcases hd with hb | ⟨rfl, hex⟩
      · obtain ⟨rs', h1, _, _, h2⟩ := c112_read day hL total dec ship hc
        rw [hrs] at h1
        injection h1 with h1
        subst h1
        rw [((h2 r hr).2 hb).1] at hw
        injection hw with hw
        rw [← hw, hdec]
      · by_cases hb : r.src.rawBer = -1
        · obtain ⟨y, _, _, _, h, _⟩ := c112_copy hL total dec ship hc rs hrs r hr hb hex
          rw [h] at hw
          injection hw with hw
          rw [← hw, hdec]
        · obtain ⟨rs', h1, _, _, h2⟩ := c112_read .feb16 hL total dec ship hc
          rw [hrs] at h1
          injection h1 with h1
          subst h1
          rw [((h2 r hr).2 hb).1] at hw
          injection hw with hw
          rw [← hw, hdec]
    · rcases c112_search day hL total dec ship hc rs hrs i r hi hd with ⟨h, _⟩ | ⟨a, b, k, w', _, _, _, _, hk, htx, _⟩
      · rw [h] at hw
        cases hw
      · rw [htx] at hw
        injection hw with hw
        rw [← hw]
        exact sent_length L hc w' (List.mem_of_getElem? hk)
  unfold txRow
  rcases htx : r.tx with _ | w
  · have h0 : (List.replicate L 2).getD 0 0 = 2 := by
      rw [List.getD_eq_getElem?_getD, List.getElem?_replicate, if_pos (by omega)]
      rfl
    refine ⟨by simp, ?_, by simp, ?_⟩
    · simp only
      rw [h0]
      simp
    · intro _ v hv
      exact List.eq_of_mem_replicate hv
  · have hv : ∀ i, (w.map Bool.toNat).getD i 0 = if w.getD i false then 1 else 0 := by
      intro i
      rw [List.getD_eq_getElem?_getD, List.getElem?_map, List.getD_eq_getElem?_getD]
      cases w[i]? with
      | none => rfl
      | some b => cases b <;> rfl
    refine ⟨by simpa using hlen w htx, ?_, ?_, by simp⟩
    · simp only
      rw [hv]
      constructor
      · simp
      · intro _; split <;> omega
    · intro w' hw' i
      injection hw' with hw'
      rw [← hw']
      exact hv i

/-- Soft bits with the given signs. -/
noncomputable def softOf (w : List Bool) : List ℝ := w.map fun b => if b then -1 else 1

open Classical in
/-- The decoder that takes the signs. -/
noncomputable def signs (s : List ℝ) : List Bool := s.map fun x => decide (x < 0)

theorem signs_soft (w : List Bool) : signs (softOf w) = w := by
  unfold signs softOf
  rw [List.map_map]
  conv_rhs => rw [← List.map_id w]
  apply List.map_congr_left
  intro b _
  cases b <;> simp

theorem coded_soft (n : String) (t : Int) (b : ℝ) (w : List Bool) : (Record.mk n t b (softOf w)).coded = w := signs_soft w

theorem soft_length (w : List Bool) : (softOf w).length = w.length := by simp [softOf]

/-- A one and then zeros. -/
def wordA (L : Nat) : List Bool := true :: List.replicate (L - 1) false

/-- All ones. -/
def wordB (L : Nat) : List Bool := List.replicate L true

/-- The first word with its last bit received wrongly. -/
def heard (L : Nat) : List Bool := true :: (List.replicate (L - 2) false ++ [true])

theorem sortTime_of (rs : List Record) (h : rs.Pairwise fun a b => a.time ≤ b.time) : sortTime rs = rs :=
  List.mergeSort_of_pairwise (by simpa using h)

theorem heard_overlap (n : Nat) (tx : List Bool) (m : Int) : overlap tx (heard (n + 2)) m =
    (if 0 ≤ m ∧ tx.getD m.toNat false = true then 1 else 0) +
      if 0 ≤ (n : Int) + 1 + m ∧ tx.getD ((n : Int) + 1 + m).toNat false = true then 1 else 0 := by
  unfold overlap heard
  have hl : (true :: (List.replicate (n + 2 - 2) false ++ [true])).length = n + 1 + 1 := by simp
  rw [hl, List.range_succ, List.range_succ_eq_map, List.countP_append, List.countP_cons, List.countP_map]
  have h0 : ((List.range n).countP ((fun i : Nat => (true :: (List.replicate (n + 2 - 2) false ++ [true])).getD i false &&
      (decide (0 ≤ (i : Int) + m) && tx.getD ((i : Int) + m).toNat false)) ∘ Nat.succ)) = 0 := by
    rw [List.countP_eq_zero]
    intro i hi
    rw [List.mem_range] at hi
    have : (List.replicate n false ++ [true])[i]? = some false := by
      rw [List.getElem?_append_left (by simpa using hi), List.getElem?_replicate, if_pos hi]
    simp [this]
  rw [h0]
  simp [List.countP_cons]

theorem heard_best (n : Nat) (hn : 1 ≤ n) :
    bestLag ([wordA (n + 2), wordB (n + 2)].flatten) (heard (n + 2)) = some ((n : Int) + 2) := by
  have htx : ∀ p, ([wordA (n + 2), wordB (n + 2)].flatten).getD p false = true ↔ p = 0 ∨ (n + 2 ≤ p ∧ p < 2 * n + 4) := by
    intro p
    have e : [wordA (n + 2), wordB (n + 2)].flatten = wordA (n + 2) ++ wordB (n + 2) := by simp
    have hA : (wordA (n + 2)).length = n + 2 := by simp [wordA]
    rw [e, List.getD_eq_getElem?_getD]
    by_cases hp : p < n + 2
    · rw [List.getElem?_append_left (by omega)]
      cases p with
      | zero => simp [wordA]
      | succ p =>
        simp only [wordA, List.getElem?_cons_succ]
        rw [List.getElem?_replicate, if_pos (by omega)]
        simp
        omega
    · rw [List.getElem?_append_right (by omega), hA]
      unfold wordB
      rw [List.getElem?_replicate]
      split
      · simp; omega
      · simp; omega
  have hlen : max ([wordA (n + 2), wordB (n + 2)].flatten).length (heard (n + 2)).length = 2 * n + 4 := by
    simp [wordA, wordB, heard]
    omega
  unfold bestLag
  rw [hlen]
  obtain ⟨x, hx⟩ := firstMax_some (overlap ([wordA (n + 2), wordB (n + 2)].flatten) (heard (n + 2))) (lags (2 * n + 4)) (by
    intro h
    have := head_lags (2 * n + 4) (by omega)
    rw [h] at this
    cases this)
  obtain ⟨_, h2, _⟩ := firstMax_spec _ _ _ hx
  have hb := h2 ((n : Int) + 2) (by rw [mem_lags]; omega)
  rw [heard_overlap, heard_overlap] at hb
  simp only [htx] at hb
  rw [hx]
  congr 1
  split_ifs at hb <;> omega

/-- **C112, a nearer word not found.** The word chosen need not be the one nearest to the received bits: for every word length from 3 on
(the script has 4098) there are recordings where the received bits differ from one of the two words in question in a single place, and
the script assigns the other one, which differs in all places but two. -/
theorem c112_nearest_false (day : Day) (L total : Nat) (hL : 3 ≤ L) (htotal : 3 ≤ total) :
    ∃ (ship hc : List Record) (rs : List Reception) (r : Reception) (w v : List Bool),
      readDay day L total signs ship hc = .ok rs ∧ rs[1]? = some r ∧ sentWords L hc = [w, v] ∧ r.tx = some v ∧
      bitsApart r.src.coded w = 1 ∧ bitsApart r.src.coded v = L - 2 := by
  obtain ⟨n, rfl⟩ : ∃ n, L = n + 2 := ⟨L - 2, by omega⟩
  have hA : (wordA (n + 2)).length = n + 2 := by simp [wordA]
  have hB : (wordB (n + 2)).length = n + 2 := by simp [wordB]
  have hH : (heard (n + 2)).length = n + 2 := by simp [heard]
  have hAB : wordA (n + 2) ≠ wordB (n + 2) := by
    intro h
    have := congrArg (fun l : List Bool => l[1]?) h
    simp [wordA, wordB] at this
  let ship : List Record := [⟨"rx0", 0, 1 / 10, softOf (wordA (n + 2))⟩, ⟨"rx1", 1, -1, softOf (heard (n + 2))⟩,
    ⟨"rx2", 2, 1 / 10, softOf (wordB (n + 2))⟩]
  let hc : List Record := [⟨"tx0", 0, 0, softOf (wordA (n + 2))⟩, ⟨"tx1", 1, 0, softOf (wordB (n + 2))⟩]
  have c1 : containsText "rx0" "rx" = true := by decide
  have c2 : containsText "rx1" "rx" = true := by decide
  have c3 : containsText "rx2" "rx" = true := by decide
  have c4 : containsText "tx0" "rx" = false := by decide
  have c5 : containsText "tx1" "rx" = false := by decide
  have c6 : containsText "tx0" "tx" = true := by decide
  have c7 : containsText "tx1" "tx" = true := by decide
  have n1 : ¬ "rx1" = "rx0" := by decide
  have n2 : ¬ "rx2" = "rx1" := by decide
  have hused : usedRx day (n + 2) ship = ship := by
    cases day with
    | feb14 => simp [usedRx, chooseRx14, ship, keepRx14, soft_length, hA, hB, hH, c1, c2, c3]
    | feb16 => simp [usedRx, chooseRx16, ship, soft_length, hA, hB, hH, c1, c2, c3]
  have hsort : sortTime ship = ship := sortTime_of _ (by simp [ship])
  have hsent : sentWords (n + 2) hc = [wordA (n + 2), wordB (n + 2)] := by
    have h1 : chooseTx (n + 2) hc = hc := by simp [chooseTx, hc, soft_length, hA, hB, c4, c5, c6, c7]
    unfold sentWords
    rw [h1, sortTime_of _ (by simp [hc])]
    simp [hc, coded_soft]
  let k0 : Reception := ⟨⟨"rx0", 0, 1 / 10, softOf (wordA (n + 2))⟩, 0, 1 / 10, (1 / 10 : ℝ) ≠ -1, some (wordA (n + 2))⟩
  let k1 : Reception := ⟨⟨"rx1", 1, -1, softOf (heard (n + 2))⟩, 1, -1, (-1 : ℝ) ≠ -1, none⟩
  let k2 : Reception := ⟨⟨"rx2", 2, 1 / 10, softOf (wordB (n + 2))⟩, 2, 1 / 10, (1 / 10 : ℝ) ≠ -1, some (wordB (n + 2))⟩
  have hann : annotate ship = [{ k0 with tx := none }, k1, { k2 with tx := none }] := by
    simp [annotate, ship, rxIndex, rxIndexFrom, k0, k1, k2]
  have hdec : decodedRx day (n + 2) signs ship = [k0, k1, k2] := by
    cases day with
    | feb14 =>
      simp only [decodedRx]
      rw [hsort, hann]
      simp [fill14, k0, k1, k2, signs_soft]
      norm_num
    | feb16 =>
      simp only [decodedRx]
      rw [hsort, hann]
      simp [fill16, k0, k1, k2, signs_soft]
      norm_num
  have hfind : findWord day (n + 2) [wordA (n + 2), wordB (n + 2)] (some (wordA (n + 2))) (some (wordB (n + 2))) k1 =
      .ok { k1 with tx := some (wordB (n + 2)), inputBer := errorShare (n + 2) k1.src.coded (wordB (n + 2)) } := by
    have hs : spanStart day [wordA (n + 2), wordB (n + 2)] (some (wordA (n + 2))) = some 0 := by
      cases day with
      | feb14 => simp [spanStart, List.findIdx?_cons]
      | feb16 => simp [spanStart, List.findIdx?_cons, Ne.symm hAB]
    have he : spanEnd day [wordA (n + 2), wordB (n + 2)] (some 0) (some (wordB (n + 2))) = some 1 := by
      cases day <;> simp [spanEnd, List.findIdx?_cons]
    unfold findWord
    simp only
    rw [hs, he]
    simp only
    rw [if_pos (by omega : 0 < 1)]
    have e1 : (([wordA (n + 2), wordB (n + 2)].drop 0).take (1 - 0 + 1)) = [wordA (n + 2), wordB (n + 2)] := rfl
    have e2 : k1.src.coded = heard (n + 2) := coded_soft _ _ _ _
    rw [e1, e2, heard_best n (by omega)]
    simp only
    have e3 : ((n : Int) + 2) = ((n + 2 : Nat) : Int) := by push_cast; rfl
    rw [e3, Int.emod_self, if_pos rfl, Int.ediv_self (by omega)]
    simp
  refine ⟨ship, hc, [k0, { k1 with tx := some (wordB (n + 2)), inputBer := errorShare (n + 2) k1.src.coded (wordB (n + 2)) }, k2],
    _, wordA (n + 2), wordB (n + 2), ?_, rfl, hsent, rfl, ?_, ?_⟩
  · rw [readDay_eq, hused, hdec, hsent]
    have hb : knownBefore [k0, k1, k2] 1 = some (wordA (n + 2)) := rfl
    have ha : knownAfter total [k0, k1, k2] 1 = some (wordB (n + 2)) := by
      obtain ⟨t, rfl⟩ : ∃ t, total = t + 3 := ⟨total - 3, by omega⟩
      simp [knownAfter, k2]
    unfold findWords
    have hz : [k0, k1, k2].zipIdx = [(k0, 0), (k1, 1), (k2, 2)] := rfl
    rw [hz, List.mapM_cons, List.mapM_cons, List.mapM_cons, List.mapM_nil]
    simp only
    rw [hb, ha, hfind]
    rfl
  · have e : (Record.mk "rx1" 1 (-1) (softOf (heard (n + 2)))).coded = heard (n + 2) := coded_soft _ _ _ _
    change bitsApart (Record.mk "rx1" 1 (-1) (softOf (heard (n + 2)))).coded _ = _
    rw [e]
    have hw := weights (heard (n + 2)) (wordA (n + 2)) (by omega)
    have hc1 : commonOnes (heard (n + 2)) (wordA (n + 2)) = 1 := by
      unfold commonOnes heard wordA
      rw [List.zipWith_cons_cons, List.count_cons]
      have : (List.zipWith (fun x y => x && y) (List.replicate (n + 2 - 2) false ++ [true])
          (List.replicate (n + 2 - 1) false)).count true = 0 := by
        rw [List.count_eq_zero]
        intro hm
        rw [List.mem_iff_getElem?] at hm
        obtain ⟨i, hi⟩ := hm
        rw [List.getElem?_zipWith] at hi
        rcases h1 : (List.replicate (n + 2 - 1) false)[i]? with _ | b
        · rw [h1] at hi
          split at hi <;> simp_all
        · have : b = false := List.eq_of_mem_replicate (List.mem_of_getElem? h1)
          rw [h1, this] at hi
          split at hi <;> simp_all
      rw [this]
      rfl
    have h1 : (heard (n + 2)).count true = 2 := by simp [heard, List.count_replicate]
    have h2 : (wordA (n + 2)).count true = 1 := by simp [wordA, List.count_replicate]
    omega
  · have e : (Record.mk "rx1" 1 (-1) (softOf (heard (n + 2)))).coded = heard (n + 2) := coded_soft _ _ _ _
    change bitsApart (Record.mk "rx1" 1 (-1) (softOf (heard (n + 2)))).coded _ = _
    rw [e]
    have hw := weights (heard (n + 2)) (wordB (n + 2)) (by omega)
    have h1 : (heard (n + 2)).count true = 2 := by simp [heard, List.count_replicate]
    have h2 : (wordB (n + 2)).count true = n + 2 := by simp [wordB]
    have hc1 : ∀ (l : List Bool) (m : Nat), l.length = m → commonOnes l (List.replicate m true) = l.count true := by
      intro l
      induction l with
      | nil => rintro m rfl; rfl
      | cons b l ih =>
        rintro m rfl
        unfold commonOnes at ih ⊢
        rw [List.length_cons, List.replicate_succ, List.zipWith_cons_cons, List.count_cons, List.count_cons, ih _ rfl]
        simp
    have h3 := hc1 (heard (n + 2)) (n + 2) hH
    change commonOnes _ (wordB (n + 2)) = _ at h3
    omega

/-- **C112, a clean copy not used.** On the 16th a copy that was received without any wrong bit is not used: the reception below stays
without a word although its copy was decoded with error rate 0. -/
theorem c112_clean_false (L total : Nat) (hL : 2 ≤ L) (dec : List ℝ → List Bool) (s t : List ℝ) (hs : s.length = L)
    (ht : t.length = L) : ∃ (ship : List Record) (rs : List Reception) (r c : Reception),
      readDay .feb16 L total dec ship [] = .ok rs ∧ r ∈ rs ∧ c ∈ rs ∧ r.src.soft = s ∧ c.src.soft = t ∧
      r.src.time = c.src.time ∧ c.success ∧ c.src.rawBer = 0 ∧ c.tx = some (dec t) ∧ r.tx = none := by
  let x : Record := ⟨"rx0", 0, -1, s⟩
  let y : Record := ⟨"rx1", 0, 0, t⟩
  have hused : usedRx .feb16 L [x, y] = [x, y] := by
    have c1 : containsText "rx0" "rx" = true := by decide
    have c2 : containsText "rx1" "rx" = true := by decide
    simp [usedRx, chooseRx16, x, y, hs, ht, c1, c2]
  obtain ⟨rs, h1, h2, _, h4⟩ := c112_read .feb16 hL total dec [x, y] []
  rw [hused] at h2
  obtain ⟨r, hr, hrx⟩ := List.mem_map.1 (h2.mem_iff.2 (by simp : x ∈ [x, y]))
  obtain ⟨c, hc, hcy⟩ := List.mem_map.1 (h2.mem_iff.2 (by simp : y ∈ [x, y]))
  have hcb : c.src.rawBer = 0 := by rw [hcy]
  have hcn : c.src.rawBer ≠ -1 := by rw [hcb]; norm_num
  refine ⟨[x, y], rs, r, c, h1, hr, hc, by rw [hrx], by rw [hcy], by rw [hrx, hcy], ((h4 c hc).1).2 hcn, hcb, ?_, ?_⟩
  · rw [((h4 c hc).2 hcn).1, hcy]
  · obtain ⟨i, hi⟩ := List.getElem?_of_mem hr
    rcases c112_search .feb16 hL total dec [x, y] [] rs h1 i r hi (by
      rw [hrx, hused]
      rintro (h | ⟨_, z, hz, _, hz0⟩)
      · exact h rfl
      · simp only [List.mem_cons, List.not_mem_nil, or_false] at hz
        rcases hz with rfl | rfl
        · have : (-1 : ℝ) > 0 := hz0
          linarith
        · exact lt_irrefl (0 : ℝ) hz0) with h | ⟨a, b, k, w, _, _, _, hb, _⟩
    · exact h.1
    · have : sentWords L [] = [] := by
        unfold sentWords
        rw [show chooseTx L [] = [] from rfl, sortTime_of _ (by simp)]
        rfl
      rw [this] at hb
      simp at hb

/-- Three missions. -/
example : (missions [0, 100, 401, 500, 1000])[4]? = some 3 := c112_missions _ 4 (by decide)

/-- A copy that is used: the hypotheses of `c112_copy` are met. -/
example : ∃ (ship : List Record) (x : Record), x ∈ usedRx .feb16 2 ship ∧ x.rawBer = -1 ∧
    ∃ y ∈ usedRx .feb16 2 ship, y.time = x.time ∧ y.rawBer > 0 := by
  have c1 : containsText "rx0" "rx" = true := by decide
  refine ⟨[⟨"rx0", 5, -1, [1, 1]⟩, ⟨"rx0", 5, 1 / 2, [1, -1]⟩], ⟨"rx0", 5, -1, [1, 1]⟩, ?_, rfl, ⟨"rx0", 5, 1 / 2, [1, -1]⟩, ?_, rfl, by norm_num⟩
  · rw [(c112_used 2 _).1]; simp [c1]
  · rw [(c112_used 2 _).1]; simp [c1]

end NR.C112
