import Verif.Model.Runs
import Mathlib.Data.List.Nodup
import Mathlib.Data.List.Perm.Subperm
import Mathlib.Data.List.Range
import Mathlib.Algebra.Order.Ring.Int
import Mathlib.Tactic.Linarith
/-
C66: chunked encoding. C67: relabelling.
-/
namespace NR

/-! ### C66 -/

/-- `blocks` are blocks of `k` bits carrying `data`: in order they are the data followed by less than `k` bits of padding
(`k` bits for no data), and there is at least one. -/
def CarriesBlocks (k : Nat) (data : List Bool) (blocks : List (List Bool)) : Prop :=
  (∀ b ∈ blocks, b.length = k) ∧ data <+: blocks.flatten ∧ 0 < blocks.length ∧
  blocks.length * k < data.length + k + (if data = [] then 1 else 0)

theorem chunks_flatten (data : List Bool) (k m : Nat) (h : m * k ≤ data.length) :
    ((List.range m).map fun i => pySlice data (i * k) ((i + 1) * k)).flatten = data.take (m * k) ∧
    ∀ b ∈ (List.range m).map fun i => pySlice data (i * k) ((i + 1) * k), b.length = k := by
  induction m with
  | zero => simp
  | succ m ih =>
    have hm : (m + 1) * k = m * k + k := Nat.succ_mul m k
    obtain ⟨h1, h2⟩ := ih (by omega)
    rw [List.range_succ, List.map_append, List.flatten_append, h1]
    simp only [List.map_cons, List.map_nil, List.flatten_cons, List.flatten_nil, List.append_nil]
    refine ⟨?_, fun b hb => ?_⟩
    · rw [pySlice, hm, ← List.take_append_drop (m * k) (data.take (m * k + k)), List.take_take, List.drop_append]
      simp
      omega
    · rcases List.mem_append.1 hb with hb | hb
      · exact h2 b hb
      · rw [List.mem_singleton.1 hb, pySlice, List.length_drop, List.length_take]
        omega

/-- C66. A buffer whose length is not exactly `k`: the codewords are those of blocks of `k` bits that carry the data. -/
theorem c66_buffer {G β : Type} (encode : List Bool → β) (rng : G → Nat → G × (Nat → Bool)) (k : Nat) (hk : 0 < k) (g : G)
    (data : List Bool) (hne : data.length ≠ k) :
    ∃ g' blocks, encodeBuffer encode rng k g data = (g', .ok (blocks.map encode)) ∧ CarriesBlocks k data blocks := by
  unfold encodeBuffer
  split
  · rename_i hle
    have hpos : k - data.length ≠ 0 := by omega
    simp only [randomBits, if_neg hpos]
    refine ⟨_, [data ++ (List.range (k - data.length)).map (rng g (k - data.length)).2], rfl, ?_, ?_, by simp, ?_⟩
    · intro b hb
      rw [List.mem_singleton.1 hb]
      simp; omega
    · simp
    · simp only [List.length_cons, List.length_nil]
      by_cases h0 : data = []
      · simp [h0]
      · have := List.length_pos_iff.2 h0
        rw [if_neg h0]; omega
  · rename_i hgt
    rw [if_neg (by omega)]
    simp only
    have hq : 0 < data.length / k := Nat.div_pos (by omega) hk
    have hi : data.length / k - 1 + 1 = data.length / k := by omega
    have hmod := Nat.div_add_mod data.length k
    have hlt := Nat.mod_lt data.length hk
    have hmul : data.length / k * k = k * (data.length / k) := Nat.mul_comm _ _
    obtain ⟨c1, c2⟩ := chunks_flatten data k (data.length / k) (by omega)
    have hd0 : data ≠ [] := by rintro rfl; simp at hgt
    rw [hi]
    split
    · rename_i htail
      have hpos : k - (data.drop (data.length / k * k)).length ≠ 0 := by
        rw [List.length_drop]; omega
      simp only [randomBits, if_neg hpos]
      refine ⟨(rng g (k - (data.drop (data.length / k * k)).length)).1,
        ((List.range (data.length / k)).map fun i => pySlice data (i * k) ((i + 1) * k)) ++
        [data.drop (data.length / k * k) ++ (List.range (k - (data.drop (data.length / k * k)).length)).map
          (rng g (k - (data.drop (data.length / k * k)).length)).2], ?_, ?_, ?_, by simp, ?_⟩
      · simp [List.map_append, Function.comp_def]
      · intro b hb
        rcases List.mem_append.1 hb with hb | hb
        · exact c2 b hb
        · rw [List.mem_singleton.1 hb]
          simp only [List.length_append, List.length_map, List.length_range, List.length_drop]
          omega
      · rw [List.flatten_append, c1]
        simp only [List.flatten_cons, List.flatten_nil, List.append_nil]
        rw [← List.append_assoc, List.take_append_drop]
        exact List.prefix_append _ _
      · simp only [List.length_append, List.length_map, List.length_range, List.length_cons, List.length_nil]
        rw [if_neg hd0, Nat.add_mul]
        omega
    · rename_i htail
      refine ⟨g, (List.range (data.length / k)).map fun i => pySlice data (i * k) ((i + 1) * k), ?_, c2, ?_, ?_, ?_⟩
      · simp [Function.comp_def]
      · rw [c1, List.take_of_length_le (by omega)]; exact List.prefix_rfl
      · simp only [List.length_map, List.length_range]; omega
      · simp only [List.length_map, List.length_range]
        omega

/-- C66. A buffer of exactly `k` bits raises, although it needs no padding: an integer of length 0 cannot be created. -/
theorem c66_exact_length_false {G β : Type} (encode : List Bool → β) (rng : G → Nat → G × (Nat → Bool)) (k : Nat) (g : G)
    (data : List Bool) (h : data.length = k) : (encodeBuffer encode rng k g data).2 = .error .creationError := by
  unfold encodeBuffer
  rw [if_pos (by omega)]
  simp [randomBits, h]

/-- C66. A list of buffers none of which has exactly `k` bits: the codewords of all buffers in order. If one has, the call
raises. -/
theorem c66_data {G β : Type} (encode : List Bool → β) (rng : G → Nat → G × (Nat → Bool)) (k : Nat) (hk : 0 < k) (g : G)
    (buffers : List (List Bool)) :
    ((∀ b ∈ buffers, b.length ≠ k) → ∃ g' blocks, encodeData encode rng k g buffers = (g', .ok (blocks.flatten.map encode)) ∧
      List.Forall₂ (CarriesBlocks k) buffers blocks) ∧
    ((∃ b ∈ buffers, b.length = k) → (encodeData encode rng k g buffers).2 = .error .creationError) := by
  induction buffers generalizing g with
  | nil => exact ⟨fun _ => ⟨g, [], rfl, .nil⟩, by simp⟩
  | cons data rest ih =>
    refine ⟨fun h => ?_, fun ⟨b, hb, hbk⟩ => ?_⟩
    · obtain ⟨g1, bl, h1, h2⟩ := c66_buffer encode rng k hk g data (h data (List.mem_cons_self ..))
      obtain ⟨g2, bls, h3, h4⟩ := (ih g1).1 fun b hb => h b (List.mem_cons_of_mem _ hb)
      refine ⟨g2, bl :: bls, ?_, .cons h2 h4⟩
      simp only [encodeData, h1, h3]
      simp
    · by_cases hd : data.length = k
      · have := c66_exact_length_false encode rng k g data hd
        unfold encodeData
        rcases hr : encodeBuffer encode rng k g data with ⟨g1, r⟩
        rw [hr] at this
        simp only at this
        subst this
        rfl
      · obtain ⟨g1, bl, h1, h2⟩ := c66_buffer encode rng k hk g data hd
        have hb' : b ∈ rest := by
          rcases List.mem_cons.1 hb with rfl | h
          · exact absurd hbk hd
          · exact h
        have h3 := (ih g1).2 ⟨b, hb', hbk⟩
        simp only [encodeData, h1]
        rcases hr : encodeData encode rng k g1 rest with ⟨g2, r⟩
        rw [hr] at h3
        simp only at h3
        subst h3
        rfl

example : (encodeData (fun b => b) (fun (g : Nat) _ => (g + 1, fun _ => true)) 3 0
    [[false, false, false, false], [], [true, true]]).2 =
    .ok [[false, false, false], [false, true, true], [true, true, true], [true, true, true]] := by decide +kernel

/-! ### C67 -/

theorem argmaxIntFrom_spec (pre ys : List Int) (bi : Nat) (best : Int) (hbi : pre[bi]? = some best)
    (hmax : ∀ y ∈ pre, y ≤ best) :
    ∃ v, (pre ++ ys)[argmaxIntFrom best bi pre.length ys]? = some v ∧ ∀ y ∈ pre ++ ys, y ≤ v := by
  induction ys generalizing pre bi best with
  | nil => exact ⟨best, by simpa [argmaxIntFrom] using hbi, by simpa using hmax⟩
  | cons y ys ih =>
    have hlen : (pre ++ [y]).length = pre.length + 1 := by simp
    have happ : pre ++ y :: ys = (pre ++ [y]) ++ ys := by simp
    unfold argmaxIntFrom
    rw [happ, ← hlen]
    have hbl := (List.getElem?_eq_some_iff.1 hbi).1
    split
    · rename_i hlt
      apply ih
      · simp
      · intro z hz
        rcases List.mem_append.1 hz with hz | hz
        · exact le_of_lt (lt_of_le_of_lt (hmax z hz) hlt)
        · rw [List.mem_singleton.1 hz]
    · rename_i hge
      apply ih
      · rw [List.getElem?_append_left hbl]; exact hbi
      · intro z hz
        rcases List.mem_append.1 hz with hz | hz
        · exact hmax z hz
        · rw [List.mem_singleton.1 hz]; omega

theorem argmaxInt_spec (l : List Int) (h : l ≠ []) :
    ∃ a v, argmaxInt l = .ok a ∧ l[a]? = some v ∧ ∀ y ∈ l, y ≤ v := by
  cases l with
  | nil => exact absurd rfl h
  | cons y ys =>
    obtain ⟨v, h1, h2⟩ := argmaxIntFrom_spec [y] ys 0 y rfl (by simp)
    exact ⟨_, v, rfl, h1, h2⟩

theorem flatten_get (m : List (List Int)) (n : Nat) (hn : 0 < n) (hrow : ∀ r ∈ m, r.length = n) (i : Nat) :
    m.flatten[i]? = (m[i / n]?).bind fun r => r[i % n]? := by
  induction m generalizing i with
  | nil => simp
  | cons r m ih =>
    have hr := hrow r (List.mem_cons_self ..)
    rw [List.flatten_cons]
    by_cases hi : i < n
    · rw [List.getElem?_append_left (by omega), Nat.div_eq_of_lt hi, Nat.mod_eq_of_lt hi]
      rfl
    · rw [List.getElem?_append_right (by omega), hr, ih fun r' hr' => hrow r' (List.mem_cons_of_mem _ hr')]
      have h1 : i / n = (i - n) / n + 1 := by
        rw [← Nat.add_div_right _ hn]; congr 1; omega
      have h2 : i % n = (i - n) % n := by
        rw [← Nat.add_mod_right (i - n) n]; congr 1; omega
      rw [h1, h2, List.getElem?_cons_succ]

/-- Entry of a matrix. -/
def entry (m : List (List Int)) (r c : Nat) : Int := (m.getD r []).getD c 0

/-- An `n` by `n` matrix. -/
def Square (n : Nat) (m : List (List Int)) : Prop := m.length = n ∧ ∀ r ∈ m, r.length = n

theorem argmax_entry (m : List (List Int)) (n : Nat) (hn : 0 < n) (hs : Square n m) :
    ∃ a, argmaxInt m.flatten = .ok a ∧ a / n < n ∧ a % n < n ∧
      ∀ r c, r < n → c < n → entry m r c ≤ entry m (a / n) (a % n) := by
  obtain ⟨h1, h2⟩ := hs
  have hent : ∀ r c, r < n → c < n → (m.flatten)[r * n + c]? = some (entry m r c) := by
    intro r c hr hc
    rw [flatten_get m n hn h2, Nat.add_comm, Nat.add_mul_div_right _ _ hn, Nat.div_eq_of_lt hc, Nat.zero_add,
      Nat.add_mul_mod_self_right, Nat.mod_eq_of_lt hc]
    have hrl : r < m.length := by omega
    have hcl : c < (m[r]).length := by rw [h2 _ (List.getElem_mem hrl)]; exact hc
    rw [List.getElem?_eq_getElem hrl]
    simp [entry, List.getElem?_eq_getElem hrl, List.getElem?_eq_getElem hcl]
  have hne : m.flatten ≠ [] := by
    intro h0
    have := hent 0 0 hn hn
    rw [h0] at this
    simp at this
  obtain ⟨a, v, ha, hv, hmax⟩ := argmaxInt_spec _ hne
  have hcn : a % n < n := Nat.mod_lt _ hn
  have hrn : a / n < n := by
    rw [flatten_get m n hn h2] at hv
    by_contra hge
    rw [List.getElem?_eq_none (by omega)] at hv
    simp at hv
  refine ⟨a, ha, hrn, hcn, fun r c hr hc => ?_⟩
  have h3 := hent (a / n) (a % n) hrn hcn
  rw [Nat.mul_comm, Nat.div_add_mod, hv] at h3
  rw [← Option.some.inj h3]
  exact hmax _ (List.mem_of_getElem? (hent r c hr hc))

theorem dropColumn_spec (m : List (List Int)) (n c : Nat) (hs : Square n m) (hc : c < n) :
    Square n (dropColumn m c) ∧
    ∀ r d, r < n → d < n → entry (dropColumn m c) r d = if d = c then -1 else entry m r d := by
  obtain ⟨h1, h2⟩ := hs
  refine ⟨⟨by simp [dropColumn, h1], fun r hr => ?_⟩, fun r d hr hd => ?_⟩
  · obtain ⟨r', hr', rfl⟩ := List.mem_map.1 hr
    rw [List.length_set, h2 r' hr']
  · have hrl : r < m.length := by omega
    have hl := h2 _ (List.getElem_mem hrl)
    simp only [entry, dropColumn, List.getD_eq_getElem?_getD, List.getElem?_map, List.getElem?_eq_getElem hrl,
      Option.map_some, Option.getD_some]
    rw [List.getElem?_set]
    by_cases hdc : d = c
    · subst hdc
      rw [if_pos rfl, if_pos (by omega), if_pos rfl]
      rfl
    · rw [if_neg (fun h => hdc h.symm), if_neg hdc]

theorem dictPut_new (m : List (Nat × Nat)) (k v : Nat) (h : k ∉ m.map Prod.fst) : dictPut m k v = m ++ [(k, v)] := by
  unfold dictPut
  rw [if_neg]
  rw [List.any_eq_true]
  rintro ⟨x, hx, hk⟩
  exact h (List.mem_map.2 ⟨x, hx, by simpa using hk⟩)

/-- What holds of the map built so far: distinct columns, and each mapped to a row in which it is largest. -/
structure GreedyMap (n : Nat) (counts : List (List Int)) (map : List (Nat × Nat)) : Prop where
  nodup : (map.map Prod.fst).Nodup
  col : ∀ x ∈ map, x.1 < n
  row : ∀ x ∈ map, x.2 < n
  best : ∀ x ∈ map, ∀ r, r < n → entry counts r x.1 ≤ entry counts x.2 x.1

theorem fresh_column (n : Nat) (hn : 0 < n) (counts m : List (List Int)) (hpos : ∀ r c, r < n → c < n → 0 ≤ entry counts r c)
    (hm : Square n m) (map : List (Nat × Nat)) (hlen : map.length < n)
    (hrel : ∀ r c, r < n → c < n → entry m r c = if c ∈ map.map Prod.fst then -1 else entry counts r c) :
    ∃ a, argmaxInt m.flatten = .ok a ∧ a / n < n ∧ a % n < n ∧ a % n ∉ map.map Prod.fst ∧
      ∀ r, r < n → entry counts r (a % n) ≤ entry counts (a / n) (a % n) := by
  obtain ⟨a, h1, h2, h3, h4⟩ := argmax_entry m n hn hm
  have hex : ∃ c, c < n ∧ c ∉ map.map Prod.fst := by
    by_contra hno
    push Not at hno
    have : List.range n ⊆ map.map Prod.fst := fun c hc => hno c (List.mem_range.1 hc)
    have := (List.nodup_range.subperm this).length_le
    simp at this
    omega
  obtain ⟨c, hc, hcm⟩ := hex
  have hfresh : a % n ∉ map.map Prod.fst := by
    intro hin
    have := h4 0 c hn hc
    rw [hrel 0 c hn hc, if_neg hcm, hrel _ _ h2 h3, if_pos hin] at this
    have := hpos 0 c hn hc
    omega
  refine ⟨a, h1, h2, h3, hfresh, fun r hr => ?_⟩
  have := h4 r (a % n) hr h3
  rwa [hrel _ _ hr h3, hrel _ _ h2 h3, if_neg hfresh, if_neg hfresh] at this

theorem relabelLoop_spec (n : Nat) (hn : 0 < n) (counts : List (List Int))
    (hpos : ∀ r c, r < n → c < n → 0 ≤ entry counts r c) (left : Nat) :
    ∀ (m : List (List Int)) (map : List (Nat × Nat)), Square n m → GreedyMap n counts map → map.length + left < n →
      (∀ r c, r < n → c < n → entry m r c = if c ∈ map.map Prod.fst then -1 else entry counts r c) →
      ∃ m' map', relabelLoop n left m map = .ok (m', map') ∧ Square n m' ∧ GreedyMap n counts map' ∧
        map'.length = map.length + left ∧
        ∀ r c, r < n → c < n → entry m' r c = if c ∈ map'.map Prod.fst then -1 else entry counts r c := by
  induction left with
  | zero => intro m map hm hg _ hrel; exact ⟨m, map, rfl, hm, hg, rfl, hrel⟩
  | succ left ih =>
    intro m map hm hg hlen hrel
    obtain ⟨a, h1, h2, h3, h4, h5⟩ := fresh_column n hn counts m hpos hm map (by omega) hrel
    obtain ⟨d1, d2⟩ := dropColumn_spec m n (a % n) hm h3
    obtain ⟨m', map', e1, e2, e3, e4, e5⟩ := ih (dropColumn m (a % n)) (map ++ [(a % n, a / n)]) d1
      { nodup := by
          rw [List.map_append, List.nodup_append]
          refine ⟨hg.nodup, by simp, ?_⟩
          intro x hx y hy
          simp only [List.map_cons, List.map_nil, List.mem_singleton] at hy
          rintro rfl
          exact h4 (hy ▸ hx)
        col := by
          intro x hx
          rcases List.mem_append.1 hx with hx | hx
          · exact hg.col x hx
          · rw [List.mem_singleton.1 hx]; exact h3
        row := by
          intro x hx
          rcases List.mem_append.1 hx with hx | hx
          · exact hg.row x hx
          · rw [List.mem_singleton.1 hx]; exact h2
        best := by
          intro x hx
          rcases List.mem_append.1 hx with hx | hx
          · exact hg.best x hx
          · rw [List.mem_singleton.1 hx]; exact h5 } (by simp; omega) (by
        intro r c hr hc
        rw [d2 r c hr hc, hrel r c hr hc]
        simp only [List.map_append, List.map_cons, List.map_nil, List.mem_append, List.mem_singleton]
        by_cases hc1 : c = a % n
        · simp [hc1]
        · rw [if_neg hc1]
          by_cases hc2 : c ∈ map.map Prod.fst
          · rw [if_pos hc2, if_pos (.inl hc2)]
          · rw [if_neg hc2, if_neg (by tauto)])
    refine ⟨m', map', ?_, e2, e3, by rw [e4]; simp; omega, e5⟩
    simp only [relabelLoop, h1, bind, Except.bind]
    rw [dictPut_new map _ _ h4]
    exact e1

/-- The map for any matrix of counts. -/
theorem relabelMap_spec (n : Nat) (hn : 0 < n) (counts : List (List Int)) (hsq : Square n counts)
    (hpos : ∀ r c, r < n → c < n → 0 ≤ entry counts r c) :
    ∃ greedy c t, relabelMap n counts = .ok (greedy ++ [(c, t)]) ∧ GreedyMap n counts greedy ∧ greedy.length = n - 1 ∧
      c < n ∧ c ∉ greedy.map Prod.fst ∧ t < n ∧ t ∉ greedy.map Prod.snd ∧
      ∀ t', t' < t → t' ∈ greedy.map Prod.snd := by
  obtain ⟨m, map, h1, h2, h3, h4, h5⟩ := relabelLoop_spec n hn counts hpos (n - 1) counts [] hsq
    ⟨by simp, by simp, by simp, by simp⟩ (by simp; omega) (by simp)
  simp only [List.length_nil, Nat.zero_add] at h4
  obtain ⟨a, a1, a2, a3, a4, a5⟩ := fresh_column n hn counts m hpos h2 map (by omega) h5
  have hf : ∃ t rest, (List.range n).filter (fun t => !(map.map Prod.snd).contains t) = t :: rest := by
    apply List.exists_cons_of_ne_nil
    intro h0
    rw [List.filter_eq_nil_iff] at h0
    have : List.range n ⊆ map.map Prod.snd := by
      intro t ht
      simpa using h0 t ht
    have := (List.nodup_range.subperm this).length_le
    simp at this
    omega
  obtain ⟨t, rest, hf⟩ := hf
  have ht : t ∈ (List.range n).filter (fun t => !(map.map Prod.snd).contains t) := by rw [hf]; simp
  rw [List.mem_filter] at ht
  refine ⟨map, a % n, t, ?_, h3, h4, a3, a4, List.mem_range.1 ht.1, by simpa using ht.2, fun t' ht' => ?_⟩
  · unfold relabelMap
    rw [h1]
    simp only [bind, Except.bind, a1, hf]
    rw [dictPut_new map _ _ a4]
  · by_contra hno
    have hin : t' ∈ (List.range n).filter (fun t => !(map.map Prod.snd).contains t) := by
      rw [List.mem_filter]
      exact ⟨List.mem_range.2 (lt_trans ht' (List.mem_range.1 ht.1)), by simpa using hno⟩
    have hsorted : ((List.range n).filter (fun t => !(map.map Prod.snd).contains t)).Pairwise (· < ·) :=
      List.Pairwise.filter _ List.pairwise_lt_range
    rw [hf] at hin hsorted
    rw [List.pairwise_cons] at hsorted
    rcases List.mem_cons.1 hin with h | h
    · omega
    · have := hsorted.1 t' h; omega

theorem applyMap_spec (predicted : List Int) (map : List (Nat × Nat)) (hnd : (map.map Prod.fst).Nodup) :
    (applyMap predicted map).length = predicted.length ∧
    ∀ i (h : i < predicted.length),
      (∀ x ∈ map, predicted[i] = (x.1 : Int) → (applyMap predicted map)[i]? = some (x.2 : Int)) ∧
      ((∀ x ∈ map, predicted[i] ≠ (x.1 : Int)) → (applyMap predicted map)[i]? = some 255) := by
  unfold applyMap
  have key : ∀ (map : List (Nat × Nat)) (acc : List Int), (map.map Prod.fst).Nodup → acc.length = predicted.length →
      (map.foldl (fun acc kv => List.zipWith (fun (p a : Int) => if p = kv.1 then (kv.2 : Int) else a) predicted acc)
        acc).length = predicted.length ∧
      ∀ i (h : i < predicted.length),
        (∀ x ∈ map, predicted[i] = (x.1 : Int) → (map.foldl (fun acc kv => List.zipWith (fun (p a : Int) =>
          if p = kv.1 then (kv.2 : Int) else a) predicted acc) acc)[i]? = some (x.2 : Int)) ∧
        ((∀ x ∈ map, predicted[i] ≠ (x.1 : Int)) → (map.foldl (fun acc kv => List.zipWith (fun (p a : Int) =>
          if p = kv.1 then (kv.2 : Int) else a) predicted acc) acc)[i]? = acc[i]?) := by
    intro map
    induction map with
    | nil => intro acc _ hl; simp [hl]
    | cons kv map ih =>
      intro acc hnd hl
      rw [List.map_cons, List.nodup_cons] at hnd
      obtain ⟨h1, h2⟩ := ih (List.zipWith (fun (p a : Int) => if p = kv.1 then (kv.2 : Int) else a) predicted acc) hnd.2
        (by simp [hl])
      refine ⟨h1, fun i hi => ⟨fun x hx hp => ?_, fun hno => ?_⟩⟩
      · rw [List.foldl_cons]
        rcases List.mem_cons.1 hx with rfl | hx
        · rw [(h2 i hi).2]
          · rw [List.getElem?_zipWith, List.getElem?_eq_getElem hi, List.getElem?_eq_getElem (by omega)]
            simp [hp]
          · intro y hy he
            apply hnd.1
            rw [hp] at he
            exact List.mem_map.2 ⟨y, hy, by omega⟩
        · exact (h2 i hi).1 x hx hp
      · rw [List.foldl_cons, (h2 i hi).2 fun y hy => hno y (List.mem_cons_of_mem _ hy)]
        rw [List.getElem?_zipWith, List.getElem?_eq_getElem hi, List.getElem?_eq_getElem (by omega)]
        simp [hno kv (List.mem_cons_self ..)]
  obtain ⟨h1, h2⟩ := key map (predicted.map fun _ => 255) hnd (by simp)
  refine ⟨h1, fun i hi => ⟨(h2 i hi).1, fun hno => ?_⟩⟩
  rw [(h2 i hi).2 hno]
  simp [hi]

/-- Number of positions where label `c` was predicted and the true label is `r`; without true labels, where the position
is `r` modulo `n`. -/
def agreement (predicted : List Int) (n : Nat) (real : Option (List Int)) (r c : Nat) : Nat :=
  ((List.range predicted.length).filter fun i =>
    decide (predicted[i]? = some (c : Int)) && match real with
      | none => decide (i % n = r)
      | some real => decide (real[i]? = some (r : Int))).length

theorem count_class (n r q : Nat) (hr : r < n) : ((List.range (n * q)).filter fun i => i % n == r).length = q := by
  induction q with
  | zero => simp
  | succ q ih =>
    have h : List.range (n * (q + 1)) = List.range (n * q) ++ (List.range n).map (n * q + ·) := by
      rw [Nat.mul_succ, List.range_add]
    rw [h, List.filter_append, List.length_append, ih, List.filter_map, List.length_map]
    have h2 : ((List.range n).filter ((fun i => i % n == r) ∘ (n * q + ·))) = (List.range n).filter (· == r) := by
      apply List.filter_congr
      intro i hi
      rw [List.mem_range] at hi
      simp [Nat.mod_eq_of_lt hi]
    rw [h2, ← List.countP_eq_length_filter]
    have := List.count_eq_one_of_mem (List.nodup_range (n := n)) (List.mem_range.2 hr)
    unfold List.count at this
    omega

theorem countP_zip {α β : Type} (p : α × β → Bool) (a : List α) (b : List β) (h : b.length = a.length) :
    (a.zip b).countP p = ((List.range a.length).filter fun i =>
      match a[i]?, b[i]? with | some x, some y => p (x, y) | _, _ => false).length := by
  induction a generalizing b with
  | nil => simp
  | cons x a ih =>
    cases b with
    | nil => simp at h
    | cons y b =>
      rw [List.zip_cons_cons, List.countP_cons, ih b (by simpa using h), List.length_cons, List.range_succ_eq_map,
        List.filter_cons, List.filter_map]
      simp only [List.getElem?_cons_zero]
      by_cases hp : p (x, y)
      · simp [hp, Function.comp_def]
      · simp [hp, Function.comp_def]

/-- The true labels, if given, are as many as the predicted ones; otherwise the classes take turns a whole number of times. -/
def Labelled (predicted : List Int) (n : Nat) : Option (List Int) → Prop
  | none => n ∣ predicted.length
  | some real => real.length = predicted.length

theorem predictionsOf_count (predicted : List Int) (n r : Nat) (real : Option (List Int)) (hr : r < n)
    (h : Labelled predicted n real) :
    ∃ p, predictionsOf predicted n r real = .ok p ∧
      ∀ c : Nat, p.count (c : Int) = agreement predicted n real r c := by
  cases real with
  | none =>
    obtain ⟨q, hq⟩ := h
    have hlen : (((List.range predicted.length).filter fun i => i % n == r).filterMap (predicted[·]?)).length = q := by
      rw [List.length_filterMap_eq_countP, hq, List.countP_eq_length_filter, List.filter_eq_self.2]
      · exact count_class n r q hr
      intro i hi
      rw [List.mem_filter, List.mem_range] at hi
      simp [hq, hi.1]
    refine ⟨((List.range predicted.length).filter fun i => i % n == r).filterMap (predicted[·]?), ?_, fun c => ?_⟩
    · unfold predictionsOf
      simp only
      rw [if_pos]
      rw [hlen, hq, Nat.mul_div_cancel_left _ (by omega)]
    · rw [List.count, List.countP_filterMap, List.countP_filter, List.countP_eq_length_filter, agreement]
      congr 1
      apply List.filter_congr
      intro i hi
      rw [List.mem_range] at hi
      simp [List.getElem?_eq_getElem hi, beq_eq_decide]
  | some real =>
    have h' : real.length = predicted.length := h
    refine ⟨(predicted.zip real).filterMap fun x => if x.2 = (r : Int) then some x.1 else none, ?_, fun c => ?_⟩
    · unfold predictionsOf
      simp only
      rw [if_neg (by simpa using h')]
    · rw [List.count, List.countP_filterMap, countP_zip _ _ _ h', agreement]
      congr 1
      apply List.filter_congr
      intro i hi
      rw [List.mem_range] at hi
      rw [List.getElem?_eq_getElem hi, List.getElem?_eq_getElem (by omega)]
      by_cases h1 : real[i] = (r : Int)
      · simp [h1, beq_eq_decide, List.getElem?_eq_getElem (show i < real.length by omega)]
      · simp [h1, List.getElem?_eq_getElem (show i < real.length by omega)]

theorem mapM_ok_map {α β : Type} (f : α → Except PyErr β) (g : α → β) (l : List α) (h : ∀ a ∈ l, f a = .ok (g a)) :
    l.mapM f = .ok (l.map g) := by
  induction l with
  | nil => rfl
  | cons a l ih =>
    rw [List.mapM_cons, h a (List.mem_cons_self ..), ih fun b hb => h b (List.mem_cons_of_mem _ hb)]
    rfl

theorem predictionCounts_spec (predicted : List Int) (n : Nat) (real : Option (List Int)) (h : Labelled predicted n real) :
    predictionCounts predicted n real =
      .ok ((List.range n).map fun r => (List.range n).map fun c => (agreement predicted n real r c : Int)) := by
  unfold predictionCounts
  apply mapM_ok_map
  intro r hr
  obtain ⟨p, hp, hc⟩ := predictionsOf_count predicted n r real (List.mem_range.1 hr) h
  simp only [hp, bind, Except.bind, hc]

theorem relabel_spec (predicted : List Int) (n : Nat) (hn : 0 < n) (real : Option (List Int))
    (h : Labelled predicted n real) :
    ∃ out greedy c t, relabel predicted n real = .ok (out, greedy ++ [(c, t)]) ∧
      out = applyMap predicted (greedy ++ [(c, t)]) ∧
      ((greedy ++ [(c, t)]).map Prod.fst).Perm (List.range n) ∧
      (∀ x ∈ greedy ++ [(c, t)], x.2 < n) ∧
      (∀ x ∈ greedy, ∀ r, r < n → agreement predicted n real r x.1 ≤ agreement predicted n real x.2 x.1) ∧
      t ∉ greedy.map Prod.snd ∧ (∀ t', t' < t → t' ∈ greedy.map Prod.snd) := by
  set counts : List (List Int) :=
    (List.range n).map fun r => (List.range n).map fun c => (agreement predicted n real r c : Int) with hcounts
  have hsq : Square n counts := by
    refine ⟨by simp [hcounts], fun r hr => ?_⟩
    rw [hcounts] at hr
    obtain ⟨_, _, rfl⟩ := List.mem_map.1 hr
    simp
  have hent : ∀ r c, r < n → c < n → entry counts r c = (agreement predicted n real r c : Int) := by
    intro r c hr hc
    simp [entry, hcounts, hr, hc]
  obtain ⟨greedy, c, t, h1, h2, h3, h4, h5, h6, h7, h8⟩ := relabelMap_spec n hn counts hsq
    (fun r c hr hc => by rw [hent r c hr hc]; omega)
  refine ⟨_, greedy, c, t, ?_, rfl, ?_, ?_, ?_, h7, h8⟩
  · unfold relabel
    rw [if_neg (by omega), predictionCounts_spec predicted n real h, ← hcounts]
    simp only [bind, Except.bind, h1]
  · have hnd : ((greedy ++ [(c, t)]).map Prod.fst).Nodup := by
      rw [List.map_append, List.nodup_append]
      refine ⟨h2.nodup, by simp, ?_⟩
      intro x hx y hy
      simp only [List.map_cons, List.map_nil, List.mem_singleton] at hy
      rintro rfl
      exact h5 (hy ▸ hx)
    have hsub : (greedy ++ [(c, t)]).map Prod.fst ⊆ List.range n := by
      intro x hx
      obtain ⟨y, hy, rfl⟩ := List.mem_map.1 hx
      rw [List.mem_range]
      rcases List.mem_append.1 hy with hy | hy
      · exact h2.col y hy
      · rw [List.mem_singleton.1 hy]; exact h4
    exact (hnd.subperm hsub).perm_of_length_le (by simp; omega)
  · intro x hx
    rcases List.mem_append.1 hx with hx | hx
    · exact h2.row x hx
    · rw [List.mem_singleton.1 hx]; exact h6
  · intro x hx r hr
    have := h2.best x hx r hr
    rw [hent _ _ hr (h2.col x hx), hent _ _ (h2.row x hx) (h2.col x hx)] at this
    omega

/-- C67. `relabel` returns a map defined on exactly the labels `0..n-1`, with values among them, and the predicted labels
with the map applied; labels outside are given as 255. -/
theorem c67_total (predicted : List Int) (n : Nat) (hn : 0 < n) (real : Option (List Int))
    (h : Labelled predicted n real) :
    ∃ out map, relabel predicted n real = .ok (out, map) ∧ (map.map Prod.fst).Perm (List.range n) ∧
      (∀ x ∈ map, x.2 < n) ∧ out.length = predicted.length ∧
      ∀ i (hi : i < predicted.length),
        (∀ x ∈ map, predicted[i] = (x.1 : Int) → out[i]? = some (x.2 : Int)) ∧
        ((∀ c : Nat, c < n → predicted[i] ≠ (c : Int)) → out[i]? = some 255) := by
  obtain ⟨out, greedy, c, t, h1, rfl, h3, h4, -, -, -⟩ := relabel_spec predicted n hn real h
  have hnd := h3.nodup_iff.2 List.nodup_range
  obtain ⟨a1, a2⟩ := applyMap_spec predicted _ hnd
  refine ⟨_, _, h1, h3, h4, a1, fun i hi => ⟨(a2 i hi).1, fun hno => (a2 i hi).2 fun x hx => ?_⟩⟩
  exact hno x.1 (List.mem_range.1 (h3.mem_iff.1 (List.mem_map.2 ⟨x, hx, rfl⟩)))

/-- C67. All predicted labels but one are mapped to a true label they agree with most often; the last one is mapped to the
smallest true label no other is mapped to. -/
theorem c67_majority (predicted : List Int) (n : Nat) (hn : 0 < n) (real : Option (List Int))
    (h : Labelled predicted n real) :
    ∃ out greedy c t, relabel predicted n real = .ok (out, greedy ++ [(c, t)]) ∧
      (∀ x ∈ greedy, ∀ r, r < n → agreement predicted n real r x.1 ≤ agreement predicted n real x.2 x.1) ∧
      t ∉ greedy.map Prod.snd ∧ (∀ t', t' < t → t' ∈ greedy.map Prod.snd) := by
  obtain ⟨out, greedy, c, t, h1, -, -, -, h5, h6, h7⟩ := relabel_spec predicted n hn real h
  exact ⟨out, greedy, c, t, h1, h5, h6, h7⟩

/-- C67. The map is one-to-one onto the true labels exactly when no two of the majority choices coincide. -/
theorem c67_one_to_one_iff (predicted : List Int) (n : Nat) (hn : 0 < n) (real : Option (List Int))
    (h : Labelled predicted n real) (out : List Int) (map : List (Nat × Nat)) (hr : relabel predicted n real = .ok (out, map)) :
    (map.map Prod.snd).Perm (List.range n) ↔ (map.map Prod.snd).dropLast.Nodup := by
  obtain ⟨out', greedy, c, t, h1, -, h3, h4, -, h6, -⟩ := relabel_spec predicted n hn real h
  rw [hr] at h1
  obtain ⟨rfl, rfl⟩ := Prod.mk.inj (Except.ok.inj h1)
  have hdl : ((greedy ++ [(c, t)]).map Prod.snd).dropLast = greedy.map Prod.snd := by simp
  rw [hdl]
  constructor
  · intro hp
    have := hp.nodup_iff.2 List.nodup_range
    rw [List.map_append, List.nodup_append] at this
    exact this.1
  · intro hnd
    have hnd' : ((greedy ++ [(c, t)]).map Prod.snd).Nodup := by
      rw [List.map_append, List.nodup_append]
      refine ⟨hnd, by simp, ?_⟩
      intro x hx y hy
      simp only [List.map_cons, List.map_nil, List.mem_singleton] at hy
      rintro rfl
      exact h6 (hy ▸ hx)
    have hsub : (greedy ++ [(c, t)]).map Prod.snd ⊆ List.range n := by
      intro x hx
      obtain ⟨y, hy, rfl⟩ := List.mem_map.1 hx
      exact List.mem_range.2 (h4 y hy)
    have hl := h3.length_eq
    simp only [List.length_map, List.length_range] at hl
    exact (hnd'.subperm hsub).perm_of_length_le (by simp at hl ⊢; omega)

/-- C67. With at most two classes the map is always one-to-one. -/
theorem c67_two_classes (predicted : List Int) (n : Nat) (hn : 0 < n) (h2 : n ≤ 2) (real : Option (List Int))
    (h : Labelled predicted n real) :
    ∃ out map, relabel predicted n real = .ok (out, map) ∧ (map.map Prod.snd).Perm (List.range n) := by
  obtain ⟨out, greedy, c, t, h1, -, h3, -⟩ := relabel_spec predicted n hn real h
  refine ⟨_, _, h1, (c67_one_to_one_iff predicted n hn real h _ _ h1).2 ?_⟩
  have hl := h3.length_eq
  simp only [List.length_map, List.length_range, List.length_append, List.length_cons, List.length_nil] at hl
  rw [show ((greedy ++ [(c, t)]).map Prod.snd).dropLast = greedy.map Prod.snd by simp]
  match greedy, hl with
  | [], _ => simp
  | [x], _ => simp
  | x :: y :: l, hl => simp at hl; omega

/-- C67. In general it is not: with three classes two predicted labels are mapped to the true label 0 and none to 2. -/
theorem c67_false :
    relabel [0, 2, 2, 0, 2, 2, 1, 0, 0, 1, 1, 1] 3 none =
      .ok ([0, 1, 1, 0, 1, 1, 0, 0, 0, 0, 0, 0], [(0, 0), (1, 0), (2, 1)]) := by decide +kernel

/-- C67. When the predicted labels are the true labels renamed, each class occurring, `relabel` recovers the true labels. -/
theorem c67_recovers (n : Nat) (hn : 0 < n) (truth : List Nat) (ht : ∀ r ∈ truth, r < n) (hall : ∀ r, r < n → r ∈ truth)
    (σ : Nat → Nat) (hσ : ∀ r, r < n → σ r < n) (hinj : ∀ r s, r < n → s < n → σ r = σ s → r = s) :
    ∃ map, relabel (truth.map fun (r : Nat) => (σ r : Int)) n (some (truth.map Int.ofNat)) =
      .ok (truth.map Int.ofNat, map) := by
  have hL : Labelled (truth.map fun (r : Nat) => (σ r : Int)) n (some (truth.map Int.ofNat)) := by simp [Labelled]
  have hag : ∀ r s, r < n → s < n → (0 < agreement (truth.map fun (r : Nat) => (σ r : Int)) n
      (some (truth.map Int.ofNat)) s (σ r) ↔ s = r) := by
    intro r s hr hs
    rw [agreement, List.length_pos_iff_exists_mem]
    constructor
    · rintro ⟨i, hi⟩
      simp only [List.mem_filter, List.mem_range, List.length_map, List.getElem?_map, Bool.and_eq_true,
        decide_eq_true_eq] at hi
      obtain ⟨h1, h2, h3⟩ := hi
      rw [List.getElem?_eq_getElem h1] at h2 h3
      simp only [Option.map_some, Option.some.injEq, Int.natCast_inj, Int.ofNat_eq_natCast] at h2 h3
      have := hinj _ _ (ht _ (List.getElem_mem h1)) hr h2
      omega
    · rintro rfl
      obtain ⟨i, hi, he⟩ := List.mem_iff_getElem.1 (hall s hs)
      refine ⟨i, ?_⟩
      simp [hi, he]
  obtain ⟨out, greedy, c, t, h1, rfl, h3, h4, h5, h6, h7⟩ := relabel_spec _ n hn _ hL
  have hsurj : ∀ c, c < n → ∃ r, r < n ∧ σ r = c := by
    intro c hc
    have hnd : ((List.range n).map σ).Nodup := by
      rw [List.nodup_map_iff_inj_on List.nodup_range]
      intro r hr s hs he
      exact hinj r s (List.mem_range.1 hr) (List.mem_range.1 hs) he
    have hsub : (List.range n).map σ ⊆ List.range n := by
      intro x hx
      obtain ⟨r, hr, rfl⟩ := List.mem_map.1 hx
      exact List.mem_range.2 (hσ r (List.mem_range.1 hr))
    have hp := (hnd.subperm hsub).perm_of_length_le (by simp)
    obtain ⟨r, hr, he⟩ := List.mem_map.1 (hp.mem_iff.2 (List.mem_range.2 hc))
    exact ⟨r, List.mem_range.1 hr, he⟩
  have hkey : ∀ x ∈ greedy ++ [(c, t)], x.1 < n := fun x hx =>
    List.mem_range.1 (h3.mem_iff.1 (List.mem_map.2 ⟨x, hx, rfl⟩))
  have hgr : ∀ x ∈ greedy, σ x.2 = x.1 := by
    intro x hx
    have hx' := List.mem_append_left [(c, t)] hx
    obtain ⟨r, hr, he⟩ := hsurj x.1 (hkey x hx')
    have hpos := (hag r r hr hr).2 rfl
    rw [he] at hpos
    have := h5 x hx r hr
    have h8 := (hag r x.2 hr (h4 x hx')).1 (by rw [he]; omega)
    rw [h8, he]
  have hnd := h3.nodup_iff.2 List.nodup_range
  have hlast : σ t = c := by
    have htn := h4 (c, t) (by simp)
    have hmem := h3.mem_iff.2 (List.mem_range.2 (hσ t htn))
    obtain ⟨x, hx, hxe⟩ := List.mem_map.1 hmem
    rcases List.mem_append.1 hx with hx' | hx'
    · exfalso
      apply h6
      have := hgr x hx'
      have := hinj x.2 t (h4 x hx) htn (by rw [this, hxe])
      exact List.mem_map.2 ⟨x, hx', this⟩
    · rw [List.mem_singleton.1 hx'] at hxe
      exact hxe.symm
  have hmap : ∀ x ∈ greedy ++ [(c, t)], σ x.2 = x.1 := by
    intro x hx
    rcases List.mem_append.1 hx with hx' | hx'
    · exact hgr x hx'
    · rw [List.mem_singleton.1 hx']; exact hlast
  refine ⟨greedy ++ [(c, t)], h1.trans ?_⟩
  congr 2
  obtain ⟨a1, a2⟩ := applyMap_spec (truth.map fun (r : Nat) => (σ r : Int)) _ hnd
  apply List.ext_getElem?
  intro i
  by_cases hi : i < truth.length
  · have hr := ht _ (List.getElem_mem hi)
    obtain ⟨x, hx, hxe⟩ := List.mem_map.1 (h3.mem_iff.2 (List.mem_range.2 (hσ _ hr)))
    have hx2 := hinj x.2 truth[i] (h4 x hx) hr (by rw [hmap x hx, hxe])
    rw [(a2 i (by simpa using hi)).1 x hx (by simp [hxe])]
    simp [hi, hx2]
  · rw [List.getElem?_eq_none (by rw [a1]; simp; omega), List.getElem?_eq_none (by simp; omega)]

example : relabel [2, 0, 1, 2, 2] 3 (some [0, 1, 2, 0, 0]) = .ok ([0, 1, 2, 0, 0], [(2, 0), (0, 1), (1, 2)]) := by
  decide +kernel

end NR
