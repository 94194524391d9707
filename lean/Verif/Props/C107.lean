import Verif.Spec.Batch
import Verif.Props.C101
import Mathlib.Data.Nat.Digits.Lemmas
import Mathlib.Algebra.Order.Field.Basic
import Mathlib.Tactic.Positivity
import Mathlib.Tactic.Ring
import Mathlib.Tactic.NormNum
import Mathlib.Tactic.Linarith
import Mathlib.Tactic.FieldSimp
/-
C107: what the batch scripts run.
-/
namespace NR.C107
open NR NR.Command NR.Batch NR.Spec

/-! ### `seq` -/

theorem seq_get {lo inc hi k : Nat} (h : 0 < inc) : (seq lo inc hi)[k]? = if lo + k * inc ≤ hi then some (lo + k * inc) else none := by
  unfold seq
  rw [if_neg (by omega), List.getElem?_map]
  have key : k < (hi + inc - lo) / inc ↔ lo + k * inc ≤ hi := by
    rw [Nat.lt_iff_add_one_le, Nat.le_div_iff_mul_le h, Nat.add_mul, Nat.one_mul]
    constructor <;> intro h' <;> omega
  by_cases hk : lo + k * inc ≤ hi
  · rw [if_pos hk, List.getElem?_range (key.2 hk)]
    rfl
  · rw [if_neg hk, List.getElem?_eq_none (by rw [List.length_range]; exact Nat.not_lt.1 fun h' => hk (key.1 h'))]
    rfl

/-! ### argparse -/

theorem parse_flags {F : Type} {fl : Floats F} {opts : List Opt} (hn : (opts.map (·.name)).Nodup) :
    ∀ (gs : List (Opt × Word × Val F)) (a : Args F),
      (∀ g ∈ gs, g.1 ∈ opts ∧ kind opts g.2.1 = .arg ∧ convert fl g.2.1 g.1.ty = some g.2.2) →
      parse fl opts (gs.flatMap fun g => [flagWord g.1.name, g.2.1]) a =
        .ok (gs.foldl (fun a g => Function.update a g.1.name g.2.2) a)
  | [], a, _ => by simp [parse]
  | g :: gs, a, h => by
    obtain ⟨h1, h2, h3⟩ := h g (by simp)
    have ih := parse_flags (fl := fl) hn gs (Function.update a g.1.name g.2.2) fun x hx => h x (by simp [hx])
    rw [List.flatMap_cons, List.cons_append, List.cons_append, List.nil_append, parse, kind_flag hn h1]
    simp only [h2, h3]
    rw [ih]
    rfl

theorem fold_update {F : Type} : ∀ (gs : List (Opt × Word × Val F)) (a : Args F) (x : String), (gs.map fun g => g.1.name).Nodup →
    gs.foldl (fun a g => Function.update a g.1.name g.2.2) a x = ((gs.map fun g => (g.1.name, g.2.2)).lookup x).getD (a x)
  | [], a, x, _ => rfl
  | g :: gs, a, x, h => by
    rw [List.map_cons, List.nodup_cons] at h
    rw [List.foldl_cons, fold_update gs _ x h.2, List.map_cons, List.lookup_cons]
    by_cases hx : x = g.1.name
    · subst hx
      have hnone : (gs.map fun g => (g.1.name, g.2.2)).lookup g.1.name = none := by
        rw [List.lookup_eq_none_iff]
        intro p hp
        obtain ⟨g', hg', rfl⟩ := List.mem_map.1 hp
        simp only [bne_iff_ne, ne_eq]
        exact fun he => h.1 (List.mem_map.2 ⟨g', hg', he.symm⟩)
      rw [hnone]
      simp
    · have hb : (x == g.1.name) = false := by simpa using hx
      simp only [hb]
      rw [Function.update_of_ne hx]

theorem run_flags {F : Type} {fl : Floats F} {s : Script} (hs : s ∈ scripts) {cmd : List Word} {p q : Word}
    {gs : List (Opt × Word × Val F)} (hc : cmd = p :: q :: gs.flatMap fun g => [flagWord g.1.name, g.2.1])
    (h : ∀ g ∈ gs, g.1 ∈ s.opts ∧ kind s.opts g.2.1 = .arg ∧ convert fl g.2.1 g.1.ty = some g.2.2)
    (hd : (gs.map fun g => g.1.name).Nodup) :
    ∃ b, run fl s cmd = .ok b ∧ Settings fl s.opts (gs.map fun g => (g.1.name, g.2.2)) b := by
  have hn := (tables_clean s hs).2.2.2
  refine ⟨gs.foldl (fun a g => Function.update a g.1.name g.2.2) (defaults fl s.opts), ?_, ?_⟩
  · unfold run
    rw [hc]
    exact parse_flags hn gs _ h
  · intro o ho
    rw [fold_update gs _ _ hd, defaults_opt fl hn ho]

theorem kind_digits {opts : List Opt} {w : Word} (h : digits w = true) : kind opts w = .arg := by
  obtain ⟨c, r, hw, hc, _⟩ := digits_cons h
  exact kind_noDash opts (by rw [hw]; simp [(isDigit_ne hc).1])

theorem textN_textI (n : Nat) : textN n = textI n := by
  unfold textI
  rw [if_neg (by omega), Int.natAbs_natCast]

/-! ### Decimal numbers -/

theorem range_of_isDigit {c : Char} (h : isDigit c = true) : '0' ≤ c ∧ c ≤ '9' := by
  unfold isDigit at h
  simp only [Bool.and_eq_true, decide_eq_true_eq] at h
  exact ⟨h.1, h.2⟩

theorem textN_range (n : Nat) : textN n ≠ [] ∧ ∀ c ∈ textN n, '0' ≤ c ∧ c ≤ '9' := by
  obtain ⟨c, r, hw, _, ha⟩ := digits_cons (textN_digits n)
  exact ⟨by rw [hw]; simp, fun c hc => range_of_isDigit (ha c hc)⟩

theorem value_zero (w : Word) : value ('0' :: w) = value w := by
  unfold value
  rw [List.reverse_cons, List.map_append, Nat.ofDigits_append]
  simp

theorem textN_length {i d : Nat} (h : HasDigits i d) : (textN i).length = d := by
  unfold textN
  rcases h with ⟨rfl, rfl⟩ | ⟨h0, h1, h2⟩
  · rfl
  · have hi : i ≠ 0 := by
      have : 0 < 10 ^ (d - 1) := by positivity
      omega
    rw [if_neg hi, List.length_map, List.length_reverse]
    have a := (Nat.digits_length_le_iff (by decide : 1 < 10) i).2 h2
    have b := (Nat.lt_digits_length_iff (by decide : 1 < 10) i).2 h1
    omega

theorem digits_exist (i : Nat) : ∃ d, HasDigits i d := by
  by_cases h : i = 0
  · exact ⟨1, .inl ⟨h, rfl⟩⟩
  · have hl : 0 < (Nat.digits 10 i).length := List.length_pos_iff.2 (Nat.digits_ne_nil_iff_ne_zero.2 h)
    refine ⟨(Nat.digits 10 i).length, .inr ⟨hl, ?_, ?_⟩⟩
    · exact (Nat.lt_digits_length_iff (by decide : 1 < 10) i).1 (by omega)
    · exact (Nat.digits_length_le_iff (by decide : 1 < 10) i).1 (le_refl _)

theorem digits_unique {i d e : Nat} (h : HasDigits i d) (h' : HasDigits i e) : d = e := by
  rw [← textN_length h, ← textN_length h']

/-- Reading `0.` followed by zeros and a counter. -/
theorem read_counter {F : Type} {fl : Floats F} (hfl : Decimals fl) {i d : Nat} (hd : HasDigits i d) :
    fl.read ("0.".toList ++ textN i) = some (fl.lit (i / 10 ^ (0 + d))) ∧
    fl.read ("0.0".toList ++ textN i) = some (fl.lit (i / 10 ^ (1 + d))) ∧
    fl.read ("0.00".toList ++ textN i) = some (fl.lit (i / 10 ^ (2 + d))) := by
  have hr := textN_range i
  have hl := textN_length hd
  have hz : '0' ≤ '0' ∧ '0' ≤ '9' := by decide
  refine ⟨?_, ?_, ?_⟩
  · have := hfl (textN i) hr.1 hr.2
    rw [textN_value, hl] at this
    rw [Nat.zero_add]
    exact this
  · have := hfl ('0' :: textN i) (by simp) (by
      intro c hc
      rcases List.mem_cons.1 hc with rfl | hc
      · exact hz
      · exact hr.2 c hc)
    rw [value_zero, textN_value, List.length_cons, hl] at this
    rw [Nat.add_comm 1 d]
    exact this
  · have := hfl ('0' :: '0' :: textN i) (by simp) (by
      intro c hc
      rcases List.mem_cons.1 hc with rfl | hc
      · exact hz
      · rcases List.mem_cons.1 hc with rfl | hc
        · exact hz
        · exact hr.2 c hc)
    rw [value_zero, value_zero, textN_value, List.length_cons, List.length_cons, hl] at this
    rw [Nat.add_comm 2 d]
    exact this

theorem runs_some {zeros : String} {clusters multiply : Int} {lo inc hi : Nat} (hinc : 0 < inc) (k : Nat) :
    ((classifierRuns zeros clusters lo inc hi multiply)[k]?).isSome ↔ lo + k * inc ≤ hi := by
  unfold classifierRuns
  rw [List.getElem?_map, seq_get hinc]
  split <;> simp_all

theorem runs_classifier {F : Type} {fl : Floats F} {zeros : String} {clusters multiply : Int} {lo inc hi : Nat} (hinc : 0 < inc) {k : Nat}
    {cmd : List Word} (hk : (classifierRuns zeros clusters lo inc hi multiply)[k]? = some cmd) {x : F}
    (hz : zeros.toList.head? = some '0') (hx : fl.read (zeros.toList ++ textN (lo + k * inc)) = some x) :
    cmd.take 2 = ["python".toList, "classifier_analysis.py".toList] ∧ ∃ b, run fl s21 cmd = .ok b ∧ Settings fl s21.opts
      [("threshold", .float x), ("n_clusters", .int clusters), ("multiply_data", .int multiply)] b := by
  unfold classifierRuns at hk
  rw [List.getElem?_map, seq_get hinc] at hk
  split at hk
  · cases hk
    refine ⟨rfl, run_flags (s := s21) (by decide +kernel)
      (gs := [(⟨"threshold", .float, .int 0⟩, zeros.toList ++ textN (lo + k * inc), .float x),
        (⟨"n_clusters", .int, .int 1⟩, textI clusters, .int clusters), (⟨"multiply_data", .int, .int 0⟩, textI multiply, .int multiply)])
      (by rfl) ?_ ?_⟩
    · intro g hg
      simp only [List.mem_cons, List.not_mem_nil, or_false] at hg
      rcases hg with rfl | rfl | rfl
      · refine ⟨?_, kind_noDash _ ?_, by simp only [convert, hx, Option.map_some]⟩
        · show (⟨"threshold", .float, .int 0⟩ : Opt) ∈ s21.opts
          decide +kernel
        · rw [List.head?_append, hz]
          simp
      · refine ⟨?_, kind_textI _ _, by simp only [convert, readI_textI, Option.map_some]⟩
        show (⟨"n_clusters", .int, .int 1⟩ : Opt) ∈ s21.opts
        decide +kernel
      · refine ⟨?_, kind_textI _ _, by simp only [convert, readI_textI, Option.map_some]⟩
        show (⟨"multiply_data", .int, .int 0⟩ : Opt) ∈ s21.opts
        decide +kernel
    · show ["threshold", "n_clusters", "multiply_data"].Nodup
      decide
  · cases hk

/-! ### C107 -/

/-- C107. scripts/batch_runner_classifier.sh: the `k`-th run is that of the counter `i = min + k * inc`, as long as this is at most
`max`; it is accepted, its threshold is the decimal number with two zeros and the digits of the counter behind the point, the numbers of
clusters and doublings are the ones given, and all else is at its default. -/
theorem c107_classifier {F : Type} {fl : Floats F} (hfl : Decimals fl) (clusters multiply : Int) (lo inc hi : Nat) (hinc : 0 < inc) :
    (∀ k, ((classifierRuns "0.00" clusters lo inc hi multiply)[k]?).isSome ↔ lo + k * inc ≤ hi) ∧
    ∀ k cmd, (classifierRuns "0.00" clusters lo inc hi multiply)[k]? = some cmd → ∀ d, HasDigits (lo + k * inc) d →
      cmd.take 2 = ["python".toList, "classifier_analysis.py".toList] ∧ ∃ b, run fl s21 cmd = .ok b ∧ Settings fl s21.opts
        [("threshold", .float (fl.lit ((lo + k * inc : Nat) / 10 ^ (2 + d)))), ("n_clusters", .int clusters),
          ("multiply_data", .int multiply)] b :=
  ⟨runs_some hinc, fun _ _ hk _ hd => runs_classifier hinc hk rfl (read_counter hfl hd).2.2⟩

/-- C107. runs/HC_eilat_July_2018/batch_run_mav_decoder.sh, given to the analysis it names: the same with one zero. -/
theorem c107_mav {F : Type} {fl : Floats F} (hfl : Decimals fl) (clusters multiply : Int) (lo inc hi : Nat) (hinc : 0 < inc) :
    (∀ k, ((classifierRuns "0.0" clusters lo inc hi multiply)[k]?).isSome ↔ lo + k * inc ≤ hi) ∧
    ∀ k cmd, (classifierRuns "0.0" clusters lo inc hi multiply)[k]? = some cmd → ∀ d, HasDigits (lo + k * inc) d →
      cmd.take 2 = ["python".toList, "classifier_analysis.py".toList] ∧ ∃ b, run fl s21 cmd = .ok b ∧ Settings fl s21.opts
        [("threshold", .float (fl.lit ((lo + k * inc : Nat) / 10 ^ (1 + d)))), ("n_clusters", .int clusters),
          ("multiply_data", .int multiply)] b :=
  ⟨runs_some hinc, fun _ _ hk _ hd => runs_classifier hinc hk rfl (read_counter hfl hd).2.1⟩

/-- C107. runs/clsutering_analysis/batch_runner.sh: the same for the bit error probability, with no zero. -/
theorem c107_clustering {F : Type} {fl : Floats F} (hfl : Decimals fl) (nRuns : Int) (lo inc hi : Nat) (hinc : 0 < inc) :
    (∀ k, ((clusteringRuns nRuns lo hi inc)[k]?).isSome ↔ lo + k * inc ≤ hi) ∧
    ∀ k cmd, (clusteringRuns nRuns lo hi inc)[k]? = some cmd → ∀ d, HasDigits (lo + k * inc) d →
      cmd.take 2 = ["python".toList, "clustering_analysis.py".toList] ∧ ∃ b, run fl s20 cmd = .ok b ∧ Settings fl s20.opts
        [("p", .float (fl.lit ((lo + k * inc : Nat) / 10 ^ d))), ("n_runs", .int nRuns)] b := by
  constructor
  · intro k
    unfold clusteringRuns
    rw [List.getElem?_map, seq_get hinc]
    split <;> simp_all
  · intro k cmd hk d hd
    unfold clusteringRuns at hk
    rw [List.getElem?_map, seq_get hinc] at hk
    have hr := (read_counter hfl hd).1
    rw [Nat.zero_add] at hr
    split at hk
    · cases hk
      refine ⟨rfl, run_flags (s := s20) (by decide +kernel)
        (gs := [(⟨"p", .float, .float (7 / 100)⟩, "0.".toList ++ textN (lo + k * inc), .float (fl.lit ((lo + k * inc : Nat) / 10 ^ d))),
          (⟨"n_runs", .int, .int 10⟩, textI nRuns, .int nRuns)]) (by rfl) ?_ ?_⟩
      · intro g hg
        simp only [List.mem_cons, List.not_mem_nil, or_false] at hg
        rcases hg with rfl | rfl
        · refine ⟨?_, kind_noDash _ (by simp), by simp only [convert, hr, Option.map_some]⟩
          show (⟨"p", .float, .float (7 / 100)⟩ : Opt) ∈ s20.opts
          decide +kernel
        · refine ⟨?_, kind_textI _ _, by simp only [convert, readI_textI, Option.map_some]⟩
          show (⟨"n_runs", .int, .int 10⟩ : Opt) ∈ s20.opts
          decide +kernel
      · show ["p", "n_runs"].Nodup
        decide
    · cases hk

/-- C107. The numbers of a sweep lie within one power of ten: however large the counters are chosen, the thresholds of the first script
stay below 0.01, those of the second below 0.1. -/
theorem c107_range (z i d : Nat) (hi : 0 < i) (hd : HasDigits i d) :
    (1 : ℚ) / 10 ^ (z + 1) ≤ (i : ℚ) / 10 ^ (z + d) ∧ (i : ℚ) / 10 ^ (z + d) < 1 / 10 ^ z := by
  rcases hd with ⟨h, _⟩ | ⟨h0, h1, h2⟩
  · omega
  · have e1 : (10 : ℚ) ^ (d - 1) ≤ i := by exact_mod_cast h1
    have e2 : (i : ℚ) < 10 ^ d := by exact_mod_cast h2
    have e3 : (10 : ℚ) ^ (z + d) = 10 ^ (z + 1) * 10 ^ (d - 1) := by
      rw [← pow_add]
      congr 1
      omega
    constructor
    · rw [div_le_div_iff₀ (by positivity) (by positivity), e3]
      nlinarith [pow_pos (show (0 : ℚ) < 10 by norm_num) (z + 1)]
    · rw [div_lt_div_iff₀ (by positivity) (by positivity), pow_add]
      nlinarith [pow_pos (show (0 : ℚ) < 10 by norm_num) z]

/-- C107. The sweep over all counters from `lo` to `hi` is increasing exactly if the counters all have the same number of digits. -/
theorem c107_increasing (z lo hi : Nat) :
    (∀ i j d e, lo ≤ i → i < j → j ≤ hi → HasDigits i d → HasDigits j e → (i : ℚ) / 10 ^ (z + d) < (j : ℚ) / 10 ^ (z + e)) ↔
      ∀ i j d e, lo ≤ i → i ≤ hi → lo ≤ j → j ≤ hi → HasDigits i d → HasDigits j e → d = e := by
  constructor
  · intro h
    have key : ∀ i d e, lo ≤ i → i < i + 1 → i + 1 ≤ hi → HasDigits i d → HasDigits (i + 1) e → d = e := by
      intro i d e h1 h2 h3 hd he
      by_contra hne
      have hlt := h i (i + 1) d e h1 h2 h3 hd he
      rcases hd with ⟨rfl, rfl⟩ | ⟨a0, a1, a2⟩
      · exact hne (digits_unique (i := 1) (Or.inr ⟨by decide, by decide, by decide⟩) he)
      · rcases he with ⟨b, _⟩ | ⟨b0, b1, b2⟩
        · omega
        · -- the counter passes a power of ten
          have hde : d < e := by
            by_contra hge
            have : e < d := by omega
            have : 10 ^ e ≤ 10 ^ (d - 1) := Nat.pow_le_pow_right (by decide) (by omega)
            omega
          have hle : 10 ^ d ≤ 10 ^ (e - 1) := Nat.pow_le_pow_right (by decide) (by omega)
          have heq : i + 1 = 10 ^ d := by omega
          have he1 : e = d + 1 := by
            by_contra hh
            have : 10 ^ (d + 1) ≤ 10 ^ (e - 1) := Nat.pow_le_pow_right (by decide) (by omega)
            rw [pow_succ] at this
            have := Nat.pow_pos (n := d) (show 0 < 10 by decide)
            omega
          subst he1
          rw [heq] at hlt
          have hi' : (i : ℚ) = 10 ^ d - 1 := by
            have : ((i + 1 : Nat) : ℚ) = ((10 ^ d : Nat) : ℚ) := by rw [heq]
            push_cast at this
            linarith
          have hp : (10 : ℚ) ≤ 10 ^ d := by
            calc (10 : ℚ) = 10 ^ 1 := by norm_num
              _ ≤ 10 ^ d := pow_le_pow_right₀ (by norm_num) a0
          rw [hi', div_lt_div_iff₀ (by positivity) (by positivity)] at hlt
          push_cast at hlt
          rw [show z + (d + 1) = (z + d) + 1 by omega, pow_succ] at hlt
          have hq : (0 : ℚ) < 10 ^ (z + d) := by positivity
          nlinarith
    have up : ∀ n i d e, lo ≤ i → i + n ≤ hi → HasDigits i d → HasDigits (i + n) e → d = e := by
      intro n
      induction n with
      | zero => intro i d e _ _ hd he; exact digits_unique hd he
      | succ n ih =>
        intro i d e h1 h2 hd he
        obtain ⟨f, hf⟩ := digits_exist (i + n)
        rw [ih i d f h1 (by omega) hd hf]
        exact key (i + n) f e (by omega) (by omega) (by omega) hf he
    intro i j d e h1 h2 h3 h4 hd he
    rcases Nat.le_total i j with hij | hij
    · obtain ⟨n, rfl⟩ := Nat.exists_eq_add_of_le hij
      exact up n i d e h1 h4 hd he
    · obtain ⟨n, rfl⟩ := Nat.exists_eq_add_of_le hij
      exact (up n j e d h3 h2 he hd).symm
  · intro h i j d e h1 h2 h3 hd he
    rw [h i j d e h1 (by omega) (by omega) h3 hd he]
    exact div_lt_div_of_pos_right (by exact_mod_cast h2) (by positivity)

/-- C107. A counter and its tenfold give the same number. -/
theorem c107_repeats (z i d : Nat) (hi : 0 < i) (hd : HasDigits i d) :
    HasDigits (10 * i) (d + 1) ∧ ((10 * i : Nat) : ℚ) / 10 ^ (z + (d + 1)) = (i : ℚ) / 10 ^ (z + d) := by
  constructor
  · rcases hd with ⟨h, _⟩ | ⟨h0, h1, h2⟩
    · omega
    · refine .inr ⟨by omega, ?_, ?_⟩
      · obtain ⟨f, rfl⟩ : ∃ f, d = f + 1 := ⟨d - 1, by omega⟩
        simp only [Nat.add_sub_cancel] at h1 ⊢
        rw [pow_succ]
        omega
      · rw [pow_succ]
        omega
  · rw [show z + (d + 1) = (z + d) + 1 by omega, pow_succ]
    push_cast
    field_simp

/-- C107. runs/HC_eilat_July_2018/batch_run_dude_decoder.sh: eight runs, accepted, with the context lengths 1 to 8 in this order and all
other settings the same. -/
theorem c107_dude {F : Type} {fl : Floats F} (hfl : Decimals fl) (clusters multiply : Int) :
    (dudeRuns clusters multiply).length = 8 ∧
    ∀ (k : Nat) cmd, (dudeRuns clusters multiply)[k]? = some cmd →
      cmd.take 2 = ["python".toList, "simulated_data_classifying_dude_decoder.py".toList] ∧
      ∃ b, run fl s10 cmd = .ok b ∧ Settings fl s10.opts
      [("minflip", .float (fl.lit (4 / 100))), ("maxflip", .float (fl.lit (7 / 100))), ("nflips", .int 5), ("multiply_data", .int multiply),
        ("classifier_train", .int 100), ("n_clusters", .int clusters), ("context_length", .int ((k : Int) + 1))] b := by
  constructor
  · rfl
  · intro k cmd hk
    unfold dudeRuns at hk
    rw [List.getElem?_map, seq_get (by decide)] at hk
    have r4 : fl.read "0.04".toList = some (fl.lit (4 / 100)) := by
      have := hfl ['0', '4'] (by simp) (by decide)
      rw [show (value ['0', '4'] : ℚ) / 10 ^ ['0', '4'].length = 4 / 100 by
        rw [show value ['0', '4'] = 4 from rfl]; norm_num] at this
      exact this
    have r7 : fl.read "0.07".toList = some (fl.lit (7 / 100)) := by
      have := hfl ['0', '7'] (by simp) (by decide)
      rw [show (value ['0', '7'] : ℚ) / 10 ^ ['0', '7'].length = 7 / 100 by
        rw [show value ['0', '7'] = 7 from rfl]; norm_num] at this
      exact this
    split at hk
    · cases hk
      refine ⟨rfl, run_flags (s := s10) (by decide +kernel)
        (gs := [(⟨"minflip", .float, .float (33 / 1000)⟩, "0.04".toList, .float (fl.lit (4 / 100))),
          (⟨"maxflip", .float, .float (7 / 100)⟩, "0.07".toList, .float (fl.lit (7 / 100))),
          (⟨"nflips", .int, .int 20⟩, "5".toList, .int 5), (⟨"multiply_data", .int, .int 0⟩, textI multiply, .int multiply),
          (⟨"classifier_train", .int, .int 100⟩, "100".toList, .int 100), (⟨"n_clusters", .int, .int 1⟩, textI clusters, .int clusters),
          (⟨"context_length", .int, .int 8⟩, textN (1 + k * 1), .int (k + 1))]) (by rfl) ?_ ?_⟩
      · intro g hg
        simp only [List.mem_cons, List.not_mem_nil, or_false] at hg
        rcases hg with rfl | rfl | rfl | rfl | rfl | rfl | rfl
        · refine ⟨?_, kind_noDash _ (by simp), by simp only [convert, r4, Option.map_some]⟩
          show (⟨"minflip", .float, .float (33 / 1000)⟩ : Opt) ∈ s10.opts
          decide +kernel
        · refine ⟨?_, kind_noDash _ (by simp), by simp only [convert, r7, Option.map_some]⟩
          show (⟨"maxflip", .float, .float (7 / 100)⟩ : Opt) ∈ s10.opts
          decide +kernel
        · refine ⟨?_, kind_noDash _ (by simp), ?_⟩
          · show (⟨"nflips", .int, .int 20⟩ : Opt) ∈ s10.opts
            decide +kernel
          · simp only [convert, show readI "5".toList = some 5 by decide +kernel, Option.map_some]
        · refine ⟨?_, kind_textI _ _, by simp only [convert, readI_textI, Option.map_some]⟩
          show (⟨"multiply_data", .int, .int 0⟩ : Opt) ∈ s10.opts
          decide +kernel
        · refine ⟨?_, kind_noDash _ (by simp), ?_⟩
          · show (⟨"classifier_train", .int, .int 100⟩ : Opt) ∈ s10.opts
            decide +kernel
          · simp only [convert, show readI "100".toList = some 100 by decide +kernel, Option.map_some]
        · refine ⟨?_, kind_textI _ _, by simp only [convert, readI_textI, Option.map_some]⟩
          show (⟨"n_clusters", .int, .int 1⟩ : Opt) ∈ s10.opts
          decide +kernel
        · refine ⟨?_, kind_digits (textN_digits _), ?_⟩
          · show (⟨"context_length", .int, .int 8⟩ : Opt) ∈ s10.opts
            decide +kernel
          · simp only [convert, textN_textI, readI_textI, Option.map_some]
            congr 2
            push_cast
            ring
      · show ["minflip", "maxflip", "nflips", "multiply_data", "classifier_train", "n_clusters", "context_length"].Nodup
        decide
    · cases hk

theorem read_two {F : Type} {fl : Floats F} (hfl : Decimals fl) (a b : Char) (h : ∀ c ∈ [a, b], '0' ≤ c ∧ c ≤ '9') :
    fl.read ['0', '.', a, b] = some (fl.lit (value [a, b] / 100)) := by
  have := hfl [a, b] (by simp) h
  rw [show ((10 : ℚ) ^ [a, b].length) = 100 by norm_num] at this
  exact this

/-- C107. runs/HC_eilat_July_2018/runners.txt: the run written down there is accepted, with these settings. -/
theorem c107_runner {F : Type} {fl : Floats F} (hfl : Decimals fl) :
    runner.take 2 = ["python".toList, "simulated_data_entropy_bitwise_decoder_script_mp.py".toList] ∧
    ∃ b, run fl s15 runner = .ok b ∧ Settings fl s15.opts
      [("minflip", .float (fl.lit (2 / 100))), ("maxflip", .float (fl.lit (7 / 100))), ("nflips", .int 30), ("ldpciterations", .int 20),
        ("ent_threshold", .float (fl.lit (36 / 100))), ("clipping_factor", .int 2), ("min_data", .int 5), ("window_len", .int 30)] b := by
  have r2 : fl.read "0.02".toList = some (fl.lit (2 / 100)) := read_two hfl '0' '2' (by decide)
  have r7 : fl.read "0.07".toList = some (fl.lit (7 / 100)) := read_two hfl '0' '7' (by decide)
  have r36 : fl.read "0.36".toList = some (fl.lit (36 / 100)) := read_two hfl '3' '6' (by decide)
  refine ⟨by decide +kernel, run_flags (s := s15) (p := "python".toList)
    (q := "simulated_data_entropy_bitwise_decoder_script_mp.py".toList) (by decide +kernel)
    (gs := [(⟨"minflip", .float, .float (9 / 250)⟩, "0.02".toList, .float (fl.lit (2 / 100))),
      (⟨"maxflip", .float, .float (11 / 200)⟩, "0.07".toList, .float (fl.lit (7 / 100))),
      (⟨"nflips", .int, .int 5⟩, "30".toList, .int 30), (⟨"ldpciterations", .int, .int 10⟩, "20".toList, .int 20),
      (⟨"ent_threshold", .float, .float (9 / 25)⟩, "0.36".toList, .float (fl.lit (36 / 100))),
      (⟨"clipping_factor", .int, .int 2⟩, "2".toList, .int 2), (⟨"min_data", .int, .int 10⟩, "5".toList, .int 5),
      (⟨"window_len", .int, .int 0⟩, "30".toList, .int 30)]) ?_ ?_ ?_⟩
  · show runner = ["python".toList, "simulated_data_entropy_bitwise_decoder_script_mp.py".toList,
      flagWord "minflip", "0.02".toList, flagWord "maxflip", "0.07".toList, flagWord "nflips", "30".toList,
      flagWord "ldpciterations", "20".toList, flagWord "ent_threshold", "0.36".toList, flagWord "clipping_factor", "2".toList,
      flagWord "min_data", "5".toList, flagWord "window_len", "30".toList]
    decide +kernel
  · intro g hg
    simp only [List.mem_cons, List.not_mem_nil, or_false] at hg
    rcases hg with rfl | rfl | rfl | rfl | rfl | rfl | rfl | rfl
    · refine ⟨?_, kind_noDash _ (by simp), by simp only [convert, r2, Option.map_some]⟩
      show (⟨"minflip", .float, .float (9 / 250)⟩ : Opt) ∈ s15.opts
      decide +kernel
    · refine ⟨?_, kind_noDash _ (by simp), by simp only [convert, r7, Option.map_some]⟩
      show (⟨"maxflip", .float, .float (11 / 200)⟩ : Opt) ∈ s15.opts
      decide +kernel
    · refine ⟨?_, kind_noDash _ (by simp), by simp only [convert, show readI "30".toList = some 30 by decide +kernel, Option.map_some]⟩
      show (⟨"nflips", .int, .int 5⟩ : Opt) ∈ s15.opts
      decide +kernel
    · refine ⟨?_, kind_noDash _ (by simp), by simp only [convert, show readI "20".toList = some 20 by decide +kernel, Option.map_some]⟩
      show (⟨"ldpciterations", .int, .int 10⟩ : Opt) ∈ s15.opts
      decide +kernel
    · refine ⟨?_, kind_noDash _ (by simp), by simp only [convert, r36, Option.map_some]⟩
      show (⟨"ent_threshold", .float, .float (9 / 25)⟩ : Opt) ∈ s15.opts
      decide +kernel
    · refine ⟨?_, kind_noDash _ (by simp), by simp only [convert, show readI "2".toList = some 2 by decide +kernel, Option.map_some]⟩
      show (⟨"clipping_factor", .int, .int 2⟩ : Opt) ∈ s15.opts
      decide +kernel
    · refine ⟨?_, kind_noDash _ (by simp), by simp only [convert, show readI "5".toList = some 5 by decide +kernel, Option.map_some]⟩
      show (⟨"min_data", .int, .int 10⟩ : Opt) ∈ s15.opts
      decide +kernel
    · refine ⟨?_, kind_noDash _ (by simp), by simp only [convert, show readI "30".toList = some 30 by decide +kernel, Option.map_some]⟩
      show (⟨"window_len", .int, .int 0⟩ : Opt) ∈ s15.opts
      decide +kernel
  · show ["minflip", "maxflip", "nflips", "ldpciterations", "ent_threshold", "clipping_factor", "min_data", "window_len"].Nodup
    decide

/-- C107. The scripts that are called stand beside the batch scripts, but for runs/HC_eilat_July_2018/batch_run_mav_decoder.sh: there is no
`classifier_analysis.py` in its directory. -/
theorem c107_called_false :
    "scripts/" ++ "classifier_analysis.py" = s21.file ∧ "runs/clsutering_analysis/" ++ "clustering_analysis.py" = s20.file ∧
    "runs/HC_eilat_July_2018/" ++ "simulated_data_classifying_dude_decoder.py" = s10.file ∧
    "runs/HC_eilat_July_2018/" ++ "simulated_data_entropy_bitwise_decoder_script_mp.py" = s15.file ∧
    ∀ s ∈ scripts, s.file ≠ "runs/HC_eilat_July_2018/" ++ "classifier_analysis.py" := by
  decide +kernel

/-! The hypotheses are met: numbers read exactly. -/

/-- Decimal numbers between 0 and 1, read exactly. -/
def exact : Floats ℚ where
  text := fun _ => []
  read := fun w => match w with
    | '0' :: '.' :: d => some (value d / 10 ^ d.length)
    | _ => none
  lit := id

theorem exact_decimals : Decimals exact := fun _ _ _ => rfl

/-- Counting 8, 9, 10, 11 gives the thresholds 0.008, 0.009, 0.0010, 0.0011: the third is below the first. -/
example : HasDigits 8 1 ∧ HasDigits 9 1 ∧ HasDigits 10 2 ∧ HasDigits 11 2 ∧
    ((10 : Nat) : ℚ) / 10 ^ (2 + 2) < ((8 : Nat) : ℚ) / 10 ^ (2 + 1) := by
  refine ⟨.inr ⟨by decide, by decide, by decide⟩, .inr ⟨by decide, by decide, by decide⟩, .inr ⟨by decide, by decide, by decide⟩,
    .inr ⟨by decide, by decide, by decide⟩, by norm_num⟩

example : (classifierRuns "0.00" 1 8 1 11 0).length = 4 := by decide +kernel

example (cmd : List Word) (h : (classifierRuns "0.00" 3 8 1 11 0)[2]? = some cmd) :
    ∃ b, run exact s21 cmd = .ok b ∧ b "threshold" = .float (10 / 10 ^ 4) ∧ b "n_clusters" = .int 3 := by
  obtain ⟨-, b, hb, hs⟩ := (c107_classifier exact_decimals 3 0 8 1 11 (by decide)).2 2 cmd h 2 (.inr ⟨by decide, by decide, by decide⟩)
  refine ⟨b, hb, ?_, ?_⟩
  · have := hs ⟨"threshold", .float, .int 0⟩ (by decide +kernel)
    simpa [exact, List.lookup] using this
  · have := hs ⟨"n_clusters", .int, .int 1⟩ (by decide +kernel)
    simpa [List.lookup] using this

end NR.C107
