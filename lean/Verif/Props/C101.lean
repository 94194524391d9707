import Verif.Spec.Command
import Mathlib.Tactic.Linarith
/-
C101: running the recorded command again.
-/
namespace NR
open Spec Command

/-! ### Numbers as words -/

theorem digitChar_toNat {d : Nat} (h : d < 10) : (digitChar d).toNat = 48 + d := by
  have : ∀ d < 10, (digitChar d).toNat = 48 + d := by decide
  exact this d h

theorem textN_digits (n : Nat) : digits (textN n) = true := by
  unfold textN
  split
  · decide
  · rename_i h
    unfold digits
    have h1 : Nat.digits 10 n ≠ [] := by simpa [Nat.digits_ne_nil_iff_ne_zero] using h
    simp only [Bool.and_eq_true, Bool.not_eq_true', List.all_eq_true, List.mem_map, List.mem_reverse, forall_exists_index, and_imp]
    constructor
    · rw [List.isEmpty_eq_false_iff]
      simpa using h1
    · rintro c d hd rfl
      have := Nat.digits_lt_base (by norm_num : 1 < 10) hd
      unfold isDigit
      rw [digitChar_toNat this]
      simp; omega

theorem textN_value (n : Nat) : value (textN n) = n := by
  unfold value
  unfold textN
  split
  · rename_i h; subst h; decide
  · have : ((Nat.digits 10 n).reverse.map digitChar).reverse.map (fun c => c.toNat - 48) = Nat.digits 10 n := by
      rw [← List.map_reverse, List.reverse_reverse, List.map_map]
      conv_rhs => rw [← List.map_id (Nat.digits 10 n)]
      apply List.map_congr_left
      intro d hd
      have := Nat.digits_lt_base (by norm_num : 1 < 10) hd
      simp [digitChar_toNat this]
    rw [this, Nat.ofDigits_digits]

theorem digits_cons {w : Word} (h : digits w = true) : ∃ c r, w = c :: r ∧ isDigit c = true ∧ ∀ x ∈ w, isDigit x = true := by
  unfold digits at h
  simp only [Bool.and_eq_true, Bool.not_eq_true', List.all_eq_true] at h
  cases w with
  | nil => simp at h
  | cons c r => exact ⟨c, r, rfl, h.2 c (by simp), h.2⟩

theorem isDigit_ne {c : Char} (h : isDigit c = true) : c ≠ '-' ∧ c ≠ '+' ∧ c ≠ ' ' ∧ c ≠ '.' := by
  refine ⟨?_, ?_, ?_, ?_⟩ <;> rintro rfl <;> revert h <;> decide

theorem readI_textI (i : Int) : readI (textI i) = some i := by
  obtain ⟨c, r, hw, hc, _⟩ := digits_cons (textN_digits i.natAbs)
  have hne := isDigit_ne hc
  unfold textI
  split
  · rename_i hi
    unfold readI
    rw [show unsigned ('-' :: textN i.natAbs) = textN i.natAbs from rfl, textN_digits, textN_value]
    simp only [List.head?_cons, if_true]
    congr 1; omega
  · rename_i hi
    have hm : unsigned (textN i.natAbs) = textN i.natAbs := by
      rw [hw]
      unfold unsigned
      split
      · rename_i h; injection h with h; exact absurd h hne.1
      · rename_i h; injection h with h; exact absurd h hne.2.1
      · rfl
    unfold readI
    rw [hm, textN_digits, textN_value, hw]
    simp only [List.head?_cons, Option.some.injEq, if_neg hne.1, if_true]
    omega

theorem textI_plain (i : Int) : textI i ≠ [] ∧ ' ' ∉ textI i := by
  obtain ⟨c, r, hw, hc, ha⟩ := digits_cons (textN_digits i.natAbs)
  have hb : ' ' ∉ textN i.natAbs := fun h => (isDigit_ne (ha _ h)).2.2.1 rfl
  unfold textI
  split
  · exact ⟨by simp, by simp [hb]⟩
  · exact ⟨by rw [hw]; simp, hb⟩

/-! ### Words as arguments -/

theorem kind_noDash (opts : List Opt) {w : Word} (h : w.head? ≠ some '-') : kind opts w = .arg := by
  unfold kind; rw [if_pos (.inl h)]

theorem kind_neg (opts : List Opt) {c : Char} {r : Word} (hc : c ≠ '-') (h : negNumber ('-' :: c :: r) = true) :
    kind opts ('-' :: c :: r) = .arg := by
  unfold kind
  rw [if_neg (by simp)]
  have h1 : (opts.find? fun o => decide (flagWord o.name = '-' :: c :: r)) = none := by
    rw [List.find?_eq_none]
    intro o _
    simp [flagWord, Ne.symm hc]
  have h2 : (opts.filter fun o => decide (['-', '-'] <+: '-' :: c :: r ∧ '-' :: c :: r <+: flagWord o.name)) = [] := by
    rw [List.filter_eq_nil_iff]
    intro o _
    simp [List.cons_prefix_cons, Ne.symm hc]
  rw [h1, h2]
  simp [h]

theorem kind_textI (opts : List Opt) (i : Int) : kind opts (textI i) = .arg := by
  obtain ⟨c, r, hw, hc, _⟩ := digits_cons (textN_digits i.natAbs)
  have hne := isDigit_ne hc
  unfold textI
  split
  · have hd := textN_digits i.natAbs
    rw [hw] at hd ⊢
    apply kind_neg opts hne.1
    simp [negNumber, hd]
  · apply kind_noDash
    rw [hw]
    simpa using hne.1

theorem isDigit_of_range {c : Char} (h : '0' ≤ c ∧ c ≤ '9') : isDigit c = true := by
  unfold isDigit
  have h1 : 48 ≤ c.toNat := h.1
  have h2 : c.toNat ≤ 57 := h.2
  simp [h1, h2]

theorem kind_plain (opts : List Opt) {w : Word} (h : OneWord w) : kind opts w = .arg := by
  obtain ⟨h1, h2, h3⟩ := h
  by_cases hd : w.head? = some '-'
  · obtain ⟨d, e, he, hde, hw⟩ := h3 hd
    have hall : ∀ c ∈ d ++ e, isDigit c = true := fun c hc => isDigit_of_range (hde c hc)
    have hedig : digits e = true := by
      unfold digits
      simp only [Bool.and_eq_true, Bool.not_eq_true', List.isEmpty_eq_false_iff, List.all_eq_true]
      exact ⟨he, fun c hc => hall c (by simp [hc])⟩
    rcases hw with rfl | rfl
    · cases e with
      | nil => exact absurd rfl he
      | cons c r =>
        apply kind_neg opts (isDigit_ne (hall c (by simp))).1
        simp [negNumber, hedig]
    · have hneg : negNumber ('-' :: (d ++ '.' :: e)) = true := by
        have : (d ++ '.' :: e).dropWhile isDigit = '.' :: e := by
          rw [List.dropWhile_append_of_pos fun c hc => hall c (by simp [hc])]
          rw [List.dropWhile_cons_of_neg (by decide)]
        simp [negNumber, this, hedig]
      cases d with
      | nil => exact kind_neg opts (by decide) hneg
      | cons c r => exact kind_neg opts (isDigit_ne (hall c (by simp))).1 hneg
  · exact kind_noDash opts hd

theorem flagWord_inj {x y : String} : flagWord x = flagWord y ↔ x = y := by
  simp [flagWord, String.toList_inj]

theorem kind_flag {opts : List Opt} (hn : (opts.map (·.name)).Nodup) {o : Opt} (ho : o ∈ opts) : kind opts (flagWord o.name) = .flag o := by
  unfold kind
  rw [if_neg (by simp [flagWord])]
  have : (opts.find? fun o' => decide (flagWord o'.name = flagWord o.name)) = some o := by
    induction opts with
    | nil => simp at ho
    | cons p opts ih =>
      rw [List.map_cons, List.nodup_cons] at hn
      rcases List.mem_cons.1 ho with rfl | ho'
      · simp
      · have hne : p.name ≠ o.name := fun h => hn.1 (h ▸ List.mem_map.2 ⟨o, ho', rfl⟩)
        rw [List.find?_cons_of_neg (by simp [flagWord_inj, hne])]
        exact ih hn.2 ho'
  rw [this]

/-! ### Words of the command -/

theorem words_cons {w : Word} (h1 : w ≠ []) (h2 : ' ' ∉ w) (cs : List Char) : words (w ++ ' ' :: cs) = w :: words cs := by
  unfold words
  rw [List.splitOnP_append_cons_of_forall_mem (by intro x hx; simp; rintro rfl; exact h2 hx) ' ' (by simp)]
  rw [List.filter_cons_of_pos (by simpa using h1)]

theorem words_single {w : Word} (h1 : w ≠ []) (h2 : ' ' ∉ w) : words w = [w] := by
  unfold words
  rw [List.splitOnP_eq_singleton (by intro x hx; simp; rintro rfl; exact h2 hx)]
  rw [List.filter_cons_of_pos (by simpa using h1)]; rfl

/-- Words joined by blanks are cut into these words. -/
theorem words_join {w : Word} (h1 : w ≠ []) (h2 : ' ' ∉ w) : ∀ (ws : List Word), (∀ v ∈ ws, v ≠ [] ∧ ' ' ∉ v) →
    words (w ++ ws.flatMap fun v => ' ' :: v) = w :: ws
  | [], _ => by simp [words_single h1 h2]
  | v :: ws, h => by
    rw [List.flatMap_cons, List.cons_append, words_cons h1 h2]
    rw [words_join (h v (by simp)).1 (h v (by simp)).2 ws fun x hx => h x (by simp [hx])]

/-! ### Reading the command -/

/-- The parts of the command that are written. -/
def active {F : Type} (s : Script) (a : Args F) : List Piece := s.pieces.filter fun p => p.cond.holds a

/-- What option `o` gets from the part `p`. -/
def pieceVal {F : Type} (fl : Floats F) (a : Args F) (n : Nat) (o : Opt) (p : Piece) : Val F := match p.src with
  | .arg x => match o.ty, a x with
    | .float, .int i => .float (fl.lit i)
    | _, v => v
  | .count => .int n
  | .window => .int (num a "window_len")
  | .procs => .int (num a "processes")
  | .truth _ => .str []
  | .zero => .int 0

/-- The part `p` can be read, and belongs to option `o`. -/
def Good {F : Type} (opts : List Opt) (a : Args F) (p : Piece) (o : Opt) : Prop :=
  p.flag = o.name ∧ o ∈ opts ∧ (p.src = .arg o.name ∨ (o.ty = .int ∧
    (p.src = .count ∨ p.src = .zero ∨ (p.src = .window ∧ 0 < num a "window_len") ∨ (p.src = .procs ∧ 0 < num a "processes"))))

theorem piece_read {F : Type} {fl : Floats F} (hfl : LawfulFloats fl) {s : Script} {a : Args F} (ha : Runnable fl s a) (n : Nat)
    {p : Piece} {o : Opt} (h : Good s.opts a p o) :
    kind s.opts (p.src.text fl a n) = .arg ∧ p.src.text fl a n ≠ [] ∧ ' ' ∉ p.src.text fl a n ∧
      convert fl (p.src.text fl a n) o.ty = some (pieceVal fl a n o p) := by
  obtain ⟨_, h2, h3⟩ := h
  have int : ∀ i : Int, kind s.opts (textI i) = .arg ∧ textI i ≠ [] ∧ ' ' ∉ textI i := fun i =>
    ⟨kind_textI _ i, (textI_plain i).1, (textI_plain i).2⟩
  have hi : ∀ i : Int, convert fl (textI i) .int = some (.int i) := fun i => by simp [convert, readI_textI]
  have hN : ∀ m : Nat, textN m = textI m := fun m => by simp [textI]
  rcases h3 with h3 | ⟨ht, h3 | h3 | ⟨h3, h4⟩ | ⟨h3, h4⟩⟩
  · have hu := ha o h2
    unfold pieceVal
    rw [h3]
    simp only [Src.text]
    cases hv : a o.name with
    | int i =>
      rw [hv] at hu
      cases ht : o.ty with
      | int => exact ⟨(int i).1, (int i).2.1, (int i).2.2, hi i⟩
      | float => exact ⟨(int i).1, (int i).2.1, (int i).2.2, by simp [convert, Val.text, hfl.ints]⟩
      | str => rw [ht] at hu; exact absurd hu (by simp)
    | float x =>
      rw [hv] at hu
      cases ht : o.ty with
      | int => rw [ht] at hu; exact absurd hu (by simp)
      | float =>
        rw [ht] at hu
        exact ⟨kind_plain _ hu, hu.1, hu.2.1, by simp [convert, Val.text, hfl.round]⟩
      | str => rw [ht] at hu; exact absurd hu (by simp)
    | str w =>
      rw [hv] at hu
      cases ht : o.ty with
      | int => rw [ht] at hu; exact absurd hu (by simp)
      | float => rw [ht] at hu; exact absurd hu (by simp)
      | str =>
        rw [ht] at hu
        exact ⟨kind_plain _ hu, hu.1, hu.2.1, by simp [convert, Val.text]⟩
  · unfold pieceVal
    rw [h3, ht]
    simp only [Src.text, hN]
    exact ⟨(int _).1, (int _).2.1, (int _).2.2, hi _⟩
  · unfold pieceVal
    rw [h3, ht]
    simp only [Src.text]
    exact ⟨(int 0).1, (int 0).2.1, (int 0).2.2, hi 0⟩
  · unfold pieceVal
    rw [h3, ht]
    simp only [Src.text, if_pos h4, gt_iff_lt]
    exact ⟨(int _).1, (int _).2.1, (int _).2.2, hi _⟩
  · unfold pieceVal
    rw [h3, ht]
    simp only [Src.text, if_pos h4, gt_iff_lt]
    exact ⟨(int _).1, (int _).2.1, (int _).2.2, hi _⟩

/-- The words of some parts. -/
def pieceWords {F : Type} (fl : Floats F) (a : Args F) (n : Nat) (ps : List Piece) : List Word :=
  ps.flatMap fun p => [flagWord p.flag, p.src.text fl a n]

theorem parse_pieces {F : Type} {fl : Floats F} (hfl : LawfulFloats fl) {s : Script} (hn : (s.opts.map (·.name)).Nodup) {a : Args F}
    (ha : Runnable fl s a) (n : Nat) : ∀ (ps : List Piece) (a0 : Args F), (∀ p ∈ ps, ∃ o, Good s.opts a p o) →
    ∃ b, parse fl s.opts (pieceWords fl a n ps) a0 = .ok b ∧ ∀ x, ((∀ p ∈ ps, p.flag ≠ x) → b x = a0 x) ∧
      ∀ v, (∃ p ∈ ps, p.flag = x) → (∀ p ∈ ps, p.flag = x → ∀ o, Good s.opts a p o → pieceVal fl a n o p = v) → b x = v
  | [], a0, _ => ⟨a0, by simp [pieceWords, parse], fun x => ⟨fun _ => rfl, fun v h => by simp at h⟩⟩
  | p :: ps, a0, h => by
    obtain ⟨o, ho⟩ := h p (by simp)
    obtain ⟨b, hb, hx⟩ := parse_pieces hfl hn ha n ps (Function.update a0 o.name (pieceVal fl a n o p)) fun q hq => h q (by simp [hq])
    obtain ⟨r1, r2, r3, r4⟩ := piece_read hfl ha n ho
    refine ⟨b, ?_, ?_⟩
    · unfold pieceWords at hb ⊢
      rw [List.flatMap_cons]
      simp only [List.cons_append, List.nil_append, parse]
      rw [ho.1, kind_flag hn ho.2.1]
      simp only [r1, r4]
      exact hb
    · intro x
      constructor
      · intro hne
        rw [(hx x).1 fun q hq => hne q (by simp [hq])]
        exact Function.update_of_ne (by rw [← ho.1]; exact (hne p (by simp)).symm) _ _
      · intro v hex hall
        by_cases hlater : ∃ q ∈ ps, q.flag = x
        · exact (hx x).2 v hlater fun q hq => hall q (by simp [hq])
        · rw [(hx x).1 fun q hq hqx => hlater ⟨q, hq, hqx⟩]
          obtain ⟨q, hq, hqx⟩ := hex
          rcases List.mem_cons.1 hq with rfl | hq
          · rw [← hall q (by simp) hqx o ho, ← hqx, ho.1, Function.update_self]
          · exact absurd ⟨q, hq, hqx⟩ hlater

theorem nodash_flag (x : String) (h : ' ' ∉ x.toList) : flagWord x ≠ [] ∧ ' ' ∉ flagWord x := by
  refine ⟨by simp [flagWord], ?_⟩
  simp [flagWord, h]

/-- The names in the tables hold no blanks, and no option occurs twice. -/
theorem tables_clean : ∀ s ∈ scripts, s.file.toList ≠ [] ∧ ' ' ∉ s.file.toList ∧ (∀ p ∈ s.pieces, ' ' ∉ p.flag.toList) ∧
    (s.opts.map (·.name)).Nodup := by
  decide +kernel

theorem replay_words {F : Type} (fl : Floats F) {s : Script} (hs : s ∈ scripts) (a : Args F) (n : Nat)
    (h : ∀ p ∈ active s a, p.src.text fl a n ≠ [] ∧ ' ' ∉ p.src.text fl a n) :
    replay fl s a n = parse fl s.opts (pieceWords fl a n (active s a)) (defaults fl s.opts) := by
  obtain ⟨h1, h2, h3, _⟩ := tables_clean s hs
  have e : command fl s a n = "python".toList ++ (s.file.toList :: pieceWords fl a n (active s a)).flatMap fun v => ' ' :: v := by
    unfold command pieceWords active
    rw [List.flatMap_cons, List.flatMap_assoc]
    simp
  unfold replay
  rw [e, words_join (by decide) (by decide)]
  · rfl
  · intro v hv
    rcases List.mem_cons.1 hv with rfl | hv
    · exact ⟨h1, h2⟩
    · unfold pieceWords at hv
      rw [List.mem_flatMap] at hv
      obtain ⟨p, hp, hv⟩ := hv
      simp only [List.mem_cons, List.not_mem_nil, or_false] at hv
      rcases hv with rfl | rfl
      · exact nodash_flag _ (h3 p (List.mem_filter.1 hp).1)
      · exact h p hp

theorem replay_ok {F : Type} {fl : Floats F} (hfl : LawfulFloats fl) {s : Script} (hs : s ∈ scripts) {a : Args F}
    (ha : Runnable fl s a) (n : Nat) (h : ∀ p ∈ active s a, ∃ o, Good s.opts a p o) :
    ∃ b, replay fl s a n = .ok b ∧ ∀ x, ((∀ p ∈ active s a, p.flag ≠ x) → b x = defaults fl s.opts x) ∧
      ∀ v, (∃ p ∈ active s a, p.flag = x) → (∀ p ∈ active s a, p.flag = x → ∀ o, Good s.opts a p o → pieceVal fl a n o p = v) → b x = v := by
  rw [replay_words fl hs a n]
  · exact parse_pieces hfl (tables_clean s hs).2.2.2 ha n _ _ h
  · intro p hp
    obtain ⟨o, ho⟩ := h p hp
    obtain ⟨_, r2, r3, _⟩ := piece_read hfl ha n ho
    exact ⟨r2, r3⟩

/-! ### The tables -/

/-- The script that writes the window twice. -/
def twice : String := "runs/Feb_2022/experimental_mavlink_based.py"

/-- What holds of every part of a usable script. -/
def pieceOk (s : Script) (p : Piece) : Bool := s.opts.any fun o => decide (p.flag = o.name) &&
  (decide (p.src = .arg o.name) || decide (o.ty = .int) &&
    (decide (p.src = .count) || decide (p.src = .zero) ||
      decide (p.src = .window) && (decide (p.cond = .win) || decide (p.cond = .always) && decide (s.file = twice)) ||
      decide (p.src = .procs) && (decide (p.cond = .procs) || decide (p.cond = .nPosProcs))))

theorem tables_pieces : ∀ s ∈ scripts, s.file ∉ unusable → ∀ p ∈ s.pieces, pieceOk s p = true := by decide +kernel

/-- The default switches the feature off. -/
def off (o : Opt) : Bool := match o.dflt with
  | .int i => decide (i ≤ 0)
  | _ => false

/-- How an option occurs among the parts. -/
def shapeOk (s : Script) (o : Opt) : Bool :=
  let h := s.pieces.filter fun p => decide (p.flag = o.name)
  decide (h = [⟨.always, o.name, .arg o.name⟩]) ||
  decide (o.name = "window_len") && (
    decide (h = [⟨.win, o.name, .window⟩, ⟨.noWin, o.name, .zero⟩]) ||
    decide (s.file = twice) && decide (h = [⟨.always, o.name, .window⟩, ⟨.win, o.name, .window⟩, ⟨.noWin, o.name, .zero⟩]) ||
    off o && decide (h = [⟨.win, o.name, .window⟩])) ||
  decide (o.name = "processes") && off o && decide (h = [⟨.procs, o.name, .procs⟩]) ||
  decide (o.name = "multiply_data") && off o && decide (h = [⟨.mulPos, o.name, .arg o.name⟩])

theorem tables_shapes : ∀ s ∈ scripts, s.file ∉ unusable → ∀ o ∈ s.opts, o.name ≠ "N" → (s.file, o.name) ∉ forgotten →
    shapeOk s o = true := by decide +kernel

/-- These options are whole numbers. -/
theorem tables_ints : ∀ s ∈ scripts, ∀ o ∈ s.opts, o.name ∈ ["N", "window_len", "processes", "multiply_data"] → o.ty = .int := by
  decide +kernel

theorem tables_count : ∀ s ∈ scripts, s.file ∉ unusable → ∀ o ∈ s.opts, o.name = "N" →
    off o = true ∧ (s.pieces.filter fun p => decide (p.flag = "N")) = [⟨.nPos, "N", .count⟩] := by decide +kernel

theorem good_pieces {F : Type} {s : Script} (hs : s ∈ scripts) (hu : s.file ∉ unusable) (a : Args F)
    (hw : s.file = twice → 0 < num a "window_len") : ∀ p ∈ active s a, ∃ o, Good s.opts a p o := by
  intro p hp
  unfold active at hp
  rw [List.mem_filter] at hp
  have h := tables_pieces s hs hu p hp.1
  unfold pieceOk at h
  rw [List.any_eq_true] at h
  obtain ⟨o, ho, h⟩ := h
  simp only [Bool.and_eq_true, Bool.or_eq_true, decide_eq_true_eq] at h
  refine ⟨o, h.1, ho, ?_⟩
  have hc := hp.2
  rcases h.2 with h | ⟨h1, ((h2 | h2) | ⟨h2, h3⟩) | ⟨h2, h3⟩⟩
  · exact Or.inl h
  · exact Or.inr ⟨h1, Or.inl h2⟩
  · exact Or.inr ⟨h1, Or.inr (Or.inl h2)⟩
  · refine Or.inr ⟨h1, Or.inr (Or.inr (Or.inl ⟨h2, ?_⟩))⟩
    rcases h3 with h3 | ⟨_, h3⟩
    · rw [h3] at hc
      simpa [Cond.holds] using hc
    · exact hw h3
  · refine Or.inr ⟨h1, Or.inr (Or.inr (Or.inr ⟨h2, ?_⟩))⟩
    rcases h3 with h3 | h3 <;> rw [h3] at hc
    · simpa [Cond.holds] using hc
    · simp [Cond.holds] at hc
      exact hc.2

theorem nodup_map_inj {α β : Type} {f : α → β} : ∀ {l : List α}, (l.map f).Nodup → ∀ {x y : α}, x ∈ l → y ∈ l → f x = f y → x = y
  | z :: l, h, x, y, hx, hy, e => by
    rw [List.map_cons, List.nodup_cons] at h
    rcases List.mem_cons.1 hx with hx' | hx' <;> rcases List.mem_cons.1 hy with hy' | hy'
    · rw [hx', hy']
    · exact absurd (List.mem_map.2 ⟨y, hy', by rw [← e, hx']⟩) h.1
    · exact absurd (List.mem_map.2 ⟨x, hx', by rw [e, hy']⟩) h.1
    · exact nodup_map_inj h.2 hx' hy' e

theorem find_opt {opts : List Opt} (hn : (opts.map (·.name)).Nodup) {o : Opt} (ho : o ∈ opts) :
    opts.find? (fun o' => decide (o'.name = o.name)) = some o := by
  cases h : opts.find? (fun o' => decide (o'.name = o.name)) with
  | none => exact absurd (List.find?_eq_none.1 h o ho) (by simp)
  | some o' =>
    have h1 := List.find?_some h
    have h2 := List.mem_of_find?_eq_some h
    rw [nodup_map_inj hn h2 ho (by simpa using h1)]

theorem defaults_opt {F : Type} (fl : Floats F) {opts : List Opt} (hn : (opts.map (·.name)).Nodup) {o : Opt} (ho : o ∈ opts) :
    defaults fl opts o.name = o.dflt.val fl := by
  unfold defaults
  rw [find_opt hn ho]

theorem off_val {F : Type} (fl : Floats F) {o : Opt} (h : off o = true) : ∃ i : Int, i ≤ 0 ∧ o.dflt.val fl = .int i := by
  unfold off at h
  cases hd : o.dflt with
  | int i => rw [hd] at h; exact ⟨i, by simpa using h, rfl⟩
  | float q => rw [hd] at h; simp at h
  | str w => rw [hd] at h; simp at h

/-- An integer option holds an integer. -/
theorem usable_int {F : Type} {fl : Floats F} {s : Script} {a : Args F} (ha : Runnable fl s a) {o : Opt} (ho : o ∈ s.opts)
    (ht : o.ty = .int) : a o.name = .int (num a o.name) := by
  have h := ha o ho
  rw [ht] at h
  unfold num
  cases hv : a o.name with
  | int i => rfl
  | float x => rw [hv] at h; exact absurd h (by simp)
  | str w => rw [hv] at h; exact absurd h (by simp)

theorem same_self {F : Type} {fl : Floats F} {s : Script} {a : Args F} (ha : Runnable fl s a) {o : Opt} (ho : o ∈ s.opts) (n : Nat)
    (c : Cond) : SameSetting fl o.name (a o.name) (pieceVal fl a n o ⟨c, o.name, .arg o.name⟩) := by
  have h := ha o ho
  simp only [pieceVal]
  cases ht : o.ty <;> cases hv : a o.name <;> rw [ht, hv] at h <;> first
    | exact Or.inl rfl
    | exact Or.inr (Or.inl ⟨_, rfl, rfl⟩)

theorem shape_same {F : Type} {fl : Floats F} {s : Script} (hs : s ∈ scripts) {a : Args F} (ha : Runnable fl s a) (n : Nat)
    (hw : s.file = twice → 0 < num a "window_len") {b : Args F}
    (hb : ∀ x, ((∀ p ∈ active s a, p.flag ≠ x) → b x = defaults fl s.opts x) ∧
      ∀ v, (∃ p ∈ active s a, p.flag = x) → (∀ p ∈ active s a, p.flag = x → ∀ o, Good s.opts a p o → pieceVal fl a n o p = v) → b x = v)
    {o : Opt} (ho : o ∈ s.opts) (h : shapeOk s o = true) : SameSetting fl o.name (a o.name) (b o.name) := by
  have hn := (tables_clean s hs).2.2.2
  have mem : ∀ p, p ∈ active s a ∧ p.flag = o.name ↔
      p ∈ (s.pieces.filter fun p => decide (p.flag = o.name)) ∧ p.cond.holds a = true := by
    intro p
    unfold active
    simp only [List.mem_filter, decide_eq_true_eq]
    tauto
  have uniq : ∀ p o', Good s.opts a p o' → p.flag = o.name → o' = o := fun p o' hg hp =>
    nodup_map_inj hn hg.2.1 ho (by rw [← hg.1, hp])
  have set : ∀ v, (∃ p, p ∈ (s.pieces.filter fun p => decide (p.flag = o.name)) ∧ p.cond.holds a = true) →
      (∀ p ∈ (s.pieces.filter fun p => decide (p.flag = o.name)), p.cond.holds a = true → pieceVal fl a n o p = v) → b o.name = v := by
    intro v ⟨p, hp⟩ hv
    obtain ⟨h1, h2⟩ := (mem p).2 hp
    refine (hb o.name).2 v ⟨p, h1, h2⟩ fun q hq hqf o' hg => ?_
    rw [uniq q o' hg hqf]
    obtain ⟨h3, h4⟩ := (mem q).1 ⟨hq, hqf⟩
    exact hv q h3 h4
  have unset : (∀ p ∈ (s.pieces.filter fun p => decide (p.flag = o.name)), p.cond.holds a = false) → b o.name = o.dflt.val fl := by
    intro hno
    rw [← defaults_opt fl hn ho]
    refine (hb o.name).1 fun p hp hpf => ?_
    obtain ⟨h3, h4⟩ := (mem p).1 ⟨hp, hpf⟩
    rw [hno p h3] at h4
    exact absurd h4 (by simp)
  simp only [shapeOk, Bool.or_eq_true, Bool.and_eq_true, decide_eq_true_eq] at h
  rcases h with ((h | ⟨hx, (h | ⟨h1, h⟩) | ⟨hd, h⟩⟩) | ⟨⟨hx, hd⟩, h⟩) | ⟨⟨hx, hd⟩, h⟩ <;> rw [h] at set unset
  · rw [set (pieceVal fl a n o ⟨.always, o.name, .arg o.name⟩) ⟨_, List.mem_cons_self, rfl⟩ (by simp)]
    exact same_self ha ho n _
  · have hi := usable_int ha ho (tables_ints s hs o ho (by simp [hx]))
    rw [hx] at hi ⊢
    rw [hx] at set
    by_cases hp : 0 < num a "window_len"
    · rw [set (.int (num a "window_len")) ⟨_, List.mem_cons_self, by simp [Cond.holds, hp]⟩ (by simp [Cond.holds, hp, pieceVal]), hi]
      exact Or.inl rfl
    · rw [set (.int 0) ⟨_, List.mem_cons_of_mem _ List.mem_cons_self, by simp [Cond.holds]; omega⟩ (by simp [Cond.holds, hp, pieceVal])]
      exact Or.inr (Or.inr ⟨by simp, _, 0, by omega, le_refl _, hi, rfl⟩)
  · have hi := usable_int ha ho (tables_ints s hs o ho (by simp [hx]))
    have hp := hw h1
    rw [hx] at hi ⊢
    rw [hx] at set
    rw [set (.int (num a "window_len")) ⟨_, List.mem_cons_self, by simp [Cond.holds]⟩ (by simp [Cond.holds, hp, pieceVal]), hi]
    exact Or.inl rfl
  · have hi := usable_int ha ho (tables_ints s hs o ho (by simp [hx]))
    by_cases hp : 0 < num a "window_len"
    · rw [hx] at hi ⊢
      rw [hx] at set
      rw [set (.int (num a "window_len")) ⟨_, List.mem_cons_self, by simp [Cond.holds, hp]⟩ (by simp [pieceVal]), hi]
      exact Or.inl rfl
    · obtain ⟨j, hj, hv⟩ := off_val fl hd
      rw [unset (by simp [Cond.holds, hp]), hv]
      rw [hx] at hi ⊢
      exact Or.inr (Or.inr ⟨by simp, _, j, by omega, hj, hi, rfl⟩)
  · have hi := usable_int ha ho (tables_ints s hs o ho (by simp [hx]))
    by_cases hp : 0 < num a "processes"
    · rw [hx] at hi ⊢
      rw [hx] at set
      rw [set (.int (num a "processes")) ⟨_, List.mem_cons_self, by simp [Cond.holds, hp]⟩ (by simp [pieceVal]), hi]
      exact Or.inl rfl
    · obtain ⟨j, hj, hv⟩ := off_val fl hd
      rw [unset (by simp [Cond.holds, hp]), hv]
      rw [hx] at hi ⊢
      exact Or.inr (Or.inr ⟨by simp, _, j, by omega, hj, hi, rfl⟩)
  · have hi := usable_int ha ho (tables_ints s hs o ho (by simp [hx]))
    by_cases hp : 0 < num a "multiply_data"
    · rw [set (pieceVal fl a n o ⟨.mulPos, o.name, .arg o.name⟩) ⟨_, List.mem_cons_self, by simp [Cond.holds, hp]⟩ (by simp)]
      exact same_self ha ho n _
    · obtain ⟨j, hj, hv⟩ := off_val fl hd
      rw [unset (by simp [Cond.holds, hp]), hv]
      rw [hx] at hi ⊢
      exact Or.inr (Or.inr ⟨by simp, _, j, by omega, hj, hi, rfl⟩)

/-! ### C101 -/

/-- C101: the command saved with a run is accepted again and gives every option its setting, but for the number of words and
the options in `forgotten`; not for the three scripts in `unusable`, and in one script only if there is a window. -/
theorem c101_repeats {F : Type} {fl : Floats F} (hfl : LawfulFloats fl) {s : Script} (hs : s ∈ scripts) (hu : s.file ∉ unusable)
    {a : Args F} (ha : Runnable fl s a) (hw : s.file = "runs/Feb_2022/experimental_mavlink_based.py" → 0 < num a "window_len") (n : Nat) :
    ∃ b, replay fl s a n = .ok b ∧
      ∀ o ∈ s.opts, o.name ≠ "N" → (s.file, o.name) ∉ forgotten → SameSetting fl o.name (a o.name) (b o.name) := by
  obtain ⟨b, h1, h2⟩ := replay_ok hfl hs ha n (good_pieces hs hu a hw)
  exact ⟨b, h1, fun o ho hN hf => shape_same hs ha n hw h2 ho (tables_shapes s hs hu o ho hN hf)⟩

/-- C101: the number of buffers to use is replaced by the number of words they gave. -/
theorem c101_count {F : Type} {fl : Floats F} (hfl : LawfulFloats fl) {s : Script} (hs : s ∈ scripts) (hu : s.file ∉ unusable)
    {a : Args F} (ha : Runnable fl s a) (hw : s.file = "runs/Feb_2022/experimental_mavlink_based.py" → 0 < num a "window_len") (n : Nat)
    {o : Opt} (ho : o ∈ s.opts) (hN : o.name = "N") {b : Args F} (hb : replay fl s a n = .ok b) :
    (0 < num a "N" → b "N" = .int n) ∧ (num a "N" ≤ 0 → ∃ i : Int, i ≤ 0 ∧ b "N" = .int i) := by
  obtain ⟨b', h1, h2⟩ := replay_ok hfl hs ha n (good_pieces hs hu a hw)
  rw [hb] at h1
  cases h1
  obtain ⟨hd, hp⟩ := tables_count s hs hu o ho hN
  have mem : ∀ p, p ∈ active s a → p.flag = "N" → p = ⟨.nPos, "N", .count⟩ ∧ 0 < num a "N" := by
    intro p hpa hpf
    unfold active at hpa
    rw [List.mem_filter] at hpa
    have : p ∈ s.pieces.filter fun p => decide (p.flag = "N") := by simp [hpa.1, hpf]
    rw [hp, List.mem_singleton] at this
    refine ⟨this, ?_⟩
    have h3 := hpa.2
    rw [this] at h3
    simpa [Cond.holds] using h3
  constructor
  · intro hpos
    refine (h2 "N").2 _ ⟨⟨.nPos, "N", .count⟩, ?_, rfl⟩ ?_
    · have : (⟨.nPos, "N", .count⟩ : Piece) ∈ s.pieces.filter fun p => decide (p.flag = "N") := by rw [hp]; simp
      unfold active
      rw [List.mem_filter] at this ⊢
      exact ⟨this.1, by simpa [Cond.holds] using hpos⟩
    · intro p hpa hpf o' _
      rw [(mem p hpa hpf).1]
      rfl
  · intro hneg
    rw [(h2 "N").1 fun p hpa hpf => by have := (mem p hpa hpf).2; omega]
    rw [← hN, defaults_opt fl (tables_clean s hs).2.2.2 ho]
    exact off_val fl hd

/-! ### Forgotten options -/

theorem tables_forgotten : ∀ s ∈ scripts, ∀ o ∈ s.opts, (s.file, o.name) ∈ forgotten → s.file ∉ unusable ∧ s.file ≠ twice ∧ o.ty = .int ∧
    ((o.name = "window_len" ∧ o.dflt = .int 50 ∧ (s.pieces.filter fun p => decide (p.flag = o.name)) = [⟨.win, o.name, .window⟩]) ∨
      (o.name = "processes" ∧ o.dflt = .int 0 ∧ (s.pieces.filter fun p => decide (p.flag = o.name)) = [⟨.nPosProcs, o.name, .procs⟩] ∧
        "N" ∈ s.opts.map (·.name)) ∨
      (o.name ∉ ["window_len", "processes", "multiply_data"] ∧ (o.dflt = .int 0 ∨ o.dflt = .int 1) ∧
        (s.pieces.filter fun p => decide (p.flag = o.name)) = [])) := by
  decide +kernel

/-- C101: an option in `forgotten` that is missing gets its default, whatever it was. -/
theorem c101_lost {F : Type} {fl : Floats F} (hfl : LawfulFloats fl) {s : Script} (hs : s ∈ scripts)
    {a : Args F} (ha : Runnable fl s a) (n : Nat) {o : Opt} (ho : o ∈ s.opts) (hf : (s.file, o.name) ∈ forgotten) (hm : Missing a o.name) :
    ∃ b, replay fl s a n = .ok b ∧ b o.name = o.dflt.val fl := by
  obtain ⟨hu, ht, _, h⟩ := tables_forgotten s hs o ho hf
  obtain ⟨b, h1, h2⟩ := replay_ok hfl hs ha n (good_pieces hs hu a fun e => absurd e ht)
  refine ⟨b, h1, ?_⟩
  rw [← defaults_opt fl (tables_clean s hs).2.2.2 ho]
  refine (h2 o.name).1 fun p hp hpf => ?_
  unfold active at hp
  rw [List.mem_filter] at hp
  have mem : p ∈ s.pieces.filter fun p => decide (p.flag = o.name) := by simp [hp.1, hpf]
  have hc := hp.2
  rcases h with ⟨hx, _, h⟩ | ⟨hx, _, h, _⟩ | ⟨hx, _, h⟩ <;> rw [h] at mem
  · rw [List.mem_singleton.1 mem] at hc
    have := hm.1 hx
    simp [Cond.holds] at hc
    omega
  · rw [List.mem_singleton.1 mem] at hc
    have := hm.2 hx
    simp [Cond.holds] at hc
    omega
  · simp at mem

/-- C101: with a window, or with `N`, those two options are kept as well. -/
theorem c101_kept {F : Type} {fl : Floats F} (hfl : LawfulFloats fl) {s : Script} (hs : s ∈ scripts)
    {a : Args F} (ha : Runnable fl s a) (n : Nat) {o : Opt} (ho : o ∈ s.opts) (hf : (s.file, o.name) ∈ forgotten)
    (hx : o.name = "window_len" ∨ o.name = "processes") (hm : ¬ Missing a o.name) :
    ∃ b, replay fl s a n = .ok b ∧ SameSetting fl o.name (a o.name) (b o.name) := by
  obtain ⟨hu, ht, hty, h⟩ := tables_forgotten s hs o ho hf
  obtain ⟨b, h1, h2⟩ := replay_ok hfl hs ha n (good_pieces hs hu a fun e => absurd e ht)
  refine ⟨b, h1, ?_⟩
  have hi := usable_int ha ho hty
  have mem : ∀ p, p ∈ active s a ∧ p.flag = o.name ↔
      p ∈ (s.pieces.filter fun p => decide (p.flag = o.name)) ∧ p.cond.holds a = true := by
    intro p
    unfold active
    simp only [List.mem_filter, decide_eq_true_eq]
    tauto
  rcases h with ⟨hx', _, h⟩ | ⟨hx', hd, h, _⟩ | ⟨hx', _, h⟩
  · have hp : 0 < num a "window_len" := by
      by_contra hc
      exact hm ⟨fun _ => by omega, fun e => by rw [hx'] at e; exact absurd e (by decide)⟩
    rw [h] at mem
    obtain ⟨q1, q2⟩ := (mem ⟨.win, o.name, .window⟩).2 ⟨List.mem_cons_self, by simp [Cond.holds, hp]⟩
    left
    rw [hi, hx']
    rw [hx'] at q1 q2
    refine (h2 "window_len").2 _ ⟨_, q1, q2⟩ fun p hp hpf o' _ => ?_
    rw [List.mem_singleton.1 ((mem p).1 ⟨hp, hpf.trans hx'.symm⟩).1]
    rfl
  · have hN : 0 < num a "N" := by
      by_contra hc
      exact hm ⟨fun e => by rw [hx'] at e; exact absurd e (by decide), fun _ => by omega⟩
    rw [h] at mem
    by_cases hp : 0 < num a "processes"
    · obtain ⟨q1, q2⟩ := (mem ⟨.nPosProcs, o.name, .procs⟩).2 ⟨List.mem_cons_self, by simp [Cond.holds, hp, hN]⟩
      left
      rw [hi, hx']
      rw [hx'] at q1 q2
      refine (h2 "processes").2 _ ⟨_, q1, q2⟩ fun p hp hpf o' _ => ?_
      rw [List.mem_singleton.1 ((mem p).1 ⟨hp, hpf.trans hx'.symm⟩).1]
      rfl
    · have e : b o.name = .int 0 := by
        rw [(h2 o.name).1 fun p hp' hpf => ?_, defaults_opt fl (tables_clean s hs).2.2.2 ho, hd]
        · rfl
        · obtain ⟨q1, q2⟩ := (mem p).1 ⟨hp', hpf⟩
          rw [List.mem_singleton.1 q1] at q2
          simp [Cond.holds] at q2
          omega
      rw [e]
      rw [hx'] at hi ⊢
      exact Or.inr (Or.inr ⟨by simp, _, 0, by omega, le_refl _, hi, rfl⟩)
  · rcases hx with hx | hx <;> rw [hx] at hx' <;> simp at hx'

theorem usable_update {F : Type} {fl : Floats F} {s : Script} (hs : s ∈ scripts) {a : Args F} (ha : Runnable fl s a) {o : Opt} (ho : o ∈ s.opts)
    (ht : o.ty = .int) (v : Int) : Runnable fl s (Function.update a o.name (.int v)) := by
  intro o' ho'
  by_cases e : o'.name = o.name
  · have := nodup_map_inj (tables_clean s hs).2.2.2 ho' ho e
    subst this
    rw [Function.update_self, ht]
    trivial
  · rw [Function.update_of_ne e]
    exact ha o' ho'

/-- C101: so the command does not repeat every run: any run can be changed in such an option to one that its own command
does not repeat. -/
theorem c101_forgotten_false {F : Type} {fl : Floats F} (hfl : LawfulFloats fl) {s : Script} (hs : s ∈ scripts)
    {a : Args F} (ha : Runnable fl s a) (n : Nat) {o : Opt} (ho : o ∈ s.opts) (hf : (s.file, o.name) ∈ forgotten)
    (hN : num a "N" ≤ 0) : ∃ v : Int, Runnable fl s (Function.update a o.name (.int v)) ∧
      ∃ b, replay fl s (Function.update a o.name (.int v)) n = .ok b ∧ ¬ SameSetting fl o.name (.int v) (b o.name) := by
  obtain ⟨hu, ht, hty, h⟩ := tables_forgotten s hs o ho hf
  rcases h with ⟨hx, hd, _⟩ | ⟨hx, hd, _⟩ | ⟨hx, hd, _⟩
  · refine ⟨0, usable_update hs ha ho hty 0, ?_⟩
    obtain ⟨b, h1, h2⟩ := c101_lost hfl hs (usable_update hs ha ho hty 0) n ho hf
      ⟨fun _ => by simp [num, hx], fun e => by rw [hx] at e; exact absurd e (by decide)⟩
    refine ⟨b, h1, ?_⟩
    rw [h2, hd, Dflt.val]
    rintro (h | ⟨i, _, h⟩ | ⟨_, i, j, _, hj, _, h⟩)
    · simp at h
    · simp at h
    · simp only [Val.int.injEq] at h
      omega
  · refine ⟨2, usable_update hs ha ho hty 2, ?_⟩
    obtain ⟨b, h1, h2⟩ := c101_lost hfl hs (usable_update hs ha ho hty 2) n ho hf
      ⟨fun e => by rw [hx] at e; exact absurd e (by decide), fun _ => by
        unfold num at hN ⊢
        rw [hx, Function.update_of_ne (by decide)]
        exact hN⟩
    refine ⟨b, h1, ?_⟩
    rw [h2, hd, Dflt.val]
    rintro (h | ⟨i, _, h⟩ | ⟨_, i, j, hi, _, h, _⟩)
    · simp at h
    · simp at h
    · simp only [Val.int.injEq] at h
      omega
  · refine ⟨2, usable_update hs ha ho hty 2, ?_⟩
    obtain ⟨b, h1, h2⟩ := c101_lost hfl hs (usable_update hs ha ho hty 2) n ho hf
      ⟨fun e => by rw [e] at hx; simp at hx, fun e => by rw [e] at hx; simp at hx⟩
    refine ⟨b, h1, ?_⟩
    rw [h2]
    rintro (h | ⟨i, _, h⟩ | ⟨h, _⟩)
    · rcases hd with hd | hd <;> rw [hd, Dflt.val] at h <;> simp at h
    · rcases hd with hd | hd <;> rw [hd, Dflt.val] at h <;> simp at h
    · exact hx h

/-! ### Commands that are not accepted -/

/-- A part argparse does not accept. -/
def Bad {F : Type} (fl : Floats F) (opts : List Opt) (a : Args F) (n : Nat) (p : Piece) : Prop :=
  ∀ o, kind opts (flagWord p.flag) = .flag o → convert fl (p.src.text fl a n) o.ty = none

theorem parse_bad {F : Type} {fl : Floats F} {opts : List Opt} {a : Args F} {n : Nat} : ∀ (ps : List Piece) (a0 : Args F),
    (∃ p ∈ ps, Bad fl opts a n p) → parse fl opts (pieceWords fl a n ps) a0 = .error .systemExit
  | [], _, h => by simp at h
  | p :: ps, a0, h => by
    have e : pieceWords fl a n (p :: ps) = flagWord p.flag :: p.src.text fl a n :: pieceWords fl a n ps := rfl
    rw [e, parse]
    cases hk : kind opts (flagWord p.flag) with
    | arg => rfl
    | bad => rfl
    | flag o =>
      simp only
      cases kind opts (p.src.text fl a n) with
      | flag _ => rfl
      | bad => rfl
      | arg =>
        simp only
        cases hc : convert fl (p.src.text fl a n) o.ty with
        | none => rfl
        | some x =>
          obtain ⟨q, hq, hb⟩ := h
          rcases List.mem_cons.1 hq with rfl | hq
          · rw [hb o hk] at hc
            exact absurd hc (by simp)
          · exact parse_bad ps _ ⟨q, hq, hb⟩

/-- The part writes an option of the script, if it writes one. -/
def knownArg (s : Script) (p : Piece) : Bool := match p.src with
  | .arg x => decide (x ∈ s.opts.map (·.name))
  | _ => true

theorem tables_args : ∀ s ∈ scripts, ∀ p ∈ s.pieces, knownArg s p = true := by decide +kernel

theorem texts_plain {F : Type} {fl : Floats F} {s : Script} (hs : s ∈ scripts) {a : Args F} (ha : Runnable fl s a) (n : Nat) :
    ∀ p ∈ s.pieces, p.src.text fl a n ≠ [] ∧ ' ' ∉ p.src.text fl a n := by
  intro p hp
  have h := tables_args s hs p hp
  have hN : textN n = textI n := by simp [textI]
  cases hsrc : p.src with
  | arg x =>
    unfold knownArg at h
    rw [hsrc] at h
    obtain ⟨o, ho, rfl⟩ := List.mem_map.1 (of_decide_eq_true h)
    have hu := ha o ho
    simp only [Src.text]
    cases hv : a o.name with
    | int i => exact textI_plain i
    | float x =>
      rw [hv] at hu
      cases ht : o.ty <;> rw [ht] at hu
      · exact absurd hu (by simp)
      · exact ⟨hu.1, hu.2.1⟩
      · exact absurd hu (by simp)
    | str w =>
      rw [hv] at hu
      cases ht : o.ty <;> rw [ht] at hu
      · exact absurd hu (by simp)
      · exact absurd hu (by simp)
      · exact ⟨hu.1, hu.2.1⟩
  | count =>
    simp only [Src.text, hN]
    exact textI_plain _
  | window =>
    simp only [Src.text]
    split
    · exact textI_plain _
    · decide
  | procs =>
    simp only [Src.text]
    split
    · exact textI_plain _
    · decide
  | truth x =>
    simp only [Src.text]
    split <;> decide
  | zero => exact ⟨by simp [Src.text], by simp [Src.text]⟩

/-- What is wrong in these scripts: an option argparse does not know, or a truth value for a whole number. -/
def wrong (s : Script) (p : Piece) : Bool := match kind s.opts (flagWord p.flag), p.src with
  | .bad, _ => true
  | .flag o, .truth _ => decide (o.ty = .int)
  | _, _ => false

theorem tables_unusable : ∀ s ∈ scripts, s.file ∈ unusable → ∃ p ∈ s.pieces, p.cond = .always ∧ wrong s p = true := by
  decide +kernel

theorem tables_twice : ∀ s ∈ scripts, s.file = twice → (⟨.always, "window_len", .window⟩ : Piece) ∈ s.pieces ∧
    ∃ o ∈ s.opts, o.name = "window_len" ∧ o.ty = .int := by
  decide +kernel

/-- C101: the commands of three scripts are never accepted, that of a fourth only if there is a window. -/
theorem c101_exit {F : Type} {fl : Floats F} {s : Script} (hs : s ∈ scripts) {a : Args F} (ha : Runnable fl s a) (n : Nat)
    (h : s.file ∈ unusable ∨ (s.file = "runs/Feb_2022/experimental_mavlink_based.py" ∧ num a "window_len" ≤ 0)) :
    replay fl s a n = .error .systemExit := by
  rw [replay_words fl hs a n fun p hp => texts_plain hs ha n p (List.mem_filter.1 hp).1]
  refine parse_bad _ _ ?_
  rcases h with h | ⟨h, hw⟩
  · obtain ⟨p, hp, hc, hk⟩ := tables_unusable s hs h
    refine ⟨p, List.mem_filter.2 ⟨hp, by rw [hc]; rfl⟩, fun o ho => ?_⟩
    unfold wrong at hk
    rw [ho] at hk
    cases hsrc : p.src with
    | truth x =>
      rw [hsrc] at hk
      rw [of_decide_eq_true hk]
      simp only [Src.text]
      split <;> rfl
    | _ => rw [hsrc] at hk; exact absurd hk (by simp)
  · obtain ⟨h1, o, ho, hx, hty⟩ := tables_twice s hs h
    refine ⟨_, List.mem_filter.2 ⟨h1, rfl⟩, fun o' ho' => ?_⟩
    have := kind_flag (tables_clean s hs).2.2.2 ho
    rw [hx] at this
    simp only at ho'
    rw [this] at ho'
    cases ho'
    rw [hty]
    simp only [Src.text, gt_iff_lt]
    rw [if_neg (by omega)]
    rfl

/-! ### The words of the run -/

theorem doubled_length {ω : Type} (l : List ω) : ∀ m, ((fun (e : List ω) => e ++ e)^[m] l).length = l.length * 2 ^ m
  | 0 => by simp
  | m + 1 => by
    rw [Function.iterate_succ_apply', List.length_append, doubled_length l m, pow_succ]
    ring

theorem flatMap_length_const {β ω : Type} {cut : β → List ω} {c : Nat} (hc : ∀ x, (cut x).length = c) :
    ∀ l : List β, (l.flatMap cut).length = l.length * c
  | [] => by simp
  | x :: l => by
    rw [List.flatMap_cons, List.length_append, flatMap_length_const hc l, hc, List.length_cons]
    ring

/-- C101: with `c` words to a buffer and `m` doublings, the recorded `N` gives the same words again exactly if there is one
word to a buffer and no doubling, or all buffers were used. -/
theorem c101_words {β ω : Type} {cut : β → List ω} {c : Nat} (hc0 : 0 < c) (hc : ∀ x, (cut x).length = c) (data : List β) {N : Int}
    (hN : 0 < N) (m : Nat) :
    encoded cut data (encoded cut data N m).length m = encoded cut data N m ↔ c * 2 ^ m = 1 ∨ (data.length : Int) ≤ N := by
  have len : ∀ k : Int, (encoded cut data k m).length = min (if k > 0 then k.toNat else data.length) data.length * c * 2 ^ m := by
    intro k
    unfold encoded
    rw [doubled_length, flatMap_length_const hc, List.length_take]
  have hpow : 0 < 2 ^ m := by positivity
  have hN' : (if N > 0 then N.toNat else data.length) = N.toNat := if_pos hN
  have hL := len N
  rw [hN'] at hL
  generalize hn : (encoded cut data N m).length = L at hL ⊢
  by_cases hle : (data.length : Int) ≤ N
  · simp only [hle, or_true, iff_true]
    have h1 : min N.toNat data.length = data.length := by omega
    rw [h1] at hL
    have h2 : data.length ≤ L ∨ data.length = 0 := by
      left
      rw [hL, mul_assoc]
      exact Nat.le_mul_of_pos_right _ (Nat.mul_pos hc0 hpow)
    unfold encoded
    rw [hN']
    congr 2
    rw [List.take_of_length_le (i := N.toNat) (by omega)]
    apply List.take_of_length_le
    split <;> omega
  · simp only [hle, or_false]
    have h1 : min N.toNat data.length = N.toNat := by omega
    rw [h1, mul_assoc] at hL
    have hNpos : 0 < N.toNat := by omega
    have hLpos : N.toNat ≤ L := by
      rw [hL]
      exact Nat.le_mul_of_pos_right _ (Nat.mul_pos hc0 hpow)
    constructor
    · intro h
      have h2 := congrArg List.length h
      rw [len, hn, if_pos (by omega), Int.toNat_natCast, mul_assoc] at h2
      have h3 : min L data.length = N.toNat := by
        rw [hL] at h2 ⊢
        exact Nat.eq_of_mul_eq_mul_right (Nat.mul_pos hc0 hpow) h2
      have h4 : L = N.toNat := by omega
      rw [h4] at hL
      exact (Nat.eq_of_mul_eq_mul_left hNpos (by omega)).symm
    · intro h
      rw [h, Nat.mul_one] at hL
      rw [hL, show ((N.toNat : Nat) : Int) = N by omega]

/-! ### Examples -/

/-- Whole numbers for floats. -/
def intFloats : Floats Int := ⟨textI, readI, fun q => q.floor⟩

theorem intFloats_lawful : LawfulFloats intFloats := ⟨fun x => readI_textI x, fun i => by simp [intFloats, readI_textI]⟩

/-- A run of simulate_gallager_bf.py: `N` is 3 and `multiply_data` is 2. -/
def exRun : Args Int := fun x =>
  if x = "N" then .int 3 else if x = "minflip" then .float 0 else if x = "maxflip" then .float 1 else if x = "ent_threshold" then .float (-5)
  else if x = "conf_slope" then .int 7 else if x = "model_length" then .str "all".toList else .int 2

theorem exRun_usable : Runnable intFloats s09 exRun := by
  have h0 : OneWord (textI 0) := ⟨by decide, by decide, fun h => absurd h (by decide)⟩
  have h1 : OneWord (textI 1) := ⟨by decide, by decide, fun h => absurd h (by decide)⟩
  have h5 : OneWord (textI (-5)) := ⟨by decide, by decide, fun _ => ⟨[], ['5'], by decide, by decide, Or.inl (by decide)⟩⟩
  have hs : OneWord "all".toList := ⟨by decide, by decide, fun h => absurd h (by decide)⟩
  intro o ho
  simp only [s09, List.mem_cons, List.not_mem_nil, or_false] at ho
  rcases ho with rfl | rfl | rfl | rfl | rfl | rfl | rfl | rfl | rfl | rfl | rfl <;>
    trivial

/-- Its command: twelve words came out of three buffers, and twelve buffers would be used the next time. -/
example : words (command intFloats s09 exRun 12) = ["python", "runs/HC_eilat_July_2018/simulate_gallager_bf.py", "--minflip", "0",
    "--maxflip", "1", "--nflips", "2", "--ldpciterations", "2", "--ent_threshold", "-5", "--conf_center", "2", "--conf_slope", "7",
    "--multiply_data", "2", "--model_length", "all", "--window_len", "2", "--N", "12"].map String.toList := by decide +kernel

example : (replay intFloats s09 exRun 12).toOption.map (fun b => (num b "N", num b "window_len")) = some (12, 2) := by decide +kernel

/-- `c101_repeats` applies. -/
example : ∃ b, replay intFloats s09 exRun 12 = .ok b := by
  obtain ⟨b, h, _⟩ := c101_repeats intFloats_lawful (s := s09) (by decide +kernel) (by decide +kernel) exRun_usable
    (fun h => absurd h (by decide)) 12
  exact ⟨b, h⟩

/-- Of twenty buffers, three are used the first time and twelve the second. -/
example : (encoded (fun i : Nat => [i]) (List.range 20) 3 2).length = 12 ∧ (encoded (fun i : Nat => [i]) (List.range 20) 12 2).length = 48 := by
  decide

/-- Some run of a script. -/
def exOther (s : Script) : Args Int := fun x => match s.opts.find? fun o => decide (o.name = x) with
  | some o => match o.ty with
    | .int => .int 0
    | .float => .float 1
    | .str => .str "BP".toList
  | none => .str []

/-- Every script has runs. -/
theorem exOther_usable {s : Script} (hs : s ∈ scripts) : Runnable intFloats s (exOther s) := by
  intro o ho
  have e : s.opts.find? (fun o' => decide (o'.name = o.name)) = some o := find_opt (tables_clean s hs).2.2.2 ho
  have h1 : OneWord (textI 1) := ⟨by decide, by decide, fun h => absurd h (by decide)⟩
  have h2 : OneWord "BP".toList := ⟨by decide, by decide, fun h => absurd h (by decide)⟩
  unfold exOther
  rw [e]
  cases ht : o.ty <;> simp only [ht]
  · exact h1
  · exact h2

/-- The command of the AWGN study is not accepted. -/
example : replay intFloats s07 (exOther s07) 5 = .error .systemExit :=
  c101_exit (by decide +kernel) (exOther_usable (by decide +kernel)) 5 (Or.inl (by decide))

/-- Nor is that of the February 2022 study without a window. -/
example : replay intFloats s02 (exOther s02) 5 = .error .systemExit :=
  c101_exit (by decide +kernel) (exOther_usable (by decide +kernel)) 5 (Or.inr ⟨by decide, by decide +kernel⟩)

/-- A run without a window is repeated with a window of 50. -/
example : ∃ b, replay intFloats s17 (exOther s17) 5 = .ok b ∧ b "window_len" = .int 50 :=
  c101_lost intFloats_lawful (by decide +kernel) (exOther_usable (by decide +kernel)) 5
    (o := ⟨"window_len", .int, .int 50⟩) (by decide +kernel) (by decide +kernel) ⟨fun _ => by decide +kernel, fun h => absurd h (by decide)⟩

end NR
