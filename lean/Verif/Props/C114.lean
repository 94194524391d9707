import Verif.Props.C34
import Verif.Props.C101
import Verif.Spec.JsonText
import Mathlib.Data.Nat.Digits.Lemmas
/-
C114: the file of a buffer model, also when saving was interrupted.
-/
namespace NR.C114
open NR NR.JsonText NR.Spec
open NR.Command (textI textN isDigit readI digits)

variable {F μ : Type} {io : FloatIO F μ}

/-! ### Strings -/

theorem hexVal_digit : ∀ n, n < 16 → hexVal (hexDigit n) = some n := by decide

theorem hex4_u (n : Nat) (h : n < 65536) :
    hex4 (hexDigit (n / 4096 % 16)) (hexDigit (n / 256 % 16)) (hexDigit (n / 16 % 16)) (hexDigit (n % 16)) = some n := by
  unfold hex4
  rw [hexVal_digit _ (Nat.mod_lt _ (by decide)), hexVal_digit _ (Nat.mod_lt _ (by decide)), hexVal_digit _ (Nat.mod_lt _ (by decide)),
    hexVal_digit _ (Nat.mod_lt _ (by decide))]
  simp only [bind, Option.bind, Option.some.injEq]
  omega

theorem charRange (c : Char) : c.toNat < 55296 ∨ (57343 < c.toNat ∧ c.toNat < 1114112) := by
  have := c.valid
  simpa [UInt32.isValidChar, Nat.isValidChar] using this

theorem readStr_u {n : Nat} (hn : n < 65536) (h1 : ¬ (55296 ≤ n ∧ n < 56320)) (h2 : ¬ (56320 ≤ n ∧ n < 57344)) {t t' r' : Text}
    (h : readStr none t = some (t', r')) : readStr none (uEscape n ++ t) = some (Char.ofNat n :: t', r') := by
  simp only [uEscape, List.cons_append, List.nil_append]
  rw [readStr]
  simp only [hex4_u _ hn, bind, Option.bind, if_neg h1, if_neg h2, h]

theorem readStr_pair {a b : Nat} (h1 : 55296 ≤ a ∧ a < 56320) (h2 : 56320 ≤ b ∧ b < 57344) {t t' r' : Text}
    (h : readStr none t = some (t', r')) :
    readStr none (uEscape a ++ (uEscape b ++ t)) = some (Char.ofNat (65536 + (a - 55296) * 1024 + (b - 56320)) :: t', r') := by
  simp only [uEscape, List.cons_append, List.nil_append]
  rw [readStr]
  simp only [hex4_u _ (show a < 65536 by omega), bind, Option.bind, if_pos h1]
  rw [readStr]
  simp only [hex4_u _ (show b < 65536 by omega), bind, Option.bind, if_pos h2, h]

theorem readStr_escape (c : Char) (t t' r' : Text) (h : readStr none t = some (t', r')) :
    readStr none (escapeChar c ++ t) = some (c :: t', r') := by
  unfold escapeChar
  split_ifs with h1 h2 h3 h4 h5 h6 h7 h8 h9
  · subst h1; simp [readStr, unescape, h]
  · subst h2; simp [readStr, unescape, h]
  · subst h3; simp [readStr, unescape, h]
  · subst h4; simp [readStr, unescape, h]
  · subst h5; simp [readStr, unescape, h]
  · subst h6; simp [readStr, unescape, h]
  · subst h7; simp [readStr, unescape, h]
  · have h32 : ¬ c.toNat < 32 := by omega
    simp [readStr, h2, h, h32]
  · have hv := charRange c
    rw [readStr_u h9 (by omega) (by omega) h, Char.ofNat_toNat]
  · have hv := charRange c
    generalize hn : c.toNat = n at hv h9
    have hc : 65536 + (55296 + (n - 65536) / 1024 - 55296) * 1024 + (56320 + (n - 65536) % 1024 - 56320) = c.toNat := by omega
    rw [List.append_assoc, readStr_pair (by omega) (by omega) h, hc, Char.ofNat_toNat]

theorem readStr_quote (s : Text) (r : Text) : readStr none (s.flatMap escapeChar ++ '"' :: r) = some (s, r) := by
  induction s with
  | nil => simp [readStr]
  | cons c s ih =>
    rw [List.flatMap_cons, List.append_assoc]
    exact readStr_escape c _ _ _ ih

/-! ### Numbers -/

/-- The text behind a number does not continue it. -/
def NumEnd (r : Text) : Prop := ∀ c t, r = c :: t → isDigit c = false ∧ c ≠ '.' ∧ c ≠ 'e' ∧ c ≠ 'E'

theorem span_digits {ds r : Text} (h : ∀ c ∈ ds, isDigit c = true) (hr : ∀ c t, r = c :: t → isDigit c = false) :
    spanDigits (ds ++ r) = (ds, r) := by
  unfold spanDigits
  induction ds with
  | nil =>
    cases r with
    | nil => rfl
    | cons c t => simp [hr c t rfl]
  | cons d ds ih =>
    have hd := h d (by simp)
    have := ih fun c hc => h c (by simp [hc])
    simp only [Prod.mk.injEq] at this
    simp [hd, this]

theorem isDigit_of {t : Text} (h : IsDigits t) : ∀ c ∈ t, isDigit c = true := by
  intro c hc
  have := h.2 c hc
  have hall : ∀ d ∈ "0123456789".toList, isDigit d = true := by decide
  exact hall c this

theorem readMinus_digit {c : Char} {t : Text} (h : isDigit c = true) : readMinus (c :: t) = ([], c :: t) := by
  unfold readMinus
  split
  · rename_i heq
    rw [List.cons.injEq] at heq
    exact absurd heq.1 (isDigit_ne h).1
  · rfl

theorem readNat_digits {int r : Text} (hi : int = ['0'] ∨ (int ≠ [] ∧ (∀ c ∈ int, isDigit c = true)) ∧ int.head? ≠ some '0')
    (hr : ∀ c t, r = c :: t → isDigit c = false) : readNat (int ++ r) = some (int, r) := by
  rcases hi with rfl | ⟨⟨hne, hd⟩, h0⟩
  · rfl
  · cases int with
    | nil => exact absurd rfl hne
    | cons c t =>
      have h0' : c ≠ '0' := by simpa using h0
      have hsp := span_digits (ds := t) (r := r) (fun x hx => hd x (by simp [hx])) hr
      simp [readNat, hd c (by simp), hsp]

theorem readInt_nat {int r : Text} (sign : Text) (hs : sign = [] ∨ sign = ['-'])
    (hi : int = ['0'] ∨ (int ≠ [] ∧ (∀ c ∈ int, isDigit c = true)) ∧ int.head? ≠ some '0')
    (hr : ∀ c t, r = c :: t → isDigit c = false) : readInt (sign ++ (int ++ r)) = some (sign ++ int, r) := by
  have hm : readMinus (sign ++ (int ++ r)) = (sign, int ++ r) := by
    rcases hs with rfl | rfl
    · obtain ⟨c, t, he, hc⟩ : ∃ c t, int = c :: t ∧ isDigit c = true := by
        rcases hi with rfl | ⟨⟨hne, hd⟩, _⟩
        · exact ⟨_, _, rfl, rfl⟩
        · cases int with
          | nil => exact absurd rfl hne
          | cons c t => exact ⟨c, t, rfl, hd c (by simp)⟩
      rw [he]
      exact readMinus_digit hc
    · rfl
  unfold readInt
  rw [hm, readNat_digits hi hr]
  rfl

theorem textN_head (n : Nat) : textN n = ['0'] ∨ (textN n ≠ [] ∧ ∀ c ∈ textN n, isDigit c = true) ∧ (textN n).head? ≠ some '0' := by
  by_cases h0 : n = 0
  · left; simp [textN, h0]
  · right
    have hd := textN_digits n
    obtain ⟨c, r, he, _, hall⟩ := digits_cons hd
    refine ⟨⟨by simp [he], hall⟩, ?_⟩
    rw [textN, if_neg h0, List.head?_map, List.head?_reverse]
    have hne : Nat.digits 10 n ≠ [] := by simp [Nat.digits_ne_nil_iff_ne_zero, h0]
    rw [List.getLast?_eq_some_getLast hne]
    have h1 := Nat.getLast_digit_ne_zero 10 h0
    have h2 : (Nat.digits 10 n).getLast hne < 10 := Nat.digits_lt_base (by decide) (List.getLast_mem hne)
    intro hc
    rw [Option.map_some, Option.some.injEq] at hc
    have := digitChar_toNat h2
    rw [hc] at this
    have h48 : ('0' : Char).toNat = 48 := rfl
    omega

theorem readFrac_none {r : Text} (h : ∀ c t, r = c :: t → c ≠ '.') : readFrac r = ([], r) := by
  unfold readFrac
  split
  · exact absurd rfl (h _ _ rfl)
  · rfl

theorem readExp_none {r : Text} (h : ∀ c t, r = c :: t → c ≠ 'e' ∧ c ≠ 'E') : readExp r = ([], r) := by
  cases r with
  | nil => rfl
  | cons c t =>
    have := h c t rfl
    simp [readExp, this.1, this.2]

theorem readNum_int (i : Int) {r : Text} (hr : NumEnd r) : readNum io (textI i ++ r) = some (.int i, r) := by
  have h1 : readInt (textI i ++ r) = some (textI i, r) := by
    unfold textI
    split
    · have := readInt_nat (r := r) ['-'] (.inr rfl) (textN_head i.natAbs) (fun c t h => (hr c t h).1)
      simpa using this
    · have := readInt_nat (r := r) [] (.inl rfl) (textN_head i.natAbs) (fun c t h => (hr c t h).1)
      simpa using this
  unfold readNum
  simp only [h1, bind, Option.bind, readFrac_none (fun c t h => (hr c t h).2.1), readExp_none (fun c t h => (hr c t h).2.2),
    and_self, if_true, readI_textI]

theorem readFrac_some {ds r : Text} (hd : IsDigits ds) (hr : ∀ c t, r = c :: t → isDigit c = false) :
    readFrac ('.' :: (ds ++ r)) = ('.' :: ds, r) := by
  simp [readFrac, span_digits (isDigit_of hd) hr, hd.1]

theorem readExp_some {s ds r : Text} (hs : s = [] ∨ s = ['-'] ∨ s = ['+']) (hd : IsDigits ds) (hr : ∀ c t, r = c :: t → isDigit c = false) :
    readExp ('e' :: (s ++ (ds ++ r))) = ('e' :: (s ++ ds), r) := by
  have hsp := span_digits (isDigit_of hd) hr
  have h1 : readSign (s ++ (ds ++ r)) = (s, ds ++ r) := by
    rcases hs with rfl | rfl | rfl
    · cases ds with
      | nil => exact absurd rfl hd.1
      | cons d ds =>
        have := isDigit_ne (isDigit_of hd d (by simp))
        simp only [List.nil_append, List.cons_append]
        unfold readSign
        split
        · rename_i heq; injection heq with h1 _; exact absurd h1 this.1
        · rename_i heq; injection heq with h1 _; exact absurd h1 this.2.1
        · rfl
    · rfl
    · rfl
  simp [readExp, h1, hsp, hd.1]

theorem readNum_float {t : Text} (ht : FloatText t) {r : Text} (hr : NumEnd r) :
    readNum io (t ++ r) = some (.flt (io.read t), r) := by
  obtain ⟨sign, int, frac, exp, rfl, hs, hi, hf, he, hne⟩ := ht
  have hi' : int = ['0'] ∨ (int ≠ [] ∧ ∀ c ∈ int, isDigit c = true) ∧ int.head? ≠ some '0' := by
    rcases hi with h | ⟨h, h0⟩
    · exact .inl h
    · exact .inr ⟨⟨h.1, isDigit_of h⟩, h0⟩
  have hexpHead : ∀ c t, exp ++ r = c :: t → isDigit c = false ∧ c ≠ '.' := by
    intro c t h
    rcases he with rfl | ⟨s, ds, _, _, rfl⟩
    · exact ⟨(hr c t (by simpa using h)).1, (hr c t (by simpa using h)).2.1⟩
    · injection h with h1 _; subst h1; decide
  have hfracHead : ∀ c t, frac ++ (exp ++ r) = c :: t → isDigit c = false := by
    intro c t h
    rcases hf with rfl | ⟨ds, _, rfl⟩
    · exact (hexpHead c t (by simpa using h)).1
    · injection h with h1 _; subst h1; decide
  have h1 := readInt_nat (r := frac ++ (exp ++ r)) sign hs hi' hfracHead
  have h2 : readFrac (frac ++ (exp ++ r)) = (frac, exp ++ r) := by
    rcases hf with rfl | ⟨ds, hd, rfl⟩
    · exact readFrac_none fun c t h => (hexpHead c t (by simpa using h)).2
    · exact readFrac_some hd fun c t h => (hexpHead c t h).1
  have h3 : readExp (exp ++ r) = (exp, r) := by
    rcases he with rfl | ⟨s, ds, hs, hd, rfl⟩
    · exact readExp_none fun c t h => (hr c t (by simpa using h)).2.2
    · have := readExp_some (r := r) hs hd fun c t h => (hr c t h).1
      simpa using this
  unfold readNum
  simp only [List.append_assoc, h1, bind, Option.bind, h2, h3, if_neg hne]

/-! ### Values without brackets -/

theorem readAtom_num {c : Char} {s : Text} (h : isDigit c = true ∨ c = '-' ∧ ∀ t, s ≠ 'I' :: t) : readAtom io (c :: s) = readNum io (c :: s) := by
  have h1 : ∀ d : Char, isDigit d = true → d ≠ 'n' ∧ d ≠ 't' ∧ d ≠ 'f' ∧ d ≠ 'N' ∧ d ≠ 'I' ∧ d ≠ '-' := by
    intro d hd
    refine ⟨?_, ?_, ?_, ?_, ?_, ?_⟩ <;> (rintro rfl; revert hd; decide)
  have h2 : c ≠ 'n' ∧ c ≠ 't' ∧ c ≠ 'f' ∧ c ≠ 'N' ∧ c ≠ 'I' ∧ (c = '-' → ∀ t, s ≠ 'I' :: t) := by
    rcases h with h | ⟨rfl, h⟩
    · obtain ⟨a, b, c, d, e, f⟩ := h1 c h
      exact ⟨a, b, c, d, e, fun h => absurd h f⟩
    · exact ⟨by decide, by decide, by decide, by decide, by decide, fun _ => h⟩
  unfold readAtom
  split
  · rename_i heq; rw [List.cons.injEq] at heq; exact absurd heq.1 h2.1
  · rename_i heq; rw [List.cons.injEq] at heq; exact absurd heq.1 h2.2.1
  · rename_i heq; rw [List.cons.injEq] at heq; exact absurd heq.1 h2.2.2.1
  · rename_i heq; rw [List.cons.injEq] at heq; exact absurd heq.1 h2.2.2.2.1
  · rename_i heq; rw [List.cons.injEq] at heq; exact absurd heq.1 h2.2.2.2.2.1
  · rename_i heq; rw [List.cons.injEq] at heq; exact absurd heq.2 (h2.2.2.2.2.2 heq.1 _)
  · rfl

theorem textI_head (i : Int) : ∃ c t, textI i = c :: t ∧ (isDigit c = true ∨ c = '-' ∧ ∃ d t', t = d :: t' ∧ isDigit d = true) := by
  obtain ⟨c, r, he, hc, _⟩ := digits_cons (textN_digits i.natAbs)
  unfold textI
  split
  · exact ⟨'-', _, rfl, .inr ⟨rfl, c, r, he, hc⟩⟩
  · exact ⟨c, r, he, .inl hc⟩

theorem floatText_head {t : Text} (h : FloatText t) :
    ∃ c t', t = c :: t' ∧ (isDigit c = true ∨ c = '-' ∧ ∃ d t'', t' = d :: t'' ∧ isDigit d = true) := by
  obtain ⟨sign, int, frac, exp, rfl, hs, hi, _⟩ := h
  obtain ⟨c, t, rfl, hc⟩ : ∃ c t, int = c :: t ∧ isDigit c = true := by
    rcases hi with rfl | ⟨h, _⟩
    · exact ⟨_, _, rfl, rfl⟩
    · cases int with
      | nil => exact absurd rfl h.1
      | cons c t => exact ⟨c, t, rfl, isDigit_of h c (by simp)⟩
  rcases hs with rfl | rfl
  · exact ⟨c, _, rfl, .inl hc⟩
  · exact ⟨'-', _, rfl, .inr ⟨rfl, c, _, rfl, hc⟩⟩

theorem head_num {t : Text} (h : ∃ c t', t = c :: t' ∧ (isDigit c = true ∨ c = '-' ∧ ∃ d t'', t' = d :: t'' ∧ isDigit d = true)) (r : Text) :
    readAtom io (t ++ r) = readNum io (t ++ r) := by
  obtain ⟨c, t', rfl, h⟩ := h
  rw [List.cons_append]
  refine readAtom_num ?_
  rcases h with h | ⟨h, d, t'', rfl, hd⟩
  · exact .inl h
  · refine .inr ⟨h, fun x hx => ?_⟩
    rw [List.cons_append, List.cons.injEq] at hx
    rw [hx.1] at hd
    exact absurd hd (by decide)

theorem readAtom_int (i : Int) {r : Text} (hr : NumEnd r) : readAtom io (textI i ++ r) = some (.int i, r) := by
  rw [head_num (textI_head i), readNum_int i hr]

theorem readAtom_float (hio : FloatIO.Lawful io) (x : F) {r : Text} (hr : NumEnd r) : readAtom io (io.repr x ++ r) = some (.flt x, r) := by
  rcases hio.text x with ⟨h, hx⟩ | ⟨h, hx⟩ | ⟨h, hx⟩ | ⟨h, hx⟩
  · rw [h, hx]; rfl
  · rw [h, hx]; rfl
  · rw [h, hx]; rfl
  · rw [head_num (floatText_head h), readNum_float h hr, hx]

/-! ### Reading what was written -/

mutual
/-- No dict has a key twice. -/
def Distinct : JVal F → Prop
  | .arr l => DistinctArr l
  | .obj l => (l.map Prod.fst).Nodup ∧ DistinctObj l
  | _ => True
def DistinctArr : List (JVal F) → Prop
  | [] => True
  | x :: xs => Distinct x ∧ DistinctArr xs
def DistinctObj : List (String × JVal F) → Prop
  | [] => True
  | (_, x) :: ps => Distinct x ∧ DistinctObj ps
end

mutual
/-- The depth of recursion needed. -/
def cost : JVal F → Nat
  | .arr l => 1 + costArr l
  | .obj l => 1 + costObj l
  | _ => 1
def costArr : List (JVal F) → Nat
  | [] => 0
  | x :: xs => 1 + cost x + costArr xs
def costObj : List (String × JVal F) → Nat
  | [] => 0
  | (_, x) :: ps => 1 + cost x + costObj ps
end

theorem skipWs_newline (l : Nat) {c : Char} {t : Text} (h : isWs c = false) : skipWs (newline l ++ (c :: t)) = c :: t := by
  unfold skipWs newline
  have : ∀ k, (List.replicate k ' ' ++ (c :: t)).dropWhile isWs = c :: t := by
    intro k
    induction k with
    | zero => simp [h]
    | succ k ih => rw [List.replicate_succ, List.cons_append, List.dropWhile_cons_of_pos (by decide), ih]
  rw [List.cons_append, List.dropWhile_cons_of_pos (by decide), this]

theorem skipWs_cons {c : Char} {t : Text} (h : isWs c = false) : skipWs (c :: t) = c :: t := by
  simp [skipWs, h]

theorem dumps_head (hio : FloatIO.Lawful io) (level : Nat) (v : JVal F) :
    ∃ c t, dumps io level v = c :: t ∧ isWs c = false ∧ c ≠ ']' ∧ c ≠ '}' := by
  have hd : ∀ c : Char, isDigit c = true → isWs c = false ∧ c ≠ ']' ∧ c ≠ '}' := by
    intro c h
    refine ⟨?_, ?_, ?_⟩
    · unfold isWs
      have : c ≠ ' ' ∧ c ≠ '\t' ∧ c ≠ '\n' ∧ c ≠ '\r' := by
        refine ⟨?_, ?_, ?_, ?_⟩ <;> (rintro rfl; revert h; decide)
      simp [this]
    · rintro rfl; revert h; decide
    · rintro rfl; revert h; decide
  have hnum : ∀ t : Text, (∃ c t', t = c :: t' ∧ (isDigit c = true ∨ c = '-' ∧ ∃ d t'', t' = d :: t'' ∧ isDigit d = true)) →
      ∃ c t', t = c :: t' ∧ isWs c = false ∧ c ≠ ']' ∧ c ≠ '}' := by
    rintro t ⟨c, t', rfl, h⟩
    rcases h with h | ⟨rfl, _⟩
    · exact ⟨c, t', rfl, hd c h⟩
    · exact ⟨'-', t', rfl, by decide⟩
  cases v with
  | null => exact ⟨_, _, rfl, by decide⟩
  | bool b => cases b <;> exact ⟨_, _, rfl, by decide⟩
  | int i => rw [dumps]; exact hnum _ (textI_head i)
  | flt x =>
    rw [dumps]
    rcases hio.text x with ⟨h, _⟩ | ⟨h, _⟩ | ⟨h, _⟩ | ⟨h, _⟩
    · rw [h]; exact ⟨_, _, rfl, by decide⟩
    · rw [h]; exact ⟨_, _, rfl, by decide⟩
    · rw [h]; exact ⟨_, _, rfl, by decide⟩
    · exact hnum _ (floatText_head h)
  | str s => exact ⟨_, _, rfl, by decide⟩
  | arr l => cases l <;> exact ⟨_, _, rfl, by decide⟩
  | obj l =>
    cases l with
    | nil => exact ⟨_, _, rfl, by decide⟩
    | cons p ps => obtain ⟨k, x⟩ := p; exact ⟨_, _, rfl, by decide⟩

theorem skip_dumps (hio : FloatIO.Lawful io) (l level : Nat) (v : JVal F) (r : Text) :
    skipWs (newline l ++ (dumps io level v ++ r)) = dumps io level v ++ r := by
  obtain ⟨c, t, h, hw, _⟩ := dumps_head hio level v
  rw [h, List.cons_append, skipWs_newline l hw]

theorem skip_blank (hio : FloatIO.Lawful io) (level : Nat) (v : JVal F) (r : Text) :
    skipWs (' ' :: (dumps io level v ++ r)) = dumps io level v ++ r := by
  obtain ⟨c, t, h, hw, _⟩ := dumps_head hio level v
  rw [h, List.cons_append, skipWs, List.dropWhile_cons_of_pos (by decide), List.dropWhile_cons_of_neg (by simp [hw])]

theorem skip_quote (l : Nat) (k : String) (r : Text) : skipWs (newline l ++ (quote k ++ r)) = quote k ++ r := by
  have : quote k ++ r = '"' :: (k.toList.flatMap escapeChar ++ '"' :: r) := by simp [quote]
  rw [this, skipWs_newline _ (by decide)]

theorem numEnd_cons {c : Char} {t : Text} (h : isDigit c = false ∧ c ≠ '.' ∧ c ≠ 'e' ∧ c ≠ 'E') : NumEnd (c :: t) := by
  intro d u he
  rw [List.cons.injEq] at he
  rw [← he.1]
  exact h

theorem dictOf_nodup {α : Type} (l : List (String × α)) (h : (l.map Prod.fst).Nodup) : dictOf l = l := by
  have : ∀ (l acc : List (String × α)), ((acc ++ l).map Prod.fst).Nodup → l.foldl (fun d p => dictSet d p.1 p.2) acc = acc ++ l := by
    intro l
    induction l with
    | nil => intro acc _; simp
    | cons p l ih =>
      intro acc h
      have hp : p.1 ∉ acc.map Prod.fst := by
        intro hm
        rw [List.map_append, List.nodup_append] at h
        exact h.2.2 _ hm _ (by simp) rfl
      have : dictSet acc p.1 p.2 = acc ++ [p] := by rw [dictSet, if_neg hp]
      rw [List.foldl_cons, this, ih (acc ++ [p]) (by simpa using h)]
      simp
  have := this l [] (by simpa using h)
  simpa [dictOf] using this

/-- What follows an element of a list or dict. -/
theorem numEnd_arr (level : Nat) (xs : List (JVal F)) (r : Text) : NumEnd (dumpsArr io (level + 1) xs ++ (newline level ++ r)) := by
  cases xs with
  | nil => exact numEnd_cons (by decide)
  | cons x xs => exact numEnd_cons (by decide)

theorem numEnd_obj (level : Nat) (ps : List (String × JVal F)) (r : Text) : NumEnd (dumpsObj io (level + 1) ps ++ (newline level ++ r)) := by
  cases ps with
  | nil => exact numEnd_cons (by decide)
  | cons p ps => obtain ⟨k, x⟩ := p; exact numEnd_cons (by decide)

theorem readVal_atom (n : Nat) {c : Char} {t : Text} (h1 : c ≠ '"') (h2 : c ≠ '[') (h3 : c ≠ '{') :
    readVal io (n + 1) (c :: t) = readAtom io (c :: t) := by
  rw [readVal]
  · rintro r' he; rw [List.cons.injEq] at he; exact h1 he.1
  · rintro r' he; rw [List.cons.injEq] at he; exact h2 he.1
  · rintro r' he; rw [List.cons.injEq] at he; exact h3 he.1

theorem readVal_num (n : Nat) {t : Text} (h : ∃ c t', t = c :: t' ∧ (isDigit c = true ∨ c = '-' ∧ ∃ d t'', t' = d :: t'' ∧ isDigit d = true))
    (r : Text) : readVal io (n + 1) (t ++ r) = readAtom io (t ++ r) := by
  obtain ⟨c, t', rfl, h⟩ := h
  rw [List.cons_append]
  refine readVal_atom n ?_ ?_ ?_ <;> (rintro rfl; rcases h with h | ⟨h, _⟩ <;> (revert h; decide))

theorem readVal_float (hio : FloatIO.Lawful io) (n : Nat) (x : F) {r : Text} (hr : NumEnd r) :
    readVal io (n + 1) (io.repr x ++ r) = some (.flt x, r) := by
  rw [← readAtom_float hio x hr]
  rcases hio.text x with ⟨h, _⟩ | ⟨h, _⟩ | ⟨h, _⟩ | ⟨h, _⟩
  · rw [h]; exact readVal_atom n (by decide) (by decide) (by decide)
  · rw [h]; exact readVal_atom n (by decide) (by decide) (by decide)
  · rw [h]; exact readVal_atom n (by decide) (by decide) (by decide)
  · exact readVal_num n (floatText_head h) r

theorem readVal_arr (n : Nat) {s t : Text} (h : skipWs s = t) (hne : ∀ u, t ≠ ']' :: u) {l : List (JVal F)} {r : Text}
    (hl : readArr io n t = some (l, r)) : readVal io (n + 1) ('[' :: s) = some (.arr l, r) := by
  rw [readVal, h]
  split
  · exact absurd rfl (hne _)
  · simp only [hl, bind, Option.bind]

theorem readVal_obj (n : Nat) {s t : Text} (h : skipWs s = t) (hne : ∀ u, t ≠ '}' :: u) {l : List (String × JVal F)} {r : Text}
    (hl : readObj io n t = some (l, r)) : readVal io (n + 1) ('{' :: s) = some (.obj (dictOf l), r) := by
  rw [readVal, h]
  split
  · exact absurd rfl (hne _)
  · simp only [hl, bind, Option.bind]

theorem quote_append (k : String) (r : Text) : quote k ++ r = '"' :: (k.toList.flatMap escapeChar ++ '"' :: r) := by
  simp [quote]

mutual
theorem readVal_dumps (hio : FloatIO.Lawful io) : ∀ (v : JVal F) (level n : Nat) (r : Text), Distinct v → cost v ≤ n → NumEnd r →
    readVal io n (dumps io level v ++ r) = some (v, r)
  | v, level, 0, r, _, hc, _ => by cases v <;> simp [cost] at hc
  | .null, level, n + 1, r, _, _, _ => by rw [dumps]; rfl
  | .bool true, level, n + 1, r, _, _, _ => by rw [dumps]; rfl
  | .bool false, level, n + 1, r, _, _, _ => by rw [dumps]; rfl
  | .int i, level, n + 1, r, _, _, hr => by rw [dumps, readVal_num n (textI_head i), readAtom_int i hr]
  | .flt x, level, n + 1, r, _, _, hr => by rw [dumps, readVal_float hio n x hr]
  | .str s, level, n + 1, r, _, _, _ => by
    rw [dumps, quote_append, readVal]
    simp only [readStr_quote, bind, Option.bind, String.ofList_toList]
  | .arr [], level, n + 1, r, _, _, _ => by rw [dumps]; rfl
  | .arr (x :: xs), level, n + 1, r, hd, hc, _ => by
    have := readArr_dumps hio (x :: xs) level n r hd (by simp only [cost] at hc; omega)
    rw [dumps]
    simp only [List.cons_append, List.append_assoc, List.nil_append]
    refine readVal_arr n (skip_dumps hio _ _ x _) ?_ this
    obtain ⟨c, t, h, _, h1, _⟩ := dumps_head hio (level + 1) x
    intro u hu
    rw [h, List.cons_append, List.cons.injEq] at hu
    exact h1 hu.1
  | .obj [], level, n + 1, r, _, _, _ => by rw [dumps]; rfl
  | .obj ((k, x) :: ps), level, n + 1, r, hd, hc, _ => by
    have := readObj_dumps hio ((k, x) :: ps) level n r hd.2 (by simp only [cost] at hc; omega)
    rw [dumps]
    simp only [List.cons_append, List.append_assoc, List.nil_append]
    rw [← dictOf_nodup _ hd.1]
    refine readVal_obj n ?_ ?_ this
    · rw [quote_append, skipWs_newline _ (by decide)]
    · intro u hu
      rw [quote_append, List.cons.injEq] at hu
      exact absurd hu.1 (by decide)
theorem readArr_dumps (hio : FloatIO.Lawful io) : ∀ (l : List (JVal F)) (level n : Nat) (r : Text), DistinctArr l → costArr l ≤ n →
    match l with
    | [] => True
    | x :: xs => readArr io n (dumps io (level + 1) x ++ (dumpsArr io (level + 1) xs ++ (newline level ++ (']' :: r)))) = some (x :: xs, r)
  | [], _, _, _, _, _ => trivial
  | x :: xs, level, 0, r, hd, hc => by simp [costArr] at hc
  | [x], level, n + 1, r, hd, hc => by
    have hx := readVal_dumps hio x (level + 1) n (dumpsArr io (level + 1) [] ++ (newline level ++ (']' :: r))) hd.1
      (by simp only [costArr] at hc; omega) (numEnd_arr level [] _)
    show readArr io (n + 1) _ = _
    rw [readArr, hx]
    simp only [bind, Option.bind, dumpsArr, List.nil_append]
    rw [skipWs_newline _ (by decide)]
    rfl
  | x :: y :: ys, level, n + 1, r, hd, hc => by
    have hx := readVal_dumps hio x (level + 1) n (dumpsArr io (level + 1) (y :: ys) ++ (newline level ++ (']' :: r))) hd.1
      (by simp only [costArr] at hc; omega) (numEnd_arr level (y :: ys) _)
    have := readArr_dumps hio (y :: ys) level n r hd.2 (by simp only [costArr] at hc ⊢; omega)
    show readArr io (n + 1) _ = _
    rw [readArr, hx]
    simp only [bind, Option.bind, dumpsArr, List.cons_append, List.append_assoc]
    rw [skipWs_cons (by decide)]
    simp only [skip_dumps hio]
    simp only at this
    rw [this]
theorem readObj_dumps (hio : FloatIO.Lawful io) : ∀ (l : List (String × JVal F)) (level n : Nat) (r : Text), DistinctObj l → costObj l ≤ n →
    match l with
    | [] => True
    | (k, x) :: ps => readObj io n (quote k ++ (':' :: ' ' :: (dumps io (level + 1) x ++ (dumpsObj io (level + 1) ps ++ (newline level ++ ('}' :: r)))))) =
        some ((k, x) :: ps, r)
  | [], _, _, _, _, _ => trivial
  | (k, x) :: ps, level, 0, r, hd, hc => by simp [costObj] at hc
  | [(k, x)], level, n + 1, r, hd, hc => by
    have hx := readVal_dumps hio x (level + 1) n (dumpsObj io (level + 1) [] ++ (newline level ++ ('}' :: r))) hd.1
      (by simp only [costObj] at hc; omega) (numEnd_obj level [] _)
    show readObj io (n + 1) _ = _
    rw [quote_append, readObj]
    simp only [readStr_quote, bind, Option.bind, String.ofList_toList]
    rw [skipWs_cons (by decide)]
    simp only [skip_blank hio, hx]
    simp only [dumpsObj, List.nil_append]
    rw [skipWs_newline _ (by decide)]
    rfl
  | (k, x) :: (k', y) :: ps, level, n + 1, r, hd, hc => by
    have hx := readVal_dumps hio x (level + 1) n (dumpsObj io (level + 1) ((k', y) :: ps) ++ (newline level ++ ('}' :: r))) hd.1
      (by simp only [costObj] at hc; omega) (numEnd_obj level ((k', y) :: ps) _)
    have := readObj_dumps hio ((k', y) :: ps) level n r hd.2 (by simp only [costObj] at hc ⊢; omega)
    show readObj io (n + 1) _ = _
    rw [quote_append, readObj]
    simp only [readStr_quote, bind, Option.bind, String.ofList_toList]
    rw [skipWs_cons (by decide)]
    simp only [skip_blank hio, hx]
    simp only [dumpsObj, List.cons_append, List.append_assoc]
    rw [skipWs_cons (by decide)]
    simp only [skip_quote]
    simp only at this
    rw [this]
end

mutual
theorem cost_le (hio : FloatIO.Lawful io) : ∀ (level : Nat) (v : JVal F), cost v ≤ (dumps io level v).length
  | level, .null => by simp [dumps, cost]
  | level, .bool true => by simp [dumps, cost]
  | level, .bool false => by simp [dumps, cost]
  | level, .int i => by
    obtain ⟨c, t, h, _⟩ := dumps_head hio level (.int i)
    rw [h]; simp [cost]
  | level, .flt x => by
    obtain ⟨c, t, h, _⟩ := dumps_head hio level (.flt x)
    rw [h]; simp [cost]
  | level, .str s => by simp [dumps, cost, quote]
  | level, .arr [] => by simp [dumps, cost, costArr]
  | level, .arr (x :: xs) => by
    have h1 := cost_le hio (level + 1) x
    have h2 := costArr_le hio (level + 1) xs
    simp only [dumps, cost, costArr, newline, List.length_cons, List.length_append]
    omega
  | level, .obj [] => by simp [dumps, cost, costObj]
  | level, .obj ((k, x) :: ps) => by
    have h1 := cost_le hio (level + 1) x
    have h2 := costObj_le hio (level + 1) ps
    simp only [dumps, cost, costObj, newline, List.length_cons, List.length_append]
    omega
theorem costArr_le (hio : FloatIO.Lawful io) : ∀ (level : Nat) (l : List (JVal F)), costArr l ≤ (dumpsArr io level l).length
  | _, [] => by simp [costArr]
  | level, x :: xs => by
    have h1 := cost_le hio level x
    have h2 := costArr_le hio level xs
    simp only [dumpsArr, costArr, newline, List.length_cons, List.length_append]
    omega
theorem costObj_le (hio : FloatIO.Lawful io) : ∀ (level : Nat) (l : List (String × JVal F)), costObj l ≤ (dumpsObj io level l).length
  | _, [] => by simp [costObj]
  | level, (k, x) :: ps => by
    have h1 := cost_le hio level x
    have h2 := costObj_le hio level ps
    simp only [dumpsObj, costObj, newline, List.length_cons, List.length_append]
    omega
end

theorem read_dumps (hio : FloatIO.Lawful io) (level : Nat) {v : JVal F} (hv : Distinct v) :
    readVal io ((dumps io level v).length + 1) (dumps io level v) = some (v, []) := by
  have := readVal_dumps hio v level ((dumps io level v).length + 1) [] hv ((cost_le hio level v).trans (Nat.le_succ _))
    (fun c t h => absurd h (by simp))
  simpa using this

theorem loads_dumps (hio : FloatIO.Lawful io) (level : Nat) {v : JVal F} (hv : Distinct v) : loads io (dumps io level v) = some v := by
  obtain ⟨c, t, h, hw, _⟩ := dumps_head hio level v
  have hs : skipWs (dumps io level v) = dumps io level v := by rw [h, skipWs_cons hw]
  rw [loads, hs, read_dumps hio level hv]
  rfl

/-! ### More text behind a value -/

theorem readStr_more : ∀ (o : Option Nat) (s t r q : Text), readStr o s = some (t, r) → readStr o (s ++ q) = some (t, r ++ q) := by
  intro o s
  fun_induction readStr o s with
  | case1 r =>
    intro t r' q h
    simp only [Option.some.injEq, Prod.mk.injEq] at h
    obtain ⟨rfl, rfl⟩ := h
    rw [List.cons_append, readStr]
  | case2 a b c d r ih2 ih1 =>
    intro t r' q h
    simp only [List.cons_append]
    rw [readStr]
    cases hx : hex4 a b c d with
    | none => rw [hx] at h; cases h
    | some n =>
      rw [hx] at h
      simp only [bind, Option.bind] at h ⊢
      split at h
      · rw [if_pos ‹_›]; exact ih2 n _ _ q h
      · rw [if_neg ‹_›]
        split at h
        · cases h
        · rw [if_neg ‹_›]
          cases hr : readStr none r with
          | none => rw [hr] at h; cases h
          | some x =>
            rw [hr] at h
            rw [ih1 x.1 x.2 q hr]
            simp only [Option.some.injEq, Prod.mk.injEq] at h ⊢
            exact ⟨h.1, by rw [h.2]⟩
  | case3 e r hu ih1 =>
    intro t r' q h
    cases hx : unescape e with
    | none => rw [hx] at h; cases h
    | some c =>
      have he : e ≠ 'u' := by
        rintro rfl
        have h0 : unescape 'u' = none := by decide
        rw [h0] at hx; cases hx
      simp only [List.cons_append]
      rw [readStr]
      · rw [hx] at h ⊢
        simp only [bind, Option.bind] at h ⊢
        cases hr : readStr none r with
        | none => rw [hr] at h; cases h
        | some x =>
          rw [hr] at h
          rw [ih1 x.1 x.2 q hr]
          simp only [Option.some.injEq, Prod.mk.injEq] at h ⊢
          exact ⟨h.1, by rw [h.2]⟩
      · intro _ _ _ _ _ h; exact absurd h he
  | case4 c r h1 h2 h3 h4 => intro t r' q h; cases h
  | case5 c r h1 h2 h3 h4 ih1 =>
    intro t r' q h
    have hc : c ≠ '\\' := fun h => h4 (.inl h)
    simp only [List.cons_append]
    rw [readStr]
    · rw [if_neg h4]
      cases hr : readStr none r with
      | none => rw [hr] at h; cases h
      | some x =>
        rw [hr] at h
        rw [ih1 x.1 x.2 q hr]
        simp only [bind, Option.bind, Option.some.injEq, Prod.mk.injEq] at h ⊢
        exact ⟨h.1, by rw [h.2]⟩
    · exact h1
    · intro _ _ _ _ _ h; exact absurd h hc
    · intro _ _ h; exact absurd h hc
  | case6 hi a b c d r ih1 =>
    intro t r' q h
    simp only [List.cons_append]
    rw [readStr]
    cases hx : hex4 a b c d with
    | none => rw [hx] at h; cases h
    | some n =>
      rw [hx] at h
      simp only [bind, Option.bind] at h ⊢
      split at h
      · rw [if_pos ‹_›]
        cases hr : readStr none r with
        | none => rw [hr] at h; cases h
        | some x =>
          rw [hr] at h
          rw [ih1 x.1 x.2 q hr]
          simp only [Option.some.injEq, Prod.mk.injEq] at h ⊢
          exact ⟨h.1, by rw [h.2]⟩
      · cases h
  | case7 => intro t r' q h; cases h

theorem skipWs_more {r : Text} {c : Char} {t : Text} (h : skipWs r = c :: t) (q : Text) : skipWs (r ++ q) = c :: (t ++ q) := by
  unfold skipWs at h ⊢
  induction r with
  | nil => cases h
  | cons d r ih =>
    rw [List.cons_append]
    by_cases hd : isWs d = true
    · rw [List.dropWhile_cons_of_pos hd] at h ⊢; exact ih h
    · rw [List.dropWhile_cons_of_neg hd] at h ⊢
      rw [List.cons.injEq] at h
      rw [h.1, h.2]

/-- A text that goes on with something that is not part of a number. -/
def Stop (r : Text) : Prop := ∃ c t, r = c :: t ∧ c ≠ '.' ∧ c ≠ 'e' ∧ c ≠ 'E'

theorem stop_of_skip {r : Text} {c : Char} {t : Text} (h : skipWs r = c :: t) (hc : c ≠ '.' ∧ c ≠ 'e' ∧ c ≠ 'E') : Stop r := by
  unfold skipWs at h
  cases r with
  | nil => cases h
  | cons d r =>
    by_cases hd : isWs d = true
    · refine ⟨d, r, rfl, ?_, ?_, ?_⟩ <;> (rintro rfl; revert hd; decide)
    · rw [List.dropWhile_cons_of_neg hd, List.cons.injEq] at h
      exact ⟨d, r, rfl, by rw [h.1]; exact hc⟩

theorem span_more {s ds : Text} {c : Char} {t : Text} (h : spanDigits s = (ds, c :: t)) (q : Text) :
    spanDigits (s ++ q) = (ds, c :: (t ++ q)) := by
  unfold spanDigits at h ⊢
  induction s generalizing ds with
  | nil => simp at h
  | cons d s ih =>
    rw [List.cons_append]
    by_cases hd : isDigit d = true
    · simp only [List.takeWhile_cons_of_pos hd, List.dropWhile_cons_of_pos hd, Prod.mk.injEq] at h ⊢
      obtain ⟨h1, h2⟩ := h
      have := ih (ds := s.takeWhile isDigit) (by rw [h2])
      simp only [Prod.mk.injEq] at this
      exact ⟨by rw [← h1, this.1], this.2⟩
    · simp only [List.takeWhile_cons_of_neg hd, List.dropWhile_cons_of_neg hd, Prod.mk.injEq, List.cons.injEq] at h ⊢
      exact ⟨h.1, h.2.1, by rw [h.2.2]⟩

theorem readNat_more {s i : Text} {c : Char} {t : Text} (h : readNat s = some (i, c :: t)) (q : Text) :
    readNat (s ++ q) = some (i, c :: (t ++ q)) := by
  cases s with
  | nil => cases h
  | cons d s =>
    rw [List.cons_append]
    by_cases hd : d = '0'
    · subst hd
      simp only [readNat, Option.some.injEq, Prod.mk.injEq] at h ⊢
      exact ⟨h.1, by rw [h.2]; rfl⟩
    · simp only [readNat] at h ⊢
      split at h
      · rw [if_pos ‹_›]
        simp only [Option.some.injEq, Prod.mk.injEq] at h ⊢
        have := span_more (s := s) (ds := (spanDigits s).1) (c := c) (t := t) (by rw [← h.2]) q
        rw [this]
        exact ⟨h.1, rfl⟩
      · cases h

theorem readInt_more {s i : Text} {c : Char} {t : Text} (h : readInt s = some (i, c :: t)) (q : Text) :
    readInt (s ++ q) = some (i, c :: (t ++ q)) := by
  have hs : s ≠ [] := by rintro rfl; cases h
  have hm : readMinus (s ++ q) = ((readMinus s).1, (readMinus s).2 ++ q) := by
    cases s with
    | nil => exact absurd rfl hs
    | cons d s =>
      by_cases hd : d = '-'
      · subst hd; rfl
      · have : ∀ u, readMinus (d :: u) = ([], d :: u) := by
          intro u
          unfold readMinus
          split
          · rename_i heq; rw [List.cons.injEq] at heq; exact absurd heq.1 hd
          · rfl
        rw [List.cons_append, this, this]; rfl
  unfold readInt at h ⊢
  rw [hm]
  cases hn : readNat (readMinus s).2 with
  | none => rw [hn] at h; cases h
  | some x =>
    rw [hn] at h
    simp only [Option.map_some, Option.some.injEq, Prod.mk.injEq] at h
    have := readNat_more (s := (readMinus s).2) (i := x.1) (c := c) (t := t) (by rw [hn, ← h.2]) q
    simp only [this, Option.map_some, h.1]

theorem readFrac_more {s f : Text} {c : Char} {t : Text} (h : readFrac s = (f, c :: t)) (hc : c ≠ '.') (q : Text) :
    readFrac (s ++ q) = (f, c :: (t ++ q)) := by
  unfold readFrac at h
  split at h
  · rename_i r
    split at h
    · simp only [Prod.mk.injEq, List.cons.injEq] at h
      exact absurd h.2.1.symm hc
    · rename_i hne
      simp only [Prod.mk.injEq] at h
      have := span_more (s := r) (ds := (spanDigits r).1) (c := c) (t := t) (by rw [← h.2]) q
      rw [List.cons_append]
      simp only [readFrac, this, if_neg hne, h.1]
  · rename_i hx
    simp only [Prod.mk.injEq] at h
    rw [h.2, ← h.1]
    exact readFrac_none fun d u hu => by
      rw [List.cons_append, List.cons.injEq] at hu
      rw [← hu.1]; exact hc

theorem readSign_more {s sg : Text} {d : Char} {t : Text} (h : readSign s = (sg, d :: t)) (q : Text) : readSign (s ++ q) = (sg, d :: (t ++ q)) := by
  cases s with
  | nil => cases h
  | cons a s =>
    unfold readSign at h ⊢
    rw [List.cons_append]
    split at h
    · rename_i heq
      simp only [Prod.mk.injEq] at h
      rw [List.cons.injEq] at heq
      rw [heq.1, heq.2, ← h.1, h.2]; rfl
    · rename_i heq
      simp only [Prod.mk.injEq] at h
      rw [List.cons.injEq] at heq
      rw [heq.1, heq.2, ← h.1, h.2]; rfl
    · rename_i h1 h2
      simp only [Prod.mk.injEq] at h
      split
      · rename_i heq; rw [List.cons.injEq] at heq; exact absurd (by rw [heq.1]) (h1 s)
      · rename_i heq; rw [List.cons.injEq] at heq; exact absurd (by rw [heq.1]) (h2 s)
      · rw [← List.cons_append, h.2, ← h.1]; rfl

theorem readExp_more {s e : Text} {c : Char} {t : Text} (h : readExp s = (e, c :: t)) (hc : c ≠ 'e' ∧ c ≠ 'E') (q : Text) :
    readExp (s ++ q) = (e, c :: (t ++ q)) := by
  cases s with
  | nil => simp [readExp] at h
  | cons a s =>
    by_cases ha : a = 'e' ∨ a = 'E'
    · rw [List.cons_append]
      simp only [readExp, if_pos ha] at h ⊢
      split at h
      · simp only [Prod.mk.injEq, List.cons.injEq] at h
        rcases ha with ha | ha
        · exact absurd (h.2.1.symm.trans ha) hc.1
        · exact absurd (h.2.1.symm.trans ha) hc.2
      · rename_i hne
        simp only [Prod.mk.injEq] at h
        have h2 : ∃ d u, (readSign s).2 = d :: u := by
          cases hr : (readSign s).2 with
          | nil => rw [hr] at hne; exact absurd rfl hne
          | cons d u => exact ⟨d, u, rfl⟩
        obtain ⟨d, u, hu⟩ := h2
        have h3 := readSign_more (s := s) (sg := (readSign s).1) (d := d) (t := u) (by rw [← hu]) q
        have h4 := span_more (s := d :: u) (ds := (spanDigits (d :: u)).1) (c := c) (t := t) (by rw [← h.2, hu]) q
        rw [List.cons_append] at h4
        rw [hu] at hne h
        simp only [h3, h4, if_neg hne, h.1]
    · have : readExp (a :: s) = ([], a :: s) := by simp only [readExp, if_neg ha]
      rw [this] at h
      simp only [Prod.mk.injEq, List.cons.injEq] at h
      rw [← h.1, List.cons_append, readExp, if_neg ha, ← h.2.1, h.2.2]

theorem readNum_more {s r : Text} {v : JVal F} (h : readNum io s = some (v, r)) (hr : Stop r) (q : Text) :
    readNum io (s ++ q) = some (v, r ++ q) := by
  obtain ⟨c, t, rfl, h1, h2, h3⟩ := hr
  unfold readNum at h ⊢
  cases hi : readInt s with
  | none => rw [hi] at h; cases h
  | some x =>
    rw [hi] at h
    simp only [bind, Option.bind] at h ⊢
    have he : (readExp (readFrac x.2).2).2 = c :: t := by
      split at h
      · cases hn : readI x.1 with
        | none => rw [hn] at h; cases h
        | some n => rw [hn] at h; simp only [Option.some.injEq, Prod.mk.injEq] at h; exact h.2
      · simp only [Option.some.injEq, Prod.mk.injEq] at h; exact h.2
    have h4 : ∃ d u, (readFrac x.2).2 = d :: u ∧ d ≠ '.' := by
      cases hf : (readFrac x.2).2 with
      | nil => rw [hf] at he; cases he
      | cons d u =>
        refine ⟨d, u, rfl, ?_⟩
        rw [hf] at he
        by_cases hd : d = 'e' ∨ d = 'E'
        · rcases hd with rfl | rfl <;> decide
        · simp only [readExp, if_neg hd, List.cons.injEq] at he
          rw [he.1]; exact h1
    obtain ⟨d, u, hu, hd⟩ := h4
    have h5 : ∃ a w, x.2 = a :: w := by
      cases hx : x.2 with
      | nil => rw [hx] at hu; cases hu
      | cons a w => exact ⟨a, w, rfl⟩
    obtain ⟨a, w, hw⟩ := h5
    have e1 := readInt_more (s := s) (i := x.1) (c := a) (t := w) (by rw [hi, ← hw]) q
    have e2 := readFrac_more (s := a :: w) (f := (readFrac x.2).1) (c := d) (t := u) (by rw [← hw, ← hu]) hd q
    have e3 := readExp_more (s := d :: u) (e := (readExp (readFrac x.2).2).1) (c := c) (t := t) (by rw [← hu, ← he]) ⟨h2, h3⟩ q
    rw [List.cons_append] at e2 e3
    simp only [e1, e2, e3]
    rw [he] at h
    split at h
    · rw [if_pos ‹_›]
      cases hn : readI x.1 with
      | none => rw [hn] at h; cases h
      | some n =>
        rw [hn] at h
        simp only [Option.some.injEq, Prod.mk.injEq] at h ⊢
        exact ⟨h.1, rfl⟩
    · rw [if_neg ‹_›]
      simp only [Option.some.injEq, Prod.mk.injEq] at h ⊢
      exact ⟨h.1, rfl⟩

theorem readNum_head {s : Text} {x : JVal F × Text} (h : readNum io s = some x) :
    ∃ c t, s = c :: t ∧ (isDigit c = true ∨ c = '-' ∧ ∃ d u, t = d :: u ∧ isDigit d = true) := by
  have hn : ∀ s i, readNat s = some i → ∃ c t, s = c :: t ∧ isDigit c = true := by
    intro s i h
    cases s with
    | nil => cases h
    | cons c t =>
      refine ⟨c, t, rfl, ?_⟩
      by_cases h0 : c = '0'
      · subst h0; decide
      · by_contra hd
        simp [readNat, hd] at h
  unfold readNum at h
  cases hi : readInt s with
  | none => rw [hi] at h; cases h
  | some y =>
    unfold readInt at hi
    cases hk : readNat (readMinus s).2 with
    | none => rw [hk] at hi; cases hi
    | some z =>
      obtain ⟨c, t, he, hc⟩ := hn _ _ hk
      cases s with
      | nil => cases he
      | cons d s =>
        refine ⟨d, s, rfl, ?_⟩
        by_cases hd : d = '-'
        · subst hd; exact .inr ⟨rfl, c, t, he, hc⟩
        · have : readMinus (d :: s) = ([], d :: s) := by
            unfold readMinus
            split
            · rename_i heq; rw [List.cons.injEq] at heq; exact absurd heq.1 hd
            · rfl
          rw [this, List.cons.injEq] at he
          rw [he.1]; exact .inl hc

theorem readAtom_more {s r : Text} {v : JVal F} (h : readAtom io s = some (v, r)) (hr : Stop r) (q : Text) :
    readAtom io (s ++ q) = some (v, r ++ q) := by
  have hs := h
  unfold readAtom at h
  split at h
  iterate 6
    simp only [Option.some.injEq, Prod.mk.injEq] at h
    obtain ⟨rfl, rfl⟩ := h
    rfl
  rw [head_num (readNum_head h)]
  exact readNum_more h hr q


theorem skipWs_ne {r : Text} (h : skipWs r ≠ []) (q : Text) : skipWs (r ++ q) = skipWs r ++ q := by
  cases hr : skipWs r with
  | nil => exact absurd hr h
  | cons c t => exact skipWs_more hr q

theorem readVal_nil (n : Nat) : readVal io n [] = none := by cases n <;> rfl

theorem readArr_nil (n : Nat) : readArr io n [] = none := by
  cases n with
  | zero => rfl
  | succ n => rw [readArr, readVal_nil]; rfl

theorem readObj_nil (n : Nat) : readObj io n [] = none := by cases n <;> rfl

/-- A text that starts with a quotation mark, a bracket or a brace. -/
def Opens (s : Text) : Prop := ∃ c t, s = c :: t ∧ (c = '"' ∨ c = '[' ∨ c = '{')

theorem readVal_other {n : Nat} {s : Text} (h : ¬ Opens s) : readVal io (n + 1) s = readAtom io s := by
  rw [readVal]
  · intro r hr; exact h ⟨_, r, hr, .inl rfl⟩
  · intro r hr; exact h ⟨_, r, hr, .inr (.inl rfl)⟩
  · intro r hr; exact h ⟨_, r, hr, .inr (.inr rfl)⟩

theorem more (n : Nat) :
    (∀ (s : Text) (v : JVal F) (r : Text), readVal io n s = some (v, r) → (Stop r ∨ Opens s) → ∀ q m, n ≤ m → readVal io m (s ++ q) = some (v, r ++ q)) ∧
    (∀ (s : Text) (l : List (JVal F)) (r : Text), readArr io n s = some (l, r) → ∀ q m, n ≤ m → readArr io m (s ++ q) = some (l, r ++ q)) ∧
    (∀ (s : Text) (l : List (String × JVal F)) (r : Text), readObj io n s = some (l, r) → ∀ q m, n ≤ m → readObj io m (s ++ q) = some (l, r ++ q)) := by
  induction n with
  | zero => exact ⟨fun _ _ _ h => (by cases h), fun _ _ _ h => (by cases h), fun _ _ _ h => (by cases h)⟩
  | succ n ih =>
    obtain ⟨ihv, iha, iho⟩ := ih
    refine ⟨?_, ?_, ?_⟩
    · intro s v r h hs q m hm
      obtain ⟨m, rfl⟩ : ∃ k, m = k + 1 := ⟨m - 1, by omega⟩
      have hm : n ≤ m := by omega
      by_cases ho : Opens s
      · obtain ⟨c, t, rfl, hc⟩ := ho
        rw [List.cons_append]
        rcases hc with rfl | rfl | rfl
        · simp only [readVal, bind, Option.bind] at h ⊢
          cases hx : readStr none t with
          | none => rw [hx] at h; cases h
          | some x =>
            rw [hx] at h
            rw [readStr_more _ _ x.1 x.2 q hx]
            simp only [Option.some.injEq, Prod.mk.injEq] at h ⊢
            exact ⟨h.1, by rw [h.2]⟩
        · cases hk : skipWs t with
          | nil =>
            simp only [readVal, hk, readArr_nil, bind, Option.bind] at h
            cases h
          | cons c u =>
            have hk' := skipWs_more hk q
            by_cases hc : c = ']'
            · subst hc
              simp only [readVal, hk, hk', Option.some.injEq, Prod.mk.injEq] at h ⊢
              exact ⟨h.1, by rw [h.2]⟩
            · have e : ∀ m w k, skipWs w = c :: k → readVal io (m + 1) ('[' :: w) = (readArr io m (c :: k)).map fun x => (.arr x.1, x.2) := by
                intro m w k hw
                simp only [readVal, hw]
                split
                · rename_i heq; rw [List.cons.injEq] at heq; exact absurd heq.1 hc
                · rename_i heq; cases readArr io m (c :: k) <;> rfl
              rw [e n _ _ hk] at h
              rw [e m _ _ hk']
              cases hx : readArr io n (c :: u) with
              | none => rw [hx] at h; cases h
              | some x =>
                rw [hx] at h
                have := iha _ x.1 x.2 hx q m hm
                rw [List.cons_append] at this
                rw [this]
                simp only [Option.map_some, Option.some.injEq, Prod.mk.injEq] at h ⊢
                exact ⟨h.1, by rw [h.2]⟩
        · cases hk : skipWs t with
          | nil =>
            simp only [readVal, hk, readObj_nil, bind, Option.bind] at h
            cases h
          | cons c u =>
            have hk' := skipWs_more hk q
            by_cases hc : c = '}'
            · subst hc
              simp only [readVal, hk, hk', Option.some.injEq, Prod.mk.injEq] at h ⊢
              exact ⟨h.1, by rw [h.2]⟩
            · have e : ∀ m w k, skipWs w = c :: k → readVal io (m + 1) ('{' :: w) = (readObj io m (c :: k)).map fun x => (.obj (dictOf x.1), x.2) := by
                intro m w k hw
                simp only [readVal, hw]
                split
                · rename_i heq; rw [List.cons.injEq] at heq; exact absurd heq.1 hc
                · rename_i heq; cases readObj io m (c :: k) <;> rfl
              rw [e n _ _ hk] at h
              rw [e m _ _ hk']
              cases hx : readObj io n (c :: u) with
              | none => rw [hx] at h; cases h
              | some x =>
                rw [hx] at h
                have := iho _ x.1 x.2 hx q m hm
                rw [List.cons_append] at this
                rw [this]
                simp only [Option.map_some, Option.some.injEq, Prod.mk.injEq] at h ⊢
                exact ⟨h.1, by rw [h.2]⟩
      · rw [readVal_other ho] at h
        have hne : s ≠ [] := by rintro rfl; cases h
        have ho' : ¬ Opens (s ++ q) := by
          rintro ⟨c, t, he, hc⟩
          cases s with
          | nil => exact hne rfl
          | cons d s =>
            rw [List.cons_append, List.cons.injEq] at he
            exact ho ⟨d, s, rfl, by rw [he.1]; exact hc⟩
        rw [readVal_other ho']
        exact readAtom_more h (hs.resolve_right ho) q
    · intro s l r h q m hm
      obtain ⟨m, rfl⟩ : ∃ k, m = k + 1 := ⟨m - 1, by omega⟩
      have hm : n ≤ m := by omega
      rw [readArr] at h ⊢
      cases hx : readVal io n s with
      | none => rw [hx] at h; cases h
      | some x =>
        rw [hx] at h
        simp only [bind, Option.bind] at h
        split at h
        · rename_i u hu
          rw [ihv _ x.1 x.2 hx (.inl (stop_of_skip hu (by decide))) q m hm]
          simp only [bind, Option.bind, skipWs_more hu q]
          simp only [Option.some.injEq, Prod.mk.injEq] at h ⊢
          exact ⟨h.1, by rw [h.2]⟩
        · rename_i u hu
          rw [ihv _ x.1 x.2 hx (.inl (stop_of_skip hu (by decide))) q m hm]
          simp only [bind, Option.bind, skipWs_more hu q]
          cases hy : readArr io n (skipWs u) with
          | none => rw [hy] at h; cases h
          | some y =>
            rw [hy] at h
            have hne : skipWs u ≠ [] := by intro h0; rw [h0, readArr_nil] at hy; cases hy
            rw [skipWs_ne hne q, iha _ y.1 y.2 hy q m hm]
            simp only [Option.some.injEq, Prod.mk.injEq] at h ⊢
            exact ⟨h.1, by rw [h.2]⟩
        · cases h
    · intro s l r h q m hm
      obtain ⟨m, rfl⟩ : ∃ k, m = k + 1 := ⟨m - 1, by omega⟩
      have hm : n ≤ m := by omega
      rw [readObj.eq_def] at h
      simp only at h
      split at h
      · rename_i s
        rw [List.cons_append, readObj]
        cases hx : readStr none s with
        | none => rw [hx] at h; cases h
        | some x =>
          rw [hx] at h
          rw [readStr_more _ _ x.1 x.2 q hx]
          simp only [bind, Option.bind] at h ⊢
          split at h
          · rename_i u hu
            simp only [skipWs_more hu q]
            cases hy : readVal io n (skipWs u) with
            | none => rw [hy] at h; cases h
            | some y =>
              rw [hy] at h
              have hne : skipWs u ≠ [] := by intro h0; rw [h0, readVal_nil] at hy; cases hy
              rw [skipWs_ne hne q]
              simp only at h
              split at h
              · rename_i w hw
                rw [ihv _ y.1 y.2 hy (.inl (stop_of_skip hw (by decide))) q m hm]
                simp only [skipWs_more hw q]
                simp only [Option.some.injEq, Prod.mk.injEq] at h ⊢
                exact ⟨h.1, by rw [h.2]⟩
              · rename_i w hw
                rw [ihv _ y.1 y.2 hy (.inl (stop_of_skip hw (by decide))) q m hm]
                simp only [skipWs_more hw q]
                cases hz : readObj io n (skipWs w) with
                | none => rw [hz] at h; cases h
                | some z =>
                  rw [hz] at h
                  have hne : skipWs w ≠ [] := by intro h0; rw [h0, readObj_nil] at hz; cases hz
                  rw [skipWs_ne hne q, iho _ z.1 z.2 hz q m hm]
                  simp only [Option.some.injEq, Prod.mk.injEq] at h ⊢
                  exact ⟨h.1, by rw [h.2]⟩
              · cases h
          · cases h
      · cases h

/-- A proper beginning of the text of a dict is not a JSON document. -/
theorem loads_cut (hio : FloatIO.Lawful io) {l : List (String × JVal F)} (hv : Distinct (.obj l)) {p q : Text}
    (h : p ++ q = dumps io 0 (.obj l)) (hq : q ≠ []) : loads io p = none := by
  cases p with
  | nil => rfl
  | cons c p =>
    have hc : c = '{' := by
      have : ∃ t, dumps io 0 (.obj l) = '{' :: t := by cases l <;> exact ⟨_, rfl⟩
      obtain ⟨t, ht⟩ := this
      rw [ht, List.cons_append, List.cons.injEq] at h
      exact h.1
    subst hc
    rw [loads, skipWs_cons (by decide)]
    cases hx : readVal io (('{' :: p).length + 1) ('{' :: p) with
    | none => rfl
    | some x =>
      exfalso
      have h1 := (more _).1 _ x.1 x.2 hx (.inr ⟨_, p, rfl, .inr (.inr rfl)⟩) q ((dumps io 0 (.obj l)).length + 1)
        (by rw [← h]; simp only [List.length_append]; omega)
      rw [h, read_dumps hio 0 hv] at h1
      simp only [Option.some.injEq, Prod.mk.injEq] at h1
      have h2 := congrArg List.length h1.2
      simp only [List.length_nil, List.length_append] at h2
      exact hq (List.length_eq_zero_iff.mp (by omega))

/-! ### What `save` hands over -/

theorem ofItems_map (l : List (String × Json μ)) : ofItems io l = l.map fun p => (p.1, ofJson io p.2) := by
  induction l with
  | nil => rfl
  | cons p l ih => obtain ⟨k, x⟩ := p; rw [ofItems, ih]; rfl

theorem ofJsons_map (l : List (Json μ)) : ofJsons io l = l.map (ofJson io) := by
  induction l with
  | nil => rfl
  | cons x l ih => rw [ofJsons, ih]; rfl

theorem distinctArr_iff (l : List (JVal F)) : DistinctArr l ↔ ∀ x ∈ l, Distinct x := by
  induction l with
  | nil => simp [DistinctArr]
  | cons x l ih => simp [DistinctArr, ih]

theorem distinctObj_iff (l : List (String × JVal F)) : DistinctObj l ↔ ∀ p ∈ l, Distinct p.2 := by
  induction l with
  | nil => simp [DistinctObj]
  | cons p l ih => obtain ⟨k, x⟩ := p; simp [DistinctObj, ih]

theorem distinct_obj {l : List (String × Json μ)} (hn : (l.map Prod.fst).Nodup) (h : ∀ p ∈ l, Distinct (ofJson io p.2)) :
    Distinct (ofJson io (.obj (sortKeys l))) := by
  rw [ofJson, ofItems_map, Distinct]
  refine ⟨?_, ?_⟩
  · rw [List.map_map]
    have : (Prod.fst ∘ fun p : String × Json μ => (p.1, ofJson io p.2)) = Prod.fst := rfl
    rw [this]
    exact ((sortKeys_perm l).map Prod.fst).nodup_iff.2 hn
  · rw [distinctObj_iff]
    intro p hp
    obtain ⟨q, hq, rfl⟩ := List.mem_map.1 hp
    exact h q ((sortKeys_perm l).mem_iff.1 hq)

theorem distinct_opt (w : Option Nat) : Distinct (ofJson io (optJson (μ := μ) w)) := by
  cases w <;> simp only [optJson, ofJson, Distinct]

theorem distinct_field (m : FieldModel Val μ) : Distinct (ofJson io (fieldJson m)) := by
  unfold fieldJson
  refine distinct_obj (by simp) ?_
  intro p hp
  simp only [List.mem_cons, List.not_mem_nil, or_false] at hp
  rcases hp with rfl | rfl | rfl | rfl | rfl | rfl | rfl | rfl | rfl | rfl
  all_goals first
    | exact distinct_opt _
    | simp only [ofJson, Distinct]
  rw [ofJsons_map, distinctArr_iff]
  intro x hx
  rw [List.map_map] at hx
  obtain ⟨v, _, rfl⟩ := List.mem_map.1 hx
  cases v <;> simp only [Function.comp, sampleJson, ofJson, Distinct]

theorem distinct_description (d : Option (List DescItem)) : Distinct (ofJson io (descriptionJson (μ := μ) d)) := by
  cases d with
  | none => simp only [descriptionJson, ofJson, Distinct]
  | some d =>
    simp only [descriptionJson, ofJson, Distinct]
    rw [ofJsons_map, distinctArr_iff]
    intro x hx
    rw [List.map_map] at hx
    obtain ⟨v, _, rfl⟩ := List.mem_map.1 hx
    cases v <;> simp only [Function.comp, descJson, ofJson, ofJsons, Distinct, DistinctArr, and_self]

theorem updateAll_keys {O : StatOps Val μ} {l ms : List (String × FieldModel Val μ)} (h : updateAll O l = (ms, .ok ())) :
    ms.map Prod.fst = l.map Prod.fst ∧ ∀ p ∈ ms, p.2.samples = [] ∨ ∃ a, O.fit p.2.samples = .ok a := by
  induction l generalizing ms with
  | nil =>
    simp only [updateAll] at h
    injection h with h _
    subst h
    exact ⟨rfl, fun p hp => absurd hp (by simp)⟩
  | cons p l ih =>
    obtain ⟨k, m⟩ := p
    simp only [updateAll] at h
    cases hm : m.update O with
    | mk m' r =>
      rw [hm] at h
      cases r with
      | error e => injection h with _ h; cases h
      | ok u =>
        cases u
        simp only at h
        injection h with h1 h2
        subst h1
        obtain ⟨i1, i2⟩ := ih (Prod.ext rfl h2)
        refine ⟨by rw [List.map_cons, List.map_cons, i1], ?_⟩
        intro p hp
        rcases List.mem_cons.1 hp with rfl | hp
        · simp only [FieldModel.update] at hm
          by_cases hs : m.samples = []
          · rw [if_pos hs] at hm
            injection hm with hm _
            left
            rw [← hm]
            exact hs
          · rw [if_neg hs] at hm
            cases hf : O.fit m.samples with
            | error e => rw [hf] at hm; injection hm with _ hm; cases hm
            | ok x =>
              rw [hf] at hm
              injection hm with hm _
              right
              rw [← hm]
              exact ⟨x, hf⟩
        · exact i2 p hp

/-- The value handed over is a dict, and no dict in it has a key twice. -/
theorem save_distinct {O : StatOps Val μ} {bm : BufferModel μ} (hk : (bm.models.map Prod.fst).Nodup) {j : Json μ} (h : (bm.save O).2 = .ok j) :
    ∃ l, ofJson io j = .obj l ∧ Distinct (.obj l) := by
  unfold BufferModel.save at h
  cases hu : updateAll O bm.models with
  | mk ms r =>
    rw [hu] at h
    cases r with
    | error e => cases h
    | ok u =>
      simp only at h
      injection h with h
      subst h
      refine ⟨_, rfl, ?_⟩
      have := updateAll_keys hu
      refine distinct_obj (io := io) (by simp) ?_
      intro p hp
      simp only [List.mem_cons, List.not_mem_nil, or_false] at hp
      rcases hp with rfl | rfl | rfl | rfl
      · refine distinct_obj ?_ ?_
        · rw [List.map_map]
          have e : (Prod.fst ∘ fun p : String × FieldModel Val μ => (p.1, fieldJson p.2)) = Prod.fst := rfl
          rw [e, this.1]
          exact hk
        · intro p hp
          obtain ⟨q, _, rfl⟩ := List.mem_map.1 hp
          exact distinct_field _
      · exact distinct_description _
      · exact distinct_opt _
      · simp only [ofJson, Distinct]

/-! ### Loading from the text -/

theorem get_ofJson (j : Json μ) (k : String) : (ofJson io j).get k = (j.get k).map (ofJson io) := by
  have hl : ∀ l : List (String × Json μ), (ofItems io l).lookup k = (l.lookup k).map (ofJson io) := by
    intro l
    induction l with
    | nil => rfl
    | cons p l ih =>
      obtain ⟨a, x⟩ := p
      rw [ofItems, List.lookup_cons, List.lookup_cons]
      cases k == a
      · exact ih
      · rfl
  cases j
  case obj l =>
    simp only [ofJson, JVal.get, Json.get, hl]
    cases l.lookup k <;> rfl
  all_goals rfl

theorem item_ofJson (j : Json μ) (k : String) : (ofJson io j).item k = (j.item k).map (ofJson io) := by
  have hl : ∀ l : List (String × Json μ), (ofItems io l).lookup k = (l.lookup k).map (ofJson io) := by
    intro l
    induction l with
    | nil => rfl
    | cons p l ih =>
      obtain ⟨a, x⟩ := p
      rw [ofItems, List.lookup_cons, List.lookup_cons]
      cases k == a
      · exact ih
      · rfl
  cases j
  case obj l =>
    simp only [ofJson, JVal.item, Json.item, hl]
    cases l.lookup k <;> rfl
  all_goals rfl

theorem loadOptJ_ofJson (j : Json μ) : loadOptJ (ofJson io j) = loadOpt j := by
  cases j <;> rfl

theorem loadSampleJ_ofJson (hio : FloatIO.Lawful io) {v : Val} (h : Number v) : loadSampleJ io (ofJson io (sampleJson v)) = .ok v := by
  rcases h with ⟨i, rfl⟩ | ⟨b, rfl, hb⟩
  · rfl
  · simp only [sampleJson, ofJson, loadSampleJ, hio.narrow b hb]

theorem nameText_back (n : List Byte) : (nameText n).toList.map (fun c => BitVec.ofNat 8 c.toNat) = n := by
  have h : ∀ b : Byte, BitVec.ofNat 8 (Char.ofNat b.toNat).toNat = b := by decide +kernel
  rw [nameText, String.toList_ofList, List.map_map]
  conv_rhs => rw [← List.map_id n]
  exact List.map_congr_left fun b _ => h b

theorem loadDescJ_ofJson (d : DescItem) : loadDescJ (ofJson io (descJson (μ := μ) d)) = .ok d := by
  cases d with
  | header b =>
    have : ¬ String.ofList (hexBytes b) = "crc" := by
      intro h
      apply hexBytes_ne_crc b
      rw [← h, String.toList_ofList]
    simp only [descJson, ofJson, loadDescJ, if_neg this, String.toList_ofList, fromHex_hexBytes]
    rfl
  | field n t => simp only [descJson, ofJson, ofJsons, loadDescJ, typeOfName_cname, nameText_back]
  | crc => rfl

theorem loadFieldJ_ofJson (hio : FloatIO.Lawful io) (O : StatOps Val μ) {m : FieldModel Val μ} (h : ∀ v ∈ m.samples, Number v) (k : String)
    (ms : List (String × FieldModel Val μ)) : loadFieldJ io O ms (k, ofJson io (fieldJson m)) = loadField O ms (k, fieldJson m) := by
  obtain ⟨g1, g2, g3⟩ := fieldJson_get m
  unfold loadFieldJ loadField
  simp only [item_ofJson, g1, g2, g3, Except.map, bind, Except.bind, ofJson, loadStrJ, loadStr, loadOptJ_ofJson, loadArrJ, loadArr, ofJsons_map]
  rw [List.map_map, mapM_left_inv (ofJson io ∘ sampleJson) (loadSampleJ io) m.samples fun v hv => loadSampleJ_ofJson hio (h v hv),
    mapM_left_inv sampleJson loadSample m.samples fun v hv => (by
      rcases h v hv with ⟨i, rfl⟩ | ⟨b, rfl, _⟩ <;> rfl)]

theorem foldlM_loadFieldJ (hio : FloatIO.Lawful io) (O : StatOps Val μ) (l : List (String × FieldModel Val μ))
    (h : ∀ p ∈ l, ∀ v ∈ p.2.samples, Number v) (ms : List (String × FieldModel Val μ)) :
    (l.map fun p => (p.1, ofJson io (fieldJson p.2))).foldlM (loadFieldJ io O) ms =
      (l.map fun p => (p.1, fieldJson p.2)).foldlM (loadField O) ms := by
  induction l generalizing ms with
  | nil => rfl
  | cons p l ih =>
    rw [List.map_cons, List.map_cons, List.foldlM_cons, List.foldlM_cons, loadFieldJ_ofJson hio O (h p List.mem_cons_self)]
    cases loadField O ms (p.1, fieldJson p.2) with
    | error e => rfl
    | ok ms' => exact ih (fun q hq => h q (List.mem_cons_of_mem _ hq)) ms'

theorem loadJ_save (hio : FloatIO.Lawful io) {O : StatOps Val μ}
    (hraw : ∀ l : List Val, (∃ v ∈ l, ¬ Number v) → ∃ e, O.fit l = .error e)
    {bm : BufferModel μ} {j : Json μ} (h : (bm.save O).2 = .ok j) : loadJ io O (ofJson io j) = BufferModel.load O j := by
  unfold BufferModel.save at h
  cases hu : updateAll O bm.models with
  | mk ms r =>
    rw [hu] at h
    cases r with
    | error e => cases h
    | ok u =>
      simp only at h
      injection h with h
      subst h
      have hn : ∀ p ∈ sortKeys ms, ∀ v ∈ p.2.samples, Number v := by
        intro p hp v hv
        by_contra hc
        obtain ⟨e, he⟩ := hraw _ ⟨v, hv, hc⟩
        rcases (updateAll_keys hu).2 p ((sortKeys_perm ms).mem_iff.1 hp) with h0 | ⟨a, ha⟩
        · rw [h0] at hv; cases hv
        · rw [ha] at he; cases he
      have hfold := foldlM_loadFieldJ hio O (sortKeys ms) hn []
      have hget : ∀ key v, ([("field_models", Json.obj (sortKeys (ms.map fun p => (p.1, fieldJson p.2)))),
          ("buffer_description", descriptionJson bm.description),
          ("window_size", optJson bm.windowSize), ("model_size", .int bm.modelSize)] : List (String × Json μ)).lookup key =
            some v → (Json.obj (sortKeys [("field_models", Json.obj (sortKeys (ms.map fun p => (p.1, fieldJson p.2)))),
          ("buffer_description", descriptionJson bm.description),
          ("window_size", optJson bm.windowSize), ("model_size", .int bm.modelSize)])).get key = .ok v := by
        intro key v hv
        simp only [Json.get]
        rw [sortKeys_lookup _ (by simp), hv]; rfl
      have g1 := hget "field_models" _ rfl
      have g2 := hget "buffer_description" _ rfl
      have g3 := hget "window_size" _ rfl
      have g4 := hget "model_size" _ rfl
      clear hget
      generalize Json.obj (sortKeys [("field_models", Json.obj (sortKeys (ms.map fun p => (p.1, fieldJson p.2)))),
          ("buffer_description", descriptionJson bm.description),
          ("window_size", optJson bm.windowSize), ("model_size", .int bm.modelSize)]) = J at g1 g2 g3 g4 ⊢
      unfold loadJ BufferModel.load
      simp only [get_ofJson, g1, g2, g3, g4, bind, Except.bind, Except.map, loadOptJ_ofJson, loadOpt_optJson]
      simp only [loadOpt, loadItemsJ, loadItems, ofJson, ofItems_map]
      simp only [sortKeys_map, List.map_map, Function.comp_def]
      rw [hfold]
      cases (List.map (fun p => (p.1, fieldJson p.2)) (sortKeys ms)).foldlM (loadField O) [] with
      | error e => rfl
      | ok ms' =>
        cases bm.description with
        | none => rfl
        | some d =>
          have hm := mapM_left_inv (descJson (μ := μ)) loadDesc d (fun x _ => loadDesc_descJson x)
          have hm' := mapM_left_inv (fun x => ofJson io (descJson (μ := μ) x)) loadDescJ d (fun x _ => loadDescJ_ofJson x)
          simp only [descriptionJson, loadDescription, ofJson, loadDescriptionJ, ofJsons_map, List.map_map, Function.comp_def, hm, hm', bind, Except.bind]

theorem build_keys (O : StatOps Val μ) (w : Option Nat) (as : List (BufArg × List (Nat × Nat))) (d : Option (List DescItem)) :
    ((build O w as d).models.map Prod.fst).Nodup := by
  cases d
  · exact (keyInv_addAll O w as).1
  · exact (keyInv_addAll O w as).1

/-! ### The property -/

variable (io) (O : StatOps Val μ)

/-- C114: what `json.load` finds in a file written by `json.dump` is what was handed over, for every value whose dicts have distinct keys
(as Python's dicts have): every string, also with quotes, control characters and characters beyond ASCII, every integer and every float. -/
theorem c114_text (hio : FloatIO.Lawful io) (v : JVal F) (hv : Distinct v) : loads io (dumps io 0 v) = some v :=
  loads_dumps hio 0 hv

/-- C114: `load` of the file that `save` wrote gives back the model (C34, now through the text of the file). The statistics routine is
arbitrary, except that like `norm.fit` it raises on samples that are not numbers or not finite. -/
theorem c114_roundtrip (hio : FloatIO.Lawful io) (hraw : ∀ l : List Val, (∃ v ∈ l, ¬ Number v) → ∃ e, O.fit l = .error e)
    (w : Option Nat) (as : List (BufArg × List (Nat × Nat))) (d : Option (List DescItem)) (bm : BufferModel μ) (hbm : bm = build O w as d)
    (hs : ∃ j, (bm.save O).2 = .ok j) (old : Option Text) :
    ∃ s ld, saveFile io O bm old .finished = some s ∧ loadFile io O s = .ok ld ∧ Restores O bm ld := by
  obtain ⟨j, hj⟩ := hs
  have hk : (bm.models.map Prod.fst).Nodup := by rw [hbm]; exact build_keys O w as d
  obtain ⟨l, hl, hd⟩ := save_distinct (io := io) hk hj
  obtain ⟨ld, h1, h2⟩ := c34_roundtrip O (fun l ⟨b, hb⟩ => hraw l ⟨_, hb, by rintro (⟨i, h⟩ | ⟨c, h, _⟩) <;> cases h⟩) w as d bm (bm.save O).1 hbm j (Prod.ext rfl hj)
  refine ⟨_, ld, by rw [saveFile, hj], ?_, h2⟩
  rw [loadFile, hl, loads_dumps hio 0 hd, ← hl]
  exact (loadJ_save hio hraw hj).trans h1

/-- C114: wherever a call of `save` is interrupted, the file is either as before the call, or it holds a part of the new text and `load`
raises a ValueError, or it holds the whole text and `load` gives the new model. It never gives another model. -/
theorem c114_crash (hio : FloatIO.Lawful io) (hraw : ∀ l : List Val, (∃ v ∈ l, ¬ Number v) → ∃ e, O.fit l = .error e)
    (w : Option Nat) (as : List (BufArg × List (Nat × Nat))) (d : Option (List DescItem)) (bm : BufferModel μ) (hbm : bm = build O w as d)
    (hs : ∃ j, (bm.save O).2 = .ok j) (old : Option Text) :
    saveFile io O bm old .before = old ∧
    ∃ full, saveFile io O bm old .finished = some full ∧ ∀ k, ∃ s, saveFile io O bm old (.writing k) = some s ∧ s = full.take k ∧
      (k < full.length → loadFile io O s = .error .valueError) ∧
      (full.length ≤ k → ∃ ld, loadFile io O s = .ok ld ∧ Restores O bm ld) := by
  obtain ⟨full, ld, h1, h2, h3⟩ := c114_roundtrip io O hio hraw w as d bm hbm hs old
  obtain ⟨j, hj⟩ := hs
  have hk : (bm.models.map Prod.fst).Nodup := by rw [hbm]; exact build_keys O w as d
  obtain ⟨l, hl, hd⟩ := save_distinct (io := io) hk hj
  have hf : full = dumps io 0 (ofJson io j) := by
    rw [saveFile, hj] at h1
    injection h1 with h1
    exact h1.symm
  refine ⟨by rw [saveFile, hj], full, h1, fun k => ⟨_, by rw [saveFile, hj], by rw [hf], ?_, ?_⟩⟩
  · intro hlt
    rw [loadFile, loads_cut hio hd (p := (dumps io 0 (ofJson io j)).take k) (q := (dumps io 0 (ofJson io j)).drop k)
      (by rw [List.take_append_drop, hl])]
    intro h0
    have := congrArg List.length h0
    rw [hf] at hlt
    simp only [List.length_drop, List.length_nil] at this
    omega
  · intro hle
    rw [hf] at hle
    rw [List.take_of_length_le hle, ← hf]
    exact ⟨ld, h2, h3⟩

/-- C114: a call of `save` that raises leaves the file as it was. -/
theorem c114_raising (bm : BufferModel μ) (e : PyErr) (h : (bm.save O).2 = .error e) (old : Option Text) (p : Progress) :
    saveFile io O bm old p = old := by
  rw [saveFile, h]

/-- C114: after any history of calls of `save` with one filename, some of them interrupted, the file belongs to the last call that opened it:
if that call was finished, `load` gives its model, and if not, `load` gives its model or raises a ValueError. -/
theorem c114_history (hio : FloatIO.Lawful io) (hraw : ∀ l : List Val, (∃ v ∈ l, ¬ Number v) → ∃ e, O.fit l = .error e)
    (calls : List (BufferModel μ × Progress)) (hb : ∀ c ∈ calls, ∃ w as d, c.1 = build O w as d) :
    (fileAfter io O calls = none ∧ ∀ c ∈ calls, ¬ Opened O c) ∨
    ∃ pre c post s, calls = pre ++ c :: post ∧ Opened O c ∧ (∀ b ∈ post, ¬ Opened O b) ∧ fileAfter io O calls = some s ∧
      (c.2 = .finished → ∃ ld, loadFile io O s = .ok ld ∧ Restores O c.1 ld) ∧
      ((∃ ld, loadFile io O s = .ok ld ∧ Restores O c.1 ld) ∨ loadFile io O s = .error .valueError) := by
  induction calls using List.reverseRecOn with
  | nil => left; exact ⟨rfl, fun c hc => absurd hc (by simp)⟩
  | append_singleton calls c ih =>
    have hlast : fileAfter io O (calls ++ [c]) = saveFile io O c.1 (fileAfter io O calls) c.2 := by
      unfold fileAfter
      rw [List.foldl_append]
      rfl
    obtain ⟨w, as, d, hc⟩ := hb c (by simp)
    by_cases ho : Opened O c
    · right
      obtain ⟨hj, hp⟩ := ho
      obtain ⟨_, full, h1, h2⟩ := c114_crash io O hio hraw w as d c.1 hc hj (fileAfter io O calls)
      obtain ⟨full', ld, h3, h4, h5⟩ := c114_roundtrip io O hio hraw w as d c.1 hc hj (fileAfter io O calls)
      rcases hcp : c.2 with _ | k | _
      · exact absurd hcp hp
      · obtain ⟨s, g1, _, g2, g3⟩ := h2 k
        refine ⟨calls, c, [], s, rfl, ⟨hj, hp⟩, fun b hb => absurd hb (by simp), by rw [hlast, hcp]; exact g1, fun h => ?_, ?_⟩
        · rw [hcp] at h; cases h
        · by_cases hk : k < full.length
          · exact .inr (g2 hk)
          · exact .inl (g3 (by omega))
      · exact ⟨calls, c, [], full', rfl, ⟨hj, hp⟩, fun b hb => absurd hb (by simp), by rw [hlast, hcp]; exact h3, fun _ => ⟨ld, h4, h5⟩, .inl ⟨ld, h4, h5⟩⟩
    · have hsame : fileAfter io O (calls ++ [c]) = fileAfter io O calls := by
        rw [hlast, saveFile]
        cases hj : (c.1.save O).2 with
        | error e => rfl
        | ok j =>
          have : c.2 = .before := by
            by_contra h
            exact ho ⟨⟨j, hj⟩, h⟩
          rw [this]
      rw [hsame]
      rcases ih fun c hc => hb c (by simp [hc]) with ⟨h1, h2⟩ | ⟨pre, b, post, s, h1, h2, h3, h4⟩
      · left
        refine ⟨h1, fun b hb => ?_⟩
        rcases List.mem_append.1 hb with hb | hb
        · exact h2 b hb
        · rw [List.mem_singleton.1 hb]; exact ho
      · right
        refine ⟨pre, b, post ++ [c], s, by rw [h1]; simp, h2, fun x hx => ?_, h4⟩
        rcases List.mem_append.1 hx with hx | hx
        · exact h3 x hx
        · rw [List.mem_singleton.1 hx]; exact ho

/-- C114: that an interrupted `save` leaves the earlier model in the file is false: whatever the file held, a call that stops right after
opening it leaves a file on which `load` raises. -/
theorem c114_old_lost (bm : BufferModel μ) (hs : ∃ j, (bm.save O).2 = .ok j) (old : Text) :
    ∃ s, saveFile io O bm (some old) (.writing 0) = some s ∧ loadFile io O s = .error .valueError := by
  obtain ⟨j, hj⟩ := hs
  exact ⟨[], by rw [saveFile, hj]; rfl, rfl⟩

/-- C114: a file that holds JSON, but no dict of field models, makes `load` raise an AttributeError. -/
theorem c114_foreign (s : Text) (v : JVal F) (hv : loads io s = some v)
    (hno : ∀ l items, v = .obj l → l.lookup "field_models" ≠ some (.obj items)) :
    loadFile io O s = .error .attributeError := by
  rw [loadFile, hv]
  show loadJ io O v = _
  unfold loadJ
  cases v
  case obj l =>
    simp only [JVal.get, bind, Except.bind]
    have h : ∀ w : JVal F, (∀ items, w ≠ .obj items) → loadItemsJ w = .error .attributeError := by
      intro w hw
      cases w
      case obj items => exact absurd rfl (hw items)
      all_goals rfl
    rw [h]
    intro items hi
    cases hl : l.lookup "field_models" with
    | none => rw [hl] at hi; cases hi
    | some w =>
      rw [hl] at hi
      exact hno l items rfl (by rw [hl]; exact congrArg some hi)
  all_goals rfl

/-- C114: and a field model without a type makes it raise a KeyError. -/
theorem c114_no_type (s : Text) (l items f : List (String × JVal F)) (rest : List (String × JVal F)) (name : String)
    (hv : loads io s = some (.obj l)) (hm : l.lookup "field_models" = some (.obj items)) (hi : items = (name, .obj f) :: rest)
    (hf : f.lookup "field_type" = none) : loadFile io O s = .error .keyError := by
  rw [loadFile, hv]
  show loadJ io O _ = _
  unfold loadJ
  subst hi
  simp only [JVal.get, bind, Except.bind, hm, Option.getD_some, loadItemsJ, List.foldlM_cons, loadFieldJ, JVal.item, hf]

/-! ### Every character is ASCII -/

theorem escape_ascii (c : Char) : ∀ x ∈ escapeChar c, x.toNat < 128 := by
  have hd : ∀ n, (hexDigit n).toNat < 128 := by
    intro n
    by_cases h : n < 16
    · have : ∀ k : Fin 16, (hexDigit k.val).toNat < 128 := by decide
      exact this ⟨n, h⟩
    · unfold hexDigit
      rw [List.getD_eq_getElem?_getD, List.getElem?_eq_none (by simpa using Nat.le_of_not_lt h)]
      decide
  have hu : ∀ n, ∀ x ∈ uEscape n, x.toNat < 128 := by
    intro n x hx
    simp only [uEscape, List.mem_cons, List.not_mem_nil, or_false] at hx
    rcases hx with rfl | rfl | rfl | rfl | rfl | rfl
    · decide
    · decide
    all_goals exact hd _
  unfold escapeChar
  intro x hx
  split at hx
  · simp only [List.mem_cons, List.not_mem_nil, or_false] at hx; rcases hx with rfl | rfl <;> decide
  split at hx
  · simp only [List.mem_cons, List.not_mem_nil, or_false] at hx; rcases hx with rfl | rfl <;> decide
  split at hx
  · simp only [List.mem_cons, List.not_mem_nil, or_false] at hx; rcases hx with rfl | rfl <;> decide
  split at hx
  · simp only [List.mem_cons, List.not_mem_nil, or_false] at hx; rcases hx with rfl | rfl <;> decide
  split at hx
  · simp only [List.mem_cons, List.not_mem_nil, or_false] at hx; rcases hx with rfl | rfl <;> decide
  split at hx
  · simp only [List.mem_cons, List.not_mem_nil, or_false] at hx; rcases hx with rfl | rfl <;> decide
  split at hx
  · simp only [List.mem_cons, List.not_mem_nil, or_false] at hx; rcases hx with rfl | rfl <;> decide
  split at hx
  · rename_i h; rw [List.mem_singleton.1 hx]; omega
  split at hx
  · exact hu _ x hx
  · rcases List.mem_append.1 hx with hx | hx <;> exact hu _ x hx

/-- Every character is an ASCII character. -/
def Ascii (t : Text) : Prop := ∀ c ∈ t, c.toNat < 128

theorem ascii_append {a b : Text} (ha : Ascii a) (hb : Ascii b) : Ascii (a ++ b) := by
  intro c hc
  rcases List.mem_append.1 hc with hc | hc
  · exact ha c hc
  · exact hb c hc

theorem ascii_cons {c : Char} {b : Text} (hc : c.toNat < 128) (hb : Ascii b) : Ascii (c :: b) := by
  intro d hd
  rcases List.mem_cons.1 hd with rfl | hd
  · exact hc
  · exact hb d hd

theorem ascii_digits {t : Text} (h : ∀ c ∈ t, isDigit c = true) : Ascii t := by
  intro c hc
  have := h c hc
  simp only [isDigit, Bool.and_eq_true, decide_eq_true_eq] at this
  have h9 : c.toNat ≤ '9'.toNat := this.2
  have : '9'.toNat = 57 := rfl
  omega

theorem ascii_quote (k : String) : Ascii (quote k) := by
  refine ascii_cons (by decide) (ascii_append ?_ (ascii_cons (by decide) (by intro c hc; cases hc)))
  intro c hc
  obtain ⟨d, _, hd⟩ := List.mem_flatMap.1 hc
  exact escape_ascii d c hd

theorem ascii_newline (l : Nat) : Ascii (newline l) := by
  refine ascii_cons (by decide) ?_
  intro c hc
  rw [(List.mem_replicate.1 hc).2]
  decide

theorem ascii_textI (i : Int) : Ascii (textI i) := by
  have h : ∀ n, Ascii (textN n) := by
    intro n
    obtain ⟨c, r, he, _, hall⟩ := digits_cons (textN_digits n)
    exact ascii_digits hall
  unfold textI
  split
  · exact ascii_cons (by decide) (h _)
  · exact h _

theorem ascii_float {t : Text} (h : FloatText t) : Ascii t := by
  obtain ⟨sign, int, frac, exp, rfl, hs, hi, hf, he, _⟩ := h
  have hd : ∀ {ds}, IsDigits ds → Ascii ds := fun h => ascii_digits (isDigit_of h)
  have hn : Ascii [] := by intro c hc; cases hc
  refine ascii_append (ascii_append (ascii_append ?_ ?_) ?_) ?_
  · rcases hs with rfl | rfl
    · exact hn
    · exact ascii_cons (by decide) hn
  · rcases hi with rfl | ⟨h, _⟩
    · exact ascii_cons (by decide) hn
    · exact hd h
  · rcases hf with rfl | ⟨ds, h, rfl⟩
    · exact hn
    · exact ascii_cons (by decide) (hd h)
  · rcases he with rfl | ⟨sg, ds, hsg, h, rfl⟩
    · exact hn
    · refine ascii_cons (by decide) (ascii_append ?_ (hd h))
      rcases hsg with rfl | rfl | rfl
      · exact hn
      · exact ascii_cons (by decide) hn
      · exact ascii_cons (by decide) hn

variable {io} in
mutual
theorem ascii_dumps (hio : FloatIO.Lawful io) : ∀ (level : Nat) (v : JVal F), Ascii (dumps io level v)
  | _, .null => by rw [dumps]; intro c; revert c; decide
  | _, .bool true => by rw [dumps]; intro c; revert c; decide
  | _, .bool false => by rw [dumps]; intro c; revert c; decide
  | _, .int i => ascii_textI i
  | _, .flt x => by
    rw [dumps]
    rcases hio.text x with ⟨h, _⟩ | ⟨h, _⟩ | ⟨h, _⟩ | ⟨h, _⟩
    · rw [h]; intro c; revert c; decide
    · rw [h]; intro c; revert c; decide
    · rw [h]; intro c; revert c; decide
    · exact ascii_float h
  | _, .str s => ascii_quote s
  | _, .arr [] => by rw [dumps]; intro c; revert c; decide
  | level, .arr (x :: xs) => by
    rw [dumps]
    exact ascii_cons (by decide) (ascii_append (ascii_newline _) (ascii_append (ascii_dumps hio _ x) (ascii_append (ascii_dumpsArr hio _ xs)
      (ascii_append (ascii_newline _) (ascii_cons (by decide) (by intro c hc; cases hc))))))
  | _, .obj [] => by rw [dumps]; intro c; revert c; decide
  | level, .obj ((k, x) :: ps) => by
    rw [dumps]
    exact ascii_cons (by decide) (ascii_append (ascii_newline _) (ascii_append (ascii_quote k) (ascii_cons (by decide) (ascii_cons (by decide)
      (ascii_append (ascii_dumps hio _ x) (ascii_append (ascii_dumpsObj hio _ ps) (ascii_append (ascii_newline _)
        (ascii_cons (by decide) (by intro c hc; cases hc)))))))))
theorem ascii_dumpsArr (hio : FloatIO.Lawful io) : ∀ (level : Nat) (l : List (JVal F)), Ascii (dumpsArr io level l)
  | _, [] => by intro c hc; cases hc
  | level, x :: xs => by
    rw [dumpsArr]
    exact ascii_cons (by decide) (ascii_append (ascii_newline _) (ascii_append (ascii_dumps hio _ x) (ascii_dumpsArr hio _ xs)))
theorem ascii_dumpsObj (hio : FloatIO.Lawful io) : ∀ (level : Nat) (l : List (String × JVal F)), Ascii (dumpsObj io level l)
  | _, [] => by intro c hc; cases hc
  | level, (k, x) :: ps => by
    rw [dumpsObj]
    exact ascii_cons (by decide) (ascii_append (ascii_newline _) (ascii_append (ascii_quote k) (ascii_cons (by decide) (ascii_cons (by decide)
      (ascii_append (ascii_dumps hio _ x) (ascii_dumpsObj hio _ ps))))))
end

/-- C114: whatever is saved, the file holds ASCII characters only, so that a character of it is a byte and cannot be written in part. -/
theorem c114_ascii (hio : FloatIO.Lawful io) (v : JVal F) : ∀ c ∈ dumps io 0 v, c.toNat < 128 := ascii_dumps hio 0 v

/-! ### Examples -/

/-- Floats for the examples: natural numbers, written with `.0`. -/
def natIO : FloatIO Nat Nat :=
  ⟨BitVec.toNat, BitVec.ofNat 32, id, fun n => textN n ++ ['.', '0'], fun t => ((readI (t.takeWhile isDigit)).getD 0).toNat, 0, 0, 0⟩

theorem natIO_lawful : FloatIO.Lawful natIO := by
  have hmem : ∀ c, isDigit c = true → c ∈ "0123456789".toList := by
    intro c h
    simp only [isDigit, Bool.and_eq_true, decide_eq_true_eq] at h
    have h1 : '0'.toNat ≤ c.toNat := h.1
    have h2 : c.toNat ≤ '9'.toNat := h.2
    have h3 : ∀ k : Fin 10, Char.ofNat (48 + k.val) ∈ "0123456789".toList := by decide
    have h4 : '0'.toNat = 48 := rfl
    have h5 : '9'.toNat = 57 := rfl
    have := h3 ⟨c.toNat - 48, by omega⟩
    have e : 48 + (c.toNat - 48) = c.toNat := by omega
    simp only [e, Char.ofNat_toNat] at this
    exact this
  refine ⟨fun n => .inr (.inr (.inr ⟨?_, ?_⟩)), fun b _ => by simp [natIO]⟩
  · refine ⟨[], textN n, ['.', '0'], [], by simp [natIO], .inl rfl, ?_, .inr ⟨['0'], ⟨by simp, by decide⟩, rfl⟩, .inl rfl, by simp⟩
    rcases textN_head n with h | ⟨⟨h1, h2⟩, h3⟩
    · exact .inl h
    · exact .inr ⟨⟨h1, fun c hc => hmem c (h2 c hc)⟩, h3⟩
  · obtain ⟨c, r, he, _, hall⟩ := digits_cons (textN_digits n)
    have := (Prod.ext_iff.1 (span_digits (ds := textN n) (r := ['.', '0']) hall (by
      intro c t h; rw [List.cons.injEq] at h; rw [← h.1]; decide))).1
    show ((readI ((textN n ++ ['.', '0']).takeWhile isDigit)).getD 0).toNat = n
    unfold spanDigits at this
    simp only at this
    rw [this]
    have hi : textN n = textI n := by simp [textI]
    rw [hi, readI_textI]
    simp

/-- Statistics for the examples: the number of samples; like `norm.fit` it raises on what is not a finite number. -/
def countOps : StatOps Val Nat :=
  ⟨0, 1, fun l => if l.all (fun v => match v with | .int _ => true | .flt b => decide (b.toNat / 2 ^ 23 % 256 ≠ 255) | .raw _ => false) then .ok (l.length, 0) else .error .valueError,
    fun _ => false, fun _ _ => false, fun a _ _ => a, fun a _ _ => a, fun a _ _ => a, fun _ _ => .error .structError⟩

theorem countOps_raises : ∀ l : List Val, (∃ v ∈ l, ¬ Number v) → ∃ e, countOps.fit l = .error e := by
  rintro l ⟨v, hv, hn⟩
  refine ⟨.valueError, ?_⟩
  show (if _ then _ else _) = _
  rw [if_neg]
  intro h
  rw [List.all_eq_true] at h
  have := h v hv
  cases v with
  | int i => exact hn (.inl ⟨i, rfl⟩)
  | flt b => exact hn (.inr ⟨b, rfl, by simpa [Finite32] using this⟩)
  | raw b => simp at this

theorem fileAfter_one (bm : BufferModel μ) (p : Progress) : fileAfter io O [(bm, p)] = saveFile io O bm none p := rfl

theorem fileAfter_two (bm bm' : BufferModel μ) (p p' : Progress) :
    fileAfter io O [(bm, p), (bm', p')] = saveFile io O bm' (fileAfter io O [(bm, p)]) p' := rfl

/-- A model of one heartbeat can be saved, and after an interrupted second call of `save` the file cannot be loaded. -/
example : ∃ bm : BufferModel Nat, (∃ w as d, bm = build countOps w as d) ∧ bm.models ≠ [] ∧ (∃ j, (bm.save countOps).2 = .ok j) ∧
    (∃ s ld, fileAfter natIO countOps [(bm, .finished)] = some s ∧ loadFile natIO countOps s = .ok ld ∧ Restores countOps bm ld) ∧
    ∃ k s, fileAfter natIO countOps [(bm, .finished), (bm, .writing k)] = some s ∧ s ≠ [] ∧ loadFile natIO countOps s = .error .valueError := by
  obtain ⟨bm, as, d, hbm, hne, hs⟩ : ∃ (bm : BufferModel Nat) (as : List (BufArg × List (Nat × Nat))) (d : Option (List DescItem)),
      bm = build countOps (some 3) as d ∧ bm.models ≠ [] ∧ ∃ j, (bm.save countOps).2 = .ok j := by
    refine ⟨_, [(.bytes [254, 9, 7, 1, 1, 0, 1, 2, 3, 4, 5, 6, 7, 8, 9, 0, 0], [(0, 0)])], some [.header [254, 9], .crc], rfl, by decide +kernel, ?_⟩
    apply c34_save_ok countOps (some 3) _ _ _ rfl
    intro name m hm
    have : ∀ p ∈ (build countOps (some 3) [(.bytes [254, 9, 7, 1, 1, 0, 1, 2, 3, 4, 5, 6, 7, 8, 9, 0, 0], [(0, 0)])]
      (some [.header [254, 9], .crc])).models, Returns (countOps.fit p.2.samples) := by decide +kernel
    exact this (name, m) (mem_of_lookup hm)
  refine ⟨bm, ⟨_, _, _, hbm⟩, hne, hs, ?_, ?_⟩
  · rw [fileAfter_one]
    exact c114_roundtrip natIO countOps natIO_lawful countOps_raises (some 3) as d bm hbm hs none
  · obtain ⟨_, full, h1, h2⟩ := c114_crash natIO countOps natIO_lawful countOps_raises (some 3) as d bm hbm hs
      (fileAfter natIO countOps [(bm, .finished)])
    have hlen : 1 < full.length := by
      obtain ⟨s, g1, g2, g3, g4⟩ := h2 1
      by_contra hle
      obtain ⟨ld, hld, _⟩ := g4 (by omega)
      obtain ⟨j, hj⟩ := hs
      obtain ⟨l, hl, _⟩ := save_distinct (io := natIO) (by rw [hbm]; exact build_keys countOps _ _ _) hj
      have hf : ∃ t, full = '{' :: t := by
        rw [saveFile, hj] at h1
        injection h1 with h1
        rw [← h1, hl]
        cases l <;> exact ⟨_, rfl⟩
      obtain ⟨t, rfl⟩ := hf
      rw [g2] at hld
      cases hld
    obtain ⟨s, g1, g2, g3, g4⟩ := h2 1
    refine ⟨1, s, by rw [fileAfter_two]; exact g1, ?_, g3 hlen⟩
    rintro rfl
    have := congrArg List.length g2
    simp only [List.length_nil, List.length_take] at this
    omega

/-- A text with quotes, control characters and a character beyond 16 bits. -/
example : loads natIO (dumps natIO 0 (.obj [("a\"\n", .arr [.str "é😀", .int (-5), .flt 3]), ("b", .obj [])])) =
    some (.obj [("a\"\n", .arr [.str "é😀", .int (-5), .flt 3]), ("b", .obj [])]) := by
  refine c114_text natIO natIO_lawful _ ?_
  simp [Distinct, DistinctObj, DistinctArr]

end NR.C114
