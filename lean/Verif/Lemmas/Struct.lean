import Verif.Spec.Wire
/-
Lemmas about the `struct` model: lengths and round trips.
-/
namespace NR
open Spec

theorem getD_lt {α : Type _} (l : List α) (d : α) {i : Nat} (h : i < l.length) : l.getD i d = l[i] := by
  simp [List.getD, List.getElem?_eq_getElem h]

theorem leBytes_length (k v : Nat) : (leBytes k v).length = k := by
  induction k generalizing v with
  | zero => rfl
  | succ k ih => simp [leBytes, ih]

theorem leNat_leBytes (k v : Nat) : leNat (leBytes k v) = v % 256 ^ k := by
  induction k generalizing v with
  | zero => simp [leBytes, leNat, Nat.mod_one]
  | succ k ih =>
    simp only [leBytes, leNat, ih, BitVec.toNat_ofNat]
    rw [show 256 ^ (k + 1) = 256 ^ k * 256 from rfl, Nat.mul_comm (256 ^ k) 256, Nat.mod_mul]

theorem leNat_lt (bs : List Byte) : leNat bs < 256 ^ bs.length := by
  induction bs with
  | nil => simp [leNat]
  | cons b bs ih =>
    simp only [leNat, List.length_cons, Nat.pow_succ]
    have := b.isLt
    omega

theorem leBytes_leNat (bs : List Byte) : leBytes bs.length (leNat bs) = bs := by
  induction bs with
  | nil => rfl
  | cons b bs ih =>
    have hb := b.isLt
    simp only [List.length_cons, leBytes, leNat]
    congr 1
    · apply BitVec.eq_of_toNat_eq
      simp only [BitVec.toNat_ofNat]
      omega
    · rw [show (b.toNat + 256 * leNat bs) / 256 = leNat bs by omega]
      exact ih

theorem size_pos (t : CType) : 0 < t.size := by cases t <;> decide

/-- Packing a fitting scalar succeeds, gives `size` bytes, and unpacking returns the value. -/
theorem packScalar_fits {t : CType} {v : Val} (h : FitsScalar t v) :
    ∃ bs, packScalar t v = .ok bs ∧ bs.length = t.size ∧ unpackScalar t bs = v := by
  have key : ∀ (k : Nat) (w : Nat), (leBytes k w).length = k := leBytes_length
  cases t <;> cases v <;> simp only [FitsScalar] at h
  case f32.flt b =>
    refine ⟨_, rfl, key _ _, ?_⟩
    simp only [unpackScalar, leNat_leBytes]
    congr 1
    apply BitVec.eq_of_toNat_eq
    have := b.isLt
    simp only [BitVec.toNat_ofNat]
    omega
  case char.raw bs =>
    match bs, h with
    | [b], _ => exact ⟨[b], rfl, rfl, rfl⟩
  all_goals
    rename_i i
    simp only [packScalar, CType.isUInt, CType.isSInt, if_true, Bool.false_eq_true, if_false]
    rw [if_pos (by simp only [CType.size]; omega)]
    refine ⟨_, rfl, key _ _, ?_⟩
    simp only [unpackScalar, CType.isSInt, CType.size, leNat_leBytes, Bool.false_eq_true, false_and, if_false,
      true_and]
    first
      | (congr 1; omega)
      | (split
         · congr 1; omega
         · congr 1; omega)

/-- Conversely a successful pack means the value fits. -/
theorem packScalar_ok {t : CType} {v : Val} {bs : List Byte} (h : packScalar t v = .ok bs) : FitsScalar t v := by
  cases t <;> cases v <;>
    simp only [packScalar, CType.isUInt, CType.isSInt, if_true, Bool.false_eq_true, if_false,
      FitsScalar] at h ⊢ <;> (try cases h) <;>
    (try (split at h <;> first | (rename_i hc; simp only [CType.size] at hc; omega) | cases h))
  · rename_i h1 h2; cases h1
  · rename_i h2; cases h2; rfl

theorem packScalar_length {t : CType} {v : Val} {bs : List Byte} (h : packScalar t v = .ok bs) :
    bs.length = t.size := by
  obtain ⟨bs', h', hl, _⟩ := packScalar_fits (packScalar_ok h)
  rw [h] at h'; cases h'; exact hl

/-- Unpacking any bytes of the right size and packing again returns the bytes. -/
theorem packScalar_unpackScalar {t : CType} {bs : List Byte} (h : bs.length = t.size) :
    packScalar t (unpackScalar t bs) = .ok bs := by
  have hlt := leNat_lt bs
  have hb := leBytes_leNat bs
  rw [h] at hlt hb
  cases t <;> simp only [CType.size] at h hlt hb
  case char =>
    match bs, h with
    | [b], _ => rfl
  case f32 =>
    simp only [unpackScalar, packScalar, BitVec.toNat_ofNat]
    rw [Nat.mod_eq_of_lt (by omega), hb]
  all_goals
    simp only [unpackScalar, CType.isSInt, Bool.false_eq_true, false_and, if_false, true_and]
    first
      | (simp only [packScalar, CType.isUInt, if_true]
         rw [if_pos (by simp only [CType.size]; omega)]
         simp only [CType.size, Int.toNat_natCast, hb])
      | (split
         · rename_i hc
           simp only [CType.size] at hc
           simp only [packScalar, CType.isUInt, CType.isSInt, if_true, Bool.false_eq_true, if_false]
           rw [if_pos (by simp only [CType.size]; omega)]
           simp only [CType.size]
           congr 1
           conv => rhs; rw [← hb]
           congr 1
           omega
         · rename_i hc
           simp only [CType.size] at hc
           simp only [packScalar, CType.isUInt, CType.isSInt, if_true, Bool.false_eq_true, if_false]
           rw [if_pos (by simp only [CType.size]; omega)]
           simp only [CType.size]
           congr 1
           conv => rhs; rw [← hb]
           congr 1
           omega)

theorem packItem_length {it : FmtItem} {v : Val} {bs : List Byte} (h : packItem it v = .ok bs) :
    bs.length = it.size := by
  cases it with
  | scalar t => exact packScalar_length h
  | str n =>
    cases v <;> simp only [packItem] at h
    case raw b => cases h; simp [FmtItem.size]
    all_goals cases h

theorem structPack_length {fmt : List FmtItem} {vs : List Val} {bs : List Byte}
    (h : structPack fmt vs = .ok bs) : bs.length = calcsize fmt := by
  induction fmt generalizing vs bs with
  | nil => cases vs <;> simp [structPack] at h; simp [← h, calcsize]
  | cons it its ih =>
    cases vs with
    | nil => simp [structPack] at h
    | cons v vs =>
      simp only [structPack, bind, Except.bind] at h
      cases ha : packItem it v with
      | error e => rw [ha] at h; cases h
      | ok a =>
        rw [ha] at h
        simp only at h
        cases hb : structPack its vs with
        | error e => rw [hb] at h; cases h
        | ok b =>
          rw [hb] at h
          simp only [Except.ok.injEq] at h
          rw [← h, List.length_append, packItem_length ha, ih hb]
          simp [calcsize]

theorem structPack_append {f1 f2 : List FmtItem} {v1 v2 : List Val} {b1 b2 : List Byte}
    (h1 : structPack f1 v1 = .ok b1) (h2 : structPack f2 v2 = .ok b2) :
    structPack (f1 ++ f2) (v1 ++ v2) = .ok (b1 ++ b2) := by
  induction f1 generalizing v1 b1 with
  | nil => cases v1 <;> simp [structPack] at h1; subst h1; simpa using h2
  | cons it its ih =>
    cases v1 with
    | nil => simp [structPack] at h1
    | cons v vs =>
      simp only [structPack, bind, Except.bind] at h1
      cases ha : packItem it v with
      | error e => rw [ha] at h1; cases h1
      | ok a =>
        rw [ha] at h1
        simp only at h1
        cases hb : structPack its vs with
        | error e => rw [hb] at h1; cases h1
        | ok b =>
          rw [hb] at h1
          simp only [Except.ok.injEq] at h1
          subst h1
          simp only [List.cons_append, structPack, bind, Except.bind, ha, ih hb]
          simp

theorem calcsize_append (a b : List FmtItem) : calcsize (a ++ b) = calcsize a + calcsize b := by
  simp [calcsize]

theorem unpackItems_append (f1 f2 : List FmtItem) (b1 b2 : List Byte) (h : b1.length = calcsize f1) :
    unpackItems (f1 ++ f2) (b1 ++ b2) = unpackItems f1 b1 ++ unpackItems f2 b2 := by
  induction f1 generalizing b1 with
  | nil =>
    have : b1 = [] := List.eq_nil_of_length_eq_zero (by simpa [calcsize] using h)
    subst this; simp [unpackItems]
  | cons it its ih =>
    have hs : calcsize (it :: its) = it.size + calcsize its := by simp [calcsize]
    have hle : it.size ≤ b1.length := by omega
    simp only [List.cons_append, unpackItems]
    rw [List.take_append_of_le_length hle, List.drop_append_of_le_length hle,
      ih _ (by rw [List.length_drop]; omega)]

theorem unpackItems_length (f : List FmtItem) (b : List Byte) : (unpackItems f b).length = f.length := by
  induction f generalizing b with
  | nil => rfl
  | cons it its ih => simp [unpackItems, ih]

/-- Unpack then pack is the identity on byte strings of the right size. -/
theorem structPack_unpackItems (f : List FmtItem) (b : List Byte) (h : b.length = calcsize f) :
    structPack f (unpackItems f b) = .ok b := by
  induction f generalizing b with
  | nil =>
    have : b = [] := List.eq_nil_of_length_eq_zero (by simpa [calcsize] using h)
    subst this; rfl
  | cons it its ih =>
    have hs : calcsize (it :: its) = it.size + calcsize its := by simp [calcsize]
    have h1 : (b.take it.size).length = it.size := by rw [List.length_take]; omega
    have e1 : packItem it (unpackItem it (b.take it.size)) = .ok (b.take it.size) := by
      cases it with
      | scalar t => exact packScalar_unpackScalar h1
      | str n =>
        simp only [unpackItem, packItem]
        simp only [FmtItem.size] at h1 ⊢
        congr 1
        rw [List.take_append_of_le_length (by omega), List.take_of_length_le (by omega)]
    have e2 := ih (b.drop it.size) (by rw [List.length_drop]; omega)
    simp only [unpackItems, structPack, bind, Except.bind, e1, e2, List.take_append_drop]

theorem mapM_ok {α β : Type _} {f : α → Except PyErr β} {g : α → β} {l : List α}
    (h : ∀ x ∈ l, f x = .ok (g x)) : l.mapM f = .ok (l.map g) := by
  induction l with
  | nil => rfl
  | cons a l ih =>
    rw [List.mapM_cons, h a List.mem_cons_self, ih (fun x hx => h x (List.mem_cons_of_mem _ hx))]
    rfl

theorem mapM_ok_length {α β : Type _} {f : α → Except PyErr β} {l : List α} {r : List β}
    (h : l.mapM f = .ok r) : r.length = l.length := by
  induction l generalizing r with
  | nil => simp [List.mapM_nil, pure, Except.pure] at h; simp [← h]
  | cons a l ih =>
    rw [List.mapM_cons] at h
    cases ha : f a with
    | error e => rw [ha] at h; cases h
    | ok b =>
      rw [ha] at h
      cases hl : l.mapM f with
      | error e => rw [hl] at h; cases h
      | ok bs => rw [hl] at h; cases h; simp [ih hl]

end NR
