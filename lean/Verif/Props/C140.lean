import Verif.Spec.BitErrors
import Verif.Props.C121
/-
C140: scattered bit errors in a frame.
-/
namespace NR.C140
open NR NR.Spec Dialect

/-- The parity of a register. -/
def par (r : BitVec 16) : Bool :=
  r.getLsbD 0 ^^ r.getLsbD 1 ^^ r.getLsbD 2 ^^ r.getLsbD 3 ^^ r.getLsbD 4 ^^ r.getLsbD 5 ^^ r.getLsbD 6 ^^ r.getLsbD 7 ^^
  r.getLsbD 8 ^^ r.getLsbD 9 ^^ r.getLsbD 10 ^^ r.getLsbD 11 ^^ r.getLsbD 12 ^^ r.getLsbD 13 ^^ r.getLsbD 14 ^^ r.getLsbD 15

theorem par_shift (r : BitVec 16) : par (crcShift r) = par r := by
  unfold crcShift
  split
  · rename_i h0
    have h0' : r[0] = true := by simpa using h0
    simp only [par, BitVec.getLsbD_xor, BitVec.getLsbD_ushiftRight]
    simp [h0']
  · rename_i h0
    have h0' : r[0] = false := by simpa using h0
    simp only [par, BitVec.getLsbD_ushiftRight]
    simp [h0']

theorem par_bit (r : BitVec 16) (b : Bool) : par (crcBit r b) = (par r ^^ b) := by
  unfold crcBit
  rw [par_shift]
  cases b
  · simp
  · have c : ∀ i, (1#16).getLsbD i = decide (i = 0) := by
      intro i; simp [BitVec.getLsbD_one]
    simp only [if_true, par, BitVec.getLsbD_xor]
    rw [show (1 : BitVec 16) = 1#16 from rfl]
    simp only [c]
    simp

theorem par_fold (e : List Bool) (r : BitVec 16) : par (e.foldl crcBit r) = (par r ^^ decide (e.count true % 2 = 1)) := by
  induction e generalizing r with
  | nil => simp
  | cons b e ih =>
    rw [List.foldl_cons, ih, par_bit]
    cases b
    · simp
    · rw [List.count_cons_self]
      rcases Nat.mod_two_eq_zero_or_one (e.count true) with h | h
      · have : (e.count true + 1) % 2 = 1 := by omega
        simp [h, this]
      · have : (e.count true + 1) % 2 = 0 := by omega
        simp [h, this]

/-- Feeding two bit strings: the difference is what the differing bits leave. -/
theorem fold_xor : ∀ (a b : List Bool), a.length = b.length → ∀ r s : BitVec 16,
    a.foldl crcBit r ^^^ b.foldl crcBit s = (List.zipWith (fun x y => x ^^ y) a b).foldl crcBit (r ^^^ s) := by
  intro a
  induction a with
  | nil => intro b h r s; cases b with
    | nil => rfl
    | cons _ _ => simp at h
  | cons x a ih =>
    intro b h r s
    cases b with
    | nil => simp at h
    | cons y b =>
      rw [List.foldl_cons, List.foldl_cons, ih b (by simpa using h), List.zipWith_cons_cons, List.foldl_cons]
      congr 1
      unfold crcBit
      rw [← crcShift_xor]
      congr 1
      have : ∀ p q : BitVec 16, r ^^^ p ^^^ (s ^^^ q) = r ^^^ s ^^^ (p ^^^ q) := by intro p q; ac_rfl
      rw [this]
      congr 1
      cases x <;> cases y <;> simp

theorem fold_zeros (n : Nat) (r : BitVec 16) : (List.replicate n false).foldl crcBit r = crcShifts n r := by
  induction n generalizing r with
  | zero => rfl
  | succ n ih => rw [List.replicate_succ, List.foldl_cons, ih]; simp [crcShifts, crcBit]

theorem shifts_zero (n : Nat) : crcShifts n 0 = 0 := by
  induction n with
  | zero => rfl
  | succ n ih => rw [crcShifts, crcShift_zero, ih]

/-- No register value of the first `n` shifts of `r` is one. -/
def noOne : Nat → BitVec 16 → Bool
  | 0, _ => true
  | n + 1, r => decide (crcShift r ≠ 1) && noOne n (crcShift r)

theorem noOne_spec : ∀ (n : Nat) (r : BitVec 16), noOne n r = true → ∀ k < n, crcShifts (k + 1) r ≠ 1 := by
  intro n
  induction n with
  | zero => intro r _ k hk; omega
  | succ n ih =>
    intro r h k hk
    simp only [noOne, Bool.and_eq_true, decide_eq_true_eq] at h
    cases k with
    | zero => exact h.1
    | succ k => exact ih _ h.2 k (by omega)

theorem order : noOne 2200 1 = true := by decide +kernel

/-- Two ones with anything but ones around them. -/
theorem two_ones : ∀ e : List Bool, e.count true = 2 → ∃ i d j, e = List.replicate i false ++ true :: (List.replicate d false ++ true :: List.replicate j false) := by
  have one : ∀ e : List Bool, e.count true = 1 → ∃ d j, e = List.replicate d false ++ true :: List.replicate j false := by
    intro e
    induction e with
    | nil => simp
    | cons b e ih =>
      intro h
      cases b
      · obtain ⟨d, j, rfl⟩ := ih (by simpa using h)
        exact ⟨d + 1, j, rfl⟩
      · rw [List.count_cons_self] at h
        refine ⟨0, e.length, ?_⟩
        have : e = List.replicate e.length false := by
          apply List.eq_replicate_of_mem
          intro b hb
          cases b
          · rfl
          · have := List.count_pos_iff.2 hb; omega
        rw [← this]; rfl
  intro e
  induction e with
  | nil => simp
  | cons b e ih =>
    intro h
    cases b
    · obtain ⟨i, d, j, rfl⟩ := ih (by simpa using h)
      exact ⟨i + 1, d, j, rfl⟩
    · rw [List.count_cons_self] at h
      obtain ⟨d, j, rfl⟩ := one e (by omega)
      exact ⟨0, d, j, rfl⟩

/-- An error pattern that leaves no trace has an even number of ones, and neither none nor two if it is not longer than a frame. -/
theorem pattern {e : List Bool} (h : e.foldl crcBit 0 = 0) (hl : e.length ≤ 2200) : e.count true % 2 = 0 ∧ e.count true ≠ 2 := by
  constructor
  · have := par_fold e 0
    rw [h, show par 0 = false by decide] at this
    simp at this
    omega
  · intro h2
    obtain ⟨i, d, j, rfl⟩ := two_ones e h2
    simp only [List.length_append, List.length_replicate, List.length_cons] at hl
    rw [List.foldl_append, fold_zeros, shifts_zero, List.foldl_cons, List.foldl_append, fold_zeros, List.foldl_cons, fold_zeros] at h
    have h := crcShifts_inj (h.trans (shifts_zero j).symm)
    unfold crcBit at h
    have h := crcShift_eq_zero h
    simp only [if_true] at h
    have h := BitVec.xor_eq_zero_iff.1 h
    rw [show (0 : BitVec 16) ^^^ 1 = 1 by decide] at h
    exact noOne_spec 2200 1 order d (by omega) h

/-- The bits checked in a frame of a class with the extra byte `x`. -/
def checked (f : List Byte) (x : Byte) : List Bool := txBits (frameBody f ++ [x]) ++ txBits (f.drop (f.length - 2))

theorem fold_own (r : BitVec 16) (s : List Byte) (hs : s.length = 2) : (txBits s).foldl crcBit r = 0 ↔ leNat s = r.toNat := by
  match s, hs with
  | [a, b], _ =>
    have hl : (txBits [a, b]).length = 16 := rfl
    rw [crcFold_short _ (by rw [hl]), hl, ← shifts_zero 16]
    have hv : (ofBits (txBits [a, b])).toNat = leNat [a, b] := by
      have : ofBits (txBits [a, b]) = a.setWidth 16 ^^^ (b.setWidth 16 <<< 8) := by
        apply BitVec.eq_of_getLsbD_eq
        intro i hi
        rw [ofBits_getLsbD _ _ hi, BitVec.getLsbD_xor, BitVec.getLsbD_shiftLeft, BitVec.getLsbD_setWidth, BitVec.getLsbD_setWidth]
        match i, hi with
        | 0, _ | 1, _ | 2, _ | 3, _ | 4, _ | 5, _ | 6, _ | 7, _ => simp [txBits, lsbBits]
        | 8, _ | 9, _ | 10, _ | 11, _ | 12, _ | 13, _ | 14, _ | 15, _ => simp [txBits, lsbBits]
        | n + 16, h => omega
      rw [this, show a.setWidth 16 ^^^ (b.setWidth 16 <<< 8) = (b ++ a : BitVec (8 + 8)) by
        apply BitVec.eq_of_getLsbD_eq
        intro i hi
        rw [BitVec.getLsbD_xor, BitVec.getLsbD_shiftLeft, BitVec.getLsbD_setWidth, BitVec.getLsbD_setWidth, BitVec.getLsbD_append]
        by_cases h8 : i < 8
        · simp [h8, hi]
        · have : a.getLsbD i = false := BitVec.getLsbD_of_ge _ _ (by omega)
          simp [h8, hi, this]; omega]
      rw [BitVec.toNat_append]
      simp only [leNat]
      rw [← Nat.shiftLeft_add_eq_or_of_lt a.isLt, Nat.shiftLeft_eq]
      omega
    constructor
    · intro h
      have h := crcShifts_inj h
      have h := BitVec.xor_eq_zero_iff.1 h
      rw [h, hv]
    · intro h
      congr 1
      apply BitVec.xor_eq_zero_iff.2
      apply BitVec.eq_of_toNat_eq
      rw [hv, h]

theorem frame_split (l : List Byte) (h8 : 8 ≤ l.length) (hh : l.head? = some 254) : l = 254 :: (frameBody l ++ l.drop (l.length - 2)) := by
  unfold frameBody
  cases l with
  | nil => simp at hh
  | cons a r =>
    simp only [List.head?_cons, Option.some.injEq] at hh
    subst hh
    simp only [List.length_cons] at h8 ⊢
    rw [show r.length + 1 - 2 = (r.length - 2) + 1 by omega]
    simp [List.take_succ_cons]

theorem accepted_iff {f : List Byte} (hv1 : f.head? = some 254) {m : MsgClass} (hm : m ∈ mavlinkMap) (hid : m.id = (f.getD 5 0).toNat) :
    Returns (decode f) ↔ 8 ≤ f.length ∧ (f.getD 1 0).toNat = f.length - 8 ∧
      (checked f (BitVec.ofNat 8 m.crcExtra)).foldl crcBit 0xFFFF = 0 := by
  rw [c13_accept_iff f hv1]
  constructor
  · rintro ⟨h8, hl, m', hm', hid', hc⟩
    have : m' = m := by
      have h1 := lookupMsg_eq_some.2 ⟨hm, rfl⟩
      have h2 := lookupMsg_eq_some.2 ⟨hm', rfl⟩
      rw [hid', ← hid, h1] at h2
      exact (Option.some.inj h2).symm
    subst this
    refine ⟨h8, hl, ?_⟩
    rw [checked, List.foldl_append, fold_own _ _ (by simp; omega)]
    exact hc
  · rintro ⟨h8, hl, hc⟩
    refine ⟨h8, hl, m, hm, hid, ?_⟩
    rw [checked, List.foldl_append, fold_own _ _ (by simp; omega)] at hc
    exact hc

theorem zip_append (a b c d : List Bool) (h : a.length = c.length) :
    (List.zipWith (fun x y => x ^^ y) (a ++ b) (c ++ d)).count true =
      (List.zipWith (fun x y => x ^^ y) a c).count true + (List.zipWith (fun x y => x ^^ y) b d).count true := by
  rw [List.zipWith_append h, List.count_append]

theorem zip_self (a : List Bool) : (List.zipWith (fun x y => x ^^ y) a a).count true = 0 := by
  induction a with
  | nil => rfl
  | cons b a ih => cases b <;> simpa using ih

/-- The differing bits of two frames with the same marker and id are those of the checked bits. -/
theorem errors_checked (f g : List Byte) (x : Byte) (h8 : 8 ≤ f.length) (hlen : g.length = f.length) (hf : f.head? = some 254)
    (hg : g.head? = some 254) : bitErrors f g = (List.zipWith (fun a b => a ^^ b) (checked f x) (checked g x)).count true := by
  have hb : (frameBody f).length = (frameBody g).length := by unfold frameBody; simp [hlen]
  have e : ∀ l : List Byte, 8 ≤ l.length → l.head? = some 254 → txBits l = txBits [254] ++ (txBits (frameBody l) ++ txBits (l.drop (l.length - 2))) := by
    intro l h1 h2
    conv => lhs; rw [frame_split l h1 h2]
    rw [← txBits_append, ← txBits_append]; rfl
  unfold bitErrors checked
  rw [e f h8 hf, e g (by omega) hg, zip_append _ _ _ _ rfl, zip_self, zip_append _ _ _ _ (by rw [txBits_length, txBits_length, hb]),
    txBits_append, txBits_append, List.append_assoc, List.append_assoc,
    zip_append (txBits (frameBody f)) _ _ _ (by rw [txBits_length, txBits_length, hb]), zip_append _ _ _ _ rfl, zip_self]
  omega

/-- What passes the check next to an accepted frame differs from it in an even number of bits, and not in two. -/
theorem undetected (f g : List Byte) (hf : Returns (decode f)) (hg : Returns (decode g)) (hv1 : f.head? = some 254) (hv1' : g.head? = some 254)
    (hlen : g.length = f.length) (hid : g.getD 5 0 = f.getD 5 0) : bitErrors f g % 2 = 0 ∧ bitErrors f g ≠ 2 := by
  obtain ⟨_, hl, m, hm, hmid, _⟩ := (c13_accept_iff f hv1).1 hf
  obtain ⟨h8, _, h1⟩ := (accepted_iff hv1 hm hmid).1 hf
  obtain ⟨_, _, h2⟩ := (accepted_iff hv1' hm (by rw [hid]; exact hmid)).1 hg
  have hcl : ∀ l : List Byte, 8 ≤ l.length → (checked l (BitVec.ofNat 8 m.crcExtra)).length = 8 * l.length := by
    intro l h
    unfold checked frameBody
    rw [List.length_append, txBits_length, txBits_length]
    simp
    omega
  have := fold_xor _ _ (show (checked f (BitVec.ofNat 8 m.crcExtra)).length = (checked g (BitVec.ofNat 8 m.crcExtra)).length by
    rw [hcl f h8, hcl g (by omega), hlen]) 0xFFFF 0xFFFF
  rw [h1, h2, BitVec.xor_self, BitVec.xor_self] at this
  rw [errors_checked f g (BitVec.ofNat 8 m.crcExtra) h8 hlen hv1 hv1']
  refine pattern this.symm ?_
  rw [List.length_zipWith, hcl f h8, hcl g (by omega)]
  have := (f.getD 1 0).isLt
  omega

/-- C140: an odd number of inverted bits outside the marker and the id is always noticed. -/
theorem c140_odd (f g : List Byte) (hf : Returns (decode f)) (hv1 : f.head? = some 254) (hv1' : g.head? = some 254)
    (hlen : g.length = f.length) (hid : g.getD 5 0 = f.getD 5 0) (hodd : bitErrors f g % 2 = 1) : Raises (decode g) .mavError := by
  refine c13_reject g hv1' fun hg => ?_
  have := (undetected f g hf hg hv1 hv1' hlen hid).1
  omega

/-- C140: so are one, two and three inverted bits, wherever they are outside the marker and the id. -/
theorem c140_three (f g : List Byte) (hf : Returns (decode f)) (hv1 : f.head? = some 254) (hv1' : g.head? = some 254)
    (hlen : g.length = f.length) (hid : g.getD 5 0 = f.getD 5 0) (h1 : 1 ≤ bitErrors f g) (h3 : bitErrors f g ≤ 3) :
    Raises (decode g) .mavError := by
  refine c13_reject g hv1' fun hg => ?_
  have := undetected f g hf hg hv1 hv1' hlen hid
  omega

theorem step_xor (r s : BitVec 16) (a b : Byte) : crcStep (r ^^^ s) (a ^^^ b) = crcStep r a ^^^ crcStep s b := by
  rw [crcStep_shifts, crcStep_shifts, crcStep_shifts, ← crcShifts_xor, BitVec.setWidth_xor]
  congr 1
  ac_rfl

/-- The pattern of the generator polynomial is not noticed. -/
theorem generator (r : BitVec 16) (a b c : Byte) :
    crcStep (crcStep (crcStep r (a ^^^ 0x11)) (b ^^^ 0x08)) (c ^^^ 0x01) = crcStep (crcStep (crcStep r a) b) c := by
  have h : ∀ (r : BitVec 16) (a : Byte), crcStep r (a ^^^ 0x11) = crcStep r a ^^^ crcStep 0 0x11 := by
    intro r a
    rw [← step_xor]; simp
  rw [h, step_xor, step_xor, show crcStep (crcStep (crcStep 0 0x11) 0x08) 0x01 = 0 by decide]
  simp

/-- The four bits that the checksum cannot tell from none, from the lowest bit of byte `k` on. -/
def fourBits (f : List Byte) (k : Nat) : List Byte := flipBit (flipBit (flipBit (flipBit f k 0) k 4) (k + 1) 3) (k + 2) 0

theorem four_split (pre post : List Byte) (a b c : Byte) :
    fourBits (pre ++ a :: b :: c :: post) pre.length = pre ++ (a ^^^ 0x11) :: (b ^^^ 0x08) :: (c ^^^ 0x01) :: post := by
  have e : ∀ (pre post : List Byte) (x : Byte) (b : Nat), flipBit (pre ++ x :: post) pre.length b = pre ++ (x ^^^ (1#8 <<< b)) :: post := by
    intro pre post x b
    unfold flipBit
    rw [List.modify_eq_take_cons_drop (by simp)]
    simp
  unfold fourBits
  rw [e, e]
  have h1 := e (pre ++ [a ^^^ 1#8 <<< 0 ^^^ 1#8 <<< 4]) (c :: post) b 3
  rw [List.length_append, List.length_singleton] at h1
  rw [show pre ++ (a ^^^ 1#8 <<< 0 ^^^ 1#8 <<< 4) :: b :: c :: post = pre ++ [a ^^^ 1#8 <<< 0 ^^^ 1#8 <<< 4] ++ b :: c :: post by simp, h1]
  have h2 := e (pre ++ [a ^^^ 1#8 <<< 0 ^^^ 1#8 <<< 4, b ^^^ 1#8 <<< 3]) post c 0
  rw [List.length_append, show [a ^^^ 1#8 <<< 0 ^^^ 1#8 <<< 4, b ^^^ 1#8 <<< 3].length = 2 from rfl] at h2
  rw [show pre ++ [a ^^^ 1#8 <<< 0 ^^^ 1#8 <<< 4] ++ (b ^^^ 1#8 <<< 3) :: c :: post =
    pre ++ [a ^^^ 1#8 <<< 0 ^^^ 1#8 <<< 4, b ^^^ 1#8 <<< 3] ++ c :: post by simp, h2]
  rw [BitVec.xor_assoc a, show (1#8 <<< 0 ^^^ 1#8 <<< 4) = 0x11#8 by decide, show 1#8 <<< 3 = 0x08#8 by decide, show 1#8 <<< 0 = 0x01#8 by decide]
  simp

theorem errors_append (a b c d : List Byte) (h : a.length = c.length) : bitErrors (a ++ b) (c ++ d) = bitErrors a c + bitErrors b d := by
  unfold bitErrors
  rw [txBits_append, txBits_append, zip_append _ _ _ _ (by rw [txBits_length, txBits_length, h])]

theorem errors_self (a : List Byte) : bitErrors a a = 0 := zip_self _

/-- C140: but four inverted bits need not be: in every accepted frame, the same four bits, starting at any of the payload bytes but the last
two, can be inverted without the decoder noticing. -/
theorem c140_four (f : List Byte) (hf : Returns (decode f)) (hv1 : f.head? = some 254) (k : Nat) (hk : 6 ≤ k) (hk' : k + 4 < f.length) :
    Returns (decode (fourBits f k)) ∧ (fourBits f k).head? = some 254 ∧ (fourBits f k).getD 5 0 = f.getD 5 0 ∧ bitErrors f (fourBits f k) = 4 := by
  obtain ⟨h8, hl, m, hm, hmid, hc⟩ := (c13_accept_iff f hv1).1 hf
  have hsplit : f = f.take k ++ f[k] :: f[k + 1] :: f[k + 2] :: f.drop (k + 3) := by
    conv => lhs; rw [← List.take_append_drop k f, List.drop_eq_getElem_cons (by omega), List.drop_eq_getElem_cons (by omega),
      List.drop_eq_getElem_cons (by omega)]
  generalize hp : f.take k = pre at hsplit
  generalize hq : f.drop (k + 3) = post at hsplit
  have hpl : pre.length = k := by rw [← hp]; simp; omega
  have hql : 2 ≤ post.length := by rw [← hq]; simp; omega
  generalize f[k] = a at hsplit
  generalize f[k + 1] = b at hsplit
  generalize f[k + 2] = c at hsplit
  clear hp hq
  subst hsplit
  subst hpl
  rw [four_split]
  have hget : ∀ i < pre.length, ∀ x y : List Byte, (pre ++ x).getD i 0 = (pre ++ y).getD i 0 := by
    intro i hi x y
    simp only [List.getD, List.getElem?_append_left hi]
  have hhead : ∀ x y : List Byte, (pre ++ x).head? = some 254 → (pre ++ y).head? = some 254 := by
    intro x y h
    cases pre with
    | nil => simp at hk
    | cons z pre => simpa using h
  have h5 := hget 5 (by omega) ((a ^^^ 0x11) :: (b ^^^ 0x08) :: (c ^^^ 0x01) :: post) (a :: b :: c :: post)
  have hv1' := hhead _ ((a ^^^ 0x11) :: (b ^^^ 0x08) :: (c ^^^ 0x01) :: post) hv1
  refine ⟨?_, hv1', h5, ?_⟩
  · rw [c13_accept_iff _ hv1', hget 1 (by omega) _ (a :: b :: c :: post), h5]
    refine ⟨by simpa using h8, by simpa using hl, m, hm, hmid, ?_⟩
    have hbody : ∀ x y z : Byte, frameBody (pre ++ x :: y :: z :: post) = pre.drop 1 ++ x :: y :: z :: post.take (post.length - 2) := by
      intro x y z
      unfold frameBody
      have : (pre ++ x :: y :: z :: post).length - 2 = pre.length + (post.length - 2 + 1 + 1 + 1) := by simp; omega
      rw [this, List.take_length_add_append, List.take_succ_cons, List.take_succ_cons, List.take_succ_cons,
        List.drop_append_of_le_length (by omega)]
    have hdrop : ∀ x y z : Byte, (pre ++ x :: y :: z :: post).drop ((pre ++ x :: y :: z :: post).length - 2) = post.drop (post.length - 2) := by
      intro x y z
      have : (pre ++ x :: y :: z :: post).length - 2 = pre.length + (post.length - 2 + 1 + 1 + 1) := by simp; omega
      rw [this, List.drop_length_add_append]
      simp
    rw [hdrop, ← x25_eq_bits, hbody] at hc ⊢
    rw [hc]
    congr 1
    simp only [x25, List.cons_append, List.append_assoc, List.foldl_append, List.foldl_cons, generator]
  · rw [errors_append _ _ _ _ rfl, errors_self, show a :: b :: c :: post = [a, b, c] ++ post from rfl,
      show (a ^^^ 0x11) :: (b ^^^ 0x08) :: (c ^^^ 0x01) :: post = [a ^^^ 0x11, b ^^^ 0x08, c ^^^ 0x01] ++ post from rfl,
      errors_append [a, b, c] post [a ^^^ 0x11, b ^^^ 0x08, c ^^^ 0x01] post rfl, errors_self]
    have h1 : ∀ x y : Byte, bitErrors [x] [x ^^^ y] = (lsbBits y).count true := by
      intro x y
      have : List.zipWith (fun p q => p ^^ q) (txBits [x]) (txBits [x ^^^ y]) = lsbBits y := by
        simp [txBits, lsbBits]
      unfold bitErrors
      rw [this]
    rw [show [a, b, c] = [a] ++ ([b] ++ [c]) from rfl,
      show [a ^^^ 0x11, b ^^^ 0x08, c ^^^ 0x01] = [a ^^^ 0x11] ++ ([b ^^^ 0x08] ++ [c ^^^ 0x01]) from rfl,
      errors_append [a] ([b] ++ [c]) [a ^^^ 0x11] ([b ^^^ 0x08] ++ [c ^^^ 0x01]) rfl, errors_append [b] [c] [b ^^^ 0x08] [c ^^^ 0x01] rfl, h1, h1, h1]
    decide

/-- C140: in a buffer of messages standing back to back, one to three inverted bits of one of them, or any odd number, that spare its marker
and id and make no new marker, cost that message and nothing else. -/
theorem c140_lost (before after : List (MsgClass × List Byte)) (m : MsgClass) (f g : List Byte)
    (hp : ∀ x ∈ before ++ (m, f) :: after, PackedFrame x.1 x.2 ∧ NoArrays x.1) (hlen : g.length = f.length)
    (h0 : g.getD 0 0 = f.getD 0 0) (h5 : g.getD 5 0 = f.getD 5 0)
    (he : bitErrors f g % 2 = 1 ∨ bitErrors f g = 2) (hg : ∀ b ∈ g.tail, b ≠ 254) :
    ∃ st, segmentBuffer decode (C120.wire before ++ g ++ C120.wire after) = .ok st ∧ C121.ExactlyLost before f.length after st := by
  obtain ⟨hpf, hn⟩ := hp (m, f) (by simp)
  obtain ⟨h8, _, f0, _, _, hdec⟩ := packed_head hpf
  change 8 ≤ f.length at h8
  have hhead : ∀ l : List Byte, 8 ≤ l.length → l.getD 0 0 = 254 → l.head? = some 254 := by
    intro l h8 h
    cases l with
    | nil => simp at h8
    | cons x r => simp only [List.getD_cons_zero] at h; rw [h]; rfl
  refine C121.c121_damaged before after m f g hp hlen ?_ (Or.inr h5) hg
  intro hr
  have := undetected f g hdec hr (hhead f h8 f0) (hhead g (by omega) (by rw [h0, f0])) hlen h5
  omega

/-- One frame alone is labelled whole. -/
theorem alone {g : List Byte} {id : Nat} {sg : SegState} (h8 : 8 ≤ g.length) (hs : segmentBuffer decode g = .ok sg)
    (hh : ∀ acc : List Byte → Bool, (∀ c, Returns (decode c) → acc c = true) → frameHead acc g = some (id, g.length - 8)) :
    sg.parts = msgLabels (g.length - 8) ∧ sg.struct = [(0, id)] := by
  obtain ⟨p1, _, p3⟩ := segment_scan decode g sg hs
  have hf := hh (fun c => decide (Returns (decode c))) (fun c hc => decide_eq_true hc)
  match g, h8, hf with
  | b :: s, h8, hf =>
    have hd : s.drop ((b :: s).length - 8 + 7) = [] := List.drop_eq_nil_of_le (by simp at h8 ⊢; omega)
    rw [p1, p3]
    refine ⟨?_, ?_⟩
    · rw [scanL, hf]
      simp only [hd]
      rw [scanL, List.append_nil]
      apply List.take_of_length_le
      rw [msgLabels_length]; simp at h8 ⊢; omega
    · rw [scanS, hf]
      simp only [hd]
      rw [scanS]

/-- A frame of version 1 standing in the stream is taken whole, whatever the decoder makes of it. -/
theorem nextOut_frame {g : List Byte} (h8 : 8 ≤ g.length) (h0 : g.getD 0 0 = 254) (h1 : (g.getD 1 0).toNat = g.length - 8) (rest : List Byte) :
    (∀ msg, decode g = .ok msg → nextOut (g ++ rest) = some (.msg g msg, g.length, 8, 0)) ∧
      (decode g = .error .mavError → nextOut (g ++ rest) = some (.bad g, g.length, 8, 1)) := by
  have key : nextOut g = match decode g with
      | .ok msg => some (.msg g msg, g.length, 8, 0)
      | .error _ => some (.bad g, g.length, 8, 1) := by
    match g, h8, h0, h1 with
    | b0 :: b1 :: b2 :: s, h8, h0, h1 =>
      simp only [List.getD_cons_zero, List.getD_cons_succ] at h0 h1
      subst h0
      have hel : b1.toNat + (if (254 : Byte) = 253 ∧ b2.toNat % 2 = 1 then 13 else 0) + (6 + 2) = (254 :: b1 :: b2 :: s).length := by
        rw [if_neg (by intro h; exact absurd h.1 (by decide)), h1]
        simp at h8 ⊢; omega
      unfold nextOut
      simp only [List.head?_cons]
      rw [if_neg (by decide)]
      have h253 : ((some 254 : Option Byte) = some 253) = False := by decide
      simp only [h253, if_false, readHeader3, hel, Nat.le_refl, if_true, List.take_length]
      rw [if_neg (by intro h; exact absurd h.1 (by decide))]
      cases decode (254 :: b1 :: b2 :: s) <;> rfl
    | [], h8, _, _ => simp at h8
    | [_], h8, _, _ => simp at h8
    | [_, _], h8, _, _ => simp at h8
  refine ⟨fun msg h => nextOut_append rest ?_, fun h => nextOut_append rest ?_⟩
  · rw [key, h]
  · rw [key, h]

/-- What a new parser makes of frames, one item, and frames again. -/
theorem feed_around {before after : List (MsgClass × List Byte)} {g : List Byte} {o : Parsed} {e : Nat}
    (hb : ∀ x ∈ before, PackedFrame x.1 x.2) (ha : ∀ x ∈ after, PackedFrame x.1 x.2)
    (hg : ∀ rest, nextOut (g ++ rest) = some (o, g.length, 8, e))
    (chunks : List (List Byte)) (hc : chunks.flatten = C120.wire before ++ g ++ C120.wire after) :
    ∃ st o₁ o₂, feed (Parser.init true) chunks = some (st, o₁ ++ o :: o₂) ∧ st.pending = [] ∧ C120.Received before o₁ ∧ C120.Received after o₂ := by
  obtain ⟨st, h1, h2⟩ := C120.feed_init chunks
  rw [hc, List.append_assoc] at h1 h2
  obtain ⟨o₁, y, r1, e1⟩ := C120.drain_packed before hb (g ++ C120.wire after) 8
  obtain ⟨o₂, y2, r2, e2⟩ := C120.drain_packed after ha [] 8
  have hnil : drain ([] : List Byte) y2 = ([], [], idleExp [] y2) := drain_none rfl
  rw [List.append_nil, hnil] at e2
  have e3 := drain_some (x := y) (hg (C120.wire after))
  rw [List.drop_left, e2] at e3
  rw [e1, e3] at h1 h2
  refine ⟨st, o₁, o₂, ?_, h2, r1, r2⟩
  rw [h1]
  simp

/-- C140: a receiver of the stream loses only the damaged message too, here also if its damage makes new markers, as long as its length was
spared: all other messages are received and the damaged frame is one bad item, however the stream is cut. -/
theorem c140_stream (before after : List (MsgClass × List Byte)) (m : MsgClass) (f g : List Byte)
    (hp : ∀ x ∈ before ++ (m, f) :: after, PackedFrame x.1 x.2) (hlen : g.length = f.length)
    (h0 : g.getD 0 0 = f.getD 0 0) (h1 : g.getD 1 0 = f.getD 1 0) (h5 : g.getD 5 0 = f.getD 5 0)
    (he : bitErrors f g % 2 = 1 ∨ bitErrors f g = 2)
    (chunks : List (List Byte)) (hc : chunks.flatten = C120.wire before ++ g ++ C120.wire after) :
    ∃ st o₁ o₂, feed (Parser.init true) chunks = some (st, o₁ ++ Parsed.bad g :: o₂) ∧ st.pending = [] ∧
      C120.Received before o₁ ∧ C120.Received after o₂ := by
  obtain ⟨h8, _, f0, f1, _, hdec⟩ := packed_head (hp (m, f) (by simp))
  change 8 ≤ f.length at h8
  change f.getD 0 0 = 254 at f0
  have hhead : ∀ l : List Byte, 8 ≤ l.length → l.getD 0 0 = 254 → l.head? = some 254 := by
    intro l h8 h
    cases l with
    | nil => simp at h8
    | cons x r => simp only [List.getD_cons_zero] at h; rw [h]; rfl
  have hr : Raises (decode g) .mavError := by
    rcases he with he | he
    · exact c140_odd f g hdec (hhead f h8 f0) (hhead g (by omega) (by rw [h0, f0])) hlen h5 he
    · exact c140_three f g hdec (hhead f h8 f0) (hhead g (by omega) (by rw [h0, f0])) hlen h5 (by omega) (by omega)
  refine feed_around (e := 1) (fun x hx => hp x (by simp [hx])) (fun x hx => hp x (by simp [hx])) (fun rest => ?_) chunks hc
  exact (nextOut_frame (by omega) (by rw [h0, f0]) (by rw [h1, f1, hlen]) rest).2 hr

/-- C140: and four inverted bits can reach it as a message. -/
theorem c140_stream_silent (before after : List (MsgClass × List Byte)) (m : MsgClass) (f : List Byte)
    (hp : ∀ x ∈ before ++ (m, f) :: after, PackedFrame x.1 x.2) (k : Nat) (hk : 6 ≤ k) (hk' : k + 4 < f.length)
    (chunks : List (List Byte)) (hc : chunks.flatten = C120.wire before ++ fourBits f k ++ C120.wire after) :
    ∃ st o₁ msg o₂, feed (Parser.init true) chunks = some (st, o₁ ++ Parsed.msg (fourBits f k) msg :: o₂) ∧ st.pending = [] ∧
      C120.Received before o₁ ∧ C120.Received after o₂ := by
  obtain ⟨h8, _, f0, _, _, hdec⟩ := packed_head (hp (m, f) (by simp))
  change 8 ≤ f.length at h8
  change f.getD 0 0 = 254 at f0
  have hv1 : f.head? = some 254 := by
    cases f with
    | nil => simp at h8
    | cons x r => simp only [List.getD_cons_zero] at f0; rw [f0]; rfl
  obtain ⟨hacc, hv, -, -⟩ := c140_four f hdec hv1 k hk hk'
  obtain ⟨g8, gl, -⟩ := (c13_accept_iff _ hv).1 hacc
  obtain ⟨msg, hmsg⟩ := hacc
  have g0 : (fourBits f k).getD 0 0 = 254 := by
    cases hq : fourBits f k with
    | nil => rw [hq] at hv; cases hv
    | cons x r => rw [hq] at hv; simpa using hv
  obtain ⟨st, o₁, o₂, r1, r2, r3, r4⟩ := feed_around (o := Parsed.msg (fourBits f k) msg) (e := 0) (fun x hx => hp x (by simp [hx])) (fun x hx => hp x (by simp [hx]))
    (fun rest => (nextOut_frame g8 g0 (by omega) rest).1 msg hmsg) chunks hc
  exact ⟨st, o₁, msg, o₂, r1, r2, r3, r4⟩

/-- C140: the segmentation does not notice the four bits either: it reports every message, the damaged one among them, and no unknown byte. -/
theorem c140_silent (before after : List (MsgClass × List Byte)) (m : MsgClass) (f : List Byte)
    (hp : ∀ x ∈ before ++ (m, f) :: after, PackedFrame x.1 x.2 ∧ NoArrays x.1) (k : Nat) (hk : 6 ≤ k) (hk' : k + 4 < f.length) :
    ∃ st, segmentBuffer decode (C120.wire before ++ fourBits f k ++ C120.wire after) = .ok st ∧
      st.struct = layout 0 (before ++ (m, f) :: after) ∧ (∀ p ∈ st.parts, p ≠ .unknown) ∧ ∀ v ∈ st.validity, v = 1 := by
  obtain ⟨hpf, hn⟩ := hp (m, f) (by simp)
  obtain ⟨h8, _, f0, _, _, hdec⟩ := packed_head hpf
  change 8 ≤ f.length at h8
  have hv1 : f.head? = some 254 := by
    cases f with
    | nil => simp at h8
    | cons x r => simp only [List.getD_cons_zero] at f0; rw [f0]; rfl
  have hacc := (c140_four f hdec hv1 k hk hk').1
  have hlen : (fourBits f k).length = f.length := by simp [fourBits, flipBit_length]
  have hlow : ∀ i < 6, (fourBits f k)[i]? = f[i]? := by
    intro i hi
    unfold fourBits
    rw [flipBit_get _ _ _ _ (by omega), flipBit_get _ _ _ _ (by omega), flipBit_get _ _ _ _ (by omega), flipBit_get _ _ _ _ (by omega)]
  have h6 : (fourBits f k).take 6 = f.take 6 := by
    apply List.ext_getElem?
    intro i
    by_cases hi : i < 6
    · rw [List.getElem?_take_of_lt hi, List.getElem?_take_of_lt hi, hlow i hi]
    · rw [List.getElem?_eq_none (by simp; omega), List.getElem?_eq_none (by simp; omega)]
  have hgh : ∀ acc : List Byte → Bool, (∀ c, Returns (decode c) → acc c = true) → frameHead acc (fourBits f k) = some (m.id, (fourBits f k).length - 8) := by
    intro acc ha
    have := packed_frameHead hpf hn ha
    unfold frameHead at this ⊢
    have hc : 8 ≤ f.length ∧ isValidHeader (f.take 6) = true ∧ acc (f.take ((f.getD 1 0).toNat + 8)) = true := by
      by_contra h
      rw [if_neg h] at this
      cases this
    rw [if_pos hc] at this
    have h1 : (fourBits f k).getD 1 0 = f.getD 1 0 := by simp only [List.getD, hlow 1 (by omega)]
    have h5 : (fourBits f k).getD 5 0 = f.getD 5 0 := by simp only [List.getD, hlow 5 (by omega)]
    simp only [Option.some.injEq, Prod.mk.injEq] at this
    rw [h6, h1, h5, hlen, if_pos, this.1, this.2]
    refine ⟨h8, hc.2.1, ha _ ?_⟩
    rw [this.2, List.take_of_length_le (by omega)]
    exact hacc
  obtain ⟨sb, b1, _, b3, _⟩ := c21_concatenation before (fun x hx => hp x (by simp [hx]))
  obtain ⟨sa, a1, _, _, _⟩ := c21_concatenation after (fun x hx => hp x (by simp [hx]))
  obtain ⟨all, l1, l2, l3, l4⟩ := c21_concatenation (before ++ (m, f) :: after) hp
  have hall : (((before ++ (m, f) :: after).map Prod.snd).flatten : List Byte) = C120.wire before ++ (f ++ C120.wire after) := by
    simp [C120.wire]
  rw [hall] at l1
  have same : ∀ (g : List Byte) (st : SegState), g.length = f.length →
      (∀ acc : List Byte → Bool, (∀ c, Returns (decode c) → acc c = true) → frameHead acc g = some (m.id, g.length - 8)) →
      segmentBuffer decode (C120.wire before ++ (g ++ C120.wire after)) = .ok st →
      st.parts = sb.parts ++ (msgLabels (f.length - 8) ++ sa.parts) ∧
      st.struct = sb.struct ++ ((0, m.id) :: sa.struct.map (fun r => (r.1 + f.length, r.2))).map (fun r => (r.1 + (C120.wire before).length, r.2)) := by
    intro g st hgl hg hst
    obtain ⟨sg, g1, _⟩ := c20_never_raises g
    obtain ⟨sx, x1, _⟩ := c20_never_raises (g ++ C120.wire after)
    obtain ⟨e1, e2⟩ := alone (by omega) g1 hg
    have hfull : ∀ p ∈ sg.parts, p ≠ .unknown := by rw [e1]; exact msgLabels_known _
    obtain ⟨t1, _, t3⟩ := c22_prefix g (C120.wire after) sg sa sx g1 a1 x1 hfull
    obtain ⟨u1, _, u3⟩ := c22_prefix (C120.wire before) (g ++ C120.wire after) sb sx st b1 x1 hst b3
    rw [u1, u3, t1, t3, e1, e2, hgl]
    exact ⟨rfl, rfl⟩
  obtain ⟨st, s1, _⟩ := c20_never_raises (C120.wire before ++ (fourBits f k ++ C120.wire after))
  obtain ⟨v1, v2⟩ := same (fourBits f k) st hlen hgh s1
  obtain ⟨w1, w2⟩ := same f all rfl (fun acc ha => packed_frameHead hpf hn ha) l1
  refine ⟨st, by rw [List.append_assoc]; exact s1, by rw [v2, ← w2, l2], ?_, ?_⟩
  · rw [v1, ← w1]; exact l3
  · rw [(segment_scan decode _ st s1).2.1, v1, ← w1, ← (segment_scan decode _ all l1).2.1]
    exact l4

/-- A position of the second satellite receiver. -/
def gpsFields : List FieldVal := List.replicate 12 (.num (.int 0))
def gpsFrame : List Byte := [254, 35, 0, 1, 1, 124] ++ List.replicate 35 0 ++ [143, 123]

theorem gps_packed : PackedFrame msg124 gpsFrame ∧ NoArrays msg124 :=
  ⟨⟨by decide +kernel, gpsFields, 0, 1, 1, by decide +kernel⟩, by decide⟩

/-- C140: with one of the inverted bits in the id, two of them can be enough to turn a packed message into one of another kind. -/
theorem c140_id_false : ¬ ∀ (m : MsgClass) (f g : List Byte), PackedFrame m f → g.length = f.length → g.head? = some 254 →
    bitErrors f g = 2 → Raises (decode g) .mavError := by
  intro h
  have h1 := h msg124 gpsFrame (flipBit (flipBit gpsFrame 5 4) 13 1) gps_packed.1 (by decide +kernel) (by decide +kernel) (by decide +kernel)
  have h2 : Returns (decode (flipBit (flipBit gpsFrame 5 4) 13 1)) := by decide +kernel
  unfold Raises at h1
  obtain ⟨x, h2⟩ := h2
  rw [h1] at h2
  cases h2

/-- The four bits in the payload of a heartbeat: the message is still accepted, with another mode. -/
example : Returns (decode C120.beat) ∧ Returns (decode (fourBits C120.beat 6)) ∧ bitErrors C120.beat (fourBits C120.beat 6) = 4 :=
  have h : Returns (decode C120.beat) := by decide +kernel
  ⟨h, (c140_four _ h rfl 6 (by decide) (by decide)).1, (c140_four _ h rfl 6 (by decide) (by decide)).2.2.2⟩

/-- Three inverted bits at the start, in the middle and in the checksum of a heartbeat. -/
example : Raises (decode (flipBit (flipBit (flipBit C120.beat 2 7) 10 0) 16 5)) .mavError :=
  c140_three C120.beat _ (by decide +kernel) rfl (by decide) (by decide) (by decide) (by decide +kernel) (by decide +kernel)

/-- `c140_lost` for two inverted bits of the second of three heartbeats. -/
example : ∃ st, segmentBuffer decode (C120.wire [(msg0, C120.beat)] ++ flipBit (flipBit C120.beat 1 0) 12 3 ++ C120.wire [(msg0, C120.beat)]) = .ok st ∧
    C121.ExactlyLost [(msg0, C120.beat)] 17 [(msg0, C120.beat)] st := by
  refine c140_lost [(msg0, C120.beat)] [(msg0, C120.beat)] msg0 C120.beat _ ?_ (by decide) (by decide) (by decide) (Or.inr (by decide +kernel)) (by decide)
  intro x hx
  simp only [List.cons_append, List.nil_append, List.mem_cons, List.not_mem_nil, or_false] at hx
  have : x = (msg0, C120.beat) := by tauto
  subst this
  exact ⟨C120.beat_packed, by decide⟩

/-- `c140_silent` for the second of three heartbeats. -/
example : ∃ st, segmentBuffer decode (C120.wire [(msg0, C120.beat)] ++ fourBits C120.beat 6 ++ C120.wire [(msg0, C120.beat)]) = .ok st ∧
    st.struct = [(0, 0), (17, 0), (34, 0)] := by
  obtain ⟨st, h1, h2, _⟩ := c140_silent [(msg0, C120.beat)] [(msg0, C120.beat)] msg0 C120.beat (by
    intro x hx
    simp only [List.cons_append, List.nil_append, List.mem_cons, List.not_mem_nil, or_false] at hx
    have : x = (msg0, C120.beat) := by tauto
    subst this
    exact ⟨C120.beat_packed, by decide⟩) 6 (by decide) (by decide)
  exact ⟨st, h1, h2⟩

/-- `c140_stream` for two inverted bits of the second of three heartbeats, cut in two inside it; one of them makes a marker. -/
example : ∃ st o₁ o₂, feed (Parser.init true) [C120.beat ++ [254, 9, 8, 1, 1, 0, 254], [255, 255, 255, 2, 3, 81, 4, 3, 21, 211] ++ C120.beat]
      = some (st, o₁ ++ Parsed.bad [254, 9, 8, 1, 1, 0, 254, 255, 255, 255, 2, 3, 81, 4, 3, 21, 211] :: o₂) ∧ o₁.length = 1 ∧ o₂.length = 1 := by
  obtain ⟨st, o₁, o₂, h1, _, h3, h4⟩ := c140_stream [(msg0, C120.beat)] [(msg0, C120.beat)] msg0 C120.beat
    [254, 9, 8, 1, 1, 0, 254, 255, 255, 255, 2, 3, 81, 4, 3, 21, 211] (by
      intro x hx
      simp only [List.cons_append, List.nil_append, List.mem_cons, List.not_mem_nil, or_false] at hx
      have : x = (msg0, C120.beat) := by tauto
      subst this
      exact C120.beat_packed) (by decide) (by decide) (by decide) (by decide) (Or.inr (by decide +kernel))
    [C120.beat ++ [254, 9, 8, 1, 1, 0, 254], [255, 255, 255, 2, 3, 81, 4, 3, 21, 211] ++ C120.beat] (by decide)
  exact ⟨st, o₁, o₂, h1, h3.length_eq.symm, h4.length_eq.symm⟩

end NR.C140
