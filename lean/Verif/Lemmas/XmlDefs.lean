import Verif.Spec.XmlDefs
import Verif.Model.Minimal
import Verif.Lemmas.Crc
import Verif.Lemmas.Wire
/-
The tables of the dialects against the definition files, by evaluation in the kernel.
-/
namespace NR.XmlLemmas
open NR Dialect Spec

/-! ### The tables

For the kernel the checksum is computed with natural numbers. -/

def stepN (c b : Nat) : Nat :=
  let t := Nat.land (Nat.xor b c) 255
  let t := Nat.land (Nat.xor t (Nat.mul t 16)) 255
  Nat.xor (Nat.xor (Nat.xor (Nat.div c 256) (Nat.mul t 256)) (Nat.mul t 8)) (Nat.div t 16)

def crcN : List Nat → Nat → Nat
  | [], c => c
  | b :: bs, c => crcN bs (stepN c b)

def bytesN (s : String) : List Nat := s.toUTF8.data.toList.map UInt8.toNat

def signatureN (x : XmlMsg) : List Nat :=
  bytesN x.name ++ [0x20] ++ (wireOrder XmlField.type x.fields).flatMap fun f =>
    bytesN (typeName f.type) ++ [0x20] ++ bytesN f.name ++ [0x20] ++ if f.count = 0 then [] else [Nat.land f.count 255]

def fingerprintN (x : XmlMsg) : Nat :=
  let c := crcN (signatureN x) 0xFFFF
  Nat.xor (Nat.land c 255) (Nat.div c 256)

theorem and255 (a : Nat) : a &&& 255 = a % 256 := Nat.and_two_pow_sub_one_eq_mod a 8

theorem stepN_eq (c : BitVec 16) (b : Byte) : stepN c.toNat b.toNat = (crcStep c b).toNat := by
  have hb := b.isLt
  have hc := c.isLt
  unfold stepN crcStep
  simp only [BitVec.toNat_xor, BitVec.toNat_ushiftRight, BitVec.toNat_shiftLeft, BitVec.toNat_setWidth, Nat.shiftRight_eq_div_pow,
    Nat.shiftLeft_eq]
  have e1 : Nat.land (Nat.xor b.toNat c.toNat) 255 = b.toNat ^^^ c.toNat % 2 ^ 8 := by
    show (b.toNat ^^^ c.toNat) &&& 255 = _
    rw [Nat.and_xor_distrib_right, and255, and255, Nat.mod_eq_of_lt hb]
  rw [e1]
  have hu : b.toNat ^^^ c.toNat % 2 ^ 8 < 256 := Nat.xor_lt_two_pow (n := 8) hb (Nat.mod_lt _ (by decide))
  generalize b.toNat ^^^ c.toNat % 2 ^ 8 = u at hu ⊢
  have e2 : Nat.land (Nat.xor u (Nat.mul u 16)) 255 = u ^^^ (u * 2 ^ 4) % 2 ^ 8 := by
    show (u ^^^ u * 16) &&& 255 = _
    rw [Nat.and_xor_distrib_right, and255, and255, Nat.mod_eq_of_lt hu]
  rw [e2]
  have hv : u ^^^ (u * 2 ^ 4) % 2 ^ 8 < 256 := Nat.xor_lt_two_pow (n := 8) hu (Nat.mod_lt _ (by decide))
  generalize u ^^^ (u * 2 ^ 4) % 2 ^ 8 = v at hv ⊢
  have e3 : v % 2 ^ 16 = v := Nat.mod_eq_of_lt (by omega)
  have e4 : v * 2 ^ 8 % 2 ^ 16 = Nat.mul v 256 := Nat.mod_eq_of_lt (by omega)
  have e5 : v * 2 ^ 3 % 2 ^ 16 = Nat.mul v 8 := Nat.mod_eq_of_lt (by omega)
  rw [e3, e4, e5]
  rfl

theorem crcN_eq (bs : List Byte) : ∀ c : BitVec 16, crcN (bs.map BitVec.toNat) c.toNat = (bs.foldl crcStep c).toNat := by
  induction bs with
  | nil => intro c; rfl
  | cons b bs ih =>
    intro c
    rw [List.map_cons, crcN, stepN_eq, ih]
    rfl

theorem bytesN_eq (s : String) : bytesN s = (ascii s).map BitVec.toNat := by
  unfold bytesN ascii
  rw [List.map_map]
  rfl

theorem signatureN_eq (x : XmlMsg) : signatureN x = (signature x).map BitVec.toNat := by
  unfold signatureN signature
  simp only [bytesN_eq, List.map_append, List.map_flatMap, List.map_cons, List.map_nil]
  congr 1
  apply List.flatMap_congr
  intro f _
  congr 1
  split
  · rfl
  · simp only [List.map_cons, List.map_nil, BitVec.toNat_ofNat]
    rw [show Nat.land f.count 255 = f.count &&& 255 from rfl, and255]

theorem fingerprintN_eq (x : XmlMsg) : fingerprintN x = (fingerprint x).toNat := by
  unfold fingerprintN fingerprint
  rw [signatureN_eq, show (0xFFFF : Nat) = (0xFFFF : BitVec 16).toNat from rfl, crcN_eq, ← x25_eq_bits]
  show Nat.xor (Nat.land (x25 (signature x)).toNat 255) (Nat.div (x25 (signature x)).toNat 256) = _
  have hc := (x25 (signature x)).isLt
  simp only [BitVec.toNat_xor, BitVec.toNat_setWidth, BitVec.toNat_ushiftRight, Nat.shiftRight_eq_div_pow]
  show ((x25 (signature x)).toNat &&& 255) ^^^ ((x25 (signature x)).toNat / 256) = _
  rw [and255, Nat.mod_eq_of_lt (show (x25 (signature x)).toNat / 2 ^ 8 < 2 ^ 8 by omega)]

def implementsb (m : MsgClass) (x : XmlMsg) : Bool :=
  decide (m.id = x.id ∧ m.name = x.name ∧ m.fieldnames = x.fields.map XmlField.name ∧ m.fieldtypes = x.fields.map XmlField.type ∧
    m.orderedFieldnames = (wireOrder XmlField.type x.fields).map XmlField.name ∧
    m.arrayLengths = (wireOrder XmlField.type x.fields).map XmlField.count ∧ m.crcExtra = fingerprintN x)

theorem implements_of {m : MsgClass} {x : XmlMsg} (h : implementsb m x = true) : Implements m x := by
  obtain ⟨h1, h2, h3, h4, h5, h6, h7⟩ := of_decide_eq_true h
  exact ⟨h1, h2, h3, h4, h5, h6, by rw [h7, fingerprintN_eq]⟩

def allb : List MsgClass → List XmlMsg → Bool
  | [], [] => true
  | m :: ms, x :: xs => implementsb m x && allb ms xs
  | _, _ => false

theorem all_of : ∀ {ms : List MsgClass} {xs : List XmlMsg}, allb ms xs = true → List.Forall₂ Implements ms xs
  | [], [], _ => .nil
  | m :: ms, x :: xs, h => by
    rw [allb, Bool.and_eq_true] at h
    exact .cons (implements_of h.1) (all_of h.2)
  | [], _ :: _, h => by cases h
  | _ :: _, [], h => by cases h

theorem hc_table : allb mavlinkMap HcXml.messages = true := by decide +kernel

theorem minimal_table : allb Minimal.mavlinkMap MinimalXml.messages = true := by decide +kernel

end NR.XmlLemmas
