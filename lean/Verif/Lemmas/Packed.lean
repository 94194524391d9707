import Verif.Props.C08_C09
/-
Shape and acceptance of every packed frame.
-/
namespace NR
open Spec Dialect

theorem packScalar_u8 {i : Int} {bs : List Byte} (h : packScalar .u8 (.int i) = .ok bs) :
    0 ≤ i ∧ i ≤ 255 ∧ bs = [BitVec.ofNat 8 i.toNat] := by
  have hf := packScalar_ok h
  simp only [FitsScalar] at hf
  refine ⟨hf.1, hf.2, ?_⟩
  simp only [packScalar, CType.isUInt, if_true] at h
  rw [if_pos (by simp only [CType.size]; omega)] at h
  injection h with h
  rw [← h]
  simp [CType.size, leBytes]

theorem structPack_cons_inv {it : FmtItem} {its : List FmtItem} {v : Val} {vs : List Val} {b : List Byte}
    (h : structPack (it :: its) (v :: vs) = .ok b) :
    ∃ a c, packItem it v = .ok a ∧ structPack its vs = .ok c ∧ b = a ++ c := by
  simp only [structPack, bind, Except.bind] at h
  split at h
  · cases h
  · rename_i a ha
    split at h
    · cases h
    · rename_i c hc
      injection h with h
      exact ⟨a, c, ha, hc, h.symm⟩

theorem structPack_header_inv {len seq sys comp id : Int} {hd : List Byte}
    (h : structPack (List.replicate 6 (.scalar .u8)) [.int 254, .int len, .int seq, .int sys, .int comp, .int id] = .ok hd) :
    (0 ≤ len ∧ len ≤ 255) ∧ (0 ≤ seq ∧ seq ≤ 255) ∧ (0 ≤ sys ∧ sys ≤ 255) ∧ (0 ≤ comp ∧ comp ≤ 255) ∧
      (0 ≤ id ∧ id ≤ 255) ∧ hd = [254, BitVec.ofNat 8 len.toNat, BitVec.ofNat 8 seq.toNat, BitVec.ofNat 8 sys.toNat,
        BitVec.ofNat 8 comp.toNat, BitVec.ofNat 8 id.toNat] := by
  obtain ⟨a0, c0, h0, g0, e0⟩ := structPack_cons_inv h
  obtain ⟨a1, c1, h1, g1, e1⟩ := structPack_cons_inv g0
  obtain ⟨a2, c2, h2, g2, e2⟩ := structPack_cons_inv g1
  obtain ⟨a3, c3, h3, g3, e3⟩ := structPack_cons_inv g2
  obtain ⟨a4, c4, h4, g4, e4⟩ := structPack_cons_inv g3
  obtain ⟨a5, c5, h5, g5, e5⟩ := structPack_cons_inv g4
  simp only [packItem] at h0 h1 h2 h3 h4 h5
  obtain ⟨_, _, rfl⟩ := packScalar_u8 h0
  obtain ⟨l1, u1, rfl⟩ := packScalar_u8 h1
  obtain ⟨l2, u2, rfl⟩ := packScalar_u8 h2
  obtain ⟨l3, u3, rfl⟩ := packScalar_u8 h3
  obtain ⟨l4, u4, rfl⟩ := packScalar_u8 h4
  obtain ⟨l5, u5, rfl⟩ := packScalar_u8 h5
  simp only [structPack] at g5
  injection g5 with g5
  subst g5 e5 e4 e3 e2 e1 e0
  exact ⟨⟨l1, u1⟩, ⟨l2, u2⟩, ⟨l3, u3⟩, ⟨l4, u4⟩, ⟨l5, u5⟩, rfl⟩

/-- Every frame the packer emits: six header bytes, the payload, the checksum; the three parameters are bytes. -/
theorem packMsg_shape {m : MsgClass} {fields : List FieldVal} {seq sys comp : Int} {f : List Byte}
    (h : packMsg m fields seq sys comp = .ok f) :
    ∃ (p : List Byte) (fmt : List FmtItem), packPayload m fields = .ok p ∧ structFmt m.format = some fmt ∧ p.length = calcsize fmt ∧ p.length < 256 ∧
      (0 ≤ seq ∧ seq ≤ 255) ∧ (0 ≤ sys ∧ sys ≤ 255) ∧ (0 ≤ comp ∧ comp ≤ 255) ∧
      f = ([254, BitVec.ofNat 8 p.length, BitVec.ofNat 8 seq.toNat, BitVec.ofNat 8 sys.toNat,
          BitVec.ofNat 8 comp.toNat, BitVec.ofNat 8 m.id] ++ p) ++
        leBytes 2 (x25 (([BitVec.ofNat 8 p.length, BitVec.ofNat 8 seq.toNat, BitVec.ofNat 8 sys.toNat,
          BitVec.ofNat 8 comp.toNat, BitVec.ofNat 8 m.id] ++ p) ++ [BitVec.ofNat 8 m.crcExtra])).toNat := by
  unfold packMsg at h
  cases hp : packPayload m fields with
  | error e => rw [hp] at h; simp [bind, Except.bind] at h
  | ok p =>
    rw [hp] at h
    simp only [bind, Except.bind, packFrame] at h
    split at h
    · cases h
    · rename_i hd hhd
      injection h with h
      unfold packPayload at hp
      cases ha : (List.range m.orderedFieldnames.length).mapM (packField m fields) with
      | error e => rw [ha] at hp; simp [bind, Except.bind] at hp
      | ok args =>
        rw [ha] at hp
        simp only [bind, Except.bind] at hp
        split at hp
        · cases hp
        · rename_i fmt hf
          refine ⟨p, fmt, rfl, hf, structPack_length hp, ?_⟩
          obtain ⟨hl, hs, hy, hc, hi, he⟩ := structPack_header_inv hhd
          refine ⟨by omega, hs, hy, hc, ?_⟩
          rw [← h, he]
          simp

/-- Every frame the packer emits for a type of the dialect is accepted by the decoder. -/
theorem packMsg_accepted {m : MsgClass} (hm : m ∈ mavlinkMap) {fields : List FieldVal} {seq sys comp : Int}
    {f : List Byte} (h : packMsg m fields seq sys comp = .ok f) : Returns (decode f) := by
  obtain ⟨p, fmt, _, _, _, h256, _, _, _, rfl⟩ := packMsg_shape h
  exact ⟨_, decode_frame hm p h256 _ _ _⟩

end NR
