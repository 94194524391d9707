import Verif.Model.Header
/-
Facts about the whole dialect table, by kernel evaluation over all 155 entries, and their lifted forms.
-/
namespace NR
open Dialect

theorem table_ids_nodup : (mavlinkMap.map MsgClass.id).Nodup := by decide +kernel

theorem table_bounds : ∀ m ∈ mavlinkMap, m.id < 256 ∧ msgLen m < 256 := by decide +kernel

theorem lookup_of_nodup {β : Type _} (l : List (Nat × β)) (hn : (l.map Prod.fst).Nodup) (k : Nat) (v : β) :
    l.lookup k = some v ↔ (k, v) ∈ l := by
  induction l with
  | nil => simp
  | cons p l ih =>
    obtain ⟨a, b⟩ := p
    simp only [List.map_cons, List.nodup_cons] at hn
    by_cases h : k = a
    · subst h
      simp only [List.lookup_cons, beq_self_eq_true, Option.some.injEq, List.mem_cons, Prod.mk.injEq,
        true_and]
      constructor
      · intro h; exact Or.inl h.symm
      · rintro (h | h)
        · exact h.symm
        · exact absurd (List.mem_map.2 ⟨_, h, rfl⟩) hn.1
    · have : (k == a) = false := by simpa using h
      simp [List.lookup_cons, this, ih hn.2, h]

theorem payloadLen_eq_some {id l : Nat} :
    payloadLen id = some l ↔ ∃ m ∈ mavlinkMap, m.id = id ∧ msgLen m = l := by
  unfold payloadLen
  rw [lookup_of_nodup]
  · simp [msgsPayloadLength]
  · have : (msgsPayloadLength.map Prod.fst) = mavlinkMap.map MsgClass.id := by
      simp [msgsPayloadLength, Function.comp_def]
    rw [this]; exact table_ids_nodup

theorem payloadLen_eq_none {id : Nat} : payloadLen id = none ↔ ∀ m ∈ mavlinkMap, m.id ≠ id := by
  constructor
  · intro h m hm he
    have := payloadLen_eq_some.2 ⟨m, hm, he, rfl⟩
    rw [h] at this; cases this
  · intro h
    cases hp : payloadLen id with
    | none => rfl
    | some l =>
      obtain ⟨m, hm, he, _⟩ := payloadLen_eq_some.1 hp
      exact absurd he (h m hm)

theorem payloadLen_mem {m : MsgClass} (hm : m ∈ mavlinkMap) : payloadLen m.id = some (msgLen m) :=
  payloadLen_eq_some.2 ⟨m, hm, rfl, rfl⟩

theorem payloadLen_lt {id l : Nat} (h : payloadLen id = some l) : id < 256 ∧ l < 256 := by
  obtain ⟨m, hm, rfl, rfl⟩ := payloadLen_eq_some.1 h
  exact table_bounds m hm

theorem find?_of_nodup {β : Type _} (f : β → Nat) (l : List β) (hn : (l.map f).Nodup) (m : β) (hm : m ∈ l) :
    l.find? (fun x => f x == f m) = some m := by
  induction l with
  | nil => simp at hm
  | cons p l ih =>
    simp only [List.map_cons, List.nodup_cons] at hn
    rcases List.mem_cons.1 hm with rfl | hm
    · simp
    · have : f p ≠ f m := fun h => hn.1 (h ▸ List.mem_map.2 ⟨m, hm, rfl⟩)
      have hb : (f p == f m) = false := by simpa using this
      simp [List.find?_cons, hb, ih hn.2 hm]

theorem lookupMsg_eq_some {id : Nat} {m : MsgClass} : lookupMsg id = some m ↔ m ∈ mavlinkMap ∧ m.id = id := by
  unfold lookupMsg
  constructor
  · intro h
    exact ⟨List.mem_of_find?_eq_some h, by simpa using List.find?_some h⟩
  · rintro ⟨hm, rfl⟩
    exact find?_of_nodup MsgClass.id mavlinkMap table_ids_nodup m hm

theorem lookupMsg_eq_none {id : Nat} : lookupMsg id = none ↔ ∀ m ∈ mavlinkMap, m.id ≠ id := by
  unfold lookupMsg
  rw [List.find?_eq_none]
  simp

theorem lookupMsg_mem {m : MsgClass} (hm : m ∈ mavlinkMap) : lookupMsg m.id = some m :=
  lookupMsg_eq_some.2 ⟨hm, rfl⟩

end NR
