import Verif.Props.C147
import Verif.Spec.Link
/-
C147: with a decoder that corrects a number of errors, everything goes on being decoded.
-/
namespace NR.C147
open NR NR.Spec NR.C133 NR.C145 NR.C131

variable {Λ : Type}

theorem run_append {σ : Type} (c : CedCfg) (cls : Labeler σ) (ldpc : Ldpc Λ) : ∀ (x y : List (List ℝ)) (s : Ced σ Λ),
    Ced.run c cls ldpc s (x ++ y) = ((Ced.run c cls ldpc (Ced.run c cls ldpc s x).1 y).1,
      (Ced.run c cls ldpc s x).2 ++ (Ced.run c cls ldpc (Ced.run c cls ldpc s x).1 y).2)
  | [], y, s => rfl
  | w :: x, y, s => by simp only [List.cons_append, Ced.run, run_append c cls ldpc x y]

theorem run_length {σ : Type} (c : CedCfg) (cls : Labeler σ) (ldpc : Ldpc Λ) : ∀ (x : List (List ℝ)) (s : Ced σ Λ),
    (Ced.run c cls ldpc s x).2.length = x.length
  | [], s => rfl
  | w :: x, s => by simp only [Ced.run, List.length_cons, run_length c cls ldpc x]

/-- The model of a cluster for which nothing was learned. -/
theorem untouched {σ : Type} (c : CedCfg) (cls : Labeler σ) (ldpc : Ldpc Λ) (l : Nat) : ∀ (words : List (List ℝ)) (s : Ced σ Λ),
    learnedBy l (Ced.run c cls ldpc s words).2 = [] →
    (Ced.run c cls ldpc s words).1.datas[l]? = s.datas[l]? ∧ (Ced.run c cls ldpc s words).1.dists[l]? = s.dists[l]? ∧
      (Ced.run c cls ldpc s words).1.ents[l]? = s.ents[l]?
  | [], s, _ => ⟨rfl, rfl, rfl⟩
  | ch :: words, s, h => by
    simp only [Ced.run] at h ⊢
    have h1 : learnedBy l [s.decode c cls ldpc ch] = [] ∧ learnedBy l (Ced.run c cls ldpc (s.decode c cls ldpc ch).state words).2 = [] := by
      unfold learnedBy at h ⊢
      rw [← List.singleton_append, List.filterMap_append] at h
      exact List.append_eq_nil_iff.1 h
    obtain ⟨i1, i2, i3⟩ := untouched c cls ldpc l words (s.decode c cls ldpc ch).state h1.2
    rw [i1, i2, i3]
    rcases decode_cases c cls ldpc s ch with ⟨_, h2, _⟩ | ⟨chBits, label, t, inp, o, mb, _, _, hsame, _, _, hle, hst, _⟩
    · rw [h2.1, h2.2.1, h2.2.2]
      exact ⟨rfl, rfl, rfl⟩
    · have hne : l ≠ label.toNat := by
        rintro rfl
        have := h1.1
        simp [learnedBy, hle] at this
      obtain ⟨_, _, _, u, _⟩ := update_other c t (if o.success then mb else chBits) label.toNat
      obtain ⟨u1, u2, u3⟩ := u l hne
      rw [hst, u1, u2, u3, hsame.1, hsame.2.1, hsame.2.2]
      exact ⟨rfl, rfl, rfl⟩

theorem bitsAt_get {idx : List Nat} {w : List Bool} (h : ∀ i ∈ idx, i < w.length) {k i : Nat} (hk : idx[k]? = some i) :
    (bitsAt idx w)[k]? = w[i]? := by
  have e : bitsAt idx w = idx.map fun j => w.getD j false := by
    unfold bitsAt
    have : ∀ j ∈ idx, w[j]? = some (w.getD j false) := by
      intro j hj
      rw [List.getD_eq_getElem?_getD, List.getElem?_eq_getElem (h j hj)]
      rfl
    rw [List.filterMap_congr this, List.filterMap_eq_map']
  rw [e, List.getElem?_map, hk, Option.map_some, List.getD_eq_getElem?_getD, List.getElem?_eq_getElem (h i (List.mem_of_getElem? hk))]
  rfl

/-- A call of a word assigned to a cluster: what the LDPC decoder says about the word handed to it. -/
theorem decode_finish {σ : Type} (c : CedCfg) (cls : Labeler σ) (ldpc : Ldpc Λ) (s : Ced σ Λ) (ch : List ℝ) (l : Nat)
    (h : Assigned c cls s ch l) (inp : LdpcIn) (hp : (s.decode c cls ldpc ch).handed = some inp) :
    ∃ s' : Ced σ Λ, s.decode c cls ldpc ch = Ced.finish c s' (bitsAt c.idx (hardWord ch)) l inp (ldpc s.ldpc inp).2 := by
  have hprep : s.prepare c ch l = .ok inp := by
    cases hq : s.prepare c ch l with
    | ok inp' =>
      rw [decode_handed c cls ldpc s ch l h inp' hq] at hp
      rw [Option.some.inj hp]
    | error e =>
      exfalso
      obtain ⟨hlt, hpk⟩ := h
      unfold Ced.decode at hp
      have hlen : (hardBits ch).length = ch.length := by simp [hardBits]
      rw [takeIdx_of_lt (by rw [hlen]; exact hlt)] at hp
      simp only at hp
      rw [show (c.idx.filterMap ((hardBits ch)[·]?)) = bitsAt c.idx (hardWord ch) from rfl] at hp
      rcases hq' : pickLabel cls c.nClusters c.cluster s.cls s.running (bitsAt c.idx (hardWord ch)) with ⟨cs, running, lab⟩
      rw [hq'] at hpk hp
      simp only at hpk
      subst hpk
      simp only at hp
      rw [if_neg (by omega), Int.toNat_natCast] at hp
      have hsame : Ced.prepare c { s with cls := cs, running := running } ch l = s.prepare c ch l := rfl
      rw [hsame, hq] at hp
      cases hp
  obtain ⟨hlt, hpk⟩ := h
  unfold Ced.decode
  have hlen : (hardBits ch).length = ch.length := by simp [hardBits]
  rw [takeIdx_of_lt (by rw [hlen]; exact hlt)]
  simp only
  rw [show (c.idx.filterMap ((hardBits ch)[·]?)) = bitsAt c.idx (hardWord ch) from rfl]
  rcases hq : pickLabel cls c.nClusters c.cluster s.cls s.running (bitsAt c.idx (hardWord ch)) with ⟨cs, running, lab⟩
  rw [hq] at hpk
  simp only at hpk
  subst hpk
  simp only
  rw [if_neg (by omega), Int.toNat_natCast]
  have hsame : Ced.prepare c { s with cls := cs, running := running } ch l = s.prepare c ch l := rfl
  rw [hsame, hprep]
  exact ⟨_, rfl⟩

theorem finish_learned {σ : Type} (c : CedCfg) (s : Ced σ Λ) (b : List Bool) (l : Nat) (inp : LdpcIn) (o : LdpcOut)
    (he : ∀ i ∈ c.idx, i < o.estimate.length) (hs : o.success = true) :
    (Ced.finish c s b l inp o).learned = some (l, bitsAt c.idx o.estimate) ∧
    ∀ r, (Ced.finish c s b l inp o).result = .ok r → r.estimate = o.estimate ∧ r.success = true ∧ r.label = l := by
  unfold Ced.finish
  rw [takeIdx_of_lt he, hs]
  simp only [if_true]
  split
  · exact ⟨rfl, fun r h => by cases h⟩
  · split
    · split
      · exact ⟨rfl, fun r h => by cases h⟩
      · exact ⟨rfl, fun r h => by rw [← Except.ok.inj h]; exact ⟨rfl, rfl, rfl⟩⟩
    · exact ⟨rfl, fun r h => by cases h⟩

theorem run_prefix {σ : Type} (c : CedCfg) (cls : Labeler σ) (ldpc : Ldpc Λ) (x y : List (List ℝ)) (s : Ced σ Λ) (j : Nat) (hj : j < x.length) :
    (Ced.run c cls ldpc s (x ++ y)).2[j]? = (Ced.run c cls ldpc s x).2[j]? := by
  rw [run_append]
  exact List.getElem?_append_left (by rw [run_length]; exact hj)

theorem run_at {σ : Type} (c : CedCfg) (cls : Labeler σ) (ldpc : Ldpc Λ) (x y : List (List ℝ)) (w : List ℝ) (s : Ced σ Λ) :
    (Ced.run c cls ldpc s (x ++ w :: y)).2[x.length]? = some ((Ced.run c cls ldpc s x).1.decode c cls ldpc w) := by
  rw [run_append]
  simp only
  rw [List.getElem?_append_right (by rw [run_length]), run_length, Nat.sub_self]
  rfl

theorem growData_mem {w : Option Nat} (hw : w ≠ some 0) (old : List (List Bool)) (b : List Bool) : b ∈ growData w old b := by
  have key : ∀ data : List (List Bool), data.getLast? = some b →
      b ∈ (match w with
        | none => data
        | some w => if w < data.length then data.drop (data.length - w) else data) := by
    intro data hd
    cases w with
    | none => exact List.mem_of_getLast? hd
    | some n =>
      simp only
      split
      · rename_i hlt
        have hn : n ≠ 0 := fun h => hw (by rw [h])
        have : (data.drop (data.length - n)).getLast? = some b := by
          rw [List.getLast?_drop, if_neg (by omega), hd]
        exact List.mem_of_getLast? this
      · exact List.mem_of_getLast? hd
  unfold growData
  simp only
  apply key
  split <;> simp

theorem wrong_iff {x : List Bool} {w : List ℝ} (h : w.length = x.length) {i : Nat} (hi : i < x.length) :
    (hardWord w)[i]? ≠ x[i]? ↔ ¬ (w.getD i 0 < 0 ↔ x.getD i false = true) := by
  have hi' : i < w.length := by omega
  unfold hardWord
  rw [List.getElem?_map, List.getD_eq_getElem?_getD, List.getD_eq_getElem?_getD, List.getElem?_eq_getElem hi, List.getElem?_eq_getElem hi']
  simp only [Option.map_some, Option.getD_some, ne_eq, Option.some.injEq]
  rw [not_iff_not]
  by_cases h1 : w[i] < 0 <;> cases x[i] <;> simp [h1]

/-- What the LDPC decoder gets of a word of a kind: it decides as received outside the model, and at the fixed bits every wrong decision was
received wrong; with enough words before there is none. -/
theorem handed_word {c : CedCfg} {m : Metrics ℝ ℝ} {ts : Nat → Template} {train later : List (List ℝ)} {kinds laterKinds : List Nat}
    {V D e : Nat} (K : Setup c m ts train later kinds laterKinds V D e) (ldpc : Ldpc Λ) (ls : Λ)
    (hest : ∀ s inp, ∀ i ∈ c.idx, i < (ldpc s inp).2.estimate.length)
    (hright : ∀ (j : Nat) (st : CedStep Classifier Λ) (g l : Nat) (b : List Bool),
      (Ced.run c (asked m) ldpc (Ced.new c.nClusters { minData := train.length + 1, k := c.nClusters } ls) (train ++ later)).2[train.length + j]? =
        some st → laterKinds[j]? = some g → st.learned = some (l, b) → Fits (ts g) b)
    (g : Nat) (hg : g ∈ kinds)
    (hwin : ∀ w, c.window = some w → 2 ≤ w ∧ c.center ≤ w)
    (hboth : ∃ k k' : Nat, (ts g)[k]? = some (some true) ∧ (ts g)[k']? = some (some false))
    (ch : List ℝ) (hch : ∀ i ∈ c.idx, i < ch.length) (hpos : ∃ x ∈ ch, 0 < x) (hstray : strays (ts g) (bitsAt c.idx (hardWord ch)) ≤ e) :
    ∃ w, ((after c (asked m) ldpc { minData := train.length + 1, k := c.nClusters } ls (train ++ later)).decode c (asked m) ldpc ch).handed =
        some (.llr w) ∧ w.length = ch.length ∧
      (∀ i, i < ch.length → i ∉ c.idx → (w.getD i 0 < 0 ↔ ch.getD i 0 < 0)) ∧
      (∀ (k i : Nat) (v : Bool), c.idx[k]? = some i → (ts g)[k]? = some (some v) → (ch.getD i 0 < 0 ↔ v = true) → (w.getD i 0 < 0 ↔ v = true)) ∧
      (2 ≤ laterKinds.count g → c.center ≤ laterKinds.count g →
        ∀ (k i : Nat) (v : Bool), c.idx[k]? = some i → (ts g)[k]? = some (some v) → |ch.getD i 0| ≤ 18 → (w.getD i 0 < 0 ↔ v = true)) := by
  obtain ⟨hlc, hassign, q1, hfit⟩ := situation K ldpc ls hest hright g hg ch hch hstray _ rfl
  set l := (firsts kinds).idxOf g with hl
  by_cases hne : kept c (asked m) ldpc { minData := train.length + 1, k := c.nClusters } ls (train ++ later) l = []
  · -- nothing was learned yet
    have hnil : learnedBy l (Ced.run c (asked m) ldpc (Ced.new c.nClusters { minData := train.length + 1, k := c.nClusters } ls) (train ++ later)).2 = [] := by
      by_contra hc
      have hlen := List.length_pos_iff.2 hc
      have h1 : 1 ≤ (keep c.window (learnedBy l (Ced.run c (asked m) ldpc (Ced.new c.nClusters { minData := train.length + 1, k := c.nClusters } ls)
          (train ++ later)).2)).length := by
        refine (keep_length (n := 1) (r := 0) hlen (by positivity) fun k hk => ⟨?_, by positivity⟩).1
        have := (hwin k hk).1
        omega
      unfold kept at hne
      rw [hne] at h1
      simp at h1
    obtain ⟨u1, u2, u3⟩ := untouched c (asked m) ldpc l (train ++ later) _ hnil
    have z1 : (Ced.new (Λ := Λ) c.nClusters ({ minData := train.length + 1, k := c.nClusters } : Classifier) ls).datas[l]? = some [] := by
      simp [Ced.new, hlc]
    have z2 : (Ced.new (Λ := Λ) c.nClusters ({ minData := train.length + 1, k := c.nClusters } : Classifier) ls).dists[l]? = some [] := by
      simp [Ced.new, hlc]
    have z3 : (Ced.new (Λ := Λ) c.nClusters ({ minData := train.length + 1, k := c.nClusters } : Classifier) ls).ents[l]? = some [] := by
      simp [Ced.new, hlc]
    rw [z1] at u1
    rw [z2] at u2
    rw [z3] at u3
    have hchne : ch ≠ [] := by
      rintro rfl
      obtain ⟨x, hx, _⟩ := hpos
      cases hx
    obtain ⟨M, hM, hMem, hMle⟩ := pyMax_spec hchne
    have hb : 0 < c.clipping * M := by
      obtain ⟨x, hx, h0⟩ := hpos
      exact mul_pos K.clips (lt_of_lt_of_le h0 (hMle x hx))
    have hprep : (after c (asked m) ldpc { minData := train.length + 1, k := c.nClusters } ls (train ++ later)).prepare c ch l =
        .ok (.llr (List.zipWith (fun (a b : ℝ) => npClip (-(c.clipping * M)) (c.clipping * M) (a + b)) ch (List.replicate ch.length 0))) := by
      have hpred : (after c (asked m) ldpc { minData := train.length + 1, k := c.nClusters } ls (train ++ later)).predict c ch.length l =
          .ok (List.replicate ch.length 0) := by
        unfold Ced.predict C131.after
        rw [u1, u2, u3]
        rfl
      unfold Ced.prepare
      rw [hpred, K.ratios]
      simp only [bind, Except.bind, hM]
    refine ⟨_, decode_handed c (asked m) ldpc _ ch l hassign _ hprep, by simp, ?_⟩
    have hsame : ∀ i, i < ch.length → ((List.zipWith (fun (a b : ℝ) => npClip (-(c.clipping * M)) (c.clipping * M) (a + b)) ch
        (List.replicate ch.length 0)).getD i 0 < 0 ↔ ch.getD i 0 < 0) := by
      intro i hi
      rw [List.getD_eq_getElem?_getD, List.getElem?_zipWith, List.getElem?_eq_getElem hi, List.getElem?_replicate, if_pos hi,
        List.getD_eq_getElem?_getD, List.getElem?_eq_getElem hi]
      simp only [Option.getD_some, add_zero]
      exact clip_neg hb
    refine ⟨fun i hi _ => hsame i hi, fun k i v hk _ h => ?_, fun h2 => ?_⟩
    · rw [hsame i (hch i (List.mem_of_getElem? hk))]
      exact h
    · rw [hnil] at q1
      simp only [List.length_nil] at q1
      omega
  · -- there is a model
    have hval : ∀ (k : Nat) (v : Bool), (ts g)[k]? = some (some v) →
        ∀ x ∈ kept c (asked m) ldpc { minData := train.length + 1, k := c.nClusters } ls (train ++ later) l, x.getD k false = v := by
      intro k v hk x hx
      rw [List.getD_eq_getElem?_getD, (hfit x hx).2 k v hk]
      rfl
    have hlt : ∀ (k : Nat) (v : Bool), (ts g)[k]? = some (some v) → k < c.modelLength := by
      intro k v hk
      by_contra hc
      rw [List.getElem?_eq_none (by rw [K.length g hg]; omega)] at hk
      cases hk
    obtain ⟨k1, k2, hk1, hk2⟩ := hboth
    obtain ⟨x, hx⟩ := List.exists_mem_of_ne_nil _ hne
    have hconst : ∀ (k : Nat) (v : Bool), (ts g)[k]? = some (some v) →
        Constant c.bitFlip (kept c (asked m) ldpc { minData := train.length + 1, k := c.nClusters } ls (train ++ later) l) k v := fun k v hk =>
      constant_of_all K.flips.1 hne (hval k v hk)
    have hsteady : ∀ (k : Nat) (v : Bool), (ts g)[k]? = some (some v) →
        Steady c (kept c (asked m) ldpc { minData := train.length + 1, k := c.nClusters } ls (train ++ later) l) k := fun k v hk =>
      steady_constant K.flips.2 K.threshold (hconst k v hk)
    have hcase : Case c (asked m) ldpc { minData := train.length + 1, k := c.nClusters } ls (train ++ later) l
        (kept c (asked m) ldpc { minData := train.length + 1, k := c.nClusters } ls (train ++ later) l) ch := by
      refine ⟨K.sound, K.ratios, K.clips, hlc, rfl, ⟨⟨x, hx, k2, hlt k2 _ hk2, hval k2 _ hk2 x hx⟩, x, hx, k1, hlt k1 _ hk1, hval k1 _ hk1 x hx⟩,
        ?_, hassign, hpos⟩
      have a1 : k1 < c.idx.length := by rw [K.sound.bits]; exact hlt k1 _ hk1
      have a2 : k2 < c.idx.length := by rw [K.sound.bits]; exact hlt k2 _ hk2
      by_cases h0 : c.idx[k1] = 0
      · refine ⟨k2, c.idx[k2], List.getElem?_eq_getElem a2, fun h0' => ?_, hsteady k2 _ hk2⟩
        have : k1 = k2 := (List.Nodup.getElem_inj_iff K.sound.distinct).1 (h0.trans h0'.symm)
        rw [this, hk2] at hk1
        cases hk1
      · exact ⟨k1, c.idx[k1], List.getElem?_eq_getElem a1, h0, hsteady k1 _ hk1⟩
    obtain ⟨w, h1, h2, h3, h4⟩ := c131_decisions hcase
    refine ⟨w, h1, h2, h4, fun k i v hk hv hrecv => ?_, fun c1 c2 k i v hk hv hle => ?_⟩
    · rw [h3 k i hk, push_constant K.flips.2 K.threshold (hconst k v hv)]
      have ht := mul_nonneg (trust_nonneg c (kept c (asked m) ldpc { minData := train.length + 1, k := c.nClusters } ls (train ++ later) l).length)
        (show (0 : ℝ) ≤ Real.log ((floatEps + 1) / floatEps) by linarith [log_eps])
      cases v
      · simp only [Bool.false_eq_true, iff_false, not_lt, if_false] at hrecv ⊢
        linarith
      · simp only [iff_true, if_true] at hrecv ⊢
        linarith
    · obtain ⟨n1, n2⟩ := keep_length (w := c.window) (n := 2) (r := c.center) (l := learnedBy l
        (Ced.run c (asked m) ldpc (Ced.new c.nClusters { minData := train.length + 1, k := c.nClusters } ls) (train ++ later)).2)
        (by rw [q1]; exact c1) (by rw [q1]; exact c2) hwin
      obtain ⟨w', h1', h2'⟩ := c131_centre K.flips.1 K.flips.2 K.threshold K.slope hcase n1 n2
      have : w' = w := by
        rw [h1] at h1'
        have := Option.some.inj h1'
        simpa using this.symm
      subst this
      exact h2' k i v hk (hval k v hv) hle

/-- Wrong decisions: outside the model, at varying bits, and at fixed bits. -/
theorem errors_le {idx : List Nat} {t : Template} (hidx : idx.length = t.length) {x : List Bool} {ch w : List ℝ}
    (hl : ch.length = x.length) (hwl : w.length = ch.length) (hi : ∀ i ∈ idx, i < x.length) (hx : Fits t (bitsAt idx x))
    (h1 : ∀ i, i < ch.length → i ∉ idx → (w.getD i 0 < 0 ↔ ch.getD i 0 < 0))
    (h2 : ∀ (k i : Nat) (v : Bool), idx[k]? = some i → t[k]? = some (some v) → (ch.getD i 0 < 0 ↔ v = true) → (w.getD i 0 < 0 ↔ v = true)) :
    errors x w ≤ strays t (bitsAt idx (hardWord ch)) + varying t + errorsOff idx x ch ∧
    ((∀ (k i : Nat) (v : Bool), idx[k]? = some i → t[k]? = some (some v) → (w.getD i 0 < 0 ↔ v = true)) →
      errors x w ≤ varying t + errorsOff idx x ch) := by
  classical
  have hsent : ∀ (k i : Nat) (v : Bool), idx[k]? = some i → t[k]? = some (some v) → x.getD i false = v := by
    intro k i v hk hv
    have := hx.2 k v hv
    rw [bitsAt_get hi hk] at this
    rw [List.getD_eq_getElem?_getD, this]
    rfl
  have split : ∀ i, i < x.length → (hardWord w)[i]? ≠ x[i]? →
      (i ∉ idx ∧ (hardWord ch)[i]? ≠ x[i]?) ∨ ∃ k, idx[k]? = some i ∧ k < t.length ∧
        (t[k]? = some none ∨ ∃ v : Bool, t[k]? = some (some v) ∧ ¬ (w.getD i 0 < 0 ↔ v = true)) := by
    intro i hix hw
    rw [wrong_iff (hwl.trans hl) hix] at hw
    by_cases hm : i ∈ idx
    · obtain ⟨k, hk⟩ := List.getElem?_of_mem hm
      have hkl : k < t.length := by rw [← hidx]; exact (List.getElem?_eq_some_iff.1 hk).1
      refine .inr ⟨k, hk, hkl, ?_⟩
      rcases hv : t[k] with _ | v
      · exact .inl (by rw [List.getElem?_eq_getElem hkl, hv])
      · have hv' : t[k]? = some (some v) := by rw [List.getElem?_eq_getElem hkl, hv]
        rw [hsent k i v hk hv'] at hw
        exact .inr ⟨v, hv', hw⟩
    · rw [h1 i (by omega) hm] at hw
      exact .inl ⟨hm, (wrong_iff hl hix).2 hw⟩
  have himg : ∀ {k i : Nat}, idx[k]? = some i → idx.getD k 0 = i := by
    intro k i hk
    rw [List.getD_eq_getElem?_getD, hk]
    rfl
  constructor
  · unfold errors strays varying errorsOff
    set A := (Finset.range t.length).filter fun k => ∃ v : Bool, t[k]? = some (some v) ∧ (bitsAt idx (hardWord ch))[k]? ≠ some v
    set B := (Finset.range t.length).filter fun k => t[k]? = some none
    set O := (Finset.range x.length).filter fun i => i ∉ idx ∧ (hardWord ch)[i]? ≠ x[i]?
    have hsub : ((Finset.range x.length).filter fun i => (hardWord w)[i]? ≠ x[i]?) ⊆ (A.image (idx.getD · 0) ∪ B.image (idx.getD · 0)) ∪ O := by
      intro i h
      rw [Finset.mem_filter, Finset.mem_range] at h
      rcases split i h.1 h.2 with h3 | ⟨k, hk, hkl, h3 | ⟨v, hv, h3⟩⟩
      · exact Finset.mem_union_right _ (Finset.mem_filter.2 ⟨Finset.mem_range.2 h.1, h3⟩)
      · exact Finset.mem_union_left _ (Finset.mem_union_right _ (Finset.mem_image.2 ⟨k, Finset.mem_filter.2 ⟨Finset.mem_range.2 hkl, h3⟩, himg hk⟩))
      · refine Finset.mem_union_left _ (Finset.mem_union_left _ (Finset.mem_image.2 ⟨k, Finset.mem_filter.2 ⟨Finset.mem_range.2 hkl, v, hv, ?_⟩, himg hk⟩))
        intro hb
        apply h3
        apply h2 k i v hk hv
        rw [bitsAt_get (w := hardWord ch) (by intro i' hi'; unfold hardWord; rw [List.length_map, hl]; exact hi i' hi') hk] at hb
        have hi' : i < ch.length := by omega
        unfold hardWord at hb
        rw [List.getElem?_map, List.getElem?_eq_getElem hi'] at hb
        have hb := Option.some.inj hb
        rw [List.getD_eq_getElem?_getD, List.getElem?_eq_getElem hi', ← hb]
        simp
    refine (Finset.card_le_card hsub).trans ((Finset.card_union_le _ _).trans ?_)
    have := Finset.card_union_le (A.image (idx.getD · 0)) (B.image (idx.getD · 0))
    have a1 := Finset.card_image_le (s := A) (f := (idx.getD · 0))
    have a2 := Finset.card_image_le (s := B) (f := (idx.getD · 0))
    omega
  · intro hall
    unfold errors varying errorsOff
    set B := (Finset.range t.length).filter fun k => t[k]? = some none
    set O := (Finset.range x.length).filter fun i => i ∉ idx ∧ (hardWord ch)[i]? ≠ x[i]?
    have hsub : ((Finset.range x.length).filter fun i => (hardWord w)[i]? ≠ x[i]?) ⊆ B.image (idx.getD · 0) ∪ O := by
      intro i h
      rw [Finset.mem_filter, Finset.mem_range] at h
      rcases split i h.1 h.2 with h3 | ⟨k, hk, hkl, h3 | ⟨v, hv, h3⟩⟩
      · exact Finset.mem_union_right _ (Finset.mem_filter.2 ⟨Finset.mem_range.2 h.1, h3⟩)
      · exact Finset.mem_union_left _ (Finset.mem_image.2 ⟨k, Finset.mem_filter.2 ⟨Finset.mem_range.2 hkl, h3⟩, himg hk⟩)
      · exact absurd (hall k i v hk hv) h3
    refine (Finset.card_le_card hsub).trans ((Finset.card_union_le _ _).trans ?_)
    have a2 := Finset.card_image_le (s := B) (f := (idx.getD · 0))
    omega

/-- What was sent as a word of kind `g`, how it was received, and how many words of that kind came before. -/
structure Received (c : CedCfg) (ts : Nat → Template) (code : List Bool → Prop) (V R T enough : Nat) (x : List Bool) (w : List ℝ) (g before : Nat) :
    Prop where
  sent : code x
  same : w.length = x.length
  fits : Fits (ts g) (bitsAt c.idx x)
  positive : ∃ r ∈ w, 0 < r
  moderate : ∀ r ∈ w, |r| ≤ 18
  /-- Outside the bits of the model at most `R` are wrong. -/
  outside : errorsOff c.idx x w ≤ R
  /-- As long as too few words came before, the LDPC decoder has to cope with the fixed bits as well. -/
  early : before < enough → strays (ts g) (bitsAt c.idx (hardWord w)) + V + R ≤ T

/-- **C147**, with an LDPC decoder that corrects up to `T` wrong bits: let that suffice for the varying bits and those outside the model. Then every
later word is decoded to what was sent, although up to `e` fixed bits more may be wrong, provided that the first words of each kind have few
enough errors. -/
theorem c147_forever {c : CedCfg} {m : Metrics ℝ ℝ} {ts : Nat → Template} {train later : List (List ℝ)} {kinds laterKinds : List Nat}
    {V D e : Nat} (K : Setup c m ts train later kinds laterKinds V D e) (ldpc : Ldpc Λ) (ls : Λ) (code : List Bool → Prop) (T R enough : Nat)
    (hcor : Corrects ldpc code T) (hest : ∀ s inp, ∀ i ∈ c.idx, i < (ldpc s inp).2.estimate.length)
    (hT : V + R ≤ T) (he2 : 2 ≤ enough) (hec : c.center ≤ enough) (hwin : ∀ w, c.window = some w → enough ≤ w)
    (hboth : ∀ g ∈ kinds, ∃ k k' : Nat, (ts g)[k]? = some (some true) ∧ (ts g)[k']? = some (some false))
    (sent : List (List Bool))
    (hlink : ∀ (j : Nat) (x : List Bool) (w : List ℝ) (g : Nat), sent[j]? = some x → later[j]? = some w → laterKinds[j]? = some g →
      Received c ts code V R T enough x w g ((laterKinds.take j).count g))
    (j : Nat) (x : List Bool) (g : Nat) (hx : sent[j]? = some x) (hg : laterKinds[j]? = some g) (hsent : sent.length = later.length) :
    ∃ st r, (Ced.run c (asked m) ldpc (Ced.new c.nClusters { minData := train.length + 1, k := c.nClusters } ls)
        (train ++ later)).2[train.length + j]? = some st ∧
      st.result = .ok r ∧ r.success = true ∧ r.estimate = x ∧ r.label = (firsts kinds).idxOf g := by
  suffices h : ∃ st r, (Ced.run c (asked m) ldpc (Ced.new c.nClusters { minData := train.length + 1, k := c.nClusters } ls)
        (train ++ later)).2[train.length + j]? = some st ∧
      st.learned = some ((firsts kinds).idxOf g, bitsAt c.idx x) ∧
      st.result = .ok r ∧ r.success = true ∧ r.estimate = x ∧ r.label = (firsts kinds).idxOf g by
    obtain ⟨st, r, h1, _, h2⟩ := h
    exact ⟨st, r, h1, h2⟩
  induction j using Nat.strong_induction_on generalizing x g with
  | _ j ih =>
    have hjl : j < later.length := by
      rw [← hsent]
      exact (List.getElem?_eq_some_iff.1 hx).1
    have hw := List.getElem?_eq_getElem hjl
    set w := later[j] with hwdef
    have L := hlink j x w g hx hw hg
    have hlater := List.forall₂_iff_get.1 K.later
    have hgk : g ∈ kinds ∧ strays (ts g) (bitsAt c.idx (hardWord w)) ≤ e := by
      obtain ⟨a2, e2⟩ := List.getElem?_eq_some_iff.1 hg
      have := hlater.2 j hjl a2
      rw [List.get_eq_getElem, List.get_eq_getElem, e2] at this
      exact this
    -- the words before
    have K' : Setup c m ts train (later.take j) kinds (laterKinds.take j) V D e :=
      { K with
        long := fun w hw => K.long w (by
          rcases List.mem_append.1 hw with h | h
          · exact List.mem_append_left _ h
          · exact List.mem_append_right _ (List.mem_of_mem_take h))
        later := List.forall₂_take j K.later }
    have hsplit : train ++ later = (train ++ later.take j) ++ w :: later.drop (j + 1) := by
      rw [List.append_assoc, hwdef, List.getElem_cons_drop, List.take_append_drop]
    have hlen : (train ++ later.take j).length = train.length + j := by
      rw [List.length_append, List.length_take]
      omega
    have hright : ∀ (i : Nat) (st : CedStep Classifier Λ) (g l : Nat) (b : List Bool),
        (Ced.run c (asked m) ldpc (Ced.new c.nClusters { minData := train.length + 1, k := c.nClusters } ls)
          (train ++ later.take j)).2[train.length + i]? = some st → (laterKinds.take j)[i]? = some g → st.learned = some (l, b) → Fits (ts g) b := by
      intro i st h l b h1 h2 h3
      have hij : i < j := by
        by_contra hc
        rw [List.getElem?_eq_none (by rw [List.length_take]; omega)] at h2
        cases h2
      rw [List.getElem?_take_of_lt hij] at h2
      have hxi : sent[i]? = some sent[i] := List.getElem?_eq_getElem (by omega)
      obtain ⟨st', r, q1, q2, _⟩ := ih i hij _ _ hxi h2
      rw [hsplit, run_prefix _ _ _ _ _ _ _ (by omega), h1] at q1
      rw [← Option.some.inj q1, h3] at q2
      have := Option.some.inj q2
      simp only [Prod.mk.injEq] at this
      rw [this.2]
      exact (hlink i _ _ _ hxi (List.getElem?_eq_getElem (by omega)) h2).fits
    have hch : ∀ i ∈ c.idx, i < w.length := K.long w (List.mem_append_right _ (List.getElem_mem _))
    have hwin' : ∀ w, c.window = some w → 2 ≤ w ∧ c.center ≤ w := fun w hw =>
      ⟨he2.trans (hwin w hw), hec.trans (by exact_mod_cast hwin w hw)⟩
    obtain ⟨u, u1, u2, u3, u4, u5⟩ := handed_word K' ldpc ls hest hright g hgk.1 hwin' (hboth g hgk.1) w hch L.positive hgk.2
    obtain ⟨hlc, hassign, q1, hfit⟩ := situation K' ldpc ls hest hright g hgk.1 w hch hgk.2 _ rfl
    have hxi : ∀ i ∈ c.idx, i < x.length := fun i hi => by rw [← L.same]; exact hch i hi
    have hidx : c.idx.length = (ts g).length := by rw [K.sound.bits, K.length g hgk.1]
    obtain ⟨b1, b2⟩ := errors_le hidx L.same u2 hxi L.fits u3 u4
    have hV := K.varying g hgk.1
    have hR := L.outside
    have herr : errors x u ≤ T := by
      by_cases hb : (laterKinds.take j).count g < enough
      · have := L.early hb
        omega
      · have := b2 (fun k i v hk hv => u5 (by omega) (hec.trans (by exact_mod_cast not_lt.1 hb)) k i v hk hv (by
          have hi := hch i (List.mem_of_getElem? hk)
          rw [List.getD_eq_getElem?_getD, List.getElem?_eq_getElem hi]
          exact L.moderate _ (List.getElem_mem _)))
        omega
    obtain ⟨s1, s2⟩ := hcor (after c (asked m) ldpc { minData := train.length + 1, k := c.nClusters } ls (train ++ later.take j)).ldpc x u L.sent
      (u2.trans L.same) herr
    obtain ⟨s', hfin⟩ := decode_finish c (asked m) ldpc _ w _ hassign _ u1
    obtain ⟨f1, f2⟩ := finish_learned c s' (bitsAt c.idx (hardWord w)) ((firsts kinds).idxOf g) (.llr u) _ (by rw [s2]; exact hxi) s1
    rw [← hfin, s2] at f1 f2
    obtain ⟨inp, bits, old, _, r2, _, r4, _⟩ := c53_returns K.sound.learns K.sound.bitsPos K.sound.bits K.sound.window K.ratios (asked m) ldpc _
      (c55_reachable K.sound.learns K.sound.bitsPos K.sound.window (asked m) ldpc { minData := train.length + 1, k := c.nClusters } ls
        (train ++ later.take j)) w hch _ hlc hassign.2 (fun inp => hest _ inp)
    have hbits : bits = bitsAt c.idx x := by
      have h := r2.symm.trans f1
      have := Option.some.inj h
      simp only [Prod.mk.injEq] at this
      exact this.2
    have hmem : bits ∈ growData c.window old bits := growData_mem K.sound.window old bits
    obtain ⟨k1, k2, hk1, hk2⟩ := hboth g hgk.1
    have hval : ∀ (k : Nat) (v : Bool), (ts g)[k]? = some (some v) → k < c.modelLength ∧ bits.getD k false = v := by
      intro k v hk
      refine ⟨?_, ?_⟩
      · rw [← K.length g hgk.1]
        exact (List.getElem?_eq_some_iff.1 hk).1
      · rw [hbits, List.getD_eq_getElem?_getD, L.fits.2 k v hk]
        rfl
    obtain ⟨r, hr, hrl⟩ := r4 ⟨⟨bits, hmem, k2, hval k2 _ hk2⟩, bits, hmem, k1, hval k1 _ hk1⟩
    obtain ⟨f3, f4, f5⟩ := f2 r hr
    refine ⟨_, r, ?_, f1, hr, f4, f3, by rw [f5]⟩
    rw [hsplit, ← hlen, run_at]
    rfl

/-! ### A case that meets the hypotheses -/

/-- An LDPC decoder that takes what it is handed. -/
noncomputable def believes : Ldpc Unit := fun _ inp => match inp with
  | .llr w => ((), ⟨if w.length = 34 then hardWord w else List.replicate 34 false, w, true, 1, [], []⟩)
  | _ => ((), ⟨List.replicate 34 false, [], false, 20, [], []⟩)

theorem believes_corrects : Corrects believes (fun x => x.length = 34) 0 := by
  intro s x w hx hw he
  refine ⟨rfl, ?_⟩
  show (if w.length = 34 then hardWord w else List.replicate 34 false) = x
  rw [if_pos (hw.trans hx)]
  apply List.ext_getElem?
  intro i
  by_cases hi : i < x.length
  · by_contra hc
    have : i ∈ (Finset.range x.length).filter fun i => (hardWord w)[i]? ≠ x[i]? := Finset.mem_filter.2 ⟨Finset.mem_range.2 hi, hc⟩
    have h0 : ((Finset.range x.length).filter fun i => (hardWord w)[i]? ≠ x[i]?) = ∅ := Finset.card_eq_zero.1 (Nat.le_zero.1 he)
    rw [h0] at this
    simp at this
  · rw [List.getElem?_eq_none (by unfold hardWord; rw [List.length_map]; omega), List.getElem?_eq_none (by omega)]

/-- Two words received right, then one with a wrong bit, which the LDPC decoder itself cannot correct: it is decoded to what was sent. -/
example (gt less : ℝ → ℝ → Bool) (hgt : ∀ x y, gt x y = true ↔ x > y) (hless : ∀ x y, less x y = true ↔ x < y) :
    ∃ st r, (Ced.run sample (asked (usual gt less)) believes (Ced.new 2 { minData := 3, k := 2 } ())
        ([ratios (opposedBits 0), ratios (opposedBits 1)] ++
          [ratios (opposedBits 1), ratios (opposedBits 1), ratios ((opposedBits 1).set 7 true)])).2[4]? = some st ∧
      st.result = .ok r ∧ r.success = true ∧ r.estimate = opposedBits 1 ∧ r.label = 1 := by
  have l1 : (opposedBits 1).length = 34 := by decide +kernel
  have l2 : ((opposedBits 1).set 7 true).length = 34 := by rw [List.length_set, l1]
  have K0 := sample_setup gt less hgt hless
  have K : Setup sample (usual gt less) opposed [ratios (opposedBits 0), ratios (opposedBits 1)]
      [ratios (opposedBits 1), ratios (opposedBits 1), ratios ((opposedBits 1).set 7 true)] [0, 1] [1, 1, 1] 0 33 1 :=
    { K0 with
      long := by
        intro w hw i hi
        rcases List.mem_append.1 (show w ∈ ([ratios (opposedBits 0), ratios (opposedBits 1)] ++ [ratios (opposedBits 1), ratios (opposedBits 1)]) ++
          [ratios ((opposedBits 1).set 7 true)] from hw) with h | h
        · exact K0.long w h i hi
        · rw [List.mem_singleton.1 h, ratios, List.length_map, l2]
          simpa [sample] using hi
      later := List.rel_append K0.later (.cons ⟨by decide, by rw [sample_bits l2]; decide +kernel⟩ .nil) }
  have hpos : ∀ b : List Bool, false ∈ b → ∃ r ∈ ratios b, (0 : ℝ) < r := by
    intro b hb
    exact ⟨5, List.mem_map.2 ⟨false, hb, by simp⟩, by norm_num⟩
  have hmod : ∀ b : List Bool, ∀ r ∈ ratios b, |r| ≤ 18 := by
    intro b r hr
    obtain ⟨v, _, rfl⟩ := List.mem_map.1 hr
    cases v <;> norm_num
  have hoff : ∀ w : List ℝ, errorsOff sample.idx (opposedBits 1) w ≤ 0 := by
    intro w
    unfold errorsOff
    rw [Nat.le_zero, Finset.card_eq_zero, Finset.filter_eq_empty_iff]
    intro i hi h
    rw [Finset.mem_range, l1] at hi
    exact h.1 (by simpa [sample] using hi)
  have hfit : Fits (opposed 1) (bitsAt sample.idx (opposedBits 1)) := by
    have : bitsAt sample.idx (opposedBits 1) = opposedBits 1 := by
      rw [← ratios_hard (opposedBits 1)]
      rw [sample_bits l1, ratios_hard]
    rw [this]
    decide +kernel
  have hgood : ∀ n, Received sample opposed (fun x => x.length = 34) 0 0 0 2 (opposedBits 1) (ratios (opposedBits 1)) 1 n := fun n =>
    ⟨l1, by simp [ratios], hfit, hpos _ (by decide +kernel), hmod _, hoff _, fun _ => by rw [sample_bits l1]; decide +kernel⟩
  exact c147_forever K believes () (fun x => x.length = 34) 0 0 2 believes_corrects (by
      intro s inp i hi
      have hi' : i < 34 := by simpa [sample] using hi
      cases inp with
      | llr w =>
        show i < (if w.length = 34 then hardWord w else List.replicate 34 false).length
        split
        · rename_i h
          unfold hardWord
          rw [List.length_map]
          omega
        · simpa using hi'
      | _ => simpa [believes] using hi')
    (by decide) (by decide) (by norm_num [sample]) (by intro w hw; cases hw; decide)
    (by
      intro g hg
      simp only [List.mem_cons, List.not_mem_nil, or_false] at hg
      rcases hg with rfl | rfl
      · exact ⟨0, 33, by decide +kernel, by decide +kernel⟩
      · exact ⟨33, 0, by decide +kernel, by decide +kernel⟩)
    [opposedBits 1, opposedBits 1, opposedBits 1] (by
      intro j x w g h1 h2 h3
      match j with
      | 0 => cases h1; cases h2; cases h3; exact hgood _
      | 1 => cases h1; cases h2; cases h3; exact hgood _
      | 2 =>
        cases h1; cases h2; cases h3
        exact ⟨l1, by simp [ratios], hfit, hpos _ (by decide +kernel), hmod _, hoff _, fun h => absurd h (by decide)⟩
      | j + 3 => cases h1) 2 (opposedBits 1) 1 rfl rfl rfl

end NR.C147
