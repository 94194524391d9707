import Verif.Spec.TurboRaising
import Verif.Props.C58_C60
/-
C58, continued: decoders that may raise, and the states they are left in.
-/
namespace NR.C58
open NR.Spec

variable {S T : Type}

theorem fails_of {r : Except PyErr SoftOut} {o : SoftOut} (h : r = .ok o) (hs : ¬ o.success = true) : Fails r := ⟨o, h, by simpa using hs⟩

theorem not_fails_ok {r : Except PyErr SoftOut} {o : SoftOut} (h : r = .ok o) (hs : o.success = true) : ¬ Fails r := by
  rintro ⟨o', h', hs'⟩
  rw [h] at h'
  cases h'
  rw [hs] at hs'
  cases hs'

theorem not_fails_error {r : Except PyErr SoftOut} {e : PyErr} (h : r = .error e) : ¬ Fails r := by
  rintro ⟨o', h', _⟩
  rw [h] at h'
  cases h'

/-- The decoders return as many log-likelihood ratios as they are given. -/
def Keeps (n : Nat) (d : SoftDec S) : Prop := ∀ s x o, x.length = n → (d s x).2 = .ok o → o.llr.length = n

theorem half_len {d1 : SoftDec S} {d2 : SoftDec T} {ch : List ℝ} (h1 : Keeps ch.length d1) (h2 : Keeps ch.length d2) (s : S) (t : T) (h : Nat) :
    (half d1 d2 ch s t h).2.2.length = ch.length := by
  induction h with
  | zero => rfl
  | succ h ih =>
    simp only [half]
    split
    · cases hr : (d1 (half d1 d2 ch s t h).1 (half d1 d2 ch s t h).2.2).2 with
      | error e => exact ih
      | ok o => simp [nextInput, h1 _ _ _ ih hr, ih]
    · cases hr : (d2 (half d1 d2 ch s t h).2.1 (half d1 d2 ch s t h).2.2).2 with
      | error e => exact ih
      | ok o => simp [nextInput, h2 _ _ _ ih hr, ih]

theorem loop_any {d1 : SoftDec S} {d2 : SoftDec T} {ch : List ℝ} (h1 : Keeps ch.length d1) (h2 : Keeps ch.length d2) (errorIdx : List Int)
    (s : S) (t : T) (n : Nat) : ∀ (r : Nat) (p : List ℝ) (last : Option (SoftOut × Nat)), p.length = ch.length →
      List.zipWith (fun (a b : ℝ) => a + b) ch p = (half d1 d2 ch s t (2 * r)).2.2 →
      (∀ h, h < 2 * r → Fails (outcome d1 d2 ch s t h)) → (r = 0 → last = none) →
      (0 < r → ∃ o, outcome d1 d2 ch s t (2 * r - 1) = .ok o ∧ last = some (o, 0)) →
      (∃ h, h < 2 * (r + n) ∧ (∀ h', h' < h → Fails (outcome d1 d2 ch s t h')) ∧ ¬ Fails (outcome d1 d2 ch s t h) ∧
        turboLoop d1 d2 false errorIdx ch n (half d1 d2 ch s t (2 * r)).1 (half d1 d2 ch s t (2 * r)).2.1 p last =
          ((half d1 d2 ch s t (h + 1)).1, (half d1 d2 ch s t (h + 1)).2.1,
            (outcome d1 d2 ch s t h).map fun o => ⟨o.estimate, o.llr, true, h % 2 + 1, 0⟩)) ∨
      ((∀ h, h < 2 * (r + n) → Fails (outcome d1 d2 ch s t h)) ∧
        turboLoop d1 d2 false errorIdx ch n (half d1 d2 ch s t (2 * r)).1 (half d1 d2 ch s t (2 * r)).2.1 p last =
          ((half d1 d2 ch s t (2 * (r + n))).1, (half d1 d2 ch s t (2 * (r + n))).2.1,
            if r + n = 0 then .error .unboundLocalError
            else (outcome d1 d2 ch s t (2 * (r + n) - 1)).map fun o => ⟨o.estimate, o.llr, false, 2, 0⟩)) := by
  induction n with
  | zero =>
    intro r p last hp hx hf hl0 hl1
    right
    refine ⟨hf, ?_⟩
    by_cases hr : r = 0
    · rw [hl0 hr, hr]; rfl
    · obtain ⟨o, ho, hl⟩ := hl1 (by omega)
      obtain ⟨o', ho', hs'⟩ := hf (2 * r - 1) (by omega)
      have : o = o' := by
        rw [ho] at ho'
        exact Except.ok.inj ho'
      subst this
      rw [hl]
      simp only [turboLoop, Nat.add_zero]
      rw [if_neg hr, ho, hs']
      rfl
  | succ n ih =>
    intro r p last hp hx hf hl0 hl1
    have hlen := half_len h1 h2 s t
    have even : (2 * r) % 2 = 0 := by omega
    have odd : ¬ (2 * r + 1) % 2 = 0 := by omega
    have o1 : outcome d1 d2 ch s t (2 * r) = (d1 (half d1 d2 ch s t (2 * r)).1 (half d1 d2 ch s t (2 * r)).2.2).2 := by
      simp only [outcome]; rw [if_pos even]
    have s1 : (half d1 d2 ch s t (2 * r + 1)).1 = (d1 (half d1 d2 ch s t (2 * r)).1 (half d1 d2 ch s t (2 * r)).2.2).1 := by
      simp only [half]; rw [if_pos even]
    have t1 : (half d1 d2 ch s t (2 * r + 1)).2.1 = (half d1 d2 ch s t (2 * r)).2.1 := by
      simp only [half]; rw [if_pos even]
    have o2 : outcome d1 d2 ch s t (2 * r + 1) = (d2 (half d1 d2 ch s t (2 * r + 1)).2.1 (half d1 d2 ch s t (2 * r + 1)).2.2).2 := by
      simp only [outcome]; rw [if_neg odd]
    have s2 : (half d1 d2 ch s t (2 * r + 1 + 1)).1 = (half d1 d2 ch s t (2 * r + 1)).1 := by
      rw [half]; simp only; rw [if_neg odd]
    have t2 : (half d1 d2 ch s t (2 * r + 1 + 1)).2.1 = (d2 (half d1 d2 ch s t (2 * r + 1)).2.1 (half d1 d2 ch s t (2 * r + 1)).2.2).1 := by
      rw [half]; simp only; rw [if_neg odd]
    rw [turboLoop, bcast_same _ _ _ hp.symm, hx]
    simp only
    rw [← o1, ← s1]
    cases hr1 : outcome d1 d2 ch s t (2 * r) with
    | error e =>
      left
      refine ⟨2 * r, by omega, hf, by rw [hr1]; exact not_fails_error rfl, ?_⟩
      rw [hr1, t1]
      rfl
    | ok w1 =>
      simp only
      by_cases hs1 : w1.success = true
      · left
        refine ⟨2 * r, by omega, hf, by rw [hr1]; exact not_fails_ok rfl hs1, ?_⟩
        rw [if_pos hs1, hr1, t1, even]
        rfl
      rw [if_neg hs1]
      have l1 : w1.llr.length = ch.length := h1 _ _ _ (hlen (2 * r)) (o1 ▸ hr1)
      have x1 : (half d1 d2 ch s t (2 * r + 1)).2.2 = nextInput ch w1.llr (half d1 d2 ch s t (2 * r)).2.2 := by
        have := o1.symm.trans hr1
        simp only [half]; rw [if_pos even]; simp only [this]
      rw [bcast_same _ w1.llr ch l1]
      simp only [bind, Except.bind]
      rw [bcast_same _ _ p (by simp [l1, hp])]
      simp only
      rw [bcast_same _ _ ch (by simp [l1, hp])]
      simp only [pure, Except.pure]
      generalize hp2 : List.zipWith (fun (a b : ℝ) => a - b) (List.zipWith (fun (a b : ℝ) => a - b) w1.llr ch) p = prior2
      have lp2 : prior2.length = ch.length := by rw [← hp2]; simp [l1, hp]
      have hx2 : List.zipWith (fun (a b : ℝ) => a + b) prior2 ch = (half d1 d2 ch s t (2 * r + 1)).2.2 := by
        rw [x1, ← hp2]
        simp only [nextInput]
        rw [← hx]
        apply List.ext_getElem
        · simp [l1, hp]
        · intro i _ _
          simp only [List.getElem_zipWith]
          ring
      rw [hx2, ← t1, ← o2, ← t2]
      have hf1 : ∀ h, h < 2 * r + 1 → Fails (outcome d1 d2 ch s t h) := by
        intro h hh
        by_cases he : h = 2 * r
        · rw [he]; exact fails_of hr1 hs1
        · exact hf h (by omega)
      cases hr2 : outcome d1 d2 ch s t (2 * r + 1) with
      | error e =>
        left
        refine ⟨2 * r + 1, by omega, hf1, by rw [hr2]; exact not_fails_error rfl, ?_⟩
        rw [hr2, s2]
        rfl
      | ok w2 =>
        simp only
        by_cases hs2 : w2.success = true
        · left
          refine ⟨2 * r + 1, by omega, hf1, by rw [hr2]; exact not_fails_ok rfl hs2, ?_⟩
          rw [if_pos hs2, hr2, s2, show (2 * r + 1) % 2 = 1 by omega]
          rfl
        rw [if_neg hs2]
        have l2 : w2.llr.length = ch.length := h2 _ _ _ (hlen (2 * r + 1)) (o2 ▸ hr2)
        have x2 : (half d1 d2 ch s t (2 * r + 1 + 1)).2.2 = nextInput ch w2.llr (half d1 d2 ch s t (2 * r + 1)).2.2 := by
          have := o2.symm.trans hr2
          rw [half]; simp only; rw [if_neg odd]; simp only [this]
        rw [bcast_same _ w2.llr ch l2]
        simp only
        rw [bcast_same _ _ prior2 (by simp [l2, lp2])]
        simp only [turboErr]
        rw [← s2]
        have := ih (r + 1) (List.zipWith (fun (a b : ℝ) => a - b) (List.zipWith (fun (a b : ℝ) => a - b) w2.llr ch) prior2)
          (some (w2, 0)) (by simp [l2, lp2]) (by
            rw [show 2 * (r + 1) = 2 * r + 1 + 1 from rfl, x2]
            simp only [nextInput]
            rw [← hx2]
            apply List.ext_getElem
            · simp [l2, lp2]
            · intro i _ _
              simp only [List.getElem_zipWith]
              ring) (by
            intro h hh
            by_cases he : h = 2 * r + 1
            · rw [he]; exact fails_of hr2 hs2
            · exact hf1 h (by omega)) (by omega) (by
            intro _
            exact ⟨w2, hr2, rfl⟩)
        rw [show r + (n + 1) = r + 1 + n by omega]
        exact this

/-- **C58.** Two decoders that may raise: the call ends with the first half-round that succeeds or raises and reports what happened in it; if none of
the `2 * max_iter` half-rounds does it reports the last one as a failure. The decoders are left as that half-round leaves them: neither runs again. -/
theorem c58_any (d1 : SoftDec S) (d2 : SoftDec T) (ch : List ℝ) (h1 : Keeps ch.length d1) (h2 : Keeps ch.length d2) (s : S) (t : T) (maxIter : Nat)
    (errorIdx : List Int) :
    (∃ h, h < 2 * maxIter ∧ (∀ h', h' < h → Fails (outcome d1 d2 ch s t h')) ∧ ¬ Fails (outcome d1 d2 ch s t h) ∧
      turboDecode d1 d2 maxIter false s t ch errorIdx = ((half d1 d2 ch s t (h + 1)).1, (half d1 d2 ch s t (h + 1)).2.1,
        (outcome d1 d2 ch s t h).map fun o => ⟨o.estimate, o.llr, true, h % 2 + 1, 0⟩)) ∨
    ((∀ h, h < 2 * maxIter → Fails (outcome d1 d2 ch s t h)) ∧
      turboDecode d1 d2 maxIter false s t ch errorIdx = ((half d1 d2 ch s t (2 * maxIter)).1, (half d1 d2 ch s t (2 * maxIter)).2.1,
        if maxIter = 0 then .error .unboundLocalError
        else (outcome d1 d2 ch s t (2 * maxIter - 1)).map fun o => ⟨o.estimate, o.llr, false, 2, 0⟩)) := by
  have := loop_any h1 h2 errorIdx s t maxIter 0 (List.replicate ch.length 0) none (by simp) (by
    apply List.ext_getElem
    · simp [half]
    · intro i _ _; simp [half]) (by simp) (fun _ => rfl) (by simp)
  simp only [Nat.zero_add, Nat.mul_zero] at this
  exact this

/-- A first decoder that fails and a second that raises in its first run. -/
example (s : Nat) : turboDecode (fun (n : Nat) x => (n + 1, .ok ⟨[true], x, false⟩)) (fun (n : Nat) _ => (n + 5, .error .indexError)) 3 false s s [1] [] =
    (s + 1, s + 5, .error .indexError) := by
  rcases c58_any (fun (n : Nat) x => (n + 1, .ok ⟨[true], x, false⟩)) (fun (n : Nat) _ => (n + 5, .error .indexError)) [1]
    (by intro s x o hx h; cases h; exact hx) (by intro s x o hx h; cases h) s s 3 [] with ⟨h, _, h', hn, he⟩ | ⟨h, _⟩
  · match h, h', hn, he with
    | 0, _, hn, _ => exact absurd ⟨_, rfl, rfl⟩ hn
    | 1, _, _, he => exact he
    | h + 2, h', _, _ =>
      obtain ⟨o, ho, _⟩ := h' 1 (by omega)
      cases ho
  · obtain ⟨o, ho, _⟩ := h 1 (by omega)
    cases ho

end NR.C58
