import Verif.Spec.Results
import Verif.Props.C101
import Mathlib.Data.List.Nodup
import Mathlib.Data.List.Induction
/-
C115: The results directory. Whatever the runs are, however their steps interleave, wherever they raise and whenever they are killed:
every run has its own directory and only it writes there, its files appear in their order and complete, and a complete file stays.
A run that logs into its own directory finds exactly its records there. The shared `results/log.log` does not survive two runs side by side.
-/
namespace NR.C115
open NR NR.Results

/-! ### The shape of the scripts -/

/-- A directory is made once and after the timestamp; files and the own log come after it. -/
def ok : Bool → List Op → Bool
  | _, [] => true
  | m, .stamp :: l => !m && ok m l
  | m, .mkdir :: l => !m && ok true l
  | m, .opened _ :: l => m && ok m l
  | m, .closed _ :: l => m && ok m l
  | m, .openOwn :: l => m && ok m l
  | m, .openShared :: l => ok m l
  | m, .part _ :: l => ok m l
  | m, .note :: l => ok m l
  | m, .work :: l => ok m l
  | m, .move :: l => ok m l

/-- The names of the files opened. -/
def names (l : List Op) : List FileName := l.filterMap fun o => match o with
  | .opened n => some n
  | _ => none

/-- Every file is closed right after it was opened, and nothing else is closed. -/
def paired : Option FileName → List Op → Bool
  | none, [] => true
  | some _, [] => false
  | some n, .closed m :: l => (n == m) && paired none l
  | some _, _ :: _ => false
  | none, .opened n :: l => paired (some n) l
  | none, .closed _ :: _ => false
  | none, _ :: l => paired none l

/-- Nothing of a handler makes, names, opens or closes. -/
def quiet (l : List Op) : Bool := l.all fun o => o == .note || o == .move

/-- The check on a script. -/
def fine (s : Script) : Bool :=
  ok false (s.prog.map Prod.fst) && paired none (s.prog.map Prod.fst) && decide (names (s.prog.map Prod.fst)).Nodup &&
  (s.prog.map Prod.fst).contains .mkdir && quiet s.handler

theorem fine_all : ∀ s ∈ allScripts, fine s = true := by decide +kernel

/-! ### The invariant -/

/-- The file that is open. -/
def pend : List Op → Option FileName
  | .closed n :: _ => some n
  | _ => none

def live (r : Run) : Prop := r.failing = false ∧ r.killed = false

def ops (r : Run) : List Op := r.todo.map Prod.fst

/-- What holds of one run and the files `f` under its timestamp. -/
structure RInv (N : List FileName) (i : Nat) (r : Run) (f : FileName → Option (Nat × Bool)) : Prop where
  ok : ok r.made (ops r) = true
  quiet : ¬ live r → quiet (ops r) = true
  paired : live r → paired (pend (ops r)) (ops r) = true
  before : live r → r.made = false → names (ops r) = N ∧ pend (ops r) = none ∧ .mkdir ∈ ops r
  order : r.made = true → ∃ k, FilesInOrder f i N k ∧ (live r → (pend (ops r) = none → names (ops r) = N.drop k) ∧
    ∀ n, pend (ops r) = some n → N[k]? = some n ∧ names (ops r) = N.drop (k + 1))

theorem quiet_ok (m : Bool) : ∀ l, quiet l = true → C115.ok m l = true
  | [], _ => rfl
  | o :: l, h => by
    simp only [C115.quiet, List.all_cons, Bool.and_eq_true, Bool.or_eq_true, beq_iff_eq] at h
    rcases h.1 with rfl | rfl <;> exact quiet_ok m l h.2

theorem fileNames_eq (p : List (Op × Bool)) : fileNames p = names (p.map Prod.fst) := by
  simp only [fileNames, names, List.filterMap_map]
  rfl

theorem rinv_start {s : Script} (h : fine s = true) (i : Nat) (f : FileName → Option (Nat × Bool)) :
    RInv (fileNames s.prog) i ⟨s.prog, "", false, none, 0, false, false, false⟩ f := by
  simp only [fine, Bool.and_eq_true, List.contains_iff_mem, decide_eq_true_eq] at h
  obtain ⟨⟨⟨⟨h1, h2⟩, h3⟩, h4⟩, h5⟩ := h
  have hp : pend (s.prog.map Prod.fst) = none := by
    generalize s.prog.map Prod.fst = l at h2 ⊢
    cases l with
    | nil => rfl
    | cons o l => cases o <;> first | rfl | simp [C115.paired] at h2
  refine ⟨h1, fun h => absurd ⟨rfl, rfl⟩ h, fun _ => ?_, fun _ _ => ⟨(fileNames_eq _).symm, hp, h4⟩, fun h => absurd h (by simp)⟩
  show C115.paired (pend (s.prog.map Prod.fst)) (s.prog.map Prod.fst) = true
  rw [hp]
  exact h2

theorem rinv_fail {N : List FileName} {i : Nat} {r : Run} {f : FileName → Option (Nat × Bool)} (h : RInv N i r f) {hd : List Op}
    (hq : C115.quiet hd = true) (b : Bool) : RInv N i (fail hd b r) f := by
  have ht : C115.quiet (ops (fail hd b r)) = true := by
    cases b <;> simp [fail, ops, plainly, C115.quiet]
    simpa [C115.quiet, Function.comp_def] using hq
  have hl : ¬ live (fail hd b r) := fun h => by simp [live, fail] at h
  refine ⟨quiet_ok _ _ ht, fun _ => ht, fun h => absurd h hl, fun h => absurd h hl, fun hm => ?_⟩
  obtain ⟨k, hk, _⟩ := h.order hm
  exact ⟨k, hk, fun h => absurd h hl⟩

theorem rinv_kill {N : List FileName} {i : Nat} {r : Run} {f : FileName → Option (Nat × Bool)} (h : RInv N i r f) :
    RInv N i { r with todo := [], killed := true } f := by
  have hl : ¬ live { r with todo := [], killed := true } := fun h => by simp [live] at h
  refine ⟨rfl, fun _ => rfl, fun h => absurd h hl, fun h => absurd h hl, fun hm => ?_⟩
  obtain ⟨k, hk, _⟩ := h.order hm
  exact ⟨k, hk, fun h => absurd h hl⟩

/-- Operations which concern neither the directories nor the files in them. -/
def neutral : Op → Bool
  | .openShared | .openOwn | .part _ | .note | .work | .move => true
  | _ => false

theorem exec_flags {i : Nat} {d : Disk} {r : Run} {t : String} {op : Op} {d' : Disk} {r' : Run} (h : exec i d r t op = some (d', r')) :
    r'.failing = r.failing ∧ r'.killed = r.killed := by
  cases op <;> simp only [exec] at h
  case openShared => split at h <;> (cases h; exact ⟨rfl, rfl⟩)
  case openOwn =>
    split at h
    · split at h <;> (cases h; exact ⟨rfl, rfl⟩)
    · cases h
  case mkdir =>
    split at h
    · cases h
    · cases h
      exact ⟨rfl, rfl⟩
  case opened =>
    split at h
    · cases h
      exact ⟨rfl, rfl⟩
    · cases h
  case note => split at h <;> (cases h; exact ⟨rfl, rfl⟩)
  case move =>
    split at h
    · split at h
      · cases h
        exact ⟨rfl, rfl⟩
      · cases h
    · cases h
  all_goals
    cases h
    exact ⟨rfl, rfl⟩

theorem exec_neutral {i : Nat} {d : Disk} {r : Run} {t : String} {op : Op} {d' : Disk} {r' : Run} (h : exec i d r t op = some (d', r'))
    (hn : neutral op = true) : d'.dir = d.dir ∧ d'.file = d.file ∧ r'.made = r.made ∧ r'.name = r.name := by
  cases op <;> simp only [exec] at h
  case openShared => split at h <;> (cases h; exact ⟨rfl, rfl, rfl, rfl⟩)
  case openOwn =>
    split at h
    · split at h <;> (cases h; exact ⟨rfl, rfl, rfl, rfl⟩)
    · cases h
  case note => split at h <;> (cases h; exact ⟨rfl, rfl, rfl, rfl⟩)
  case move =>
    split at h
    · split at h
      · cases h
        exact ⟨rfl, rfl, rfl, rfl⟩
      · cases h
    · cases h
  case part | work =>
    cases h
    exact ⟨rfl, rfl, rfl, rfl⟩
  all_goals simp [neutral] at hn

theorem neutral_names {op : Op} (h : neutral op = true) (l : List Op) :
    names (op :: l) = names l ∧ pend (op :: l) = none ∧ op ≠ .mkdir ∧
    (C115.paired none (op :: l) = true → C115.paired none l = true) ∧ ∀ m, C115.ok m (op :: l) = true → C115.ok m l = true := by
  cases op <;> first | (simp [neutral] at h; done) |
    (refine ⟨rfl, rfl, by simp, fun h => h, fun m h => ?_⟩
     first | exact h | (simp only [C115.ok, Bool.and_eq_true] at h; exact h.2))

theorem pend_of_paired {l : List Op} (h : C115.paired none l = true) : pend l = none := by
  cases l with
  | nil => rfl
  | cons o l => cases o <;> first | rfl | simp [C115.paired] at h

/-- After a neutral operation. -/
theorem rinv_neutral {N : List FileName} {i : Nat} {r r' : Run} {f : FileName → Option (Nat × Bool)} {op : Op} {b : Bool}
    {rest : List (Op × Bool)} (h : RInv N i r f) (hr : r.todo = (op, b) :: rest) (hn : neutral op = true)
    (hm : r'.made = r.made) (hf : r'.failing = r.failing ∧ r'.killed = r.killed) :
    RInv N i { r' with todo := rest } f := by
  have ho : ops r = op :: ops { r' with todo := rest } := by simp [ops, hr]
  have hl : live { r' with todo := rest } ↔ live r := by
    show r'.failing = false ∧ r'.killed = false ↔ _
    rw [hf.1, hf.2]
    rfl
  obtain ⟨h1, h2, h3, h4, h5⟩ := neutral_names hn (ops { r' with todo := rest })
  have hmm : ({ r' with todo := rest } : Run).made = r.made := hm
  have hp : live r → C115.paired none (ops { r' with todo := rest }) = true := fun hv => by
    have := h.paired hv
    rw [ho, h2] at this
    exact h4 this
  refine ⟨?_, fun hv => ?_, fun hv => ?_, fun hv hmf => ?_, fun ht => ?_⟩
  · rw [hmm]
    exact h5 _ (by have := h.ok; rwa [ho] at this)
  · have := h.quiet (fun x => hv (hl.2 x))
    rw [ho] at this
    simp only [C115.quiet, List.all_cons, Bool.and_eq_true] at this
    exact this.2
  · have := hp (hl.1 hv)
    rw [pend_of_paired this]
    exact this
  · obtain ⟨a1, a2, a3⟩ := h.before (hl.1 hv) (by rw [← hm]; exact hmf)
    rw [ho] at a1 a3
    refine ⟨by rw [← a1, h1], pend_of_paired (hp (hl.1 hv)), ?_⟩
    rcases List.mem_cons.1 a3 with e | e
    · exact absurd e.symm h3
    · exact e
  · obtain ⟨k, hk, hc⟩ := h.order (by rw [← hm]; exact ht)
    refine ⟨k, hk, fun hv => ⟨fun _ => ?_, fun n hn' => ?_⟩⟩
    · rw [← (hc (hl.1 hv)).1 (by rw [ho]; exact h2), ho, h1]
    · rw [pend_of_paired (hp (hl.1 hv))] at hn'
      cases hn'

/-- After the timestamp. -/
theorem rinv_stamp {N : List FileName} {i : Nat} {r : Run} {f f' : FileName → Option (Nat × Bool)} {b : Bool}
    {rest : List (Op × Bool)} (h : RInv N i r f) (hr : r.todo = (.stamp, b) :: rest) (t : String) :
    r.made = false ∧ RInv N i { r with name := t, todo := rest } f' := by
  have ho : ops r = .stamp :: rest.map Prod.fst := by simp [ops, hr]
  have hk := h.ok
  rw [ho] at hk
  simp only [C115.ok, Bool.and_eq_true, Bool.not_eq_true'] at hk
  obtain ⟨hm, hk⟩ := hk
  have hv : live r := by
    refine Classical.byContradiction fun hv => ?_
    have := h.quiet hv
    rw [ho] at this
    simp [C115.quiet] at this
  have hp := h.paired hv
  rw [ho] at hp
  have hp' : C115.paired none (rest.map Prod.fst) = true := hp
  obtain ⟨a1, a2, a3⟩ := h.before hv hm
  rw [ho] at a1 a3
  refine ⟨hm, hk, fun x => absurd hv x, fun _ => ?_, fun _ _ => ⟨a1, pend_of_paired hp', ?_⟩, fun x => ?_⟩
  · show C115.paired (pend (rest.map Prod.fst)) (rest.map Prod.fst) = true
    rw [pend_of_paired hp']
    exact hp'
  · rcases List.mem_cons.1 a3 with e | e
    · cases e
    · exact e
  · exact absurd x (by simp [hm])

/-- After the directory was made. -/
theorem rinv_mkdir {N : List FileName} {i : Nat} {r : Run} {f f' : FileName → Option (Nat × Bool)} {b : Bool}
    {rest : List (Op × Bool)} (h : RInv N i r f) (hr : r.todo = (.mkdir, b) :: rest) (hf : ∀ n, f' n = none) :
    r.made = false ∧ RInv N i { r with made := true, todo := rest } f' := by
  have ho : ops r = .mkdir :: rest.map Prod.fst := by simp [ops, hr]
  have hk := h.ok
  rw [ho] at hk
  simp only [C115.ok, Bool.and_eq_true, Bool.not_eq_true'] at hk
  obtain ⟨hm, hk⟩ := hk
  have hv : live r := by
    refine Classical.byContradiction fun hv => ?_
    have := h.quiet hv
    rw [ho] at this
    simp [C115.quiet] at this
  have hp := h.paired hv
  rw [ho] at hp
  have hp' : C115.paired none (rest.map Prod.fst) = true := hp
  obtain ⟨a1, a2, a3⟩ := h.before hv hm
  rw [ho] at a1
  refine ⟨hm, hk, fun x => absurd hv x, fun _ => ?_, fun _ x => absurd x (by simp), fun _ => ?_⟩
  · show C115.paired (pend (rest.map Prod.fst)) (rest.map Prod.fst) = true
    rw [pend_of_paired hp']
    exact hp'
  · refine ⟨0, ⟨Nat.zero_le _, fun n _ => hf n, fun m n _ => ⟨fun h => absurd h (by omega), fun _ => .inl (hf n), fun _ => hf n⟩⟩, fun _ => ⟨fun _ => a1, ?_⟩⟩
    intro n hn
    rw [show pend (ops { r with made := true, todo := rest }) = none from pend_of_paired hp'] at hn
    cases hn

theorem getElem?_nodup {N : List FileName} (hN : N.Nodup) {a b : Nat} {n : FileName} (ha : N[a]? = some n) (hb : N[b]? = some n) : a = b := by
  obtain ⟨h1, h2⟩ := List.getElem?_eq_some_iff.1 ha
  obtain ⟨h3, h4⟩ := List.getElem?_eq_some_iff.1 hb
  exact (List.Nodup.getElem_inj_iff hN).1 (h2.trans h4.symm)

/-- After a file was opened. -/
theorem rinv_opened {N : List FileName} (hN : N.Nodup) {i : Nat} {r : Run} {f : FileName → Option (Nat × Bool)} {b : Bool} {n : FileName}
    {rest : List (Op × Bool)} (h : RInv N i r f) (hr : r.todo = (.opened n, b) :: rest) :
    r.made = true ∧ RInv N i { r with todo := rest } (upd f n (some (i, false))) := by
  have ho : ops r = .opened n :: rest.map Prod.fst := by simp [ops, hr]
  have hk := h.ok
  rw [ho] at hk
  simp only [C115.ok, Bool.and_eq_true] at hk
  obtain ⟨hm, hk⟩ := hk
  have hv : live r := by
    refine Classical.byContradiction fun hv => ?_
    have := h.quiet hv
    rw [ho] at this
    simp [C115.quiet] at this
  have hp := h.paired hv
  rw [ho] at hp
  have hp' : C115.paired (some n) (rest.map Prod.fst) = true := hp
  obtain ⟨l, hl⟩ : ∃ l, rest.map Prod.fst = .closed n :: l := by
    generalize rest.map Prod.fst = q at hp'
    cases q with
    | nil => simp [C115.paired] at hp'
    | cons o l =>
      cases o <;> simp [C115.paired] at hp'
      exact ⟨l, by rw [hp'.1]⟩
  obtain ⟨k, ⟨c1, c2, c3⟩, hc⟩ := h.order hm
  have hd := (hc hv).1 (by rw [ho]; rfl)
  rw [ho] at hd
  have hd' : n :: names (rest.map Prod.fst) = N.drop k := hd
  have hkn : N[k]? = some n := by
    rw [← List.head?_drop, ← hd']
    rfl
  have hd2 : names (rest.map Prod.fst) = N.drop (k + 1) := by
    rw [← List.tail_drop, ← hd']
    rfl
  refine ⟨hm, hk, fun x => absurd hv x, fun _ => ?_, fun _ x => absurd x (by simp [hm]), fun _ => ?_⟩
  · show C115.paired (pend (rest.map Prod.fst)) (rest.map Prod.fst) = true
    rw [show pend (rest.map Prod.fst) = some n by rw [hl]; rfl]
    exact hp'
  · refine ⟨k, ⟨c1, fun m hmn => ?_, fun m x hx => ⟨fun hlt => ?_, fun he => ?_, fun hlt => ?_⟩⟩, fun _ => ⟨fun hn => ?_, fun x hx => ?_⟩⟩
    · have : m ≠ n := fun e => hmn (e ▸ List.mem_of_getElem? hkn)
      simp only [upd, this, if_false]
      exact c2 m hmn
    · have : x ≠ n := fun e => by
        have := getElem?_nodup hN hx (e ▸ hkn)
        omega
      simp only [upd, this, if_false]
      exact (c3 m x hx).1 hlt
    · subst he
      rw [hkn] at hx
      cases hx
      exact .inr (by simp [upd])
    · have : x ≠ n := fun e => by
        have := getElem?_nodup hN hx (e ▸ hkn)
        omega
      simp only [upd, this, if_false]
      exact (c3 m x hx).2.2 hlt
    · rw [show pend (ops { r with todo := rest }) = some n by show pend (rest.map Prod.fst) = _; rw [hl]; rfl] at hn
      cases hn
    · rw [show pend (ops { r with todo := rest }) = some n by show pend (rest.map Prod.fst) = _; rw [hl]; rfl] at hx
      cases hx
      exact ⟨hkn, hd2⟩

/-- After a file was closed. -/
theorem rinv_closed {N : List FileName} (hN : N.Nodup) {i : Nat} {r : Run} {f : FileName → Option (Nat × Bool)} {b : Bool} {n : FileName}
    {rest : List (Op × Bool)} (h : RInv N i r f) (hr : r.todo = (.closed n, b) :: rest) :
    r.made = true ∧ RInv N i { r with todo := rest } (upd f n (some (i, true))) := by
  have ho : ops r = .closed n :: rest.map Prod.fst := by simp [ops, hr]
  have hk := h.ok
  rw [ho] at hk
  simp only [C115.ok, Bool.and_eq_true] at hk
  obtain ⟨hm, hk⟩ := hk
  have hv : live r := by
    refine Classical.byContradiction fun hv => ?_
    have := h.quiet hv
    rw [ho] at this
    simp [C115.quiet] at this
  have hp := h.paired hv
  rw [ho] at hp
  have hp' : C115.paired none (rest.map Prod.fst) = true := by
    simpa [pend, C115.paired] using hp
  obtain ⟨k, ⟨c1, c2, c3⟩, hc⟩ := h.order hm
  obtain ⟨hkn, hd⟩ := (hc hv).2 n (by rw [ho]; rfl)
  rw [ho] at hd
  have hd' : names (rest.map Prod.fst) = N.drop (k + 1) := hd
  have hlt : k < N.length := (List.getElem?_eq_some_iff.1 hkn).1
  refine ⟨hm, hk, fun x => absurd hv x, fun _ => ?_, fun _ x => absurd x (by simp [hm]), fun _ => ?_⟩
  · show C115.paired (pend (rest.map Prod.fst)) (rest.map Prod.fst) = true
    rw [pend_of_paired hp']
    exact hp'
  · refine ⟨k + 1, ⟨hlt, fun m hmn => ?_, fun m x hx => ⟨fun hlt' => ?_, fun he => ?_, fun hlt' => ?_⟩⟩, fun _ => ⟨fun _ => hd', fun x hx => ?_⟩⟩
    · have : m ≠ n := fun e => hmn (e ▸ List.mem_of_getElem? hkn)
      simp only [upd, this, if_false]
      exact c2 m hmn
    · by_cases e : x = n
      · subst e
        simp [upd]
      · simp only [upd, e, if_false]
        refine (c3 m x hx).1 ?_
        rcases Nat.lt_succ_iff_lt_or_eq.1 hlt' with q | q
        · exact q
        · subst q
          rw [hkn] at hx
          cases hx
          exact absurd rfl e
    · have : x ≠ n := fun e => by
        have := getElem?_nodup hN hx (e ▸ hkn)
        omega
      simp only [upd, this, if_false]
      exact .inl ((c3 m x hx).2.2 (by omega))
    · have : x ≠ n := fun e => by
        have := getElem?_nodup hN hx (e ▸ hkn)
        omega
      simp only [upd, this, if_false]
      exact (c3 m x hx).2.2 (by omega)
    · rw [show pend (ops { r with todo := rest }) = none from pend_of_paired hp'] at hx
      cases hx

/-! ### All runs together -/

/-- What an event comes to. -/
theorem step_cases (S : Nat → Script) (w : World) (e : Nat × Act) :
    step S w e = w ∨ ∃ op b rest, (w.runs e.1).todo = (op, b) :: rest ∧
      (step S w e = { w with runs := upd w.runs e.1 { w.runs e.1 with todo := [], killed := true } } ∨
       step S w e = { w with runs := upd w.runs e.1 (fail (S e.1).handler b (w.runs e.1)) } ∨
       ∃ t d r, exec e.1 w.disk (w.runs e.1) t op = some (d, r) ∧
        step S w e = { disk := d, runs := upd w.runs e.1 { r with todo := rest } }) := by
  unfold step
  cases h : (w.runs e.1).todo with
  | nil => exact .inl rfl
  | cons x rest =>
    obtain ⟨op, b⟩ := x
    refine .inr ⟨op, b, rest, rfl, ?_⟩
    cases e.2 with
    | kill => exact .inl rfl
    | raise => exact .inr (.inl rfl)
    | go t =>
      simp only
      cases hx : exec e.1 w.disk (w.runs e.1) t op with
      | none => exact .inr (.inl rfl)
      | some y => exact .inr (.inr ⟨t, y.1, y.2, hx, rfl⟩)

theorem rinv_congr {N : List FileName} {i : Nat} {r : Run} {f f' : FileName → Option (Nat × Bool)} (h : RInv N i r f)
    (hf : r.made = true → f' = f) : RInv N i r f' := by
  refine ⟨h.ok, h.quiet, h.paired, h.before, fun hm => ?_⟩
  rw [hf hm]
  exact h.order hm

structure WInv (S : Nat → Script) (w : World) : Prop where
  run : ∀ i, RInv (fileNames (S i).prog) i (w.runs i) (w.disk.file (w.runs i).name)
  dirOf : ∀ i, (w.runs i).made = true → w.disk.dir (w.runs i).name = true
  owner : ∀ s, w.disk.dir s = true → ∃ i, (w.runs i).made = true ∧ (w.runs i).name = s
  distinct : ∀ i j, (w.runs i).made = true → (w.runs j).made = true → (w.runs i).name = (w.runs j).name → i = j
  files : ∀ s n x, w.disk.file s n = some x → (w.runs x.1).made = true ∧ (w.runs x.1).name = s

theorem upd_same {α β : Type} [DecidableEq α] (f : α → β) (a : α) (b : β) : upd f a b a = b := by simp [upd]

theorem upd_ne {α β : Type} [DecidableEq α] (f : α → β) {a x : α} (b : β) (h : x ≠ a) : upd f a b x = f x := by simp [upd, h]

/-- An event that leaves the directories, the files, the name and the directory of the run as they are. -/
theorem winv_same {S : Nat → Script} {w : World} (h : WInv S w) (i : Nat) (d : Disk) (r : Run)
    (hd : d.dir = w.disk.dir) (hf : d.file = w.disk.file) (hm : r.made = (w.runs i).made) (hn : r.name = (w.runs i).name)
    (hr : RInv (fileNames (S i).prog) i r (w.disk.file (w.runs i).name)) :
    WInv S { disk := d, runs := upd w.runs i r } := by
  have hmade : ∀ j, (upd w.runs i r j).made = (w.runs j).made := fun j => by
    by_cases e : j = i
    · rw [e, upd_same, hm]
    · rw [upd_ne _ _ e]
  have hname : ∀ j, (upd w.runs i r j).name = (w.runs j).name := fun j => by
    by_cases e : j = i
    · rw [e, upd_same, hn]
    · rw [upd_ne _ _ e]
  refine ⟨fun j => ?_, fun j hj => ?_, fun s hs => ?_, fun a b ha hb hab => ?_, fun s n x hx => ?_⟩
  · show RInv _ j (upd w.runs i r j) (d.file (upd w.runs i r j).name)
    rw [hname, hf]
    by_cases e : j = i
    · rw [e, upd_same]
      exact hr
    · rw [upd_ne _ _ e]
      exact h.run j
  · show d.dir (upd w.runs i r j).name = true
    rw [hname, hd]
    exact h.dirOf j ((hmade j).symm.trans hj)
  · have hs' : d.dir s = true := hs
    rw [hd] at hs'
    obtain ⟨j, h1, h2⟩ := h.owner s hs'
    exact ⟨j, (hmade j).trans h1, (hname j).trans h2⟩
  · exact h.distinct a b ((hmade a).symm.trans ha) ((hmade b).symm.trans hb) ((hname a).symm.trans (hab.trans (hname b)))
  · have hx' : d.file s n = some x := hx
    rw [hf] at hx'
    obtain ⟨h1, h2⟩ := h.files s n x hx'
    exact ⟨(hmade _).trans h1, (hname _).trans h2⟩

/-- An event that writes one file of the run. -/
theorem winv_file {S : Nat → Script} {w : World} (h : WInv S w) (i : Nat) (n : FileName) (b : Bool) (rest : List (Op × Bool))
    (hm : (w.runs i).made = true)
    (hr : RInv (fileNames (S i).prog) i { w.runs i with todo := rest } (upd (w.disk.file (w.runs i).name) n (some (i, b)))) :
    WInv S { disk := { w.disk with file := upd w.disk.file (w.runs i).name (upd (w.disk.file (w.runs i).name) n (some (i, b))) },
             runs := upd w.runs i { w.runs i with todo := rest } } := by
  have hmade : ∀ j, (upd w.runs i { w.runs i with todo := rest } j).made = (w.runs j).made := fun j => by
    by_cases e : j = i
    · rw [e, upd_same]
    · rw [upd_ne _ _ e]
  have hname : ∀ j, (upd w.runs i { w.runs i with todo := rest } j).name = (w.runs j).name := fun j => by
    by_cases e : j = i
    · rw [e, upd_same]
    · rw [upd_ne _ _ e]
  refine ⟨fun j => ?_, fun j hj => ?_, fun s hs => ?_, fun a b ha hb hab => ?_, fun s m x hx => ?_⟩
  · show RInv _ j (upd w.runs i _ j) (upd w.disk.file _ _ (upd w.runs i _ j).name)
    rw [hname]
    by_cases e : j = i
    · rw [e, upd_same, upd_same]
      exact hr
    · rw [upd_ne _ _ e]
      refine rinv_congr (h.run j) fun hj => ?_
      rw [upd_ne]
      exact fun hc => e (h.distinct j i hj hm hc)
  · show w.disk.dir (upd w.runs i _ j).name = true
    rw [hname]
    exact h.dirOf j ((hmade j).symm.trans hj)
  · obtain ⟨j, h1, h2⟩ := h.owner s hs
    exact ⟨j, (hmade j).trans h1, (hname j).trans h2⟩
  · exact h.distinct a b ((hmade a).symm.trans ha) ((hmade b).symm.trans hb) ((hname a).symm.trans (hab.trans (hname b)))
  · have hx' : upd w.disk.file (w.runs i).name (upd (w.disk.file (w.runs i).name) n (some (i, b))) s m = some x := hx
    have key : (w.runs x.1).made = true ∧ (w.runs x.1).name = s := by
      by_cases e : s = (w.runs i).name
      · subst e
        rw [upd_same] at hx'
        by_cases e' : m = n
        · subst e'
          rw [upd_same] at hx'
          cases hx'
          exact ⟨hm, rfl⟩
        · rw [upd_ne _ _ e'] at hx'
          exact h.files _ _ _ hx'
      · rw [upd_ne _ _ e] at hx'
        exact h.files _ _ _ hx'
    exact ⟨(hmade _).trans key.1, (hname _).trans key.2⟩

theorem winv_step {S : Nat → Script} (hS : ∀ i, fine (S i) = true) {w : World} (h : WInv S w) (e : Nat × Act) : WInv S (step S w e) := by
  have hq : C115.quiet (S e.1).handler = true := by
    have := hS e.1
    simp only [fine, Bool.and_eq_true] at this
    exact this.2
  have hN : (fileNames (S e.1).prog).Nodup := by
    have := hS e.1
    simp only [fine, Bool.and_eq_true, decide_eq_true_eq] at this
    rw [fileNames_eq]
    exact this.1.1.2
  rcases step_cases S w e with h0 | ⟨op, b, rest, hr, h1 | h1 | ⟨t, d, r, hx, h1⟩⟩
  · rw [h0]
    exact h
  · rw [h1]
    exact winv_same h e.1 w.disk _ rfl rfl rfl rfl (rinv_kill (h.run e.1))
  · rw [h1]
    exact winv_same h e.1 w.disk _ rfl rfl rfl rfl (rinv_fail (h.run e.1) hq b)
  · rw [h1]
    by_cases hn : neutral op = true
    · obtain ⟨a1, a2, a3, a4⟩ := exec_neutral hx hn
      exact winv_same h e.1 d _ a1 a2 a3 a4 (rinv_neutral (h.run e.1) hr hn a3 (exec_flags hx))
    · cases op <;> first | exact absurd rfl hn | skip
      case stamp =>
        cases hx
        obtain ⟨hm, hr'⟩ := rinv_stamp (f' := w.disk.file t) (h.run e.1) hr t
        have hmade : ∀ j, (upd w.runs e.1 { w.runs e.1 with name := t, todo := rest } j).made = (w.runs j).made := fun j => by
          by_cases e' : j = e.1
          · rw [e', upd_same]
          · rw [upd_ne _ _ e']
        have hname : ∀ j, (w.runs j).made = true → (upd w.runs e.1 { w.runs e.1 with name := t, todo := rest } j).name = (w.runs j).name := fun j hj => by
          rw [upd_ne]
          intro e'
          rw [e', hm] at hj
          cases hj
        refine ⟨fun j => ?_, fun j hj => ?_, fun s hs => ?_, fun a b ha hb hab => ?_, fun s n x hx => ?_⟩
        · show RInv _ j (upd w.runs e.1 _ j) (w.disk.file (upd w.runs e.1 _ j).name)
          by_cases e' : j = e.1
          · rw [e', upd_same]
            exact hr'
          · rw [upd_ne _ _ e']
            exact h.run j
        · show w.disk.dir (upd w.runs e.1 _ j).name = true
          have hj' := (hmade j).symm.trans hj
          rw [hname j hj']
          exact h.dirOf j hj'
        · obtain ⟨j, h1, h2⟩ := h.owner s hs
          exact ⟨j, (hmade j).trans h1, (hname j h1).trans h2⟩
        · have ha' := (hmade a).symm.trans ha
          have hb' := (hmade b).symm.trans hb
          exact h.distinct a b ha' hb' ((hname a ha').symm.trans (hab.trans (hname b hb')))
        · obtain ⟨h1, h2⟩ := h.files s n x hx
          exact ⟨(hmade _).trans h1, (hname _ h1).trans h2⟩
      case mkdir =>
        simp only [exec] at hx
        split at hx
        · cases hx
        · rename_i hd
          cases hx
          have hfresh : ∀ n, w.disk.file (w.runs e.1).name n = none := fun n => by
            cases hf : w.disk.file (w.runs e.1).name n with
            | none => rfl
            | some x =>
              obtain ⟨h1, h2⟩ := h.files _ _ _ hf
              have := h.dirOf _ h1
              rw [h2] at this
              exact absurd this hd
          obtain ⟨hm, hr'⟩ := rinv_mkdir (f' := w.disk.file (w.runs e.1).name) (h.run e.1) hr hfresh
          have hother : ∀ j, j ≠ e.1 → (w.runs j).made = true → (w.runs j).name ≠ (w.runs e.1).name := fun j _ hj hc => by
            have := h.dirOf j hj
            rw [hc] at this
            exact hd this
          have hrun : ∀ j, j ≠ e.1 → upd w.runs e.1 { w.runs e.1 with made := true, todo := rest } j = w.runs j := fun j hj => upd_ne _ _ hj
          have hself : upd w.runs e.1 { w.runs e.1 with made := true, todo := rest } e.1 = { w.runs e.1 with made := true, todo := rest } := upd_same _ _ _
          suffices hW : ∀ runs : Nat → Run, (∀ j, j ≠ e.1 → runs j = w.runs j) → runs e.1 = { w.runs e.1 with made := true, todo := rest } →
              WInv S { disk := { w.disk with dir := upd w.disk.dir (w.runs e.1).name true }, runs := runs } from hW _ hrun hself
          clear hrun hself
          intro runs hrun hself
          refine ⟨fun j => ?_, fun j hj => ?_, fun s hs => ?_, fun a b ha hb hab => ?_, fun s n x hx => ?_⟩
          · show RInv _ j (runs j) (w.disk.file (runs j).name)
            by_cases e' : j = e.1
            · rw [e', hself]
              exact hr'
            · rw [hrun j e']
              exact h.run j
          · show upd w.disk.dir (w.runs e.1).name true (runs j).name = true
            by_cases e' : j = e.1
            · rw [e', hself]
              exact upd_same _ _ _
            · have hj' : (runs j).made = true := hj
              rw [hrun j e'] at hj' ⊢
              rw [upd_ne _ _ (hother j e' hj')]
              exact h.dirOf j hj'
          · have hs' : upd w.disk.dir (w.runs e.1).name true s = true := hs
            show ∃ i, (runs i).made = true ∧ (runs i).name = s
            by_cases e' : s = (w.runs e.1).name
            · exact ⟨e.1, by rw [hself], by rw [hself]; exact e'.symm⟩
            · rw [upd_ne _ _ e'] at hs'
              obtain ⟨j, h1, h2⟩ := h.owner s hs'
              have hj : j ≠ e.1 := fun hc => by rw [hc, hm] at h1; cases h1
              exact ⟨j, by rw [hrun j hj]; exact h1, by rw [hrun j hj]; exact h2⟩
          · have ha' : (runs a).made = true := ha
            have hb' : (runs b).made = true := hb
            have hab' : (runs a).name = (runs b).name := hab
            by_cases ea : a = e.1 <;> by_cases eb : b = e.1
            · rw [ea, eb]
            · rw [ea, hself, hrun b eb] at hab'
              rw [hrun b eb] at hb'
              exact absurd hab'.symm (hother b eb hb')
            · rw [eb, hself, hrun a ea] at hab'
              rw [hrun a ea] at ha'
              exact absurd hab' (hother a ea ha')
            · rw [hrun a ea] at ha' hab'
              rw [hrun b eb] at hb' hab'
              exact h.distinct a b ha' hb' hab'
          · obtain ⟨h1, h2⟩ := h.files s n x hx
            have hj : x.1 ≠ e.1 := fun hc => by rw [hc, hm] at h1; cases h1
            show (runs x.1).made = true ∧ (runs x.1).name = s
            exact ⟨by rw [hrun _ hj]; exact h1, by rw [hrun _ hj]; exact h2⟩
      case opened n =>
        simp only [exec] at hx
        split at hx
        · cases hx
          obtain ⟨hm, hr'⟩ := rinv_opened hN (h.run e.1) hr
          exact winv_file h e.1 n false rest hm hr'
        · cases hx
      case closed n =>
        cases hx
        obtain ⟨hm, hr'⟩ := rinv_closed hN (h.run e.1) hr
        exact winv_file h e.1 n true rest hm hr'

theorem winv_start {S : Nat → Script} (hS : ∀ i, fine (S i) = true) : WInv S (start S) :=
  ⟨fun i => rinv_start (hS i) i _, fun i h => by simp [start, Script.atStart] at h, fun s h => by simp [start, Script.atStart] at h, fun i j h => by simp [start, Script.atStart] at h,
   fun s n x h => by simp [start, Script.atStart] at h⟩

theorem after_snoc (S : Nat → Script) (es : List (Nat × Act)) (e : Nat × Act) : after S (es ++ [e]) = step S (after S es) e := by
  simp [after]

theorem after_append (S : Nat → Script) (es fs : List (Nat × Act)) : after S (es ++ fs) = fs.foldl (step S) (after S es) := by
  simp [after]

theorem winv_after {S : Nat → Script} (hS : ∀ i, fine (S i) = true) (es : List (Nat × Act)) : WInv S (after S es) := by
  induction es using List.reverseRecOn with
  | nil => exact winv_start hS
  | append_singleton es e ih =>
    rw [after_snoc]
    exact winv_step hS ih e

/-! ### C115, the directories and the files -/

/-- **C115.** Whatever scripts the runs are, in whatever order their steps come, wherever they raise and are killed: two runs never share a
directory, and every file in a directory was written by the run that made the directory. -/
theorem c115_separate (S : Nat → Script) (hS : ∀ i, S i ∈ allScripts) (es : List (Nat × Act)) :
    (∀ i j, i ≠ j → ((after S es).runs i).made = true → ((after S es).runs j).made = true →
      ((after S es).runs i).name ≠ ((after S es).runs j).name) ∧
    (∀ s n i b, (after S es).disk.file s n = some (i, b) →
      ((after S es).runs i).made = true ∧ ((after S es).runs i).name = s ∧ n ∈ fileNames (S i).prog) := by
  have h := winv_after (fun i => fine_all _ (hS i)) es
  refine ⟨fun i j hij hi hj hn => hij (h.distinct i j hi hj hn), fun s n i b hf => ?_⟩
  obtain ⟨h1, h2⟩ := h.files s n (i, b) hf
  refine ⟨h1, h2, Classical.byContradiction fun hc => ?_⟩
  obtain ⟨k, ⟨_, hk, _⟩, _⟩ := (h.run i).order h1
  have := hk n hc
  have h2' : ((after S es).runs i).name = s := h2
  rw [h2', hf] at this
  cases this

/-- **C115.** At every moment, also after an exception and after the process was killed, the files of a run are there in the order in which
the script writes them: some first ones complete, then at most one incomplete, then none. When the run has returned, all are complete. -/
theorem c115_order (S : Nat → Script) (hS : ∀ i, S i ∈ allScripts) (es : List (Nat × Act)) (i : Nat) :
    (((after S es).runs i).made = true → ∃ k,
      FilesInOrder ((after S es).disk.file ((after S es).runs i).name) i (fileNames (S i).prog) k) ∧
    (((after S es).runs i).returned → ((after S es).runs i).made = true ∧ ∀ n ∈ fileNames (S i).prog,
      (after S es).disk.file ((after S es).runs i).name n = some (i, true)) := by
  have h := winv_after (fun i => fine_all _ (hS i)) es
  refine ⟨fun hm => ?_, fun hr => ?_⟩
  · obtain ⟨k, hk, _⟩ := (h.run i).order hm
    exact ⟨k, hk⟩
  · obtain ⟨h1, h2⟩ := hr
    have ho : ops ((after S es).runs i) = [] := by simp [ops, h1]
    have hm : ((after S es).runs i).made = true := by
      cases hm : ((after S es).runs i).made with
      | true => rfl
      | false =>
        obtain ⟨_, _, h3⟩ := (h.run i).before h2 hm
        rw [ho] at h3
        cases h3
    refine ⟨hm, fun n hn => ?_⟩
    obtain ⟨k, ⟨c1, c2, c3⟩, hk⟩ := (h.run i).order hm
    have hd := (hk h2).1 (by rw [ho]; rfl)
    rw [ho] at hd
    have hlen : (fileNames (S i).prog).length ≤ k := by
      have := congrArg List.length hd
      simp only [names, List.filterMap_nil, List.length_nil, List.length_drop] at this
      omega
    obtain ⟨m, hm'⟩ := List.getElem?_of_mem hn
    exact (c3 m n hm').1 (Nat.lt_of_lt_of_le (List.getElem?_eq_some_iff.1 hm').1 hlen)

/-- Another run's event changes nothing in the directory of a run. -/
theorem step_other {S : Nat → Script} {w : World} (h : WInv S w) (e : Nat × Act) {i : Nat} (hi : i ≠ e.1)
    (hm : (w.runs i).made = true) : (step S w e).runs i = w.runs i ∧ (step S w e).disk.file (w.runs i).name = w.disk.file (w.runs i).name := by
  rcases step_cases S w e with h0 | ⟨op, b, rest, hr, h1 | h1 | ⟨t, d, r, hx, h1⟩⟩
  · rw [h0]
    exact ⟨rfl, rfl⟩
  · rw [h1]
    exact ⟨upd_ne _ _ hi, rfl⟩
  · rw [h1]
    exact ⟨upd_ne _ _ hi, rfl⟩
  · rw [h1]
    refine ⟨upd_ne _ _ hi, ?_⟩
    show d.file _ = _
    have hne : (w.runs e.1).made = true → (w.runs i).name ≠ (w.runs e.1).name := fun he hc => hi (h.distinct i e.1 hm he hc)
    by_cases hn : neutral op = true
    · rw [(exec_neutral hx hn).2.1]
    · have hok := (h.run e.1).ok
      rw [show ops (w.runs e.1) = op :: rest.map Prod.fst by simp [ops, hr]] at hok
      cases op <;> first | exact absurd rfl hn | skip
      case stamp =>
        cases hx
        rfl
      case mkdir =>
        simp only [exec] at hx
        split at hx
        · cases hx
        · cases hx
          rfl
      case opened n =>
        simp only [C115.ok, Bool.and_eq_true] at hok
        simp only [exec] at hx
        split at hx
        · cases hx
          exact upd_ne _ _ (hne hok.1)
        · cases hx
      case closed n =>
        simp only [C115.ok, Bool.and_eq_true] at hok
        cases hx
        exact upd_ne _ _ (hne hok.1)

/-- A complete file of a run stays as it is in its own next event. -/
theorem step_keep {S : Nat → Script} (hS : ∀ i, fine (S i) = true) {w : World} (h : WInv S w) (e : Nat × Act) {s : String} {n : FileName} {i : Nat}
    (hf : w.disk.file s n = some (i, true)) : (step S w e).disk.file s n = some (i, true) := by
  obtain ⟨hm, hs⟩ := h.files s n (i, true) hf
  simp only at hm hs
  by_cases hi : i = e.1
  · have h' := winv_step hS h e
    rcases step_cases S w e with h0 | ⟨op, b, rest, hr, h1 | h1 | ⟨t, d, r, hx, h1⟩⟩
    · rw [h0]
      exact hf
    · rw [h1]
      exact hf
    · rw [h1]
      exact hf
    · rw [h1]
      show d.file s n = _
      by_cases hn : neutral op = true
      · rw [(exec_neutral hx hn).2.1]
        exact hf
      · have ho : ops (w.runs e.1) = op :: rest.map Prod.fst := by simp [ops, hr]
        cases op <;> first | exact absurd rfl hn | skip
        case stamp =>
          cases hx
          exact hf
        case mkdir =>
          simp only [exec] at hx
          split at hx
          · cases hx
          · cases hx
            exact hf
        case opened m =>
          have hv : live (w.runs e.1) := by
            refine Classical.byContradiction fun hv => ?_
            have := (h.run e.1).quiet hv
            rw [ho] at this
            simp [C115.quiet] at this
          simp only [exec] at hx
          split at hx
          · cases hx
            have hmn : n ≠ m := by
              intro hc
              obtain ⟨k, ⟨_, _, c3⟩, hk⟩ := (h.run e.1).order (by rw [← hi]; exact hm)
              have hd := (hk hv).1 (by rw [ho]; rfl)
              rw [ho] at hd
              have hkm : (fileNames (S e.1).prog)[k]? = some m := by
                rw [← List.head?_drop, ← hd]
                rfl
              rcases (c3 k m hkm).2.1 rfl with q | q <;>
              · rw [← hi, hs, ← hc, hf] at q
                cases q
            show upd w.disk.file _ _ s n = _
            rw [← hi, hs, upd_same, upd_ne _ _ hmn]
            exact hf
          · cases hx
        case closed m =>
          cases hx
          show upd w.disk.file _ _ s n = _
          rw [← hi, hs, upd_same]
          by_cases hmn : n = m
          · rw [hmn, upd_same]
          · rw [upd_ne _ _ hmn]
            exact hf
  · have := (step_other h e hi hm).2
    rw [hs] at this
    rw [this]
    exact hf

/-- **C115.** A file that is complete stays complete and of the same run, whatever the runs do afterwards. -/
theorem c115_keep (S : Nat → Script) (hS : ∀ i, S i ∈ allScripts) (es fs : List (Nat × Act)) (s : String) (n : FileName) (i : Nat)
    (hf : (after S es).disk.file s n = some (i, true)) : (after S (es ++ fs)).disk.file s n = some (i, true) := by
  have hS' : ∀ i, fine (S i) = true := fun i => fine_all _ (hS i)
  induction fs using List.reverseRecOn with
  | nil => simpa using hf
  | append_singleton fs e ih =>
    rw [← List.append_assoc, after_snoc]
    exact step_keep hS' (winv_after hS' _) e ih

/-- **C115.** While a run has its directory, nothing another run does changes a file in it. -/
theorem c115_untouched (S : Nat → Script) (hS : ∀ i, S i ∈ allScripts) (es : List (Nat × Act)) (i : Nat) (e : Nat × Act) (hi : i ≠ e.1)
    (hm : ((after S es).runs i).made = true) : (after S (es ++ [e])).disk.file ((after S es).runs i).name = (after S es).disk.file ((after S es).runs i).name := by
  rw [after_snoc]
  exact (step_other (winv_after (fun i => fine_all _ (hS i)) es) e hi hm).2

/-! ### The logs -/

/-- The `try` and the moving of the log come after the directory was made. -/
def strict : Bool → List (Op × Bool) → Bool
  | _, [] => true
  | m, (op, b) :: l => (!b || m) && (op != .move || m) && strict (m || op == .mkdir) l

theorem strict_all : ∀ s ∈ scripts, strict false s.prog = true := by decide +kernel

theorem strict_true : ∀ l, strict true l = true
  | [] => rfl
  | (op, b) :: l => by simp [strict, strict_true l]

theorem fine_scripts : ∀ s ∈ scripts, fine s = true := fun s hs => fine_all s (List.mem_cons_of_mem _ hs)

/-- What a run has left to do keeps its shape. -/
theorem strict_after {S : Nat → Script} (hS : ∀ i, S i ∈ scripts) (es : List (Nat × Act)) (i : Nat) :
    strict ((after S es).runs i).made ((after S es).runs i).todo = true := by
  induction es using List.reverseRecOn with
  | nil => exact strict_all _ (hS i)
  | append_singleton es e ih =>
    rw [after_snoc]
    generalize after S es = w at ih ⊢
    rcases step_cases S w e with h0 | ⟨op, b, rest, hr, h1 | h1 | ⟨t, d, r, hx, h1⟩⟩
    · rw [h0]
      exact ih
    all_goals
      rw [h1]
      by_cases hi : i = e.1
      swap
      · show strict (upd w.runs e.1 _ i).made (upd w.runs e.1 _ i).todo = true
        rw [upd_ne _ _ hi]
        exact ih
      subst hi
      show strict (upd w.runs e.1 _ e.1).made (upd w.runs e.1 _ e.1).todo = true
      rw [upd_same]
      rw [hr] at ih
      simp only [strict, Bool.and_eq_true, Bool.or_eq_true, Bool.not_eq_true'] at ih
    · rfl
    · cases b with
      | false => rfl
      | true =>
        have : (w.runs e.1).made = true := by simpa using ih.1.1
        show strict (w.runs e.1).made _ = true
        rw [this]
        exact strict_true _
    · have : r.made = ((w.runs e.1).made || op == .mkdir) := by
        cases op <;> simp only [exec] at hx
        case openShared => split at hx <;> (cases hx; simp)
        case openOwn =>
          split at hx
          · split at hx <;> (cases hx; simp)
          · cases hx
        case mkdir =>
          split at hx
          · cases hx
          · cases hx
            simp
        case opened =>
          split at hx
          · cases hx
            simp
          · cases hx
        case note => split at hx <;> (cases hx; simp)
        case move =>
          split at hx
          · split at hx
            · cases hx
              simp
            · cases hx
          · cases hx
        all_goals
          cases hx
          simp
      show strict r.made rest = true
      rw [this]
      exact ih.2

/-- The numbers of the log files. -/
structure LInv (w : World) : Prop where
  handles : ∀ i k, (w.runs i).handle = some k → k < w.disk.next
  shared : ∀ k, w.disk.shared = some k → k < w.disk.next
  own : ∀ s k, w.disk.own s = some k → k < w.disk.next
  owner : ∀ s k, w.disk.own s = some k → w.disk.dir s = true
  apart : ∀ s k, w.disk.own s = some k → w.disk.shared ≠ some k
  inj : ∀ s t k, w.disk.own s = some k → w.disk.own t = some k → s = t

/-- An event that only changes what a run has left, its flags and files. -/
theorem linv_same {w : World} (h : LInv w) (i : Nat) (d : Disk) (r : Run) (h1 : d.next = w.disk.next) (h2 : d.shared = w.disk.shared)
    (h3 : d.own = w.disk.own) (h4 : ∀ s, w.disk.dir s = true → d.dir s = true) (h5 : r.handle = (w.runs i).handle) :
    LInv { disk := d, runs := upd w.runs i r } := by
  refine ⟨fun j k hj => ?_, fun k hk => ?_, fun s k hk => ?_, fun s k hk => ?_, fun s k hk hc => ?_, fun s t k hs ht => ?_⟩
  · have hj' : (upd w.runs i r j).handle = some k := hj
    show k < d.next
    rw [h1]
    by_cases e : j = i
    · rw [e, upd_same, h5] at hj'
      exact h.handles i k hj'
    · rw [upd_ne _ _ e] at hj'
      exact h.handles j k hj'
  · show k < d.next
    rw [h1]
    exact h.shared k (h2 ▸ hk)
  · show k < d.next
    rw [h1]
    exact h.own s k (h3 ▸ hk)
  · exact h4 s (h.owner s k (h3 ▸ hk))
  · exact h.apart s k (h3 ▸ hk) (h2 ▸ hc)
  · exact h.inj s t k (h3 ▸ hs) (h3 ▸ ht)

theorem linv_step {S : Nat → Script} {w : World} (h : LInv w) (e : Nat × Act) : LInv (step S w e) := by
  rcases step_cases S w e with h0 | ⟨op, b, rest, hr, h1 | h1 | ⟨t, d, r, hx, h1⟩⟩
  · rw [h0]
    exact h
  · rw [h1]
    exact linv_same h e.1 w.disk _ rfl rfl rfl (fun _ x => x) rfl
  · rw [h1]
    exact linv_same h e.1 w.disk _ rfl rfl rfl (fun _ x => x) rfl
  · rw [h1]
    cases op <;> simp only [exec] at hx
    case openShared =>
      split at hx
      · rename_i k hk
        cases hx
        refine ⟨fun j k' hj => ?_, h.shared, h.own, h.owner, h.apart, h.inj⟩
        have hj' : (upd w.runs e.1 _ j).handle = some k' := hj
        by_cases e' : j = e.1
        · rw [e', upd_same] at hj'
          cases hj'
          exact h.shared k hk
        · rw [upd_ne _ _ e'] at hj'
          exact h.handles j k' hj'
      · cases hx
        refine ⟨fun j k' hj => ?_, fun k hk => ?_, fun s k hk => ?_, h.owner, fun s k hk hc => ?_, h.inj⟩
        · show k' < w.disk.next + 1
          have hj' : (upd w.runs e.1 _ j).handle = some k' := hj
          by_cases e' : j = e.1
          · rw [e', upd_same] at hj'
            cases hj'
            exact Nat.lt_succ_self _
          · rw [upd_ne _ _ e'] at hj'
            exact Nat.lt_succ_of_lt (h.handles j k' hj')
        · cases hk
          exact Nat.lt_succ_self _
        · exact Nat.lt_succ_of_lt (h.own s k hk)
        · cases hc
          exact absurd (h.own s _ hk) (Nat.lt_irrefl _)
    case openOwn =>
      split at hx
      swap
      · cases hx
      rename_i hdir
      split at hx
      · rename_i k hk
        cases hx
        refine ⟨fun j k' hj => ?_, h.shared, h.own, h.owner, h.apart, h.inj⟩
        have hj' : (upd w.runs e.1 _ j).handle = some k' := hj
        by_cases e' : j = e.1
        · rw [e', upd_same] at hj'
          cases hj'
          exact h.own _ k hk
        · rw [upd_ne _ _ e'] at hj'
          exact h.handles j k' hj'
      · cases hx
        have hown : ∀ s k, upd w.disk.own (w.runs e.1).name (some w.disk.next) s = some k →
            (s = (w.runs e.1).name ∧ k = w.disk.next) ∨ (s ≠ (w.runs e.1).name ∧ w.disk.own s = some k) := fun s k hk => by
          by_cases e' : s = (w.runs e.1).name
          · rw [e', upd_same] at hk
            cases hk
            exact .inl ⟨e', rfl⟩
          · rw [upd_ne _ _ e'] at hk
            exact .inr ⟨e', hk⟩
        refine ⟨fun j k' hj => ?_, fun k hk => Nat.lt_succ_of_lt (h.shared k hk), fun s k hk => ?_, fun s k hk => ?_, fun s k hk hc => ?_, fun s t k hs ht => ?_⟩
        · show k' < w.disk.next + 1
          have hj' : (upd w.runs e.1 _ j).handle = some k' := hj
          by_cases e' : j = e.1
          · rw [e', upd_same] at hj'
            cases hj'
            exact Nat.lt_succ_self _
          · rw [upd_ne _ _ e'] at hj'
            exact Nat.lt_succ_of_lt (h.handles j k' hj')
        · show k < w.disk.next + 1
          rcases hown s k hk with ⟨_, q⟩ | ⟨_, q⟩
          · omega
          · exact Nat.lt_succ_of_lt (h.own s k q)
        · rcases hown s k hk with ⟨q, _⟩ | ⟨_, q⟩
          · rw [q]
            exact hdir
          · exact h.owner s k q
        · rcases hown s k hk with ⟨_, q⟩ | ⟨_, q⟩
          · have := h.shared k hc
            omega
          · exact h.apart s k q hc
        · rcases hown s k hs with ⟨q1, q2⟩ | ⟨_, q⟩ <;> rcases hown t k ht with ⟨q3, q4⟩ | ⟨_, q'⟩
          · rw [q1, q3]
          · have := h.own t k q'
            omega
          · have := h.own s k q
            omega
          · exact h.inj s t k q q'
    case mkdir =>
      split at hx
      · cases hx
      · cases hx
        refine linv_same h e.1 _ _ rfl rfl rfl (fun s hs => ?_) rfl
        show upd _ _ _ s = true
        by_cases e' : s = (w.runs e.1).name
        · rw [e', upd_same]
        · rw [upd_ne _ _ e']
          exact hs
    case opened =>
      split at hx
      · cases hx
        exact linv_same h e.1 _ _ rfl rfl rfl (fun _ x => x) rfl
      · cases hx
    case note => split at hx <;> (cases hx; exact linv_same h e.1 _ _ rfl rfl rfl (fun _ x => x) rfl)
    case move =>
      split at hx
      swap
      · cases hx
      rename_i k0 hk0
      split at hx
      swap
      · cases hx
      rename_i hdir
      cases hx
      have hown : ∀ s k, upd w.disk.own (w.runs e.1).name (some k0) s = some k →
          (s = (w.runs e.1).name ∧ k = k0) ∨ (s ≠ (w.runs e.1).name ∧ w.disk.own s = some k) := fun s k hk => by
        by_cases e' : s = (w.runs e.1).name
        · rw [e', upd_same] at hk
          cases hk
          exact .inl ⟨e', rfl⟩
        · rw [upd_ne _ _ e'] at hk
          exact .inr ⟨e', hk⟩
      refine ⟨fun j k' hj => ?_, fun k hk => (by cases hk), fun s k hk => ?_, fun s k hk => ?_, fun s k hk hc => (by cases hc), fun s t k hs ht => ?_⟩
      · have hj' : (upd w.runs e.1 _ j).handle = some k' := hj
        refine h.handles j k' ?_
        by_cases e' : j = e.1
        · rw [e', upd_same] at hj'
          rw [e']
          exact hj'
        · rwa [upd_ne _ _ e'] at hj'
      · rcases hown s k hk with ⟨_, q⟩ | ⟨_, q⟩
        · rw [q]
          exact h.shared k0 hk0
        · exact h.own s k q
      · rcases hown s k hk with ⟨q, _⟩ | ⟨_, q⟩
        · rw [q]
          exact hdir
        · exact h.owner s k q
      · rcases hown s k hs with ⟨q1, q2⟩ | ⟨_, q⟩ <;> rcases hown t k ht with ⟨q3, q4⟩ | ⟨_, q'⟩
        · rw [q1, q3]
        · exact absurd (q2 ▸ hk0) (h.apart t k q')
        · exact absurd (q4 ▸ hk0) (h.apart s k q)
        · exact h.inj s t k q q'
    all_goals
      cases hx
      exact linv_same h e.1 _ _ rfl rfl rfl (fun _ x => x) rfl

theorem linv_after (S : Nat → Script) (es : List (Nat × Act)) : LInv (after S es) := by
  induction es using List.reverseRecOn with
  | nil => exact ⟨fun i k h => by simp [after, start, Script.atStart] at h, fun k h => by simp [after, start, Script.atStart] at h, fun s k h => by simp [after, start, Script.atStart] at h,
      fun s k h => by simp [after, start, Script.atStart] at h, fun s k h => by simp [after, start, Script.atStart] at h, fun s t k h => by simp [after, start, Script.atStart] at h⟩
  | append_singleton es e ih =>
    rw [after_snoc]
    exact linv_step ih e

/-! ### A log in the own directory -/

/-- The script neither opens nor moves `results/log.log`. -/
def aloof (l : List Op) : Bool := l.all fun o => o != .openShared && o != .move

/-- Records are written only when the log is open. -/
def logged : Bool → List Op → Bool
  | _, [] => true
  | h, .note :: l => h && logged h l
  | _, .openShared :: l => logged true l
  | _, .openOwn :: l => logged true l
  | h, .stamp :: l => logged h l
  | h, .mkdir :: l => logged h l
  | h, .opened _ :: l => logged h l
  | h, .closed _ :: l => logged h l
  | h, .part _ :: l => logged h l
  | h, .work :: l => logged h l
  | h, .move :: l => logged h l

theorem logged_all : ∀ s ∈ allScripts, logged false (s.prog.map Prod.fst) = true := by decide +kernel

/-- A run counts its records. -/
theorem notes_after {S : Nat → Script} (hS : ∀ i, S i ∈ allScripts) (es : List (Nat × Act)) (i : Nat) :
    live ((after S es).runs i) → logged ((after S es).runs i).handle.isSome (ops ((after S es).runs i)) = true ∧
      ((after S es).runs i).notes + (ops ((after S es).runs i)).count .note = ((S i).prog.map Prod.fst).count .note := by
  induction es using List.reverseRecOn with
  | nil => exact fun _ => ⟨logged_all _ (hS i), Nat.zero_add _⟩
  | append_singleton es e ih =>
    rw [after_snoc]
    generalize after S es = w at ih ⊢
    rcases step_cases S w e with h0 | ⟨op, b, rest, hr, h1 | h1 | ⟨t, d, r, hx, h1⟩⟩
    · rw [h0]
      exact ih
    all_goals
      rw [h1]
      show live (upd w.runs e.1 _ i) → logged (upd w.runs e.1 _ i).handle.isSome (ops (upd w.runs e.1 _ i)) = true ∧
        (upd w.runs e.1 _ i).notes + (ops (upd w.runs e.1 _ i)).count .note = _
      by_cases hi : i = e.1
      swap
      · rw [upd_ne _ _ hi]
        exact ih
      subst hi
      rw [upd_same]
      intro hv
    · simp [live] at hv
    · simp [live, fail] at hv
    · have hv' : live (w.runs e.1) := by
        obtain ⟨h2, h3⟩ := exec_flags hx
        exact ⟨h2 ▸ hv.1, h3 ▸ hv.2⟩
      obtain ⟨hl, hc⟩ := ih hv'
      rw [show ops (w.runs e.1) = op :: rest.map Prod.fst by simp [ops, hr]] at hl hc
      show logged r.handle.isSome (rest.map Prod.fst) = true ∧ r.notes + (rest.map Prod.fst).count .note = _
      cases op <;> simp only [exec] at hx
      case openShared =>
        rw [List.count_cons_of_ne (by simp)] at hc
        split at hx <;> (cases hx; exact ⟨hl, hc⟩)
      case openOwn =>
        rw [List.count_cons_of_ne (by simp)] at hc
        split at hx
        · split at hx <;> (cases hx; exact ⟨hl, hc⟩)
        · cases hx
      case mkdir =>
        rw [List.count_cons_of_ne (by simp)] at hc
        split at hx
        · cases hx
        · cases hx
          exact ⟨hl, hc⟩
      case opened =>
        rw [List.count_cons_of_ne (by simp)] at hc
        split at hx
        · cases hx
          exact ⟨hl, hc⟩
        · cases hx
      case note =>
        simp only [logged, Bool.and_eq_true] at hl
        rw [List.count_cons_self] at hc
        split at hx
        · cases hx
          refine ⟨hl.2, ?_⟩
          show (w.runs e.1).notes + 1 + _ = _
          omega
        · rename_i hn
          rw [hn] at hl
          simp at hl
      case move =>
        rw [List.count_cons_of_ne (by simp)] at hc
        split at hx
        · split at hx
          · cases hx
            exact ⟨hl, hc⟩
          · cases hx
        · cases hx
      all_goals
        rw [List.count_cons_of_ne (by simp)] at hc
        cases hx
        exact ⟨hl, hc⟩

theorem records_succ (i n : Nat) : records i (n + 1) = records i n ++ [(i, n)] := by
  simp [records, List.range_succ]

/-- What holds of a run that keeps away from `results/log.log`. -/
structure OInv (w : World) (i : Nat) : Prop where
  aloof : aloof (ops (w.runs i)) = true
  shut : (w.runs i).handle = none → (w.runs i).notes = 0 ∧ ((w.runs i).made = true → w.disk.own (w.runs i).name = none)
  opened : ∀ k, (w.runs i).handle = some k → (w.runs i).made = true ∧ w.disk.own (w.runs i).name = some k ∧
    w.disk.log k = records i (w.runs i).notes ∧ ∀ j, j ≠ i → (w.runs j).handle ≠ some k

/-- The log found in the directory of another run is not changed. -/
theorem own_other {S : Nat → Script} {w : World} (h : WInv S w) (hs : ∀ i, strict (w.runs i).made (w.runs i).todo = true)
    (e : Nat × Act) {i : Nat} (hi : i ≠ e.1) (hm : (w.runs i).made = true) :
    (step S w e).disk.own (w.runs i).name = w.disk.own (w.runs i).name := by
  have hne : (w.runs e.1).made = true → (w.runs i).name ≠ (w.runs e.1).name := fun he hc => hi (h.distinct i e.1 hm he hc)
  rcases step_cases S w e with h0 | ⟨op, b, rest, hr, h1 | h1 | ⟨t, d, r, hx, h1⟩⟩
  · rw [h0]
  · rw [h1]
  · rw [h1]
  · rw [h1]
    show d.own _ = _
    have hok := (h.run e.1).ok
    rw [show ops (w.runs e.1) = op :: rest.map Prod.fst by simp [ops, hr]] at hok
    have hst := hs e.1
    rw [hr] at hst
    cases op <;> simp only [exec] at hx
    case openShared => split at hx <;> (cases hx; rfl)
    case openOwn =>
      simp only [C115.ok, Bool.and_eq_true] at hok
      split at hx
      · split at hx
        · cases hx
          rfl
        · cases hx
          exact upd_ne _ _ (hne hok.1)
      · cases hx
    case mkdir =>
      split at hx
      · cases hx
      · cases hx
        rfl
    case opened =>
      split at hx
      · cases hx
        rfl
      · cases hx
    case note => split at hx <;> (cases hx; rfl)
    case move =>
      simp only [strict, Bool.and_eq_true, Bool.or_eq_true] at hst
      split at hx
      · split at hx
        · cases hx
          refine upd_ne _ _ (hne ?_)
          simpa using hst.1.2
        · cases hx
      · cases hx
    all_goals
      cases hx
      rfl

theorem oinv_step {S : Nat → Script} {w : World} (h : WInv S w) (hl : LInv w) (hs : ∀ i, strict (w.runs i).made (w.runs i).todo = true)
    (e : Nat × Act) (i : Nat) (ha : aloof (S i).handler = true) (ho : OInv w i) : OInv (step S w e) i := by
  by_cases hi : i = e.1
  · subst hi
    rcases step_cases S w e with h0 | ⟨op, b, rest, hr, h1 | h1 | ⟨t, d, r, hx, h1⟩⟩
    · rw [h0]
      exact ho
    · rw [h1]
      refine ⟨?_, ?_, ?_⟩ <;> simp only [upd_same]
      · rfl
      · exact ho.shut
      · intro k hk
        obtain ⟨a1, a2, a3, a4⟩ := ho.opened k hk
        exact ⟨a1, a2, a3, fun j hj => by rw [upd_ne _ _ hj]; exact a4 j hj⟩
    · rw [h1]
      refine ⟨?_, ?_, ?_⟩ <;> simp only [upd_same]
      · show C115.aloof (List.map Prod.fst (if b then plainly (S e.1).handler else [])) = true
        cases b
        · rfl
        · simpa [plainly, C115.aloof, Function.comp_def] using ha
      · exact ho.shut
      · intro k hk
        obtain ⟨a1, a2, a3, a4⟩ := ho.opened k hk
        exact ⟨a1, a2, a3, fun j hj => by rw [upd_ne _ _ hj]; exact a4 j hj⟩
    · rw [h1]
      have hal := ho.aloof
      rw [show ops (w.runs e.1) = op :: rest.map Prod.fst by simp [ops, hr]] at hal
      simp only [C115.aloof, List.all_cons, Bool.and_eq_true, bne_iff_ne, ne_eq] at hal
      obtain ⟨⟨hn1, hn2⟩, hal⟩ := hal
      have hok := (h.run e.1).ok
      rw [show ops (w.runs e.1) = op :: rest.map Prod.fst by simp [ops, hr]] at hok
      have keep : ∀ (d : Disk) (r : Run), r.handle = (w.runs e.1).handle → r.notes = (w.runs e.1).notes →
          r.made = (w.runs e.1).made → r.name = (w.runs e.1).name → d.own = w.disk.own → d.log = w.disk.log →
          OInv { disk := d, runs := upd w.runs e.1 { r with todo := rest } } e.1 := by
        intro d r b1 b2 b3 b4 b5 b6
        refine ⟨?_, ?_, ?_⟩ <;> simp only [upd_same]
        · simpa [C115.aloof, ops] using hal
        · rw [b1, b2, b3, b4, b5]
          exact ho.shut
        · intro k hk
          rw [b1] at hk
          rw [b2, b3, b4, b5, b6]
          obtain ⟨a1, a2, a3, a4⟩ := ho.opened k hk
          exact ⟨a1, a2, a3, fun j hj => by rw [upd_ne _ _ hj]; exact a4 j hj⟩
      cases op <;> simp only [exec] at hx
      case openShared => exact absurd rfl hn1
      case move => exact absurd rfl hn2
      case openOwn =>
        simp only [C115.ok, Bool.and_eq_true] at hok
        split at hx
        swap
        · cases hx
        split at hx
        · rename_i k hk
          cases hx
          have hhk : (w.runs e.1).handle = some k := by
            cases hh : (w.runs e.1).handle with
            | none =>
              have := (ho.shut hh).2 hok.1
              rw [hk] at this
              cases this
            | some k' =>
              have := (ho.opened k' hh).2.1
              rw [hk] at this
              exact this.symm
          refine keep w.disk { w.runs e.1 with handle := some k } hhk.symm rfl rfl rfl rfl rfl
        · rename_i hk
          cases hx
          have hnone : (w.runs e.1).handle = none := by
            cases hh : (w.runs e.1).handle with
            | none => rfl
            | some k' =>
              have := (ho.opened k' hh).2.1
              rw [hk] at this
              cases this
          refine ⟨?_, ?_, ?_⟩ <;> simp only [upd_same]
          · simpa [C115.aloof, ops] using hal
          · intro hc
            cases hc
          · intro k hk'
            cases hk'
            refine ⟨hok.1, rfl, ?_, fun j hj => ?_⟩
            · rw [(ho.shut hnone).1]
              exact upd_same _ _ _
            · rw [upd_ne _ _ hj]
              exact fun hc => absurd (hl.handles j _ hc) (Nat.lt_irrefl _)
      case stamp =>
        simp only [C115.ok, Bool.and_eq_true, Bool.not_eq_true'] at hok
        cases hx
        refine ⟨?_, ?_, ?_⟩ <;> simp only [upd_same]
        · simpa [C115.aloof, ops] using hal
        · exact fun hn => ⟨(ho.shut hn).1, fun hm => absurd (hok.1.symm.trans hm) (by simp)⟩
        · intro k hk
          exact absurd (hok.1.symm.trans (ho.opened k hk).1) (by simp)
      case mkdir =>
        simp only [C115.ok, Bool.and_eq_true, Bool.not_eq_true'] at hok
        split at hx
        · cases hx
        · rename_i hdir
          cases hx
          refine ⟨?_, ?_, ?_⟩ <;> simp only [upd_same]
          · simpa [C115.aloof, ops] using hal
          · refine fun hn => ⟨(ho.shut hn).1, fun _ => ?_⟩
            cases hc : w.disk.own (w.runs e.1).name with
            | none => rfl
            | some k => exact absurd (hl.owner _ k hc) hdir
          · intro k hk
            exact absurd (hok.1.symm.trans (ho.opened k hk).1) (by simp)
      case opened =>
        split at hx
        · cases hx
          exact keep _ _ rfl rfl rfl rfl rfl rfl
        · cases hx
      case note =>
        split at hx
        · rename_i k hk
          cases hx
          obtain ⟨a1, a2, a3, a4⟩ := ho.opened k hk
          refine ⟨?_, ?_, ?_⟩ <;> simp only [upd_same]
          · simpa [C115.aloof, ops] using hal
          · intro hc
            rw [hk] at hc
            cases hc
          · intro k' hk'
            rw [hk] at hk'
            cases hk'
            refine ⟨a1, a2, ?_, fun j hj => by rw [upd_ne _ _ hj]; exact a4 j hj⟩
            rw [upd_same, a3, records_succ]
        · cases hx
          exact keep _ _ rfl rfl rfl rfl rfl rfl
      all_goals
        cases hx
        exact keep _ _ rfl rfl rfl rfl rfl rfl
  · have hrun : (step S w e).runs i = w.runs i := by
      rcases step_cases S w e with h0 | ⟨op, b, rest, hr, h1 | h1 | ⟨t, d, r, hx, h1⟩⟩
      · rw [h0]
      all_goals
        rw [h1]
        exact upd_ne _ _ hi
    refine ⟨by rw [hrun]; exact ho.aloof, ?_, ?_⟩ <;> rw [hrun]
    · refine fun hn => ⟨(ho.shut hn).1, fun hm => ?_⟩
      rw [own_other h hs e hi hm]
      exact (ho.shut hn).2 hm
    · intro k hk
      obtain ⟨a1, a2, a3, a4⟩ := ho.opened k hk
      refine ⟨a1, by rw [own_other h hs e hi a1]; exact a2, ?_⟩
      have hke : (w.runs e.1).handle ≠ some k := a4 e.1 (Ne.symm hi)
      have hkn : k < w.disk.next := hl.own _ k a2
      have hks : w.disk.shared ≠ some k := hl.apart _ k a2
      suffices hh : (step S w e).disk.log k = w.disk.log k ∧ ((step S w e).runs e.1).handle ≠ some k by
        refine ⟨hh.1.trans a3, fun j hj => ?_⟩
        by_cases hje : j = e.1
        · rw [hje]
          exact hh.2
        · have : (step S w e).runs j = w.runs j := by
            rcases step_cases S w e with h0 | ⟨op, b, rest, hr, h1 | h1 | ⟨t, d, r, hx, h1⟩⟩
            · rw [h0]
            all_goals
              rw [h1]
              exact upd_ne _ _ hje
          rw [this]
          exact a4 j hj
      rcases step_cases S w e with h0 | ⟨op, b, rest, hr, h1 | h1 | ⟨t, d, r, hx, h1⟩⟩
      · rw [h0]
        exact ⟨rfl, hke⟩
      · rw [h1]
        refine ⟨rfl, ?_⟩
        show (upd w.runs e.1 _ e.1).handle ≠ _
        rw [upd_same]
        exact hke
      · rw [h1]
        refine ⟨rfl, ?_⟩
        show (upd w.runs e.1 _ e.1).handle ≠ _
        rw [upd_same]
        exact hke
      · rw [h1]
        show d.log k = w.disk.log k ∧ (upd w.runs e.1 _ e.1).handle ≠ _
        rw [upd_same]
        show d.log k = w.disk.log k ∧ r.handle ≠ some k
        have hok := (h.run e.1).ok
        rw [show ops (w.runs e.1) = op :: rest.map Prod.fst by simp [ops, hr]] at hok
        cases op <;> simp only [exec] at hx
        case openShared =>
          split at hx
          · rename_i k' hk'
            cases hx
            exact ⟨rfl, fun hc => hks (by rw [hk']; exact hc)⟩
          · cases hx
            refine ⟨upd_ne _ _ (Nat.ne_of_lt hkn), fun hc => ?_⟩
            cases hc
            exact Nat.lt_irrefl _ hkn
        case openOwn =>
          simp only [C115.ok, Bool.and_eq_true] at hok
          split at hx
          swap
          · cases hx
          split at hx
          · rename_i k' hk'
            cases hx
            refine ⟨rfl, fun hc => ?_⟩
            cases hc
            exact hi (h.distinct i e.1 a1 hok.1 (hl.inj _ _ _ a2 hk'))
          · cases hx
            refine ⟨upd_ne _ _ (Nat.ne_of_lt hkn), fun hc => ?_⟩
            cases hc
            exact Nat.lt_irrefl _ hkn
        case mkdir =>
          split at hx
          · cases hx
          · cases hx
            exact ⟨rfl, hke⟩
        case opened =>
          split at hx
          · cases hx
            exact ⟨rfl, hke⟩
          · cases hx
        case note =>
          split at hx
          · rename_i k' hk'
            cases hx
            exact ⟨upd_ne _ _ (fun hc => hke (by rw [hk', hc])), hke⟩
          · cases hx
            exact ⟨rfl, hke⟩
        case move =>
          split at hx
          · split at hx
            · cases hx
              exact ⟨rfl, hke⟩
            · cases hx
          · cases hx
        all_goals
          cases hx
          exact ⟨rfl, hke⟩

theorem oinv_after {S : Nat → Script} (hS : ∀ i, S i ∈ scripts) (es : List (Nat × Act)) (i : Nat)
    (ha : aloof ((S i).prog.map Prod.fst) = true) (hb : aloof (S i).handler = true) : OInv (after S es) i := by
  induction es using List.reverseRecOn with
  | nil => exact ⟨ha, fun _ => ⟨rfl, fun h => absurd h (by simp [after, start, Script.atStart])⟩, fun k h => by simp [after, start, Script.atStart] at h⟩
  | append_singleton es e ih =>
    rw [after_snoc]
    exact oinv_step (winv_after (fun i => fine_scripts _ (hS i)) es) (linv_after S es) (strict_after hS es) e i hb ih

/-- **C115.** The scripts of the recorded experiments, which open their log inside their directory, find there at every moment exactly the records
they have written, in order, whatever runs beside them; after they have returned, all of them. -/
theorem c115_own_log (S : Nat → Script) (hS : ∀ i, S i ∈ scripts) (es : List (Nat × Act)) (i : Nat)
    (hi : S i = recordedScript ∨ S i = unifiedScript) (hm : ((after S es).runs i).made = true) :
    (((after S es).runs i).handle = none → (after S es).disk.logIn ((after S es).runs i).name = none) ∧
    (((after S es).runs i).handle ≠ none → (after S es).disk.logIn ((after S es).runs i).name = some (records i ((after S es).runs i).notes)) ∧
    (((after S es).runs i).returned → (after S es).disk.logIn ((after S es).runs i).name = some (records i 3)) := by
  have ha : aloof ((S i).prog.map Prod.fst) = true ∧ aloof (S i).handler = true ∧ ((S i).prog.map Prod.fst).count .note = 3 ∧
      (.openOwn ∈ (S i).prog.map Prod.fst) := by
    rcases hi with h | h <;> rw [h] <;> decide +kernel
  have ho := oinv_after hS es i ha.1 ha.2.1
  have h2 : ((after S es).runs i).handle ≠ none →
      (after S es).disk.logIn ((after S es).runs i).name = some (records i ((after S es).runs i).notes) := fun h => by
    cases hk : ((after S es).runs i).handle with
    | none => exact absurd hk h
    | some k =>
      obtain ⟨_, a2, a3, _⟩ := ho.opened k hk
      rw [Disk.logIn, a2, Option.map_some, a3]
  refine ⟨fun h => ?_, h2, fun hr => ?_⟩
  · rw [Disk.logIn, (ho.shut h).2 hm]
    rfl
  · have hn := (notes_after (fun i => List.mem_cons_of_mem _ (hS i)) es i hr.2).2
    rw [show ops ((after S es).runs i) = [] by simp [ops, hr.1], ha.2.2.1] at hn
    have hn' : ((after S es).runs i).notes = 3 := hn
    have : ((after S es).runs i).handle ≠ none := fun hc => by
      have := (ho.shut hc).1
      omega
    rw [h2 this, hn']

/-! ### The shared log -/

/-- The shared log is opened first and once; it is moved at the very end. -/
def sharing : Bool → List (Op × Bool) → Bool
  | _, [] => true
  | h, (.openShared, b) :: l => !b && !h && sharing true l
  | _, (.openOwn, _) :: _ => false
  | h, (.move, _) :: l => h && l.isEmpty
  | h, (.stamp, b) :: l => (!b || h) && sharing h l
  | h, (.mkdir, b) :: l => (!b || h) && sharing h l
  | h, (.opened _, b) :: l => (!b || h) && sharing h l
  | h, (.closed _, b) :: l => (!b || h) && sharing h l
  | h, (.part _, b) :: l => (!b || h) && sharing h l
  | h, (.note, b) :: l => (!b || h) && sharing h l
  | h, (.work, b) :: l => (!b || h) && sharing h l

theorem sharing_all : ∀ s ∈ sharedLogScripts, sharing false s.prog = true ∧ sharing true (plainly s.handler) = true ∧ s ∈ scripts := by
  have h : ∀ s ∈ sharedLogScripts, sharing false s.prog = true ∧ sharing true (plainly s.handler) = true := by decide +kernel
  refine fun s hs => ⟨(h s hs).1, (h s hs).2, ?_⟩
  have : sharedLogScripts <+: scripts := ⟨_, rfl⟩
  exact this.subset hs

/-- What has happened to the logs since run `i` began in the state `w`. -/
structure SInv (w w' : World) (i : Nat) : Prop where
  shape : sharing (w'.runs i).handle.isSome (w'.runs i).todo = true
  shut : (w'.runs i).handle = none → w'.disk.log = w.disk.log ∧ w'.disk.shared = w.disk.shared ∧ w'.disk.own = w.disk.own ∧
    w'.disk.next = w.disk.next ∧ (w'.runs i).notes = 0 ∧ (w'.runs i).moved = false
  opened : ∀ k, (w'.runs i).handle = some k → w'.disk.log k = w.disk.leftover ++ records i (w'.runs i).notes ∧
    (∀ s m, w.disk.own s = some m → m ≠ k ∧ w'.disk.log m = w.disk.log m) ∧
    ((w'.runs i).moved = false → w'.disk.shared = some k ∧ w'.disk.own = w.disk.own) ∧
    ((w'.runs i).moved = true → w'.disk.shared = none ∧ w'.disk.own = upd w.disk.own (w'.runs i).name (some k) ∧
      (w'.runs i).made = true ∧ (w'.runs i).todo = [])

theorem sharing_fail {h : Bool} {op : Op} {b : Bool} {l : List (Op × Bool)} (hs : sharing h ((op, b) :: l) = true) :
    b = true → h = true := by
  intro hb
  subst hb
  cases op <;> simp [sharing] at hs <;> exact hs.1

theorem sharing_tail {h : Bool} {op : Op} {b : Bool} {l : List (Op × Bool)} (hs : sharing h ((op, b) :: l) = true) (h1 : op ≠ .move)
    (h2 : op ≠ .openShared) : op ≠ .openOwn ∧ sharing h l = true := by
  cases op <;> simp [sharing] at hs h1 h2 ⊢ <;> exact hs.2

theorem sinv_step {S : Nat → Script} {w w' : World} (hl : LInv w) (i : Nat) (a : Act)
    (hst : strict (w'.runs i).made (w'.runs i).todo = true)
    (hh : sharing true (plainly (S i).handler) = true) (h : SInv w w' i) : SInv w (step S w' (i, a)) i := by
  have keep : ∀ (d : Disk) (r : Run) (todo : List (Op × Bool)), (w'.runs i).todo ≠ [] → r.handle = (w'.runs i).handle → r.notes = (w'.runs i).notes →
      r.moved = (w'.runs i).moved → d.own = w'.disk.own → d.log = w'.disk.log → d.shared = w'.disk.shared → d.next = w'.disk.next →
      sharing (w'.runs i).handle.isSome todo = true →
      SInv w { disk := d, runs := upd w'.runs i { r with todo := todo } } i := by
    intro d r todo hne b1 b2 b3 b4 b5 b6 b7 hsh
    refine ⟨?_, ?_, ?_⟩ <;> simp only [upd_same]
    · rw [b1]
      exact hsh
    · rw [b1, b2, b3, b4, b5, b6, b7]
      exact h.shut
    · intro k hk
      rw [b1] at hk
      obtain ⟨a1, a2, a3, a4⟩ := h.opened k hk
      rw [b2, b3, b4, b5, b6]
      exact ⟨a1, a2, a3, fun hm => absurd (a4 hm).2.2.2 hne⟩
  rcases step_cases S w' (i, a) with h0 | ⟨op, b, rest, hr, h1 | h1 | ⟨t, d, r, hx, h1⟩⟩
  · rw [h0]
    exact h
  · rw [h1]
    exact keep w'.disk { w'.runs i with killed := true } [] (by simp [hr]) rfl rfl rfl rfl rfl rfl rfl rfl
  · rw [h1]
    have hsh := h.shape
    simp only at hr
    rw [hr] at hsh
    refine keep w'.disk { w'.runs i with failing := true } (if b then plainly (S i).handler else []) (by simp [hr]) rfl rfl rfl rfl rfl rfl rfl ?_
    cases b with
    | false => rfl
    | true =>
      rw [sharing_fail hsh rfl]
      exact hh
  · rw [h1]
    simp only at hr hx ⊢
    have hsh := h.shape
    rw [hr] at hsh
    have hne : (w'.runs i).todo ≠ [] := by simp [hr]
    have hmv : ∀ k, (w'.runs i).handle = some k → (w'.runs i).moved = false := fun k hk => by
      cases hm : (w'.runs i).moved with
      | false => rfl
      | true => exact absurd ((h.opened k hk).2.2.2 hm).2.2.2 hne
    by_cases hop : op = .move
    · subst hop
      simp only [sharing, Bool.and_eq_true, List.isEmpty_iff] at hsh
      obtain ⟨k, hk⟩ := Option.isSome_iff_exists.1 hsh.1
      obtain ⟨a1, a2, a3, _⟩ := h.opened k hk
      obtain ⟨c1, c2⟩ := a3 (hmv k hk)
      rw [hr] at hst
      simp only [strict, Bool.and_eq_true, Bool.or_eq_true] at hst
      have hmade : (w'.runs i).made = true := by simpa using hst.1.2
      simp only [exec, c1] at hx
      split at hx
      swap
      · cases hx
      cases hx
      rw [hsh.2]
      refine ⟨?_, ?_, ?_⟩ <;> simp only [upd_same]
      · rfl
      · intro hc
        rw [hk] at hc
        cases hc
      · intro k' hk'
        rw [hk] at hk'
        cases hk'
        exact ⟨a1, a2, fun hc => (by cases hc), fun _ => ⟨trivial, by rw [c2], hmade, trivial⟩⟩
    · by_cases hop2 : op = .openShared
      · subst hop2
        simp only [sharing, Bool.and_eq_true, Bool.not_eq_true'] at hsh
        have hnone : (w'.runs i).handle = none := by
          cases hc : (w'.runs i).handle with
          | none => rfl
          | some k =>
            rw [hc] at hsh
            simp at hsh
        obtain ⟨b1, b2, b3, b4, b5, b6⟩ := h.shut hnone
        simp only [exec] at hx
        split at hx
        · rename_i k0 hk0
          cases hx
          refine ⟨?_, ?_, ?_⟩ <;> simp only [upd_same]
          · exact hsh.2
          · intro hc
            cases hc
          · intro k hk
            cases hk
            rw [b2] at hk0
            refine ⟨?_, fun s m hm => ⟨fun hc => ?_, by rw [b1]⟩, fun _ => ⟨by rw [b2, hk0], b3⟩, fun hc => absurd (b6.symm.trans hc) (by simp)⟩
            · rw [b1, b5, Disk.leftover, hk0]
              simp [records]
            · exact hl.apart s m hm (by rw [hk0, hc])
        · rename_i hk0
          cases hx
          refine ⟨?_, ?_, ?_⟩ <;> simp only [upd_same]
          · exact hsh.2
          · intro hc
            cases hc
          · intro k hk
            cases hk
            rw [b2] at hk0
            have hmne : ∀ s m, w.disk.own s = some m → m ≠ w'.disk.next := fun s m hm => by
              rw [b4]
              exact Nat.ne_of_lt (hl.own s m hm)
            refine ⟨?_, fun s m hm => ⟨hmne s m hm, ?_⟩, fun _ => ⟨rfl, b3⟩, fun hc => absurd (b6.symm.trans hc) (by simp)⟩
            · rw [b5, Disk.leftover, hk0]
              show upd _ _ _ _ = _
              rw [upd_same]
              rfl
            · show upd _ _ _ m = _
              rw [upd_ne _ _ (hmne s m hm), b1]
      · obtain ⟨hno, hsh'⟩ := sharing_tail hsh hop hop2
        cases op <;> simp only [exec] at hx
        case openShared => exact absurd rfl hop2
        case move => exact absurd rfl hop
        case openOwn => exact absurd rfl hno
        case mkdir =>
          split at hx
          · cases hx
          · cases hx
            exact keep _ { w'.runs i with made := true } rest hne rfl rfl rfl rfl rfl rfl rfl hsh'
        case opened =>
          split at hx
          · cases hx
            exact keep _ (w'.runs i) rest hne rfl rfl rfl rfl rfl rfl rfl hsh'
          · cases hx
        case note =>
          split at hx
          · rename_i k hk
            cases hx
            obtain ⟨a1, a2, a3, a4⟩ := h.opened k hk
            refine ⟨?_, ?_, ?_⟩ <;> simp only [upd_same]
            · exact hsh'
            · intro hc
              rw [hk] at hc
              cases hc
            · intro k' hk'
              rw [hk] at hk'
              cases hk'
              refine ⟨by rw [upd_same, a1, records_succ, List.append_assoc], fun s m hm => ⟨(a2 s m hm).1, ?_⟩, a3, fun hc => absurd ((hmv k hk).symm.trans hc) (by simp)⟩
              rw [upd_ne _ _ (a2 s m hm).1]
              exact (a2 s m hm).2
          · cases hx
            exact keep _ (w'.runs i) rest hne rfl rfl rfl rfl rfl rfl rfl hsh'
        case stamp =>
          cases hx
          exact keep _ { w'.runs i with name := t } rest hne rfl rfl rfl rfl rfl rfl rfl hsh'
        all_goals
          cases hx
          exact keep _ (w'.runs i) rest hne rfl rfl rfl rfl rfl rfl rfl hsh'

/-- A run that has not failed has moved the log or is still to move it. -/
theorem move_after {S : Nat → Script} (es : List (Nat × Act)) (i : Nat) (hi : .move ∈ (S i).prog.map Prod.fst) :
    live ((after S es).runs i) → ((after S es).runs i).moved = true ∨ .move ∈ ops ((after S es).runs i) := by
  induction es using List.reverseRecOn with
  | nil => exact fun _ => .inr hi
  | append_singleton es e ih =>
    rw [after_snoc]
    generalize after S es = w at ih ⊢
    rcases step_cases S w e with h0 | ⟨op, b, rest, hr, h1 | h1 | ⟨t, d, r, hx, h1⟩⟩
    · rw [h0]
      exact ih
    all_goals
      rw [h1]
      show live (upd w.runs e.1 _ i) → (upd w.runs e.1 _ i).moved = true ∨ .move ∈ ops (upd w.runs e.1 _ i)
      by_cases hi : i = e.1
      swap
      · rw [upd_ne _ _ hi]
        exact ih
      subst hi
      rw [upd_same]
      intro hv
    · simp [live] at hv
    · simp [live, fail] at hv
    · have hv' : live (w.runs e.1) := by
        obtain ⟨h2, h3⟩ := exec_flags hx
        exact ⟨h2 ▸ hv.1, h3 ▸ hv.2⟩
      show r.moved = true ∨ .move ∈ rest.map Prod.fst
      have hm := ih hv'
      rw [show ops (w.runs e.1) = op :: rest.map Prod.fst by simp [ops, hr]] at hm
      have key : r.moved = ((w.runs e.1).moved || op == .move) := by
        cases op <;> simp only [exec] at hx
        case openShared => split at hx <;> (cases hx; simp)
        case openOwn =>
          split at hx
          · split at hx <;> (cases hx; simp)
          · cases hx
        case mkdir =>
          split at hx
          · cases hx
          · cases hx
            simp
        case opened =>
          split at hx
          · cases hx
            simp
          · cases hx
        case note => split at hx <;> (cases hx; simp)
        case move =>
          split at hx
          · split at hx
            · cases hx
              simp
            · cases hx
          · cases hx
        all_goals
          cases hx
          simp
      rcases hm with hm | hm
      · exact .inl (by rw [key, hm]; rfl)
      · rcases List.mem_cons.1 hm with hm | hm
        · exact .inl (by rw [key, ← hm]; simp)
        · exact .inr hm

theorem sinv_after {S : Nat → Script} (hS : ∀ j, S j ∈ scripts) (es : List (Nat × Act)) (i : Nat) (hi : S i ∈ sharedLogScripts)
    (h0 : (after S es).runs i = (S i).atStart) (fs : List Act) : SInv (after S es) (after S (es ++ fs.map fun a => (i, a))) i := by
  obtain ⟨h1, h2, _⟩ := sharing_all _ hi
  induction fs using List.reverseRecOn with
  | nil =>
    rw [List.map_nil, List.append_nil]
    refine ⟨by rw [h0]; exact h1, fun _ => ⟨rfl, rfl, rfl, rfl, by rw [h0]; rfl, by rw [h0]; rfl⟩, fun k hk => ?_⟩
    rw [h0] at hk
    cases hk
  | append_singleton fs a ih =>
    rw [List.map_append, List.map_singleton, ← List.append_assoc, after_snoc]
    exact sinv_step (linv_after S es) i a (strict_after hS _ i) h2 ih

/-- A directory that was made stays, with its maker. -/
theorem made_stays {S : Nat → Script} (hS : ∀ j, S j ∈ scripts) (es : List (Nat × Act)) (i : Nat) (hm : ((after S es).runs i).made = true)
    (fs : List (Nat × Act)) (hf : ∀ e ∈ fs, e.1 ≠ i) : (after S (es ++ fs)).runs i = (after S es).runs i := by
  induction fs using List.reverseRecOn with
  | nil => rw [List.append_nil]
  | append_singleton fs e ih =>
    have hi := ih fun e he => hf e (List.mem_append_left _ he)
    rw [← List.append_assoc, after_snoc]
    rw [(step_other (winv_after (fun i => fine_scripts _ (hS i)) _) e (Ne.symm (hf e (by simp))) (by rw [hi]; exact hm)).1]
    exact hi

/-- **C115.** The shared log, one run after the other. Let anything have happened before, let run `i` begin now and let no other run act until it is over.
The logs in all directories that are already there stay as they are. If the run moves the log, its directory then holds what had been left
in `results/log.log` by runs before it, followed by exactly its own records in order, and `results/log.log` is gone. If it does not (it was killed, or
raised before the `try`), its records are left for the next run. A run that returns has moved the log, with all its records. -/
theorem c115_shared_log (S : Nat → Script) (hS : ∀ j, S j ∈ scripts) (es : List (Nat × Act)) (i : Nat) (hi : S i ∈ sharedLogScripts)
    (h0 : (after S es).runs i = (S i).atStart) (fs : List Act) :
    let w := after S es
    let w' := after S (es ++ fs.map fun a => (i, a))
    (∀ s, w.disk.dir s = true → w'.disk.logIn s = w.disk.logIn s) ∧
    ((w'.runs i).moved = true → w'.disk.logIn (w'.runs i).name = some (w.disk.leftover ++ records i (w'.runs i).notes) ∧ w'.disk.shared = none) ∧
    ((w'.runs i).moved = false → w'.disk.leftover = w.disk.leftover ++ records i (w'.runs i).notes) ∧
    ((w'.runs i).returned → (w'.runs i).moved = true ∧ (w'.runs i).notes = ((S i).prog.map Prod.fst).count .note) := by
  intro w w'
  have h := sinv_after hS es i hi h0 fs
  have hW := winv_after (fun j => fine_scripts _ (hS j)) es
  have hW' := winv_after (fun j => fine_scripts _ (hS j)) (es ++ fs.map fun a => (i, a))
  refine ⟨fun s hs => ?_, fun hm => ?_, fun hm => ?_, fun hr => ?_⟩
  · cases hk : (w'.runs i).handle with
    | none =>
      obtain ⟨b1, b2, b3, _⟩ := h.shut hk
      show (w'.disk.own s).map w'.disk.log = (w.disk.own s).map w.disk.log
      rw [b1, b3]
    | some k =>
      obtain ⟨a1, a2, a3, a4⟩ := h.opened k hk
      have ho : w'.disk.own s = w.disk.own s := by
        cases hm : (w'.runs i).moved with
        | false => rw [(a3 hm).2]
        | true =>
          rw [(a4 hm).2.1]
          refine upd_ne _ _ fun hc => ?_
          obtain ⟨j, hj1, hj2⟩ := hW.owner s hs
          have hji : j ≠ i := fun e => by
            rw [e, h0] at hj1
            cases hj1
          have hst := made_stays hS es j hj1 (fs.map fun a => (i, a)) (fun e he => by
            obtain ⟨a, _, rfl⟩ := List.mem_map.1 he
            exact Ne.symm hji)
          refine hji (hW'.distinct j i (by rw [hst]; exact hj1) (a4 hm).2.2.1 ?_)
          rw [hst]
          exact hj2.trans hc
      show (w'.disk.own s).map w'.disk.log = (w.disk.own s).map w.disk.log
      rw [ho]
      cases hc : w.disk.own s with
      | none => rfl
      | some m => exact congrArg some (a2 s m hc).2
  · cases hk : (w'.runs i).handle with
    | none => exact absurd ((h.shut hk).2.2.2.2.2.symm.trans hm) (by simp)
    | some k =>
      obtain ⟨a1, a2, a3, a4⟩ := h.opened k hk
      obtain ⟨c1, c2, _⟩ := a4 hm
      refine ⟨?_, c1⟩
      show (w'.disk.own (w'.runs i).name).map w'.disk.log = _
      rw [c2, upd_same, Option.map_some, a1]
  · cases hk : (w'.runs i).handle with
    | none =>
      obtain ⟨b1, b2, b3, b4, b5, b6⟩ := h.shut hk
      show (w'.disk.shared.map w'.disk.log).getD [] = _
      rw [b1, b2, b5]
      simp [records, Disk.leftover, w]
    | some k =>
      obtain ⟨a1, a2, a3, a4⟩ := h.opened k hk
      show (w'.disk.shared.map w'.disk.log).getD [] = _
      rw [(a3 hm).1, Option.map_some, Option.getD_some, a1]
  · have hin : .move ∈ (S i).prog.map Prod.fst := by
      have : ∀ s ∈ sharedLogScripts, .move ∈ s.prog.map Prod.fst := by decide +kernel
      exact this _ hi
    have hops : ops (w'.runs i) = [] := by simp [ops, hr.1]
    refine ⟨?_, ?_⟩
    · rcases move_after (es ++ fs.map fun a => (i, a)) i hin hr.2 with hm | hm
      · exact hm
      · have hm' : .move ∈ ops (w'.runs i) := hm
        rw [hops] at hm'
        cases hm'
    · have := (notes_after (fun j => List.mem_cons_of_mem _ (hS j)) (es ++ fs.map fun a => (i, a)) i hr.2).2
      have this' : (w'.runs i).notes + (ops (w'.runs i)).count .note = _ := this
      rw [hops] at this'
      exact this'

/-- The events of other runs do not change a run. -/
theorem run_other (S : Nat → Script) (es fs : List (Nat × Act)) (i : Nat) (hf : ∀ e ∈ fs, e.1 ≠ i) :
    (after S (es ++ fs)).runs i = (after S es).runs i := by
  induction fs using List.reverseRecOn with
  | nil => rw [List.append_nil]
  | append_singleton fs e ih =>
    rw [← List.append_assoc, after_snoc, ← ih fun e he => hf e (List.mem_append_left _ he)]
    generalize after S (es ++ fs) = w
    have hi : i ≠ e.1 := Ne.symm (hf e (by simp))
    rcases step_cases S w e with h0 | ⟨op, b, rest, hr, h1 | h1 | ⟨t, d, r, hx, h1⟩⟩
    · rw [h0]
    all_goals
      rw [h1]
      exact upd_ne _ _ hi

/-- **C115.** Runs with the shared log, one after the other, each of which returns: in the end every directory holds all files of its run and
exactly the records of its run. -/
theorem c115_sequential (S : Nat → Script) (hS : ∀ j, S j ∈ scripts) (blocks : List (Nat × List Act)) (hn : (blocks.map Prod.fst).Nodup)
    (hb : ∀ b ∈ blocks, S b.1 ∈ sharedLogScripts)
    (hr : ∀ b ∈ blocks, ((after S (blocks.flatMap fun b => b.2.map fun a => (b.1, a))).runs b.1).returned) :
    let w := after S (blocks.flatMap fun b => b.2.map fun a => (b.1, a))
    w.disk.shared = none ∧ ∀ b ∈ blocks,
      w.disk.logIn (w.runs b.1).name = some (records b.1 (((S b.1).prog.map Prod.fst).count .note)) ∧
      ∀ n ∈ fileNames (S b.1).prog, w.disk.file (w.runs b.1).name n = some (b.1, true) := by
  have key : (after S (blocks.flatMap fun b => b.2.map fun a => (b.1, a))).disk.shared = none ∧ ∀ b ∈ blocks,
      (after S (blocks.flatMap fun b => b.2.map fun a => (b.1, a))).disk.logIn ((after S (blocks.flatMap fun b => b.2.map fun a => (b.1, a))).runs b.1).name =
        some (records b.1 (((S b.1).prog.map Prod.fst).count .note)) := by
    induction blocks using List.reverseRecOn with
    | nil => exact ⟨rfl, fun b hb => by cases hb⟩
    | append_singleton bs b ih =>
      obtain ⟨i, fs⟩ := b
      simp only [List.map_append, List.map_cons, List.map_nil, List.nodup_append, List.mem_map, List.mem_singleton] at hn
      have hne : ∀ c ∈ bs, c.1 ≠ i := fun c hc => hn.2.2 c.1 ⟨c, hc, rfl⟩ i rfl
      simp only [List.flatMap_append, List.flatMap_cons, List.flatMap_nil, List.append_nil] at hr ⊢
      generalize hes : (bs.flatMap fun b => b.2.map fun a => (b.1, a)) = es at ih hr ⊢
      have hother : ∀ e ∈ es, e.1 ≠ i := fun e he => by
        rw [← hes] at he
        obtain ⟨c, hc, he⟩ := List.mem_flatMap.1 he
        obtain ⟨a, _, rfl⟩ := List.mem_map.1 he
        exact hne c hc
      have hsame : ∀ c ∈ bs, (after S (es ++ fs.map fun a => (i, a))).runs c.1 = (after S es).runs c.1 := fun c hc =>
        run_other S es _ c.1 fun e he => by
          obtain ⟨a, _, rfl⟩ := List.mem_map.1 he
          exact Ne.symm (hne c hc)
      obtain ⟨hsh, hlog⟩ := ih hn.1 (fun c hc => hb c (List.mem_append_left _ hc)) (fun c hc => by
        have := hr c (List.mem_append_left _ hc)
        rwa [hsame c hc] at this)
      have h0 : (after S es).runs i = (S i).atStart := by
        have := run_other S [] es i hother
        rwa [List.nil_append] at this
      obtain ⟨d1, d2, d3, d4⟩ := c115_shared_log S hS es i (hb (i, fs) (by simp)) h0 fs
      obtain ⟨hm, hc⟩ := d4 (hr (i, fs) (by simp))
      obtain ⟨e1, e2⟩ := d2 hm
      refine ⟨e2, fun c hc' => ?_⟩
      rcases List.mem_append.1 hc' with hc' | hc'
      · rw [hsame c hc', d1, hlog c hc']
        have hrc := hr c (List.mem_append_left _ hc')
        rw [hsame c hc'] at hrc
        exact (winv_after (fun j => fine_scripts _ (hS j)) es).dirOf c.1
          ((c115_order S (fun j => List.mem_cons_of_mem _ (hS j)) es c.1).2 hrc).1
      · rw [List.mem_singleton] at hc'
        subst hc'
        simp only
        rw [e1, hc, Disk.leftover, hsh]
        rfl
  exact ⟨key.1, fun b hb' => ⟨key.2 b hb', ((c115_order S (fun j => List.mem_cons_of_mem _ (hS j)) _ b.1).2 (hr b hb')).2⟩⟩

/-! ### The timestamp -/

open NR.Command (textN digits isDigit value)

theorem split_sep {sep : Char} : ∀ {a b r s : List Char}, sep ∉ a → sep ∉ b → a ++ sep :: r = b ++ sep :: s → a = b ∧ r = s
  | [], [], r, s, _, _, h => by
    rw [List.nil_append, List.nil_append, List.cons.injEq] at h
    exact ⟨rfl, h.2⟩
  | [], y :: b, r, s, _, hb, h => by
    rw [List.nil_append, List.cons_append, List.cons.injEq] at h
    exact absurd (h.1 ▸ List.mem_cons_self) hb
  | x :: a, [], r, s, ha, _, h => by
    rw [List.nil_append, List.cons_append, List.cons.injEq] at h
    exact absurd (h.1 ▸ List.mem_cons_self) ha
  | x :: a, y :: b, r, s, ha, hb, h => by
    rw [List.cons_append, List.cons_append, List.cons.injEq] at h
    obtain ⟨h1, h2⟩ := split_sep (fun hc => ha (List.mem_cons_of_mem _ hc)) (fun hc => hb (List.mem_cons_of_mem _ hc)) h.2
    exact ⟨by rw [h.1, h1], h2⟩

theorem textN_mem {n : Nat} {c : Char} (h : c ∈ textN n) : isDigit c = true := by
  obtain ⟨_, _, _, _, hall⟩ := digits_cons (textN_digits n)
  exact hall c h

theorem textN_inj {a b : Nat} (h : textN a = textN b) : a = b := by
  rw [← textN_value a, h, textN_value]

theorem padded_mem {w n : Nat} {c : Char} (h : c ∈ padded w n) : isDigit c = true := by
  rcases List.mem_append.1 h with h | h
  · rw [(List.mem_replicate.1 h).2]
    decide
  · exact textN_mem h

theorem padded_value (w n : Nat) : value (padded w n) = n := by
  unfold padded
  generalize w - (textN n).length = k
  induction k with
  | zero => exact textN_value n
  | succ k ih =>
    unfold value at ih ⊢
    rw [List.replicate_succ, List.cons_append, List.reverse_cons, List.map_append, Nat.ofDigits_append, ih]
    simp

theorem no_dash {c : List Char} (h : ∀ x ∈ c, isDigit x = true) : '-' ∉ c ∧ '_' ∉ c :=
  ⟨fun hc => absurd (h _ hc) (by decide), fun hc => absurd (h _ hc) (by decide)⟩

theorem dateText_inj {c c' : Clock} (h : dateText c = dateText c') : c.year = c'.year ∧ c.month = c'.month ∧ c.day = c'.day := by
  unfold dateText at h
  simp only [List.append_assoc, List.cons_append] at h
  have hd : ∀ w n, '-' ∉ padded w n := fun w n => (no_dash fun x hx => padded_mem hx).1
  obtain ⟨h1, h2⟩ := split_sep (hd _ _) (hd _ _) h
  obtain ⟨h2, h3⟩ := split_sep (hd _ _) (hd _ _) h2
  exact ⟨by rw [← padded_value 4 c.year, h1, padded_value], by rw [← padded_value 2 c.month, h2, padded_value],
    by rw [← padded_value 2 c.day, h3, padded_value]⟩

/-- **C115.** Two timestamps are the same text exactly when the date, the hour, the minute and the second that were read are the same. -/
theorem c115_stamp (d h m s d' h' m' s' : Clock) : stampText d h m s = stampText d' h' m' s' ↔
    (d.year = d'.year ∧ d.month = d'.month ∧ d.day = d'.day) ∧ h.hour = h'.hour ∧ m.minute = m'.minute ∧ s.second = s'.second := by
  refine ⟨fun e => ?_, fun ⟨⟨e1, e2, e3⟩, e4, e5, e6⟩ => by rw [stampText, stampText, dateText, dateText, e1, e2, e3, e4, e5, e6]⟩
  unfold stampText at e
  simp only [List.append_assoc, List.cons_append] at e
  have hd : ∀ c, '_' ∉ dateText c := fun c hc => by
    unfold dateText at hc
    simp only [List.append_assoc, List.cons_append, List.mem_append, List.mem_cons] at hc
    rcases hc with hc | hc | hc | hc | hc
    · exact (no_dash fun x hx => padded_mem hx).2 hc
    · exact absurd hc (by decide)
    · exact (no_dash fun x hx => padded_mem hx).2 hc
    · exact absurd hc (by decide)
    · exact (no_dash fun x hx => padded_mem hx).2 hc
  have ht : ∀ n, '_' ∉ textN n := fun n => (no_dash fun x hx => textN_mem hx).2
  obtain ⟨h1, h2⟩ := split_sep (hd _) (hd _) e
  obtain ⟨h2, h3⟩ := split_sep (ht _) (ht _) h2
  obtain ⟨h3, h4⟩ := split_sep (ht _) (ht _) h3
  exact ⟨dateText_inj h1, textN_inj h2, textN_inj h3, textN_inj h4⟩

/-- **C115.** The four readings need not be of one second: a run begun just before a full hour can carry the timestamp of the beginning of that hour,
and so find the directory of a run begun an hour before. -/
theorem c115_stamp_torn : ∃ before now earlier : Clock, before.Valid ∧ now.Valid ∧ earlier.Valid ∧
    before = { now with hour := now.hour - 1, minute := 59, second := 59 } ∧ earlier = { now with hour := now.hour - 1 } ∧
    stampText before before now now = stampText earlier earlier earlier earlier :=
  ⟨⟨2022, 3, 20, 10, 59, 59⟩, ⟨2022, 3, 20, 11, 0, 0⟩, ⟨2022, 3, 20, 10, 0, 0⟩, by simp [Clock.Valid], by simp [Clock.Valid], by simp [Clock.Valid], rfl, rfl,
    (c115_stamp ..).2 ⟨⟨rfl, rfl, rfl⟩, rfl, rfl, rfl⟩⟩

/-- **C115.** The directories sorted by name are not sorted by time: the hours, minutes and seconds have no leading zeros. -/
theorem c115_stamp_order_false : ∃ c c' : Clock, c.Valid ∧ c'.Valid ∧ c.hour < c'.hour ∧ c' = { c with hour := c'.hour } ∧
    stampText c' c' c' c' < stampText c c c c :=
  ⟨⟨2022, 3, 20, 9, 0, 0⟩, ⟨2022, 3, 20, 10, 0, 0⟩, by simp [Clock.Valid], by simp [Clock.Valid], by simp, rfl, by decide +kernel⟩

/-! ### What goes wrong -/

/-- `n` events in which a run goes on. -/
def goes (i n : Nat) (t : String) : List (Nat × Act) := List.replicate n (i, .go t)

/-- Run 0 opens the log, run 1 opens it too, then run 0 goes to its end and run 1 to its end. -/
def sideBySide : List (Nat × Act) := goes 0 1 "A" ++ goes 1 1 "B" ++ goes 0 40 "A" ++ goes 1 40 "B"

/-- **C115.** Two runs with the shared log side by side, in which nothing goes wrong: the first returns, the second ends with an exception although its
results are complete, the log of the first contains the records of the second, and the directory of the second has no log. -/
theorem c115_side_by_side_false : ∃ es : List (Nat × Act), (∀ e ∈ es, ∃ t, e.2 = .go t) ∧
    let w := after (fun _ => entropyScript) es
    (w.runs 0).returned ∧ (w.runs 1).raised ∧ (w.runs 0).name = "A" ∧ (w.runs 1).name = "B" ∧
    (∀ n ∈ fileNames entropyScript.prog, w.disk.file "B" n = some (1, true)) ∧
    w.disk.logIn "A" = some (records 0 7 ++ records 1 8) ∧ w.disk.logIn "B" = none := by
  refine ⟨sideBySide, fun e he => ?_, ?_⟩
  · simp only [sideBySide, goes, List.mem_append, List.mem_replicate] at he
    rcases he with ((⟨_, rfl⟩ | ⟨_, rfl⟩) | ⟨_, rfl⟩) | ⟨_, rfl⟩ <;> exact ⟨_, rfl⟩
  · simp only [Run.returned, Run.raised]
    decide +kernel

/-- **C115.** `clustering_analysis.py` makes its directory inside the `try`: a run begun in the same second as one that has already ended replaces the
log of that one by its own. -/
theorem c115_clustering_log_false : ∃ es fs : List (Nat × Act), (∀ e ∈ es ++ fs, ∃ t, e.2 = .go t) ∧
    let w := after (fun _ => clusteringScript) es
    let w' := after (fun _ => clusteringScript) (es ++ fs)
    (w.runs 0).returned ∧ w.disk.logIn (w.runs 0).name = some (records 0 4) ∧ (w'.runs 1).raised ∧ w'.disk.logIn (w.runs 0).name = some (records 1 1) := by
  refine ⟨goes 0 20 "A", goes 1 20 "A", fun e he => ?_, ?_⟩
  · simp only [goes, List.mem_append, List.mem_replicate] at he
    rcases he with ⟨_, rfl⟩ | ⟨_, rfl⟩ <;> exact ⟨_, rfl⟩
  · simp only [Run.returned, Run.raised]
    decide +kernel

/-- **C115.** The pickles of the steps are not protected: a step of another run with the same parameter that ends in the same second replaces the pickle. -/
theorem c115_step_pickle_false : ∃ es fs : List (Nat × Act), (∀ e ∈ es ++ fs, ∃ t, e.2 = .go t) ∧
    let w := after (fun _ => entropyScript) es
    let w' := after (fun _ => entropyScript) (es ++ fs)
    w.disk.part "2022-03-20_18_18_6_0.05_simulation_classifying_entropy.pickle" = some 0 ∧
    w'.disk.part "2022-03-20_18_18_6_0.05_simulation_classifying_entropy.pickle" = some 1 ∧ (w'.runs 0).name ≠ (w'.runs 1).name := by
  refine ⟨goes 0 2 "A" ++ goes 1 2 "B" ++ goes 0 7 "2022-03-20_18_18_6_0.05", goes 1 7 "2022-03-20_18_18_6_0.05", fun e he => ?_, ?_⟩
  · simp only [goes, List.mem_append, List.mem_replicate] at he
    rcases he with ((⟨_, rfl⟩ | ⟨_, rfl⟩) | ⟨_, rfl⟩) | ⟨_, rfl⟩ <;> exact ⟨_, rfl⟩
  · decide +kernel

/-! ### The hypotheses are met -/

/-- Two runs one after the other: both return. -/
example : let w := after (fun _ => entropyScript) (goes 0 40 "A" ++ goes 1 40 "B")
    (w.runs 0).returned ∧ (w.runs 1).returned ∧ w.disk.logIn "A" = some (records 0 7) ∧ w.disk.logIn "B" = some (records 1 7) := by
  simp only [Run.returned]
  decide +kernel

/-- A run killed while it writes its third file; the next run inherits its records. -/
example : let w := after (fun _ => entropyScript) (goes 0 14 "A" ++ [(0, .kill)] ++ goes 1 40 "B")
    (w.runs 0).made = true ∧ w.disk.file "A" (.plain "cmd.txt") = some (0, true) ∧
    w.disk.file "A" (.plain "ber_vs_error_p.eps") = some (0, false) ∧ (w.runs 1).returned ∧ w.disk.logIn "B" = some (records 0 4 ++ records 1 7) := by
  simp only [Run.returned]
  decide +kernel

/-- A recorded experiment beside a run with the shared log. -/
example : let w := after (fun i => if i = 0 then recordedScript else bfScript) (goes 0 5 "A" ++ goes 1 12 "B" ++ goes 0 40 "A")
    (w.runs 0).returned ∧ w.disk.logIn "A" = some (records 0 3) ∧ (w.runs 1).made = true := by
  simp only [Run.returned]
  decide +kernel

/-- A second run in the same second raises and changes nothing. -/
example : let w := after (fun _ => weightedScript) (goes 0 40 "A" ++ goes 1 40 "A")
    (w.runs 0).returned ∧ (w.runs 1).raised ∧ ∀ n ∈ fileNames weightedScript.prog, w.disk.file "A" n = some (0, true) := by
  simp only [Run.returned, Run.raised]
  decide +kernel

end NR.C115
