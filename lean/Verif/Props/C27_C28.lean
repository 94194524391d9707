import Verif.Model.FieldModel
import Verif.Lemmas.Window
/-
C27: FieldModel keeps exactly the most recent window. C28: its statistics are never stale.
-/
namespace NR
open Spec FieldModel

variable {σ μ : Type} (O : StatOps σ μ)

/-- An operation on a field model. -/
inductive FieldOp (σ : Type) where
  | add (a : SampleArg σ)
  | read (r : Read σ)

/-- A history of operations: the final state and what the reads returned, in order. -/
def runOps (m : FieldModel σ μ) : List (FieldOp σ) → FieldModel σ μ × List (Except PyErr (Answer μ))
  | [] => (m, [])
  | .add a :: ops => runOps (m.addSample a) ops
  | .read r :: ops =>
    let (m', x) := m.read O r
    let (m'', xs) := runOps m' ops
    (m'', x :: xs)

/-- All samples added in a history. -/
def added : List (FieldOp σ) → List σ
  | [] => []
  | .add a :: ops => a.toList ++ added ops
  | .read _ :: ops => added ops

/-- The statistics of a list of samples: 0 and 0 for none, otherwise the fit. -/
def statsOf (samples : List σ) : Except PyErr (μ × μ) :=
  if samples = [] then .ok (O.zero, O.zero) else O.fit samples

/-- Reference semantics: every read is computed from the history alone. -/
def expected (w : Option Nat) (t : CType) : List σ → List (FieldOp σ) → List (Except PyErr (Answer μ))
  | _, [] => []
  | h, .add a :: ops => expected w t (h ++ a.toList) ops
  | h, .read r :: ops =>
    let kept := windowed w h
    (match r with
      | .modelSize => .ok (.size kept.length)
      | r => (statsOf O kept).bind fun s => answer O s.1 s.2 kept.length t r) :: expected w t h ops

/-- Invariant: the samples are the window of the history, and the cache is right whenever it claims to be. -/
structure FieldInv (w : Option Nat) (t : CType) (h : List σ) (m : FieldModel σ μ) : Prop where
  window : m.windowSize = w
  type : m.fieldType = t
  samples : m.samples = windowed w h
  fresh : m.up2date = true → statsOf O m.samples = .ok (m.mean, m.std)
  empty : m.samples = [] → m.mean = O.zero ∧ m.std = O.zero

theorem addSample_samples (m : FieldModel σ μ) (a : SampleArg σ) :
    m.addSample a = { m with
      samples := windowed m.windowSize (m.samples ++ a.toList)
      up2date := false } := by
  have key := trim_eq m.windowSize (m.samples ++ a.toList)
  cases a <;> exact congrArg (fun l => { m with
      samples := l
      up2date := false }) key

theorem inv_new {name ty : String} {w : Option Nat} {t : CType} (ht : typeOfName ty = some t) :
    ∃ m, FieldModel.new O name ty w = .ok m ∧ FieldInv O w t [] m ∧ m.name = name := by
  refine ⟨⟨name, t, w, [], O.zero, O.zero, false⟩, by simp only [FieldModel.new, ht], ⟨rfl, rfl, ?_, by simp, by simp⟩,
    rfl⟩
  exact (windowed_eq_nil.2 rfl).symm

theorem inv_add {w : Option Nat} {t : CType} {h : List σ} {m : FieldModel σ μ} (hi : FieldInv O w t h m)
    (a : SampleArg σ) : FieldInv O w t (h ++ a.toList) (m.addSample a) := by
  rw [addSample_samples]
  have hs : windowed m.windowSize (m.samples ++ a.toList) = windowed w (h ++ a.toList) := by
    rw [hi.window, hi.samples, windowed_append]
  refine ⟨hi.window, hi.type, hs, by simp, ?_⟩
  intro he
  simp only [hs] at he
  have h0 : h = [] := by
    have := windowed_eq_nil.1 he
    simp at this; exact this.1
  apply hi.empty
  rw [hi.samples, h0]
  exact windowed_eq_nil.2 rfl

theorem inv_refresh {w : Option Nat} {t : CType} {h : List σ} {m : FieldModel σ μ} (hi : FieldInv O w t h m) :
    FieldInv O w t h (m.refresh O).1 ∧
    ((m.refresh O).2.bind fun _ => .ok ((m.refresh O).1.mean, (m.refresh O).1.std)) = statsOf O (windowed w h) ∧
    ((m.refresh O).1.samples = m.samples) := by
  unfold FieldModel.refresh
  split
  · rename_i hu
    refine ⟨hi, ?_, rfl⟩
    rw [← hi.samples, hi.fresh hu]
    rfl
  · unfold FieldModel.update
    split
    · rename_i he
      refine ⟨hi, ?_, rfl⟩
      obtain ⟨h1, h2⟩ := hi.empty he
      rw [← hi.samples, statsOf, if_pos he, h1, h2]
      rfl
    · rename_i he
      have hst : statsOf O (windowed w h) = O.fit m.samples := by rw [← hi.samples, statsOf, if_neg he]
      cases hf : O.fit m.samples with
      | ok p =>
        obtain ⟨a, b⟩ := p
        refine ⟨⟨hi.window, hi.type, hi.samples, ?_, ?_⟩, ?_, rfl⟩
        · intro _; rw [statsOf, if_neg he, hf]
        · intro h; exact absurd h he
        · rw [hst, hf]; rfl
      | error e =>
        refine ⟨hi, ?_, rfl⟩
        rw [hst, hf]; rfl

theorem inv_read {w : Option Nat} {t : CType} {h : List σ} {m : FieldModel σ μ} (hi : FieldInv O w t h m)
    (r : Read σ) :
    FieldInv O w t h (m.read O r).1 ∧ (m.read O r).2 =
      (match r with
      | .modelSize => .ok (.size (windowed w h).length)
      | r => (statsOf O (windowed w h)).bind fun s => answer O s.1 s.2 (windowed w h).length t r) := by
  obtain ⟨h1, h2, h3⟩ := inv_refresh O hi
  have key : ∀ f : μ → μ → Nat → CType → Except PyErr (Answer μ),
      (match m.refresh O with
        | (m', .error e) => (m', Except.error e)
        | (m', .ok ()) => (m', f m'.mean m'.std m'.samples.length m'.fieldType)) =
      ((m.refresh O).1, (statsOf O (windowed w h)).bind fun s => f s.1 s.2 (windowed w h).length t) := by
    intro f
    rw [← h2]
    generalize hr : m.refresh O = p at h1 h3 ⊢
    obtain ⟨m', x⟩ := p
    cases x with
    | error e => rfl
    | ok u =>
      simp only [Except.bind]
      rw [h1.samples, h1.type]
  have fin : ∀ r, m.read O r = ((m.refresh O).1,
      (statsOf O (windowed w h)).bind fun s => answer O s.1 s.2 (windowed w h).length t r) →
      FieldInv O w t h (m.read O r).1 ∧ (m.read O r).2 =
        (statsOf O (windowed w h)).bind fun s => answer O s.1 s.2 (windowed w h).length t r := by
    intro r hr
    rw [hr]
    exact ⟨h1, rfl⟩
  cases r with
  | modelSize =>
    refine ⟨hi, ?_⟩
    simp only [FieldModel.read, answer, hi.samples]
  | mean => exact fin _ (key (fun a b c d => answer O a b c d .mean))
  | std => exact fin _ (key (fun a b c d => answer O a b c d .std))
  | bitwiseMean => exact fin _ (key (fun a b c d => answer O a b c d .bitwiseMean))
  | pdf x => exact fin _ (key (fun a b c d => answer O a b c d (.pdf x)))
  | cdf x => exact fin _ (key (fun a b c d => answer O a b c d (.cdf x)))
  | classifyValue x => exact fin _ (key (fun a b c d => answer O a b c d (.classifyValue x)))

theorem runOps_spec {w : Option Nat} {t : CType} (ops : List (FieldOp σ)) (h : List σ) (m : FieldModel σ μ)
    (hi : FieldInv O w t h m) :
    FieldInv O w t (h ++ added ops) (runOps O m ops).1 ∧ (runOps O m ops).2 = expected O w t h ops := by
  induction ops generalizing h m with
  | nil => simpa [runOps, added, expected] using hi
  | cons op ops ih =>
    cases op with
    | add a =>
      have := ih (h ++ a.toList) (m.addSample a) (inv_add O hi a)
      simpa [runOps, added, expected] using this
    | read r =>
      obtain ⟨h1, h2⟩ := inv_read O hi r
      have := ih h (m.read O r).1 h1
      refine ⟨this.1, ?_⟩
      simp only [runOps, expected]
      rw [this.2, h2]

/-- C27: after any history of additions and reads the stored samples are the last `window_size` samples ever added, in
order (all of them without a window or with `window_size = 0`), and `model_size` is their number. -/
theorem c27_window (name ty : String) (w : Option Nat) (m : FieldModel σ μ) (h : FieldModel.new O name ty w = .ok m)
    (ops : List (FieldOp σ)) :
    (runOps O m ops).1.samples = windowed w (added ops) ∧
      ((runOps O m ops).1.read O .modelSize).2 = .ok (.size (windowed w (added ops)).length) := by
  cases ht : typeOfName ty with
  | none => simp [FieldModel.new, ht] at h
  | some t =>
    obtain ⟨m', h1, h2, _⟩ := inv_new O (name := name) (w := w) ht
    rw [h] at h1
    injection h1 with h1
    subst h1
    have hi := (runOps_spec O ops [] m h2).1
    simp only [List.nil_append] at hi
    exact ⟨hi.samples, (inv_read O hi .modelSize).2⟩

/-- C27: the number of stored samples never exceeds a positive window, and once that many have been added it is
exactly the window. -/
theorem c27_size (name ty : String) (w : Nat) (hw : 0 < w) (m : FieldModel σ μ)
    (h : FieldModel.new O name ty (some w) = .ok m) (ops : List (FieldOp σ)) :
    (runOps O m ops).1.samples.length = min (added ops).length w := by
  rw [(c27_window O name ty (some w) m h ops).1]
  obtain ⟨w, rfl⟩ : ∃ w', w = w' + 1 := ⟨w - 1, by omega⟩
  exact lastN_length _ _

/-- C27: only the ten C types are accepted. -/
theorem c27_types (name ty : String) (w : Option Nat) :
    Returns (FieldModel.new O name ty w) ↔ ty ∈ ["uint8_t", "uint16_t", "uint32_t", "uint64_t", "int8_t", "int16_t",
      "int32_t", "int64_t", "float", "char"] := by
  have : Returns (FieldModel.new O name ty w) ↔ (typeOfName ty).isSome := by
    unfold FieldModel.new
    cases typeOfName ty <;> simp [Returns]
  rw [this]
  constructor
  · intro h
    unfold typeOfName at h
    rw [List.find?_isSome] at h
    obtain ⟨t, ht, he⟩ := h
    have : t.cname = ty := by simpa using he
    subst this
    clear ht he
    cases t <;> simp [CType.cname]
  · intro h
    simp only [List.mem_cons, List.not_mem_nil, or_false] at h
    rcases h with rfl | rfl | rfl | rfl | rfl | rfl | rfl | rfl | rfl | rfl <;> decide

/-- C28: in every interleaving of additions and reads, all answers are those computed afresh from the samples kept at
that moment: the cache cannot be observed. -/
theorem c28_cache_invisible (name ty : String) (w : Option Nat) (t : CType) (ht : typeOfName ty = some t)
    (m : FieldModel σ μ) (h : FieldModel.new O name ty w = .ok m) (ops : List (FieldOp σ)) :
    (runOps O m ops).2 = expected O w t [] ops := by
  obtain ⟨m', h1, h2, _⟩ := inv_new O (name := name) (w := w) ht
  rw [h] at h1
  injection h1 with h1
  subst h1
  exact (runOps_spec O ops [] m h2).2

/-- A toy statistics package: mean = sum, spread = largest. -/
def toyOps : StatOps Nat Nat where
  zero := 0
  one := 1
  fit := fun l => .ok (l.sum, l.foldl max 0)
  nonPos := fun x => x == 0
  eqMean := fun x y => x == y
  score := fun a b c => a + b + c
  pdf := fun a _ _ => a
  cdf := fun a _ _ => a
  toBits := fun _ _ => .error .structError

/-- Reads between additions see the window of that moment. -/
example : ∃ m, FieldModel.new toyOps "alt" "uint16_t" (some 2) = .ok m ∧
    (runOps toyOps m [.read .mean, .add (.one 5), .read .mean, .add (.many [7, 8, 9]), .read .mean, .read .std,
      .read .modelSize, .read .bitwiseMean]).2 =
      [.ok (.stat 0), .ok (.stat 5), .ok (.stat 17), .ok (.stat 9), .ok (.size 2), .error .structError] :=
  ⟨_, rfl, by decide⟩

end NR
