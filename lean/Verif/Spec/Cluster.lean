import Verif.Model.Clustering
/-
What a cluster stands for: the list of the samples it absorbed.
-/
namespace NR.Spec

/-- The number of samples with a one (zero) at position `i`. -/
def onesAt (s : List (List Bool)) (i : Nat) : Nat := s.countP fun b => b[i]? == some true
def zerosAt (s : List (List Bool)) (i : Nat) : Nat := s.countP fun b => b[i]? == some false

/-- Both symbols occur in the buffer. -/
def Mixed (b : List Bool) : Prop := true ∈ b ∧ false ∈ b

/-- `Built P c s`: the cluster `c` results from starting clusters with single buffers satisfying `P`, adding samples,
merging and renumbering; `s` lists all samples that went in. -/
inductive Built (P : List Bool → Prop) : Cluster → List (List Bool) → Prop
  | start (b : List Bool) (dist : List (List ℚ)) (uid : Int) : P b → prob (columnOf b) = .ok dist →
      Built P (Cluster.new dist uid) [b]
  | add (c c' : Cluster) (s : List (List Bool)) (b : List Bool) : Built P c s → c.addSample b = .ok c' → Built P c' (s ++ [b])
  | merge (c d c' : Cluster) (s t : List (List Bool)) : Built P c s → Built P d t → c.merge d = .ok c' → Built P c' (s ++ t)
  | renumber (c : Cluster) (s : List (List Bool)) (uid : Int) : Built P c s → Built P { c with uid := uid } s

/-- The bits at which some sample has a one. -/
def anyOnes (L : Nat) (s : List (List Bool)) : List Bool := (List.range L).map fun i => s.any fun x => x[i]? == some true

/-- The fraction of the samples that agree with `b` at position `i`. -/
noncomputable def agree (b : List Bool) (s : List (List Bool)) (i : Nat) : ℝ := (s.countP fun x => x[i]? == b[i]?) / s.length

/-- The mean clipped log-likelihood of `b` given the samples `s`. -/
noncomputable def logLik (b : List Bool) (s : List (List Bool)) : ℝ :=
  ((List.range b.length).map fun i => min 0 (max (-100) (Real.log (agree b s i + 2 ^ (-52 : ℤ))))).sum / b.length

end NR.Spec
