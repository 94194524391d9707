import Verif.Model.Results
/-
The words of C115.
-/
namespace NR.Results

/-- All scripts that make a directory for their results. -/
def allScripts : List Script := clusteringScript :: scripts

/-- The scripts that log into `results/log.log` and move it into their directory at the end. -/
def sharedLogScripts : List Script := [entropyScript, pretrainedScript, bfScript, gallagerScript, awgnScript, dudeScript, mavlinkScript, combinedScript,
  rafaelScript, analysisScript]

/-- The log found in a directory of `results/`. -/
def Disk.logIn (d : Disk) (s : String) : Option (List (Nat × Nat)) := (d.own s).map d.log

/-- What lies in `results/log.log`. -/
def Disk.leftover (d : Disk) : List (Nat × Nat) := (d.shared.map d.log).getD []

/-- The records of run `i`, one after the other. -/
def records (i n : Nat) : List (Nat × Nat) := (List.range n).map fun m => (i, m)

/-- In a directory the first `k` files are complete and of run `i`, the next one is missing or was begun by `i` and not closed, and there
is nothing else. -/
def FilesInOrder (f : FileName → Option (Nat × Bool)) (i : Nat) (names : List FileName) (k : Nat) : Prop :=
  k ≤ names.length ∧ (∀ n, n ∉ names → f n = none) ∧ ∀ m n, names[m]? = some n →
    (m < k → f n = some (i, true)) ∧ (m = k → f n = none ∨ f n = some (i, false)) ∧ (k < m → f n = none)

/-- The time of day and the date a clock shows are in range. -/
def Clock.Valid (c : Clock) : Prop := 1 ≤ c.month ∧ c.month ≤ 12 ∧ 1 ≤ c.day ∧ c.day ≤ 31 ∧ c.hour < 24 ∧ c.minute < 60 ∧ c.second < 60

end NR.Results
