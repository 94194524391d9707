import Verif.Model.Pool
import Verif.Spec.Studies
/-
What a process does with the points it is handed.
-/
namespace NR.Spec
open NR NR.Pool

variable {G P R : Type}

/-- The points before number `i` that the process of point `i` has handled. -/
def earlier (worker : Nat → Nat) (points : List P) (i : Nat) : List P :=
  (List.range i).filterMap fun j => if worker j = worker i then points[j]? else none

/-- The globals of a process after some points. -/
def globalsAfter (step : G → P → G × R) (g : G) (l : List P) : G := l.foldl (fun g p => (step g p).1) g

end NR.Spec
