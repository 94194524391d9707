/-
Model of `utils/common_logging.py` on the part of Python's `logging` it uses. The library is modelled by its documentation: loggers live in
a table by their names for the whole process, the root logger has the empty name (and the name `root`) and level WARNING (30) at the start;
a logger of level 0 takes the level of its nearest ancestor that has another one; a record that passes the level of the logger it is given
to goes to the handlers of that logger and of all its ancestors, whatever their levels. A handler is represented by where it writes; time
and format of a line are left out. Which log files can be opened is a parameter.
-/
namespace NR.Logging

/-- Where a handler writes. -/
inductive Sink where
  | stdout
  | file (path : String)
  deriving DecidableEq

/-- `logging.Logger`: level and handlers. -/
structure Logger where
  level : Nat
  handlers : List Sink

/-- Names of loggers. -/
abbrev Name := List Char

/-- The loggers of the process. -/
abbrev Registry := List (Name × Logger)

/-- The table at the start of the process: the root logger. -/
def initial : Registry := [([], ⟨30, []⟩)]

/-- `logging.getLogger` returns the root logger for the names `''` and `'root'`. -/
def key (name : Name) : Name := if name = "root".toList then [] else name

/-- `logging.getLogger(name)`: utils/common_logging.py:7. -/
def getLogger (r : Registry) (n : Name) : Registry := if (r.lookup n).isSome then r else r ++ [(n, ⟨0, []⟩)]

/-- A change of the logger `n`. -/
def change (r : Registry) (n : Name) (f : Logger → Logger) : Registry := r.map fun p => if p.1 = n then (p.1, f p.2) else p

/-- utils/common_logging.py:5-24 `setup_logger`: the table after the call, and whether it returned (if not, opening the file raised). -/
def setupLogger (opens : String → Bool) (r : Registry) (name : Name) (logFile : String) (level : Nat) : Registry × Bool :=
  let n := key name
  let r := getLogger r n
  let r := change r n fun l => { l with level := level }
  if opens logFile then
    let r := change r n fun l => { l with handlers := l.handlers ++ [.stdout] }
    let r := change r n fun l => { l with handlers := l.handlers ++ [.file logFile] }
    (r, true)
  else (r, false)

/-- The names of a logger's ancestors, nearest first: what stands before a dot, and the root logger. -/
def ancestors (n : Name) : List Name :=
  ((List.range n.length).reverse.filter fun i => n[i]? = some '.' ∧ 0 < i).map (fun i => n.take i) ++ (if n = [] then [] else [[]])

/-- The logger and its ancestors, as far as they exist. -/
def chain (r : Registry) (n : Name) : List Logger := (n :: ancestors n).filterMap fun a => r.lookup a

/-- `Logger.getEffectiveLevel`. -/
def effective : List Logger → Nat
  | [] => 0
  | l :: ls => if l.level = 0 then effective ls else l.level

/-- `Logger.log`: where the record is written, once per handler. -/
def log (r : Registry) (name : Name) (level : Nat) : List Sink :=
  let c := chain r (key name)
  if effective c ≤ level then c.flatMap (·.handlers) else []

/-- One call of `setup_logger`. -/
structure Call where
  name : Name
  file : String
  level : Nat

/-- The table after some calls. -/
def after (opens : String → Bool) (cs : List Call) : Registry :=
  cs.foldl (fun r c => (setupLogger opens r c.name c.file c.level).1) initial

end NR.Logging
