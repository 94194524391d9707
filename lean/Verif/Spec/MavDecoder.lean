import Verif.Model.MavDecoder
/-
What the MAVLink decoder should have learned from its runs of the LDPC decoder.
-/
namespace NR.Spec

/-- The messages found in a byte string: offsets and ids. -/
def messagesIn (b : List Byte) : List (Nat × Nat) :=
  match segmentBuffer decode b with
  | .ok seg => seg.struct
  | .error _ => []

/-- The structure of a cluster: the messages found in the first word of that cluster that was decoded. -/
def structureAfter (infoBytes : List Bool → List Byte) (evs : List MavEvent) (j : Nat) : Option (List (Nat × Nat)) :=
  (evs.find? fun e => e.pos == j && e.out.success).map fun e => messagesIn (infoBytes e.out.estimate)

/-- What is added to the field models after each run: the estimate if decoding succeeded and the received bits otherwise,
with the structure of the cluster, provided it is known by then. -/
def learnedWords (infoBytes : List Bool → List Byte) : List MavEvent → List MavEvent → List (BufArg × List (Nat × Nat))
  | _, [] => []
  | before, e :: rest =>
    (match structureAfter infoBytes (before ++ [e]) e.pos with
    | some st => [(.bits (if e.out.success then e.out.estimate else e.rx), st)]
    | none => []) ++ learnedWords infoBytes (before ++ [e]) rest

end NR.Spec
