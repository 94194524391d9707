import Verif.Model.Segmentation
import Verif.Model.BitwiseDecoder
/-
Model of the training runs runs/Feb_2022/train_buffer_model.py:5-19 and runs/Feb_2023/train_buffer_model.py:5-19: a buffer
model is learned from recorded transmissions.
-/
namespace NR

variable {μ : Type} (O : StatOps Val μ)

/-- One pass of the loop, Feb_2022/train_buffer_model.py:13-18 and Feb_2023/train_buffer_model.py:13-18, for the row of number
`i`; the state is `buffer_model` and `bad_idx`. `np.packbits` takes any non-zero value for a one, while `add_buffer` on an
array with an entry that is not a binary digit raises ValueError (`int('…2…', 2)`, statistical_models.py:222-225).
Simplification: entries above 9, whose decimal form could be a binary numeral, are taken to raise as well (the recordings
hold 0, 1 and 2). -/
def trainStep (struct : List (Nat × Nat)) (st : BufferModel μ × List Nat) (row : List Nat) (i : Nat) :
    (BufferModel μ × List Nat) × Except PyErr Unit :=
  match row with
  | [] => (st, .error .indexError)
  | v :: _ =>
    if v < 2 then
      if (packBits ((row.take 8).map (· != 0))).head? ≠ some 254 then ((st.1, st.2 ++ [i]), .ok ())
      else if (row.take 984).all (· < 2) then
        let r := st.1.addBuffer O (.bits ((row.take 984).map (· != 0))) struct
        ((r.1, st.2), r.2)
      else (st, .error .valueError)
    else (st, .ok ())

/-- The loop over the rows, Feb_2022/train_buffer_model.py:12-18; the rows left start at number `i`. -/
def trainLoop (struct : List (Nat × Nat)) (st : BufferModel μ × List Nat) (i : Nat) :
    List (List Nat) → (BufferModel μ × List Nat) × Except PyErr Unit
  | [] => (st, .ok ())
  | row :: rows =>
    match trainStep O struct st row i with
    | (st', .error e) => (st', .error e)
    | (st', .ok _) => trainLoop struct st' (i + 1) rows

/-- The script up to `save`, Feb_2022/train_buffer_model.py:8-18; `rows` is the stacked table. The structure is that of the
first row. -/
def train (rows : List (List Nat)) : (BufferModel μ × List Nat) × Except PyErr Unit :=
  match rows with
  | [] => ((BufferModel.new none, []), .error .indexError)
  | first :: _ =>
    match segmentBuffer decode (packBits ((first.take 984).map (· != 0))) with
    | .error e => ((BufferModel.new none, []), .error e)
    | .ok s => trainLoop O s.struct (BufferModel.new none, []) 0 rows

end NR
