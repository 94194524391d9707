import Verif.Model.SaveLoad
import Verif.Model.Command
/-
The file behind `BufferModel.save` and `BufferModel.load`, inference/statistical_models.py:290-319: the text that `json.dump` writes and what
`json.load` makes of a text (Python's `json` package), and what is in the file when the process stops during `save`.

Simplifications: floats are an arbitrary type with `float.__repr__` and `float(...)` as parameters; a text with half a surrogate pair in a
string, which `json.dump` does not write, is refused.
-/
namespace NR.JsonText
open NR.Command (textI isDigit readI)

abbrev Text := List Char

/-- A value returned by `json.load`; a dict is the list of its items. -/
inductive JVal (F : Type) where
  | null
  | bool (b : Bool)
  | int (i : Int)
  | flt (x : F)
  | str (s : String)
  | arr (l : List (JVal F))
  | obj (l : List (String × JVal F))

/-- Python's floats: the value of a telemetry float and back, the value of a statistic, `repr(x)` and `float(text)`, and the three values
that are no numbers. -/
structure FloatIO (F μ : Type) where
  widen : BitVec 32 → F
  narrow : F → BitVec 32
  stat : μ → F
  repr : F → Text
  read : Text → F
  nan : F
  inf : F
  negInf : F

variable {F μ : Type} (io : FloatIO F μ)

/-! ### Writing -/

/-- `\uXXXX`. -/
def uEscape (n : Nat) : Text :=
  ['\\', 'u', hexDigit (n / 4096 % 16), hexDigit (n / 256 % 16), hexDigit (n / 16 % 16), hexDigit (n % 16)]

/-- One character of a string (`ensure_ascii`). -/
def escapeChar (c : Char) : Text :=
  if c = '"' then ['\\', '"']
  else if c = '\\' then ['\\', '\\']
  else if c = '\n' then ['\\', 'n']
  else if c = '\r' then ['\\', 'r']
  else if c = '\t' then ['\\', 't']
  else if c = Char.ofNat 12 then ['\\', 'f']
  else if c = Char.ofNat 8 then ['\\', 'b']
  else if 32 ≤ c.toNat ∧ c.toNat ≤ 126 then [c]
  else if c.toNat < 65536 then uEscape c.toNat
  else uEscape (55296 + (c.toNat - 65536) / 1024) ++ uEscape (56320 + (c.toNat - 65536) % 1024)

/-- A string in quotes. -/
def quote (s : String) : Text := '"' :: (s.toList.flatMap escapeChar ++ ['"'])

/-- A new line with the indentation of a level (`indent=4`). -/
def newline (level : Nat) : Text := '\n' :: List.replicate (4 * level) ' '

mutual
/-- `json.dump(…, indent=4)` of a value at an indentation level, statistical_models.py:294-296. -/
def dumps (level : Nat) : JVal F → Text
  | .null => "null".toList
  | .bool true => "true".toList
  | .bool false => "false".toList
  | .int i => textI i
  | .flt x => io.repr x
  | .str s => quote s
  | .arr [] => ['[', ']']
  | .arr (x :: xs) => '[' :: (newline (level + 1) ++ (dumps (level + 1) x ++ (dumpsArr (level + 1) xs ++ (newline level ++ [']']))))
  | .obj [] => ['{', '}']
  | .obj ((k, x) :: ps) =>
    '{' :: (newline (level + 1) ++ (quote k ++ (':' :: ' ' :: (dumps (level + 1) x ++ (dumpsObj (level + 1) ps ++ (newline level ++ ['}']))))))
/-- The further elements of a list. -/
def dumpsArr (level : Nat) : List (JVal F) → Text
  | [] => []
  | x :: xs => ',' :: (newline level ++ (dumps level x ++ dumpsArr level xs))
/-- The further items of a dict. -/
def dumpsObj (level : Nat) : List (String × JVal F) → Text
  | [] => []
  | (k, x) :: ps => ',' :: (newline level ++ (quote k ++ (':' :: ' ' :: (dumps level x ++ dumpsObj level ps))))
end

/-! ### Reading -/

/-- White space of JSON. -/
def isWs (c : Char) : Bool := c = ' ' || c = '\t' || c = '\n' || c = '\r'

/-- Skipping white space. -/
def skipWs (s : Text) : Text := s.dropWhile isWs

/-- Four hexadecimal digits. -/
def hex4 (a b c d : Char) : Option Nat := do
  let a ← hexVal a
  let b ← hexVal b
  let c ← hexVal c
  let d ← hexVal d
  some (4096 * a + 256 * b + 16 * c + d)

/-- The character behind a backslash other than `u`. -/
def unescape (c : Char) : Option Char :=
  if c = '"' then some '"'
  else if c = '\\' then some '\\'
  else if c = '/' then some '/'
  else if c = 'n' then some '\n'
  else if c = 'r' then some '\r'
  else if c = 't' then some '\t'
  else if c = 'f' then some (Char.ofNat 12)
  else if c = 'b' then some (Char.ofNat 8)
  else none

/-- Reading a string up to its closing quote: the characters and the rest. The first argument is the first half of a surrogate pair that
has been read. -/
def readStr : Option Nat → Text → Option (Text × Text)
  | none, '"' :: r => some ([], r)
  | none, '\\' :: 'u' :: a :: b :: c :: d :: r => do
    let n ← hex4 a b c d
    if 55296 ≤ n ∧ n < 56320 then readStr (some n) r
    else if 56320 ≤ n ∧ n < 57344 then none
    else do
      let (t, r) ← readStr none r
      some (Char.ofNat n :: t, r)
  | none, '\\' :: e :: r => do
    let c ← unescape e
    let (t, r) ← readStr none r
    some (c :: t, r)
  | none, c :: r =>
    if c = '\\' ∨ c.toNat < 32 then none
    else do
      let (t, r) ← readStr none r
      some (c :: t, r)
  | some hi, '\\' :: 'u' :: a :: b :: c :: d :: r => do
    let n ← hex4 a b c d
    if 56320 ≤ n ∧ n < 57344 then do
      let (t, r) ← readStr none r
      some (Char.ofNat (65536 + (hi - 55296) * 1024 + (n - 56320)) :: t, r)
    else none
  | _, _ => none

/-- The digits at the start of a text, and the rest. -/
def spanDigits (s : Text) : Text × Text := (s.takeWhile isDigit, s.dropWhile isDigit)

/-- `-?`. -/
def readMinus : Text → Text × Text
  | '-' :: r => (['-'], r)
  | r => ([], r)

/-- `0|[1-9][0-9]*`. -/
def readNat : Text → Option (Text × Text)
  | [] => none
  | '0' :: r => some (['0'], r)
  | c :: r => if isDigit c then some (c :: (spanDigits r).1, (spanDigits r).2) else none

/-- The part of a number in front of the point: `-?(0|[1-9][0-9]*)`. -/
def readInt (s : Text) : Option (Text × Text) :=
  (readNat (readMinus s).2).map fun x => ((readMinus s).1 ++ x.1, x.2)

/-- `(\.[0-9]+)?`. -/
def readFrac (s : Text) : Text × Text :=
  match s with
  | '.' :: r => if (spanDigits r).1 = [] then ([], s) else ('.' :: (spanDigits r).1, (spanDigits r).2)
  | _ => ([], s)

/-- The sign of an exponent. -/
def readSign : Text → Text × Text
  | '-' :: r => (['-'], r)
  | '+' :: r => (['+'], r)
  | r => ([], r)

/-- `([eE][-+]?[0-9]+)?`. -/
def readExp (s : Text) : Text × Text :=
  match s with
  | c :: r =>
    if c = 'e' ∨ c = 'E' then
      let (sign, r') := readSign r
      if (spanDigits r').1 = [] then ([], s) else (c :: (sign ++ (spanDigits r').1), (spanDigits r').2)
    else ([], s)
  | [] => ([], [])

/-- A number: an int unless it has a fraction or an exponent. -/
def readNum (s : Text) : Option (JVal F × Text) := do
  let (i, r) ← readInt s
  let (f, r) := readFrac r
  let (e, r) := readExp r
  if f = [] ∧ e = [] then do
    let n ← readI i
    some (.int n, r)
  else some (.flt (io.read (i ++ f ++ e)), r)

/-- A dict made of pairs, a later pair replacing the value of an earlier one with the same key. -/
def dictOf {α : Type} (ps : List (String × α)) : List (String × α) := ps.foldl (fun d p => dictSet d p.1 p.2) []

/-- What starts with a letter or is a number. -/
def readAtom (s : Text) : Option (JVal F × Text) :=
  match s with
  | 'n' :: 'u' :: 'l' :: 'l' :: r => some (.null, r)
  | 't' :: 'r' :: 'u' :: 'e' :: r => some (.bool true, r)
  | 'f' :: 'a' :: 'l' :: 's' :: 'e' :: r => some (.bool false, r)
  | 'N' :: 'a' :: 'N' :: r => some (.flt io.nan, r)
  | 'I' :: 'n' :: 'f' :: 'i' :: 'n' :: 'i' :: 't' :: 'y' :: r => some (.flt io.inf, r)
  | '-' :: 'I' :: 'n' :: 'f' :: 'i' :: 'n' :: 'i' :: 't' :: 'y' :: r => some (.flt io.negInf, r)
  | s => readNum io s

mutual
/-- `scan_once`: a value at the start of a text, and the rest. The first argument bounds the depth of the recursion. -/
def readVal : Nat → Text → Option (JVal F × Text)
  | 0, _ => none
  | n + 1, s => match s with
    | '"' :: r => do
      let (t, r) ← readStr none r
      some (.str (String.ofList t), r)
    | '[' :: r => match skipWs r with
      | ']' :: r => some (.arr [], r)
      | r => do
        let (l, r) ← readArr n r
        some (.arr l, r)
    | '{' :: r => match skipWs r with
      | '}' :: r => some (.obj [], r)
      | r => do
        let (l, r) ← readObj n r
        some (.obj (dictOf l), r)
    | s => readAtom io s
/-- The elements of a list up to its bracket. -/
def readArr : Nat → Text → Option (List (JVal F) × Text)
  | 0, _ => none
  | n + 1, s => do
    let (x, r) ← readVal n s
    match skipWs r with
    | ']' :: r => some ([x], r)
    | ',' :: r => do
      let (xs, r) ← readArr n (skipWs r)
      some (x :: xs, r)
    | _ => none
/-- The items of a dict up to its brace. -/
def readObj : Nat → Text → Option (List (String × JVal F) × Text)
  | 0, _ => none
  | n + 1, s => match s with
    | '"' :: r => do
      let (k, r) ← readStr none r
      match skipWs r with
      | ':' :: r => do
        let (x, r) ← readVal n (skipWs r)
        match skipWs r with
        | '}' :: r => some ([(String.ofList k, x)], r)
        | ',' :: r => do
          let (ps, r) ← readObj n (skipWs r)
          some ((String.ofList k, x) :: ps, r)
        | _ => none
      | _ => none
    | _ => none
end

/-- `json.loads`: a value with nothing but white space around it; otherwise `none` (JSONDecodeError, a ValueError). -/
def loads (s : Text) : Option (JVal F) :=
  match readVal io (s.length + 1) (skipWs s) with
  | some (v, r) => if skipWs r = [] then some v else none
  | none => none

/-! ### The buffer model and its file -/

/-- The names in a description are texts, a character for each byte. -/
def nameText (bs : List Byte) : String := String.ofList (bs.map fun b => Char.ofNat b.toNat)

mutual
/-- The Python value handed to `json.dump` for what `BufferModel.save` collects (`SaveLoad`). -/
def ofJson : Json μ → JVal F
  | .null => .null
  | .bool b => .bool b
  | .int i => .int i
  | .flt b => .flt (io.widen b)
  | .stat x => .flt (io.stat x)
  | .str s => .str s
  | .text bs => .str (nameText bs)
  | .arr l => .arr (ofJsons l)
  | .obj l => .obj (ofItems l)
def ofJsons : List (Json μ) → List (JVal F)
  | [] => []
  | x :: xs => ofJson x :: ofJsons xs
def ofItems : List (String × Json μ) → List (String × JVal F)
  | [] => []
  | (k, x) :: ps => (k, ofJson x) :: ofItems ps
end

/-- `vals[key]`: only a dict has such items. -/
def JVal.item (j : JVal F) (key : String) : Except PyErr (JVal F) :=
  match j with
  | .obj l => match l.lookup key with
    | some v => .ok v
    | none => .error .keyError
  | _ => .error .typeError

/-- `data.get(key)`: `None` if there is no such key; only a dict has this method. -/
def JVal.get (j : JVal F) (key : String) : Except PyErr (JVal F) :=
  match j with
  | .obj l => .ok ((l.lookup key).getD .null)
  | _ => .error .attributeError

/-- A loaded sample; the float is the telemetry float of this value (a float that is none is outside the model). -/
def loadSampleJ : JVal F → Except PyErr Val
  | .int i => .ok (.int i)
  | .flt x => .ok (.flt (io.narrow x))
  | _ => .error .typeError

/-- A loaded window or model size. -/
def loadOptJ : JVal F → Except PyErr (Option Nat)
  | .null => .ok none
  | .int i => .ok (some i.toNat)
  | _ => .error .typeError

/-- A loaded list. -/
def loadArrJ : JVal F → Except PyErr (List (JVal F))
  | .arr l => .ok l
  | _ => .error .typeError

/-- A loaded string. -/
def loadStrJ : JVal F → Except PyErr String
  | .str s => .ok s
  | _ => .error .typeError

variable (O : StatOps Val μ)

/-- statistical_models.py:307-311, as `loadField`. -/
def loadFieldJ (ms : List (String × FieldModel Val μ)) (p : String × JVal F) : Except PyErr (List (String × FieldModel Val μ)) := do
  let ty ← loadStrJ (← p.2.item "field_type")
  let w ← loadOptJ (← p.2.item "window_size")
  let m ← FieldModel.new O p.1 ty w
  let samples ← (← loadArrJ (← p.2.item "samples")).mapM (loadSampleJ io)
  let m := m.addSample (.many samples)
  let (m', r) := m.update O
  r
  .ok (dictSet ms p.1 m')

/-- statistical_models.py:312-316, as `loadDesc`. -/
def loadDescJ : JVal F → Except PyErr DescItem
  | .str s => if s = "crc" then .ok .crc else (fromHex s.toList).map .header
  | .arr [.str n, .str ty] =>
    match typeOfName ty with
    | some t => .ok (.field (n.toList.map fun c => BitVec.ofNat 8 c.toNat) t)
    | none => .error .valueError
  | _ => .error .typeError

/-- `models.items()`. -/
def loadItemsJ : JVal F → Except PyErr (List (String × JVal F))
  | .obj l => .ok l
  | _ => .error .attributeError

/-- statistical_models.py:312-317, as `loadDescription`. -/
def loadDescriptionJ (obj : BufferModel μ) : JVal F → Except PyErr (BufferModel μ)
  | .null => .ok obj
  | .arr l => do
    let d ← l.mapM loadDescJ
    .ok (obj.setDescription d)
  | _ => .error .typeError

/-- `BufferModel.load` after `json.load`, statistical_models.py:302-319, as `BufferModel.load`. -/
def loadJ (data : JVal F) : Except PyErr (BufferModel μ) := do
  let models ← data.get "field_models"
  let desc ← data.get "buffer_description"
  let w ← data.get "window_size"
  let size ← data.get "model_size"
  let items ← loadItemsJ models
  let ms ← items.foldlM (loadFieldJ io O) []
  let obj ← loadDescriptionJ ⟨ms, none, 0, none, none⟩ desc
  let w ← loadOptJ w
  let size ← loadOptJ size
  .ok { obj with
    windowSize := w
    modelSize := size.getD 0 }

/-- `BufferModel.load(filename)`, statistical_models.py:298-319, for a file with this text. -/
def loadFile (s : Text) : Except PyErr (BufferModel μ) :=
  match loads io s with
  | none => .error .valueError
  | some v => loadJ io O v

/-- How far a call of `save` has come: not yet at the opening of the file; `k` characters have reached the file; or it is finished. -/
inductive Progress where
  | before
  | writing (k : Nat)
  | finished

/-- `BufferModel.save(filename)`, statistical_models.py:290-296: what is in the file when the call has come so far (`none`: there is no file). Opening the file empties
it. If updating a field model raises, the file is never opened. -/
def saveFile (bm : BufferModel μ) (old : Option Text) (p : Progress) : Option Text :=
  match (bm.save O).2 with
  | .error _ => old
  | .ok j => match p with
    | .before => old
    | .writing k => some ((dumps io 0 (ofJson io j)).take k)
    | .finished => some (dumps io 0 (ofJson io j))

end NR.JsonText
