import Verif.Model.Clustering
/-
Model of the preparation of the recordings of February 2022 in MATLAB, runs/Feb_2022/data/data_reader.m: choosing and sorting the
records, missions, repeated receptions, and finding the words sent. Soft bits and error rates are reals (the script mixes `single`
and `double`), time stamps are whole seconds, `comm.LDPCDecoder` is a function of the soft bits, words have `L` bits (4098 in the
script). Parsing names and time stamps, the checks that print 'problem', figures and files are not modelled. `xcorr` is taken to be
exact (MATLAB computes it with a Fourier transform), and MATLAB's index error is `indexError`.
-/
namespace NR.Feb

/-- What the script uses of an entry of `DecList`: file name, time stamp, `RawBER` (-1 when decoding failed), `Rawbits`. -/
structure Record where
  name : String
  time : Int
  rawBer : ℝ
  soft : List ℝ

open Classical in
/-- `coded_bin = Rawbits < 0`, data_reader.m:11, 32, 56, 76. -/
noncomputable def Record.coded (r : Record) : List Bool := r.soft.map fun x => decide (x < 0)

/-- `contains(name, part)`. -/
def containsText (name part : String) : Bool := part.toList <:+: name.toList

/-- One pass of the loop of the receptions of the 14th, data_reader.m:30-46: a record of the right length whose name contains 'rx'
is kept unless its name is that of the record kept last. -/
def keepRx14 (L : Nat) (kept : List Record) (r : Record) : List Record :=
  if r.soft.length = L ∧ containsText r.name "rx" then
    match kept.getLast? with
    | none => kept ++ [r]
    | some last => if r.name = last.name then kept else kept ++ [r]
  else kept

/-- The receptions of the 14th, data_reader.m:26-46. -/
def chooseRx14 (L : Nat) (rs : List Record) : List Record := rs.foldl (keepRx14 L) []

/-- The receptions of the 16th, data_reader.m:70-87. -/
def chooseRx16 (L : Nat) (rs : List Record) : List Record :=
  rs.filter fun r => r.soft.length = L ∧ containsText r.name "rx"

/-- The transmissions, data_reader.m:5-23, 50-67: the name contains 'tx' and not 'rx'. -/
def chooseTx (L : Nat) (rs : List Record) : List Record :=
  rs.filter fun r => r.soft.length = L ∧ ¬ containsText r.name "rx" ∧ containsText r.name "tx"

/-- `sortrows(T, 'time_stamp')`, data_reader.m:93-107: a stable sort. -/
def sortTime (rs : List Record) : List Record := rs.mergeSort fun a b => decide (a.time ≤ b.time)

/-- The missions, data_reader.m:110-127 (and 130-147, 151-168, 171-188): the first record starts mission 1, a record more than five
minutes after its predecessor the next one. -/
def missionsFrom (mission : Nat) (last : Int) : List Int → List Nat
  | [] => []
  | t :: ts =>
    let mission := if t - last > 300 then mission + 1 else mission
    mission :: missionsFrom mission t ts

/-- `mission_idx` of sorted records. -/
def missions : List Int → List Nat
  | [] => []
  | t :: ts => 1 :: missionsFrom 1 t ts

/-- `rx_idx`, data_reader.m:202-213, 216-227: 0 for the first record, one more whenever the time stamp is later. -/
def rxIndexFrom (idx : Nat) (last : Int) : List Int → List Nat
  | [] => []
  | t :: ts =>
    let idx := if t > last then idx + 1 else idx
    idx :: rxIndexFrom idx t ts

/-- `rx_idx` of sorted records. -/
def rxIndex : List Int → List Nat
  | [] => []
  | t :: ts => 0 :: rxIndexFrom 0 t ts

/-- A reception with what the script finds out: `input_ber`, `success`, `tx_bits` (empty is `none`). -/
structure Reception where
  src : Record
  rxIdx : Nat
  inputBer : ℝ
  success : Prop
  tx : Option (List Bool)

/-- The first annotations, data_reader.m:202-227. -/
def annotate (rs : List Record) : List Reception :=
  List.zipWith (fun r i => { src := r, rxIdx := i, inputBer := r.rawBer, success := r.rawBer ≠ -1, tx := none }) rs
    (rxIndex (rs.map (·.time)))

/-- `sum(coded_bin ~= bits)/4098`. -/
noncomputable def errorShare (L : Nat) (a b : List Bool) : ℝ := ((List.zipWith (fun x y => x != y) a b).count true : ℝ) / L

/-- The element with the smallest key, the first of several: `[val, t] = min(…)`. -/
noncomputable def firstMin {α : Type} (key : α → ℝ) : List α → Option α
  | [] => none
  | x :: xs => match firstMin key xs with
    | none => some x
    | some y => by classical exact if key x ≤ key y then some x else some y

open Classical in
/-- One reception of the 16th, data_reader.m:230-269. A failed one looks at the receptions with the same index; if the largest
`RawBER` among them is positive, the one with the smallest absolute `RawBER` is decoded. -/
noncomputable def fill16 (L : Nat) (dec : List ℝ → List Bool) (all : List Reception) (r : Reception) : Reception :=
  if r.inputBer = -1 then
    let group := all.filter fun x => x.rxIdx = r.rxIdx
    if ∃ x ∈ group, x.src.rawBer > 0 then
      match firstMin (fun x : Reception => |x.src.rawBer|) group with
      | none => r
      | some best =>
        let bits := dec best.src.soft
        { r with inputBer := errorShare L r.src.coded bits, tx := some bits }
    else r
  else { r with tx := some (dec r.src.soft) }

open Classical in
/-- One reception of the 14th, data_reader.m:271-288. -/
noncomputable def fill14 (dec : List ℝ → List Bool) (r : Reception) : Reception :=
  if r.inputBer = -1 then r else { r with tx := some (dec r.src.soft) }

/-! ### Words still unknown -/

/-- `r` of `xcorr(tx, rx)` at `lag`: the number of ones of `rx` that meet a one of `tx` `lag` positions further on. -/
def overlap (tx rx : List Bool) (lag : Int) : Nat :=
  (List.range rx.length).countP fun n => rx.getD n false && (decide (0 ≤ (n : Int) + lag) && tx.getD ((n : Int) + lag).toNat false)

/-- The lags of `xcorr` for sequences of which the longer has `n` elements. -/
def lags (n : Nat) : List Int := (List.range (2 * n - 1)).map fun i : Nat => (i : Int) - ((n : Int) - 1)

/-- `[m, i] = max(r); lags(i)`: the first lag with the largest value. -/
def firstMax (f : Int → Nat) : List Int → Option Int
  | [] => none
  | x :: xs => match firstMax f xs with
    | none => some x
    | some y => if f y ≤ f x then some x else some y

/-- The best lag of `xcorr(tx, rx)`, data_reader.m:360-362, 460-462. -/
def bestLag (tx rx : List Bool) : Option Int := firstMax (overlap tx rx) (lags (max tx.length rx.length))

/-- The two days treat missing neighbours and repeated words differently. -/
inductive Day where
  | feb14
  | feb16
  deriving DecidableEq

/-- The nearest reception before position `i` (from 0) with a known word, data_reader.m:302-307, 406-411. -/
def knownBefore (rs : List Reception) (i : Nat) : Option (List Bool) :=
  ((rs.take i).reverse.filterMap (·.tx)).head?

/-- The nearest one after position `i`, data_reader.m:308-313, 412-417; `total` is the number of receptions written into the
script (478 and 2771), the search ends there (with fewer receptions it could run into an index error, not modelled). -/
def knownAfter (total : Nat) (rs : List Reception) (i : Nat) : Option (List Bool) :=
  (((rs.take total).drop (i + 1)).filterMap (·.tx)).head?

/-- Where the word before was sent, data_reader.m:326-336, 430-438 (positions from 0): the first place where it was sent on the
14th, or the first word if there is no reception before; the last place on the 16th. -/
def spanStart (day : Day) (hc : List (List Bool)) (before : Option (List Bool)) : Option Nat :=
  match day, before with
  | .feb14, none => some 0
  | .feb14, some w => hc.findIdx? (· == w)
  | .feb16, none => none
  | .feb16, some w => (hc.reverse.findIdx? (· == w)).map fun k => hc.length - 1 - k

/-- Where the word after was sent, data_reader.m:338-348, 440-448: the first place after `start`; on the 14th the last word if there
is no reception after. -/
def spanEnd (day : Day) (hc : List (List Bool)) (start : Option Nat) (after : Option (List Bool)) : Option Nat :=
  let from_ := match start with
    | none => 0
    | some a => a + 1
  match day, after with
  | .feb14, none => if hc = [] then none else some (hc.length - 1)
  | .feb16, none => none
  | _, some w => ((hc.drop from_).findIdx? (· == w)).map (· + from_)

/-- One reception with an unknown word, data_reader.m:325-382, 429-482. -/
noncomputable def findWord (day : Day) (L : Nat) (hc : List (List Bool)) (before after : Option (List Bool)) (r : Reception) :
    Except PyErr Reception :=
  let start := spanStart day hc before
  match start, spanEnd day hc start after with
  | some a, some b =>
    if a < b then
      match bestLag ((hc.drop a).take (b - a + 1)).flatten r.src.coded with
      | none => .ok r
      | some lag =>
        if lag % (L : Int) = 0 then
          let k := (a : Int) + lag / (L : Int)
          if k < 0 then .error .indexError
          else match hc[k.toNat]? with
            | none => .error .indexError
            | some w => .ok { r with tx := some w, inputBer := errorShare L r.src.coded w }
        else .ok r
    else .ok r
  | _, _ => .ok r

/-- The receptions with an unknown word one after the other, data_reader.m:295-383, 400-483. The neighbours are looked up before
the first word is found. -/
noncomputable def findWords (day : Day) (L total : Nat) (hc : List (List Bool)) (rs : List Reception) :
    Except PyErr (List Reception) :=
  rs.zipIdx.mapM fun x => match x.1.tx with
    | some _ => .ok x.1
    | none => findWord day L hc (knownBefore rs x.2) (knownAfter total rs x.2) x.1

/-- All of it for one day: the receptions in the order of their time stamps, with what the script finds out about them. -/
noncomputable def readDay (day : Day) (L total : Nat) (dec : List ℝ → List Bool) (ship hcRecords : List Record) :
    Except PyErr (List Reception) :=
  let hc := (sortTime (chooseTx L hcRecords)).map (·.coded)
  let rx := annotate (sortTime (match day with
    | .feb14 => chooseRx14 L ship
    | .feb16 => chooseRx16 L ship))
  let known := match day with
    | .feb14 => rx.map (fill14 dec)
    | .feb16 => rx.map (fill16 L dec rx)
  findWords day L total hc known

/-- The row of `feb_14_tx.csv`, data_reader.m:567-580: twos for an unknown word. -/
def txRow (L : Nat) (r : Reception) : List Nat :=
  match r.tx with
  | none => List.replicate L 2
  | some w => w.map Bool.toNat

end NR.Feb
