import Verif.Model.WrapperTable
/-
Model of calls to the `*_encode` and `*_send` methods of `class MAVLink`, mavlink_utils/HC_dialect.py:8956-14254, on the
definitions recorded in `WrapperTable.lean`. The binding of arguments to parameters is Python's; an argument is any value a
message attribute may have.
-/
namespace NR
open Dialect

/-- Python's binding of positional and keyword arguments to the parameters of a function (language reference 6.3.4): a
TypeError for too many positional arguments, for a keyword that is no parameter or was given by position, and for a parameter
without value. The keywords of a call are distinct. -/
def bindCall (params : List String) (defaults : List (String × FieldVal)) (pos : List FieldVal)
    (kw : List (String × FieldVal)) : Except PyErr (List (String × FieldVal)) :=
  if params.length < pos.length then .error .typeError
  else if kw.any (fun a => decide (a.1 ∉ params.drop pos.length)) then .error .typeError
  else params.zipIdx.mapM fun p =>
    match pos[p.2]? with
    | some v => .ok (p.1, v)
    | none => match kw.lookup p.1 with
      | some v => .ok (p.1, v)
      | none => match defaults.lookup p.1 with
        | some v => .ok (p.1, v)
        | none => .error .typeError

/-- The values of names in a function body. -/
def evalNames (env : List (String × FieldVal)) (names : List String) : Except PyErr (List FieldVal) :=
  names.mapM fun n => match env.lookup n with
    | some v => .ok v
    | none => .error .nameError

/-- A message object that was built but not packed: its class and the attributes set by `__init__`, in the order of the
assignments. -/
structure MsgInst where
  cls : MsgClass
  attrs : List (String × FieldVal)
  deriving DecidableEq, Repr

/-- `getattr(msg, name)`: the last assignment counts. Attributes of the class (e.g. `id`) are not consulted. -/
def MsgInst.getattr (o : MsgInst) (name : String) : Except PyErr FieldVal :=
  match o.attrs.reverse.lookup name with
  | some v => .ok v
  | none => .error .attributeError

/-- The attributes in the order of `fieldnames`, which is how `packMsg` takes them. -/
def MsgInst.fields (o : MsgInst) : Except PyErr (List FieldVal) := o.cls.fieldnames.mapM o.getattr

/-- `<class>(*vals)`, HC_dialect.py:2189-8389. -/
def construct (cls : String) (vals : List FieldVal) : Except PyErr MsgInst :=
  match inits.find? (fun i => i.cls = cls) with
  | none => .error .nameError
  | some i => do
    let env ← bindCall i.params [] vals []
    let attrs ← evalNames env (i.assigns.map Prod.snd)
    .ok ⟨i.msg, (i.assigns.map Prod.fst).zip attrs⟩

/-- Default values are integers. -/
def defaultVals (d : List (String × Int)) : List (String × FieldVal) := d.map fun x => (x.1, .num (.int x.2))

/-- `mav.<name>(*pos, **kw)` for an `*_encode` method. -/
def encodeNamed (name : String) (pos : List FieldVal) (kw : List (String × FieldVal)) : Except PyErr MsgInst :=
  match encodeDefs.find? (fun d => d.name = name) with
  | none => .error .attributeError
  | some d => do
    let env ← bindCall d.params (defaultVals d.defaults) pos kw
    let vals ← evalNames env d.args
    construct d.callee vals

/-- `mav.<name>(*pos, **kw)` for a `*_send` method. `force_mavlink1` is passed on to `send`, where it has no effect on
protocol version 1.0. -/
def sendNamed (st : Sender) (name : String) (pos : List FieldVal) (kw : List (String × FieldVal)) :
    Sender × Except PyErr Unit :=
  match sendDefs.find? (fun d => d.name = name) with
  | none => (st, .error .attributeError)
  | some d =>
    let msg := do
      let env ← bindCall d.params (defaultVals d.defaults) pos kw
      let vals ← evalNames env d.args
      let o ← encodeNamed d.encode vals []
      let _ ← evalNames env ["force_mavlink1"]
      let fields ← o.fields
      .ok (o.cls, fields)
    match msg with
    | .error e => (st, .error e)
    | .ok (m, fields) => send st m fields

end NR
