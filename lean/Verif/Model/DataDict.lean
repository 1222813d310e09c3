import Mathlib.Data.Real.Basic
import Mathlib.Data.List.Basic

/-!
Model of `openconcept/utilities/dict_indepvarcomp.py`.

Strings are lists of characters.  A Python dictionary is an association list (first match; Python keys are distinct).
`IndepVarComp.add_output` and `add_design_parameter` are recorded as appended declarations; the name and unit checks
OpenMDAO makes on them are not modelled.  `**kwargs` of `add_output_from_dict` is ignored by the code and so is absent here.
-/

namespace Verif.DataDict

/-- a string -/
abbrev Name := List Char

/-- the Python values found in an aircraft data dictionary.  `num` is any `numbers.Number`, `arr` a numpy array with its
shape, `other` anything else without a `shape` attribute (lists, strings, `None`). -/
inductive Py where
  | num (x : ℝ)
  | arr (shape : List ℕ) (data : List ℝ)
  | other (tag : ℕ)
  | dict (entries : List (Name × Py))

/-- exceptions leaving `add_output_from_dict` -/
inductive DErr where
  /-- lines 62, 121: KeyError `"name" does not exist in the data dictionary` -/
  | missing (name : Name)
  /-- lines 66, 125: KeyError `Data dict entry "name" must have a "value" key` -/
  | noValue (name : Name)
  /-- TypeError or IndexError from subscripting something that is not a dictionary; not caught -/
  | notSubscriptable
  /-- line 72: AttributeError, `val.shape` on a value without shape -/
  | noShape
  /-- `str.split` with an empty separator -/
  | emptySep
deriving DecidableEq

/-- `str.split(sep)` for non-empty `sep`: occurrences are found from the left and do not overlap.  The first argument is
fuel, at least the length of the string plus one. -/
def splitFuel (sep : Name) : ℕ → Name → List Name
  | 0, s => [s]
  | _ + 1, [] => [[]]
  | k + 1, c :: cs =>
    if sep.isPrefixOf (c :: cs) then [] :: splitFuel sep k ((c :: cs).drop sep.length)
    else
      match splitFuel sep k cs with
      | [] => [[c]]
      | h :: t => (c :: h) :: t

/-- dict_indepvarcomp.py:56 and 114: `structured_name.split(separator)` -/
def pySplit (sep s : Name) : List Name := splitFuel sep (s.length + 1) s

/-- the subscript `tmp[key]` -/
def subscript (d : Py) (key : Name) : Except Bool Py :=
  match d with
  | .dict e =>
    match e.lookup key with
    | some v => .ok v
    | none => .error true
  | _ => .error false

/-- dict_indepvarcomp.py:57-62 and 115-121: the descent; KeyErrors are re-raised with the full name -/
def descend (name : Name) : Py → List Name → Except DErr Py
  | d, [] => .ok d
  | d, k :: ks =>
    match subscript d k with
    | .ok v => descend name v ks
    | .error true => .error (.missing name)
    | .error false => .error .notSubscriptable

/-- the keys read at the leaf -/
def kValue : Name := "value".toList

/-- the keys read at the leaf -/
def kUnits : Name := "units".toList

/-- dict_indepvarcomp.py:63-67 and 122-126: `val` and `units` -/
def readLeaf (name : Name) (d : Py) : Except DErr (Py × Option Py) :=
  match d with
  | .dict e =>
    match e.lookup kValue with
    | none => .error (.noValue name)
    | some v => .ok (v, e.lookup kUnits)
  | _ => .error .notSubscriptable

/-- dict_indepvarcomp.py:69-70 and 128-129: numbers become arrays of length one -/
def toArray (v : Py) : Py :=
  match v with
  | .num x => .arr [1] [x]
  | v => v

/-- one declared output -/
structure Out where
  name : Name
  shape : List ℕ
  data : List ℝ
  units : Option Py

/-- dict_indepvarcomp.py:56-72: `DictIndepVarComp.add_output_from_dict`, the declaration it makes -/
def outputFromDict (d : Py) (name sep : Name) : Except DErr Out :=
  if sep = [] then .error .emptySep
  else do
    let leaf ← descend name d (pySplit sep name)
    let (v, u) ← readLeaf name leaf
    match toArray v with
    | .arr s x => .ok ⟨name, s, x, u⟩
    | _ => .error .noShape

/-- dict_indepvarcomp.py:30-39: the component: data and declared outputs -/
structure Comp where
  data : Py
  outs : List Out

/-- dict_indepvarcomp.py:41-72: the call as a state change; an exception leaves the component unchanged -/
def Comp.add (c : Comp) (name sep : Name) : Except DErr Unit × Comp :=
  match outputFromDict c.data name sep with
  | .ok o => (.ok (), {c with outs := c.outs ++ [o]})
  | .error e => (.error e, c)

/-- a Dymos design parameter -/
structure Param where
  name : Name
  val : Py
  units : Option Py
  opt : Bool
  dynamic : Bool
  targets : List (Name × List Name)

/-- dict_indepvarcomp.py:98-135: `DymosDesignParamsFromDict.add_output_from_dict`; `phases` are the keys of
`dymos_traj._phases` -/
def paramFromDict (d : Py) (phases : List Name) (name sep : Name) (opt dynamic : Bool) : Except DErr Param :=
  if sep = [] then .error .emptySep
  else do
    let leaf ← descend name d (pySplit sep name)
    let (v, u) ← readLeaf name leaf
    .ok ⟨name, toArray v, u, opt, dynamic, phases.map fun p => (p, [name])⟩

end Verif.DataDict
