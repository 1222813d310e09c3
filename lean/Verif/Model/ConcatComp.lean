import Verif.Model.Utils

/-!
Model of the components `VectorConcatenateComp` and `VectorSplitComp` of `openconcept/utilities/math/combine_split_comp.py` with
any number of relations: the constructor, `add_relation`, `setup` and `compute` on named variables.

The two classes mirror each other: in a relation of the first the `whole` is an output and the `parts` are inputs, in a relation of
the second it is the other way round.  OpenMDAO refuses a second variable with the same name in a component; it forgets the
variables before every `setup`.  Keyword arguments other than the units (bounds, scaling, description) are only passed on.
-/

namespace Verif.Concat

open Verif.Utils

/-- a Python argument as far as the methods distinguish it -/
inductive Arg
  | none
  | str (s : String)
  | iter (l : List String)
  | other

/-- `isinstance(x, Iterable)`; a string is iterable -/
def Arg.iterable : Arg → Bool
  | .none => false
  | .str _ => true
  | .iter _ => true
  | .other => false

/-- combine_split_comp.py:160-161, 208-209, 379-380, 427-428: a single name may be given as a string -/
def Arg.names : Arg → List String
  | .str s => [s]
  | .iter l => l
  | _ => []

/-- exceptions -/
inductive Err
  | notLists        -- combine_split_comp.py:57, 141, 276, 360
  | notImplemented  -- combine_split_comp.py:61-66, 149, 280-285, 368
  | badArgument     -- combine_split_comp.py:70, 289
  | sizesLength     -- combine_split_comp.py:166-167, 385-386
  | nameExists      -- OpenMDAO: `add_input` and `add_output`
  deriving DecidableEq

/-- an entry of `_add_systems` -/
structure Rel where
  whole : String
  parts : List String
  sizes : List ℕ
  length : ℕ
  units : Option String

/-- combine_split_comp.py:28-70 and 247-289 `__init__`: `whole` is `output_name` or `input_name`; sizes that are not iterable are
`none` -/
def init (whole parts : Arg) (sizes : Option (List ℕ)) (length : ℕ) (units : Option String) : Except Err (List Rel) :=
  match whole with
  | .str s =>
    match sizes with
    | some l => if parts.iterable then .ok [⟨s, parts.names, l, length, units⟩] else .error .notLists
    | none => .error .notLists
  | .iter _ => .error .notImplemented
  | .none => .ok []
  | .other => .error .badArgument

/-- combine_split_comp.py:72-143 and 291-362 `add_relation` -/
def addRelation (rs : List Rel) (whole : String) (parts : Arg) (sizes : Option (List ℕ)) (length : ℕ) (units : Option String) :
    Except Err (List Rel) :=
  match sizes with
  | some l => if parts.iterable then .ok (rs ++ [⟨whole, parts.names, l, length, units⟩]) else .error .notLists
  | none => .error .notLists

/-- a declared variable: its shape is `(rows,)` for `cols = 1`, `(rows, cols)` otherwise -/
structure Var where
  name : String
  input : Bool
  rows : ℕ
  cols : ℕ
  units : Option String
  deriving DecidableEq

/-- OpenMDAO `add_input`/`add_output` -/
def register (vs : List Var) (v : Var) : Except Err (List Var) :=
  if v.name ∈ vs.map Var.name then .error .nameExists else .ok (vs ++ [v])

/-- combine_split_comp.py:160-178 one relation of `VectorConcatenateComp.setup`, variables -/
def concatRel (vs : List Var) (r : Rel) : Except Err (List Var) :=
  if r.sizes.length ≠ r.parts.length then .error .sizesLength
  else do
    let vs ← register vs ⟨r.whole, false, r.sizes.sum, r.length, r.units⟩
    (r.parts.zip r.sizes).foldlM (fun vs p => register vs ⟨p.1, true, p.2, r.length, r.units⟩) vs

/-- combine_split_comp.py:155-195 `VectorConcatenateComp.setup`, variables -/
def concatVars (rs : List Rel) : Except Err (List Var) := rs.foldlM concatRel []

/-- combine_split_comp.py:379-398 one relation of `VectorSplitComp.setup`, variables -/
def splitRel (vs : List Var) (r : Rel) : Except Err (List Var) :=
  if r.sizes.length ≠ r.parts.length then .error .sizesLength
  else do
    let vs ← register vs ⟨r.whole, true, r.sizes.sum, r.length, r.units⟩
    (r.parts.zip r.sizes).foldlM (fun vs p => register vs ⟨p.1, false, p.2, r.length, r.units⟩) vs

/-- combine_split_comp.py:374-413 `VectorSplitComp.setup`, variables -/
def splitVars (rs : List Rel) : Except Err (List Var) := rs.foldlM splitRel []

/-- a declared block of the Jacobian -/
structure Partial where
  of : String
  wrt : String
  coo : Coo ℝ

/-- combine_split_comp.py:182-195 partials of `VectorConcatenateComp` -/
noncomputable def concatPartials (rs : List Rel) : List Partial :=
  rs.flatMap fun r => r.parts.zipIdx.map fun p =>
    { of := r.whole, wrt := p.1
      coo := { rows := arange (startIdx r.sizes p.2 * r.length) (endIdx r.sizes p.2 * r.length)
               cols := arange 0 (r.sizes.getD p.2 0 * r.length)
               val := List.replicate (r.sizes.getD p.2 0 * r.length) 1 } }

/-- combine_split_comp.py:400-413 partials of `VectorSplitComp` -/
noncomputable def splitPartials (rs : List Rel) : List Partial :=
  rs.flatMap fun r => r.parts.zipIdx.map fun p =>
    { of := p.1, wrt := r.whole
      coo := { rows := arange 0 (r.sizes.getD p.2 0 * r.length)
               cols := arange (startIdx r.sizes p.2 * r.length) (endIdx r.sizes p.2 * r.length)
               val := List.replicate (r.sizes.getD p.2 0 * r.length) 1 } }

/-- values of the variables of a component -/
abbrev Env := String → Arr ℝ

/-- combine_split_comp.py:197-223 `VectorConcatenateComp.compute`: assigns the outputs one after the other -/
def concatCompute (rs : List Rel) (inputs outputs : Env) : Env :=
  rs.foldl (fun out r => Function.update out r.whole (concat (r.parts.map inputs))) outputs

/-- combine_split_comp.py:415-439 `VectorSplitComp.compute` -/
def splitCompute (rs : List Rel) (inputs outputs : Env) : Env :=
  rs.foldl (fun out r => r.parts.zipIdx.foldl (fun out p => Function.update out p.1
    (((inputs r.whole).take (endIdx r.sizes p.2)).drop (startIdx r.sizes p.2))) out) outputs

end Verif.Concat
