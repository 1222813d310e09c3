import Mathlib.Algebra.Field.Basic
import Mathlib.Data.List.Nodup

/-!
Model of `openconcept/utilities/math/add_subtract_comp.py` and `multiply_divide_comp.py`.

Two-dimensional arrays of shape `(vec, length)` are functions `row → column → K`; their flat (row
major) index is `row * length + column`; shape `(vec,)` is the case `length = 1`.
`inputs[name]` is `env name`.  numpy broadcasting of a `(1, length)` array to `(n, length)` reads row 0.
The initial value, bounds and scaling keyword arguments are not modelled.
-/

namespace Verif.VectorComps

variable {K : Type*} [Field K]

/-- the `vec_size` argument: an integer or a list -/
inductive VecSize
  | all (n : ℕ)
  | each (l : List ℕ)

/-- exceptions raised in `setup` -/
inductive Err
  | scalingLength   -- add_subtract_comp.py:193-194
  | sizesLength     -- add_subtract_comp.py:199-200, multiply_divide_comp.py:236-237
  | divideLength    -- multiply_divide_comp.py:228-229
  | unitsLength     -- multiply_divide_comp.py:230-231
  | emptySizes      -- max([]) raises ValueError
  | duplicateName   -- OpenMDAO: variable already exists
  | colsOutOfRange  -- OpenMDAO: declared columns exceed the size of the input (ValueError)
  deriving DecidableEq

/-- size of input `i` (add_subtract_comp.py:216-219) -/
def VecSize.get (v : VecSize) (i : ℕ) : ℕ :=
  match v with
  | .all n => n
  | .each l => l.getD i 0

/-- size of the output (add_subtract_comp.py:196-204); `max` of an empty list raises -/
def VecSize.out (v : VecSize) : ℕ :=
  match v with
  | .all n => n
  | .each l => l.foldr max 0

/-- a list of sizes whose length is not the number of inputs (add_subtract_comp.py:199) -/
def VecSize.badLength (v : VecSize) (n : ℕ) : Bool :=
  match v with
  | .all _ => false
  | .each l => decide (l.length ≠ n)

/-- `max` of an empty list raises (add_subtract_comp.py:201) -/
def VecSize.noSizes : VecSize → Bool
  | .each [] => true
  | _ => false

/-- the optional keyword arguments that are read by `setup`: `none` = key absent -/
structure Kwargs where
  units : Option (Option String)
  desc : Option String
  deriving DecidableEq

/-- one entry of `_add_systems` (add_subtract_comp.py:78, 172) -/
structure AddSys (K : Type*) where
  output : String
  inputs : List String
  vecSize : VecSize
  length : ℕ
  scaling : Option (List K)
  kwargs : Kwargs

/-- scaling factors with the default of ones (add_subtract_comp.py:190-191, 263-264) -/
def AddSys.factors (s : AddSys K) : List K := s.scaling.getD (List.replicate s.inputs.length 1)

/-- a variable registered with OpenMDAO -/
structure RegVar where
  name : String
  rows : ℕ
  length : ℕ
  units : Option String
  desc : String
  deriving DecidableEq

/-- `declare_partials(of, wrt, rows=arange(n), cols=cols, val=...)`: row `R` has its one entry in
column `cols R` -/
structure RegPartial (K : Type*) where
  wrt : String
  n : ℕ
  cols : ℕ → ℕ
  val : ℕ → K

/-- dense matrix of a declared partial -/
def RegPartial.dense (p : RegPartial K) (r c : ℕ) : K :=
  if r < p.n ∧ p.cols r = c then p.val r else 0

/-- add_subtract_comp.py:226-231, multiply_divide_comp.py:258-263: `zeros` for size one, else `arange` -/
def colVals (vecIn : ℕ) (R : ℕ) : ℕ := if vecIn = 1 then 0 else R

/-- what `setup` registers -/
structure Reg (K : Type*) where
  output : RegVar
  inputs : List RegVar
  partials : List (RegPartial K)

/-- OpenMDAO's check of declared indices: all columns are inside the input -/
def colsOk (vecIn length n : ℕ) : Bool := (List.range n).all fun R => colVals vecIn R < vecIn * length

/-- add_subtract_comp.py:193-204: the length checks, and those made by OpenMDAO -/
def AddSys.check (s : AddSys K) : Except Err Unit :=
  if s.factors.length ≠ s.inputs.length then .error .scalingLength
  else if s.vecSize.badLength s.inputs.length then
    .error .sizesLength
  else if s.vecSize.noSizes then .error .emptySizes
  else if ¬ (s.output :: s.inputs).Nodup then .error .duplicateName
  else if ¬ (∀ i < s.inputs.length, colsOk (s.vecSize.get i) s.length (s.vecSize.out * s.length) = true) then
    .error .colsOutOfRange
  else .ok ()

/-- add_subtract_comp.py:206-240: registered variables and partials; `units`/`desc` are those read by
`kwargs.pop` at lines 212-213, the output got the same through `**kwargs`. -/
def AddSys.register (s : AddSys K) : Reg K :=
  let units := s.kwargs.units.getD none
  let desc := s.kwargs.desc.getD ""
  { output := ⟨s.output, s.vecSize.out, s.length, units, desc⟩
    inputs := s.inputs.zipIdx.map fun p =>
      ⟨p.1, s.vecSize.get p.2, s.length, units, desc ++ "_inp_" ++ p.1⟩
    partials := s.inputs.zipIdx.map fun p =>
      ⟨p.1, s.vecSize.out * s.length, colVals (s.vecSize.get p.2), fun _ => s.factors.getD p.2 0⟩ }

/-- add_subtract_comp.py:182-240 `setup` for one equation: the registration and the stored tuple
afterwards, whose keyword dictionary has lost `units` and `desc` (`kwargs.pop`, lines 212-213). -/
def AddSys.setup (s : AddSys K) : Except Err (Reg K × AddSys K) :=
  match s.check with
  | .error e => .error e
  | .ok () => .ok (s.register, { s with kwargs := { units := none, desc := none } })

/-- add_subtract_comp.py:242-279 `compute` of one equation, entry `(i, j)` of the output. -/
def AddSys.compute (s : AddSys K) (env : String → ℕ → ℕ → K) (i j : ℕ) : K :=
  ((s.inputs.zipIdx).foldl (fun temp p =>
    temp + env p.1 (if s.vecSize.get p.2 = 1 then 0 else i) j * s.factors.getD p.2 0) 0)

/-! ### Multiplication / division -/

/-- one entry of `_add_systems` (multiply_divide_comp.py:91-93, 192-194) -/
structure MulSys (K : Type*) where
  output : String
  inputs : List String
  vecSize : VecSize
  length : ℕ
  scaling : K
  divide : Option (List Bool)
  inputUnits : Option (List (Option String))

/-- multiply_divide_comp.py:223-224, 317-318, 365-366 -/
def MulSys.div (s : MulSys K) : List Bool := s.divide.getD (List.replicate s.inputs.length false)

/-- multiply_divide_comp.py:225-226 -/
def MulSys.units (s : MulSys K) : List (Option String) :=
  s.inputUnits.getD (List.replicate s.inputs.length none)

/-- multiply_divide_comp.py:228-241 and OpenMDAO's checks -/
def MulSys.check (s : MulSys K) : Except Err Unit :=
  if s.div.length ≠ s.inputs.length then .error .divideLength
  else if s.units.length ≠ s.inputs.length then .error .unitsLength
  else if s.vecSize.badLength s.inputs.length then
    .error .sizesLength
  else if s.vecSize.noSizes then .error .emptySizes
  else if ¬ (s.output :: s.inputs).Nodup then .error .duplicateName
  else if ¬ (∀ i < s.inputs.length, colsOk (s.vecSize.get i) s.length (s.vecSize.out * s.length) = true) then
    .error .colsOutOfRange
  else .ok ()

/-- multiply_divide_comp.py:268-278: piece of the unit string contributed by input `i` -/
def unitPiece (i : ℕ) (divide : Bool) (unit : Option String) : List String :=
  match unit with
  | none => []
  | some u =>
    if divide then (if i = 0 then ["(" ++ u ++ ")**-1 "] else ["/ (" ++ u ++ ") "])
    else (if i = 0 then [u ++ " "] else ["* (" ++ u ++ ") "])

/-- multiply_divide_comp.py:243-281: the units of the output -/
def outputUnits (l : List (Bool × Option String)) : Option String :=
  let pieces := l.zipIdx.flatMap fun p => unitPiece p.2 p.1.1 p.1.2
  if pieces.length = 0 then none else some (pieces.foldr (· ++ ·) "")

/-- the value of input `p` seen at output entry `(i, j)` -/
def MulSys.read (s : MulSys K) (env : String → ℕ → ℕ → K) (i j : ℕ) (p : String × ℕ) : K :=
  env p.1 (if s.vecSize.get p.2 = 1 then 0 else i) j

/-- multiply_divide_comp.py:292-342 `compute`, entry `(i, j)` -/
def MulSys.compute (s : MulSys K) (env : String → ℕ → ℕ → K) (i j : ℕ) : K :=
  (s.inputs.zipIdx.foldl (fun temp p =>
    if s.div.getD p.2 false then temp / s.read env i j p else temp * s.read env i j p) 1) * s.scaling

/-- multiply_divide_comp.py:372-387 `compute_partials`: the value for output entry `(i, j)` stored for
input `name` (flat position `i * length + j`). -/
def MulSys.partialVal (s : MulSys K) (env : String → ℕ → ℕ → K) (name : String) (i j : ℕ) : K :=
  (s.inputs.zipIdx.foldl (fun temp p =>
    if p.1 ≠ name then
      (if s.div.getD p.2 false then temp / s.read env i j p else temp * s.read env i j p)
    else
      (if s.div.getD p.2 false then -temp / s.read env i j p ^ 2 else temp)) 1) * s.scaling

/-- the partial as assembled by OpenMDAO: declared pattern (lines 258-266) with the values above -/
def MulSys.assembled (s : MulSys K) (env : String → ℕ → ℕ → K) (p : String × ℕ) : RegPartial K :=
  ⟨p.1, s.vecSize.out * s.length, colVals (s.vecSize.get p.2),
    fun R => s.partialVal env p.1 (R / s.length) (R % s.length)⟩

end Verif.VectorComps
