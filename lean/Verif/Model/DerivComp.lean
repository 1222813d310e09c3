import Verif.Model.Derivatives

/-!
Model of the component `FirstDerivative` in `openconcept/utilities/math/derivatives.py`: its variables, units, and the mapping
between the named inputs `segment|dt` and the segments.  `first_deriv` itself is in `Model/Derivatives.lean`.  OpenMDAO refuses
a variable name used twice in a component (`duplicate`).  An empty list of names is not modelled.
-/

namespace Verif.Derivatives

/-- derivatives.py:252-257 options -/
structure DOpts where
  segments : Option (List String)
  quantityUnits : Option String
  diffUnits : Option String
  numIntervals : ℕ
  order : ℕ

/-- derivatives.py:268-271 `n_segments` -/
def DOpts.nSeg (o : DOpts) : ℕ :=
  match o.segments with
  | none => 1
  | some l => l.length

/-- derivatives.py:294-304: names of the time step inputs in the order they are declared -/
def DOpts.dtNames (o : DOpts) : List String :=
  match o.segments with
  | none => ["dt"]
  | some l => l.map (· ++ "|dt")

/-- derivatives.py:274-286 `deriv_units` -/
def DOpts.derivUnits (o : DOpts) : Option String :=
  match o.quantityUnits, o.diffUnits with
  | none, none => none
  | none, some d => some ("(" ++ d ++ ")** -1")
  | some q, none => some q
  | some q, some d => some ("(" ++ q ++ ") / (" ++ d ++ ")")

/-- a declared variable -/
structure DVar where
  name : String
  size : ℕ
  units : Option String
  deriving DecidableEq

/-- what `setup` raises: the checks of `first_deriv_partials`, or OpenMDAO's -/
inductive DErr
  | fd (e : FDError)
  | duplicate
  deriving DecidableEq

/-- derivatives.py:288-304: the inputs -/
def DOpts.inputs (o : DOpts) : List DVar :=
  ⟨"q", o.nSeg * (2 * o.numIntervals + 1), o.quantityUnits⟩ :: o.dtNames.map fun n => ⟨n, 1, o.diffUnits⟩

/-- derivatives.py:292: the output -/
def DOpts.output (o : DOpts) : DVar := ⟨"dqdt", o.nSeg * (2 * o.numIntervals + 1), o.derivUnits⟩

/-- derivatives.py:260-304 `setup` -/
def DOpts.setup (o : DOpts) : Except DErr (List DVar × DVar) :=
  match firstDerivCheck o.order o.nSeg o.numIntervals (o.nSeg * (2 * o.numIntervals + 1)) o.nSeg with
  | .error e => .error (.fd e)
  | .ok _ => if (o.output.name :: o.inputs.map DVar.name).Nodup then .ok (o.inputs, o.output) else .error .duplicate

variable {K : Type*} [Field K]

/-- derivatives.py:307-316, 328-337: the time steps collected from the inputs -/
def DOpts.dts (o : DOpts) (env : String → K) : Fin o.dtNames.length → K := fun i => env (o.dtNames.get i)

/-- derivatives.py:306-322 `compute` for the order `ord` -/
def DOpts.compute (o : DOpts) (ord : Order) (env : String → K)
    (q : Fin o.dtNames.length → Fin (2 * o.numIntervals + 1) → K) :
    Fin o.dtNames.length → Fin (2 * o.numIntervals + 1) → K := firstDeriv ord (o.dts env) q

/-- derivatives.py:299-304, 341-347: the partial assigned under the name of input `k` -/
def DOpts.jacDt (o : DOpts) (ord : Order) (env : String → K)
    (q : Fin o.dtNames.length → Fin (2 * o.numIntervals + 1) → K) (k : Fin o.dtNames.length) :
    Fin o.dtNames.length → Fin (2 * o.numIntervals + 1) → K := partialDt ord (o.dts env) q k

end Verif.Derivatives
