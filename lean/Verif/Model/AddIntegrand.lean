/-!
Model of the registration logic of `openconcept/utilities/math/integrals.py` class `Integrator`
(`__init__`, `add_integrand`, `setup`): validation, unit strings, default names, registered variables.
Numerical default values are not modelled; bounds are integers here only as opaque tokens (`β`).
-/

namespace Verif.AddIntegrand

/-- the exceptions raised on purpose by the class -/
inductive Err
  | evenNodes        -- integrals.py:528-529
  | bothUnits        -- integrals.py:596-597
  | badTimeSetup     -- integrals.py:712, 740
  | duplicate        -- raised by OpenMDAO `add_input`/`add_output` for a name already in use
  deriving DecidableEq, Repr

/-- Python truth value of an optional string: `None` and `""` are false. -/
def truthy : Option String → Bool
  | none => false
  | some s => s != ""

/-- component options (integrals.py:537-541); `method` plays no role here -/
structure Opts where
  numNodes : Nat
  diffUnits : Option String
  timeSetup : String

/-- arguments of `add_integrand` (integrals.py:543-557) used in this model -/
structure Args (β : Type) where
  name : String
  rateName : Option String
  startName : Option String
  endName : Option String
  units : Option String
  rateUnits : Option String
  zeroStart : Bool
  finalOnly : Bool
  lower : β
  upper : β

/-- a registered variable: name, size, units -/
structure Var where
  name : String
  size : Nat
  units : Option String
  deriving DecidableEq, Repr

/-- the entry put in `_state_vars` (integrals.py:629-641) -/
structure Entry (β : Type) where
  name : String
  rateName : String
  startName : String
  endName : String
  units : Option String
  rateUnits : Option String
  zeroStart : Bool
  finalOnly : Bool
  lower : β
  upper : β
  deriving DecidableEq

/-- the component: registered inputs and outputs and `_state_vars` in insertion order -/
structure Comp (β : Type) where
  inputs : List Var
  outputs : List Var
  states : List (Entry β)

/-- integrals.py:521-535 `__init__`: the parity check. (Nat subtraction: `numNodes = 0` counts as odd
here; in Python `(-1) % 2 = 1 > 0` also raises, hence the explicit case.) -/
def mkComp (β : Type) (o : Opts) : Except Err (Comp β) :=
  if o.numNodes = 0 ∨ (o.numNodes - 1) % 2 > 0 then .error .evenNodes
  else .ok { inputs := [], outputs := [], states := [] }

/-- integrals.py:598-620: units and rate units after inference. -/
def inferUnits (units rateUnits diffUnits : Option String) : Option String × Option String :=
  if truthy units then
    if truthy diffUnits then
      (units, some ("(" ++ units.getD "" ++ ") / (" ++ diffUnits.getD "" ++ ")"))
    else (units, units)
  else if truthy rateUnits then
    if truthy diffUnits then
      (some ("(" ++ rateUnits.getD "" ++ ") * (" ++ diffUnits.getD "" ++ ")"), rateUnits)
    else (rateUnits, rateUnits)
  else if truthy diffUnits then
    (units, some ("(" ++ diffUnits.getD "" ++ ")** -1"))
  else (units, rateUnits)

/-- integrals.py:622-627 -/
def orDefault (given : Option String) (dflt : String) : String :=
  if truthy given then given.getD "" else dflt

/-- integrals.py:629-641: the options entry. -/
def entry {β : Type} (o : Opts) (a : Args β) : Entry β :=
  let u := inferUnits a.units a.rateUnits o.diffUnits
  { name := a.name
    rateName := orDefault a.rateName (a.name ++ "_rate")
    startName := orDefault a.startName (a.name ++ "_initial")
    endName := orDefault a.endName (a.name ++ "_final")
    units := u.1, rateUnits := u.2
    zeroStart := a.zeroStart, finalOnly := a.finalOnly, lower := a.lower, upper := a.upper }

/-- integrals.py:652 and 658-659: the inputs added for an entry. -/
def entryInputs {β : Type} (o : Opts) (e : Entry β) : List Var :=
  { name := e.rateName, size := o.numNodes, units := e.rateUnits } ::
    (if e.zeroStart then [] else [{ name := e.startName, size := 1, units := e.units }])

/-- integrals.py:653-657: the outputs added for an entry. -/
def entryOutputs {β : Type} (o : Opts) (e : Entry β) : List Var :=
  { name := e.endName, size := 1, units := e.units } ::
    (if e.finalOnly then [] else [{ name := e.name, size := o.numNodes, units := e.units }])

def validTimeSetup (s : String) : Bool := s == "dt" || s == "duration" || s == "bounds"

/-- integrals.py:543-712 `add_integrand`.  Assigning `_state_vars[name]` replaces an entry of the same
name, but then OpenMDAO rejects the second registration of the variables (`duplicate`). -/
def addIntegrand {β : Type} (o : Opts) (c : Comp β) (a : Args β) : Except Err (Comp β) :=
  if truthy a.units && truthy a.rateUnits then .error .bothUnits
  else
    let e := entry o a
    let new := (entryInputs o e ++ entryOutputs o e).map Var.name
    let old := (c.inputs ++ c.outputs).map Var.name
    if ¬ (new.Nodup ∧ ∀ n ∈ new, n ∉ old) then .error .duplicate
    else if o.numNodes > 1 ∧ validTimeSetup o.timeSetup = false then .error .badTimeSetup
    else .ok { inputs := c.inputs ++ entryInputs o e
               outputs := c.outputs ++ entryOutputs o e
               states := c.states ++ [e] }

/-- integrals.py:714-740 `setup`: the time inputs. -/
def timeInputs (o : Opts) : Except Err (List Var) :=
  if o.timeSetup = "dt" then .ok [{ name := "dt", size := 1, units := o.diffUnits }]
  else if o.timeSetup = "duration" then .ok [{ name := "duration", size := 1, units := o.diffUnits }]
  else if o.timeSetup = "bounds" then
    .ok [{ name := "t_initial", size := 1, units := o.diffUnits },
         { name := "t_final", size := 1, units := o.diffUnits }]
  else .error .badTimeSetup

/-- a sequence of `add_integrand` calls; the first exception aborts -/
def addAll {β : Type} (o : Opts) (c : Comp β) : List (Args β) → Except Err (Comp β)
  | [] => .ok c
  | a :: as => match addIntegrand o c a with
    | .error e => .error e
    | .ok c' => addAll o c' as

end Verif.AddIntegrand
