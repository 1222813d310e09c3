import Verif.Model.AddIntegrand
import Verif.Model.VectorComps

/-!
Model of `openconcept/mission/mission_groups.py`: automatic sum/product components, tagged rates,
duration connections and phase linking.

OpenMDAO is modelled as a registry: subsystem names must be unique, connections and promotions are
recorded.  Keyword arguments forwarded unchanged (values, bounds, scaling, description) are not modelled
for `promote_add`/`promote_mult`.
-/

namespace Verif.Mission

open Verif.AddIntegrand (Entry Args)
open Verif.VectorComps (AddSys MulSys VecSize Kwargs)

/-! ### promote_add, promote_mult -/

/-- arguments of `promote_add` (mission_groups.py:113-130) -/
structure AddCall (K : Type) where
  sources : List String
  promName : String
  promotedSources : List String
  factors : Option (List K)
  vecSize : VecSize
  units : Option String
  length : Nat

/-- arguments of `promote_mult` (mission_groups.py:163-182) -/
structure MultCall (K : Type) where
  source : String
  promName : String
  factor : K
  vecSize : VecSize
  units : Option String
  length : Nat
  divide : Option (List Bool)
  inputUnits : Option (List (Option String))

/-- a component created automatically -/
inductive Auto (K : Type)
  | add (s : AddSys K)
  | mult (s : MulSys K)

/-- how an input of an automatic component gets its value -/
structure Feed where
  comp : String
  input : String
  /-- name in the group of the variable it is connected to or promoted as -/
  source : String

/-- the group during `setup` -/
structure Group (K : Type) where
  nAuto : Nat
  /-- names of all subsystems -/
  subs : List String
  autos : List (String × Auto K)
  feeds : List Feed

/-- `"_temp" + str(i)` -/
def temp (i : Nat) : String := "_temp" ++ toString i

/-- operations during `setup`: the two helpers and `add_subsystem` by the user -/
inductive Op (K : Type)
  | add (c : AddCall K)
  | mult (c : MultCall K)
  | user (name : String)

/-- OpenMDAO rejects a second subsystem of the same name -/
inductive GErr
  | duplicateSubsystem (name : String)

variable {K : Type} [Field K]

/-- mission_groups.py:134-153: the adder's equation.  (`np.ones` when no factors are given.) -/
def AddCall.sys (c : AddCall K) : AddSys K :=
  let n := c.sources.length + c.promotedSources.length
  { output := c.promName
    inputs := (List.range n).map temp
    vecSize := c.vecSize
    length := c.length
    scaling := some (c.factors.getD (List.replicate n 1))
    kwargs := { units := some c.units, desc := some "" } }

/-- mission_groups.py:155-161: promotions of the last inputs, connections of the first ones -/
def AddCall.feeds (c : AddCall K) (comp : String) : List Feed :=
  (c.promotedSources.zipIdx.map fun p => ⟨comp, temp (p.2 + c.sources.length), p.1⟩) ++
    (c.sources.zipIdx.map fun p => ⟨comp, temp p.2, p.1⟩)

/-- mission_groups.py:186-203: `input_units=[units]`; the argument `input_units` is not used -/
def MultCall.sys (c : MultCall K) : MulSys K :=
  { output := c.promName
    inputs := ["_temp"]
    vecSize := c.vecSize
    length := c.length
    scaling := c.factor
    divide := c.divide
    inputUnits := some [c.units] }

/-- one operation; `add_subsystem` fails on a name already used (the counter has been incremented) -/
def step (g : Group K) : Op K → Except GErr (Group K)
  | .add c =>
    -- mission_groups.py:132-133, 154
    let name := "add" ++ toString g.nAuto
    if name ∈ g.subs then .error (.duplicateSubsystem name)
    else .ok { nAuto := g.nAuto + 1, subs := g.subs ++ [name], autos := g.autos ++ [(name, .add c.sys)],
               feeds := g.feeds ++ c.feeds name }
  | .mult c =>
    -- mission_groups.py:184-185, 204-206
    let name := "mult" ++ toString g.nAuto
    if name ∈ g.subs then .error (.duplicateSubsystem name)
    else .ok { nAuto := g.nAuto + 1, subs := g.subs ++ [name], autos := g.autos ++ [(name, .mult c.sys)],
               feeds := g.feeds ++ [⟨name, "_temp", c.source⟩] }
  | .user name =>
    if name ∈ g.subs then .error (.duplicateSubsystem name)
    else .ok { g with subs := g.subs ++ [name] }

/-- mission_groups.py:104-108: `_n_auto_comps = 0` -/
def Group.init : Group K := { nAuto := 0, subs := [], autos := [], feeds := [] }

/-- a sequence of calls; the first exception aborts -/
def run (g : Group K) : List (Op K) → Except GErr (Group K)
  | [] => .ok g
  | o :: os => match step g o with
    | .error e => .error e
    | .ok g' => run g' os

/-! ### tagged rates (mission_groups.py:224-287) -/

/-- `tag.split(":")[0]` -/
def tagKind (tag : List Char) : List Char := tag.takeWhile (· ≠ ':')
/-- `tag.split(":")[-1]` -/
def tagValue (tag : List Char) : List Char := (tag.reverse.takeWhile (· ≠ ':')).reverse

/-- the local variables of mission_groups.py:234-239; `V` is the type of evaluated values -/
structure StateSpec (V : Type) where
  name : Option (List Char)
  units : Option (List Char)
  val : V
  lower : V
  upper : V
  promotes : Bool

/-- Python's `eval` and `float` on tag values -/
structure Eval (V : Type) where
  eval : List Char → V
  evalBool : List Char → Bool
  float : List Char → V
  zero : V      -- 0.0
  minus : V     -- -1e30
  plus : V      -- 1e30

/-- mission_groups.py:242-255: effect of one tag -/
def applyTag {V : Type} (ev : Eval V) (s : StateSpec V) (tag : List Char) : StateSpec V :=
  if tagKind tag = "state_name".toList then { s with name := some (tagValue tag) }
  else if tagKind tag = "state_units".toList then { s with units := some (tagValue tag) }
  else if tagKind tag = "state_val".toList then { s with val := ev.eval (tagValue tag) }
  else if tagKind tag = "state_lower".toList then { s with lower := ev.float (tagValue tag) }
  else if tagKind tag = "state_upper".toList then { s with upper := ev.float (tagValue tag) }
  else if tagKind tag = "state_promotes".toList then { s with promotes := ev.evalBool (tagValue tag) }
  else s

/-- mission_groups.py:234-255.  OpenMDAO stores tags as a set: the list is the (unspecified) iteration
order. -/
def parseTags {V : Type} (ev : Eval V) (tags : List (List Char)) : StateSpec V :=
  tags.foldl (applyTag ev)
    { name := none, units := none, val := ev.zero, lower := ev.minus, upper := ev.plus, promotes := false }

/-- an output variable of a subsystem: its name and tags -/
structure OutVar where
  var : String
  tags : List (List Char)

/-- a subsystem of the integrator group -/
structure Sub where
  name : String
  isGroup : Bool
  outputs : List OutVar

/-- the call of `add_integrand` and the connection of the rate (mission_groups.py:270-287) -/
structure Integrand (V : Type) where
  stateName : List Char
  rateName : String
  units : Option (List Char)
  val : V
  lower : V
  upper : V
  promoted : Bool
  /-- subsystem and variable connected to the rate input -/
  source : String × String

/-- ValueError of mission_groups.py:256-259 -/
inductive CErr
  | noStateName (sub var : String)

/-- mission_groups.py:232-287 for one tagged variable -/
def integrandOf {V : Type} (ev : Eval V) (sub : String) (o : OutVar) : Except CErr (Integrand V) :=
  let s := parseTags ev o.tags
  match s.name with
  | none => .error (.noStateName sub o.var)
  | some n => .ok { stateName := n, rateName := o.var, units := s.units, val := s.val, lower := s.lower,
                    upper := s.upper, promoted := s.promotes, source := (sub, o.var) }

/-- the outputs looked at: those tagged `integrate` of subsystems that are not groups, in order
(mission_groups.py:227-232) -/
def tagged (subs : List Sub) : List (String × OutVar) :=
  (subs.filter fun s => !s.isGroup).flatMap fun s =>
    (s.outputs.filter fun o => decide ("integrate".toList ∈ o.tags)).map fun o => (s.name, o)

/-- mission_groups.py:224-287 `configure`: the integrands in order; the first error aborts -/
def configure {V : Type} (ev : Eval V) (subs : List Sub) : Except CErr (List (Integrand V)) :=
  (tagged subs).mapM fun p => integrandOf ev p.1 p.2

/-! ### finding integrators (mission_groups.py:35-64) -/

/-- the system tree: groups, `Integrator` components (has an input of the duration's name? registered
states) and other components -/
inductive Sys (β : Type)
  | group (name : String) (subs : List (Sys β))
  | integ (name : String) (inputs : List String) (states : List (Entry β))
  | other (name : String)

def Sys.name {β : Type} : Sys β → String
  | .group n _ => n
  | .integ n _ _ => n
  | .other n => n

/-- state tuple: name, start name, end name (mission_groups.py:59-63) together with the entry -/
structure StateTuple where
  state : String
  start : String
  final : String
  deriving DecidableEq

/-- mission_groups.py:59-63 -/
def tupleOf {β : Type} (ns : String) (e : Entry β) : StateTuple :=
  ⟨ns ++ "." ++ e.name, ns ++ "." ++ e.startName, ns ++ "." ++ e.endName⟩

/-- mission_groups.py:46-49: namespace of a child -/
def childNs (ns name : String) : String := if ns = "" then name else ns ++ "." ++ name

mutual
/-- mission_groups.py:35-64 `find_integrators_in_model`: (timevars, states) appended -/
def findInteg {β : Type} (dur : String) (ns : String) : Sys β → List String × List StateTuple
  | .group _ subs => findIntegs dur ns subs
  | .integ _ inputs states =>
    ((inputs.filter fun v => v == dur).map fun v => ns ++ "." ++ v, states.map (tupleOf ns))
  | .other _ => ([], [])
/-- the loop over the subsystems (lines 45-50) -/
def findIntegs {β : Type} (dur : String) (ns : String) : List (Sys β) → List String × List StateTuple
  | [] => ([], [])
  | s :: ss =>
    let a := findInteg dur (childNs ns s.name) s
    let b := findIntegs dur ns ss
    (a.1 ++ b.1, a.2 ++ b.2)
end

/-! ### duration connections (mission_groups.py:77-100) -/

/-- mission_groups.py:84-99: the connections made from the phase's `duration`; `prom` is
`get_prom_name(self, ·, "input")`, assumed to find the variable (OpenMDAO registers every input). -/
def durationConns (dur : String) (prom : String → String) (timevars : List String) : List String :=
  timevars.foldl (fun done a =>
    if prom a ≠ dur ∧ prom a ∉ done then done ++ [prom a] else done) []

/-! ### linking phases (mission_groups.py:290-334) -/

/-- errors while linking -/
inductive LErr
  | notPhase            -- ValueError, mission_groups.py:332-333
  | noneStartswith      -- AttributeError at line 320: the promoted name is `None`
  | connectNone         -- TypeError: `connect` with a `None` name, line 328
  deriving DecidableEq

/-- a configured phase: its name and `_oc_states_list` -/
structure Phase where
  name : String
  states : List StateTuple

/-- `s.replace(old, "", 1)` when `old` is a prefix; otherwise the text may contain it later, which the
model represents by the parameter of `stripPhase`.  mission_groups.py:320-323 -/
def stripPhase (removeFirst : String → String → String) (phase prom : String) : String :=
  if prom.startsWith phase then removeFirst prom (phase ++ ".") else prom

/-- mission_groups.py:309-328 for one state of phase 1; `out`, `inp` are `get_prom_name` for outputs and
inputs, `none` when the variable does not exist.  `path` prefixes the pathname of the trajectory. -/
def linkState (path : String → String) (out inp : String → Option String)
    (removeFirst : String → String → String) (p1 p2 : Phase) (skip : List String) (t : StateTuple) :
    Except LErr (List (String × String)) :=
  if t.state ∈ p2.states.map StateTuple.state then
    match out (path (p1.name ++ "." ++ t.state)) with
    | none => .error .noneStartswith
    | some prom =>
      if t.state ∉ skip ∧ stripPhase removeFirst p1.name prom ∉ skip then
        match out (path (p1.name ++ "." ++ t.final)), inp (path (p2.name ++ "." ++ t.start)) with
        | some a, some b => .ok [(a, b)]
        | _, _ => .error .connectNone
      else .ok []
  else .ok []

/-- mission_groups.py:300-328 `_link_phases` -/
def linkPhases (path : String → String) (out inp : String → Option String)
    (removeFirst : String → String → String) (p1 p2 : Phase) (skip : List String) :
    Except LErr (List (String × String)) :=
  (p1.states.mapM (linkState path out inp removeFirst p1 p2 skip)).map List.flatten

/-- mission_groups.py:295-298: all requested linkages, in order -/
def linkAll (path : String → String) (out inp : String → Option String)
    (removeFirst : String → String → String) (links : List (Phase × Phase × List String)) :
    Except LErr (List (String × String)) :=
  (links.mapM fun l => linkPhases path out inp removeFirst l.1 l.2.1 l.2.2).map List.flatten

/-- mission_groups.py:330-334 `link_phases`: only phases are accepted, the request is queued -/
def requestLink (isPhase1 isPhase2 : Bool) (queue : List (Phase × Phase × List String))
    (l : Phase × Phase × List String) : Except LErr (List (Phase × Phase × List String)) :=
  if ¬ (isPhase1 ∧ isPhase2) then .error .notPhase else .ok (queue ++ [l])

end Verif.Mission
