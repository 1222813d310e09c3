import Verif.Model.StringKey
import Verif.Model.Sparsity2
import Verif.Model.VectorComps

/-!
Groups of OpenMDAO: subsystems, promotion of variables, explicit and implicit connections, conversion of units.

A system is seen at one node (the components are elementwise, C106 and C111): its inputs and outputs with unit and shape, and the
relation between the values of its variables in a converged state.  In a group every variable of a subsystem has a promoted name,
the name under which it is promoted or `subsystem.variable`.  An input is fed by the output which is connected to it explicitly,
else by the output of the same promoted name, else it is an input of the group: all inputs with this name share one value (OpenMDAO
creates an independent variable for them), and the name is looked up one level higher.

Wildcards other than `*` are expanded in the tables.  Initial guesses, bounds and the order of execution are not modelled.
-/

namespace Verif.Wiring

open Verif.Units Verif.VectorComps

attribute [local instance 10000] fastString

/-- a variable as seen from outside a system: `vec` if it has one entry for each node, `top` unless it is hidden behind a dot -/
structure Var where
  name : String
  unit : String
  vec : Bool
  top : Bool := true
  deriving DecidableEq

/-- options that are kept general: numbers, and the tabulated functions of surrogate components -/
structure Opts where
  val : String → ℝ
  map : String → List ℝ → ℝ

instance : CoeFun Opts fun _ => String → ℝ := ⟨Opts.val⟩

/-- a component or group: variables, and the relation between their values for given options -/
structure Sys where
  ins : List Var
  outs : List Var
  rel : Opts → (String → ℝ) → Prop

/-- `promotes_inputs` or `promotes_outputs`: `["*"]`, or a list of names with the names under which they are promoted.  `["*"]` matches
the names with dots too, which the subsystem's own subsystems have not promoted -/
inductive Promo
  | all
  | only (l : List (String × String))

def names (l : List String) : Promo := .only (l.map fun n => (n, n))

/-- is the variable promoted -/
def Promo.covers (p : Promo) (v : Var) : Bool :=
  match p with
  | .all => v.top
  | .only l => (l.lookup v.name).isSome

/-- promoted name of a variable of the subsystem `s` -/
def Promo.name (p : Promo) (s : String) (v : Var) : String :=
  match p with
  | .all => v.name
  | .only l => (l.lookup v.name).getD (s ++ "." ++ v.name)

structure Sub where
  name : String
  sys : Sys
  pin : Promo := .only []
  pout : Promo := .only []

/-- a group: subsystems, calls of `connect` and units given to `set_input_defaults` -/
structure Grp where
  subs : List Sub
  conns : List (String × String) := []
  defaults : List (String × String) := []

/-- inputs of the subsystems under their promoted names -/
def Grp.targets (g : Grp) : List Var :=
  g.subs.flatMap fun s => s.sys.ins.map fun v => ⟨s.pin.name s.name v, v.unit, v.vec, s.pin.covers v⟩

/-- outputs of the subsystems under their promoted names -/
def Grp.outs (g : Grp) : List Var :=
  g.subs.flatMap fun s => s.sys.outs.map fun v => ⟨s.pout.name s.name v, v.unit, v.vec, s.pout.covers v⟩

/-- the promoted name of the variable that feeds the input with promoted name `t` -/
def Grp.src (g : Grp) (t : String) : String := ((g.conns.find? fun c => c.2 == t).map Prod.fst).getD t

/-- the inputs of the group: those which no output feeds, each name once, with the unit of `set_input_defaults` or else of the first
input of this name -/
def Grp.ins (g : Grp) : List Var :=
  (g.targets.filter fun v => !(g.outs.map Var.name).contains (g.src v.name)).foldl (fun l v =>
    if (l.map Var.name).contains v.name then l
    else l ++ [⟨v.name, (g.defaults.lookup v.name).getD v.unit, v.vec, v.top⟩]) []

/-- unit of the variable with promoted name `n` -/
def Grp.unitOf (g : Grp) (n : String) : String := (((g.outs ++ g.ins).find? fun v => v.name == n).map Var.unit).getD ""

/-! ### units -/

/-- physical quantity of a unit, up to conversion; `none`: not a unit of the table -/
def kind : String → Option String
  | "" | "m/m" | "m**2 / (m**2) " => some "number"
  | "rad" | "deg" => some "angle"
  | "m" | "mm" | "cm" | "inch" | "ft" | "km" | "NM" | "nmi" => some "length"
  | "m**2" | "m **2" | "inch**2" | "ft**2" => some "area"
  | "m**3" | "ft**3" => some "volume"
  | "s" | "min" | "h" => some "time"
  | "m/s" | "m / s" | "m /s" | "m/s " | "(m) / (s)" | "kn" | "ft/min" => some "speed"
  | "m/s**2" | "m / s**2" | "(m/s) / (s)" => some "acceleration"
  | "rpm" => some "shaft speed"
  | "s ** -1" | "s**-1" | "(s)** -1" | "W / (kJ) " => some "rate"
  | "kg" | "g" | "lb" | "lbm" => some "mass"
  | "kg/s" | "kg/s " | "(kg) / (s)" | "lbm/s" | "lbm/s * (lbf) / (lbf) " | "lbm/h" => some "mass flow"
  | "kg " | "lb " | "lb * (m/m) " | "(kg/s) * (s)" => some "mass"
  | "kg/m**3" | "kg / m**3" | "kg / m ** 3" | "kg * m**-3" => some "density"
  | "kg/m/s" | "Pa*s" => some "viscosity"
  | "N" | "kN" | "kN " | "lbf" | "lbf " | "lbf * (lbf) / (lbf) " => some "force"
  | "Pa" | "kPa" | "MPa" | "bar" | "atm" | "psi" | "N * m**-2" | "lb*ft**-2" => some "pressure"
  | "W" | "kW" | "hp" => some "power"
  | "J" | "kJ" | "MJ" | "W*h" => some "energy"
  | "W/kg" => some "specific power"
  | "W*h/kg" | "W * h / kg" | "W * h/kg" | "J/kg" => some "specific energy"
  | "J/kg/K" => some "specific heat"
  | "W/m/K" => some "conductivity"
  | "W/m**2/K" => some "film coefficient"
  | "W/K" => some "conductance"
  | "K/W" => some "resistance"
  | "K" | "degK" | "degC" | "degR" => some "temperature"
  | "K/s" | "(K) / (s)" => some "heating rate"
  | "USD" => some "money"
  | _ => none

/-- size of the unit in SI units (OpenMDAO's unit library); pounds of the `lb*ft**-2` of the weights are not converted anywhere -/
noncomputable def fac : String → ℝ
  | "deg" => Real.pi / 180
  | "mm" => 0.001
  | "cm" => 0.01
  | "inch" => 0.0254
  | "ft" => 0.3048
  | "km" => 1000
  | "NM" | "nmi" => 1852
  | "inch**2" => 0.0254 ^ 2
  | "ft**2" => 0.3048 ^ 2
  | "ft**3" => 0.3048 ^ 3
  | "min" => 60
  | "h" => 3600
  | "kn" => 1852 / 3600
  | "ft/min" => 0.3048 / 60
  | "W / (kJ) " => 1 / 1000
  | "g" => 0.001
  | "lb" | "lb " | "lb * (m/m) " | "lbm" | "lbm/s" | "lbm/s * (lbf) / (lbf) " => 0.45359237
  | "lbm/h" => 0.45359237 / 3600
  | "kN" | "kN " => 1000
  | "lbf" | "lbf " | "lbf * (lbf) / (lbf) " => 0.45359237 * 9.80665
  | "kPa" => 1000
  | "MPa" => 1000000
  | "bar" => 100000
  | "atm" => 101325
  | "psi" => 0.45359237 * 9.80665 / 0.0254 ^ 2
  | "kW" => 1000
  | "hp" => 745.7
  | "degR" => 5 / 9
  | "kJ" => 1000
  | "MJ" => 1000000
  | "W*h" | "W*h/kg" | "W * h / kg" | "W * h/kg" => 3600
  | _ => 1

/-- offset of the unit from absolute zero -/
noncomputable def off : String → ℝ
  | "degC" => 273.15
  | _ => 0

/-- conversion of a value from unit `u` to unit `v`; nothing is converted if one of them is `None` -/
noncomputable def conv (u v : String) (x : ℝ) : ℝ :=
  if u = v ∨ u = "" ∨ v = "" then x else (x + off u) * fac u / fac v - off v

/-! ### meaning of a group -/

/-- where a variable of a subsystem is found in the group: promoted name and unit of its source, unit in which it is read -/
structure Link where
  sub : String
  var : String
  src : String
  unit : String
  want : String
  deriving DecidableEq

def Grp.links (g : Grp) : List Link :=
  g.subs.flatMap fun s =>
    (s.sys.outs.map fun v => ⟨s.name, v.name, s.pout.name s.name v, v.unit, v.unit⟩) ++
    s.sys.ins.map fun v =>
      let n := g.src (s.pin.name s.name v)
      ⟨s.name, v.name, n, g.unitOf n, v.unit⟩

/-- value of variable `x` of subsystem `s` when those of the group, under their promoted names, are `e` -/
noncomputable def look (e : String → ℝ) (s x : String) : List Link → ℝ
  | [] => 0
  | k :: l => if k.sub = s ∧ k.var = x then conv k.unit k.want (e k.src) else look e s x l

noncomputable def Grp.view (g : Grp) (e : String → ℝ) (s x : String) : ℝ := look e s x g.links

/-- a converged state of the group with options `o`: every subsystem is converged on what it is fed with -/
def Grp.rel (g : Grp) (o : Opts) (e : String → ℝ) : Prop := ∀ s ∈ g.subs, s.sys.rel o (g.view e s.name)

/-- a group as a subsystem of another one -/
def Grp.sys (g : Grp) : Sys := ⟨g.ins, g.outs, g.rel⟩

/-- what OpenMDAO complains about when the group is set up -/
inductive Problem
  /-- a promoted name is not a variable of the subsystem -/
  | noSuchVariable (s v : String)
  /-- two outputs with one name -/
  | doubleOutput (v : String)
  /-- `connect` from something that is not an output or to something that is not an input -/
  | badConnect (a b : String)
  /-- an input with two sources -/
  | doubleSource (v : String)
  /-- source and target are not of the same kind (a unit against no unit is only a warning, but nothing is converted) -/
  | units (a b : String)
  /-- a vector feeds a scalar or the other way round -/
  | shapes (a b : String)
  /-- inputs of one name with different units and no default; an error if nothing is connected further up (different default values
  are another one, not modelled) -/
  | ambiguous (v : String)
  deriving DecidableEq

def Promo.unknown (p : Promo) (s : String) (vs : List Var) : List Problem :=
  match p with
  | .all => []
  | .only l => (l.filter fun q => !(vs.map Var.name).contains q.1).map fun q => .noSuchVariable s q.1

/-- a unit without spaces, `m / s` and `m/s` being the same -/
def bare (u : String) : List Char := u.toList.filter fun c => c != ' '

/-- names that occur twice -/
def twice : List String → List String
  | [] => []
  | a :: l => if l.contains a then a :: twice l else twice l

def Grp.problems (g : Grp) : List Problem :=
  (g.subs.flatMap fun s => s.pin.unknown s.name s.sys.ins ++ s.pout.unknown s.name s.sys.outs)
  ++ (twice (g.outs.map Var.name)).map .doubleOutput
  ++ ((g.conns.filter fun c => !((g.outs.map Var.name).contains c.1 && (g.targets.map Var.name).contains c.2)).map
      fun c => .badConnect c.1 c.2)
  ++ ((twice (g.conns.map Prod.snd)).map .doubleSource)
  ++ ((g.conns.filter fun c => (g.outs.map Var.name).contains c.2).map fun c => .doubleSource c.2)
  ++ (g.targets.flatMap fun t => (g.outs.filter fun o => o.name == g.src t.name).flatMap fun o =>
      (if kind o.unit = kind t.unit ∧ (kind o.unit).isSome then [] else [Problem.units o.name t.name])
      ++ (if o.vec = t.vec then [] else [Problem.shapes o.name t.name]))
  ++ (g.ins.flatMap fun i => (g.targets.filter fun t => t.name == i.name).flatMap fun t =>
      (if t.vec = i.vec then [] else [Problem.shapes i.name t.name])
      ++ (if kind t.unit = kind i.unit then [] else [Problem.units i.name t.name])
      ++ if bare t.unit = bare i.unit ∨ (g.defaults.lookup i.name).isSome then [] else [Problem.ambiguous i.name])

/-! ### components -/

/-- the value given to an option: a number, or an option of the surroundings -/
inductive OptVal
  | lit (x : ℝ)
  | ref (n : String)

def OptVal.get (o : Opts) (v : String) : Option OptVal → ℝ
  | some (.lit x) => x
  | some (.ref n) => o n
  | none => o v

/-- the environment of a component: its options are given by `set`, those not listed are found in `o` under their own names -/
noncomputable def withOpts (c : Comp) (set : List (String × OptVal)) (o : Opts) (e : String → ℝ) : String → ℝ := fun v =>
  if v ∈ c.opts.map Prod.fst then OptVal.get o v (set.lookup v) else e v

def vars (d : Decl) (l : List (String × String)) : List Var := l.map fun p => ⟨p.1, p.2, d.vecs.contains p.1, true⟩

/-- an explicit component -/
noncomputable def explicit (d : Decl) (set : List (String × OptVal) := []) : Sys where
  ins := vars d d.comp.ins
  outs := vars d d.comp.outs
  rel o e := ∀ x ∈ d.comp.outs, d.comp.run (withOpts d.comp set o e) x.1 = some (e x.1)

/-- an implicit component, whose residuals vanish; the states are not inputs -/
noncomputable def implicit (d : Decl) (set : List (String × OptVal) := []) : Sys where
  ins := (vars d d.comp.ins).filter fun v => !(d.comp.outs.map Prod.fst).contains v.name
  outs := vars d d.comp.outs
  rel o e := ∀ x ∈ d.comp.outs, d.comp.run (withOpts d.comp set o e) x.1 = some 0

/-- `IndepVarComp`: the values are free -/
def indep (outs : List Var) : Sys := ⟨[], outs, fun _ _ => True⟩

/-- an equation of `AddSubtractComp`; an input is a vector if its size is not 1 -/
def sum (s : AddSys ℝ) (vec : String → Bool) : Sys where
  ins := s.inputs.map fun n => ⟨n, (s.kwargs.units.getD none).getD "", vec n, true⟩
  outs := [⟨s.output, (s.kwargs.units.getD none).getD "", vec s.output, true⟩]
  rel _ e := e s.output = s.compute (fun n _ _ => e n) 0 0

/-- keep the first of the variables of one name -/
def once (l : List Var) : List Var :=
  l.foldl (fun l v => if (l.map Var.name).contains v.name then l else l ++ [v]) []

/-- `AddSubtractComp` with several equations, all inputs of an equation vectors or all scalars; inputs of two equations are
declared once (add_subtract_comp.py:207-225) -/
def sums (l : List (AddSys ℝ × Bool)) : Sys where
  ins := once (l.flatMap fun s => s.1.inputs.map fun n => ⟨n, (s.1.kwargs.units.getD none).getD "", s.2, true⟩)
  outs := l.map fun s => ⟨s.1.output, (s.1.kwargs.units.getD none).getD "", s.2, true⟩
  rel _ e := ∀ s ∈ l, e s.1.output = s.1.compute (fun n _ _ => e n) 0 0

/-- `add_equation` without scaling factors -/
def eqn (output : String) (inputs : List String) (units : String) (vec : Bool) (scaling : Option (List ℝ) := none) :
    AddSys ℝ × Bool := (⟨output, inputs, .all 1, 1, scaling, ⟨some (some units), none⟩⟩, vec)

/-- `ElementMultiplyDivideComp` with one equation -/
noncomputable def product (s : MulSys ℝ) (vec : String → Bool) : Sys where
  ins := (s.inputs.zip s.units).map fun p => ⟨p.1, p.2.getD "", vec p.1, true⟩
  outs := [⟨s.output, (outputUnits (s.div.zip s.units)).getD "", vec s.output, true⟩]
  rel _ e := e s.output = s.compute (fun n _ _ => e n) 0 0

/-- `BalanceComp` of OpenMDAO with one balance: the state is such that the residual vanishes -/
noncomputable def balance (state unit lhs rhs eqUnits : String) : Sys where
  ins := [⟨lhs, eqUnits, true, true⟩, ⟨rhs, eqUnits, true, true⟩]
  outs := [⟨state, unit, true, true⟩]
  rel _ e := Propulsion.balanceResidual (e lhs) (e rhs) = 0

/-- `MetaModelStructuredComp` with one output: the table is an option -/
def surrogate (name : String) (ins : List Var) (out : Var) : Sys :=
  ⟨ins, [out], fun o e => e out.name = o.map name (ins.map fun v => e v.name)⟩

/-- a component whose outputs at a node depend on the other nodes (integrals, interpolation) or which is not modelled: no relation
is stated -/
def opaque_ (ins outs : List Var) : Sys := ⟨ins, outs, fun _ _ => True⟩

/-- `ExecComp` with one expression -/
def exec (ins : List Var) (out : Var) (f : (String → ℝ) → ℝ) : Sys := ⟨ins, [out], fun _ e => e out.name = f e⟩

/-- `DVLabel` (utilities/dvlabel.py): outputs that copy inputs, (input, output, vector, unit) -/
def label (l : List (String × String × Bool × String)) : Sys where
  ins := l.map fun r => ⟨r.1, r.2.2.2, r.2.2.1, true⟩
  outs := l.map fun r => ⟨r.2.1, r.2.2.2, r.2.2.1, true⟩
  rel _ e := ∀ r ∈ l, e r.2.1 = e r.1

end Verif.Wiring
