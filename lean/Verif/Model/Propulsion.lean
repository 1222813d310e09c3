import Verif.Model.Constants
import Verif.Model.Integrals
import Mathlib.Analysis.SpecialFunctions.Pow.Real
import Mathlib.Analysis.Real.Sqrt
import Mathlib.Analysis.Real.Pi.Bounds

/-!
Model of `openconcept/propulsion` (components and the simple propulsion systems) and of the battery in
`openconcept/energy_storage/battery.py`.

Every vector input is used elementwise, so components are modelled at one node.  Quantities are in SI units
(OpenMDAO converts units on connections).  The propeller and engine maps (interpolated tables) are arbitrary
functions.
-/

namespace Verif.Propulsion

/-! ### splitter.py -/

/-- splitter.py:77-84, the split rule -/
inductive Rule
  | fraction
  | fixed
  deriving DecidableEq

/-- splitter.py:78-84: the `rule` option is checked in `setup` -/
def parseRule (s : String) : Except String Rule :=
  if s = "fraction" then .ok .fraction
  else if s = "fixed" then .ok .fixed
  else .error "Specify either \"fraction\" or \"fixed\" as power split control rule"

/-- splitter.py:66-70 options -/
structure SplitOpts where
  eta : ℝ
  weightInc : ℝ
  weightBase : ℝ
  costInc : ℝ
  costBase : ℝ

/-- splitter.py:66-70 default options -/
def SplitOpts.default : SplitOpts := ⟨1, 0, 0, 0, 0⟩

/-- inputs of one node; `ctrl` is `power_split_fraction` or `power_split_amount` -/
structure SplitIn where
  powerIn : ℝ
  rating : ℝ
  ctrl : ℝ

structure SplitOut where
  outA : ℝ
  outB : ℝ
  heat : ℝ
  cost : ℝ
  weight : ℝ
  margin : ℝ

open Classical in
/-- splitter.py:120-136, output A -/
noncomputable def splitA (r : Rule) (o : SplitOpts) (i : SplitIn) : ℝ :=
  match r with
  | .fraction => i.powerIn * i.ctrl * o.eta
  | .fixed => if i.powerIn < i.ctrl then i.powerIn * o.eta else i.ctrl * o.eta

open Classical in
/-- splitter.py:120-136, output B -/
noncomputable def splitB (r : Rule) (o : SplitOpts) (i : SplitIn) : ℝ :=
  match r with
  | .fraction => i.powerIn * (1 - i.ctrl) * o.eta
  | .fixed => if i.powerIn < i.ctrl then 0 else (i.powerIn - i.ctrl) * o.eta

/-- splitter.py:111-140 `PowerSplit.compute` -/
noncomputable def splitCompute (r : Rule) (o : SplitOpts) (i : SplitIn) : SplitOut where
  outA := splitA r o i
  outB := splitB r o i
  heat := i.powerIn * (1 - o.eta)
  cost := i.rating * o.costInc + o.costBase
  weight := i.rating * o.weightInc + o.weightBase
  margin := i.powerIn / i.rating

/-- the entries of the Jacobian of `PowerSplit` at one node -/
structure SplitJac where
  A_in : ℝ
  A_ctrl : ℝ
  B_in : ℝ
  B_ctrl : ℝ
  heat_in : ℝ
  cost_rating : ℝ
  weight_rating : ℝ
  margin_in : ℝ
  margin_rating : ℝ

open Classical in
/-- splitter.py:97-109 (constants) and 142-173 `compute_partials` -/
noncomputable def splitPartials (r : Rule) (o : SplitOpts) (i : SplitIn) : SplitJac where
  A_in := match r with | .fraction => i.ctrl * o.eta | .fixed => if i.powerIn < i.ctrl then o.eta else 0
  A_ctrl := match r with | .fraction => i.powerIn * o.eta | .fixed => if i.powerIn < i.ctrl then 0 else o.eta
  B_in := match r with | .fraction => (1 - i.ctrl) * o.eta | .fixed => if i.powerIn < i.ctrl then 0 else o.eta
  B_ctrl := match r with | .fraction => -i.powerIn * o.eta | .fixed => if i.powerIn < i.ctrl then 0 else -o.eta
  heat_in := 1 - o.eta
  cost_rating := o.costInc
  weight_rating := o.weightInc
  margin_in := 1 / i.rating
  margin_rating := -(i.powerIn / i.rating ^ 2)

/-! ### motor.py, generator.py, turboshaft.py -/

/-- motor.py:50-55, generator.py:49-53, turboshaft.py:62-66: options; `tech` is the efficiency (motor,
generator) or the power specific fuel consumption (turboshaft) -/
structure MachineOpts where
  tech : ℝ
  weightInc : ℝ
  weightBase : ℝ
  costInc : ℝ
  costBase : ℝ

structure MotorOut where
  shaft : ℝ
  heat : ℝ
  elecLoad : ℝ
  cost : ℝ
  weight : ℝ
  margin : ℝ

/-- motor.py:84-95 `SimpleMotor.compute` -/
noncomputable def motor (o : MachineOpts) (throttle rating : ℝ) : MotorOut where
  shaft := throttle * rating * o.tech
  heat := throttle * rating * (1 - o.tech)
  elecLoad := throttle * rating
  cost := rating * o.costInc + o.costBase
  weight := rating * o.weightInc + o.weightBase
  margin := throttle

/-- motor.py:97-104: the partials with respect to the throttle (same structure as the outputs); cost and weight
are not declared with respect to it -/
noncomputable def motorDThrottle (o : MachineOpts) (_throttle rating : ℝ) : MotorOut where
  shaft := rating * o.tech
  heat := rating * (1 - o.tech)
  elecLoad := rating
  cost := 0
  weight := 0
  margin := 1

/-- motor.py:78-79, 97-104: the partials with respect to the rating; the sizing margin is not declared -/
noncomputable def motorDRating (o : MachineOpts) (throttle _rating : ℝ) : MotorOut where
  shaft := throttle * o.tech
  heat := throttle * (1 - o.tech)
  elecLoad := throttle
  cost := o.costInc
  weight := o.weightInc
  margin := 0

structure GenOut where
  elec : ℝ
  heat : ℝ
  cost : ℝ
  weight : ℝ
  margin : ℝ

/-- generator.py:82-93 `SimpleGenerator.compute` -/
noncomputable def generator (o : MachineOpts) (shaftIn rating : ℝ) : GenOut where
  elec := shaftIn * o.tech
  heat := shaftIn * (1 - o.tech)
  cost := rating * o.costInc + o.costBase
  weight := rating * o.weightInc + o.weightBase
  margin := shaftIn * o.tech / rating

/-- generator.py:71-80, 97 partials with respect to the shaft power -/
noncomputable def generatorDShaft (o : MachineOpts) (_shaftIn rating : ℝ) : GenOut where
  elec := o.tech
  heat := 1 - o.tech
  cost := 0
  weight := 0
  margin := o.tech / rating

/-- generator.py:77-80, 98-100 partials with respect to the rating -/
noncomputable def generatorDRating (o : MachineOpts) (shaftIn rating : ℝ) : GenOut where
  elec := 0
  heat := 0
  cost := o.costInc
  weight := o.weightInc
  margin := -(o.tech * shaftIn / rating ^ 2)

structure ShaftOut where
  shaft : ℝ
  fuel : ℝ
  cost : ℝ
  weight : ℝ
  margin : ℝ

/-- turboshaft.py:94-105 `SimpleTurboshaft.compute` -/
noncomputable def turboshaft (o : MachineOpts) (throttle rating : ℝ) : ShaftOut where
  shaft := throttle * rating
  fuel := throttle * rating * o.tech
  cost := rating * o.costInc + o.costBase
  weight := rating * o.weightInc + o.weightBase
  margin := throttle

/-- turboshaft.py:90-92, 110-112 partials with respect to the throttle -/
noncomputable def turboshaftDThrottle (o : MachineOpts) (_throttle rating : ℝ) : ShaftOut where
  shaft := rating
  fuel := rating * o.tech
  cost := 0
  weight := 0
  margin := 1

/-- turboshaft.py:88-89, 111-113 partials with respect to the rating -/
noncomputable def turboshaftDRating (o : MachineOpts) (throttle _rating : ℝ) : ShaftOut where
  shaft := throttle
  fuel := throttle * o.tech
  cost := o.costInc
  weight := o.weightInc
  margin := 0

/-! ### propeller.py -/

/-- the propeller maps of propeller.py:62-66 -/
inductive PropMap
  | raymer
  | highpower
  deriving DecidableEq

/-- propeller.py:58-68 `SimplePropeller.setup`: choice of the map.  Two consecutive `if` statements; the `else`
belongs to the second. -/
def propellerSetup (nBlades : ℤ) : Except String PropMap := do
  let m1 : Option PropMap := if nBlades = 3 then some .raymer else none
  let m2 ← if nBlades = 4 then pure (some PropMap.highpower)
    else throw "You will need to define a propeller map valid for this number of blades"
  match m2.orElse fun _ => m1 with
  | some m => pure m
  | none => throw "UnboundLocalError"

/-- propeller.py:91-96 `WeightCalc.compute` -/
noncomputable def propWeight (nBlades power diameter : ℝ) : ℝ :=
  0.108 * (diameter * power * nBlades ^ (0.5 : ℝ)) ^ (0.782 : ℝ)
/-- propeller.py:101-106 -/
noncomputable def propWeightDPower (nBlades power diameter : ℝ) : ℝ :=
  0.782 * 0.108 * (diameter * power * nBlades ^ (0.5 : ℝ)) ^ (0.782 - 1 : ℝ) * (diameter * nBlades ^ (0.5 : ℝ))
/-- propeller.py:107-112 -/
noncomputable def propWeightDDiameter (nBlades power diameter : ℝ) : ℝ :=
  0.782 * 0.108 * (diameter * power * nBlades ^ (0.5 : ℝ)) ^ (0.782 - 1 : ℝ) * (power * nBlades ^ (0.5 : ℝ))

/-- inputs of `ThrustCalc` at one node (propeller.py:121-127) -/
structure ThrustIn where
  cp : ℝ
  eta : ℝ
  J : ℝ
  rho : ℝ
  rpm : ℝ
  diameter : ℝ
  ctOverCp : ℝ

/-- propeller.py:156, 187 -/
noncomputable def interp1 (j : ℝ) : ℝ := (0.20 - j) / (0.20 - 0.10)
/-- propeller.py:157, 188 -/
noncomputable def interp2 (j : ℝ) : ℝ := (j - 0.10) / (0.20 - 0.10)

open Classical in
/-- propeller.py:137-160 the thrust coefficient -/
noncomputable def thrustCoef (i : ThrustIn) : ℝ :=
  let ct1 := i.ctOverCp * i.cp
  let ct2 := i.cp * i.eta / i.J
  if i.J ≤ 0.10 then ct1
  else if i.J < 0.20 then interp1 i.J * ct1 + interp2 i.J * ct2
  else ct2

/-- propeller.py:162, 199 -/
noncomputable def thrustOverCt (i : ThrustIn) : ℝ := i.rho * (i.rpm / 60) ^ 2 * i.diameter ^ 4

/-- propeller.py:162 `ThrustCalc.compute` -/
noncomputable def thrust (i : ThrustIn) : ℝ := thrustCoef i * i.rho * (i.rpm / 60) ^ 2 * i.diameter ^ 4

open Classical in
/-- propeller.py:177-191 -/
noncomputable def dctdcp (i : ThrustIn) : ℝ :=
  if i.J ≤ 0.10 then i.ctOverCp
  else if i.J < 0.20 then interp1 i.J * i.ctOverCp + interp2 i.J * (i.eta / i.J)
  else i.eta / i.J

/-- propeller.py:193, 200 the thrust as recomputed in `compute_partials` -/
noncomputable def thrustP (i : ThrustIn) : ℝ := i.cp * dctdcp i * i.rho * (i.rpm / 60) ^ 2 * i.diameter ^ 4

open Classical in
/-- real division of numpy for a scalar: `x / 0` is NaN or infinite, not a number (`none`) -/
noncomputable def npdiv (x y : ℝ) : Option ℝ := if y = 0 then none else some (x / y)

/-- propeller.py:202 -/
noncomputable def thrustDRho (i : ThrustIn) : ℝ := thrustP i / i.rho
/-- propeller.py:203 -/
noncomputable def thrustDRpm (i : ThrustIn) : ℝ := 2 * thrustP i / i.rpm
/-- propeller.py:204 -/
noncomputable def thrustDDiameter (i : ThrustIn) : ℝ := 4 * thrustP i / i.diameter
/-- propeller.py:205 -/
noncomputable def thrustDCp (i : ThrustIn) : ℝ := dctdcp i * i.rho * (i.rpm / 60) ^ 2 * i.diameter ^ 4

open Classical in
/-- propeller.py:207-230 -/
noncomputable def thrustDCtOverCp (i : ThrustIn) : Option ℝ :=
  if i.J ≤ 0.10 then npdiv (thrustP i) i.ctOverCp
  else if i.J < 0.20 then (npdiv (i.ctOverCp * i.cp) i.ctOverCp).map fun x => thrustOverCt i * interp1 i.J * x
  else some 0

open Classical in
/-- propeller.py:207-231 -/
noncomputable def thrustDEta (i : ThrustIn) : Option ℝ :=
  if i.J ≤ 0.10 then some 0
  else if i.J < 0.20 then (npdiv (i.cp * i.eta / i.J) i.eta).map fun x => thrustOverCt i * interp2 i.J * x
  else npdiv (thrustP i) i.eta

open Classical in
/-- propeller.py:207-232 -/
noncomputable def thrustDJ (i : ThrustIn) : ℝ :=
  if i.J ≤ 0.10 then 0
  else if i.J < 0.20 then thrustOverCt i * (-(i.ctOverCp * i.cp) / (0.20 - 0.10)
    + (i.cp * i.eta / i.J) / (0.20 - 0.10) - interp2 i.J * (i.cp * i.eta / i.J) / i.J)
  else -thrustP i / i.J

/-- inputs of `PropCoefficients` at one node (propeller.py:241-245) -/
structure CoefIn where
  power : ℝ
  diameter : ℝ
  rpm : ℝ
  rho : ℝ
  utrue : ℝ

/-- propeller.py:266-268 -/
noncomputable def powerCoef (i : CoefIn) : ℝ := i.power / i.rho / (i.rpm / 60) ^ 3 / i.diameter ^ 5
/-- propeller.py:270 -/
noncomputable def advanceRatio (i : CoefIn) : ℝ := 60 * i.utrue / i.rpm / i.diameter
/-- propeller.py:273 -/
noncomputable def tipSpeed (i : CoefIn) : ℝ := i.rpm / 60 * Real.pi * i.diameter
/-- propeller.py:279 -/
noncomputable def powerCoefDPower (i : CoefIn) : ℝ := 1 / i.rho / (i.rpm / 60) ^ 3 / i.diameter ^ 5
/-- propeller.py:280 -/
noncomputable def powerCoefDRho (i : CoefIn) : ℝ := -powerCoef i / i.rho
/-- propeller.py:281 -/
noncomputable def powerCoefDRpm (i : CoefIn) : ℝ := -3 * powerCoef i / i.rpm
/-- propeller.py:282 -/
noncomputable def powerCoefDDiameter (i : CoefIn) : ℝ := -5 * powerCoef i / i.diameter
/-- propeller.py:283 -/
noncomputable def advanceRatioDU (i : CoefIn) : Option ℝ := npdiv (advanceRatio i) i.utrue
/-- propeller.py:284 -/
noncomputable def advanceRatioDRpm (i : CoefIn) : ℝ := -advanceRatio i / i.rpm
/-- propeller.py:285 -/
noncomputable def advanceRatioDDiameter (i : CoefIn) : ℝ := -advanceRatio i / i.diameter
/-- propeller.py:286 -/
noncomputable def tipSpeedDRpm (i : CoefIn) : ℝ := 1 / 60 * Real.pi * i.diameter
/-- propeller.py:287 -/
noncomputable def tipSpeedDDiameter (i : CoefIn) : ℝ := i.rpm / 60 * Real.pi

/-- the propeller maps: efficiency as a function of `cp`, `J` and static `ct/cp` as a function of `cp` -/
structure Maps where
  eta : ℝ → ℝ → ℝ
  ctOverCp : ℝ → ℝ

/-- propeller.py:69-78: the group `SimplePropeller` at one node -/
noncomputable def propeller (mp : Maps) (i : CoefIn) : ℝ :=
  thrust ⟨powerCoef i, mp.eta (powerCoef i) (advanceRatio i), advanceRatio i, i.rho, i.rpm, i.diameter,
    mp.ctOverCp (powerCoef i)⟩

/-! ### systems -/

/-- flight condition and propeller of one side -/
structure Side where
  diameter : ℝ
  rpm : ℝ
  rho : ℝ
  utrue : ℝ

noncomputable def Side.coef (s : Side) (power : ℝ) : CoefIn := ⟨power, s.diameter, s.rpm, s.rho, s.utrue⟩

/-- systems/simple_turboprop.py:120-147: options of the turboshafts (psfc default of turboshaft.py:62) -/
noncomputable def turboOpts : MachineOpts := ⟨0.6 * 1.68965774e-7, 0.14 / 1000, 104, 1.04, 0⟩

structure PropulsionOut where
  thrust : ℝ
  fuel : ℝ

/-- systems/simple_turboprop.py:43-76 `TurbopropPropulsionSystem` -/
noncomputable def singleTurboprop (mp : Maps) (s : Side) (throttle rating : ℝ) : PropulsionOut where
  thrust := propeller mp (s.coef (turboshaft turboOpts throttle rating).shaft)
  fuel := (turboshaft turboOpts throttle rating).fuel

/-- systems/simple_turboprop.py:116-178 `TwinTurbopropPropulsionSystem`: the second throttle is multiplied by the
flag `propulsor_active`; the two propellers have their own shaft speed inputs -/
noncomputable def twinTurboprop (mp : Maps) (s1 s2 : Side) (throttle active rating : ℝ) : PropulsionOut where
  thrust := propeller mp (s1.coef (turboshaft turboOpts throttle rating).shaft)
    + propeller mp (s2.coef (turboshaft turboOpts (throttle * active) rating).shaft)
  fuel := (turboshaft turboOpts throttle rating).fuel + (turboshaft turboOpts (throttle * active) rating).fuel

/-- systems/simple_series_hybrid.py:60-69: motors with efficiency 0.97, other options at the defaults of
motor.py:52-55 -/
noncomputable def hybridMotor : MachineOpts := ⟨0.97, 1 / 5000, 0, 100 / 745, 1⟩
/-- systems/simple_series_hybrid.py:97 generator with efficiency 0.97 -/
noncomputable def hybridGen : MachineOpts := ⟨0.97, 1 / 5000, 0, 100 / 745, 1⟩

open Classical in
/-- OpenMDAO `BalanceComp` residual with the default normalization (`normalize=True`, `mult` not used):
`(lhs - rhs) * scale`, where the scale is `1/|rhs|` for `|rhs| ≥ 2` and `1/(0.25 rhs² + 1)` otherwise -/
noncomputable def balanceResidual (lhs rhs : ℝ) : ℝ :=
  (lhs - rhs) * (if |rhs| < 2 then 1 / (0.25 * rhs ^ 2 + 1) else 1 / |rhs|)

/-- inputs of the twin series hybrid systems at one node; `extraLoad` is the refrigerator's load in the
refrigerated variant (systems/thermal_series_hybrid.py:283-288), 0 in the other two -/
structure HybridIn where
  throttle : ℝ
  active : ℝ
  motorRating : ℝ
  genRating : ℝ
  engRating : ℝ
  splitFraction : ℝ
  splitRating : ℝ
  engThrottle : ℝ
  extraLoad : ℝ

structure HybridOut where
  thrust : ℝ
  fuel : ℝ
  totalLoad : ℝ
  batteryLoad : ℝ
  genRequired : ℝ
  genAvailable : ℝ
  residual : ℝ
  motorHeat : ℝ
  splitHeat : ℝ
  genHeat : ℝ

/-- systems/simple_series_hybrid.py:45-142 `TwinSeriesHybridElectricPropulsionSystem` and the electric part of
systems/thermal_series_hybrid.py:54-202 and 244-411: total load through the splitter, share A to the battery,
share B against the generator's output in a balance whose unknown is the engine throttle -/
noncomputable def twinHybrid (mp : Maps) (s1 s2 : Side) (i : HybridIn) : HybridOut :=
  let m1 := motor hybridMotor i.throttle i.motorRating
  let m2 := motor hybridMotor (i.throttle * i.active) i.motorRating
  let load := m1.elecLoad + m2.elecLoad + i.extraLoad
  let sp := splitCompute .fraction .default ⟨load, i.splitRating, i.splitFraction⟩
  let eng := turboshaft turboOpts i.engThrottle i.engRating
  let gen := generator hybridGen eng.shaft i.genRating
  { thrust := propeller mp (s1.coef m1.shaft) + propeller mp (s2.coef m2.shaft)
    fuel := eng.fuel
    totalLoad := load
    batteryLoad := sp.outA
    genRequired := sp.outB
    genAvailable := gen.elec
    residual := balanceResidual (gen.elec / 1000) (sp.outB / 1000)
    motorHeat := m1.heat + m2.heat
    splitHeat := sp.heat
    genHeat := gen.heat }

/-- systems/simple_series_hybrid.py:271-338 `SingleSeriesHybridElectricPropulsionSystem`: the generator mismatch is an
output, to be driven to zero by the optimizer -/
noncomputable def singleHybrid (mp : Maps) (s1 : Side) (i : HybridIn) : HybridOut :=
  let m1 := motor hybridMotor i.throttle i.motorRating
  let sp := splitCompute .fraction .default ⟨m1.elecLoad, i.splitRating, i.splitFraction⟩
  let eng := turboshaft turboOpts i.engThrottle i.engRating
  let gen := generator hybridGen eng.shaft i.genRating
  { thrust := propeller mp (s1.coef m1.shaft)
    fuel := eng.fuel
    totalLoad := m1.elecLoad
    batteryLoad := sp.outA
    genRequired := sp.outB
    genAvailable := gen.elec
    residual := 1 * (gen.elec / 1000) + (-1) * (sp.outB / 1000)
    motorHeat := m1.heat
    splitHeat := sp.heat
    genHeat := gen.heat }

/-- the names of the inputs of `SimplePropeller` (propeller.py:69-78): those of its subsystems promoted with `*` -/
def propellerInputs : List String :=
  ["shaft_power_in", "diameter", "rpm", "fltcond|rho", "fltcond|Utrue", "cp", "eta_prop", "J", "ct_over_cp", "power_rating"]

/-- OpenMDAO promotion of a pattern `prefix*`: an error if no name matches -/
def promotePrefix (pre : String) (names : List String) : Except String (List String) :=
  let l := names.filter fun n => pre.toList.isPrefixOf n.toList
  if l.isEmpty then .error "failed to find any matches" else .ok l

/-- systems/simple_series_hybrid.py:176-178: `SeriesHybridElectricPropulsionSystem` promotes `fltcond_*` from its
propeller -/
def seriesHybridPromote : Except String (List String) := promotePrefix "fltcond_" propellerInputs

/-- the promotion of `fltcond|*` used by the other systems (e.g. systems/simple_turboprop.py:63-64) -/
def otherPromote : Except String (List String) := promotePrefix "fltcond|" propellerInputs

/-! ### rubberized_turbofan.py -/

inductive Deck
  | N3
  | CFM56
  deriving DecidableEq

/-- rubberized_turbofan.py:77-82 -/
def origThrust : Deck → ℝ
  | .N3 => 28620
  | .CFM56 => 27300

/-- rubberized_turbofan.py:72-74 -/
noncomputable def lhvScale (hydrogen : Bool) : ℝ := if hydrogen then 43 / 120 else 1

/-- rubberized_turbofan.py:104-131: the deck gives `unit` thrust (lbf) and fuel flow (lbm/s) -/
noncomputable def turbofan (d : Deck) (hydrogen : Bool) (unitThrust unitFuel rating : ℝ) : PropulsionOut where
  thrust := unitThrust * rating / origThrust d
  fuel := lhvScale hydrogen * (unitFuel * rating / origThrust d)

/-! ### energy_storage/battery.py -/

/-- battery.py:158-163 options -/
structure BattOpts where
  eta : ℝ
  specificPower : ℝ
  costInc : ℝ
  costBase : ℝ

/-- battery.py:193-195 `SimpleBattery.compute`, one node; `max_energy` in W h -/
structure BattOut where
  heat : ℝ
  cost : ℝ
  margin : ℝ
  maxEnergy : ℝ

/-- battery.py:185-195 -/
noncomputable def battery (o : BattOpts) (weight load specificEnergy : ℝ) : BattOut where
  heat := load * (1 - o.eta)
  cost := weight * o.costInc + o.costBase
  margin := load / (o.specificPower * weight)
  maxEnergy := weight * specificEnergy

/-- battery.py:179-183, 197-203 partials with respect to the load -/
noncomputable def batteryDLoad (o : BattOpts) (weight _load _specificEnergy : ℝ) : BattOut :=
  ⟨1 - o.eta, 0, 1 / (o.specificPower * weight), 0⟩
/-- battery.py:180-183, 197-203 partials with respect to the weight -/
noncomputable def batteryDWeight (o : BattOpts) (weight load specificEnergy : ℝ) : BattOut :=
  ⟨0, o.costInc, -(load / (o.specificPower * weight ^ 2)), specificEnergy⟩
/-- battery.py:183, 203 partials with respect to the specific energy -/
noncomputable def batteryDSpecific (_o : BattOpts) (weight _load _specificEnergy : ℝ) : BattOut :=
  ⟨0, 0, 0, weight⟩

open Verif.Integrals in
/-- battery.py:84-112 `SOCBattery`: `dSOCdt = -1 * elec_load[W] / max_energy[kJ]` (in W/kJ), converted to 1/s by the
connection to the integrator; W h to kJ is the factor 3.6, W/kJ to 1/s the factor 1/1000 -/
noncomputable def dSOCdt (o : BattOpts) (weight specificEnergy load : ℝ) : ℝ :=
  (-1 * load / ((battery o weight load specificEnergy).maxEnergy * 3.6)) / 1000

open Verif.Integrals in
/-- battery.py:98-112: state of charge at the `m + 1` nodes of a segment; `none` if the integrator cannot be built
(even number of nodes) -/
noncomputable def soc {m : ℕ} (o : BattOpts) (weight specificEnergy duration soc0 : ℝ) (load : Fin (m + 1) → ℝ) :
    Option (Fin (m + 1) → ℝ) :=
  (methodMatrix (K := ℝ) .simpson m).map fun M => integratorCompute M soc0 (.duration duration)
    fun b => dSOCdt o weight specificEnergy (load b)

end Verif.Propulsion
