import Mathlib.Analysis.SpecialFunctions.Pow.Real
import Mathlib.Analysis.SpecialFunctions.Sqrt
import Mathlib.Analysis.SpecialFunctions.Trigonometric.Basic
import Verif.Model.VectorComps

/-! Model of openconcept/weights: weights_turboprop.py, weights_twin_hybrid.py, weights_jet_transport.py and
weights_BWB.py.

Every component has scalar inputs in the units declared in its `setup` (lb, ft, ft², inch, hp, lbf, rad, ...), so the
definitions are on real numbers in these units.  `x ** -1` and `x ** -2` are written as inverses, other powers are
`Real.rpow`.  Initial values, unit conversion at the connections and promotion of names are not modelled. -/

namespace Verif.Weights

open Real VectorComps

/-! ### weights_turboprop.py -/

/-- inputs of `WingWeight_SmallTurboprop`, weights_turboprop.py:26-36, and the option `n_ult`, line 20 -/
structure WingTP where
  nult : ℝ
  MTOW : ℝ
  Wf : ℝ
  S : ℝ
  AR : ℝ
  sweep : ℝ
  taper : ℝ
  toverc : ℝ
  q : ℝ

/-- weights_turboprop.py:39-61 `compute` -/
noncomputable def WingTP.compute (i : WingTP) : ℝ :=
  0.036 * i.S ^ (0.758 : ℝ) * i.Wf ^ (0.0035 : ℝ) * (i.AR / cos i.sweep ^ 2) ^ (0.6 : ℝ) * i.q ^ (0.006 : ℝ)
    * i.taper ^ (0.04 : ℝ) * (100 * i.toverc / cos i.sweep) ^ (-0.3 : ℝ) * (i.nult * i.MTOW) ^ (0.49 : ℝ)

/-- weights_turboprop.py:65-76 -/
noncomputable def WingTP.dMTOW (i : WingTP) : ℝ :=
  0.036 * i.S ^ (0.758 : ℝ) * i.Wf ^ (0.0035 : ℝ) * (i.AR / cos i.sweep ^ 2) ^ (0.6 : ℝ) * i.q ^ (0.006 : ℝ)
    * i.taper ^ (0.04 : ℝ) * (100 * i.toverc / cos i.sweep) ^ (-0.3 : ℝ) * (i.nult * i.MTOW) ^ (0.49 - 1 : ℝ)
    * i.nult * 0.49

/-- weights_turboprop.py:77-87 -/
noncomputable def WingTP.dWf (i : WingTP) : ℝ :=
  0.036 * i.S ^ (0.758 : ℝ) * 0.0035 * i.Wf ^ (0.0035 - 1 : ℝ) * (i.AR / cos i.sweep ^ 2) ^ (0.6 : ℝ)
    * i.q ^ (0.006 : ℝ) * i.taper ^ (0.04 : ℝ) * (100 * i.toverc / cos i.sweep) ^ (-0.3 : ℝ)
    * (i.nult * i.MTOW) ^ (0.49 : ℝ)

/-- weights_turboprop.py:88-98 -/
noncomputable def WingTP.dS (i : WingTP) : ℝ :=
  0.036 * i.S ^ (0.758 - 1 : ℝ) * 0.758 * i.Wf ^ (0.0035 : ℝ) * (i.AR / cos i.sweep ^ 2) ^ (0.6 : ℝ)
    * i.q ^ (0.006 : ℝ) * i.taper ^ (0.04 : ℝ) * (100 * i.toverc / cos i.sweep) ^ (-0.3 : ℝ)
    * (i.nult * i.MTOW) ^ (0.49 : ℝ)

/-- weights_turboprop.py:99-109 -/
noncomputable def WingTP.dAR (i : WingTP) : ℝ :=
  0.036 * i.S ^ (0.758 : ℝ) * i.Wf ^ (0.0035 : ℝ) * 0.6 * (i.AR / cos i.sweep ^ 2) ^ (0.6 - 1 : ℝ) / cos i.sweep ^ 2
    * i.q ^ (0.006 : ℝ) * i.taper ^ (0.04 : ℝ) * (100 * i.toverc / cos i.sweep) ^ (-0.3 : ℝ)
    * (i.nult * i.MTOW) ^ (0.49 : ℝ)

/-- weights_turboprop.py:110-135, through `c4const`, `c4multa`, `c4multb`, `dc4multa`, `dc4multb` -/
noncomputable def WingTP.dsweep (i : WingTP) : ℝ :=
  let c4const := 0.036 * i.S ^ (0.758 : ℝ) * i.Wf ^ (0.0035 : ℝ) * i.q ^ (0.006 : ℝ) * i.taper ^ (0.04 : ℝ)
    * (i.nult * i.MTOW) ^ (0.49 : ℝ)
  let c4multa := (i.AR / cos i.sweep ^ 2) ^ (0.6 : ℝ)
  let c4multb := (100 * i.toverc / cos i.sweep) ^ (-0.3 : ℝ)
  let dc4multa := 0.6 * (i.AR / cos i.sweep ^ 2) ^ (0.6 - 1 : ℝ) * (-2 * i.AR / cos i.sweep ^ 3) * (-sin i.sweep)
  let dc4multb := -0.3 * (100 * i.toverc / cos i.sweep) ^ (-0.3 - 1 : ℝ) * -100 * i.toverc / cos i.sweep ^ 2
    * (-sin i.sweep)
  c4const * (c4multa * dc4multb + c4multb * dc4multa)

/-- weights_turboprop.py:136-146 -/
noncomputable def WingTP.dtaper (i : WingTP) : ℝ :=
  0.036 * i.S ^ (0.758 : ℝ) * i.Wf ^ (0.0035 : ℝ) * (i.AR / cos i.sweep ^ 2) ^ (0.6 : ℝ) * i.q ^ (0.006 : ℝ)
    * 0.04 * i.taper ^ (0.04 - 1 : ℝ) * (100 * i.toverc / cos i.sweep) ^ (-0.3 : ℝ) * (i.nult * i.MTOW) ^ (0.49 : ℝ)

/-- weights_turboprop.py:147-158 -/
noncomputable def WingTP.dtoverc (i : WingTP) : ℝ :=
  0.036 * i.S ^ (0.758 : ℝ) * i.Wf ^ (0.0035 : ℝ) * (i.AR / cos i.sweep ^ 2) ^ (0.6 : ℝ) * i.q ^ (0.006 : ℝ)
    * i.taper ^ (0.04 : ℝ) * -0.3 * (100 * i.toverc / cos i.sweep) ^ (-0.3 - 1 : ℝ) * (100 / cos i.sweep)
    * (i.nult * i.MTOW) ^ (0.49 : ℝ)

/-- weights_turboprop.py:159-169 -/
noncomputable def WingTP.dq (i : WingTP) : ℝ :=
  0.036 * i.S ^ (0.758 : ℝ) * i.Wf ^ (0.0035 : ℝ) * (i.AR / cos i.sweep ^ 2) ^ (0.6 : ℝ) * 0.006
    * i.q ^ (0.006 - 1 : ℝ) * i.taper ^ (0.04 : ℝ) * (100 * i.toverc / cos i.sweep) ^ (-0.3 : ℝ)
    * (i.nult * i.MTOW) ^ (0.49 : ℝ)

/-- weights_turboprop.py:196-209 `EmpennageWeight_SmallTurboprop.compute` -/
noncomputable def empennage (nult Sv Sh : ℝ) : ℝ := 0.04 * (nult * (Sv + Sh) ^ 2) ^ (0.75 : ℝ)

/-- weights_turboprop.py:213-224: the same expression for both areas -/
noncomputable def empennage_d (nult Sv Sh : ℝ) : ℝ :=
  0.75 * 0.04 * (nult * (Sv + Sh) ^ 2) ^ (0.75 - 1 : ℝ) * (nult * 2 * (Sv + Sh))

/-- inputs of `FuselageWeight_SmallTurboprop`, weights_turboprop.py:233-243 -/
structure FusTP where
  nult : ℝ
  MTOW : ℝ
  length : ℝ
  height : ℝ
  width : ℝ
  Swet : ℝ
  arm : ℝ
  q : ℝ

/-- the argument of the pressurisation term, weights_turboprop.py:258-266 -/
noncomputable def FusTP.vol (i : FusTP) : ℝ := π * (i.width + i.height) / 2 * i.length * 0.8 * 8

/-- weights_turboprop.py:249-277 `compute` -/
noncomputable def FusTP.compute (i : FusTP) : ℝ :=
  0.052 * i.Swet ^ (1.086 : ℝ) * (i.nult * i.MTOW) ^ (0.177 : ℝ) * i.arm ^ (-0.051 : ℝ)
    * (i.length / i.height) ^ (-0.072 : ℝ) * i.q ^ (0.241 : ℝ) + 11.9 * i.vol ^ (0.271 : ℝ)

/-- weights_turboprop.py:281-290 -/
noncomputable def FusTP.dMTOW (i : FusTP) : ℝ :=
  0.052 * i.Swet ^ (1.086 : ℝ) * 0.177 * i.nult * (i.nult * i.MTOW) ^ (0.177 - 1 : ℝ) * i.arm ^ (-0.051 : ℝ)
    * (i.length / i.height) ^ (-0.072 : ℝ) * i.q ^ (0.241 : ℝ)

/-- weights_turboprop.py:291-304 -/
noncomputable def FusTP.dwidth (i : FusTP) : ℝ :=
  0.271 * 11.9 * i.vol ^ (0.271 - 1 : ℝ) * (π / 2 * i.length * 0.8 * 8)

/-- weights_turboprop.py:305-326 -/
noncomputable def FusTP.dheight (i : FusTP) : ℝ :=
  0.271 * 11.9 * i.vol ^ (0.271 - 1 : ℝ) * (π / 2 * i.length * 0.8 * 8)
    + 0.052 * i.Swet ^ (1.086 : ℝ) * (i.nult * i.MTOW) ^ (0.177 : ℝ) * i.arm ^ (-0.051 : ℝ) * -0.072
      * (i.length / i.height) ^ (-0.072 - 1 : ℝ) * (-i.length / i.height ^ 2) * i.q ^ (0.241 : ℝ)

/-- weights_turboprop.py:327-348 -/
noncomputable def FusTP.dlength (i : FusTP) : ℝ :=
  0.271 * 11.9 * i.vol ^ (0.271 - 1 : ℝ) * (π * (i.width + i.height) / 2 * 0.8 * 8)
    + 0.052 * i.Swet ^ (1.086 : ℝ) * (i.nult * i.MTOW) ^ (0.177 : ℝ) * i.arm ^ (-0.051 : ℝ) * -0.072
      * (i.length / i.height) ^ (-0.072 - 1 : ℝ) * (1 / i.height) * i.q ^ (0.241 : ℝ)

/-- weights_turboprop.py:349-357 -/
noncomputable def FusTP.dSwet (i : FusTP) : ℝ :=
  0.052 * 1.086 * i.Swet ^ (1.086 - 1 : ℝ) * (i.nult * i.MTOW) ^ (0.177 : ℝ) * i.arm ^ (-0.051 : ℝ)
    * (i.length / i.height) ^ (-0.072 : ℝ) * i.q ^ (0.241 : ℝ)

/-- weights_turboprop.py:358-366 -/
noncomputable def FusTP.darm (i : FusTP) : ℝ :=
  0.052 * i.Swet ^ (1.086 : ℝ) * (i.nult * i.MTOW) ^ (0.177 : ℝ) * -0.051 * i.arm ^ (-0.051 - 1 : ℝ)
    * (i.length / i.height) ^ (-0.072 : ℝ) * i.q ^ (0.241 : ℝ)

/-- weights_turboprop.py:367-375 -/
noncomputable def FusTP.dq (i : FusTP) : ℝ :=
  0.052 * i.Swet ^ (1.086 : ℝ) * (i.nult * i.MTOW) ^ (0.177 : ℝ) * i.arm ^ (-0.051 : ℝ)
    * (i.length / i.height) ^ (-0.072 : ℝ) * 0.241 * i.q ^ (0.241 - 1 : ℝ)

/-- weights_turboprop.py:398-401 `NacelleWeight_SmallSingleTurboprop.compute` -/
noncomputable def nacelle1 (P : ℝ) : ℝ := 2.5 * P ^ (0.5 : ℝ)

/-- weights_turboprop.py:405 -/
noncomputable def nacelle1_d (P : ℝ) : ℝ := 0.5 * 2.5 * P ^ (0.5 - 1 : ℝ)

/-- weights_turboprop.py:428-431 `NacelleWeight_MultiTurboprop.compute` -/
noncomputable def nacelle2 (P : ℝ) : ℝ := 0.14 * P

/-- weights_turboprop.py:435 -/
noncomputable def nacelle2_d : ℝ := 0.14

/-- inputs of `LandingGearWeight_SmallTurboprop`, weights_turboprop.py:453-460; the lengths are declared in ft -/
structure GearTP where
  nult : ℝ
  MLW : ℝ
  main : ℝ
  nose : ℝ

/-- weights_turboprop.py:461-475 `compute` -/
noncomputable def GearTP.compute (i : GearTP) : ℝ :=
  0.095 * (i.nult * i.MLW) ^ (0.768 : ℝ) * (i.main / 12) ^ (0.409 : ℝ)
    + 0.125 * (i.nult * i.MLW) ^ (0.566 : ℝ) * (i.nose / 12) ^ (0.845 : ℝ)

/-- weights_turboprop.py:479-490 -/
noncomputable def GearTP.dMLW (i : GearTP) : ℝ :=
  0.095 * (i.nult * i.MLW) ^ (0.768 - 1 : ℝ) * 0.768 * i.nult * (i.main / 12) ^ (0.409 : ℝ)
    + 0.125 * (i.nult * i.MLW) ^ (0.566 - 1 : ℝ) * 0.566 * i.nult * (i.nose / 12) ^ (0.845 : ℝ)

/-- weights_turboprop.py:491-497 -/
noncomputable def GearTP.dmain (i : GearTP) : ℝ :=
  0.095 * (i.nult * i.MLW) ^ (0.768 : ℝ) * (i.main / 12) ^ (0.409 - 1 : ℝ) * (1 / 12) * 0.409

/-- weights_turboprop.py:498-504 -/
noncomputable def GearTP.dnose (i : GearTP) : ℝ :=
  0.125 * (i.nult * i.MLW) ^ (0.566 : ℝ) * (i.nose / 12) ^ (0.845 - 1 : ℝ) * (1 / 12) * 0.845

/-- weights_turboprop.py:523-534 `FuelSystemWeight_SmallTurboprop.compute` -/
noncomputable def fuelSystem (Kfsp Wf : ℝ) : ℝ := 2.49 * (Wf * 1.0 / Kfsp) ^ (0.726 : ℝ) * 0.5 ^ (0.363 : ℝ)

/-- weights_turboprop.py:536-540 -/
noncomputable def fuelSystem_d (Kfsp Wf : ℝ) : ℝ :=
  2.49 * 0.726 * (Wf * 1.0 / Kfsp) ^ (0.726 - 1 : ℝ) * (1.0 / Kfsp) * 0.5 ^ (0.363 : ℝ)

/-- inputs of `EquipmentWeight_SmallTurboprop`, weights_turboprop.py:545-550 -/
structure EquipTP where
  MTOW : ℝ
  pax : ℝ
  length : ℝ
  AR : ℝ
  S : ℝ
  Wfs : ℝ

/-- weights_turboprop.py:566 and 583 -/
noncomputable def avionics : ℝ := 2.117 * 110 ^ (0.933 : ℝ)

/-- weights_turboprop.py:555 and 582 -/
noncomputable def EquipTP.b (i : EquipTP) : ℝ := √(i.S * i.AR)

/-- weights_turboprop.py:554-579 `compute` -/
noncomputable def EquipTP.compute (i : EquipTP) : ℝ :=
  let Wfc := 0.23 * i.MTOW ^ (0.666 : ℝ)
  let Whyd := 0.2673 * 1 * (i.length * i.b) ^ (0.937 : ℝ)
  let Welec := 12.57 * (i.Wfs + avionics) ^ (0.51 : ℝ)
  let Wapi := 0.265 * i.MTOW ^ (0.52 : ℝ) * i.pax ^ (0.68 : ℝ) * avionics ^ (0.17 : ℝ) * 0.95
  let Wox := 30 + 1.2 * i.pax
  let Wfur := 0.412 * i.pax ^ (1.145 : ℝ) * i.MTOW ^ (0.489 : ℝ)
  let Wpaint := 0.003 * i.MTOW
  Wfc + Welec + avionics + Wapi + Wox + Wfur + Wpaint + Whyd

/-- weights_turboprop.py:584-594 -/
noncomputable def EquipTP.dMTOW (i : EquipTP) : ℝ :=
  0.23 * i.MTOW ^ (0.666 - 1 : ℝ) * 0.666
    + 0.52 * 0.265 * i.MTOW ^ (0.52 - 1 : ℝ) * i.pax ^ (0.68 : ℝ) * avionics ^ (0.17 : ℝ) * 0.95
    + 0.412 * i.pax ^ (1.145 : ℝ) * i.MTOW ^ (0.489 - 1 : ℝ) * 0.489 + 0.003

/-- weights_turboprop.py:595-604 -/
noncomputable def EquipTP.dpax (i : EquipTP) : ℝ :=
  0.265 * i.MTOW ^ (0.52 : ℝ) * 0.68 * i.pax ^ (0.68 - 1 : ℝ) * avionics ^ (0.17 : ℝ) * 0.95 + 1.2
    + 0.412 * 1.145 * i.pax ^ (1.145 - 1 : ℝ) * i.MTOW ^ (0.489 : ℝ)

/-- weights_turboprop.py:605-607 -/
noncomputable def EquipTP.dlength (i : EquipTP) : ℝ :=
  0.2673 * 1 * 0.937 * (i.length * i.b) ^ (0.937 - 1 : ℝ) * i.b

/-- weights_turboprop.py:608 -/
noncomputable def EquipTP.dWfs (i : EquipTP) : ℝ := 12.57 * (i.Wfs + avionics) ^ (0.51 - 1 : ℝ) * 0.51

/-- weights_turboprop.py:609-619 -/
noncomputable def EquipTP.dS (i : EquipTP) : ℝ :=
  0.2673 * 1 * (i.length * i.b) ^ (0.937 - 1 : ℝ) * 0.937 * i.length * (1 / 2) * 1 / i.b * i.AR

/-- weights_turboprop.py:620-629 -/
noncomputable def EquipTP.dAR (i : EquipTP) : ℝ :=
  0.2673 * 1 * (i.length * i.b) ^ (0.937 - 1 : ℝ) * 0.937 * i.length * (1 / 2) / i.b * i.S

/-- the component `structural`, weights_turboprop.py:648-657 and weights_twin_hybrid.py:30-39 -/
noncomputable def structTP : AddSys ℝ :=
  ⟨"W_structure", ["W_wing", "W_fuselage", "W_nacelle", "W_empennage", "W_gear"], .all 1, 1, none, ⟨some (some "lb"), none⟩⟩

/-- the component `structural_fudge`, weights_turboprop.py:658-667 and weights_twin_hybrid.py:40-49 -/
noncomputable def fudgeTP : MulSys ℝ :=
  ⟨"W_structure_adjusted", ["W_structure", "structural_fudge"], .all 1, 1, 1, none, some [some "lb", some "m/m"]⟩

/-- the component `totalempty`, weights_turboprop.py:668-684 -/
noncomputable def totalSingle : AddSys ℝ :=
  ⟨"OEW", ["W_structure_adjusted", "W_fuelsystem", "W_equipment", "W_engine", "W_propeller", "W_fluids"], .all 1, 1, none,
    ⟨some (some "lb"), none⟩⟩

/-- the component `totalempty`, weights_twin_hybrid.py:50-68 -/
noncomputable def totalTwin : AddSys ℝ :=
  ⟨"OEW", ["W_structure_adjusted", "W_fuelsystem", "W_equipment", "W_engine", "W_motors", "W_generator", "W_propeller",
    "W_fluids"], .all 1, 1, none, ⟨some (some "lb"), none⟩⟩

/-- a state of a group: the value of each promoted (scalar) variable, as read by a component in its own units -/
abbrev Env := String → ℝ

/-- the scalar variables as 1 by 1 arrays -/
def Env.arr (e : Env) : String → ℕ → ℕ → ℝ := fun s _ _ => e s

/-- an execution of one scalar summation: only its output variable changes -/
noncomputable def runAdd (s : AddSys ℝ) (e : Env) : Env := fun v => if v = s.output then s.compute e.arr 0 0 else e v

/-- an execution of one scalar multiplication: only its output variable changes -/
noncomputable def runMul (s : MulSys ℝ) (e : Env) : Env := fun v => if v = s.output then s.compute e.arr 0 0 else e v

/-- the last three components of `SingleTurboPropEmptyWeight`, in order of execution, weights_turboprop.py:648-684 -/
noncomputable def runSingle (e : Env) : Env := runAdd totalSingle (runMul fudgeTP (runAdd structTP e))

/-- the last three components of `TwinSeriesHybridEmptyWeight`, weights_twin_hybrid.py:30-68 -/
noncomputable def runTwin (e : Env) : Env := runAdd totalTwin (runMul fudgeTP (runAdd structTP e))

/-- the promoted inputs of `SingleTurboPropEmptyWeight` / `TwinSeriesHybridEmptyWeight` -/
structure AircraftTP where
  MTOW : ℝ
  MLW : ℝ
  Wf : ℝ
  S : ℝ
  AR : ℝ
  sweep : ℝ
  taper : ℝ
  toverc : ℝ
  q : ℝ
  Sv : ℝ
  Sh : ℝ
  length : ℝ
  height : ℝ
  width : ℝ
  Swet : ℝ
  arm : ℝ
  P : ℝ
  main : ℝ
  nose : ℝ
  pax : ℝ
  Wengine : ℝ
  Wprop : ℝ
  Wmotors : ℝ
  Wgen : ℝ
  Wfluids : ℝ
  fudge : ℝ

/-- default of the option `n_ult` of all components, e.g. weights_turboprop.py:20 -/
noncomputable def nultTP : ℝ := 3.8 * 1.5

/-- default of the option `Kfsp`, weights_turboprop.py:511 -/
noncomputable def KfspTP : ℝ := 6.55

/-- the subsystem `wing`, weights_turboprop.py:637 -/
def AircraftTP.wing (a : AircraftTP) (nult : ℝ) : WingTP := ⟨nult, a.MTOW, a.Wf, a.S, a.AR, a.sweep, a.taper, a.toverc, a.q⟩
/-- the subsystem `fuselage`, weights_turboprop.py:639 -/
def AircraftTP.fus (a : AircraftTP) (nult : ℝ) : FusTP := ⟨nult, a.MTOW, a.length, a.height, a.width, a.Swet, a.arm, a.q⟩
/-- the subsystem `gear`, weights_turboprop.py:643 -/
def AircraftTP.gear (a : AircraftTP) (nult : ℝ) : GearTP := ⟨nult, a.MLW, a.main, a.nose⟩
/-- the subsystem `equipment`, weights_turboprop.py:647, reading the promoted output of `fuelsystem` -/
noncomputable def AircraftTP.equip (a : AircraftTP) : EquipTP :=
  ⟨a.MTOW, a.pax, a.length, a.AR, a.S, fuelSystem KfspTP a.Wf⟩

/-- the promoted variables after the component weights were computed (weights_turboprop.py:634-647): all other
variables have an arbitrary value -/
noncomputable def AircraftTP.env (a : AircraftTP) (other : Env) : Env := fun v =>
  if v = "W_wing" then (a.wing nultTP).compute
  else if v = "W_fuselage" then (a.fus nultTP).compute
  else if v = "W_nacelle" then nacelle1 a.P
  else if v = "W_empennage" then empennage nultTP a.Sv a.Sh
  else if v = "W_gear" then (a.gear nultTP).compute
  else if v = "W_fuelsystem" then fuelSystem KfspTP a.Wf
  else if v = "W_equipment" then a.equip.compute
  else if v = "W_engine" then a.Wengine
  else if v = "W_propeller" then a.Wprop
  else if v = "W_motors" then a.Wmotors
  else if v = "W_generator" then a.Wgen
  else if v = "W_fluids" then a.Wfluids
  else if v = "structural_fudge" then a.fudge
  else other v

end Verif.Weights
