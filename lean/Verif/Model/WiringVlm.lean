import Verif.Model.WiringAirplanes2
import Verif.Model.DragPolar

/-!
The aircraft model of openconcept/examples/B738_VLM_drag.py as a group over the nodes of a phase: subsystems, promotions and connections
as written.  The drag polar group is one system: its training data and surrogate are arbitrary functions of everything the group reads
(Model/DragPolar.lean has its inside).
-/

namespace Verif.Wiring

open Verif.Units Verif.VectorComps

variable {m : ℕ}

/-- what the training data of `VLMDragPolar` are computed from (drag_polar.py:236-322, trapezoidal planform): the arrays
`ac|geom|wing|twist` and `ac|geom|wing|toverc` count as one value each -/
def vlmShape : List Var :=
  [⟨"ac|geom|wing|S_ref", "m**2", false, true⟩, ⟨"ac|geom|wing|AR", "", false, true⟩, ⟨"ac|geom|wing|taper", "", false, true⟩,
   ⟨"ac|geom|wing|c4sweep", "deg", false, true⟩, ⟨"ac|geom|wing|twist", "deg", false, true⟩, ⟨"ac|geom|wing|toverc", "", false, true⟩,
   ⟨"fltcond|TempIncrement", "degC", false, true⟩]

/-- drag_polar.py:216-377 `VLMDragPolar.setup`: inputs and outputs, and the group converged.  The training data are functions of the
shape of the wing and the temperature increment, the surrogate is one of Mach number, angle of attack and altitude -/
noncomputable def vlmPolar : Sys where
  ins := [⟨"fltcond|M", "", true, true⟩, ⟨"fltcond|h", "m", true, true⟩] ++ vlmShape ++
    [⟨"fltcond|CL", "", true, true⟩, ⟨"fltcond|q", "Pa", true, true⟩, ⟨"ac|aero|CD_nonwing", "", false, true⟩]
  outs := [⟨"drag", "N", true, true⟩, ⟨"alpha_bal.alpha", "deg", true, false⟩]
  rel o e :=
    let l := [e "fltcond|M", e "alpha_bal.alpha", e "fltcond|h"] ++ vlmShape.map fun v => e v.name
    DragPolar.balanceRes (o.map "CL" l) (e "fltcond|CL") = 0 ∧
    e "drag" = DragPolar.vlmDrag (e "fltcond|q") (e "ac|geom|wing|S_ref") (o.map "CD" l) (e "ac|aero|CD_nonwing")

/-- B738_VLM_drag.py:42-105 `B738AirplaneModel.setup`; engine, doubler, empty weight and weight are written as in B738.py.  The
integrator `ode_integ` and its connection come from the tags of `fuel_flow` (mission_groups.py:208-286) -/
noncomputable def vlmGrp : Grp where
  subs :=
    [⟨"ode_integ", integ fuelIntegrand, names ["fuel_used_initial"], names ["fuel_used", "fuel_used_final"]⟩,
     ⟨"propmodel", engineDeck false "T4" "degR", names ["fltcond|h", "fltcond|M", "throttle"], .only []⟩,
     ⟨"doubler", doubler, .only [], .all⟩,
     ⟨"drag", vlmPolar, names ["fltcond|CL", "fltcond|M", "fltcond|h", "fltcond|q", "ac|geom|wing|S_ref", "ac|geom|wing|AR",
        "ac|geom|wing|taper", "ac|geom|wing|c4sweep", "ac|geom|wing|twist", "ac|aero|CD_nonwing"], names ["drag"]⟩,
     ⟨"OEW", passthru, .only [("x", "ac|weights|OEW")], names ["OEW"]⟩,
     weightSub .all]
  conns := [("propmodel.thrust", "doubler.thrust_in"), ("propmodel.fuel_flow", "doubler.fuel_flow_in"),
    ("fuel_flow", "ode_integ.fuel_flow")]

noncomputable def vlmPhase : Phase m where
  grp := vlmGrp
  coupled := [("ode_integ", integRel fuelIntegrand)]

end Verif.Wiring
