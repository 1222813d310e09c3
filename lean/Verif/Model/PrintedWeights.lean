import Verif.Model.Weights

/-!
# The weights that the hybrid twin and turboprop examples print

`set_values` and `show_outputs` of openconcept/examples/HybridTwin.py, and the lines for the same purpose in KingAirC90GT.py, TBM850.py and
Caravan.py: one value per phase for the constant `structural_fudge` of the empty weight group of that phase.  All weights in lb; all other
inputs of the empty weight are promoted to the top and are the same in every phase.
-/

namespace Verif.PrintedWeights

open Verif.Weights

/-- the constant `structural_fudge` of the empty weight group of each phase -/
abbrev Fudge := String → ℝ

/-- after setup: weights_twin_hybrid.py:18, weights_turboprop.py:636 -/
noncomputable def start : Fudge := fun _ => 1.6

/-- HybridTwin.py:242, HybridTwin_thermal.py:284, HybridTwin_active_thermal.py:285 -/
def setHybrid (f : Fudge) : Fudge := fun p => if p = "cruise" then 2 else f p

/-- KingAirC90GT.py:233, TBM850.py:202, Caravan.py:171 -/
noncomputable def setTurboprop (f : Fudge) : Fudge := fun p => if p = "climb" then 1.67 else f p

/-- the state of the empty weight group of a phase, before its sums run -/
def inPhase (f : Fudge) (e : Env) (p : String) : Env := fun v => if v = "structural_fudge" then f p else e v

/-- the variable `<phase>.OEW` of HybridTwin.py (101-105) -/
noncomputable def twinOEW (f : Fudge) (e : Env) (p : String) : ℝ := runTwin (inPhase f e p) "OEW"

/-- the variable `<phase>.OEW` of the turboprop examples (e.g. KingAirC90GT.py:59-64) -/
noncomputable def singleOEW (f : Fudge) (e : Env) (p : String) : ℝ := runSingle (inPhase f e p) "OEW"

/-- what `show_outputs` prints (HybridTwin.py:256-285), the lines about weights, and the payload that `set_values` gives -/
structure Printed where
  MTOW : ℝ
  OEW : ℝ
  fuel : ℝ
  battery : ℝ
  margin : ℝ

/-- HybridTwin.py:185-201 (`margins` takes the empty weight of the cruise), 256-285 (`climb.OEW` is printed) -/
noncomputable def show_ (f : Fudge) (e : Env) (MTOW fuel battery payload : ℝ) : Printed where
  MTOW := MTOW
  OEW := twinOEW f e "climb"
  fuel := fuel
  battery := battery
  margin := MTOW - twinOEW f e "cruise" - fuel - battery - payload

end Verif.PrintedWeights
