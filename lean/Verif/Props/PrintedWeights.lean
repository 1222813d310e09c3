import Verif.Model.PrintedWeights
import Verif.Props.Weights

/-!
# C131: the printed weights of the hybrid twin do not add up
-/

namespace Verif.PrintedWeights

open Verif.Weights

/-- C131.  If the structural factor is the same in climb and cruise, the printed numbers add up: take-off weight is empty weight, fuel,
battery, payload and margin. -/
theorem C131_same_partial (f : Fudge) (e : Env) (MTOW fuel battery payload : ℝ) (h : f "climb" = f "cruise") :
    let r := show_ f e MTOW fuel battery payload
    r.MTOW = r.OEW + r.fuel + r.battery + payload + r.margin := by
  have : inPhase f e "climb" = inPhase f e "cruise" := by funext v; simp only [inPhase, h]
  simp only [show_, twinOEW, this]
  ring

/-- C131, refuted.  With the values of the example the printed empty weight is the one of an airplane with the factor 1.6 and the
printed margin the one of an airplane with the factor 2: they are apart by 0.4 times the weight of the structure, for every airplane. -/
theorem C131_hybrid (e : Env) (MTOW fuel battery payload : ℝ) :
    let r := show_ (setHybrid start) e MTOW fuel battery payload
    r.MTOW - (r.OEW + r.fuel + r.battery + payload + r.margin)
      = 0.4 * (e "W_wing" + e "W_fuselage" + e "W_nacelle" + e "W_empennage" + e "W_gear") := by
  simp only [show_, twinOEW, (C72_twin_total _).1, inPhase, setHybrid, start]
  simp
  ring

/-- C131, refuted.  They never add up for an airplane whose structure weighs something. -/
theorem C131_never (e : Env) (MTOW fuel battery payload : ℝ)
    (h : 0 < e "W_wing" + e "W_fuselage" + e "W_nacelle" + e "W_empennage" + e "W_gear") :
    let r := show_ (setHybrid start) e MTOW fuel battery payload
    r.OEW + r.fuel + r.battery + payload + r.margin < r.MTOW := by
  have := C131_hybrid e MTOW fuel battery payload
  simp only at this ⊢
  have h2 : (0 : ℝ) < 0.4 * (e "W_wing" + e "W_fuselage" + e "W_nacelle" + e "W_empennage" + e "W_gear") := by positivity
  linarith

/-- C131.  In the turboprop examples the printed empty weight is the one that was asked for (factor 1.67), in the climb only; the same
variable of every other phase is lower by 0.07 times the weight of the structure. -/
theorem C131_turboprop (e : Env) :
    singleOEW (setTurboprop start) e "climb" = singleOEW (fun _ => 1.67) e "climb" ∧
    ∀ p, p ≠ "climb" → singleOEW (setTurboprop start) e "climb" - singleOEW (setTurboprop start) e p
      = 0.07 * (e "W_wing" + e "W_fuselage" + e "W_nacelle" + e "W_empennage" + e "W_gear") := by
  refine ⟨?_, fun p hp => ?_⟩
  · have : inPhase (setTurboprop start) e "climb" = inPhase (fun _ => 1.67) e "climb" := by
      funext v; simp only [inPhase, setTurboprop, if_true]
    rw [singleOEW, singleOEW, this]
  · simp only [singleOEW, (C72_single_total _).1, inPhase, setTurboprop, start, hp]
    simp
    ring

/-- an airplane with 100 lb of everything: structure 500 lb, 200 lb are missing in the printed balance -/
example : let r := show_ (setHybrid start) (fun _ => 100) 5000 300 200 1000
    r.MTOW - (r.OEW + r.fuel + r.battery + 1000 + r.margin) = 200 := by
  have := C131_hybrid (fun _ => 100) 5000 300 200 1000
  simp only at this ⊢
  rw [this]; norm_num

end Verif.PrintedWeights
