{"id": "C01", "title": "Simpson integrator is exact for quadratic rates", "statement": "With method 'simpson', if the rate fed to the Integrator is the sampling of a polynomial of degree at most 2 in time, the integrated output at every node equals initial value + exact integral of that polynomial up to the node's time; for a rate of degree 3 this still holds at every even-numbered node, in particular for the *_final output.", "quantifier": "every odd num_nodes >= 3, every step dt, every initial value, every polynomial rate of the stated degree, every node", "why_tests_cant": "num_nodes is unbounded and the rate coefficients are real numbers; a test checks a handful of grids and polynomials", "anchors": ["openconcept/utilities/math/integrals.py: simpson_cache_matrix, multistep_integrator, Integrator.compute"]}
{"id": "C02", "title": "BDF3 integrator is well defined and reproduces cubics", "statement": "With method 'bdf3' (default starting stencil) the linear system that is inverted is nonsingular for every admissible node count, and whenever the rate is the derivative of a polynomial q of degree at most 3 the integrated output equals q at every node. The rate at node 0 never influences the result. The 'all_bdf' variant is nonsingular as well but only reproduces linear q in general.", "quantifier": "every num_nodes n >= 5 (n >= 4 for the matrix), every dt, every cubic q, every node", "why_tests_cant": "requires induction over the node count: the matrix inverse grows with n", "anchors": ["openconcept/utilities/math/integrals.py: bdf3_cache_matrix, multistep_integrator, Integrator.compute"]}
{"id": "C03", "title": "Integrators start at the initial value and are affine in their data", "statement": "For both methods the first output node equals the initial value (0 with zero_start), adding a constant to the initial value shifts the whole output by this constant, and the increment over the initial value is linear in the rate and in the time step. *_final is the last node of the history.", "quantifier": "all rates, initial values, time steps, odd node counts", "why_tests_cant": "linearity and shift invariance quantify over pairs of arbitrary real vectors", "anchors": ["openconcept/utilities/math/integrals.py: multistep_integrator, Integrator.compute"]}
{"id": "C04", "title": "Multi-segment integration is continuous and skips uncounted segments", "statement": "When several segments are integrated in one call, the first node of segment k+1 has the same value as the last node of segment k, segment k's history equals the single-segment history started from the final value of segment k-1, and a segment whose name is not in segments_to_count leaves the state constant across it and does not influence any node of any segment.", "quantifier": "every number of segments, every node count per segment, all rates, all time steps, every choice of counted segments", "why_tests_cant": "segment count, node count and subset of counted segments are all unbounded", "anchors": ["openconcept/utilities/math/integrals.py: multistep_integrator, OldIntegrator.compute"]}
{"id": "C05", "title": "Integrator derivatives are exact", "statement": "The values the Integrator declares/computes as partials of every node (and of the *_final output) with respect to each rate node, the initial value, and dt / duration / t_initial / t_final are the true derivatives of the computed outputs.", "quantifier": "all node counts, methods, time_setup modes, rates, initial values and time inputs", "why_tests_cant": "a derivative is a limit; finite-difference checks at sample points cannot establish it for all inputs", "anchors": ["openconcept/utilities/math/integrals.py: multistep_integrator, Integrator.compute_partials, Integrator.add_integrand"]}
{"id": "C06", "title": "Integrator time partials always fit the declared sparsity", "statement": "Whatever the rates are, the vector of time-derivative values that compute_partials assigns has exactly as many entries as there are declared nonzeros for that partial, so the assignment never raises and never misplaces an entry. (For time_setup='bounds' the values are taken from a sparse matrix's stored data.)", "quantifier": "all rate vectors, including those for which the cumulative integral vanishes at some but not all nodes", "why_tests_cant": "failure needs a rate vector whose running integral is exactly zero at an interior node; random tests never hit it", "anchors": ["openconcept/utilities/math/integrals.py: Integrator.compute_partials, Integrator.add_integrand, multistep_integrator"]}
{"id": "C07", "title": "Nonnegative rates give a nondecreasing state", "statement": "If every rate is nonnegative and dt >= 0, the integrated quantity (fuel burned, distance flown) is never below its initial value and is nondecreasing along the nodes; at minimum this holds for the final value and for every even node of the Simpson rule.", "quantifier": "all nonnegative rate vectors, all odd node counts", "why_tests_cant": "sign-preservation of a quadrature rule must hold for all rate vectors; the offending ones have sharp peaks", "anchors": ["openconcept/utilities/math/integrals.py: simpson_cache_matrix, multistep_integrator"]}
{"id": "C08", "title": "Adding an integrand is validated and named deterministically", "statement": "add_integrand rejects a call giving both units and rate_units; otherwise the quantity units and rate units registered satisfy rate = quantity / diff_units (or are equal when diff_units is None), and default names of the rate, initial value and final value are derived from the name. The Integrator rejects an even number of nodes and any time_setup other than dt, duration and bounds.", "quantifier": "all option combinations and all strings", "why_tests_cant": "quantifies over all option combinations and arbitrary names", "anchors": ["openconcept/utilities/math/integrals.py: Integrator.add_integrand, Integrator.initialize, Integrator.setup"]}
{"id": "C09", "title": "Finite-difference differentiation is exact on low-degree polynomials", "statement": "first_deriv with order 4 returns exactly q'(t) at every node of every segment when q restricted to the segment samples a polynomial of degree <= 4 (degree <= 2 with order 2), for nonzero dt.", "quantifier": "all node counts per segment (>= order+1), segment counts, polynomials, nonzero time steps, nodes", "why_tests_cant": "unbounded grids and polynomials over the reals", "anchors": ["openconcept/utilities/math/derivatives.py: first_deriv, first_deriv_second_order_stencil, first_deriv_fourth_order_stencil"]}
{"id": "C10", "title": "Finite-difference derivatives: segment independence and exact partials", "statement": "The output at a node depends only on values of its own segment and on that segment's dt; output is linear in q; the partials reported for q and dt are the true derivatives; changing one segment leaves all other segments' outputs unchanged. Inputs whose length is not a multiple of the segment count, or with too few points, raise.", "quantifier": "all segment counts and vectors", "why_tests_cant": "frame property over arbitrary vectors", "anchors": ["openconcept/utilities/math/derivatives.py: first_deriv, first_deriv_partials, FirstDerivative"]}
{"id": "C11", "title": "Differentiating an integrated history recovers the rate", "statement": "Applying first_deriv (order 4) to the Simpson-integrated history of a quadratic rate, or to the BDF3 history of a quadratic rate, gives back the rate at every node.", "quantifier": "all odd node counts >= 5, all nonzero dt, all quadratics", "why_tests_cant": "round trip over unbounded grids", "anchors": ["openconcept/utilities/math/integrals.py: multistep_integrator", "openconcept/utilities/math/derivatives.py: first_deriv"]}
{"id": "C12", "title": "AddSubtractComp computes the scaled sum with broadcasting", "statement": "For every registered equation the output equals, elementwise, the sum of scaling_factor times each input, scalar inputs being broadcast; equations whose input vectors have incompatible sizes are rejected at setup with ValueError.", "quantifier": "all vectors, scaling factors, number of inputs, and size combinations", "why_tests_cant": "unbounded number and size of inputs", "anchors": ["openconcept/utilities/math/add_subtract_comp.py: AddSubtractComp.setup, AddSubtractComp.compute"]}
{"id": "C13", "title": "AddSubtractComp declared Jacobian is the true Jacobian", "statement": "Each declared constant partial (rows, cols, val) assembled into a matrix equals the derivative of the output with respect to that input, for every size/length combination accepted at setup.", "quantifier": "all accepted (vec_size, length) combinations and all inputs", "why_tests_cant": "needs all shape combinations; the wrong combination (a (1, length) input with length > 1 broadcast over rows) is not in the test-suite", "anchors": ["openconcept/utilities/math/add_subtract_comp.py: AddSubtractComp.setup"]}
{"id": "C14", "title": "Repeating setup leaves AddSubtractComp unchanged", "statement": "Calling setup() again on the same component (as OpenMDAO does when Problem.setup is called repeatedly) registers the same inputs and outputs with the same units and sizes as the first call.", "quantifier": "every list of equations and every number of repeated setups", "why_tests_cant": "history property: about the state left behind by earlier calls", "anchors": ["openconcept/utilities/math/add_subtract_comp.py: AddSubtractComp.setup, __init__, add_equation"]}
{"id": "C15", "title": "ElementMultiplyDivideComp computes the product/quotient and its derivatives", "statement": "The output equals scaling_factor times the elementwise product of the inputs flagged multiply divided by those flagged divide; when the divisors are nonzero and the input names distinct, the partials are the true derivatives.", "quantifier": "any number of factors, all real inputs with nonzero divisors", "why_tests_cant": "unbounded number of factors, real-valued inputs", "anchors": ["openconcept/utilities/math/multiply_divide_comp.py: ElementMultiplyDivideComp.compute, compute_partials"]}
{"id": "C16", "title": "ElementMultiplyDivideComp derives consistent output units", "statement": "The unit string registered for the output denotes the product of the input units with divided inputs inverted; in particular it is well formed whenever some inputs are unitless.", "quantifier": "all lists of optional units and divide flags", "why_tests_cant": "quantifies over arbitrary lists of optional units", "anchors": ["openconcept/utilities/math/multiply_divide_comp.py: ElementMultiplyDivideComp.setup"]}
{"id": "C17", "title": "Concatenate and split are mutually inverse", "statement": "Splitting the output of VectorConcatenateComp with the same sizes returns the original vectors, concatenating the outputs of VectorSplitComp returns the original vector, each entry of the concatenation comes from exactly one input entry, and the declared partials are the 0/1 matrices of these maps. Size mismatches raise.", "quantifier": "all lists of sizes and vectors, any column count", "why_tests_cant": "unbounded number and sizes of vectors", "anchors": ["openconcept/utilities/math/combine_split_comp.py: VectorConcatenateComp, VectorSplitComp"]}
{"id": "C18", "title": "Max/Min components: value and derivative", "statement": "MaxComp/MinComp return an element of the array that bounds all elements; the declared partials are the true derivatives when the extremum is unique; when there are ties the partials are not a derivative (none exists).", "quantifier": "all nonempty arrays", "why_tests_cant": "ties form a measure-zero set never seen by random tests", "anchors": ["openconcept/utilities/math/max_min_comp.py: MaxComp, MinComp"]}
{"id": "C19", "title": "SelectorComp picks exactly one input per node", "statement": "For every node the output equals the value of the input whose index is the rounded selector value; exactly one input has partial 1 and the others 0; a selector value whose rounding is outside [0, number of inputs - 1] is reported as an error. (The documentation says the output is zero there.)", "quantifier": "all selector vectors (real valued), all numbers of inputs", "why_tests_cant": "rounding and range handling must be right for all reals including half-integers", "anchors": ["openconcept/utilities/selector.py: SelectorComp"]}
{"id": "C20", "title": "LinearInterpolator hits its end points and is affine", "statement": "The output vector starts at start_val, ends at end_val, is equally spaced, is monotone between them, and its declared partials are the exact derivatives.", "quantifier": "all num_nodes >= 2, all real end values", "why_tests_cant": "unbounded node count", "anchors": ["openconcept/utilities/linearinterp.py: LinearInterpolator"]}
{"id": "C21", "title": "Automatically named sum/product components never collide", "statement": "Any sequence of promote_add / promote_mult calls on a group gives every automatically created component a fresh name, distinct from all previously created automatic components.", "quantifier": "every finite sequence of calls on a group", "why_tests_cant": "history property over unbounded call sequences", "anchors": ["openconcept/mission/mission_groups.py: IntegratorGroup.promote_add, promote_mult, _n_auto_comps"]}
{"id": "C22", "title": "promote_mult honours the units requested for its inputs", "statement": "promote_mult(sources, prom_name, promoted_units, factor, vec_size, input_units) registers the requested input units like promote_add does.", "quantifier": "all unit lists", "why_tests_cant": "property of the parameter flow for all arguments", "anchors": ["openconcept/mission/mission_groups.py: IntegratorGroup.promote_mult, promote_add"]}
{"id": "C23", "title": "Every tagged rate is integrated exactly once with its declared state data", "statement": "In an IntegratorGroup each output tagged 'integrate' of a non-group subsystem gets exactly one integrand whose state name, start value, units, bounds and promotion are those of its tags (defaults: value 0, bounds +-1e30, not promoted), independently of the order in which the tag set is traversed as long as no kind of tag is given twice; a tagged output without state_name tag raises.", "quantifier": "all lists of tagged outputs and tags", "why_tests_cant": "unbounded tag lists and components", "anchors": ["openconcept/mission/mission_groups.py: IntegratorGroup._setup_procs / configure"]}
{"id": "C24", "title": "Linking phases makes every shared state continuous", "statement": "link_phases(phase1, phase2, states) (or automatic linking) connects phase1's final value of each state to phase2's initial value, so in any chain of linked phases each state starts a phase at the value with which the previous phase ended; non-phase arguments raise.", "quantifier": "any number of phases and states", "why_tests_cant": "chain length and state set unbounded; failures (final_only states, zero_start states, differing start names) are configuration dependent", "anchors": ["openconcept/mission/mission_groups.py: TrajectoryGroup.link_phases, _link_phases"]}
{"id": "C25", "title": "Balanced-field decision speed solver: meaning of a zero residual", "statement": "A zero residual of BFLImplicitSolve means exactly: either V1 equals Vr (to within its tolerance) and the accelerate-stop distance does not exceed the accelerate-go distance, or V1 is below Vr and both distances are equal; partials equal the residual's derivatives in the interior of each branch.", "quantifier": "all real distances and speeds", "why_tests_cant": "branch structure over all reals", "anchors": ["openconcept/mission/phases.py: BFLImplicitSolve.apply_nonlinear, linearize"]}
{"id": "C26", "title": "Ground speed, climb angle kinematics", "statement": "When |vertical speed| does not exceed the true airspeed, the returned groundspeed satisfies gs^2 + vs^2 = U^2, singamma = vs/U and sin^2+cos^2 = 1; in the opposite case the fallback values are used and the identity fails; partials are the true derivatives off the switching set.", "quantifier": "all real vertical speeds and positive airspeeds", "why_tests_cant": "switch at a real threshold; identity over all reals", "anchors": ["openconcept/mission/phases.py: Groundspeeds"]}
{"id": "C27", "title": "Equations of motion of the take-off phases", "statement": "HorizontalAcceleration returns (T - D - mu(W g - L) - W g sin(gamma))/W as documented; VerticalAcceleration returns the clipped vertical Newton equation; the clipped value always lies in [-g, 2.5 g]; partials are the derivatives (they are not when clipping is active).", "quantifier": "all forces, weights, angles", "why_tests_cant": "clipping regions are excluded by typical test points", "anchors": ["openconcept/mission/phases.py: HorizontalAcceleration, VerticalAcceleration"]}
{"id": "C28", "title": "Steady-flight lift coefficient balances weight", "statement": "The CL computed for steady flight makes lift equal the weight component normal to the path: CL q S = W g cos(gamma), for positive dynamic pressure and wing area; partials are exact.", "quantifier": "all weights, angles, positive q and S", "why_tests_cant": "identity over all reals", "anchors": ["openconcept/mission/phases.py: SteadyFlightCL"]}
{"id": "C29", "title": "Take-off transition/climb geometry", "statement": "The circular-arc transition ends at the obstacle height or before; the horizontal distances and gained height of the arc are consistent (point on the arc), heights do not exceed the obstacle height, and the ground distance to clear the obstacle is continuous where the arc height equals the obstacle height and equals arc + straight climb.", "quantifier": "all radii (speed, load factor) and climb angles in (0, pi/2), obstacle heights", "why_tests_cant": "branch switching on real inequality", "anchors": ["openconcept/mission/phases.py: TakeoffTransition, TakeoffClimb"]}
{"id": "C30", "title": "Flipping a vector twice is the identity", "statement": "FlipVectorComp reverses node order and is an involution; the declared partials are the reversal permutation matrix.", "quantifier": "all vector lengths and contents", "why_tests_cant": "unbounded lengths", "anchors": ["openconcept/mission/phases.py: FlipVectorComp"]}
{"id": "C31", "title": "Mission and reserve phases: range and altitude bookkeeping", "statement": "When all duration balances of the full mission with reserves converge, the mission covers exactly the requested range at the end of descent, each climb/cruise/descent reaches its target altitude, the reserve segment flies exactly the reserve range, and the loiter lasts exactly the loiter time.", "quantifier": "all converged missions with constant-rate or arbitrary vertical speed profiles", "why_tests_cant": "property of the solution set of a nonlinear system for arbitrary inner models", "anchors": ["openconcept/mission/profiles.py: FullMissionWithReserve, BasicMission, MissionWithReserve", "openconcept/utilities/math/integrals.py: Integrator"]}
{"id": "C32", "title": "Standard atmosphere temperature and pressure are continuously differentiable in altitude", "statement": "The outputs of the temperature and pressure components are continuous and have a continuous derivative at every altitude (in particular across the two blending altitudes 10.5 km and 11.5 km), equal to the partial the component reports.", "quantifier": "all altitudes below the troposphere formula's singular altitude", "why_tests_cant": "C1 smoothness is a limit property at the joins", "anchors": ["openconcept/atmospherics/temperature_comp.py, pressure_comp.py, compute_atmos_props.py, atmospherics_data.py"]}
{"id": "C33", "title": "Exactly one layer formula applies at each altitude", "statement": "For each altitude exactly one of the three layer masks is 1, so the returned value is that of exactly one formula.", "quantifier": "all real altitudes", "why_tests_cant": "boundary altitudes", "anchors": ["openconcept/atmospherics/atmospherics_data.py: get_mask_arrays"]}
{"id": "C34", "title": "Atmosphere partials reflect the current inputs", "statement": "compute_partials called with given altitudes returns the derivative at these altitudes, whatever compute calls happened before.", "quantifier": "all interleavings of compute and compute_partials with arbitrary inputs", "why_tests_cant": "history property (cached masks)", "anchors": ["openconcept/atmospherics/temperature_comp.py, pressure_comp.py: compute, compute_partials"]}
{"id": "C35", "title": "Pressure is defined and positive at all flight altitudes", "statement": "The pressure (and temperature) returned is a positive real number, decreasing with altitude, for altitudes up to the limit at which the masked-out troposphere formula becomes undefined (288.16/0.0065 m); above this altitude the reported pressure is not a number although the stratosphere formula is well defined.", "quantifier": "all real altitudes", "why_tests_cant": "NaN propagation through a masked-out branch, monotonicity over the reals", "anchors": ["openconcept/atmospherics/pressure_comp.py, atmospherics_data.py"]}
{"id": "C36", "title": "Speeds: equivalent/true airspeed round trip, Mach and dynamic pressure consistency", "statement": "TAS->EAS->TAS is the identity for positive density; dynamic pressure computed from true airspeed equals 1/2*1.225*EAS^2; Mach*speed of sound = true airspeed; equivalently density*R*T = p; all partials are exact.", "quantifier": "all positive densities, temperatures, all speeds", "why_tests_cant": "identities over the reals", "anchors": ["openconcept/atmospherics/true_airspeed.py, dynamic_pressure_comp.py, mach_number_comp.py, speedofsound_comp.py, density_comp.py"]}
{"id": "C37", "title": "Power splitter conserves energy", "statement": "For both split rules, power_out_A + power_out_B + heat_out = power_in and heat_out = (1-efficiency)*power_in; with the 'fixed' rule A = min(requested, available); invalid rules raise; partials are exact off the switching point.", "quantifier": "all power inputs, split fractions/amounts, efficiencies", "why_tests_cant": "identity over the reals with a data-dependent branch", "anchors": ["openconcept/propulsion/splitter.py: PowerSplit"]}
{"id": "C38", "title": "Motor and generator conserve energy", "statement": "SimpleMotor: shaft power out plus heat equals electric load; SimpleGenerator: electric power out plus heat equals shaft power in; sizing margins exceed 1 exactly when the rating is exceeded; partials are exact.", "quantifier": "all throttles, ratings, efficiencies in (0,1]", "why_tests_cant": "identities over the reals", "anchors": ["openconcept/propulsion/motor.py, generator.py"]}
{"id": "C39", "title": "Turboshaft produces proportional power and fuel flow", "statement": "shaft power = throttle*rating, fuel flow = psfc*power, weight and cost affine in the rating, all nonnegative for nonnegative inputs; partials exact.", "quantifier": "all throttles and ratings", "why_tests_cant": "identities over the reals", "anchors": ["openconcept/propulsion/turboshaft.py"]}
{"id": "C40", "title": "Propeller thrust model", "statement": "At advance ratios >= 0.2 thrust*airspeed = efficiency*shaft power; at advance ratios <= 0.1 thrust is the static thrust; the thrust coefficient is continuous in the advance ratio; partials exact away from the switching points.", "quantifier": "all advance ratios, powers, positive density, diameter, rpm", "why_tests_cant": "piecewise definition, continuity is a limit property", "anchors": ["openconcept/propulsion/propeller.py: ThrustCalc, PropCoefficients"]}
{"id": "C41", "title": "Every documented blade count is usable", "statement": "SimplePropeller accepts num_blades 3 and 4 and loads the corresponding map; other counts raise NotImplementedError.", "quantifier": "all values of num_blades", "why_tests_cant": "branch coverage of all values", "anchors": ["openconcept/propulsion/propeller.py: SimplePropeller.setup"]}
{"id": "C42", "title": "Engine-out flag removes exactly the failed propulsor", "statement": "In the twin systems setting propulsor_active to 0 makes the second propulsor's contribution of fuel flow / thrust equal to a zero-throttle propulsor and leaves the other unchanged; totals are sums over both.", "quantifier": "all throttles, flags, ratings", "why_tests_cant": "wiring property for all inputs", "anchors": ["openconcept/propulsion/systems/simple_turboprop.py, simple_series_hybrid.py"]}
{"id": "C43", "title": "Series hybrid power balance", "statement": "At a converged operating point the electric power drawn by the motors (and avionics) equals the sum of battery power and generator power, and the fraction supplied by the battery is the hybridization fraction.", "quantifier": "all throttles, hybridization fractions, component ratings with a zero balance residual", "why_tests_cant": "holds on the solution set of a balance equation", "anchors": ["openconcept/propulsion/systems/simple_series_hybrid.py", "openconcept/propulsion/splitter.py"]}
{"id": "C44", "title": "Rubberized turbofan scales thrust and fuel flow linearly", "statement": "thrust and fuel flow scale linearly with rated thrust, TSFC is independent of the rating, hydrogen conversion multiplies only fuel flow by 43/120.", "quantifier": "all ratings and engine states", "why_tests_cant": "scaling law over reals", "anchors": ["openconcept/propulsion/rubberized_turbofan.py"]}
{"id": "C45", "title": "Battery energy and charge bookkeeping", "statement": "SimpleBattery: heat = (1-eff)*load, max energy = weight*specific energy; SOCBattery: SOC(final) = SOC(initial) - (energy drawn)/(battery energy) with energy drawn the Simpson integral of the load; exact for quadratic load histories; SOC never increases at even nodes for nonnegative load.", "quantifier": "all load histories and node counts", "why_tests_cant": "integral identity over unbounded histories", "anchors": ["openconcept/energy_storage/battery.py", "openconcept/utilities/math/integrals.py"]}
{"id": "C46", "title": "LH2 tank geometry and fill bookkeeping", "statement": "Liquid mass = fill*density*volume - withdrawn mass; the fill level computed is in [0,1] iff withdrawn mass is in the corresponding range; volume is that of a capped cylinder; partials exact.", "quantifier": "all radii, lengths, fills, flows", "why_tests_cant": "real-valued identity", "anchors": ["openconcept/energy_storage/hydrogen/LH2_tank_no_boil_off.py"]}
{"id": "C47", "title": "Vacuum tank wall thickness resists both failure modes", "statement": "The outer wall thickness times its inverse stiffness factor is at least both the cylinder and sphere buckling thicknesses and equals one of them; substituting it in the critical pressure relations gives at least safety factor times ambient pressure; wall weights are area*thickness*density; partials exact away from ties.", "quantifier": "all positive radii, lengths, pressures, material constants", "why_tests_cant": "max of two branches", "anchors": ["openconcept/energy_storage/hydrogen/structural.py"]}
{"id": "C48", "title": "Thermal components conserve energy", "statement": "Perfect heat transfer: heat in = mdot*cp*(Tout-Tin); lumped mass: m cp dT/dt = q_in - q_out; cold plate/motor/battery cooling: heat removed from the component equals enthalpy rise of the coolant; coolant reservoir rate conserves enthalpy.", "quantifier": "all temperatures, flows, areas", "why_tests_cant": "identities over the reals", "anchors": ["openconcept/thermal/thermal.py, motor_cooling.py, battery_cooling.py"]}
{"id": "C49", "title": "Cooling effectiveness respects the second law", "statement": "For nonnegative conductance and positive coolant capacity the coolant exits between its inlet temperature and the surface temperature (effectiveness in [0,1)).", "quantifier": "all positive flows, areas, temperatures", "why_tests_cant": "inequality over the reals", "anchors": ["openconcept/thermal/thermal.py, motor_cooling.py, battery_cooling.py, heat_exchanger.py"]}
{"id": "C50", "title": "Flow split and combine conserve mass and enthalpy", "statement": "FlowSplit: mdot_A + mdot_B = mdot_in, fraction outside [0,1] raises; FlowCombine: mdot_out = mdot_1 + mdot_2, mass-weighted mixing temperature lies between both inlet temperatures; splitting then recombining returns the original stream.", "quantifier": "all flows and temperatures with positive total flow", "why_tests_cant": "identities over the reals", "anchors": ["openconcept/thermal/manifold.py"]}
{"id": "C51", "title": "Chiller: selector and heat pump balance", "statement": "COPHeatPump: heat rejected = heat extracted + work; LinearSelector's bypass 0/1 limits reproduce the two sources, in between linear; the COP estimate is positive and below the Carnot and ceiling limits; equal temperatures give an undefined value.", "quantifier": "all temperatures, powers, bypass settings", "why_tests_cant": "limits and singular set", "anchors": ["openconcept/thermal/chiller.py"]}
{"id": "C52", "title": "Heat pipe thermal resistance depends on every documented option", "statement": "The heat pipe's overall thermal resistance responds to wall conductivity, wall thickness, wick conductivity and wick thickness options, decreasing when any conductivity increases.", "quantifier": "all positive geometric data and conductivities", "why_tests_cant": "dependence must be shown for all values; a test fixes the defaults", "anchors": ["openconcept/thermal/heat_pipe.py: HeatPipeThermalResistance"]}
{"id": "C53", "title": "Heat exchanger overall conductance accounts for both fouling factors", "statement": "UA overall = 1/(R_cold + fouling_cold + wall + fouling_hot + R_hot) with exact partials; UA is smaller than either side's conductance.", "quantifier": "all positive conductances, areas, efficiencies and nonnegative fouling factors", "why_tests_cant": "default fouling factors are 0 so tests do not see the difference", "anchors": ["openconcept/thermal/heat_exchanger.py: UAOverall"]}
{"id": "C54", "title": "NTU-effectiveness heat exchanger conserves energy and obeys the second law", "statement": "Heat lost by the hot stream equals heat gained by the cold stream equals heat_transfer; effectiveness of the crossflow relation lies in (0,1) for positive NTU and capacity ratio; outlet temperatures lie between the inlet temperatures.", "quantifier": "all positive flows, specific heats, UA, temperatures", "why_tests_cant": "inequality over the reals involving nested exponentials", "anchors": ["openconcept/thermal/heat_exchanger.py: NTUMethod, CrossFlowNTUEffectiveness, OutletTemperatures"]}
{"id": "C55", "title": "Offset strip fin geometry and fin efficiency", "statement": "Fin and geometry outputs (areas, porosities, hydraulic diameters) satisfy the definition d_h = 4*flow area*length/wetted area; fin efficiency is in (0,1]; outputs positive for positive inputs.", "quantifier": "all positive geometric inputs", "why_tests_cant": "inequalities over the reals", "anchors": ["openconcept/thermal/heat_exchanger.py: OffsetStripFinGeometry, FinEfficiency, HydraulicDiameterReynoldsNumber"]}
{"id": "C56", "title": "Duct thermodynamics: isentropic round trips and station relations", "statement": "Static->total and total->static temperature and pressure are mutually inverse for every Mach number; the nozzle exit Mach number is 1 when choked, continuous at the choking pressure ratio, and inverts the isentropic pressure relation when not choked; nonpositive pressure ratio raises.", "quantifier": "all Mach numbers, positive temperatures and pressures", "why_tests_cant": "round trips over the reals", "anchors": ["openconcept/thermal/ducts.py"]}
{"id": "C57", "title": "Duct speed of sound derivative is consistent with its clipped output", "statement": "For every static temperature the derivative reported is the derivative of the computed speed of sound.", "quantifier": "all real temperatures, including negative values met during Newton iterations", "why_tests_cant": "solver transients with negative temperature are not in tests", "anchors": ["openconcept/thermal/ducts.py: SpeedOfSound"]}
{"id": "C58", "title": "Duct heat addition conserves energy; incompressible duct satisfies Bernoulli and momentum balances", "statement": "Across a heat-addition station, cp*mdot*(Tt_out - Tt_in) = heat_in, and the total pressure follows recovery, loss factor and pressure increment; a nonpositive mass flow or a total pressure above 1e8 Pa raises ValueError; the incompressible duct's mass flow satisfies the Bernoulli equation with losses and its drag is the momentum balance; declared partials are exact.", "quantifier": "all real inputs, all array lengths", "why_tests_cant": "tests evaluate a few points; the claims are identities over all inputs", "anchors": ["openconcept/thermal/ducts.py:68-85", "openconcept/thermal/ducts.py:482-525", "openconcept/thermal/ducts.py:891-912"]}
{"id": "C59", "title": "Pump, hose and coolant-loop relations", "statement": "Pump electric load*efficiency = volumetric flow * pressure rise, sized component margins; hose pressure drop is positive for positive flow and increases with flow.", "quantifier": "all positive flows and geometry", "why_tests_cant": "inequality over the reals", "anchors": ["openconcept/thermal/pump.py, hose.py"]}
{"id": "C60", "title": "Parabolic polar, lift and stall speed are consistent", "statement": "At the returned stall speed (sea level) lift at CLmax equals weight; drag is at least zero-lift drag and is even in CL; partials exact for positive inputs; polar's maximum L/D is at CL^2 = pi e AR CD0.", "quantifier": "all positive wing areas, weights, coefficients", "why_tests_cant": "identities/optimality over the reals", "anchors": ["openconcept/aerodynamics/aerodynamics.py"]}
{"id": "C61", "title": "Jet-transport parasite drag buildup partials", "statement": "Form factors, flap drag and skin-friction components report the derivatives of what they compute; skin friction's Reynolds partials agree with the computed value only approximately because of a rounded constant.", "quantifier": "all positive inputs", "why_tests_cant": "an error of relative size 1e-7 is below any finite-difference tolerance", "anchors": ["openconcept/aerodynamics/drag_jet_transport.py"]}
{"id": "C62", "title": "CLmax estimates: exact partials, monotonicity", "statement": "CleanCLmax and FlapCLmax partials are exact; deflecting neither flaps nor slats returns the clean value plus zero increment; increments grow with flapped span.", "quantifier": "all sweeps in (-90,90) deg, positive fractions", "why_tests_cant": "real domain", "anchors": ["openconcept/aerodynamics/CL_max_estimation.py"]}
{"id": "C63", "title": "Wave drag does not depend on the bookkeeping area", "statement": "The dimensional wave drag CD*S*q is independent of which normalisation area is specified; CD is zero below critical Mach number, positive above and C3-smooth there.", "quantifier": "all sections, Mach numbers and reference areas", "why_tests_cant": "invariance over all areas", "anchors": ["openconcept/aerodynamics/openaerostruct/wave_drag.py"]}
{"id": "C64", "title": "Trapezoidal planform mesh realises the requested planform", "statement": "The generated half-wing mesh has area S/2, span sqrt(S*AR)/2, taper ratio and quarter-chord sweep as requested for every mesh size; partials exact.", "quantifier": "all num_x, num_y >= 1, all positive S, AR, taper, sweep in (-90, 90)", "why_tests_cant": "unbounded mesh sizes", "anchors": ["openconcept/aerodynamics/openaerostruct/mesh_gen.py: TrapezoidalPlanformMesh"]}
{"id": "C65", "title": "Section planform mesh: requested area, cache transparency", "statement": "The mesh from sections, scaled to S, has projected area S; the Jacobian values computed through the input cache equal those of a fresh computation for any call history; invalid section counts and lists raise.", "quantifier": "all section counts, mesh counts and call histories", "why_tests_cant": "history property, unbounded sizes", "anchors": ["openconcept/aerodynamics/openaerostruct/mesh_gen.py: SectionPlanformMesh"]}
{"id": "C66", "title": "Cosine spacing and section interpolation", "statement": "cos_space returns points that start and end exactly at the end points, are nondecreasing for start<=end, and have derivative weights summing to 1; SectionLinearInterp/ThicknessChordRatioInterp interpolate section values exactly at sections, stay between neighbours, and declare as many nonzeros as they fill.", "quantifier": "all point counts and section lists", "why_tests_cant": "unbounded counts", "anchors": ["openconcept/aerodynamics/openaerostruct/mesh_gen.py: cos_space, SectionLinearInterp, ThicknessChordRatioInterp"]}
{"id": "C67", "title": "Aerodynamic training data cache never serves stale data", "statement": "After any history of setups, computations and failed computations over any number of component instances, the training data returned by compute is the data belonging to the current inputs (to the stated tolerance) and the instance's own training grid.", "quantifier": "all finite histories of setup/compute events over all instances, with failures at any point", "why_tests_cant": "class-level shared mutable cache, exceptions in the middle of an update, several instances", "anchors": ["openconcept/aerodynamics/openaerostruct/drag_polar.py: VLMDataGen", "openconcept/aerodynamics/openaerostruct/aerostructural.py: OASDataGen"]}
{"id": "C68", "title": "Training data is stored in grid order", "statement": "Entry (i,j,k) of the training arrays is the result for Mach i, alpha j, altitude k irrespective of the order in which workers finish, and every grid point is computed exactly once.", "quantifier": "all grid shapes", "why_tests_cant": "unbounded grids; index arithmetic", "anchors": ["openconcept/aerodynamics/openaerostruct/drag_polar.py: compute_training_data", "openconcept/aerodynamics/openaerostruct/aerostructural.py: compute_training_data"]}
{"id": "C69", "title": "Wing geometry components are mutually consistent", "statement": "WingSpan and WingAspectRatio invert each other; the trapezoidal MAC equals the defining integral of chord squared over area; two-section WingMACFromSections/WingAreaFromSections agree with the trapezoidal formulas.", "quantifier": "all positive areas, aspect ratios, tapers", "why_tests_cant": "identities over the reals", "anchors": ["openconcept/geometry/wing_planform.py: WingSpan, WingAspectRatio, WingMACTrapezoidal, WingAreaFromSections, WingMACFromSections"]}
{"id": "C70", "title": "Section based area, MAC and sweep are invariant under refinement and bounded", "statement": "Inserting an interpolated section changes neither area nor MAC nor its location; the averaged sweep lies between the smallest and largest panel sweep; uniform sweep is returned unchanged.", "quantifier": "all section lists", "why_tests_cant": "unbounded section counts", "anchors": ["openconcept/geometry/wing_planform.py: WingAreaFromSections, WingMACFromSections, WingSweepFromSections"]}
{"id": "C71", "title": "Tail sizing reproduces the requested volume coefficients", "statement": "The returned tail area times its lever arm over (MAC*S) resp. (span*S) equals the requested volume coefficient; partials exact.", "quantifier": "all positive geometry", "why_tests_cant": "identity over the reals", "anchors": ["openconcept/stability/tail_volume_coefficient_sizing.py"]}
{"id": "C72", "title": "Turboprop weight buildup: exact partials and total", "statement": "Each component weight formula reports exact partials for positive inputs and the operating empty weight is the documented weighted sum.", "quantifier": "all positive inputs", "why_tests_cant": "real domain", "anchors": ["openconcept/weights/weights_turboprop.py, weights_twin_hybrid.py"]}
{"id": "C73", "title": "Jet-transport and BWB weight buildup: exact partials, monotonicity and total", "statement": "Each component weight formula reports exact partials for positive inputs; weights increase with load; OEW is the documented weighted sum.", "quantifier": "all positive inputs", "why_tests_cant": "real domain", "anchors": ["openconcept/weights/weights_jet_transport.py, weights_BWB.py"]}
{"id": "C74", "title": "Operating cost is conserved across its breakdown", "statement": "Total trip cost equals the sum of its parts and the declared constant partials are the true derivatives; omitting batteries equals zero battery cost.", "quantifier": "all inputs", "why_tests_cant": "linear identity for all inputs", "anchors": ["openconcept/costs/costs_commuter.py"]}
{"id": "C75", "title": "A phase knows all its states and drives all its integrators with one duration", "statement": "After configuration a PhaseGroup's list of states consists exactly of the states registered with the Integrators anywhere below it, under their full paths, and the duration input of every Integrator below it is either promoted to the phase's duration or connected to it, each promoted name once.", "quantifier": "all system trees, all promotions", "why_tests_cant": "The search is recursive over arbitrary nesting; tests use one or two fixed trees.", "anchors": ["openconcept/mission/mission_groups.py: find_integrators_in_model, PhaseGroup.configure"]}
{"id": "C76", "title": "Steady climb angle balances excess thrust", "statement": "ClimbAngleComp returns the angle gamma in [-pi/2, pi/2] with thrust - drag = weight g sin(gamma), NaN exactly when the excess thrust exceeds the weight, and its partials are exact whenever excess thrust is below weight.", "quantifier": "all thrusts, drags, positive weights", "why_tests_cant": "Real-valued inputs; tests evaluate single points.", "anchors": ["openconcept/mission/phases.py: ClimbAngleComp"]}
{"id": "C77", "title": "Backward shooting of the rejected take-off equals forward integration", "statement": "In the v1v0 phase, when the duration balance has converged, the velocity history obtained by integrating the reversed negated accelerations from zero_speed and reversing the result equals, at every node, the forward Simpson integration of the accelerations from V1; it starts at V1 and ends at zero_speed.", "quantifier": "every odd node count, every acceleration history, every duration", "why_tests_cant": "Unbounded node count and real data; a test only looks at the balanced field length number.", "anchors": ["openconcept/mission/phases.py: GroundRollPhase (v1v0), FlipVectorComp", "openconcept/utilities/math/integrals.py: Integrator"]}
{"id": "C78", "title": "DVLabel copies inputs to outputs", "statement": "Every output listed in DVLabel with a unique name receives exactly the value of its input; other variables are untouched; if an output is listed twice the last entry wins.", "quantifier": "all variable lists and values", "why_tests_cant": "Lists of unbounded length.", "anchors": ["openconcept/utilities/dvlabel.py: DVLabel.compute"]}
{"id": "C79", "title": "Every exported propulsion system can be set up", "statement": "Every name pattern promoted by a propulsion system from its propeller matches at least one of the propeller's inputs, so that setup does not raise.", "quantifier": "the promotion patterns of all systems in propulsion/systems", "why_tests_cant": "the class is never instantiated by the test suite; the property is about all systems", "anchors": ["openconcept/propulsion/systems/simple_series_hybrid.py: SeriesHybridElectricPropulsionSystem", "openconcept/propulsion/propeller.py: SimplePropeller.setup"]}
{"id": "C80", "title": "Heat pipe walls, weight, heat limit and warning", "statement": "The heat pipe wall is sized so that the hoop stress p*r/t at design pressure equals yield stress divided by the safety factor; the weight is that of a tube with this wall; the dry-out limit is positive; the q_max warning is issued exactly when some node exceeds the chosen fraction of the limit; the vapor temperature drop is positive for positive heat.", "quantifier": "all positive pressures, diameters, lengths, safety factors, heat flows", "why_tests_cant": "Tests compare a few numbers against values produced by the same formula, so a factor of two in the wall sizing or an undefined value at zero heat stays unnoticed.", "anchors": ["openconcept/thermal/heat_pipe.py:HeatPipeWeight.compute", "openconcept/thermal/heat_pipe.py:QMaxAnalyticalPart.compute", "openconcept/thermal/heat_pipe.py:QMaxWarning.compute", "openconcept/thermal/heat_pipe.py:HeatPipeVaporTempDrop.compute"]}
{"id": "C81", "title": "Compressible duct: force sign follows from heat and losses, station Mach number is unique", "statement": "A converged duct without pressure losses and heat, exhausting to ambient pressure with unit gross thrust coefficient, discharges at freestream velocity and has zero net force for every subsonic flight condition and nozzle area; heating gives a positive force, total pressure loss a negative one. For a given total state, area and mass flow at most one Mach number in (0, 1) solves the station equations, and one exists iff the flow is below the choked flow.", "quantifier": "all subsonic flight conditions, nozzle areas, mass flows; all gas constants and gamma > 1", "why_tests_cant": "tests converge the duct at a handful of conditions with one Newton start; uniqueness and signs are universally quantified", "anchors": ["openconcept/thermal/ducts.py:740-744", "openconcept/thermal/ducts.py:802-845", "openconcept/thermal/ducts.py:915-961"]}
{"id": "C82", "title": "Critical section CL_max is conservative and tight", "statement": "When CLmaxCriticalSectionVLM has converged, no spanwise section exceeds its maximum sectional lift coefficient (one limit for the wing or one per section), and at least one section is within log(num_y)/rho of its limit. If the sectional lift coefficients increase with angle of attack the solution is unique.", "quantifier": "all num_y >= 1, rho > 0, sectional lift functions, limits, converged angles of attack", "why_tests_cant": "the bound is over every section and every aggregation parameter; tests compare one CL_max number", "anchors": ["openconcept/aerodynamics/openaerostruct/CL_max_critical_section.py:83-146"]}
{"id": "C83", "title": "Variables read from the data dictionary are the addressed entries", "statement": "add_output_from_dict(name) declares exactly the value (numbers as arrays of length one) and units found by following the separated keys; it fails with the documented KeyErrors exactly when a key or the value entry is missing; different names address different entries; failed calls leave no trace and the dictionary is never changed. The Dymos variant reads the same entry and targets it in every phase.", "quantifier": "all nested dictionaries, names, separators, call sequences", "why_tests_cant": "tests use one dictionary and a few names; the iff over all trees and the splitting inverse need induction", "anchors": ["openconcept/utilities/dict_indepvarcomp.py:41-72", "openconcept/utilities/dict_indepvarcomp.py:98-135"]}
{"id": "C84", "title": "Blended wing body parasite drag buildup", "statement": "ParasiteDragCoefficient_BWB returns the fudge factor times the sum of nacelle drag (referred to the wing area), flap drag and landing gear drag; in the clean configuration only the nacelles count and the drag force does not depend on the reference area; the takeoff configuration adds flap drag and 0.01 for the gear.", "quantifier": "all inputs and options", "why_tests_cant": "tests pin two configurations; the decomposition and invariance hold over all real inputs", "anchors": ["openconcept/aerodynamics/drag_BWB.py:88-192"]}
{"id": "C85", "title": "Engine deck training data pairs each value with its own operating point", "statement": "Each training row of CFM56, N3 and N3Hybrid combines entries of one table cell with that cell's throttle, altitude, Mach number (and the block's hybrid power); exactly the cells passing the filter are present; no two rows share an input point; each declared variable is trained on its own column; hybrid rows at one operating point share the thrust.", "quantifier": "all table contents (and, for N3Hybrid, tables whose cells are distinct operating points)", "why_tests_cant": "tests evaluate the trained surrogate at a few points with cached training; a swapped axis or column is a statement about all cells", "anchors": ["openconcept/propulsion/cfm56.py:43-89", "openconcept/propulsion/N3.py:56-143", "openconcept/propulsion/N3.py:312-357"]}
{"id": "C86", "title": "Propeller map tables are well formed and physical", "statement": "All propeller maps have strictly increasing grids, at least four points per axis and data of matching shape (the scaled map exactly when design_cp > 0 and design_J > 11/70); efficiencies lie in [0,1), static thrust ratios are positive; the high power map has zero efficiency at J = 0; the declared partials of the constant map are exact.", "quantifier": "all design_J, design_cp, all table entries", "why_tests_cant": "well-formedness of the scaled map depends on two real parameters; tests construct the default only", "anchors": ["openconcept/propulsion/empirical_data/prop_maps.py:6-211"]}
{"id": "C87", "title": "Design point options scale the propeller map", "statement": "propeller_map_scaled moves the reference design point (J = 2.2, cp = 0.2) to (design_J, design_cp), and the design_cp and design_J options of SimplePropeller select the scaled map.", "quantifier": "all design_J, design_cp", "why_tests_cant": "the tests use the defaults, where scaling is the identity", "anchors": ["openconcept/propulsion/empirical_data/prop_maps.py:34-56", "openconcept/propulsion/propeller.py:44-68"]}
{"id": "C88", "title": "Panel thickness ratios are linear in span", "statement": "In VLMDragPolar the thickness-to-chord ratio of every streamwise strip of panels is the linear interpolation of the given section (tip/root) values at the spanwise middle of the strip of the generated mesh, for the trapezoidal and the section geometry.", "quantifier": "all numbers of strips, section positions, reference areas, aspect ratios and thickness values", "why_tests_cant": "tests compare drag of uniform or two-strip cases or freeze regression values; the claim relates two independently spaced arrays for every panel count", "anchors": ["openconcept/aerodynamics/openaerostruct/drag_polar.py:300-308", "openconcept/aerodynamics/openaerostruct/mesh_gen.py:443-555", "openconcept/aerodynamics/openaerostruct/mesh_gen.py:66-81"]}
{"id": "C89", "title": "Drag polars return the drag of the angle of attack that carries the requested lift", "statement": "For each drag polar group, once converged: the (surrogate or direct) lift coefficient at the found angle of attack equals fltcond|CL, the drag is q S times the drag coefficient at that same angle, Mach number and altitude plus the other components' drag; every node of the exact polar uses its own flight condition; at training points the surrogate polar reproduces the analysis and agrees with the exact polar. The group sizes (ny_tot, strips) agree with the generated mesh.", "quantifier": "all node counts, flight conditions, analyses, training grids, worker schedules, surrogates that reproduce their data", "why_tests_cant": "OpenAeroStruct tests run single points with tolerances of the surrogate; node wiring and the training pairing are statements about all nodes and grids", "anchors": ["openconcept/aerodynamics/openaerostruct/drag_polar.py:216-382", "openconcept/aerodynamics/openaerostruct/aerostructural.py:173-252", "openconcept/aerodynamics/openaerostruct/aerostructural.py:1424-1506"]}
{"id": "C90", "title": "Optional inputs and documented option types of the drag polars", "statement": "If ac|aero|CD_nonwing is not given the drag is that of the wing alone in all three drag polar groups, and training grids given as lists work like arrays; setup fails exactly for the documented option errors.", "quantifier": "all option values and flight conditions", "why_tests_cant": "tests always set CD_nonwing and always pass arrays", "anchors": ["openconcept/aerodynamics/openaerostruct/drag_polar.py:196-235", "openconcept/aerodynamics/openaerostruct/drag_polar.py:366-377", "openconcept/aerodynamics/openaerostruct/aerostructural.py:391", "openconcept/aerodynamics/openaerostruct/aerostructural.py:1490-1503"]}
{"id": "C91", "title": "Operating point and viscosity handed to the aerodynamic analyses", "statement": "The analysis gets a density, speed of sound, airspeed and Reynolds number consistent with altitude, Mach number and temperature increment; the Reynolds number is positive wherever the pressure model is defined; the linear viscosity is accurate up to 10.5 km, and the library's viscosity models agree with each other to 1 %. The wingbox airfoil table is consistent with its declared thickness ratio.", "quantifier": "all altitudes below the pressure singularity, Mach numbers, temperature increments", "why_tests_cant": "an accuracy bound over an interval of altitudes and the comparison of two modules are not point checks", "anchors": ["openconcept/aerodynamics/openaerostruct/drag_polar.py:760-800", "openconcept/aerodynamics/openaerostruct/aerostructural.py:859-893", "openconcept/aerodynamics/openaerostruct/aerostructural.py:902-1145", "openconcept/aerodynamics/drag_jet_transport.py:571-579"]}
{"id": "C92", "title": "Weight bookkeeping, sizing closure and margins of the example aircraft", "statement": "In every mission of the example aircraft the weight is the take-off weight minus the fuel used so far, does not jump between phases, never increases at phase boundaries and even nodes when fuel flows are nonnegative, and at the end equals take-off weight minus the sum of the fuel burned in the phases, in any order; for cubic fuel flows the landing weight is exact. A converged sizing run lands with exactly empty weight plus payload. The weight margin is nonnegative exactly when battery, empty weight, payload and fuel fit. Summation groups count every part once, both sides of the aircraft and the number of running engines.", "quantifier": "all numbers of phases and nodes, fuel flow histories, durations, weights, engine counts", "why_tests_cant": "the example tests compare one mission's totals with stored numbers; conservation over an arbitrary chain of phases is an induction", "anchors": ["openconcept/examples/B738.py:37-77", "openconcept/examples/B738_sizing.py:113-174", "openconcept/examples/B738_sizing.py:186-402", "openconcept/examples/HybridTwin_thermal.py:92-154", "openconcept/examples/HybridTwin_thermal.py:224-240", "openconcept/examples/HybridTwin_active_thermal.py:99-162", "openconcept/examples/N3_HybridSingleAisle_Refrig.py:40-200", "openconcept/examples/aircraft_data/HybridSingleAisle.py:118-160"]}
{"id": "C93", "title": "A steady cruise obeys the Breguet range equation", "statement": "In a converged steady flight phase of the minimal aircraft (constant lift-to-drag ratio and specific fuel consumption) lift carries the weight, thrust balances drag and the weight component along the path, and in level cruise at constant speed the final weight is at least W0 exp(-TSFC g R/(V L/D)) and exceeds it by at most W0 y^5/(45 (nn-1)^4), where R is the range integrated by the same phase; with more nodes it converges to the Breguet weight. Such converged phases exist.", "quantifier": "all aircraft parameters, speeds, durations, numbers of nodes", "why_tests_cant": "tests compare with a stored fuel burn for 21 nodes; an error bound for every number of nodes and every range is a theorem of numerical analysis", "anchors": ["openconcept/examples/minimal.py:25-75", "openconcept/examples/minimal_integrator.py:30-100", "openconcept/mission/phases.py:964-1021", "openconcept/utilities/math/integrals.py:31-98"]}
{"id": "C94", "title": "Thermally managed electric propulsion systems conserve energy and use their design variables", "statement": "In the all-electric and series-hybrid systems with thermal management every component input has exactly one source and every geometric design variable, including the duct nozzle area, reaches the component it describes. Battery and generator power equals shaft power plus losses plus auxiliary loads. In every converged phase, at every node, the heat stored in battery, motors and coolant equals the integral of the heat released minus the integral of the heat rejected to the air (with the refrigerator, its electric power is rejected too, for every bypass setting). A steady loop has exactly one set of temperatures, all above the outside air, and constant-data phases started there stay there.", "quantifier": "all throttles, ratings, geometries, coolant flows, bypass controls, numbers of nodes, durations, converged phases", "why_tests_cant": "the example regression tests run one mission of one aircraft; an energy balance over every converged phase and every node is a summation argument over solver solutions", "anchors": ["openconcept/propulsion/systems/simple_all_electric.py", "openconcept/propulsion/systems/thermal_series_hybrid.py:20-560", "openconcept/thermal/thermal.py", "openconcept/thermal/ducts.py"]}
{"id": "C95", "title": "Flight conditions computed by ComputeAtmosphericProperties are consistent", "statement": "The two modes of the group (equivalent airspeed in, true airspeed in) describe the same flight condition: feeding one's airspeed to the other reproduces all outputs. Density decreases strictly with altitude on every day down to 100 K colder than standard, including the smoothed tropopause, so climbing at constant equivalent airspeed increases true airspeed and Mach number while the dynamic pressure stays 1/2 rho0 Ueas^2; at or above sea level on a standard or warmer day the true airspeed exceeds the equivalent airspeed.", "quantifier": "all altitudes up to the model ceiling 288.16/0.0065 m, all temperature increments >= -100 K (> -216.65 K for consistency), all airspeeds", "why_tests_cant": "tests sample a few altitudes; monotonicity across the fitted cubic needs bounds on its slope over an interval", "anchors": ["openconcept/atmospherics/compute_atmos_props.py:13-86", "openconcept/atmospherics/temperature_comp.py", "openconcept/atmospherics/pressure_comp.py", "openconcept/atmospherics/density_comp.py"]}
{"id": "C96", "title": "Ducted heat exchanger groups: balances hold, the converged state is unique and exists", "statement": "In every converged compressible duct group each station and the nozzle pass the same mass flow, the total enthalpy gained equals the heat added, and the total pressure follows recoveries, increments and losses in station order. With the default station loss factor, two converged states of the same duct have the same flow and nozzle state, and with subsonic stations are equal; a converged state exists whenever the total pressure exceeds the exit pressure and no station chokes. In the group with its own heat exchanger a coolant hotter than the air loses exactly the heat the air gains, leaves between both inlet temperatures, and the air loses total pressure.", "quantifier": "all flight conditions, areas, heats, pressure changes, exchangers with positive geometry, all gas constants and gamma > 1", "why_tests_cant": "tests converge the Newton solver at a few points from one guess; uniqueness, existence and balances concern every converged state", "anchors": ["openconcept/thermal/ducts.py:964-1087", "openconcept/thermal/ducts.py:1098-1210"]}
{"id": "C97", "title": "A switched off ducted heat exchanger produces no thrust", "statement": "With no heat and no pressure change, the compressible duct groups at their default settings give zero net force (unit gross thrust coefficient) in subsonic flight and no flow at rest.", "quantifier": "all subsonic flight conditions, nozzle areas and ambient pressures", "why_tests_cant": "tests compare against recorded values that contain the effect", "anchors": ["openconcept/thermal/ducts.py:994", "openconcept/thermal/ducts.py:1126", "openconcept/thermal/ducts.py:1183-1199"]}
{"id": "C98", "title": "Integrators are stable and converge to the exact integral with their order", "statement": "With a three times differentiable rate, every node of a BDF3 integrated state differs from the exact integral by at most 27/4 K h^3 t, and every node of a Simpson integrated state by at most 1/8 K h^3 t, K bounding the third derivative over the phase and t the elapsed time; with four derivatives Simpson's end points of intervals are within K4 h^4 t/180. A rate error of at most e changes the state by at most 11/3 t e (BDF3) or 7/6 t e (Simpson) for any node count. For every rate continuous on the phase both methods converge to the exact integral uniformly over the nodes as the node count grows.", "quantifier": "all rates, initial values, step sizes, node counts and nodes", "why_tests_cant": "tests integrate a few fixed functions at a few node counts; order, stability and convergence are limits over all of them", "anchors": ["openconcept/utilities/math/integrals.py:8-84", "openconcept/utilities/math/integrals.py:86-170"]}
{"id": "C99", "title": "Finite-difference rates are accurate on smooth histories and bounded under noise", "statement": "For a history with five continuous derivatives the fourth-order derivative differs from the true one by at most 17/3 K5 dt^4 at every node including the one-sided end rows, for three derivatives the second-order one by at most K3 dt^2; a node error of at most e changes the fourth-order derivative by at most 32/3 e/dt.", "quantifier": "all smooth histories, segment lengths, node counts and nodes", "why_tests_cant": "tests compare on one function at one resolution", "anchors": ["openconcept/utilities/math/derivatives.py:10-115"]}
{"id": "C100", "title": "Components with thermal mass have one temperature history, which settles at the quasi-steady temperature", "statement": "For the liquid cooled component, motor, battery and the coolant reservoir the implicitly integrated temperature history exists and is unique for every accepted node count and all inputs at the nodes. The quasi-steady temperature exists, is unique and equals the inlet temperature plus heat over conductance. A component that starts there stays there. With constant inputs the temperature at the ends of the Simpson intervals stays between the initial and quasi-steady temperature, gets strictly closer to the latter in every interval, and differs from the exact solution of the heat balance by at most |T0-Te| (lambda h)^4 (lambda t)/45.", "quantifier": "all node counts, durations, heat loads, flows, inlet temperatures and component sizes", "why_tests_cant": "a converged run shows one solution at one resolution", "anchors": ["openconcept/thermal/thermal.py:320-353", "openconcept/thermal/thermal.py:385-400", "openconcept/thermal/motor_cooling.py:58-89", "openconcept/thermal/battery_cooling.py:85-131"]}
{"id": "C101", "title": "A cooled component's temperature stays between its initial and its quasi-steady temperature", "statement": "With constant inputs the temperature of a cooled component at every node lies between the initial and the quasi-steady temperature; in particular a component without losses that starts hotter than its coolant never becomes colder than the coolant inlet.", "quantifier": "all node counts, durations, nodes and component sizes", "why_tests_cant": "the tests use short phases and heavy components, where the statement holds", "anchors": ["openconcept/thermal/thermal.py:324-338", "openconcept/thermal/motor_cooling.py:73-80"]}
{"id": "C102", "title": "A converged take-off is a balanced field length take-off", "statement": "When the take-off phases and the solver for V1 have converged, the airplane accelerates from 2 m/s to V1, from V1 to Vr = 1.1 Vs with an engine inoperative, and brakes from V1 to 2 m/s (also though that phase is integrated backwards); ranges join, and the two distances compared are accelerate-stop and accelerate-go including the rotation, equal unless V1 = Vr. With uniform acceleration times and distances are those of the textbook formulas; with bounded acceleration the duration lies between the two uniform ones.", "quantifier": "all aircraft models, designs, node counts, altitudes, temperatures, both transition methods", "why_tests_cant": "tests run a few missions with one aircraft model each and compare a final number", "anchors": ["openconcept/mission/phases.py:575-736", "openconcept/mission/phases.py:810-892", "openconcept/mission/profiles.py:57-107"]}
{"id": "C103", "title": "The take-off keeps its speed margin over the stall", "statement": "Rotation happens at no less than 1.1 times the stall speed, climb-out at 1.2 times, so that the lift coefficient needed stays below CLmax / 1.21 and CLmax / 1.44, and the integrated rotation starts upwards, on all days and at all runway altitudes.", "quantifier": "all aircraft models, designs, node counts, altitudes and temperature increments", "why_tests_cant": "tests take off at sea level on a standard day, where true and equivalent airspeed agree", "anchors": ["openconcept/mission/phases.py:717-731", "openconcept/mission/phases.py:828-835", "openconcept/mission/phases.py:1404-1435", "openconcept/mission/phases.py:1086-1139"]}
{"id": "C104", "title": "Energy accounting of the series hybrid twin over a mission", "statement": "In every converged mission of the series hybrid twin, for all throttle histories, hybridizations and durations: at each node the battery carries the hybridization fraction of the motors' electric power and the engine burns fuel for the rest; the final state of charge and fuel follow from the energies of the phases, and battery energy plus generator energy equals what the motors took. With the default controls the take-off phases burn no fuel (the climb starts at the take-off weight), climb, cruise and descent leave the charge unchanged, so the mission ends with the charge left by the take-off (two motors at rated power to V1, one to the obstacle); an aborted take-off costs only the roll to V1. Raising the hybridization of a phase trades fuel for charge in fixed proportion, and exactly one value reaches a given final charge.", "quantifier": "all node counts, throttle and activity histories, durations, ratings, battery sizes, lists of phases, hybridizations", "why_tests_cant": "The accounting must hold for every throttle history and number of phases; tests run one mission with one set of controls.", "anchors": ["openconcept/examples/HybridTwin.py:49-128", "openconcept/propulsion/systems/simple_series_hybrid.py:45-142", "openconcept/mission/profiles.py:57-110,283-297", "openconcept/energy_storage/battery.py:59-112"]}
{"id": "C105", "title": "Integrators with one node leave the state unchanged, and their outputs are consistent for every node count", "statement": "`Integrator` accepts exactly the odd node counts (except three with bdf3). With one node the history and the final value equal the initial value (zero with zero_start) whatever the rates and the time inputs; a mission made of one-node phases returns the state it was given. For every accepted node count the history has one entry per node, begins with the initial value and ends with the value reported as final; final_only drops the history and nothing else; zero_start equals an initial value of zero. `OldIntegrator` should agree with it on one segment, also for one node.", "quantifier": "all node counts, methods, time setups, initial values, rates, durations, options, numbers of segments and of phases", "why_tests_cant": "The claims range over every node count, rate and time input; tests integrate a few fixed functions, and none runs OldIntegrator with one node.", "anchors": ["openconcept/utilities/math/integrals.py:527-529,742-784", "openconcept/utilities/math/integrals.py:923-1123"]}
{"id": "C106", "title": "Vectorised components evaluate nodes independently and their sparse Jacobian is the whole Jacobian", "statement": "In the vectorised components of aerodynamics and of the thermal library, output k of a component depends only on the inputs of node k (and on scalar inputs), and the sparse Jacobian assembled from the declared rows and columns and the values set in compute_partials, applied to any direction, is the derivative of the whole output vector in that direction: no dependency is missing and no entry is misplaced.", "quantifier": "all node counts, input values in the domain, directions", "why_tests_cant": "Sparsity patterns depend on the number of nodes; tests compare a few sizes numerically and cannot show that no cross dependency is missing for every size.", "anchors": ["openconcept/aerodynamics/aerodynamics.py:41-87,120-160", "openconcept/thermal/chiller.py", "openconcept/thermal/heat_exchanger.py", "openconcept/thermal/manifold.py"]}
{"id": "C107", "title": "Turboprop and electric examples account for fuel, charge and weight from brake release to landing", "statement": "For the aircraft models of the TBM 850, Caravan, King Air and electric single in a full mission: the fuel flow at a node is the specific consumption times shaft power; fuel used before any phase equals the specific consumption times the integrated shaft power of the phases before it on the take-off, climb, cruise, descent path; the weight is MTOW at the first node of v0v1 and continuous from phase to phase; at the beginning of the climb the fuel used is psfc*P*(k*t_v0v1 + t_v1vr + t_rotate) with k the number of engines, and an aborted take-off burns only k*psfc*P*t_v0v1 and keeps its weight while stopping. The King Air has two engines' thrust with all engines, one engine's after the failure and none with closed throttle; its climb gradients at V2 differ by T1/(W g). The single-engine airplanes ignore propulsor_active. The electric airplane keeps its weight and its state of charge falls by rating times integrated throttle over the battery's energy.", "quantifier": "For all airplanes, propeller maps, throttles, flight conditions, durations and numbers of nodes for which the integrator is defined", "why_tests_cant": "The repository's tests compare a handful of final values of one mission per airplane; no finite set of runs shows that fuel, charge and weight balance for every profile or that the engine-out bookkeeping is right in every phase.", "anchors": ["openconcept/examples/KingAirC90GT.py:25-89", "openconcept/examples/Caravan.py:26-89", "openconcept/examples/TBM850.py:30-110", "openconcept/examples/ElectricSinglewithThermal.py:24-59", "openconcept/mission/profiles.py:284-297"]}
{"id": "C108", "title": "The aerostructural B738 exchanges the estimated wing for the analysed wing and its manoeuvre point carries the exchanged weight", "statement": "In the aerostructural B738 model the weight at every node is MTOW minus fuel used plus the analysed wing weight minus the original one; with equal wings it is the weight of the plain airplane, and a change of the wing weight changes it one to one; the mission's final weight has fallen by twice the integral of one engine's fuel flow; the estimate of the original wing weight is the Raymer wing formula of the weights module; the manoeuvre point lifts load factor times the exchanged take-off weight, and its angle of attack grows strictly with load factor, take-off weight and wing weight.", "quantifier": "For all weights, load factors, lift curves (increasing ones for the last clause), flight conditions, durations and node counts", "why_tests_cant": "The repository's test runs one optimisation-free mission and compares single values; it cannot show that the weight exchange is right for every wing or that the manoeuvre point sizes for the airplane that is flown.", "anchors": ["openconcept/examples/B738_aerostructural.py:66-84,144-155,236-320"]}
{"id": "C109", "title": "FirstDerivative pairs each segment with the time step of its own name and gives consistent units", "statement": "The component FirstDerivative is set up exactly when its order is 2 or 4 with enough intervals and the segment names have no repetition; it has one scalar time step per segment (one `dt` without names), in the time unit; the output's unit is the quantity's over the time unit whichever are given; with order 4 every segment's derivative is exact for quartic polynomials of that segment's own step, and the partial stored under a time step's name is the derivative with respect to the input of that name.", "quantifier": "For all lists of segment names, unit strings, interval counts, nonzero time steps and quantities", "why_tests_cant": "Tests use one or two segments of fixed names and sizes; the naming and pairing must hold for every list of segments and every unit string.", "anchors": ["openconcept/utilities/math/derivatives.py:252-347"]}
{"id": "C110", "title": "The units that components declare are consistent with their formulas", "statement": "For each of 72 components of physics (thermal management, ducts and heat exchangers, propulsion, energy storage, aerodynamics, geometry, mission phases): expressing the inputs and options in other base units, with the units which `setup` declares and the documentation gives, gives the outputs expressed in those base units under their declared units. Three of them (explicit duct, duct speed of sound, ground speeds) have this where their clipping literals are not used. `PropCoefficients` does not have it: `prop_Vtip`, a speed, is declared without units.", "quantifier": "For all positive scalings of the base units (metre, kilogram, second, kelvin, dollar, foot, hour, mega) that keep the dimensional constants of the formula, and all real inputs", "why_tests_cant": "Unit tests run in one system of units and compare with numbers the code itself produced; a term of the wrong dimension or a wrong unit string changes no test as long as every caller uses the same units. OpenMDAO converts at every connection, so a wrong declaration silently scales values.", "anchors": ["openconcept/thermal/*.py", "openconcept/propulsion/*.py", "openconcept/energy_storage/*.py", "openconcept/aerodynamics/*.py", "openconcept/atmospherics/*.py", "openconcept/geometry/*.py", "openconcept/stability/*.py", "openconcept/mission/phases.py"]}
{"id": "C111", "title": "No component leaves a nonzero partial derivative undeclared", "statement": "For each of the 72 components of C110, and for 18 more (atmosphere, friction, flaps, fins, implicit ducts, equipment weights, costs), with any number of nodes: the pairs, rows and columns given to `declare_partials` name existing variables, lie inside the Jacobian, give every position at most once, and cover every dependency: for a position that is not declared (which OpenMDAO takes as zero), changing that entry of the input leaves that entry of the output as it is.", "quantifier": "For all node counts, all entries of inputs and outputs, all real input values and changes; both settings of the options `vec_CD0` and of the vapour resistance of the heat pipe", "why_tests_cant": "check_partials compares the declared sparsity at one random point and with few nodes; a dependency that is inactive at this point (clipping, regimes, options) is not seen, and OpenMDAO silently drops undeclared entries.", "anchors": ["openconcept/thermal/*.py", "openconcept/propulsion/*.py", "openconcept/energy_storage/*.py", "openconcept/aerodynamics/*.py", "openconcept/atmospherics/*.py", "openconcept/geometry/*.py", "openconcept/stability/*.py", "openconcept/mission/phases.py", "openconcept/weights/weights_jet_transport.py:1502-1754", "openconcept/costs/costs_commuter.py:54-112"]}
{"id": "C112", "title": "Components with several concatenations or splits keep the relations apart", "statement": "A `VectorConcatenateComp` or `VectorSplitComp` with any number of relations (constructor arguments and `add_relation`) can be set up exactly if every relation has as many sizes as parts and no name occurs twice; it then declares each variable with the size, columns and unit of its own relation, `compute` writes into each output exactly the rows of its own relation and nothing else, splitting a concatenation gives back the parts, and the declared constant partials are the derivatives of `compute`.", "quantifier": "For all lists of relations, names, sizes, column counts, units and array contents", "why_tests_cant": "The tests use at most two fixed relations with fixed sizes; an overlap of offsets or a leak between relations appears only for other combinations.", "anchors": ["openconcept/utilities/math/combine_split_comp.py:7-336"]}
{"id": "C113", "title": "Every sum and product equation of the example airplanes and weight models can be set up with consistent sizes and units", "statement": "Each `AddSubtractComp`/`ElementMultiplyDivideComp` equation used by the example airplanes, the empty weight groups and the drag build-ups passes the argument checks of its component for every number of nodes and declares exactly the named output and inputs with the intended number of rows (one or one for each node) and units.", "quantifier": "For all node counts of at least one, all weight fudge factors and both settings of `vec_CL_max`", "why_tests_cant": "An example is run with one number of nodes; a wrong entry in a list of sizes shows up only with another one, and wrong units only change numbers.", "anchors": ["examples/B738.py", "examples/HybridTwin.py", "openconcept/weights/weights_turboprop.py", "openconcept/weights/weights_jet_transport.py", "openconcept/weights/weights_BWB.py", "openconcept/aerodynamics/drag_jet_transport.py", "openconcept/aerodynamics/drag_BWB.py", "openconcept/aerodynamics/CL_max_estimate.py"]}
{"id": "C114", "title": "The groups of the library connect their components so that they compute the documented function", "statement": "Setting up the groups of ducts (`Inlet`, `OutletNozzle`, duct stations, `ImplicitCompressibleDuct`, `ImplicitCompressibleDuct_ExternalHX`), heat exchange (`HXGroup`, `LiquidCooledComp`, `CoolantReservoir`, `HeatPumpWithIntegratedCoolantLoop`, `LiquidCooledMotor`, `LiquidCooledBattery`, `HeatPipe`, `QMaxHeatPipe`), atmosphere, propulsion (`SimplePropeller`, the turboprop systems, `SOCBattery`, the single and twin series hybrids, the all-electric and the two thermally managed hybrid systems) and hydrogen storage (`VacuumTankWeight`, `LH2TankNoBoilOff`) raises no complaint about promoted names, sources, units or shapes (`SimplePropeller` needs its diameter from outside; `SeriesHybridElectricPropulsionSystem` is the exception, see C79); the only inputs left open are those listed in the theorem; and in every converged state, with promotion, connections and unit conversions resolved as OpenMDAO does it, the outputs are the functions of the open inputs that the end-to-end models of the other properties describe.", "quantifier": "For all converged states, all values of the options and open inputs", "why_tests_cant": "Tests of a group compare a few numbers; an input that is connected to the wrong station, silently left at its default or read in another unit changes results only by amounts that no reference exists for.", "anchors": ["openconcept/thermal/ducts.py:747-1200", "openconcept/thermal/heat_exchanger.py:1368-1500", "openconcept/thermal/thermal.py:293-399", "openconcept/thermal/chiller.py:180-300", "openconcept/thermal/motor_cooling.py:12-88", "openconcept/thermal/battery_cooling.py:12-130", "openconcept/thermal/heat_pipe.py:12-193", "openconcept/thermal/heat_pipe.py:630-715", "openconcept/atmospherics/compute_atmos_props.py:9-87", "openconcept/propulsion/propeller.py:9-78", "openconcept/propulsion/systems/simple_turboprop.py:8-178", "openconcept/propulsion/systems/simple_series_hybrid.py:13-343", "openconcept/propulsion/systems/simple_all_electric.py:12-205", "openconcept/propulsion/systems/thermal_series_hybrid.py:16-411", "openconcept/energy_storage/battery.py:9-113", "openconcept/energy_storage/hydrogen/structural.py:9-142", "openconcept/energy_storage/hydrogen/LH2_tank_no_boil_off.py:10-184"]}
{"id": "C115", "title": "The flight phases connect their components so that a converged phase is the motion it documents", "statement": "Setting up `GroundRollPhase` (all three flight phases), `RotationPhase`, `RobustRotationPhase`, `ClimbAnglePhase` with one node and `SteadyFlightPhase` as the missions extend it raises no complaint about promoted names, sources, units or shapes, and leaves open exactly the listed inputs. In every converged state over any number of nodes the promoted and connected variables, after unit conversion, form the phase of C31, C102 and C103: the aircraft model receives the documented throttle, failure flag, lift coefficient and flight condition, velocity, height and range are the integrals of the computed rates from the documented initial values, and each duration is the one at which the phase meets its end condition; in steady flight lift balances weight and thrust balances drag and the weight along the path. A `SteadyFlightPhase` without an added output `duration` cannot be set up.", "quantifier": "For all node counts, all aircraft models, all converged states and all values of the open inputs", "why_tests_cant": "Tests compare a few converged numbers for one aircraft; an integrator fed by the wrong rate, an initial value left at its default or a speed read in knots gives plausible numbers.", "anchors": ["openconcept/mission/phases.py:573-736", "openconcept/mission/phases.py:810-892", "openconcept/mission/phases.py:964-1021", "openconcept/mission/phases.py:1086-1139", "openconcept/mission/phases.py:1354-1469", "openconcept/mission/profiles.py:118-280", "openconcept/mission/mission_groups.py:77-100"]}
{"id": "C116", "title": "The missions connect their phases so that a converged mission is the trajectory they document", "statement": "Setting up `BasicMission` (with and without ground roll), `MissionWithReserve`, `FullMissionAnalysis` and `FullMissionWithReserve`, with either transition method, raises no complaint about promoted names, sources, units or shapes. The calls of `link_phases` raise no error and connect exactly height and range of consecutive phases. In every converged state over any number of nodes the connected variables, after unit conversion, form the mission of C31 (phases joined in height and range, durations determined by cruise altitude, mission range, airport altitude, reserve range, reserve altitude, loiter time) and, if take-off is included, the balanced take-off of C102 with the mission's wing area, weight and CLmax, its V1 being the speed at which the two distances agree. Exactly the listed initial values are left open: in `MissionWithReserve` the initial height and range of the climb, and in every mission with reserve the initial height of the reserve climb. `payload` and `takeoff|v0` have no effect on any phase.", "quantifier": "For all four mission classes and both transition methods, all node counts, all aircraft models, all converged states and all values of the open inputs", "why_tests_cant": "A mission test compares a few converged numbers for one aircraft; a phase that starts from a default instead of the end of the previous phase, or a target read in other units, gives plausible numbers.", "anchors": ["openconcept/mission/profiles.py:41-297", "openconcept/mission/mission_groups.py:225-335", "openconcept/mission/phases.py:148-196"]}
{"id": "C117", "title": "The empty weight groups add up the weights of the airplane their inputs describe", "statement": "Setting up `SingleTurboPropEmptyWeight`, `TwinSeriesHybridEmptyWeight`, `JetTransportEmptyWeight` (with and without T-tail) and `BWBEmptyWeight` raises no complaint about promoted names, sources or units and asks for exactly the listed inputs in the listed units. A state is converged if and only if every component weight is the one computed from the inputs of the same name and the options of the group, the engine weight is multiplied by the number of engines, the structural weight and `OEW` are the documented sums with the fudge factors, and the fluids of the turboprops (20 kg) are counted in pounds. For all inputs such a state exists and its outputs are unique. A greater `ac|weights|MTOW`, everything else equal, gives a strictly greater `OEW`.", "quantifier": "For all inputs, all values of the options, both kinds of tail and all converged states", "why_tests_cant": "A test compares one total weight for one airplane to a stored number; a component fed with another component's variable, a weight missing from a sum or added twice, or kilograms added to pounds, gives a plausible number.", "anchors": ["openconcept/weights/weights_turboprop.py:632-684", "openconcept/weights/weights_twin_hybrid.py:14-68", "openconcept/weights/weights_jet_transport.py:212-497", "openconcept/weights/weights_BWB.py:191-405"]}
{"id": "C118", "title": "The drag build-ups and the rubberized turbofans compute from the variables and options named after them", "statement": "Setting up `ParasiteDragCoefficient_JetTransport` (with or without wing, clean or take-off), `ParasiteDragCoefficient_BWB` (clean or take-off) and `RubberizedTurbofan` (N3 or CFM56, kerosene or hydrogen) raises no complaint about promoted names, sources or units and asks for exactly the listed inputs; the wing's shape is asked for only when the wing is included, sweep and flap angle only at take-off. A state of a drag group is converged if and only if every output has the value given by the build-up formulas of the airplane described by the inputs and options: each friction coefficient belongs to the length and laminar fraction of its own surface, each form factor to its own interference factor, and `CD0` is the sum of all of them times the fudge factor. For all inputs there is such a state. A turbofan gives the thrust and fuel flow of the deck at its throttle, altitude and Mach number, times the ratio of the rating to that of the deck, and for hydrogen the fuel flow also times 43/120.", "quantifier": "For all inputs, all values of the options, all configurations and all converged states", "why_tests_cant": "The tests compare CD0 of one airplane in each configuration with a stored number; a surface that reads the laminar fraction or the chord of another one, or a coefficient missing from one of the four sums, gives a plausible number for all other airplanes.", "anchors": ["openconcept/aerodynamics/drag_jet_transport.py:151-352", "openconcept/aerodynamics/drag_BWB.py:97-192", "openconcept/propulsion/rubberized_turbofan.py:66-133"]}
{"id": "C119", "title": "The turboprop airplane models of the examples are what the mission needs and compute from the right variables", "statement": "In every phase, setting up the airplane models of the Caravan, the King Air and the TBM 850 inside the mission with the design variables of the example raises no complaint: the only inputs left open are those which the mission provides (and, for the TBM, the speed of its propeller, which stays at its default), and the outputs the mission reads exist with compatible units and shapes. Every converged state of such a model over the nodes of a phase is one of the turboprop model: thrust and fuel flow follow from the throttle through engine(s) and propeller(s) at 2000, 1900 or the given rpm, drag from the polar with the zero-lift drag of the phase (take-off value in the take-off phases, cruise value otherwise), weight is MTOW minus the fuel integrated from the phase's initial value by Simpson's rule, and the empty weight is that of the turboprop build-up fed with the weights of the engine(s) and propeller(s).", "quantifier": "For all phases, all numbers of nodes, all inputs, all propeller maps and all converged states", "why_tests_cant": "The examples are run once with one set of design variables and compared with stored numbers; a model that reads the drag coefficient of another phase, integrates only one engine's fuel or lets a design variable go unconnected gives plausible results elsewhere.", "anchors": ["openconcept/examples/Caravan.py:25-84", "openconcept/examples/KingAirC90GT.py:25-98", "openconcept/examples/TBM850.py:25-90", "openconcept/mission/mission_groups.py:79-103"]}
{"id": "C120", "title": "Groups without feedback have exactly one converged state for every input", "statement": "For every value of the inputs the propeller, the single and twin turboprop propulsion systems, the four empty weight groups, the drag build-ups in all configurations and the rubberized turbofans have one and only one converged state with these inputs. The airplane models of the Caravan, the King Air and the TBM 850 have, over the nodes of any phase and for all values of the mission's inputs (scalars being the same at all nodes), one and only one converged state, including the integrated fuel. So the state the solver finds does not depend on where it started.", "quantifier": "For all inputs, all phases, all numbers of nodes, all propeller maps and engine decks", "why_tests_cant": "Existence and uniqueness of the solution of the coupled equations is a statement about all states of the model; a test sees only the one a solver reached from one starting point.", "anchors": ["openconcept/propulsion/systems/simple_turboprop.py:43-72", "openconcept/propulsion/systems/simple_turboprop.py:113-184", "openconcept/weights/weights_turboprop.py", "openconcept/aerodynamics/drag_jet_transport.py:151-352", "openconcept/examples/Caravan.py:25-84", "openconcept/examples/KingAirC90GT.py:25-98", "openconcept/examples/TBM850.py:25-90"]}
{"id": "C121", "title": "One run with the default solver gives the converged state", "statement": "In groups without feedback, a single pass through the subsystems in the order in which they were added (OpenMDAO's default solver) is possible from every state, leaves the inputs alone and ends in the converged state, whatever the outputs were before. This holds for the propeller, the turboprop, the empty weights, the drag build-ups and the turbofans. It is false of `TwinTurbopropPropulsionSystem`, which has no feedback either: the component that computes the throttle of the second engine is added after that engine, so in each run the second engine uses the throttle of the run before (1 before the first); a second run with the same inputs converges.", "quantifier": "For all states before the run, all inputs, all propeller maps and engine decks", "why_tests_cant": "Tests run the group inside a solver, or once from the initial values; whether the result of a run depends on what was left from the run before is a statement about all earlier states.", "anchors": ["openconcept/propulsion/systems/simple_turboprop.py:113-184", "openconcept/propulsion/systems/simple_turboprop.py:43-72", "openconcept/propulsion/propeller.py:72-154", "openconcept/propulsion/rubberized_turbofan.py:66-133"]}
{"id": "C122", "title": "The profile fixes the trajectory, whatever the airplane; the tutorial mission has exactly one solution", "statement": "Two converged missions of the same class (with or without take-off, reserve, ground roll) with arbitrary aircraft models but the same altitudes, ranges, prescribed vertical speeds, airspeeds and temperature increments, and the same start, have the same durations, altitude and range histories and flight conditions in all steady phases. This holds if both fly an ordinary trip (nonnegative cruise time, cruise not below its initial altitude, descent between its end altitudes), and without any such condition if the cruise is level. With a level cruise the time of the cruise is nonnegative exactly if climb and descent together are not longer than `mission_range`; since the balance has the lower bound 0, a shorter mission has no solution. For the airplane of the tutorial the throttle is TOW g (cos gamma / (L/D) + sin gamma) / max_thrust in every phase, and the tutorial mission has one and only one converged state for all parameters.", "quantifier": "For all aircraft models, mission classes, profiles, altitudes, ranges, numbers of nodes, all converged states", "why_tests_cant": "Tests compare one converged state with stored numbers. That no other state can converge, and that the trajectory does not depend on the aircraft model, are statements about all aircraft models and all solutions of the nonlinear system.", "anchors": ["openconcept/mission/profiles.py:70-187", "openconcept/mission/phases.py:965-1010", "openconcept/examples/minimal.py:31-102"]}
{"id": "C123", "title": "Fuel burn of the tutorial airplane: the weight history exists, is unique and stays positive", "statement": "In a converged phase with the tutorial airplane that burns fuel (`AircraftWithFuelBurn`) thrust, drag and throttle are those of the current weight, and the weight satisfies the linear system W = TOW - fuel_initial - Simpson(TSFC g (cos gamma/(L/D) + sin gamma) W). Along any trajectory with a level cruise on which the thrust never has to be negative and at most the whole weight would burn in one time step, the mission with linked phases has a converged state; its weights are positive and the fuel burned does not decrease from phase to phase; and there is no other state: trajectory, weight, thrust, throttle and fuel burn of any two states agree.", "quantifier": "For all airplanes, TSFC, profiles, trajectories, numbers of nodes, all converged states", "why_tests_cant": "The weight depends on the fuel burned, which depends on the throttle, which depends on the weight, across nodes that Simpson's rule couples both ways. Existence and uniqueness of the solution for all parameters cannot be seen in single runs of a Newton solver.", "anchors": ["openconcept/examples/minimal_integrator.py:17-99", "openconcept/mission/mission_groups.py:290-330", "openconcept/utilities/math/integrals.py"]}
{"id": "C124", "title": "The jet, hybrid, electric and sized-jet airplane models of the examples are wired to compute what they say", "statement": "In every phase the airplane models of B738.py, HybridTwin.py, ElectricSinglewithThermal.py and B738_sizing.py set up with no complaint and provide what the mission reads. In every converged state over the nodes of a phase: the 737's thrust and fuel flow are twice those of the engine deck at throttle, altitude and Mach number, its drag is the polar with the zero-lift drag of the phase, its weight is MTOW minus the integrated fuel flow, never rising between even nodes when the deck's fuel flow is not negative, and a converged state exists for every flight; the hybrid twin is a leg of the hybrid model with hybridization 1 in the take-off phases and 0 in climb, cruise and descent, so that it burns no fuel in take-off and does not use its battery in flight, and its empty weight is that of the build-up fed with the weights of engine, propellers, motors and generator; the electric airplane is the electric model with state of charge integrated over the phase; the sized 737's thrust and fuel flow are those of the scaled engine times the number of engines that work, its drag has the built-up zero-lift drag with flaps and gear in the take-off phases only, and its weight is the take-off weight less the fuel burned so far.", "quantifier": "For all phases, all numbers of nodes, all inputs, engine decks and propeller maps, and all converged states", "why_tests_cant": "The examples are run at one design and compared with stored numbers. A promotion which misses a variable, a connection to another engine's flow, or a flap drag in cruise can give plausible numbers; which equations the assembled groups solve for all inputs has to be derived from all promotions and connections.", "anchors": ["openconcept/examples/B738.py:13-79", "openconcept/examples/HybridTwin.py:38-129", "openconcept/examples/ElectricSinglewithThermal.py:13-60", "openconcept/examples/B738_sizing.py:31-176"]}
{"id": "C125", "title": "Fuel, charge and weight pass unbroken from phase to phase, and the sized airplane's weights close", "statement": "In every mission class `link_phases` connects the final value of each integrated state of the example airplanes (fuel used, fuel burned, state of charge) to the initial value of the same state in the next phase, and makes no other connection for them. Hence in every converged mission of the Caravan, King Air, TBM 850, Boeing 737-800 and hybrid twin the weight is the take-off weight at brake release (or at the start of the climb), has no jump between consecutive phases, and at the end of the last phase is the take-off weight less the fuel of all phases flown, reserves included; the state of charge of the hybrid and of the electric airplane is continuous in the same way. For the 737 such a converged mission exists for every flight. In the converged `B738SizingMissionAnalysis` the take-off weight is the sum of empty weight, payload and the fuel of the complete mission; the empty weight is that of the jet build-up for the design variables with tail areas from the volume coefficients, landing weight 0.8 MTOW and the mission fuel as fuel capacity; the mission is given exactly these tail areas, wetted areas and lift coefficient in its units; and the airplane ends the loiter with exactly its empty weight and payload. For every design, take-off weight and mission fuel the outer group has a converged state.", "quantifier": "For all mission classes, all numbers of nodes 2k+1, all designs, options, engine decks and propeller maps, and all converged states", "why_tests_cant": "Tests compare the totals of single runs with stored numbers. A wrong or missing link, a phase counted twice, a weight in the wrong unit or a tail area handed on unconverted would change the stored number only once. That no mission class misses a link and that weights close for all designs concerns all setups and all solutions of the coupled system.", "anchors": ["openconcept/examples/B738_sizing.py:148-412", "openconcept/mission/mission_groups.py:77-122", "openconcept/mission/mission_groups.py:290-446", "openconcept/mission/profiles.py", "openconcept/examples/B738.py:30-79", "openconcept/examples/HybridTwin.py", "openconcept/examples/TBM850.py:88-111"]}
{"id": "C126", "title": "The thermally managed hybrid twins: coolant loop, temperatures, weights and margins over a whole mission", "statement": "In every phase the airplane models of HybridTwin_thermal.py and HybridTwin_active_thermal.py set up with no complaint below their design variables. In every converged state over the nodes of a phase the coolant (0.1 kg/s) runs through battery, motors and heat exchanger and back through the reservoir (or through the refrigerator's cold and hot sides), the temperatures of battery, motors and reservoir are the Simpson integrals of their heat balances, the power train balances and takes the share `hybridization` from the battery (plus the refrigerator's power), the drag of the duct is added to the polar, heat exchanger and coolant are added to the empty weight, and `area_constraint <= 0` says exactly that at some node the nozzle is at least as large as the heat exchanger. `link_phases` hands charge, temperatures and fuel, and nothing else, to the next phase, so over the whole mission they are continuous and start at the given values (temperatures given in degC arrive in K). `MTOW_margin >= 0` says exactly that the airplane lands with at least the empty weight of the cruise model, battery and payload, and the objective is fuel plus a hundredth of the take-off weight, for all three hybrid twins. The empty weight of the refrigerated twin leaves out the refrigerator, and its nozzle area variable does not reach the duct.", "quantifier": "For all phases, numbers of nodes, design variables, maps and flights, and all converged states (heat exchanger without fouling)", "why_tests_cant": "The claim is about every converged state of a model with over two hundred promoted and connected variables in three levels of groups; regression tests pin a few numbers of one mission and would not notice a state that is not handed on, a unit lost on the way or a weight left out.", "anchors": ["openconcept/examples/HybridTwin_thermal.py:46-247", "openconcept/examples/HybridTwin_active_thermal.py:54-252", "openconcept/examples/HybridTwin.py:26-205", "openconcept/propulsion/systems/thermal_series_hybrid.py", "openconcept/mission/mission_groups.py:290-330"]}
{"id": "C127", "title": "The refrigerated hybrid single aisle is wired as its components require, in every phase and over the mission", "statement": "In any converged state of HybridSingleAisleModel (any phase, any node count): thrust and fuel flow are those of two engines, each fed with the shaft power of its motor; the electric load of a side is that of motor, fault protection (0.5 % of the motor's power), heat pump and both coolant pumps, and discharges the side's battery; the coolant of motor, fault protection and battery runs through its own heat exchanger, the battery's through the heat pump; the duct of motor and fault protection is slowed and heated by both exchangers, the fault protection's in front; empty weight counts both sides; weight and margin follow from the take-off weight. Fuel, charge and the temperatures of motor and battery are the integrals of these rates over each phase, are handed from phase to phase (and nothing else is) and are continuous over the mission. The duct takes the frontal area of the motor's exchanger only, which is that of the other exchanger only if their hot channels have equal heights.", "quantifier": "all missions (ground roll, reserve, takeoff variants), all numbers of nodes, all values of inputs and options, all converged states", "why_tests_cant": "The example's regression test compares one optimised mission with stored numbers: a connection to the wrong sibling (the other exchanger, the other loop, the other pump), a missing factor for the second side or a state that is not handed on only changes the numbers. The claim is about all phases, nodes and design variables.", "anchors": ["openconcept/examples/N3_HybridSingleAisle_Refrig.py:35-364", "openconcept/examples/aircraft_data/HybridSingleAisle.py:117-165", "openconcept/mission/mission_groups.py:113-222", "openconcept/thermal/hose.py:43-82"]}
{"id": "C128", "title": "DVLabel passes values through with correct derivatives, and its constructor changes the caller's lists", "statement": "A DVLabel built from lists [input, output, value, units] is accepted by OpenMDAO at setup, copies each input (scalar or array of any shape) to its output, and the derivatives it declares are the true ones: identity in its own input, zero in every other input. The constructor appends the size of the value to each of the caller's lists; building a second DVLabel from the same unchanged lists gives the same component. It does not hold that the lists may be reused with a value of another size: the second DVLabel declares the size of the first, so that setup is refused (smaller value) or derivatives of the further entries are zero although the values depend on them (larger value).", "quantifier": "all lists of labels with distinct outputs, all shapes and values", "why_tests_cant": "The test builds one label per test from fresh lists with one or two sizes; the side effect on the caller's list and the size that is read back from position 4 only matter for a reused list of another size, and the claim about the derivatives is about all sizes and all pairs of variables.", "anchors": ["openconcept/utilities/dvlabel.py:28-63"]}
{"id": "C129", "title": "Section indices select exactly the panels between them", "statement": "For WingAreaFromSections and WingMACFromSections with indices 0 <= idx_sec_start <= idx_sec_end < num_sections, the area is the sum over exactly the panels from the start to the end section, on both sides of the wing, between the two chord fractions; without an end index the selection runs to the root. Areas of adjacent regions and of adjacent chord fractions add up, and the mean aerodynamic chord of a region is the area weighted mean of those of its parts. Indices outside this range are not rejected, although the documentation says that negative ones are not accepted: idx_sec_end=-1 gives area and mean chord zero for every wing, and an end index beyond the root is taken as the root.", "quantifier": "all numbers of sections, all section chords and locations, all indices, all chord fractions", "why_tests_cant": "The tests compare a handful of wings with two or three sections with numbers; an off-by-one in the inclusive end index that the numbers do not show, or a panel counted twice where two regions meet, is a statement about all indices and all wings.", "anchors": ["openconcept/geometry/wing_planform.py:254-289", "openconcept/geometry/wing_planform.py:328-394"]}
{"id": "C130", "title": "Which surface options are refused", "statement": "VLMDataGen and OASDataGen accept a surf_options dictionary exactly if it has the keys of the dictionary of the first component set up in the process and the same values up to numpy's broadcasting; a dictionary with other keys always gets the documented ValueError (never a KeyError), equal dictionaries in any key order are always accepted. The first dictionary stays for the life of the process, whatever problems and failed setups follow. Differently valued dictionaries are not always refused: an array of equal entries accepts the single number in its place, but not the other way round, where numpy's ambiguous truth value is raised instead of the documented error.", "quantifier": "all dictionaries, all sequences of setups in a process", "why_tests_cant": "The check is a class level state over all components and problems of the process with short circuit and array truth values; tests try one differing dictionary.", "anchors": ["openconcept/aerodynamics/openaerostruct/drag_polar.py:462-481", "openconcept/aerodynamics/openaerostruct/aerostructural.py:404-423"]}
{"id": "C131", "title": "The printed weights belong to one airplane", "statement": "The weights that show_outputs of the hybrid twin prints add up: take-off weight = empty weight + fuel + battery + payload + margin. This holds if the structural factor is the same in climb and cruise, and fails with the values of the example's set_values for every airplane whose structure weighs something: the factor 2 is set in the cruise, whose empty weight the margin uses, while the empty weight of the climb is printed, with the default 1.6; 0.4 times the weight of the structure is missing. In the turboprop examples the factor is set in the climb, whose empty weight is printed; that of every other phase is lower by 0.07 times the weight of the structure.", "quantifier": "all airplanes (weights of the components), all take-off weights, fuel burns, batteries and payloads", "why_tests_cant": "The regression tests of the examples compare single variables with stored numbers and never their sum; both empty weights are as computed.", "anchors": ["openconcept/examples/HybridTwin.py:185-201", "openconcept/examples/HybridTwin.py:242", "openconcept/examples/HybridTwin.py:256-285", "openconcept/examples/KingAirC90GT.py:233", "openconcept/weights/weights_twin_hybrid.py:18"]}
{"id": "C132", "title": "The vortex lattice jet flies the wing of the airplane, but for its thickness", "statement": "In a converged state of B738AirplaneModel of B738_VLM_drag.py, over any number of nodes, thrust and fuel flow are twice those of the engine deck, the weight is the take-off weight less the integrated fuel flow which is handed to the next phase, the surrogate's lift coefficient at the found angle of attack is the requested one, and the drag is q S (CD + CD_nonwing) with CD of the same surrogate at that angle, the altitude converted from ft to m, and the area, aspect ratio, taper, sweep and twist of the airplane. The airplane's thickness ratio ac|geom|wing|toverc, which the example declares among its variables, does not reach the polar: a converged state stays converged under any change of it, and likewise of the mission's temperature increment, while the polar's own inputs of these names stay open at their defaults.", "quantifier": "all engine decks, training data and surrogates, all numbers of nodes, all inputs and states", "why_tests_cant": "The regression test compares the fuel burn of one airplane, whose thickness happens to be the default of the polar; an input that is not connected gives no error.", "anchors": ["openconcept/examples/B738_VLM_drag.py:42-105", "openconcept/examples/B738_VLM_drag.py:108-147", "openconcept/aerodynamics/openaerostruct/drag_polar.py:216-377"]}
{"id": "C133", "title": "The contours of plot_OAS_force_contours show the force per area", "statement": "plot_OAS_force_contours shows the force per area of the panels: at every point of the mesh, edges and corners included, the value drawn lies between the values of the panels around it, so that a uniform value is drawn as it is; the left wing is drawn as it lies, the right one mirrored, both next to each other; other values of wing and force_dir are refused. But the value of a panel is not its force per area: for every wing whose panels have streamwise sides (all that OpenConcept makes) it is exactly twice that, because the width of the trailing side of the panel is taken as a difference of equal terms.", "quantifier": "all meshes and panel forces with at least one panel each way, all wings with streamwise panels, all options", "why_tests_cant": "Plots are not tested; a test would compare a picture.", "anchors": ["openconcept/utilities/visualization.py:209-270"]}
{"id": "C134", "title": "plot_OAS_mesh draws the whole wing", "statement": "plot_OAS_mesh completes the mesh of the left half, whose last column lies in the plane of symmetry, to the whole wing of 2 n - 1 columns: the given points come first, the points are symmetric with opposite spanwise coordinate, and if the spanwise coordinates of the half increase strictly then so do those of the whole, from tip to tip, no point being drawn twice.", "quantifier": "all meshes with at least one column", "why_tests_cant": "Plots are not tested; the reversed slice is right for every number of columns only by an index argument.", "anchors": ["openconcept/utilities/visualization.py:127"]}
{"id": "C135", "title": "plot_trajectory_grid draws every variable once and saves every page", "statement": "With labels and a layout of several rows and columns plot_trajectory_grid draws variable i on page i div (rows columns), row by row, no two variables in one place and none outside the page, and saves every page once and in order. It succeeds exactly then (or with no variable and nothing to save): without y_labels, whose default is None, with a single row or column and when saving without variables it raises an exception.", "quantifier": "all layouts, all numbers of variables, with and without saving and labels", "why_tests_cant": "Plots are not tested; the examples pass labels and the default layout.", "anchors": ["openconcept/utilities/visualization.py:60-101"]}
{"id": "C136", "title": "The contour plots of the engine decks show what their titles and labels say", "statement": "With plot=True, CFM56, N3 and N3Hybrid draw contour plots whose value at every point is the quantity named in the title (thrust, fuel flow, hourly specific fuel consumption, surge margin), evaluated at the inputs named by the axis labels and at the other inputs that the page fixes (full throttle, Mach 0.5, Mach 0.8 at 33000 ft, 1000 kW or no hybrid power), whatever the deck is.", "quantifier": "all decks (functions of throttle, altitude, Mach number and hybrid power), all figures, all plotted points", "why_tests_cant": "The plots are never drawn in the tests, and a picture with plausible contours does not reveal which array it was given.", "anchors": ["openconcept/propulsion/cfm56.py:92-132", "openconcept/propulsion/N3.py:146-267", "openconcept/propulsion/N3.py:360-433"]}
{"id": "C137", "title": "compare_thrust_decks compares the decks at equal thrust", "statement": "compare_thrust_decks draws, wherever its balance converges and the N3 has thrust, the ratio of the fuel flows of N3 and N3Hybrid at the same altitude, Mach number and thrust without hybrid power; the figures titled Thrust (lb) are then constantly 1, the figures titled SFC show the same numbers as the fuel flow figures, and the figure titled M=0.8 is computed at Mach 0.5.", "quantifier": "all pairs of decks, all solvers, all plotted points at which the balance converges", "why_tests_cant": "The script is not run by any test, and its result depends on trained surrogates and a Newton solver.", "anchors": ["openconcept/propulsion/N3.py:437-531"]}
{"id": "C138", "title": "plot_trajectory draws every variable of every phase at its own position", "statement": "plot_trajectory makes one figure for each variable, in the given order, with the values of the phases one after the other in the given units, the label of the variable (its name if no labels are given) and the label of the abscissa. It succeeds exactly if there is a phase, every variable exists in every phase, units and labels suffice and every variable has as many values in all as the abscissa; if the numbers agree in every phase, each value is drawn at the abscissa of the same node of the same phase.", "quantifier": "all problems, all lists of phases, variables, units and labels", "why_tests_cant": "Plots are not tested; a figure with a shifted phase looks like a trajectory.", "anchors": ["openconcept/utilities/visualization.py:10-35"]}
{"id": "C139", "title": "The sweeps of the hybrid twin examples run every case once, survive failures and can be continued", "statement": "The sweeps over specific energy and design range at the end of HybridTwin.py, HybridTwin_thermal.py and HybridTwin_active_thermal.py handle every case once and in order: a failed optimization does not end the sweep, a case recorded in an earlier run is skipped, only successful cases are recorded, and in the thermal examples each case starts from the last one that succeeded.", "quantifier": "all lists of cases, all results of the optimizations, all contents of the directory, with and without log files, on Windows and elsewhere", "why_tests_cant": "The sweeps are not tested (the comment says so); the behaviour depends on the sequence of failures, on the files left by earlier runs and on the operating system.", "anchors": ["openconcept/examples/HybridTwin.py:358-490", "openconcept/examples/HybridTwin_thermal.py:441-604", "openconcept/examples/HybridTwin_active_thermal.py:408-571"]}
