# Formal model of OpenConcept: design

The subject is `mdolab/openconcept` as found in `/repo` (Python; OpenMDAO components).
The model and all proofs are in Lean 4 under `lean/Verif/`.

## Trusted base

* Lean 4.33.0's kernel. The elaborator, `simp`, `ring`, `norm_num`, `linarith`, `positivity`, `field_simp`
  only produce terms which the kernel re-checks.
* Axioms: only the three standard ones, `propext`, `Classical.choice`, `Quot.sound`
  (every theorem over the reals uses them through Mathlib). No axiom is added, there is no `sorry`,
  `admit`, `native_decide`, `bv_decide`, `implemented_by` or `unsafe`.
* Mathlib (definitions of the reals, `HasDerivAt`, matrices, `rpow`, `exp`, ...), used as a library.
* The reading of the Python source. Nothing ties the model to the code except the citations
  (`file:lines`) in the comment of each definition. The code was not run.

## Modelling conventions

* **Numbers.** numpy float64 arithmetic is modelled by exact real arithmetic. Rounding, overflow and
  underflow are not modelled. Where NaN is the observable effect (0/0, negative base with a
  fractional power) the model returns `Option ℝ` with `none` for NaN, and `none` propagates.
  Python `x ** p` with a real exponent is `Real.rpow`; for a negative base numpy returns NaN, so
  theorems that use it assume a positive base, or use the `Option` model.
* **Components.** An OpenMDAO explicit component is a pair of functions on an input record,
  `compute` and `partials`; vectorised components act node by node, so their model is the node
  function (declared row/column patterns that are `arange(n)` / `zeros(n)` are noted in the comment);
  components that mix nodes (integrators, differentiators, vector utilities, meshes) are modelled on whole vectors.
* **Partials.** "The partial is correct" is always `HasDerivAt (fun x => (compute {i with a := x}).out) (partials i).out_a i.a`
  with Mathlib's derivative, i.e. a statement about limits, not about a formula.
* **Exceptions** are values (`Except String`/an error inductive).
* **Objects with state** (caches, class-level dictionaries, counters) are state machines with a step function;
  properties are proved for every finite history by induction.
* **OpenMDAO itself** (solvers, drivers, arrays) is not modelled, except for promotion, connections and unit conversion
  in `Model/Wiring.lean` (C114), which is our reading of OpenMDAO's documentation and thus trusted; where a
  property needs it (a converged solver) the converged state is a hypothesis: residual = 0.
  Units are assumed to be converted to the declared ones on the component's boundary.
* **Not modelled**: Kriging/SMT surrogates and their fits, OpenAeroStruct itself, what matplotlib draws, the run scripts of the
  examples (their analysis groups are modelled, C92, C93),
  `numpy`/`scipy` storage formats except where a property is about them (C06).

## Properties: what is modelled and how it is proved
* **C01** Simpson integrator is exact for quadratic rates. Verif/Integrals: increments matrix over a field, cumulative sum; induction over nodes. Theorems on polynomials with arbitrary coefficients.
* **C02** BDF3 integrator is well defined and reproduces cubics. Verif/Bdf3: banded matrix rows as in the code for arbitrary n; nonsingularity by showing A y = 0 has only y = 0 (3x3 head block, then forward recursion); exactness by residual = 0 and uniqueness.
* **C03** Integrators start at the initial value and are affine in their data. same model; linear algebra lemmas.
* **C04** Multi-segment integration is continuous and skips uncounted segments. block matrix with segment index; proof by rewriting block rows.
* **C05** Integrator derivatives are exact. HasDerivAt of the model's output in each argument (the map is bilinear).
* **C06** Integrator time partials always fit the declared sparsity. model stored-data vectors as filtered lists; exact criterion for the length to fit; negation with a witness for 'bounds', positive result for dt and duration.
* **C07** Nonnegative rates give a nondecreasing state. weights nonnegative at even rows (induction); counterexample vector for odd rows.
* **C08** Adding an integrand is validated and named deterministically. decision logic; all cases.
* **C09** Finite-difference differentiation is exact on low-degree polynomials. stencils as rows, polynomial identity per row.
* **C10** Finite-difference derivatives: segment independence and exact partials. block structure; HasDerivAt.
* **C11** Differentiating an integrated history recovers the rate. composition of 1/2 and 9.
* **C12** AddSubtractComp computes the scaled sum with broadcasting. list fold model of setup and compute.
* **C13** AddSubtractComp declared Jacobian is the true Jacobian. assembled COO matrix versus derivative; positive for vec_size = length shapes, negation for the (1, length) broadcast.
* **C14** Repeating setup leaves AddSubtractComp unchanged. state machine on the stored keyword dictionaries; negation with witness, partial: sizes/names are preserved; idempotent when no units are given.
* **C15** ElementMultiplyDivideComp computes the product/quotient and its derivatives. product over a list; derivative via Finset/ list product rule.
* **C16** ElementMultiplyDivideComp derives consistent output units. unit string builder; negation with witness; partial for lists whose first unit is present.
* **C17** Concatenate and split are mutually inverse. list append/take/drop with offsets; round trip both ways.
* **C18** Max/Min components: value and derivative. finite sup; HasDerivAt when unique; non-differentiability at ties.
* **C19** SelectorComp picks exactly one input per node. round-half-even model; masks; error value.
* **C20** LinearInterpolator hits its end points and is affine. affine formula.
* **C21** Automatically named sum/product components never collide. counter state machine; injectivity of the name function; induction over call list.
* **C22** promote_mult honours the units requested for its inputs. parameter-flow model; negation with witness, partial: holds when units are not requested.
* **C23** Every tagged rate is integrated exactly once with its declared state data. fold over tags.
* **C24** Linking phases makes every shared state continuous. connection-list model; induction over chain; failure cases as values.
* **C25** Balanced-field decision speed solver: meaning of a zero residual. residual by cases; exact zero-set theorem.
* **C26** Ground speed, climb angle kinematics. real analysis by cases.
* **C27** Equations of motion of the take-off phases. real analysis, clipping.
* **C28** Steady-flight lift coefficient balances weight. algebra.
* **C29** Take-off transition/climb geometry. trigonometry, continuity at the switch.
* **C30** Flipping a vector twice is the identity. Fin.rev.
* **C31** Mission and reserve phases: range and altitude bookkeeping. residual equations of the balances + integrator model; algebra on the converged state.
* **C32** Standard atmosphere temperature and pressure are continuously differentiable in altitude. blend polynomial coefficients from the 4x4 Hermite solve; HasDerivAt at all altitudes including the joins by gluing one-sided derivatives.
* **C33** Exactly one layer formula applies at each altitude. case analysis.
* **C34** Atmosphere partials reflect the current inputs. state machine with cached masks; negation with witness for interleavings, partial for matched calls.
* **C35** Pressure is defined and positive at all flight altitudes. Option-valued model; positivity; monotonicity through derivative sign; NaN theorem above the singular altitude.
* **C36** Speeds: equivalent/true airspeed round trip, Mach and dynamic pressure consistency. algebra with sqrt.
* **C37** Power splitter conserves energy. algebra by cases.
* **C38** Motor and generator conserve energy. algebra.
* **C39** Turboshaft produces proportional power, fuel flow and emissions. algebra.
* **C40** Propeller thrust model. piecewise; continuity; HasDerivAt.
* **C41** Every documented blade count is usable. decision logic; negation for 3 blades.
* **C42** Engine-out flag removes exactly the failed propulsor. wiring model.
* **C43** Series hybrid power balance. algebra on the converged state.
* **C44** Rubberized turbofan scales thrust and fuel flow linearly. algebra.
* **C45** Battery energy and charge bookkeeping. with the Simpson model.
* **C46** LH2 tank geometry and fill bookkeeping. algebra, derivatives.
* **C47** Vacuum tank wall thickness resists both failure modes. max of two rpow expressions.
* **C48** Thermal components conserve energy. algebra.
* **C49** Cooling effectiveness respects the second law. exp inequalities.
* **C50** Flow split and combine conserve mass and enthalpy. algebra, convex combination.
* **C51** Chiller: selector and heat pump balance. algebra, softmin bounds.
* **C52** Heat pipe thermal resistance depends on every documented option. independence of wick conductivity proved (negation).
* **C53** Heat exchanger overall conductance accounts for both fouling factors. negation (cold fouling has no effect), partial for zero fouling.
* **C54** NTU-effectiveness heat exchanger conserves energy and obeys the second law. exp inequalities.
* **C55** Offset strip fin geometry and fin efficiency. algebra and tanh bounds.
* **C56** Duct thermodynamics: isentropic round trips and station relations. rpow round trips.
* **C57** Duct speed of sound derivative is consistent with its clipped output. HasDerivAt for T>0, negation for T<0.
* **C58** Duct heat addition conserves energy and mass. algebra.
* **C59** Pump, hose and coolant-loop relations. algebra, monotonicity.
* **C60** Parabolic polar, lift and stall speed are consistent. algebra, AM-GM.
* **C61** Jet-transport parasite drag buildup partials. HasDerivAt; inexactness of the constant.
* **C62** CLmax estimates: exact partials, monotonicity. HasDerivAt.
* **C63** Wave drag does not depend on the bookkeeping area. closed form; negation with witness; partial.
* **C64** Trapezoidal planform mesh realises the requested planform. sums over mesh panels by induction.
* **C65** Section planform mesh: requested area, cache transparency. cache state machine; scaling algebra.
* **C66** Cosine spacing and section interpolation. cosine formulas; counting lemma.
* **C67** Aerodynamic training data cache never serves stale data. state machine with failure events; negation with witnesses, partial for failure-free single-grid histories.
* **C68** Training data is stored in grid order. index arithmetic bijection.
* **C69** Wing geometry components are mutually consistent. algebra, interval integrals.
* **C70** Section based area, MAC and sweep are invariant under refinement and bounded. list induction.
* **C71** Tail sizing reproduces the requested volume coefficients. algebra.
* **C72** Turboprop weight buildup: exact partials and total. HasDerivAt of power laws.
* **C73** Jet-transport and BWB weight buildup: exact partials, monotonicity and total. HasDerivAt of power laws.
* **C74** Operating cost is conserved across its breakdown. linear algebra.
* **C75** A phase knows all its states and drives all its integrators with one duration.
* **C76** Steady climb angle balances excess thrust.
* **C77** Backward shooting of the rejected take-off equals forward integration.
* **C78** DVLabel copies inputs to outputs.
* **C79** Every exported propulsion system can be set up.
* **C80** Heat pipe walls, weight, heat limit and warning.
* **C81** Compressible duct: force sign follows from heat and losses, station Mach number is unique.
* **C82** Critical section CL_max is conservative and tight.
* **C83** Variables read from the data dictionary are the addressed entries.
* **C84** Blended wing body parasite drag buildup.
* **C85** Engine deck training data pairs each value with its own operating point.
* **C86** Propeller map tables are well formed and physical.
* **C87** Design point options scale the propeller map.
* **C88** Panel thickness ratios are linear in span.
* **C89** Drag polars return the drag of the angle of attack that carries the requested lift.
* **C90** Optional inputs and documented option types of the drag polars.
* **C91** Operating point and viscosity handed to the aerodynamic analyses.
* **C92** Weight bookkeeping, sizing closure and margins of the example aircraft. Model/Aircraft; list induction over the phases with the integrator model.
* **C93** A steady cruise obeys the Breguet range equation. Model/Breguet; the Simpson recursion is the (2,2) Padé approximant of exp, error bound by calculus (Proof/Pade).
* **C94** Thermally managed electric propulsion systems conserve energy and use their design variables. Model/ElectricThermal; wiring lists plus the quadrature of the phase, induction over the chain of heat sinks.
* **C95** Flight conditions computed by ComputeAtmosphericProperties are consistent. Model/Atmosphere (`atmosEas`, `atmosTas`); derivative sign of the density, with rational bounds on the Hermite cubic.
* C96, C97: `Model/DuctGroup.lean` composes the station, nozzle, force and exchanger models into the two duct groups; converged states are the conjunction of all residuals (one node).
* **C98** Integrators are stable and converge. `Proof/Taylor.lean` bounds Taylor remainders of derivative chains, `Proof/Convergence.lean` rewrites both integrators as recursions and bounds local defects and their accumulation, `Props/Convergence.lean` combines them; convergence for continuous rates by polynomial approximation and stability.
* **C99** Finite-difference accuracy. `Props/FiniteDiff.lean`: Taylor bounds on every row of both stencils.
* **C100**, **C101** Components with thermal mass. `Model/ThermalMass.lean` composes rate and integrator of the four groups; `Proof/Relax.lean` solves the implicit Simpson equations of a linear relaxation interval by interval (2x2 determinant, Padé factors), `Props/ThermalMass.lean` instantiates it.
* **C102**, **C103** Take-off. `Model/Takeoff.lean` assembles the ground rolls, both rotations, the climb-out and the V1 solver around an arbitrary aircraft model; `Props/Takeoff.lean` proves the composition, constructs converged take-offs, and compares true and equivalent airspeeds.
* **C104** Energy accounting of the series hybrid twin. Model/HybridTwin (HybridTwin.py 49-128) over the propulsion (C43), battery (C45), weight (C92) and take-off (C102) models; linearity of the integrator, induction over the list of phases.
* **C105** Point analysis. Model/PointAnalysis (integrals.py 742-784, 923-1123) adds the case distinction on the number of nodes, the options and the exceptions to Model/Integrals; induction over the chain of phases.
* **C106** Vectorised components. Model/Vectorized: a generic output with declared rows/columns (arange or zeros) and its COO assembly, instantiated with the lift, polar, selector, pump, outlet, heat and manifold components; the assembled matrix times any direction is the derivative along it.
* `Model/Turboprop.lean`, `Props/Turboprop.lean` (C107): the aircraft models of TBM850.py, Caravan.py, KingAirC90GT.py and ElectricSinglewithThermal.py as functions seen by the mission phases, the linking of the integrated state along the take-off, abort and flight branches, and the King Air's empty weight. Propeller maps are arbitrary functions; the flight phases give arbitrary throttles and conditions.
* `Model/WingSizing.lean`, `Props/WingSizing.lean` (C108): B738_aerostructural.py's weight component with the wing exchange, the Raymer estimate, and the manoeuvre point (flight condition, required lift, balance); OpenAeroStruct's lift coefficient is an arbitrary function of the angle of attack.
* `Model/DerivComp.lean`, `Props/DerivComp.lean` (C109): options, variable declarations, units and named time steps of the component `FirstDerivative`, on top of `Model/Derivatives.lean`.
* `Model/UnitsCore.lean`, `Model/Units.lean`, `Proof/Scale.lean`, `Props/Units.lean` (C110): dimensions of unit strings, the declarations (inputs, options, outputs and units) of 72 components together with their compute models, rules of dimensional analysis. The table of unit strings and the declarations are part of the trusted base (declarations were extracted from the sources by a script). `degC` stands for a temperature above freezing: offsets are not modelled. Not covered: dimensionless components, regressions in fixed units (weights, propeller weight), tables, the standard atmosphere.
* `Model/Sparsity.lean`, `Proof/Sparse.lean`, `Props/Sparsity.lean` (C111): shapes and `declare_partials` calls of the same 72 components (extracted from the sources by a script; the tables are trusted), vectorised compute, completeness of the declared sparsity. `Model/Sparsity2.lean`, `Props/Sparsity2.lean`: 18 further components that do not use the wildcard for all pairs, including implicit ones (residuals). The components not listed declare all pairs densely or have their Jacobian proved elsewhere.
* `Model/ConcatComp.lean`, `Props/ConcatComp.lean` (C112): concatenation and split components with several relations, constructor, `add_relation`, `setup`, `compute`, partials.
* `Props/SumEquations.lean` (C113): the sum and product equations of the airplanes, weights and drag models pass the checks of C20/C21's components for every number of nodes and declare these names, sizes and units.
* `Model/Wiring.lean`, `Model/WiringDucts.lean`, `Props/WiringDucts.lean` (C114): what `add_subsystem` with promotion, `connect` and `set_input_defaults` do (resolution of sources, unit conversion, complaints) as computable tables, and the duct and heat exchanger groups transcribed into them; setup is checked by evaluating the closed table in the kernel (a finite object of the program, not a sample of inputs), and the meaning of the group is proved for every state and all options.
* `Model/WiringSystems.lean`, `Props/WiringPropulsion.lean`, `Props/WiringHybrid.lean`, `Props/WiringThermal.lean`, `Props/WiringElectric.lean` (C114): the same for the atmosphere, propeller, turboprop, battery, hybrid, all-electric, cooling, heat pump, heat pipe and hydrogen tank groups. The link tables in `Proof/WiringSystems.lean` are evaluated once per group; the theorems about converged states then read the component equations of C110 through them.
* `Model/WiringMission.lean`, `Props/WiringPhases.lean`, `Props/WiringPhases2.lean` (C115): the phases of phases.py as groups over `m + 1` nodes: components node by node as in C114, and integrators (with the variables that the model of C08 registers), interpolators, reversed vectors and the aircraft model as relations between the nodes. Link tables are in `Proof/WiringMission.lean`; the theorems recover the hand-assembled phases of C31, C102, C103 from the connections. `C115_ground_exists` and two examples show that the states exist.
* `Model/WiringProfiles.lean`, `Props/WiringProfiles.lean` to `WiringProfiles4.lean` (C116): `profiles.py` as a group whose subsystems are the interfaces of the phases of C115. `C116_faces` compares the interfaces with the phases, `C116_linked` runs the model of `link_phases` on them. `C116_mission` and `C116_takeoff` recover the missions of C31 and the take-off of C102; `C116_reachable` exhibits a converged mission for every cruise altitude and duration.
* `Model/WiringWeights.lean`, `Props/WiringWeights.lean`, `Props/WiringWeightsJet.lean` (C117): the components of the four empty weight groups with their `setup` declarations, and the groups. `C117_single`, `C117_twin`, `C117_jet` and `C117_bwb` say that the converged states are exactly those of the airplane of C72 and C73; `C117_turboprop_solution`, `C117_jet_solution` and `C117_jet_unique` give existence and uniqueness.
* `Model/WiringDrag.lean`, `Props/WiringDrag.lean` (C118): the drag build-ups of the jet transport (four configurations) and of the blended wing body (two), and the rubberized turbofans (two decks, two fuels) as groups. The converged states are exactly those of the formulas of `Model/Aero.lean`, `Model/CriticalSection.lean` and `Model/Propulsion.lean`. Engine decks are arbitrary functions of their inputs.
* `Model/StringKey.lean`: a second decision procedure for equality of strings (comparing numbers made from the characters), used as a local instance so that the kernel evaluates `problems`, `links` and `src` faster. It is proved equivalent to equality and changes no statement.
* `Model/WiringAirplanes.lean`, `Props/WiringAirplanes.lean` (C119): the airplane models of the Caravan, King Air and TBM 850 as groups in a phase.
* `Proof/Feedforward.lean`, `Proof/FeedSystems.lean`, `Proof/FeedComponents.lean`, `Props/Feedforward.lean` (C120): existence and uniqueness of converged states of groups whose connections go forward; also the source of the examples for C119.
* `Model/RunOnce.lean`, `Props/RunOnce.lean` (C121): one pass of OpenMDAO's default solver. A nested group is taken as converged when it is run.
* C122 (`Props/Trajectory*.lean`, `Model/Tutorial.lean`, `Props/Tutorial*.lean`): the wiring theorem C116 reduces a converged mission to a climb, cruise and descent which follow the prescribed profile (`Trip`). Durations of climb and descent follow from the altitudes; a longer cruise arrives farther away (monotone Simpson sums, true airspeed increasing with altitude by C95), so the range fixes the duration. Existence: states of steady phases are built from a trajectory and an aircraft model (`flight_exists`), three of them form a `BasicMission` (`basic_exists`).
* C123 (`Props/FuelBurn.lean`): the weight equation is solved two steps at a time; the determinant of each pair of Simpson equations is positive for nonnegative rates (`pair_det`), so that the linear system is injective, hence has one solution. Positivity from the explicit solution of a pair.
* `Model/WiringAirplanes2.lean`, `Props/WiringAirplanes2.lean` (C124): the airplane models of the 737, the hybrid twin, the electric single and the sized 737. Promotion by `"*"` promotes every variable of the subsystem, also those with a dot in the name (as OpenMDAO's pattern matching on promoted names does).
* `Model/WiringSizing.lean`, `Props/WiringSizing.lean`, `Props/WiringSizing2.lean` (C125): the states of the airplane models along a mission (`link_phases`), and the outer group of `B738_sizing.py`. The mission inside the outer group is represented by its face (inputs `ac|...` and the fuel of the loiter phase); `C125_faces` compares it with the phases.
* `Model/WiringHybrids.lean`, `Props/WiringHybrids.lean`, `Props/WiringHybrids2.lean`, `Props/WiringHybrids3.lean` (C126): the thermally managed hybrid twins of `HybridTwin_thermal.py` and `HybridTwin_active_thermal.py` as groups over the nodes of a phase, their states along a mission, and the outer groups (`margins`, `aug_obj`, initial temperatures) of the three hybrid twins. The mission inside the outer group is represented by its face; values set by the run scripts (`set_values`, e.g. `structural_fudge = 2.0` for the cruise model only) are not modelled.
* `Model/WiringN3.lean`, `Props/WiringN3.lean`, `Props/WiringN3Phase.lean` (C127): the refrigerated hybrid single aisle of `N3_HybridSingleAisle_Refrig.py` as a group over the nodes of a phase (523 variables of 31 subsystems, table in `Proof/WiringN3.lean`), its states along a mission. Not modelled: the analysis group beyond its design variables (lines 374-431) and the script.
* `Model/Label.lean`, `Props/Label.lean` (C128): `DVLabel` as an object whose constructor appends to the caller's lists; OpenMDAO's check of declared rows against the size of a variable is part of `setup`.
* `Model/SectionIdx.lean`, `Props/SectionIdx.lean` (C129): setup and compute of the area and mean chord components on raw arrays with Python's slice rules; the sums are turned into sums over the panels between two indices (`panels`), from which additivity follows. The x location of the mean chord and the sweep on the selected sections are in C69 and C70.
* `Model/SurfOptions.lean`, `Props/SurfOptions.lean` (C130): the check of the surface options against the class attribute with Python's short circuit and numpy's comparisons, which `Model/Training.lean` abstracts to equality. Values are numbers and one dimensional arrays; `deepcopy` is invisible in a model of values.
* `Model/PrintedWeights.lean`, `Props/PrintedWeights.lean` (C131): the structural factor that `set_values` of the examples sets in one phase, and the weights that `show_outputs` prints; the empty weight groups are those of C72.
* `Model/WiringVlm.lean`, `Props/WiringVlm.lean` (C132): the aircraft model of B738_VLM_drag.py as a group, with the drag polar as one system whose training data are arbitrary functions of what the polar reads; what reaches the drag and what does not.
* `Model/Plots.lean`, `Props/Plots.lean` (C133-C135): the computations of visualization.py: pressures at the points of the mesh, the whole wing, the pages of the grid of trajectories. The arrays given to matplotlib, not the pictures.
* `Model/DeckPlots.lean`, `Props/DeckPlots.lean` (C136, C137): the contour plots of the engine decks and `compare_thrust_decks`: the loops that set inputs of a problem, run it and store outputs, and the arrays, labels and titles of the figures. A deck is an arbitrary function; the balance of `compare_thrust_decks` leaves an arbitrary throttle, and a hypothesis says where it has converged.
* `Model/PlotTrajectory.lean`, `Props/PlotTrajectory.lean` (C138): `plot_trajectory` of visualization.py with its exceptions; `prob.get_val` is an arbitrary partial function of name and unit.
* `Model/SweepScript.lean`, `Props/SweepScript.lean` (C139): the sweeps at the end of the hybrid twin examples as a state machine over the files of the directory, the last successful case and a log; optimizations are arbitrary functions with three results. When the recorder creates its file and which exceptions Windows raises are assumptions stated in the model.
* `Props/AutoComps.lean` (C21, C22, C24): from a sequence of `promote_add`/`promote_mult` calls to the values that the created components publish; the list of all links of a trajectory; states to skip.

## Code covered, file by file

Functions and methods (without `initialize`, whose options appear as fields or hypotheses) of which at least one line is cited by a
definition of `Verif/Model`, the modules that cite most lines of the file (four at most), and the functions that no definition cites.
Tests are left out. A function counts as covered also if only part of it is modelled; the comment of the definition says which part.

| file (openconcept/) | covered | models | not modelled |
|---|---|---|---|
| aerodynamics/CL_max_estimation.py | 6 of 6 | Aero, WiringSizing, Sparsity2 | - |
| aerodynamics/aerodynamics.py | 9 of 9 | Vectorized, Aero, Units, Sparsity | - |
| aerodynamics/drag_BWB.py | 1 of 1 | WiringDrag, CriticalSection | - |
| aerodynamics/drag_jet_transport.py | 13 of 13 | Aero, WiringDrag, Sparsity2 | - |
| aerodynamics/openaerostruct/CL_max_critical_section.py | 1 of 1 | CriticalSection | - |
| aerodynamics/openaerostruct/aerostructural.py | 7 of 13 | DragPolar, Training, SurfOptions | `AerostructDragPolar.__init__`, `OASDataGen.__init__`, `Aerostruct.__init__`, `AerostructDragPolarExact.__init__`, `compute_aerodynamic_data`, `example_usage` |
| aerodynamics/openaerostruct/drag_polar.py | 6 of 11 | DragPolar, WiringVlm, Training, SurfOptions | `VLMDragPolar.__init__`, `VLMDataGen.__init__`, `VLM.__init__`, `compute_aerodynamic_data`, `example_usage` |
| aerodynamics/openaerostruct/mesh_gen.py | 12 of 13 | Mesh, DragPolar | `TrapezoidalPlanformMesh.setup` |
| aerodynamics/openaerostruct/wave_drag.py | 1 of 2 | Aero | `WaveDragFromSections.setup` |
| atmospherics/atmospherics_data.py | 5 of 5 | Atmosphere | - |
| atmospherics/compute_atmos_props.py | 1 of 1 | Atmosphere, WiringSystems | - |
| atmospherics/density_comp.py | 3 of 3 | Atmosphere, Units, Sparsity | - |
| atmospherics/dynamic_pressure_comp.py | 3 of 3 | Atmosphere, Units, Sparsity | - |
| atmospherics/mach_number_comp.py | 3 of 3 | Atmosphere, Units, Sparsity | - |
| atmospherics/pressure_comp.py | 3 of 3 | Atmosphere, Sparsity2 | - |
| atmospherics/speedofsound_comp.py | 3 of 3 | Atmosphere, Units, Sparsity | - |
| atmospherics/temperature_comp.py | 3 of 3 | Atmosphere, Sparsity2 | - |
| atmospherics/true_airspeed.py | 6 of 6 | Atmosphere, Units, Sparsity | - |
| costs/costs_commuter.py | 2 of 2 | Geometry | - |
| energy_storage/battery.py | 4 of 4 | Propulsion, WiringSystems, HybridTwin, WiringAirplanes2 | - |
| energy_storage/hydrogen/LH2_tank_no_boil_off.py | 4 of 4 | WiringSystems, Hydrogen, Units, Sparsity | - |
| energy_storage/hydrogen/structural.py | 10 of 10 | Hydrogen, WiringSystems, Units, Sparsity | - |
| examples/B738.py | 2 of 6 | WiringAirplanes2, Aircraft, WingSizing, WiringSizing | `configure_problem`, `set_values`, `show_outputs`, `run_738_analysis` |
| examples/B738_VLM_drag.py | 1 of 7 | WiringVlm, WingSizing | `B738AnalysisGroup.setup`, `configure_problem`, `set_values`, `show_outputs`, `run_738_analysis`, `run_738_optimization` |
| examples/B738_aerostructural.py | 2 of 7 | WingSizing | `configure_problem`, `set_values`, `show_outputs`, `run_738_analysis`, `run_738_optimization` |
| examples/B738_sizing.py | 2 of 5 | Aircraft, WiringSizing, WiringAirplanes2 | `set_mission_profile`, `plot_results`, `run_738_sizing_analysis` |
| examples/Caravan.py | 3 of 3 | Turboprop, WiringAirplanes, WiringSizing, PrintedWeights | - |
| examples/ElectricSinglewithThermal.py | 2 of 6 | Turboprop, WiringAirplanes2 | `configure_problem`, `set_values`, `show_outputs`, `run_electricsingle_analysis` |
| examples/HybridTwin.py | 6 of 8 | SweepScript, WiringAirplanes2, WiringHybrids, PrintedWeights | `configure_problem`, `run_hybrid_twin_analysis` |
| examples/HybridTwin_active_thermal.py | 4 of 8 | WiringHybrids, SweepScript, Aircraft, PrintedWeights | `AugmentedFBObjective.setup`, `configure_problem`, `run_hybrid_twin_active_thermal_analysis`, `show_outputs` |
| examples/HybridTwin_thermal.py | 5 of 8 | WiringHybrids, SweepScript, Aircraft, PrintedWeights | `configure_problem`, `run_hybrid_twin_thermal_analysis`, `show_outputs` |
| examples/KingAirC90GT.py | 3 of 6 | Turboprop, WiringAirplanes, WiringSizing, PrintedWeights | `configure_problem`, `show_outputs`, `run_kingair_analysis` |
| examples/N3_HybridSingleAisle_Refrig.py | 2 of 7 | WiringN3, Aircraft | `configure_problem`, `set_values`, `show_outputs`, `run_hybrid_sa_analysis`, `run_hybrid_sa_optimization` |
| examples/TBM850.py | 3 of 3 | Turboprop, WiringAirplanes, WiringSizing, PrintedWeights | - |
| examples/aircraft_data/B738.py | 0 of 0 | WiringAirplanes2, Aircraft, WingSizing, WiringSizing | - |
| examples/aircraft_data/B738_sizing.py | 0 of 0 | Aircraft, WiringSizing, WiringAirplanes2 | - |
| examples/aircraft_data/HybridSingleAisle.py | 1 of 1 | WiringN3, Aircraft | - |
| examples/aircraft_data/KingAirC90GT.py | 0 of 0 | Turboprop, WiringAirplanes, WiringSizing, PrintedWeights | - |
| examples/aircraft_data/TBM850.py | 0 of 0 | Turboprop, WiringAirplanes, WiringSizing, PrintedWeights | - |
| examples/minimal.py | 2 of 4 | Tutorial, Breguet | `MissionAnalysis.setup`, `setup_problem` |
| examples/minimal_integrator.py | 1 of 2 | Tutorial, Breguet | `MissionAnalysisWithFuelBurn.setup` |
| geometry/wetted_area.py | 3 of 3 | Geometry, Units, Sparsity | - |
| geometry/wing_planform.py | 15 of 15 | SectionIdx, Geometry, Units, Sparsity | - |
| mission/mission_groups.py | 11 of 13 | MissionGroups, WiringN3, WiringAirplanes2, WiringVlm | `PhaseGroup.__init__`, `get_prom_name` |
| mission/phases.py | 31 of 31 | WiringMission, Takeoff, Phases, Breguet | - |
| mission/profiles.py | 4 of 5 | WiringProfiles, WiringMission, Phases, Takeoff | `FullMissionAnalysis.__init__` |
| propulsion/N3.py | 3 of 3 | DeckPlots, Decks, WiringDrag | - |
| propulsion/cfm56.py | 1 of 1 | DeckPlots, Decks, WiringDrag | - |
| propulsion/empirical_data/prop_maps.py | 7 of 8 | Decks, WiringSystems, Sparsity2 | `propeller_map_constant_prop_efficiency` |
| propulsion/generator.py | 3 of 3 | Propulsion, Units, Sparsity, WiringSystems | - |
| propulsion/motor.py | 3 of 3 | Propulsion, Units, Sparsity, WiringSystems | - |
| propulsion/propeller.py | 10 of 10 | Propulsion, Decks, Units, WiringSystems | - |
| propulsion/rubberized_turbofan.py | 1 of 1 | WiringDrag, Propulsion | - |
| propulsion/splitter.py | 3 of 3 | Propulsion, Units, Sparsity, WiringSystems | - |
| propulsion/systems/simple_all_electric.py | 2 of 2 | WiringSystems, ElectricThermal, Turboprop | - |
| propulsion/systems/simple_series_hybrid.py | 3 of 3 | WiringSystems, Propulsion, HybridTwin | - |
| propulsion/systems/simple_turboprop.py | 2 of 2 | Propulsion, WiringSystems | - |
| propulsion/systems/thermal_series_hybrid.py | 2 of 2 | WiringSystems, ElectricThermal, Propulsion | - |
| propulsion/turboshaft.py | 3 of 3 | Propulsion, Sparsity, Units, WiringSystems | - |
| stability/tail_volume_coefficient_sizing.py | 6 of 6 | Geometry, Units, Sparsity | - |
| thermal/battery_cooling.py | 3 of 3 | WiringSystems, ThermalMass, Thermal, Units | - |
| thermal/chiller.py | 12 of 12 | Thermal, Vectorized, WiringSystems, ElectricThermal | - |
| thermal/ducts.py | 46 of 46 | DuctGroup, WiringDucts, Ducts, Units | - |
| thermal/heat_exchanger.py | 36 of 36 | HeatExchanger, Units, Sparsity, WiringDucts | - |
| thermal/heat_pipe.py | 13 of 14 | Thermal, WiringSystems, Units, Sparsity | `QMaxWarning.setup` |
| thermal/hose.py | 4 of 4 | WiringN3, Thermal, Units, Sparsity | - |
| thermal/manifold.py | 6 of 6 | Vectorized, Thermal, Sparsity2, Units | - |
| thermal/motor_cooling.py | 4 of 4 | Thermal, WiringSystems, ThermalMass, Units | - |
| thermal/pump.py | 3 of 3 | Thermal, Sparsity, Units | - |
| thermal/thermal.py | 15 of 15 | WiringSystems, Thermal, ElectricThermal, ThermalMass | - |
| utilities/constants.py | 0 of 0 | Constants | - |
| utilities/dict_indepvarcomp.py | 4 of 4 | DataDict | - |
| utilities/dvlabel.py | 3 of 4 | Label, Utils | `DVLabel.compute_partials` |
| utilities/linearinterp.py | 2 of 2 | WiringMission, WiringSystems, Utils, HybridTwin | - |
| utilities/math/add_subtract_comp.py | 4 of 5 | VectorComps, Wiring | `AddSubtractComp.add_output` |
| utilities/math/combine_split_comp.py | 8 of 10 | ConcatComp, Utils | `VectorConcatenateComp.add_output`, `VectorSplitComp.add_output` |
| utilities/math/derivatives.py | 7 of 7 | Derivatives, DerivComp | - |
| utilities/math/integrals.py | 11 of 11 | Integrals, AddIntegrand, PointAnalysis, WiringSystems | - |
| utilities/math/max_min_comp.py | 5 of 6 | Utils, WiringHybrids | `MinComp.setup` |
| utilities/math/multiply_divide_comp.py | 5 of 6 | VectorComps | `ElementMultiplyDivideComp.add_output` |
| utilities/selector.py | 3 of 3 | Utils | - |
| utilities/visualization.py | 4 of 4 | Plots, PlotTrajectory | - |
| weights/weights_BWB.py | 7 of 7 | WiringWeights, WeightsJet, Weights | - |
| weights/weights_jet_transport.py | 39 of 39 | WeightsJet, WiringWeights, Sparsity2 | - |
| weights/weights_turboprop.py | 24 of 25 | Weights, WiringWeights, Turboprop, PrintedWeights | `NacelleWeight_MultiTurboprop.setup` |
| weights/weights_twin_hybrid.py | 1 of 1 | WiringWeights, Weights, PrintedWeights | - |

## Disagreements between the code and its documentation or the property (found while modelling)

Each is a theorem about the model; the theorem that exhibits it is named.

* C02: `bdf3` with 3 nodes cannot be built (the starting rows have 4 entries).
* C06: the data vector for the time partial of `bounds` (and of `OldIntegrator`) need not fit the declared sparsity.
* C07: a nonnegative rate can give a decreasing state at odd Simpson nodes and at BDF3 node 1.
* C13, C15: for inputs of shape `(1, length > 1)` the declared Jacobian of the sum and product components
  puts the entries in the wrong columns (`C13_broadcast_wrong`, `C15_broadcast_wrong`).
* C14: repeating `setup` of `AddSubtractComp` loses units and descriptions (`C14_units_lost`).
* C16: the derived unit string is malformed when the first input has no unit.
* C18: at a tie `MaxComp`/`MinComp` declare derivative 1 for several entries, where none exists (`C18_tie`).
* C19: an out-of-range selector raises; the docstring promises a warning and zeros (`C19_out_of_range`).
* C22: `promote_mult` ignores `input_units` (`C22_ignored`, `C22_witness`).
* C23: with two tags of one kind on an output the result depends on set iteration order (`C23_order_dependent`).
* C24: linking phases raises for `final_only` and `zero_start` states and links the wrong input when the start
  names differ (`C24_final_only_fails`, `C24_zero_start_fails`, `C24_wrong_start`).
* C25: the docstring of `BFLImplicitSolve` says equal distances make the residual vanish; with V1 closer than
  0.1 m/s below Vr (or above Vr) they do not (`C25_equal_not_enough`).
* C26: when |vs| > Utrue the path angle's sine is set to +1 also in a descent (`C26_fallback_sign`).
* C27: `VerticalAcceleration` clips its output, its partials ignore the clipping (`C27_clipped_wrong`).
* C29: `RobustRotationPhase` declares an option `h_obstacle` it never uses, and mixes 10.66 m and 35 ft
  (`C29_option_ignored`, `C29_height_mismatch`).
* C31: `MissionWithReserve` documents `takeoff|h` as take-off and landing altitude but starts climb and reserve climb
  at an unconnected input with default 0 (`C31_reserve_start_ignored`).
* C34: the atmosphere components' `compute_partials` uses masks stored by the last `compute`; after a `compute`
  in another layer it returns the slope of the wrong formula (`C34_not_current`, `C34_pressure_not_current`).
* C35: above 288.16/0.0065 m (44.3 km) the pressure is NaN, because the masked-out troposphere formula is
  NaN there and `0 * nan = nan` (`C35_nan`), although the stratosphere formula is selected and finite
  (`C35_stratosphere_selected`).
* C40: `PropCoefficients.compute_partials` (propeller.py:283) computes dJ/dUtrue as J/Utrue, which is 0/0 at zero airspeed (start of a takeoff roll); the derivative exists and is 60/(rpm D). Likewise d(thrust)/d(eta) is thrust/eta (propeller.py:231). The thrust coefficient is continuous but has a kink at J = 0.1, so no partial is exact there.
* C41: propeller.py:62-68 uses two consecutive `if` statements, the `else: raise` belonging to the second; a three-blade propeller always raises although its map exists.
* C43: the docstring of the series hybrid systems says the engine throttle matches `power_out_A`; the code connects `power_out_B` to the generator balance (A goes to the battery). The model follows the code.
* C79: simple_series_hybrid.py:177 promotes `fltcond_*`; the propeller's inputs are called `fltcond|...`, so nothing matches and OpenMDAO raises at setup.
* C47: `VacuumWallThickness.compute_partials` (structural.py:357-360) sets the cylinder derivatives to zero for lengths below 1e-6 m; if the cylinder still governs there (tiny radius) the reported partials are zero while the true ones are not.
* C51: `COPExplicit`-style estimate in chiller.py is a tanh-smoothed minimum of the efficiency-scaled Carnot COP and 10. Its value can exceed 10 (by less than 2/9, `C51_soft_min`, `C51_exceeds_ceiling`), exceeds Carnot for an efficiency factor of 1 (`C51_not_below_carnot`), and is NaN at equal temperatures although the docstring says it does not blow up (the limit exists, `C51_cop_limit`).
* C52: heat_pipe.py computes the wick resistance with the wall conductivity; the `wick_conduct` option has no effect (`C52_wick_conductivity_ignored`). With the vapor resistance enabled, zero heat gives NaN.
* C53: `UAOverall.compute` (heat_exchanger.py) assigns the hot fouling resistance to the variable of the cold one, so cold fouling is ignored and hot fouling counts twice; the partials with respect to areas and efficiencies were written for the intended formula and are exact only without fouling (`C53_partials_iff`).
* C55: only the cold Reynolds number is checked for positivity (heat_exchanger.py); a nonpositive hot one silently yields NaN. The hydraulic diameters of the two sides use different wetted areas (`C55_sides_differ`).
* C59: the hose pressure drop is NaN at zero flow (Reynolds number to a negative power times zero) although the limit is 0 (`C59_hose_zero_flow`).
* C80: the heat pipe wall thickness lacks the factor 2 between p d/(2 t) and p d/t; the hoop stress is yield/(2 FOS) (`C80_hoop_stress`). The weight uses the thin wall approximation.
* Documentation only: battery_cooling.py's docstring defaults (900, 0.72) differ from the declared ones (875, 0.65).
* C57: `SpeedOfSound` replaces negative temperatures by 100 K in both `compute` and `compute_partials` (ducts.py:372-381); the output is then constant but the reported derivative is not 0, and the output jumps at 0 K.
* C56: a nozzle pressure ratio above 1 passes the check (only nonpositive ratios raise, ducts.py:685) and gives NaN.
* Documentation only: `ExplicitIncompressibleDuct` documents a default `static_pressure_loss_factor` of 0.00 but declares 0.15.
* C61: `SkinFrictionCoefficient` (drag_jet_transport.py) uses 2.81341 for -log(0.06); the Reynolds number partials were derived for the exact constant, so they differ from the true derivative (`C61_turb_inexact`) by a relative 3e-6 at most (`C61_turb_accuracy`).
* C62: `FlapCLmax` (CL_max_estimation.py) returns a positive increment at zero flap deflection (`C62_zero_deflection`), because the fit for the flap deflection factor has a nonzero constant term; the fit decreases beyond about 57 degrees (`C62_deflection_peak`).
* C63: `WaveDragFromSections` (wave_drag.py:144-145) multiplies by S_ref / S_region to renormalise; the coefficient should be multiplied by S_region / S_ref. Doubling the reference area multiplies the dimensional drag by four (`C63_normalisation`).
* C66: `num_y` regions without panels are not rejected; the interpolation then misses the section value (`C66_zero_panels`). The error message of `process_num_y` names the length `num_sections` where `num_sections - 1` is required.
* C67: `VLMDataGen.compute` (drag_polar.py:516-518) and `OASDataGen.compute` store the new inputs in the class level cache before running the analysis. If the run raises, the next call with the same inputs returns the old data without any error (`C67_failure_stale`, `C67_failure_previous`). The training grids are class attributes too, overwritten by every `setup`: an instance set up earlier with another grid of equal size is trained on the wrong points (`C67_grid_shared`).
- `LandingGearWeight_SmallTurboprop` (weights_turboprop.py:450-475) declares the gear lengths in ft and divides them by
  12, as if they were inches (the jet component, weights_jet_transport.py:1272-1294, declares inches and uses them
  directly).  `C72_gear_length_unit` gives the resulting factors, `12^0.409` and `12^0.845`.  This is recorded as an
  observation: the API contract (ft) does not fix the formula, so C72 is not refuted by it.
- Weight components: some class docstrings of weights_turboprop.py describe `WingWeight` for another component, and the
  twin hybrid group uses the single-engine nacelle formula.  `W_structure` in the jet and BWB groups contains the option
  `wing_weight_multiplier` in addition to the structural fudge factor (documented as an option); C73_jet_total and C73_bwb_total
  state it explicitly.
- C82 (`Model/CriticalSection.lean`): KS aggregation makes the reported `CL_max` conservative by up to `log(num_y)/rho`; with the default `rho = 200` and 10 sections this is about 0.0115.
- C83 (`Model/DataDict.lean`): `add_output_from_dict` accepts `**kwargs` and drops them silently. A list as `value` ends in an AttributeError (`val.shape`), while the Dymos variant accepts it. Running into a non-dictionary on the way raises an uncaught TypeError rather than the documented KeyError.
- C85 (`Model/Decks.lean`): the hybrid deck uses the power-off thrust table for all three power levels, so in the training data hybrid power changes fuel flow and surge margin only.
- C87: `propeller_map_scaled` scales only the upper end of the advance ratio grid, so the reference design point does not move to `design_J` (except for 2.2); `SimplePropeller` declares `design_cp` and `design_J` and never reads them (negations proved).
- C88 (`Model/DragPolar.lean`): VLMDragPolar builds `ThicknessChordRatioInterp` with cosine spacing also for the
  trapezoidal geometry, whose mesh is uniformly spaced. Strip thickness ratios are wrong for three or more strips (negation
  proved; the section geometry is right).
- C90: `AerostructDragPolarExact` leaves the default of `ac|aero|CD_nonwing` at ExecComp's 1.0 (the other polars use 0), so
  forgetting the input adds a drag coefficient of 1. `alpha_train`, `Mach_train`, `alt_train` are declared and documented as
  list or ndarray, but `setup` reads `.size`, which lists do not have. A `num_y` list of floats is accepted by
  SectionPlanformMesh but makes `ny_tot` a float and `np.zeros(ny_tot)` fail (not modelled).
- C91: `SkinFrictionCoefficient_JetTransport` uses 100.4 K as Sutherland's constant; with the coefficient 1.458e-6 the
  constant of the standard atmosphere is 110.4 K. Its viscosity is more than 2 % larger than the linear viscosity of the
  OpenAeroStruct groups, which is within 0.3 % of Sutherland's law below 10.5 km.
- C92 (`Model/Aircraft.lean`): with a nonnegative fuel flow an aircraft can be heavier than at take-off at an odd node
  (`C92_odd_node_false`, a consequence of C07). The margin of the N+3 aircraft has no payload term; its product
  `bypass_heat_pump` is connected to nothing.
- C94 (`Model/ElectricThermal.lean`): the refrigerated series hybrid declares `area_nozzle` as a design variable
  (thermal_series_hybrid.py:263) and the example bounds it in the optimisation and in an area constraint
  (HybridTwin_active_thermal.py:142, 435), but it is connected to nothing, so the duct works with the default 1 m^2
  (`C94_area_ignored`). Its `coolant_mass` is not used either. The motor rating is documented as shaft power, the code gives
  0.97 of it at full throttle (`C94_rating`). The refrigerator weight is missing from the
  empty weight in HybridTwin_active_thermal.py:117-135 (`C126_refrigerator_weightless`). Not modelled, seen while reading:
  thermal_series_hybrid.py:55 prints `nn`.
- C97 (`Model/DuctGroup.lean`): the exit pressure is `p_inf + convergence_hack` with -20 Pa (own exchanger) or -40 Pa (external). A duct without heat and losses therefore produces thrust in all subsonic flight (second order in the pressure offset) and at rest (`C97_hack_thrust`, `C97_parked`).
- C96_specific_heats: `HXGroup` uses cp = 1005, the duct stations 1002.93, the isentropic relations imply 1004.675 J/kg/K, so the air temperature rise reported by the exchanger is about 0.2 % below the duct's.
- C101 (`Model/ThermalMass.lean`): thermal masses are integrated with Simpson's rule. When the step exceeds sqrt(6) time constants of the component, the temperature at the middle of every Simpson interval overshoots the quasi-steady temperature: a motor without losses hotter than its coolant is reported colder than the coolant inlet (`C101_motor_undershoot`, `C101_motor_witness`), a reservoir colder than its inflow (`C101_reservoir_witness`, 10 kg, 2 kg/s, 15 s steps). The interval ends are not affected (`C100_*_settles`).
- C103 (`Model/Takeoff.lean`): `GroundRollPhase` sets the duration of `v1vr` by balancing the *true* airspeed `fltcond|Utrue_final` against `takeoff|vr`, which is 1.1 times `Vstall_eas`, an *equivalent* airspeed. The margin over the stall is therefore 1.1 sqrt(rho/1.225): below 1.1 on every standard or warmer day (`C103_rotation_warm`), below 1 for rho < 1.225/1.21, e.g. with the runway at 3000 m (`C103_rotation_below_stall`, a converged take-off). With `transition_method="ode"` the first vertical acceleration is negative on every day 2 K warmer than standard at MTOW (`C103_liftoff_hot`, `C103_liftoff_witness`), with `"simplified"` the true airspeed jumps at rotation (`C103_speed_jump`).
- `RobustRotationPhase`: nothing in the missions is connected to its input `h_initial`, and `LinearInterpolator` declares it without a value, so that OpenMDAO's default of 1 (metre) is the first altitude. `h_initial` is a free input of the model.
- C104 (`Model/HybridTwin.lean`): the comment "assume TO happens on battery backup" (HybridTwin.py:59) holds for the take-off
  phases, but the test is by exclusion: every phase not named climb, cruise or descent runs on the battery, so with a mission with
  reserves the reserve phases and the loiter burn no fuel (`C104_no_fuel` covers any such name).
- C105 (`Model/PointAnalysis.lean`): `OldIntegrator` cannot be used for the point analysis its comment promises
  (integrals.py:938-939) in two cases.  With `zero_start` the single node value is the integer 0 and `Q[-1]`
  (integrals.py:1123) raises TypeError (`C105_old_zero_start_fails`; `Integrator` uses `np.array([0.0])`).  With
  `segment_names` `setup` adds only the input `dt` (integrals.py:1062-1064) while `compute` reads `<segment>|dt`
  (integrals.py:1099-1101), a KeyError (`C105_old_segments_fail`).
* C107: the phases `AllEngineClimbAngle` and `EngineOutClimbAngle` are not in the list of take-off phases of the examples (KingAirC90GT.py:47 and alike), so the climb gradients at V2 are computed with `CD0_cruise`, while the rotation phase which ends at the same V2 uses `CD0_TO` (`C107_climb_gradient`).
* C107: the aircraft models with one engine have no input `propulsor_active`; in the phases documented as "engine out" they keep full thrust, so the balanced field length and engine-out climb angle printed for them are those of an airplane without a failure (`C107_single`).
* C107: KingAirC90GT.py:58-66 sums the weights of both engines and propellers but takes the nacelle from `SingleTurboPropEmptyWeight` with the rating of one engine; `NacelleWeight_MultiTurboprop` is not used by any group (`C107_king_air_empty`).
* C108: B738_aerostructural.py:300-315 promotes or connects every input of `kg_to_N` except `orig_W_wing`; setting `ac|weights|orig_W_wing` changes the mission's weight but not the lift required at the manoeuvre point, which keeps the Raymer estimate (`C108_maneuver_ignores_original`). It also uses 9.807 where the mission uses 9.80665 and 2.20462 lb/kg where OpenMDAO converts exactly (bounded in `C108_maneuver_partial`).
* C110: `PropCoefficients` declares the tip speed `prop_Vtip` without units (propeller.py:254), so OpenMDAO never converts it (`C110_propCoefficients_negation`; declared in m/s it would be consistent, `C110_tipSpeed_unit`).
* C110, documentation: pump.py and hose.py document `delta_p` in kg/s (declared in Pa); heat_pipe.py documents densities of `QMaxAnalyticalPart` in m; the cold plate documents the default of `fluid_rho` as 0.997 (code: 997, and the option is not used). `fltcond|TempIncrement` is declared in degC, so OpenMDAO converts with an offset: connecting a source of 10 K gives -263.15. The explicit duct, the duct speed of sound and the ground speeds contain literals in fixed units (clipping), hence their theorems have a domain; the smoothing of `COPExplicit` applies tanh to a temperature difference and is not listed.
* C111, seen while reading: motor.py:75 calls `declare_partials("heat_out", "throttle", "elec_power_rating", ...)`, where the third positional argument is OpenMDAO's flag `dependent`; the string is truthy, so nothing is lost. hose.py:86 takes only the first node's coolant density for the weight.
* C112, seen while reading: in contrast to `AddSubtractComp`, the concatenation and split components do not remember which inputs were added, so a variable that is a part of two relations is refused by OpenMDAO (`C112_shared_part`). `VectorConcatenateComp.compute` starts with `np.empty([0, length], dtype=np.dtype)`, an array of objects under current numpy; and uses `np.complex_`, which numpy 2 has removed.
* Seen while reading: `PhaseGroup.configure` tests `var_abs_address is None` where `var_prom_address` would be meant; the output `takeoff|v0` (profiles.py:110) of `BasicMission` with a ground roll is used by nothing.
* C114: `SimplePropeller` promotes `diameter` from components which want it in m and in ft without a default, so that it can only be set up inside a group which connects it (`C114_propeller_setup`). In `SeriesHybridElectricPropulsionSystem` only the promotion of `fltcond_*` fails (`C114_seriesHybrid_setup`, C79), but even with it repaired nothing would relate the generator to the load (`C114_seriesHybrid_open`). The refrigerated hybrid leaves `duct.area_nozzle` open (`C114_refrigerated_ins`, cf. C94).
* C115: `SteadyFlightPhase` documents its duration as a parameter that can be set, but `PhaseGroup.configure` connects `duration` to the integrator, and in a phase to which nobody adds an output of that name it is an input, which OpenMDAO refuses as a source (`C115_setup_limits`; the missions add a balance or, in `loiter`, a `DVLabel`). `ClimbAnglePhase` has the option `num_nodes`, but connects the scalar `takeoff|v2` to the vector `fltcond|Ueas` and can be set up with one node only (same theorem). `RobustRotationPhase` leaves `h_initial` open, and nothing in the missions connects it.
* C116: in `MissionWithReserve` (no take-off) nothing is connected to the initial height and range of the climb, although `BasicMission` connects `takeoff|h` (profiles.py:141-142 is only reached without reserves); the climb starts from the defaults of the integrator unless the user sets them. In every mission with reserves the initial height of `reserve_climb` is open (the link skips it), so that it is not the height at which the descent ended. `takeoff|v0` is declared and used by nothing (`C116_open`, `C116_unused`).
* C121: `TwinTurbopropPropulsionSystem` adds `failedengine` after `eng2`, which reads its output (simple_turboprop.py:154-157), and sets no solver. Run once with OpenMDAO's default solver, the second engine has the throttle of the run before, and full throttle in the first (`C121_twin_lags`, `C121_twin_false`). The examples are not affected because their phases iterate.
* C126. The refrigerator of `HybridTwin_active_thermal.py` is not in the empty weight: `hxadder` adds heat exchanger and coolant only
  (`C126_refrigerator_weightless`). Its nozzle area variable `ac|propulsion|thermal|duct|area_nozzle` reaches only the area constraint; the
  nozzle area of the duct itself is an input that nothing provides (`C126_active_setup`, field `constraint` of `C126_active`).
* C126, seen while reading (see C131): `set_values` of the three hybrid twins sets `structural_fudge = 2.0` for the cruise model alone, so
  that the empty weights of the phases differ; `margins` uses the one of the cruise, `show_outputs` prints the one of the climb.
* C127. The duct of the motor's exchanger takes the frontal area of that exchanger (N3_HybridSingleAisle_Refrig.py:229), although the
  exchanger of the fault protection stands in the same duct; they share the numbers of channels but not their heights, and line 474 sets
  the height of the hot channels of one of them only (`C127_stack`). Seen on the way: `bypass_heat_pump` (line 118) is connected to nothing,
  the heat pump's own `bypass_start`/`bypass_end` act (`refrig.bypass` in `IsN3`); the loop of the fault protection has neither hose nor
  pump; the weight of a hose uses the coolant density of the first node only (hose.py:74-81); the margin counts no payload
  (`C127_mission`). The durations of the integrators are connected by `PhaseGroup.configure` and are hypotheses of `C127_phase`; the
  motor's rating is given in MW, a unit outside the table `kind`, so no setup theorem is stated for this model.
* C128. `DVLabel.__init__` appends the size of each value to the list the caller passed in (dvlabel.py:37) and reads it back from position 4,
  so a list that is used again with a value of another size keeps the first size (`C128_stale`).
* C129. The docstrings of the section components say that negative indices are not accepted, but nothing checks them; `idx_sec_end=-1` becomes
  the empty slice `[0:0]` and the area is 0 for every wing, an index beyond the root is silently the root (`C129_unchecked`).
* C130. The class attribute `surf_options` is never reset, so that the message "within an OpenMDAO model" is too mild: a second problem in the
  same process with other options is refused too (`C130_history`). The comparison follows numpy's broadcasting: a stored array of equal entries
  passes for the number, a stored number and a new array of several entries raise numpy's own error (`C130_broadcast`).
* C131. `set_values` of HybridTwin.py sets `structural_fudge` in the cruise only (line 242), `margins` uses `cruise.OEW` (line 198) and
  `show_outputs` prints `climb.OEW` (line 262): the printed weights miss 0.4 times the structure, for every airplane (`C131_hybrid`).
* C132. B738_VLM_drag.py promotes neither `ac|geom|wing|toverc` nor `fltcond|TempIncrement` of its drag polar (lines 74-85), so that the thickness
  ratio the example declares (line 124) has no effect on anything (`C132_unread`) and the polar keeps its default of 0.12. The
  `surf_options["t_over_c"]` of line 70 cannot stand in for it: VLM ignores it, as its docstring says (drag_polar.py:693-694, 840; read, not modelled). Results of the
  example are not affected, its wing has 12 percent. The open temperature increment is documented for the polar (drag_polar.py:85-90).
* C133. visualization.py:235 computes the width of the trailing side of a panel as `y_mesh[1:, 1:] - y_mesh[1:, 1:]`, which is zero
  (`y_mesh[1:, :-1]` is meant): all panel areas are halved and the contours show twice the force per area (`C133_twice`).
* C135. visualization.py:95 calls `Axes.set(y_var)` with a positional argument, a TypeError: `plot_trajectory_grid` fails whenever `y_labels`
  is left at its default (`C135_fails`). `grid_layout` with one row or column fails too, and only plots in the last row of the layout get the
  label of the abscissa, so that the last page usually has none (example beside `C135_fails`).
* C136. cfm56.py:121-123 and 128-130 give the array of the fuel flow to the figure titled "Thrust (lb)" and the array of the thrust to the
  figure titled "Fuel Flow (lb)" (`C136_cfm_swapped`, `C136_cfm_iff`, `C136_cfm_false`); N3.py has them right.
* C137. The title of N3.py:522 says M=0.8, the sweep runs at Mach 0.5 (lines 505 and 507; `C137_title`). The figures titled "Thrust (lb)" (lines 490
  and 528) show a ratio that the balance makes 1, and those titled "SFC (lb / hr lb) OM" the ratio of the fuel flows (`C137_mach`, `C137_throttle`).
* C139. HybridTwin.py:484 renames `filename_to_save` even if `write_logs` is False, when the name is not defined: with the script as it is the first
  failing optimization ends the sweep with a NameError (`C139_hybrid_stops`), which `except WindowsError` (line 485) does not catch; the other
  two scripts guard the renaming. `WindowsError` is itself undefined outside Windows.
* C139. HybridTwin_thermal.py:561-564 (HybridTwin_active_thermal.py:528-531): skipping a recorded case of range 300 makes the next case start from
  `case_<energy + 50>_700.sql`, which does not exist when the energies increase as in the comment of line 439; reading it fails, renaming the file that
  was never opened fails too, and the script ends (`C139_resume_fails`, `C139_resume_witness`). An exception before the driver opens the recorder file has
  the same effect (`C139_early`).
* Read, not modelled: the objective "fuel_burn" of the run type "comp_sizing" (HybridTwin.py:451, HybridTwin_thermal.py:549,
  HybridTwin_active_thermal.py:516) names no variable of the model; only `aug_obj.fuel_burn` exists, an input that is not promoted.
