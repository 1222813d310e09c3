import Mathlib.Data.Real.Basic
import Verif.Model.Aero

/-!
Model of the tabulated engine and propeller data: `openconcept/propulsion/cfm56.py`, `openconcept/propulsion/N3.py` and
`openconcept/propulsion/empirical_data/prop_maps.py`.

The `.npy` tables are arbitrary functions of the three grid indices.  The surrogates (`KrigingSurrogate`) and the
interpolation (`MetaModelStructuredComp`, `scipy_cubic`) belong to OpenMDAO and are not modelled; what is modelled is the
training data and the tables given to them.
-/

namespace Verif.Decks

open Verif.Aero (linspace)

/-- a table indexed by altitude, Mach number and throttle -/
abbrev Table := ℕ → ℕ → ℕ → ℝ

/-- one row of `a` in cfm56.py:63 and N3.py:331 -/
structure Row where
  throttle : ℝ
  alt : ℝ
  mach : ℝ
  thrust : ℝ
  fuel : ℝ
  extra : ℝ

/-- a row of `a` in N3.py:116 -/
structure HRow where
  throttle : ℝ
  alt : ℝ
  mach : ℝ
  power : ℝ
  thrust : ℝ
  fuel : ℝ
  extra : ℝ

/-- cfm56.py:44 -/
noncomputable def cfmAlt (i : ℕ) : ℝ := ([35, 30, 25, 20, 15, 10, 5, 0].getD i 0) * 1000.0

/-- cfm56.py:45 -/
noncomputable def cfmMach (j : ℕ) : ℝ := ([8, 7, 6, 5, 4, 3, 2, 1, 0.0].getD j 0) * 0.1

/-- cfm56.py:46 -/
noncomputable def cfmThrottle (k : ℕ) : ℝ := ([10, 9, 8, 7, 6, 5, 4, 3, 2].getD k 0) * 0.1

open Classical in
/-- cfm56.py:47-61: the body of the innermost loop -/
noncomputable def cfmCell (thrust fuel t4 : Table) (i j k : ℕ) : List Row :=
  if thrust i j k > 0 then
    if ¬ (cfmMach j > 0.5 ∧ cfmAlt i = 0) then
      [⟨cfmThrottle k, cfmAlt i, cfmMach j, thrust i j k, fuel i j k, t4 i j k⟩]
    else []
  else []

/-- cfm56.py:43-61: `krigedata` -/
noncomputable def cfmRows (thrust fuel t4 : Table) : List Row :=
  (List.range 8).flatMap fun i => (List.range 9).flatMap fun j => (List.range 9).flatMap fun k => cfmCell thrust fuel t4 i j k

open Classical in
/-- N3.py:316-329: the body of the innermost loop of `N3` -/
noncomputable def n3Cell (throttle alt mach thrust fuel smw : Table) (i j k : ℕ) : List Row :=
  if fuel i j k > 0 then [⟨throttle i j k, alt i j k, mach i j k, thrust i j k, fuel i j k, smw i j k⟩] else []

/-- N3.py:312-329: `krigedata` of `N3` -/
noncomputable def n3Rows (throttle alt mach thrust fuel smw : Table) : List Row :=
  (List.range 8).flatMap fun i => (List.range 7).flatMap fun j => (List.range 11).flatMap fun k =>
    n3Cell throttle alt mach thrust fuel smw i j k

open Classical in
/-- N3.py:58-75, 77-94, 97-114: the body of each of the three loops of `N3Hybrid` with its hybrid power -/
noncomputable def hybCell (power : ℝ) (throttle alt mach thrust fuel smw : Table) (i j k : ℕ) : List HRow :=
  if fuel i j k > 0 then [⟨throttle i j k, alt i j k, mach i j k, power, thrust i j k, fuel i j k, smw i j k⟩] else []

/-- one of the three loops -/
noncomputable def hybBlock (power : ℝ) (throttle alt mach thrust fuel smw : Table) : List HRow :=
  (List.range 8).flatMap fun i => (List.range 7).flatMap fun j => (List.range 11).flatMap fun k =>
    hybCell power throttle alt mach thrust fuel smw i j k

/-- N3.py:43-54: the tables loaded by `N3Hybrid` -/
structure HybTables where
  throttle : Table
  alt : Table
  mach : Table
  thrust : Table
  fuel0 : Table
  smw0 : Table
  fuel500 : Table
  smw500 : Table
  fuel1000 : Table
  smw1000 : Table

/-- N3.py:56-114: `krigedata` of `N3Hybrid`; the throttle, altitude, Mach number and thrust tables of the power-off case are
used in all three blocks -/
noncomputable def hybRows (t : HybTables) : List HRow :=
  hybBlock 0.0 t.throttle t.alt t.mach t.thrust t.fuel0 t.smw0
    ++ hybBlock 500.0 t.throttle t.alt t.mach t.thrust t.fuel500 t.smw500
    ++ hybBlock 1000.0 t.throttle t.alt t.mach t.thrust t.fuel1000 t.smw1000

/-- column `c` of a row -/
def Row.col (r : Row) (c : ℕ) : ℝ := [r.throttle, r.alt, r.mach, r.thrust, r.fuel, r.extra].getD c 0

/-- column `c` of a row -/
def HRow.col (r : HRow) (c : ℕ) : ℝ := [r.throttle, r.alt, r.mach, r.power, r.thrust, r.fuel, r.extra].getD c 0

/-- cfm56.py:65-89: the column used as training data of each variable -/
def cfmColumns : List (String × ℕ) :=
  [("throttle", 0), ("fltcond|h", 1), ("fltcond|M", 2), ("thrust", 3), ("fuel_flow", 4), ("T4", 5)]

/-- N3.py:333-357 -/
def n3Columns : List (String × ℕ) :=
  [("throttle", 0), ("fltcond|h", 1), ("fltcond|M", 2), ("thrust", 3), ("fuel_flow", 4), ("surge_margin", 5)]

/-- N3.py:118-143 -/
def hybColumns : List (String × ℕ) :=
  [("throttle", 0), ("fltcond|h", 1), ("fltcond|M", 2), ("hybrid_power", 3), ("thrust", 4), ("fuel_flow", 5),
    ("surge_margin", 6)]

/-- training data of variable `v`; `none` if it is not declared -/
def training (cols : List (String × ℕ)) (rows : List Row) (v : String) : Option (List ℝ) :=
  (cols.lookup v).map fun c => rows.map fun r => r.col c

/-- training data of variable `v` of the hybrid deck -/
def trainingH (cols : List (String × ℕ)) (rows : List HRow) (v : String) : Option (List ℝ) :=
  (cols.lookup v).map fun c => rows.map fun r => r.col c

/-! ### propeller maps -/

/-- a table over two grids (`cp` first) given to `MetaModelStructuredComp` -/
structure Map2 where
  cp : List ℝ
  J : List ℝ
  data : List (List ℝ)

/-- a table over one grid -/
structure Map1 where
  cp : List ℝ
  data : List ℝ

/-- numpy's `linspace` as a list -/
noncomputable def linspaceList (a b : ℝ) (n : ℕ) : List ℝ := (List.range n).map (linspace a b n)

/-- prop_maps.py:13-25 -/
noncomputable def raymerData : List (List ℝ) :=
  [[0.45, 0.6, 0.72, 0.75, 0.70, 0.65, 0.6, 0.55, 0.5, 0.45, 0.40, 0.35, 0.3, 0.25],
   [0.35, 0.6, 0.74, 0.83, 0.86, 0.88, 0.9, 0.9, 0.88, 0.85, 0.83, 0.8, 0.75, 0.7],
   [0.2, 0.35, 0.55, 0.7, 0.8, 0.85, 0.87, 0.9, 0.91, 0.92, 0.9, 0.9, 0.88, 0.87],
   [0.12, 0.22, 0.36, 0.51, 0.66, 0.75, 0.8, 0.85, 0.87, 0.88, 0.91, 0.905, 0.902, 0.9],
   [0.07, 0.15, 0.29, 0.36, 0.45, 0.65, 0.73, 0.77, 0.83, 0.85, 0.87, 0.875, 0.88, 0.895],
   [0.05, 0.12, 0.25, 0.32, 0.38, 0.50, 0.61, 0.72, 0.77, 0.79, 0.83, 0.85, 0.86, 0.865],
   [0.04, 0.11, 0.19, 0.26, 0.33, 0.40, 0.51, 0.61, 0.71, 0.74, 0.78, 0.815, 0.83, 0.85],
   [0.035, 0.085, 0.16, 0.22, 0.28, 0.35, 0.41, 0.52, 0.605, 0.69, 0.74, 0.775, 0.8, 0.82],
   [0.03, 0.06, 0.13, 0.19, 0.24, 0.31, 0.35, 0.46, 0.52, 0.63, 0.71, 0.75, 0.78, 0.8]]

/-- prop_maps.py:6-31 `propeller_map_Raymer` -/
noncomputable def mapRaymer : Map2 where
  cp := [0, 0.1, 0.2, 0.3, 0.4, 0.5, 0.6, 0.7, 0.8]
  J := linspaceList 0.2 2.8 14
  data := raymerData

/-- prop_maps.py:41-50 -/
noncomputable def scaledData : List (List ℝ) :=
  [[0.45, 0.6, 0.72, 0.75, 0.70, 0.65, 0.6, 0.55, 0.5, 0.45, 0.40, 0.35, 0.3, 0.25],
   [0.35, 0.6, 0.74, 0.83, 0.86, 0.88, 0.9, 0.9, 0.88, 0.85, 0.83, 0.8, 0.75, 0.7],
   [0.2, 0.35, 0.55, 0.7, 0.8, 0.85, 0.87, 0.9, 0.91, 0.92, 0.9, 0.9, 0.88, 0.87],
   [0.12, 0.22, 0.36, 0.51, 0.66, 0.75, 0.8, 0.85, 0.87, 0.88, 0.91, 0.905, 0.902, 0.9],
   [0.07, 0.15, 0.29, 0.36, 0.45, 0.65, 0.73, 0.77, 0.83, 0.85, 0.87, 0.875, 0.88, 0.895],
   [0.05, 0.12, 0.25, 0.32, 0.38, 0.50, 0.61, 0.72, 0.77, 0.79, 0.83, 0.85, 0.86, 0.865]]

/-- prop_maps.py:34-56 `propeller_map_scaled` -/
noncomputable def mapScaled (designJ designCp : ℝ) : Map2 where
  cp := [0, 0.1, 0.2, 0.3, 0.4, 0.5].map fun x => x * designCp / 0.2
  J := linspaceList 0.2 (2.8 * designJ / 2.2) 14
  data := scaledData

/-- prop_maps.py:73-89, before the first column is overwritten -/
noncomputable def highData : List (List ℝ) :=
  [[0.28, 0.51, 0.65, 0.66, 0.65, 0.64, 0.63, 0.62, 0.61],
   [0.20, 0.50, 0.71, 0.82, 0.81, 0.70, 0.68, 0.67, 0.66],
   [0.19, 0.49, 0.72, 0.83, 0.86, 0.85, 0.75, 0.70, 0.69],
   [0.18, 0.45, 0.71, 0.82, 0.865, 0.875, 0.84, 0.79, 0.72],
   [0.17, 0.42, 0.69, 0.815, 0.87, 0.885, 0.878, 0.84, 0.80],
   [0.155, 0.40, 0.65, 0.81, 0.865, 0.89, 0.903, 0.873, 0.83],
   [0.13, 0.38, 0.61, 0.78, 0.85, 0.88, 0.91, 0.90, 0.86],
   [0.12, 0.34, 0.58, 0.73, 0.83, 0.876, 0.904, 0.91, 0.88],
   [0.10, 0.31, 0.53, 0.71, 0.81, 0.87, 0.895, 0.91, 0.882],
   [0.08, 0.25, 0.44, 0.62, 0.75, 0.84, 0.88, 0.89, 0.87],
   [0.06, 0.18, 0.35, 0.50, 0.68, 0.79, 0.86, 0.86, 0.85],
   [0.05, 0.14, 0.25, 0.40, 0.55, 0.70, 0.79, 0.80, 0.72],
   [0.04, 0.12, 0.19, 0.29, 0.40, 0.50, 0.60, 0.60, 0.50]]

/-- prop_maps.py:59-97 `propeller_map_highpower`; line 91 sets the first column to zero -/
noncomputable def mapHighpower : Map2 where
  cp := linspaceList 0 2.5 13
  J := linspaceList 0 4 9
  data := highData.map fun r => 0 :: r.drop 1

/-- prop_maps.py:112-113 `ConstantPropEfficiency.compute` -/
noncomputable def constEta (_cp _J : ℝ) : ℝ := 0.85

/-- prop_maps.py:110: the declared partials -/
def constEtaPartials : ℝ × ℝ := (0, 0)

/-- prop_maps.py:121-156 `static_propeller_map_Raymer` -/
noncomputable def mapStaticRaymer : Map1 where
  cp := linspaceList 0 0.6 25
  data :=
  [2.5, 3.0, 2.55, 2.0, 1.85, 1.5, 1.25, 1.05, 0.95, 0.86, 0.79, 0.70, 0.62, 0.53, 0.45, 0.38, 0.32, 0.28, 0.24,
   0.21, 0.18, 0.16, 0.14, 0.12, 0.10]

/-- prop_maps.py:162-206 -/
noncomputable def staticHighData : List ℝ :=
  [2.5, 3.0, 2.55, 2.0, 1.85, 1.5, 1.25, 1.05, 0.95, 0.86, 0.79, 0.70, 0.62, 0.53, 0.45, 0.38, 0.32, 0.28, 0.24,
   0.21, 0.18, 0.16, 0.14, 0.12, 0.10, 0.09, 0.08, 0.08, 0.08, 0.08, 0.08, 0.08, 0.08, 0.08, 0.08, 0.08, 0.08, 0.08,
   0.08, 0.08, 0.08]

/-- prop_maps.py:159-211 `static_propeller_map_highpower`; line 207 scales the entries from the seventh on -/
noncomputable def mapStaticHighpower : Map1 where
  cp := linspaceList 0 1 41
  data := staticHighData.take 6 ++ (staticHighData.drop 6).map fun x => x * 1.2

/-- propeller.py:52-68 `SimplePropeller.setup`: the options and the two maps it installs, or NotImplementedError -/
structure PropOptions where
  blades : ℕ
  designCp : ℝ
  designJ : ℝ

/-- propeller.py:61-68: the maps chosen; the first `if` is not chained to the second -/
noncomputable def propMaps (o : PropOptions) : Except Unit (Map2 × Map1) :=
  if o.blades = 4 then .ok (mapHighpower, mapStaticHighpower) else .error ()

end Verif.Decks
