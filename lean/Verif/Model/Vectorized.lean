import Mathlib.Algebra.BigOperators.Fin
import Mathlib.Data.Matrix.Mul
import Verif.Model.Aero
import Verif.Model.Thermal
import Verif.Model.HeatExchanger

/-!
How a vectorised component is built from its formula at one node.

Most components declare their inputs with `shape=(nn,)` (one entry per node) or as scalars, compute with numpy's
elementwise operations, and declare partials with `rows=arange(nn)` and `cols=arange(nn)` (vector input) or
`cols=zeros(nn)` (scalar input).  This file models that construction once, for any formula and any number of nodes, and
gives the declarations of several components in that form: `Lift`, `PolarDrag`, `LinearSelector`, `COPHeatPump`,
`NTUEffectivenessActualHeatTransfer`, `OutletTemperatures`, `FlowCombine`.

An input is a function of the position in its vector; only the positions below its size exist.
-/

namespace Verif.Vectorized

open Matrix

/-- shape of an input: `shape=(nn,)` or a scalar -/
inductive Kind
  | vec
  | scal
  deriving DecidableEq

/-- number of entries of an input -/
def Kind.size (nn : ℕ) : Kind → ℕ
  | .vec => nn
  | .scal => 1

/-- `cols` given to `declare_partials`: `arange(nn)` or `zeros(nn)` -/
inductive Cols
  | arange
  | zeros
  deriving DecidableEq

/-- the `k`-th entry of the column list -/
def Cols.get (k : ℕ) : Cols → ℕ
  | .arange => k
  | .zeros => 0

/-- One output of a component: the shapes of its inputs, the column pattern declared for each, the formula used by
`compute` at a node, and the formulas stored by `compute_partials`.  An input that the output does not depend on and for
which nothing is declared has the partial 0. -/
structure Output (I : Type) where
  kind : I → Kind
  cols : I → Cols
  f : (I → ℝ) → ℝ
  df : I → (I → ℝ) → ℝ

/-- numpy's broadcasting: the values that enter the elementwise formula at node `a` -/
def Output.at {I : Type} (o : Output I) (x : I → ℕ → ℝ) (a : ℕ) : I → ℝ :=
  fun i => match o.kind i with
    | .vec => x i a
    | .scal => x i 0

/-- `compute` -/
def Output.compute {I : Type} (o : Output I) (x : I → ℕ → ℝ) (a : ℕ) : ℝ := o.f (o.at x a)

/-- The matrix OpenMDAO assembles from `rows`, `cols` and the values stored in `J`: entries with the same position
would add up. -/
def assemble {n m e : ℕ} (rows cols : Fin e → ℕ) (data : Fin e → ℝ) : Matrix (Fin n) (Fin m) ℝ :=
  Matrix.of fun r c => ∑ k, if rows k = r ∧ cols k = c then data k else 0

/-- the declared Jacobian of the output with respect to input `i`: `rows=arange(nn)` -/
def Output.jac {I : Type} (o : Output I) (nn : ℕ) (x : I → ℕ → ℝ) (i : I) :
    Matrix (Fin nn) (Fin ((o.kind i).size nn)) ℝ :=
  assemble (e := nn) (fun k => k) (fun k => (o.cols i).get k) (fun k => o.df i (o.at x k))

/-! ### components -/

/-- inputs of `Lift`, aerodynamics.py:129-131 -/
inductive LiftVar
  | CL | q | S
  deriving DecidableEq

/-- aerodynamics.py:126-143 `Lift` -/
noncomputable def liftOut : Output LiftVar where
  kind | .CL => .vec | .q => .vec | .S => .scal
  cols | .CL => .arange | .q => .arange | .S => .zeros
  f v := Aero.lift (v .q) (v .S) (v .CL)
  df
    | .q, v => v .S * v .CL
    | .CL, v => v .q * v .S
    | .S, v => v .q * v .CL

/-- inputs of `PolarDrag`, aerodynamics.py:53-58 -/
inductive PolarVar
  | CL | q | S | CD0 | e | AR
  deriving DecidableEq

/-- the node values as the record of `Aero.drag` -/
def polarIn (v : PolarVar → ℝ) : Aero.PolarIn :=
  { q := v .q, S := v .S, CD0 := v .CD0, CL := v .CL, e := v .e, AR := v .AR }

/-- aerodynamics.py:49-99 `PolarDrag`; the option `vec_CD0` changes shape and pattern of `CD0` -/
noncomputable def polarOut (vecCD0 : Bool) : Output PolarVar where
  kind
    | .CL => .vec | .q => .vec | .S => .scal | .e => .scal | .AR => .scal
    | .CD0 => if vecCD0 then .vec else .scal
  cols
    | .CL => .arange | .q => .arange | .S => .zeros | .e => .zeros | .AR => .zeros
    | .CD0 => if vecCD0 then .arange else .zeros
  f v := Aero.drag (polarIn v)
  df
    | .q, v => Aero.dragDq (polarIn v)
    | .CL, v => Aero.dragDCL (polarIn v)
    | .CD0, v => Aero.dragDCD0 (polarIn v)
    | .e, v => Aero.dragDe (polarIn v)
    | .S, v => Aero.dragDS (polarIn v)
    | .AR, v => Aero.dragDAR (polarIn v)

/-- inputs of `LinearSelector`, chiller.py:48-53 -/
inductive SelVar
  | TinCold | TinHot | refCold | refHot | rating | bypass
  deriving DecidableEq

/-- the node values as the record of `Thermal.selCold` -/
def selIn (v : SelVar → ℝ) : Thermal.SelIn :=
  ⟨v .TinCold, v .TinHot, v .refCold, v .refHot, v .rating, v .bypass⟩

/-- chiller.py:48-53: only the power rating is a scalar -/
def selKind : SelVar → Kind
  | .rating => .scal
  | _ => .vec

/-- chiller.py:59-67 -/
def selCols : SelVar → Cols
  | .rating => .zeros
  | _ => .arange

/-- chiller.py:59-61, 71, 83-85 `T_out_cold` -/
noncomputable def selColdOut : Output SelVar where
  kind := selKind
  cols := selCols
  f v := Thermal.selCold (selIn v)
  df
    | .bypass, v => v .TinHot - v .refCold
    | .TinHot, v => v .bypass
    | .refCold, v => 1 - v .bypass
    | _, _ => 0

/-- chiller.py:62-64, 72, 86-88 `T_out_hot` -/
noncomputable def selHotOut : Output SelVar where
  kind := selKind
  cols := selCols
  f v := Thermal.selHot (selIn v)
  df
    | .bypass, v => v .TinCold - v .refHot
    | .TinCold, v => v .bypass
    | .refHot, v => 1 - v .bypass
    | _, _ => 0

/-- chiller.py:65-66, 73, 89-90 `elec_load` -/
noncomputable def selLoadOut : Output SelVar where
  kind := selKind
  cols := selCols
  f v := Thermal.selLoad (selIn v)
  df
    | .bypass, v => -v .rating / 0.95
    | .rating, v => (1 - v .bypass) / 0.95
    | _, _ => 0

/-- inputs of `COPHeatPump`, chiller.py:122-123 -/
inductive PumpVar
  | COP | rating
  deriving DecidableEq

/-- chiller.py:122-129, 132, 139-140 `q_in_1` -/
noncomputable def pumpQ1Out : Output PumpVar where
  kind | .COP => .vec | .rating => .scal
  cols | .COP => .arange | .rating => .zeros
  f v := Thermal.pumpQ1 (v .COP) (v .rating)
  df
    | .COP, v => -v .rating
    | .rating, v => -v .COP

/-- chiller.py:122-129, 133, 141-142 `q_in_2` -/
noncomputable def pumpQ2Out : Output PumpVar where
  kind | .COP => .vec | .rating => .scal
  cols | .COP => .arange | .rating => .zeros
  f v := Thermal.pumpQ2 (v .COP) (v .rating)
  df
    | .COP, v => v .rating
    | .rating, v => v .COP + 1

/-- inputs of `NTUEffectivenessActualHeatTransfer`, heat_exchanger.py:1137-1138 -/
inductive HeatVar
  | eff | max
  deriving DecidableEq

/-- heat_exchanger.py:1135-1149 -/
noncomputable def heatOut : Output HeatVar where
  kind _ := .vec
  cols _ := .arange
  f v := HX.heatTransfer (v .eff) (v .max)
  df
    | .eff, v => v .max
    | .max, v => v .eff

/-- inputs of `OutletTemperatures`, heat_exchanger.py:1192-1198 -/
inductive OutVar
  | heat | mdotC | TinC | cpC | mdotH | TinH | cpH
  deriving DecidableEq

/-- heat_exchanger.py:1192-1198 -/
def outKind : OutVar → Kind
  | .cpC => .scal
  | .cpH => .scal
  | _ => .vec

/-- heat_exchanger.py:1203-1208 -/
def outCols : OutVar → Cols
  | .cpC => .zeros
  | .cpH => .zeros
  | _ => .arange

/-- heat_exchanger.py:1203-1204, 1207, 1211, 1215-1217 `T_out_cold` -/
noncomputable def outColdOut : Output OutVar where
  kind := outKind
  cols := outCols
  f v := HX.toutCold (v .heat) (v .mdotC) (v .TinC) (v .cpC)
  df
    | .heat, v => (HX.toutColdD (v .heat) (v .mdotC) (v .cpC)).1
    | .mdotC, v => (HX.toutColdD (v .heat) (v .mdotC) (v .cpC)).2.1
    | .cpC, v => (HX.toutColdD (v .heat) (v .mdotC) (v .cpC)).2.2
    | .TinC, _ => 1
    | _, _ => 0

/-- heat_exchanger.py:1205-1206, 1208, 1212, 1218-1220 `T_out_hot` -/
noncomputable def outHotOut : Output OutVar where
  kind := outKind
  cols := outCols
  f v := HX.toutHot (v .heat) (v .mdotH) (v .TinH) (v .cpH)
  df
    | .heat, v => (HX.toutHotD (v .heat) (v .mdotH) (v .cpH)).1
    | .mdotH, v => (HX.toutHotD (v .heat) (v .mdotH) (v .cpH)).2.1
    | .cpH, v => (HX.toutHotD (v .heat) (v .mdotH) (v .cpH)).2.2
    | .TinH, _ => 1
    | _, _ => 0

/-- inputs of `FlowCombine`, manifold.py:97-100 -/
inductive CombVar
  | mA | mB | TA | TB
  deriving DecidableEq

/-- manifold.py:94-129 `T_out` of `FlowCombine` -/
noncomputable def combOut : Output CombVar where
  kind _ := .vec
  cols _ := .arange
  f v := Thermal.combineT (v .mA) (v .mB) (v .TA) (v .TB)
  df
    | .mA, v => Thermal.combineTDmA (v .mA) (v .mB) (v .TA) (v .TB)
    | .mB, v => Thermal.combineTDmB (v .mA) (v .mB) (v .TA) (v .TB)
    | .TA, v => Thermal.combineTDTA (v .mA) (v .mB)
    | .TB, v => Thermal.combineTDTB (v .mA) (v .mB)

/-- manifold.py:94-107, 112, 118-119 `mdot_out` of `FlowCombine` -/
noncomputable def combMdotOut : Output CombVar where
  kind _ := .vec
  cols _ := .arange
  f v := Thermal.combineMdot (v .mA) (v .mB)
  df
    | .mA, _ => 1
    | .mB, _ => 1
    | _, _ => 0

end Verif.Vectorized
