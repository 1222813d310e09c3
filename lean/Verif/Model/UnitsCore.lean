import Mathlib.Analysis.SpecialFunctions.Pow.Real

/-!
Physical dimensions, systems of base units, and the unit declarations of OpenMDAO components.

A component declares a unit string for each variable (`add_input(..., units=...)`, `add_output(..., units=...)`); options have a
unit in their documentation.  A change of the base units multiplies the number that stands for a quantity by the product of
powers given by its dimension.
-/

namespace Verif.Units

/-- exponents of the base units metre, kilogram, second, kelvin and dollar, and of foot, hour and the prefix mega, which are
counted separately because the compute functions that use them contain no conversion -/
structure Dim where
  m : ℚ := 0
  kg : ℚ := 0
  s : ℚ := 0
  K : ℚ := 0
  usd : ℚ := 0
  ft : ℚ := 0
  hr : ℚ := 0
  mega : ℚ := 0
  deriving DecidableEq

instance : Zero Dim := ⟨{}⟩
instance : Add Dim := ⟨fun a b =>
  ⟨a.m + b.m, a.kg + b.kg, a.s + b.s, a.K + b.K, a.usd + b.usd, a.ft + b.ft, a.hr + b.hr, a.mega + b.mega⟩⟩
instance : Sub Dim := ⟨fun a b =>
  ⟨a.m - b.m, a.kg - b.kg, a.s - b.s, a.K - b.K, a.usd - b.usd, a.ft - b.ft, a.hr - b.hr, a.mega - b.mega⟩⟩
instance : SMul ℚ Dim := ⟨fun q a => ⟨q * a.m, q * a.kg, q * a.s, q * a.K, q * a.usd, q * a.ft, q * a.hr, q * a.mega⟩⟩

/-- numbers of the new base unit in one old base unit -/
structure Base where
  m : ℝ
  kg : ℝ
  s : ℝ
  K : ℝ
  usd : ℝ
  ft : ℝ
  hr : ℝ
  mega : ℝ
  hm : 0 < m
  hkg : 0 < kg
  hs : 0 < s
  hK : 0 < K
  husd : 0 < usd
  hft : 0 < ft
  hhr : 0 < hr
  hmega : 0 < mega

/-- factor by which numbers of dimension `d` change -/
noncomputable def Base.w (b : Base) (d : Dim) : ℝ :=
  b.m ^ (d.m : ℝ) * b.kg ^ (d.kg : ℝ) * b.s ^ (d.s : ℝ) * b.K ^ (d.K : ℝ) * b.usd ^ (d.usd : ℝ) * b.ft ^ (d.ft : ℝ)
    * b.hr ^ (d.hr : ℝ) * b.mega ^ (d.mega : ℝ)

namespace D
abbrev m : Dim := {m := 1}
abbrev kg : Dim := {kg := 1}
abbrev s : Dim := {s := 1}
abbrev K : Dim := {K := 1}
abbrev usd : Dim := {usd := 1}
abbrev ft : Dim := {ft := 1}
abbrev hr : Dim := {hr := 1}
abbrev mega : Dim := {mega := 1}
/-- newton -/
abbrev N : Dim := kg + m - s - s
/-- pascal -/
abbrev Pa : Dim := N - m - m
/-- joule -/
abbrev J : Dim := N + m
/-- watt -/
abbrev W : Dim := J - s
end D

/-- dimension of the unit strings used by the components (OpenMDAO's unit library).  Angles and `None` are pure numbers, `rpm` is
a number over time; `degC` stands for the temperature above the freezing point. -/
def dim : String → Dim
  | "m" => D.m
  | "m**2" => D.m + D.m
  | "m **2" => D.m + D.m
  | "ft" => D.ft
  | "ft**2" => D.ft + D.ft
  | "m/s" => D.m - D.s
  | "m / s" => D.m - D.s
  | "m /s" => D.m - D.s
  | "m/s**2" => D.m - D.s - D.s
  | "s" => D.s
  | "rpm" => 0 - D.s
  | "kg" => D.kg
  | "kg/s" => D.kg - D.s
  | "kg/W" => D.kg - D.W
  | "kg/W/s" => D.kg - D.W - D.s
  | "kg/m**2" => D.kg - D.m - D.m
  | "kg/m**3" => D.kg - D.m - D.m - D.m
  | "kg / m**3" => D.kg - D.m - D.m - D.m
  | "kg / m ** 3" => D.kg - D.m - D.m - D.m
  | "kg * m**-3" => D.kg - D.m - D.m - D.m
  | "kg/m/s" => D.kg - D.m - D.s
  | "Pa*s" => D.Pa + D.s
  | "Pa*s/degC" => D.Pa + D.s - D.K
  | "N" => D.N
  | "N * m**-2" => D.N - D.m - D.m
  | "N/m" => D.N - D.m
  | "N/m/degC" => D.N - D.m - D.K
  | "Pa" => D.Pa
  | "MPa" => D.mega + D.Pa
  | "W" => D.W
  | "W*h" => D.W + D.hr
  | "MJ" => D.mega + D.J
  | "W/kg" => D.W - D.kg
  | "W * h / kg" => D.W + D.hr - D.kg
  | "J/kg" => D.J - D.kg
  | "J/kg/K" => D.J - D.kg - D.K
  | "W/m**2" => D.W - D.m - D.m
  | "W/m**2/K" => D.W - D.m - D.m - D.K
  | "m**2*K/W" => D.m + D.m + D.K - D.W
  | "W/m/K" => D.W - D.m - D.K
  | "W/K" => D.W - D.K
  | "K/W" => D.K - D.W
  | "K" => D.K
  | "degC" => D.K
  | "K/s" => D.K - D.s
  | "USD" => D.usd
  | "USD/kg" => D.usd - D.kg
  | "USD/W" => D.usd - D.W
  | "USD/MJ" => D.usd - D.mega - D.J
  | _ => 0

/-- a component as seen by its users at one node: declared variables and documented options with their units, dimensions of the
numerical constants of its formula which are not pure numbers, and its `compute` (`none` where the result is NaN) -/
structure Comp where
  ins : List (String × String)
  opts : List (String × String)
  outs : List (String × String)
  consts : List Dim
  run : (String → ℝ) → String → Option ℝ

/-- the unit declared for an input or documented for an option; `""` for none -/
def Comp.unitOf (c : Comp) (v : String) : String := ((c.ins ++ c.opts).lookup v).getD ""

/-- the same physical inputs expressed in other base units -/
noncomputable def Comp.rescale (c : Comp) (b : Base) (env : String → ℝ) : String → ℝ := fun v => env v * b.w (dim (c.unitOf v))

/-- expressed in any base units in which the constants keep their values, inputs satisfying `dom` give the same physical output -/
def Comp.ConsistentOn (c : Comp) (dom : (String → ℝ) → Prop) : Prop :=
  ∀ b : Base, (∀ d ∈ c.consts, b.w d = 1) → ∀ env, dom env → ∀ o ∈ c.outs,
    c.run (c.rescale b env) o.1 = (c.run env o.1).map (· * b.w (dim o.2))

/-- units are consistent for all inputs -/
def Comp.Consistent (c : Comp) : Prop := c.ConsistentOn fun _ => True

end Verif.Units
