import Verif.Model.Thermal

/-!
Model of `openconcept/thermal/heat_exchanger.py`.  The cold and the hot side use the same formulas; each is modelled once
and both line ranges are cited, unless they differ.  All vector quantities are elementwise.
-/

namespace Verif.HX

open Real

/-- heat_exchanger.py:91-109 inputs of `OffsetStripFinGeometry` -/
structure Geo where
  wc : ℝ
  hc : ℝ
  lc : ℝ
  wh : ℝ
  hh : ℝ
  lh : ℝ
  tf : ℝ
  tp : ℝ
  tc : ℝ
  nWide : ℝ
  nLong : ℝ
  nTall : ℝ
  rho : ℝ

/-- heat_exchanger.py:152 -/
def Geo.height (g : Geo) : ℝ := (2 * (g.tf + g.tp) + g.hc + g.hh) * g.nTall
/-- heat_exchanger.py:153 -/
def Geo.width (g : Geo) : ℝ := (g.tf + g.wc) * g.nWide
/-- heat_exchanger.py:154 -/
def Geo.length (g : Geo) : ℝ := g.lc * g.nLong
/-- heat_exchanger.py:155 -/
def Geo.frontal (g : Geo) : ℝ := g.width * g.height
/-- heat_exchanger.py:160 -/
noncomputable def Geo.dhCold (g : Geo) : ℝ :=
  4 * g.wc * g.hc * g.lc / (2 * (g.wc * g.lc + g.hc * g.lc + g.tf * g.hc) + g.tf * g.wc)
/-- heat_exchanger.py:161 -/
def Geo.xsCold (g : Geo) : ℝ := g.wc * g.hc * g.nWide * g.nTall
/-- heat_exchanger.py:162 -/
def Geo.areaCold (g : Geo) : ℝ := 2 * (g.wc + g.hc) * g.lc * g.nLong * g.nWide * g.nTall
/-- heat_exchanger.py:163 -/
noncomputable def Geo.finRatioCold (g : Geo) : ℝ := g.hc / (g.hc + g.wc)
/-- heat_exchanger.py:164 -/
noncomputable def Geo.contractionCold (g : Geo) : ℝ := g.xsCold / g.frontal
/-- heat_exchanger.py:165-167: `alpha_cold`, `delta_cold`, `gamma_cold` -/
noncomputable def Geo.shapeCold (g : Geo) : ℝ × ℝ × ℝ := (g.wc / g.hc, g.tf / g.lc, g.tf / g.wc)
/-- heat_exchanger.py:169 -/
noncomputable def Geo.nWideHot (g : Geo) : ℝ := g.length / (g.wh + g.tf)
/-- heat_exchanger.py:170 -/
noncomputable def Geo.nLongHot (g : Geo) : ℝ := g.width / g.lh
/-- heat_exchanger.py:172 -/
noncomputable def Geo.dhHot (g : Geo) : ℝ := 2 * g.wh * g.hh / (g.wh + g.hh)
/-- heat_exchanger.py:173 -/
noncomputable def Geo.xsHot (g : Geo) : ℝ := g.wh * g.hh * g.nWideHot * g.nTall
/-- heat_exchanger.py:174 -/
noncomputable def Geo.areaHot (g : Geo) : ℝ := 2 * (g.wh + g.hh) * g.lh * g.nLongHot * g.nWideHot * g.nTall
/-- heat_exchanger.py:175 -/
noncomputable def Geo.finRatioHot (g : Geo) : ℝ := g.hh / (g.hh + g.wh)
/-- heat_exchanger.py:176-178 -/
noncomputable def Geo.contractionHot (g : Geo) : ℝ := g.xsHot / g.height / g.length
/-- heat_exchanger.py:179-181 -/
noncomputable def Geo.shapeHot (g : Geo) : ℝ × ℝ × ℝ := (g.wh / g.hh, g.tf / g.lh, g.tf / g.wh)
/-- heat_exchanger.py:183 -/
def Geo.plateVolume (g : Geo) : ℝ := g.length * g.width * 2 * g.tp * g.nTall
/-- heat_exchanger.py:184-186 -/
noncomputable def Geo.finVolume (g : Geo) : ℝ :=
  (g.wc + g.hc + g.tf) * g.lc * g.nLong * g.tf * g.nWide * g.nTall
    + (g.wh + g.hh + g.tf) * g.lh * g.nLongHot * g.tf * g.nWideHot * g.nTall
/-- heat_exchanger.py:187 -/
def Geo.caseVolume (g : Geo) : ℝ := g.tc * g.length * 2 * (g.height + g.width)
/-- heat_exchanger.py:188 -/
noncomputable def Geo.weight (g : Geo) : ℝ := (g.plateVolume + g.finVolume + g.caseVolume) * g.rho

/-- heat_exchanger.py:262-264, 281-283: factors of the Colburn factor -/
noncomputable def j1 (s : ℝ × ℝ × ℝ) : ℝ := s.1 ^ (-0.1541 : ℝ) * s.2.1 ^ (0.1499 : ℝ) * s.2.2 ^ (-0.0678 : ℝ)
/-- heat_exchanger.py:263, 282 -/
noncomputable def j2 (s : ℝ × ℝ × ℝ) : ℝ := s.1 ^ (0.504 : ℝ) * s.2.1 ^ (0.456 : ℝ) * s.2.2 ^ (-1.055 : ℝ)
/-- heat_exchanger.py:264, 283 -/
noncomputable def f1 (s : ℝ × ℝ × ℝ) : ℝ := s.1 ^ (-0.1856 : ℝ) * s.2.1 ^ (0.3053 : ℝ) * s.2.2 ^ (-0.2659 : ℝ)
/-- heat_exchanger.py:265, 284 -/
noncomputable def f2 (s : ℝ × ℝ × ℝ) : ℝ := s.1 ^ (0.92 : ℝ) * s.2.1 ^ (3.767 : ℝ) * s.2.2 ^ (0.236 : ℝ)

/-- heat_exchanger.py:268-273, 286-288: Colburn factor with factors `a = j1`, `b = j2` -/
noncomputable def colburn (a b Re : ℝ) : ℝ :=
  0.6522 * Re ^ (-0.5403 : ℝ) * a * (1 + 5.269e-5 * Re ^ (1.34 : ℝ) * b) ^ (0.1 : ℝ)
/-- heat_exchanger.py:274-279, 289-291: friction factor with factors `a = f1`, `b = f2` -/
noncomputable def friction (a b Re : ℝ) : ℝ :=
  9.6243 * Re ^ (-0.7422 : ℝ) * a * (1 + 7.669e-8 * Re ^ (4.429 : ℝ) * b) ^ (0.1 : ℝ)
/-- heat_exchanger.py:299-315, 335-351 -/
noncomputable def colburnDRe (a b Re : ℝ) : ℝ :=
  0.6522 * -0.5403 * Re ^ (-1.5403 : ℝ) * a * (1 + 5.269e-5 * Re ^ (1.34 : ℝ) * b) ^ (0.1 : ℝ)
    + 0.6522 * Re ^ (-0.5403 : ℝ) * a * 0.1 * (1 + 5.269e-5 * Re ^ (1.34 : ℝ) * b) ^ (-0.9 : ℝ) * 5.269e-5 * 1.34
      * Re ^ (0.34 : ℝ) * b
/-- heat_exchanger.py:316-328, 352-364 -/
noncomputable def frictionDRe (a b Re : ℝ) : ℝ :=
  9.6243 * -0.7422 * Re ^ (-1.7422 : ℝ) * a * (1 + 7.669e-8 * Re ^ (4.429 : ℝ) * b) ^ (0.1 : ℝ)
    + (9.6243 * Re ^ (-0.7422 : ℝ) * a * 0.1 * (1 + 7.669e-8 * Re ^ (4.429 : ℝ) * b) ^ (-0.9 : ℝ)) * 7.669e-8 * 4.429
      * Re ^ (3.429 : ℝ) * b

open Classical in
/-- heat_exchanger.py:266-267: the cold side check on the whole vector of Reynolds numbers -/
noncomputable def reCheck {n : ℕ} (Re : Fin n → ℝ) : Except String Unit :=
  if ∃ k, Re k ≤ 0 then .error "AnalysisError: one of the Re numbers is negative" else .ok ()

open Classical in
/-- value of the Colburn factor as numpy computes it: a nonpositive Reynolds number gives inf or nan -/
noncomputable def colburnNp (a b Re : ℝ) : Option ℝ := if Re ≤ 0 then none else some (colburn a b Re)

open Classical in
/-- heat_exchanger.py:261-291 `OffsetStripFinData.compute`, Colburn factors of both sides; only the cold Reynolds numbers
are checked -/
noncomputable def osfJ {n : ℕ} (a b a' b' : ℝ) (ReCold ReHot : Fin n → ℝ) :
    Except String ((Fin n → Option ℝ) × (Fin n → Option ℝ)) := do
  reCheck ReCold
  return (fun k => colburnNp a b (ReCold k), fun k => colburnNp a' b' (ReHot k))

/-- heat_exchanger.py:431-432 `HydraulicDiameterReynoldsNumber.compute` -/
noncomputable def reDh (mdot dh xs mu : ℝ) : ℝ := mdot * dh / xs / mu
/-- heat_exchanger.py:436, 444 -/
noncomputable def reDhDmdot (dh xs mu : ℝ) : ℝ := dh / xs / mu
/-- heat_exchanger.py:437, 445 -/
noncomputable def reDhDdh (mdot xs mu : ℝ) : ℝ := mdot / xs / mu
/-- heat_exchanger.py:438-440, 446-448 -/
noncomputable def reDhDxs (mdot dh xs mu : ℝ) : ℝ := -mdot * dh / xs ^ 2 / mu
/-- heat_exchanger.py:441-443, 449-451 -/
noncomputable def reDhDmu (mdot dh xs mu : ℝ) : ℝ := -mdot * dh / xs / mu ^ 2

/-- heat_exchanger.py:524-537 `NusseltFromColburnJ.compute` -/
noncomputable def nusselt (j Re mu cp k : ℝ) : ℝ :=
  j * Re * mu ^ (1 / 3 : ℝ) * cp ^ (1 / 3 : ℝ) / k ^ (1 / 3 : ℝ)
/-- heat_exchanger.py:540-550, 582-592 -/
noncomputable def nusseltDmu (j Re mu cp k : ℝ) : ℝ :=
  1 / 3 * (j * Re * mu ^ (-2 / 3 : ℝ) * cp ^ (1 / 3 : ℝ) / k ^ (1 / 3 : ℝ))
/-- heat_exchanger.py:551-561, 593-603 -/
noncomputable def nusseltDcp (j Re mu cp k : ℝ) : ℝ :=
  1 / 3 * (j * Re * mu ^ (1 / 3 : ℝ) * cp ^ (-2 / 3 : ℝ) / k ^ (1 / 3 : ℝ))
/-- heat_exchanger.py:562-572, 604-614 -/
noncomputable def nusseltDk (j Re mu cp k : ℝ) : ℝ :=
  -1 / 3 * (j * Re * mu ^ (1 / 3 : ℝ) * cp ^ (1 / 3 : ℝ) / k ^ (4 / 3 : ℝ))
/-- heat_exchanger.py:573-578, 615-617 -/
noncomputable def nusseltDj (Re mu cp k : ℝ) : ℝ := Re * mu ^ (1 / 3 : ℝ) * cp ^ (1 / 3 : ℝ) / k ^ (1 / 3 : ℝ)
/-- heat_exchanger.py:579-581, 618-620 -/
noncomputable def nusseltDRe (j mu cp k : ℝ) : ℝ := j * mu ^ (1 / 3 : ℝ) * cp ^ (1 / 3 : ℝ) / k ^ (1 / 3 : ℝ)

/-- heat_exchanger.py:678-679 `ConvectiveCoefficient.compute` -/
noncomputable def hConv (Nu k dh : ℝ) : ℝ := Nu * k / dh
/-- heat_exchanger.py:686-692 -/
noncomputable def hConvD (Nu k dh : ℝ) : ℝ × ℝ × ℝ := (k / dh, Nu / dh, -Nu * k / dh ^ 2)

/-- heat_exchanger.py:776, 787, 803, 828 -/
noncomputable def finM (h k tf : ℝ) : ℝ := √(2 * h / k / tf)
/-- heat_exchanger.py:781, 788, 804, 829 -/
noncomputable def finEta (m l : ℝ) : ℝ := 2 * tanh (m * l / 2) / m / l
/-- heat_exchanger.py:769-789 `FinEfficiency.compute` -/
noncomputable def etaOverall (ratio h l k tf : ℝ) : ℝ := 1 - ratio * (1 - finEta (finM h k tf) l)
/-- heat_exchanger.py:812, 833 -/
noncomputable def finEtaDm (m l : ℝ) : ℝ := (m * l * (cosh (m * l / 2) ^ 2)⁻¹ - 2 * tanh (m * l / 2)) / (m * l) / m
/-- heat_exchanger.py:813, 834 -/
noncomputable def finEtaDl (m l : ℝ) : ℝ := (m * l * (cosh (m * l / 2) ^ 2)⁻¹ - 2 * tanh (m * l / 2)) / (m * l) / l
/-- heat_exchanger.py:807, 828 -/
noncomputable def finMDh (h k tf : ℝ) : ℝ := (2 * h * tf * k) ^ (-1 / 2 : ℝ)
/-- heat_exchanger.py:808, 829 -/
noncomputable def finMDt (h k tf : ℝ) : ℝ := -((h / tf ^ 3 / k / 2) ^ (1 / 2 : ℝ))
/-- heat_exchanger.py:809, 830 -/
noncomputable def finMDk (h k tf : ℝ) : ℝ := -((h / k ^ 3 / tf / 2) ^ (1 / 2 : ℝ))
/-- heat_exchanger.py:814-818, 834-838: partials with respect to ratio, l, tf, k, h -/
noncomputable def etaD (ratio h l k tf : ℝ) : ℝ × ℝ × ℝ × ℝ × ℝ :=
  (finEta (finM h k tf) l - 1, ratio * finEtaDl (finM h k tf) l, ratio * finEtaDm (finM h k tf) l * finMDt h k tf,
   ratio * finEtaDm (finM h k tf) l * finMDk h k tf, ratio * finEtaDm (finM h k tf) l * finMDh h k tf)

/-- heat_exchanger.py:893-898 inputs of `UAOverall` at one node, with the two fouling options -/
structure UAIn where
  hc : ℝ
  Ac : ℝ
  ec : ℝ
  hh : ℝ
  Ah : ℝ
  eh : ℝ
  fc : ℝ
  fh : ℝ

/-- heat_exchanger.py:907 -/
noncomputable def UAIn.Rc (i : UAIn) : ℝ := 1 / i.hc / i.Ac / i.ec
/-- heat_exchanger.py:909 -/
noncomputable def UAIn.Rh (i : UAIn) : ℝ := 1 / i.hh / i.Ah / i.eh
/-- heat_exchanger.py:908, then overwritten at 910: the variable `Rfc` at the end holds the hot fouling resistance -/
noncomputable def UAIn.Rfc (i : UAIn) : ℝ :=
  let _Rfc := i.fc / i.Ac / i.ec
  let Rfc := i.fh / i.Ah / i.eh
  Rfc
/-- heat_exchanger.py:911, 915-918: the total resistance -/
noncomputable def UAIn.R (i : UAIn) : ℝ := i.Rc + i.Rfc + i.Rh + i.Rfc
/-- heat_exchanger.py:906-911 `UAOverall.compute` -/
noncomputable def ua (i : UAIn) : ℝ := 1 / i.R
/-- heat_exchanger.py:920, 937 -/
noncomputable def uaDhc (i : UAIn) : ℝ := -1 / i.R ^ 2 * (-1 / i.hc ^ 2 / i.Ac / i.ec)
/-- heat_exchanger.py:921, 923-925, 938 -/
noncomputable def uaDAc (i : UAIn) : ℝ := -1 / i.R ^ 2 * (-1 / i.hc / i.Ac ^ 2 / i.ec + -i.fc / i.Ac ^ 2 / i.ec)
/-- heat_exchanger.py:922, 926-928, 939 -/
noncomputable def uaDec (i : UAIn) : ℝ := -1 / i.R ^ 2 * (-1 / i.hc / i.Ac / i.ec ^ 2 + -i.fc / i.Ac / i.ec ^ 2)
/-- heat_exchanger.py:930, 940 -/
noncomputable def uaDhh (i : UAIn) : ℝ := -1 / i.R ^ 2 * (-1 / i.hh ^ 2 / i.Ah / i.eh)
/-- heat_exchanger.py:931, 933, 941 -/
noncomputable def uaDAh (i : UAIn) : ℝ := -1 / i.R ^ 2 * (-1 / i.hh / i.Ah ^ 2 / i.eh + -i.fh / i.Ah ^ 2 / i.eh)
/-- heat_exchanger.py:932, 934-936, 942 -/
noncomputable def uaDeh (i : UAIn) : ℝ := -1 / i.R ^ 2 * (-1 / i.hh / i.Ah / i.eh ^ 2 + -i.fh / i.Ah / i.eh ^ 2)

/-- heat_exchanger.py:990-996 inputs of `NTUMethod` at one node -/
structure NtuIn where
  UA : ℝ
  mc : ℝ
  Tc : ℝ
  cpc : ℝ
  mh : ℝ
  Th : ℝ
  cph : ℝ

/-- heat_exchanger.py:1011 -/
def NtuIn.Cc (i : NtuIn) : ℝ := i.mc * i.cpc
/-- heat_exchanger.py:1012 -/
def NtuIn.Ch (i : NtuIn) : ℝ := i.mh * i.cph
open Classical in
/-- heat_exchanger.py:1013-1014 -/
noncomputable def NtuIn.Cmin (i : NtuIn) : ℝ := if i.Cc < i.Ch then i.Cc else i.Ch
open Classical in
/-- heat_exchanger.py:1015 -/
noncomputable def NtuIn.Cmax (i : NtuIn) : ℝ := if i.Cc < i.Ch then i.Ch else i.Cc
/-- heat_exchanger.py:1016 -/
noncomputable def ntu (i : NtuIn) : ℝ := i.UA / i.Cmin
/-- heat_exchanger.py:1017 -/
noncomputable def heatMax (i : NtuIn) : ℝ := (i.Th - i.Tc) * i.Cmin
/-- heat_exchanger.py:1018 -/
noncomputable def cRatio (i : NtuIn) : ℝ := i.Cmin / i.Cmax

open Classical in
/-- heat_exchanger.py:1027-1030: derivatives of `C_min` with respect to mdot_cold, cp_cold, mdot_hot, cp_hot -/
noncomputable def cminD (i : NtuIn) : ℝ × ℝ × ℝ × ℝ :=
  if i.Cc < i.Ch then (i.cpc, i.mc, 0, 0) else (0, 0, i.cph, i.mh)
open Classical in
/-- heat_exchanger.py:1032-1035 -/
noncomputable def cmaxD (i : NtuIn) : ℝ × ℝ × ℝ × ℝ :=
  if i.Cc < i.Ch then (0, 0, i.cph, i.mh) else (i.cpc, i.mc, 0, 0)
/-- heat_exchanger.py:1038-1041: from a derivative `d` of `C_min` -/
noncomputable def ntuD (i : NtuIn) (d : ℝ) : ℝ := -i.UA / i.Cmin ^ 2 * d
/-- heat_exchanger.py:1045-1048 -/
noncomputable def heatMaxD (i : NtuIn) (d : ℝ) : ℝ := (i.Th - i.Tc) * d
/-- heat_exchanger.py:1050-1053 -/
noncomputable def cRatioD (i : NtuIn) (d d' : ℝ) : ℝ := (d * i.Cmax - d' * i.Cmin) / i.Cmax ^ 2

/-- heat_exchanger.py:1094 `CrossFlowNTUEffectiveness.compute` -/
noncomputable def eff (ntu Cr : ℝ) : ℝ := 1 - exp (ntu ^ (0.22 : ℝ) / Cr * (exp (-Cr * ntu ^ (0.78 : ℝ)) - 1))
/-- heat_exchanger.py:1099-1101 -/
noncomputable def effDCr (ntu Cr : ℝ) : ℝ :=
  -exp (ntu ^ (0.22 : ℝ) * (exp (-Cr * ntu ^ (0.78 : ℝ)) - 1) / Cr)
    * (-(ntu ^ (0.22 : ℝ) * (exp (-Cr * ntu ^ (0.78 : ℝ)) - 1)) / Cr ^ 2 - ntu * exp (-Cr * ntu ^ (0.78 : ℝ)) / Cr)
/-- heat_exchanger.py:1102-1105 -/
noncomputable def effDntu (ntu Cr : ℝ) : ℝ :=
  (39 * Cr * ntu ^ (0.78 : ℝ)
      * exp (ntu ^ (0.22 : ℝ) * (exp (-Cr * ntu ^ (0.78 : ℝ)) - 1) / Cr - Cr * ntu ^ (0.78 : ℝ))
    - 11 * exp (ntu ^ (0.22 : ℝ) * (exp (-Cr * ntu ^ (0.78 : ℝ)) - 1) / Cr) * (exp (-Cr * ntu ^ (0.78 : ℝ)) - 1))
    / (50 * Cr * ntu ^ (0.78 : ℝ))

/-- heat_exchanger.py:1145 `NTUEffectivenessActualHeatTransfer.compute` -/
def heatTransfer (e qmax : ℝ) : ℝ := e * qmax

/-- heat_exchanger.py:1211 `OutletTemperatures.compute` -/
noncomputable def toutCold (q mc Tc cpc : ℝ) : ℝ := Tc + q / mc / cpc
/-- heat_exchanger.py:1212 -/
noncomputable def toutHot (q mh Th cph : ℝ) : ℝ := Th - q / mh / cph
/-- heat_exchanger.py:1215-1217: with respect to heat, mdot, cp -/
noncomputable def toutColdD (q mc cpc : ℝ) : ℝ × ℝ × ℝ := (1 / mc / cpc, -q / mc ^ 2 / cpc, -q / mc / cpc ^ 2)
/-- heat_exchanger.py:1218-1220 -/
noncomputable def toutHotD (q mh cph : ℝ) : ℝ × ℝ × ℝ := (-1 / mh / cph, q / mh ^ 2 / cph, q / mh / cph ^ 2)

/-- heat_exchanger.py:1295-1312 inputs of `PressureDrop`, one side (`L` is length_overall or width_overall) -/
structure DpIn where
  L : ℝ
  f : ℝ
  mdot : ℝ
  rho : ℝ
  dh : ℝ
  xs : ℝ

/-- heat_exchanger.py:1322-1323 -/
noncomputable def dynP (i : DpIn) : ℝ := 1 / 2 * (i.mdot / i.xs) ^ 2 / i.rho
/-- heat_exchanger.py:1342-1343 -/
noncomputable def losses (Kc Ke : ℝ) (i : DpIn) : ℝ := -Ke - Kc - 4 * i.L * i.f / i.dh
/-- heat_exchanger.py:1321-1333 `PressureDrop.compute` -/
noncomputable def deltaP (Kc Ke : ℝ) (i : DpIn) : ℝ := dynP i * losses Kc Ke i
/-- heat_exchanger.py:1345-1365: with respect to mdot, rho, f, xs, L, dh -/
noncomputable def deltaPD (Kc Ke : ℝ) (i : DpIn) : ℝ × ℝ × ℝ × ℝ × ℝ × ℝ :=
  (i.mdot / i.xs ^ 2 / i.rho * losses Kc Ke i, -dynP i / i.rho * losses Kc Ke i, dynP i * (-4 * i.L / i.dh),
   -2 * dynP i / i.xs * losses Kc Ke i, dynP i * (-4 * i.f / i.dh), dynP i * (4 * i.L * i.f / i.dh ^ 2))

/-- fluid properties of one side, heat_exchanger.py:1425-1440 -/
structure Fluid where
  mdot : ℝ
  T : ℝ
  cp : ℝ
  k : ℝ
  mu : ℝ

/-- heat_exchanger.py:1452-1459 film coefficient of one side of `HXGroup` -/
noncomputable def sideH (s : ℝ × ℝ × ℝ) (dh xs : ℝ) (f : Fluid) : ℝ :=
  hConv (nusselt (colburn (j1 s) (j2 s) (reDh f.mdot dh xs f.mu)) (reDh f.mdot dh xs f.mu) f.mu f.cp f.k) f.k dh

/-- heat_exchanger.py:1461 inputs of the conductance in `HXGroup` (fouling options keep their default 0) -/
noncomputable def groupUA (g : Geo) (km : ℝ) (c h : Fluid) : UAIn where
  hc := sideH g.shapeCold g.dhCold g.xsCold c
  Ac := g.areaCold
  ec := etaOverall g.finRatioCold (sideH g.shapeCold g.dhCold g.xsCold c) g.hc km g.tf
  hh := sideH g.shapeHot g.dhHot g.xsHot h
  Ah := g.areaHot
  eh := etaOverall g.finRatioHot (sideH g.shapeHot g.dhHot g.xsHot h) g.hh km g.tf
  fc := 0
  fh := 0

/-- heat_exchanger.py:1462 -/
noncomputable def groupNtu (g : Geo) (km : ℝ) (c h : Fluid) : NtuIn :=
  ⟨ua (groupUA g km c h), c.mdot, c.T, c.cp, h.mdot, h.T, h.cp⟩
/-- heat_exchanger.py:1463-1468 heat transferred by `HXGroup` -/
noncomputable def groupQ (i : NtuIn) : ℝ := heatTransfer (eff (ntu i) (cRatio i)) (heatMax i)

end Verif.HX
