import Verif.Model.Ducts
import Verif.Model.HeatExchanger

/-! Model of the ducted heat exchanger groups of openconcept/thermal/ducts.py (lines 964-1210).

A converged group is the conjunction of the residual equations of its components, one node.  Inputs that the groups leave
unconnected keep the value the component declares: `eta_ram` 1 (ducts.py:790), the loss factors of stations 2 and 3 and of
the nozzle 0 (ducts.py:469, 884).  Units, solver bounds and the initial guess are not modelled. -/

namespace Verif.Ducts

open Real Verif.HX

/-- inputs of `ImplicitCompressibleDuct_ExternalHX`, ducts.py:1098-1210 (`area2`, `area3` are the heat exchanger's frontal
area in the tests and in the group with its own exchanger) -/
structure DuctIn where
  pInf : ℝ
  TInf : ℝ
  U : ℝ
  cp : ℝ
  area1 : ℝ
  dp1 : ℝ
  q1 : ℝ
  rec1 : ℝ
  loss1 : ℝ
  area2 : ℝ
  dp2 : ℝ
  q2 : ℝ
  rec2 : ℝ
  area3 : ℝ
  rec3 : ℝ
  areaN : ℝ
  hack : ℝ
  cfg : ℝ

/-- unknowns of the group -/
structure DuctState where
  mdot : ℝ
  rho1 : ℝ
  M1 : ℝ
  rho2 : ℝ
  M2 : ℝ
  rho3 : ℝ
  M3 : ℝ
  prN : ℝ
  MN : ℝ
  rhoN : ℝ

/-- ducts.py:1128-1144 / 1001-1017: station 1 behind the inlet -/
noncomputable def DuctIn.sta1 (R gam : ℝ) (d : DuctIn) (s : DuctState) : HeatIn where
  Tt := inletTt R gam d.TInf d.U
  pt := inletPt R gam 1 d.pInf d.TInf d.U
  mdot := s.mdot
  rho := s.rho1
  area := d.area1
  dp := d.dp1
  loss := d.loss1
  recov := d.rec1
  heat := d.q1
  cp := d.cp

/-- ducts.py:1146-1159 / 1019-1032: station 2, loss factor unconnected -/
noncomputable def DuctIn.sta2 (R gam : ℝ) (d : DuctIn) (s : DuctState) : HeatIn where
  Tt := ttOut (d.sta1 R gam s)
  pt := ptOut (d.sta1 R gam s)
  mdot := s.mdot
  rho := s.rho2
  area := d.area2
  dp := d.dp2
  loss := 0
  recov := d.rec2
  heat := d.q2
  cp := d.cp

/-- ducts.py:1175-1181 / 1050-1059: station 3 behind the heat exchanger with pressure change `dp` and heat `q` -/
noncomputable def DuctIn.sta3 (R gam : ℝ) (d : DuctIn) (dp q : ℝ) (s : DuctState) : HeatIn where
  Tt := ttOut (d.sta2 R gam s)
  pt := ptOut (d.sta2 R gam s)
  mdot := s.mdot
  rho := s.rho3
  area := d.area3
  dp := dp
  loss := 0
  recov := d.rec3
  heat := q
  cp := d.cp

/-- ducts.py:1183-1199 / 1060-1076: exit pressure `p_inf + convergence_hack` and nozzle, loss factor unconnected -/
noncomputable def DuctIn.nozzle (R gam : ℝ) (d : DuctIn) (dp q : ℝ) (s : DuctState) : Nozzle where
  ptIn := ptOut (d.sta3 R gam dp q s)
  Tt := ttOut (d.sta3 R gam dp q s)
  pExit := d.pInf + d.hack
  area := d.areaN
  loss := 0
  mdot := s.mdot
  pr := s.prN
  M := s.MN

/-- ducts.py:1098-1210: converged group with external heat exchanger.  The stations raise unless the flow is positive
(ducts.py:484). -/
structure DuctIn.Converged (R gam : ℝ) (d : DuctIn) (dp q : ℝ) (s : DuctState) : Prop where
  flow : 0 < s.mdot
  s1 : Station R gam (d.sta1 R gam s) s.M1
  s2 : Station R gam (d.sta2 R gam s) s.M2
  s3 : Station R gam (d.sta3 R gam dp q s) s.M3
  nz : (d.nozzle R gam dp q s).Converged R gam s.rhoN

/-- ducts.py:1201-1210 / 1078-1087: `F_net` of the group -/
noncomputable def DuctIn.force (R gam : ℝ) (d : DuctIn) (dp q : ℝ) (s : DuctState) : ℝ :=
  netForce d.cfg s.mdot d.U d.pInf d.areaN ((d.nozzle R gam dp q s).p gam s.rhoN) s.rhoN

/-- ducts.py:979-994 / 1113-1126: default values of the group's own variables -/
structure DuctIn.Default (d : DuctIn) : Prop where
  dp1 : d.dp1 = 0
  q1 : d.q1 = 0
  rec1 : d.rec1 = 1
  loss1 : d.loss1 = 0
  dp2 : d.dp2 = 0
  q2 : d.q2 = 0
  rec2 : d.rec2 = 1
  rec3 : d.rec3 = 1

/-- inputs of the heat exchanger inside `ImplicitCompressibleDuct`, ducts.py:1034-1047 and the defaults of
heat_exchanger.py:1396-1426; `Kc`, `Ke` are the options of `PressureDrop` -/
structure HxIn where
  geo : Geo
  km : ℝ
  cpc : ℝ
  kc : ℝ
  muc : ℝ
  hot : Fluid
  Kc : ℝ
  Ke : ℝ

/-- ducts.py:1046: the cold side enters with the static temperature of station 2 and the duct's flow -/
noncomputable def HxIn.cold (R gam : ℝ) (x : HxIn) (d : DuctIn) (s : DuctState) : Fluid where
  mdot := s.mdot
  T := tStatic gam (ttOut (d.sta2 R gam s)) s.M2
  cp := x.cpc
  k := x.kc
  mu := x.muc

/-- heat_exchanger.py:1463-1468 -/
noncomputable def HxIn.q (R gam : ℝ) (x : HxIn) (d : DuctIn) (s : DuctState) : ℝ :=
  groupQ (groupNtu x.geo x.km (x.cold R gam d s) x.hot)

/-- heat_exchanger.py:1455, ducts.py:1047: pressure change of the cold side with the density of station 2 -/
noncomputable def HxIn.dpIn (x : HxIn) (s : DuctState) : DpIn where
  L := x.geo.length
  f := friction (f1 x.geo.shapeCold) (f2 x.geo.shapeCold) (reDh s.mdot x.geo.dhCold x.geo.xsCold x.muc)
  mdot := s.mdot
  rho := s.rho2
  dh := x.geo.dhCold
  xs := x.geo.xsCold

/-- heat_exchanger.py:1321-1333 -/
noncomputable def HxIn.dp (x : HxIn) (s : DuctState) : ℝ := deltaP x.Kc x.Ke (x.dpIn s)

/-- ducts.py:964-1087: converged `ImplicitCompressibleDuct`; stations 2 and 3 have the frontal area of the heat exchanger -/
structure DuctIn.ConvergedHx (R gam : ℝ) (d : DuctIn) (x : HxIn) (s : DuctState) : Prop where
  a2 : d.area2 = x.geo.frontal
  a3 : d.area3 = x.geo.frontal
  duct : d.Converged R gam (x.dp s) (x.q R gam d s) s

/-- heat_exchanger.py:1454: coolant temperature leaving the group -/
noncomputable def HxIn.tHotOut (R gam : ℝ) (x : HxIn) (d : DuctIn) (s : DuctState) : ℝ :=
  toutHot (x.q R gam d s) x.hot.mdot x.hot.T x.hot.cp
/-- heat_exchanger.py:1454: air temperature which the heat exchanger reports (unused by the duct) -/
noncomputable def HxIn.tColdOut (R gam : ℝ) (x : HxIn) (d : DuctIn) (s : DuctState) : ℝ :=
  toutCold (x.q R gam d s) s.mdot (x.cold R gam d s).T x.cpc

end Verif.Ducts
