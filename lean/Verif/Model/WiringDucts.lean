import Verif.Model.Wiring

/-!
The groups of openconcept/thermal/ducts.py and heat_exchanger.py as written: subsystems, promotions and connections.
The options `R` and `gamma` of the gas components, which the groups leave at their defaults, are found in the options of the group.
-/

namespace Verif.Wiring

open Verif.Units Verif.VectorComps

/-- ducts.py:787-796: total pressure behind the inlet -/
def ramRecovery : Sys :=
  exec [⟨"pt_in", "Pa", true, true⟩, ⟨"eta_ram", "", true, true⟩] ⟨"pt", "Pa", true, true⟩ fun e => e "pt_in" * e "eta_ram"

/-- ducts.py:774-798 `Inlet.setup` -/
noncomputable def inlet : Grp where
  subs :=
    [⟨"speedsound", explicit dDuctSpeedOfSound, .all, .all⟩,
     ⟨"mach", explicit dDuctMachFromSpeed, .all, .all⟩,
     ⟨"freestreamtotaltemperature", explicit dDuctTotalTemperature, .all, .all⟩,
     ⟨"freestreamtotalpressure", explicit dDuctTotalPressure, .all, names []⟩,
     ⟨"totalpressure", ramRecovery, names [], names ["pt"]⟩]
  conns := [("freestreamtotalpressure.pt", "totalpressure.pt_in")]

/-- ducts.py:833-845 `DuctStation.setup` -/
noncomputable def station : Grp where
  subs :=
    [⟨"totals", explicit dHeatAddition, .all, .all⟩,
     ⟨"temp", explicit dDuctTemperature, names ["M"], .all⟩,
     ⟨"pressure", explicit dDuctPressure, names ["M"], .all⟩,
     ⟨"density", explicit dDuctDensity, .all, .all⟩,
     ⟨"speedsound", explicit dDuctSpeedOfSound, .all, .all⟩,
     ⟨"mach", implicit dMachDuct, .all, .all⟩]
  conns := [("Tt_out", "temp.Tt"), ("pt_out", "pressure.pt")]

/-- ducts.py:943-961 `OutletNozzle.setup` -/
noncomputable def nozzle : Grp where
  subs :=
    [⟨"pressureloss", explicit dNozzleLoss, .all, .all⟩,
     ⟨"pressureratio", implicit dExitRatio, .all, .all⟩,
     ⟨"machimplicit", explicit dExitMachComp, .all, .all⟩,
     ⟨"temp", explicit dDuctTemperature, .all, .all⟩,
     ⟨"pressure", explicit dDuctPressure, .all, .all⟩,
     ⟨"density", explicit dDuctDensity, .all, .all⟩,
     ⟨"speedsound", explicit dDuctSpeedOfSound, .all, .all⟩,
     ⟨"massflow", explicit dMassFlow, .all, .only [("mdot", "mdot_actual")]⟩]

/-- heat_exchanger.py:1391-1460 `HXGroup.setup` -/
noncomputable def hxGroup : Grp where
  subs :=
    [⟨"dvpassthru", label [("ac|propulsion|thermal|hx|n_wide_cold", "n_wide_cold", false, ""),
        ("ac|propulsion|thermal|hx|n_long_cold", "n_long_cold", false, ""),
        ("ac|propulsion|thermal|hx|n_tall", "n_tall", false, "")], .all, .all⟩,
     ⟨"osfgeometry", explicit dFinGeometry, .all, .all⟩,
     ⟨"redh", explicit dReynoldsDh, .all, .all⟩,
     ⟨"osfdata", explicit dFinData, .all, .all⟩,
     ⟨"nusselt", explicit dNusseltColburn, .all, .all⟩,
     ⟨"convection", explicit dConvection, .all, .all⟩,
     ⟨"finefficiency", explicit dFinEfficiency, .all, .all⟩,
     ⟨"ua", explicit dUaOverall, .all, .all⟩,
     ⟨"ntu", explicit dNtuMethod, .all, .all⟩,
     ⟨"effectiveness", explicit dCrossFlow, .all, .all⟩,
     ⟨"heat", explicit dHeatTransfer, .all, .all⟩,
     ⟨"t_out", explicit dOutletTemperatures, .all, .all⟩,
     ⟨"delta_p", explicit dPressureDrop, .all, .all⟩]
  defaults := [("case_thickness", "mm"), ("fin_thickness", "mm"), ("plate_thickness", "mm"), ("material_k", "W/m/K"),
    ("material_rho", "kg/m**3"), ("channel_height_cold", "mm"), ("channel_width_cold", "mm"), ("fin_length_cold", "mm"),
    ("cp_cold", "J/kg/K"), ("k_cold", "W/m/K"), ("mu_cold", "kg/m/s"), ("channel_height_hot", "mm"), ("channel_width_hot", "mm"),
    ("fin_length_hot", "mm"), ("cp_hot", "J/kg/K"), ("k_hot", "W/m/K"), ("mu_hot", "kg/m/s")]

/-- ducts.py:1062-1067: pressure at the exit -/
def exitPressure : AddSys ℝ := ⟨"p_exit", ["p_inf", "convergence_hack"], .each [2, 1], 1, none, ⟨some (some "Pa"), none⟩⟩

/-- promotions of stations 1 and 2 -/
def staIn (n : String) : Promo :=
  .only [("mdot", "mdot"), ("cp", "cp"), ("area", "area_" ++ n), ("delta_p", "delta_p_" ++ n), ("heat_in", "heat_in_" ++ n),
    ("pressure_recovery", "pressure_recovery_" ++ n)]

/-- ducts.py:979-994: variables of the group's own -/
def ductVars : List Var :=
  [⟨"cp", "J/kg/K", false, true⟩, ⟨"area_1", "inch**2", false, true⟩, ⟨"delta_p_1", "Pa", true, true⟩,
   ⟨"heat_in_1", "W", true, true⟩, ⟨"pressure_recovery_1", "", true, true⟩, ⟨"loss_factor_1", "", false, true⟩,
   ⟨"delta_p_2", "Pa", true, true⟩, ⟨"heat_in_2", "W", true, true⟩, ⟨"pressure_recovery_2", "", true, true⟩,
   ⟨"pressure_recovery_3", "", true, true⟩, ⟨"convergence_hack", "Pa", false, true⟩]

/-- ducts.py:974-1082 `ImplicitCompressibleDuct.setup`.  The patterns of `promotes_outputs` (line 978) cover all variables of `dv`. -/
noncomputable def ductHx : Grp where
  subs :=
    [⟨"dv", indep (ductVars ++ [⟨"area_nozzle", "inch**2", true, true⟩]), names [], .all⟩,
     ⟨"mdotguess", implicit dFlowMatcher, .all, .all⟩,
     ⟨"inlet", inlet.sys, .only [("p", "p_inf"), ("T", "T_inf"), ("Utrue", "Utrue")], names []⟩,
     ⟨"sta1", station.sys, staIn "1", names []⟩,
     ⟨"sta2", station.sys, staIn "2", names []⟩,
     ⟨"hx", hxGroup.sys, .only [("mdot_cold", "mdot"), ("mdot_hot", "mdot_hot"), ("T_in_hot", "T_in_hot"), ("rho_hot", "rho_hot"),
        ("ac|propulsion|thermal|hx|n_wide_cold", "ac|propulsion|thermal|hx|n_wide_cold")], names ["T_out_hot"]⟩,
     ⟨"sta3", station.sys, .only [("mdot", "mdot"), ("cp", "cp"), ("pressure_recovery", "pressure_recovery_3"),
        ("area", "area_3")], names []⟩,
     ⟨"pexit", sum exitPressure fun n => n != "convergence_hack", .all, .all⟩,
     ⟨"nozzle", nozzle.sys, .only [("mdot", "mdot"), ("p_exit", "p_exit"), ("area", "area_nozzle")], names ["mdot_actual"]⟩,
     ⟨"force", explicit dNetForce, .only [("mdot", "mdot"), ("p_inf", "p_inf"), ("Utrue_inf", "Utrue"),
        ("area_nozzle", "area_nozzle")], names []⟩]
  conns := [("inlet.pt", "sta1.pt_in"), ("inlet.Tt", "sta1.Tt_in"), ("loss_factor_1", "sta1.dynamic_pressure_loss_factor"),
    ("sta1.pt_out", "sta2.pt_in"), ("sta1.Tt_out", "sta2.Tt_in"), ("sta2.T", "hx.T_in_cold"), ("sta2.rho", "hx.rho_cold"),
    ("sta2.pt_out", "sta3.pt_in"), ("sta2.Tt_out", "sta3.Tt_in"), ("hx.delta_p_cold", "sta3.delta_p"),
    ("hx.heat_transfer", "sta3.heat_in"), ("hx.frontal_area", "area_2"), ("hx.frontal_area", "area_3"),
    ("sta3.pt_out", "nozzle.pt_in"), ("sta3.Tt_out", "nozzle.Tt"), ("nozzle.p", "force.p_nozzle"),
    ("nozzle.rho", "force.rho_nozzle")]

/-- ducts.py:1110-1210 `ImplicitCompressibleDuct_ExternalHX.setup` -/
noncomputable def duct : Grp where
  subs :=
    [⟨"dv", indep ductVars, names [], .all⟩,
     ⟨"dvpassthru", label [("area_nozzle_in", "area_nozzle", true, "inch**2")], .all, .all⟩,
     ⟨"mdotguess", implicit dFlowMatcher, .all, .all⟩,
     ⟨"inlet", inlet.sys, .only [("p", "p_inf"), ("T", "T_inf"), ("Utrue", "Utrue")], names []⟩,
     ⟨"sta1", station.sys, staIn "1", names []⟩,
     ⟨"sta2", station.sys, staIn "2", names []⟩,
     ⟨"sta3", station.sys, .only [("mdot", "mdot"), ("cp", "cp"), ("pressure_recovery", "pressure_recovery_3"),
        ("area", "area_3")], names []⟩,
     ⟨"pexit", sum exitPressure fun n => n != "convergence_hack", .all, .all⟩,
     ⟨"nozzle", nozzle.sys, .only [("mdot", "mdot"), ("p_exit", "p_exit"), ("area", "area_nozzle")], names ["mdot_actual"]⟩,
     ⟨"force", explicit dNetForce, .only [("mdot", "mdot"), ("p_inf", "p_inf"), ("Utrue_inf", "Utrue"),
        ("area_nozzle", "area_nozzle")], names []⟩]
  conns := [("inlet.pt", "sta1.pt_in"), ("inlet.Tt", "sta1.Tt_in"), ("loss_factor_1", "sta1.dynamic_pressure_loss_factor"),
    ("sta1.pt_out", "sta2.pt_in"), ("sta1.Tt_out", "sta2.Tt_in"),
    ("sta2.pt_out", "sta3.pt_in"), ("sta2.Tt_out", "sta3.Tt_in"),
    ("sta3.pt_out", "nozzle.pt_in"), ("sta3.Tt_out", "nozzle.Tt"), ("nozzle.p", "force.p_nozzle"),
    ("nozzle.rho", "force.rho_nozzle")]

end Verif.Wiring
