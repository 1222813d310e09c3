import Verif.Model.WiringDucts
import Verif.Proof.Wiring

/-! Where the variables of the subsystems of each group are found, computed from the tables of the groups. -/

namespace Verif.Wiring

theorem inlet_links : inlet.links =
    [⟨"speedsound", "a", "a", "m/s", "m/s"⟩, ⟨"speedsound", "T", "T", "K", "K"⟩, ⟨"mach", "M", "M", "", ""⟩,
     ⟨"mach", "a", "a", "m/s", "m/s"⟩, ⟨"mach", "Utrue", "Utrue", "m/s", "m/s"⟩,
     ⟨"freestreamtotaltemperature", "Tt", "Tt", "K", "K"⟩, ⟨"freestreamtotaltemperature", "T", "T", "K", "K"⟩,
     ⟨"freestreamtotaltemperature", "M", "M", "", ""⟩,
     ⟨"freestreamtotalpressure", "pt", "freestreamtotalpressure.pt", "Pa", "Pa"⟩,
     ⟨"freestreamtotalpressure", "p", "p", "Pa", "Pa"⟩, ⟨"freestreamtotalpressure", "M", "M", "", ""⟩,
     ⟨"totalpressure", "pt", "pt", "Pa", "Pa"⟩, ⟨"totalpressure", "pt_in", "freestreamtotalpressure.pt", "Pa", "Pa"⟩,
     ⟨"totalpressure", "eta_ram", "totalpressure.eta_ram", "", ""⟩] := by
  decide +kernel

theorem station_links : station.links =
    [⟨"totals", "Tt_out", "Tt_out", "K", "K"⟩, ⟨"totals", "pt_out", "pt_out", "Pa", "Pa"⟩,
     ⟨"totals", "Tt_in", "Tt_in", "K", "K"⟩, ⟨"totals", "pt_in", "pt_in", "Pa", "Pa"⟩,
     ⟨"totals", "mdot", "mdot", "kg/s", "kg/s"⟩, ⟨"totals", "rho", "rho", "kg/m**3", "kg/m**3"⟩,
     ⟨"totals", "area", "area", "m**2", "m**2"⟩, ⟨"totals", "delta_p", "delta_p", "Pa", "Pa"⟩,
     ⟨"totals", "dynamic_pressure_loss_factor", "dynamic_pressure_loss_factor", "", ""⟩,
     ⟨"totals", "pressure_recovery", "pressure_recovery", "", ""⟩, ⟨"totals", "heat_in", "heat_in", "W", "W"⟩,
     ⟨"totals", "cp", "cp", "J/kg/K", "J/kg/K"⟩, ⟨"temp", "T", "T", "K", "K"⟩, ⟨"temp", "Tt", "Tt_out", "K", "K"⟩,
     ⟨"temp", "M", "M", "", ""⟩, ⟨"pressure", "p", "p", "Pa", "Pa"⟩, ⟨"pressure", "pt", "pt_out", "Pa", "Pa"⟩,
     ⟨"pressure", "M", "M", "", ""⟩, ⟨"density", "rho", "rho", "kg/m**3", "kg/m**3"⟩, ⟨"density", "p", "p", "Pa", "Pa"⟩,
     ⟨"density", "T", "T", "K", "K"⟩, ⟨"speedsound", "a", "a", "m/s", "m/s"⟩, ⟨"speedsound", "T", "T", "K", "K"⟩,
     ⟨"mach", "M", "M", "", ""⟩, ⟨"mach", "mdot", "mdot", "kg/s", "kg/s"⟩, ⟨"mach", "a", "a", "m/s", "m/s"⟩,
     ⟨"mach", "area", "area", "m**2", "m**2"⟩, ⟨"mach", "rho", "rho", "kg/m**3", "kg/m**3"⟩] := by
  decide +kernel

theorem nozzle_links : nozzle.links =
    [⟨"pressureloss", "pt", "pt", "Pa", "Pa"⟩, ⟨"pressureloss", "pt_in", "pt_in", "Pa", "Pa"⟩,
     ⟨"pressureloss", "mdot", "mdot", "kg/s", "kg/s"⟩, ⟨"pressureloss", "rho", "rho", "kg/m**3", "kg/m**3"⟩,
     ⟨"pressureloss", "area", "area", "m**2", "m**2"⟩,
     ⟨"pressureloss", "dynamic_pressure_loss_factor", "dynamic_pressure_loss_factor", "", ""⟩,
     ⟨"pressureratio", "nozzle_pressure_ratio", "nozzle_pressure_ratio", "", ""⟩,
     ⟨"pressureratio", "p_exit", "p_exit", "Pa", "Pa"⟩, ⟨"pressureratio", "pt", "pt", "Pa", "Pa"⟩,
     ⟨"machimplicit", "M", "M", "", ""⟩, ⟨"machimplicit", "nozzle_pressure_ratio", "nozzle_pressure_ratio", "", ""⟩,
     ⟨"temp", "T", "T", "K", "K"⟩, ⟨"temp", "Tt", "Tt", "K", "K"⟩, ⟨"temp", "M", "M", "", ""⟩,
     ⟨"pressure", "p", "p", "Pa", "Pa"⟩, ⟨"pressure", "pt", "pt", "Pa", "Pa"⟩, ⟨"pressure", "M", "M", "", ""⟩,
     ⟨"density", "rho", "rho", "kg/m**3", "kg/m**3"⟩, ⟨"density", "p", "p", "Pa", "Pa"⟩, ⟨"density", "T", "T", "K", "K"⟩,
     ⟨"speedsound", "a", "a", "m/s", "m/s"⟩, ⟨"speedsound", "T", "T", "K", "K"⟩,
     ⟨"massflow", "mdot", "mdot_actual", "kg/s", "kg/s"⟩, ⟨"massflow", "a", "a", "m/s", "m/s"⟩,
     ⟨"massflow", "area", "area", "m**2", "m**2"⟩, ⟨"massflow", "rho", "rho", "kg/m**3", "kg/m**3"⟩,
     ⟨"massflow", "M", "M", "", ""⟩] := by
  decide +kernel

theorem hxGroup_links : hxGroup.links =
    [⟨"dvpassthru", "n_wide_cold", "n_wide_cold", "", ""⟩, ⟨"dvpassthru", "n_long_cold", "n_long_cold", "", ""⟩,
     ⟨"dvpassthru", "n_tall", "n_tall", "", ""⟩,
     ⟨"dvpassthru", "ac|propulsion|thermal|hx|n_wide_cold", "ac|propulsion|thermal|hx|n_wide_cold", "", ""⟩,
     ⟨"dvpassthru", "ac|propulsion|thermal|hx|n_long_cold", "ac|propulsion|thermal|hx|n_long_cold", "", ""⟩,
     ⟨"dvpassthru", "ac|propulsion|thermal|hx|n_tall", "ac|propulsion|thermal|hx|n_tall", "", ""⟩,
     ⟨"osfgeometry", "component_weight", "component_weight", "kg", "kg"⟩,
     ⟨"osfgeometry", "length_overall", "length_overall", "m", "m"⟩,
     ⟨"osfgeometry", "height_overall", "height_overall", "m", "m"⟩,
     ⟨"osfgeometry", "width_overall", "width_overall", "m", "m"⟩,
     ⟨"osfgeometry", "frontal_area", "frontal_area", "m**2", "m**2"⟩,
     ⟨"osfgeometry", "xs_area_cold", "xs_area_cold", "m**2", "m**2"⟩,
     ⟨"osfgeometry", "heat_transfer_area_cold", "heat_transfer_area_cold", "m**2", "m**2"⟩,
     ⟨"osfgeometry", "dh_cold", "dh_cold", "m", "m"⟩, ⟨"osfgeometry", "fin_area_ratio_cold", "fin_area_ratio_cold", "", ""⟩,
     ⟨"osfgeometry", "contraction_ratio_cold", "contraction_ratio_cold", "", ""⟩,
     ⟨"osfgeometry", "alpha_cold", "alpha_cold", "", ""⟩, ⟨"osfgeometry", "delta_cold", "delta_cold", "", ""⟩,
     ⟨"osfgeometry", "gamma_cold", "gamma_cold", "", ""⟩, ⟨"osfgeometry", "xs_area_hot", "xs_area_hot", "m**2", "m**2"⟩,
     ⟨"osfgeometry", "heat_transfer_area_hot", "heat_transfer_area_hot", "m**2", "m**2"⟩,
     ⟨"osfgeometry", "dh_hot", "dh_hot", "m", "m"⟩, ⟨"osfgeometry", "fin_area_ratio_hot", "fin_area_ratio_hot", "", ""⟩,
     ⟨"osfgeometry", "contraction_ratio_hot", "contraction_ratio_hot", "", ""⟩,
     ⟨"osfgeometry", "alpha_hot", "alpha_hot", "", ""⟩, ⟨"osfgeometry", "delta_hot", "delta_hot", "", ""⟩,
     ⟨"osfgeometry", "gamma_hot", "gamma_hot", "", ""⟩, ⟨"osfgeometry", "channel_width_hot", "channel_width_hot", "mm", "m"⟩,
     ⟨"osfgeometry", "channel_height_hot", "channel_height_hot", "mm", "m"⟩,
     ⟨"osfgeometry", "fin_length_hot", "fin_length_hot", "mm", "m"⟩,
     ⟨"osfgeometry", "channel_width_cold", "channel_width_cold", "mm", "m"⟩,
     ⟨"osfgeometry", "channel_height_cold", "channel_height_cold", "mm", "m"⟩,
     ⟨"osfgeometry", "fin_length_cold", "fin_length_cold", "mm", "m"⟩,
     ⟨"osfgeometry", "fin_thickness", "fin_thickness", "mm", "m"⟩,
     ⟨"osfgeometry", "plate_thickness", "plate_thickness", "mm", "m"⟩,
     ⟨"osfgeometry", "case_thickness", "case_thickness", "mm", "m"⟩, ⟨"osfgeometry", "n_wide_cold", "n_wide_cold", "", ""⟩,
     ⟨"osfgeometry", "n_long_cold", "n_long_cold", "", ""⟩, ⟨"osfgeometry", "n_tall", "n_tall", "", ""⟩,
     ⟨"osfgeometry", "material_rho", "material_rho", "kg/m**3", "kg/m**3"⟩, ⟨"redh", "Re_dh_cold", "Re_dh_cold", "", ""⟩,
     ⟨"redh", "Re_dh_hot", "Re_dh_hot", "", ""⟩, ⟨"redh", "mdot_cold", "mdot_cold", "kg/s", "kg/s"⟩,
     ⟨"redh", "mu_cold", "mu_cold", "kg/m/s", "kg/m/s"⟩, ⟨"redh", "xs_area_cold", "xs_area_cold", "m**2", "m**2"⟩,
     ⟨"redh", "dh_cold", "dh_cold", "m", "m"⟩, ⟨"redh", "mdot_hot", "mdot_hot", "kg/s", "kg/s"⟩,
     ⟨"redh", "mu_hot", "mu_hot", "kg/m/s", "kg/m/s"⟩, ⟨"redh", "xs_area_hot", "xs_area_hot", "m**2", "m**2"⟩,
     ⟨"redh", "dh_hot", "dh_hot", "m", "m"⟩, ⟨"osfdata", "j_cold", "j_cold", "", ""⟩,
     ⟨"osfdata", "f_cold", "f_cold", "", ""⟩, ⟨"osfdata", "j_hot", "j_hot", "", ""⟩, ⟨"osfdata", "f_hot", "f_hot", "", ""⟩,
     ⟨"osfdata", "Re_dh_cold", "Re_dh_cold", "", ""⟩, ⟨"osfdata", "alpha_cold", "alpha_cold", "", ""⟩,
     ⟨"osfdata", "delta_cold", "delta_cold", "", ""⟩, ⟨"osfdata", "gamma_cold", "gamma_cold", "", ""⟩,
     ⟨"osfdata", "Re_dh_hot", "Re_dh_hot", "", ""⟩, ⟨"osfdata", "alpha_hot", "alpha_hot", "", ""⟩,
     ⟨"osfdata", "delta_hot", "delta_hot", "", ""⟩, ⟨"osfdata", "gamma_hot", "gamma_hot", "", ""⟩,
     ⟨"nusselt", "Nu_dh_cold", "Nu_dh_cold", "", ""⟩, ⟨"nusselt", "Nu_dh_hot", "Nu_dh_hot", "", ""⟩,
     ⟨"nusselt", "Re_dh_cold", "Re_dh_cold", "", ""⟩, ⟨"nusselt", "j_cold", "j_cold", "", ""⟩,
     ⟨"nusselt", "k_cold", "k_cold", "W/m/K", "W/m/K"⟩, ⟨"nusselt", "mu_cold", "mu_cold", "kg/m/s", "kg/m/s"⟩,
     ⟨"nusselt", "cp_cold", "cp_cold", "J/kg/K", "J/kg/K"⟩, ⟨"nusselt", "Re_dh_hot", "Re_dh_hot", "", ""⟩,
     ⟨"nusselt", "j_hot", "j_hot", "", ""⟩, ⟨"nusselt", "k_hot", "k_hot", "W/m/K", "W/m/K"⟩,
     ⟨"nusselt", "mu_hot", "mu_hot", "kg/m/s", "kg/m/s"⟩, ⟨"nusselt", "cp_hot", "cp_hot", "J/kg/K", "J/kg/K"⟩,
     ⟨"convection", "h_conv_cold", "h_conv_cold", "W/m**2/K", "W/m**2/K"⟩,
     ⟨"convection", "h_conv_hot", "h_conv_hot", "W/m**2/K", "W/m**2/K"⟩, ⟨"convection", "Nu_dh_cold", "Nu_dh_cold", "", ""⟩,
     ⟨"convection", "dh_cold", "dh_cold", "m", "m"⟩, ⟨"convection", "k_cold", "k_cold", "W/m/K", "W/m/K"⟩,
     ⟨"convection", "Nu_dh_hot", "Nu_dh_hot", "", ""⟩, ⟨"convection", "dh_hot", "dh_hot", "m", "m"⟩,
     ⟨"convection", "k_hot", "k_hot", "W/m/K", "W/m/K"⟩, ⟨"finefficiency", "eta_overall_cold", "eta_overall_cold", "", ""⟩,
     ⟨"finefficiency", "eta_overall_hot", "eta_overall_hot", "", ""⟩,
     ⟨"finefficiency", "h_conv_cold", "h_conv_cold", "W/m**2/K", "W/m**2/K"⟩,
     ⟨"finefficiency", "fin_area_ratio_cold", "fin_area_ratio_cold", "", ""⟩,
     ⟨"finefficiency", "channel_height_cold", "channel_height_cold", "mm", "m"⟩,
     ⟨"finefficiency", "h_conv_hot", "h_conv_hot", "W/m**2/K", "W/m**2/K"⟩,
     ⟨"finefficiency", "fin_area_ratio_hot", "fin_area_ratio_hot", "", ""⟩,
     ⟨"finefficiency", "channel_height_hot", "channel_height_hot", "mm", "m"⟩,
     ⟨"finefficiency", "fin_thickness", "fin_thickness", "mm", "m"⟩,
     ⟨"finefficiency", "material_k", "material_k", "W/m/K", "W/m/K"⟩, ⟨"ua", "UA_overall", "UA_overall", "W/K", "W/K"⟩,
     ⟨"ua", "h_conv_cold", "h_conv_cold", "W/m**2/K", "W/m**2/K"⟩,
     ⟨"ua", "heat_transfer_area_cold", "heat_transfer_area_cold", "m**2", "m**2"⟩,
     ⟨"ua", "eta_overall_cold", "eta_overall_cold", "", ""⟩, ⟨"ua", "h_conv_hot", "h_conv_hot", "W/m**2/K", "W/m**2/K"⟩,
     ⟨"ua", "heat_transfer_area_hot", "heat_transfer_area_hot", "m**2", "m**2"⟩,
     ⟨"ua", "eta_overall_hot", "eta_overall_hot", "", ""⟩, ⟨"ntu", "NTU", "NTU", "", ""⟩,
     ⟨"ntu", "heat_max", "heat_max", "W", "W"⟩, ⟨"ntu", "C_ratio", "C_ratio", "", ""⟩,
     ⟨"ntu", "UA_overall", "UA_overall", "W/K", "W/K"⟩, ⟨"ntu", "mdot_cold", "mdot_cold", "kg/s", "kg/s"⟩,
     ⟨"ntu", "T_in_cold", "T_in_cold", "K", "K"⟩, ⟨"ntu", "cp_cold", "cp_cold", "J/kg/K", "J/kg/K"⟩,
     ⟨"ntu", "mdot_hot", "mdot_hot", "kg/s", "kg/s"⟩, ⟨"ntu", "T_in_hot", "T_in_hot", "K", "K"⟩,
     ⟨"ntu", "cp_hot", "cp_hot", "J/kg/K", "J/kg/K"⟩, ⟨"effectiveness", "effectiveness", "effectiveness", "", ""⟩,
     ⟨"effectiveness", "NTU", "NTU", "", ""⟩, ⟨"effectiveness", "C_ratio", "C_ratio", "", ""⟩,
     ⟨"heat", "heat_transfer", "heat_transfer", "W", "W"⟩, ⟨"heat", "effectiveness", "effectiveness", "", ""⟩,
     ⟨"heat", "heat_max", "heat_max", "W", "W"⟩, ⟨"t_out", "T_out_cold", "T_out_cold", "K", "K"⟩,
     ⟨"t_out", "T_out_hot", "T_out_hot", "K", "K"⟩, ⟨"t_out", "heat_transfer", "heat_transfer", "W", "W"⟩,
     ⟨"t_out", "mdot_cold", "mdot_cold", "kg/s", "kg/s"⟩, ⟨"t_out", "T_in_cold", "T_in_cold", "K", "K"⟩,
     ⟨"t_out", "cp_cold", "cp_cold", "J/kg/K", "J/kg/K"⟩, ⟨"t_out", "mdot_hot", "mdot_hot", "kg/s", "kg/s"⟩,
     ⟨"t_out", "T_in_hot", "T_in_hot", "K", "K"⟩, ⟨"t_out", "cp_hot", "cp_hot", "J/kg/K", "J/kg/K"⟩,
     ⟨"delta_p", "delta_p_cold", "delta_p_cold", "Pa", "Pa"⟩, ⟨"delta_p", "delta_p_hot", "delta_p_hot", "Pa", "Pa"⟩,
     ⟨"delta_p", "length_overall", "length_overall", "m", "m"⟩, ⟨"delta_p", "width_overall", "width_overall", "m", "m"⟩,
     ⟨"delta_p", "f_cold", "f_cold", "", ""⟩, ⟨"delta_p", "mdot_cold", "mdot_cold", "kg/s", "kg/s"⟩,
     ⟨"delta_p", "rho_cold", "rho_cold", "kg/m**3", "kg/m**3"⟩, ⟨"delta_p", "dh_cold", "dh_cold", "m", "m"⟩,
     ⟨"delta_p", "xs_area_cold", "xs_area_cold", "m**2", "m**2"⟩, ⟨"delta_p", "f_hot", "f_hot", "", ""⟩,
     ⟨"delta_p", "mdot_hot", "mdot_hot", "kg/s", "kg/s"⟩, ⟨"delta_p", "rho_hot", "rho_hot", "kg/m**3", "kg/m**3"⟩,
     ⟨"delta_p", "dh_hot", "dh_hot", "m", "m"⟩, ⟨"delta_p", "xs_area_hot", "xs_area_hot", "m**2", "m**2"⟩] := by
  decide +kernel

theorem duct_links : duct.links =
    [⟨"dv", "cp", "cp", "J/kg/K", "J/kg/K"⟩, ⟨"dv", "area_1", "area_1", "inch**2", "inch**2"⟩,
     ⟨"dv", "delta_p_1", "delta_p_1", "Pa", "Pa"⟩, ⟨"dv", "heat_in_1", "heat_in_1", "W", "W"⟩,
     ⟨"dv", "pressure_recovery_1", "pressure_recovery_1", "", ""⟩, ⟨"dv", "loss_factor_1", "loss_factor_1", "", ""⟩,
     ⟨"dv", "delta_p_2", "delta_p_2", "Pa", "Pa"⟩, ⟨"dv", "heat_in_2", "heat_in_2", "W", "W"⟩,
     ⟨"dv", "pressure_recovery_2", "pressure_recovery_2", "", ""⟩,
     ⟨"dv", "pressure_recovery_3", "pressure_recovery_3", "", ""⟩,
     ⟨"dv", "convergence_hack", "convergence_hack", "Pa", "Pa"⟩,
     ⟨"dvpassthru", "area_nozzle", "area_nozzle", "inch**2", "inch**2"⟩,
     ⟨"dvpassthru", "area_nozzle_in", "area_nozzle_in", "inch**2", "inch**2"⟩, ⟨"mdotguess", "mdot", "mdot", "kg/s", "kg/s"⟩,
     ⟨"mdotguess", "mdot_actual", "mdot_actual", "kg/s", "kg/s"⟩, ⟨"inlet", "a", "inlet.a", "m/s", "m/s"⟩,
     ⟨"inlet", "M", "inlet.M", "", ""⟩, ⟨"inlet", "Tt", "inlet.Tt", "K", "K"⟩,
     ⟨"inlet", "freestreamtotalpressure.pt", "inlet.freestreamtotalpressure.pt", "Pa", "Pa"⟩,
     ⟨"inlet", "pt", "inlet.pt", "Pa", "Pa"⟩, ⟨"inlet", "T", "T_inf", "K", "K"⟩, ⟨"inlet", "Utrue", "Utrue", "m/s", "m/s"⟩,
     ⟨"inlet", "p", "p_inf", "Pa", "Pa"⟩, ⟨"inlet", "totalpressure.eta_ram", "inlet.totalpressure.eta_ram", "", ""⟩,
     ⟨"sta1", "Tt_out", "sta1.Tt_out", "K", "K"⟩, ⟨"sta1", "pt_out", "sta1.pt_out", "Pa", "Pa"⟩,
     ⟨"sta1", "T", "sta1.T", "K", "K"⟩, ⟨"sta1", "p", "sta1.p", "Pa", "Pa"⟩,
     ⟨"sta1", "rho", "sta1.rho", "kg/m**3", "kg/m**3"⟩, ⟨"sta1", "a", "sta1.a", "m/s", "m/s"⟩,
     ⟨"sta1", "M", "sta1.M", "", ""⟩, ⟨"sta1", "Tt_in", "inlet.Tt", "K", "K"⟩, ⟨"sta1", "pt_in", "inlet.pt", "Pa", "Pa"⟩,
     ⟨"sta1", "mdot", "mdot", "kg/s", "kg/s"⟩, ⟨"sta1", "area", "area_1", "inch**2", "m**2"⟩,
     ⟨"sta1", "delta_p", "delta_p_1", "Pa", "Pa"⟩, ⟨"sta1", "dynamic_pressure_loss_factor", "loss_factor_1", "", ""⟩,
     ⟨"sta1", "pressure_recovery", "pressure_recovery_1", "", ""⟩, ⟨"sta1", "heat_in", "heat_in_1", "W", "W"⟩,
     ⟨"sta1", "cp", "cp", "J/kg/K", "J/kg/K"⟩, ⟨"sta2", "Tt_out", "sta2.Tt_out", "K", "K"⟩,
     ⟨"sta2", "pt_out", "sta2.pt_out", "Pa", "Pa"⟩, ⟨"sta2", "T", "sta2.T", "K", "K"⟩, ⟨"sta2", "p", "sta2.p", "Pa", "Pa"⟩,
     ⟨"sta2", "rho", "sta2.rho", "kg/m**3", "kg/m**3"⟩, ⟨"sta2", "a", "sta2.a", "m/s", "m/s"⟩,
     ⟨"sta2", "M", "sta2.M", "", ""⟩, ⟨"sta2", "Tt_in", "sta1.Tt_out", "K", "K"⟩,
     ⟨"sta2", "pt_in", "sta1.pt_out", "Pa", "Pa"⟩, ⟨"sta2", "mdot", "mdot", "kg/s", "kg/s"⟩,
     ⟨"sta2", "area", "area_2", "m**2", "m**2"⟩, ⟨"sta2", "delta_p", "delta_p_2", "Pa", "Pa"⟩,
     ⟨"sta2", "dynamic_pressure_loss_factor", "sta2.dynamic_pressure_loss_factor", "", ""⟩,
     ⟨"sta2", "pressure_recovery", "pressure_recovery_2", "", ""⟩, ⟨"sta2", "heat_in", "heat_in_2", "W", "W"⟩,
     ⟨"sta2", "cp", "cp", "J/kg/K", "J/kg/K"⟩, ⟨"sta3", "Tt_out", "sta3.Tt_out", "K", "K"⟩,
     ⟨"sta3", "pt_out", "sta3.pt_out", "Pa", "Pa"⟩, ⟨"sta3", "T", "sta3.T", "K", "K"⟩, ⟨"sta3", "p", "sta3.p", "Pa", "Pa"⟩,
     ⟨"sta3", "rho", "sta3.rho", "kg/m**3", "kg/m**3"⟩, ⟨"sta3", "a", "sta3.a", "m/s", "m/s"⟩,
     ⟨"sta3", "M", "sta3.M", "", ""⟩, ⟨"sta3", "Tt_in", "sta2.Tt_out", "K", "K"⟩,
     ⟨"sta3", "pt_in", "sta2.pt_out", "Pa", "Pa"⟩, ⟨"sta3", "mdot", "mdot", "kg/s", "kg/s"⟩,
     ⟨"sta3", "area", "area_3", "m**2", "m**2"⟩, ⟨"sta3", "delta_p", "sta3.delta_p", "Pa", "Pa"⟩,
     ⟨"sta3", "dynamic_pressure_loss_factor", "sta3.dynamic_pressure_loss_factor", "", ""⟩,
     ⟨"sta3", "pressure_recovery", "pressure_recovery_3", "", ""⟩, ⟨"sta3", "heat_in", "sta3.heat_in", "W", "W"⟩,
     ⟨"sta3", "cp", "cp", "J/kg/K", "J/kg/K"⟩, ⟨"pexit", "p_exit", "p_exit", "Pa", "Pa"⟩,
     ⟨"pexit", "p_inf", "p_inf", "Pa", "Pa"⟩, ⟨"pexit", "convergence_hack", "convergence_hack", "Pa", "Pa"⟩,
     ⟨"nozzle", "pt", "nozzle.pt", "Pa", "Pa"⟩, ⟨"nozzle", "nozzle_pressure_ratio", "nozzle.nozzle_pressure_ratio", "", ""⟩,
     ⟨"nozzle", "M", "nozzle.M", "", ""⟩, ⟨"nozzle", "T", "nozzle.T", "K", "K"⟩, ⟨"nozzle", "p", "nozzle.p", "Pa", "Pa"⟩,
     ⟨"nozzle", "rho", "nozzle.rho", "kg/m**3", "kg/m**3"⟩, ⟨"nozzle", "a", "nozzle.a", "m/s", "m/s"⟩,
     ⟨"nozzle", "mdot_actual", "mdot_actual", "kg/s", "kg/s"⟩, ⟨"nozzle", "pt_in", "sta3.pt_out", "Pa", "Pa"⟩,
     ⟨"nozzle", "mdot", "mdot", "kg/s", "kg/s"⟩, ⟨"nozzle", "area", "area_nozzle", "inch**2", "m**2"⟩,
     ⟨"nozzle", "dynamic_pressure_loss_factor", "nozzle.dynamic_pressure_loss_factor", "", ""⟩,
     ⟨"nozzle", "p_exit", "p_exit", "Pa", "Pa"⟩, ⟨"nozzle", "Tt", "sta3.Tt_out", "K", "K"⟩,
     ⟨"force", "F_net", "force.F_net", "N", "N"⟩, ⟨"force", "mdot", "mdot", "kg/s", "kg/s"⟩,
     ⟨"force", "Utrue_inf", "Utrue", "m/s", "m/s"⟩, ⟨"force", "p_inf", "p_inf", "Pa", "Pa"⟩,
     ⟨"force", "area_nozzle", "area_nozzle", "inch**2", "m**2"⟩, ⟨"force", "p_nozzle", "nozzle.p", "Pa", "Pa"⟩,
     ⟨"force", "rho_nozzle", "nozzle.rho", "kg/m**3", "kg/m**3"⟩] := by
  decide +kernel

theorem ductHx_links : ductHx.links =
    [⟨"dv", "cp", "cp", "J/kg/K", "J/kg/K"⟩, ⟨"dv", "area_1", "area_1", "inch**2", "inch**2"⟩,
     ⟨"dv", "delta_p_1", "delta_p_1", "Pa", "Pa"⟩, ⟨"dv", "heat_in_1", "heat_in_1", "W", "W"⟩,
     ⟨"dv", "pressure_recovery_1", "pressure_recovery_1", "", ""⟩, ⟨"dv", "loss_factor_1", "loss_factor_1", "", ""⟩,
     ⟨"dv", "delta_p_2", "delta_p_2", "Pa", "Pa"⟩, ⟨"dv", "heat_in_2", "heat_in_2", "W", "W"⟩,
     ⟨"dv", "pressure_recovery_2", "pressure_recovery_2", "", ""⟩,
     ⟨"dv", "pressure_recovery_3", "pressure_recovery_3", "", ""⟩,
     ⟨"dv", "convergence_hack", "convergence_hack", "Pa", "Pa"⟩, ⟨"dv", "area_nozzle", "area_nozzle", "inch**2", "inch**2"⟩,
     ⟨"mdotguess", "mdot", "mdot", "kg/s", "kg/s"⟩, ⟨"mdotguess", "mdot_actual", "mdot_actual", "kg/s", "kg/s"⟩,
     ⟨"inlet", "a", "inlet.a", "m/s", "m/s"⟩, ⟨"inlet", "M", "inlet.M", "", ""⟩, ⟨"inlet", "Tt", "inlet.Tt", "K", "K"⟩,
     ⟨"inlet", "freestreamtotalpressure.pt", "inlet.freestreamtotalpressure.pt", "Pa", "Pa"⟩,
     ⟨"inlet", "pt", "inlet.pt", "Pa", "Pa"⟩, ⟨"inlet", "T", "T_inf", "K", "K"⟩, ⟨"inlet", "Utrue", "Utrue", "m/s", "m/s"⟩,
     ⟨"inlet", "p", "p_inf", "Pa", "Pa"⟩, ⟨"inlet", "totalpressure.eta_ram", "inlet.totalpressure.eta_ram", "", ""⟩,
     ⟨"sta1", "Tt_out", "sta1.Tt_out", "K", "K"⟩, ⟨"sta1", "pt_out", "sta1.pt_out", "Pa", "Pa"⟩,
     ⟨"sta1", "T", "sta1.T", "K", "K"⟩, ⟨"sta1", "p", "sta1.p", "Pa", "Pa"⟩,
     ⟨"sta1", "rho", "sta1.rho", "kg/m**3", "kg/m**3"⟩, ⟨"sta1", "a", "sta1.a", "m/s", "m/s"⟩,
     ⟨"sta1", "M", "sta1.M", "", ""⟩, ⟨"sta1", "Tt_in", "inlet.Tt", "K", "K"⟩, ⟨"sta1", "pt_in", "inlet.pt", "Pa", "Pa"⟩,
     ⟨"sta1", "mdot", "mdot", "kg/s", "kg/s"⟩, ⟨"sta1", "area", "area_1", "inch**2", "m**2"⟩,
     ⟨"sta1", "delta_p", "delta_p_1", "Pa", "Pa"⟩, ⟨"sta1", "dynamic_pressure_loss_factor", "loss_factor_1", "", ""⟩,
     ⟨"sta1", "pressure_recovery", "pressure_recovery_1", "", ""⟩, ⟨"sta1", "heat_in", "heat_in_1", "W", "W"⟩,
     ⟨"sta1", "cp", "cp", "J/kg/K", "J/kg/K"⟩, ⟨"sta2", "Tt_out", "sta2.Tt_out", "K", "K"⟩,
     ⟨"sta2", "pt_out", "sta2.pt_out", "Pa", "Pa"⟩, ⟨"sta2", "T", "sta2.T", "K", "K"⟩, ⟨"sta2", "p", "sta2.p", "Pa", "Pa"⟩,
     ⟨"sta2", "rho", "sta2.rho", "kg/m**3", "kg/m**3"⟩, ⟨"sta2", "a", "sta2.a", "m/s", "m/s"⟩,
     ⟨"sta2", "M", "sta2.M", "", ""⟩, ⟨"sta2", "Tt_in", "sta1.Tt_out", "K", "K"⟩,
     ⟨"sta2", "pt_in", "sta1.pt_out", "Pa", "Pa"⟩, ⟨"sta2", "mdot", "mdot", "kg/s", "kg/s"⟩,
     ⟨"sta2", "area", "hx.frontal_area", "m**2", "m**2"⟩, ⟨"sta2", "delta_p", "delta_p_2", "Pa", "Pa"⟩,
     ⟨"sta2", "dynamic_pressure_loss_factor", "sta2.dynamic_pressure_loss_factor", "", ""⟩,
     ⟨"sta2", "pressure_recovery", "pressure_recovery_2", "", ""⟩, ⟨"sta2", "heat_in", "heat_in_2", "W", "W"⟩,
     ⟨"sta2", "cp", "cp", "J/kg/K", "J/kg/K"⟩, ⟨"hx", "n_wide_cold", "hx.n_wide_cold", "", ""⟩,
     ⟨"hx", "n_long_cold", "hx.n_long_cold", "", ""⟩, ⟨"hx", "n_tall", "hx.n_tall", "", ""⟩,
     ⟨"hx", "component_weight", "hx.component_weight", "kg", "kg"⟩, ⟨"hx", "length_overall", "hx.length_overall", "m", "m"⟩,
     ⟨"hx", "height_overall", "hx.height_overall", "m", "m"⟩, ⟨"hx", "width_overall", "hx.width_overall", "m", "m"⟩,
     ⟨"hx", "frontal_area", "hx.frontal_area", "m**2", "m**2"⟩, ⟨"hx", "xs_area_cold", "hx.xs_area_cold", "m**2", "m**2"⟩,
     ⟨"hx", "heat_transfer_area_cold", "hx.heat_transfer_area_cold", "m**2", "m**2"⟩,
     ⟨"hx", "dh_cold", "hx.dh_cold", "m", "m"⟩, ⟨"hx", "fin_area_ratio_cold", "hx.fin_area_ratio_cold", "", ""⟩,
     ⟨"hx", "contraction_ratio_cold", "hx.contraction_ratio_cold", "", ""⟩, ⟨"hx", "alpha_cold", "hx.alpha_cold", "", ""⟩,
     ⟨"hx", "delta_cold", "hx.delta_cold", "", ""⟩, ⟨"hx", "gamma_cold", "hx.gamma_cold", "", ""⟩,
     ⟨"hx", "xs_area_hot", "hx.xs_area_hot", "m**2", "m**2"⟩,
     ⟨"hx", "heat_transfer_area_hot", "hx.heat_transfer_area_hot", "m**2", "m**2"⟩, ⟨"hx", "dh_hot", "hx.dh_hot", "m", "m"⟩,
     ⟨"hx", "fin_area_ratio_hot", "hx.fin_area_ratio_hot", "", ""⟩,
     ⟨"hx", "contraction_ratio_hot", "hx.contraction_ratio_hot", "", ""⟩, ⟨"hx", "alpha_hot", "hx.alpha_hot", "", ""⟩,
     ⟨"hx", "delta_hot", "hx.delta_hot", "", ""⟩, ⟨"hx", "gamma_hot", "hx.gamma_hot", "", ""⟩,
     ⟨"hx", "Re_dh_cold", "hx.Re_dh_cold", "", ""⟩, ⟨"hx", "Re_dh_hot", "hx.Re_dh_hot", "", ""⟩,
     ⟨"hx", "j_cold", "hx.j_cold", "", ""⟩, ⟨"hx", "f_cold", "hx.f_cold", "", ""⟩, ⟨"hx", "j_hot", "hx.j_hot", "", ""⟩,
     ⟨"hx", "f_hot", "hx.f_hot", "", ""⟩, ⟨"hx", "Nu_dh_cold", "hx.Nu_dh_cold", "", ""⟩,
     ⟨"hx", "Nu_dh_hot", "hx.Nu_dh_hot", "", ""⟩, ⟨"hx", "h_conv_cold", "hx.h_conv_cold", "W/m**2/K", "W/m**2/K"⟩,
     ⟨"hx", "h_conv_hot", "hx.h_conv_hot", "W/m**2/K", "W/m**2/K"⟩,
     ⟨"hx", "eta_overall_cold", "hx.eta_overall_cold", "", ""⟩, ⟨"hx", "eta_overall_hot", "hx.eta_overall_hot", "", ""⟩,
     ⟨"hx", "UA_overall", "hx.UA_overall", "W/K", "W/K"⟩, ⟨"hx", "NTU", "hx.NTU", "", ""⟩,
     ⟨"hx", "heat_max", "hx.heat_max", "W", "W"⟩, ⟨"hx", "C_ratio", "hx.C_ratio", "", ""⟩,
     ⟨"hx", "effectiveness", "hx.effectiveness", "", ""⟩, ⟨"hx", "heat_transfer", "hx.heat_transfer", "W", "W"⟩,
     ⟨"hx", "T_out_cold", "hx.T_out_cold", "K", "K"⟩, ⟨"hx", "T_out_hot", "T_out_hot", "K", "K"⟩,
     ⟨"hx", "delta_p_cold", "hx.delta_p_cold", "Pa", "Pa"⟩, ⟨"hx", "delta_p_hot", "hx.delta_p_hot", "Pa", "Pa"⟩,
     ⟨"hx", "ac|propulsion|thermal|hx|n_wide_cold", "ac|propulsion|thermal|hx|n_wide_cold", "", ""⟩,
     ⟨"hx", "ac|propulsion|thermal|hx|n_long_cold", "hx.ac|propulsion|thermal|hx|n_long_cold", "", ""⟩,
     ⟨"hx", "ac|propulsion|thermal|hx|n_tall", "hx.ac|propulsion|thermal|hx|n_tall", "", ""⟩,
     ⟨"hx", "channel_width_hot", "hx.channel_width_hot", "mm", "mm"⟩,
     ⟨"hx", "channel_height_hot", "hx.channel_height_hot", "mm", "mm"⟩,
     ⟨"hx", "fin_length_hot", "hx.fin_length_hot", "mm", "mm"⟩,
     ⟨"hx", "channel_width_cold", "hx.channel_width_cold", "mm", "mm"⟩,
     ⟨"hx", "channel_height_cold", "hx.channel_height_cold", "mm", "mm"⟩,
     ⟨"hx", "fin_length_cold", "hx.fin_length_cold", "mm", "mm"⟩, ⟨"hx", "fin_thickness", "hx.fin_thickness", "mm", "mm"⟩,
     ⟨"hx", "plate_thickness", "hx.plate_thickness", "mm", "mm"⟩, ⟨"hx", "case_thickness", "hx.case_thickness", "mm", "mm"⟩,
     ⟨"hx", "material_rho", "hx.material_rho", "kg/m**3", "kg/m**3"⟩, ⟨"hx", "mdot_cold", "mdot", "kg/s", "kg/s"⟩,
     ⟨"hx", "mu_cold", "hx.mu_cold", "kg/m/s", "kg/m/s"⟩, ⟨"hx", "mdot_hot", "mdot_hot", "kg/s", "kg/s"⟩,
     ⟨"hx", "mu_hot", "hx.mu_hot", "kg/m/s", "kg/m/s"⟩, ⟨"hx", "k_cold", "hx.k_cold", "W/m/K", "W/m/K"⟩,
     ⟨"hx", "cp_cold", "hx.cp_cold", "J/kg/K", "J/kg/K"⟩, ⟨"hx", "k_hot", "hx.k_hot", "W/m/K", "W/m/K"⟩,
     ⟨"hx", "cp_hot", "hx.cp_hot", "J/kg/K", "J/kg/K"⟩, ⟨"hx", "material_k", "hx.material_k", "W/m/K", "W/m/K"⟩,
     ⟨"hx", "T_in_cold", "sta2.T", "K", "K"⟩, ⟨"hx", "T_in_hot", "T_in_hot", "K", "K"⟩,
     ⟨"hx", "rho_cold", "sta2.rho", "kg/m**3", "kg/m**3"⟩, ⟨"hx", "rho_hot", "rho_hot", "kg/m**3", "kg/m**3"⟩,
     ⟨"sta3", "Tt_out", "sta3.Tt_out", "K", "K"⟩, ⟨"sta3", "pt_out", "sta3.pt_out", "Pa", "Pa"⟩,
     ⟨"sta3", "T", "sta3.T", "K", "K"⟩, ⟨"sta3", "p", "sta3.p", "Pa", "Pa"⟩,
     ⟨"sta3", "rho", "sta3.rho", "kg/m**3", "kg/m**3"⟩, ⟨"sta3", "a", "sta3.a", "m/s", "m/s"⟩,
     ⟨"sta3", "M", "sta3.M", "", ""⟩, ⟨"sta3", "Tt_in", "sta2.Tt_out", "K", "K"⟩,
     ⟨"sta3", "pt_in", "sta2.pt_out", "Pa", "Pa"⟩, ⟨"sta3", "mdot", "mdot", "kg/s", "kg/s"⟩,
     ⟨"sta3", "area", "hx.frontal_area", "m**2", "m**2"⟩, ⟨"sta3", "delta_p", "hx.delta_p_cold", "Pa", "Pa"⟩,
     ⟨"sta3", "dynamic_pressure_loss_factor", "sta3.dynamic_pressure_loss_factor", "", ""⟩,
     ⟨"sta3", "pressure_recovery", "pressure_recovery_3", "", ""⟩, ⟨"sta3", "heat_in", "hx.heat_transfer", "W", "W"⟩,
     ⟨"sta3", "cp", "cp", "J/kg/K", "J/kg/K"⟩, ⟨"pexit", "p_exit", "p_exit", "Pa", "Pa"⟩,
     ⟨"pexit", "p_inf", "p_inf", "Pa", "Pa"⟩, ⟨"pexit", "convergence_hack", "convergence_hack", "Pa", "Pa"⟩,
     ⟨"nozzle", "pt", "nozzle.pt", "Pa", "Pa"⟩, ⟨"nozzle", "nozzle_pressure_ratio", "nozzle.nozzle_pressure_ratio", "", ""⟩,
     ⟨"nozzle", "M", "nozzle.M", "", ""⟩, ⟨"nozzle", "T", "nozzle.T", "K", "K"⟩, ⟨"nozzle", "p", "nozzle.p", "Pa", "Pa"⟩,
     ⟨"nozzle", "rho", "nozzle.rho", "kg/m**3", "kg/m**3"⟩, ⟨"nozzle", "a", "nozzle.a", "m/s", "m/s"⟩,
     ⟨"nozzle", "mdot_actual", "mdot_actual", "kg/s", "kg/s"⟩, ⟨"nozzle", "pt_in", "sta3.pt_out", "Pa", "Pa"⟩,
     ⟨"nozzle", "mdot", "mdot", "kg/s", "kg/s"⟩, ⟨"nozzle", "area", "area_nozzle", "inch**2", "m**2"⟩,
     ⟨"nozzle", "dynamic_pressure_loss_factor", "nozzle.dynamic_pressure_loss_factor", "", ""⟩,
     ⟨"nozzle", "p_exit", "p_exit", "Pa", "Pa"⟩, ⟨"nozzle", "Tt", "sta3.Tt_out", "K", "K"⟩,
     ⟨"force", "F_net", "force.F_net", "N", "N"⟩, ⟨"force", "mdot", "mdot", "kg/s", "kg/s"⟩,
     ⟨"force", "Utrue_inf", "Utrue", "m/s", "m/s"⟩, ⟨"force", "p_inf", "p_inf", "Pa", "Pa"⟩,
     ⟨"force", "area_nozzle", "area_nozzle", "inch**2", "m**2"⟩, ⟨"force", "p_nozzle", "nozzle.p", "Pa", "Pa"⟩,
     ⟨"force", "rho_nozzle", "nozzle.rho", "kg/m**3", "kg/m**3"⟩] := by
  decide +kernel

end Verif.Wiring
