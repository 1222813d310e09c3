import Verif.Model.WiringMission
import Verif.Proof.Wiring

/-! Where the variables of the phases are found (evaluated tables). -/

namespace Verif.Wiring

theorem groundGrp_v0v1_links : (groundGrp .v0v1).links =
    [⟨"const_settings", "fltcond|CL", "fltcond|CL", "", ""⟩, ⟨"const_settings", "vr_vstall_mult", "vr_vstall_mult", "", ""⟩,
     ⟨"const_settings", "fltcond|h", "fltcond|h", "m", "m"⟩, ⟨"const_settings", "fltcond|vs", "fltcond|vs", "m/s", "m/s"⟩,
     ⟨"const_settings", "zero_speed", "zero_speed", "m/s", "m/s"⟩, ⟨"const_settings", "braking", "braking", "", ""⟩,
     ⟨"const_settings", "propulsor_active", "propulsor_active", "", ""⟩, ⟨"const_settings", "throttle", "throttle", "", ""⟩,
     ⟨"atmos", "fltcond|T", "fltcond|T", "K", "K"⟩, ⟨"atmos", "fltcond|p", "fltcond|p", "Pa", "Pa"⟩,
     ⟨"atmos", "fltcond|rho", "fltcond|rho", "kg / m**3", "kg / m**3"⟩, ⟨"atmos", "fltcond|a", "fltcond|a", "m/s", "m/s"⟩,
     ⟨"atmos", "fltcond|Ueas", "fltcond|Ueas", "m / s", "m / s"⟩,
     ⟨"atmos", "fltcond|q", "fltcond|q", "N * m**-2", "N * m**-2"⟩, ⟨"atmos", "fltcond|M", "fltcond|M", "", ""⟩,
     ⟨"atmos", "fltcond|h", "fltcond|h", "m", "m"⟩,
     ⟨"atmos", "fltcond|TempIncrement", "fltcond|TempIncrement", "degC", "degC"⟩,
     ⟨"atmos", "fltcond|Utrue", "fltcond|Utrue", "m/s", "m / s"⟩,
     ⟨"gs", "fltcond|groundspeed", "fltcond|groundspeed", "m/s", "m/s"⟩,
     ⟨"gs", "fltcond|cosgamma", "fltcond|cosgamma", "", ""⟩, ⟨"gs", "fltcond|singamma", "fltcond|singamma", "", ""⟩,
     ⟨"gs", "fltcond|vs", "fltcond|vs", "m/s", "m/s"⟩, ⟨"gs", "fltcond|Utrue", "fltcond|Utrue", "m/s", "m/s"⟩,
     ⟨"acmodel", "thrust", "thrust", "N", "N"⟩, ⟨"acmodel", "drag", "drag", "N", "N"⟩,
     ⟨"acmodel", "weight", "weight", "kg", "kg"⟩, ⟨"acmodel", "throttle", "throttle", "", ""⟩,
     ⟨"acmodel", "propulsor_active", "propulsor_active", "", ""⟩, ⟨"acmodel", "fltcond|CL", "fltcond|CL", "", ""⟩,
     ⟨"acmodel", "fltcond|p", "fltcond|p", "Pa", "Pa"⟩, ⟨"acmodel", "fltcond|T", "fltcond|T", "K", "K"⟩,
     ⟨"acmodel", "fltcond|rho", "fltcond|rho", "kg / m**3", "kg/m**3"⟩, ⟨"acmodel", "fltcond|a", "fltcond|a", "m/s", "m/s"⟩,
     ⟨"acmodel", "fltcond|Ueas", "fltcond|Ueas", "m / s", "m/s"⟩,
     ⟨"acmodel", "fltcond|Utrue", "fltcond|Utrue", "m/s", "m/s"⟩, ⟨"acmodel", "fltcond|q", "fltcond|q", "N * m**-2", "Pa"⟩,
     ⟨"acmodel", "fltcond|M", "fltcond|M", "", ""⟩, ⟨"acmodel", "duration", "duration", "s", "s"⟩,
     ⟨"lift", "lift", "lift", "N", "N"⟩, ⟨"lift", "fltcond|CL", "fltcond|CL", "", ""⟩,
     ⟨"lift", "fltcond|q", "fltcond|q", "N * m**-2", "N * m**-2"⟩,
     ⟨"lift", "ac|geom|wing|S_ref", "ac|geom|wing|S_ref", "m **2", "m **2"⟩,
     ⟨"stall", "Vstall_eas", "Vstall_eas", "m/s", "m/s"⟩, ⟨"stall", "weight", "ac|weights|MTOW", "kg", "kg"⟩,
     ⟨"stall", "ac|geom|wing|S_ref", "ac|geom|wing|S_ref", "m **2", "m**2"⟩, ⟨"stall", "CLmax", "ac|aero|CLmax_TO", "", ""⟩,
     ⟨"vrspeed", "takeoff|vr", "takeoff|vr", "m/s ", "m/s "⟩, ⟨"vrspeed", "Vstall_eas", "Vstall_eas", "m/s", "m/s"⟩,
     ⟨"vrspeed", "vr_vstall_mult", "vr_vstall_mult", "", ""⟩, ⟨"haccel", "accel_horiz", "accel_horiz", "m/s**2", "m/s**2"⟩,
     ⟨"haccel", "weight", "weight", "kg", "kg"⟩, ⟨"haccel", "drag", "drag", "N", "N"⟩, ⟨"haccel", "lift", "lift", "N", "N"⟩,
     ⟨"haccel", "thrust", "thrust", "N", "N"⟩, ⟨"haccel", "fltcond|singamma", "fltcond|singamma", "", ""⟩,
     ⟨"haccel", "braking", "braking", "", ""⟩,
     ⟨"ode_integ_phase", "fltcond|Utrue_final", "fltcond|Utrue_final", "m/s", "m/s"⟩,
     ⟨"ode_integ_phase", "fltcond|Utrue", "fltcond|Utrue", "m/s", "m/s"⟩,
     ⟨"ode_integ_phase", "range_final", "range_final", "m", "m"⟩, ⟨"ode_integ_phase", "range", "range", "m", "m"⟩,
     ⟨"ode_integ_phase", "duration", "duration", "s", "s"⟩,
     ⟨"ode_integ_phase", "accel_horiz", "accel_horiz", "m/s**2", "(m/s) / (s)"⟩,
     ⟨"ode_integ_phase", "fltcond|Utrue_initial", "zero_speed", "m/s", "m/s"⟩,
     ⟨"ode_integ_phase", "fltcond|groundspeed", "fltcond|groundspeed", "m/s", "(m) / (s)"⟩,
     ⟨"v1constraint", "duration", "duration", "s", "s"⟩, ⟨"v1constraint", "takeoff|v1", "takeoff|v1", "m/s", "m/s"⟩,
     ⟨"v1constraint", "fltcond|Utrue_final", "fltcond|Utrue_final", "m/s", "m/s"⟩] := by
  decide +kernel

theorem groundGrp_v1vr_links : (groundGrp .v1vr).links =
    [⟨"const_settings", "fltcond|CL", "fltcond|CL", "", ""⟩, ⟨"const_settings", "vr_vstall_mult", "vr_vstall_mult", "", ""⟩,
     ⟨"const_settings", "fltcond|h", "fltcond|h", "m", "m"⟩, ⟨"const_settings", "fltcond|vs", "fltcond|vs", "m/s", "m/s"⟩,
     ⟨"const_settings", "zero_speed", "zero_speed", "m/s", "m/s"⟩, ⟨"const_settings", "braking", "braking", "", ""⟩,
     ⟨"const_settings", "propulsor_active", "propulsor_active", "", ""⟩, ⟨"const_settings", "throttle", "throttle", "", ""⟩,
     ⟨"atmos", "fltcond|T", "fltcond|T", "K", "K"⟩, ⟨"atmos", "fltcond|p", "fltcond|p", "Pa", "Pa"⟩,
     ⟨"atmos", "fltcond|rho", "fltcond|rho", "kg / m**3", "kg / m**3"⟩, ⟨"atmos", "fltcond|a", "fltcond|a", "m/s", "m/s"⟩,
     ⟨"atmos", "fltcond|Ueas", "fltcond|Ueas", "m / s", "m / s"⟩,
     ⟨"atmos", "fltcond|q", "fltcond|q", "N * m**-2", "N * m**-2"⟩, ⟨"atmos", "fltcond|M", "fltcond|M", "", ""⟩,
     ⟨"atmos", "fltcond|h", "fltcond|h", "m", "m"⟩,
     ⟨"atmos", "fltcond|TempIncrement", "fltcond|TempIncrement", "degC", "degC"⟩,
     ⟨"atmos", "fltcond|Utrue", "fltcond|Utrue", "m/s", "m / s"⟩,
     ⟨"gs", "fltcond|groundspeed", "fltcond|groundspeed", "m/s", "m/s"⟩,
     ⟨"gs", "fltcond|cosgamma", "fltcond|cosgamma", "", ""⟩, ⟨"gs", "fltcond|singamma", "fltcond|singamma", "", ""⟩,
     ⟨"gs", "fltcond|vs", "fltcond|vs", "m/s", "m/s"⟩, ⟨"gs", "fltcond|Utrue", "fltcond|Utrue", "m/s", "m/s"⟩,
     ⟨"acmodel", "thrust", "thrust", "N", "N"⟩, ⟨"acmodel", "drag", "drag", "N", "N"⟩,
     ⟨"acmodel", "weight", "weight", "kg", "kg"⟩, ⟨"acmodel", "throttle", "throttle", "", ""⟩,
     ⟨"acmodel", "propulsor_active", "propulsor_active", "", ""⟩, ⟨"acmodel", "fltcond|CL", "fltcond|CL", "", ""⟩,
     ⟨"acmodel", "fltcond|p", "fltcond|p", "Pa", "Pa"⟩, ⟨"acmodel", "fltcond|T", "fltcond|T", "K", "K"⟩,
     ⟨"acmodel", "fltcond|rho", "fltcond|rho", "kg / m**3", "kg/m**3"⟩, ⟨"acmodel", "fltcond|a", "fltcond|a", "m/s", "m/s"⟩,
     ⟨"acmodel", "fltcond|Ueas", "fltcond|Ueas", "m / s", "m/s"⟩,
     ⟨"acmodel", "fltcond|Utrue", "fltcond|Utrue", "m/s", "m/s"⟩, ⟨"acmodel", "fltcond|q", "fltcond|q", "N * m**-2", "Pa"⟩,
     ⟨"acmodel", "fltcond|M", "fltcond|M", "", ""⟩, ⟨"acmodel", "duration", "duration", "s", "s"⟩,
     ⟨"lift", "lift", "lift", "N", "N"⟩, ⟨"lift", "fltcond|CL", "fltcond|CL", "", ""⟩,
     ⟨"lift", "fltcond|q", "fltcond|q", "N * m**-2", "N * m**-2"⟩,
     ⟨"lift", "ac|geom|wing|S_ref", "ac|geom|wing|S_ref", "m **2", "m **2"⟩,
     ⟨"stall", "Vstall_eas", "Vstall_eas", "m/s", "m/s"⟩, ⟨"stall", "weight", "ac|weights|MTOW", "kg", "kg"⟩,
     ⟨"stall", "ac|geom|wing|S_ref", "ac|geom|wing|S_ref", "m **2", "m**2"⟩, ⟨"stall", "CLmax", "ac|aero|CLmax_TO", "", ""⟩,
     ⟨"vrspeed", "takeoff|vr", "takeoff|vr", "m/s ", "m/s "⟩, ⟨"vrspeed", "Vstall_eas", "Vstall_eas", "m/s", "m/s"⟩,
     ⟨"vrspeed", "vr_vstall_mult", "vr_vstall_mult", "", ""⟩, ⟨"haccel", "accel_horiz", "accel_horiz", "m/s**2", "m/s**2"⟩,
     ⟨"haccel", "weight", "weight", "kg", "kg"⟩, ⟨"haccel", "drag", "drag", "N", "N"⟩, ⟨"haccel", "lift", "lift", "N", "N"⟩,
     ⟨"haccel", "thrust", "thrust", "N", "N"⟩, ⟨"haccel", "fltcond|singamma", "fltcond|singamma", "", ""⟩,
     ⟨"haccel", "braking", "braking", "", ""⟩,
     ⟨"ode_integ_phase", "fltcond|Utrue_final", "fltcond|Utrue_final", "m/s", "m/s"⟩,
     ⟨"ode_integ_phase", "fltcond|Utrue", "fltcond|Utrue", "m/s", "m/s"⟩,
     ⟨"ode_integ_phase", "range_final", "range_final", "m", "m"⟩, ⟨"ode_integ_phase", "range", "range", "m", "m"⟩,
     ⟨"ode_integ_phase", "duration", "duration", "s", "s"⟩,
     ⟨"ode_integ_phase", "accel_horiz", "accel_horiz", "m/s**2", "(m/s) / (s)"⟩,
     ⟨"ode_integ_phase", "fltcond|Utrue_initial", "fltcond|Utrue_initial", "m/s", "m/s"⟩,
     ⟨"ode_integ_phase", "fltcond|groundspeed", "fltcond|groundspeed", "m/s", "(m) / (s)"⟩,
     ⟨"ode_integ_phase", "range_initial", "range_initial", "m", "m"⟩, ⟨"vrconstraint", "duration", "duration", "s", "s"⟩,
     ⟨"vrconstraint", "takeoff|vr", "takeoff|vr", "m/s ", "m/s"⟩,
     ⟨"vrconstraint", "fltcond|Utrue_final", "fltcond|Utrue_final", "m/s", "m/s"⟩] := by
  decide +kernel

theorem groundGrp_v1v0_links : (groundGrp .v1v0).links =
    [⟨"const_settings", "fltcond|CL", "fltcond|CL", "", ""⟩, ⟨"const_settings", "vr_vstall_mult", "vr_vstall_mult", "", ""⟩,
     ⟨"const_settings", "fltcond|h", "fltcond|h", "m", "m"⟩, ⟨"const_settings", "fltcond|vs", "fltcond|vs", "m/s", "m/s"⟩,
     ⟨"const_settings", "zero_speed", "zero_speed", "m/s", "m/s"⟩, ⟨"const_settings", "braking", "braking", "", ""⟩,
     ⟨"const_settings", "propulsor_active", "propulsor_active", "", ""⟩, ⟨"const_settings", "throttle", "throttle", "", ""⟩,
     ⟨"atmos", "fltcond|T", "fltcond|T", "K", "K"⟩, ⟨"atmos", "fltcond|p", "fltcond|p", "Pa", "Pa"⟩,
     ⟨"atmos", "fltcond|rho", "fltcond|rho", "kg / m**3", "kg / m**3"⟩, ⟨"atmos", "fltcond|a", "fltcond|a", "m/s", "m/s"⟩,
     ⟨"atmos", "fltcond|Ueas", "fltcond|Ueas", "m / s", "m / s"⟩,
     ⟨"atmos", "fltcond|q", "fltcond|q", "N * m**-2", "N * m**-2"⟩, ⟨"atmos", "fltcond|M", "fltcond|M", "", ""⟩,
     ⟨"atmos", "fltcond|h", "fltcond|h", "m", "m"⟩,
     ⟨"atmos", "fltcond|TempIncrement", "fltcond|TempIncrement", "degC", "degC"⟩,
     ⟨"atmos", "fltcond|Utrue", "fltcond|Utrue", "m/s", "m / s"⟩,
     ⟨"gs", "fltcond|groundspeed", "fltcond|groundspeed", "m/s", "m/s"⟩,
     ⟨"gs", "fltcond|cosgamma", "fltcond|cosgamma", "", ""⟩, ⟨"gs", "fltcond|singamma", "fltcond|singamma", "", ""⟩,
     ⟨"gs", "fltcond|vs", "fltcond|vs", "m/s", "m/s"⟩, ⟨"gs", "fltcond|Utrue", "fltcond|Utrue", "m/s", "m/s"⟩,
     ⟨"acmodel", "thrust", "thrust", "N", "N"⟩, ⟨"acmodel", "drag", "drag", "N", "N"⟩,
     ⟨"acmodel", "weight", "weight", "kg", "kg"⟩, ⟨"acmodel", "throttle", "throttle", "", ""⟩,
     ⟨"acmodel", "propulsor_active", "propulsor_active", "", ""⟩, ⟨"acmodel", "fltcond|CL", "fltcond|CL", "", ""⟩,
     ⟨"acmodel", "fltcond|p", "fltcond|p", "Pa", "Pa"⟩, ⟨"acmodel", "fltcond|T", "fltcond|T", "K", "K"⟩,
     ⟨"acmodel", "fltcond|rho", "fltcond|rho", "kg / m**3", "kg/m**3"⟩, ⟨"acmodel", "fltcond|a", "fltcond|a", "m/s", "m/s"⟩,
     ⟨"acmodel", "fltcond|Ueas", "fltcond|Ueas", "m / s", "m/s"⟩,
     ⟨"acmodel", "fltcond|Utrue", "fltcond|Utrue", "m/s", "m/s"⟩, ⟨"acmodel", "fltcond|q", "fltcond|q", "N * m**-2", "Pa"⟩,
     ⟨"acmodel", "fltcond|M", "fltcond|M", "", ""⟩, ⟨"acmodel", "duration", "duration", "s", "s"⟩,
     ⟨"lift", "lift", "lift", "N", "N"⟩, ⟨"lift", "fltcond|CL", "fltcond|CL", "", ""⟩,
     ⟨"lift", "fltcond|q", "fltcond|q", "N * m**-2", "N * m**-2"⟩,
     ⟨"lift", "ac|geom|wing|S_ref", "ac|geom|wing|S_ref", "m **2", "m **2"⟩,
     ⟨"stall", "Vstall_eas", "Vstall_eas", "m/s", "m/s"⟩, ⟨"stall", "weight", "ac|weights|MTOW", "kg", "kg"⟩,
     ⟨"stall", "ac|geom|wing|S_ref", "ac|geom|wing|S_ref", "m **2", "m**2"⟩, ⟨"stall", "CLmax", "ac|aero|CLmax_TO", "", ""⟩,
     ⟨"vrspeed", "takeoff|vr", "takeoff|vr", "m/s ", "m/s "⟩, ⟨"vrspeed", "Vstall_eas", "Vstall_eas", "m/s", "m/s"⟩,
     ⟨"vrspeed", "vr_vstall_mult", "vr_vstall_mult", "", ""⟩, ⟨"haccel", "accel_horiz", "accel_horiz", "m/s**2", "m/s**2"⟩,
     ⟨"haccel", "weight", "weight", "kg", "kg"⟩, ⟨"haccel", "drag", "drag", "N", "N"⟩, ⟨"haccel", "lift", "lift", "N", "N"⟩,
     ⟨"haccel", "thrust", "thrust", "N", "N"⟩, ⟨"haccel", "fltcond|singamma", "fltcond|singamma", "", ""⟩,
     ⟨"haccel", "braking", "braking", "", ""⟩, ⟨"flipaccel", "vec_out", "flipaccel.vec_out", "m/s**2", "m/s**2"⟩,
     ⟨"flipaccel", "vec_in", "accel_horiz", "m/s**2", "m/s**2"⟩,
     ⟨"ode_integ_phase", "fltcond|Utrue_initial", "fltcond|Utrue_initial", "m/s", "m/s"⟩,
     ⟨"ode_integ_phase", "vel_q", "vel_q", "m/s", "m/s"⟩, ⟨"ode_integ_phase", "range_final", "range_final", "m", "m"⟩,
     ⟨"ode_integ_phase", "range", "range", "m", "m"⟩, ⟨"ode_integ_phase", "duration", "duration", "s", "s"⟩,
     ⟨"ode_integ_phase", "vel_dqdt", "flipaccel.vec_out", "m/s**2", "(m/s) / (s)"⟩,
     ⟨"ode_integ_phase", "zero_speed", "zero_speed", "m/s", "m/s"⟩,
     ⟨"ode_integ_phase", "fltcond|groundspeed", "fltcond|groundspeed", "m/s", "(m) / (s)"⟩,
     ⟨"ode_integ_phase", "range_initial", "range_initial", "m", "m"⟩, ⟨"flipvel", "vec_out", "fltcond|Utrue", "m/s", "m/s"⟩,
     ⟨"flipvel", "vec_in", "vel_q", "m/s", "m/s"⟩, ⟨"v0constraint", "duration", "duration", "s", "s"⟩,
     ⟨"v0constraint", "takeoff|v1", "takeoff|v1", "m/s", "m/s"⟩,
     ⟨"v0constraint", "fltcond|Utrue_initial", "fltcond|Utrue_initial", "m/s", "m/s"⟩] := by
  decide +kernel

theorem rotationGrp_links : rotationGrp.links =
    [⟨"const_settings", "CL_rotate_mult", "CL_rotate_mult", "", ""⟩, ⟨"const_settings", "h_obs", "h_obs", "ft", "ft"⟩,
     ⟨"const_settings", "braking", "braking", "", ""⟩, ⟨"const_settings", "propulsor_active", "propulsor_active", "", ""⟩,
     ⟨"const_settings", "throttle", "throttle", "", ""⟩, ⟨"atmos", "fltcond|T", "fltcond|T", "K", "K"⟩,
     ⟨"atmos", "fltcond|p", "fltcond|p", "Pa", "Pa"⟩, ⟨"atmos", "fltcond|rho", "fltcond|rho", "kg / m**3", "kg / m**3"⟩,
     ⟨"atmos", "fltcond|a", "fltcond|a", "m/s", "m/s"⟩, ⟨"atmos", "fltcond|Ueas", "fltcond|Ueas", "m / s", "m / s"⟩,
     ⟨"atmos", "fltcond|q", "fltcond|q", "N * m**-2", "N * m**-2"⟩, ⟨"atmos", "fltcond|M", "fltcond|M", "", ""⟩,
     ⟨"atmos", "fltcond|h", "fltcond|h", "m", "m"⟩,
     ⟨"atmos", "fltcond|TempIncrement", "fltcond|TempIncrement", "degC", "degC"⟩,
     ⟨"atmos", "fltcond|Utrue", "fltcond|Utrue", "m/s", "m / s"⟩,
     ⟨"gs", "fltcond|groundspeed", "fltcond|groundspeed", "m/s", "m/s"⟩,
     ⟨"gs", "fltcond|cosgamma", "fltcond|cosgamma", "", ""⟩, ⟨"gs", "fltcond|singamma", "fltcond|singamma", "", ""⟩,
     ⟨"gs", "fltcond|vs", "fltcond|vs", "m/s", "m/s"⟩, ⟨"gs", "fltcond|Utrue", "fltcond|Utrue", "m/s", "m/s"⟩,
     ⟨"clcomp", "fltcond|CL", "fltcond|CL", "", ""⟩, ⟨"clcomp", "CL_rotate_mult", "CL_rotate_mult", "", ""⟩,
     ⟨"clcomp", "ac|aero|CLmax_TO", "ac|aero|CLmax_TO", "", ""⟩, ⟨"acmodel", "thrust", "thrust", "N", "N"⟩,
     ⟨"acmodel", "drag", "drag", "N", "N"⟩, ⟨"acmodel", "weight", "weight", "kg", "kg"⟩,
     ⟨"acmodel", "throttle", "throttle", "", ""⟩, ⟨"acmodel", "propulsor_active", "propulsor_active", "", ""⟩,
     ⟨"acmodel", "fltcond|CL", "fltcond|CL", "", ""⟩, ⟨"acmodel", "fltcond|p", "fltcond|p", "Pa", "Pa"⟩,
     ⟨"acmodel", "fltcond|T", "fltcond|T", "K", "K"⟩, ⟨"acmodel", "fltcond|rho", "fltcond|rho", "kg / m**3", "kg/m**3"⟩,
     ⟨"acmodel", "fltcond|a", "fltcond|a", "m/s", "m/s"⟩, ⟨"acmodel", "fltcond|Ueas", "fltcond|Ueas", "m / s", "m/s"⟩,
     ⟨"acmodel", "fltcond|Utrue", "fltcond|Utrue", "m/s", "m/s"⟩, ⟨"acmodel", "fltcond|q", "fltcond|q", "N * m**-2", "Pa"⟩,
     ⟨"acmodel", "fltcond|M", "fltcond|M", "", ""⟩, ⟨"acmodel", "duration", "duration", "s", "s"⟩,
     ⟨"lift", "lift", "lift", "N", "N"⟩, ⟨"lift", "fltcond|CL", "fltcond|CL", "", ""⟩,
     ⟨"lift", "fltcond|q", "fltcond|q", "N * m**-2", "N * m**-2"⟩,
     ⟨"lift", "ac|geom|wing|S_ref", "ac|geom|wing|S_ref", "m **2", "m **2"⟩,
     ⟨"haccel", "accel_horiz", "accel_horiz", "m/s**2", "m/s**2"⟩, ⟨"haccel", "weight", "weight", "kg", "kg"⟩,
     ⟨"haccel", "drag", "drag", "N", "N"⟩, ⟨"haccel", "lift", "lift", "N", "N"⟩, ⟨"haccel", "thrust", "thrust", "N", "N"⟩,
     ⟨"haccel", "fltcond|singamma", "fltcond|singamma", "", ""⟩, ⟨"haccel", "braking", "braking", "", ""⟩,
     ⟨"vaccel", "accel_vert", "accel_vert", "m/s**2", "m/s**2"⟩, ⟨"vaccel", "weight", "weight", "kg", "kg"⟩,
     ⟨"vaccel", "drag", "drag", "N", "N"⟩, ⟨"vaccel", "lift", "lift", "N", "N"⟩, ⟨"vaccel", "thrust", "thrust", "N", "N"⟩,
     ⟨"vaccel", "fltcond|singamma", "fltcond|singamma", "", ""⟩, ⟨"vaccel", "fltcond|cosgamma", "fltcond|cosgamma", "", ""⟩,
     ⟨"clear_obstacle", "duration", "duration", "s", "s"⟩, ⟨"clear_obstacle", "h_obs", "h_obs", "ft", "m"⟩,
     ⟨"clear_obstacle", "fltcond|h_final", "fltcond|h_final", "m", "m"⟩,
     ⟨"intvelocity", "fltcond|Utrue_final", "fltcond|Utrue_final", "m/s", "m/s"⟩,
     ⟨"intvelocity", "fltcond|Utrue", "fltcond|Utrue", "m/s", "m/s"⟩, ⟨"intvelocity", "duration", "duration", "s", "s"⟩,
     ⟨"intvelocity", "accel_horiz", "accel_horiz", "m/s**2", "(m/s) / (s)"⟩,
     ⟨"intvelocity", "fltcond|Utrue_initial", "fltcond|Utrue_initial", "m/s", "m/s"⟩,
     ⟨"intrange", "range_final", "range_final", "m", "m"⟩, ⟨"intrange", "range", "range", "m", "m"⟩,
     ⟨"intrange", "duration", "duration", "s", "s"⟩,
     ⟨"intrange", "fltcond|groundspeed", "fltcond|groundspeed", "m/s", "(m) / (s)"⟩,
     ⟨"intrange", "range_initial", "range_initial", "m", "m"⟩,
     ⟨"intvs", "fltcond|vs_final", "fltcond|vs_final", "m/s", "m/s"⟩, ⟨"intvs", "fltcond|vs", "fltcond|vs", "m/s", "m/s"⟩,
     ⟨"intvs", "duration", "duration", "s", "s"⟩, ⟨"intvs", "accel_vert", "accel_vert", "m/s**2", "(m/s) / (s)"⟩,
     ⟨"inth", "fltcond|h_final", "fltcond|h_final", "m", "m"⟩, ⟨"inth", "fltcond|h", "fltcond|h", "m", "m"⟩,
     ⟨"inth", "duration", "duration", "s", "s"⟩, ⟨"inth", "fltcond|vs", "fltcond|vs", "m/s", "(m) / (s)"⟩] := by
  decide +kernel

theorem robustGrp_links : robustGrp.links =
    [⟨"const_settings", "braking", "braking", "", ""⟩, ⟨"const_settings", "propulsor_active", "propulsor_active", "", ""⟩,
     ⟨"const_settings", "throttle", "throttle", "", ""⟩, ⟨"const_settings", "v2_vstall_mult", "v2_vstall_mult", "", ""⟩,
     ⟨"const_settings", "vr_vstall_mult", "vr_vstall_mult", "", ""⟩,
     ⟨"const_settings", "fltcond|vs", "fltcond|vs", "m/s", "m/s"⟩,
     ⟨"const_settings", "fltcond|cosgamma", "fltcond|cosgamma", "", ""⟩,
     ⟨"const_settings", "h_obstacle", "h_obstacle", "ft", "ft"⟩, ⟨"altitudes", "vec", "fltcond|h", "m", "m"⟩,
     ⟨"altitudes", "start_val", "h_initial", "m", "m"⟩, ⟨"altitudes", "end_val", "h_obstacle", "ft", "m"⟩,
     ⟨"stall", "Vstall_eas", "Vstall_eas", "m/s", "m/s"⟩, ⟨"stall", "weight", "ac|weights|MTOW", "kg", "kg"⟩,
     ⟨"stall", "ac|geom|wing|S_ref", "ac|geom|wing|S_ref", "m**2", "m**2"⟩, ⟨"stall", "CLmax", "ac|aero|CLmax_TO", "", ""⟩,
     ⟨"vrspeed", "takeoff|vr", "takeoff|vr", "m/s ", "m/s "⟩, ⟨"vrspeed", "Vstall_eas", "Vstall_eas", "m/s", "m/s"⟩,
     ⟨"vrspeed", "vr_vstall_mult", "vr_vstall_mult", "", ""⟩, ⟨"v2speed", "takeoff|v2", "takeoff|v2", "m/s ", "m/s "⟩,
     ⟨"v2speed", "Vstall_eas", "Vstall_eas", "m/s", "m/s"⟩, ⟨"v2speed", "v2_vstall_mult", "v2_vstall_mult", "", ""⟩,
     ⟨"speeds", "vec", "fltcond|Ueas", "kn", "kn"⟩, ⟨"speeds", "start_val", "takeoff|vr", "m/s ", "kn"⟩,
     ⟨"speeds", "end_val", "takeoff|v2", "m/s ", "kn"⟩, ⟨"atmos", "fltcond|T", "fltcond|T", "K", "K"⟩,
     ⟨"atmos", "fltcond|p", "fltcond|p", "Pa", "Pa"⟩, ⟨"atmos", "fltcond|rho", "fltcond|rho", "kg / m**3", "kg / m**3"⟩,
     ⟨"atmos", "fltcond|a", "fltcond|a", "m/s", "m/s"⟩, ⟨"atmos", "fltcond|Utrue", "fltcond|Utrue", "m / s", "m / s"⟩,
     ⟨"atmos", "fltcond|q", "fltcond|q", "N * m**-2", "N * m**-2"⟩, ⟨"atmos", "fltcond|M", "fltcond|M", "", ""⟩,
     ⟨"atmos", "fltcond|h", "fltcond|h", "m", "m"⟩,
     ⟨"atmos", "fltcond|TempIncrement", "fltcond|TempIncrement", "degC", "degC"⟩,
     ⟨"atmos", "fltcond|Ueas", "fltcond|Ueas", "kn", "m / s"⟩, ⟨"clcomp", "fltcond|CL", "fltcond|CL", "", ""⟩,
     ⟨"clcomp", "weight", "weight", "kg", "kg"⟩, ⟨"clcomp", "fltcond|q", "fltcond|q", "N * m**-2", "N * m**-2"⟩,
     ⟨"clcomp", "ac|geom|wing|S_ref", "ac|geom|wing|S_ref", "m**2", "m **2"⟩,
     ⟨"clcomp", "fltcond|cosgamma", "fltcond|cosgamma", "", ""⟩, ⟨"acmodel", "thrust", "thrust", "N", "N"⟩,
     ⟨"acmodel", "drag", "drag", "N", "N"⟩, ⟨"acmodel", "weight", "weight", "kg", "kg"⟩,
     ⟨"acmodel", "throttle", "throttle", "", ""⟩, ⟨"acmodel", "propulsor_active", "propulsor_active", "", ""⟩,
     ⟨"acmodel", "fltcond|CL", "fltcond|CL", "", ""⟩, ⟨"acmodel", "fltcond|p", "fltcond|p", "Pa", "Pa"⟩,
     ⟨"acmodel", "fltcond|T", "fltcond|T", "K", "K"⟩, ⟨"acmodel", "fltcond|rho", "fltcond|rho", "kg / m**3", "kg/m**3"⟩,
     ⟨"acmodel", "fltcond|a", "fltcond|a", "m/s", "m/s"⟩, ⟨"acmodel", "fltcond|Ueas", "fltcond|Ueas", "kn", "m/s"⟩,
     ⟨"acmodel", "fltcond|Utrue", "fltcond|Utrue", "m / s", "m/s"⟩, ⟨"acmodel", "fltcond|q", "fltcond|q", "N * m**-2", "Pa"⟩,
     ⟨"acmodel", "fltcond|M", "fltcond|M", "", ""⟩, ⟨"acmodel", "duration", "duration", "s", "s"⟩,
     ⟨"climbangle", "gamma", "gamma", "rad", "rad"⟩, ⟨"climbangle", "drag", "drag", "N", "N"⟩,
     ⟨"climbangle", "weight", "weight", "kg", "kg"⟩, ⟨"climbangle", "thrust", "thrust", "N", "N"⟩,
     ⟨"transition", "s_transition", "s_transition", "m", "m"⟩, ⟨"transition", "h_transition", "h_transition", "m", "m"⟩,
     ⟨"transition", "t_transition", "t_transition", "s", "s"⟩,
     ⟨"transition", "fltcond|Utrue", "fltcond|Utrue", "m / s", "m/s"⟩, ⟨"transition", "gamma", "gamma", "rad", "rad"⟩,
     ⟨"v2climb", "s_climb", "s_climb", "m", "m"⟩, ⟨"v2climb", "t_climb", "t_climb", "s", "s"⟩,
     ⟨"v2climb", "h_transition", "h_transition", "m", "m"⟩, ⟨"v2climb", "gamma", "gamma", "rad", "rad"⟩,
     ⟨"v2climb", "fltcond|Utrue", "fltcond|Utrue", "m / s", "m/s"⟩, ⟨"tod_final", "range_final", "range_final", "m", "m"⟩,
     ⟨"tod_final", "range_initial", "range_initial", "m", "m"⟩, ⟨"tod_final", "s_transition", "s_transition", "m", "m"⟩,
     ⟨"tod_final", "s_climb", "s_climb", "m", "m"⟩, ⟨"duration", "duration", "duration", "s", "s"⟩,
     ⟨"duration", "t_transition", "t_transition", "s", "s"⟩, ⟨"duration", "t_climb", "t_climb", "s", "s"⟩,
     ⟨"h_final", "fltcond|h_final", "fltcond|h_final", "m", "m"⟩, ⟨"h_final", "h_obstacle", "h_obstacle", "ft", "m"⟩,
     ⟨"ranges", "vec", "range", "m", "m"⟩, ⟨"ranges", "start_val", "range_initial", "m", "m"⟩,
     ⟨"ranges", "end_val", "range_final", "m", "m"⟩] := by
  decide +kernel

theorem climbAngleGrp_true_single_links : (climbAngleGrp true).single.links =
    [⟨"const_settings", "v2_vstall_mult", "v2_vstall_mult", "", ""⟩, ⟨"const_settings", "fltcond|h", "fltcond|h", "m", "m"⟩,
     ⟨"const_settings", "fltcond|cosgamma", "fltcond|cosgamma", "", ""⟩,
     ⟨"const_settings", "propulsor_active", "propulsor_active", "", ""⟩, ⟨"const_settings", "throttle", "throttle", "", ""⟩,
     ⟨"stall", "Vstall_eas", "Vstall_eas", "m/s", "m/s"⟩, ⟨"stall", "weight", "ac|weights|MTOW", "kg", "kg"⟩,
     ⟨"stall", "ac|geom|wing|S_ref", "ac|geom|wing|S_ref", "m**2", "m**2"⟩, ⟨"stall", "CLmax", "ac|aero|CLmax_TO", "", ""⟩,
     ⟨"vrspeed", "takeoff|v2", "takeoff|v2", "m/s ", "m/s "⟩, ⟨"vrspeed", "Vstall_eas", "Vstall_eas", "m/s", "m/s"⟩,
     ⟨"vrspeed", "v2_vstall_mult", "v2_vstall_mult", "", ""⟩, ⟨"atmos", "fltcond|T", "fltcond|T", "K", "K"⟩,
     ⟨"atmos", "fltcond|p", "fltcond|p", "Pa", "Pa"⟩, ⟨"atmos", "fltcond|rho", "fltcond|rho", "kg / m**3", "kg / m**3"⟩,
     ⟨"atmos", "fltcond|a", "fltcond|a", "m/s", "m/s"⟩, ⟨"atmos", "fltcond|Utrue", "fltcond|Utrue", "m / s", "m / s"⟩,
     ⟨"atmos", "fltcond|q", "fltcond|q", "N * m**-2", "N * m**-2"⟩, ⟨"atmos", "fltcond|M", "fltcond|M", "", ""⟩,
     ⟨"atmos", "fltcond|h", "fltcond|h", "m", "m"⟩,
     ⟨"atmos", "fltcond|TempIncrement", "fltcond|TempIncrement", "degC", "degC"⟩,
     ⟨"atmos", "fltcond|Ueas", "takeoff|v2", "m/s ", "m / s"⟩, ⟨"clcomp", "fltcond|CL", "fltcond|CL", "", ""⟩,
     ⟨"clcomp", "weight", "ac|weights|MTOW", "kg", "kg"⟩, ⟨"clcomp", "fltcond|q", "fltcond|q", "N * m**-2", "N * m**-2"⟩,
     ⟨"clcomp", "ac|geom|wing|S_ref", "ac|geom|wing|S_ref", "m**2", "m **2"⟩,
     ⟨"clcomp", "fltcond|cosgamma", "fltcond|cosgamma", "", ""⟩, ⟨"acmodel", "thrust", "thrust", "N", "N"⟩,
     ⟨"acmodel", "drag", "drag", "N", "N"⟩, ⟨"acmodel", "weight", "weight", "kg", "kg"⟩,
     ⟨"acmodel", "throttle", "throttle", "", ""⟩, ⟨"acmodel", "propulsor_active", "propulsor_active", "", ""⟩,
     ⟨"acmodel", "fltcond|CL", "fltcond|CL", "", ""⟩, ⟨"acmodel", "fltcond|p", "fltcond|p", "Pa", "Pa"⟩,
     ⟨"acmodel", "fltcond|T", "fltcond|T", "K", "K"⟩, ⟨"acmodel", "fltcond|rho", "fltcond|rho", "kg / m**3", "kg/m**3"⟩,
     ⟨"acmodel", "fltcond|a", "fltcond|a", "m/s", "m/s"⟩, ⟨"acmodel", "fltcond|Ueas", "takeoff|v2", "m/s ", "m/s"⟩,
     ⟨"acmodel", "fltcond|Utrue", "fltcond|Utrue", "m / s", "m/s"⟩, ⟨"acmodel", "fltcond|q", "fltcond|q", "N * m**-2", "Pa"⟩,
     ⟨"acmodel", "fltcond|M", "fltcond|M", "", ""⟩, ⟨"acmodel", "duration", "duration", "s", "s"⟩,
     ⟨"climbangle", "gamma", "gamma", "rad", "rad"⟩, ⟨"climbangle", "drag", "drag", "N", "N"⟩,
     ⟨"climbangle", "weight", "ac|weights|MTOW", "kg", "kg"⟩, ⟨"climbangle", "thrust", "thrust", "N", "N"⟩] := by
  decide +kernel

theorem climbAngleGrp_false_single_links : (climbAngleGrp false).single.links =
    [⟨"const_settings", "v2_vstall_mult", "v2_vstall_mult", "", ""⟩, ⟨"const_settings", "fltcond|h", "fltcond|h", "m", "m"⟩,
     ⟨"const_settings", "fltcond|cosgamma", "fltcond|cosgamma", "", ""⟩,
     ⟨"const_settings", "propulsor_active", "propulsor_active", "", ""⟩, ⟨"const_settings", "throttle", "throttle", "", ""⟩,
     ⟨"stall", "Vstall_eas", "Vstall_eas", "m/s", "m/s"⟩, ⟨"stall", "weight", "ac|weights|MTOW", "kg", "kg"⟩,
     ⟨"stall", "ac|geom|wing|S_ref", "ac|geom|wing|S_ref", "m**2", "m**2"⟩, ⟨"stall", "CLmax", "ac|aero|CLmax_TO", "", ""⟩,
     ⟨"vrspeed", "takeoff|v2", "takeoff|v2", "m/s ", "m/s "⟩, ⟨"vrspeed", "Vstall_eas", "Vstall_eas", "m/s", "m/s"⟩,
     ⟨"vrspeed", "v2_vstall_mult", "v2_vstall_mult", "", ""⟩, ⟨"atmos", "fltcond|T", "fltcond|T", "K", "K"⟩,
     ⟨"atmos", "fltcond|p", "fltcond|p", "Pa", "Pa"⟩, ⟨"atmos", "fltcond|rho", "fltcond|rho", "kg / m**3", "kg / m**3"⟩,
     ⟨"atmos", "fltcond|a", "fltcond|a", "m/s", "m/s"⟩, ⟨"atmos", "fltcond|Utrue", "fltcond|Utrue", "m / s", "m / s"⟩,
     ⟨"atmos", "fltcond|q", "fltcond|q", "N * m**-2", "N * m**-2"⟩, ⟨"atmos", "fltcond|M", "fltcond|M", "", ""⟩,
     ⟨"atmos", "fltcond|h", "fltcond|h", "m", "m"⟩,
     ⟨"atmos", "fltcond|TempIncrement", "fltcond|TempIncrement", "degC", "degC"⟩,
     ⟨"atmos", "fltcond|Ueas", "takeoff|v2", "m/s ", "m / s"⟩, ⟨"clcomp", "fltcond|CL", "fltcond|CL", "", ""⟩,
     ⟨"clcomp", "weight", "ac|weights|MTOW", "kg", "kg"⟩, ⟨"clcomp", "fltcond|q", "fltcond|q", "N * m**-2", "N * m**-2"⟩,
     ⟨"clcomp", "ac|geom|wing|S_ref", "ac|geom|wing|S_ref", "m**2", "m **2"⟩,
     ⟨"clcomp", "fltcond|cosgamma", "fltcond|cosgamma", "", ""⟩, ⟨"acmodel", "thrust", "thrust", "N", "N"⟩,
     ⟨"acmodel", "drag", "drag", "N", "N"⟩, ⟨"acmodel", "weight", "weight", "kg", "kg"⟩,
     ⟨"acmodel", "throttle", "throttle", "", ""⟩, ⟨"acmodel", "propulsor_active", "propulsor_active", "", ""⟩,
     ⟨"acmodel", "fltcond|CL", "fltcond|CL", "", ""⟩, ⟨"acmodel", "fltcond|p", "fltcond|p", "Pa", "Pa"⟩,
     ⟨"acmodel", "fltcond|T", "fltcond|T", "K", "K"⟩, ⟨"acmodel", "fltcond|rho", "fltcond|rho", "kg / m**3", "kg/m**3"⟩,
     ⟨"acmodel", "fltcond|a", "fltcond|a", "m/s", "m/s"⟩, ⟨"acmodel", "fltcond|Ueas", "takeoff|v2", "m/s ", "m/s"⟩,
     ⟨"acmodel", "fltcond|Utrue", "fltcond|Utrue", "m / s", "m/s"⟩, ⟨"acmodel", "fltcond|q", "fltcond|q", "N * m**-2", "Pa"⟩,
     ⟨"acmodel", "fltcond|M", "fltcond|M", "", ""⟩, ⟨"acmodel", "duration", "duration", "s", "s"⟩,
     ⟨"climbangle", "gamma", "gamma", "rad", "rad"⟩, ⟨"climbangle", "drag", "drag", "N", "N"⟩,
     ⟨"climbangle", "weight", "ac|weights|MTOW", "kg", "kg"⟩, ⟨"climbangle", "thrust", "thrust", "N", "N"⟩] := by
  decide +kernel

theorem legGrp_climb_links : (legGrp .climb).links =
    [⟨"const_settings", "propulsor_active", "propulsor_active", "", ""⟩,
     ⟨"ode_integ_phase", "fltcond|h_final", "ode_integ_phase.fltcond|h_final", "m", "m"⟩,
     ⟨"ode_integ_phase", "fltcond|h", "fltcond|h", "m", "m"⟩,
     ⟨"ode_integ_phase", "range_final", "ode_integ_phase.range_final", "m", "m"⟩,
     ⟨"ode_integ_phase", "range", "range", "m", "m"⟩, ⟨"ode_integ_phase", "duration", "duration", "s", "s"⟩,
     ⟨"ode_integ_phase", "fltcond|vs", "fltcond|vs", "m/s", "(m) / (s)"⟩,
     ⟨"ode_integ_phase", "fltcond|h_initial", "ode_integ_phase.fltcond|h_initial", "m", "m"⟩,
     ⟨"ode_integ_phase", "fltcond|groundspeed", "fltcond|groundspeed", "m/s", "(m) / (s)"⟩,
     ⟨"ode_integ_phase", "range_initial", "ode_integ_phase.range_initial", "m", "m"⟩,
     ⟨"atmos", "fltcond|T", "fltcond|T", "K", "K"⟩, ⟨"atmos", "fltcond|p", "fltcond|p", "Pa", "Pa"⟩,
     ⟨"atmos", "fltcond|rho", "fltcond|rho", "kg / m**3", "kg / m**3"⟩, ⟨"atmos", "fltcond|a", "fltcond|a", "m/s", "m/s"⟩,
     ⟨"atmos", "fltcond|Utrue", "fltcond|Utrue", "m / s", "m / s"⟩,
     ⟨"atmos", "fltcond|q", "fltcond|q", "N * m**-2", "N * m**-2"⟩, ⟨"atmos", "fltcond|M", "fltcond|M", "", ""⟩,
     ⟨"atmos", "fltcond|h", "fltcond|h", "m", "m"⟩,
     ⟨"atmos", "fltcond|TempIncrement", "fltcond|TempIncrement", "degC", "degC"⟩,
     ⟨"atmos", "fltcond|Ueas", "fltcond|Ueas", "m/s", "m / s"⟩,
     ⟨"gs", "fltcond|groundspeed", "fltcond|groundspeed", "m/s", "m/s"⟩,
     ⟨"gs", "fltcond|cosgamma", "fltcond|cosgamma", "", ""⟩, ⟨"gs", "fltcond|singamma", "fltcond|singamma", "", ""⟩,
     ⟨"gs", "fltcond|vs", "fltcond|vs", "m/s", "m/s"⟩, ⟨"gs", "fltcond|Utrue", "fltcond|Utrue", "m / s", "m/s"⟩,
     ⟨"acmodel", "thrust", "thrust", "N", "N"⟩, ⟨"acmodel", "drag", "drag", "N", "N"⟩,
     ⟨"acmodel", "weight", "weight", "kg", "kg"⟩, ⟨"acmodel", "throttle", "throttle", "", ""⟩,
     ⟨"acmodel", "propulsor_active", "propulsor_active", "", ""⟩, ⟨"acmodel", "fltcond|CL", "fltcond|CL", "", ""⟩,
     ⟨"acmodel", "fltcond|p", "fltcond|p", "Pa", "Pa"⟩, ⟨"acmodel", "fltcond|T", "fltcond|T", "K", "K"⟩,
     ⟨"acmodel", "fltcond|rho", "fltcond|rho", "kg / m**3", "kg/m**3"⟩, ⟨"acmodel", "fltcond|a", "fltcond|a", "m/s", "m/s"⟩,
     ⟨"acmodel", "fltcond|Ueas", "fltcond|Ueas", "m/s", "m/s"⟩,
     ⟨"acmodel", "fltcond|Utrue", "fltcond|Utrue", "m / s", "m/s"⟩, ⟨"acmodel", "fltcond|q", "fltcond|q", "N * m**-2", "Pa"⟩,
     ⟨"acmodel", "fltcond|M", "fltcond|M", "", ""⟩, ⟨"acmodel", "duration", "duration", "s", "s"⟩,
     ⟨"clcomp", "fltcond|CL", "fltcond|CL", "", ""⟩, ⟨"clcomp", "weight", "weight", "kg", "kg"⟩,
     ⟨"clcomp", "fltcond|q", "fltcond|q", "N * m**-2", "N * m**-2"⟩,
     ⟨"clcomp", "ac|geom|wing|S_ref", "ac|geom|wing|S_ref", "m **2", "m **2"⟩,
     ⟨"clcomp", "fltcond|cosgamma", "fltcond|cosgamma", "", ""⟩, ⟨"lift", "lift", "lift", "N", "N"⟩,
     ⟨"lift", "fltcond|CL", "fltcond|CL", "", ""⟩, ⟨"lift", "fltcond|q", "fltcond|q", "N * m**-2", "N * m**-2"⟩,
     ⟨"lift", "ac|geom|wing|S_ref", "ac|geom|wing|S_ref", "m **2", "m **2"⟩,
     ⟨"haccel", "accel_horiz", "accel_horiz", "m/s**2", "m/s**2"⟩, ⟨"haccel", "weight", "weight", "kg", "kg"⟩,
     ⟨"haccel", "drag", "drag", "N", "N"⟩, ⟨"haccel", "lift", "lift", "N", "N"⟩, ⟨"haccel", "thrust", "thrust", "N", "N"⟩,
     ⟨"haccel", "fltcond|singamma", "fltcond|singamma", "", ""⟩, ⟨"haccel", "braking", "braking", "", ""⟩,
     ⟨"steadyflt", "throttle", "throttle", "", ""⟩, ⟨"steadyflt", "zero_accel", "zero_accel", "m/s**2", "m/s**2"⟩,
     ⟨"steadyflt", "accel_horiz", "accel_horiz", "m/s**2", "m/s**2"⟩, ⟨"climbdt", "duration", "duration", "s", "s"⟩,
     ⟨"climbdt", "fltcond|h_final", "ode_integ_phase.fltcond|h_final", "m", "m"⟩,
     ⟨"climbdt", "cruise|h0", "climbdt.cruise|h0", "m", "m"⟩] := by
  decide +kernel

theorem legGrp_cruise_links : (legGrp .cruise).links =
    [⟨"const_settings", "propulsor_active", "propulsor_active", "", ""⟩,
     ⟨"ode_integ_phase", "fltcond|h_final", "ode_integ_phase.fltcond|h_final", "m", "m"⟩,
     ⟨"ode_integ_phase", "fltcond|h", "fltcond|h", "m", "m"⟩,
     ⟨"ode_integ_phase", "range_final", "ode_integ_phase.range_final", "m", "m"⟩,
     ⟨"ode_integ_phase", "range", "range", "m", "m"⟩, ⟨"ode_integ_phase", "duration", "duration", "s", "s"⟩,
     ⟨"ode_integ_phase", "fltcond|vs", "fltcond|vs", "m/s", "(m) / (s)"⟩,
     ⟨"ode_integ_phase", "fltcond|h_initial", "ode_integ_phase.fltcond|h_initial", "m", "m"⟩,
     ⟨"ode_integ_phase", "fltcond|groundspeed", "fltcond|groundspeed", "m/s", "(m) / (s)"⟩,
     ⟨"ode_integ_phase", "range_initial", "ode_integ_phase.range_initial", "m", "m"⟩,
     ⟨"atmos", "fltcond|T", "fltcond|T", "K", "K"⟩, ⟨"atmos", "fltcond|p", "fltcond|p", "Pa", "Pa"⟩,
     ⟨"atmos", "fltcond|rho", "fltcond|rho", "kg / m**3", "kg / m**3"⟩, ⟨"atmos", "fltcond|a", "fltcond|a", "m/s", "m/s"⟩,
     ⟨"atmos", "fltcond|Utrue", "fltcond|Utrue", "m / s", "m / s"⟩,
     ⟨"atmos", "fltcond|q", "fltcond|q", "N * m**-2", "N * m**-2"⟩, ⟨"atmos", "fltcond|M", "fltcond|M", "", ""⟩,
     ⟨"atmos", "fltcond|h", "fltcond|h", "m", "m"⟩,
     ⟨"atmos", "fltcond|TempIncrement", "fltcond|TempIncrement", "degC", "degC"⟩,
     ⟨"atmos", "fltcond|Ueas", "fltcond|Ueas", "m/s", "m / s"⟩,
     ⟨"gs", "fltcond|groundspeed", "fltcond|groundspeed", "m/s", "m/s"⟩,
     ⟨"gs", "fltcond|cosgamma", "fltcond|cosgamma", "", ""⟩, ⟨"gs", "fltcond|singamma", "fltcond|singamma", "", ""⟩,
     ⟨"gs", "fltcond|vs", "fltcond|vs", "m/s", "m/s"⟩, ⟨"gs", "fltcond|Utrue", "fltcond|Utrue", "m / s", "m/s"⟩,
     ⟨"acmodel", "thrust", "thrust", "N", "N"⟩, ⟨"acmodel", "drag", "drag", "N", "N"⟩,
     ⟨"acmodel", "weight", "weight", "kg", "kg"⟩, ⟨"acmodel", "throttle", "throttle", "", ""⟩,
     ⟨"acmodel", "propulsor_active", "propulsor_active", "", ""⟩, ⟨"acmodel", "fltcond|CL", "fltcond|CL", "", ""⟩,
     ⟨"acmodel", "fltcond|p", "fltcond|p", "Pa", "Pa"⟩, ⟨"acmodel", "fltcond|T", "fltcond|T", "K", "K"⟩,
     ⟨"acmodel", "fltcond|rho", "fltcond|rho", "kg / m**3", "kg/m**3"⟩, ⟨"acmodel", "fltcond|a", "fltcond|a", "m/s", "m/s"⟩,
     ⟨"acmodel", "fltcond|Ueas", "fltcond|Ueas", "m/s", "m/s"⟩,
     ⟨"acmodel", "fltcond|Utrue", "fltcond|Utrue", "m / s", "m/s"⟩, ⟨"acmodel", "fltcond|q", "fltcond|q", "N * m**-2", "Pa"⟩,
     ⟨"acmodel", "fltcond|M", "fltcond|M", "", ""⟩, ⟨"acmodel", "duration", "duration", "s", "s"⟩,
     ⟨"clcomp", "fltcond|CL", "fltcond|CL", "", ""⟩, ⟨"clcomp", "weight", "weight", "kg", "kg"⟩,
     ⟨"clcomp", "fltcond|q", "fltcond|q", "N * m**-2", "N * m**-2"⟩,
     ⟨"clcomp", "ac|geom|wing|S_ref", "ac|geom|wing|S_ref", "m **2", "m **2"⟩,
     ⟨"clcomp", "fltcond|cosgamma", "fltcond|cosgamma", "", ""⟩, ⟨"lift", "lift", "lift", "N", "N"⟩,
     ⟨"lift", "fltcond|CL", "fltcond|CL", "", ""⟩, ⟨"lift", "fltcond|q", "fltcond|q", "N * m**-2", "N * m**-2"⟩,
     ⟨"lift", "ac|geom|wing|S_ref", "ac|geom|wing|S_ref", "m **2", "m **2"⟩,
     ⟨"haccel", "accel_horiz", "accel_horiz", "m/s**2", "m/s**2"⟩, ⟨"haccel", "weight", "weight", "kg", "kg"⟩,
     ⟨"haccel", "drag", "drag", "N", "N"⟩, ⟨"haccel", "lift", "lift", "N", "N"⟩, ⟨"haccel", "thrust", "thrust", "N", "N"⟩,
     ⟨"haccel", "fltcond|singamma", "fltcond|singamma", "", ""⟩, ⟨"haccel", "braking", "braking", "", ""⟩,
     ⟨"steadyflt", "throttle", "throttle", "", ""⟩, ⟨"steadyflt", "zero_accel", "zero_accel", "m/s**2", "m/s**2"⟩,
     ⟨"steadyflt", "accel_horiz", "accel_horiz", "m/s**2", "m/s**2"⟩, ⟨"cruisedt", "duration", "duration", "s", "s"⟩,
     ⟨"cruisedt", "range_final", "cruisedt.range_final", "km", "km"⟩,
     ⟨"cruisedt", "mission_range", "cruisedt.mission_range", "km", "km"⟩] := by
  decide +kernel

theorem legGrp_descent_links : (legGrp .descent).links =
    [⟨"const_settings", "propulsor_active", "propulsor_active", "", ""⟩,
     ⟨"ode_integ_phase", "fltcond|h_final", "ode_integ_phase.fltcond|h_final", "m", "m"⟩,
     ⟨"ode_integ_phase", "fltcond|h", "fltcond|h", "m", "m"⟩,
     ⟨"ode_integ_phase", "range_final", "ode_integ_phase.range_final", "m", "m"⟩,
     ⟨"ode_integ_phase", "range", "range", "m", "m"⟩, ⟨"ode_integ_phase", "duration", "duration", "s", "s"⟩,
     ⟨"ode_integ_phase", "fltcond|vs", "fltcond|vs", "m/s", "(m) / (s)"⟩,
     ⟨"ode_integ_phase", "fltcond|h_initial", "ode_integ_phase.fltcond|h_initial", "m", "m"⟩,
     ⟨"ode_integ_phase", "fltcond|groundspeed", "fltcond|groundspeed", "m/s", "(m) / (s)"⟩,
     ⟨"ode_integ_phase", "range_initial", "ode_integ_phase.range_initial", "m", "m"⟩,
     ⟨"atmos", "fltcond|T", "fltcond|T", "K", "K"⟩, ⟨"atmos", "fltcond|p", "fltcond|p", "Pa", "Pa"⟩,
     ⟨"atmos", "fltcond|rho", "fltcond|rho", "kg / m**3", "kg / m**3"⟩, ⟨"atmos", "fltcond|a", "fltcond|a", "m/s", "m/s"⟩,
     ⟨"atmos", "fltcond|Utrue", "fltcond|Utrue", "m / s", "m / s"⟩,
     ⟨"atmos", "fltcond|q", "fltcond|q", "N * m**-2", "N * m**-2"⟩, ⟨"atmos", "fltcond|M", "fltcond|M", "", ""⟩,
     ⟨"atmos", "fltcond|h", "fltcond|h", "m", "m"⟩,
     ⟨"atmos", "fltcond|TempIncrement", "fltcond|TempIncrement", "degC", "degC"⟩,
     ⟨"atmos", "fltcond|Ueas", "fltcond|Ueas", "m/s", "m / s"⟩,
     ⟨"gs", "fltcond|groundspeed", "fltcond|groundspeed", "m/s", "m/s"⟩,
     ⟨"gs", "fltcond|cosgamma", "fltcond|cosgamma", "", ""⟩, ⟨"gs", "fltcond|singamma", "fltcond|singamma", "", ""⟩,
     ⟨"gs", "fltcond|vs", "fltcond|vs", "m/s", "m/s"⟩, ⟨"gs", "fltcond|Utrue", "fltcond|Utrue", "m / s", "m/s"⟩,
     ⟨"acmodel", "thrust", "thrust", "N", "N"⟩, ⟨"acmodel", "drag", "drag", "N", "N"⟩,
     ⟨"acmodel", "weight", "weight", "kg", "kg"⟩, ⟨"acmodel", "throttle", "throttle", "", ""⟩,
     ⟨"acmodel", "propulsor_active", "propulsor_active", "", ""⟩, ⟨"acmodel", "fltcond|CL", "fltcond|CL", "", ""⟩,
     ⟨"acmodel", "fltcond|p", "fltcond|p", "Pa", "Pa"⟩, ⟨"acmodel", "fltcond|T", "fltcond|T", "K", "K"⟩,
     ⟨"acmodel", "fltcond|rho", "fltcond|rho", "kg / m**3", "kg/m**3"⟩, ⟨"acmodel", "fltcond|a", "fltcond|a", "m/s", "m/s"⟩,
     ⟨"acmodel", "fltcond|Ueas", "fltcond|Ueas", "m/s", "m/s"⟩,
     ⟨"acmodel", "fltcond|Utrue", "fltcond|Utrue", "m / s", "m/s"⟩, ⟨"acmodel", "fltcond|q", "fltcond|q", "N * m**-2", "Pa"⟩,
     ⟨"acmodel", "fltcond|M", "fltcond|M", "", ""⟩, ⟨"acmodel", "duration", "duration", "s", "s"⟩,
     ⟨"clcomp", "fltcond|CL", "fltcond|CL", "", ""⟩, ⟨"clcomp", "weight", "weight", "kg", "kg"⟩,
     ⟨"clcomp", "fltcond|q", "fltcond|q", "N * m**-2", "N * m**-2"⟩,
     ⟨"clcomp", "ac|geom|wing|S_ref", "ac|geom|wing|S_ref", "m **2", "m **2"⟩,
     ⟨"clcomp", "fltcond|cosgamma", "fltcond|cosgamma", "", ""⟩, ⟨"lift", "lift", "lift", "N", "N"⟩,
     ⟨"lift", "fltcond|CL", "fltcond|CL", "", ""⟩, ⟨"lift", "fltcond|q", "fltcond|q", "N * m**-2", "N * m**-2"⟩,
     ⟨"lift", "ac|geom|wing|S_ref", "ac|geom|wing|S_ref", "m **2", "m **2"⟩,
     ⟨"haccel", "accel_horiz", "accel_horiz", "m/s**2", "m/s**2"⟩, ⟨"haccel", "weight", "weight", "kg", "kg"⟩,
     ⟨"haccel", "drag", "drag", "N", "N"⟩, ⟨"haccel", "lift", "lift", "N", "N"⟩, ⟨"haccel", "thrust", "thrust", "N", "N"⟩,
     ⟨"haccel", "fltcond|singamma", "fltcond|singamma", "", ""⟩, ⟨"haccel", "braking", "braking", "", ""⟩,
     ⟨"steadyflt", "throttle", "throttle", "", ""⟩, ⟨"steadyflt", "zero_accel", "zero_accel", "m/s**2", "m/s**2"⟩,
     ⟨"steadyflt", "accel_horiz", "accel_horiz", "m/s**2", "m/s**2"⟩, ⟨"descentdt", "duration", "duration", "s", "s"⟩,
     ⟨"descentdt", "fltcond|h_final", "ode_integ_phase.fltcond|h_final", "m", "m"⟩,
     ⟨"descentdt", "takeoff|h", "descentdt.takeoff|h", "m", "m"⟩] := by
  decide +kernel

theorem legGrp_reserveClimb_links : (legGrp .reserveClimb).links =
    [⟨"const_settings", "propulsor_active", "propulsor_active", "", ""⟩,
     ⟨"ode_integ_phase", "fltcond|h_final", "ode_integ_phase.fltcond|h_final", "m", "m"⟩,
     ⟨"ode_integ_phase", "fltcond|h", "fltcond|h", "m", "m"⟩,
     ⟨"ode_integ_phase", "range_final", "ode_integ_phase.range_final", "m", "m"⟩,
     ⟨"ode_integ_phase", "range", "range", "m", "m"⟩, ⟨"ode_integ_phase", "duration", "duration", "s", "s"⟩,
     ⟨"ode_integ_phase", "fltcond|vs", "fltcond|vs", "m/s", "(m) / (s)"⟩,
     ⟨"ode_integ_phase", "fltcond|h_initial", "ode_integ_phase.fltcond|h_initial", "m", "m"⟩,
     ⟨"ode_integ_phase", "fltcond|groundspeed", "fltcond|groundspeed", "m/s", "(m) / (s)"⟩,
     ⟨"ode_integ_phase", "range_initial", "ode_integ_phase.range_initial", "m", "m"⟩,
     ⟨"atmos", "fltcond|T", "fltcond|T", "K", "K"⟩, ⟨"atmos", "fltcond|p", "fltcond|p", "Pa", "Pa"⟩,
     ⟨"atmos", "fltcond|rho", "fltcond|rho", "kg / m**3", "kg / m**3"⟩, ⟨"atmos", "fltcond|a", "fltcond|a", "m/s", "m/s"⟩,
     ⟨"atmos", "fltcond|Utrue", "fltcond|Utrue", "m / s", "m / s"⟩,
     ⟨"atmos", "fltcond|q", "fltcond|q", "N * m**-2", "N * m**-2"⟩, ⟨"atmos", "fltcond|M", "fltcond|M", "", ""⟩,
     ⟨"atmos", "fltcond|h", "fltcond|h", "m", "m"⟩,
     ⟨"atmos", "fltcond|TempIncrement", "fltcond|TempIncrement", "degC", "degC"⟩,
     ⟨"atmos", "fltcond|Ueas", "fltcond|Ueas", "m/s", "m / s"⟩,
     ⟨"gs", "fltcond|groundspeed", "fltcond|groundspeed", "m/s", "m/s"⟩,
     ⟨"gs", "fltcond|cosgamma", "fltcond|cosgamma", "", ""⟩, ⟨"gs", "fltcond|singamma", "fltcond|singamma", "", ""⟩,
     ⟨"gs", "fltcond|vs", "fltcond|vs", "m/s", "m/s"⟩, ⟨"gs", "fltcond|Utrue", "fltcond|Utrue", "m / s", "m/s"⟩,
     ⟨"acmodel", "thrust", "thrust", "N", "N"⟩, ⟨"acmodel", "drag", "drag", "N", "N"⟩,
     ⟨"acmodel", "weight", "weight", "kg", "kg"⟩, ⟨"acmodel", "throttle", "throttle", "", ""⟩,
     ⟨"acmodel", "propulsor_active", "propulsor_active", "", ""⟩, ⟨"acmodel", "fltcond|CL", "fltcond|CL", "", ""⟩,
     ⟨"acmodel", "fltcond|p", "fltcond|p", "Pa", "Pa"⟩, ⟨"acmodel", "fltcond|T", "fltcond|T", "K", "K"⟩,
     ⟨"acmodel", "fltcond|rho", "fltcond|rho", "kg / m**3", "kg/m**3"⟩, ⟨"acmodel", "fltcond|a", "fltcond|a", "m/s", "m/s"⟩,
     ⟨"acmodel", "fltcond|Ueas", "fltcond|Ueas", "m/s", "m/s"⟩,
     ⟨"acmodel", "fltcond|Utrue", "fltcond|Utrue", "m / s", "m/s"⟩, ⟨"acmodel", "fltcond|q", "fltcond|q", "N * m**-2", "Pa"⟩,
     ⟨"acmodel", "fltcond|M", "fltcond|M", "", ""⟩, ⟨"acmodel", "duration", "duration", "s", "s"⟩,
     ⟨"clcomp", "fltcond|CL", "fltcond|CL", "", ""⟩, ⟨"clcomp", "weight", "weight", "kg", "kg"⟩,
     ⟨"clcomp", "fltcond|q", "fltcond|q", "N * m**-2", "N * m**-2"⟩,
     ⟨"clcomp", "ac|geom|wing|S_ref", "ac|geom|wing|S_ref", "m **2", "m **2"⟩,
     ⟨"clcomp", "fltcond|cosgamma", "fltcond|cosgamma", "", ""⟩, ⟨"lift", "lift", "lift", "N", "N"⟩,
     ⟨"lift", "fltcond|CL", "fltcond|CL", "", ""⟩, ⟨"lift", "fltcond|q", "fltcond|q", "N * m**-2", "N * m**-2"⟩,
     ⟨"lift", "ac|geom|wing|S_ref", "ac|geom|wing|S_ref", "m **2", "m **2"⟩,
     ⟨"haccel", "accel_horiz", "accel_horiz", "m/s**2", "m/s**2"⟩, ⟨"haccel", "weight", "weight", "kg", "kg"⟩,
     ⟨"haccel", "drag", "drag", "N", "N"⟩, ⟨"haccel", "lift", "lift", "N", "N"⟩, ⟨"haccel", "thrust", "thrust", "N", "N"⟩,
     ⟨"haccel", "fltcond|singamma", "fltcond|singamma", "", ""⟩, ⟨"haccel", "braking", "braking", "", ""⟩,
     ⟨"steadyflt", "throttle", "throttle", "", ""⟩, ⟨"steadyflt", "zero_accel", "zero_accel", "m/s**2", "m/s**2"⟩,
     ⟨"steadyflt", "accel_horiz", "accel_horiz", "m/s**2", "m/s**2"⟩, ⟨"reserve_climbdt", "duration", "duration", "s", "s"⟩,
     ⟨"reserve_climbdt", "fltcond|h_final", "ode_integ_phase.fltcond|h_final", "m", "m"⟩,
     ⟨"reserve_climbdt", "reserve|h0", "reserve_climbdt.reserve|h0", "m", "m"⟩] := by
  decide +kernel

theorem legGrp_reserveCruise_links : (legGrp .reserveCruise).links =
    [⟨"const_settings", "propulsor_active", "propulsor_active", "", ""⟩,
     ⟨"ode_integ_phase", "fltcond|h_final", "ode_integ_phase.fltcond|h_final", "m", "m"⟩,
     ⟨"ode_integ_phase", "fltcond|h", "fltcond|h", "m", "m"⟩,
     ⟨"ode_integ_phase", "range_final", "ode_integ_phase.range_final", "m", "m"⟩,
     ⟨"ode_integ_phase", "range", "range", "m", "m"⟩, ⟨"ode_integ_phase", "duration", "duration", "s", "s"⟩,
     ⟨"ode_integ_phase", "fltcond|vs", "fltcond|vs", "m/s", "(m) / (s)"⟩,
     ⟨"ode_integ_phase", "fltcond|h_initial", "ode_integ_phase.fltcond|h_initial", "m", "m"⟩,
     ⟨"ode_integ_phase", "fltcond|groundspeed", "fltcond|groundspeed", "m/s", "(m) / (s)"⟩,
     ⟨"ode_integ_phase", "range_initial", "ode_integ_phase.range_initial", "m", "m"⟩,
     ⟨"atmos", "fltcond|T", "fltcond|T", "K", "K"⟩, ⟨"atmos", "fltcond|p", "fltcond|p", "Pa", "Pa"⟩,
     ⟨"atmos", "fltcond|rho", "fltcond|rho", "kg / m**3", "kg / m**3"⟩, ⟨"atmos", "fltcond|a", "fltcond|a", "m/s", "m/s"⟩,
     ⟨"atmos", "fltcond|Utrue", "fltcond|Utrue", "m / s", "m / s"⟩,
     ⟨"atmos", "fltcond|q", "fltcond|q", "N * m**-2", "N * m**-2"⟩, ⟨"atmos", "fltcond|M", "fltcond|M", "", ""⟩,
     ⟨"atmos", "fltcond|h", "fltcond|h", "m", "m"⟩,
     ⟨"atmos", "fltcond|TempIncrement", "fltcond|TempIncrement", "degC", "degC"⟩,
     ⟨"atmos", "fltcond|Ueas", "fltcond|Ueas", "m/s", "m / s"⟩,
     ⟨"gs", "fltcond|groundspeed", "fltcond|groundspeed", "m/s", "m/s"⟩,
     ⟨"gs", "fltcond|cosgamma", "fltcond|cosgamma", "", ""⟩, ⟨"gs", "fltcond|singamma", "fltcond|singamma", "", ""⟩,
     ⟨"gs", "fltcond|vs", "fltcond|vs", "m/s", "m/s"⟩, ⟨"gs", "fltcond|Utrue", "fltcond|Utrue", "m / s", "m/s"⟩,
     ⟨"acmodel", "thrust", "thrust", "N", "N"⟩, ⟨"acmodel", "drag", "drag", "N", "N"⟩,
     ⟨"acmodel", "weight", "weight", "kg", "kg"⟩, ⟨"acmodel", "throttle", "throttle", "", ""⟩,
     ⟨"acmodel", "propulsor_active", "propulsor_active", "", ""⟩, ⟨"acmodel", "fltcond|CL", "fltcond|CL", "", ""⟩,
     ⟨"acmodel", "fltcond|p", "fltcond|p", "Pa", "Pa"⟩, ⟨"acmodel", "fltcond|T", "fltcond|T", "K", "K"⟩,
     ⟨"acmodel", "fltcond|rho", "fltcond|rho", "kg / m**3", "kg/m**3"⟩, ⟨"acmodel", "fltcond|a", "fltcond|a", "m/s", "m/s"⟩,
     ⟨"acmodel", "fltcond|Ueas", "fltcond|Ueas", "m/s", "m/s"⟩,
     ⟨"acmodel", "fltcond|Utrue", "fltcond|Utrue", "m / s", "m/s"⟩, ⟨"acmodel", "fltcond|q", "fltcond|q", "N * m**-2", "Pa"⟩,
     ⟨"acmodel", "fltcond|M", "fltcond|M", "", ""⟩, ⟨"acmodel", "duration", "duration", "s", "s"⟩,
     ⟨"clcomp", "fltcond|CL", "fltcond|CL", "", ""⟩, ⟨"clcomp", "weight", "weight", "kg", "kg"⟩,
     ⟨"clcomp", "fltcond|q", "fltcond|q", "N * m**-2", "N * m**-2"⟩,
     ⟨"clcomp", "ac|geom|wing|S_ref", "ac|geom|wing|S_ref", "m **2", "m **2"⟩,
     ⟨"clcomp", "fltcond|cosgamma", "fltcond|cosgamma", "", ""⟩, ⟨"lift", "lift", "lift", "N", "N"⟩,
     ⟨"lift", "fltcond|CL", "fltcond|CL", "", ""⟩, ⟨"lift", "fltcond|q", "fltcond|q", "N * m**-2", "N * m**-2"⟩,
     ⟨"lift", "ac|geom|wing|S_ref", "ac|geom|wing|S_ref", "m **2", "m **2"⟩,
     ⟨"haccel", "accel_horiz", "accel_horiz", "m/s**2", "m/s**2"⟩, ⟨"haccel", "weight", "weight", "kg", "kg"⟩,
     ⟨"haccel", "drag", "drag", "N", "N"⟩, ⟨"haccel", "lift", "lift", "N", "N"⟩, ⟨"haccel", "thrust", "thrust", "N", "N"⟩,
     ⟨"haccel", "fltcond|singamma", "fltcond|singamma", "", ""⟩, ⟨"haccel", "braking", "braking", "", ""⟩,
     ⟨"steadyflt", "throttle", "throttle", "", ""⟩, ⟨"steadyflt", "zero_accel", "zero_accel", "m/s**2", "m/s**2"⟩,
     ⟨"steadyflt", "accel_horiz", "accel_horiz", "m/s**2", "m/s**2"⟩, ⟨"reserve_cruisedt", "duration", "duration", "s", "s"⟩,
     ⟨"reserve_cruisedt", "range_final", "reserve_cruisedt.range_final", "m", "m"⟩,
     ⟨"reserve_cruisedt", "reserve_range", "reserve_cruisedt.reserve_range", "m", "m"⟩] := by
  decide +kernel

theorem legGrp_reserveDescent_links : (legGrp .reserveDescent).links =
    [⟨"const_settings", "propulsor_active", "propulsor_active", "", ""⟩,
     ⟨"ode_integ_phase", "fltcond|h_final", "ode_integ_phase.fltcond|h_final", "m", "m"⟩,
     ⟨"ode_integ_phase", "fltcond|h", "fltcond|h", "m", "m"⟩,
     ⟨"ode_integ_phase", "range_final", "ode_integ_phase.range_final", "m", "m"⟩,
     ⟨"ode_integ_phase", "range", "range", "m", "m"⟩, ⟨"ode_integ_phase", "duration", "duration", "s", "s"⟩,
     ⟨"ode_integ_phase", "fltcond|vs", "fltcond|vs", "m/s", "(m) / (s)"⟩,
     ⟨"ode_integ_phase", "fltcond|h_initial", "ode_integ_phase.fltcond|h_initial", "m", "m"⟩,
     ⟨"ode_integ_phase", "fltcond|groundspeed", "fltcond|groundspeed", "m/s", "(m) / (s)"⟩,
     ⟨"ode_integ_phase", "range_initial", "ode_integ_phase.range_initial", "m", "m"⟩,
     ⟨"atmos", "fltcond|T", "fltcond|T", "K", "K"⟩, ⟨"atmos", "fltcond|p", "fltcond|p", "Pa", "Pa"⟩,
     ⟨"atmos", "fltcond|rho", "fltcond|rho", "kg / m**3", "kg / m**3"⟩, ⟨"atmos", "fltcond|a", "fltcond|a", "m/s", "m/s"⟩,
     ⟨"atmos", "fltcond|Utrue", "fltcond|Utrue", "m / s", "m / s"⟩,
     ⟨"atmos", "fltcond|q", "fltcond|q", "N * m**-2", "N * m**-2"⟩, ⟨"atmos", "fltcond|M", "fltcond|M", "", ""⟩,
     ⟨"atmos", "fltcond|h", "fltcond|h", "m", "m"⟩,
     ⟨"atmos", "fltcond|TempIncrement", "fltcond|TempIncrement", "degC", "degC"⟩,
     ⟨"atmos", "fltcond|Ueas", "fltcond|Ueas", "m/s", "m / s"⟩,
     ⟨"gs", "fltcond|groundspeed", "fltcond|groundspeed", "m/s", "m/s"⟩,
     ⟨"gs", "fltcond|cosgamma", "fltcond|cosgamma", "", ""⟩, ⟨"gs", "fltcond|singamma", "fltcond|singamma", "", ""⟩,
     ⟨"gs", "fltcond|vs", "fltcond|vs", "m/s", "m/s"⟩, ⟨"gs", "fltcond|Utrue", "fltcond|Utrue", "m / s", "m/s"⟩,
     ⟨"acmodel", "thrust", "thrust", "N", "N"⟩, ⟨"acmodel", "drag", "drag", "N", "N"⟩,
     ⟨"acmodel", "weight", "weight", "kg", "kg"⟩, ⟨"acmodel", "throttle", "throttle", "", ""⟩,
     ⟨"acmodel", "propulsor_active", "propulsor_active", "", ""⟩, ⟨"acmodel", "fltcond|CL", "fltcond|CL", "", ""⟩,
     ⟨"acmodel", "fltcond|p", "fltcond|p", "Pa", "Pa"⟩, ⟨"acmodel", "fltcond|T", "fltcond|T", "K", "K"⟩,
     ⟨"acmodel", "fltcond|rho", "fltcond|rho", "kg / m**3", "kg/m**3"⟩, ⟨"acmodel", "fltcond|a", "fltcond|a", "m/s", "m/s"⟩,
     ⟨"acmodel", "fltcond|Ueas", "fltcond|Ueas", "m/s", "m/s"⟩,
     ⟨"acmodel", "fltcond|Utrue", "fltcond|Utrue", "m / s", "m/s"⟩, ⟨"acmodel", "fltcond|q", "fltcond|q", "N * m**-2", "Pa"⟩,
     ⟨"acmodel", "fltcond|M", "fltcond|M", "", ""⟩, ⟨"acmodel", "duration", "duration", "s", "s"⟩,
     ⟨"clcomp", "fltcond|CL", "fltcond|CL", "", ""⟩, ⟨"clcomp", "weight", "weight", "kg", "kg"⟩,
     ⟨"clcomp", "fltcond|q", "fltcond|q", "N * m**-2", "N * m**-2"⟩,
     ⟨"clcomp", "ac|geom|wing|S_ref", "ac|geom|wing|S_ref", "m **2", "m **2"⟩,
     ⟨"clcomp", "fltcond|cosgamma", "fltcond|cosgamma", "", ""⟩, ⟨"lift", "lift", "lift", "N", "N"⟩,
     ⟨"lift", "fltcond|CL", "fltcond|CL", "", ""⟩, ⟨"lift", "fltcond|q", "fltcond|q", "N * m**-2", "N * m**-2"⟩,
     ⟨"lift", "ac|geom|wing|S_ref", "ac|geom|wing|S_ref", "m **2", "m **2"⟩,
     ⟨"haccel", "accel_horiz", "accel_horiz", "m/s**2", "m/s**2"⟩, ⟨"haccel", "weight", "weight", "kg", "kg"⟩,
     ⟨"haccel", "drag", "drag", "N", "N"⟩, ⟨"haccel", "lift", "lift", "N", "N"⟩, ⟨"haccel", "thrust", "thrust", "N", "N"⟩,
     ⟨"haccel", "fltcond|singamma", "fltcond|singamma", "", ""⟩, ⟨"haccel", "braking", "braking", "", ""⟩,
     ⟨"steadyflt", "throttle", "throttle", "", ""⟩, ⟨"steadyflt", "zero_accel", "zero_accel", "m/s**2", "m/s**2"⟩,
     ⟨"steadyflt", "accel_horiz", "accel_horiz", "m/s**2", "m/s**2"⟩,
     ⟨"reserve_descentdt", "duration", "duration", "s", "s"⟩,
     ⟨"reserve_descentdt", "fltcond|h_final", "ode_integ_phase.fltcond|h_final", "m", "m"⟩,
     ⟨"reserve_descentdt", "takeoff|h", "reserve_descentdt.takeoff|h", "m", "m"⟩] := by
  decide +kernel

theorem legGrp_loiter_links : (legGrp .loiter).links =
    [⟨"const_settings", "propulsor_active", "propulsor_active", "", ""⟩,
     ⟨"ode_integ_phase", "fltcond|h_final", "ode_integ_phase.fltcond|h_final", "m", "m"⟩,
     ⟨"ode_integ_phase", "fltcond|h", "fltcond|h", "m", "m"⟩,
     ⟨"ode_integ_phase", "range_final", "ode_integ_phase.range_final", "m", "m"⟩,
     ⟨"ode_integ_phase", "range", "range", "m", "m"⟩, ⟨"ode_integ_phase", "duration", "duration", "s", "s"⟩,
     ⟨"ode_integ_phase", "fltcond|vs", "fltcond|vs", "m/s", "(m) / (s)"⟩,
     ⟨"ode_integ_phase", "fltcond|h_initial", "ode_integ_phase.fltcond|h_initial", "m", "m"⟩,
     ⟨"ode_integ_phase", "fltcond|groundspeed", "fltcond|groundspeed", "m/s", "(m) / (s)"⟩,
     ⟨"ode_integ_phase", "range_initial", "ode_integ_phase.range_initial", "m", "m"⟩,
     ⟨"atmos", "fltcond|T", "fltcond|T", "K", "K"⟩, ⟨"atmos", "fltcond|p", "fltcond|p", "Pa", "Pa"⟩,
     ⟨"atmos", "fltcond|rho", "fltcond|rho", "kg / m**3", "kg / m**3"⟩, ⟨"atmos", "fltcond|a", "fltcond|a", "m/s", "m/s"⟩,
     ⟨"atmos", "fltcond|Utrue", "fltcond|Utrue", "m / s", "m / s"⟩,
     ⟨"atmos", "fltcond|q", "fltcond|q", "N * m**-2", "N * m**-2"⟩, ⟨"atmos", "fltcond|M", "fltcond|M", "", ""⟩,
     ⟨"atmos", "fltcond|h", "fltcond|h", "m", "m"⟩,
     ⟨"atmos", "fltcond|TempIncrement", "fltcond|TempIncrement", "degC", "degC"⟩,
     ⟨"atmos", "fltcond|Ueas", "fltcond|Ueas", "m/s", "m / s"⟩,
     ⟨"gs", "fltcond|groundspeed", "fltcond|groundspeed", "m/s", "m/s"⟩,
     ⟨"gs", "fltcond|cosgamma", "fltcond|cosgamma", "", ""⟩, ⟨"gs", "fltcond|singamma", "fltcond|singamma", "", ""⟩,
     ⟨"gs", "fltcond|vs", "fltcond|vs", "m/s", "m/s"⟩, ⟨"gs", "fltcond|Utrue", "fltcond|Utrue", "m / s", "m/s"⟩,
     ⟨"acmodel", "thrust", "thrust", "N", "N"⟩, ⟨"acmodel", "drag", "drag", "N", "N"⟩,
     ⟨"acmodel", "weight", "weight", "kg", "kg"⟩, ⟨"acmodel", "throttle", "throttle", "", ""⟩,
     ⟨"acmodel", "propulsor_active", "propulsor_active", "", ""⟩, ⟨"acmodel", "fltcond|CL", "fltcond|CL", "", ""⟩,
     ⟨"acmodel", "fltcond|p", "fltcond|p", "Pa", "Pa"⟩, ⟨"acmodel", "fltcond|T", "fltcond|T", "K", "K"⟩,
     ⟨"acmodel", "fltcond|rho", "fltcond|rho", "kg / m**3", "kg/m**3"⟩, ⟨"acmodel", "fltcond|a", "fltcond|a", "m/s", "m/s"⟩,
     ⟨"acmodel", "fltcond|Ueas", "fltcond|Ueas", "m/s", "m/s"⟩,
     ⟨"acmodel", "fltcond|Utrue", "fltcond|Utrue", "m / s", "m/s"⟩, ⟨"acmodel", "fltcond|q", "fltcond|q", "N * m**-2", "Pa"⟩,
     ⟨"acmodel", "fltcond|M", "fltcond|M", "", ""⟩, ⟨"acmodel", "duration", "duration", "s", "s"⟩,
     ⟨"clcomp", "fltcond|CL", "fltcond|CL", "", ""⟩, ⟨"clcomp", "weight", "weight", "kg", "kg"⟩,
     ⟨"clcomp", "fltcond|q", "fltcond|q", "N * m**-2", "N * m**-2"⟩,
     ⟨"clcomp", "ac|geom|wing|S_ref", "ac|geom|wing|S_ref", "m **2", "m **2"⟩,
     ⟨"clcomp", "fltcond|cosgamma", "fltcond|cosgamma", "", ""⟩, ⟨"lift", "lift", "lift", "N", "N"⟩,
     ⟨"lift", "fltcond|CL", "fltcond|CL", "", ""⟩, ⟨"lift", "fltcond|q", "fltcond|q", "N * m**-2", "N * m**-2"⟩,
     ⟨"lift", "ac|geom|wing|S_ref", "ac|geom|wing|S_ref", "m **2", "m **2"⟩,
     ⟨"haccel", "accel_horiz", "accel_horiz", "m/s**2", "m/s**2"⟩, ⟨"haccel", "weight", "weight", "kg", "kg"⟩,
     ⟨"haccel", "drag", "drag", "N", "N"⟩, ⟨"haccel", "lift", "lift", "N", "N"⟩, ⟨"haccel", "thrust", "thrust", "N", "N"⟩,
     ⟨"haccel", "fltcond|singamma", "fltcond|singamma", "", ""⟩, ⟨"haccel", "braking", "braking", "", ""⟩,
     ⟨"steadyflt", "throttle", "throttle", "", ""⟩, ⟨"steadyflt", "zero_accel", "zero_accel", "m/s**2", "m/s**2"⟩,
     ⟨"steadyflt", "accel_horiz", "accel_horiz", "m/s**2", "m/s**2"⟩, ⟨"loiter_dt", "duration", "duration", "s", "s"⟩,
     ⟨"loiter_dt", "duration_in", "duration_in", "s", "s"⟩] := by
  decide +kernel

end Verif.Wiring
