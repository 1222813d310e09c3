import Verif.Model.WiringDrag
import Verif.Proof.Wiring

/-! Equations of the components of the drag build-ups and turbofans, and where the variables are found (evaluated tables). -/

namespace Verif.Wiring

open Verif.Units Verif.VectorComps

/-- a state in which the variables of `l` have the given values -/
def over (l : List (String × ℝ)) (e : String → ℝ) (v : String) : ℝ := (l.lookup v).getD (e v)

theorem over_other {l : List (String × ℝ)} {v : String} (h : v ∉ l.map Prod.fst) (e : String → ℝ) : over l e v = e v := by
  have : l.lookup v = none := by
    rw [List.lookup_eq_none_iff]
    intro p hp
    simp only [List.mem_map, not_exists, not_and] at h
    have := h p hp
    simp only [bne_iff_ne, ne_eq, beq_eq_false_iff_ne, beq_iff_eq, Bool.not_eq_true, Bool.eq_false_iff] 
    exact fun hh => this (by simpa using hh.symm)
  simp [over, this]

theorem over_mem {l : List (String × ℝ)} (hn : (l.map Prod.fst).Nodup) {p : String × ℝ} (hp : p ∈ l) (e : String → ℝ) :
    over l e p.1 = p.2 := by
  induction l with
  | nil => simp at hp
  | cons a l ih =>
    simp only [List.map_cons, List.nodup_cons] at hn
    rcases List.mem_cons.1 hp with rfl | h
    · simp [over, List.lookup]
    · have hne : p.1 ≠ a.1 := fun hh => hn.1 (by rw [← hh]; exact List.mem_map_of_mem h)
      have := ih hn.2 h
      simp only [over, List.lookup] at this ⊢
      rw [show (p.1 == a.1) = false by simpa using hne]
      exact this

theorem conv_ratio (x : ℝ) : conv "m**2 / (m**2) " "" x = x := by
  simp [conv, off, fac]

theorem fuselageForm_rel (o : Opts) (V : String → ℝ) : (explicit dFuselageForm).rel o V ↔
    V "FF_fuselage" = Aero.fusFF (o "Q_fuselage") (V "ac|geom|fuselage|length") (V "ac|geom|fuselage|height") := by
  simp [explicit, dFuselageForm, fuselageForm, withOpts, OptVal.get, lit, ref, List.lookup, eq_comm]

theorem wingForm_rel (o : Opts) (V : String → ℝ) (q : String) : (explicit dWingForm [ref "Q" q]).rel o V ↔
    V "FF_wing" = Aero.wingFF (o q) (V "toverc") := by
  simp [explicit, dWingForm, wingForm, withOpts, OptVal.get, lit, ref, List.lookup, eq_comm]

theorem flapComp_rel (o : Opts) (V : String → ℝ) : (explicit dFlapComp).rel o V ↔
    V "CD_flap" = Aero.flapDrag (o "flap_chord_frac") (o "wing_area_flapped_frac") (o "Q_flap") (V "flap_extension")
      (V "ac|geom|wing|c4sweep") := by
  simp [explicit, dFlapComp, flapComp, withOpts, OptVal.get, lit, ref, List.lookup, eq_comm]

theorem wingMAC_rel (o : Opts) (V : String → ℝ) : (explicit dWingMAC).rel o V ↔
    V "MAC" = Geometry.macTrap (V "S_ref") (V "AR") (V "taper") := by
  simp [explicit, dWingMAC, wingMAC, withOpts, OptVal.get, lit, ref, List.lookup, eq_comm]

theorem skinFriction_rel (o : Opts) (V : String → ℝ) (l : String) : (explicit dSkinFriction [ref "laminar_frac" l]).rel o V ↔
    V "Cf" = Aero.cf (o l) ⟨V "L", V "fltcond|Utrue", V "fltcond|rho", V "fltcond|T"⟩ := by
  simp [explicit, dSkinFriction, skinFriction, withOpts, OptVal.get, lit, ref, List.lookup, eq_comm]

theorem dragCoeffs_rel (o : Opts) (V : String → ℝ) (wing : Bool) : (products (dragCoeffs wing) dragVec).rel o V ↔
    V "CD_fuselage" = V "ac|geom|fuselage|S_wet" * V "FF_fuselage" * V "Cf_fuselage" / V "S_wing_1" ∧
    V "CD_hstab" = 2 * (V "ac|geom|hstab|S_ref" * V "FF_hstab" * V "Cf_hstab" / V "S_wing_2") ∧
    V "CD_vstab" = 2 * (V "ac|geom|vstab|S_ref" * V "FF_vstab" * V "Cf_vstab" / V "S_wing_3") ∧
    V "CD_nacelle" = V "ac|geom|nacelle|S_wet" * V "FF_nacelle" * V "Cf_nacelle" * V "ac|propulsion|num_engines" / V "S_wing_4" ∧
    (wing = true → V "CD_wing" = 2 * (V "FF_wing" * V "Cf_wing")) := by
  cases wing <;> simp [products, dragCoeffs, MulSys.compute, MulSys.div, MulSys.read, mul_comm (2 : ℝ)]

theorem cd0Sum_rel (o : Opts) (V : String → ℝ) (wing : Bool) : (sumBy (cd0Sum wing) dragVec).rel o V ↔
    V "CD0" = o "drag_fudge_factor" * V "CD_fuselage" + o "drag_fudge_factor" * V "CD_hstab" + o "drag_fudge_factor" * V "CD_vstab"
      + o "drag_fudge_factor" * V "CD_nacelle" + (if wing then o "drag_fudge_factor" * V "CD_wing" else 0)
      + o "drag_fudge_factor" * V "CD_flap" + o "drag_fudge_factor" * V "CD_landing_gear" := by
  cases wing <;> simp [sumBy, cd0Sum, AddSys.compute, AddSys.factors, mul_comm]

theorem bwbCoeffs_rel (o : Opts) (V : String → ℝ) : (products [Aero.bwbNacSys] dragVec).rel o V ↔
    V "CD_nacelle" = V "ac|geom|nacelle|S_wet" * V "FF_nacelle" * V "Cf_nacelle" * V "ac|propulsion|num_engines"
      / V "ac|geom|wing|S_ref" := by
  simp [products, Aero.bwbNacSys, MulSys.compute, MulSys.div, MulSys.read]

theorem bwbSum_rel (o : Opts) (V : String → ℝ) : (sumBy (fun o => Aero.bwbSum (o "drag_fudge_factor")) dragVec).rel o V ↔
    V "CD0" = o "drag_fudge_factor" * V "CD_nacelle" + o "drag_fudge_factor" * V "CD_flap"
      + o "drag_fudge_factor" * V "CD_landing_gear" := by
  simp [sumBy, Aero.bwbSum, AddSys.compute, AddSys.factors, mul_comm]

theorem scaleEngine_rel (o : Opts) (V : String → ℝ) (y : Bool) (b) : (products (scaleEngine y) b).rel o V ↔
    V "thrust" = V "unit_thrust" * V "rating_thrust" / V "orig_rating_thrust" ∧
    V "fuel_flow" = Propulsion.lhvScale y * (V "unit_fuel_flow" * V "rating_fuel_flow" / V "orig_rating_fuel_flow") := by
  simp [products, scaleEngine, MulSys.compute, MulSys.div, MulSys.read, mul_comm (Propulsion.lhvScale y)]

theorem engineDeck_rel (o : Opts) (V : String → ℝ) (t u : String) : (engineDeck false t u).rel o V ↔
    V "thrust" = o.map "thrust" [V "throttle", V "fltcond|h", V "fltcond|M"] ∧
    V "fuel_flow" = o.map "fuel_flow" [V "throttle", V "fltcond|h", V "fltcond|M"] ∧
    V t = o.map t [V "throttle", V "fltcond|h", V "fltcond|M"] := by
  simp [engineDeck, deckIns]

theorem jetDrag_true_true_links : (jetDrag true true).links =
    [⟨"iv", "FF_nacelle", "iv.FF_nacelle", "", ""⟩, ⟨"iv", "CD_landing_gear", "iv.CD_landing_gear", "", ""⟩,
     ⟨"fuselage_form", "FF_fuselage", "fuselage_form.FF_fuselage", "", ""⟩,
     ⟨"fuselage_form", "ac|geom|fuselage|length", "ac|geom|fuselage|length", "m", "m"⟩,
     ⟨"fuselage_form", "ac|geom|fuselage|height", "ac|geom|fuselage|height", "m", "m"⟩,
     ⟨"hstab_form", "FF_wing", "hstab_form.FF_wing", "", ""⟩, ⟨"hstab_form", "toverc", "ac|geom|hstab|toverc", "", ""⟩,
     ⟨"vstab_form", "FF_wing", "vstab_form.FF_wing", "", ""⟩, ⟨"vstab_form", "toverc", "ac|geom|vstab|toverc", "", ""⟩,
     ⟨"wing_form", "FF_wing", "wing_form.FF_wing", "", ""⟩, ⟨"wing_form", "toverc", "ac|geom|wing|toverc", "", ""⟩,
     ⟨"fuselage_friction", "Cf", "fuselage_friction.Cf", "", ""⟩,
     ⟨"fuselage_friction", "L", "ac|geom|fuselage|length", "m", "m"⟩,
     ⟨"fuselage_friction", "fltcond|Utrue", "fltcond|Utrue", "m/s", "m/s"⟩,
     ⟨"fuselage_friction", "fltcond|rho", "fltcond|rho", "kg/m**3", "kg/m**3"⟩,
     ⟨"fuselage_friction", "fltcond|T", "fltcond|T", "K", "K"⟩, ⟨"hstab_MAC_calc", "MAC", "hstab_MAC_calc.MAC", "m", "m"⟩,
     ⟨"hstab_MAC_calc", "S_ref", "ac|geom|hstab|S_ref", "m**2", "m**2"⟩,
     ⟨"hstab_MAC_calc", "AR", "ac|geom|hstab|AR", "", ""⟩, ⟨"hstab_MAC_calc", "taper", "ac|geom|hstab|taper", "", ""⟩,
     ⟨"hstab_friction", "Cf", "hstab_friction.Cf", "", ""⟩, ⟨"hstab_friction", "L", "hstab_MAC_calc.MAC", "m", "m"⟩,
     ⟨"hstab_friction", "fltcond|Utrue", "fltcond|Utrue", "m/s", "m/s"⟩,
     ⟨"hstab_friction", "fltcond|rho", "fltcond|rho", "kg/m**3", "kg/m**3"⟩,
     ⟨"hstab_friction", "fltcond|T", "fltcond|T", "K", "K"⟩, ⟨"vstab_MAC_calc", "MAC", "vstab_MAC_calc.MAC", "m", "m"⟩,
     ⟨"vstab_MAC_calc", "S_ref", "ac|geom|vstab|S_ref", "m**2", "m**2"⟩,
     ⟨"vstab_MAC_calc", "AR", "ac|geom|vstab|AR", "", ""⟩, ⟨"vstab_MAC_calc", "taper", "ac|geom|vstab|taper", "", ""⟩,
     ⟨"vstab_friction", "Cf", "vstab_friction.Cf", "", ""⟩, ⟨"vstab_friction", "L", "vstab_MAC_calc.MAC", "m", "m"⟩,
     ⟨"vstab_friction", "fltcond|Utrue", "fltcond|Utrue", "m/s", "m/s"⟩,
     ⟨"vstab_friction", "fltcond|rho", "fltcond|rho", "kg/m**3", "kg/m**3"⟩,
     ⟨"vstab_friction", "fltcond|T", "fltcond|T", "K", "K"⟩, ⟨"wing_MAC_calc", "MAC", "wing_MAC_calc.MAC", "m", "m"⟩,
     ⟨"wing_MAC_calc", "S_ref", "ac|geom|wing|S_ref", "m**2", "m**2"⟩, ⟨"wing_MAC_calc", "AR", "ac|geom|wing|AR", "", ""⟩,
     ⟨"wing_MAC_calc", "taper", "ac|geom|wing|taper", "", ""⟩, ⟨"wing_friction", "Cf", "wing_friction.Cf", "", ""⟩,
     ⟨"wing_friction", "L", "wing_MAC_calc.MAC", "m", "m"⟩,
     ⟨"wing_friction", "fltcond|Utrue", "fltcond|Utrue", "m/s", "m/s"⟩,
     ⟨"wing_friction", "fltcond|rho", "fltcond|rho", "kg/m**3", "kg/m**3"⟩,
     ⟨"wing_friction", "fltcond|T", "fltcond|T", "K", "K"⟩, ⟨"nacelle_friction", "Cf", "nacelle_friction.Cf", "", ""⟩,
     ⟨"nacelle_friction", "L", "ac|geom|nacelle|length", "m", "m"⟩,
     ⟨"nacelle_friction", "fltcond|Utrue", "fltcond|Utrue", "m/s", "m/s"⟩,
     ⟨"nacelle_friction", "fltcond|rho", "fltcond|rho", "kg/m**3", "kg/m**3"⟩,
     ⟨"nacelle_friction", "fltcond|T", "fltcond|T", "K", "K"⟩,
     ⟨"drag_coeffs", "CD_fuselage", "drag_coeffs.CD_fuselage", "m**2 / (m**2) ", "m**2 / (m**2) "⟩,
     ⟨"drag_coeffs", "CD_hstab", "drag_coeffs.CD_hstab", "m**2 / (m**2) ", "m**2 / (m**2) "⟩,
     ⟨"drag_coeffs", "CD_vstab", "drag_coeffs.CD_vstab", "m**2 / (m**2) ", "m**2 / (m**2) "⟩,
     ⟨"drag_coeffs", "CD_nacelle", "drag_coeffs.CD_nacelle", "m**2 / (m**2) ", "m**2 / (m**2) "⟩,
     ⟨"drag_coeffs", "CD_wing", "drag_coeffs.CD_wing", "", ""⟩,
     ⟨"drag_coeffs", "ac|geom|fuselage|S_wet", "ac|geom|fuselage|S_wet", "m**2", "m**2"⟩,
     ⟨"drag_coeffs", "FF_fuselage", "fuselage_form.FF_fuselage", "", ""⟩,
     ⟨"drag_coeffs", "Cf_fuselage", "fuselage_friction.Cf", "", ""⟩,
     ⟨"drag_coeffs", "S_wing_1", "ac|geom|wing|S_ref", "m**2", "m**2"⟩,
     ⟨"drag_coeffs", "ac|geom|hstab|S_ref", "ac|geom|hstab|S_ref", "m**2", "m**2"⟩,
     ⟨"drag_coeffs", "FF_hstab", "hstab_form.FF_wing", "", ""⟩, ⟨"drag_coeffs", "Cf_hstab", "hstab_friction.Cf", "", ""⟩,
     ⟨"drag_coeffs", "S_wing_2", "ac|geom|wing|S_ref", "m**2", "m**2"⟩,
     ⟨"drag_coeffs", "ac|geom|vstab|S_ref", "ac|geom|vstab|S_ref", "m**2", "m**2"⟩,
     ⟨"drag_coeffs", "FF_vstab", "vstab_form.FF_wing", "", ""⟩, ⟨"drag_coeffs", "Cf_vstab", "vstab_friction.Cf", "", ""⟩,
     ⟨"drag_coeffs", "S_wing_3", "ac|geom|wing|S_ref", "m**2", "m**2"⟩,
     ⟨"drag_coeffs", "ac|geom|nacelle|S_wet", "ac|geom|nacelle|S_wet", "m**2", "m**2"⟩,
     ⟨"drag_coeffs", "FF_nacelle", "iv.FF_nacelle", "", ""⟩, ⟨"drag_coeffs", "Cf_nacelle", "nacelle_friction.Cf", "", ""⟩,
     ⟨"drag_coeffs", "ac|propulsion|num_engines", "ac|propulsion|num_engines", "", ""⟩,
     ⟨"drag_coeffs", "S_wing_4", "ac|geom|wing|S_ref", "m**2", "m**2"⟩,
     ⟨"drag_coeffs", "FF_wing", "wing_form.FF_wing", "", ""⟩, ⟨"drag_coeffs", "Cf_wing", "wing_friction.Cf", "", ""⟩,
     ⟨"flaps", "CD_flap", "flaps.CD_flap", "", ""⟩, ⟨"flaps", "flap_extension", "ac|aero|takeoff_flap_deg", "deg", "deg"⟩,
     ⟨"flaps", "ac|geom|wing|c4sweep", "ac|geom|wing|c4sweep", "rad", "rad"⟩, ⟨"sum_CD0", "CD0", "CD0", "", ""⟩,
     ⟨"sum_CD0", "CD_fuselage", "drag_coeffs.CD_fuselage", "m**2 / (m**2) ", ""⟩,
     ⟨"sum_CD0", "CD_hstab", "drag_coeffs.CD_hstab", "m**2 / (m**2) ", ""⟩,
     ⟨"sum_CD0", "CD_vstab", "drag_coeffs.CD_vstab", "m**2 / (m**2) ", ""⟩,
     ⟨"sum_CD0", "CD_nacelle", "drag_coeffs.CD_nacelle", "m**2 / (m**2) ", ""⟩,
     ⟨"sum_CD0", "CD_wing", "drag_coeffs.CD_wing", "", ""⟩, ⟨"sum_CD0", "CD_flap", "flaps.CD_flap", "", ""⟩,
     ⟨"sum_CD0", "CD_landing_gear", "iv.CD_landing_gear", "", ""⟩] := by
  decide +kernel

theorem jetDrag_true_false_links : (jetDrag true false).links =
    [⟨"iv", "FF_nacelle", "iv.FF_nacelle", "", ""⟩, ⟨"iv", "CD_flap", "iv.CD_flap", "", ""⟩,
     ⟨"iv", "CD_landing_gear", "iv.CD_landing_gear", "", ""⟩,
     ⟨"fuselage_form", "FF_fuselage", "fuselage_form.FF_fuselage", "", ""⟩,
     ⟨"fuselage_form", "ac|geom|fuselage|length", "ac|geom|fuselage|length", "m", "m"⟩,
     ⟨"fuselage_form", "ac|geom|fuselage|height", "ac|geom|fuselage|height", "m", "m"⟩,
     ⟨"hstab_form", "FF_wing", "hstab_form.FF_wing", "", ""⟩, ⟨"hstab_form", "toverc", "ac|geom|hstab|toverc", "", ""⟩,
     ⟨"vstab_form", "FF_wing", "vstab_form.FF_wing", "", ""⟩, ⟨"vstab_form", "toverc", "ac|geom|vstab|toverc", "", ""⟩,
     ⟨"wing_form", "FF_wing", "wing_form.FF_wing", "", ""⟩, ⟨"wing_form", "toverc", "ac|geom|wing|toverc", "", ""⟩,
     ⟨"fuselage_friction", "Cf", "fuselage_friction.Cf", "", ""⟩,
     ⟨"fuselage_friction", "L", "ac|geom|fuselage|length", "m", "m"⟩,
     ⟨"fuselage_friction", "fltcond|Utrue", "fltcond|Utrue", "m/s", "m/s"⟩,
     ⟨"fuselage_friction", "fltcond|rho", "fltcond|rho", "kg/m**3", "kg/m**3"⟩,
     ⟨"fuselage_friction", "fltcond|T", "fltcond|T", "K", "K"⟩, ⟨"hstab_MAC_calc", "MAC", "hstab_MAC_calc.MAC", "m", "m"⟩,
     ⟨"hstab_MAC_calc", "S_ref", "ac|geom|hstab|S_ref", "m**2", "m**2"⟩,
     ⟨"hstab_MAC_calc", "AR", "ac|geom|hstab|AR", "", ""⟩, ⟨"hstab_MAC_calc", "taper", "ac|geom|hstab|taper", "", ""⟩,
     ⟨"hstab_friction", "Cf", "hstab_friction.Cf", "", ""⟩, ⟨"hstab_friction", "L", "hstab_MAC_calc.MAC", "m", "m"⟩,
     ⟨"hstab_friction", "fltcond|Utrue", "fltcond|Utrue", "m/s", "m/s"⟩,
     ⟨"hstab_friction", "fltcond|rho", "fltcond|rho", "kg/m**3", "kg/m**3"⟩,
     ⟨"hstab_friction", "fltcond|T", "fltcond|T", "K", "K"⟩, ⟨"vstab_MAC_calc", "MAC", "vstab_MAC_calc.MAC", "m", "m"⟩,
     ⟨"vstab_MAC_calc", "S_ref", "ac|geom|vstab|S_ref", "m**2", "m**2"⟩,
     ⟨"vstab_MAC_calc", "AR", "ac|geom|vstab|AR", "", ""⟩, ⟨"vstab_MAC_calc", "taper", "ac|geom|vstab|taper", "", ""⟩,
     ⟨"vstab_friction", "Cf", "vstab_friction.Cf", "", ""⟩, ⟨"vstab_friction", "L", "vstab_MAC_calc.MAC", "m", "m"⟩,
     ⟨"vstab_friction", "fltcond|Utrue", "fltcond|Utrue", "m/s", "m/s"⟩,
     ⟨"vstab_friction", "fltcond|rho", "fltcond|rho", "kg/m**3", "kg/m**3"⟩,
     ⟨"vstab_friction", "fltcond|T", "fltcond|T", "K", "K"⟩, ⟨"wing_MAC_calc", "MAC", "wing_MAC_calc.MAC", "m", "m"⟩,
     ⟨"wing_MAC_calc", "S_ref", "ac|geom|wing|S_ref", "m**2", "m**2"⟩, ⟨"wing_MAC_calc", "AR", "ac|geom|wing|AR", "", ""⟩,
     ⟨"wing_MAC_calc", "taper", "ac|geom|wing|taper", "", ""⟩, ⟨"wing_friction", "Cf", "wing_friction.Cf", "", ""⟩,
     ⟨"wing_friction", "L", "wing_MAC_calc.MAC", "m", "m"⟩,
     ⟨"wing_friction", "fltcond|Utrue", "fltcond|Utrue", "m/s", "m/s"⟩,
     ⟨"wing_friction", "fltcond|rho", "fltcond|rho", "kg/m**3", "kg/m**3"⟩,
     ⟨"wing_friction", "fltcond|T", "fltcond|T", "K", "K"⟩, ⟨"nacelle_friction", "Cf", "nacelle_friction.Cf", "", ""⟩,
     ⟨"nacelle_friction", "L", "ac|geom|nacelle|length", "m", "m"⟩,
     ⟨"nacelle_friction", "fltcond|Utrue", "fltcond|Utrue", "m/s", "m/s"⟩,
     ⟨"nacelle_friction", "fltcond|rho", "fltcond|rho", "kg/m**3", "kg/m**3"⟩,
     ⟨"nacelle_friction", "fltcond|T", "fltcond|T", "K", "K"⟩,
     ⟨"drag_coeffs", "CD_fuselage", "drag_coeffs.CD_fuselage", "m**2 / (m**2) ", "m**2 / (m**2) "⟩,
     ⟨"drag_coeffs", "CD_hstab", "drag_coeffs.CD_hstab", "m**2 / (m**2) ", "m**2 / (m**2) "⟩,
     ⟨"drag_coeffs", "CD_vstab", "drag_coeffs.CD_vstab", "m**2 / (m**2) ", "m**2 / (m**2) "⟩,
     ⟨"drag_coeffs", "CD_nacelle", "drag_coeffs.CD_nacelle", "m**2 / (m**2) ", "m**2 / (m**2) "⟩,
     ⟨"drag_coeffs", "CD_wing", "drag_coeffs.CD_wing", "", ""⟩,
     ⟨"drag_coeffs", "ac|geom|fuselage|S_wet", "ac|geom|fuselage|S_wet", "m**2", "m**2"⟩,
     ⟨"drag_coeffs", "FF_fuselage", "fuselage_form.FF_fuselage", "", ""⟩,
     ⟨"drag_coeffs", "Cf_fuselage", "fuselage_friction.Cf", "", ""⟩,
     ⟨"drag_coeffs", "S_wing_1", "ac|geom|wing|S_ref", "m**2", "m**2"⟩,
     ⟨"drag_coeffs", "ac|geom|hstab|S_ref", "ac|geom|hstab|S_ref", "m**2", "m**2"⟩,
     ⟨"drag_coeffs", "FF_hstab", "hstab_form.FF_wing", "", ""⟩, ⟨"drag_coeffs", "Cf_hstab", "hstab_friction.Cf", "", ""⟩,
     ⟨"drag_coeffs", "S_wing_2", "ac|geom|wing|S_ref", "m**2", "m**2"⟩,
     ⟨"drag_coeffs", "ac|geom|vstab|S_ref", "ac|geom|vstab|S_ref", "m**2", "m**2"⟩,
     ⟨"drag_coeffs", "FF_vstab", "vstab_form.FF_wing", "", ""⟩, ⟨"drag_coeffs", "Cf_vstab", "vstab_friction.Cf", "", ""⟩,
     ⟨"drag_coeffs", "S_wing_3", "ac|geom|wing|S_ref", "m**2", "m**2"⟩,
     ⟨"drag_coeffs", "ac|geom|nacelle|S_wet", "ac|geom|nacelle|S_wet", "m**2", "m**2"⟩,
     ⟨"drag_coeffs", "FF_nacelle", "iv.FF_nacelle", "", ""⟩, ⟨"drag_coeffs", "Cf_nacelle", "nacelle_friction.Cf", "", ""⟩,
     ⟨"drag_coeffs", "ac|propulsion|num_engines", "ac|propulsion|num_engines", "", ""⟩,
     ⟨"drag_coeffs", "S_wing_4", "ac|geom|wing|S_ref", "m**2", "m**2"⟩,
     ⟨"drag_coeffs", "FF_wing", "wing_form.FF_wing", "", ""⟩, ⟨"drag_coeffs", "Cf_wing", "wing_friction.Cf", "", ""⟩,
     ⟨"sum_CD0", "CD0", "CD0", "", ""⟩, ⟨"sum_CD0", "CD_fuselage", "drag_coeffs.CD_fuselage", "m**2 / (m**2) ", ""⟩,
     ⟨"sum_CD0", "CD_hstab", "drag_coeffs.CD_hstab", "m**2 / (m**2) ", ""⟩,
     ⟨"sum_CD0", "CD_vstab", "drag_coeffs.CD_vstab", "m**2 / (m**2) ", ""⟩,
     ⟨"sum_CD0", "CD_nacelle", "drag_coeffs.CD_nacelle", "m**2 / (m**2) ", ""⟩,
     ⟨"sum_CD0", "CD_wing", "drag_coeffs.CD_wing", "", ""⟩, ⟨"sum_CD0", "CD_flap", "iv.CD_flap", "", ""⟩,
     ⟨"sum_CD0", "CD_landing_gear", "iv.CD_landing_gear", "", ""⟩] := by
  decide +kernel

theorem jetDrag_false_true_links : (jetDrag false true).links =
    [⟨"iv", "FF_nacelle", "iv.FF_nacelle", "", ""⟩, ⟨"iv", "CD_landing_gear", "iv.CD_landing_gear", "", ""⟩,
     ⟨"fuselage_form", "FF_fuselage", "fuselage_form.FF_fuselage", "", ""⟩,
     ⟨"fuselage_form", "ac|geom|fuselage|length", "ac|geom|fuselage|length", "m", "m"⟩,
     ⟨"fuselage_form", "ac|geom|fuselage|height", "ac|geom|fuselage|height", "m", "m"⟩,
     ⟨"hstab_form", "FF_wing", "hstab_form.FF_wing", "", ""⟩, ⟨"hstab_form", "toverc", "ac|geom|hstab|toverc", "", ""⟩,
     ⟨"vstab_form", "FF_wing", "vstab_form.FF_wing", "", ""⟩, ⟨"vstab_form", "toverc", "ac|geom|vstab|toverc", "", ""⟩,
     ⟨"fuselage_friction", "Cf", "fuselage_friction.Cf", "", ""⟩,
     ⟨"fuselage_friction", "L", "ac|geom|fuselage|length", "m", "m"⟩,
     ⟨"fuselage_friction", "fltcond|Utrue", "fltcond|Utrue", "m/s", "m/s"⟩,
     ⟨"fuselage_friction", "fltcond|rho", "fltcond|rho", "kg/m**3", "kg/m**3"⟩,
     ⟨"fuselage_friction", "fltcond|T", "fltcond|T", "K", "K"⟩, ⟨"hstab_MAC_calc", "MAC", "hstab_MAC_calc.MAC", "m", "m"⟩,
     ⟨"hstab_MAC_calc", "S_ref", "ac|geom|hstab|S_ref", "m**2", "m**2"⟩,
     ⟨"hstab_MAC_calc", "AR", "ac|geom|hstab|AR", "", ""⟩, ⟨"hstab_MAC_calc", "taper", "ac|geom|hstab|taper", "", ""⟩,
     ⟨"hstab_friction", "Cf", "hstab_friction.Cf", "", ""⟩, ⟨"hstab_friction", "L", "hstab_MAC_calc.MAC", "m", "m"⟩,
     ⟨"hstab_friction", "fltcond|Utrue", "fltcond|Utrue", "m/s", "m/s"⟩,
     ⟨"hstab_friction", "fltcond|rho", "fltcond|rho", "kg/m**3", "kg/m**3"⟩,
     ⟨"hstab_friction", "fltcond|T", "fltcond|T", "K", "K"⟩, ⟨"vstab_MAC_calc", "MAC", "vstab_MAC_calc.MAC", "m", "m"⟩,
     ⟨"vstab_MAC_calc", "S_ref", "ac|geom|vstab|S_ref", "m**2", "m**2"⟩,
     ⟨"vstab_MAC_calc", "AR", "ac|geom|vstab|AR", "", ""⟩, ⟨"vstab_MAC_calc", "taper", "ac|geom|vstab|taper", "", ""⟩,
     ⟨"vstab_friction", "Cf", "vstab_friction.Cf", "", ""⟩, ⟨"vstab_friction", "L", "vstab_MAC_calc.MAC", "m", "m"⟩,
     ⟨"vstab_friction", "fltcond|Utrue", "fltcond|Utrue", "m/s", "m/s"⟩,
     ⟨"vstab_friction", "fltcond|rho", "fltcond|rho", "kg/m**3", "kg/m**3"⟩,
     ⟨"vstab_friction", "fltcond|T", "fltcond|T", "K", "K"⟩, ⟨"nacelle_friction", "Cf", "nacelle_friction.Cf", "", ""⟩,
     ⟨"nacelle_friction", "L", "ac|geom|nacelle|length", "m", "m"⟩,
     ⟨"nacelle_friction", "fltcond|Utrue", "fltcond|Utrue", "m/s", "m/s"⟩,
     ⟨"nacelle_friction", "fltcond|rho", "fltcond|rho", "kg/m**3", "kg/m**3"⟩,
     ⟨"nacelle_friction", "fltcond|T", "fltcond|T", "K", "K"⟩,
     ⟨"drag_coeffs", "CD_fuselage", "drag_coeffs.CD_fuselage", "m**2 / (m**2) ", "m**2 / (m**2) "⟩,
     ⟨"drag_coeffs", "CD_hstab", "drag_coeffs.CD_hstab", "m**2 / (m**2) ", "m**2 / (m**2) "⟩,
     ⟨"drag_coeffs", "CD_vstab", "drag_coeffs.CD_vstab", "m**2 / (m**2) ", "m**2 / (m**2) "⟩,
     ⟨"drag_coeffs", "CD_nacelle", "drag_coeffs.CD_nacelle", "m**2 / (m**2) ", "m**2 / (m**2) "⟩,
     ⟨"drag_coeffs", "ac|geom|fuselage|S_wet", "ac|geom|fuselage|S_wet", "m**2", "m**2"⟩,
     ⟨"drag_coeffs", "FF_fuselage", "fuselage_form.FF_fuselage", "", ""⟩,
     ⟨"drag_coeffs", "Cf_fuselage", "fuselage_friction.Cf", "", ""⟩,
     ⟨"drag_coeffs", "S_wing_1", "ac|geom|wing|S_ref", "m**2", "m**2"⟩,
     ⟨"drag_coeffs", "ac|geom|hstab|S_ref", "ac|geom|hstab|S_ref", "m**2", "m**2"⟩,
     ⟨"drag_coeffs", "FF_hstab", "hstab_form.FF_wing", "", ""⟩, ⟨"drag_coeffs", "Cf_hstab", "hstab_friction.Cf", "", ""⟩,
     ⟨"drag_coeffs", "S_wing_2", "ac|geom|wing|S_ref", "m**2", "m**2"⟩,
     ⟨"drag_coeffs", "ac|geom|vstab|S_ref", "ac|geom|vstab|S_ref", "m**2", "m**2"⟩,
     ⟨"drag_coeffs", "FF_vstab", "vstab_form.FF_wing", "", ""⟩, ⟨"drag_coeffs", "Cf_vstab", "vstab_friction.Cf", "", ""⟩,
     ⟨"drag_coeffs", "S_wing_3", "ac|geom|wing|S_ref", "m**2", "m**2"⟩,
     ⟨"drag_coeffs", "ac|geom|nacelle|S_wet", "ac|geom|nacelle|S_wet", "m**2", "m**2"⟩,
     ⟨"drag_coeffs", "FF_nacelle", "iv.FF_nacelle", "", ""⟩, ⟨"drag_coeffs", "Cf_nacelle", "nacelle_friction.Cf", "", ""⟩,
     ⟨"drag_coeffs", "ac|propulsion|num_engines", "ac|propulsion|num_engines", "", ""⟩,
     ⟨"drag_coeffs", "S_wing_4", "ac|geom|wing|S_ref", "m**2", "m**2"⟩, ⟨"flaps", "CD_flap", "flaps.CD_flap", "", ""⟩,
     ⟨"flaps", "flap_extension", "ac|aero|takeoff_flap_deg", "deg", "deg"⟩,
     ⟨"flaps", "ac|geom|wing|c4sweep", "ac|geom|wing|c4sweep", "rad", "rad"⟩, ⟨"sum_CD0", "CD0", "CD0", "", ""⟩,
     ⟨"sum_CD0", "CD_fuselage", "drag_coeffs.CD_fuselage", "m**2 / (m**2) ", ""⟩,
     ⟨"sum_CD0", "CD_hstab", "drag_coeffs.CD_hstab", "m**2 / (m**2) ", ""⟩,
     ⟨"sum_CD0", "CD_vstab", "drag_coeffs.CD_vstab", "m**2 / (m**2) ", ""⟩,
     ⟨"sum_CD0", "CD_nacelle", "drag_coeffs.CD_nacelle", "m**2 / (m**2) ", ""⟩,
     ⟨"sum_CD0", "CD_flap", "flaps.CD_flap", "", ""⟩, ⟨"sum_CD0", "CD_landing_gear", "iv.CD_landing_gear", "", ""⟩] := by
  decide +kernel

theorem jetDrag_false_false_links : (jetDrag false false).links =
    [⟨"iv", "FF_nacelle", "iv.FF_nacelle", "", ""⟩, ⟨"iv", "CD_flap", "iv.CD_flap", "", ""⟩,
     ⟨"iv", "CD_landing_gear", "iv.CD_landing_gear", "", ""⟩,
     ⟨"fuselage_form", "FF_fuselage", "fuselage_form.FF_fuselage", "", ""⟩,
     ⟨"fuselage_form", "ac|geom|fuselage|length", "ac|geom|fuselage|length", "m", "m"⟩,
     ⟨"fuselage_form", "ac|geom|fuselage|height", "ac|geom|fuselage|height", "m", "m"⟩,
     ⟨"hstab_form", "FF_wing", "hstab_form.FF_wing", "", ""⟩, ⟨"hstab_form", "toverc", "ac|geom|hstab|toverc", "", ""⟩,
     ⟨"vstab_form", "FF_wing", "vstab_form.FF_wing", "", ""⟩, ⟨"vstab_form", "toverc", "ac|geom|vstab|toverc", "", ""⟩,
     ⟨"fuselage_friction", "Cf", "fuselage_friction.Cf", "", ""⟩,
     ⟨"fuselage_friction", "L", "ac|geom|fuselage|length", "m", "m"⟩,
     ⟨"fuselage_friction", "fltcond|Utrue", "fltcond|Utrue", "m/s", "m/s"⟩,
     ⟨"fuselage_friction", "fltcond|rho", "fltcond|rho", "kg/m**3", "kg/m**3"⟩,
     ⟨"fuselage_friction", "fltcond|T", "fltcond|T", "K", "K"⟩, ⟨"hstab_MAC_calc", "MAC", "hstab_MAC_calc.MAC", "m", "m"⟩,
     ⟨"hstab_MAC_calc", "S_ref", "ac|geom|hstab|S_ref", "m**2", "m**2"⟩,
     ⟨"hstab_MAC_calc", "AR", "ac|geom|hstab|AR", "", ""⟩, ⟨"hstab_MAC_calc", "taper", "ac|geom|hstab|taper", "", ""⟩,
     ⟨"hstab_friction", "Cf", "hstab_friction.Cf", "", ""⟩, ⟨"hstab_friction", "L", "hstab_MAC_calc.MAC", "m", "m"⟩,
     ⟨"hstab_friction", "fltcond|Utrue", "fltcond|Utrue", "m/s", "m/s"⟩,
     ⟨"hstab_friction", "fltcond|rho", "fltcond|rho", "kg/m**3", "kg/m**3"⟩,
     ⟨"hstab_friction", "fltcond|T", "fltcond|T", "K", "K"⟩, ⟨"vstab_MAC_calc", "MAC", "vstab_MAC_calc.MAC", "m", "m"⟩,
     ⟨"vstab_MAC_calc", "S_ref", "ac|geom|vstab|S_ref", "m**2", "m**2"⟩,
     ⟨"vstab_MAC_calc", "AR", "ac|geom|vstab|AR", "", ""⟩, ⟨"vstab_MAC_calc", "taper", "ac|geom|vstab|taper", "", ""⟩,
     ⟨"vstab_friction", "Cf", "vstab_friction.Cf", "", ""⟩, ⟨"vstab_friction", "L", "vstab_MAC_calc.MAC", "m", "m"⟩,
     ⟨"vstab_friction", "fltcond|Utrue", "fltcond|Utrue", "m/s", "m/s"⟩,
     ⟨"vstab_friction", "fltcond|rho", "fltcond|rho", "kg/m**3", "kg/m**3"⟩,
     ⟨"vstab_friction", "fltcond|T", "fltcond|T", "K", "K"⟩, ⟨"nacelle_friction", "Cf", "nacelle_friction.Cf", "", ""⟩,
     ⟨"nacelle_friction", "L", "ac|geom|nacelle|length", "m", "m"⟩,
     ⟨"nacelle_friction", "fltcond|Utrue", "fltcond|Utrue", "m/s", "m/s"⟩,
     ⟨"nacelle_friction", "fltcond|rho", "fltcond|rho", "kg/m**3", "kg/m**3"⟩,
     ⟨"nacelle_friction", "fltcond|T", "fltcond|T", "K", "K"⟩,
     ⟨"drag_coeffs", "CD_fuselage", "drag_coeffs.CD_fuselage", "m**2 / (m**2) ", "m**2 / (m**2) "⟩,
     ⟨"drag_coeffs", "CD_hstab", "drag_coeffs.CD_hstab", "m**2 / (m**2) ", "m**2 / (m**2) "⟩,
     ⟨"drag_coeffs", "CD_vstab", "drag_coeffs.CD_vstab", "m**2 / (m**2) ", "m**2 / (m**2) "⟩,
     ⟨"drag_coeffs", "CD_nacelle", "drag_coeffs.CD_nacelle", "m**2 / (m**2) ", "m**2 / (m**2) "⟩,
     ⟨"drag_coeffs", "ac|geom|fuselage|S_wet", "ac|geom|fuselage|S_wet", "m**2", "m**2"⟩,
     ⟨"drag_coeffs", "FF_fuselage", "fuselage_form.FF_fuselage", "", ""⟩,
     ⟨"drag_coeffs", "Cf_fuselage", "fuselage_friction.Cf", "", ""⟩,
     ⟨"drag_coeffs", "S_wing_1", "ac|geom|wing|S_ref", "m**2", "m**2"⟩,
     ⟨"drag_coeffs", "ac|geom|hstab|S_ref", "ac|geom|hstab|S_ref", "m**2", "m**2"⟩,
     ⟨"drag_coeffs", "FF_hstab", "hstab_form.FF_wing", "", ""⟩, ⟨"drag_coeffs", "Cf_hstab", "hstab_friction.Cf", "", ""⟩,
     ⟨"drag_coeffs", "S_wing_2", "ac|geom|wing|S_ref", "m**2", "m**2"⟩,
     ⟨"drag_coeffs", "ac|geom|vstab|S_ref", "ac|geom|vstab|S_ref", "m**2", "m**2"⟩,
     ⟨"drag_coeffs", "FF_vstab", "vstab_form.FF_wing", "", ""⟩, ⟨"drag_coeffs", "Cf_vstab", "vstab_friction.Cf", "", ""⟩,
     ⟨"drag_coeffs", "S_wing_3", "ac|geom|wing|S_ref", "m**2", "m**2"⟩,
     ⟨"drag_coeffs", "ac|geom|nacelle|S_wet", "ac|geom|nacelle|S_wet", "m**2", "m**2"⟩,
     ⟨"drag_coeffs", "FF_nacelle", "iv.FF_nacelle", "", ""⟩, ⟨"drag_coeffs", "Cf_nacelle", "nacelle_friction.Cf", "", ""⟩,
     ⟨"drag_coeffs", "ac|propulsion|num_engines", "ac|propulsion|num_engines", "", ""⟩,
     ⟨"drag_coeffs", "S_wing_4", "ac|geom|wing|S_ref", "m**2", "m**2"⟩, ⟨"sum_CD0", "CD0", "CD0", "", ""⟩,
     ⟨"sum_CD0", "CD_fuselage", "drag_coeffs.CD_fuselage", "m**2 / (m**2) ", ""⟩,
     ⟨"sum_CD0", "CD_hstab", "drag_coeffs.CD_hstab", "m**2 / (m**2) ", ""⟩,
     ⟨"sum_CD0", "CD_vstab", "drag_coeffs.CD_vstab", "m**2 / (m**2) ", ""⟩,
     ⟨"sum_CD0", "CD_nacelle", "drag_coeffs.CD_nacelle", "m**2 / (m**2) ", ""⟩, ⟨"sum_CD0", "CD_flap", "iv.CD_flap", "", ""⟩,
     ⟨"sum_CD0", "CD_landing_gear", "iv.CD_landing_gear", "", ""⟩] := by
  decide +kernel

theorem bwbDrag_true_links : (bwbDrag true).links =
    [⟨"iv", "FF_nacelle", "iv.FF_nacelle", "", ""⟩, ⟨"iv", "CD_landing_gear", "iv.CD_landing_gear", "", ""⟩,
     ⟨"nacelle_friction", "Cf", "nacelle_friction.Cf", "", ""⟩,
     ⟨"nacelle_friction", "L", "ac|geom|nacelle|length", "m", "m"⟩,
     ⟨"nacelle_friction", "fltcond|Utrue", "fltcond|Utrue", "m/s", "m/s"⟩,
     ⟨"nacelle_friction", "fltcond|rho", "fltcond|rho", "kg/m**3", "kg/m**3"⟩,
     ⟨"nacelle_friction", "fltcond|T", "fltcond|T", "K", "K"⟩,
     ⟨"drag_coeffs", "CD_nacelle", "drag_coeffs.CD_nacelle", "m**2 / (m**2) ", "m**2 / (m**2) "⟩,
     ⟨"drag_coeffs", "ac|geom|nacelle|S_wet", "ac|geom|nacelle|S_wet", "m**2", "m**2"⟩,
     ⟨"drag_coeffs", "FF_nacelle", "iv.FF_nacelle", "", ""⟩, ⟨"drag_coeffs", "Cf_nacelle", "nacelle_friction.Cf", "", ""⟩,
     ⟨"drag_coeffs", "ac|propulsion|num_engines", "ac|propulsion|num_engines", "", ""⟩,
     ⟨"drag_coeffs", "ac|geom|wing|S_ref", "ac|geom|wing|S_ref", "m**2", "m**2"⟩,
     ⟨"flaps", "CD_flap", "flaps.CD_flap", "", ""⟩, ⟨"flaps", "flap_extension", "ac|aero|takeoff_flap_deg", "deg", "deg"⟩,
     ⟨"flaps", "ac|geom|wing|c4sweep", "ac|geom|wing|c4sweep", "rad", "rad"⟩, ⟨"sum_CD0", "CD0", "CD0", "", ""⟩,
     ⟨"sum_CD0", "CD_nacelle", "drag_coeffs.CD_nacelle", "m**2 / (m**2) ", ""⟩,
     ⟨"sum_CD0", "CD_flap", "flaps.CD_flap", "", ""⟩, ⟨"sum_CD0", "CD_landing_gear", "iv.CD_landing_gear", "", ""⟩] := by
  decide +kernel

theorem bwbDrag_false_links : (bwbDrag false).links =
    [⟨"iv", "FF_nacelle", "iv.FF_nacelle", "", ""⟩, ⟨"iv", "CD_flap", "iv.CD_flap", "", ""⟩,
     ⟨"iv", "CD_landing_gear", "iv.CD_landing_gear", "", ""⟩, ⟨"nacelle_friction", "Cf", "nacelle_friction.Cf", "", ""⟩,
     ⟨"nacelle_friction", "L", "ac|geom|nacelle|length", "m", "m"⟩,
     ⟨"nacelle_friction", "fltcond|Utrue", "fltcond|Utrue", "m/s", "m/s"⟩,
     ⟨"nacelle_friction", "fltcond|rho", "fltcond|rho", "kg/m**3", "kg/m**3"⟩,
     ⟨"nacelle_friction", "fltcond|T", "fltcond|T", "K", "K"⟩,
     ⟨"drag_coeffs", "CD_nacelle", "drag_coeffs.CD_nacelle", "m**2 / (m**2) ", "m**2 / (m**2) "⟩,
     ⟨"drag_coeffs", "ac|geom|nacelle|S_wet", "ac|geom|nacelle|S_wet", "m**2", "m**2"⟩,
     ⟨"drag_coeffs", "FF_nacelle", "iv.FF_nacelle", "", ""⟩, ⟨"drag_coeffs", "Cf_nacelle", "nacelle_friction.Cf", "", ""⟩,
     ⟨"drag_coeffs", "ac|propulsion|num_engines", "ac|propulsion|num_engines", "", ""⟩,
     ⟨"drag_coeffs", "ac|geom|wing|S_ref", "ac|geom|wing|S_ref", "m**2", "m**2"⟩, ⟨"sum_CD0", "CD0", "CD0", "", ""⟩,
     ⟨"sum_CD0", "CD_nacelle", "drag_coeffs.CD_nacelle", "m**2 / (m**2) ", ""⟩, ⟨"sum_CD0", "CD_flap", "iv.CD_flap", "", ""⟩,
     ⟨"sum_CD0", "CD_landing_gear", "iv.CD_landing_gear", "", ""⟩] := by
  decide +kernel

theorem rubberTurbofan_N3_links (y : Bool) : (rubberTurbofan .N3 y).links =
    [⟨"engine_deck", "thrust", "engine_deck.thrust", "lbf", "lbf"⟩,
     ⟨"engine_deck", "fuel_flow", "engine_deck.fuel_flow", "lbm/s", "lbm/s"⟩,
     ⟨"engine_deck", "surge_margin", "surge_margin", "", ""⟩, ⟨"engine_deck", "throttle", "throttle", "", ""⟩,
     ⟨"engine_deck", "fltcond|h", "fltcond|h", "ft", "ft"⟩, ⟨"engine_deck", "fltcond|M", "fltcond|M", "", ""⟩,
     ⟨"scale_engine", "thrust", "thrust", "lbf * (lbf) / (lbf) ", "lbf * (lbf) / (lbf) "⟩,
     ⟨"scale_engine", "fuel_flow", "fuel_flow", "lbm/s * (lbf) / (lbf) ", "lbm/s * (lbf) / (lbf) "⟩,
     ⟨"scale_engine", "unit_thrust", "engine_deck.thrust", "lbf", "lbf"⟩,
     ⟨"scale_engine", "rating_thrust", "ac|propulsion|engine|rating", "lbf", "lbf"⟩,
     ⟨"scale_engine", "orig_rating_thrust", "scale_engine.orig_rating_thrust", "lbf", "lbf"⟩,
     ⟨"scale_engine", "unit_fuel_flow", "engine_deck.fuel_flow", "lbm/s", "lbm/s"⟩,
     ⟨"scale_engine", "rating_fuel_flow", "ac|propulsion|engine|rating", "lbf", "lbf"⟩,
     ⟨"scale_engine", "orig_rating_fuel_flow", "scale_engine.orig_rating_fuel_flow", "lbf", "lbf"⟩] := by
  cases y <;> decide +kernel

theorem rubberTurbofan_CFM56_links (y : Bool) : (rubberTurbofan .CFM56 y).links =
    [⟨"engine_deck", "thrust", "engine_deck.thrust", "lbf", "lbf"⟩,
     ⟨"engine_deck", "fuel_flow", "engine_deck.fuel_flow", "lbm/s", "lbm/s"⟩, ⟨"engine_deck", "T4", "T4", "degR", "degR"⟩,
     ⟨"engine_deck", "throttle", "throttle", "", ""⟩, ⟨"engine_deck", "fltcond|h", "fltcond|h", "ft", "ft"⟩,
     ⟨"engine_deck", "fltcond|M", "fltcond|M", "", ""⟩,
     ⟨"scale_engine", "thrust", "thrust", "lbf * (lbf) / (lbf) ", "lbf * (lbf) / (lbf) "⟩,
     ⟨"scale_engine", "fuel_flow", "fuel_flow", "lbm/s * (lbf) / (lbf) ", "lbm/s * (lbf) / (lbf) "⟩,
     ⟨"scale_engine", "unit_thrust", "engine_deck.thrust", "lbf", "lbf"⟩,
     ⟨"scale_engine", "rating_thrust", "ac|propulsion|engine|rating", "lbf", "lbf"⟩,
     ⟨"scale_engine", "orig_rating_thrust", "scale_engine.orig_rating_thrust", "lbf", "lbf"⟩,
     ⟨"scale_engine", "unit_fuel_flow", "engine_deck.fuel_flow", "lbm/s", "lbm/s"⟩,
     ⟨"scale_engine", "rating_fuel_flow", "ac|propulsion|engine|rating", "lbf", "lbf"⟩,
     ⟨"scale_engine", "orig_rating_fuel_flow", "scale_engine.orig_rating_fuel_flow", "lbf", "lbf"⟩] := by
  cases y <;> decide +kernel

end Verif.Wiring
