import Verif.Model.Weights

/-! Model of openconcept/weights/weights_jet_transport.py and weights_BWB.py.  See Model/Weights.lean for the
conventions: real scalars in the declared units, `x ** -1` and `x ** -2` as inverses. -/

namespace Verif.Weights

open Real VectorComps

/-- inputs of `WingWeight_JetTransport`, weights_jet_transport.py:538-543, and the options `n_ult`,
`control_surface_area_frac` -/
structure WingJ where
  nult : ℝ
  cs : ℝ
  MTOW : ℝ
  S : ℝ
  AR : ℝ
  sweep : ℝ
  taper : ℝ
  toverc : ℝ

/-- weights_jet_transport.py:549-562 `compute` -/
noncomputable def WingJ.compute (i : WingJ) : ℝ :=
  0.0051 * (i.MTOW * i.nult) ^ (0.557 : ℝ) * i.S ^ (0.649 : ℝ) * i.AR ^ (0.5 : ℝ) * i.toverc ^ (-0.4 : ℝ)
    * (1 + i.taper) ^ (0.1 : ℝ) * (cos i.sweep)⁻¹ * (i.cs * i.S) ^ (0.1 : ℝ)

/-- weights_jet_transport.py:566-576 -/
noncomputable def WingJ.dMTOW (i : WingJ) : ℝ :=
  0.0051 * 0.557 * i.MTOW ^ (0.557 - 1 : ℝ) * i.nult ^ (0.557 : ℝ) * i.S ^ (0.649 : ℝ) * i.AR ^ (0.5 : ℝ)
    * i.toverc ^ (-0.4 : ℝ) * (1 + i.taper) ^ (0.1 : ℝ) * (cos i.sweep)⁻¹ * (i.cs * i.S) ^ (0.1 : ℝ)

/-- weights_jet_transport.py:577-587 -/
noncomputable def WingJ.dS (i : WingJ) : ℝ :=
  0.0051 * (i.MTOW * i.nult) ^ (0.557 : ℝ) * (0.649 + 0.1) * i.S ^ (0.649 + 0.1 - 1 : ℝ) * i.AR ^ (0.5 : ℝ)
    * i.toverc ^ (-0.4 : ℝ) * (1 + i.taper) ^ (0.1 : ℝ) * (cos i.sweep)⁻¹ * i.cs ^ (0.1 : ℝ)

/-- weights_jet_transport.py:588-599 -/
noncomputable def WingJ.dAR (i : WingJ) : ℝ :=
  0.0051 * (i.MTOW * i.nult) ^ (0.557 : ℝ) * i.S ^ (0.649 : ℝ) * 0.5 * i.AR ^ (0.5 - 1 : ℝ) * i.toverc ^ (-0.4 : ℝ)
    * (1 + i.taper) ^ (0.1 : ℝ) * (cos i.sweep)⁻¹ * i.cs ^ (0.1 : ℝ) * i.S ^ (0.1 : ℝ)

/-- weights_jet_transport.py:600-611 -/
noncomputable def WingJ.dsweep (i : WingJ) : ℝ :=
  0.0051 * (i.MTOW * i.nult) ^ (0.557 : ℝ) * i.S ^ (0.649 + 0.1 : ℝ) * i.AR ^ (0.5 : ℝ) * i.toverc ^ (-0.4 : ℝ)
    * (1 + i.taper) ^ (0.1 : ℝ) * -1 * (cos i.sweep ^ 2)⁻¹ * (-1 * sin i.sweep) * i.cs ^ (0.1 : ℝ)

/-- weights_jet_transport.py:612-623 -/
noncomputable def WingJ.dtaper (i : WingJ) : ℝ :=
  0.0051 * (i.MTOW * i.nult) ^ (0.557 : ℝ) * i.S ^ (0.649 : ℝ) * i.AR ^ (0.5 : ℝ) * i.toverc ^ (-0.4 : ℝ)
    * 0.1 * (1 + i.taper) ^ (0.1 - 1 : ℝ) * (cos i.sweep)⁻¹ * i.cs ^ (0.1 : ℝ) * i.S ^ (0.1 : ℝ)

/-- weights_jet_transport.py:624-635 -/
noncomputable def WingJ.dtoverc (i : WingJ) : ℝ :=
  0.0051 * (i.MTOW * i.nult) ^ (0.557 : ℝ) * i.S ^ (0.649 : ℝ) * i.AR ^ (0.5 : ℝ) * -0.4 * i.toverc ^ (-0.4 - 1 : ℝ)
    * (1 + i.taper) ^ (0.1 : ℝ) * (cos i.sweep)⁻¹ * i.cs ^ (0.1 : ℝ) * i.S ^ (0.1 : ℝ)

/-- weights_jet_transport.py:674-677 `HstabConst_JetTransport.compute`, `f` is `fuselage_width_frac` -/
noncomputable def hstabConst (f S AR height : ℝ) : ℝ := 1 + height * f / √(S * AR)

/-- weights_jet_transport.py:682 -/
noncomputable def hstabConst_dS (f S AR height : ℝ) : ℝ :=
  -(height * f) / √(S * AR) ^ 2 * (0.5 / √(S * AR)) * AR

/-- weights_jet_transport.py:683 -/
noncomputable def hstabConst_dAR (f S AR height : ℝ) : ℝ :=
  -(height * f) / √(S * AR) ^ 2 * (0.5 / √(S * AR)) * S

/-- weights_jet_transport.py:684 -/
noncomputable def hstabConst_dheight (f S AR : ℝ) : ℝ := 1 / √(S * AR) * f

/-- inputs and options of `HstabWeight_JetTransport`, weights_jet_transport.py:726-741 -/
structure HstabJ where
  nult : ℝ
  Kuht : ℝ
  SeSht : ℝ
  MTOW : ℝ
  S : ℝ
  AR : ℝ
  sweep : ℝ
  arm : ℝ
  hc : ℝ

/-- weights_jet_transport.py:744-762 `compute` -/
noncomputable def HstabJ.compute (i : HstabJ) : ℝ :=
  0.0379 * i.Kuht * i.hc ^ (-0.25 : ℝ) * i.MTOW ^ (0.639 : ℝ) * i.nult ^ (0.10 : ℝ) * i.S ^ (0.75 : ℝ)
    * (0.3 * i.arm) ^ (0.704 : ℝ) * (i.arm)⁻¹ * (cos i.sweep)⁻¹ * i.AR ^ (0.166 : ℝ) * (1 + i.SeSht) ^ (0.1 : ℝ)

/-- weights_jet_transport.py:770-783 -/
noncomputable def HstabJ.dMTOW (i : HstabJ) : ℝ :=
  0.0379 * i.Kuht * i.hc ^ (-0.25 : ℝ) * 0.639 * i.MTOW ^ (0.639 - 1 : ℝ) * i.nult ^ (0.10 : ℝ) * i.S ^ (0.75 : ℝ)
    * (0.3 * i.arm) ^ (0.704 : ℝ) * (i.arm)⁻¹ * (cos i.sweep)⁻¹ * i.AR ^ (0.166 : ℝ) * (1 + i.SeSht) ^ (0.1 : ℝ)

/-- weights_jet_transport.py:785-798 -/
noncomputable def HstabJ.dS (i : HstabJ) : ℝ :=
  0.0379 * i.Kuht * i.hc ^ (-0.25 : ℝ) * i.MTOW ^ (0.639 : ℝ) * i.nult ^ (0.10 : ℝ) * 0.75 * i.S ^ (0.75 - 1 : ℝ)
    * (0.3 * i.arm) ^ (0.704 : ℝ) * (i.arm)⁻¹ * (cos i.sweep)⁻¹ * i.AR ^ (0.166 : ℝ) * (1 + i.SeSht) ^ (0.1 : ℝ)

/-- weights_jet_transport.py:800-813 -/
noncomputable def HstabJ.dAR (i : HstabJ) : ℝ :=
  0.0379 * i.Kuht * i.hc ^ (-0.25 : ℝ) * i.MTOW ^ (0.639 : ℝ) * i.nult ^ (0.10 : ℝ) * i.S ^ (0.75 : ℝ)
    * (0.3 * i.arm) ^ (0.704 : ℝ) * (i.arm)⁻¹ * (cos i.sweep)⁻¹ * 0.166 * i.AR ^ (0.166 - 1 : ℝ)
    * (1 + i.SeSht) ^ (0.1 : ℝ)

/-- weights_jet_transport.py:815-828 -/
noncomputable def HstabJ.dsweep (i : HstabJ) : ℝ :=
  0.0379 * i.Kuht * i.hc ^ (-0.25 : ℝ) * i.MTOW ^ (0.639 : ℝ) * i.nult ^ (0.10 : ℝ) * i.S ^ (0.75 : ℝ)
    * (0.3 * i.arm) ^ (0.704 : ℝ) * (i.arm)⁻¹ * (cos i.sweep ^ 2)⁻¹ * sin i.sweep * i.AR ^ (0.166 : ℝ)
    * (1 + i.SeSht) ^ (0.1 : ℝ)

/-- weights_jet_transport.py:830-843 -/
noncomputable def HstabJ.darm (i : HstabJ) : ℝ :=
  0.0379 * i.Kuht * i.hc ^ (-0.25 : ℝ) * i.MTOW ^ (0.639 : ℝ) * i.nult ^ (0.10 : ℝ) * i.S ^ (0.75 : ℝ)
    * 0.3 ^ (0.704 : ℝ) * (-0.296) * i.arm ^ (-1.296 : ℝ) * (cos i.sweep)⁻¹ * i.AR ^ (0.166 : ℝ)
    * (1 + i.SeSht) ^ (0.1 : ℝ)

/-- weights_jet_transport.py:845-858 -/
noncomputable def HstabJ.dhc (i : HstabJ) : ℝ :=
  0.0379 * i.Kuht * (-0.25) * i.hc ^ (-0.25 - 1 : ℝ) * i.MTOW ^ (0.639 : ℝ) * i.nult ^ (0.10 : ℝ) * i.S ^ (0.75 : ℝ)
    * (0.3 * i.arm) ^ (0.704 : ℝ) * (i.arm)⁻¹ * (cos i.sweep)⁻¹ * i.AR ^ (0.166 : ℝ) * (1 + i.SeSht) ^ (0.1 : ℝ)

/-- inputs and options of `VstabWeight_JetTransport`, weights_jet_transport.py:895-908 -/
structure VstabJ where
  nult : ℝ
  Ttail : Bool
  MTOW : ℝ
  S : ℝ
  AR : ℝ
  sweep : ℝ
  arm : ℝ
  toverc : ℝ

/-- weights_jet_transport.py:913 and 930 -/
noncomputable def VstabJ.HtHv (i : VstabJ) : ℝ := if i.Ttail then 1 else 0

/-- weights_jet_transport.py:911-926 `compute` -/
noncomputable def VstabJ.compute (i : VstabJ) : ℝ :=
  0.0026 * (1 + i.HtHv) ^ (0.225 : ℝ) * i.MTOW ^ (0.556 : ℝ) * i.nult ^ (0.536 : ℝ) * i.arm ^ (-0.5 + 0.875 : ℝ)
    * i.S ^ (0.5 : ℝ) * (cos i.sweep)⁻¹ * i.AR ^ (0.35 : ℝ) * i.toverc ^ (-0.5 : ℝ)

/-- weights_jet_transport.py:933-944 -/
noncomputable def VstabJ.dMTOW (i : VstabJ) : ℝ :=
  0.0026 * (1 + i.HtHv) ^ (0.225 : ℝ) * 0.556 * i.MTOW ^ (0.556 - 1 : ℝ) * i.nult ^ (0.536 : ℝ)
    * i.arm ^ (-0.5 + 0.875 : ℝ) * i.S ^ (0.5 : ℝ) * (cos i.sweep)⁻¹ * i.AR ^ (0.35 : ℝ) * i.toverc ^ (-0.5 : ℝ)

/-- weights_jet_transport.py:945-956 -/
noncomputable def VstabJ.dS (i : VstabJ) : ℝ :=
  0.0026 * (1 + i.HtHv) ^ (0.225 : ℝ) * i.MTOW ^ (0.556 : ℝ) * i.nult ^ (0.536 : ℝ) * i.arm ^ (-0.5 + 0.875 : ℝ)
    * 0.5 * i.S ^ (-0.5 : ℝ) * (cos i.sweep)⁻¹ * i.AR ^ (0.35 : ℝ) * i.toverc ^ (-0.5 : ℝ)

/-- weights_jet_transport.py:957-968 -/
noncomputable def VstabJ.dAR (i : VstabJ) : ℝ :=
  0.0026 * (1 + i.HtHv) ^ (0.225 : ℝ) * i.MTOW ^ (0.556 : ℝ) * i.nult ^ (0.536 : ℝ) * i.arm ^ (-0.5 + 0.875 : ℝ)
    * i.S ^ (0.5 : ℝ) * (cos i.sweep)⁻¹ * 0.35 * i.AR ^ (0.35 - 1 : ℝ) * i.toverc ^ (-0.5 : ℝ)

/-- weights_jet_transport.py:969-980 -/
noncomputable def VstabJ.dsweep (i : VstabJ) : ℝ :=
  0.0026 * (1 + i.HtHv) ^ (0.225 : ℝ) * i.MTOW ^ (0.556 : ℝ) * i.nult ^ (0.536 : ℝ) * i.arm ^ (-0.5 + 0.875 : ℝ)
    * i.S ^ (0.5 : ℝ) * (cos i.sweep ^ 2)⁻¹ * sin i.sweep * i.AR ^ (0.35 : ℝ) * i.toverc ^ (-0.5 : ℝ)

/-- weights_jet_transport.py:981-992 -/
noncomputable def VstabJ.darm (i : VstabJ) : ℝ :=
  0.0026 * (1 + i.HtHv) ^ (0.225 : ℝ) * i.MTOW ^ (0.556 : ℝ) * i.nult ^ (0.536 : ℝ) * (-0.5 + 0.875)
    * i.arm ^ (-0.5 + 0.875 - 1 : ℝ) * i.S ^ (0.5 : ℝ) * (cos i.sweep)⁻¹ * i.AR ^ (0.35 : ℝ) * i.toverc ^ (-0.5 : ℝ)

/-- weights_jet_transport.py:993-1004 -/
noncomputable def VstabJ.dtoverc (i : VstabJ) : ℝ :=
  0.0026 * (1 + i.HtHv) ^ (0.225 : ℝ) * i.MTOW ^ (0.556 : ℝ) * i.nult ^ (0.536 : ℝ) * i.arm ^ (-0.5 + 0.875 : ℝ)
    * i.S ^ (0.5 : ℝ) * (cos i.sweep)⁻¹ * i.AR ^ (0.35 : ℝ) * (-0.5) * i.toverc ^ (-1.5 : ℝ)

/-- inputs of `FuselageKws_JetTransport`, weights_jet_transport.py:1030-1037 -/
structure KwsJ where
  taper : ℝ
  S : ℝ
  AR : ℝ
  sweep : ℝ
  length : ℝ

/-- weights_jet_transport.py:1039-1049 `compute` -/
noncomputable def KwsJ.compute (i : KwsJ) : ℝ :=
  0.75 * (1 + 2 * i.taper) / (1 + i.taper) * i.S ^ (0.5 : ℝ) * i.AR ^ (0.5 : ℝ) * tan i.sweep * (i.length)⁻¹

/-- weights_jet_transport.py:1052-1059 -/
noncomputable def KwsJ.dtaper (i : KwsJ) : ℝ :=
  0.75 * ((1 + i.taper) ^ 2)⁻¹ * i.S ^ (0.5 : ℝ) * i.AR ^ (0.5 : ℝ) * tan i.sweep * (i.length)⁻¹

/-- weights_jet_transport.py:1060-1069 -/
noncomputable def KwsJ.dS (i : KwsJ) : ℝ :=
  0.75 * (1 + 2 * i.taper) / (1 + i.taper) * 0.5 * i.S ^ (0.5 - 1 : ℝ) * i.AR ^ (0.5 : ℝ) * tan i.sweep * (i.length)⁻¹

/-- weights_jet_transport.py:1070-1079 -/
noncomputable def KwsJ.dAR (i : KwsJ) : ℝ :=
  0.75 * (1 + 2 * i.taper) / (1 + i.taper) * i.S ^ (0.5 : ℝ) * 0.5 * i.AR ^ (0.5 - 1 : ℝ) * tan i.sweep * (i.length)⁻¹

/-- weights_jet_transport.py:1080-1088 -/
noncomputable def KwsJ.dsweep (i : KwsJ) : ℝ :=
  0.75 * (1 + 2 * i.taper) / (1 + i.taper) * i.S ^ (0.5 : ℝ) * i.AR ^ (0.5 : ℝ) * (1 / cos i.sweep) ^ 2 * (i.length)⁻¹

/-- weights_jet_transport.py:1089-1098 -/
noncomputable def KwsJ.dlength (i : KwsJ) : ℝ :=
  0.75 * (1 + 2 * i.taper) / (1 + i.taper) * i.S ^ (0.5 : ℝ) * i.AR ^ (0.5 : ℝ) * tan i.sweep * -1 * (i.length ^ 2)⁻¹

/-- inputs and options of `FuselageWeight_JetTransport`, weights_jet_transport.py:1135-1148 -/
structure FusJ where
  nult : ℝ
  Kdoor : ℝ
  Klg : ℝ
  MTOW : ℝ
  length : ℝ
  Swet : ℝ
  height : ℝ
  Kws : ℝ

/-- weights_jet_transport.py:1151-1166 `compute` -/
noncomputable def FusJ.compute (i : FusJ) : ℝ :=
  0.3280 * i.Kdoor * i.Klg * i.MTOW ^ (0.5 : ℝ) * i.nult ^ (0.5 : ℝ) * i.length ^ (0.25 + 0.1 : ℝ) * i.Swet ^ (0.302 : ℝ)
    * (1 + i.Kws) ^ (0.04 : ℝ) * i.height ^ (-0.10 : ℝ)

/-- weights_jet_transport.py:1173-1184 -/
noncomputable def FusJ.dMTOW (i : FusJ) : ℝ :=
  0.3280 * i.Kdoor * i.Klg * 0.5 * i.MTOW ^ (-0.5 : ℝ) * i.nult ^ (0.5 : ℝ) * i.length ^ (0.25 + 0.1 : ℝ)
    * i.Swet ^ (0.302 : ℝ) * (1 + i.Kws) ^ (0.04 : ℝ) * i.height ^ (-0.10 : ℝ)

/-- weights_jet_transport.py:1185-1196 -/
noncomputable def FusJ.dlength (i : FusJ) : ℝ :=
  0.3280 * i.Kdoor * i.Klg * i.MTOW ^ (0.5 : ℝ) * i.nult ^ (0.5 : ℝ) * 0.35 * i.length ^ (0.25 + 0.1 - 1 : ℝ)
    * i.Swet ^ (0.302 : ℝ) * (1 + i.Kws) ^ (0.04 : ℝ) * i.height ^ (-0.10 : ℝ)

/-- weights_jet_transport.py:1197-1208 -/
noncomputable def FusJ.dSwet (i : FusJ) : ℝ :=
  0.3280 * i.Kdoor * i.Klg * i.MTOW ^ (0.5 : ℝ) * i.nult ^ (0.5 : ℝ) * i.length ^ (0.25 + 0.1 : ℝ) * 0.302
    * i.Swet ^ (0.302 - 1 : ℝ) * (1 + i.Kws) ^ (0.04 : ℝ) * i.height ^ (-0.10 : ℝ)

/-- weights_jet_transport.py:1209-1220 -/
noncomputable def FusJ.dheight (i : FusJ) : ℝ :=
  0.3280 * i.Kdoor * i.Klg * i.MTOW ^ (0.5 : ℝ) * i.nult ^ (0.5 : ℝ) * i.length ^ (0.25 + 0.1 : ℝ) * i.Swet ^ (0.302 : ℝ)
    * (1 + i.Kws) ^ (0.04 : ℝ) * (-0.1) * i.height ^ (-1.10 : ℝ)

/-- weights_jet_transport.py:1221-1232 -/
noncomputable def FusJ.dKws (i : FusJ) : ℝ :=
  0.3280 * i.Kdoor * i.Klg * i.MTOW ^ (0.5 : ℝ) * i.nult ^ (0.5 : ℝ) * i.length ^ (0.25 + 0.1 : ℝ) * i.Swet ^ (0.302 : ℝ)
    * 0.04 * (1 + i.Kws) ^ (0.04 - 1 : ℝ) * i.height ^ (-0.10 : ℝ)

/-- inputs and options of `MainLandingGearWeight_JetTransport`, weights_jet_transport.py:1268-1280 -/
structure MainGearJ where
  nland : ℝ
  kneel : ℝ
  MLW : ℝ
  length : ℝ
  wheels : ℝ
  struts : ℝ
  Vstall : ℝ

/-- weights_jet_transport.py:1282-1294 `compute` -/
noncomputable def MainGearJ.compute (i : MainGearJ) : ℝ :=
  0.0106 * i.kneel * i.MLW ^ (0.888 : ℝ) * i.nland ^ (0.25 : ℝ) * i.length ^ (0.4 : ℝ) * i.wheels ^ (0.321 : ℝ)
    * i.struts ^ (-0.5 : ℝ) * i.Vstall ^ (0.1 : ℝ)

/-- weights_jet_transport.py:1299-1309 -/
noncomputable def MainGearJ.dMLW (i : MainGearJ) : ℝ :=
  0.0106 * i.kneel * 0.888 * i.MLW ^ (0.888 - 1 : ℝ) * i.nland ^ (0.25 : ℝ) * i.length ^ (0.4 : ℝ)
    * i.wheels ^ (0.321 : ℝ) * i.struts ^ (-0.5 : ℝ) * i.Vstall ^ (0.1 : ℝ)

/-- weights_jet_transport.py:1310-1320 -/
noncomputable def MainGearJ.dlength (i : MainGearJ) : ℝ :=
  0.0106 * i.kneel * i.MLW ^ (0.888 : ℝ) * i.nland ^ (0.25 : ℝ) * 0.4 * i.length ^ (0.4 - 1 : ℝ)
    * i.wheels ^ (0.321 : ℝ) * i.struts ^ (-0.5 : ℝ) * i.Vstall ^ (0.1 : ℝ)

/-- weights_jet_transport.py:1321-1331 -/
noncomputable def MainGearJ.dwheels (i : MainGearJ) : ℝ :=
  0.0106 * i.kneel * i.MLW ^ (0.888 : ℝ) * i.nland ^ (0.25 : ℝ) * i.length ^ (0.4 : ℝ) * 0.321
    * i.wheels ^ (0.321 - 1 : ℝ) * i.struts ^ (-0.5 : ℝ) * i.Vstall ^ (0.1 : ℝ)

/-- weights_jet_transport.py:1332-1342 -/
noncomputable def MainGearJ.dstruts (i : MainGearJ) : ℝ :=
  0.0106 * i.kneel * i.MLW ^ (0.888 : ℝ) * i.nland ^ (0.25 : ℝ) * i.length ^ (0.4 : ℝ) * i.wheels ^ (0.321 : ℝ)
    * (-0.5) * i.struts ^ (-1.5 : ℝ) * i.Vstall ^ (0.1 : ℝ)

/-- weights_jet_transport.py:1343-1353 -/
noncomputable def MainGearJ.dVstall (i : MainGearJ) : ℝ :=
  0.0106 * i.kneel * i.MLW ^ (0.888 : ℝ) * i.nland ^ (0.25 : ℝ) * i.length ^ (0.4 : ℝ) * i.wheels ^ (0.321 : ℝ)
    * i.struts ^ (-0.5 : ℝ) * 0.1 * i.Vstall ^ (0.1 - 1 : ℝ)

/-- inputs and options of `NoseLandingGearWeight_JetTransport`, weights_jet_transport.py:1385-1395 -/
structure NoseGearJ where
  nland : ℝ
  kneel : ℝ
  MLW : ℝ
  length : ℝ
  wheels : ℝ

/-- weights_jet_transport.py:1397-1406 `compute` -/
noncomputable def NoseGearJ.compute (i : NoseGearJ) : ℝ :=
  0.032 * i.kneel * i.MLW ^ (0.646 : ℝ) * i.nland ^ (0.2 : ℝ) * i.length ^ (0.5 : ℝ) * i.wheels ^ (0.45 : ℝ)

/-- weights_jet_transport.py:1410-1418 -/
noncomputable def NoseGearJ.dMLW (i : NoseGearJ) : ℝ :=
  0.032 * i.kneel * 0.646 * i.MLW ^ (0.646 - 1 : ℝ) * i.nland ^ (0.2 : ℝ) * i.length ^ (0.5 : ℝ) * i.wheels ^ (0.45 : ℝ)

/-- weights_jet_transport.py:1419-1427 -/
noncomputable def NoseGearJ.dlength (i : NoseGearJ) : ℝ :=
  0.032 * i.kneel * i.MLW ^ (0.646 : ℝ) * i.nland ^ (0.2 : ℝ) * 0.5 * i.length ^ (-0.5 : ℝ) * i.wheels ^ (0.45 : ℝ)

/-- weights_jet_transport.py:1428-1436 -/
noncomputable def NoseGearJ.dwheels (i : NoseGearJ) : ℝ :=
  0.032 * i.kneel * i.MLW ^ (0.646 : ℝ) * i.nland ^ (0.2 : ℝ) * i.length ^ (0.5 : ℝ) * 0.45
    * i.wheels ^ (0.45 - 1 : ℝ)

/-- weights_jet_transport.py:1461-1462 `EngineWeight_JetTransport.compute` -/
noncomputable def engineJ (T : ℝ) : ℝ := T / 5.5

/-- weights_jet_transport.py:1459 -/
noncomputable def engineJ_d : ℝ := 1 / 5.5

/-- weights_jet_transport.py:1526 -/
noncomputable def thrustRev (T N : ℝ) : ℝ := 0.034 * T * N
/-- weights_jet_transport.py:1538 -/
noncomputable def thrustRev_dT (N : ℝ) : ℝ := 0.034 * N
/-- weights_jet_transport.py:1539 -/
noncomputable def thrustRev_dN (T : ℝ) : ℝ := 0.034 * T

/-- weights_jet_transport.py:1527 -/
noncomputable def engControl (T N : ℝ) : ℝ := 0.26 * N * T ^ (0.5 : ℝ)
/-- weights_jet_transport.py:1540 -/
noncomputable def engControl_dT (T N : ℝ) : ℝ := 0.26 * N * 0.5 / T ^ (0.5 : ℝ)
/-- weights_jet_transport.py:1541 -/
noncomputable def engControl_dN (T : ℝ) : ℝ := 0.26 * T ^ (0.5 : ℝ)

/-- weights_jet_transport.py:1528 -/
noncomputable def fuelSysJ (Wf N M : ℝ) : ℝ := 1.07 * Wf ^ (0.58 : ℝ) * N ^ (0.43 : ℝ) * M ^ (0.34 : ℝ)
/-- weights_jet_transport.py:1542-1544 -/
noncomputable def fuelSysJ_dWf (Wf N M : ℝ) : ℝ := 1.07 * 0.58 * Wf ^ (0.58 - 1 : ℝ) * N ^ (0.43 : ℝ) * M ^ (0.34 : ℝ)
/-- weights_jet_transport.py:1545-1547 -/
noncomputable def fuelSysJ_dN (Wf N M : ℝ) : ℝ := 1.07 * Wf ^ (0.58 : ℝ) * 0.43 * N ^ (0.43 - 1 : ℝ) * M ^ (0.34 : ℝ)
/-- weights_jet_transport.py:1548-1550 -/
noncomputable def fuelSysJ_dM (Wf N M : ℝ) : ℝ := 1.07 * Wf ^ (0.58 : ℝ) * N ^ (0.43 : ℝ) * 0.34 * M ^ (0.34 - 1 : ℝ)

/-- weights_jet_transport.py:1531 -/
noncomputable def engStart (W N : ℝ) : ℝ := 9.33 * (W / 1000) ^ (1.078 : ℝ) * N
/-- weights_jet_transport.py:1551 -/
noncomputable def engStart_dW (W N : ℝ) : ℝ := 9.33 * 1.078 * W ^ (0.078 : ℝ) / 1000 ^ (1.078 : ℝ) * N
/-- weights_jet_transport.py:1552 -/
noncomputable def engStart_dN (W : ℝ) : ℝ := 9.33 * (W / 1000) ^ (1.078 : ℝ)

/-- weights_jet_transport.py:1579-1580 `NacelleWeight_JetTransport.compute` -/
noncomputable def nacelleJ (T N : ℝ) : ℝ := 0.065 * T * N
/-- weights_jet_transport.py:1583 -/
noncomputable def nacelleJ_dT (N : ℝ) : ℝ := 0.065 * N
/-- weights_jet_transport.py:1584 -/
noncomputable def nacelleJ_dN (T : ℝ) : ℝ := 0.065 * T

/-- inputs and options of `FurnishingWeight_JetTransport`, weights_jet_transport.py:1619-1634 -/
structure FurnJ where
  Klav : ℝ
  Kbuf : ℝ
  pax : ℝ
  deck : ℝ
  cabin : ℝ
  press : ℝ
  MTOW : ℝ

/-- weights_jet_transport.py:1636-1646 `compute` -/
noncomputable def FurnJ.compute (i : FurnJ) : ℝ :=
  55 * i.deck + 32 * i.pax + 15 * i.cabin + i.Klav * i.pax ^ (1.33 : ℝ) + i.Kbuf * i.pax ^ (1.12 : ℝ)
    + 109 * (i.pax * (1 + i.press) / 100) ^ (0.505 : ℝ) + 0.771 * (i.MTOW / 1000)

/-- weights_jet_transport.py:1650-1655 -/
noncomputable def FurnJ.dpax (i : FurnJ) : ℝ :=
  32 + 1.33 * i.Klav * i.pax ^ (0.33 : ℝ) + 1.12 * i.Kbuf * i.pax ^ (0.12 : ℝ)
    + 109 * 0.505 * i.pax ^ (0.505 - 1 : ℝ) * ((1 + i.press) / 100) ^ (0.505 : ℝ)

/-- weights_jet_transport.py:1656-1658 -/
noncomputable def FurnJ.dpress (i : FurnJ) : ℝ :=
  109 * 0.505 * (i.pax / 100) ^ (0.505 : ℝ) * (1 + i.press) ^ (0.505 - 1 : ℝ)

/-- weights_jet_transport.py:1632 -/
noncomputable def FurnJ.ddeck : ℝ := 55
/-- weights_jet_transport.py:1633 -/
noncomputable def FurnJ.dcabin : ℝ := 15
/-- weights_jet_transport.py:1634 -/
noncomputable def FurnJ.dMTOW : ℝ := 0.771 / 1000

/-- inputs and options of `EquipmentWeight_JetTransport`, weights_jet_transport.py:1715-1750 -/
structure EquipJ where
  cfc : ℝ
  cav : ℝ
  apu : ℝ
  MTOW : ℝ
  pax : ℝ
  cabin : ℝ
  deck : ℝ
  neng : ℝ
  V : ℝ
  Wfs : ℝ

/-- weights_jet_transport.py:1756 `W_flight_controls` -/
noncomputable def EquipJ.fc (i : EquipJ) : ℝ := i.cfc * i.MTOW ^ (2 / 3 : ℝ)
/-- weights_jet_transport.py:1759-1763 `W_avionics`; recomputed in `compute_partials`, lines 1792-1796 -/
noncomputable def EquipJ.av (i : EquipJ) : ℝ :=
  i.cav * (i.deck * (15 + 0.000032 * i.MTOW) + i.neng * (5 + 0.000006 * i.MTOW) + (0.00015 + 0.012) * i.MTOW)
/-- weights_jet_transport.py:1766 `W_electrical` -/
noncomputable def EquipJ.elec (i : EquipJ) : ℝ := 1163 * (0.001 * (i.Wfs + i.av)) ^ (0.506 : ℝ)
/-- weights_jet_transport.py:1770 and 1809 -/
noncomputable def EquipJ.people (i : EquipJ) : ℝ := i.deck + i.cabin + i.pax
/-- weights_jet_transport.py:1771 `W_ac_pressurize_antiice` -/
noncomputable def EquipJ.ac (i : EquipJ) : ℝ := 469 * (0.0001 * i.V * i.people) ^ (0.419 : ℝ)
/-- weights_jet_transport.py:1774 `W_oxygen` -/
noncomputable def EquipJ.ox (i : EquipJ) : ℝ := 7 * i.people ^ (0.702 : ℝ)
/-- weights_jet_transport.py:1777 `W_APU` -/
noncomputable def EquipJ.APU (i : EquipJ) : ℝ := i.apu * i.MTOW

/-- weights_jet_transport.py:1782 -/
noncomputable def EquipJ.fc_dMTOW (i : EquipJ) : ℝ := 2 / 3 * i.cfc * i.MTOW ^ (-1 / 3 : ℝ)
/-- weights_jet_transport.py:1784 -/
noncomputable def EquipJ.av_ddeck (i : EquipJ) : ℝ := i.cav * (15 + 0.000032 * i.MTOW)
/-- weights_jet_transport.py:1785 -/
noncomputable def EquipJ.av_dneng (i : EquipJ) : ℝ := i.cav * (5 + 0.000006 * i.MTOW)
/-- weights_jet_transport.py:1786-1790 -/
noncomputable def EquipJ.av_dMTOW (i : EquipJ) : ℝ :=
  i.cav * (i.deck * 0.000032 + i.neng * 0.000006 + (0.00015 + 0.012))
/-- weights_jet_transport.py:1797-1799 -/
noncomputable def EquipJ.elec_dWfs (i : EquipJ) : ℝ := 1163 * 0.506 * (0.001 * (i.Wfs + i.av)) ^ (0.506 - 1 : ℝ) * 0.001
/-- weights_jet_transport.py:1801-1803 -/
noncomputable def EquipJ.elec_ddeck (i : EquipJ) : ℝ := i.elec_dWfs * i.av_ddeck
/-- weights_jet_transport.py:1804-1806 -/
noncomputable def EquipJ.elec_dneng (i : EquipJ) : ℝ := i.elec_dWfs * i.av_dneng
/-- weights_jet_transport.py:1807 -/
noncomputable def EquipJ.elec_dMTOW (i : EquipJ) : ℝ := i.elec_dWfs * i.av_dMTOW
/-- weights_jet_transport.py:1810-1820: the same value for both crews and the passengers -/
noncomputable def EquipJ.ac_dpeople (i : EquipJ) : ℝ :=
  469 * 0.419 * (0.0001 * i.V * i.people) ^ (0.419 - 1 : ℝ) * 0.0001 * i.V
/-- weights_jet_transport.py:1821-1823 -/
noncomputable def EquipJ.ac_dV (i : EquipJ) : ℝ :=
  469 * 0.419 * (0.0001 * i.V * i.people) ^ (0.419 - 1 : ℝ) * 0.0001 * i.people
/-- weights_jet_transport.py:1825-1827 -/
noncomputable def EquipJ.ox_dpeople (i : EquipJ) : ℝ := 7 * 0.702 * i.people ^ (0.702 - 1 : ℝ)
/-- weights_jet_transport.py:1750 -/
def EquipJ.APU_dMTOW (i : EquipJ) : ℝ := i.apu

/-- the component `cabin_volume`, weights_jet_transport.py:414-424 -/
noncomputable def cabinVolume (height length frac : ℝ) : ℝ := π * 0.25 * height * height * length * frac

/-- weights_BWB.py:434-437 `CabinWeight_BWB.compute` -/
noncomputable def cabinBWB (S M : ℝ) : ℝ := 1.803246 * M ^ (0.166552 : ℝ) * S ^ (1.061158 : ℝ)
/-- weights_BWB.py:440-445 -/
noncomputable def cabinBWB_dS (S M : ℝ) : ℝ := 1.803246 * M ^ (0.166552 : ℝ) * 1.061158 * S ^ (0.061158 : ℝ)
/-- weights_BWB.py:446-451 -/
noncomputable def cabinBWB_dM (S M : ℝ) : ℝ := 1.803246 * 0.166552 * M ^ (0.166552 - 1 : ℝ) * S ^ (1.061158 : ℝ)

/-- inputs of `AftbodyWeight_BWB`, weights_BWB.py:478-484 -/
structure AftBWB where
  S : ℝ
  taper : ℝ
  neng : ℝ
  MTOW : ℝ

/-- weights_BWB.py:486-493 `compute` -/
noncomputable def AftBWB.compute (i : AftBWB) : ℝ :=
  0.53 * (1 + 0.05 * i.neng) * i.S * i.MTOW ^ (0.2 : ℝ) * (i.taper + 0.5)
/-- weights_BWB.py:496-501 -/
noncomputable def AftBWB.dS (i : AftBWB) : ℝ := 0.53 * (1 + 0.05 * i.neng) * i.MTOW ^ (0.2 : ℝ) * (i.taper + 0.5)
/-- weights_BWB.py:502-507 -/
noncomputable def AftBWB.dtaper (i : AftBWB) : ℝ := 0.53 * (1 + 0.05 * i.neng) * i.S * i.MTOW ^ (0.2 : ℝ)
/-- weights_BWB.py:508-514 -/
noncomputable def AftBWB.dneng (i : AftBWB) : ℝ := 0.53 * 0.05 * i.S * i.MTOW ^ (0.2 : ℝ) * (i.taper + 0.5)
/-- weights_BWB.py:515-522 -/
noncomputable def AftBWB.dMTOW (i : AftBWB) : ℝ :=
  0.53 * (1 + 0.05 * i.neng) * i.S * 0.2 * i.MTOW ^ (0.2 - 1 : ℝ) * (i.taper + 0.5)

/-! ### the sums -/

/-- weights_jet_transport.py:455-456 / weights_BWB.py:364-365: `scaling_factors`, the first entry (the wing) has one more factor -/
noncomputable def structFactors (fudge wingMult : ℝ) (n : ℕ) : List ℝ :=
  match List.replicate n fudge with
  | [] => []
  | a :: l => (a * wingMult) :: l

/-- names of the structural weights, weights_jet_transport.py:454 -/
def structNamesJ : List String := ["W_wing", "W_hstab", "W_vstab", "W_fuselage", "W_mlg", "W_nlg", "W_nacelle"]

/-- names of the structural weights, weights_BWB.py:363 -/
def structNamesBWB : List String := ["W_wing", "W_cabin", "W_aftbody", "W_mlg", "W_nlg", "W_nacelle"]

/-- names of the final weights, weights_jet_transport.py:472-486 and weights_BWB.py:381-395 -/
def finalNames : List String :=
  ["W_structure", "W_engines", "W_thrust_rev", "W_eng_control", "W_fuelsystem", "W_eng_start", "W_furnishings",
    "W_flight_controls", "W_avionics", "W_electrical", "W_ac_pressurize_antiice", "W_oxygen", "W_APU"]

/-- the component `structural_adjustment`, weights_jet_transport.py:454-467, weights_BWB.py:363-376 -/
noncomputable def structSys (names : List String) (fudge wingMult : ℝ) : AddSys ℝ :=
  ⟨"W_structure", names, .all 1, 1, some (structFactors fudge wingMult names.length), ⟨some (some "lb"), none⟩⟩

/-- the component `sum_weights`, weights_jet_transport.py:472-497, weights_BWB.py:381-406 -/
noncomputable def totalSys (total : ℝ) : AddSys ℝ :=
  ⟨"OEW", finalNames, .all 1, 1, some (List.replicate finalNames.length total), ⟨some (some "lb"), none⟩⟩

/-- the last two components of `JetTransportEmptyWeight` (with `structNamesJ`) and `BWBEmptyWeight` (with
`structNamesBWB`) -/
noncomputable def runOEW (names : List String) (fudge wingMult total : ℝ) (e : Env) : Env :=
  runAdd (totalSys total) (runAdd (structSys names fudge wingMult) e)

/-- options of `JetTransportEmptyWeight`, weights_jet_transport.py:185-210; `BWBEmptyWeight` has a subset of them,
weights_BWB.py:175-189 -/
structure OptJ where
  fudge : ℝ
  total : ℝ
  wingMult : ℝ
  nult : ℝ
  nland : ℝ
  cs : ℝ
  widthFrac : ℝ
  Kuht : ℝ
  elev : ℝ
  Ttail : Bool
  Kdoor : ℝ
  Klg : ℝ
  kneelMain : ℝ
  kneelNose : ℝ
  Klav : ℝ
  Kbuf : ℝ
  cfc : ℝ
  cav : ℝ
  cabinFrac : ℝ
  apu : ℝ

/-- the promoted inputs of `JetTransportEmptyWeight` and `BWBEmptyWeight` (the last four only of the latter) -/
structure AircraftJ where
  MTOW : ℝ
  MLW : ℝ
  Wf : ℝ
  S : ℝ
  AR : ℝ
  sweep : ℝ
  taper : ℝ
  toverc : ℝ
  Sh : ℝ
  ARh : ℝ
  sweeph : ℝ
  armh : ℝ
  Sv : ℝ
  ARv : ℝ
  sweepv : ℝ
  armv : ℝ
  tocv : ℝ
  length : ℝ
  height : ℝ
  Swet : ℝ
  mainLen : ℝ
  mainWheels : ℝ
  struts : ℝ
  noseLen : ℝ
  noseWheels : ℝ
  Vstall : ℝ
  Mmax : ℝ
  T : ℝ
  neng : ℝ
  pax : ℝ
  deck : ℝ
  cabin : ℝ
  press : ℝ
  Scabin : ℝ
  Saft : ℝ
  taperAft : ℝ
  Vpress : ℝ

/-- weights_jet_transport.py:219-231, weights_BWB.py:219-231 -/
def AircraftJ.wing (o : OptJ) (a : AircraftJ) : WingJ := ⟨o.nult, o.cs, a.MTOW, a.S, a.AR, a.sweep, a.taper, a.toverc⟩
/-- weights_jet_transport.py:234-261: `hstab_const` feeds `hstab_calc` -/
noncomputable def AircraftJ.hstab (o : OptJ) (a : AircraftJ) : HstabJ :=
  ⟨o.nult, o.Kuht, o.elev, a.MTOW, a.Sh, a.ARh, a.sweeph, a.armh, hstabConst o.widthFrac a.Sh a.ARh a.height⟩
/-- weights_jet_transport.py:264-279 -/
def AircraftJ.vstab (o : OptJ) (a : AircraftJ) : VstabJ :=
  ⟨o.nult, o.Ttail, a.MTOW, a.Sv, a.ARv, a.sweepv, a.armv, a.tocv⟩
/-- weights_jet_transport.py:284-308: `K_ws_term` feeds `fuselage_calc` -/
noncomputable def AircraftJ.fus (o : OptJ) (a : AircraftJ) : FusJ :=
  ⟨o.nult, o.Kdoor, o.Klg, a.MTOW, a.length, a.Swet, a.height, KwsJ.compute ⟨a.taper, a.S, a.AR, a.sweep, a.length⟩⟩
/-- weights_jet_transport.py:314-328, weights_BWB.py:237-251 -/
def AircraftJ.mlg (o : OptJ) (a : AircraftJ) : MainGearJ :=
  ⟨o.nland, o.kneelMain, a.MLW, a.mainLen, a.mainWheels, a.struts, a.Vstall⟩
/-- weights_jet_transport.py:331-343, weights_BWB.py:254-266 -/
def AircraftJ.nlg (o : OptJ) (a : AircraftJ) : NoseGearJ := ⟨o.nland, o.kneelNose, a.MLW, a.noseLen, a.noseWheels⟩
/-- weights_jet_transport.py:395-406, weights_BWB.py:318-329 -/
def AircraftJ.furn (o : OptJ) (a : AircraftJ) : FurnJ := ⟨o.Klav, o.Kbuf, a.pax, a.deck, a.cabin, a.press, a.MTOW⟩
/-- weights_jet_transport.py:425-449 with the volume of lines 414-424 (`V`), weights_BWB.py:334-358 -/
noncomputable def AircraftJ.equip (o : OptJ) (a : AircraftJ) (V : ℝ) : EquipJ :=
  ⟨o.cfc, o.cav, o.apu, a.MTOW, a.pax, a.cabin, a.deck, a.neng, V, fuelSysJ a.Wf a.neng a.Mmax⟩

/-- the variables shared by both groups: engines (weights_jet_transport.py:349-391, the multiplication of the engine
weight by the number of engines is lines 355-363), furnishings and equipment -/
noncomputable def AircraftJ.common (o : OptJ) (a : AircraftJ) (V : ℝ) (other : Env) : Env := fun v =>
  if v = "W_wing" then (a.wing o).compute
  else if v = "W_mlg" then (a.mlg o).compute
  else if v = "W_nlg" then (a.nlg o).compute
  else if v = "W_nacelle" then nacelleJ a.T a.neng
  else if v = "W_engines" then engineJ a.T * a.neng
  else if v = "W_thrust_rev" then thrustRev a.T a.neng
  else if v = "W_eng_control" then engControl a.T a.neng
  else if v = "W_fuelsystem" then fuelSysJ a.Wf a.neng a.Mmax
  else if v = "W_eng_start" then engStart (engineJ a.T) a.neng
  else if v = "W_furnishings" then (a.furn o).compute
  else if v = "W_flight_controls" then (a.equip o V).fc
  else if v = "W_avionics" then (a.equip o V).av
  else if v = "W_electrical" then (a.equip o V).elec
  else if v = "W_ac_pressurize_antiice" then (a.equip o V).ac
  else if v = "W_oxygen" then (a.equip o V).ox
  else if v = "W_APU" then (a.equip o V).APU
  else other v

/-- the variables of `JetTransportEmptyWeight` before the two sums -/
noncomputable def AircraftJ.envJ (o : OptJ) (a : AircraftJ) (other : Env) : Env :=
  a.common o (cabinVolume a.height a.length o.cabinFrac) fun v =>
    if v = "W_hstab" then (a.hstab o).compute
    else if v = "W_vstab" then (a.vstab o).compute
    else if v = "W_fuselage" then (a.fus o).compute
    else other v

/-- the variables of `BWBEmptyWeight` before the two sums -/
noncomputable def AircraftJ.envBWB (o : OptJ) (a : AircraftJ) (other : Env) : Env :=
  a.common o a.Vpress fun v =>
    if v = "W_cabin" then cabinBWB a.Scabin a.MTOW
    else if v = "W_aftbody" then AftBWB.compute ⟨a.Saft, a.taperAft, a.neng, a.MTOW⟩
    else other v

/-- `OEW` of `JetTransportEmptyWeight` -/
noncomputable def AircraftJ.OEW (o : OptJ) (a : AircraftJ) (other : Env) : ℝ :=
  runOEW structNamesJ o.fudge o.wingMult o.total (a.envJ o other) "OEW"

/-- `OEW` of `BWBEmptyWeight` -/
noncomputable def AircraftJ.OEWBWB (o : OptJ) (a : AircraftJ) (other : Env) : ℝ :=
  runOEW structNamesBWB o.fudge o.wingMult o.total (a.envBWB o other) "OEW"

end Verif.Weights
