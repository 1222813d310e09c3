import Verif.Proof.HDeriv
import Verif.Proof.PolyAux
import Verif.Model.Integrals
import Verif.Proof.Integrals
import Verif.Proof.Bdf3Sign
import Verif.Props.Integrals
import Verif.Props.IntegralsPartials
import Verif.Props.Bdf3Sign
import Verif.Model.AddIntegrand
import Verif.Props.AddIntegrand
import Verif.Model.Derivatives
import Verif.Proof.Derivatives
import Verif.Props.Derivatives
import Verif.Model.VectorComps
import Verif.Proof.VectorComps
import Verif.Props.VectorComps
import Verif.Props.MulDiv
import Verif.Model.Utils
import Verif.Props.ConcatSplit
import Verif.Props.Utils
import Verif.Model.MissionGroups
import Verif.Props.MissionGroups
import Verif.Model.Constants
import Verif.Model.Phases
import Verif.Props.Phases
import Verif.Props.Missions
import Verif.Model.Atmosphere
import Verif.Proof.Atmosphere
import Verif.Props.Atmosphere
import Verif.Proof.Kink
import Verif.Model.Propulsion
import Verif.Props.Propulsion
import Verif.Model.Hydrogen
import Verif.Props.Hydrogen
import Verif.Model.Thermal
import Verif.Props.Thermal
import Verif.Props.Chiller
import Verif.Model.HeatExchanger
import Verif.Props.HeatExchanger
import Verif.Model.Ducts
import Verif.Model.DuctGroup
import Verif.Props.Ducts
import Verif.Props.DuctGroup
import Verif.Model.Geometry
import Verif.Props.Geometry
import Verif.Model.Aero
import Verif.Props.Aero
import Verif.Model.Mesh
import Verif.Props.Mesh
import Verif.Props.SectionMesh
import Verif.Model.Training
import Verif.Props.Training
import Verif.Model.Weights
import Verif.Props.Weights
import Verif.Model.WeightsJet
import Verif.Props.WeightsJet
import Verif.Props.CriticalSection
import Verif.Props.DataDict
import Verif.Props.Decks
import Verif.Props.DragPolar
import Verif.Model.Aircraft
import Verif.Model.Breguet
import Verif.Proof.Pade
import Verif.Props.Aircraft
import Verif.Props.Breguet
import Verif.Model.ElectricThermal
import Verif.Props.ElectricThermal
import Verif.Props.FltCond
import Verif.Props.Formulas
import Verif.Props.Formulas2
import Verif.Proof.Taylor
import Verif.Proof.Convergence
import Verif.Props.Convergence
import Verif.Props.FiniteDiff
import Verif.Model.ThermalMass
import Verif.Proof.Relax
import Verif.Props.ThermalMass
import Verif.Model.Takeoff
import Verif.Props.Takeoff
import Verif.Model.HybridTwin
import Verif.Props.HybridTwin
import Verif.Model.PointAnalysis
import Verif.Props.PointAnalysis
import Verif.Model.Vectorized
import Verif.Props.Vectorized
import Verif.Model.Turboprop
import Verif.Props.Turboprop
import Verif.Model.WingSizing
import Verif.Props.WingSizing
import Verif.Model.DerivComp
import Verif.Props.DerivComp
import Verif.Model.UnitsCore
import Verif.Proof.Scale
import Verif.Model.Units
import Verif.Props.Units
import Verif.Model.Sparsity
import Verif.Proof.Sparse
import Verif.Props.Sparsity
import Verif.Model.ConcatComp
import Verif.Props.ConcatComp
import Verif.Props.SumEquations
import Verif.Model.Sparsity2
import Verif.Props.Sparsity2
import Verif.Model.Wiring
import Verif.Model.WiringDucts
import Verif.Proof.Wiring
import Verif.Proof.WiringDucts
import Verif.Props.WiringDucts
import Verif.Model.WiringSystems
import Verif.Proof.WiringSystems
import Verif.Props.WiringPropulsion
import Verif.Props.WiringHybrid
import Verif.Props.WiringThermal
import Verif.Props.WiringElectric
import Verif.Model.WiringMission
import Verif.Proof.WiringMission
import Verif.Props.WiringPhases
import Verif.Props.WiringPhases2
import Verif.Model.WiringProfiles
import Verif.Props.WiringProfiles
import Verif.Props.WiringProfiles2
import Verif.Props.WiringProfiles3
import Verif.Props.WiringProfiles4
import Verif.Model.WiringWeights
import Verif.Proof.WiringWeights
import Verif.Props.WiringWeights
import Verif.Props.WiringWeightsJet
import Verif.Model.WiringDrag
import Verif.Proof.WiringDrag
import Verif.Props.WiringDrag
import Verif.Model.StringKey
import Verif.Model.WiringAirplanes
import Verif.Proof.WiringAirplanes
import Verif.Props.WiringAirplanes
import Verif.Model.RunOnce
import Verif.Proof.Feedforward
import Verif.Proof.FeedSystems
import Verif.Proof.FeedComponents
import Verif.Props.Feedforward
import Verif.Props.RunOnce
import Verif.Model.Tutorial
import Verif.Props.Trajectory
import Verif.Props.Trajectory2
import Verif.Props.Tutorial
import Verif.Props.Tutorial2
import Verif.Props.FuelBurn
import Verif.Model.WiringAirplanes2
import Verif.Proof.WiringAirplanes2
import Verif.Props.WiringAirplanes2
import Verif.Model.WiringSizing
import Verif.Proof.WiringSizing
import Verif.Props.WiringSizing
import Verif.Props.WiringSizing2
import Verif.Model.WiringHybrids
import Verif.Proof.WiringHybrids
import Verif.Props.WiringHybrids
import Verif.Props.WiringHybrids2
import Verif.Props.WiringHybrids3
import Verif.Model.WiringN3
import Verif.Proof.WiringN3
import Verif.Props.WiringN3
import Verif.Props.WiringN3Phase
import Verif.Model.Label
import Verif.Props.Label
import Verif.Model.SectionIdx
import Verif.Props.SectionIdx
import Verif.Model.SurfOptions
import Verif.Props.SurfOptions
import Verif.Model.PrintedWeights
import Verif.Props.PrintedWeights
import Verif.Model.WiringVlm
import Verif.Props.WiringVlm
import Verif.Model.Plots
import Verif.Props.Plots
import Verif.Model.DeckPlots
import Verif.Props.DeckPlots
import Verif.Model.PlotTrajectory
import Verif.Props.PlotTrajectory
import Verif.Model.SweepScript
import Verif.Props.SweepScript
import Verif.Props.AutoComps
