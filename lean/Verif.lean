import Verif.Props.C01_C03_FlowSetup
import Verif.Props.C04_C05_ConnectFlow
import Verif.Props.C06_C07_MPCycle
import Verif.Props.C08_C39_C40_ElementBase
import Verif.Props.C09_ThermoAddPorts
import Verif.Props.C10_C11_CeaMixing
import Verif.Props.C12_C13_TabMixing
import Verif.Props.C14_CoeffTable
import Verif.Props.C15_Polynomials
import Verif.Props.C16_SpeciesSetup
import Verif.Props.C17_ChemEq
import Verif.Props.C18_C43_ChemEqJac
import Verif.Props.C19_ReactingCp
import Verif.Props.C20_PropsCalcs
import Verif.Props.C21_C22_StaticPs
import Verif.Props.C23_PsGuess
import Verif.Props.C24_ThermoModes
import Verif.Props.C25_Gearbox
import Verif.Props.C26_Shaft
import Verif.Props.C27_Performance
import Verif.Props.C28_SplitBleed
import Verif.Props.C29_Inlet
import Verif.Props.C30_Duct
import Verif.Props.C31_Mixer
import Verif.Props.C32_Cooling
import Verif.Props.C33_Nozzle
import Verif.Props.C34_Compressor
import Verif.Props.C35_Turbine
import Verif.Props.C36_MapScaling
import Verif.Props.C37_Corrected
import Verif.Props.C38_Atmosphere
import Verif.Spec.AkimaRule
import Verif.Props.C38_Akima
import Verif.Props.C41_SmallCore
import Verif.Props.C42_MolarMass
import Verif.Props.C44_FitData
import Verif.Props.C45_MapData
import Verif.Props.C46_Determined
import Verif.Props.C46_Shipped
import Verif.Props.C47_SecondLaw
import Verif.Props.C48_Combustor
import Verif.Props.C49_FlowStart
import Verif.Props.C50_Stations
import Verif.Props.C51_Mixer
import Verif.Props.C52_Nozzle
import Verif.Spec.BleedNames
import Verif.Spec.MapPoint
import Verif.Model.BleedWiring
import Verif.Proofs.BleedLemmas
import Verif.Proofs.BleedNamesLemmas
import Verif.Proofs.CompressorNames
import Verif.Props.C53_BleedOut
import Verif.Props.C54_MapGroups
import Verif.Props.C55_Compressor
import Verif.Props.C56_Turbine
import Verif.Model.CycleGroup
import Verif.Spec.Balance
import Verif.Spec.Accounts
import Verif.Proofs.CycleLemmas
import Verif.Proofs.CycleNames
import Verif.Proofs.Glue
import Verif.Props.C57_Network
import Verif.Props.C57_Accounts
import Verif.Props.C57_Example
import Verif.Props.C58_Turbojet
import Verif.Props.C58_Example
import Verif.Model.DesOdConns
import Verif.Spec.OffDesign
import Verif.Proofs.Redesign
import Verif.Proofs.RedesignMaps
import Verif.Proofs.Locals
import Verif.Props.C59_Stations
import Verif.Props.C59_Machines
import Verif.Props.C59_Mixer
import Verif.Props.C59_Turbojet
import Verif.Props.C59_Example
import Verif.Proofs.Closed
import Verif.Proofs.EngineKit
import Verif.Proofs.Ifaces
import Verif.Proofs.EngineLaws
import Verif.Proofs.EngineLaws2
import Verif.Model.Turbofan
import Verif.Proofs.TurbofanNames
import Verif.Props.C60_Turbofan
import Verif.Props.C60_Flow
import Verif.Bench.Stations
import Verif.Bench.Outflow
import Verif.Bench.Compress
import Verif.Bench.Expand
import Verif.Bench.Assembly
import Verif.Props.C60_Example
import Verif.Model.MixedFlow
import Verif.Proofs.MixedFlowNames
import Verif.Proofs.ShaftAlter
import Verif.Props.C61_MixedFlow
import Verif.Props.C61_Flow
import Verif.Bench.Mixed
import Verif.Bench.Single
import Verif.Bench.Plain
import Verif.Props.C61_Example
import Verif.Model.Turboshaft
import Verif.Proofs.TurboshaftNames
import Verif.Props.C62_Turboshaft
import Verif.Props.C62_Example
import Verif.Model.Propulsor
import Verif.Proofs.PropulsorNames
import Verif.Props.C63_Propulsor
import Verif.Props.C63_Example
import Verif.Model.CoolingGroup
import Verif.Proofs.CoolingNames
import Verif.Props.C64_Cooling
import Verif.Props.C64_Example
import Verif.Props.C65_Afterburner
import Verif.Props.C66_GearedFan
import Verif.Props.C66_Flow
import Verif.Bench.Named
import Verif.Props.C66_Example
import Verif.Props.C65_Example
import Verif.Props.C67_MultiSpool
import Verif.Props.C67_Flow
import Verif.Props.C67_Example
import Verif.Model.WetTurbojet
import Verif.Proofs.WetNames
import Verif.Bench.Cea
import Verif.Props.C68_WetAir
import Verif.Props.C68_WetTurbojet
import Verif.Props.C68_Example
import Verif.Model.MultiPoint
import Verif.Model.MultiExamples
import Verif.Spec.MultiPoint
import Verif.Proofs.Slots
import Verif.Proofs.MultiKit
import Verif.Proofs.MultiSlots
import Verif.Proofs.MultiSlots2
import Verif.Props.C69_MultiPoint
import Verif.Props.C69_Engines
import Verif.Props.C69_Left
import Verif.Props.C69_Example
import Verif.Model.MultiGeared
import Verif.Spec.MultiGeared
import Verif.Proofs.MultiGearedNames
import Verif.Props.C70_MultiGeared
