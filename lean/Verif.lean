import Verif.Props.Units
import Verif.Props.Symmetrize
import Verif.Props.Sequence
import Verif.Props.Kron
import Verif.Props.Store
import Verif.Props.Delete
import Verif.Props.Add
import Verif.Props.Merge
import Verif.Props.MergeModels
import Verif.Props.Network
import Verif.Props.Upstream
import Verif.Props.Downstream
import Verif.Props.Switches
import Verif.Props.Cleanup
import Verif.Props.LoadsConnected
import Verif.Props.Loops
import Verif.Props.UniquePath
import Verif.Props.MatchedPhases
import Verif.Props.PhasePath
import Verif.Props.Undersized
import Verif.Props.Coordinates
import Verif.Props.Voltages
import Verif.Props.Source
import Verif.Props.GroupVoltages
import Verif.Props.Feeders
import Verif.Props.CenterTap
import Verif.Props.TrafoLoads
import Verif.Props.Split
import Verif.Props.Tag
import Verif.Props.Metrics
import Verif.Props.LoadMetrics
import Verif.Props.CountMetrics
import Verif.Props.FeederMetrics
import Verif.Props.Json
import Verif.Props.Cli
import Verif.Props.Defaults
import Verif.Props.DssCodes
import Verif.Props.DssFiles
import Verif.Props.DssLoads
import Verif.Props.DssCaps
import Verif.Props.DssLines
import Verif.Props.DssGeometry
import Verif.Props.Ampacity
import Verif.Props.Recloser
import Verif.Props.Terminals
import Verif.Props.Headnodes
import Verif.Props.OpenClose
import Verif.Props.DssTrafos
import Verif.Props.DssRegs
import Verif.Props.DssNodes
import Verif.Props.DssSource
import Verif.Props.DssVoltages
import Verif.Props.DssStorage
import Verif.Props.DssPVs
import Verif.Props.Carson
import Verif.Model.GldSpacing
import Verif.Spec.GldSpacing
import Verif.Lemmas.GldSpacing
import Verif.Props.GldSpacing
import Verif.Model.GldMatrix
import Verif.Spec.GldMatrix
import Verif.Props.GldMatrix
import Verif.Model.GlmParse
import Verif.Spec.GlmParse
import Verif.Lemmas.GlmParse
import Verif.Props.GlmParse
import Verif.Model.GlmNodes
import Verif.Spec.GlmNodes
import Verif.Props.GlmNodes
import Verif.Model.GlmLoads
import Verif.Model.GlmLoadWrite
import Verif.Spec.GlmLoads
import Verif.Spec.GlmLoadWrite
import Verif.Lemmas.GlmLoads
import Verif.Props.GlmLoads
import Verif.Props.GlmLoadWrite
import Verif.Model.CymeTable
import Verif.Spec.CymeTable
import Verif.Lemmas.CymeTable
import Verif.Props.CymeTable
import Verif.Props.CymeNames
import Verif.Model.CymeSections
import Verif.Spec.CymeSections
import Verif.Lemmas.CymeSections
import Verif.Props.CymeSections
import Verif.Model.CymeLoads
import Verif.Spec.CymeLoads
import Verif.Props.CymeLoads
import Verif.Model.CymeNodes
import Verif.Spec.CymeNodes
import Verif.Lemmas.CymeNodes
import Verif.Props.CymeNodes
import Verif.Model.CymeSources
import Verif.Spec.CymeSources
import Verif.Lemmas.CymeSources
import Verif.Props.CymeSources
import Verif.Model.CymeRegWrite
import Verif.Spec.CymeRegWrite
import Verif.Lemmas.CymeRegWrite
import Verif.Props.CymeRegWrite
import Verif.Model.CymeRegRead
import Verif.Spec.CymeRegRead
import Verif.Props.CymeRegRead
import Verif.Props.CymeRegBack
import Verif.Model.CymeCaps
import Verif.Spec.CymeCaps
import Verif.Lemmas.CymeShared
import Verif.Props.CymeCaps
import Verif.Model.CymeCapWrite
import Verif.Spec.CymeCapWrite
import Verif.Lemmas.CymeCapWrite
import Verif.Props.CymeCapWrite
import Verif.Props.CymeCapBack
import Verif.Model.CymeLoadFile
import Verif.Spec.CymeLoadFile
import Verif.Props.CymeLoadFile
import Verif.Model.CymeLoadWrite
import Verif.Spec.CymeLoadWrite
import Verif.Props.CymeLoadWrite
import Verif.Props.CymeLoadBack
import Verif.Model.CymeTrafos
import Verif.Spec.CymeTrafos
import Verif.Lemmas.CymeInfo
import Verif.Lemmas.CymeTrafos
import Verif.Props.CymeTrafos
import Verif.Model.CymePanels
import Verif.Spec.CymePanels
import Verif.Lemmas.CymePanels
import Verif.Props.CymePanels
import Verif.Model.CymeTrafoWrite
import Verif.Spec.CymeTrafoWrite
import Verif.Lemmas.CymeTrafoWrite
import Verif.Props.CymeTrafoWrite
import Verif.Props.CymeTrafoBack
import Verif.Model.GlmCaps
import Verif.Spec.GlmCaps
import Verif.Lemmas.GlmCaps
import Verif.Lemmas.GlmLines
import Verif.Props.GlmCaps
import Verif.Props.GlmWritten
import Verif.Props.GlmCapWrite
import Verif.Model.GlmSwitches
import Verif.Model.GlmLines
import Verif.Spec.GlmSwitches
import Verif.Spec.GlmLines
import Verif.Props.GlmSwitches
import Verif.Props.GlmLines
import Verif.Model.SynTables
import Verif.Model.SynLoads
import Verif.Model.SynCaps
import Verif.Spec.SynLoads
import Verif.Spec.SynCaps
import Verif.Lemmas.SynTables
import Verif.Lemmas.SynLoads
import Verif.Props.SynLoads
import Verif.Props.SynCaps
import Verif.Model.SynNodes
import Verif.Spec.SynNodes
import Verif.Props.SynNodes
import Verif.Model.SynTrafos
import Verif.Spec.SynTrafos
import Verif.Props.SynTrafos
import Verif.Model.SynRegs
import Verif.Spec.SynRegs
import Verif.Props.SynRegs
import Verif.Props.SynLines
import Verif.Props.SynDevices
import Verif.Props.SynMatrices
import Verif.Model.SynPvs
import Verif.Spec.SynPvs
import Verif.Lemmas.SynPvs
import Verif.Props.SynPvs
import Verif.Model.Csv
import Verif.Spec.Csv
import Verif.Lemmas.Csv
import Verif.Props.Csv
import Verif.Model.GlmTrafos
import Verif.Spec.GlmTrafos
import Verif.Lemmas.GlmTrafos
import Verif.Props.GlmTrafos
import Verif.Model.GlmTrafoWrite
import Verif.Spec.GlmTrafoWrite
import Verif.Lemmas.GlmTrafoWrite
import Verif.Props.GlmTrafoWrite
import Verif.Model.GlmRegs
import Verif.Spec.GlmRegs
import Verif.Lemmas.GlmRegs
import Verif.Props.GlmRegs
import Verif.Model.GlmRegWrite
import Verif.Spec.GlmRegWrite
import Verif.Lemmas.GlmRegWrite
import Verif.Props.GlmRegWrite
import Verif.Model.EphBuses
import Verif.Spec.EphBuses
import Verif.Lemmas.EphBuses
import Verif.Props.EphBuses
import Verif.Model.EphLoads
import Verif.Spec.EphLoads
import Verif.Lemmas.EphLoads
import Verif.Props.EphLoads
import Verif.Model.EphLines
import Verif.Spec.EphLines
import Verif.Lemmas.EphLines
import Verif.Props.EphLines
import Verif.Model.EphTrafos
import Verif.Spec.EphTrafos
import Verif.Lemmas.EphTrafos
import Verif.Props.EphTrafos
import Verif.Model.DssSeries
import Verif.Spec.DssSeries
import Verif.Lemmas.DssSeries
import Verif.Props.DssSeries
import Verif.Model.DssMasters
import Verif.Spec.DssMasters
import Verif.Lemmas.DssMasters
import Verif.Props.DssMasters
import Verif.Model.GldTriplex
import Verif.Spec.GldTriplex
import Verif.Lemmas.GldTriplex
import Verif.Props.GldTriplex
import Verif.Model.GldUnderground
import Verif.Spec.GldUnderground
import Verif.Lemmas.GldUnderground
import Verif.Props.GldUnderground
import Verif.Model.CymeLines
import Verif.Spec.CymeLines
import Verif.Lemmas.CymeLines
import Verif.Props.CymeLines
import Verif.Model.CymeByPhase
import Verif.Spec.CymeByPhase
import Verif.Props.CymeByPhase
import Verif.Model.CymeOverlaps
import Verif.Spec.CymeOverlaps
import Verif.Props.CymeOverlaps
import Verif.Model.CymeEquivalents
import Verif.Spec.CymeEquivalents
import Verif.Props.CymeEquivalents
import Verif.Model.CymeDg
import Verif.Spec.CymeDg
import Verif.Props.CymeDg
import Verif.Model.CymeSectionWrite
import Verif.Spec.CymeSectionWrite
import Verif.Props.CymeSectionWrite
import Verif.Model.CymeLineCodes
import Verif.Spec.CymeLineCodes
import Verif.Props.CymeLineCodes
import Verif.Model.CymeLineData
import Verif.Spec.CymeLineData
import Verif.Props.CymeLineData
import Verif.Model.CymeSourceWrite
import Verif.Spec.CymeSourceWrite
import Verif.Props.CymeSourceWrite
import Verif.Model.CymeNodeWrite
import Verif.Spec.CymeNodeWrite
import Verif.Props.CymeNodeWrite
import Verif.Model.CymeDgWrite
import Verif.Spec.CymeDgWrite
import Verif.Props.CymeDgWrite
import Verif.Model.CymeSubnets
import Verif.Spec.CymeSubnets
import Verif.Props.CymeSubnets
import Verif.Model.TrafoFix
import Verif.Spec.TrafoFix
import Verif.Props.TrafoFix
import Verif.Model.NodeVoltages
import Verif.Spec.NodeVoltages
import Verif.Props.NodeVoltages
import Verif.Model.NetAttrs
import Verif.Spec.NetAttrs
import Verif.Props.NetAttrs
import Verif.Model.PathLines
import Verif.Spec.PathLines
import Verif.Props.PathLines
import Verif.Model.Furthest
import Verif.Spec.Furthest
import Verif.Props.Furthest
import Verif.Model.PhaseLengths
import Verif.Spec.PhaseLengths
import Verif.Props.PhaseLengths
