import Verif.Lemmas.Antenna
import Verif.Lemmas.Blocks
import Verif.Lemmas.Channel
import Verif.Lemmas.Cholesky
import Verif.Lemmas.Config
import Verif.Lemmas.ConfigTable
import Verif.Lemmas.CrossCorr
import Verif.Lemmas.CrossTable
import Verif.Lemmas.ExpKernel
import Verif.Lemmas.Fading
import Verif.Lemmas.Imports
import Verif.Lemmas.Lsp
import Verif.Lemmas.Normal
import Verif.Lemmas.Pathloss
import Verif.Lemmas.Phases
import Verif.Lemmas.PosDef
import Verif.Lemmas.Rayleigh
import Verif.Lemmas.Rays
import Verif.Lemmas.Rounding
import Verif.Lemmas.Sorting
import Verif.Lemmas.Standard
import Verif.Lemmas.TableChecks
import Verif.Lemmas.Topology
import Verif.Lemmas.TwoSided
import Verif.Model.Additional
import Verif.Model.Antenna
import Verif.Model.ArrayAttrs
import Verif.Model.Cdl
import Verif.Model.Channel
import Verif.Model.Cir
import Verif.Model.Coeff
import Verif.Model.Construct
import Verif.Model.ConstructArray
import Verif.Model.CorrMat
import Verif.Model.DelayTables
import Verif.Model.Gain
import Verif.Model.Geometry
import Verif.Model.Getters
import Verif.Model.Imports
import Verif.Model.Install
import Verif.Model.InstallScript
import Verif.Model.Lsp
import Verif.Model.Num
import Verif.Model.O2i
import Verif.Model.Ofdm
import Verif.Model.Packaging
import Verif.Model.Pathloss
import Verif.Model.Precision
import Verif.Model.PrecisionCir
import Verif.Model.Rays
import Verif.Model.Rounding
import Verif.Model.RoundingAngles
import Verif.Model.RoundingAperture
import Verif.Model.RoundingArray
import Verif.Model.RoundingClusters
import Verif.Model.RoundingDirections
import Verif.Model.RoundingDrop
import Verif.Model.RoundingField
import Verif.Model.RoundingGain
import Verif.Model.RoundingLocal
import Verif.Model.RoundingLsp
import Verif.Model.RoundingMovement
import Verif.Model.RoundingNormalize
import Verif.Model.RoundingOfdm
import Verif.Model.RoundingPaths
import Verif.Model.RoundingPattern
import Verif.Model.RoundingRays
import Verif.Model.RoundingTaps
import Verif.Model.RoundingTdl
import Verif.Model.RoundingUts
import Verif.Model.Scenario
import Verif.Model.ShapeOps
import Verif.Model.Shapes
import Verif.Model.ShapesConvert
import Verif.Model.Show
import Verif.Model.ShowArray
import Verif.Model.ShowElement
import Verif.Model.Simulation
import Verif.Model.Tables
import Verif.Model.Tdl
import Verif.Model.TopoGen
import Verif.Model.Topology
import Verif.Props.Additional
import Verif.Props.AlmostSure
import Verif.Props.AngleBounds
import Verif.Props.Angles
import Verif.Props.Antenna
import Verif.Props.ArrayAttrs
import Verif.Props.Arrays
import Verif.Props.Beam
import Verif.Props.Cdl
import Verif.Props.Channel
import Verif.Props.Cir
import Verif.Props.Cir2
import Verif.Props.Circular
import Verif.Props.Coeff
import Verif.Props.Coeff2
import Verif.Props.Coherence
import Verif.Props.Config
import Verif.Props.Construct
import Verif.Props.ConstructArray
import Verif.Props.CorrMat
import Verif.Props.Coupling
import Verif.Props.CrossPolar
import Verif.Props.DelaySpread
import Verif.Props.DirectionLaw
import Verif.Props.Documented
import Verif.Props.Doppler
import Verif.Props.DopplerSpectrum
import Verif.Props.DropAzimuth
import Verif.Props.DropLaw
import Verif.Props.Fading
import Verif.Props.Forget
import Verif.Props.Geometry
import Verif.Props.Getters
import Verif.Props.Imports
import Verif.Props.Install
import Verif.Props.InstallScript
import Verif.Props.IntArgs
import Verif.Props.Isotropy
import Verif.Props.Itu
import Verif.Props.LinkBudget
import Verif.Props.LosDoppler
import Verif.Props.LosLaw
import Verif.Props.LossMixture
import Verif.Props.Lsp
import Verif.Props.LspLaw
import Verif.Props.Magnitude
import Verif.Props.MimoRank
import Verif.Props.Numbering
import Verif.Props.O2i
import Verif.Props.Ofdm
import Verif.Props.OfdmEnergy
import Verif.Props.Orbit
import Verif.Props.Packaging
import Verif.Props.Pathloss
import Verif.Props.Patterns
import Verif.Props.Plain
import Verif.Props.Polarisation
import Verif.Props.Power
import Verif.Props.Precision
import Verif.Props.PrecisionCir
import Verif.Props.Prefix
import Verif.Props.Profiles
import Verif.Props.RainFails
import Verif.Props.RayLaw
import Verif.Props.Rayleigh
import Verif.Props.Rays
import Verif.Props.Reciprocity
import Verif.Props.Rounding
import Verif.Props.RoundingAngles
import Verif.Props.RoundingAperture
import Verif.Props.RoundingArray
import Verif.Props.RoundingClusters
import Verif.Props.RoundingCommon
import Verif.Props.RoundingConvert
import Verif.Props.RoundingDirections
import Verif.Props.RoundingDrop
import Verif.Props.RoundingField
import Verif.Props.RoundingGain
import Verif.Props.RoundingLink
import Verif.Props.RoundingLinkTime
import Verif.Props.RoundingLocal
import Verif.Props.RoundingLoss
import Verif.Props.RoundingLsp
import Verif.Props.RoundingMovement
import Verif.Props.RoundingNormalize
import Verif.Props.RoundingOfdm
import Verif.Props.RoundingPath
import Verif.Props.RoundingPaths
import Verif.Props.RoundingPattern
import Verif.Props.RoundingRays
import Verif.Props.RoundingTaps
import Verif.Props.RoundingTdl
import Verif.Props.RoundingUts
import Verif.Props.SatelliteHeight
import Verif.Props.Scene
import Verif.Props.SceneGeometry
import Verif.Props.Scint
import Verif.Props.Seeds
import Verif.Props.Shapes
import Verif.Props.ShapesConvert
import Verif.Props.Show
import Verif.Props.ShowArray
import Verif.Props.ShowElement
import Verif.Props.Simulation
import Verif.Props.Standard
import Verif.Props.Statistics
import Verif.Props.Steering
import Verif.Props.Symmetry
import Verif.Props.Tdl
import Verif.Props.TdlCall
import Verif.Props.TdlMatrix
import Verif.Props.TopoGen
import Verif.Props.Topology
import Verif.Props.Wavelength
import Verif.Props.Window
import Verif.Spec.Antenna
import Verif.Spec.Bessel
import Verif.Spec.Channel
import Verif.Spec.Cir
import Verif.Spec.Coeff
import Verif.Spec.Config
import Verif.Spec.Construct
import Verif.Spec.ConstructArray
import Verif.Spec.DelaySpread
import Verif.Spec.Documented
import Verif.Spec.DopplerSpectrum
import Verif.Spec.Geometry
import Verif.Spec.Imports
import Verif.Spec.Itu
import Verif.Spec.LinkBudget
import Verif.Spec.Lsp
import Verif.Spec.Prefix
import Verif.Spec.Profiles
import Verif.Spec.Random
import Verif.Spec.Rounding
import Verif.Spec.RoundingDrop
import Verif.Spec.Shapes
import Verif.Spec.ShapesConvert
import Verif.Spec.Simulation
import Verif.Spec.Standard
import Verif.Spec.Steering
import Verif.Spec.Symmetry
import Verif.Spec.Topology
