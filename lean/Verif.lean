import Verif.Float
import Verif.Outcome
import Verif.Color
import Verif.Hex
import Verif.ColorLemmas
import Verif.Props.Objects
import Verif.Props.Objects2
import Verif.Props.HexCodes
import Verif.Matrix
import Verif.MatrixLemmas
import Verif.Props.Matrices
import Verif.Gamma
import Verif.GammaLemmas
import Verif.WhitePoint
import Verif.SpaceDef
import Verif.SpaceLemmas
import Verif.Props.Gammas
import Verif.Props.Spaces
import Verif.Props.Spaces2
import Verif.Props.Homes
import Verif.Heap
import Verif.Leaf
import Verif.Converter
import Verif.ConvLemmas
import Verif.ConvVal
import Verif.Dispatch
import Verif.ConvAlpha
import Verif.Props.Convert
import Verif.HueLemmas
import Verif.TripLemmas
import Verif.SmallError
import Verif.Props.RoundTrips
import Verif.Nan
import Verif.Props.CieTrips
import Verif.Blend
import Verif.Calls
import Verif.BlendLemmas
import Verif.Props.PorterDuff
import Verif.Props.Blends
import Verif.Props.Blends2
import Verif.Props.Blends3
import Verif.Calc
import Verif.CalcLemmas
import Verif.CalcExact
import Verif.Props.Calculation
import Verif.Props.Calculation2
import Verif.Distance
import Verif.DistanceLemmas
import Verif.Props.Distances
import Verif.Adjust
import Verif.AdjustLemmas
import Verif.ComplementLemmas
import Verif.Props.Combinations
import Verif.Props.Combinations2
import Verif.Props.Combinations3
import Verif.Props.Adjustments
import Verif.Adapt
import Verif.AdaptLemmas
import Verif.AdaptCores
import Verif.Props.Adaptations
import Verif.Props.Adaptations2
import Verif.Props.Adaptations3
import Verif.Predefined
import Verif.Props.Predefined
import Verif.RouteLemmas
import Verif.Props.Routes
import Verif.FormulaLemmas
import Verif.Props.Formulas
import Verif.Props.CieFormulas
import Verif.Props.Sums
import Verif.Tame
import Verif.TameConv
import Verif.TameLib
import Verif.SessionSpec
import Verif.SessionLemmas
import Verif.Props.Sessions
import Verif.Props.Presets
import Verif.Props.Published
import Verif.NearLemmas
import Verif.HueNear
import Verif.Binary32
import Verif.Props.Single
import Verif.ConvBlind
import Verif.Props.Opacity
import Verif.RelLemmas
import Verif.Props.Single2
import Verif.Props.Adaptations4
import Verif.Props.Adaptations5
import Verif.Props.AdaptationAlgebra
import Verif.Props.Equality
import Verif.Props.Presets2
import Verif.Props.Defaults
import Verif.Props.BlendOrder
import Verif.Props.Neutral
import Verif.Props.Opacity2
import Verif.Props.Locality
import Verif.FineError
import Verif.Mat3
import Verif.FineNumbers
import Verif.FinePresets
import Verif.FineTrip
import Verif.FineGamma
import Verif.FineLab
import Verif.FineLabTrip
import Verif.FineLabLines
import Verif.FineLabLinear
import Verif.FineXyy
import Verif.Props.Fine
import Verif.Props.Memory
import Verif.Safe
import Verif.SafeLib
import Verif.SafetySpec
import Verif.Props.Safety
import Verif.Props.HueGeometry
import Verif.Props.AdjustForms
import Verif.Props.Gradients
import Verif.LabGamutLemmas
import Verif.Props.LabGamut
import Verif.Props.FineLab
import Verif.Props.FineXyy
import Verif.Props.SingleGap
import Verif.HcyNear
import Verif.Props.SingleHcy
import Verif.TurnNear
import Verif.Props.SingleTurn
import Verif.AverageNear
import Verif.Props.LongAverages
import Verif.Props.MatrixShapes
import Verif.SquareNear
import Verif.Props.SingleDistance
import Verif.Props.SingleCie94
import Verif.Props.SingleModes
import Verif.MixNear
import Verif.Props.SingleMix
import Verif.AdaptNear
import Verif.Props.SingleAdapt
import Verif.Props.SinglePremultiply
import Verif.WeightedNear
import Verif.Props.SingleWeighted
import Verif.Props.SingleAdjust
import Verif.Props.AdaptLab
import Verif.Cie00Near
import Verif.Cie00Number
import Verif.Props.SingleCie00
import Verif.Props.Gamut
import Verif.Props.AdjustSingle
import Verif.Props.AdjustBytes
import Verif.Props.PixelBytes
import Verif.Props.BlendBytes
import Verif.Props.BlendBytes2
import Verif.Props.WholeBytes
import Verif.Props.SingleSum
import Verif.Props.SingleHsi
import Verif.Props.AdaptXyy
import Verif.Props.SingleGrey
import Verif.Props.GammaParts
import Verif.Props.SingleMean
import Verif.Props.MatrixQueries
import Verif.Props.SingleThree
import Verif.Props.Whites
import Verif.Props.MatrixMaking
