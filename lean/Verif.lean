import Verif.Props.American
import Verif.Props.Area
import Verif.Props.BSpline
import Verif.Props.BSplineLength
import Verif.Props.BSplineShape
import Verif.Props.BSplineSymmetry
import Verif.Props.Blade
import Verif.Props.BladeAssigned
import Verif.Props.BladeCamber
import Verif.Props.BladeCongruent
import Verif.Props.BladeCylinder
import Verif.Props.BladeDistributions
import Verif.Props.BladeEdge
import Verif.Props.BladeErrors
import Verif.Props.BladeHelix
import Verif.Props.BladeLife
import Verif.Props.BladeMirror
import Verif.Props.BladeMotion
import Verif.Props.BladeOverlap
import Verif.Props.BladeParts
import Verif.Props.BladePpg
import Verif.Props.BladeRagged
import Verif.Props.BladeRefined
import Verif.Props.BladeRefused
import Verif.Props.BladeSensitivity
import Verif.Props.BladeShape
import Verif.Props.BladeShut
import Verif.Props.BladeSymmetry
import Verif.Props.BladeTwice
import Verif.Props.CamberDefined
import Verif.Props.CamberLine
import Verif.Props.Curve
import Verif.Props.Custom
import Verif.Props.CustomRoundtrip
import Verif.Props.Deform
import Verif.Props.DeformAll
import Verif.Props.DeformExact
import Verif.Props.DeformExport
import Verif.Props.DeformFit
import Verif.Props.DeformLife
import Verif.Props.DeformLinear
import Verif.Props.DeformResponse
import Verif.Props.DeformUnique
import Verif.Props.DeformVariation
import Verif.Props.Display
import Verif.Props.Export
import Verif.Props.Face
import Verif.Props.FoilPolygon
import Verif.Props.HandFile
import Verif.Props.HandFileBad
import Verif.Props.Heap
import Verif.Props.HeapCustom
import Verif.Props.Ieee
import Verif.Props.Inside
import Verif.Props.Interp1d
import Verif.Props.InterpShape
import Verif.Props.LineEnds
import Verif.Props.Naca
import Verif.Props.NacaArea
import Verif.Props.NacaDesignation
import Verif.Props.NacaMeaning
import Verif.Props.NacaNose
import Verif.Props.NacaSampling
import Verif.Props.NacaSpline
import Verif.Props.Obj
import Verif.Props.ParamCrash
import Verif.Props.ParamFile
import Verif.Props.ParamRead
import Verif.Props.ParamWorld
import Verif.Props.Plot
import Verif.Props.Polygon
import Verif.Props.PpgContent
import Verif.Props.ProfileEdges
import Verif.Props.ProfileLife
import Verif.Props.ProfileMeasure
import Verif.Props.ProfileMotion
import Verif.Props.ProfileParams
import Verif.Props.Propeller
import Verif.Props.PropellerLife
import Verif.Props.Rbf
import Verif.Props.RbfInvariance
import Verif.Props.RbfKernels
import Verif.Props.RbfPosDef
import Verif.Props.RbfRows
import Verif.Props.RbfStore
import Verif.Props.Rebuild
import Verif.Props.Redesign
import Verif.Props.Reverse
import Verif.Props.ReverseCamber
import Verif.Props.ReverseEdges
import Verif.Props.ReverseGeneric
import Verif.Props.ReverseMore
import Verif.Props.ReverseMotion
import Verif.Props.ReverseSave
import Verif.Props.ReverseShape
import Verif.Props.ReverseWire
import Verif.Props.Rounded
import Verif.Props.RoundedBlade
import Verif.Props.RoundedCustom
import Verif.Props.RoundedNaca
import Verif.Props.Shaft
import Verif.Props.ShapeDistributions
import Verif.Props.Show
import Verif.Props.Similarity
import Verif.Props.Slope
import Verif.Props.Stations
import Verif.Props.ThicknessSensitivity
import Verif.Props.Typed
import Verif.Props.Units
import Verif.Props.Variation
import Verif.Props.Workflow
