import Verif.Grid
import Verif.Components
import Verif.F32
import Verif.CollisionMap
import Verif.CMapExports
import Verif.Spec.Basic
import Verif.Spec.Regions
import Verif.Props.CollisionMap
import Verif.Props.CMapExports
import Verif.DistanceField
import Verif.Spec.Distance
import Verif.Props.DistanceField
import Verif.SdfGen
import Verif.Props.SdfGen
import Verif.Sdf
import Verif.Props.Sdf
import Verif.Interp
import Verif.Spec.Interp
import Verif.Props.Interp
import Verif.Props.InterpCont
import Verif.Props.Project
import Verif.Extrema
import Verif.Props.Extrema
import Verif.Tagged
import Verif.Serial
import Verif.Props.Serial
import Verif.SdfDisplay
import Verif.Props.SdfDisplay
import Verif.Topology
import Verif.Props.Topology
import Verif.Props.TopologyBox
import Verif.Props.Surfaces
import Verif.OMap
import Verif.Props.Tagged
import Verif.TaggedSdf
import Verif.Props.TaggedSdf
import Verif.TaggedDisplay
import Verif.Props.TaggedDisplay
import Verif.Image2d
import Verif.Props.Image2d
import Verif.Builder
import Verif.Props.Builder
import Verif.PyUtils
import Verif.Props.PyUtils
import Verif.AutoDiff
import Verif.Props.Gradients
import Verif.Props.AutoDiff
import Verif.Props.IndexGradient
import Verif.Hashed
import Verif.Props.Hashed
import Verif.TaggedExports
import Verif.Props.TaggedExports
import Verif.PyBatch
import Verif.Props.PyBatch
import Verif.GenNode
import Verif.Props.GenNode
import Verif.ConvexSegments
import Verif.Props.ConvexSegments
import Verif.Located
import Verif.Props.Located
import Verif.Props.DistancePlanar
import Verif.Props.FlatDistance
import Verif.Props.ImageTable
import Verif.Props.ImageExact
import Verif.Props.Defaults
import Verif.Ieee
import Verif.Props.Ieee
import Verif.Props.PyAccuracy
import Verif.Props.BoxExact
import Verif.Props.BorderAccuracy
import Verif.Markers
import Verif.Props.Markers
import Verif.Props.Viewer
import Verif.SdfDisplayFloat
import Verif.Props.SdfDisplayFloat
import Verif.SerialInto
import Verif.Props.SerialInto
import Verif.Files
import Verif.Props.Files
import Verif.InterpFloat
import Verif.Props.InterpFloat
import Verif.GradFloat
import Verif.Props.GradFloat
import Verif.Props.SdfHistory
import Verif.PyBind
import Verif.Props.PyBind
import Verif.SmoothFloat
import Verif.Props.SmoothFloat
import Verif.BoundaryFloat
import Verif.Props.BoundaryFloat
import Verif.Props.IeeeExports
import Verif.ConvexFloat
import Verif.Props.ConvexFloat
import Verif.Props.Units
import Verif.Props.ConvexAgree
import Verif.Rotation
import Verif.Props.Rotation
import Verif.Props.InterpLip
import Verif.FrameFloat
import Verif.Props.FrameFloat
import Verif.AutoDiffFloat
import Verif.Props.AutoDiffFloat
import Verif.Props.AutoDiffIndex
import Verif.Props.NonFinite
import Verif.Spec.SignedDistance
import Verif.Props.SignedDistance
import Verif.Props.SignedEstimate
import Verif.QuatFloat
import Verif.Props.PyGradient
import Verif.Props.WorldGradient
import Verif.Spec.WorldDistance
import Verif.Props.WorldDistance
import Verif.Props.ObjectDistance
import Verif.PyDemo
import Verif.Props.PyDemo
import Verif.Props.PyProduct
import Verif.Spec.Checked
import Verif.Props.CheckedField
import Verif.WorldMarks
import Verif.ResampleFloat
import Verif.Spec.Marks
import Verif.Props.WorldMarks
import Verif.Props.SlowChange
import Verif.Spec.Volume
import Verif.Props.ProjectedClear
import Verif.Tutorial
import Verif.Props.Tutorial
import Verif.Spec.Path
import Verif.Props.PathCheck
import Verif.Props.BorderClear
import Verif.Props.CloudPath
import Verif.Spec.Resample
import Verif.Props.ResampleFloat
import Verif.Props.TaggedPath
import Verif.Props.FreeNamed
import Verif.Props.Enlarge
import Verif.Props.Mirror
import Verif.Props.TopologyEuler
import Verif.Props.FileLayout
import Verif.Props.TaggedTopology
import Verif.Props.Sessions
import Verif.Spec.FloatBits
import Verif.Props.FloatBits
import Verif.Props.StoredDistances
import Verif.Work
import Verif.Props.Work
import Verif.Props.UnitLength
import Verif.Props.TaggedWork
import Verif.Props.StoredBorder
import Verif.Props.AnywhereReport
import Verif.Props.AnywhereBorder
import Verif.Props.ImageNode
import Verif.Props.FreeNamedWorld
import Verif.Props.AnywhereNamed
import Verif.Props.AnywhereCloud
import Verif.Props.BoundaryWorld
import Verif.Props.IeeeFalse
import Verif.Props.ProjectWorld
