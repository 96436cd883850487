import Verif.Props.AABBTree
import Verif.Props.Affine
import Verif.Props.Agree
import Verif.Props.Amount
import Verif.Props.AngleFloat
import Verif.Props.ArcFloat
import Verif.Props.Axes
import Verif.Props.Backward
import Verif.Props.Bezier
import Verif.Props.BezierFloat
import Verif.Props.BezierLength
import Verif.Props.BoundingBox
import Verif.Props.BoundingBoxCorners
import Verif.Props.BoundingBoxReal
import Verif.Props.BoxFloat
import Verif.Props.BoxGrid
import Verif.Props.Broad
import Verif.Props.ByteCodec
import Verif.Props.ClosedHeal
import Verif.Props.ClosedKept
import Verif.Props.ClosedVolume
import Verif.Props.Closest
import Verif.Props.Cloud32
import Verif.Props.CloudGeometry
import Verif.Props.Cluster
import Verif.Props.ClusterFloat
import Verif.Props.ClusterVertices
import Verif.Props.Compress
import Verif.Props.CompressFloat
import Verif.Props.Convert
import Verif.Props.CosineFloat
import Verif.Props.CurveFloat
import Verif.Props.Depth
import Verif.Props.Device
import Verif.Props.DeviceLas
import Verif.Props.DevicePly
import Verif.Props.DeviceStl
import Verif.Props.DirectionField
import Verif.Props.DistFloat
import Verif.Props.Divide
import Verif.Props.DouglasPeucker
import Verif.Props.Editable
import Verif.Props.EulerSteps
import Verif.Props.Existing
import Verif.Props.Filter
import Verif.Props.FilterFloat
import Verif.Props.FloatText
import Verif.Props.Gcode
import Verif.Props.HalfEdge
import Verif.Props.Hull
import Verif.Props.HullAgree
import Verif.Props.HullGrid
import Verif.Props.IndexVec
import Verif.Props.InterpFloat
import Verif.Props.Interpolate
import Verif.Props.Iterators
import Verif.Props.Join
import Verif.Props.KdGrid
import Verif.Props.KdTree
import Verif.Props.KdTreeFloat
import Verif.Props.Las
import Verif.Props.Layout
import Verif.Props.LayoutWords
import Verif.Props.LineBox
import Verif.Props.LineFloat
import Verif.Props.Matrix
import Verif.Props.MatrixFloat
import Verif.Props.Mesh
import Verif.Props.MeshAlgo
import Verif.Props.MeshEdit
import Verif.Props.MidFloat
import Verif.Props.Monotone
import Verif.Props.Nd
import Verif.Props.NoPanic
import Verif.Props.NormalFloat
import Verif.Props.Obj
import Verif.Props.OcTree
import Verif.Props.OcTreeFloat
import Verif.Props.OcTreeKeep
import Verif.Props.Off
import Verif.Props.Order
import Verif.Props.Pause
import Verif.Props.Ply
import Verif.Props.PlyBody
import Verif.Props.PlyComments
import Verif.Props.PlyFile
import Verif.Props.PlyHeader
import Verif.Props.PlySound
import Verif.Props.PointCloud
import Verif.Props.PointOps
import Verif.Props.PointOrd
import Verif.Props.PointText
import Verif.Props.Positive
import Verif.Props.PowTwo
import Verif.Props.Psl
import Verif.Props.PslExact
import Verif.Props.Ptx
import Verif.Props.PtxExact
import Verif.Props.RangeFloat
import Verif.Props.RayFloat
import Verif.Props.RayTriangle
import Verif.Props.Release
import Verif.Props.Repeats
import Verif.Props.RotFloat
import Verif.Props.RotFloat3
import Verif.Props.Sat
import Verif.Props.SatAxes
import Verif.Props.SatFloat
import Verif.Props.ScaleFloat
import Verif.Props.SearchAgree
import Verif.Props.ShapeBB
import Verif.Props.ShapeBBFloat
import Verif.Props.ShapeOrd
import Verif.Props.Similar
import Verif.Props.SimilarGeo
import Verif.Props.SimilarMesh
import Verif.Props.SimplifyFloat
import Verif.Props.Stable
import Verif.Props.Stl
import Verif.Props.StlAscii
import Verif.Props.StlFile
import Verif.Props.StlUnique
import Verif.Props.Subdivide
import Verif.Props.SubdivideCount
import Verif.Props.SubdivideEuler
import Verif.Props.SubdivideSurface
import Verif.Props.SumFloat
import Verif.Props.SurfaceKept
import Verif.Props.Symmetry
import Verif.Props.Text
import Verif.Props.Truncated
import Verif.Props.TruncatedBytes
import Verif.Props.TruncatedPly
import Verif.Props.Twice
import Verif.Props.Undo
import Verif.Props.Unify
import Verif.Props.VectorFloat
import Verif.Props.VertexNormals
import Verif.Props.Within
import Verif.Props.Write
import Verif.Props.Xyz
