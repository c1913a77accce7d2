import Verif.Props.Utf
import Verif.Props.Unicode
import Verif.Props.Strings
import Verif.Props.Bits
import Verif.Props.Hashing
import Verif.Spec.Uuid
import Verif.Model.Uuid
import Verif.Proofs.Uuid
import Verif.Props.Uuid
import Verif.Props.UuidValue
import Verif.Spec.ThreadPool
import Verif.Model.ThreadPool
import Verif.Proofs.PoolQueue
import Verif.Proofs.PoolQueueAny
import Verif.Proofs.PoolSimp
import Verif.Proofs.PoolInv
import Verif.Proofs.PoolInv2
import Verif.Proofs.PoolInv3
import Verif.Proofs.PoolInv4
import Verif.Proofs.PoolInv5
import Verif.Proofs.PoolInv6
import Verif.Props.ThreadPool
import Verif.Proofs.PoolLive
import Verif.Proofs.PoolQuiet
import Verif.Props.ThreadPoolProgress
import Verif.Spec.ForEach
import Verif.Model.ForEach
import Verif.Proofs.ForEach
import Verif.Props.ForEach
import Verif.Spec.PoolSizing
import Verif.Model.PoolSizing
import Verif.Proofs.PoolSizing
import Verif.Props.PoolSizing
import Verif.Model.SpinMutex
import Verif.Proofs.SpinMutex
import Verif.Props.SpinMutex
import Verif.Spec.CInt
import Verif.Model.CInt
import Verif.Proofs.CInt
import Verif.Spec.Blob
import Verif.Model.Blob
import Verif.Proofs.Blob
import Verif.Props.Blob
import Verif.Spec.Emplace
import Verif.Model.Emplace
import Verif.Proofs.Emplace
import Verif.Props.Emplace
import Verif.Spec.CoreUtils
import Verif.Model.CoreUtils
import Verif.Proofs.CoreUtils
import Verif.Props.CoreUtils
import Verif.Model.Accumulator
import Verif.Proofs.Accumulator
import Verif.Props.Accumulator
import Verif.Spec.IntegralRange
import Verif.Model.IntegralRange
import Verif.Props.IntegralRange
import Verif.Spec.Span
import Verif.Model.Span
import Verif.Proofs.Span
import Verif.Props.Span
import Verif.Model.StaticArray
import Verif.Props.StaticArray
import Verif.Spec.FixedString
import Verif.Model.FixedString
import Verif.Proofs.FixedString
import Verif.Props.FixedString
import Verif.Spec.TaggedPtr
import Verif.Model.TaggedPtr
import Verif.Proofs.TaggedPtr
import Verif.Props.TaggedPtr
import Verif.Spec.Half
import Verif.Model.Half
import Verif.Proofs.Half
import Verif.Props.Half
import Verif.Spec.ScopeGuard
import Verif.Model.ScopeGuard
import Verif.Proofs.ScopeGuard
import Verif.Props.ScopeGuard
import Verif.Spec.Native
import Verif.Proofs.Strings2
import Verif.Props.Strings2
import Verif.Spec.StringParam
import Verif.Model.StringParam
import Verif.Proofs.StringParam
import Verif.Props.StringParam
import Verif.Spec.Float
import Verif.Spec.Rotation
import Verif.Proofs.Float
import Verif.Model.PackedUnit
import Verif.Proofs.PackedUnit
import Verif.Props.PackedUnit
import Verif.Model.Matrix
import Verif.Proofs.Matrix
import Verif.Props.Matrix
import Verif.Model.Vector
import Verif.Proofs.Vector
import Verif.Props.Vector
import Verif.Model.Transform
import Verif.Proofs.Transform
import Verif.Props.Transform
import Verif.Model.Quat
import Verif.Proofs.Quat
import Verif.Props.Quat
import Verif.Props.QuatInterp
import Verif.Spec.Geometry
import Verif.Model.Geometry
import Verif.Proofs.Geometry
import Verif.Props.Geometry
import Verif.Spec.Boxes
import Verif.Model.Boxes
import Verif.Proofs.Boxes
import Verif.Props.Boxes
import Verif.Proofs.BoxTri
import Verif.Model.Sphere
import Verif.Proofs.Sphere
import Verif.Props.Sphere
import Verif.Model.Obb
import Verif.Proofs.Obb
import Verif.Props.Obb
import Verif.Model.Ray
import Verif.Proofs.Ray
import Verif.Props.Ray
import Verif.Spec.TypeList
import Verif.Model.TypeList
import Verif.Proofs.TypeList
import Verif.Props.TypeList
import Verif.Model.FunctionView
import Verif.Proofs.FunctionView
import Verif.Props.FunctionView
import Verif.Spec.Sequences
import Verif.Model.Sequences
import Verif.Proofs.Sequences
import Verif.Props.Sequences
import Verif.Model.ConstMath
import Verif.Props.ConstMath
import Verif.Model.Scalar
import Verif.Proofs.Scalar
import Verif.Props.Scalar
import Verif.Spec.Constants
import Verif.Model.Constants
import Verif.Proofs.Constants
import Verif.Props.Constants
import Verif.Model.HalfArith
import Verif.Proofs.HalfArith
import Verif.Props.HalfArith
import Verif.Model.TriTri
import Verif.Proofs.TriTri
import Verif.Props.TriTri
import Verif.Model.Testers
import Verif.Props.Testers
import Verif.Model.PointerCast
import Verif.Proofs.PointerCast
import Verif.Props.PointerCast
import Verif.Spec.Printing
import Verif.Model.Printing
import Verif.Proofs.Printing
import Verif.Props.Printing
import Verif.Model.VectorStore
import Verif.Proofs.VectorStore
import Verif.Props.VectorStore
import Verif.Model.VectorEq
import Verif.Proofs.VectorEq
import Verif.Props.VectorEq
import Verif.Model.IntVector
import Verif.Proofs.IntVector
import Verif.Props.IntVector
import Verif.Spec.TypeName
import Verif.Model.TypeName
import Verif.Proofs.TypeName
import Verif.Props.TypeName
import Verif.Model.HalfEmulated
import Verif.Proofs.HalfEmulated
import Verif.Props.HalfEmulated
import Verif.Spec.Flags
import Verif.Model.Flags
import Verif.Proofs.Flags
import Verif.Props.Flags
import Verif.Model.MatrixStore
import Verif.Proofs.MatrixStore
import Verif.Props.MatrixStore
import Verif.Model.IntMatrix
import Verif.Proofs.IntMatrix
import Verif.Props.IntMatrix
import Verif.Spec.Shear
import Verif.Model.Shear
import Verif.Proofs.Shear
import Verif.Props.Shear
import Verif.Model.PoolLifetime
import Verif.Proofs.PoolLifetime
import Verif.Props.PoolLifetime
import Verif.Model.FloatVector
import Verif.Proofs.FloatVector
import Verif.Props.FloatVector
import Verif.Model.Kahan
import Verif.Proofs.Kahan
import Verif.Props.Kahan
import Verif.Props.HashText
import Verif.Spec.FloatSqrt
import Verif.Model.FloatLength
import Verif.Proofs.FloatLength
import Verif.Props.FloatLength
import Verif.Model.Approx
import Verif.Proofs.Approx
import Verif.Props.Angles
import Verif.Props.Approx
import Verif.Model.Swizzle
import Verif.Props.Swizzle
import Verif.Props.FloatCross
import Verif.Props.FloatMatrix
import Verif.Model.FloatQuat
import Verif.Props.FloatQuat
import Verif.Model.FloatDet
import Verif.Proofs.FloatDet
import Verif.Props.FloatDet
import Verif.Model.Bits
import Verif.Model.Chars
import Verif.Model.CodePointProg
import Verif.Model.FloatProducts
import Verif.Model.Hashing
import Verif.Model.Strings
import Verif.Model.Unicode
import Verif.Model.UnicodeChar16
import Verif.Model.UnicodeChar32
import Verif.Model.UnicodeChar8
import Verif.Model.Utf16Decoder
import Verif.Model.Utf8Decoder
import Verif.Model.UtfDecode
import Verif.Proofs.Bits
import Verif.Proofs.Bits2
import Verif.Proofs.CodePointProg
import Verif.Proofs.ConstAsin
import Verif.Proofs.ConstInverse
import Verif.Proofs.ConstSqrt
import Verif.Proofs.ConstTan
import Verif.Proofs.ConstTrig
import Verif.Proofs.Endian
import Verif.Proofs.FloatError
import Verif.Proofs.FloatProducts
import Verif.Proofs.Sha1
import Verif.Proofs.Strings
import Verif.Proofs.TriTri2D
import Verif.Proofs.Unicode
import Verif.Proofs.UnicodeCert.Char16
import Verif.Proofs.UnicodeCert.Char32
import Verif.Proofs.UnicodeCert.Char8
import Verif.Proofs.Utf8
import Verif.Proofs.UtfDecode
import Verif.Proofs.UtfDecode2
import Verif.Proofs.UtfDecode3
import Verif.Proofs.Util
import Verif.Spec.Bits
import Verif.Spec.Closeness
import Verif.Spec.Determinants
import Verif.Spec.FloatFormat
import Verif.Spec.Fnv
import Verif.Spec.Ieee
import Verif.Spec.IeeeArith
import Verif.Spec.LeastGreatest
import Verif.Spec.Parts
import Verif.Spec.Pointers
import Verif.Spec.Quaternions
import Verif.Spec.Rays
import Verif.Spec.Representable
import Verif.Spec.Sha1
import Verif.Spec.SmallFloat
import Verif.Spec.Triangles
import Verif.Spec.Trim
import Verif.Spec.Ucd
import Verif.Spec.Unicode
import Verif.Model.PackedFloat
import Verif.Proofs.PackedFloat
import Verif.Props.PackedFloat
import Verif.Model.PointerRange
import Verif.Props.PointerRange
import Verif.Proofs.PoolOrder
import Verif.Props.PoolOrder
import Verif.Model.TaskStorage
import Verif.Props.TaskStorage
import Verif.Model.HalfConvert
import Verif.Props.HalfConvert
import Verif.Model.Literals
import Verif.Props.Literals
import Verif.Model.StrongTypedef
import Verif.Props.StrongTypedef
import Verif.Model.CompressedPair
import Verif.Props.CompressedPair
import Verif.Model.Iterators
import Verif.Props.Iterators
import Verif.Model.FloatBox
import Verif.Proofs.FloatBox
import Verif.Props.FloatBox
import Verif.Model.Meta
import Verif.Proofs.Meta
import Verif.Props.Meta
import Verif.Proofs.MetaNumbers
import Verif.Props.MetaNumbers
import Verif.Props.MetaPointers
import Verif.Model.ThreadName
import Verif.Proofs.ThreadName
import Verif.Props.ThreadName
import Verif.Model.SourceLocation
import Verif.Proofs.SourceLocation
import Verif.Props.SourceLocation
import Verif.Model.BitCast
import Verif.Proofs.BitCast
import Verif.Props.BitCast
import Verif.Model.FloatSphere
import Verif.Proofs.FloatSphere
import Verif.Props.FloatSphere
import Verif.Model.Macros
import Verif.Props.Macros
import Verif.Model.PoolFair
import Verif.Proofs.PoolFair
import Verif.Props.PoolFair
import Verif.Spec.StringLifetime
import Verif.Model.StringLifetime
import Verif.Proofs.StringLifetime
import Verif.Props.StringLifetime
import Verif.Spec.BlobFail
import Verif.Model.BlobFail
import Verif.Proofs.BlobFail
import Verif.Props.BlobFail
import Verif.Spec.EmplaceFail
import Verif.Model.EmplaceFail
import Verif.Proofs.EmplaceFail
import Verif.Props.EmplaceFail
import Verif.Spec.BuildDate
import Verif.Model.BuildDate
import Verif.Proofs.BuildDate
import Verif.Props.BuildDate
import Verif.Model.FloatPlane
import Verif.Proofs.FloatPlane
import Verif.Props.FloatPlane
import Verif.Model.FloatRay
import Verif.Proofs.FloatRay
import Verif.Props.FloatRay
import Verif.Model.FloatTriangle
import Verif.Proofs.FloatTriangle
import Verif.Props.FloatTriangle
import Verif.Spec.TriangleRounding
import Verif.Model.FloatSegment
import Verif.Proofs.FloatSegment
import Verif.Props.FloatSegment
import Verif.Model.FloatRotation
import Verif.Proofs.FloatRotation
import Verif.Props.FloatRotation
import Verif.Model.FloatWeights
import Verif.Proofs.FloatWeights
import Verif.Props.FloatWeights
import Verif.Model.FloatNormal
import Verif.Proofs.FloatNormal
import Verif.Props.FloatNormal
import Verif.Model.FloatSpheres
import Verif.Proofs.FloatSpheres
import Verif.Props.FloatSpheres
import Verif.Model.FloatObb
import Verif.Proofs.FloatObb
import Verif.Props.FloatObb
import Verif.Model.FloatObbs
import Verif.Proofs.FloatObbs
import Verif.Props.FloatObbs
import Verif.Spec.Limits
import Verif.Model.Limits
import Verif.Proofs.Limits
import Verif.Props.Limits
