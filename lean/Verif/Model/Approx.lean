import Verif.Spec.Closeness
import Verif.Model.MatrixStore
import Verif.Model.Kahan
/-!
# Approximate equality

`approx_equal` and `approx_zero` of `/repo/include/muu/vector.h`, `matrix.h`, `quaternion.h` and of the shapes, for scalar types that are IEEE 754 formats
or, in one of two vectors, integers. `none` is an ill-formed program or undefined behaviour, as each definition says.
-/
namespace Verif.Model.Approx
open Verif.Spec.CInt Verif.Spec.IeeeArith Verif.Spec.FloatFormat Verif.Spec.Closeness Verif.Model.VectorStore Verif.Model.Kahan Verif.Model.FloatVector

deriving instance DecidableEq for Format

/-- A type of scalars. -/
inductive Scalar where
  | float (f : Format)
  | int (t : Ty)
  deriving DecidableEq

/-- impl::highest_ranked of two floating-point types, meta.h:589-663: `decltype(T{} + U{})`. -/
def higher (f g : Format) : Format := if f.p ≤ g.p then g else f

/-- std_math_common_type, meta.h:2120-2122: integers count as `double`. -/
def floated : Scalar → Format
  | .float f => f
  | .int _ => binary64

/-- epsilon_type, meta.h:2397-2399. -/
def epsilonType (a b : Scalar) : Format := higher (floated a) (floated b)

/-- promote_if_small_float, meta.h:2052-2072. -/
def promoteSmall (f : Format) : Format := if f.p ≤ 11 then binary32 else f

/-- impl::equality_check_type, impl/vector_types_common.h:14-18: signedness differs, or being a floating-point type, only if one is an integer.
    `none`: neither is a floating-point type, and there is no approx_equal (vector.h:942). -/
def equalityType : Scalar → Scalar → Option Format
  | .float f, .float g => some (higher f g)
  | .float f, .int _ => some (promoteSmall f)
  | .int _, .float g => some (promoteSmall g)
  | .int _, .int _ => none

/-- What approx_equal returns: `abs(b - a) < epsilon`, math.h:452-507; `half` is converted to `float`, half.h:1094-1097. -/
def near (f : Format) (eps a b : Number) : Bool :=
  less (Kahan.abs (Op.sub.eval (promoteSmall f) b a)) eps

/-- `MUU_ASSUME(epsilon >= 0)`, math.h:454-503. -/
def assumed (eps : Number) : Bool := atLeast eps (.fin false 0)

/-- approx_equal of vectors, vector.h:943-970 (and 978-1002). The assumption is the same for all components: it is taken at once. The conversions are
    value-preserving or round to nearest. `none`: no such function, or the assumption broken. -/
def equal (a b : Scalar) {n : ℕ} (eps : Number) (v1 v2 : Store Number n) : Option Bool :=
  if a = b then
    match a with
    | .float f => if assumed eps then some (all (near f eps) v1 v2) else none
    | .int _ => none
  else do
    let type ← equalityType a b
    if assumed (type.round eps) then some (all (fun x y => near type (type.round eps) (type.round x) (type.round y)) v1 v2) else none

/-- approx_zero of vectors, vector.h:1035-1053, with math.h:536-573 (and half.h:1104-1107): `approx_equal(x, 0, epsilon)`. -/
def zero (f : Format) {n : ℕ} (eps : Number) (v : Store Number n) : Option Bool :=
  if assumed eps then some (all (fun x (_ : Number) => near f eps x (.fin false 0)) v v) else none

/-- approx_equal of matrices, matrix.h:2232-2258: column by column, until two differ. -/
def matrixEqual (a b : Scalar) {R C : ℕ} (eps : Number) (m1 m2 : MatrixStore.Mat Number R C) : Option Bool :=
  (List.finRange C).foldlM (fun same i => if same then equal a b eps (m1 i) (m2 i) else some false) true

/-- approx_zero of matrices, matrix.h:2297-2304. -/
def matrixZero (f : Format) {R C : ℕ} (eps : Number) (m : MatrixStore.Mat Number R C) : Option Bool :=
  (List.finRange C).foldlM (fun same i => if same then zero f eps (m i) else some false) true

/-- `&&`: the second operand is not evaluated if the first is false. -/
def both (x : Option Bool) (y : Unit → Option Bool) : Option Bool := x.bind fun b => if b then y () else some false

/-- A quaternion, quaternion.h. -/
structure Quaternion where
  s : Number
  v : Store Number 3

/-- approx_equal of quaternions, quaternion.h:389-405 (and 411-427): the scalar part, and the vector part. -/
def quaternionEqual (f g : Format) (eps : Number) (q1 q2 : Quaternion) : Option Bool :=
  if f = g then both (if assumed eps then some (near f eps q1.s q2.s) else none) fun _ => equal (.float f) (.float g) eps q1.v q2.v
  else
    let type := higher f g
    both (if assumed (type.round eps) then some (near type (type.round eps) (type.round q1.s) (type.round q2.s)) else none) fun _ =>
      equal (.float f) (.float g) eps q1.v q2.v

/-- approx_zero of quaternions, quaternion.h:454-458. -/
def quaternionZero (f : Format) (eps : Number) (q : Quaternion) : Option Bool :=
  both (if assumed eps then some (near f eps q.s (.fin false 0)) else none) fun _ => zero f eps q.v

/-- approx_equal of line segments (line_segment.h:376-383), rays (ray.h:178-185) and bounding boxes (bounding_box.h:525-532), which have two vectors:
    points, origin and direction, center and extents. -/
def twoEqual (f g : Format) (eps : Number) (a1 b1 a2 b2 : Store Number 3) : Option Bool :=
  both (equal (.float f) (.float g) eps a1 a2) fun _ => equal (.float f) (.float g) eps b1 b2

/-- approx_equal of triangles, triangle.h:391-399. -/
def triangleEqual (f g : Format) (eps : Number) (p q : Fin 3 → Store Number 3) : Option Bool :=
  both (equal (.float f) (.float g) eps (p 0) (q 0)) fun _ =>
    both (equal (.float f) (.float g) eps (p 1) (q 1)) fun _ => equal (.float f) (.float g) eps (p 2) (q 2)

/-- approx_equal of oriented boxes, oriented_bounding_box.h:446-454. -/
def orientedEqual (f g : Format) (eps : Number) (c1 e1 : Store Number 3) (x1 : MatrixStore.Mat Number 3 3) (c2 e2 : Store Number 3)
    (x2 : MatrixStore.Mat Number 3 3) : Option Bool :=
  both (equal (.float f) (.float g) eps c1 c2) fun _ =>
    both (equal (.float f) (.float g) eps e1 e2) fun _ => matrixEqual (.float f) (.float g) eps x1 x2

/-- approx_zero of line segments (line_segment.h:397-402) and bounding boxes (bounding_box.h:546-550). -/
def twoZero (f : Format) (eps : Number) (a b : Store Number 3) : Option Bool := both (zero f eps a) fun _ => zero f eps b

/-- The standard floating-point types. -/
inductive Std where
  | float | double | longDouble
  deriving DecidableEq

/-- Their rank. -/
def Std.rank : Std → ℕ
  | .float => 0
  | .double => 1
  | .longDouble => 2

/-- How good an implicit conversion is, from the best: none, promotion of `float` to `double`, any other ([over.ics.scs]). -/
def conversion (source target : Std) : ℕ := if source = target then 0 else if (source, target) = (.float, .double) then 1 else 2

/-- Overload resolution ([over.match.best]) of `approx_equal(a, b, epsilon)` among the functions of math.h:452-480 that take three of one type: the one that
    is as good as any other for each argument, and better for one. (The template at 512 has two parameters.) `none`: the call is ambiguous. -/
def overload (args : List Std) : Option Std :=
  [Std.float, Std.double, Std.longDouble].find? fun best =>
    [Std.float, Std.double, Std.longDouble].all fun other => best == other ||
      (args.all fun a => decide (conversion a best ≤ conversion a other)) && args.any fun a => decide (conversion a best < conversion a other)

/-- The formats of the types; that of `long double` varies. -/
def Std.format (ext : Format) : Std → Format
  | .float => binary32
  | .double => binary64
  | .longDouble => ext

/-- A call `muu::approx_equal(x, y, epsilon)` where `x` is of type `s`, `y` of type `t` and `epsilon` of the higher one. `none`: ambiguous, or the
    assumption is broken. -/
def scalarCall (ext : Format) (s t : Std) (eps x y : Number) : Option Bool :=
  (overload [s, t, if s.rank ≤ t.rank then t else s]).bind fun best =>
    if assumed eps then some (near (best.format ext) eps x y) else none

/-- approx_equal of planes (plane.h:242-248) and bounding spheres (bounding_sphere.h:312-319), which have a vector and a scalar: normal and `d`, center
    and radius. -/
def vectorScalarEqual (ext : Format) (s t : Std) (eps : Number) (v1 : Store Number 3) (x1 : Number) (v2 : Store Number 3) (x2 : Number) : Option Bool :=
  (overload [s, t, if s.rank ≤ t.rank then t else s]).bind fun _ =>
    both (equal (.float (s.format ext)) (.float (t.format ext)) eps v1 v2) fun _ => scalarCall ext s t eps x1 x2

/-- approx_zero of planes, plane.h:262-266. -/
def planeZero (f : Format) (eps : Number) (normal : Store Number 3) (d : Number) : Option Bool :=
  both (zero f eps normal) fun _ => if assumed eps then some (near f eps d (.fin false 0)) else none

/-- Whether a scalar converts to a vector implicitly: the constructor is explicit, vector.h:393. -/
def scalarConvertsToVector : Bool := false

/-- approx_zero of bounding spheres, bounding_sphere.h:333-337: `vector_type::approx_zero(bs.radius, epsilon)`. `none`: it does not compile. -/
def sphereZero (f : Format) (eps : Number) (center : Store Number 3) (radius : Number) : Option Bool :=
  if scalarConvertsToVector then both (zero f eps center) fun _ => zero f eps (.three radius radius radius) else none

end Verif.Model.Approx
