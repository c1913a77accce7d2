import Verif.Model.FloatRay
import Verif.Model.CoreUtils
/-!
# Line segments of floating-point numbers

`/repo/include/muu/line_segment.h` and `impl/geometry_common.h:164-262` for `float` and `double` (and any type that is an IEEE 754 format and not promoted), each language
operation rounded once. The arguments of type `Store Bool 3` are the products that the compiler contracts with additions.
-/
namespace Verif.Model.FloatSegment
open Verif.Spec.IeeeArith Verif.Spec.FloatFormat Verif.Spec.FloatSqrt Verif.Model.VectorStore Verif.Model.FloatVector

/-- midpoint, line_segment.h:238-254 (the branch at 245-246). -/
def midpoint (f : Format) (p0 p1 : Store Number 3) : Option (Store Number 3) := do
  divide f (← binary .add f p0 p1) (.fin false 2)

/-- length, line_segment.h:270-282. -/
def length (f : Format) (k : Store Bool 3) (p0 p1 : Store Number 3) : Option Number := FloatLength.distance f k p0 p1

/-- direction with the distance, vector.h:2212-2228 (the branch at 2224-2227), with normalize (vector.h:2018-2023); direction of segments, line_segment.h:206-222. -/
def direction (f : Format) (k : Store Bool 3) (p0 p1 : Store Number 3) : Option (Store Number 3 × Number) := do
  let v ← binary .sub f p1 p0
  let len ← FloatLength.length f k v
  let out ← scale f v (reciprocal f len)
  some (out, len)

/-- lines_common::project_distance, geometry_common.h:173-179. -/
def projectDistance (f : Format) (k : Store Bool 3) (origin dir point : Store Number 3) : Option Number := do
  dot f k (← binary .sub f point origin) dir

/-- line_segments_common::closest_point, geometry_common.h:236-244; closest_point, line_segment.h:418-431. The sum with the scaled direction has the form of
FloatRay.at. -/
def closestPoint (f : Format) (k k' c : Store Bool 3) (p0 p1 point : Store Number 3) : Option (Store Number 3) := do
  let (dir, len) ← direction f k p0 p1
  let t ← projectDistance f k' p0 dir point
  FloatRay.at f c ⟨p0, dir⟩ (CoreUtils.clamp (fun a b => Kahan.less a b) t FloatRay.zero len)

/-- line_segments_common::distance_squared, geometry_common.h:246-252. -/
def distanceSquared (f : Format) (k k' k'' c : Store Bool 3) (p0 p1 point : Store Number 3) : Option Number := do
  FloatLength.distanceSquared f k'' point (← closestPoint f k k' c p0 p1 point)

/-- line_segments_common::contains_point, geometry_common.h:254-261; contains, line_segment.h:464-489. -/
def contains (f : Format) (k k' k'' c : Store Bool 3) (p0 p1 point : Store Number 3) (epsilon : Number) : Option Bool := do
  some (Kahan.less (← distanceSquared f k k' k'' c p0 p1 point) epsilon)

/-- extend, line_segment.h:620-634: the new end; the start stays. -/
def extend (f : Format) (k c : Store Bool 3) (p0 p1 : Store Number 3) (by' : Number) : Option (Store Number 3 × Store Number 3) := do
  let (dir, len) ← direction f k p0 p1
  let e ← FloatRay.at f c ⟨p0, dir⟩ (Op.add.eval f len by')
  some (p0, e)

/-- reverse, line_segment.h:642-653. -/
def reverse (s : Store Number 3 × Store Number 3) : Store Number 3 × Store Number 3 := (s.2, s.1)

end Verif.Model.FloatSegment
