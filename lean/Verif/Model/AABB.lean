import Verif.Model.Vector

/-!
# Boxes, rays and triangles

Models `queso/embedding/aabb_primitive.h/.cpp`, `queso/embedding/ray_aabb_primitive.h/.cpp` and the class
`AABB_base` of `external_libraries/aabb_tree/AABB_base.cc` over an exact ordered field `K` (no rounding).
The infinities and the not-a-number that arise when a direction component is zero are modelled (`Ext`).
-/
namespace QuESo.AABB
variable {K : Type _} [Field K] [LinearOrder K]

/-- Constructor of a box, AABB_base.cc L49-70 and aabb_primitive.h L48-53; `none`: an error is thrown, because
a lower bound is greater than the upper bound. -/
def mk? (lower upper : V3 K) : Option (Box K) :=
  if lower.x > upper.x then none
  else if lower.y > upper.y then none
  else if lower.z > upper.z then none
  else some ⟨lower, upper⟩

/-- `AABB_base::computeSurfaceArea`, AABB_base.cc L72-98.  The stored value `surfaceArea` is this one: every
place that writes bounds recomputes it (L68, L119, L433). -/
def surfaceArea (b : Box K) : K :=
  let dx := b.upper.x - b.lower.x
  let dy := b.upper.y - b.lower.y
  let dz := b.upper.z - b.lower.z
  2 * (dy * dz + dx * dz + dx * dy)

/-- `AABB_base::merge`, AABB_base.cc L105-121. -/
def merge (a b : Box K) : Box K :=
  ⟨⟨min a.lower.x b.lower.x, min a.lower.y b.lower.y, min a.lower.z b.lower.z⟩,
   ⟨max a.upper.x b.upper.x, max a.upper.y b.upper.y, max a.upper.z b.upper.z⟩⟩

/-- `AABB_base::computeCentre`, AABB_base.cc L168-176. -/
def centre (b : Box K) : V3 K :=
  ⟨1 / 2 * (b.lower.x + b.upper.x), 1 / 2 * (b.lower.y + b.upper.y), 1 / 2 * (b.lower.z + b.upper.z)⟩

/-- `AABB_primitive::intersect` with a box, aabb_primitive.cpp L20-27; `a` is the object, `b` the argument. -/
def intersectBox (a b : Box K) : Bool :=
  if b.upper.x < a.lower.x ∨ b.lower.x > a.upper.x then false
  else if b.upper.y < a.lower.y ∨ b.lower.y > a.upper.y then false
  else if b.upper.z < a.lower.z ∨ b.lower.z > a.upper.z then false
  else true

/-- `AABB_primitive::check_axis`, aabb_primitive.cpp L136-165. -/
def checkAxis (u0 u1 u2 v0 v1 v2 extent axis : V3 K) : Bool :=
  let pv0 := v0.x * axis.x + v0.y * axis.y + v0.z * axis.z
  let pv1 := v1.x * axis.x + v1.y * axis.y + v1.z * axis.z
  let pv2 := v2.x * axis.x + v2.y * axis.y + v2.z * axis.z
  let pu0 := u0.x * axis.x + u0.y * axis.y + u0.z * axis.z
  let pu1 := u1.x * axis.x + u1.y * axis.y + u1.z * axis.z
  let pu2 := u2.x * axis.x + u2.y * axis.y + u2.z * axis.z
  let r := extent.x * |pu0| + extent.y * |pu1| + extent.z * |pu2|
  if max (-(max (max pv0 pv1) pv2)) (min (min pv0 pv1) pv2) > r then false else true

/-- The thirteen axes in the order of the code, aabb_primitive.cpp L42-129. -/
def axes (v0 v1 v2 : V3 K) : List (V3 K) :=
  let f0 := v1 - v0
  let f1 := v2 - v1
  let f2 := v0 - v2
  let u0 : V3 K := ⟨1, 0, 0⟩
  let u1 : V3 K := ⟨0, 1, 0⟩
  let u2 : V3 K := ⟨0, 0, 1⟩
  [⟨u0.y * f0.z - u0.z * f0.y, u0.z * f0.x - u0.x * f0.z, u0.x * f0.y - u0.y * f0.x⟩,
   ⟨u0.y * f1.z - u0.z * f1.y, u0.z * f1.x - u0.x * f1.z, u0.x * f1.y - u0.y * f1.x⟩,
   ⟨u0.y * f2.z - u0.z * f2.y, u0.z * f2.x - u0.x * f2.z, u0.x * f2.y - u0.y * f2.x⟩,
   ⟨u1.y * f0.z - u1.z * f0.y, u1.z * f0.x - u1.x * f0.z, u1.x * f0.y - u1.y * f0.x⟩,
   ⟨u1.y * f1.z - u1.z * f1.y, u1.z * f1.x - u1.x * f1.z, u1.x * f1.y - u1.y * f1.x⟩,
   ⟨u1.y * f2.z - u1.z * f2.y, u1.z * f2.x - u1.x * f2.z, u1.x * f2.y - u1.y * f2.x⟩,
   ⟨u2.y * f0.z - u2.z * f0.y, u2.z * f0.x - u2.x * f0.z, u2.x * f0.y - u2.y * f0.x⟩,
   ⟨u2.y * f1.z - u2.z * f1.y, u2.z * f1.x - u2.x * f1.z, u2.x * f1.y - u2.y * f1.x⟩,
   ⟨u2.y * f2.z - u2.z * f2.y, u2.z * f2.x - u2.x * f2.z, u2.x * f2.y - u2.y * f2.x⟩,
   u0, u1, u2,
   ⟨f0.y * f1.z - f0.z * f1.y, f0.z * f1.x - f0.x * f1.z, f0.x * f1.y - f0.y * f1.x⟩]

/-- `AABB_primitive::intersect` with a triangle, aabb_primitive.cpp L29-133.  The thirteen tests with early
return are one `all`. -/
def intersectTri (b : Box K) (v0 v1 v2 : V3 K) (tolerance : K) : Bool :=
  let extent : V3 K := ⟨(b.upper.x - b.lower.x) / 2 - tolerance, (b.upper.y - b.lower.y) / 2 - tolerance,
    (b.upper.z - b.lower.z) / 2 - tolerance⟩
  let w0 := v0 - centre b
  let w1 := v1 - centre b
  let w2 := v2 - centre b
  (axes v0 v1 v2).all fun axis => checkAxis ⟨1, 0, 0⟩ ⟨0, 1, 0⟩ ⟨0, 0, 1⟩ w0 w1 w2 extent axis

/-! ## Rays -/

/-- A `double` as it arises in the ray-box test: a number, an infinity or not-a-number. -/
inductive Ext (K : Type _)
  | fin (a : K)
  | pinf
  | ninf
  | nan
  deriving DecidableEq

/-- The product of a number and a `double` (IEEE 754 rules: `0 * inf` is not a number). -/
def Ext.mul (a : K) : Ext K → Ext K
  | .fin b => .fin (a * b)
  | .pinf => if a = 0 then .nan else if 0 < a then .pinf else .ninf
  | .ninf => if a = 0 then .nan else if 0 < a then .ninf else .pinf
  | .nan => .nan

/-- `a < b` for `double`: comparisons with not-a-number are false. -/
def Ext.lt : Ext K → Ext K → Bool
  | .fin a, .fin b => decide (a < b)
  | .fin _, .pinf => true
  | .ninf, .fin _ => true
  | .ninf, .pinf => true
  | _, _ => false

/-- `std::max(a, b)`: `(a < b) ? b : a`. -/
def Ext.max (a b : Ext K) : Ext K := if a.lt b then b else a

/-- `std::min(a, b)`: `(b < a) ? b : a`. -/
def Ext.min (a b : Ext K) : Ext K := if b.lt a then b else a

/-- `Ray_AABB_primitive`, ray_aabb_primitive.h L31-115.  `minusZero` says for each component whether a zero
there is the negative zero of IEEE 754. -/
structure Ray (K : Type _) where
  origin : V3 K
  direction : V3 K
  minusZero : V3 Bool

/-- `1.0 / d`, ray_aabb_primitive.h L47-49. -/
def inv (d : K) (minusZero : Bool) : Ext K :=
  if d = 0 then (if minusZero then .ninf else .pinf) else .fin (1 / d)

/-- `mInvDirection`, ray_aabb_primitive.h L47-49. -/
def Ray.invDirection (r : Ray K) : V3 (Ext K) :=
  ⟨inv r.direction.x r.minusZero.x, inv r.direction.y r.minusZero.y, inv r.direction.z r.minusZero.z⟩

/-- `mPositiveDir`, ray_aabb_primitive.h L51-53. -/
def Ray.positiveDir (r : Ray K) : Bool :=
  if r.direction.x ≤ 0 ∨ r.direction.y ≤ 0 ∨ r.direction.z ≤ 0 then false else true

/-- `mSign`, ray_aabb_primitive.h L54-56. -/
def Ray.sign (r : Ray K) : V3 Bool :=
  ⟨r.invDirection.x.lt (.fin 0), r.invDirection.y.lt (.fin 0), r.invDirection.z.lt (.fin 0)⟩

/-- The origin lies in the box, ray_aabb_primitive.cpp L65-72 and L130-137. -/
def Ray.originInside (r : Ray K) (b : Box K) : Bool :=
  decide (r.origin.x ≥ b.lower.x) && decide (r.origin.y ≥ b.lower.y) && decide (r.origin.z ≥ b.lower.z) &&
    decide (r.origin.x ≤ b.upper.x) && decide (r.origin.y ≤ b.upper.y) && decide (r.origin.z ≤ b.upper.z)

/-- `intersect_positive_ray`, ray_aabb_primitive.cpp L45-107. -/
def Ray.intersectPositive (r : Ray K) (b : Box K) : Bool :=
  if r.originInside b then true
  else
    let tmin := Ext.mul (b.lower.x - r.origin.x) r.invDirection.x
    let tymax := Ext.mul (b.upper.y - r.origin.y) r.invDirection.y
    if tymax.lt tmin then false
    else
      let tmax := Ext.mul (b.upper.x - r.origin.x) r.invDirection.x
      let tymin := Ext.mul (b.lower.y - r.origin.y) r.invDirection.y
      if tmax.lt tymin then false
      else
        let tmin := tmin.max tymin
        let tmax := tmax.min tymax
        let tzmin := Ext.mul (b.lower.z - r.origin.z) r.invDirection.z
        if tmax.lt tzmin then false
        else
          let tzmax := Ext.mul (b.upper.z - r.origin.z) r.invDirection.z
          if tzmax.lt tmin then false
          else
            let tmin := if tmin.lt tzmin then tzmin else tmin
            if tmin.lt (.fin 0) then false else true

/-- `bounds[mSign[i]][i]` and `bounds[1-mSign[i]][i]`, ray_aabb_primitive.cpp L112-126. -/
def pick (sign : Bool) (lower upper : K) : K := if sign then upper else lower

/-- `intersect_general`, ray_aabb_primitive.cpp L109-172. -/
def Ray.intersectGeneral (r : Ray K) (b : Box K) : Bool :=
  let lower0 := pick r.sign.x b.lower.x b.upper.x
  let lower1 := pick r.sign.y b.lower.y b.upper.y
  let upper0 := pick (!r.sign.x) b.lower.x b.upper.x
  let upper1 := pick (!r.sign.y) b.lower.y b.upper.y
  let lower2 := pick r.sign.z b.lower.z b.upper.z
  let upper2 := pick (!r.sign.z) b.lower.z b.upper.z
  if r.originInside b then true
  else
    let tmin := Ext.mul (lower0 - r.origin.x) r.invDirection.x
    let tymax := Ext.mul (upper1 - r.origin.y) r.invDirection.y
    if tymax.lt tmin then false
    else
      let tmax := Ext.mul (upper0 - r.origin.x) r.invDirection.x
      let tymin := Ext.mul (lower1 - r.origin.y) r.invDirection.y
      if tmax.lt tymin then false
      else
        let tmin := tmin.max tymin
        let tmax := tmax.min tymax
        let tzmin := Ext.mul (lower2 - r.origin.z) r.invDirection.z
        if tmax.lt tzmin then false
        else
          let tzmax := Ext.mul (upper2 - r.origin.z) r.invDirection.z
          if tzmax.lt tmin then false
          else
            let tmin := if tmin.lt tzmin then tzmin else tmin
            if tmin.lt (.fin 0) then false else true

/-- `Ray_AABB_primitive::intersect` with a box, ray_aabb_primitive.cpp L33-43. -/
def Ray.intersectBox (r : Ray K) (b : Box K) : Bool :=
  if r.positiveDir then r.intersectPositive b else r.intersectGeneral b

/-- What the ray-triangle test leaves: the returned value, the output parameters (`none`: the variable of the
caller has not been written) and the two flags. -/
structure TriHit (K : Type _) where
  ret : Bool
  t : Option K
  u : Option K
  v : Option K
  backFacing : Bool
  parallel : Bool
  deriving DecidableEq

/-- `Ray_AABB_primitive::intersect` with a triangle, ray_aabb_primitive.cpp L174-230.  `zt` is `ZEROTOL`. -/
def Ray.intersectTri (zt : K) (r : Ray K) (v0 v1 v2 : V3 K) : TriHit K :=
  let v0v1 := v1 - v0
  let v0v2 := v2 - v0
  let pvec := V3.cross r.direction v0v2
  let det := V3.dot v0v1 pvec
  if |det| < 10 * zt then ⟨true, none, none, none, false, true⟩
  else
    let backFacing := decide (det < zt)
    let invDet := 1 / det
    let tvec := r.origin - v0
    let u := V3.dot tvec pvec * invDet
    if u < -zt ∨ u > 1 + zt then ⟨false, none, some u, none, backFacing, false⟩
    else
      let qvec := V3.cross tvec v0v1
      let v := V3.dot r.direction qvec * invDet
      if v < -zt ∨ u + v > 1 + zt then ⟨false, none, some u, some v, backFacing, false⟩
      else
        let t := V3.dot v0v2 qvec * invDet
        if t < -zt then ⟨false, some t, some u, some v, backFacing, false⟩
        else ⟨true, some t, some u, some v, backFacing, false⟩

/-- `is_parallel`, ray_aabb_primitive.cpp L232-248. -/
def Ray.isParallel (r : Ray K) (v0 v1 v2 : V3 K) (tolerance : K) : Bool :=
  let v0v1 := v1 - v0
  let v0v2 := v2 - v0
  let pvec := V3.cross r.direction v0v2
  let det := V3.dot v0v1 pvec
  if |det| < tolerance then true else false

end QuESo.AABB
