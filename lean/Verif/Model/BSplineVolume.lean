import Verif.Model.Mapping
import Mathlib.Algebra.Order.Floor.Ring

/-!
# The B-spline volume and the mapping functions of the python interface

Models `queso/python/scripts/b_spline_volume.py`, `queso/python/scripts/helper.py` and `GetIntegrationPoints` of
`queso/python/PyQuESo.py` over an exact ordered field.  `none` is an exception.

The functions of numpy and scipy are modelled after their documentation: `np.arange`, the checks of the constructor of
`scipy.interpolate.BSpline`, and `scipy.interpolate.insert` with the algorithm of FITPACK (subroutine `fpinst`).
-/
namespace QuESo.BSpline
variable {K : Type _} [Field K] [LinearOrder K]

/-- `np.arange(start, stop, step)`. -/
def arange [IsStrictOrderedRing K] [FloorRing K] (start stop step : K) : Option (List K) :=
  if step = 0 then none else some ((List.range ⌈(stop - start) / step⌉₊).map fun (i : Nat) => start + (i : K) * step)

/-- `scipy.interpolate.BSpline`: knots, coefficients and degree. -/
structure Spline (K : Type _) where
  t : List K
  c : List K
  k : Nat

/-- Constructor of `scipy.interpolate.BSpline` with its checks: number of knots, order of knots, two different knots in the
domain, number of coefficients. -/
def mkSpline (t c : List K) (k : Nat) : Option (Spline K) :=
  let n := t.length - k - 1
  if t.length < 2 * k + 2 then none
  else if ¬ t.Pairwise (· ≤ ·) then none
  else if t.getD k 0 = t.getD n 0 then none
  else if c.length < n then none
  else some ⟨t, c, k⟩

/-- The interval of `fpinst` in which a knot is inserted: the last `l` with `k ≤ l < n` and `t[l] ≤ x`. -/
def interval (t : List K) (k : Nat) (x : K) : Nat :=
  k + (((t.drop (k + 1)).take (t.length - 2 * k - 2)).takeWhile fun y => y ≤ x).length

/-- Coefficient `i` after the insertion of a knot, `fpinst` of FITPACK. -/
def newCoeff (t c : List K) (k l : Nat) (x : K) (i : Nat) : K :=
  if i + k ≤ l then c.getD i 0
  else if i ≤ l then
    let fac := (x - t.getD i 0) / (t.getD (i + k) 0 - t.getD i 0)
    fac * c.getD i 0 + (1 - fac) * c.getD (i - 1) 0
  else c.getD (i - 1) 0

/-- `scipy.interpolate.insert(x, spline)`.  The returned array of coefficients is longer than needed; `junk` are the values at its
end, which are not specified. -/
def insert (junk : Spline K → List K) (x : K) (s : Spline K) : Option (Spline K) :=
  let n := s.t.length - s.k - 1
  if x < s.t.getD s.k 0 ∨ s.t.getD n 0 < x then none
  else
    let l := interval s.t s.k x
    mkSpline (s.t.take (l + 1) ++ x :: s.t.drop (l + 1))
      ((List.range (n + 1)).map (newCoeff s.t s.c s.k l x) ++ junk s) s.k

/-- The knots at the two ends, b_spline_volume.py L199-204. -/
def endKnots (p : Nat) (lu uu du : K) (isOpen : Bool) : List K :=
  if isOpen then List.replicate (p + 1) lu ++ List.replicate (p + 1) uu
  else ((List.range (p + 1)).map fun (i : Nat) => lu - ((p : K) - (i : K)) * du) ++ (List.range (p + 1)).map fun (i : Nat) => uu + (i : K) * du

/-- The correction of the coefficients for knots that are not open, b_spline_volume.py L210-211. -/
def correct (p ne : Nat) (center : K) (isOpen : Bool) (cps : List K) : List K :=
  if isOpen then cps else cps.map fun v => v - ((p : K) - 1) * (center - v) / ne

variable [IsStrictOrderedRing K] [FloorRing K]

/-- `_construct_b_spline`, b_spline_volume.py L174-224. -/
def construct (junk : Spline K → List K) (p ne : Nat) (lx ux lu uu : K) (isOpen : Bool) : Option (Spline K) :=
  if ne = 0 then none  -- ZeroDivisionError, L197
  else
    let du := (uu - lu) / ne
    let t := endKnots p lu uu du isOpen
    if p = 0 then none  -- ZeroDivisionError, L206
    else
      let dx := (ux - lx) / p
      let center := (ux + lx) / 2
      (arange lx (ux + 1 / 2 * dx) dx).bind fun cps =>
        (mkSpline t (correct p ne center isOpen cps) p).bind fun s =>
          (arange (lu + du) (uu - 1 / 2 * du) du).bind fun knots =>
            (knots.foldlM (fun s x => insert junk x s) s).map fun s =>
              { s with c := s.c.take (s.t.length - p - 1) }

/-- The settings of the background grid that are used. -/
structure GridSettings (K : Type _) where
  order : V3 Nat
  elements : V3 Nat
  xyz : Box K
  uvw : Box K

/-- `BSplineVolume`: the splines of the three directions. -/
structure Volume (K : Type _) where
  u : Spline K
  v : Spline K
  w : Spline K

/-- `BSplineVolume.__init__`, b_spline_volume.py L10-44. -/
def volume (junk : Spline K → List K) (g : GridSettings K) (kind : String) : Option (Volume K) :=
  (if kind = "open_knot_vector" then some true else if kind = "non_open_knot_vector" then some false else none).bind fun o =>
    (construct junk g.order.x g.elements.x g.xyz.lower.x g.xyz.upper.x g.uvw.lower.x g.uvw.upper.x o).bind fun u =>
      (construct junk g.order.y g.elements.y g.xyz.lower.y g.xyz.upper.y g.uvw.lower.y g.uvw.upper.y o).bind fun v =>
        (construct junk g.order.z g.elements.z g.xyz.lower.z g.xyz.upper.z g.uvw.lower.z g.uvw.upper.z o).map fun w => ⟨u, v, w⟩


/-- `ControlPoints`, b_spline_volume.py L67-89. -/
def Volume.controlPoints (V : Volume K) : List (V3 K) :=
  V.w.c.flatMap fun z => V.v.c.flatMap fun y => V.u.c.map fun x => ⟨x, y, z⟩


/-- `ControlPointsMatrix`, b_spline_volume.py L91-116, as a function of the three indices: the assignments of the loops in a
matrix of zeros. -/
def Volume.controlPointsMatrix (V : Volume K) : Nat → Nat → Nat → V3 K :=
  V.w.c.zipIdx.foldl (fun m z => V.v.c.zipIdx.foldl (fun m y => V.u.c.zipIdx.foldl (fun m x =>
    fun i j k => if i = x.2 ∧ j = y.2 ∧ k = z.2 then ⟨x.1, y.1, z.1⟩ else m i j k) m) m) fun _ _ _ => ⟨0, 0, 0⟩


/-- One component of `point_from_global_to_param_space`, helper.py L30-33 and L61-64. -/
def toParam1 (p lxyz uxyz luvw uuvw : K) : Option K :=
  if |uxyz - lxyz| = 0 then none else some ((p - lxyz) * |uuvw - luvw| / |uxyz - lxyz| + luvw)


/-- `point_from_global_to_param_space`, helper.py L6-35 (`none`: division by zero). -/
def globalToParam (p : V3 K) (xyz uvw : Box K) : Option (V3 K) :=
  (toParam1 p.x xyz.lower.x xyz.upper.x uvw.lower.x uvw.upper.x).bind fun x =>
    (toParam1 p.y xyz.lower.y xyz.upper.y uvw.lower.y uvw.upper.y).bind fun y =>
      (toParam1 p.z xyz.lower.z xyz.upper.z uvw.lower.z uvw.upper.z).map fun z => ⟨x, y, z⟩


/-- `point_from_param_to_global_space`, helper.py L37-65 (`none`: division by zero). -/
def paramToGlobal (p : V3 K) (xyz uvw : Box K) : Option (V3 K) :=
  (toParam1 p.x uvw.lower.x uvw.upper.x xyz.lower.x xyz.upper.x).bind fun x =>
    (toParam1 p.y uvw.lower.y uvw.upper.y xyz.lower.y xyz.upper.y).bind fun y =>
      (toParam1 p.z uvw.lower.z uvw.upper.z xyz.lower.z xyz.upper.z).map fun z => ⟨x, y, z⟩


/-- The attributes of the python class `IntegrationPoint`, add_containers_to_python.cpp L124-146 (without those that every python object
has). -/
def pointAttributes : List String := ["__init__", "x", "y", "z", "weight", "__getitem__", "__len__", "__iter__", "__repr__"]

/-- The call `point.Weight()`, PyQuESo.py L94 (`none`: `AttributeError`). -/
def callWeight (q : Mapping.VolPoint K) : Option K := if "Weight" ∈ pointAttributes then some q.weight else none

/-- `GetIntegrationPoints`, PyQuESo.py L83-100: the elements with the flag `IsTrimmed` and their points. -/
def gatherPoints (es : List (Bool × List (Mapping.VolPoint K))) : Option (List (Mapping.VolPoint K)) :=
  es.foldlM (fun acc e =>
    if e.1 then e.2.foldlM (fun acc q => (callWeight q).map fun w => if w > 0 then acc ++ [q] else acc) acc
    else some (e.2.foldl (fun acc q => acc ++ [q]) acc)) []

end QuESo.BSpline
