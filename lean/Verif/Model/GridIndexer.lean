import Verif.Model.Basic
import Mathlib.Algebra.Order.Field.Basic

/-!
# Model of `queso/containers/grid_indexer.hpp`
-/
namespace QuESo

/-- `GridIndexer::IndexInfo`, grid_indexer.hpp L35. -/
inductive IndexInfo | middle | localEnd | globalEnd
  deriving DecidableEq, Repr

/-- `GridIndexer::Direction`, grid_indexer.hpp L36. -/
inductive Dir | xf | xb | yf | yb | zf | zb
  deriving DecidableEq, Repr

namespace Grid

/-- `GetMatrixIndicesFromVectorIndex`, grid_indexer.hpp L65-73.  `n` is `mNumberOfElements`.
Simplification: `Nat` instead of `size_t` (see `toMat64`); division by zero gives 0 here, it is UB in
C++ (see `toMatChecked`). -/
def toMat (n : V3 Nat) (i : Nat) : V3 Nat :=
  let plane := i % (n.x * n.y)
  ⟨plane % n.x, plane / n.x, i / (n.x * n.y)⟩

/-- `GetVectorIndexFromMatrixIndices`, grid_indexer.hpp L81-91. -/
def toVec (n : V3 Nat) (v : V3 Nat) : Nat :=
  v.z * (n.y * n.x) + v.y * n.x + v.x

/-- `GetMatrixIndicesFromVectorIndex` (L65-73) with undefined behaviour (division by zero) as a
separate outcome `none`. -/
def toMatChecked (n : V3 Nat) (i : Nat) : Option (V3 Nat) :=
  if n.x * n.y = 0 then none
  else if n.x = 0 then none
  else some (toMat n i)

/-- 64-bit wrap-around of `size_t` arithmetic. -/
def w64 (a : Nat) : Nat := a % 2 ^ 64

/-- `GetMatrixIndicesFromVectorIndex` (L65-73) with 64-bit `size_t` arithmetic. -/
def toMat64 (n : V3 Nat) (i : Nat) : V3 Nat :=
  let plane := i % w64 (n.x * n.y)
  ⟨plane % n.x, plane / n.x, i / w64 (n.x * n.y)⟩

/-- `GetVectorIndexFromMatrixIndices` (L81-91) with 64-bit `size_t` arithmetic. -/
def toVec64 (n : V3 Nat) (v : V3 Nat) : Nat :=
  w64 (w64 (w64 (v.z * w64 (n.y * n.x)) + w64 (v.y * n.x)) + v.x)

/-- `NumberOfElements`, grid_indexer.hpp L152-154. -/
def numElements (n : V3 Nat) : Nat := n.x * n.y * n.z

/-- `mGlobalPartition`, grid_indexer.hpp L53 (`n - 1` underflows in C++ if a direction has no cell;
all theorems assume at least one cell). -/
def globalPartition (n : V3 Nat) : Partition :=
  ⟨⟨0, 0, 0⟩, ⟨n.x - 1, n.y - 1, n.z - 1⟩⟩

/-- `GetNextIndexX`, grid_indexer.hpp L200-221. -/
def nextX (n : V3 Nat) (p : Partition) (i : Nat) : Nat × IndexInfo :=
  let v := toMat n i
  if v.x < p.second.x then (toVec n ⟨v.x + 1, v.y, v.z⟩, .middle)
  else if v.y < p.second.y then (toVec n ⟨p.first.x, v.y + 1, v.z⟩, .localEnd)
  else if v.z < p.second.z then (toVec n ⟨p.first.x, p.first.y, v.z + 1⟩, .localEnd)
  else (i, .globalEnd)

/-- `GetNextIndexY`, grid_indexer.hpp L234-255. -/
def nextY (n : V3 Nat) (p : Partition) (i : Nat) : Nat × IndexInfo :=
  let v := toMat n i
  if v.y < p.second.y then (toVec n ⟨v.x, v.y + 1, v.z⟩, .middle)
  else if v.x < p.second.x then (toVec n ⟨v.x + 1, p.first.y, v.z⟩, .localEnd)
  else if v.z < p.second.z then (toVec n ⟨p.first.x, p.first.y, v.z + 1⟩, .localEnd)
  else (i, .globalEnd)

/-- `GetNextIndexZ`, grid_indexer.hpp L268-289. -/
def nextZ (n : V3 Nat) (p : Partition) (i : Nat) : Nat × IndexInfo :=
  let v := toMat n i
  if v.z < p.second.z then (toVec n ⟨v.x, v.y, v.z + 1⟩, .middle)
  else if v.x < p.second.x then (toVec n ⟨v.x + 1, v.y, p.first.z⟩, .localEnd)
  else if v.y < p.second.y then (toVec n ⟨p.first.x, v.y + 1, p.first.z⟩, .localEnd)
  else (i, .globalEnd)

/-- `GetPreviousIndexX`, grid_indexer.hpp L303-324. -/
def prevX (n : V3 Nat) (p : Partition) (i : Nat) : Nat × IndexInfo :=
  let v := toMat n i
  if v.x > p.first.x then (toVec n ⟨v.x - 1, v.y, v.z⟩, .middle)
  else if v.y > p.first.y then (toVec n ⟨p.second.x, v.y - 1, v.z⟩, .localEnd)
  else if v.z > p.first.z then (toVec n ⟨p.second.x, p.second.y, v.z - 1⟩, .localEnd)
  else (i, .globalEnd)

/-- `GetPreviousIndexY`, grid_indexer.hpp L337-358. -/
def prevY (n : V3 Nat) (p : Partition) (i : Nat) : Nat × IndexInfo :=
  let v := toMat n i
  if v.y > p.first.y then (toVec n ⟨v.x, v.y - 1, v.z⟩, .middle)
  else if v.x > p.first.x then (toVec n ⟨v.x - 1, p.second.y, v.z⟩, .localEnd)
  else if v.z > p.first.z then (toVec n ⟨p.second.x, p.second.y, v.z - 1⟩, .localEnd)
  else (i, .globalEnd)

/-- `GetPreviousIndexZ`, grid_indexer.hpp L371-392. -/
def prevZ (n : V3 Nat) (p : Partition) (i : Nat) : Nat × IndexInfo :=
  let v := toMat n i
  if v.z > p.first.z then (toVec n ⟨v.x, v.y, v.z - 1⟩, .middle)
  else if v.x > p.first.x then (toVec n ⟨v.x - 1, v.y, p.second.z⟩, .localEnd)
  else if v.y > p.first.y then (toVec n ⟨p.second.x, v.y - 1, p.second.z⟩, .localEnd)
  else (i, .globalEnd)

/-- `GetNextIndex(Index, Dir, rPartition)`, grid_indexer.hpp L169-187. -/
def next (n : V3 Nat) (p : Partition) (d : Dir) (i : Nat) : Nat × IndexInfo :=
  match d with
  | .xf => nextX n p i
  | .xb => prevX n p i
  | .yf => nextY n p i
  | .yb => prevY n p i
  | .zf => nextZ n p i
  | .zb => prevZ n p i

/-- `GetNextIndex(Index, Dir)`, grid_indexer.hpp L160-162: the step in the whole grid. -/
def nextGlobal (n : V3 Nat) (d : Dir) (i : Nat) : Nat × IndexInfo :=
  next n (globalPartition n) d i

/-- `IsEnd(i, Dir, rPartition)`, grid_indexer.hpp L407-427. -/
def isEnd (n : V3 Nat) (p : Partition) (d : Dir) (i : Nat) : Bool :=
  let v := toMat n i
  match d with
  | .xf => v.x == p.second.x
  | .xb => v.x == p.first.x
  | .yf => v.y == p.second.y
  | .yb => v.y == p.first.y
  | .zf => v.z == p.second.z
  | .zb => v.z == p.first.z

/-- `GetDirections`, grid_indexer.hpp L431-435. -/
def directions : List Dir := [.xf, .xb, .yf, .yb, .zf, .zb]

/-- `ReverseDirection`, grid_indexer.hpp L439-446. -/
def reverse : Dir → Dir
  | .xf => .xb
  | .xb => .xf
  | .yf => .yb
  | .yb => .yf
  | .zf => .zb
  | .zb => .zf

section Boxes
variable {K : Type _} [Field K] [LinearOrder K]

/-- `delta` of `GetBoundingBoxFromIndex`, grid_indexer.hpp L454-456, one component.
Simplification: exact field arithmetic instead of `double`. -/
def delta (lo up : K) (n : Nat) : K := |up - lo| / (n : K)

/-- `GetBoundingBoxFromIndex`, grid_indexer.hpp L451-460 (exact arithmetic). -/
def cellBox (n : V3 Nat) (dom : Box K) (v : V3 Nat) : Box K :=
  let dx := delta dom.lower.x dom.upper.x n.x
  let dy := delta dom.lower.y dom.upper.y n.y
  let dz := delta dom.lower.z dom.upper.z n.z
  { lower := ⟨dom.lower.x + dx * (v.x : K), dom.lower.y + dy * (v.y : K), dom.lower.z + dz * (v.z : K)⟩
    upper := ⟨dom.lower.x + dx * (1 + (v.x : K)), dom.lower.y + dy * (1 + (v.y : K)),
              dom.lower.z + dz * (1 + (v.z : K))⟩ }

/-- `GetBoundingBoxXYZFromIndex(Index)`, grid_indexer.hpp L96-99. -/
def boxXYZ (n : V3 Nat) (domXYZ : Box K) (i : Nat) : Box K := cellBox n domXYZ (toMat n i)

/-- `GetBoundingBoxUVWFromIndex(Index)`, grid_indexer.hpp L121-127: for grids that are not B-spline
grids every cell gets the whole parametric box. -/
def boxUVW (n : V3 Nat) (domUVW : Box K) (bSplineMesh : Bool) (i : Nat) : Box K :=
  if bSplineMesh then cellBox n domUVW (toMat n i) else domUVW

end Boxes
end Grid
end QuESo
