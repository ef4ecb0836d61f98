import Verif.Spec.ClipPartition
import Verif.Spec.TrimmedSection

/-!
# Specification vocabulary: the faces of a grid

The face `(d, k)` of the grid is the lower face of the cell `k` in the direction `d`; it lies in the plane `k.get d` of this direction.  The upper face
of the cell is the lower face of the next cell.
-/
namespace QuESo.Spec
variable {K : Type} [Field K] [LinearOrder K]

/-- The next cell in a direction (0, 1, 2 for x, y, z). -/
def nextCell (d : Nat) (k : V3 Nat) : V3 Nat :=
  match d with
  | 0 => ⟨k.x + 1, k.y, k.z⟩
  | 1 => ⟨k.x, k.y + 1, k.z⟩
  | _ => ⟨k.x, k.y, k.z + 1⟩

/-- The cell whose lower face is the given face (direction, upper or lower) of the cell. -/
def faceCell (f : Nat × Bool) (k : V3 Nat) : V3 Nat := if f.2 then nextCell f.1 k else k

/-- The volume of a cell. -/
def cellVolume (c : Nat → Nat → K) (k : V3 Nat) : K :=
  ((upperCorner c k).x - (lowerCorner c k).x) * ((upperCorner c k).y - (lowerCorner c k).y) * ((upperCorner c k).z - (lowerCorner c k).z)

/-- The area of a face of a cell in a direction. -/
def faceArea (c : Nat → Nat → K) (k : V3 Nat) (d : Nat) : K :=
  match d with
  | 0 => ((upperCorner c k).y - (lowerCorner c k).y) * ((upperCorner c k).z - (lowerCorner c k).z)
  | 1 => ((upperCorner c k).x - (lowerCorner c k).x) * ((upperCorner c k).z - (lowerCorner c k).z)
  | _ => ((upperCorner c k).x - (lowerCorner c k).x) * ((upperCorner c k).y - (lowerCorner c k).y)

end QuESo.Spec
