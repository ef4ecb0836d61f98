import Verif.Model.BinaryIO
import Mathlib.Algebra.Field.Rat
import Mathlib.Algebra.Order.Ring.Unbundled.Rat
import Mathlib.Algebra.Order.Group.Unbundled.Abs

/-!
# Legacy VTK files

What a legacy VTK file of an unstructured grid describes, after the description of the format ("VTK File Formats",
simple legacy formats): a reader, independent of the writers.
-/
namespace QuESo.Spec

/-- An unstructured grid: points, cells as lists of point numbers, types of the cells, a number for each point. -/
structure VtkGrid (α : Type _) where
  points : List (V3 α)
  cells : List (List Int)
  types : List Int
  scalars : Option (List α)
  deriving DecidableEq

/-- The points of a cell (`none`: there is no such cell, or one of its numbers is not the number of a point). -/
def VtkGrid.cellPoints {α : Type _} (g : VtkGrid α) (i : Nat) : Option (List (V3 α)) :=
  g.cells[i]?.bind fun ids => ids.mapM fun id => if 0 ≤ id then g.points[id.toNat]? else none

namespace Vtk

/-- Blank characters: space, tab, line feed, carriage return. -/
def blank (b : UInt8) : Bool := b = 32 || b = 9 || b = 10 || b = 13

/-- The next word and what follows it. -/
def word (f : List UInt8) : List UInt8 × List UInt8 :=
  let g := f.dropWhile blank
  (g.takeWhile fun b => !blank b, g.dropWhile fun b => !blank b)

/-- The rest of the line and what follows the line break. -/
def line (f : List UInt8) : List UInt8 × List UInt8 := (f.takeWhile (· ≠ 10), (f.dropWhile (· ≠ 10)).drop 1)

/-- Bytes of a text. -/
def bytes (s : String) : List UInt8 := s.toList.map fun c => UInt8.ofNat c.toNat

/-- A certain word. -/
def expect (w : String) (f : List UInt8) : Option (List UInt8) :=
  if (word f).1 = bytes w then some (word f).2 else none

/-- Value of a list of digits, most significant first. -/
def digits : Nat → List UInt8 → Option Nat
  | a, [] => some a
  | a, b :: r => if 48 ≤ b ∧ b ≤ 57 then digits (10 * a + (b.toNat - 48)) r else none

/-- At least one digit. -/
def whole (t : List UInt8) : Option Nat := if t = [] then none else digits 0 t

/-- A count in a line of text. -/
def count (f : List UInt8) : Option (Nat × List UInt8) := (whole (word f).1).map fun n => (n, (word f).2)

/-- A decimal number without sign: digits, and perhaps a point and digits. -/
def unsigned (t : List UInt8) : Option ℚ :=
  let i := t.takeWhile (· ≠ 46)
  match t.dropWhile (· ≠ 46) with
  | [] => (whole i).map fun (n : Nat) => (n : ℚ)
  | _ :: r => (whole i).bind fun (n : Nat) => (whole r).map fun (k : Nat) => (n : ℚ) + (k : ℚ) / 10 ^ r.length

/-- A decimal number, perhaps with a minus sign. -/
def decimalNumber : List UInt8 → Option ℚ
  | 45 :: t => (unsigned t).map fun x => -x
  | t => unsigned t

/-- Number of bytes, most significant first. -/
def bigEndian (l : List UInt8) : Nat := l.foldl (fun a b => 256 * a + b.toNat) 0

/-- A number of 32 bits as a signed number. -/
def signed32 (n : Nat) : Int := if n < 2 ^ 31 then n else n - 2 ^ 32

/-- The next number of type `double`; `ofBits` is the number with a bit pattern. -/
def float (enc : IO.Encoding) (ofBits : UInt64 → ℚ) (f : List UInt8) : Option (ℚ × List UInt8) :=
  match enc with
  | .binary => if 8 ≤ f.length then some (ofBits (UInt64.ofNat (bigEndian (f.take 8))), f.drop 8) else none
  | .ascii => (decimalNumber (word f).1).map fun x => (x, (word f).2)

/-- The next number of type `int`. -/
def int (enc : IO.Encoding) (f : List UInt8) : Option (Int × List UInt8) :=
  match enc with
  | .binary => if 4 ≤ f.length then some (signed32 (bigEndian (f.take 4)), f.drop 4) else none
  | .ascii => (whole (word f).1).map fun (n : Nat) => ((n : Int), (word f).2)

/-- Several things in a row. -/
def many {α : Type _} (read : List UInt8 → Option (α × List UInt8)) : Nat → List UInt8 → Option (List α × List UInt8)
  | 0, f => some ([], f)
  | n + 1, f => (read f).bind fun a => (many read n a.2).map fun r => (a.1 :: r.1, r.2)

/-- Three numbers. -/
def point (enc : IO.Encoding) (ofBits : UInt64 → ℚ) (f : List UInt8) : Option (V3 ℚ × List UInt8) :=
  (float enc ofBits f).bind fun a => (float enc ofBits a.2).bind fun b => (float enc ofBits b.2).map fun c =>
    (⟨a.1, b.1, c.1⟩, c.2)

/-- The cells in a list of numbers: each cell begins with the number of its points; nothing may be left. -/
def splitCells : Nat → List Int → Option (List (List Int))
  | 0, l => if l = [] then some [] else none
  | _ + 1, [] => none
  | n + 1, k :: l =>
    if 0 ≤ k ∧ k.toNat ≤ l.length then (splitCells n (l.drop k.toNat)).map fun r => l.take k.toNat :: r else none

/-- The numbers of the points, behind the cell types: nothing, or one number for each point. -/
def scalars (enc : IO.Encoding) (ofBits : UInt64 → ℚ) (n : Nat) (f : List UInt8) : Option (Option (List ℚ)) :=
  if f.all blank then some none
  else
    (expect "POINT_DATA" f).bind fun f => (count f).bind fun k =>
      if k.1 ≠ n then none
      else
        (expect "SCALARS" k.2).bind fun f => (expect "double" (word f).2).bind fun f => (expect "1" f).bind fun f =>
          (expect "LOOKUP_TABLE" f).bind fun f => (expect "default" f).bind fun f =>
            (many (float enc ofBits) n (line f).2).bind fun r => if r.2.all blank then some (some r.1) else none

/-- The grid that a file describes (`none`: not a file of this format). -/
def read (ofBits : UInt64 → ℚ) (file : List UInt8) : Option (VtkGrid ℚ) :=
  let l1 := line file
  let l2 := line l1.2
  let l3 := line l2.2
  if !(bytes "# vtk DataFile Version").isPrefixOf l1.1 then none
  else
    (if l3.1 = bytes "BINARY" then some IO.Encoding.binary else if l3.1 = bytes "ASCII" then some IO.Encoding.ascii else none).bind fun enc =>
      (expect "DATASET" l3.2).bind fun f => (expect "UNSTRUCTURED_GRID" f).bind fun f =>
        (expect "POINTS" f).bind fun f => (count f).bind fun n => (expect "double" n.2).bind fun f =>
          (many (point enc ofBits) n.1 (line f).2).bind fun ps =>
            (expect "CELLS" ps.2).bind fun f => (count f).bind fun m => (count m.2).bind fun size =>
              (many (int enc) size.1 (line size.2).2).bind fun ids => (splitCells m.1 ids.1).bind fun cells =>
                (expect "CELL_TYPES" ids.2).bind fun f => (count f).bind fun k =>
                  if k.1 ≠ m.1 then none
                  else
                    (many (int enc) k.1 (line k.2).2).bind fun types =>
                      (scalars enc ofBits n.1 types.2).map fun sc => ⟨ps.1, cells, types.1, sc⟩

end Vtk

/-- Corners of a box in the order of the VTK cell type 12 (hexahedron): the corners of the lower face in a circle, then
those of the upper face. -/
def hexahedron (b : Box ℚ) : List (V3 ℚ) :=
  [⟨b.lower.x, b.lower.y, b.lower.z⟩, ⟨b.upper.x, b.lower.y, b.lower.z⟩, ⟨b.upper.x, b.upper.y, b.lower.z⟩,
   ⟨b.lower.x, b.upper.y, b.lower.z⟩, ⟨b.lower.x, b.lower.y, b.upper.z⟩, ⟨b.upper.x, b.lower.y, b.upper.z⟩,
   ⟨b.upper.x, b.upper.y, b.upper.z⟩, ⟨b.lower.x, b.upper.y, b.upper.z⟩]

/-- Three coordinates changed by a function. -/
def mapPoint (g : ℚ → ℚ) (v : V3 ℚ) : V3 ℚ := ⟨g v.x, g v.y, g v.z⟩

/-- How numbers change when they are written and read: in binary files the number has the bit pattern that was written, in
text files it has fifteen correct decimals. -/
def Kept (enc : IO.Encoding) (bits : ℚ → UInt64) (ofBits : UInt64 → ℚ) (g : ℚ → ℚ) : Prop :=
  match enc with
  | .binary => ∀ x, g x = ofBits (bits x)
  | .ascii => ∀ x, |g x - x| ≤ 1 / (2 * 10 ^ 15)

end QuESo.Spec
