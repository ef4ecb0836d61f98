import Verif.Model.BinaryIO
import Verif.Model.EmbeddedModel
import Verif.Model.Json

/-!
# Model of the VTK files, of the STL files of conditions and of the output of a model

`queso/io/io_utilities.cpp`, `queso/io/io_utilities.tpp`, `queso/io/io_utilities.h`, `queso/embedded_model.cpp`.

As in `Verif.Model.BinaryIO` files are lists of bytes and the output stream accepts every write.  Numbers of type
`double` are rational numbers: infinities, NaN and the negative zero are left out.
-/
namespace QuESo.IO
open QuESo.BGrid QuESo.Embedded QuESo.Mapping

/-! ## Numbers as text -/

/-- Characters as bytes. -/
def text (t : List Char) : List UInt8 := t.map fun c => UInt8.ofNat c.toNat

/-- `ostream <<` of a `std::size_t`. -/
def natText (n : Nat) : List UInt8 := text (Json.decimal n)

/-- The last `k` decimal digits of a number. -/
def padded : Nat → Nat → List Char
  | 0, _ => []
  | k + 1, n => padded k (n / 10) ++ [Json.digitChar (n % 10)]

/-- `ostream <<` of a `double` with `std::fixed` and `std::setprecision(p)` for `p > 0` (io_utilities.cpp L52, L97;
io_utilities.tpp L72, L118, L203): the conversion `%.pf` of the C library. -/
def fixedText (p : Nat) (q : ℚ) : List UInt8 :=
  let m := Json.roundNat (|q| * 10 ^ p)
  (if q < 0 then [45] else []) ++ natText (m / 10 ^ p) ++ 46 :: text (padded p (m % 10 ^ p))

/-! ## VTK files -/

/-- Header, io_utilities.cpp L91-94, io_utilities.tpp L112-115 and L197-200. -/
def vtkHeader (enc : Encoding) : List UInt8 :=
  ascii "# vtk DataFile Version 4.1\n" ++ ascii "vtk output\n" ++
    (if enc = .binary then ascii "BINARY\n" else ascii "ASCII\n") ++ ascii "DATASET UNSTRUCTURED_GRID\n"

/-- A section of a file: a line of text and the numbers, in a block with a `BinaryBufferWriter` for big-endian files
or as text, e.g. io_utilities.cpp L100-113. -/
def vtkSection (host : Endian) (enc : Encoding) (line : List UInt8) (ops : List WriteOp) (txt : List UInt8)
    (file : List UInt8) : Option (List UInt8) :=
  match enc with
  | .binary => session host .big defaultBuffer (file ++ line) ops
  | .ascii => some (file ++ line ++ txt)

/-- Binary form of a point, e.g. io_utilities.cpp L105-107; `bits` is the bit pattern of a `double`. -/
def pointOps (bits : ℚ → UInt64) (v : V3 ℚ) : List WriteOp :=
  [.value 8 (bits v.x).toNat, .value 8 (bits v.y).toNat, .value 8 (bits v.z).toNat]

/-- Text form of a point, e.g. io_utilities.cpp L111. -/
def pointLine (v : V3 ℚ) : List UInt8 := fmtPoint (fixedText 15) v ++ [10]

/-- A number as `std::uint32_t`. -/
def u32 (n : Nat) : WriteOp := .value 4 (UInt32.ofNat n).toNat

/-- The collection of vertices and index triples, io_utilities.cpp L81-87. -/
def collectCorners (cs : List (V3 (V3 ℚ))) : List (V3 ℚ) × List (V3 Nat) :=
  cs.foldl (fun a c =>
    let v0 := a.1.length
    (a.1 ++ [c.x] ++ [c.y] ++ [c.z], a.2 ++ [⟨v0 + 0, v0 + 1, v0 + 2⟩])) ([], [])

/-- `WriteMeshToVTK`, io_utilities.cpp L67-153 (`none`: an access outside the vectors of the mesh or the buffer).  The
loops of L118-133 over the index triples run to the number of triangles, which is the number of triples. -/
def writeMeshVTK (host : Endian) (enc : Encoding) (bits : ℚ → UInt64) (m : Mesh ℚ) : Option (List UInt8) :=
  let numElements := m.triangles.length
  ((List.range m.triangles.length).mapM m.corners).bind fun cs =>
    let c := collectCorners cs
    let numPoints := c.1.length
    (vtkSection host enc (ascii "POINTS " ++ natText numPoints ++ ascii " double\n")
        (c.1.flatMap (pointOps bits)) (c.1.flatMap pointLine) (vtkHeader enc)).bind fun f =>
      (vtkSection host enc (ascii "CELLS " ++ natText numElements ++ ascii " " ++ natText (numElements * 4) ++ ascii "\n")
          (c.2.flatMap fun t => [u32 3, u32 t.x, u32 t.y, u32 t.z])
          (c.2.flatMap fun t =>
            natText 3 ++ ascii " " ++ natText t.x ++ ascii " " ++ natText t.y ++ ascii " " ++ natText t.z ++ ascii "\n") f).bind fun f =>
        vtkSection host enc (ascii "CELL_TYPES " ++ natText numElements ++ ascii "\n")
          ((List.range numElements).flatMap fun _ => [u32 5])
          ((List.range numElements).flatMap fun _ => natText 5 ++ ascii "\n") f

/-- `GetHexahedronVertices`, io_utilities.h L176-186. -/
def hexahedronVertices (l u : V3 ℚ) : List (V3 ℚ) :=
  [⟨l.x, l.y, l.z⟩, ⟨u.x, l.y, l.z⟩, ⟨u.x, u.y, l.z⟩, ⟨l.x, u.y, l.z⟩,
   ⟨l.x, l.y, u.z⟩, ⟨u.x, l.y, u.z⟩, ⟨u.x, u.y, u.z⟩, ⟨l.x, u.y, u.z⟩]

/-- The points of all elements, io_utilities.tpp L125-143. -/
def elementVertices (s : State (Elem ℚ)) : List (V3 ℚ) :=
  (s.views .all).flatMap fun e => hexahedronVertices e.2.2.bounds.global.lower e.2.2.bounds.global.upper

/-- `WriteElementsToVTK`, io_utilities.tpp L98-181.  In L155 the index is computed in `std::uint32_t`. -/
def writeElementsVTK (host : Endian) (enc : Encoding) (bits : ℚ → UInt64) (s : State (Elem ℚ)) : Option (List UInt8) :=
  let numElements := s.numActive
  (vtkSection host enc (ascii "POINTS " ++ natText (numElements * 8) ++ ascii " double\n")
      ((elementVertices s).flatMap (pointOps bits)) ((elementVertices s).flatMap pointLine) (vtkHeader enc)).bind fun f =>
    (vtkSection host enc (ascii "CELLS " ++ natText numElements ++ ascii " " ++ natText (numElements * 9) ++ ascii "\n")
        ((List.range numElements).flatMap fun i =>
          u32 8 :: (List.range 8).map fun j => .value 4 (8 * UInt32.ofNat i + UInt32.ofNat j).toNat)
        ((List.range numElements).flatMap fun i =>
          natText 8 ++ ((List.range 8).flatMap fun j => ascii " " ++ natText (8 * i + j)) ++ ascii "\n") f).bind fun f =>
      vtkSection host enc (ascii "CELL_TYPES " ++ natText numElements ++ ascii "\n")
        ((List.range numElements).flatMap fun _ => [u32 12])
        ((List.range numElements).flatMap fun _ => natText 12 ++ ascii "\n") f

/-- `GetIntegrationPoints<CoordinateSpace::global>` of an element, element_view.hpp L83-100. -/
def globalPoints (e : Elem ℚ) : List (VolPoint ℚ) :=
  e.points.map fun q => ⟨toGlobal q.pos e.bounds, q.weight * detJ e.bounds⟩

/-- `WritePointsToVTK`, io_utilities.tpp L183-278. -/
def writePointsVTK (host : Endian) (enc : Encoding) (bits : ℚ → UInt64) (s : State (Elem ℚ)) : Option (List UInt8) :=
  let numPoints := (s.views .all).foldl (fun acc e => acc + (globalPoints e.2.2).length) 0
  let points := (s.views .all).flatMap fun e => globalPoints e.2.2
  (vtkSection host enc (ascii "POINTS " ++ natText numPoints ++ ascii " double\n")
      (points.flatMap fun q => pointOps bits q.pos) (points.flatMap fun q => pointLine q.pos) (vtkHeader enc)).bind fun f =>
    (vtkSection host enc (ascii "CELLS " ++ natText numPoints ++ ascii " " ++ natText (numPoints * 2) ++ ascii "\n")
        ((List.range numPoints).flatMap fun i => [u32 1, u32 i])
        ((List.range numPoints).flatMap fun i => natText 1 ++ ascii " " ++ natText i ++ ascii "\n") f).bind fun f =>
      (vtkSection host enc (ascii "CELL_TYPES " ++ natText numPoints ++ ascii "\n")
          ((List.range numPoints).flatMap fun _ => [u32 1])
          ((List.range numPoints).flatMap fun _ => natText 1 ++ ascii "\n") f).bind fun f =>
        vtkSection host enc (ascii "POINT_DATA " ++ natText numPoints ++ ascii "\n" ++ ascii "SCALARS Weights double 1\n" ++
            ascii "LOOKUP_TABLE default\n")
          (points.flatMap fun q => [.value 8 (bits q.weight).toNat])
          (points.flatMap fun q => fixedText 15 q.weight ++ ascii "\n") f

/-! ## STL files of conditions -/

variable {K : Type _}

/-- `WriteConditionToSTL` with binary encoding, io_utilities.tpp L37-70, for the meshes of the segments (`none`: an access
outside the vectors of a mesh or the buffer). -/
def writeConditionSTL (host : Endian) (toF : K → UInt32) (segments : List (Mesh K)) : Option (List UInt8) :=
  let numTriangles := segments.foldl (fun (acc : UInt32) m => acc + UInt32.ofNat m.triangles.length) 0
  (segments.mapM Mesh.visit).bind fun ts =>
    session host .little defaultBuffer []
      ([.raw stlHeader, .value 4 numTriangles.toNat] ++ ts.flatMap fun t => t.flatMap (stlTriangle toF))

/-- `WriteConditionToSTL` with ascii encoding, io_utilities.tpp L71-87. -/
def writeConditionAscii (fmt : K → List UInt8) (segments : List (Mesh K)) : Option (List UInt8) :=
  (segments.mapM Mesh.visit).map fun ts =>
    (([ascii "solid QuESoExport"] ++ (ts.flatMap fun t => t.flatMap (asciiTriangle fmt)) ++
      [ascii "endsolid QuESoExport"]).map fun l => l ++ [10]).flatten

/-! ## Output of a model -/

/-- Files of a file system: names and contents. -/
abbrev Files := List (List UInt8 × List UInt8)

/-- A file is created or overwritten (`std::ios::out`). -/
def Files.put (fs : Files) (name content : List UInt8) : Files := (name, content) :: fs.filter fun f => f.1 ≠ name

/-- Contents of a file. -/
def Files.get (fs : Files) (name : List UInt8) : Option (List UInt8) := (fs.find? fun f => f.1 = name).map (·.2)

/-- Name of the file of a condition, embedded_model.cpp L315-316. -/
def conditionFile (dir : List UInt8) (id : Nat) : List UInt8 := dir ++ ascii "/condition_id_" ++ natText id ++ ascii ".stl"

/-- The loop over the conditions, embedded_model.cpp L309-319: ids and meshes of the segments. -/
def writeConditions (host : Endian) (toF : ℚ → UInt32) (dir : List UInt8) :
    List (Nat × List (Mesh ℚ)) → Files → Option Files
  | [], fs => some fs
  | c :: rest, fs =>
    (writeConditionSTL host toF c.2).bind fun b => writeConditions host toF dir rest (fs.put (conditionFile dir c.1) b)

/-- `WriteModelToFile`, embedded_model.cpp L291-343, when output is asked for; `info` is the text of the model info. -/
def writeModel (host : Endian) (bits : ℚ → UInt64) (toF : ℚ → UInt32) (dir : List UInt8) (s : State (Elem ℚ))
    (conditions : List (Nat × List (Mesh ℚ))) (info : List UInt8) (fs : Files) : Option Files :=
  (writeElementsVTK host .binary bits s).bind fun a =>
    (writePointsVTK host .binary bits s).bind fun b =>
      (writeConditions host toF dir conditions
          ((fs.put (dir ++ ascii "/elements.vtk") a).put (dir ++ ascii "/integration_points.vtk") b)).map fun fs =>
        fs.put (dir ++ ascii "/model_info.json") info

end QuESo.IO
