import Verif.Model.Mesh

/-!
# Model of binary output and of the binary STL format

`queso/io/binary_buffer_writer.hpp`, `queso/io/io_utilities.cpp`, `queso/io/io_utilities.h`.

Files are lists of bytes.  Simplification: the output stream accepts every write.
-/
namespace QuESo.IO

/-- `EndianType`, binary_buffer_writer.hpp L38. -/
inductive Endian | little | big
  deriving DecidableEq, Repr

/-- Bytes of a number of `w` bytes, least significant first. -/
def leBytes : Nat → Nat → List UInt8
  | 0, _ => []
  | w + 1, v => UInt8.ofNat (v % 256) :: leBytes w (v / 256)

/-- The number with these bytes, least significant first. -/
def ofLeBytes : List UInt8 → Nat
  | [] => 0
  | b :: l => b.toNat + 256 * ofLeBytes l

/-- The bytes of an object of `w` bytes in memory; the object is given by the number that its bits represent. -/
def memory (host : Endian) (w v : Nat) : List UInt8 :=
  match host with
  | .little => leBytes w v
  | .big => (leBytes w v).reverse

/-- The number represented by bytes in memory. -/
def ofMemory (host : Endian) (bytes : List UInt8) : Nat :=
  match host with
  | .little => ofLeBytes bytes
  | .big => ofLeBytes bytes.reverse

/-- `std::swap(bytes[i], bytes[j])`; indices are in range in all calls. -/
def swapAt (bytes : List UInt8) (i j : Nat) : List UInt8 :=
  match bytes[i]?, bytes[j]? with
  | some a, some b => (bytes.set i b).set j a
  | _, _ => bytes

/-- `SwapEnd`, binary_buffer_writer.hpp L162-168. -/
def swapEnd (bytes : List UInt8) : List UInt8 :=
  (List.range (bytes.length / 2)).foldl (fun b i => swapAt b i (bytes.length - 1 - i)) bytes

/-- `BinaryBufferWriter`, binary_buffer_writer.hpp L173-178, together with the contents of the file. `mem` is
`mBuffer`, `pos` is `mBufferPos`; `mBufferSize` is the length of `mem`. -/
structure Writer where
  out : List UInt8
  endian : Endian
  pos : Nat
  mem : List UInt8
  deriving DecidableEq, Repr

/-- Constructor, binary_buffer_writer.hpp L48-55, on a file with contents `out`. -/
def Writer.new (out : List UInt8) (endian : Endian) (size : Nat) : Writer := ⟨out, endian, 0, List.replicate size 0⟩

/-- `Flush` and destructor, binary_buffer_writer.hpp L58-60, L105-111 (`none`: reads outside the buffer). -/
def Writer.flush (w : Writer) : Option Writer :=
  if w.pos > 0 then
    if w.pos ≤ w.mem.length then some { w with out := w.out ++ w.mem.take w.pos, pos := 0 } else none
  else some w

/-- `std::memcpy(mBuffer.data() + pos, data, size)` (`none`: writes outside the buffer). -/
def memcpy (mem : List UInt8) (pos : Nat) (data : List UInt8) : Option (List UInt8) :=
  if pos + data.length ≤ mem.length then some (mem.take pos ++ data ++ mem.drop (pos + data.length)) else none

/-- The last part of `AppendToBuffer`, binary_buffer_writer.hpp L133-134. -/
def Writer.copy (w : Writer) (data : List UInt8) : Option Writer :=
  (memcpy w.mem w.pos data).map (fun m => { w with mem := m, pos := w.pos + data.length })

/-- `AppendToBuffer`, binary_buffer_writer.hpp L122-135. -/
def Writer.append (w : Writer) (data : List UInt8) : Option Writer :=
  if data.length > w.mem.length then
    w.flush.map (fun w' => { w' with out := w'.out ++ data })
  else if w.pos + data.length > w.mem.length then
    w.flush.bind (fun w' => w'.copy data)
  else w.copy data

/-- The bytes handed over by `WriteValue`, binary_buffer_writer.hpp L83-90, for a value of `width` bytes. -/
def valueBytes (host target : Endian) (width v : Nat) : List UInt8 :=
  if host ≠ target then swapEnd (memory host width v) else memory host width v

/-- `WriteValue`, binary_buffer_writer.hpp L83-90. -/
def Writer.value (host : Endian) (w : Writer) (width v : Nat) : Option Writer :=
  w.append (valueBytes host w.endian width v)

/-- `WriteArray`, binary_buffer_writer.hpp L96-102. -/
def Writer.array (host : Endian) (w : Writer) (width : Nat) : List Nat → Option Writer
  | [] => some w
  | v :: l => (w.value host width v).bind (fun w' => w'.array host width l)

/-- Calls of the public interface. -/
inductive WriteOp
  | raw (data : List UInt8)
  | value (width v : Nat)
  | array (width : Nat) (vs : List Nat)
  | flush
  deriving DecidableEq, Repr

/-- One call. -/
def Writer.step (host : Endian) (w : Writer) : WriteOp → Option Writer
  | .raw data => w.append data
  | .value width v => w.value host width v
  | .array width vs => w.array host width vs
  | .flush => w.flush

/-- A sequence of calls. -/
def Writer.run (host : Endian) : Writer → List WriteOp → Option Writer
  | w, [] => some w
  | w, o :: ops => (w.step host o).bind (fun w' => w'.run host ops)

/-- A block `{ BinaryBufferWriter w(file, endian); ops }` including the destructor: contents of the file afterwards. -/
def session (host : Endian) (endian : Endian) (size : Nat) (file : List UInt8) (ops : List WriteOp) : Option (List UInt8) :=
  ((Writer.new file endian size).run host ops).bind (fun w => w.flush.map (·.out))

variable {K : Type _}

/-- Size of the buffer, binary_buffer_writer.hpp L48. -/
def defaultBuffer : Nat := 2 ^ 20

/-- Header of the STL file, io_utilities.cpp L35-36: the text and zeros up to 80 bytes. -/
def stlHeader : List UInt8 :=
  let text := ("Binary STL generated by QuESo".toList.map (fun c => UInt8.ofNat c.toNat))
  text ++ List.replicate (80 - text.length) 0

/-- The twelve numbers of a triangle, io_utilities.cpp L41-44; `toF` is the conversion to `float`, as bit pattern. -/
def stlCoords (toF : K → UInt32) (t : Tri K) : List Nat :=
  [toF t.normal.x, toF t.normal.y, toF t.normal.z, toF t.p1.x, toF t.p1.y, toF t.p1.z,
   toF t.p2.x, toF t.p2.y, toF t.p2.z, toF t.p3.x, toF t.p3.y, toF t.p3.z].map UInt32.toNat

/-- Writes of one triangle, io_utilities.cpp L40-49. -/
def stlTriangle (toF : K → UInt32) (t : Tri K) : List WriteOp := [.array 4 (stlCoords toF t), .value 2 0]

/-- `WriteMeshToSTL` with binary encoding, io_utilities.cpp L22-50 (`none`: an access outside the vectors of the mesh
or the buffer). -/
def writeSTL (host : Endian) (toF : K → UInt32) (m : Mesh K) : Option (List UInt8) :=
  m.visit.bind (fun ts =>
    session host .little defaultBuffer []
      ([.raw stlHeader, .value 4 (UInt32.ofNat m.triangles.length).toNat] ++ ts.flatMap (stlTriangle toF)))

/-- Outcome of reading a file: a result or a C++ exception. -/
inductive ReadRes (α : Type _) | ok (a : α) | error
  deriving DecidableEq, Repr

/-- `file.read(p, n)`: the bytes and the rest of the file, or failure if fewer than `n` bytes are left. -/
def readBytes (n : Nat) (file : List UInt8) : Option (List UInt8 × List UInt8) :=
  if n ≤ file.length then some (file.take n, file.drop n) else none

/-- Number of `width` bytes in native byte order. -/
def readNum (host : Endian) (width : Nat) (file : List UInt8) : Option (Nat × List UInt8) :=
  (readBytes width file).map (fun r => (ofMemory host r.1, r.2))

/-- Three `float`s converted to `double`, io_utilities.cpp L328-334; `ofF` is the conversion. -/
def readPoint (host : Endian) (ofF : UInt32 → K) (file : List UInt8) : Option (V3 K × List UInt8) :=
  (readNum host 4 file).bind (fun a =>
    (readNum host 4 a.2).bind (fun b =>
      (readNum host 4 b.2).map (fun c => (⟨ofF (UInt32.ofNat a.1), ofF (UInt32.ofNat b.1), ofF (UInt32.ofNat c.1)⟩, c.2))))

/-- Insertion of a vertex with the map, io_utilities.cpp L336-346.  `lookup keys v` is the answer of
`index_map.try_emplace(v, 0)`: the number of the key found among the keys (in order of insertion, which are the
vertices of the mesh), or `none` if `v` was inserted.  Result: mesh, index of the vertex, the coordinates used. -/
def insertVertex (lookup : List (V3 K) → V3 K → Option Nat) (m : Mesh K) (v : V3 K) : Mesh K × Nat × V3 K :=
  match lookup m.vertices v with
  | none => (m.addVertex v, m.vertices.length, v)
  | some i => (m, i, (m.vertices[i]?).getD v)

/-- One iteration of the loop over the triangles, io_utilities.cpp L313-356; `normalOf` is
`TriangleUtilities::Normal`. -/
def readTriangle (host : Endian) (ofF : UInt32 → K) (lookup : List (V3 K) → V3 K → Option Nat)
    (normalOf : V3 K → V3 K → V3 K → V3 K) (m : Mesh K) (file : List UInt8) : Option (Mesh K × List UInt8) :=
  (readBytes 12 file).bind (fun r0 =>
    (readPoint host ofF r0.2).bind (fun r1 =>
      let i1 := insertVertex lookup m r1.1
      (readPoint host ofF r1.2).bind (fun r2 =>
        let i2 := insertVertex lookup i1.1 r2.1
        (readPoint host ofF r2.2).bind (fun r3 =>
          let i3 := insertVertex lookup i2.1 r3.1
          (readBytes 2 r3.2).map (fun r4 =>
            (i3.1.addTriangle ⟨i1.2.1, i2.2.1, i3.2.1⟩ (normalOf i1.2.2 i2.2.2 i3.2.2), r4.2))))))

/-- The loop over the triangles, io_utilities.cpp L312-357. -/
def readTriangles (host : Endian) (ofF : UInt32 → K) (lookup : List (V3 K) → V3 K → Option Nat)
    (normalOf : V3 K → V3 K → V3 K → V3 K) : Nat → Mesh K → List UInt8 → Option (Mesh K)
  | 0, m, _ => some m
  | k + 1, m, file =>
    (readTriangle host ofF lookup normalOf m file).bind (fun r => readTriangles host ofF lookup normalOf k r.1 r.2)

/-- `ReadMeshFromSTL_Binary`, io_utilities.cpp L289-361. -/
def readSTL (host : Endian) (ofF : UInt32 → K) (lookup : List (V3 K) → V3 K → Option Nat)
    (normalOf : V3 K → V3 K → V3 K → V3 K) (file : List UInt8) : ReadRes (Mesh K) :=
  match ((readBytes 80 file).bind (fun r => readNum host 4 r.2)).bind
      (fun r => readTriangles host ofF lookup normalOf r.1 Mesh.empty r.2) with
  | none => .error
  | some m => if m.check then .ok m else .error

/-- `PointComparison`, io_utilities.h L130-147. -/
def pointLt [Sub K] [LT K] [DecidableLT K] [LE K] [Neg K] [Max K] (tol : K) (l r : V3 K) : Bool :=
  if max (l.x - r.x) (-(l.x - r.x)) < tol then
    if max (l.y - r.y) (-(l.y - r.y)) < tol then decide (l.z - r.z < -tol)
    else decide (l.y - r.y < -tol)
  else decide (l.x - r.x < -tol)

/-- Text as bytes. -/
def ascii (s : String) : List UInt8 := s.toList.map (fun c => UInt8.ofNat c.toNat)

/-- The lines that repeated `std::getline` reads, with the current line in reverse; a line is marked `true` if it ends
with a line break (then `file.good()` holds after reading it) and `false` if it ends with the file. -/
def linesFrom : List UInt8 → List UInt8 → List (List UInt8 × Bool)
  | cur, [] => if cur = [] then [] else [(cur.reverse, false)]
  | cur, b :: rest => if b = 10 then (cur.reverse, true) :: linesFrom [] rest else linesFrom (b :: cur) rest

/-- The lines of a file. -/
def fileLines (file : List UInt8) : List (List UInt8 × Bool) := linesFrom [] file

/-- `line.find(pattern) != npos`. -/
def contains (pat : List UInt8) : List UInt8 → Bool
  | [] => pat.isPrefixOf []
  | c :: l => pat.isPrefixOf (c :: l) || contains pat l

/-- `EncodingType`, io_utilities.h L38. -/
inductive Encoding | binary | ascii
  deriving DecidableEq, Repr

/-- `GetEncodingType`, io_utilities.cpp L170-208. -/
def encodingType (file : List UInt8) : Encoding :=
  let lines := (fileLines file).map (·.1)
  if !(ascii "solid").isPrefixOf (lines.head?.getD []) then .binary
  else if (lines.tail.take 20).any (fun l => contains (ascii "facet normal") l || contains (ascii "outer loop") l ||
      contains (ascii "normal") l || contains (ascii "facet") l) then .ascii
  else if (file.take 512).any (fun b => decide (b = 0)) then .binary
  else .ascii

/-- Text of a point, io_utilities.cpp L55-58; `fmt` prints a number. -/
def fmtPoint (fmt : K → List UInt8) (p : V3 K) : List UInt8 := fmt p.x ++ 32 :: fmt p.y ++ 32 :: fmt p.z

/-- Lines of a triangle, io_utilities.cpp L54-60. -/
def asciiTriangle (fmt : K → List UInt8) (t : Tri K) : List (List UInt8) :=
  [ascii "facet normal " ++ fmtPoint fmt t.normal, ascii "outer loop", ascii "vertex " ++ fmtPoint fmt t.p1,
   ascii "vertex " ++ fmtPoint fmt t.p2, ascii "vertex " ++ fmtPoint fmt t.p3, ascii "endloop", ascii "endfacet"]

/-- `WriteMeshToSTL` with ascii encoding, io_utilities.cpp L51-62. -/
def writeAscii (fmt : K → List UInt8) (m : Mesh K) : Option (List UInt8) :=
  m.visit.map (fun ts => (([ascii "solid QuESoExport"] ++ ts.flatMap (asciiTriangle fmt) ++ [ascii "endsolid QuESoExport"]).map
    (fun l => l ++ [10])).flatten)

/-- The words of a line, as `iss >> word` finds them, with the current word in reverse.  Simplification: blanks are
spaces and tabs. -/
def wordsFrom : List UInt8 → List UInt8 → List (List UInt8)
  | cur, [] => if cur = [] then [] else [cur.reverse]
  | cur, b :: rest =>
    if b = 32 ∨ b = 9 then (if cur = [] then wordsFrom [] rest else cur.reverse :: wordsFrom [] rest)
    else wordsFrom (b :: cur) rest

/-- Outcome of reading a text: as `ReadRes`, or the use of a number that could not be read. -/
inductive TextRes (α : Type _) | ok (a : α) | error | indeterminate
  deriving DecidableEq, Repr

/-- A vertex line, io_utilities.cpp L248-255; `parse` reads a number.  Simplification: the first word is
skipped whatever it is, as in the code, and each number is a whole word. -/
def parseVertex (parse : List UInt8 → Option K) (line : List UInt8) : Option (V3 K) :=
  match wordsFrom [] line with
  | _ :: a :: b :: c :: _ =>
    match parse a, parse b, parse c with
    | some x, some y, some z => some ⟨x, y, z⟩
    | _, _, _ => none
  | _ => none

/-- The vertices of a facet and the triangle, io_utilities.cpp L239-274. -/
def asciiFacet (parse : List UInt8 → Option K) (lookup : List (V3 K) → V3 K → Option Nat)
    (normalOf : V3 K → V3 K → V3 K → V3 K) (m : Mesh K) (l1 l2 l3 : List UInt8) : Option (Mesh K) :=
  match parseVertex parse l1, parseVertex parse l2, parseVertex parse l3 with
  | some v1, some v2, some v3 =>
    let i1 := insertVertex lookup m v1
    let i2 := insertVertex lookup i1.1 v2
    let i3 := insertVertex lookup i2.1 v3
    some (i3.1.addTriangle ⟨i1.2.1, i2.2.1, i3.2.1⟩ (normalOf i1.2.2 i2.2.2 i3.2.2))
  | _, _, _ => none

/-- The `do`-loop of `ReadMeshFromSTL_Ascii`, io_utilities.cpp L229-284, from the current line on. -/
def asciiLoop (parse : List UInt8 → Option K) (lookup : List (V3 K) → V3 K → Option Nat)
    (normalOf : V3 K → V3 K → V3 K → V3 K) : Mesh K → List (List UInt8 × Bool) → TextRes (Mesh K)
  | m, [] => .ok m
  | m, l :: rest =>
    if contains (ascii "endsolid") l.1 then .ok m
    else if contains (ascii "facet") l.1 then
      match rest with
      | o :: v1 :: v2 :: v3 :: e :: f :: rest' =>
        if !o.2 || !contains (ascii "outer loop") o.1 then .error
        else
          match asciiFacet parse lookup normalOf m v1.1 v2.1 v3.1 with
          | none => .indeterminate
          | some m' =>
            if !e.2 || !contains (ascii "endloop") e.1 then .error
            else if !f.2 || !contains (ascii "endfacet") f.1 then .error
            else asciiLoop parse lookup normalOf m' rest'
      | _ => .error
    else asciiLoop parse lookup normalOf m rest
termination_by _ l => l.length

/-- `ReadMeshFromSTL_Ascii`, io_utilities.cpp L210-287. -/
def readAscii (parse : List UInt8 → Option K) (lookup : List (V3 K) → V3 K → Option Nat)
    (normalOf : V3 K → V3 K → V3 K → V3 K) (file : List UInt8) : TextRes (Mesh K) :=
  match asciiLoop parse lookup normalOf Mesh.empty
      ((fileLines file).dropWhile (fun l => !contains (ascii "facet") l.1)) with
  | .ok m => if m.check then .ok m else .error
  | r => r

end QuESo.IO
