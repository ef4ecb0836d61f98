import Verif.Proofs.Vtk
import Verif.Props.MeshUtilities
import Verif.Props.IO

/-!
# Properties C83, C84 and C52 with the printed numbers: VTK files and the output of a model

`Vtk.read ofBits file` (`Verif.Spec.Vtk`) is the grid that a file describes according to the VTK format.  `bits` and
`ofBits` are the bit patterns of numbers of type `double`.
-/
namespace QuESo.Props
open QuESo.IO QuESo.Spec QuESo.BGrid QuESo.Embedded QuESo.Mapping

theorem kept (enc : Encoding) (bits : ℚ → UInt64) (ofBits : UInt64 → ℚ) : Kept enc bits ofBits (floatValue enc bits ofBits) := by
  cases enc
  · exact fun x => rfl
  · exact fun x => fixedValue_near 15 x

/-! ## C83 VTK files -/

/-- The file of a mesh, in both encodings and on hosts of either byte order: it is written without an access outside a
vector or the buffer, follows the format, and describes one cell of type triangle for each triangle of the mesh, in the
same order, whose points are the corners of the triangle in the same order. -/
theorem C83_mesh (host : Endian) (enc : Encoding) (bits : ℚ → UInt64) (ofBits : UInt64 → ℚ) (m : Mesh ℚ) (hm : m.check = true)
    (hn : 3 * m.triangles.length ≤ 2 ^ 31) :
    ∃ file grid g, writeMeshVTK host enc bits m = some file ∧ Vtk.read ofBits file = some grid ∧ Kept enc bits ofBits g ∧
      grid.points.length = 3 * m.triangles.length ∧ grid.cells.length = m.triangles.length ∧
      grid.types = List.replicate m.triangles.length 5 ∧ grid.scalars = none ∧
      ∀ i < m.triangles.length, ∃ c, m.corners i = some c ∧
        grid.cellPoints i = some [mapPoint g c.x, mapPoint g c.y, mapPoint g c.z] := by
  obtain ⟨ts, hts⟩ := check_visit hm
  obtain ⟨v1, v2⟩ := visit_spec hts
  let cs : List (V3 (V3 ℚ)) := ts.map fun t => ⟨t.p1, t.p2, t.p3⟩
  have hcl : cs.length = m.triangles.length := by simp [cs, v1]
  have hc : ∀ i, m.corners i = cs[i]? := by
    intro i
    rw [v2 i]
    simp [cs]
  have hmap : (List.range m.triangles.length).mapM m.corners = some cs := by
    rw [← hcl]
    refine mapM_of_get _ _ _ (by simp) fun i a ha => ?_
    obtain ⟨-, rfl⟩ : i < cs.length ∧ i = a := by simpa [List.getElem?_range, List.getElem?_eq_some_iff] using ha
    exact hc i
  have hpl : (cs.flatMap fun c => [c.x, c.y, c.z]).length = 3 * m.triangles.length := by
    rw [List.length_flatMap, ← hcl]
    simp [Nat.mul_comm]
  refine ⟨_, _, floatValue enc bits ofBits, writeMesh_eq host enc bits m cs hmap hcl,
    read_grid enc bits ofBits (cs.flatMap fun c => [c.x, c.y, c.z]) ((List.range cs.length).map fun i => [3 * i, 3 * i + 1, 3 * i + 2]) 5
      (cs.length * 4) (by simp [Function.comp_def]) (by
        intro c hc
        obtain ⟨i, -, rfl⟩ := List.mem_map.1 hc
        simp) [] none (scalars_none enc ofBits _), kept enc bits ofBits, ?_, ?_, ?_, rfl, ?_⟩
  · rw [← hpl]; simp [gridOf]
  · simp [gridOf, hcl]
  · simp only [gridOf, List.length_map, List.length_range, hcl]
    rw [intValue_small enc (by norm_num)]
    rfl
  · intro i hi
    have hi' : i < cs.length := by omega
    refine ⟨cs[i], by rw [hc, List.getElem?_eq_getElem hi'], ?_⟩
    have hget : ∀ j, j < 3 → (cs.flatMap fun c => [c.x, c.y, c.z])[3 * i + j]? = ([cs[i].x, cs[i].y, cs[i].z] : List (V3 ℚ))[j]? := by
      intro j hj
      rw [flatMap_get 3 (fun c : V3 (V3 ℚ) => [c.x, c.y, c.z]) (fun _ => rfl) cs i j hj, List.getElem?_eq_getElem hi']
      rfl
    exact cellPoints_eq enc bits ofBits _ _ 5 none i (ids := [3 * i, 3 * i + 1, 3 * i + 2]) (by simp [hi']) (by
        intro id hid
        simp only [List.mem_cons, List.not_mem_nil, or_false] at hid
        omega) (vs := [cs[i].x, cs[i].y, cs[i].z]) (by
        have h0 := hget 0 (by omega)
        rw [Nat.add_zero] at h0
        simp only [List.mapM_cons, List.mapM_nil, h0, hget 1 (by omega), hget 2 (by omega)]
        rfl)

/-- The file of the elements: one cell of type hexahedron for each active element, in the order of the element views, with
the corners of its box as points. -/
theorem C83_elements (host : Endian) (enc : Encoding) (bits : ℚ → UInt64) (ofBits : UInt64 → ℚ) (s : State (Elem ℚ))
    (hn : 8 * s.numActive ≤ 2 ^ 31) :
    ∃ file grid g, writeElementsVTK host enc bits s = some file ∧ Vtk.read ofBits file = some grid ∧ Kept enc bits ofBits g ∧
      grid.points.length = 8 * s.numActive ∧ grid.cells.length = s.numActive ∧
      grid.types = List.replicate s.numActive 12 ∧ grid.scalars = none ∧
      ∀ i e, (s.views .all)[i]? = some e →
        grid.cellPoints i = some ((hexahedron e.2.2.bounds.global).map (mapPoint g)) := by
  have hvl : (s.views .all).length = s.numActive := by simp [State.views, State.numActive]
  refine ⟨_, _, floatValue enc bits ofBits, writeElements_eq host enc bits s,
    read_grid enc bits ofBits (elementVertices s) (hexCells s.numActive) 12 (s.numActive * 9) (hexCells_size _) (by
      intro c hc
      obtain ⟨i, -, rfl⟩ := List.mem_map.1 hc
      simp) [] none (scalars_none enc ofBits _), kept enc bits ofBits, ?_, ?_, ?_, rfl, ?_⟩
  · simp only [gridOf, List.length_map, elementVertices_length]; omega
  · simp [gridOf, hexCells]
  · simp only [gridOf, hexCells, List.length_map, List.length_range]
    rw [intValue_small enc (by norm_num)]
    rfl
  · intro i e he
    have hi : i < s.numActive := by rw [← hvl]; exact (List.getElem?_eq_some_iff.1 he).1
    refine cellPoints_eq enc bits ofBits _ _ 12 none i (ids := (List.range 8).map fun j => 8 * i + j) (by simp [hexCells, hi]) (by
        intro id hid
        obtain ⟨j, hj, rfl⟩ := List.mem_map.1 hid
        rw [List.mem_range] at hj
        omega) ?_
    have hget : ∀ j, j < 8 → (elementVertices s)[8 * i + j]? = (hexahedron e.2.2.bounds.global)[j]? := by
      intro j hj
      unfold elementVertices
      rw [flatMap_get 8 _ (fun _ => rfl) _ i j hj, he]
      rfl
    refine mapM_of_get _ _ _ (by simp [hexahedron]) fun j a ha => ?_
    obtain ⟨hj, rfl⟩ : j < 8 ∧ 8 * i + j = a := by simpa [List.getElem?_eq_some_iff] using ha
    exact hget j hj

/-- The file of the integration points: the points of all active elements in global coordinates, in the order of the
element views, each as a cell of type vertex, with their weights in global space. -/
theorem C83_points (host : Endian) (enc : Encoding) (bits : ℚ → UInt64) (ofBits : UInt64 → ℚ) (s : State (Elem ℚ))
    (pts : List (VolPoint ℚ)) (hp : pts = (s.views .all).flatMap fun e => e.2.2.points.map fun q => ipToGlobal q e.2.2.bounds)
    (hn : pts.length ≤ 2 ^ 31) :
    ∃ file grid g, writePointsVTK host enc bits s = some file ∧ Vtk.read ofBits file = some grid ∧ Kept enc bits ofBits g ∧
      grid.points = pts.map (fun q => mapPoint g q.pos) ∧ grid.scalars = some (pts.map fun q => g q.weight) ∧
      grid.types = List.replicate pts.length 1 ∧ grid.cells = (List.range pts.length).map fun (i : Nat) => [(i : Int)] := by
  have hpts : allPoints s = pts := hp.symm
  refine ⟨_, _, floatValue enc bits ofBits, writePoints_eq host enc bits s,
    read_grid enc bits ofBits ((allPoints s).map (·.pos)) ((List.range (allPoints s).length).map fun i => [i]) 1 ((allPoints s).length * 2)
      (by simp [Function.comp_def]) (by
        intro c hc
        obtain ⟨i, -, rfl⟩ := List.mem_map.1 hc
        simp) _ (some ((allPoints s).map fun q => floatValue enc bits ofBits q.weight)) (scalars_some enc ofBits _ (by
          rw [List.length_map]
          exact Reads.many (allPoints s) (fun q => floatBytes enc bits 10 q.weight) (fun q => floatValue enc bits ofBits q.weight)
            fun q _ => reads_float enc bits ofBits (by decide) q.weight)), kept enc bits ofBits, ?_, ?_, ?_, ?_⟩
  · simp [gridOf, hpts, Function.comp_def]
  · simp [gridOf, hpts]
  · simp only [gridOf, List.length_map, List.length_range, hpts]
    rw [intValue_small enc (by norm_num)]
    rfl
  · simp only [gridOf, hpts, List.map_map]
    refine List.map_congr_left fun i hi => ?_
    rw [List.mem_range] at hi
    simp [intValue_small enc (show i < 2 ^ 31 by omega)]

/-- If the weights are numbers of type `double`, the weights in the file of the integration points add up to the represented volume that
is reported for the model. -/
theorem C83_weights (host : Endian) (bits : ℚ → UInt64) (ofBits : UInt64 → ℚ) (s : State (Elem ℚ))
    (hb : ∀ e ∈ s.views .all, ∀ q ∈ e.2.2.points, ofBits (bits (q.weight * detJ e.2.2.bounds)) = q.weight * detJ e.2.2.bounds)
    (inp : VolumeInput ℚ) :
    ∃ file grid w, writePointsVTK host .binary bits s = some file ∧ Vtk.read ofBits file = some grid ∧ grid.scalars = some w ∧
      w.sum = (volumeInfo inp s).represented := by
  refine ⟨_, _, (allPoints s).map fun q => floatValue .binary bits ofBits q.weight, writePoints_eq host .binary bits s,
    read_grid .binary bits ofBits ((allPoints s).map (·.pos)) ((List.range (allPoints s).length).map fun i => [i]) 1 ((allPoints s).length * 2)
      (by simp [Function.comp_def]) (by
        intro c hc
        obtain ⟨i, -, rfl⟩ := List.mem_map.1 hc
        simp) _ (some ((allPoints s).map fun q => floatValue .binary bits ofBits q.weight)) (scalars_some .binary ofBits _ (by
          rw [List.length_map]
          exact Reads.many (allPoints s) (fun q => floatBytes .binary bits 10 q.weight) (fun q => floatValue .binary bits ofBits q.weight)
            fun q _ => reads_float .binary bits ofBits (by decide) q.weight)), rfl, ?_⟩
  show _ = (accumulate (s.views .all)).1
  have hacc : (accumulate (s.views .all)).1 = 0 + ((s.views .all).flatMap fun e => (globalPoints e.2.2).map (·.weight)).sum :=
    accumulate_fst (s.views .all) (0, 0, 0)
  rw [hacc, zero_add, ← List.map_flatMap]
  show (List.map (fun q => floatValue .binary bits ofBits q.weight) (allPoints s)).sum = (List.map (·.weight) (allPoints s)).sum
  congr 1
  refine List.map_congr_left fun q hq => ?_
  obtain ⟨e, he, hq⟩ := List.mem_flatMap.1 hq
  obtain ⟨q', hq', rfl⟩ := List.mem_map.1 hq
  exact hb e he q' hq'

/-- The bound on the number of elements in `C83_elements` is needed: the indices of points in binary files are numbers of
32 bits, so cell number `2 ^ 28` refers to points that do not exist and cell number `2 ^ 29` to the points of the first
element.  Nothing reports this. -/
theorem C83_false_large (host : Endian) (bits : ℚ → UInt64) (ofBits : UInt64 → ℚ) (s : State (Elem ℚ)) (hn : 2 ^ 28 < s.numActive) :
    ∃ file grid, writeElementsVTK host .binary bits s = some file ∧ Vtk.read ofBits file = some grid ∧
      grid.cellPoints (2 ^ 28) = none ∧ (2 ^ 29 < s.numActive → grid.cellPoints (2 ^ 29) = grid.cellPoints 0) := by
  refine ⟨_, _, writeElements_eq host .binary bits s,
    read_grid .binary bits ofBits (elementVertices s) (hexCells s.numActive) 12 (s.numActive * 9) (hexCells_size _) (by
      intro c hc
      obtain ⟨i, -, rfl⟩ := List.mem_map.1 hc
      simp) [] none (scalars_none .binary ofBits _), ?_, ?_⟩
  · have : (hexCells s.numActive)[2 ^ 28]? = some ((List.range 8).map fun j => 8 * 2 ^ 28 + j) := by
      rw [hexCells, List.getElem?_map, List.getElem?_range hn]; rfl
    unfold VtkGrid.cellPoints gridOf
    simp only [List.getElem?_map, this, Option.map_some, Option.bind_some]
    rfl
  · intro h
    have h1 : (hexCells s.numActive)[2 ^ 29]? = some ((List.range 8).map fun j => 8 * 2 ^ 29 + j) := by
      rw [hexCells, List.getElem?_map, List.getElem?_range h]; rfl
    have h0 : (hexCells s.numActive)[0]? = some ((List.range 8).map fun j => 8 * 0 + j) := by
      simp [hexCells, show 0 < s.numActive by omega]
    unfold VtkGrid.cellPoints gridOf
    simp only [List.getElem?_map, h1, h0, Option.map_some]
    rfl

/-- A grid with a full and a trimmed element, used in the examples. -/
def exVtkState : State (Elem ℚ) :=
  { untrimmed := [(1, ⟨⟨⟨⟨0, 0, 0⟩, ⟨1, 2, 1⟩⟩, ⟨⟨0, 0, 0⟩, ⟨1, 1, 1⟩⟩⟩, [⟨⟨1/2, 1/2, 1/2⟩, 1⟩]⟩)]
    trimmed := [(2, ⟨⟨⟨⟨1, 0, 0⟩, ⟨2, 2, 1⟩⟩, ⟨⟨1, 0, 0⟩, ⟨2, 1, 1⟩⟩⟩, [⟨⟨1, 1/4, 0⟩, 1/2⟩]⟩)]
    idMap := [(1, ⟨false, 0⟩), (2, ⟨true, 0⟩)]
    locked := true }

/-- C83 is not empty: the files of the integration points and of a mesh. -/
example : (writePointsVTK .little .ascii (fun _ => 0) exVtkState).bind (Vtk.read fun _ => 0) =
    some ⟨[⟨1/2, 1, 1/2⟩, ⟨1, 1/2, 0⟩], [[0], [1]], [1, 1], some [2, 1]⟩ := by decide +kernel
example : (writeMeshVTK .big .ascii (fun _ => 0) exMesh).bind (Vtk.read fun _ => 0) =
    some ⟨[⟨0, 0, 0⟩, ⟨1, 0, 0⟩, ⟨0, 1, 0⟩, ⟨1, 0, 0⟩, ⟨0, 0, 0⟩, ⟨0, 0, 2⟩], [[0, 1, 2], [3, 4, 5]], [5, 5], none⟩ := by decide +kernel
example : 8 * exVtkState.numActive ≤ 2 ^ 31 := by decide +kernel
example : ∀ e ∈ exVtkState.views .all, ∀ q ∈ e.2.2.points,
    (fun u : UInt64 => (u.toNat : ℚ)) ((fun x : ℚ => UInt64.ofNat x.num.toNat) (q.weight * detJ e.2.2.bounds)) = q.weight * detJ e.2.2.bounds := by
  decide +kernel

/-! ## C52 STL files in text format, with the numbers as they are printed -/

/-- `C52_round_trip` for the numbers that are printed, with six decimals: the coordinates read are within half a unit of
the last decimal, if the rounded corners are equal or further apart than the tolerance. -/
theorem C52_six_decimals (tol : ℚ) (ht : 0 < tol) (lookup : List (V3 ℚ) → V3 ℚ → Option Nat) (hl : MapLookup (pointLt tol) lookup)
    (normalOf : V3 ℚ → V3 ℚ → V3 ℚ → V3 ℚ) (m : Mesh ℚ) (hm : m.check = true) :
    ∃ g : ℚ → ℚ, (∀ x, |g x - x| ≤ 1 / (2 * 10 ^ 6)) ∧ (Separated tol (meshCorners g m) →
      ∃ file m', writeAscii (fixedText 6) m = some file ∧ readAscii Vtk.decimalNumber lookup normalOf file = .ok m' ∧
        m'.triangles.length = m.triangles.length ∧
        ∀ i, m'.corners i = (m.corners i).map fun c => ⟨mapPoint g c.x, mapPoint g c.y, mapPoint g c.z⟩) := by
  refine ⟨fixedValue 6, fixedValue_near 6, fun hs => ?_⟩
  exact C52_round_trip (fixedText 6) (fixedText_number 6) Vtk.decimalNumber (fixedValue 6) (decimalNumber_fixed 6 (by decide)) tol ht
    lookup hl normalOf m hm hs

/-- The hypothesis holds for the mesh of the examples: its coordinates have at most six decimals. -/
example : (writeAscii (fixedText 6) exMesh).map (readAscii Vtk.decimalNumber (exLookup (1/2)) exNormal) =
    some (.ok ⟨[⟨0, 0, 0⟩, ⟨1, 0, 0⟩, ⟨0, 1, 0⟩, ⟨0, 0, 2⟩], [⟨0, 1, 2⟩, ⟨1, 0, 3⟩], [⟨0, 0, 0⟩, ⟨0, 0, 0⟩]⟩) := by decide +kernel

/-! ## C84 Files of conditions and of a model -/

/-- The STL file of a condition is the STL file of one mesh, whose triangles are those of its segments one after the
other: what is proved about files of meshes (C40, C52) holds for them. -/
theorem C84_stl (host : Endian) (toF : ℚ → UInt32) (fmt : ℚ → List UInt8) (ms : List (Mesh ℚ)) (hc : ∀ m ∈ ms, m.check = true) :
    ∃ M : Mesh ℚ, ∃ tss : List (List (Tri ℚ)), M.check = true ∧ ms.map Mesh.visit = tss.map some ∧ M.visit = some tss.flatten ∧
      writeConditionSTL host toF ms = writeSTL host toF M ∧ writeConditionAscii fmt ms = writeAscii fmt M ∧
      (writeSTL host toF M).isSome = true ∧ (writeAscii fmt M).isSome = true := by
  obtain ⟨tss, ht⟩ := visits hc
  obtain ⟨M, h1, h2⟩ := append_all ms Mesh.empty [] tss rfl rfl ht
  rw [List.nil_append] at h2
  have hv : List.Forall₂ (fun (m : Mesh ℚ) ts => m.visit = some ts) ms tss := ht.imp fun _ _ h => h.2
  refine ⟨M, tss, h1, ?_, h2, writeConditionSTL_eq host toF hv h2, writeConditionAscii_eq fmt hv h2, ?_, ?_⟩
  · clear h2 h1 ht hc
    induction hv with
    | nil => rfl
    | cons h _ ih => rw [List.map_cons, h, ih, List.map_cons]
  · unfold writeSTL
    rw [h2, Option.bind_some, session_eq]
    rfl
  · unfold writeAscii
    rw [h2]
    rfl

/-- What is in the output directory when conditions have different ids: the files of the elements and of the integration
points, the model info and for each condition a file with its triangles.  No other file changes. -/
theorem C84_files (host : Endian) (bits : ℚ → UInt64) (toF : ℚ → UInt32) (dir : List UInt8) (s : State (Elem ℚ))
    (conditions : List (Nat × List (Mesh ℚ))) (info : List UInt8) (fs : Files) (hid : (conditions.map (·.1)).Nodup)
    (hc : ∀ c ∈ conditions, ∀ m ∈ c.2, m.check = true) :
    ∃ fs' elements points, writeModel host bits toF dir s conditions info fs = some fs' ∧
      writeElementsVTK host .binary bits s = some elements ∧ fs'.get (dir ++ ascii "/elements.vtk") = some elements ∧
      writePointsVTK host .binary bits s = some points ∧ fs'.get (dir ++ ascii "/integration_points.vtk") = some points ∧
      fs'.get (dir ++ ascii "/model_info.json") = some info ∧
      (∀ c ∈ conditions, ∃ b, writeConditionSTL host toF c.2 = some b ∧
        fs'.get (dir ++ ascii "/condition_id_" ++ natText c.1 ++ ascii ".stl") = some b) ∧
      ∀ name, name ∉ [dir ++ ascii "/elements.vtk", dir ++ ascii "/integration_points.vtk", dir ++ ascii "/model_info.json"] →
        (∀ c ∈ conditions, name ≠ dir ++ ascii "/condition_id_" ++ natText c.1 ++ ascii ".stl") → fs'.get name = fs.get name := by
  have hs : ∀ c ∈ conditions, (writeConditionSTL host toF c.2).isSome = true := by
    intro c hcm
    obtain ⟨M, tss, -, -, -, h1, -, h2, -⟩ := C84_stl host toF (fun _ => []) c.2 (hc c hcm)
    rw [h1]; exact h2
  have ha := writeElements_eq host .binary bits s
  have hb := writePoints_eq host .binary bits s
  generalize fileBytes _ _ _ _ _ _ _ _ = a at ha
  generalize fileBytes _ _ _ _ _ _ _ _ = b at hb
  obtain ⟨fs', h1, h2, h3⟩ := writeConditions_spec host toF dir conditions
    ((fs.put (dir ++ ascii "/elements.vtk") a).put (dir ++ ascii "/integration_points.vtk") b) hid hs
  have e1 : ∀ id, conditionFile dir id ≠ dir ++ ascii "/elements.vtk" :=
    conditionFile_ne dir _ (Or.inl (by decide +kernel))
  have e2 : ∀ id, conditionFile dir id ≠ dir ++ ascii "/integration_points.vtk" :=
    conditionFile_ne dir _ (Or.inl (by decide +kernel))
  have e3 : ∀ id, conditionFile dir id ≠ dir ++ ascii "/model_info.json" :=
    conditionFile_ne dir _ (Or.inr (by decide +kernel))
  have d1 : dir ++ ascii "/elements.vtk" ≠ dir ++ ascii "/integration_points.vtk" :=
    fun h => absurd (List.append_cancel_left h) (by decide +kernel)
  have d2 : dir ++ ascii "/elements.vtk" ≠ dir ++ ascii "/model_info.json" :=
    fun h => absurd (List.append_cancel_left h) (by decide +kernel)
  have d3 : dir ++ ascii "/integration_points.vtk" ≠ dir ++ ascii "/model_info.json" :=
    fun h => absurd (List.append_cancel_left h) (by decide +kernel)
  refine ⟨fs'.put (dir ++ ascii "/model_info.json") info, a, b, by simp only [writeModel, ha, hb, h1, Option.bind_some, Option.map_some], ha, ?_, hb, ?_, get_put_self _ _ _, ?_, ?_⟩
  · rw [get_put_other _ d2, h3 _ fun c _ => (e1 c.1).symm, get_put_other _ d1, get_put_self]
  · rw [get_put_other _ d3, h3 _ fun c _ => (e2 c.1).symm, get_put_self]
  · intro c hcm
    obtain ⟨x, hx⟩ := Option.isSome_iff_exists.1 (hs c hcm)
    refine ⟨x, hx, ?_⟩
    show Files.get _ (conditionFile dir c.1) = _
    rw [get_put_other _ (e3 c.1), h2 c hcm, hx]
  · intro name hn hcn
    simp only [List.mem_cons, List.not_mem_nil, or_false, not_or] at hn
    rw [get_put_other _ hn.2.2, h3 name hcn, get_put_other _ hn.2.1, get_put_other _ hn.1]

/-- With equal ids triangles get lost: the ids come from the settings and nothing requires them to be different, the file
of a condition is overwritten by that of a later condition with the same id. -/
theorem C84_false_equal_ids (host : Endian) (bits : ℚ → UInt64) (toF : ℚ → UInt32) (dir : List UInt8) (s : State (Elem ℚ)) (id : Nat)
    (ms ms' : List (Mesh ℚ)) (info : List UInt8) (fs : Files) (hc : ∀ m ∈ ms, m.check = true) (hc' : ∀ m ∈ ms', m.check = true) :
    ∃ fs' b, writeModel host bits toF dir s [(id, ms), (id, ms')] info fs = some fs' ∧ writeConditionSTL host toF ms' = some b ∧
      fs'.get (dir ++ ascii "/condition_id_" ++ natText id ++ ascii ".stl") = some b ∧
      fs'.length ≤ fs.length + 4 := by
  have hs : ∀ ms : List (Mesh ℚ), (∀ m ∈ ms, m.check = true) → (writeConditionSTL host toF ms).isSome = true := by
    intro ms h
    obtain ⟨M, tss, -, -, -, h1, -, h2, -⟩ := C84_stl host toF (fun _ => []) ms h
    rw [h1]; exact h2
  obtain ⟨x, hx⟩ := Option.isSome_iff_exists.1 (hs ms hc)
  obtain ⟨y, hy⟩ := Option.isSome_iff_exists.1 (hs ms' hc')
  have ha := writeElements_eq host .binary bits s
  have hb := writePoints_eq host .binary bits s
  generalize fileBytes _ _ _ _ _ _ _ _ = a at ha
  generalize fileBytes _ _ _ _ _ _ _ _ = b at hb
  have e3 : conditionFile dir id ≠ dir ++ ascii "/model_info.json" :=
    conditionFile_ne dir _ (Or.inr (by decide +kernel)) id
  refine ⟨((((fs.put (dir ++ ascii "/elements.vtk") a).put (dir ++ ascii "/integration_points.vtk") b).put (conditionFile dir id) x).put
    (conditionFile dir id) y).put (dir ++ ascii "/model_info.json") info, y, by simp only [writeModel, writeConditions, ha, hb, hx, hy, Option.bind_some, Option.map_some], hy, ?_, ?_⟩
  · show Files.get _ (conditionFile dir id) = _
    rw [get_put_other _ e3, get_put_self]
  · rw [put_put]
    refine (put_length _ _ _).trans (Nat.succ_le_succ ?_)
    refine (put_length _ _ _).trans (Nat.succ_le_succ ?_)
    exact (put_length _ _ _).trans (Nat.succ_le_succ (put_length _ _ _))

/-- C84 is not empty: two conditions with different ids and valid meshes. -/
example : ((([(1, [exMesh]), (2, [exMesh, exMesh])] : List (Nat × List (Mesh ℚ)))).map (·.1)).Nodup ∧
    ∀ c ∈ ([(1, [exMesh]), (2, [exMesh, exMesh])] : List (Nat × List (Mesh ℚ))), ∀ m ∈ c.2, m.check = true := by decide +kernel

end QuESo.Props
