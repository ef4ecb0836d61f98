# Formal model of QuESo in Lean 4

## Trusted base

* Lean 4.33.0's kernel and the three standard axioms `propext`, `Classical.choice`,
  `Quot.sound`. No own axioms, no `sorry`, no `native_decide`, no `bv_decide`.
  The axioms of each property theorem are listed in [AXIOMS.md](AXIOMS.md)
  (output of `#print axioms`).
* The reading of the C++ code: every definition in `lean/Verif/Model/*` carries a comment
  that cites the file and lines of `/repo` it models. The code is not run.
* **Numbers.** `double` is replaced by an exact ordered field (a variable `K`, `ℚ` or `ℝ`).
  Rounding is modelled for the boxes of the cells, the Gauss points of full cells, the maps between the spaces, the boxes of the octree, the clipping of triangles, the test of triangles against boxes and the weights of element rows
  (`Model/Rounding*.lean`, C18, C111 to C116: every operation rounded, for
  all arithmetics with the properties listed in `Spec/Rounding.lean`, which IEEE 754 double precision is proved to have;
  no overflow, no subnormal numbers). Elsewhere it is not modelled. Infinities and NaN are modelled where the code relies on them:
  in the ray-box test (`1/0`, `0 * inf`) and in the residual of the moment fitting. Elsewhere they
  are not modelled. The code's tolerances are kept as explicit constants or as hypotheses `0 ≤ eps`.
  Tables of quadrature rules are modelled as the decimals in the source, not as the nearest doubles.
  `std::size_t` is `Nat`; where overflow matters (cell numbering, loop counters of type `int`, triangle count,
  capacity of the tree, text-to-integer conversion) the wrap-around is modelled explicitly.
* **Square roots** (norms, areas) are an oracle with its defining property, or `Real.sqrt`.
* **Undefined behaviour** (out-of-range index, reading uninitialised values, use of moved memory, endless
  loops) is a distinct outcome (`none`/`Except.error .ub`/`Fault.diverges`) of the modelled function.
* **Threads.** OpenMP regions are modelled as an arbitrary order (a permutation) of the critical sections;
  each critical section is atomic. For the fill this is justified by a model of the steps of the threads
  (`Model/Parallel.lean`): every interleaving gives the same classification (`C13_interleavings`), and no two
  threads access the same object without synchronization (C109). The interleavings are sequentially consistent,
  which is what C++ guarantees for programs without data races. The OpenMP runtime itself is not modelled.
* **External calls** (`std::sort` with a comparison that is no order, random numbers, SAT test
  results where only the surrounding logic is of interest) are function parameters; theorems
  quantify over all of them.

## Layout

* `lean/Verif/Model/*.lean` — the model, one file per C++ component.
* `lean/Verif/Spec/*.lean` — small specifications that do not mention the model.
* `lean/Verif/Proofs/*.lean` — helper lemmas. `Proofs/RuleCerts` holds generated, kernel-checked certificates
  for the quadrature tables.
* `lean/Verif/Props/*.lean` — the property theorems with their non-vacuity examples.
* `seeded/LOG.jsonl` — wrong programs against which the theorems were tested.

## What is modelled

| C++ source | model | not modelled of it |
|---|---|---|
| `containers/grid_indexer.hpp` | `Model/GridIndexer.lean` | – |
| `containers/background_grid.hpp`, `element_base.hpp` | `Model/BackgroundGrid.lean` | conditions' element pointers, iterators |
| `containers/triangle_mesh.hpp` | `Model/Mesh.lean` | `Append` of a mesh to itself (undefined behaviour) |
| `containers/clipped_triangle_mesh.hpp`, `embedding/clipper.*`, `polygon.*` | `Model/Clipper.lean` | – |
| `containers/data_set.hpp`, `dictionary.hpp`, `includes/keys.hpp` | `Model/Settings.lean`, printing in `Model/Json.lean` | – |
| `containers/cell_domain.hpp` | `Model/CellDomain.lean` | – |
| `embedding/aabb_primitive.*`, `ray_aabb_primitive.*` | `Model/AABB.lean` | rounding |
| `embedding/aabb_tree.*` | `Model/AABBTree.lean`: node array with indices, capacity, free list | – |
| `embedding/geometry_query.*` | `Model/GeometryQuery.lean` | – |
| `embedding/brep_operator.*`, `trimmed_domain.cpp` | `Model/BRep.lean` | – |
| `embedding/trimmed_domain.h` (constructor), edges of `containers/clipped_triangle_mesh.hpp`, one attempt of `pGetTrimmedDomain` | `Model/TrimmedDomain.lean` | the answer of `IsInside` is a parameter (C59) |
| `embedding/trimmed_domain_on_plane.*` | `Model/PlaneDomain.lean` | hash details of the vertex set (an ordered set) |
| `embedding/flood_fill.*` | `Model/FloodFill.lean` | – |
| `embedding/octree.*` | `Model/Octree.lean` | – |
| `embedded_model.cpp`, `embedding/element_builders.hpp` | `Model/EmbeddedModel.lean` | timing, log text |
| `quadrature/single_element.hpp`, `integration_points_factory_1d.cpp`, all tables | `Model/SingleElement.lean`, `Model/Rules.lean`, `Model/Tables` | – |
| `quadrature/multiple_elements.hpp` | `Model/MultipleElements.lean` | – |
| `quadrature/trimmed_element.hpp` | `Model/MomentFitting.lean` | – |
| `solvers/nnls.cpp`, `external_libraries/nnls/nnls_impl.h` | `Model/NNLS.lean`; an arbitrary solver in theorems that hold for all | the printed messages; final values of the working array `w` |
| `utilities/mesh_utilities.cpp`, `triangle_utilities.hpp` | `Model/MeshUtilities.lean` | – |
| `utilities/triangle_gauss_legendre_integration_points.hpp`, `triangle_utilities.hpp` (points), `trimmed_domain.h` (boundary points) | `Model/TriangleRule.lean` | – |
| `utilities/mapping_utilities.hpp`, `polynomial_utilities.hpp`, `math_utilities.hpp` | `Model/Mapping.lean`, `Model/Polynomial.lean`, `Model/Vector.lean` | – |
| `io/io_utilities.*`, `binary_buffer_writer.hpp`, `EmbeddedModel::WriteModelToFile` | `Model/BinaryIO.lean`, `Model/Vtk.lean`, JSON writer in `Model/Json.lean` | conversion of numbers to bit patterns is a parameter; infinities and NaN in text files |
| `python/scripts/json_io.py`, `dictionary_binder_helper.hpp` with the overload resolution of pybind11, Python's `json.load` | `Model/Json.lean` | escapes `\u`, `NaN`, encoding of characters |
| `includes/register_keys.hpp`, `includes/dictionary_factory.hpp`, calls that change settings (`add_dictionary_to_python.cpp`) | `Model/SettingsFactory.lean` | - |
| model info: `CreateModelInfo`, `CreateConditionInfo`, what `ComputeVolume`, `ComputeCondition`, `WriteModelToFile` and the functions for printing read and write there, `containers/condition.hpp` | `Model/ModelInfo.lean` | measured times are arguments; a division by a volume or area of zero gives zero; what is printed; `GetRequiredValue` of a missing id is an error (without assertions the program ends) |
| `python/scripts/b_spline_volume.py`, `helper.py`, `PyQuESo.GetIntegrationPoints` | `Model/BSplineVolume.lean` | numpy and scipy are modelled after their documentation |
| `kratos_interface/model_part_utilities.py`, `weak_bcs.py`, `bounding_box_bcs.py`, `ModifyInitialGeometry` of `custom_analysis_stage.py` | `Model/Kratos.lean` | Kratos itself: its containers are lists ordered by ids, an id that exists already is an error, and `CreateQuadraturePointGeometries` gives one geometry with all points; moved nodes |
| `triangle_mesh_view.hpp`, `triangle_proxies.hpp`, memory of `triangle_mesh.hpp`, parts of `add_containers_to_python.cpp` | `Model/MeshView.lean` | memory is numbered blocks; the growth policy of vectors is a parameter; the address of a mesh stays the same |
| `PyQuESo.py`, `UniqueHolder` | `Model/PyQuESo.lean` | file systems without links and permissions; `shutil.rmtree` and `os.mkdir` as documented |
| `dereference_iterator.hpp`, `DictionaryList` in `add_dictionary_to_python.cpp` | `Model/DictionaryList.lean` | memory as for `MeshView`; pybind11's `make_iterator` as documented; a dictionary is an arbitrary value at an address |
| lifetimes: `add_containers_to_python.cpp`, `add_dictionary_to_python.cpp`, `UniqueHolder`, rules of pybind11 | `Model/Lifetime.lean` | objects are numbered and memory is divided into parts that are freed as a whole; the content of a model does not change after objects were taken from it; freed memory is not used again; no reference cycles |
| memory accesses of the parallel loops in `flood_fill.cpp`, `embedded_model.cpp`, `background_grid.hpp`, `element_builders.hpp`, `mesh_utilities.cpp` | `Model/Parallel.lean` | objects on the stack of an iteration left out; a vector is one object for growing and one per element for `v[i]`; what no loop writes is one object. The logs of the fill and the merge are kept by functions that are proved to do the same as those of `Model/FloodFill.lean`; those of the other loops are read off the code |
| exceptions: `CreateAllFromSettings`, `CreateVolume`, `CreateCondition` in `embedded_model.h` and the parallel loops of `embedded_model.cpp` | `Model/Exceptions.lean` | of files only whether they can be read or written; an exception that leaves an iteration of an OpenMP loop terminates the process (OpenMP specification; nothing in the library catches it); the construction of an element raises none |
| rounding in `grid_indexer.hpp` L451-460 | `Model/Rounding.lean` | unbounded exponents; products and sums may be rounded once (fused) or twice |
| rounding in `single_element.hpp` L72-102 | `Model/RoundingRule.lean` | as above; tables are the rounded decimals of the source |
| rounding in `mapping_utilities.hpp` L33-95 | `Model/RoundingMap.lean` | as above; points only, not weights and normals |
| rounding in `octree.cpp` L28-88, L116-123 | `Model/RoundingOctree.lean` | as above; the boxes of one call of `Refine`; the classification is a parameter |
| rounding in `clipper.cpp` L25-221 | `Model/RoundingClipper.lean` | as above; a quotient by zero is zero (not reached) |

Not modelled at all: the other parts of the python bindings and scripts, the solution stage of Kratos, logger, timer, tests.

## Findings

Properties that a user would expect and that the model refutes. Each has a theorem with a concrete witness.

| theorem | what goes wrong |
|---|---|
| `C01_zero_cells_ub` | a grid with zero cells in a direction is accepted; the index conversion divides by zero |
| `C05_needs_ordered_bounds` | exchanged bounds of the grid are not rejected; the cells leave the domain |
| `C09_false_of_code` | the neighbour lookup at the end of a row hands out the first element of the next row |
| `C13_false_of_code` | the classification depends on the thread count if the geometry test is not symmetric |
| `C16_false_of_code`, `C17_false_of_code` | the growth of boxes wraps at row ends: boxes that are no cuboids, wrong weights |
| `C18_not_shift_invariant` | the ranking of elements depends on where they lie in the grid |
| `C23_false_of_code` | a triangle outside of the box is returned unchanged |
| `C26_empty_query_ub`, `C26_capacity_wraps` | a query of an empty tree reads out of range; the capacity of huge trees wraps |
| `C28_zero_component_not_exact` | a ray with a zero component can be reported to hit a box it misses (`0 * inf`) |
| `C31_false_of_code`, `C31_false_for_zero_target` | fewer candidate points than functions reads out of range; a zero target fits nothing |
| `C32_false_of_code`, `C32_false_with_fictitious` | elements may keep only fictitious points |
| `C36_hanging_nodes` | refinement leaves hanging nodes |
| `C40_false_big_endian`, `C40_false_close_corners` | binary STL on big-endian hosts; corners closer than the tolerance are merged |
| `C44_upper_bound_not_checked`, `C44_zero_spans` | accepted settings read behind or before the tables |
| `C45_false_of_code` | a blank after a key name loses the name |
| `C46_same_point_twice`, `C47_false_of_code` | the vertex comparison with tolerance is no order |
| `C51_false_of_code` | cells at the end of the domain vote against a wrapped cell |
| `C52_name_with_facet` | a solid whose name contains `facet` is not read back |
| `C83_false_large` | binary VTK files hold 32-bit indices: with more than 2^28 elements cells refer to points that do not exist or to points of other elements; nothing reports it |
| `C88_false_of_code` | `PyQuESo.GetIntegrationPoints` calls `Weight()`, which the bindings do not export (they export `weight`): an exception for every model with a trimmed element |
| `C89_zero_direction_false_of_code` | a surface load with a direction of length zero: the exception is constructed but not raised, and loads that are not numbers are added |
| `C91_factor_false_of_code` | all penalty supports share one factor: the last one that is added replaces the factors of all others |
| `C92_overlap_false_of_code` | two Neumann conditions on the same nodes: the second overwrites the loads of the first, and the model carries twice the second force |
| `C93_append_false_of_code` | reading a model part into a mesh that is not empty connects wrong vertices |
| `C96_later_false_of_code`, `C96_foreign_later_false_of_code` | a view reads freed memory, or old normals, for single triangles with normals after the mesh was changed |
| `C97_triangle_object_false_of_code` | a triangle object (also in Python) refers to freed memory after vertices were added |
| `C97_append_self_false_of_code` | a mesh that is appended to itself reads freed memory |
| `C98_add_triangle_false_of_code`, `C98_segment_item_false_of_code` | indices out of range from Python are undefined behaviour instead of errors |
| `C99_directory_false_of_code` | an empty output directory name, `.` or `..` deletes all files of the working directory or of the directory above |
| `C99_output_false_of_code` | an absolute output directory name prepares another directory than the one written to |
| `C100_run_false_of_code` | a run whose settings do not pass the check loses the settings |
| `C104_append_false_of_code` | a Python loop over a `DictionaryList` whose body appends to the list has undefined behaviour (the iterator to the end is stored at the start) |
| `C104_index_false_of_code` | `DictionaryList.__getitem__` does not check the index: undefined behaviour instead of `IndexError` |
| `C105_lower_face_lost`, `C105_false_of_code` | conditions are clipped by cells moved by 30 zero tolerances in the positive directions, so a surface in a lower face of the background grid is in no cell: the condition has no segments, 0 percent are reported, and no warning is printed, because the surface is within the bounds |
| `C101_false_of_code` | clipping a closed surface leaves a gap if an edge runs in the box at less than a tenth of the snap tolerance from a face: the triangle on one side is left out, the one on the other side is kept, and the edge is not recorded for closing |
| `C102_false_of_code` | the total time is not the sum of its parts after two writings: the time for writing is overwritten, the total is added up |
| `C84_false_equal_ids` | conditions with equal ids (nothing forbids them) overwrite each other's file |
| `C54_false_of_code` | small area vectors become zero |
| `C55_empty_mesh_ub` | a search in an empty mesh is undefined |
| `C56_false_of_code` | a triangle parallel to the ray reads uninitialised variables |
| `C63_parallel_false_of_code` | the parallel area and volume are zero for 2^31 triangles (loop counter of type `int`) |
| `C64_small_false_of_code` | computed normals of triangles below the tolerance are zero, and so is the volume of small meshes |
| `C68_false_of_code` | the loop counter is too small for huge grids |
| `C70_false_of_code` | a second volume computation doubles points |
| `C76_degree_seven_false_of_code` | the rule of the boundary points (12 points) is not exact for degree 7, so moments with orders that add up to more than five are not integrated exactly |
| `C72_false_of_code` | closing a face uses moved memory if more vertices are inserted than reserved |
| `C78_three_false_of_code` | three edges of different orientation that meet in one point of the upper side are all ignored; the side is closed completely or not at all |
| `C79_false_of_code` | texts are not escaped: a file name with a quotation mark makes a settings file that is no JSON |
| `C80_false_no_conditions` | settings without conditions, in particular new ones, are written with an empty list, which the reader rejects with an `IndexError` |
| `C80_false_negative` | a negative whole number (modulus -5) is written as `-5`; the bindings take it for a truth value and raise an exception |
| `C80_false_backslash`, `C80_false_not_set` | backslashes in texts are read as escapes (`data\tube.stl` gets a tabulator); the text `Not Set.` is read as not set |
| `C108_elements_false_of_code` | `EmbeddedModel.GetElements` hands out copies of views without `keep_alive`: an element that is used after the model was released reads freed memory |
| `C108_triangles_false_of_code`, `C108_segments_false_of_code` | triangles taken from a mesh, and condition segments taken in a loop (not by index), do not keep the mesh or the model: use after free when the others are released |
| `C108_settings_false_of_code`, `C108_refused_false_of_code` | a reference to settings taken before they are handed to a model dangles after the model is released, also if the program asked the model for its settings again (pybind11 gives the same object), and at once if the check of the settings fails |
| `C108_grid_false_of_code` | `BackgroundGrid.GetElements` never returns: `keep_alive` for a Python list raises an exception |
| `C109_false_of_code` | before the fill every thread of a parallel region assigns the size of the team to the same shared variable without synchronization (flood_fill.cpp L70-73): a data race, undefined behaviour in C++, as soon as there are two threads. In practice all write the same value |
| `C110_twice_false_of_code`, `C110_order_false_of_code` | the exceptions for elements that exist already and for locked elements are raised inside parallel loops, where nobody can catch them: creating the volume a second time, or (with assertions) a condition before the volume, terminates the process instead of raising an exception |
| `C111_end_false_of_code`, `C111_beyond_false_of_code`, `C111_size_false_of_code` | in double precision the last cell may end before the upper corner of the box (49 cells from 0 to 1: the corner is in no cell) or beyond it (187 cells from 0 to 3); cells smaller than the spacing of the numbers have no extent |
| `C113_false_of_code` | in double precision the upper corner of a parametric box is not always mapped to the upper corner of the global box (from [0, 49] to [0, 1]), and mapping back does not return it |
| `C114_gap_false_of_code`, `C114_overlap_false_of_code` | in double precision the eight boxes of a node may miss a corner of it (cell 129 of a 6 x 6 x 6 grid on the unit cube) or overlap (the cube from -1.7 to 2): each box adds or subtracts the rounded half size on its own |
| `C115_capacity_false_of_code` | in double precision clipping a triangle with coordinates up to 1032 needs ten vertices and throws "Size of Polygon is exceeded": the computed point of an edge may lie beyond the end of the edge, which makes the polygon non-convex. C22 is thereby false of the code with rounding. Conditions are clipped inside a parallel loop (embedded_model.cpp L238-243), where the exception terminates the process |
| `C116_false_of_code` | in double precision the test of a triangle against the box from -1 to -0.9 (tolerance zero) misses a triangle that touches the face at -1: the centre and half the size are rounded separately, and their difference lies inside of the face |

Observed while reading, without a theorem: `DictionaryList.append` takes any dictionary, also one that is no condition; `DictionaryList.__getitem__` does not check
its index (in the model: `ub`).

## Plan per property

| id | model | proof |
|---|---|---|
| C01 | index arithmetic of `GridIndexer` over `Nat`, plus the 64-bit version (mod 2^64) | `Nat.div`/`mod` arithmetic |
| C02, C03, C04 | six step functions on a partition, transcribed case by case | refinement of each step to "next position in the mixed-radix order of the direction"; induction on the walk |
| C05 | cell boxes over an ordered field | lattice of equidistant points; floor argument for covering; telescoping sums |
| C06, C07 | `BackgroundGrid` state machine (two vectors and the id map), `MakeElement` as a step | invariant + refinement to a finite map; permutation invariance |
| C08, C09 | `GetNextElementByIndexer` with the wrapped index | C08 from C02. C09 is false of the code (row ends wrap): negation with witness and `_partial` theorem |
| C10 | partition loop | arithmetic |
| C11–C14 | flood fill: stack search, group merging, arbitrary delivery order of the groups | invariants of the search; groups are connected components. Full determinism fails when the perturbed test is not symmetric or votes tie; partial theorem states the needed conditions |
| C15–C18 | priority order, box growth, point distribution | C15 by invariant; C16 false (negation with witness, partial); C17 by sums; C18 arithmetic, also with rounding |
| C19–C21 | octree as inductive type, refine as fuelled recursion on level | induction on level |
| C22–C24 | clipping against six planes, polygons as lists with flags | cyclic sign-change invariant for the capacity; convexity |
| C25 | fan triangulation | telescoping sum of cross products; each three corners of a clipped triangle turn to one side, so the sign seen from the mean changes once |
| C26, C27 | node array with indices, free list, balancing; query with stack | invariants of the array (each node reachable once, parents right, heights right); refinement to a binary tree, then to a list of boxes |
| C28–C30 | interval tests and cross products in an ordered field | real-field algebra |
| C31, C32 | elimination loop with the solver as oracle; the attempts as a list with their octree levels | loop invariant, lexicographic measure; C32 says exactly which levels every attempt uses |
| C33, C34 | polynomials over a field, affine maps | `ring`/`field_simp`, derivative as formal identity; bound by one with the expansion in Chebyshev polynomials |
| C35–C37 | mesh as lists of vertices, triangles, normals | induction on lists |
| C38–C40 | byte lists; buffer state machine; STL encoder and decoder | invariant; round trip |
| C41–C45 | dictionary/dataset state machine, key-text parser | refinement to a map; induction on trees and strings |
| C46, C47 | vertex-merging contour model; comparison function | invariant; C47's transitivity is false: negation with witness, partial |
| C48 | vote loop with oracle | induction |
| C49 | counting logic of `ComputeVolume` | induction |
| C50 | tensor product rule | sums |
| C51 | vote counting of `GroupElements`/`MergeGroups` | sums over cut faces; false at the end layers, partial otherwise |
| C52 | tokenizer of the text reader, printer of the writer | round trip over token streams with an injective number printer |
| C53 | untrimmed domain | interval arithmetic |
| C54 | normals and areas under an affine map | algebra with a norm oracle |
| C55, C56 | tree query composed with the primitive tests; crossing counter | C26 with C30; sums over triangles |
| C57–C59 | clipping of surfaces, attempts of `pGetTrimmedDomain`, ray loop | C23 and C25 triangle by triangle; induction on attempts |
| C60–C62 | moment fitting with an arbitrary solver | residual algebra; `C60_solid`, `C60_volume` combine the residual with the bound of the polynomials and C61 to the error of the rule as integral over the solid; divergence of the fields by polynomial calculus; C61 up to the integral over the solid by the divergence theorem for triangulated closed surfaces (over ℝ) |
| C63–C65 | measures, normals and removal on lists of triangles | sums, `Real.sqrt`, swap-and-pop |
| C66, C67 | tables and their extension to any number of spans | kernel-checked certificates per table, induction on repetitions |
| C68–C71 | loop over cells with arbitrary completion order | permutation invariance, refinement to the classification |
| C72–C75 | contour closing: vertex set, cutting, partner search, strips | capacity counting; telescoping sums of area vectors; for the section: the next edge below an edge stays the same between two cuts (walk over the positions of the ends), so cutting makes a one-to-one matching of upper and lower parts |
| C78 | closing edges on the upper side, for edges in general position | merge of three sorted lists without common places; separated points are stored exactly |
| C76 | tables of the rules on triangles as rationals | moments of the unit triangle per monomial, checked in the kernel; error of all polynomials by coefficients |
| C77 | constructor of the trimmed domain from the modelled parts: clip, cut of each face, append, refine | invariant of the recorded edges along the clipping loop; rectangle that contains all vertices of a face; C35, C36, C57, C58, C73; for faces that are cut in regions (`Props/TrimmedSection.lean`): C72_general and C73_section per face, then signed volume and area vector of the closed boundary |
| C79 | writer as text producer; `json.load` as scanner and parser | each printed piece scans to its tokens whatever follows; parser on the tokens of a tree |
| C80 | overload resolution, reader, factory, calls as a state machine | settings made from new ones by calls are an inductive relation that every call keeps; entry by entry the reader restores the values; digits by integer logarithm |
| C81 | factory, check of required values | lookup in registered key sets; settings after any calls have a fixed shape, on which `Missing` (C43) is evaluated |
| C82 | same model as C80 | table `fileValue` of types and JSON values, proved equal to the two passes over the overloads; names in Python dictionaries are distinct by induction on the parser; then one pass over sections and conditions |
| C83 | the three VTK writers with buffer, byte swapping and `%.15f`; the specification is a separate reader of the legacy VTK format | each section of the file is read back by the reader: lemmas 'reads its own bytes' for numbers, composed over lists, then the three sections |
| C84 | STL files of conditions, loop over the conditions and `WriteModelToFile` on a list of named files | file of a condition = file of the appended mesh (C35), induction over the conditions |
| C85 | the program of Lawson and Hanson with all loops, Householder reflections, Givens rotations, back substitution and iteration limit; values of uninitialised memory are parameters | invariant of both loops: the columns in the set P are triangular, the transformed matrix and right-hand side have the inner products of the original ones, so the residual is the same; at the end the conditions of Kuhn and Tucker hold, from which optimality follows |
| C86 | `_construct_b_spline` with `np.arange`, the checks of scipy's `BSpline` and FITPACK's knot insertion; the specification is the recursion of Cox and de Boor | invariant of the insertions: coefficients are the affine image of the means of `p` knots; such splines reproduce affine functions (induction on the degree) |
| C87 | the two functions of `helper.py` | algebra |
| C88 | the loop of `GetIntegrationPoints` with the attributes that the bindings export | false (see findings): negation for all lists with a trimmed point, partial otherwise |
| C89 | `SurfaceLoad` with the rule of three points, mapping to parametric space and ids of conditions | invariant of the loops: the conditions are the ones of a list that is numbered consecutively; sums over the triangles that are not skipped |
| C90 | `PressureLoad` | as C89; area vectors instead of areas, closed surfaces have no area vector (C63) |
| C91 | `PenaltySupport`, `LagrangeSupport`; the area of a surface in the volume is a parameter | as C89; aspect ratio from the areas. The factor of a support is false (see findings), partial |
| C92 | `DirichletCondition`, `NeumannCondition` | nodes in the box; ids are distinct. The sum of all forces is false for overlapping boxes (see findings), partial otherwise |
| C93 | both functions for triangle meshes with their dictionaries | the dictionary of positions holds the last vertex at each position; appending nodes and elements in order. Meshes that are not empty: see findings |
| C94 | `add_elements_to_model_part` | induction over the elements |
| C95 | preparation of the conditions, application, `ModifyInitialGeometry` | each condition appends numbered conditions and keeps nodes and elements; induction |
| C96 | vectors with blocks of memory, spans; native and foreign views, the loop over triangles | refinement to the contents of the mesh; blocks stay while the calls are within the capacity (induction over calls). After changes: false (see findings), partial |
| C97 | triangle objects as references; `Append` of a mesh to itself | as C96; false without reserved memory (see findings), partial |
| C98 | `AddTriangle`, the iterator over triangles with a body that changes the mesh, item access | induction over the iteration. Indices out of range: false (see findings), partial |
| C99 | file system, following of names, `rmtree`, `mkdir`, `__init__`, the directory written to | removal keeps the file system sound; the made directory is empty. Names `.`, `..`, empty and absolute ones: false (see findings), partial |
| C100 | the holder of settings and the model as a state machine | induction over runs. Failed checks: false (see findings), partial |
| C101 | the same functions as for C22-C25 and C57 | per plane: the unflagged edges of the polygon are what the plane leaves of the unflagged edges before (invariant of the last emitted vertex along the loop); what is left is symmetric in the ends; spokes of fans cancel. Triangles that graze the box: false (see findings), partial |
| C102 | the dictionaries of the report and every access to them; any sequence of calls | closed form of the report (`render`) kept by every call; its lines by looking up every path. Sum of the parts: false after two writings (see findings), partial |
| C103 | the same functions as for C77 and C101 | a closed surface is one on which every quantity of directed edges that adds up along a cut edge sums to zero (`SealedSurface`; divided edges are allowed, because refinement leaves hanging nodes, and C36, C60–C63 and C90 need no more than this). Per face: the rim of a cap is, edge by edge of the section, a way down to the lower side, along it and up again (`C73_rim`, telescoping over the strips); together with the contour only ways along the sides of the face are left. Over the six faces: the ways to the points where the contour meets the edges of the cell cancel because the recorded edges of all faces together start and end at the same points (C101), the ways along whole edges of the cell because the two faces at an edge run through it in opposite directions |
| C104 | `DereferenceIterator` with validity of vector iterators, `DictionaryList` (`__getitem__`, `__iter__`, `append`), `UniqueHolder`, the iterator object of pybind11 | expressions: induction over the expression; histories: invariant (ownership is exclusive); loops: induction over the remaining entries. Appending in the loop and indices out of range: false (see findings), partial |
| C105 | the same functions as for C22-C25, C49 and C57, `gridPlanes` | the directed area of a polygon is the sum over its directed edges (`loopSum`); cutting by a plane splits it into the parts on both sides (`loopSum_cut`), by induction over the planes of the three directions into the parts in the cells. With corners of the parts either on a plane or farther away than the tolerances (`ClearOfGrid`), the clipper takes every side decision exactly, and a triangle that is not selected for a cell has no area in it (the mean of at most 9 corners of the part would be deep enough inside). Lower faces of the grid: false (see findings), so the theorems for surfaces clear of the (moved) planes are named partial |
| C106 | the functions of C77 and C105 | the volume of the closed boundary of a cell is that of its pieces of the surface plus the contributions of the caps (`C77_regions`); those of the pieces add up to the volume of the surface (C105), those of the caps telescope: the section with a face is an upper face of one cell and a lower face of the next one, with the same offset and opposite orientation (`sum_faces`), and the sections with the outer faces are empty. Hypothesis: in every cut cell the recorded edges bound the sections (`Params.Bounds`, as for C77), and the sections of a face seen from both cells have the same area `A`. Example: a pyramid cut by two cells |
| C107 | `getTrimmedDomain` (the loop over attempts), `computeVolume`, with the functions of C103 and C106 | a closed boundary with unit normals and a volume that is not negative has the quality estimate 0 (`quality_zero`), so the first attempt ends the loop (`C107_domain_partial`); the normals of pieces, caps and refined triangles are unit normals (`unit_makeUp`, `unit_refinement`); summing over the cells with C106 and C69 gives the reported volume (`C107_represented_partial`). An empty cell runs through all attempts and gives nothing (`C107_empty`, induction over the loop). The norm is any function with `IsLength` (positively homogeneous, 1 on the axes; the Euclidean norm is one, `isLength_of_norm3`). Hypotheses: those of C103 and C106, unit normals of the input, volumes of the parts not negative. Example: the pyramid in two cells, with reported volume 1/12 and percentage 100 |
| C108 | all calls of the bindings that hand out objects, with the rules of pybind11 for references, copies, `keep_alive` and objects that exist already; who owns memory | invariants over all programs: `Owned` (owners are held) and `Kept` (every existing object keeps the owner of its memory). False (see findings) for elements, triangles, iterators of segments, references to settings that are handed over, and `BackgroundGrid.GetElements`; partial for programs that hold on to what owns memory (`C108_owners_partial`), and for programs that do without these calls (`C108_tidy_partial`) |
| C109 | for every parallel loop the accesses of an iteration to memory that others might reach, with the critical sections, atomic operations and private copies | no two iterations on different threads conflict, for every assignment of iterations to threads; for the fill by an invariant (every access to a state is in the own partition) and C10. False (see findings) where the number of threads is asked for |
| C110 | the calls that create a model, with the four ways in which they end (return, exception, termination, undefined behaviour) | creating everything once never terminates the process: clipping never fails (C57), a fresh grid accepts all elements (C68); false (see findings) for a second volume and, with assertions, for conditions before the volume |
| C111 | the boxes of the cells with every operation rounded; the rounding of IEEE 754 double precision | rounding keeps the order, so faces are in order; whole numbers are exact, so neighbours compute the same face; error bound 5 eps (\|lower\| + \|upper\|); that the last face is the corner, and that cells have a size, is false (see findings), proved for cells larger than 10 eps (\|lower\| + \|upper\|) |
| C112 | the points and weights of full cells with every operation rounded | positions: the largest table value leaves room for three rounding errors, and rounding keeps the order; weights: a product of eleven rounding errors; volume from C67 |
| C113 | the maps with every operation rounded | order and lower corner by monotonicity; error of the scale by a calculus of relative errors; exact upper corners and exact returns are false (see findings) |
| C114 | the boxes of the octree with every operation rounded | on a lattice of representable numbers nothing is rounded, so the exact theorem C19 applies (partial; false in general, see findings); error bound 14 level eps (\|lower\| + \|upper\|) for all boxes by induction over the levels |
| C115 | clipping with every operation rounded | the parameter of a crossing stays in [0, 1] because rounding keeps the order; each crossing is within 12 eps of a point of the edge; invariant over the six planes (near the triangle, behind the planes passed, on the planes flagged); that clipping never fails is false (see findings); it is proved for triangles whose corners differ by at most 5/3 of tolerance over eps in each coordinate (150 in double precision), anywhere in space: there the parameter of a crossing stays away from one by more than its error, so the computed point has coordinates between those of the ends of the edge, labels of points that depend monotonically on one coordinate change at most twice around the polygon, and the counting argument of C22 applies |
| C116 | the separating-axis test with every operation rounded | errors of the axes do not matter, because no axis at all separates two sets with a common point; the errors of the projections of a corner and of the box sum up to at most 28 eps B times the size of the axis, where B bounds the coordinates; without this margin the property is false (see findings). Conversely, if box and triangle are separated along one of the thirteen exact directions by more than the errors of that direction and of the projections, the computed direction separates them too |
