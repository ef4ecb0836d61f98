{"id": "C01", "title": "Cell numbering is a bijection", "statement": "On a grid with n0 x n1 x n2 cells, converting a vector index below n0*n1*n2 to matrix indices gives three indices inside the grid, converting those back gives the original index, and converting in-grid matrix indices to a vector index and back gives the original triple. No two cells share a number.", "quantifier": "every grid size whose cell count fits the 64-bit index type, every cell", "why_tests_cant": "the claim ranges over all grid sizes and all cells; a test only samples a few sizes", "anchors": [{"file": "queso/containers/grid_indexer.hpp", "symbols": ["GridIndexer::GetMatrixIndicesFromVectorIndex", "GridIndexer::GetVectorIndexFromMatrixIndices", "GridIndexer::NumberOfElements"]}]}
{"id": "C02", "title": "A step marked 'middle' goes to the geometric neighbour, and forward and backward steps undo each other", "statement": "If a step in one of the six directions reports that the walk is in the middle of a row, the returned cell is the cell inside the partition whose coordinate along that axis differs by exactly one; and whenever a step in one direction is not a global end, the step in the reversed direction from the result returns to the start and reports the same kind of transition.", "quantifier": "every grid size, every box-shaped partition of the grid, every cell in it and all six directions", "why_tests_cant": "boundary cases combine three axes, both orientations and arbitrary partitions", "anchors": [{"file": "queso/containers/grid_indexer.hpp", "symbols": ["GetNextIndexX", "GetNextIndexY", "GetNextIndexZ", "GetPreviousIndexX", "GetPreviousIndexY", "GetPreviousIndexZ", "ReverseDirection"]}]}
{"id": "C03", "title": "Walking the grid in one direction visits every cell exactly once", "statement": "Starting at the first cell of a partition and stepping repeatedly in one direction until a global end is reported visits every cell of the partition exactly once, and the global end is reported only at the last cell; the walk always ends.", "quantifier": "every grid, partition and direction; the walk length is unbounded", "why_tests_cant": "a whole-walk property over unbounded grid sizes", "anchors": [{"file": "queso/containers/grid_indexer.hpp", "symbols": ["GetNextIndex", "GetNextIndexX", "GetNextIndexY", "GetNextIndexZ", "GetPreviousIndexX", "IndexInfo"]}]}
{"id": "C04", "title": "End test agrees with stepping", "statement": "IsEnd(cell, direction) is true exactly when the step from that cell in that direction does not report 'middle'.", "quantifier": "every grid, cell and direction", "why_tests_cant": "must hold at all boundary combinations of all sizes", "anchors": [{"file": "queso/containers/grid_indexer.hpp", "symbols": ["IsEnd", "GetNextIndex"]}, {"file": "queso/containers/background_grid.hpp", "symbols": ["BackgroundGrid::IsEnd"]}]}
{"id": "C05", "title": "Cells tile the grid domain", "statement": "The cells' bounding boxes cover the grid's bounding box, two different cells have disjoint interiors, face-adjacent cells share exactly the same coordinate on the common face, and the cell volumes add up to the domain volume.", "quantifier": "every domain box, every subdivision, every point (exact arithmetic)", "why_tests_cant": "quantifies over all points of a continuum and all grid sizes", "anchors": [{"file": "queso/containers/grid_indexer.hpp", "symbols": ["GetBoundingBoxXYZFromIndex", "GetBoundingBoxUVWFromIndex", "GetBoundingBoxFromIndex"]}]}
{"id": "C06", "title": "Elements can be looked up by id after any sequence of insertions", "statement": "After any sequence of MakeElement calls, the grid holds exactly the elements whose construction succeeded, each id at most once; looking up an id returns the element that was inserted under it (trimmed and untrimmed filters agree with the kind), a duplicate id is rejected without changing the stored elements, failed constructions leave the grid unchanged, and the reported counts equal the number of stored elements.", "quantifier": "every finite sequence of insertions with any outcomes", "why_tests_cant": "an invariant over all insertion histories", "anchors": [{"file": "queso/containers/background_grid.hpp", "symbols": ["BackgroundGrid::MakeElement", "pGetElement", "GetElementView", "NumberOfActiveElements", "NumberOfTrimmedElements", "NumberOfUntrimmedElements"]}]}
{"id": "C07", "title": "The stored element set does not depend on the order in which threads insert", "statement": "Insertions of pairwise different ids performed in any order give grids that answer every lookup by id in the same way and report the same counts.", "quantifier": "every interleaving of the (mutually exclusive) insertions of any number of threads", "why_tests_cant": "schedules cannot be enumerated by tests", "anchors": [{"file": "queso/containers/background_grid.hpp", "symbols": ["BackgroundGrid::MakeElement"]}, {"file": "queso/embedded_model.cpp", "symbols": ["EmbeddedModel::ComputeVolume"]}]}
{"id": "C08", "title": "Neighbour lookup", "statement": "When the neighbour lookup reports 'not at the end', the returned element is the stored element of the geometrically adjacent cell in that direction. When there is no such cell, or the adjacent cell holds no element, it reports 'end'.", "quantifier": "every grid, every set of stored elements, every cell and direction", "why_tests_cant": "all combinations of missing elements and grid borders", "anchors": [{"file": "queso/containers/background_grid.hpp", "symbols": ["GetNextElement", "GetNextElementView", "GetNextElementByIndexer"]}]}
{"id": "C09", "title": "Neighbour lookup never hands out a non-adjacent element", "statement": "An element handed out by the neighbour lookup is always the element of the geometrically adjacent cell (so callers that only look at the returned element, as the GGQ box growing does, never see a cell of another row).", "quantifier": "every grid, every set of stored elements, every cell and direction", "why_tests_cant": "depends on row ends of every grid shape", "anchors": [{"file": "queso/containers/background_grid.hpp", "symbols": ["GetNextElementByIndexer"]}, {"file": "queso/quadrature/multiple_elements.hpp", "symbols": ["QuadratureMultipleElements::pNextElement", "TryToExpandCurrentBox"]}]}
{"id": "C10", "title": "Work partitions tile the grid for every thread count", "statement": "For every number of threads the flood fill splits the grid into slabs that are pairwise disjoint, lie inside the grid and together contain every cell.", "quantifier": "every grid size and every positive thread count", "why_tests_cant": "thread counts and sizes are unbounded, off-by-one errors show only at particular remainders", "anchors": [{"file": "queso/embedding/flood_fill.cpp", "symbols": ["FloodFill::ClassifyElements"]}]}
{"id": "C11", "title": "A cell is reported trimmed exactly when the geometry test says so", "statement": "After classification a cell is 'trimmed' if and only if the geometry's trimmed test is true of that cell's box, for every thread count and every schedule.", "quantifier": "every grid, every geometry, every thread count, every schedule", "why_tests_cant": "all geometries and schedules", "anchors": [{"file": "queso/embedding/flood_fill.cpp", "symbols": ["ClassifyElements", "PartitionedFill", "Fill", "Move"]}]}
{"id": "C12", "title": "Every untrimmed cell is classified exactly once", "statement": "The fill assigns every cell that is not trimmed to exactly one group, the groups contain no trimmed cell, and every cell of a merged group receives the same inside/outside state.", "quantifier": "every grid, geometry, thread count and schedule", "why_tests_cant": "histories of a stack-driven search of unbounded size", "anchors": [{"file": "queso/embedding/flood_fill.cpp", "symbols": ["PartitionedFill", "Fill", "MergeGroups", "GroupFill", "ClassifyElements"]}]}
{"id": "C13", "title": "The classification does not depend on threads or schedule", "statement": "The state of every cell is the same for every number of threads and for every order in which the threads deliver their groups.", "quantifier": "every grid, geometry, pair of thread counts and pair of schedules", "why_tests_cant": "nondeterministic schedules cannot be covered by tests", "anchors": [{"file": "queso/embedding/flood_fill.cpp", "symbols": ["ClassifyElements", "PartitionedFill", "MergeGroups"]}]}
{"id": "C14", "title": "Connected untrimmed cells get the same state", "statement": "Two face-adjacent untrimmed cells between which the geometry reports no boundary are both inside or both outside.", "quantifier": "every grid, geometry, thread count and schedule", "why_tests_cant": "a global connectivity property", "anchors": [{"file": "queso/embedding/flood_fill.cpp", "symbols": ["Fill", "Move", "GroupFill", "MergeGroups"]}]}
{"id": "C15", "title": "GGQ assembly handles every untrimmed element exactly once", "statement": "The boxes that the GGQ assembly builds contain every untrimmed element exactly once and nothing else, and the assembly ends.", "quantifier": "every grid and every set of untrimmed elements, any neighbour coefficients", "why_tests_cant": "greedy growth over arbitrary element sets of unbounded size", "anchors": [{"file": "queso/quadrature/multiple_elements.hpp", "symbols": ["AssembleIPs", "TryToExpandCurrentBox"]}]}
{"id": "C16", "title": "GGQ boxes are cuboids", "statement": "Every box built by the GGQ assembly is an axis-parallel block of cells whose edge lengths are the recorded box sizes, so that the multi-element rules are applied to the knot spans they were made for.", "quantifier": "every grid and every set of untrimmed elements", "why_tests_cant": "depends on shapes of element sets near all grid borders", "anchors": [{"file": "queso/quadrature/multiple_elements.hpp", "symbols": ["TryToExpandCurrentBox", "AssembleGGQRulesOnBox"]}]}
{"id": "C17", "title": "GGQ weights of a box add up to its volume", "statement": "The weights of the points that a box hands to its elements add up to the sum of the element volumes (given one-dimensional rules whose weights add up to one), and every point of the rule is given to exactly one element.", "quantifier": "every box size and all one-dimensional rules with points inside the unit interval", "why_tests_cant": "all sizes and rules", "anchors": [{"file": "queso/quadrature/multiple_elements.hpp", "symbols": ["AssembleGGQRulesOnBox"]}]}
{"id": "C18", "title": "Neighbour coefficients are positive and the ranking never aborts", "statement": "For every row length and position the neighbour weight is positive (at least a tenth of the row length), so the internal error is never raised and every coefficient stays positive.", "quantifier": "every row length and position", "why_tests_cant": "unbounded lengths", "anchors": [{"file": "queso/quadrature/multiple_elements.hpp", "symbols": ["LinearFunction", "AssignNeighborCoefficients", "ComputeNeighborCoefficients"]}]}
{"id": "C19", "title": "Octree leaves tile the element", "statement": "After any sequence of refinements the leaves together with the pruned outside boxes cover the root box, have pairwise disjoint interiors, and their volumes add up to the root volume.", "quantifier": "every root box, every geometry and every sequence of refinement calls", "why_tests_cant": "a tree invariant over all refinement histories", "anchors": [{"file": "queso/embedding/octree.cpp", "symbols": ["Octree::Node::Refine", "CreateNewNode"]}, {"file": "queso/embedding/octree.h", "symbols": ["Octree"]}]}
{"id": "C20", "title": "Octree refinement levels", "statement": "After Refine(min,max) on a fresh octree every leaf that is not trimmed has a level of at least min and at most max, every trimmed leaf has exactly level max unless all of its children were pruned, and refining again with the same levels changes nothing; min > max is rejected.", "quantifier": "every geometry and all levels", "why_tests_cant": "all geometries", "anchors": [{"file": "queso/embedding/octree.cpp", "symbols": ["Octree::Refine", "Octree::Node::Refine"]}]}
{"id": "C21", "title": "Octree integration points lie inside", "statement": "Every integration point the octree returns lies in the root box and either belongs to a leaf that is fully inside or passes the inside test; if the whole element is inside, the weights add up to the volume.", "quantifier": "every geometry, rule and refinement", "why_tests_cant": "all geometries and histories", "anchors": [{"file": "queso/embedding/octree.h", "symbols": ["GetIntegrationPoints"]}]}
{"id": "C22", "title": "Clipping a triangle never overruns the fixed-capacity polygon", "statement": "Clipping any triangle against any box produces intermediate and final polygons of at most nine vertices, the capacity of the polygon type, so the capacity error and out-of-bounds writes never happen; adding the result to a mesh never raises the error that all vertices lie on a plane.", "quantifier": "every triangle and every box", "why_tests_cant": "a continuum of inputs with degenerate cases", "anchors": [{"file": "queso/embedding/clipper.cpp", "symbols": ["Clipper::ClipTriangle", "ClipPolygonByPlane"]}, {"file": "queso/embedding/polygon.h", "symbols": ["Polygon::AddVertex"]}]}
{"id": "C23", "title": "A clipped triangle lies in the box and in the triangle", "statement": "Every vertex of the clipped polygon lies inside the box up to the plane tolerance and is a convex combination of the triangle's vertices; every point of the triangle that lies in the box away from its faces lies in the polygon; a triangle strictly inside the box is returned unchanged; nothing is returned exactly if the triangle lies on a face.", "quantifier": "every triangle and every box (exact arithmetic)", "why_tests_cant": "a continuum of inputs", "anchors": [{"file": "queso/embedding/clipper.cpp", "symbols": ["ClipTriangle", "ClipPolygonByPlane", "FindIntersectionPointOnPlane", "ClassifyPointToPlane"]}]}
{"id": "C24", "title": "Plane flags of clipped vertices are truthful", "statement": "A clipped vertex that is flagged as lying on a face of the box lies on that face up to the tolerance; every vertex that is not a corner of the triangle is flagged; a cut by one plane flags exactly two vertices; never are all vertices flagged for one face.", "quantifier": "every triangle and every box (exact arithmetic)", "why_tests_cant": "a continuum of inputs", "anchors": [{"file": "queso/embedding/clipper.cpp", "symbols": ["ClipPolygonByPlane"]}, {"file": "queso/embedding/polygon.cpp", "symbols": ["Polygon::AddVertex"]}]}
{"id": "C25", "title": "Polygon triangulation preserves the area vector and covers the polygon once", "statement": "Adding a polygon to a mesh produces triangles whose area vectors add up to the polygon's, with valid vertex indices; three vertices give one triangle, n > 3 give n triangles around the mean; the edges recorded for a face of the box are exactly the polygon edges with both ends flagged on it; the triangles of a clipped triangle do not overlap, have its orientation and cover it.", "quantifier": "every polygon", "why_tests_cant": "a continuum of inputs of every size", "anchors": [{"file": "queso/embedding/polygon.cpp", "symbols": ["Polygon::AddToTriangleMesh"]}]}
{"id": "C26", "title": "Spatial search finds exactly the overlapping boxes", "statement": "For every history of insertions the bounding-box tree contains every inserted box once, every inner node's box contains its children's boxes, and a query returns exactly the ids whose box overlaps the query box.", "quantifier": "every sequence of insertions and every query", "why_tests_cant": "an invariant of a self-balancing tree over all histories", "anchors": [{"file": "external_libraries/aabb_tree/AABB_base.cc", "symbols": ["insertParticle", "insertLeaf", "balance", "merge"]}, {"file": "queso/embedding/aabb_tree.cpp", "symbols": ["AABB_tree::Query"]}]}
{"id": "C27", "title": "Box overlap test", "statement": "The box-box test is symmetric, and it is true exactly when the two boxes have a common point.", "quantifier": "every pair of boxes (exact arithmetic)", "why_tests_cant": "a continuum of inputs", "anchors": [{"file": "queso/embedding/aabb_primitive.cpp", "symbols": ["AABB_primitive::intersect"]}]}
{"id": "C28", "title": "Ray-box test is exact for positive rays", "statement": "For rays with all direction components positive the ray-box test is true exactly when some point of the ray lies in the box (and for general rays when no component vanishes).", "quantifier": "every ray and box (exact arithmetic)", "why_tests_cant": "a continuum of inputs", "anchors": [{"file": "queso/embedding/ray_aabb_primitive.cpp", "symbols": ["Ray_AABB_primitive::intersect", "intersect_positive_ray", "intersect_general"]}]}
{"id": "C29", "title": "Ray-triangle test reports true hits", "statement": "If the ray-triangle test succeeds with parameters t,u,v, the point origin + t*direction equals the barycentric point of the triangle, u and v are a valid barycentric pair up to tolerance and t is not before the ray origin.", "quantifier": "every ray and triangle (exact arithmetic)", "why_tests_cant": "a continuum of inputs", "anchors": [{"file": "queso/embedding/ray_aabb_primitive.cpp", "symbols": ["Ray_AABB_primitive::intersect(v0,v1,v2,t,u,v)"]}]}
{"id": "C30", "title": "Triangle-box test never misses an intersection", "statement": "If a triangle and a box share a point the separating-axis test reports an intersection.", "quantifier": "every triangle and box (exact arithmetic, zero tolerance)", "why_tests_cant": "a continuum of inputs, thirteen axes", "anchors": [{"file": "queso/embedding/aabb_primitive.cpp", "symbols": ["AABB_primitive::intersect(v0,v1,v2,tolerance)", "check_axis"]}]}
{"id": "C31", "title": "Point elimination ends and returns a consistent rule", "statement": "The point elimination always ends; the residual it reports is the residual of a rule it really computed for the returned points; it returns only points of the input with weights of at least the zero tolerance, and at most (p+1)(q+1)(r+1) of them.", "quantifier": "every behaviour of the moment-fitting solver, every input point set", "why_tests_cant": "the solver is numerical, all its outcomes must be covered", "anchors": [{"file": "queso/quadrature/trimmed_element.hpp", "symbols": ["QuadratureTrimmedElement::PointElimination"]}]}
{"id": "C32", "title": "A trimmed element either has a good rule or none", "statement": "After assembling the rule of a trimmed element, either it has no points, or the reported residual is at most the hard limit of 0.01; the number of attempts is bounded. Each attempt goes on with the next refinement levels of the background octree, up to five at a time and until there are enough points, and fits the points of all levels so far.", "quantifier": "every behaviour of the solver and point distribution", "why_tests_cant": "all numeric outcomes", "anchors": [{"file": "queso/quadrature/trimmed_element.hpp", "symbols": ["AssembleIPs", "DistributeIntegrationPoints"]}]}
{"id": "C33", "title": "Legendre basis and its antiderivative agree", "statement": "For every order 0..8 and every interval a<b the provided antiderivative differentiates to the provided polynomial, and orders above 8 give zero; the polynomials are the shifted Legendre polynomials (recurrence) and are orthogonal on [a,b]; they are bounded by one on [a,b].", "quantifier": "every interval and every x", "why_tests_cant": "identities on a continuum", "anchors": [{"file": "queso/utilities/polynomial_utilities.hpp", "symbols": ["Polynomial::f_x", "Polynomial::f_x_int"]}]}
{"id": "C34", "title": "Mapping between spaces is invertible and scales weights by the determinant", "statement": "ToGlobal and ToParametric are inverse to each other on non-degenerate boxes, map the box onto the box, and mapping an integration point there and back returns position and weight.", "quantifier": "every pair of non-degenerate boxes and every point (exact arithmetic)", "why_tests_cant": "a continuum of inputs", "anchors": [{"file": "queso/utilities/mapping_utilities.hpp", "symbols": ["ToGlobal", "ToParametric", "DetJ"]}]}
{"id": "C35", "title": "Joining meshes keeps both geometries", "statement": "Appending a mesh keeps the triangles of the first mesh unchanged, adds each triangle of the second with the same corner coordinates and normal, and keeps all vertex indices valid.", "quantifier": "every pair of valid meshes", "why_tests_cant": "all meshes", "anchors": [{"file": "queso/utilities/mesh_utilities.cpp", "symbols": ["MeshUtilities::Append"]}, {"file": "queso/containers/triangle_mesh.hpp", "symbols": ["TriangleMesh::Check"]}]}
{"id": "C36", "title": "Mesh refinement keeps the surface", "statement": "Refine always ends for meshes of bounded area, keeps vertex indices valid, keeps the sum of area vectors and of signed volumes, and ends with at least the requested number of triangles or a mesh whose largest triangle area is not above the zero tolerance.", "quantifier": "every valid mesh and requested number", "why_tests_cant": "unbounded loops over all meshes", "anchors": [{"file": "queso/utilities/mesh_utilities.cpp", "symbols": ["MeshUtilities::Refine"]}]}
{"id": "C37", "title": "The box mesh is closed and encloses the box volume", "statement": "The mesh created for a box has twelve triangles, every edge is used exactly once in each orientation, and the enclosed volume is the product of the edge lengths.", "quantifier": "every box (exact arithmetic)", "why_tests_cant": "a continuum of inputs", "anchors": [{"file": "queso/utilities/mesh_utilities.cpp", "symbols": ["MeshUtilities::MakeMeshBox"]}, {"file": "queso/utilities/mesh_utilities.cpp", "symbols": ["MeshUtilities::Volume"]}]}
{"id": "C38", "title": "Buffered binary output equals the concatenation of the writes", "statement": "For every buffer capacity and every sequence of writes, the file finally contains exactly the bytes of all the writes in order, and at no time does the buffer overrun.", "quantifier": "every capacity and every operation sequence, flushed at any point", "why_tests_cant": "histories of buffer boundaries", "anchors": [{"file": "queso/io/binary_buffer_writer.hpp", "symbols": ["BinaryBufferWriter::AppendToBuffer", "Flush", "WriteValue", "WriteRaw", "~BinaryBufferWriter"]}]}
{"id": "C39", "title": "Byte order conversion", "statement": "Writing a value with a target byte order gives the bytes of the value in that order on hosts of either order, and swapping twice is the identity.", "quantifier": "every value and width", "why_tests_cant": "all values", "anchors": [{"file": "queso/io/binary_buffer_writer.hpp", "symbols": ["SwapEnd", "WriteValue"]}]}
{"id": "C40", "title": "Binary STL round trip", "statement": "Reading a binary STL file that was written from a mesh with fewer than 2^32 triangles gives the same number of triangles in the same order with the same (single-precision rounded) corner coordinates and valid indices; the reader detects the format as binary.", "quantifier": "every mesh", "why_tests_cant": "all meshes and all byte patterns", "anchors": [{"file": "queso/io/io_utilities.cpp", "symbols": ["IO::WriteMeshToSTL", "IO::ReadMeshFromSTL_Binary", "IO::GetEncodingType"]}]}
{"id": "C41", "title": "Settings containers behave like typed maps", "statement": "After any sequence of set operations, reading a key gives the last value successfully set for it; a stored value always has the declared type of its key; keys never influence each other; setting through an unknown name or with a wrong type raises an error and leaves everything unchanged.", "quantifier": "every key declaration and every sequence of operations", "why_tests_cant": "an invariant over all histories", "anchors": [{"file": "queso/containers/data_set.hpp", "symbols": ["DataSet::SetValue", "GetValue", "TryGetValue", "IsSet"]}, {"file": "queso/includes/keys.hpp", "symbols": ["KeySetInfo"]}]}
{"id": "C42", "title": "Integer settings are converted without loss of sign", "statement": "Setting an integer through the string interface stores it as a floating point number for real-valued keys, as itself for index keys if it is not negative, and is rejected otherwise.", "quantifier": "every integer and key type", "why_tests_cant": "all values and keys", "anchors": [{"file": "queso/containers/data_set.hpp", "symbols": ["SetValue(string)"]}]}
{"id": "C43", "title": "Required-value check is complete", "statement": "CheckRequired succeeds exactly when every required value in the dictionary, in all its sub-dictionaries and in all entries of its lists is set.", "quantifier": "every dictionary tree", "why_tests_cant": "recursive structure of unbounded depth", "anchors": [{"file": "queso/containers/dictionary.hpp", "symbols": ["Dictionary::CheckRequired"]}, {"file": "queso/containers/data_set.hpp", "symbols": ["DataSet::CheckRequired"]}]}
{"id": "C44", "title": "Accepted settings never index outside the quadrature tables from below", "statement": "If the settings check accepts polynomial orders and integration method then every table index used by the rule factory is not below the first table entry, and for GGQ methods it is inside the tables.", "quantifier": "every settings object", "why_tests_cant": "all combinations", "anchors": [{"file": "queso/utilities/check_dictionary_utilities.hpp", "symbols": ["CheckSettings"]}, {"file": "queso/quadrature/integration_points_1d/integration_points_factory_1d.cpp", "symbols": ["IntegrationPointFactory1D::GetGauss", "GetGGQ"]}]}
{"id": "C45", "title": "Key names are parsed exactly", "statement": "The list of key names generated from the declaration text has one entry per declared key, each entry is the key name without separators and blanks, and the name-to-key lookup is the inverse of the key-to-name lookup.", "quantifier": "every declaration text", "why_tests_cant": "all strings", "anchors": [{"file": "queso/includes/keys.hpp", "symbols": ["StringUtilities", "CreateConstexprStringArray", "InitializeStringToKeyMap"]}]}
{"id": "C46", "title": "Contour vertices are merged consistently", "statement": "On each cut plane every inserted edge refers to valid vertex indices, and inserted vertices are reproduced within the snap tolerance.", "quantifier": "every sequence of edges", "why_tests_cant": "all histories", "anchors": [{"file": "queso/embedding/trimmed_domain_on_plane.cpp", "symbols": ["InsertEdge", "InsertVertex", "GetUniqueVertexIDs"]}]}
{"id": "C47", "title": "Vertex merging uses a consistent order", "statement": "The comparison used to merge vertices in ordered containers is a strict weak order (irreflexive, asymmetric, transitive with transitive incomparability), which the containers require.", "quantifier": "all point triples", "why_tests_cant": "all triples", "anchors": [{"file": "queso/embedding/trimmed_domain_on_plane.h", "symbols": ["PointComparison"]}, {"file": "queso/io/io_utilities.cpp", "symbols": ["ReadMeshFromSTL_Binary"]}]}
{"id": "C48", "title": "Inside test by majority cannot tie", "statement": "The ray-based inside test for points decides by a strict majority of an odd number of successful rays; for a fixed ray oracle the answer is well defined and the loop ends.", "quantifier": "every geometry oracle", "why_tests_cant": "all oracles", "anchors": [{"file": "queso/embedding/brep_operator.cpp", "symbols": ["BRepOperator::IsInside"]}]}
{"id": "C49", "title": "Reported element counts are consistent", "statement": "The reported numbers of active, trimmed, full and inactive elements satisfy active = trimmed + full and active + inactive = number of cells, and conditions' segments refer to cells of the grid at most once per condition.", "quantifier": "every classification and every outcome of element construction", "why_tests_cant": "all outcomes", "anchors": [{"file": "queso/embedded_model.cpp", "symbols": ["EmbeddedModel::ComputeVolume", "ComputeCondition"]}]}
{"id": "C50", "title": "One-dimensional and tensor-product rules integrate constants exactly", "statement": "The rule built for a box has (number of 1D points) products many points, all inside the box, and its weights add up to the box volume whenever the one-dimensional weights add up to one.", "quantifier": "every box and 1D rule", "why_tests_cant": "all rules", "anchors": [{"file": "queso/quadrature/single_element.hpp", "symbols": ["QuadratureSingleElement::AssembleIPs"]}, {"file": "queso/quadrature/integration_points_1d/integration_points_factory_1d.cpp", "symbols": ["GetGauss"]}]}
{"id": "C51", "title": "The majority of votes across cut faces decides inside or outside", "statement": "A group of connected untrimmed cells is marked inside exactly when, over all faces between a cell of the group and a face neighbour at which the geometry reports a boundary, more votes say 'bounded side' than not.", "quantifier": "every grid, geometry, thread count and schedule", "why_tests_cant": "the votes are collected in two places (per partition and across partitions), for every shape of group and every thread count; cells at the ends of the grid have no neighbour", "anchors": [{"file": "queso/embedding/flood_fill.cpp", "symbols": ["Move", "MergeGroups", "ClassifyElements"]}]}
{"id": "C52", "title": "Text STL round trip", "statement": "Reading a text STL file that the library wrote from a mesh is recognised as text, succeeds, and gives the same number of triangles in the same order with valid indices and with the corner coordinates as printed (up to merging of corners closer than the snap tolerance).", "quantifier": "every mesh and every way of printing numbers in fixed notation", "why_tests_cant": "all meshes; line-based parser with many states", "anchors": [{"file": "queso/io/io_utilities.cpp", "symbols": ["IO::WriteMeshToSTL", "IO::ReadMeshFromSTL_Ascii", "IO::GetEncodingType"]}]}
{"id": "C53", "title": "Tests against the domain of an untrimmed element are exact", "statement": "IsInside of an untrimmed element answers membership in its closed box; GetIntersectionState answers outside exactly if the query box (shrunk by the tolerance) has no common point with the element, inside exactly if it lies in the element, and trimmed otherwise.", "quantifier": "every element box, point, query box and tolerance for which the shrunk box is not inverted", "why_tests_cant": "a continuum of boxes and points", "anchors": [{"file": "queso/containers/cell_domain.hpp", "symbols": ["CellDomain::IsInside", "CellDomain::GetIntersectionState"]}]}
{"id": "C54", "title": "Boundary integration points keep their area vector under mapping", "statement": "Mapping a boundary integration point between the spaces transforms weight times normal as the area vectors of triangles are transformed, and mapping it there and back returns position, weight and unit normal.", "quantifier": "every pair of non-degenerate boxes and every boundary point (exact arithmetic)", "why_tests_cant": "a continuum of inputs; the small-norm branch is reached only for extreme box sizes", "anchors": [{"file": "queso/utilities/mapping_utilities.hpp", "symbols": ["TransformAreaVector", "TransformAreaData", "ToParametric", "ToGlobal"]}]}
{"id": "C55", "title": "The search for triangles in a box is exact", "statement": "For a valid, non-empty mesh, the search for the triangles that meet a box shrunk by a tolerance returns exactly the triangles with a point in that box, each once, and the intersection test of a cell answers true exactly if there is one; inverted bounds are an error.", "quantifier": "every valid non-empty mesh, every box and every tolerance up to half the shortest side (exact arithmetic)", "why_tests_cant": "a continuum of boxes and triangles; the answer depends on the shape of the search tree", "anchors": [{"file": "queso/embedding/geometry_query.cpp", "symbols": ["GetIntersectedTriangleIds", "DoIntersect"]}, {"file": "queso/embedding/geometry_query.h", "symbols": ["GeometryQuery"]}]}
{"id": "C56", "title": "Ray queries count crossings", "statement": "The query with a ray of a closed surface answers inside exactly if the number of crossed triangles is odd, the query of an open surface answers by the orientation of the nearest crossed triangle, and either reports failure instead of answering if the ray runs along or close to the border of a triangle. The answer never depends on uninitialised memory.", "quantifier": "every valid mesh and every ray", "why_tests_cant": "a continuum of rays; near-parallel triangles are never hit by accident in a test", "anchors": [{"file": "queso/embedding/geometry_query.cpp", "symbols": ["IsInsideClosed", "IsInsideOpen", "IsWithinBoundingBox"]}]}
{"id": "C57", "title": "Clipping a surface by a cell keeps what is inside", "statement": "Clipping a valid surface mesh by a box never fails and gives a valid mesh: the pieces of each input triangle, once. The pieces have the normal and the orientation of their triangle, lie in it and in the box up to the tolerance, do not overlap, and cover every point of it that is inside the box by more than the tolerance.", "quantifier": "every valid non-empty mesh and every box that is not tiny compared with the tolerance", "why_tests_cant": "a continuum of meshes and boxes", "anchors": [{"file": "queso/embedding/brep_operator.cpp", "symbols": ["ClipTriangleMesh", "ClipTriangleMeshUnique"]}]}
{"id": "C58", "title": "The choice of a trimmed domain ends and takes the best attempt", "statement": "The construction of a trimmed domain ends after at most 28 attempts, each in a box that contains the cell and exceeds it by at most 1300 tolerances on each side, alternating the orientation. A sufficiently accurate attempt is taken at once (or the cell is declared empty if its volume is too small); otherwise the most accurate attempt with enough volume is returned, or nothing if all are bad.", "quantifier": "every outcome of the attempts, every sequence of random numbers", "why_tests_cant": "all combinations of 28 attempts and random perturbations", "anchors": [{"file": "queso/embedding/brep_operator.cpp", "symbols": ["pGetTrimmedDomain"]}]}
{"id": "C59", "title": "Point tests and bounds of a trimmed domain are defined for all points", "statement": "The bounding box of a trimmed domain is the smallest box that contains the vertices of its boundary. The point test of a trimmed domain always answers; it takes the answer of the first reliable ray towards a triangle of the boundary and otherwise that of the global test. The test for a box answers trimmed exactly if the boundary meets the shrunk box.", "quantifier": "every valid boundary mesh, every point and box", "why_tests_cant": "a continuum of points", "anchors": [{"file": "queso/embedding/trimmed_domain.cpp", "symbols": ["IsInsideTrimmedDomain", "GetBoundingBoxOfTrimmedDomain", "GetIntersectionState"]}, {"file": "queso/embedding/brep_operator.cpp", "symbols": ["OnBoundedSideOfClippedSection"]}]}
{"id": "C60", "title": "The residual of a moment-fitted rule is its true relative error", "statement": "If the least-squares solver reports the norm of its own residual correctly, then the residual reported for the rule of a trimmed element is the relative error (Euclidean norm over all orders) between the moments that its points give in physical space and the moments of the boundary, for the rule including the dropped points of negligible weight. So the rule integrates every product of the Legendre polynomials up to its order over the solid bounded by the closed mesh with an error of at most the reported residual times the norm of the moments plus a bound for the dropped points and for the tabulated constants, and the sum of its weights is the volume of the solid with this error; all weights are nonnegative and all points lie in the cell.", "quantifier": "every trimmed element, every boundary, every solver, every polynomial order", "why_tests_cant": "moments are evaluated in two coordinate systems with different scalings; the equality must hold for all cells and point sets", "anchors": [{"file": "queso/quadrature/trimmed_element.hpp", "symbols": ["QuadratureTrimmedElement::MomentFitting", "QuadratureTrimmedElement::AssembleIPs"]}, {"file": "queso/solvers/nnls.cpp", "symbols": ["NNLS::solve"]}]}
{"id": "C61", "title": "Moments from the boundary are the integrals over the enclosed solid", "statement": "The right-hand side of the moment fitting has one entry for each triple of orders, in the order of the rows of the matrix; the entry is the flux, through the given boundary points, of a vector field whose divergence is the product of the three Legendre polynomials. For every closed triangle mesh this flux is the integral of the product over the enclosed solid, and the boundary points of a trimmed domain give it up to rounding of the tables if the orders add up to at most five.", "quantifier": "every cell, every boundary point set, all orders", "why_tests_cant": "hand-written antiderivatives and index arithmetic for all orders and cells", "anchors": [{"file": "queso/quadrature/trimmed_element.hpp", "symbols": ["QuadratureTrimmedElement::ComputeConstantTerms"]}, {"file": "queso/utilities/polynomial_utilities.hpp", "symbols": ["Polynomial::f_x", "Polynomial::f_x_int"]}, {"file": "queso/embedding/trimmed_domain.h", "symbols": ["TrimmedDomain::GetBoundaryIps"]}]}
{"id": "C62", "title": "Fictitious points complete the rule outside of the domain", "statement": "With an activated fictitious domain the fitted rule and the residual stay the same, and exactly those points of the Gauss rule of the whole cell that are not inside are appended, with weights scaled by the given factor.", "quantifier": "every element, every factor", "why_tests_cant": "all geometries and rules", "anchors": [{"file": "queso/quadrature/trimmed_element.hpp", "symbols": ["QuadratureTrimmedElement::AssembleFictitiousIPs", "QuadratureTrimmedElement::AssembleIPs"]}]}
{"id": "C63", "title": "Area, volume, quality and bounds of meshes are what they are called", "statement": "The computed area is the sum of the triangle areas; for unit normals the computed volume is the absolute signed volume; for closed meshes it is the same from each direction alone and does not depend on the position; the parallel versions agree with the sequential ones for every distribution over threads (up to 2^31 - 1 triangles); the quality estimate of a closed outward oriented mesh is zero; the bounding box is the smallest box that contains all corners; aspect ratios are at least one.", "quantifier": "every valid mesh, every schedule of the parallel loops (exact arithmetic)", "why_tests_cant": "a continuum of meshes and all thread schedules", "anchors": [{"file": "queso/utilities/mesh_utilities.cpp", "symbols": ["MeshUtilities::Area", "MeshUtilities::AreaOMP", "MeshUtilities::Volume", "MeshUtilities::VolumeOMP", "MeshUtilities::EstimateQuality", "MeshUtilities::BoundingBox", "MeshUtilities::MaxAspectRatio", "MeshUtilities::AverageAspectRatio"]}, {"file": "queso/utilities/triangle_utilities.hpp", "symbols": ["TriangleUtilities::Area", "TriangleUtilities::AspectRatio", "TriangleUtilities::Center"]}]}
{"id": "C64", "title": "Computed triangle normals are unit normals", "statement": "The normal computed from the corners of a triangle is the unit vector in the direction of its oriented area, whichever edges are used for the computation; triangles whose doubled area is not above the zero tolerance get the zero vector.", "quantifier": "every triangle (exact arithmetic)", "why_tests_cant": "a continuum of inputs and three branches", "anchors": [{"file": "queso/utilities/triangle_utilities.hpp", "symbols": ["TriangleUtilities::Normal"]}, {"file": "queso/containers/triangle_mesh_view.hpp", "symbols": ["TriangleMeshView::PopulateNormals"]}]}
{"id": "C65", "title": "Removing a triangle removes exactly this triangle", "statement": "Removing a triangle from a mesh keeps all other triangles with their corners and normals and keeps the mesh valid; only the last triangle changes its index.", "quantifier": "every valid mesh and index", "why_tests_cant": "all meshes", "anchors": [{"file": "queso/containers/triangle_mesh.hpp", "symbols": ["TriangleMesh::RemoveTriangle", "TriangleMesh::Check"]}]}
{"id": "C66", "title": "Generalized Gauss rules integrate all splines of their space", "statement": "For every supported degree (2 to 4), each of the three GGQ methods and every number of knot spans, the factory returns a rule whose number of points is half the dimension of the spline space, rounded up, with strictly increasing positions inside the interval and positive weights, and the rule integrates every spline of this space up to rounding of the tables (10^-12 of its largest value).", "quantifier": "every degree, method, number of knot spans and spline", "why_tests_cant": "the number of spans is unbounded and rules for many spans are put together from parts; tests check a few numbers of spans and a few functions", "anchors": [{"file": "queso/quadrature/integration_points_1d/integration_points_factory_1d.cpp", "symbols": ["IntegrationPointFactory1D::GetGGQ", "GetGGQPoints", "GetGGQBasePoints", "GetSpaceDimension"]}, {"file": "queso/quadrature/integration_points_1d/precomputed_ggq_rules_optimal.cpp", "symbols": ["mBasePointsOptimal", "mPrecomputedPointsOptimal"]}]}
{"id": "C67", "title": "Gauss rules integrate all polynomials up to their degree, also on elements", "statement": "Every one-dimensional Gauss rule with n points integrates all polynomials of degree 2n-1 over the unit interval, and the points assembled on an element integrate all functions over its box that are polynomials of that degree in each variable, up to rounding of the tables (4*10^-12 of volume times largest value).", "quantifier": "every method, order within the tables, box and polynomial", "why_tests_cant": "all boxes and all polynomials", "anchors": [{"file": "queso/quadrature/integration_points_1d/integration_points_factory_1d.cpp", "symbols": ["IntegrationPointFactory1D::GetGauss"]}, {"file": "queso/quadrature/single_element.hpp", "symbols": ["QuadratureSingleElement::AssembleIPs"]}]}
{"id": "C68", "title": "The volume computation creates exactly the elements the classification asks for", "statement": "After the volume computation, a cell has a full element if it is classified inside, a trimmed element if it is classified trimmed and integration points were found, and no element otherwise; the reported numbers of full and trimmed elements are the numbers of such cells.", "quantifier": "every classification, every outcome of element construction, every schedule of the parallel loop, every grid size", "why_tests_cant": "all classifications and all schedules; failures need grids with 2^31 cells", "anchors": [{"file": "queso/embedded_model.cpp", "symbols": ["EmbeddedModel::ComputeVolume"]}, {"file": "queso/embedding/element_builders.hpp", "symbols": ["TrimmedElementBuilder::Build", "UntrimmedElementBuilder::Build"]}]}
{"id": "C69", "title": "The represented volume is the physical weight of all points", "statement": "The reported represented volume is the sum over all elements of the weights of their points mapped to physical space, the numbers of points and the averages are those of the stored elements, all independent of the schedule; with Gauss rules a full element represents the volume of its cell up to rounding of the tables.", "quantifier": "every classification, set of points, schedule, cell geometry", "why_tests_cant": "all schedules, all cell geometries", "anchors": [{"file": "queso/embedded_model.cpp", "symbols": ["EmbeddedModel::ComputeVolume"]}, {"file": "queso/containers/element_base.hpp", "symbols": ["DetJ"]}]}
{"id": "C70", "title": "A second volume computation does not corrupt the model", "statement": "A second volume computation on the same model either fails or leaves every element with the points of one computation.", "quantifier": "every pair of inputs and schedules", "why_tests_cant": "all pairs of inputs, schedules and build types", "anchors": [{"file": "queso/embedded_model.cpp", "symbols": ["EmbeddedModel::ComputeVolume"]}, {"file": "queso/containers/background_grid.hpp", "symbols": ["BackgroundGrid::MakeElement", "LockElements"]}]}
{"id": "C71", "title": "The bounding box warning is printed exactly when the surface leaves the grid", "statement": "With output enabled, the warning about the bounding box is printed if and only if a corner of the surface lies outside of the box of the grid.", "quantifier": "every surface and every grid box", "why_tests_cant": "all surfaces", "anchors": [{"file": "queso/embedded_model.cpp", "symbols": ["EmbeddedModel::CheckIfMeshIsWithinBoundingBox"]}]}
{"id": "C72", "title": "Closing a face of a cell uses no invalid memory", "statement": "For the edges of a clipped solid on a face of its cell, pGetTriangulation returns: no vector index is out of range, no iterator or reference is used after its vector has moved, and no loop runs forever.", "quantifier": "every list of edges on the face and every tolerance, sort and inside test", "why_tests_cant": "Whether a vector moves depends on how many vertices and split points the contour produces compared with the reserved size; a test shows this for one contour, and use of moved memory often goes unnoticed.", "anchors": [{"file": "queso/embedding/trimmed_domain_on_plane.h", "symbols": ["Reserve", "pGetTriangulation"]}, {"file": "queso/embedding/trimmed_domain_on_plane.cpp", "symbols": ["CloseContourEdges", "SplitEdgesAtSplitPoint", "InsertVertex"]}]}
{"id": "C73", "title": "The cap of a face lies in the face, points outwards and has the area of the solid's section", "statement": "All triangles that close a face lie in its plane and carry its outer normal; their area vectors add up to the areas of the strips below the contour edges, without triangles turned over where the strips are not. A face no edge touches is covered completely or not at all, as its centre is inside. A contour that is a graph gives exactly the area below it. A contour of edges that face up, down or sideways and bound a region of the face, with parts of the upper side where the solid leaves the cell, gives exactly the area of the region, all triangles outward.", "quantifier": "every face direction and side, every closed contour, every list of edges that form a graph, every contour in general position", "why_tests_cant": "The order of the vertices depends on direction, side and the switched axes in combination with the kind of strip; all combinations and all contours have to give outward triangles of the right area.", "anchors": [{"file": "queso/embedding/trimmed_domain_on_plane.cpp", "symbols": ["TriangulateDomain", "CloseContourEdges"]}]}
{"id": "C74", "title": "Cutting contour edges keeps the contour", "statement": "When the edges of a contour are cut at the positions of the vertices of the other orientation, every resulting edge is a part of an original edge with the same normal, runs from left to right, and the area below the edges stays the same; edges are only added on the upper side of the face, facing upwards.", "quantifier": "every contour and every set of split points", "why_tests_cant": "The pieces depend on the number and order of the split points on each edge; lost, doubled or swapped pieces show up only for particular contours.", "anchors": [{"file": "queso/embedding/trimmed_domain_on_plane.cpp", "symbols": ["SetSplitPoint", "SplitEdgesAtSplitPoint", "CloseContourEdges"]}]}
{"id": "C75", "title": "A contour edge is closed against the nearest edge below", "statement": "The partner of an edge that faces upwards is the eligible edge that faces downwards whose middle is nearest below; if no edge is eligible the strip reaches down to the lower side of the face.", "quantifier": "every edge and every list of edges that face downwards", "why_tests_cant": "The choice is a minimum over all edges with conditions on ends, side and coincidence; its result must not depend on the order of the edges.", "anchors": [{"file": "queso/embedding/trimmed_domain_on_plane.cpp", "symbols": ["FindNegativePartnerEdge"]}]}
{"id": "C76", "title": "The rules on triangles integrate polynomials of their degree", "statement": "The rules with 1, 3, 6 and 12 points integrate all polynomials of degrees 1, 2, 4 and 6 over every triangle in space, up to the digits of the tables; their points lie in the triangle, have positive weights and carry its unit normal; other rules are rejected.", "quantifier": "every triangle, every polynomial, every rule", "why_tests_cant": "a wrong digit or a swapped shape function shows only for some polynomials on some triangles", "anchors": [{"file": "queso/utilities/triangle_gauss_legendre_integration_points.hpp", "symbols": ["TriangleGaussLegendrePoints1", "TriangleGaussLegendrePoints2", "TriangleGaussLegendrePoints3", "TriangleGaussLegendrePoints4"]}, {"file": "queso/utilities/triangle_utilities.hpp", "symbols": ["GetIPsGlobal"]}]}
{"id": "C77", "title": "The boundary of a trimmed domain is the clipped surface and six caps", "statement": "A trimmed domain that is returned for a cell was built in a box that contains the cell and is hardly larger. Its closed boundary is a valid mesh that consists of the surface clipped by this box and one cap per face; each cap lies exactly in the plane of its face, stays in the box up to the tolerance, has the outer normal and comes from the edges of the clipped surface on this face; refinement does not change the surface. Its volume exceeds the required part of the cell and its error estimate is below one half. An attempt to build it finds nothing exactly if nothing of the surface is left after clipping; then no surface point is inside the box by more than the tolerance. If on each face the recorded edges are in general position, building does not fail; if they bound a region of the face, the cap is this region, all its triangles point outwards, and signed volume and area vector of the closed boundary are those of the clipped surface plus the contributions of the regions.", "quantifier": "every valid surface mesh, every cell that is not tiny, all random perturbations, both orientations of the planes, every answer of the inside test", "why_tests_cant": "caps are built from recorded edges by six constructors; a wrong face, side or order shows only for cells cut in a particular way", "anchors": [{"file": "queso/embedding/trimmed_domain.h", "symbols": ["TrimmedDomain::TrimmedDomain"]}, {"file": "queso/embedding/brep_operator.cpp", "symbols": ["BRepOperator::pGetTrimmedDomain"]}, {"file": "queso/containers/clipped_triangle_mesh.hpp", "symbols": ["ClippedTriangleMesh"]}]}
{"id": "C78", "title": "A contour is closed along the upper side of a face between the places where the solid enters and leaves", "statement": "For edges in general position, closing the contour of a face keeps the given edges that face up and adds edges on the upper side: exactly the parts between a place where the solid begins and the next place, if the solid ends there. Places are where edges of one orientation only meet the upper side, and the corners that are no ends of edges. If there is no other place, a point above all edges decides whether the whole side is closed. If no edge faces down, the cap is then exactly the region below the edges and the closed parts.", "quantifier": "every list of edges in general position within every face, every answer of the inside test, every sort that sorts by the place on the upper side", "why_tests_cant": "which edges meet the upper side, in which order, with which ties, ranges over all contours", "anchors": [{"file": "queso/embedding/trimmed_domain_on_plane.cpp", "symbols": ["TrimmedDomainOnPlane::CloseContourEdges", "FindIntersectingEdgesWithUpperBound", "AddIntersectedVertexPositive", "AddIntersectedVertexNegative", "AddIntersectedVertexVertical", "RemoveDublicateVerticalEdges", "RemoveDublicateEdges"]}]}
{"id": "C79", "title": "Written settings are valid JSON with all keys and values", "statement": "WriteDictionaryToJSON writes a file that every JSON reader accepts: one object with one member per value, section and list, under the name of its key, with numbers rounded to ten significant digits, values that are not set marked as such, and sections and list entries nested. It does so for every nesting, every order of the keys in the map, and empty lists.", "quantifier": "all dictionaries with registered keys, all values, all depths, all orders of the key maps; settings after every sequence of calls", "why_tests_cant": "commas, braces and number formats depend on which sections and lists are empty, on the order of a hash map and on every digit of a number", "anchors": [{"file": "queso/containers/dictionary.hpp", "symbol": "PrintInfo"}, {"file": "queso/containers/data_set.hpp", "symbol": "PrintValueVisit"}, {"file": "queso/io/io_utilities.tpp", "symbol": "WriteDictionaryToJSON"}]}
{"id": "C80", "title": "Settings survive writing and reading", "statement": "Settings changed by any calls, written with write_settings and read with read_settings, come back with all sections, conditions in order, values set and not set; numbers with at most ten significant digits are unchanged and others have a relative error of at most 5e-10; a second round trip changes nothing.", "quantifier": "all call histories on settings and conditions, all values, all numbers, all key orders", "why_tests_cant": "the result depends on overload resolution for every kind of number, on rounding of every value and on the calls before", "anchors": [{"file": "queso/python/scripts/json_io.py", "symbol": "JsonIO"}, {"file": "queso/python/bindings/dictionary_binder_helper.hpp", "symbol": "DictionaryBinderHelper"}, {"file": "queso/includes/dictionary_factory.hpp", "symbol": "CreateSettings"}, {"file": "queso/includes/register_keys.hpp", "symbol": "ConditionSettings"}]}
{"id": "C81", "title": "New settings hold the documented defaults and nothing else", "statement": "Dictionary.Create(\"Settings\") returns settings with the documented defaults in their sections; no other value is set, there are no conditions, and new condition settings hold no value. The check of required values succeeds on settings after any calls exactly if every required value of the sections and of all conditions is set.", "quantifier": "all names, all paths, all orders of the key maps", "why_tests_cant": "a test looks up some names; that nothing else is set is a statement about all of them", "anchors": [{"file": "queso/includes/dictionary_factory.hpp", "symbol": "CreateSettings"}, {"file": "queso/includes/dictionary_factory.hpp", "symbol": "CreateConditionSettings"}]}
{"id": "C82", "title": "What a settings file written by hand gives", "statement": "Reading a settings file never has undefined behaviour. It succeeds exactly if the text is a JSON object whose members are sections with known names and values that suit the types of their keys, a non-empty list of conditions, or the text for values that are not set. Then every key has the value of the file converted to its type, or its default if the file gives none, and the conditions are those of the list in order.", "quantifier": "all texts, all JSON values at all keys, all orders of the key maps", "why_tests_cant": "the bindings choose the conversion from a list of overloads in two passes; which of the infinitely many JSON values suit which type, and that nothing else changes, cannot be sampled", "anchors": [{"file": "queso/python/scripts/json_io.py", "symbol": "JsonIO.read_settings"}, {"file": "queso/python/bindings/dictionary_binder_helper.hpp", "symbol": "DictionaryBinderHelper"}, {"file": "queso/containers/data_set.hpp", "symbol": "SetValue"}]}
{"id": "C83", "title": "VTK files describe the mesh, the elements and the integration points", "statement": "The VTK file of a mesh follows the legacy VTK format and describes one triangle cell per triangle with its corners in order; the file of the elements describes one hexahedron cell per active element with the corners of its box in the order VTK requires; the file of the integration points describes all points of active elements in global coordinates with their global weights, which add up to the reported represented volume. Numbers are kept exactly in binary files and to fifteen decimals in text files, on hosts of either byte order. This holds while there are at most 2^31 point indices.", "quantifier": "all meshes, all grids, both encodings, both byte orders", "why_tests_cant": "tests compare a few files byte by byte or count lines; buffer flushes, byte swapping, index offsets and printing must fit for every size and value", "anchors": [{"file": "queso/io/io_utilities.cpp", "symbol": "IO::WriteMeshToVTK"}, {"file": "queso/io/io_utilities.tpp", "symbol": "IO::WriteElementsToVTK"}, {"file": "queso/io/io_utilities.tpp", "symbol": "IO::WritePointsToVTK"}, {"file": "queso/io/binary_buffer_writer.hpp", "symbol": "BinaryBufferWriter"}]}
{"id": "C84", "title": "Output of a model", "statement": "Writing a model creates the files of the elements and of the integration points, the model info and for each condition a file with exactly the triangles of its segments in order, as one STL file; no other file changes. This requires that conditions have different ids.", "quantifier": "all models, all lists of conditions with all segments, all contents of the output directory", "why_tests_cant": "any number of conditions and segments; a test sees one directory", "anchors": [{"file": "queso/embedded_model.cpp", "symbol": "EmbeddedModel::WriteModelToFile"}, {"file": "queso/io/io_utilities.tpp", "symbol": "IO::WriteConditionToSTL"}]}
{"id": "C85", "title": "Non-negative least squares", "statement": "For every matrix with rows and columns and every right-hand side the solver ends with a non-negative solution in which not more numbers than rows differ from zero. Unless it reports that the limit on the number of iterations is reached, no other non-negative numbers have a smaller residual, and the returned value is the norm of the residual; if non-negative numbers solve the equations, it is zero. The returned value is never larger than the norm of the residual. Nothing of this depends on the content of uninitialised memory. Without rows or columns the returned value is 10^8.", "quantifier": "all matrices of all sizes (also with dependent or zero columns), all right-hand sides, all contents of uninitialised memory", "why_tests_cant": "optimality compares with infinitely many other solutions, and the active-set iteration takes a different path through the columns for each matrix", "anchors": [{"file": "queso/solvers/nnls.cpp", "symbol": "NNLS::solve"}, {"file": "external_libraries/nnls/nnls_impl.h", "symbol": "nnls_"}]}
{"id": "C86", "title": "The B-spline volume is the map of the background grid", "statement": "For every grid with positive orders and numbers of elements and boxes that are not flat, the B-spline volume of either kind has in each direction as many control points as elements plus the order; its knot spans are the cells of the grid in parametric space, and at every point of the parametric domain, also on its border, it equals the affine map that the library uses between parametric and physical space. The list and the matrix of control points hold the same points in the documented order. An exception is raised exactly for order zero, no elements, a flat box in space, or a flat or turned parametric box, and for other names of the kind.", "quantifier": "all orders, numbers of elements, boxes, both kinds of knot vectors, all points of the parametric domain", "why_tests_cant": "the identity of a spline and an affine map is a statement about infinitely many points, orders and numbers of elements, with control points that come out of repeated knot insertion", "anchors": [{"file": "queso/python/scripts/b_spline_volume.py", "symbol": "BSplineVolume"}]}
{"id": "C87", "title": "The mapping functions of the python interface agree with the library", "statement": "point_from_global_to_param_space and point_from_param_to_global_space return the points that the mapping of the library returns for the same boxes, raise an exception exactly if the box from which they map is flat in a direction, and are inverse to each other.", "quantifier": "all points and all pairs of boxes", "why_tests_cant": "all points and boxes, also with exchanged bounds", "anchors": [{"file": "queso/python/scripts/helper.py", "symbol": "point_from_global_to_param_space"}, {"file": "queso/python/scripts/helper.py", "symbol": "point_from_param_to_global_space"}]}
{"id": "C88", "title": "The list of all integration points", "statement": "PyQuESo.GetIntegrationPoints returns the points of all untrimmed elements and the points with positive weight of all trimmed elements, element after element.", "quantifier": "all lists of elements with all points", "why_tests_cant": "all models; the tests of the project never call it with trimmed elements", "anchors": [{"file": "queso/python/PyQuESo.py", "symbol": "GetIntegrationPoints"}, {"file": "queso/python/bindings/add_containers_to_python.cpp", "symbol": "IntegrationPoint"}]}
{"id": "C89", "title": "Surface loads in Kratos", "statement": "A surface load adds three point loads for each triangle of the surface with an area of at least 3e-14, at the points halfway between centroid and corners, mapped to parametric space, each with a third of the area times modulus times the unit vector of the direction. The new conditions get the next ids and nothing else changes. The sum of all forces is modulus times unit direction times an area that differs from the area of the surface by at most 3e-14 for each triangle. A direction of length zero is rejected.", "quantifier": "all meshes, loads, directions, grids and model parts with conditions numbered 1, 2, ...", "why_tests_cant": "the resulting force is a sum over arbitrarily many triangles and the threshold decides for each of them", "anchors": [{"file": "kratos_interface/weak_bcs.py", "symbol": "SurfaceLoad.apply"}, {"file": "kratos_interface/weak_bcs.py", "symbol": "SurfaceLoad.__init__"}]}
{"id": "C90", "title": "Pressure loads in Kratos", "statement": "A pressure load adds three point loads for each triangle with an area of at least 3e-14; each acts against the normal of the triangle with a third of the pressure times the area. The sum of the forces is minus the pressure times the area vector of the surface up to 3e-14 times the pressure for each triangle; for a closed surface it vanishes up to this error.", "quantifier": "all meshes (closed or not), pressures, grids and model parts with conditions numbered 1, 2, ...", "why_tests_cant": "equilibrium on closed surfaces is a statement about all of them", "anchors": [{"file": "kratos_interface/weak_bcs.py", "symbol": "PressureLoad.apply"}]}
{"id": "C91", "title": "Supports in Kratos", "statement": "Penalty and Lagrange supports create one condition with the prescribed displacement on exactly those triangles that have an area above the tolerance, an aspect ratio below 1e8 and a surface in the volume with an area above 1e-14, in the order of the triangles, with the next ids and the corners mapped to parametric space. Each penalty support is enforced with its own factor.", "quantifier": "all meshes, displacements, factors, grids and model parts with conditions numbered 1, 2, ...; all lists of conditions for the factor", "why_tests_cant": "thresholds for all triangles; interaction of several supports in all orders", "anchors": [{"file": "kratos_interface/weak_bcs.py", "symbol": "PenaltySupport.apply"}, {"file": "kratos_interface/weak_bcs.py", "symbol": "LagrangeSupport.apply"}]}
{"id": "C92", "title": "Conditions by bounding boxes", "statement": "A Dirichlet condition fixes exactly the requested directions of the nodes strictly inside of the box. A Neumann condition distributes its force equally over the nodes strictly inside of the box, with one point load each; with no node inside nothing changes. The forces of several Neumann conditions add up.", "quantifier": "all boxes, forces, model parts with distinct nodes", "why_tests_cant": "all sets of nodes and all combinations of conditions", "anchors": [{"file": "kratos_interface/bounding_box_bcs.py", "symbol": "DirichletCondition.apply"}, {"file": "kratos_interface/bounding_box_bcs.py", "symbol": "NeumannCondition.apply"}]}
{"id": "C93", "title": "Exchange of triangle meshes with Kratos", "statement": "Writing a mesh to an empty model part gives nodes 1, 2, ... at the vertices and elements 1, 2, ... at the corners of the triangles; reading the triangles of a model part into a mesh gives the nodes as vertices and triangles with the same corners and computed normals. Both together give the same mesh again. This also holds if two vertices are at the same position and if the ids of nodes have gaps.", "quantifier": "all valid meshes; all model parts with distinct ids whose entities are triangles; reading also into meshes that are not empty", "why_tests_cant": "arbitrary connectivity, duplicate vertices and gaps in the ids", "anchors": [{"file": "kratos_interface/model_part_utilities.py", "symbol": "read_model_part_from_triangle_mesh"}, {"file": "kratos_interface/model_part_utilities.py", "symbol": "read_triangle_mesh_grom_model_part"}]}
{"id": "C94", "title": "Elements in Kratos", "statement": "Exactly the elements of the grid that have a point with positive weight become elements of the model part, in the same order and with the ids 1, 2, ...; each has exactly its points with positive weights. A model part that holds an element with the id 1 leads to an error.", "quantifier": "all lists of elements with all points", "why_tests_cant": "all combinations of weights", "anchors": [{"file": "kratos_interface/model_part_utilities.py", "symbol": "add_elements_to_model_part"}]}
{"id": "C95", "title": "The model of an analysis in Kratos", "statement": "Conditions with known types, all their values and valid meshes are added without an error, in the given order, with ids 1, 2, ..., and change neither elements nor ids or positions of nodes. An unknown type is an error wherever it is in the list. The model of an analysis holds no old elements and conditions; if it has a condition with Lagrange multipliers then the nodes get the degrees of freedom for them, and they do not get them if no Lagrange support is in the settings.", "quantifier": "all lists of conditions, model parts and lists of elements", "why_tests_cant": "all orders and combinations of conditions", "anchors": [{"file": "kratos_interface/model_part_utilities.py", "symbol": "add_conditions_to_model_part"}, {"file": "kratos_interface/custom_analysis_stage.py", "symbol": "ModifyInitialGeometry"}]}
{"id": "C96", "title": "Views on meshes", "statement": "A view on a mesh shows the triangles of the mesh with their corners and normals, one by one, all, and those with given indices in any order; a callback for each triangle is called in this order until it asks to stop. A view on a mesh of another type shows its triangles with computed normals. This also holds after the mesh was changed.", "quantifier": "all sequences of calls on a mesh, all index lists, callbacks and mesh types", "why_tests_cant": "all histories of the memory of the mesh", "anchors": [{"file": "queso/containers/triangle_mesh_view.hpp", "symbol": "TriangleMeshView"}, {"file": "queso/containers/triangle_mesh.hpp", "symbol": "TriangleMesh"}]}
{"id": "C97", "title": "References into meshes", "statement": "A triangle object that was handed out keeps the values it had. A mesh can be appended to itself: it then holds all its vertices and triangles twice.", "quantifier": "all sequences of calls on a mesh and all meshes", "why_tests_cant": "depends on when memory is moved", "anchors": [{"file": "queso/containers/triangle_proxies.hpp", "symbol": "TriangleProxy"}, {"file": "queso/utilities/mesh_utilities.cpp", "symbol": "Append"}]}
{"id": "C98", "title": "Access to containers from Python", "statement": "A triangle with valid indices that is added from Python gets its computed normal, other indices are an error. Iterating over the triangles gives each once, also those that are added meanwhile. Indices of coordinates and condition segments out of range are errors.", "quantifier": "all meshes, indices and loop bodies", "why_tests_cant": "all indices and all changes during the iteration", "anchors": [{"file": "queso/python/bindings/add_containers_to_python.cpp", "symbol": "AddContainersToPython"}]}
{"id": "C99", "title": "The output directory", "statement": "Constructing PyQuESo with output gives an existing, empty output directory and deletes nothing but old output; the output is later written to this directory. Without output nothing is changed.", "quantifier": "all file systems, working directories and names", "why_tests_cant": "all directory names and contents of the file system", "anchors": [{"file": "queso/python/PyQuESo.py", "symbol": "__init__"}, {"file": "queso/embedded_model.cpp", "symbol": "EmbeddedModel::WriteModelToFile"}]}
{"id": "C100", "title": "Settings and runs of PyQuESo", "statement": "The settings are available before and after runs and are those that were read. After the first run the results are available; further runs are errors and change nothing. After a run that failed the settings can be read and corrected.", "quantifier": "all settings and numbers of runs", "why_tests_cant": "all sequences of calls", "anchors": [{"file": "queso/python/PyQuESo.py", "symbol": "Run"}, {"file": "queso/python/PyQuESo.py", "symbol": "GetSettings"}, {"file": "queso/python/bindings/define_python.hpp", "symbol": "UniqueHolder"}]}
{"id": "C101", "title": "A clipped closed surface is closed except along the recorded edges", "statement": "If a closed surface is clipped by a box, every edge of the triangles of the clipped surface that is not recorded as an edge on a face of the box is used in one direction as often as in the other one; the recorded edges lie on their faces, and the area vector of the clipped surface is determined by them. So nothing but the faces has to be closed.", "quantifier": "all closed surfaces and all boxes that are not tiny", "why_tests_cant": "all surfaces and boxes; edges near faces", "anchors": [{"file": "queso/embedding/brep_operator.cpp", "symbol": "ClipTriangleMesh"}, {"file": "queso/embedding/brep_operator.cpp", "symbol": "ClipTriangleMeshUnique"}, {"file": "queso/embedding/clipper.cpp", "symbol": "ClipPolygonByPlane"}, {"file": "queso/embedding/polygon.h", "symbol": "AddToTriangleMesh"}]}
{"id": "C102", "title": "The report says what the calls gave", "statement": "After any sequence of volume computations, conditions and writings the model info (and model_info.json) holds exactly: the numbers of the last volume computation (geometry, elements, points, times per thread), id, area and part of the area in active elements of every condition in order, the total time, the time for conditions and the time for writing; it is complete if and only if a volume was computed; each condition has its own entry; the total time is the sum of its parts; no call has undefined behaviour.", "quantifier": "all sequences of calls, all inputs, levels of output, orders of the parallel loops and times", "why_tests_cant": "unbounded histories: what is overwritten and what is added up shows only after several calls", "anchors": [{"file": "queso/embedded_model.cpp", "symbol": "ComputeVolume"}, {"file": "queso/embedded_model.cpp", "symbol": "ComputeCondition"}, {"file": "queso/embedded_model.cpp", "symbol": "WriteModelToFile"}, {"file": "queso/includes/dictionary_factory.hpp", "symbol": "CreateModelInfo"}, {"file": "queso/containers/condition.hpp", "symbol": "Condition"}]}
{"id": "C103", "title": "The closed boundary of a trimmed cell is closed", "statement": "If a closed surface is clipped by a cell and on each face of the cell the recorded edges are in general position, run around a region and avoid the corners, no edge is recorded on two faces, and the three faces at each corner agree whether it belongs to the solid, then the boundary mesh of the trimmed cell (clipped surface, caps and refinement) is closed: every part of an edge is used in one direction as often as in the other one. So there is no gap between the surface and a cap, nor between two caps at an edge of the cell, and the integrals over it are those over a solid.", "quantifier": "all closed surfaces, all cells, both directions of sweeping, all numbers of refined triangles, all sorts and tree balancings", "why_tests_cant": "all surfaces, cells and contours; the gap along an edge of the cell depends on what two independent sweeps in two planes give", "anchors": [{"file": "queso/embedding/trimmed_domain.h", "symbol": "TrimmedDomain"}, {"file": "queso/embedding/trimmed_domain_on_plane.cpp", "symbol": "pGetTriangulation"}, {"file": "queso/embedding/brep_operator.cpp", "symbol": "ClipTriangleMesh"}, {"file": "queso/utilities/mesh_utilities.cpp", "symbol": "Refine"}]}
{"id": "C104", "title": "Iterating a list of dictionaries in Python gives its entries, and references to entries stay valid", "statement": "After any sequence of creating, appending and changing dictionaries, the list holds no null entry and no dictionary twice; appending a holder twice raises an exception and changes nothing. A reference to an entry remains a reference to it whatever is appended later. A loop over the list visits every entry once, in order, and ends. Iterator expressions (it+n, it-n, ++, --, differences, comparisons, [], *, ->) mean what the same expressions on indices mean, and are undefined exactly if they leave the range.", "quantifier": "all histories of calls, all lists, all iterator expressions, all bodies of loops, all growth policies of the vector", "why_tests_cant": "histories and expressions are unbounded; whether appending in a loop is harmful depends on the memory reserved, so tests may pass by luck", "anchors": [{"file": "queso/python/bindings/add_dictionary_to_python.cpp", "symbol": "DictionaryList"}, {"file": "queso/includes/dereference_iterator.hpp", "symbol": "DereferenceIterator"}, {"file": "queso/python/bindings/define_python.hpp", "symbol": "UniqueHolder"}]}
{"id": "C105", "title": "The parts of a surface in the cells make up the surface", "statement": "If a surface is clipped by all cells of a grid that contains it, every piece lies in its triangle and keeps its normal and orientation, no two pieces overlap, and the pieces of a triangle have its area in total: nothing is lost and nothing appears twice. So the segments of a condition make up its surface, their areas and volume contributions add up to those of the surface, and the reported percentage is between 0 and 100, and 100 if every segment is in an active element.", "quantifier": "all surfaces, all grids, all orders in which the cells are processed", "why_tests_cant": "all positions of triangles relative to the planes of the grid; whether a sliver is lost depends on tolerances in two independent computations (selection of triangles, clipping) in neighbouring cells", "anchors": [{"file": "queso/embedded_model.cpp", "symbol": "ComputeCondition"}, {"file": "queso/embedding/brep_operator.cpp", "symbol": "ClipTriangleMeshUnique"}, {"file": "queso/embedding/brep_operator.cpp", "symbol": "ClipTriangleMesh"}, {"file": "queso/embedding/clipper.cpp", "symbol": "ClipTriangle"}, {"file": "queso/containers/grid_indexer.hpp", "symbol": "GetBoundingBoxXYZFromIndex"}]}
{"id": "C106", "title": "The volumes of the cells add up to the volume of the solid", "statement": "Let a closed surface lie inside a grid. For every cell that it cuts, the part of the solid in the cell gets a closed boundary mesh; its signed volume is the volume of this part. These volumes and the volumes of the cells completely inside add up to the volume enclosed by the surface: nothing is lost, counted twice or added at the faces between cells.", "quantifier": "all surfaces, all grids, all answers of the randomised inside test that agree with the sections, all numbers of triangles at which the boundary is refined", "why_tests_cant": "all shapes of the sections with the faces of cells; two neighbouring cells compute their common face independently of each other, with different sets of edges, from opposite sides", "anchors": [{"file": "queso/embedding/brep_operator.cpp", "symbol": "pGetTrimmedDomain"}, {"file": "queso/embedding/brep_operator.cpp", "symbol": "ClipTriangleMesh"}, {"file": "queso/embedding/trimmed_domain.cpp", "symbol": "TrimmedDomain"}, {"file": "queso/embedding/trimmed_domain_on_plane.cpp", "symbol": "TriangulateDomain"}, {"file": "queso/utilities/mesh_utilities.cpp", "symbol": "Volume"}]}
{"id": "C107", "title": "The reported volume is the volume of the solid", "statement": "For a solid given by a closed surface inside the grid, the trimmed domain of every cut cell is found at the first attempt, with the given cell, so it does not depend on the random numbers; it is kept exactly if its volume is above the given part of the volume of the cell. A cell in which nothing is left of the surface gets no domain. The volume reported after the computation is the volume of the solid up to the errors of the integration rules of the cells with a domain and the given part of the volume of the cut cells without one; the reported percentage is 100 up to the corresponding error.", "quantifier": "all closed surfaces, all grids, all random numbers, all schedules of the parallel loop, all minimal ratios, all errors of the rules", "why_tests_cant": "all surfaces, grids, random numbers and schedules; the percentage is what users look at to judge whether the geometry was embedded correctly", "anchors": [{"file": "queso/embedding/brep_operator.cpp", "symbol": "pGetTrimmedDomain"}, {"file": "queso/embedded_model.cpp", "symbol": "ComputeVolume"}, {"file": "queso/utilities/mesh_utilities.cpp", "symbol": "EstimateQuality"}, {"file": "queso/embedding/trimmed_domain.h", "symbol": "TrimmedDomain"}]}
{"id": "C108", "title": "Python objects stay usable as long as the program holds them", "statement": "Every object of the library that a Python program holds (settings, lists, models, elements, integration points, conditions, segments, meshes, triangles, iterators) can be used, in whatever order the program obtains and releases the others: no call reads memory that was freed, and every call that hands out an object of an existing one does so.", "quantifier": "all sequences of creating, handing over, asking for, releasing and using objects", "why_tests_cant": "whether memory is used after it was freed depends on the order in which a program gives up its references, and tests hold on to the model until the end", "anchors": [{"file": "queso/python/bindings/add_containers_to_python.cpp", "symbol": "AddContainersToPython"}, {"file": "queso/python/bindings/add_dictionary_to_python.cpp", "symbol": "AddDictionaryToPython"}, {"file": "queso/python/bindings/define_python.hpp", "symbol": "UniqueHolder"}, {"file": "queso/embedded_model.h", "symbol": "Create"}]}
{"id": "C109", "title": "The parallel loops have no data races", "statement": "While a model is built with several threads, no two threads access the same object in memory at the same time with at least one of them writing, unless both do so in a critical section or both by atomic operations. This holds for classifying the cells (filling and merging), making elements, making conditions, and the sums over the triangles of a mesh.", "quantifier": "all geometries, grids, meshes, numbers of threads and assignments of iterations to threads", "why_tests_cant": "a data race shows only under unlucky timing, and a race detector sees only the accesses of the runs it watches", "anchors": [{"file": "queso/embedding/flood_fill.cpp", "symbol": "PartitionedFill"}, {"file": "queso/embedding/flood_fill.cpp", "symbol": "MergeGroups"}, {"file": "queso/embedding/flood_fill.cpp", "symbol": "ClassifyElements"}, {"file": "queso/embedded_model.cpp", "symbol": "ComputeVolume"}, {"file": "queso/embedded_model.cpp", "symbol": "ComputeCondition"}, {"file": "queso/containers/background_grid.hpp", "symbol": "MakeElement"}, {"file": "queso/utilities/mesh_utilities.cpp", "symbol": "AreaOMP"}]}
{"id": "C110", "title": "Errors reach the caller as exceptions", "statement": "Whatever goes wrong while a model is created from files or meshes, the call either returns or raises an exception that the program can catch: the process is never terminated.", "quantifier": "all settings, files, meshes, schedules, build types and sequences of calls", "why_tests_cant": "an exception inside a parallel loop ends the test program itself; which iteration raises it depends on input and schedule", "anchors": [{"file": "queso/embedded_model.h", "symbol": "CreateAllFromSettings"}, {"file": "queso/embedded_model.cpp", "symbol": "ComputeVolume"}, {"file": "queso/embedded_model.cpp", "symbol": "ComputeCondition"}, {"file": "queso/containers/background_grid.hpp", "symbol": "MakeElement"}, {"file": "queso/containers/background_grid.hpp", "symbol": "GetElementView"}]}
{"id": "C111", "title": "The cells tile the box in floating-point arithmetic", "statement": "Also with the rounding of double precision, the boxes reported for the cells of a grid have no gaps and no overlaps: neighbouring cells have exactly the same coordinates on their common face, every point is in exactly one cell, every cell has a positive size, the first cell begins and the last cell ends exactly at the corners of the box of the grid, and all faces are within a few rounding errors of their exact positions.", "quantifier": "all boxes, all numbers of cells up to 2^53, all arithmetics that keep the order and have a small relative error, with or without fused multiply-add", "why_tests_cant": "whether the last face is hit exactly depends on the number of cells and on the bounds in an erratic way (49 cells on [0,1] miss it, 48 and 50 do not)", "anchors": [{"file": "queso/containers/grid_indexer.hpp", "symbol": "GetBoundingBoxFromIndex"}, {"file": "queso/containers/grid_indexer.hpp", "symbol": "GetBoundingBoxXYZFromIndex"}]}
{"id": "C112", "title": "Integration points of full cells in floating-point arithmetic", "statement": "Also with the rounding of double precision (as long as nothing overflows or underflows), the Gauss points computed for a full cell lie in the cell, however small it is, their weights are positive, the weights add up to the volume of the cell up to a relative error of 6e-12, and positions and weights are within a few rounding errors of the exact ones.", "quantifier": "all cells with representable corners, all Gauss rules of the tables, all arithmetics that keep the order and have a small relative error, with or without fused multiply-add", "why_tests_cant": "a point outside its cell appears only for particular bounds; tests compare with tolerances far above the rounding errors", "anchors": [{"file": "queso/quadrature/single_element.hpp", "symbol": "AssembleIPs"}, {"file": "queso/quadrature/integration_points_1d/integration_points_factory_1d.cpp", "symbol": "GetGauss"}]}
{"id": "C113", "title": "Mapping between the spaces in floating-point arithmetic", "statement": "Also with the rounding of double precision, mapping points between parametric and global space keeps their order, takes corners to corners, is within a few rounding errors of the exact map, and a point mapped there and back again returns to its place.", "quantifier": "all pairs of boxes with positive size, all points of a box, all arithmetics that keep the order and have a small relative error, with or without fused multiply-add", "why_tests_cant": "whether a corner is hit exactly depends on the bounds in an erratic way", "anchors": [{"file": "queso/utilities/mapping_utilities.hpp", "symbol": "ToParametric"}, {"file": "queso/utilities/mapping_utilities.hpp", "symbol": "ToGlobal"}, {"file": "queso/utilities/mapping_utilities.hpp", "symbol": "ComputeScale"}]}
{"id": "C114", "title": "The leaves of the octree in floating-point arithmetic", "statement": "Also with the rounding of double precision, the leaves of the octree of a trimmed cell, with the parts classified as outside, cover the cell without gaps and without overlaps, and each leaf is within a few rounding errors per level of the octant that it stands for.", "quantifier": "all cells, all numbers of levels, all classifications of the parts, all arithmetics that keep the order and have a small relative error", "why_tests_cant": "whether the faces of neighbouring parts coincide depends on the bounds in an erratic way, and errors add up over the levels", "anchors": [{"file": "queso/embedding/octree.cpp", "symbol": "Refine"}, {"file": "queso/embedding/octree.cpp", "symbol": "CreateNewNode"}]}
{"id": "C115", "title": "Clipping in floating-point arithmetic", "statement": "Also with the rounding of double precision, clipping a triangle with a box that its bounding box overlaps never fails, the vertices of the result lie in the triangle and in the box up to the tolerance and a few rounding errors, and vertices marked as lying on a face lie on it up to the same tolerance.", "quantifier": "all triangles, all boxes, all arithmetics that keep the order and have a small relative error, with or without fused multiply-add", "why_tests_cant": "a continuum of inputs; failures need corners within some rounding errors of two faces at once", "anchors": [{"file": "queso/embedding/clipper.cpp", "symbol": "ClipTriangle"}, {"file": "queso/embedding/clipper.cpp", "symbol": "ClipPolygonByPlane"}, {"file": "queso/embedding/clipper.cpp", "symbol": "FindIntersectionPointOnPlane"}, {"file": "queso/embedding/clipper.cpp", "symbol": "ClassifyPointToPlane"}]}
{"id": "C116", "title": "Triangle-box test in floating-point arithmetic", "statement": "Also with the rounding of double precision, the separating-axis test reports an intersection if and only if the triangle has a point in the box shrunk by the tolerance.", "quantifier": "all triangles, all boxes, all tolerances, all arithmetics that keep the order and have a small relative error, with or without fused multiply-add", "why_tests_cant": "a continuum of inputs and thirteen rounded axes; failures need a triangle that touches the box within a few rounding errors", "anchors": [{"file": "queso/embedding/aabb_primitive.cpp", "symbol": "AABB_primitive::intersect(v0,v1,v2,tolerance)"}, {"file": "queso/embedding/aabb_primitive.cpp", "symbol": "check_axis"}, {"file": "external_libraries/aabb_tree/AABB_base.cc", "symbol": "AABB_base::computeCentre"}]}
