{"id": "C01", "title": "base64 output is decodable", "statement": "Output::base64Encode applied to any byte sequence gives a string of length 4*ceil(n/3) over the RFC 4648 alphabet plus trailing '=' padding, and the RFC 4648 decoder recovers exactly the original bytes; distinct inputs give distinct outputs.", "quantifier": "every byte sequence of every length", "why_tests_cant": "The input space is infinite; padding and shift mistakes only show on particular lengths and bit patterns.", "anchors": ["kernel/Output/base64.cpp:base64Encode", "kernel/Output/base64.h"]}
{"id": "C02", "title": "VTK Lagrange triangle lattice is complete", "statement": "For every order n>=1 VTKLagrangeTriangle lists every lattice point (i,j) with i+j<=n exactly once, (n+1)(n+2)/2 points in total, all inside the reference triangle, corners first.", "quantifier": "every polynomial order n >= 1", "why_tests_cant": "The enumeration is recursive in n; any finite set of orders leaves the others unchecked.", "anchors": ["kernel/Output/VTKLagrangeTriangle.cpp:computeBaryIntegerPoints"]}
{"id": "C03", "title": "VTK Lagrange tetrahedron lattice is complete", "statement": "For every order n>=1 VTKLagrangeTetrahedron lists every lattice point (i,j,k) with i+j+k<=n exactly once: 4 corners, 6 edges, 4 faces, and the interior by recursion.", "quantifier": "every polynomial order n >= 1", "why_tests_cant": "Recursive in n and mixes edge, face and interior enumerations.", "anchors": ["kernel/Output/VTKLagrangeTetrahedron.cpp"]}
{"id": "C04", "title": "VTK Lagrange curve, quadrilateral and hexahedron lattices are complete", "statement": "For every order n>=1 the curve, quadrilateral and hexahedron point lists contain every point of the (n+1)^d tensor lattice exactly once.", "quantifier": "every polynomial order n >= 1", "why_tests_cant": "Holds for infinitely many orders; off by one errors appear in edge and face segments separately.", "anchors": ["kernel/Output/VTKLagrangeCurve.cpp", "kernel/Output/VTKLagrangeQuadrilateral.cpp", "kernel/Output/VTKLagrangeHexahedron.cpp"]}
{"id": "C05", "title": "Butcher tableaux meet their advertised order", "statement": "For every registered explicit time integrator, one step applied to the linear ODE u'=lambda*u agrees with the Taylor series of exp(lambda*dt) up to the advertised order, the classical order conditions hold, and the stage times are consistent with the stage weights (c_i = sum_j a_ij), so the advertised order also holds for time-dependent right-hand sides.", "quantifier": "every lambda, dt and initial value, every registered rule", "why_tests_cant": "A convergence test can only sample problems, and an error in c is invisible for autonomous test problems.", "anchors": ["kernel/Base/TimeIntegration/*.cpp"]}
{"id": "C06", "title": "Time integrator lookup honours the request", "statement": "AllTimeIntegrators::getRule(order, stages, tvd) returns a registered rule with exactly the requested order and number of stages; with the requested TVD property whenever a registered rule has it; and reports an error exactly when no registered rule has the requested order and stage count.", "quantifier": "every order, stage count and TVD flag and every registry contents", "why_tests_cant": "The request space is infinite and the fallback pass is order dependent.", "anchors": ["kernel/Base/TimeIntegration/AllTimeIntegrators.cpp:getRule"]}
{"id": "C07", "title": "A rejected adaptive step is undone", "statement": "When the adaptive integrator rejects a time step, the solution stored for each element is exactly the one before the step (over the reals), for any tableau, any right-hand side and any number of consecutive rejections.", "quantifier": "every tableau, right-hand side, state, dt and rejection history", "why_tests_cant": "Depends on histories of rejections and on every stage weight.", "anchors": ["kernel/Base/HpgemAPISimplified_Impl.h:computeOneTimeStep"]}
{"id": "C08", "title": "Explicit Runge-Kutta step equals its tableau formula", "statement": "One call of computeOneTimeStep replaces the solution by u + dt*sum_j b_j k_j with k_j = f(t + c_j dt, u + dt*sum_{i<j} a_ji k_i).", "quantifier": "every tableau, state, right-hand side, time and step size", "why_tests_cant": "The claim is about all tableaux and functions, not about sampled ones.", "anchors": ["kernel/Base/HpgemAPISimplified_Impl.h:computeOneTimeStep", "kernel/Base/HpgemAPISimplified_Impl.h:getLinearCombinationOfVectors"]}
{"id": "C09", "title": "Face-to-face orientation maps connect matching nodes", "statement": "Given the global node numbers of a face as seen from the left and right element, the codimension-0 mapping selected by getCodim0MappingIndex sends each reference node of the left face to the reference node of the right face with the same global number.", "quantifier": "every numbering of the face nodes (all injective node labelings) and every symmetry of line, triangle, square, cube", "why_tests_cant": "Only particular relative orientations go wrong, and meshes in tests rarely contain all of them.", "anchors": ["kernel/Geometry/ReferenceLine.cpp", "kernel/Geometry/ReferenceTriangle.cpp", "kernel/Geometry/ReferenceSquare.cpp", "kernel/Geometry/ReferenceCube.cpp:getCodim0MappingIndex"]}
{"id": "C10", "title": "Face-to-element reference maps hit the right face", "statement": "Each codimension-1 mapping sends the i-th node of the reference face to the i-th node listed by getCodim1EntityLocalIndices, and every point of the reference face to a point of the closed reference element lying on the boundary.", "quantifier": "every point of every reference face of every reference shape", "why_tests_cant": "Quantifies over a continuum of points and over all faces.", "anchors": ["kernel/Geometry/Mappings/MappingToRef*.cpp", "kernel/Geometry/Reference*.cpp"]}
{"id": "C11", "title": "Reference map Jacobians are the derivatives of the maps", "statement": "For every reference-to-reference mapping calcJacobian equals the derivative of transform at every point, and the concatenated mapping obeys the chain rule.", "quantifier": "every point, every mapping, every pair of composed mappings", "why_tests_cant": "Continuum of points.", "anchors": ["kernel/Geometry/Mappings/MappingToRef*.cpp", "kernel/Geometry/Mappings/ConcatenatedMapping.cpp"]}
{"id": "C12", "title": "Face normals point outward", "statement": "For every reference shape, face and every element map with positive Jacobian determinant, the normal built from the face Jacobian with the face's normal sign points from the element to the outside, and it is orthogonal to the face.", "quantifier": "every positively oriented (affine) element of every shape and each of its faces", "why_tests_cant": "Continuum of element geometries; a wrong sign on a rare face type is easily missed.", "anchors": ["kernel/Geometry/Mappings/MappingToRef*.h", "kernel/Geometry/Mappings/MappingCodimensions.h", "kernel/LinearAlgebra/SmallMatrix_impl.h:computeWedgeStuffVector"]}
{"id": "C13", "title": "Small determinants and wedge products are correct", "statement": "SmallMatrix/Jacobian determinant equals the Leibniz determinant for sizes 0..4 and computeWedgeStuffVector(J)\u00b7v equals, up to a fixed sign, the determinant of J extended with column v, hence is orthogonal to all columns of J.", "quantifier": "every real matrix", "why_tests_cant": "Polynomial identities over a continuum.", "anchors": ["kernel/LinearAlgebra/SmallMatrix_impl.h:determinant", "kernel/LinearAlgebra/SmallMatrix_impl.h:computeWedgeStuffVector", "kernel/Geometry/Jacobian_Impl.h"]}
{"id": "C14", "title": "FaceMatrix is a faithful 2x2 block matrix", "statement": "Storing an entire matrix and reading it back gives the same matrix; block access and scalar index access agree; +=, *=, axpy act entrywise on the entire matrix.", "quantifier": "every block size pair and all entries", "why_tests_cant": "Off-by-one on block boundaries for arbitrary sizes.", "anchors": ["kernel/Base/FaceMatrix.cpp"]}
{"id": "C15", "title": "Element local indexing is a bijection", "statement": "ElementLocalIndexing assigns to the (included unknown, basis function) pairs of an element disjoint consecutive index ranges covering exactly [0, getNumberOfDoFs()), and unknowns that are not included get UNKNOWN_NOT_INCLUDED; this holds after any sequence of reinit and clear calls.", "quantifier": "every element, subset of unknowns and reinit/clear history", "why_tests_cant": "Depends on histories of calls.", "anchors": ["kernel/Utilities/ElementLocalIndexing.cpp", "kernel/Utilities/ElementLocalIndexing.h"]}
{"id": "C16", "title": "Face local indexing stacks left and right", "statement": "FaceLocalIndexing numbers left degrees of freedom first and right ones after; the mapping is injective and onto [0,getNumberOfDoFs()); on a boundary face there is no right part.", "quantifier": "every face, unknown subset", "why_tests_cant": "Arbitrary sizes.", "anchors": ["kernel/Utilities/FaceLocalIndexing.cpp", "kernel/Utilities/FaceLocalIndexing.h"]}
{"id": "C17", "title": "Global indexing is a bijection", "statement": "In each of the three layouts the owned degrees of freedom of all processors get pairwise distinct global indices that together fill [0,N) without holes, each processor owning a contiguous block in the processor-contiguous layouts, and processor-local indices fill [0,localN).", "quantifier": "every mesh partition, basis function distribution, list of unknowns and layout", "why_tests_cant": "Depends on every mesh and every distribution over ranks.", "anchors": ["kernel/Utilities/GlobalIndexing.cpp:constructUnblocked", "kernel/Utilities/GlobalIndexing.cpp:constructBlocked"]}
{"id": "C18", "title": "Index exchange messages are faithful", "statement": "Encoding element/face/edge/node offsets into a message and processing it on the receiving rank installs exactly the offsets of the sender, in any arrival order of the messages.", "quantifier": "every set of entities and every message interleaving", "why_tests_cant": "Schedules and contents are unbounded.", "anchors": ["kernel/Utilities/GlobalIndexing.cpp:elementMessage", "kernel/Utilities/GlobalIndexing.cpp:processMessage"]}
{"id": "C19", "title": "Union-find represents the generated equivalence", "statement": "After any sequence of unionSets/findSet calls two items have the same representative iff they are connected by the performed unions; findSet never changes the partition.", "quantifier": "every sequence of operations", "why_tests_cant": "Histories are unbounded; path compression mutates the structure.", "anchors": ["applications/Preprocessor/lib/utils/SparseUnionFind.cpp"]}
{"id": "C20", "title": "Merge groups partition the merged entities", "statement": "groupMerges turns any map of pairwise merges into disjoint groups that cover all keys and values, two entities being in one group iff linked by a chain of merges.", "quantifier": "every merge map", "why_tests_cant": "Chains of arbitrary length.", "anchors": ["applications/Preprocessor/lib/MergePlan.h:groupMerges"]}
{"id": "C21", "title": "Element node reordering round-trips", "statement": "For every accepted element type reorderFromHpGem undoes reorderToHpGem and conversely; node lists are permuted, never changed.", "quantifier": "every registered order accepted by addElementType and every node list", "why_tests_cant": "All permutations of all sizes and all registries.", "anchors": ["applications/Preprocessor/lib/ElementReorder.cpp"]}
{"id": "C22", "title": "Lazily cached values are transparent", "statement": "Reading a LazyCached / LazyVectorCached value after any sequence of reads and resets returns what recomputing would give, provided the source changes only before a reset.", "quantifier": "every sequence of reads, source updates and resets", "why_tests_cant": "Histories.", "anchors": ["kernel/Base/LazyCached.h"]}
{"id": "C23", "title": "Legendre polynomials and derivatives", "statement": "LegendrePolynomial(n,x) is the degree n Legendre polynomial and LegendrePolynomialDerivative(n,x) is its derivative; P_n(1)=1, P_n(-x)=(-1)^n P_n(x).", "quantifier": "every n and every real x", "why_tests_cant": "All degrees and a continuum of arguments.", "anchors": ["kernel/FE/helperFunctions.cpp"]}
{"id": "C24", "title": "Lobatto kernels are the scaled Legendre derivative", "statement": "LobattoPolynomial(d,x) equals -4/((d+2)(d+1))*sqrt((2d+3)/2)*P'_{d+1}(x) for every d, and LobattoPolynomialDerivative is its derivative.", "quantifier": "every degree and every real x", "why_tests_cant": "One wrong closed form among many is only visible at that degree.", "anchors": ["kernel/FE/helperFunctions.cpp:LobattoPolynomial"]}
{"id": "C25", "title": "Refinement tree levels are consistent", "statement": "After any sequence of addRootEntry, addChildren, addChild and eraseChilds calls every child is at level parent.level+parent.depth, sibling indices are positions in the child list, roots have level 0, and maxLevel bounds every level.", "quantifier": "every operation history", "why_tests_cant": "Histories.", "anchors": ["kernel/Base/LevelTree_Impl.h", "kernel/Base/TreeEntry.h"]}
{"id": "C26", "title": "Tree traversals visit every entry once", "statement": "Preorder, postorder and single-level iteration of a refinement forest visit each (active) entry exactly once in the documented order, and stepping backwards reverses the traversal.", "quantifier": "every finite forest", "why_tests_cant": "All tree shapes.", "anchors": ["kernel/Base/TreeIterator.h", "kernel/Base/LevelTree_Impl.h"]}
{"id": "C27", "title": "Command line parsing is order independent and total", "statement": "Parsing recognises every registered long and short option with its argument wherever it stands, leaves the rest untouched up to '--', rejects unknown options, and reports missing required options.", "quantifier": "every argument vector and option registry", "why_tests_cant": "All argument vectors.", "anchors": ["kernel/Base/CommandLineOptions.cpp:parse_options", "kernel/Base/CommandLineOptions.h"]}
{"id": "C28", "title": "Preprocessor mesh incidence stays bidirectional", "statement": "After any sequence of addNode, addNodeCoordinate, addElement, merge and removeUnusedEntities, an element lists an entity at local index i iff the entity lists (element,i), entity ids equal positions.", "quantifier": "every operation history", "why_tests_cant": "Histories of edits.", "anchors": ["applications/Preprocessor/lib/mesh/MeshImpl/Mesh_Impl.h", "applications/Preprocessor/lib/mesh/MeshImpl/MeshEntity_Impl.h", "applications/Preprocessor/lib/mesh/MeshImpl/Element_Impl.h"]}
{"id": "C29", "title": "Merging mesh entities moves all connections", "statement": "MeshEntity::merge(source) leaves the source without elements, gives the target exactly the union of connections, and leaves all other entities unchanged; removeUnusedEntities removes exactly the unconnected entities and preserves the relative order and the incidence of the rest.", "quantifier": "every mesh and pair of entities", "why_tests_cant": "All meshes.", "anchors": ["applications/Preprocessor/lib/mesh/MeshImpl/MeshEntity_Impl.h:merge", "applications/Preprocessor/lib/mesh/MeshImpl/Mesh_Impl.h:removeUnusedEntities"]}
{"id": "C30", "title": "Push lists answer pull lists", "statement": "After Submesh::processPullRequests every rank pushes to another rank exactly the elements that rank pulls from it, in the same order.", "quantifier": "every partition and set of pulled elements", "why_tests_cant": "All partitions and request sets.", "anchors": ["kernel/Base/Submesh.cpp:processPullRequests"]}
{"id": "C31", "title": "Element data is addressed without aliasing", "statement": "convertToSingleIndex is a bijection between (unknown, basis function) pairs and positions of the element's coefficient vector; writing one coefficient changes that one only and a read returns the last write.", "quantifier": "every element, unknown set and write history", "why_tests_cant": "All sizes and histories.", "anchors": ["kernel/Base/ElementData.cpp", "kernel/Base/ElementData.h"]}
{"id": "C32", "title": "Basis function index lookup is consistent", "statement": "ElementBasisFunctions::getBasisFunctionSetAndIndex and getBasisFunctionOffset are inverse: every index below the number of basis functions belongs to exactly one registered set at one position.", "quantifier": "every registration history and index", "why_tests_cant": "All registrations.", "anchors": ["kernel/Base/ElementBasisFunctions.cpp"]}
{"id": "C33", "title": "Face index conversion round-trips", "statement": "Face::getSide and getElementBasisFunctionId invert Face::convertToSingleIndex for the left and right element.", "quantifier": "every face and every basis function", "why_tests_cant": "All sizes; conforming and discontinuous sets.", "anchors": ["kernel/Base/Face.cpp:convertToSingleIndex", "kernel/Base/Face.cpp:getSide"]}
{"id": "C34", "title": "Sparsity estimate is an upper bound", "statement": "For every row the estimated number of owned and non-owned non-zeros is at least the number of columns that assembly of element and face matrices writes in that row.", "quantifier": "every mesh, partition, unknown set and coupling", "why_tests_cant": "All meshes and numberings.", "anchors": ["kernel/Utilities/SparsityEstimator.cpp"]}
{"id": "C35", "title": "Physical maps interpolate the nodes and have correct Jacobians", "statement": "MappingToPhysHypercubeLinear, SimplexLinear, Pyramid and TriangularPrism map reference node i to physical node i, and calcJacobian is the derivative of transform.", "quantifier": "every list of node coordinates and every reference point", "why_tests_cant": "Continuum of geometries.", "anchors": ["kernel/Geometry/Mappings/MappingToPhys*.cpp"]}
{"id": "C36", "title": "Basis function derivatives are derivatives of the basis functions", "statement": "For every basis function of every family and order evalDeriv_k is the partial derivative of eval.", "quantifier": "every basis function, polynomial order and point", "why_tests_cant": "All orders and points.", "anchors": ["kernel/FE/BasisFunctionsMonomials.h", "kernel/FE/BasisFunctions*.cpp"]}
{"id": "C37", "title": "Quadrature rules integrate polynomials of their order", "statement": "Every Gauss rule integrates every polynomial of degree at most its order over its reference shape up to the rounding of its stored decimals, weights summing to the volume and points inside the shape.", "quantifier": "every polynomial of the advertised degree", "why_tests_cant": "Infinite dimensional family of integrands; exactness on samples does not imply exactness.", "anchors": ["kernel/Integration/QuadratureRules/*.cpp"]}
{"id": "C38", "title": "Copies of preprocessor meshes keep all data", "statement": "Copying or moving a preprocessor Mesh keeps its elements, coordinates, entities and zone names.", "quantifier": "every mesh", "why_tests_cant": "All meshes.", "anchors": ["applications/Preprocessor/lib/mesh/MeshImpl/Mesh.h:Mesh(const Mesh&)"]}
{"id": "C39", "title": "Global assembly adds local contributions", "statement": "Assembling the global matrix/vector gives at every (row, column) the sum of all local element and face entries mapped there, and is independent of the order of elements and faces.", "quantifier": "every mesh, numbering and local matrices", "why_tests_cant": "All meshes and orders.", "anchors": ["kernel/Utilities/GlobalMatrix.cpp:assemble", "kernel/Utilities/GlobalVector.cpp:assemble"]}
{"id": "C40", "title": "Partition files contain every node a processor needs", "statement": "In the written mesh file every element is listed with its owner, with exactly the other partitions touching it as shadow partitions, and each node of an element is available in the element's owner and shadow partitions.", "quantifier": "every mesh and partition", "why_tests_cant": "All partitions.", "anchors": ["applications/Preprocessor/lib/output_impl.h:outputMesh"]}
{"id": "C41", "title": "TVD integrators are strongly stable", "statement": "A step of a registered integrator that reports getTotalVariationDiminishing()==true does not increase any convex functional that forward Euler steps of the same size do not increase.", "quantifier": "every right-hand side, convex functional, state, time and step size", "why_tests_cant": "Ranges over all convex functionals and right-hand sides.", "anchors": ["kernel/Base/TimeIntegration/RK2TVD.cpp", "kernel/Base/TimeIntegration/RK3TVD.cpp", "kernel/Base/TimeIntegration/ForwardEuler.cpp"]}
{"id": "C42", "title": "solve ends at the final time and writes the requested frames", "statement": "With fixed time steps solve performs the least multiple of numberOfOutputFrames steps of size at most dt, ends at finalTime, and writes exactly numberOfOutputFrames equally spaced frames after the initial one.", "quantifier": "every time interval, step size and number of frames", "why_tests_cant": "Continuum of intervals and step sizes; boundary cases when T/dt is an integer or not a multiple of the frame count.", "anchors": ["kernel/Base/HpgemAPISimplified_Impl.h:solve"]}
{"id": "C43", "title": "Dense matrix operations act on the entries as documented", "statement": "For MiddleSizeMatrix: assigning an entry changes only that entry, +=, -=, *= and axpy act entrywise, transpose swaps indices and is an involution, operator* is the matrix product (also with inner dimension zero), getRow/getColumn, concatenate and the list constructor place entries where documented, resize keeps entry (i,j).", "quantifier": "every matrix size and content", "why_tests_cant": "Index arithmetic on a flat array for arbitrary sizes.", "anchors": ["kernel/LinearAlgebra/MiddleSizeMatrix.h", "kernel/LinearAlgebra/MiddleSizeMatrix.cpp"]}
{"id": "C44", "title": "Gmsh elements are read with the right node order", "statement": "Reading a gmsh element of any type that hpGEM has a reference shape for gives node positions that are an invertible affine image of the hpGEM reference nodes whenever the gmsh nodes were an invertible affine image of the gmsh reference nodes.", "quantifier": "All element types registered by the reader, all node index lists and all node positions that are affine images of the reference element", "why_tests_cant": "Tests read a few meshes; a wrong permutation only shows as a twisted element for particular shapes.", "anchors": ["applications/Preprocessor/lib/gmsh.cpp: GmshReader::readElements", "applications/Preprocessor/lib/ElementReorder.cpp: ElementReorder::reorderToHpGem"]}
{"id": "C45", "title": "Curved reference elements have a complete node lattice", "statement": "For every order n>=1 the nodes of the curved line, triangle and tetrahedron are exactly the lattice points of that order, each once; getOrderFromPoints returns p exactly when the number of points is that of order p and -1 for every other number.", "quantifier": "every order n >= 1 and every number of points", "why_tests_cant": "Infinitely many orders and point counts; rounding of a square root has to be right for all of them.", "anchors": ["kernel/Geometry/ReferenceCurvilinearLine.cpp", "kernel/Geometry/ReferenceCurvilinearTriangle.cpp:getOrderFromPoints,createPoints", "kernel/Geometry/ReferenceCurvilinearTetrahedron.cpp:getOrderFromPoints,createPoints"]}
{"id": "C46", "title": "Curved elements locate the nodes of their corners, faces and edges", "statement": "For every order up to 10^8 the construction of a curved triangle or tetrahedron succeeds, and the local node indices reported for each corner, face and edge are those of the images of the nodes of that corner, face or edge.", "quantifier": "every order 1 <= n <= 10^8, every face, edge and node", "why_tests_cant": "The search uses a tolerance; that it never picks a wrong node must hold at every order.", "anchors": ["kernel/Geometry/ReferenceCurvilinearElement_Impl.h:findPoint,computeCodim1Indices,computeCodim2Indices"]}
{"id": "C47", "title": "Discontinuous and conforming sets contain the same functions, in the right number", "statement": "For every order and shape, the set of basis functions created for a discontinuous method consists of the functions that a conforming method puts on one element, contains no function twice, and has as many functions as the polynomial space has dimensions.", "quantifier": "every polynomial order and every element shape", "why_tests_cant": "The nested creation loops have to enumerate the right index sets at every order.", "anchors": ["kernel/FE/BasisFunctions*H1Conforming*.cpp:createDG*,createVertex*,createEdge*,createFace*,createInterior*"]}
{"id": "C48", "title": "Vertex functions are nodal, all functions stay on their entity", "statement": "The function of a vertex is 1 at that vertex and 0 at the others and the vertex functions add up to 1; every conforming basis function is zero on each face that does not contain the vertex, edge or face it is attached to.", "quantifier": "every shape, every function of every order, every point of every face", "why_tests_cant": "Zero on a face is a statement about infinitely many points and all orders.", "anchors": ["kernel/FE/BasisFunctions*H1Conforming*.cpp"]}
{"id": "C49", "title": "Conforming functions are continuous between elements", "statement": "For every order, every pair of elements sharing a face (or edge) and every relative orientation, the functions that both elements attach to the shared face (edge) have equal values on it.", "quantifier": "every order, pair of shapes and faces, orientation, point of the face", "why_tests_cant": "Combinations of two shapes, two faces, eight orientations, every order and every point.", "anchors": ["kernel/FE/BasisFunctions*H1Conforming*.cpp:createFace*,createEdge*", "kernel/Base/MeshManipulator_Impl.h:addFaceBasisFunctionSet,addEdgeBasisFunctionSet"]}
{"id": "C50", "title": "Basis functions are linearly independent", "statement": "For every order and shape, no nontrivial linear combination of the basis functions of an element is the zero function, so mass matrices can be inverted.", "quantifier": "every order, every shape, every coefficient vector", "why_tests_cant": "A statement about all coefficient vectors at all orders.", "anchors": ["kernel/FE/BasisFunctions*H1Conforming*.cpp:createDG*", "kernel/Utilities/LobattoPolynomial"]}
{"id": "C51", "title": "Points written on the command line are read back", "statement": "Points written as comma separated coordinates, paths written as points separated by colons or white space with an optional number of steps, and translations separated by semicolons are read back exactly, and points with too few coordinates are rejected.", "quantifier": "every list of points, every dimension, every choice of separators and step count", "why_tests_cant": "All texts and dimensions; reading depends on how far a number parser gets.", "anchors": ["kernel/Base/CommandLineHelpers.h:parsePoint", "applications/DG-Max/DGMaxProgramUtils.cpp:parsePath", "applications/Preprocessor/main.cpp:parseTranslations"]}
{"id": "C52", "title": "Wave vector paths are piecewise linear and consistent with their steps", "statement": "A path meets its corner points every `steps` indices, is a straight line between them, each point is the previous one plus dk, and dkDidChange never hides a change of dk.", "quantifier": "every path, number of steps and index", "why_tests_cant": "All paths, indices and step counts.", "anchors": ["applications/DG-Max/Utils/KSpacePath.cpp"]}
{"id": "C53", "title": "Adjacency of the parts of preprocessor element shapes", "statement": "For every element shape the preprocessor knows, getAdjacentEntities reports a part of another dimension exactly when the nodes of the smaller part are among the nodes of the larger one; the relation is symmetric.", "quantifier": "every shape, every pair of dimensions, every part", "why_tests_cant": "The tables are computed at start-up from node lists; the relation has to hold for all pairs and for any well formed shape added later.", "anchors": ["applications/Preprocessor/lib/mesh/elementShape_impl.h:completeSubShapes", "applications/Preprocessor/lib/mesh/ElementShapes.cpp"]}
{"id": "C54", "title": "Elements of a preprocessor mesh are joined along common parts", "statement": "Reading nodes, coordinates and elements that fit together always succeeds, and two parts (edges, faces) of elements become the same mesh entity exactly when they have the same nodes; an entity is connected to exactly the elements that have a part with its nodes.", "quantifier": "every number of nodes, every list of elements without repeated nodes and without parts strictly inside others, every mix of shapes", "why_tests_cant": "All meshes and orders of elements; the search for an existing entity works on a partly built mesh.", "anchors": ["applications/Preprocessor/lib/mesh/MeshImpl/Mesh_Impl.h:fixEntity", "applications/Preprocessor/lib/mesh/MeshImpl/MeshEntity_Impl.h:getIncidenceListAsIndices", "applications/Preprocessor/lib/mesh/MeshImpl/Mesh_Impl.h:addElement"]}
{"id": "C55", "title": "Connecting a mesh by a pairing of coordinates", "statement": "For a one-to-one pairing of coordinates (such as a translation between opposite boundaries) the merge plan can always be computed and executed. Elements keep shape, zone and coordinates, the incidence stays consistent, and two entities become one exactly when a chain of requested merges links them: nodes of paired coordinates, edges and faces whose coordinates are mapped onto each other. Several connections can be applied in turn, with the result of applying them at once.", "quantifier": "every consistent mesh of any dimension, every one-to-one pairing, every sequence of pairings; every translation whose matches on the boundary are unique", "why_tests_cant": "All meshes, pairings and orders; merges interact through shared nodes and chains of merges.", "anchors": ["applications/Preprocessor/lib/MergePlan.h:computeMergePlan", "applications/Preprocessor/lib/MergePlan.h:executeMerge", "applications/Preprocessor/lib/TransformationConnector.h:translationConnect"]}
{"id": "C56", "title": "The solver reads back the mesh of the preprocessor", "statement": "When the mesh file of the preprocessor is read on all processes, every process succeeds and ends up with exactly its own elements and the elements that share a node with them, in the order of the mesh, with their zones, owners, nodes and coordinates, and with the faces, edges and nodes of these elements. Every element is owned by exactly one process, the elements a process sends to another are those the other receives, in the same order, and a process knows both elements of each inner face of its own elements.", "quantifier": "every consistent mesh of dimension 1 to 3 without elements that meet themselves in a node, every assignment of elements to partitions, every process, every test of periodicity", "why_tests_cant": "All meshes and partitions; the ids that both programs count on their own must agree on all processes.", "anchors": ["applications/Preprocessor/lib/output_impl.h:outputMesh", "kernel/Base/MeshManipulator_Impl.h:readMesh", "kernel/Base/MeshFileInformation.cpp:readInformation"]}
{"id": "C57", "title": "Synchronisation delivers the data of the owners", "statement": "After a synchronisation of all processes every process has, for all elements it receives, the data of their owner, and unchanged data for all other elements. The synchronisation always ends, on all processes, and gets stuck in no order of messages.", "quantifier": "every number of processes, all lists of exchanged elements that can arise from a mesh file and any sequence of requests, all data, every interleaving of processes and messages", "why_tests_cant": "All interleavings and all partitions.", "anchors": ["kernel/Base/HpgemAPIBase_Impl.h:synchronize", "kernel/Base/MpiContainer.h:sync", "kernel/Base/Submesh.cpp:processPullRequests"]}
{"id": "C58", "title": "Neighbouring elements agree on their common face", "statement": "If two elements have the same nodes on a common face, then for every point of the reference face the point the face assigns to its left element and the point it assigns to its right element have the same physical position. In particular the position of a point on a face depends only on the nodes of that face.", "quantifier": "all pairs of shapes with a common face, all node positions, all orders in which the two elements list the nodes of the face, all points of the reference face", "why_tests_cant": "A continuum of geometries and points, and all pairs of shapes and orders.", "anchors": ["kernel/Geometry/Mappings/MappingToPhys*.cpp", "kernel/Geometry/FaceGeometry.h:mapRefFaceToRefElemL", "kernel/Geometry/FaceGeometry.h:mapRefFaceToRefElemR", "kernel/Geometry/Reference*.cpp:getCodim0MappingIndex"]}
{"id": "C59", "title": "A request for a quadrature rule is answered with the lowest adequate order", "statement": "Asking a shape for a rule of order n returns a registered rule of order at least n such that no registered rule of order at least n has a lower order, whatever the order in which rules were registered; for a curved element of degree k at least order k + 1 is used; the program stops only if no registered rule has the order needed. The rule returned integrates all polynomials of degree n.", "quantifier": "every sequence of registrations, every requested order, every curve degree, every polynomial of the requested degree", "why_tests_cant": "Histories of registrations and orders are unbounded.", "anchors": ["kernel/Integration/QuadratureRules/AllGaussQuadratureRules.cpp:addRule", "kernel/Integration/QuadratureRules/AllGaussQuadratureRules.cpp:getRule"]}
{"id": "C60", "title": "Element integrals are integrals over the physical element", "statement": "Integrating over an element with a rule accurate for degree n gives the integral over the image of the reference shape of every function that, multiplied with the determinant of the map, is a polynomial of degree at most n on the reference shape, up to the accuracy of the rule. In particular polynomials of degree at most n in physical coordinates are integrated on every non-degenerate affine element.", "quantifier": "all element geometries, all polynomials of the degree of the rule", "why_tests_cant": "A continuum of geometries and integrands.", "anchors": ["kernel/Integration/ElementIntegral_Impl.h:integrate", "kernel/Integration/ElementIntegral.h"]}
{"id": "C61", "title": "Time integration vectors survive the way through the global vector", "statement": "If the time integration vectors of the elements agree on shared basis functions, constructing the global vector gives every basis function its coefficient at its global index, whatever the order in which the values of the ranks arrive, and writing the global vector back restores the vectors of all elements that a rank has, its own and the layer around them.", "quantifier": "every mesh, partition, layout, coefficients and order of arrival", "why_tests_cant": "Meshes, partitions and orders of messages are unbounded.", "anchors": ["kernel/Utilities/GlobalVector.cpp:constructFromTimeIntegrationVector", "kernel/Utilities/GlobalVector.cpp:writeTimeIntegrationVector"]}
{"id": "C62", "title": "Transformed functions have the derivatives the transformation states", "statement": "For the H1, Hcurl and Hdiv transformations on every element: the field on the physical element given by the transformed values is differentiable, and its gradient, curl or divergence is what the transformation returns for the gradient, curl or divergence of the field on the reference element, curved elements included. Tangential components (Hcurl) and fluxes through faces (Hdiv) are those on the reference element. The transformed curl vanishes only if the reference curl does.", "quantifier": "all element shapes and node positions, all points, all differentiable reference fields", "why_tests_cant": "A continuum of geometries, points and fields.", "anchors": ["kernel/Base/H1ConformingTransformation.h", "kernel/Base/HCurlConformingTransformation.h", "kernel/Base/HDivConformingTransformation.h", "kernel/Base/PhysGradientOfBasisFunction_Impl.h"]}
{"id": "C63", "title": "Stored values of basis functions are never out of date", "statement": "A quadrature rule asked for the value, gradient, curl or divergence of a basis function at one of its points (or at the image of a point on a face) answers as if the function were evaluated at that moment, whatever was asked before, however sets were extended or destroyed and addresses used again, and although the maps of faces are temporary objects. It stops only for functions, points or dimensions that do not exist.", "quantifier": "all sequences of creations, extensions, destructions and requests, for any number of sets, rules and maps", "why_tests_cant": "Histories are unbounded and depend on the addresses the allocator chooses.", "anchors": ["kernel/Integration/QuadratureRules/GaussQuadratureRule.cpp", "kernel/Integration/QuadratureRules/GaussQuadratureRule.h", "kernel/FE/BasisFunctionSet.cpp:addBasisFunction", "kernel/Geometry/Mappings/ConcatenatedMapping.h"]}
{"id": "C64", "title": "A physical element answers for its present place", "statement": "A physical element asked for basis functions and their derivatives, Jacobians, determinants and positions answers for the element, point (or point of a quadrature rule, possibly on a face) and transformation set last, although it stores results. Result matrices and vectors are handed out once per place, filled with zeros, with the size of the element.", "quantifier": "all sequences of setters and requests, all initial contents of uninitialised members", "why_tests_cant": "Stored results can go stale only in particular histories; histories are unbounded.", "anchors": ["kernel/Base/PhysicalElement.h", "kernel/Base/PhysicalElement_Impl.h"]}
{"id": "C65", "title": "A physical element evaluates the solution", "statement": "The solution (and its gradient) reported by a physical element is, for each unknown, the sum of the present coefficients times the functions of that unknown at the present place.", "quantifier": "all sequences of setters, changes of coefficients and requests; all elements", "why_tests_cant": "Depends on the history and on the sets of functions of all unknowns.", "anchors": ["kernel/Base/PhysicalElement_Impl.h:getSolution", "kernel/Base/PhysicalElement_Impl.h:getSolutionDeriv", "kernel/Base/Element.cpp:getSolution"]}
{"id": "C66", "title": "Vectors from the right element are turned to the left", "statement": "At a face whose two images in space are congruent (a periodic boundary, possibly rotated), vectors reported for the right element (values, gradients, curls) are turned by the proper rotation that takes the right image to the left one, scalars are left alone, components along the face are the same on both sides, and the outward normal of the right element becomes the inward normal of the left. Nothing is turned exactly if the images coincide or are translates of each other up to the tolerance.", "quantifier": "all pairs of congruent non-degenerate faces in two, three and four dimensions, all vectors", "why_tests_cant": "A continuum of faces, rotations and vectors.", "anchors": ["kernel/Base/PhysicalFace_Impl.h:updateLeftRightTransform", "kernel/Base/PhysicalFace_Impl.h:computeDirectionVectors", "kernel/Base/CoordinateTransformationData.h"]}
{"id": "C67", "title": "Shallow flow fluxes are consistent, conservative and upwind", "statement": "For the shallow flow applications the numerical flux between equal states is the physical flux through the face, exchanging the sides and turning the normal gives the opposite flux, the contributions to the two neighbours of a face cancel and are minus and plus the flux times the test function, a supercritical flow takes the upstream flux, a wall lets no mass through, and one step of the Lax\u2013Friedrichs scheme keeps heights non-negative when the damping is at least the wave speed.", "quantifier": "all states, normals, depths, parameters; any number of unknowns in one dimension", "why_tests_cant": "A continuum of pairs of states with different wave patterns and dry states.", "anchors": ["applications/SavageHutter/SavageHutter1DBase.cpp:hllcFlux", "applications/SavageHutter/SavageHutter1DBase.cpp:localLaxFriedrichsFlux", "applications/SavageHutter/SavageHutter1DBase.cpp:integrandsAtFace", "applications/SavageHutter/SavageHutter2DBase.cpp:hllcFlux", "applications/SavageHutter/SavageHutter2DBase.cpp:localLaxFriedrichsFlux", "applications/SavageHutter/SavageHutter2DBase.cpp:integrandsAtFace"]}
{"id": "C68", "title": "The Roe flux of the gas dynamics applications", "statement": "For any two states of positive density and pressure the flux is defined; between equal states it is the physical flux; exchanging sides and turning the normal gives the opposite; the jump between the states is split into two sound waves and a rest that travel with the speeds of the mean state, each damped by the size of its speed (never less than its absolute value); the derivative of the flux at the mean state maps the jump of states to the jump of fluxes; a supersonic flow takes the upstream flux; face contributions to the neighbours cancel; inside elements the physical flux is used and states without positive pressure are refused.", "quantifier": "all pairs of physical states, all normals, all adiabatic indices above one, any dimension", "why_tests_cant": "A continuum of pairs of states; identities between rational functions and square roots.", "anchors": ["applications/Euler/Euler_Impl.h:RoeRiemannFluxFunction", "applications/Euler/Euler_Impl.h:integrandRightHandSideOnRefFace", "applications/Euler/Euler_Impl.h:integrandRightHandSideOnRefElement", "applications/NavierStokes/InviscidTerms_Impl.h:computeRoeFluxFunction"]}
{"id": "C69", "title": "Solid walls in the gas dynamics application", "statement": "Neither mass nor energy passes a solid wall, gas running into it is met by at least its own pressure, and gas sliding along it is not accelerated.", "quantifier": "all physical states and normals, any dimension", "why_tests_cant": "A continuum of states.", "anchors": ["applications/Euler/Euler_Impl.h:integrandRightHandSideOnRefFace"]}
{"id": "C70", "title": "The manufactured source makes the stated solution exact", "statement": "At the intended solution the source is its rate of change plus the divergence of its flux, so that the intended solution solves the equations exactly.", "quantifier": "all times, places, adiabatic indices and dimensions", "why_tests_cant": "An identity of functions of time and place; a sample of points cannot show it.", "anchors": ["applications/Euler/Euler_Impl.h:integrandSourceAtElement"]}
{"id": "C71", "title": "The matrix follows the wave vector", "statement": "After any sequence of wave vectors the stiffness matrix equals the one for fields that gain the factor exp(i k a) from one cell to the cell displaced by a: it depends on the last wave vector only, not on the history, on temporary storage, on the distribution over processes or on the order of faces; each process writes its own rows only; a periodic face that is not marked, or whose matrices do not fit, stops the program; the matrix is Hermitian if the couplings are.", "quantifier": "all meshes, indexings, face matrices, ownerships, sequences of wave vectors", "why_tests_cant": "Unbounded histories of wave vectors and all distributions of the mesh.", "anchors": ["applications/DG-Max/Utils/KPhaseShift.cpp:KPhaseShiftBlock::apply", "applications/DG-Max/Utils/KPhaseShift.cpp:KPhaseShifts::apply", "applications/DG-Max/Utils/MatrixBlocks.cpp:insertBlock", "applications/DG-Max/Utils/MatrixBlocks.h:loadBlocks", "applications/DG-Max/Utils/FaceKPhaseShiftBuilder.cpp:build", "applications/DG-Max/Utils/FaceKPhaseShiftBuilder.cpp:facePhaseShift"]}
{"id": "C72", "title": "The matrix follows the wave vector with shifted functions", "statement": "With basis functions multiplied by a wave of the same wave vector, the stiffness matrix after any sequence of wave vectors equals the matrix of the quasi-periodic problem with the factors of the waves at the centres of the elements applied to rows and columns.", "quantifier": "all meshes, shift factors, ownerships, sequences of wave vectors", "why_tests_cant": "Factors are accumulated step by step over an unbounded history.", "anchors": ["applications/DG-Max/Algorithms/DGMaxEigenvalue.cpp:updateKPoint", "applications/DG-Max/Algorithms/DGMaxEigenvalue.cpp:updateShiftVectors", "applications/DG-Max/Algorithms/DGMaxEigenvalue.cpp:applyToStiffnessMatrix", "applications/DG-Max/Algorithms/DGMaxEigenvalue.cpp:initStiffnessMatrixShifts"]}
{"id": "C73", "title": "The constraint matrix follows the wave vector", "statement": "The matrix between conforming functions and the field has, after any sequence of wave vectors, the entries of conforming functions that are continued across the periodic boundary with the factor exp(i k a).", "quantifier": "all meshes, orders, shift factors, sequences of wave vectors", "why_tests_cant": "Unbounded histories; all periodic meshes.", "anchors": ["applications/DG-Max/Utils/CGDGMatrixKPhaseShiftBuilder.cpp:addElementPhaseShift", "applications/DG-Max/Algorithms/DGMaxEigenvalue.cpp:applyToProjector", "applications/DG-Max/Algorithms/DGMaxEigenvalue.cpp:ProjectorWorkspace::updateKPoint"]}
{"id": "C74", "title": "The projection removes exactly the forbidden part", "statement": "The projected vector satisfies the constraint, a vector that satisfies it is not changed, projecting twice is projecting once, and the part taken away is orthogonal, in the mass inner product, to all vectors that satisfy the constraint.", "quantifier": "all matrices with invertible inner matrix, all vectors", "why_tests_cant": "All vectors and all matrices.", "anchors": ["applications/DG-Max/Algorithms/DGMaxEigenvalue.cpp:ProjectorWorkspace::project"]}
{"id": "C75", "title": "Eigenvalues are chosen and ordered consistently", "statement": "The comparison used by the eigenvalue solver orders by distance to the target on a logarithmic scale, with zero and negative eigenvalues after all positive ones; the eigenvalues found are put into a definite order by real part, imaginary part and position.", "quantifier": "all pairs and triples of eigenvalues, all targets", "why_tests_cant": "Order axioms concern all triples of numbers.", "anchors": ["applications/DG-Max/Algorithms/DGMaxEigenvalue.cpp:compareEigen", "applications/DG-Max/Algorithms/DGMaxEigenvalue.cpp:extractEigenVectors"]}
{"id": "C76", "title": "A face answers for its present place", "statement": "Whatever was asked and set before, a PhysicalFace answers with the values for the present face, point and transformations: functions of both elements, in one count or by side, those on the right as seen from the left; derivatives; products with the normal that points out of the element of the function; the solution; normal and surface element. Result matrices and vectors are handed out once for each place, filled with zeros and of the right size.", "quantifier": "all sequences of requests, all faces, elements, rules and transformations", "why_tests_cant": "Stored results must be right after every history.", "anchors": ["kernel/Base/PhysicalFace.h:PhysicalFace", "kernel/Base/PhysicalFace_Impl.h:setFace", "kernel/Base/PhysicalFace_Impl.h:setPointReference", "kernel/Base/PhysicalFace_Impl.h:setQuadraturePointIndex", "kernel/Base/PhysicalFace_Impl.h:basisFunctionNormal", "kernel/Base/PhysicalFace_Impl.h:getResultMatrix"]}
{"id": "C77", "title": "Integrals over faces are weighted sums", "statement": "The integral of a function over a face is the sum over the points of the rule of weight times surface element times the value of the function on that face at that point, whichever faces were treated before with the same object.", "quantifier": "all sequences of faces, rules, transformations and integrands", "why_tests_cant": "The same object serves all faces one after the other; all integrands.", "anchors": ["kernel/Integration/FaceIntegral_Impl.h:integrate", "kernel/Integration/FaceIntegral_Impl.h:integratePair", "kernel/Integration/FaceIntegral_Impl.h:setTransformation", "kernel/Integration/FaceIntegral.h:getScaleFactor"]}
{"id": "C78", "title": "The matrices of a refinement are the derivative and its inverse", "statement": "For each refinement and each sub-element, getRefinementMappingMatrixL is the derivative of refinementTransform at each point of the sub-element and getRefinementMappingMatrixR its inverse. The numbers of nodes, sub-elements and new nodes agree with each other, and indices beyond them are rejected.", "quantifier": "all refinement classes, sub-elements and points", "why_tests_cant": "Derivatives at all points.", "anchors": ["kernel/Geometry/RefinementMapsForPoint.h", "kernel/Geometry/RefinementMapsForLine.h", "kernel/Geometry/RefinementMapsForTriangle.h", "kernel/Geometry/RefinementMapsForSquare.h", "kernel/Geometry/RefinementMapsForTetrahedron.h", "kernel/Geometry/RefinementMapsForPyramid.h", "kernel/Geometry/RefinementMapsForTriangularPrism.h", "kernel/Geometry/RefinementMapsForCube.h", "kernel/Geometry/RefinementMapping.h:RefinementMapping"]}
{"id": "C79", "title": "Sub-elements tile the element", "statement": "The sub-elements of a refinement lie in the element, cover it and have no interior point in common; wherever the nodes of the element are, its sub-elements divide the curved element as they divide the reference shape; and refinementTransform takes a point of a sub-element to its place in the element.", "quantifier": "all refinement classes, points and positions of the nodes", "why_tests_cant": "All points of the shapes and all positions of the nodes.", "anchors": ["kernel/Geometry/RefinementMapping.h:getSubElementLocalNodeIndices", "kernel/Geometry/RefinementMapping.h:getNewNodeLocations", "kernel/Geometry/RefinementMapping.h:refinementTransform"]}
{"id": "C80", "title": "The parts of a face are faces of sub-elements", "statement": "For each face of a refined element the refinement of the face, the named faces of sub-elements and the listed nodes agree: each part of the face is that face of that sub-element, point by point and node by node.", "quantifier": "all refinement classes, faces, parts and points", "why_tests_cant": "All points of the faces.", "anchors": ["kernel/Geometry/RefinementMapping.h:getCodim1RefinementMaps", "kernel/Geometry/RefinementMapping.h:getCodim1LocalNodeIndices", "kernel/Geometry/RefinementMapping.h:getSubElementAndLocalFaceIndex"]}
{"id": "C81", "title": "Refinement uses the nodes of refined neighbours", "statement": "When an element is refined after some of its neighbours, the nodes the neighbours have made on common faces are used again, a new node is added for each of the others, no node moves, and each sub-element has its nodes at the places that the refinement says.", "quantifier": "all refinement classes, meshes, and sets of neighbours refined before", "why_tests_cant": "All histories of neighbours and all numberings of nodes.", "anchors": ["kernel/Base/MeshManipulator_Impl.h:refine"]}
{"id": "C82", "title": "Default basis functions reach every element", "statement": "useDefaultConformingBasisFunctions gives each element, for each unknown, the interior set of its shape, for each of its faces and edges the set for the way the element lies there, for each of its nodes the function of that corner, and nothing else, whatever was assigned before. Faces, edges and nodes then report as many functions as each element around them has for them, and on a common face the functions of both elements agree. The call succeeds just if all shapes have functions of this order. The discontinuous call gives one set and no functions on faces, edges or nodes. The overloads for one unknown do the same for it and leave other unknowns as they were.", "quantifier": "all meshes, orders, numbers of unknowns and earlier assignments", "why_tests_cant": "All meshes and all orientations of faces in them, all histories of assignments.", "anchors": ["kernel/Base/MeshManipulator_Impl.h:useDefaultConformingBasisFunctions", "kernel/Base/MeshManipulator_Impl.h:useDefaultDGBasisFunctions", "kernel/Base/MeshManipulator_Impl.h:clearBasisFunctionAssignment", "kernel/Base/Element.cpp:setFaceBasisFunctionSet"]}
{"id": "C83", "title": "Functions of an edge agree in all elements around it", "statement": "After useDefaultConformingBasisFunctions all elements around an edge have functions for it that have the same values along it, one by one, in whichever order the elements list the two nodes.", "quantifier": "all meshes of tetrahedra and prisms or of cubes, all orders, edges and numberings", "why_tests_cant": "All numberings of nodes and coordinates.", "anchors": ["kernel/Base/Edge.cpp:addElement", "kernel/Base/MeshManipulator_Impl.h:useDefaultConformingBasisFunctions", "kernel/Base/MeshManipulator_Impl.h:edgeFactory"]}
{"id": "C84", "title": "The solver gives the same result on any number of processes", "statement": "After any sequence of right hand sides, products with stiffness matrices, mass matrix solves, scalings, sums, sources, initial values and time steps, the coefficients of each element, on every process that has or receives it, are those of the formulas for the whole mesh: the integral over the element plus those over all its faces, and the Runge-Kutta step of the whole system. This does not depend on how elements are divided among processes, on the faces between elements of other processes, or on the order of messages, and no process waits forever.", "quantifier": "all meshes, divisions among processes, orders of messages, problems, Runge-Kutta methods and numbers of steps", "why_tests_cant": "All divisions of all meshes and all interleavings of messages.", "anchors": ["kernel/Base/HpgemAPISimplified_Impl.h:computeRightHandSide", "kernel/Base/HpgemAPISimplified_Impl.h:solveMassMatrixEquations", "kernel/Base/HpgemAPISimplified_Impl.h:scaleAndAddVector", "kernel/Base/HpgemAPISimplified_Impl.h:computeOneTimeStep", "kernel/Base/HpgemAPILinear_Impl.h:multiplyStiffnessMatrices", "kernel/Base/HpgemAPILinear_Impl.h:addSourceTermAtBoundary", "kernel/Base/HpgemAPIBase_Impl.h:synchronize"]}
{"id": "C85", "title": "The initial solution is a projection", "statement": "The mass matrix of an element is symmetric, has no entries between different unknowns, represents the discrete inner product of the quadrature and, for positive weights, is positive definite exactly if the basis functions are independent on the quadrature points. The coefficients that setInitialSolution stores are those of the function for which the difference from the given initial solution is orthogonal to all basis functions. They exist, are unique, are the best approximation in the discrete norm, and reproduce every function that the basis can represent.", "quantifier": "all elements, quadrature points, bases, numbers of unknowns and initial functions", "why_tests_cant": "All functions and bases.", "anchors": ["kernel/Base/HpgemAPISimplified_Impl.h:computeIntegrandMassMatrix", "kernel/Base/HpgemAPISimplified_Impl.h:computeMassMatrixAtElement", "kernel/Base/HpgemAPISimplified_Impl.h:computeIntegrandInitialSolution", "kernel/Base/HpgemAPISimplified_Impl.h:setInitialSolution"]}
{"id": "C86", "title": "Errors are taken over the whole mesh", "statement": "computeTotalError returns, on any number of processes, the square root of the sum over all elements of the quadrature of the squared difference, without a warning if weights are not negative, and zero exactly if the solution is exact at all points. computeMaxError returns for each unknown the largest difference at the quadrature points of all elements. The error estimate of an adaptive time step is the norm over all elements of the combination of stages with the error coefficients, and the norm to which it is compared is the norm of the solution over all elements.", "quantifier": "all meshes, divisions among processes, orders of reduction and solutions", "why_tests_cant": "All divisions and solutions.", "anchors": ["kernel/Base/HpgemAPISimplified_Impl.h:computeTotalError", "kernel/Base/HpgemAPISimplified_Impl.h:computeMaxError", "kernel/Base/HpgemAPISimplified_Impl.h:computeErrorAndNormOfUpdate"]}
{"id": "C87", "title": "The second order integration of Maxwell's equations is leap-frog", "statement": "With the method CO2 the fields after n steps are those of the leap-frog (St\u00f6rmer-Verlet) recursion with conductivity for M u'' + \u03c3 M u' + S u = load(t), at time n\u00b7dt. Without source and conductivity a step can be undone by a step back with the negative time step, a discrete energy is constant, and if dt\u00b2 times the largest eigenvalue of the stiffness relative to the mass is below four the field stays bounded by the initial energy for all times. With conductivity the energy does not grow. The snapshots are the fields at every stride-th step and the end, with their times.", "quantifier": "all meshes (matrices), sources, boundary values, time steps, numbers of steps and strides", "why_tests_cant": "Stability for all numbers of steps and all matrices.", "anchors": ["applications/DG-Max/Algorithms/DGMaxTimeIntegration.cpp:solve", "applications/DG-Max/Algorithms/DGMaxTimeIntegration.cpp:configureTraditional", "applications/DG-Max/Algorithms/DGMaxTimeIntegration.h:TimeIntegrationParameters"]}
{"id": "C88", "title": "The fourth order integration of Maxwell's equations", "statement": "With the method CO4 a step solves M u'' + \u03c3 M u' + S u = load(t) up to an error of fifth order in the time step, can be undone by a step with the negative time step, and keeps the symplectic form of the problem without source.", "quantifier": "all matrices, fields, sources and time steps", "why_tests_cant": "The order is a statement about all time steps.", "anchors": ["applications/DG-Max/Algorithms/DGMaxTimeIntegration.cpp:solve"]}
{"id": "C89", "title": "Solving a sequence of harmonic problems does not depend on the history", "statement": "For every sequence of problems, if what the driver reports as unchanged is unchanged and everything is reported as changed at the beginning, each problem is solved with the system of that problem alone: the stiffness of elements and faces plus \u03c9 times the impedance minus \u03c9\u00b2 times the mass, all with materials at that wave number, and the source and boundary values of that problem, although matrices, vectors and wave numbers of materials are kept from one problem to the next. If the matrix was never assembled the solver fails instead of giving a result.", "quantifier": "all meshes with any materials, drivers, sequences of problems and states at the start", "why_tests_cant": "All sequences of changes.", "anchors": ["applications/DG-Max/Algorithms/HarmonicSolver.cpp:solve", "applications/DG-Max/Algorithms/HarmonicSolver.cpp:computeIntegrals", "applications/DG-Max/Algorithms/HarmonicSolver.cpp:assembleSolverMatrix", "applications/DG-Max/Algorithms/HarmonicSolver.cpp:checkDispersion", "applications/DG-Max/Utils/Dispersive.h:DispersionContainer", "applications/DG-Max/Programs/DGMaxSource.cpp:hasChanged"]}
{"id": "C90", "title": "Structure of the matrices of DG-Max", "statement": "The mass, stiffness, face and impedance matrices are symmetric for all materials, also with losses and anisotropic. Without losses they are Hermitian (the impedance times i). The mass matrix is positive definite if the permittivity is positive and the basis functions are independent on the quadrature points. The penalty bounds the face terms from below by the averages of the curls, for every positive penalty.", "quantifier": "all basis functions, quadrature rules, materials, faces, coefficients", "why_tests_cant": "All materials and element shapes.", "anchors": ["applications/DG-Max/Algorithms/DGMaxDiscretization.cpp:computeElementMatrices", "applications/DG-Max/Algorithms/DGMaxDiscretization.cpp:computeFaceMatrix", "applications/DG-Max/Algorithms/DGMaxDiscretization.cpp:computeFaceImpedanceMatrix", "applications/DG-Max/MaterialTensor.h:MaterialTensor"]}
{"id": "C91", "title": "The harmonic discretization of DG-Max is consistent", "statement": "For every mesh, material, boundary conditions (Dirichlet, Neumann, Silver-M\u00fcller) and exact solution whose boundary values and source are given to the program, the residual of the assembled system at a discrete field is that of the error alone: the system has no consistency error other than that of the quadrature. If the exact solution is itself discrete it solves the system.", "quantifier": "all meshes, materials, boundary conditions, penalties, frequencies, exact solutions and discrete fields", "why_tests_cant": "Sign and factor errors that cancel in a tested case would break this for others.", "anchors": ["applications/DG-Max/Algorithms/DGMaxDiscretization.cpp:computeElementMatrices", "applications/DG-Max/Algorithms/DGMaxDiscretization.cpp:computeFaceMatrix", "applications/DG-Max/Algorithms/DGMaxDiscretization.cpp:faceVector", "applications/DG-Max/Algorithms/DGMaxDiscretization.cpp:elementInnerProduct", "applications/DG-Max/ProblemTypes/HarmonicProblem.h:ExactHarmonicProblem"]}
{"id": "C92", "title": "Rescaling to a Hermitian standard eigenvalue problem", "statement": "With the rescaling by Cholesky factors of the mass matrices the standard eigenvalue problem has the same eigenvalues as the generalized one and its eigenvectors belong to each other; the written fields and energy fluxes are those of the original coefficients.", "quantifier": "all meshes, matrices, factors, eigenvalues and coefficients", "why_tests_cant": "All matrices.", "anchors": ["applications/DG-Max/Algorithms/DGMaxDiscretization.cpp:postProcessElementMatrices", "applications/DG-Max/Algorithms/DGMaxDiscretization.cpp:postProcessFaceMatrices", "applications/DG-Max/Algorithms/DGMaxDiscretization.cpp:writeFields", "applications/DG-Max/Algorithms/DGMaxDiscretization.cpp:computeEnergyFluxes"]}
{"id": "C93", "title": "Energy fluxes through faces", "statement": "The flux of the combined field is the sum of those of the field, the background and the cross terms. The fluxes seen from both sides of a face are opposite. The flux of a wave that leaves through the face is positive.", "quantifier": "all faces, fields, backgrounds, materials, wave numbers", "why_tests_cant": "All fields and materials.", "anchors": ["applications/DG-Max/Algorithms/DGMaxDiscretization.cpp:computeEnergyFluxes", "applications/DG-Max/Algorithms/AbstractDiscretization.h:computeEnergyFluxes"]}
{"id": "C94", "title": "Time integration starts from the given field", "statement": "If the initial field is discrete, the time integration starts with its coefficients.", "quantifier": "all elements, quadrature rules, fields and permittivities", "why_tests_cant": "All materials.", "anchors": ["applications/DG-Max/Algorithms/DGMaxTimeIntegration.cpp:solve", "applications/DG-Max/Algorithms/DGMaxDiscretization.cpp:elementInnerProduct"]}
{"id": "C95", "title": "Absorbing layers are a complex stretching of coordinates", "statement": "In a layer, with the material tensors the program uses, a field solves Maxwell's equation exactly if it is the diagonal stretching times a solution in stretched coordinates with the original material, in two and three dimensions, also where several layers meet. The field and the curl that are written are those in stretched coordinates. In front of the layer nothing changes.", "quantifier": "all layers, frequencies, fields, points", "why_tests_cant": "All fields and points, in corners too.", "anchors": ["applications/DG-Max/PMLElementInfos.h:getCoordinateStretching", "applications/DG-Max/PMLElementInfos.h:diagonalTensor", "applications/DG-Max/PMLElementInfos.h:getFieldRescaling", "applications/DG-Max/PMLElementInfos.h:getCurlFieldRescaling"]}
{"id": "C96", "title": "Absorbing layers have the requested attenuation", "statement": "A plane wave that enters the layer made for a zone along an axis, with any polarization, is a solution without reflection at the interface, and after the way to the far end and back its amplitude is reduced by exactly the requested attenuation, for every material, thickness, direction and frequency. Layers never amplify.", "quantifier": "all materials, zones, directions, attenuations, frequencies and polarizations", "why_tests_cant": "All parameters.", "anchors": ["applications/DG-Max/PMLElementInfos.h:computeScaling", "applications/DG-Max/DGMaxProgramUtils.cpp:createPML"]}
{"id": "C97", "title": "Fluxes between zones are complete and do not depend on the division among processes", "statement": "For every mesh, division into zones and division among processes, the program reports one flux for each pair of zones with a common face and each zone at the boundary, in a fixed order with the matching names; each is the sum over all faces between the two, seen from the zone with the smaller number.", "quantifier": "all meshes, zones, divisions among processes and fluxes", "why_tests_cant": "All divisions, also where a process has no face of an interface.", "anchors": ["applications/DG-Max/Utils/FluxFacets.cpp:FluxFacets::computeFluxes", "applications/DG-Max/Utils/FluxFacets.cpp:FluxFacets::FluxFacets"]}
{"id": "C98", "title": "The transmission is the root mean square of the field behind an absorbing layer", "statement": "For each layer with an end at the boundary the program reports the root mean square of the field on that end, for any number of processes.", "quantifier": "all meshes, fields, divisions among processes", "why_tests_cant": "All divisions.", "anchors": ["applications/DG-Max/Utils/PMLTransmission.cpp:PMLTransmission::pmlTransmission"]}
{"id": "C99", "title": "Layers are set on exactly the elements of the zones that were asked for", "statement": "The bounds of a zone are the smallest and largest coordinates of its nodes over all processes. Every element in a zone that has a description has the layer of the zone with the last such description and its own material, and other elements keep their material, on every process that knows the element.", "quantifier": "all meshes, zones, descriptions, divisions among processes", "why_tests_cant": "All divisions.", "anchors": ["applications/DG-Max/DGMaxProgramUtils.cpp:computeZoneBoundingBoxes", "applications/DG-Max/DGMaxProgramUtils.cpp:applyPMLs"]}
{"id": "C100", "title": "A plane wave solves the equations of its material", "statement": "For every wave vector, amplitude and phase, the curl and double curl that a plane wave returns are those of the field it returns. The wave made from a frequency, a direction and a material solves Maxwell's equations in the material, travels in that direction and has the given amplitude.", "quantifier": "all wave vectors, amplitudes, phases, materials, points; two and three dimensions", "why_tests_cant": "All directions and materials; derivatives at all points.", "anchors": ["applications/DG-Max/Utils/PlaneWave.h:PlaneWave", "applications/DG-Max/Utils/PlaneWave.h:onDispersion"]}
{"id": "C101", "title": "The local flux is the mean flux of energy", "statement": "The flux computed from a field is the mean over a period of the product of the electric and the magnetic field.", "quantifier": "all fields, materials and points", "why_tests_cant": "All fields; the mean is an integral over time.", "anchors": ["applications/DG-Max/ProblemTypes/FieldPattern.h:FieldPattern::localFlux"]}
{"id": "C102", "title": "The field at an interface solves the equations on both sides and is continuous", "statement": "For a wave perpendicular to the interface of two materials, the field is the sum of the wave and a reflected wave on one side and a transmitted wave on the other; it solves the equations on both sides, and it and its scaled curl are continuous.", "quantifier": "all materials, directions, positions, frequencies", "why_tests_cant": "All materials and directions.", "anchors": ["applications/DG-Max/ProblemTypes/Harmonic/InterfaceReflectionField.cpp:InterfaceReflectionField"]}
{"id": "C103", "title": "Sources give the intended problem", "statement": "The scattered field solves the equations with the source of the scattering problem exactly if the total field solves the equations without source. In a layer and without an obstacle the source is zero. The source of a problem with known solution is what is left of the equations for the solution.", "quantifier": "all incident fields, fields, materials, points", "why_tests_cant": "All fields.", "anchors": ["applications/DG-Max/ProblemTypes/Harmonic/ScatteringProblem.h:ScatteringProblem::sourceTerm", "applications/DG-Max/ProblemTypes/Harmonic/ExactFieldHarmonicProblem.cpp:ExactFieldHarmonicProblem::sourceTerm"]}
{"id": "C104", "title": "The sample problems are consistent", "statement": "The curl, source, initial values and boundary values of each sample problem are those of its solution.", "quantifier": "all points, times, normals and frequencies", "why_tests_cant": "Derivatives at all points and times.", "anchors": ["applications/DG-Max/ProblemTypes/Time/SampleTestProblems.cpp", "applications/DG-Max/ProblemTypes/Harmonic/SampleHarmonicProblems.cpp"]}
{"id": "C105", "title": "The wave in a trench solves its problem", "statement": "For every trench the constructor accepts and every condition at the far end, with or without an absorbing layer before it, the field has the curl that is returned, solves the equations (in stretched coordinates in the layer), and meets the conditions on the walls, at the entry and at the far end. The value for the far side is the norm of the field there.", "quantifier": "all widths, lengths, numbers of half waves, frequencies, materials, layers and conditions", "why_tests_cant": "All parameters; derivatives and integrals.", "anchors": ["applications/DG-Max/ProblemTypes/Harmonic/TrenchReflectionProblem.cpp:TrenchReflectionProblem::combineWaves", "applications/DG-Max/ProblemTypes/Harmonic/TrenchReflectionProblem.cpp:TrenchReflectionProblem::farSideL2FieldIntegral"]}
{"id": "C106", "title": "The mixed discretization is consistent", "statement": "For every mesh, materials, boundary conditions, fluxes and penalties, the matrices are the forms of the mixed method. If the exact field and potential solve the equations and the boundary values are theirs, the residual of any discrete function is that of its error; an exact solution that is discrete solves the system.", "quantifier": "all meshes, quadrature points, basis functions, materials, boundary conditions, fluxes, penalties and discrete functions", "why_tests_cant": "All meshes and solutions.", "anchors": ["applications/DG-Max/Algorithms/DivDGMaxDiscretization.cpp:DivDGMaxDiscretization::computeElementMatrices", "applications/DG-Max/Algorithms/DivDGMaxDiscretization.cpp:DivDGMaxDiscretization::computeFaceIntegralsImpl", "applications/DG-Max/Algorithms/DivDGMaxDiscretization.cpp:DivDGMaxDiscretization::faceBoundaryVector", "applications/DG-Max/Algorithms/DivDGMaxDiscretization.cpp:DivDGMaxDiscretization::brezziFluxBoundaryVector"]}
{"id": "C107", "title": "The matrices of the mixed discretization are Hermitian", "statement": "For materials without losses the mass and stiffness matrices of elements and the matrices of faces, with all terms of all fluxes, are Hermitian, and the impedance matrix is -i times a Hermitian matrix.", "quantifier": "all quadrature points, basis functions, materials without losses, fluxes and penalties", "why_tests_cant": "All materials and functions.", "anchors": ["applications/DG-Max/Algorithms/DivDGMaxDiscretization.cpp:DivDGMaxDiscretization::computeElementMatrices", "applications/DG-Max/Algorithms/DivDGMaxDiscretization.cpp:DivDGMaxDiscretization::faceStiffnessMatrixFieldIntegrand", "applications/DG-Max/Algorithms/DivDGMaxDiscretization.cpp:DivDGMaxDiscretization::brezziFluxBilinearTerm", "applications/DG-Max/Algorithms/DivDGMaxDiscretization.cpp:DivDGMaxDiscretization::computeFaceImpedanceIntegrand"]}
{"id": "C108", "title": "The penalty of normal jumps only sees normal jumps", "statement": "With the interior penalty flux for normal jumps, the term is the parameter times the diameter times the product of the jumps of the normal components; it is zero for fields without such jumps.", "quantifier": "all faces, materials and discrete fields", "why_tests_cant": "All fields.", "anchors": ["applications/DG-Max/Algorithms/DivDGMaxDiscretization.cpp:DivDGMaxDiscretization::faceStiffnessMatrixFieldIntegrand"]}
{"id": "C109", "title": "The terms of the Brezzi flux are products of lifts", "statement": "The terms of the Brezzi flux for tangential jumps, normal jumps and jumps of the potential are the products of the lifts of the jumps over both elements, with factors from the parameters and the numbers of faces, and go to the places of the functions in the matrix of the face.", "quantifier": "all faces, basis functions, materials and discrete functions", "why_tests_cant": "All functions; lifts are defined by all test functions.", "anchors": ["applications/DG-Max/Algorithms/DivDGMaxDiscretization.cpp:DivDGMaxDiscretization::brezziFluxBilinearTerm", "applications/DG-Max/Algorithms/DivDGMaxDiscretization.cpp:DivDGMaxDiscretization::computeVectorLiftProjector", "applications/DG-Max/Algorithms/DivDGMaxDiscretization.cpp:DivDGMaxDiscretization::computeVectorNormalLiftProjector", "applications/DG-Max/Algorithms/DivDGMaxDiscretization.cpp:DivDGMaxDiscretization::computeScalarLiftProjector", "applications/DG-Max/Algorithms/DivDGMaxDiscretization.cpp:distributeFaceMatrix"]}
{"id": "C110", "title": "Fluxes and norms on a face use the coefficients of the field", "statement": "The energy fluxes through a face and the integral of the field on a side of it are those of the discrete field with the given coefficients, on both sides.", "quantifier": "all faces, coefficients and sides", "why_tests_cant": "All numbers of functions.", "anchors": ["applications/DG-Max/Algorithms/DivDGMaxDiscretization.cpp:DivDGMaxDiscretization::computeEnergyFluxes", "applications/DG-Max/Algorithms/DivDGMaxDiscretization.cpp:DivDGMaxDiscretization::computeFieldL2Integral"]}
{"id": "C111", "title": "A VTK file holds the mesh", "statement": "Reading the mesh from a VTK file written by hpGEM gives one cell per element, in their order, with the type of its shape and the physical coordinates of its points, zero for missing coordinates; each point belongs to one cell. A mesh is refused if and only if one of its elements has no VTK cell.", "quantifier": "all meshes with less than 2^32 points on a process, of any dimension and mixture of shapes", "why_tests_cant": "Meshes are unbounded; the arrays are filled by index with running counters.", "anchors": ["kernel/Output/VTKSpecificTimeWriter_Impl.h:VTKSpecificTimeWriter::writeLocalFileHeader"]}
{"id": "C112", "title": "Data in a VTK file are those of the points", "statement": "A scalar, vector or tensor field written to a VTK file gets an array with its name and as many values per point as it declares, and reading it gives at each point of each cell the value of the field at that point of that element, padded to three dimensions.", "quantifier": "all meshes, all functions, any number of fields with distinct names", "why_tests_cant": "Meshes and functions are unbounded; padding of one point writes at the start of the array.", "anchors": ["kernel/Output/VTKSpecificTimeWriter_Impl.h:VTKSpecificTimeWriter::writeMultiple", "kernel/Output/VTKSpecificTimeWriter_Impl.h:VTKSpecificTimeWriter::writePaddedVector", "kernel/Output/VTKSpecificTimeWriter_Impl.h:VTKSpecificTimeWriter::writePaddedTensor"]}
{"id": "C113", "title": "Arrays in a VTK file can be read back", "statement": "Reading the characters written for an array, by the rules of the format, gives the bytes of the array.", "quantifier": "all arrays of any size and type, both byte orders", "why_tests_cant": "The failure needs four gigabytes of data.", "anchors": ["kernel/Output/VTKSpecificTimeWriter_Impl.h:VTKSpecificTimeWriter::writeBinaryDataArrayData", "kernel/Output/base64.cpp:toBase64"]}
{"id": "C114", "title": "Data of a time go to the file of that time", "statement": "After any history of writes to a time dependent VTK output, each write is in a file with its time and time level, the files hold the writes in order without loss, writes of one time after each other share a file, and all files have different names.", "quantifier": "all histories of writes", "why_tests_cant": "Histories are unbounded.", "anchors": ["kernel/Output/VTKTimeDependentWriter_Impl.h:VTKTimeDependentWriter::write"]}
{"id": "C115", "title": "VTK cells have the corners and edges of the elements", "statement": "Each reference shape of dimension one to three has a VTK cell at each order, whose corners and edges are those of the shape.", "quantifier": "all shapes and orders", "why_tests_cant": "All orders.", "anchors": ["kernel/Output/VTKSpecificTimeWriter_Impl.h:VTKSpecificTimeWriter::setupMapping", "kernel/Output/VTKStandardElements.cpp:VTKHexahedron", "kernel/Output/VTKStandardElements.cpp:VTKPyramid"]}
{"id": "C116", "title": "A Tecplot zone holds the mesh and its data", "statement": "In a zone of a Tecplot file the header gives the numbers of lines and elements, and the lines that the connectivity gives to an element hold the coordinates asked for and the data at the corners of that element.", "quantifier": "all meshes of dimension one to three, all functions, all choices of coordinates", "why_tests_cant": "Meshes are unbounded.", "anchors": ["kernel/Output/TecplotDiscontinuousSolutionWriter_Impl.h:TecplotDiscontinuousSolutionWriter::write"]}
{"id": "C117", "title": "Tecplot cells have the corners and edges of the elements", "statement": "The line, quadrilateral or brick written for an element has the corners of the element, and its edges are those of the element or have coinciding ends.", "quantifier": "all shapes", "why_tests_cant": "Geometric meaning of the order of corners, not only their number.", "anchors": ["kernel/Output/TecplotPhysicalGeometryIterator.cpp:TecplotPhysicalGeometryIterator"]}
{"id": "C118", "title": "Headers of Tecplot files fit what follows", "statement": "The header of a zone that reuses a geometry has the numbers of its lines and elements, the numbers are put in the space left for them without changing other text, and names of variables given with commas are quoted one by one.", "quantifier": "all histories of zones, all meshes, names without commas", "why_tests_cant": "Histories and meshes are unbounded.", "anchors": ["kernel/Output/TecplotDiscontinuousSolutionWriter_Impl.h:TecplotDiscontinuousSolutionWriter::write", "kernel/Output/TecplotDiscontinuousSolutionWriter_Impl.h:TecplotDiscontinuousSolutionWriter::makeTecplotVariableString"]}
{"id": "C119", "title": "The spectrum of a homogeneous medium is complete", "statement": "The frequencies reported at a wave vector up to a bound are those of all points of the reciprocal lattice, each as often as there are polarizations and in increasing order.", "quantifier": "all dimensions, bases of the reciprocal lattice, permittivities, wave vectors and bounds", "why_tests_cant": "The search must reach every lattice point from its start; whether it does depends on the basis.", "anchors": ["applications/DG-Max/Utils/HomogeneousBandStructure.cpp:HomogeneousBandStructure::computeLinearSpectrum"]}
{"id": "C120", "title": "Degeneracies are counted by groups of frequencies", "statement": "Grouping a sorted list of frequencies gives keys at least the tolerance apart, with the number of entries from the key up to the tolerance above it; the numbers add up to the length of the list.", "quantifier": "all sorted lists and tolerances", "why_tests_cant": "Lists are unbounded.", "anchors": ["applications/DG-Max/Utils/BandstructureUtils.cpp:group", "applications/DG-Max/Utils/HomogeneousBandStructure.cpp:HomogeneousBandStructure::computeSpectrum"]}
{"id": "C121", "title": "Band lines between two wave vectors are those of the lattice points", "statement": "The lines computed for a segment of wave vectors have, at each point of the segment, frequencies of lattice points with their polarizations; every lattice point whose band comes below the bound on the segment has its line.", "quantifier": "all dimensions, bases, permittivities, segments, bounds and positions on the segment", "why_tests_cant": "Completeness of a search; values on a continuum.", "anchors": ["applications/DG-Max/Utils/HomogeneousBandStructure.cpp:HomogeneousBandStructure::computeLines", "applications/DG-Max/Utils/HomogeneousBandStructure.cpp:LineSet::frequency"]}
{"id": "C122", "title": "The functions for a Bragg stack vanish at the frequencies of its Bloch waves", "statement": "Where the function for TE (TM) modes has a value, it is zero if and only if there is a wave in the two layers with the field and its derivative (divided by the permittivity) continuous that gains the phase of the wave vector over a period. For layers of one material these are the frequencies of plane waves. At normal incidence the two functions agree. The order of the layers does not matter.", "quantifier": "all permittivities, thicknesses, frequencies and wave vectors outside a tiny neighbourhood of zero", "why_tests_cant": "Equivalence of an equation and the existence of a wave, over a continuum, with real and imaginary wave numbers.", "anchors": ["applications/DG-Max/Utils/BraggStackBandstructure.cpp:BraggStackBandstructure::valuete", "applications/DG-Max/Utils/BraggStackBandstructure.cpp:BraggStackBandstructure::valuetm"]}
{"id": "C123", "title": "Frequencies of Bragg stacks are roots", "statement": "The search for frequencies below a bound ends; each frequency lies between zero and the bound and is close to a point where the function nearly vanishes; and each change of sign between grid points gives a frequency.", "quantifier": "all continuous functions and bounds", "why_tests_cant": "Functions range over a continuum; termination of nested searches.", "anchors": ["applications/DG-Max/Utils/BraggStackBandstructure.cpp:BraggStackBandstructure::findRoots", "applications/DG-Max/Utils/BraggStackBandstructure.cpp:BraggStackBandstructure::findRootsInterval", "applications/DG-Max/Utils/BraggStackBandstructure.cpp:bisect"]}
{"id": "C124", "title": "Lines of a Bragg stack enumerate its modes", "statement": "Going through the lines of a segment gives, for each transverse reciprocal vector, each TE root and then each TM root once, at a wave vector for which the functions are those of the wave vector on the segment minus the reciprocal vector.", "quantifier": "all lists of modes, segments, reciprocal vectors and positions", "why_tests_cant": "Lists are unbounded; positions form a continuum.", "anchors": ["applications/DG-Max/Utils/BraggStackBandstructure.cpp:LineSet::frequency", "applications/DG-Max/Utils/BraggStackBandstructure.cpp:LineSet::addLine", "applications/DG-Max/Utils/BraggStackBandstructure.cpp:BraggStackBandstructure::computeLines"]}
{"id": "C125", "title": "Curls of curl-conforming functions", "statement": "For each N\u00e9d\u00e9lec or Ainsworth-Coyle function, evalCurl is the curl of the vector field given by eval (in two dimensions the rotation, followed by a zero), and it is available for each function of a set.", "quantifier": "all functions, degrees, nodes and points", "why_tests_cant": "Degrees are unbounded and points form a continuum.", "anchors": ["kernel/FE/BasisFunctions3DNedelec.cpp:evalCurl", "kernel/FE/BasisFunctions3DAinsworthCoyle.cpp:evalCurl", "kernel/FE/BasisFunctions2DNedelec.cpp:evalCurl"]}
{"id": "C126", "title": "N\u00e9d\u00e9lec functions form a basis", "statement": "The functions of the N\u00e9d\u00e9lec set of order k on the tetrahedron are linearly independent, span N\u00e9d\u00e9lec's space of the first kind, and there are k(k+2)(k+3)/2 of them.", "quantifier": "all orders k > 0", "why_tests_cant": "Orders are unbounded; spanning is about all vector fields of the space.", "anchors": ["kernel/FE/BasisFunctions3DNedelec.cpp:createDGBasisFunctionSet3DNedelec", "kernel/FE/BasisFunctions3DNedelec.cpp:eval"]}
{"id": "C127", "title": "Tangential traces of curl-conforming functions", "statement": "A function of an edge, a face or the interior has no tangential part on the faces (sides) that do not contain its edge or face; along its edge an edge function has the prescribed polynomial as tangential part; and face functions are parallel to their face.", "quantifier": "all functions, faces, points and tangents", "why_tests_cant": "Points and degrees are unbounded.", "anchors": ["kernel/FE/BasisFunctions3DNedelec.cpp:eval", "kernel/FE/BasisFunctions3DAinsworthCoyle.cpp:eval", "kernel/FE/BasisFunctions2DNedelec.cpp:eval"]}
{"id": "C128", "title": "Ainsworth-Coyle functions form a basis", "statement": "The functions of the Ainsworth-Coyle set of order k are linearly independent, span the vector fields with components of degree at most k, and there are (k+1)(k+2)(k+3)/2 of them.", "quantifier": "all orders", "why_tests_cant": "Orders are unbounded; spanning is about all vector fields of the space.", "anchors": ["kernel/FE/BasisFunctions3DAinsworthCoyle.cpp:createDGBasisFunctionSet3DAinsworthCoyle", "kernel/FE/BasisFunctions3DAinsworthCoyle.cpp:eval"]}
{"id": "C129", "title": "Layer limiter keeps mass and restores the layer", "statement": "Limiting the height of an element keeps its mean height, and its mean discharge unless the element becomes dry; does nothing if the height is large enough; afterwards the height is at least the layer thickness in nodes and quadrature points if the mean height is; dry elements get constant height and no discharge; the limiter fails only for negative mean height.", "quantifier": "all spaces of functions containing the linear ones, all solutions, widths and thicknesses", "why_tests_cant": "Solutions form a continuum and degrees are unbounded.", "anchors": ["applications/SavageHutter/HeightLimiters/PositiveLayerLimiter_Impl.h:limit", "applications/SavageHutter/HelperFunctions.h:projectOnBasisFuns", "applications/SavageHutter/HelperFunctions.h:computeAverageOfSolution"]}
{"id": "C130", "title": "Squeezing and averaging limiters keep mass and restore the layer", "statement": "The squeezing limiter keeps mean height and mean discharge and lifts the height to the layer thickness in nodes and quadrature points, for every degree, with a finite result; the averaging limiter replaces height and discharge by their means.", "quantifier": "all spaces, solutions, widths and thicknesses", "why_tests_cant": "Solutions form a continuum and degrees are unbounded.", "anchors": ["applications/SavageHutter/HeightLimiters/SqueezeLimiterWithLayer_Impl.h:limit", "applications/SavageHutter/HeightLimiters/AverageValuesNonNegativeLimiter_Impl.h:limit"]}
{"id": "C131", "title": "Small particles lie between the bottom and the surface", "statement": "After the bidispersed limiter the height of the small particles is between zero and the height, up to the layer thickness, in nodes and quadrature points.", "quantifier": "all spaces, solutions, widths and thicknesses", "why_tests_cant": "Solutions form a continuum.", "anchors": ["applications/SavageHutter/HeightLimiters/BidispersedLimiter1D.cpp:limit"]}
{"id": "C132", "title": "Slope limiter is monotone and conservative", "statement": "The slope limiter keeps the mean of each variable, makes its values lie between the averages of the neighbours, follows the smaller of the two differences, makes extrema constant, and leaves variables of small slope and boundary elements alone.", "quantifier": "all solutions, meshes, elements and variables", "why_tests_cant": "Solutions form a continuum.", "anchors": ["applications/SavageHutter/SlopeLimiters/TvbLimiter1D.cpp:limitWithMinMod", "applications/SavageHutter/SlopeLimiters/TvbLimiter1D.cpp:limitSlope", "applications/SavageHutter/SlopeLimiters/TvbLimiterWithDetector1D.cpp:limitWithMinMod"]}
{"id": "C133", "title": "Limiting all elements keeps mass and does not depend on the order", "statement": "Limiting all elements of a mesh in place keeps the total mass, touches only the elements of the list, and gives the same result for every order of the elements.", "quantifier": "all meshes, orders of elements and solutions", "why_tests_cant": "The number of elements and of orders is unbounded.", "anchors": ["applications/SavageHutter/SavageHutterBase_Impl.h:limitSolutionOuterLoop"]}
{"id": "C134", "title": "Viscous flux is that of a Newtonian gas", "statement": "For every flow field the product of the viscosity tensor with the derivatives of the unknowns is the flux of a Newtonian fluid conducting heat, with the stress from the derivatives of the velocity and the heat from those of the internal energy; friction never produces work and rigid motions have no stress; the ratio of viscosity and conduction is the Prandtl number of the parameters.", "quantifier": "all flow fields, points, viscosities, conductivities and numbers of directions", "why_tests_cant": "Flow fields form a continuum.", "anchors": ["applications/NavierStokes/Air/StateCoefficientsStructAir.cpp:computeEllipticTensor", "applications/NavierStokes/StateCoefficientsFunctions.h:computeEllipticTensorMatrixContraction", "applications/NavierStokes/Air/AirParameters.h"]}
{"id": "C135", "title": "Fast contraction of the tensor equals the plain one", "statement": "The contraction which visits only some entries of the tensor gives the same result as the one which visits all.", "quantifier": "all states, matrices, numbers of directions", "why_tests_cant": "States form a continuum.", "anchors": ["applications/NavierStokes/Air/StateCoefficientsStructAir.cpp:computeEllipticTensorMatrixContractionFast"]}
{"id": "C136", "title": "Lax-Friedrichs flux is consistent, conservative and damped enough", "statement": "For equal states it is the flux of the gas, for exchanged sides it is the opposite, and the jump is damped with a speed not below that of any wave on either side.", "quantifier": "all physical states and normals", "why_tests_cant": "States form a continuum.", "anchors": ["applications/NavierStokes/InviscidTerms_Impl.h:computeLLFFluxFunction"]}
{"id": "C137", "title": "HLLC flux is that of a flow with three waves", "statement": "The flux exists for all physical states and belongs to a flow with two outer waves, at least as fast as sound, and a contact; the states between have positive density, the normal speed of the contact and a common pressure, and mass, momentum and energy are kept over the outer waves. It is consistent, opposite for exchanged sides, and exact for contacts.", "quantifier": "all physical states and unit normals", "why_tests_cant": "States form a continuum.", "anchors": ["applications/NavierStokes/InviscidTerms_Impl.h:computeHLLCFluxFunction"]}
{"id": "C138", "title": "Face terms of the viscous gas conserve, are consistent and symmetric", "statement": "What leaves one element enters the other; without jumps the terms are those of the flux of the viscous gas and the stabilisation vanishes; the result does not depend on which side is called left; the terms at the boundary act on differences between the boundary state and the inside; nothing but force passes through an adiabatic wall at rest; stabilisation uses the lift of each element.", "quantifier": "all physical states, derivatives, normals, test functions, quadrature rules", "why_tests_cant": "States form a continuum and spaces are unbounded.", "anchors": ["applications/NavierStokes/UnsteadyNavierStokesAPI_Impl.h:integrandsRightHandSideOnFace", "applications/NavierStokes/InviscidTerms_Impl.h:integrandsAtFace", "applications/NavierStokes/InviscidTerms_Impl.h:integrandAtBoundaryFace", "applications/NavierStokes/ViscousTerms_Impl.h:integrandsViscousAtFace", "applications/NavierStokes/ViscousTerms_Impl.h:integrandsAuxilliaryAtFace", "applications/NavierStokes/ViscousTerms_Impl.h:computeStabilityParameters", "applications/NavierStokes/ViscousTerms_Impl.h:integrandViscousAtBoundaryFace"]}
{"id": "C139", "title": "Source term makes the exact solution a solution", "statement": "At every point and time where the density is not zero, time derivative plus divergence of the flux of the exact solution is the source of the program.", "quantifier": "all points and times", "why_tests_cant": "Points and times form a continuum.", "anchors": ["applications/NavierStokes/Air/Air.cpp:integrandSourceAtElement", "applications/NavierStokes/Air/Air.cpp:getExactSolution"]}
{"id": "C140", "title": "Acoustic waves keep their energy and mass", "statement": "On every mesh with exact integration by parts, the semi-discrete solution keeps its energy for all time and the integral of its scalar; the integral of its vector changes only by the pressure on walls; where the solution does not jump, the faces add nothing.", "quantifier": "all meshes, polynomial degrees, initial states, times, numbers of directions", "why_tests_cant": "Meshes and solutions are unbounded.", "anchors": ["applications/ExampleMultipleVariableProblem/AcousticWave_Impl.h:integrandRightHandSideOnRefElement", "applications/ExampleMultipleVariableProblem/AcousticWave_Impl.h:integrandRightHandSideOnRefFace", "applications/ExampleMultipleVariableProblem/AcousticWave_Impl.h:computeRightHandSideAtFace", "applications/ExampleMultipleVariableProblem/AcousticWave_Impl.h:computeMassMatrixAtElement", "kernel/Base/HpgemAPISimplified_Impl.h:computeRightHandSide"]}
{"id": "C141", "title": "Stored matrices give the same acoustic right-hand side", "statement": "The linear program with stored stiffness matrices computes the same right-hand side as the program integrating it, for every mesh and solution.", "quantifier": "all meshes, bases, solutions", "why_tests_cant": "Meshes and solutions are unbounded.", "anchors": ["applications/ExampleMultipleVariableProblem/AcousticWaveLinear_Impl.h:computeStiffnessMatrixAtElement", "applications/ExampleMultipleVariableProblem/AcousticWaveLinear_Impl.h:computeStiffnessMatrixAtFace", "kernel/Base/HpgemAPILinear_Impl.h:multiplyStiffnessMatrices"]}
{"id": "C142", "title": "Exact acoustic solution solves the equations", "statement": "The exact solution satisfies both equations at every point and time and in any number of directions; it has no flow through the walls of the unit cube and is periodic in the other directions.", "quantifier": "all points, times, materials, numbers of directions", "why_tests_cant": "Points and times form a continuum.", "anchors": ["applications/ExampleMultipleVariableProblem/AcousticWave_Impl.h:getExactSolution"]}
{"id": "C143", "title": "Acoustic error is the energy of the difference, parameter is the speed", "statement": "The error of a solution is measured in the energy of the waves, is never negative and zero only for equal solutions; waves travel with the speed given as material parameter.", "quantifier": "all differences and materials", "why_tests_cant": "They form a continuum.", "anchors": ["applications/ExampleMultipleVariableProblem/AcousticWave_Impl.h:integrandErrorOnRefElement", "applications/ExampleMultipleVariableProblem/AcousticWave.h:setMaterialParameter"]}
{"id": "C144", "title": "Upwind advection never gains energy and conserves the solution", "statement": "On every mesh with exact integration by parts and for every direction of the wind, the energy of the semi-discrete solution never grows; it falls by the jumps at the faces. The integral changes only by what is carried out through the boundary. Solutions without jumps see no effect of the faces.", "quantifier": "all meshes, winds, polynomial degrees, initial states, times", "why_tests_cant": "Meshes and solutions are unbounded.", "anchors": ["applications/TutorialAdvection/main.cpp:computeIntegrandStiffnessMatrixAtElement", "applications/TutorialAdvection/main.cpp:computeIntegrandStiffnessMatrixAtFace", "applications/AdvectionTest/main.cpp:computeIntegrandStiffnessMatrixAtFace", "kernel/Base/HpgemAPILinear_Impl.h:multiplyStiffnessMatrices"]}
{"id": "C145", "title": "Exact advection solution solves the equation", "statement": "The exact solution satisfies the advection equation at every point and time, starts from the initial solution and is periodic on the unit square; the programs only use entries their vectors have.", "quantifier": "all points, times, winds", "why_tests_cant": "Points and times form a continuum.", "anchors": ["applications/TutorialAdvection/main.cpp:getExactSolution", "applications/AdvectionTest/main.cpp:getSolutionAtTimeZero", "applications/AdvectionTest/main.cpp:AdvectionTest"]}
{"id": "C146", "title": "Poisson system is symmetric and consistent", "statement": "The matrix of the Poisson programs is symmetric on every mesh, and if the solution of the boundary value problem is in the discrete space, its coefficients solve the system that is passed to the solver, whatever the penalty is.", "quantifier": "all meshes, penalties, sources, polynomial degrees", "why_tests_cant": "Meshes and sources are unbounded.", "anchors": ["applications/TutorialPoisson/main.cpp:computeIntegrandStiffnessMatrixAtFace", "applications/PoissonTest/main.cpp:computeIntegrandStiffnessMatrixAtFace", "kernel/Base/HpgemAPILinearSteadyState_Impl.h:solveSteadyStateWithPetsc"]}
{"id": "C147", "title": "Poisson system has exactly one solution", "statement": "If the penalty is above the constant of the trace inequality of the mesh, the matrix is bounded below by gradient, jumps and boundary values, and there is exactly one solution for every source. The penalty chosen by the program is above that constant.", "quantifier": "all meshes, sources, orders", "why_tests_cant": "Meshes and sources are unbounded.", "anchors": ["applications/TutorialPoisson/main.cpp:PoissonTest", "applications/TutorialPoisson/main.cpp:computeIntegrandStiffnessMatrixAtFace"]}
{"id": "C148", "title": "Exact Poisson solutions solve the problem", "statement": "The exact solutions of the Poisson programs have the given source as Laplacian, vanish where the programs fix the solution and have no normal derivative at the rest of the boundary; the source at the faces is zero.", "quantifier": "all points", "why_tests_cant": "Points form a continuum.", "anchors": ["applications/TutorialPoisson/main.cpp:getExactSolution", "applications/TutorialPoisson/main.cpp:getSourceTerm", "applications/PoissonTest/main.cpp:getExactSolution", "applications/PoissonTest/main.cpp:getSourceTerm", "applications/PoissonTest/main.cpp:computeIntegrandSourceTermAtFace"]}
{"id": "C149", "title": "Water wave scheme keeps its energy and is reversible", "statement": "Each time step of the water wave program is a step of the Stormer-Verlet scheme for elevation and surface potential; every run keeps the energy of the scheme exactly, and a step is undone by a step back in time.", "quantifier": "all meshes (matrices), gravities, time steps, initial states, numbers of steps", "why_tests_cant": "States, meshes and run lengths are unbounded.", "anchors": ["applications/DG-Wave_linear/main.cpp:solve", "applications/DG-Wave_linear/main.cpp:setUpSwap", "applications/DG-Wave_linear/main.cpp:getSurfaceIS", "kernel/Utilities/GlobalIndexing.h:GlobalIndexing"]}
{"id": "C150", "title": "Exact water wave solves the equations", "statement": "The exact solution satisfies the Laplace equation in the water, has no flow through the bottom, satisfies both linear conditions at the free surface for all times and has period one.", "quantifier": "all points and times", "why_tests_cant": "Points and times form a continuum.", "anchors": ["applications/DG-Wave_linear/main.cpp:exactSolution", "applications/DG-Wave_linear/main.cpp:initialConditions"]}
{"id": "C151", "title": "Log messages contain their arguments", "statement": "Every placeholder of a log format is replaced by the next argument, in order and without reading the argument as a format; escaped characters appear without their backslash.", "quantifier": "all formats and argument lists", "why_tests_cant": "Formats and arguments are unbounded texts.", "anchors": ["kernel/Logger.h:Logger::createMessage"]}
{"id": "C152", "title": "Log levels, assertions and suppression", "statement": "A message appears exactly if its level is at most that of the logger or of the build; errors and failed assertions never come back with the standard handlers; suppressing warnings silences warnings only and ends with its body.", "quantifier": "all levels, messages, handlers, bodies", "why_tests_cant": "Handlers and bodies are arbitrary functions.", "anchors": ["kernel/Logger.h:Logger::operator()", "kernel/Logger.h:Logger::log", "kernel/Logger.h:Logger::assert_always", "kernel/Logger.h:Logger::fail", "kernel/Logger.h:Logger::suppressWarnings", "kernel/Logger.cpp:printError"]}
{"id": "C153", "title": "Inverse woodpile is a periodic lattice of pores", "statement": "A point gets the permittivity of the pores exactly if it is within the pore radius of a corner or centre of the rectangular lattice in one of the two directions; the structure is periodic and symmetric.", "quantifier": "all points, lattice constants, radii, options", "why_tests_cant": "Points form a continuum.", "anchors": ["applications/DG-Max/Utils/PredefinedStructure.cpp:insideIWPore", "applications/DG-Max/Utils/PredefinedStructure.cpp:jelmerStructure"]}
{"id": "C154", "title": "Predefined structures have the values of their regions", "statement": "Each predefined structure gives the feature or background permittivity according to its region, positive if the options are, with a contrast, and equal on opposite faces of the cell; unknown numbers are refused.", "quantifier": "all points, options, structures", "why_tests_cant": "Points form a continuum.", "anchors": ["applications/DG-Max/Utils/PredefinedStructure.cpp:jelmerStructure", "applications/DG-Max/Utils/PredefinedStructure.cpp:structureFromInt", "applications/DG-Max/Utils/PredefinedStructure.cpp:getEpsilonArg", "applications/DG-Max/Utils/PredefinedStructure.cpp:PredefinedStructureDescription::createElementInfo"]}
{"id": "C155", "title": "Filtering frequencies keeps exactly the right ones", "statement": "Filtering removes exactly the frequencies below the minimum (and NaN values if asked) and keeps the order; the error table shows the ratio of the errors of consecutive levels.", "quantifier": "all lists of levels", "why_tests_cant": "Lists are unbounded.", "anchors": ["applications/DG-Max/Utils/Verification/EVConvergenceResult.cpp:EVConvergenceResult::filterResults", "applications/DG-Max/Utils/Verification/EVConvergenceResult.cpp:EVConvergenceResult::printErrorTable"]}
{"id": "C156", "title": "A moved mesh is where its mover puts it", "statement": "After a mesh is moved and its elements re-initialised, every element maps its reference nodes to the moved nodes; moving alone is enough for simplices, pyramids and prisms only.", "quantifier": "all meshes, movers and element shapes", "why_tests_cant": "The mover is an arbitrary function.", "anchors": ["kernel/Base/MeshManipulator_Impl.h:MeshManipulator::move", "kernel/Base/MeshMoverBase.h:MeshMoverBase", "applications/MeshMoverDemo/MeshMoverDemo.cpp:MeshMoverExampleProblem"]}
{"id": "C157", "title": "The contraction narrows the channel without folding it", "statement": "The contraction mover scales the channel about its middle line to the requested width, linearly between the given positions, leaves the rest alone, and keeps the Jacobian of every element positive.", "quantifier": "all positions, widths, rectangles and points", "why_tests_cant": "Points and parameters form a continuum.", "anchors": ["applications/SavageHutter/MeshMoverContraction.h:MeshMoverContraction::movePoint"]}
{"id": "C158", "title": "Friction coefficients stay between their angles", "statement": "The friction coefficient lies between the tangents of the smaller and the larger friction angle for every wet state, whichever way it flows, and grows with the speed.", "quantifier": "all wet states and parameters", "why_tests_cant": "States form a continuum; the laws have poles.", "anchors": ["applications/SavageHutter/SavageHutter1DBase.cpp:computeFriction", "applications/SavageHutter/SavageHutter1DBase.cpp:computeFrictionExponential", "applications/SavageHutter/SavageHutter2DBase.cpp:computeFriction", "applications/SavageHutter/SavageHutter1DBidispersed.cpp:computeFrictionExponentialBidispersed"]}
{"id": "C159", "title": "Friction opposes motion", "statement": "The friction part of the source is antiparallel to the velocity and has the size of the friction coefficient times the load; material at rest on a gentle slope stays at rest.", "quantifier": "all wet states", "why_tests_cant": "States form a continuum.", "anchors": ["applications/SavageHutter/SavageHutter1DBasic.cpp:computeSourceTerm", "applications/SavageHutter/SavageHutter2DBasic.cpp:computeSourceTerm"]}
{"id": "C160", "title": "Outflow boundaries let material out", "statement": "Supercritical material leaves with its physical flux, subcritical material keeps its outgoing Riemann invariant, in every program, and nothing enters through the outflow while the material there is at rest.", "quantifier": "all states and parameters", "why_tests_cant": "States form a continuum.", "anchors": ["applications/SavageHutter/SavageHutter1DBase.cpp:integrandRightHandSideOnRefFace"]}
{"id": "C161", "title": "Granular flow fluxes and sources fit together", "statement": "The flux for two sizes of particles transports mass, momentum and small particles as documented; in a channel of changing width a layer at rest is balanced; the convergence test's solution satisfies the equations with its source.", "quantifier": "all states, positions and times", "why_tests_cant": "States and points form a continuum.", "anchors": ["applications/SavageHutter/SavageHutter1DBidispersed.cpp:computePhysicalFlux", "applications/SavageHutter/SavageHutter1DWidthAveraged.cpp:computeSourceTerm", "applications/SavageHutter/SavageHutter2DInteriorTest.cpp:computeSourceTerm"]}
{"id": "C162", "title": "Only matching frequencies are accepted", "statement": "Computed frequencies are accepted if and only if they are sorted, there are enough of them above the threshold for zero, and there they agree with the expected ones up to the tolerance; frequencies that are not numbers are not accepted.", "quantifier": "all results, expectations, tolerances and thresholds", "why_tests_cant": "The results range over all lists of numbers.", "anchors": ["applications/DG-Max/Utils/Verification/AbstractEVConvergenceTest.cpp:AbstractEVConvergenceTest::compareWithExpected"]}
{"id": "C163", "title": "A verification run returns every level", "statement": "A run that is to fail on differences returns the results of all levels exactly if all were accepted; a run that is not to fail returns them in any case.", "quantifier": "all sequences of results", "why_tests_cant": "The number of levels is arbitrary.", "anchors": ["applications/DG-Max/Utils/Verification/AbstractEVConvergenceTest.cpp:AbstractEVConvergenceTest::run"]}
{"id": "C164", "title": "A structured mesh lies on its lattice", "statement": "The coordinates of a generated structured mesh are the lattice points of the requested box, each once, numbered consecutively, and every cell refers at each corner to the coordinate that lies there.", "quantifier": "all dimensions, numbers of elements, boxes and choices of periodic directions", "why_tests_cant": "Dimension and numbers of elements are unbounded.", "anchors": ["applications/Preprocessor/lib/hpgem.cpp:StructuredReader::getNodeCoordinates", "applications/Preprocessor/lib/hpgem.cpp:StructuredReader::getElements"]}
{"id": "C165", "title": "Periodic directions join opposite nodes only", "statement": "Two corners of cells of a structured mesh belong to the same node if and only if they are the same point after identifying opposite ends of the periodic directions.", "quantifier": "all structured meshes, also with one element in a periodic direction", "why_tests_cant": "Dimension and numbers of elements are unbounded.", "anchors": ["applications/Preprocessor/lib/hpgem.cpp:StructuredReader::getNodeCoordinates", "applications/Preprocessor/lib/hpgem.cpp:StructuredReader::getElements"]}
{"id": "C166", "title": "Every cell becomes an element once", "statement": "A rectangular mesh has exactly one element for every cell, with the corners of the cell in order; a triangular mesh has the same pieces for every cell up to quarter turns, and dimensions other than two and three are rejected.", "quantifier": "all structured meshes", "why_tests_cant": "Dimension and numbers of elements are unbounded.", "anchors": ["applications/Preprocessor/lib/hpgem.cpp:StructuredReader::getElements"]}
{"id": "C167", "title": "Triangles and tetrahedra fill their cell", "statement": "The two triangles of a square and the five tetrahedra of a cube are positively oriented, cover the cell without overlapping and have its total size, however the cell is turned.", "quantifier": "all points of the cell and all numbers of quarter turns", "why_tests_cant": "Points form a continuum.", "anchors": ["applications/Preprocessor/lib/hpgem.cpp:StructuredReader::getElements"]}
{"id": "C168", "title": "Neighbouring cells are cut up compatibly", "statement": "Neighbouring cells of a triangular structured mesh leave the same triangles on their common side, inside the domain and across periodic boundaries.", "quantifier": "all triangular structured meshes and pairs of neighbours", "why_tests_cant": "The number of cells is unbounded.", "anchors": ["applications/Preprocessor/lib/hpgem.cpp:StructuredReader::getElements"]}
{"id": "C169", "title": "A processed mesh can be processed again", "statement": "The preprocessor accepts the mesh files that it writes as input.", "quantifier": "all meshes and partitions", "why_tests_cant": "Meshes are unbounded.", "anchors": ["applications/Preprocessor/lib/hpgem.cpp:PreprocessorReader", "applications/Preprocessor/lib/output_impl.h:outputMesh"]}
{"id": "C170", "title": "Record files are read back", "statement": "A file of Fortran records is read back record by record, byte for byte, in order, up to its end; looking at a size does not move the position, skipping moves it as reading does.", "quantifier": "all lists of records", "why_tests_cant": "Number and sizes of records are unbounded.", "anchors": ["applications/Preprocessor/lib/FortranUnformattedFile.cpp:FortranUnformattedFile::readRawRecord", "applications/Preprocessor/lib/FortranUnformattedFile.cpp:FortranUnformattedFile::peekRecordSize", "applications/Preprocessor/lib/FortranUnformattedFile.cpp:FortranUnformattedFile::skipRecord", "applications/Preprocessor/lib/FortranUnformattedFile.cpp:FortranUnformattedFile::eof"]}
{"id": "C171", "title": "Damaged records are refused", "statement": "A read that returns has filled the whole buffer from a record of the expected size whose two size markers agree; every other file ends the program.", "quantifier": "all files and buffer sizes", "why_tests_cant": "Files are arbitrary.", "anchors": ["applications/Preprocessor/lib/FortranUnformattedFile.cpp:FortranUnformattedFile::readRawRecord"]}
{"id": "C172", "title": "Groups of Centaur files are read back", "statement": "The entries of a group are read in order whatever the number of entries per line; the reader then stands at the next group; skipped groups are skipped exactly.", "quantifier": "all groups, all splits into lines, all following records", "why_tests_cant": "Sizes and splits are unbounded.", "anchors": ["applications/Preprocessor/lib/centaur.cpp:CentaurReader::readGroup", "applications/Preprocessor/lib/centaur.cpp:CentaurReader::skipGroup", "applications/Preprocessor/lib/centaur.cpp:CentaurReader::readGroupSize"]}
{"id": "C173", "title": "Elements of Centaur files have their corners in order", "statement": "Each element of a Centaur file becomes an element whose i-th node is the mesh node at the i-th node of hpGEM's reference shape, for triangles, quadrilaterals, hexahedra, prisms, pyramids, tetrahedra and second order tetrahedra.", "quantifier": "all numbers and positions of elements", "why_tests_cant": "A wrong order shows only for particular shapes and node numbers.", "anchors": ["applications/Preprocessor/lib/centaur.cpp:CentaurReader::readElements", "applications/Preprocessor/lib/centaur.cpp:CentaurReader::reorderElementCoords", "applications/Preprocessor/lib/centaur.cpp:CentaurReader::addHigherOrderNodes"]}
{"id": "C174", "title": "Elements of Centaur files are in the right zone", "statement": "Each element is given the name of the zone whose range of its element type contains it.", "quantifier": "all numbers of elements per type and all zones", "why_tests_cant": "It depends on the numbers of elements of all types.", "anchors": ["applications/Preprocessor/lib/centaur.cpp:CentaurReader::readZoneInfo"]}
{"id": "C175", "title": "Periodic pairs, names and types of Centaur files", "statement": "A node is merged with the partner of its last valid pair; zone names survive padding; exactly the supported file types are accepted.", "quantifier": "all lists of pairs, names and types", "why_tests_cant": "Lists and names are unbounded.", "anchors": ["applications/Preprocessor/lib/centaur.cpp:CentaurReader::readPeriodicNodeConnections", "applications/Preprocessor/lib/centaur.cpp:fromFortranString", "applications/Preprocessor/lib/centaur.cpp:CentaurReader::CentaurReader"]}
{"id": "C176", "title": "Lines and sections of gmsh files", "statement": "The lines of a text are found for all three line ends and without a last line end; a section ends at its own end marker, another end marker or a missing one is an error.", "quantifier": "all texts and sections", "why_tests_cant": "Texts are unbounded.", "anchors": ["applications/Preprocessor/lib/gmsh.cpp:safeGetline", "applications/Preprocessor/lib/gmsh.cpp:GmshReader::skipSection", "applications/Preprocessor/lib/gmsh.cpp:GmshReader::readSectionEnd"]}
{"id": "C177", "title": "Dimension and nodes of gmsh files", "statement": "The dimension of a mesh is the largest one that a node or a physical name needs; the stored coordinates lose nothing beyond the tolerance; elements refer to the nodes with their tags.", "quantifier": "all lists of nodes and names", "why_tests_cant": "It depends on all nodes and on their numbering.", "anchors": ["applications/Preprocessor/lib/gmsh.cpp:GmshReader::readNodes", "applications/Preprocessor/lib/gmsh.cpp:GmshReader::pruneCoordinatesToDimension", "applications/Preprocessor/lib/MeshFactory.h:fromMeshSource"]}
{"id": "C178", "title": "Elements and zones of gmsh files", "statement": "Every element of a file is read with its type, first tag and nodes; the mesh consists of those of full dimension, in order, each in the zone of its physical name.", "quantifier": "all lists of elements, tags and names", "why_tests_cant": "Lists are unbounded.", "anchors": ["applications/Preprocessor/lib/gmsh.cpp:GmshReader::readElements", "applications/Preprocessor/lib/gmsh.cpp:GmshReader::convertRawElements", "applications/Preprocessor/lib/gmsh.cpp:GmshReader::readPhysicalNames"]}
{"id": "C179", "title": "Compressible Hamiltonian Euler: energy and mass", "statement": "The discrete gradient is the negative adjoint of the discrete divergence, constant pressures exert no force, the system of a time step always has exactly one solution, and any number of steps conserves the energy and the mass.", "quantifier": "all meshes, basis functions, time steps, states and numbers of steps", "why_tests_cant": "Conservation must hold for every mesh and state.", "anchors": ["applications/HamiltonianEuler/HEuler.cpp:HEuler::faceIntegrand", "applications/HamiltonianEuler/HEuler.cpp:HEuler::elementIntegrand", "applications/HamiltonianEuler/HEuler.cpp:HEuler::createCompressibleSystem", "applications/HamiltonianEuler/HEuler.cpp:HEuler::solve"]}
{"id": "C180", "title": "Incompressible Hamiltonian Euler: divergence and energy", "statement": "Any number of time steps keeps the weak divergence of the velocity, and conserves the kinetic energy of a velocity without divergence, also with rotation.", "quantifier": "all meshes, basis functions, time steps, states and numbers of steps", "why_tests_cant": "Conservation must hold for every mesh and state.", "anchors": ["applications/HamiltonianEuler/HEuler.cpp:HEuler::createIncompressibleSystem", "applications/HamiltonianEuler/HEuler.cpp:HEuler::solve"]}
{"id": "C181", "title": "The initial velocity has no divergence", "statement": "After the correction of the initial velocity its discrete divergence is zero up to the tolerance, if the solver is exact.", "quantifier": "all meshes and velocities", "why_tests_cant": "It depends on the sign of every entry.", "anchors": ["applications/HamiltonianEuler/HEuler.cpp:HEuler::correctInitialProjectionOfVelocity"]}
{"id": "C182", "title": "Number of time steps of HamiltonianEuler", "statement": "The run takes the configured number of steps per period for the configured number of periods.", "quantifier": "all periods and numbers of steps", "why_tests_cant": "Unbounded numbers.", "anchors": ["applications/HamiltonianEuler/HEuler.cpp:HEuler::solve", "applications/HamiltonianEuler/HEuler.cpp:HEuler::initialiseMesh"]}
{"id": "C183", "title": "Exact solutions of the Hamiltonian Euler application", "statement": "The formulas used as initial condition and for the errors satisfy the linear Euler equations (momentum with the rotation used, conservation of mass or zero divergence) and their boundary conditions.", "quantifier": "all points, times and box sizes", "why_tests_cant": "The equations must hold at every point.", "anchors": ["applications/HamiltonianEuler/InitialConditions.cpp:Compressible3DPeriodic", "applications/HamiltonianEuler/InitialConditions.cpp:Compressible3DWalls", "applications/HamiltonianEuler/InitialConditions.cpp:Incompressible3DPeriodic", "applications/HamiltonianEuler/InitialConditions.cpp:Compressible3DOneThirdPeriodic"]}
{"id": "C184", "title": "Nodes and coordinates of an extracted surface", "statement": "The surface extraction tool accepts exactly the descriptions name=number of a coordinate of the mesh. The nodes of the surface are those of the mesh with a coordinate in the plane, once each; the coordinates of the surface are the projections of the coordinates in the plane, one to one and attached to the same nodes.", "quantifier": "all descriptions, meshes and planes", "why_tests_cant": "It must hold for every mesh, in whatever order nodes and elements are stored.", "anchors": ["applications/Preprocessor/extractSurface.cpp:Boundary", "applications/Preprocessor/extractSurface.cpp:processMesh"]}
{"id": "C185", "title": "Elements of an extracted surface", "statement": "The elements of the extracted surface are exactly the faces in the plane, in order, with the projected corners and the partition of the first element.", "quantifier": "all meshes and planes", "why_tests_cant": "It must hold for every mesh, including periodic ones.", "anchors": ["applications/Preprocessor/extractSurface.cpp:processMesh"]}
{"id": "C186", "title": "Method and stabilisation parameters of the band structure program", "statement": "The program accepts exactly the four documented methods and exactly the stabilisation parameters of the documented form (three letters with numbers, or one number), and uses the values given; storage is set up for what the method needs.", "quantifier": "all texts of the options", "why_tests_cant": "The options range over all strings.", "anchors": ["applications/DG-Max/Programs/DGMaxEigen.cpp:parsePenaltyParmaters", "applications/DG-Max/Programs/DGMaxEigen.cpp:parseDGMaxPenaltyParameter", "applications/DG-Max/Programs/DGMaxEigen.cpp:runWithDimension"]}
{"id": "C187", "title": "Table of frequencies", "statement": "The table has one row per wave vector of the path, in order and numbered from one. Wave vectors and frequencies are reported in units of the unit cell, whatever the length scale of the mesh.", "quantifier": "all paths, numbers of steps, length scales and solver results", "why_tests_cant": "It must hold for every path and length scale.", "anchors": ["applications/DG-Max/Programs/DGMaxEigen.cpp:parsePath", "applications/DG-Max/Programs/DGMaxEigen.cpp:DGMaxEigenDriver::handleResult", "applications/DG-Max/Programs/DGMaxEigen.cpp:DGMaxEigenDriver::writeFrequencies"]}
{"id": "C188", "title": "Inviscid terms of CompressibleNavierStokes", "statement": "Inside elements and at boundaries the inviscid terms are the physical flux of mass, momentum and energy times the gradients or (with a minus sign) values of the test functions, and the numerical flux computed from the other side is the opposite.", "quantifier": "all states with nonzero density (positive density and pressure for the numerical flux), normals, test functions and dimensions", "why_tests_cant": "It must hold for every state and direction.", "anchors": ["applications/NavierStokes/CompressibleNavierStokes/Inviscid.cpp:Inviscid::FluxFunction", "applications/NavierStokes/CompressibleNavierStokes/Inviscid.cpp:Inviscid::integrandAtElement", "applications/NavierStokes/CompressibleNavierStokes/Inviscid.cpp:Inviscid::integrandAtBoundaryFace", "applications/NavierStokes/CompressibleNavierStokes/Inviscid.cpp:Inviscid::RoeRiemannFluxFunction"]}
{"id": "C189", "title": "Conservation at the faces of CompressibleNavierStokes", "statement": "What leaves the left element through an internal face enters the right one: the two vectors hold minus and plus the same flux times the test functions of their element.", "quantifier": "all pairs of physical states, normals and numbers of basis functions", "why_tests_cant": "It must hold for every pair of states and of element types.", "anchors": ["applications/NavierStokes/CompressibleNavierStokes/Inviscid.cpp:Inviscid::integrandsAtFace"]}
{"id": "C190", "title": "Viscous momentum flux of CompressibleNavierStokes", "statement": "For the gradient of the conserved variables of any flow the viscous flux of momentum is the symmetric Newtonian stress, there is no viscous flux of mass, and the fast contraction gives the same as the full one.", "quantifier": "all flows with partial derivatives at a point of nonzero density, all viscosities, gases and dimensions", "why_tests_cant": "It must hold for every state, velocity gradient and dimension.", "anchors": ["applications/NavierStokes/CompressibleNavierStokes/Viscous.cpp:Viscous::computeATensor", "applications/NavierStokes/CompressibleNavierStokes/Viscous.cpp:Viscous::computeATensorMatrixContraction", "applications/NavierStokes/CompressibleNavierStokes/Viscous.cpp:Viscous::computeATensorMatrixContractionFast"]}
{"id": "C191", "title": "Viscous energy flux of CompressibleNavierStokes", "statement": "For the gradient of the conserved variables of any flow the viscous flux of energy is the work of the stress and the conduction of heat.", "quantifier": "all flows with partial derivatives at a point of nonzero density, all viscosities, gases and dimensions", "why_tests_cant": "It must hold for every state, gradient and dimension.", "anchors": ["applications/NavierStokes/CompressibleNavierStokes/Viscous.cpp:Viscous::computeATensor", "applications/NavierStokes/CompressibleNavierStokes/Viscous.cpp:Viscous::computeATensorMatrixContractionFast"]}
{"id": "C192", "title": "Moving plates of CompressibleNavierStokes", "statement": "The velocity imposed at a plate starts at zero, stays between zero and the velocity given for the plate and tends to it. A horizontal plate is closed for the inviscid flow: no mass and no energy passes and the momentum changes by the pressure alone.", "quantifier": "all plate velocities, times, states inside and dimensions from two", "why_tests_cant": "It must hold for every time and state.", "anchors": ["applications/NavierStokes/CompressibleNavierStokes/CompressibleNavierStokes.cpp:CompressibleNavierStokes::integrandRightHandSideOnFace"]}
{"id": "C193", "title": "Plate temperature of CompressibleNavierStokes", "statement": "The gas at a plate has the temperature given for the plate, and every physical state inside is accepted.", "quantifier": "all plate velocities and temperatures, times, states inside and dimensions from two", "why_tests_cant": "It must hold for every plate and state.", "anchors": ["applications/NavierStokes/CompressibleNavierStokes/CompressibleNavierStokes.cpp:CompressibleNavierStokes::integrandRightHandSideOnFace", "applications/NavierStokes/CompressibleNavierStokes/CompressibleNavierStokes.cpp:CompressibleNavierStokes::computePressure", "applications/NavierStokes/CompressibleNavierStokes/Viscous.cpp:Viscous::computeTemperature"]}
{"id": "C194", "title": "Velocity jumps in the viscous face terms of CompressibleNavierStokes", "statement": "The momentum part of the viscous terms at internal and boundary faces is the stress of the velocity jump across the face.", "quantifier": "all pairs of states with density, viscosities, normals, gases and dimensions", "why_tests_cant": "It must hold for every pair of states and every normal.", "anchors": ["applications/NavierStokes/CompressibleNavierStokes/Viscous.cpp:Viscous::integrandsViscousAtFace", "applications/NavierStokes/CompressibleNavierStokes/Viscous.cpp:Viscous::integrandViscousAtFace"]}
{"id": "C195", "title": "First derivatives of the manufactured Navier-Stokes solution", "statement": "The tables of first derivatives of the exact state, of its velocity and of its energy per mass are the derivatives, and so are the unmixed second derivatives of the conserved variables.", "quantifier": "all points of nonzero density and all amplitudes", "why_tests_cant": "It must hold at every point.", "anchors": ["applications/NavierStokes/CompressibleNavierStokes/CompressibleNavierStokes.cpp:CompressibleNavierStokes::integrandSourceAtElement"]}
{"id": "C196", "title": "Second derivatives of the manufactured Navier-Stokes solution", "statement": "The tables of mixed second derivatives and of the second derivatives of the velocity and the energy per mass, from which the source is built, are the derivatives.", "quantifier": "all points of nonzero density and all amplitudes", "why_tests_cant": "It must hold at every point.", "anchors": ["applications/NavierStokes/CompressibleNavierStokes/CompressibleNavierStokes.cpp:CompressibleNavierStokes::integrandSourceAtElement"]}
{"id": "C197", "title": "Sutherland's law in CompressibleNavierStokes", "statement": "The viscosity is Sutherland's law at the temperature in kelvin, divided by the reference viscosity, and increases with the temperature.", "quantifier": "all temperatures and reference values", "why_tests_cant": "It must hold for every temperature and scaling.", "anchors": ["applications/NavierStokes/CompressibleNavierStokes/Viscous.cpp:Viscous::computeViscosity"]}
