# Formal model of hpGEM: design

The deliverable is a Lean 4 model of parts of hpGEM (source pinned in /repo) and machine-checked
theorems about it. `properties.jsonl` lists the properties, `MANIFEST.json` links each one to
theorem names, `seeded/LOG.jsonl` records attempts to break the theorems with seeded bugs.

## Layout

Each topic `T` has a directory `lean/Verif/T/` with

* `Model.lean`: definitions that follow the C++ function by function. Each carries a comment with
  file and line numbers and the simplifications made;
* `Spec.lean` (when needed): the small independent vocabulary used to state the property;
* `Lemmas.lean`: helper lemmas;
* `Props.lean`: the property theorems only, each followed by a concrete non-trivial instance.

## Trusted base

* Lean's kernel and the three standard axioms `propext`, `Classical.choice`, `Quot.sound`.
  No axioms are added; there is no `sorry`, `native_decide` or `bv_decide`.
* The reading of the C++: the code is not run, the model is tied to it only by the citations.
* `double` is modelled as an exact field (`ℝ`, `ℚ`, or an arbitrary field/commutative ring).
  Rounding, overflow, NaN and infinities are outside the model, unless a topic says otherwise.
* `std::size_t` is modelled as `Nat`, except where wrap-around is the point (then modulo `2^64`).
* `std::vector`, `std::map`, `std::set`, `std::sort` etc. are modelled by lists/functions with
  their documented meaning. Out-of-range access and null dereference are undefined behaviour; a
  model function that can reach it returns `none`/an error outcome, and the theorem names the
  precondition that excludes it.
* `logger(ERROR/FATAL, ...)` and `logger.assert_always` end the program: modelled as `none`.
  `assert_debug` is absent in release builds and is therefore treated as a precondition.
* MPI is modelled at the level of messages (lists of words per rank); the MPI library is trusted.

## Plan per property

| id | model | proof |
|----|-------|-------|
| C01 | byte list to character list, three byte groups with padding | RFC 4648 decoder as independent spec; induction on groups, bit arithmetic by `omega` |
| C02-C04 | point lists as functions of the order | membership characterisation, `Nodup`, length, by strong induction on the order |
| C05 | tableaux over ℚ as data | polynomial identities, order conditions; negation witnesses for rules with wrong `c` |
| C06 | registry list + two-pass search | list search lemmas for every registry |
| C07, C08 | the step as a fold over a vector-space-valued state | linear algebra over an arbitrary module, induction on the stages |
| C09-C12 | reference shapes as tables, maps as polynomial functions over ℝ | case split over finite index, then `ring`/`linarith`; negations by witness |
| C13 | closed formulas over a commutative ring | `Matrix.det` from Mathlib as spec, `ring` |
| C14 | four blocks + index arithmetic | entrywise equality |
| C15, C16 | index tables with reinit/clear as state machine | invariant by induction on operations |
| C17 | per-rank offset tables and prefix sums of `GlobalIndexing` in all layouts | refinement to one list of items in global order; prefix-sum bijection |
| C18 | messages as lists of words; ranks and network as a transition system with arbitrary interleaving, `MPI_Barrier` and both readings of `MPI_Waitall` | inductive invariant (unsent / in flight / known, with counters), progress from the invariant, decreasing measure |
| C19, C20 | parent/rank maps with path compression | refinement to the generated equivalence relation |
| C21 | permutation vectors | round-trip; negation for malformed orders accepted by checkOrder |
| C22 | cache state machine | refinement |
| C23, C24 | recursion | Mathlib polynomials/derivatives as spec; negation for the wrong closed forms |
| C25, C26 | forest with levels/depths; iterator steps | invariants; traversal list equals recursive specification |
| C27 | token stream and option registry | induction on the argument vector |
| C28, C29, C38 | preprocessor mesh state machine | invariant by induction on operations; merge and removal refine one-step descriptions (`merged`, `squeezed`); witness for lost zone names |
| C54 | same mesh; specification `Shared`, `Conforming` | invariant while an element is completed: candidates are the entities with exactly these nodes |
| C55 | `MergePlan` and `translationConnect` on the same mesh (MergePlan.h, TransformationConnector.h); specification `Asked`, `OneToOne`, `Renamed` | the pairs of each level are the requested ones (uniqueness by `CoordShared`), groups by C20, execution by C29; equivalence closures for sequences |
| C40, C56 | `outputMesh` and `readMesh` as writer and reader of token lists on the same mesh (output_impl.h, MeshManipulator_Impl.h:1505-1868); character level only for the line that is filled in afterwards; specification `Describes` | the lines are determined by functions of the position; the reader keeps invariants for nodes, elements, faces and edges read so far |
| C53 | node lists of all shapes, computed adjacency tables | `std::includes` scan is inclusion of node sets for any well formed shape; all ten shapes are well formed |
| C30, C57 | lists of all processes with the buffers, prefix sums and sorted searches of `processPullRequests` (Submesh.h, Submesh.cpp); `synchronize` as a transition system of non-blocking messages (HpgemAPIBase_Impl.h:93-139) | buffers are concatenations of blocks, searches are filters; induction over requests; invariant that open sends and receives are balanced, decreasing measure; `read_answered` starts from C56 |
| C31-C33 | `ElementBasisFunctions`, `ElementData` and the parts of `Element` and `Face` that number basis functions and store coefficients; `Mem` (values by time level, unknown and basis function) as specification | histories of calls refine `Mem`; the stored vector is the concatenation over the unknowns; prefix sums |
| C34 | the sets and maps of intervals, the loops over elements and faces, the check before the result and the writing of the rows, on each rank, on top of the states of C18 | invariants of the loops; the intervals of different objects are disjoint because indices are injective; sizes add up to the number of coupled basis functions |
| C39 | the calls of `MatSetValues`/`VecSetValues` of each rank as a list; their effect as documented by PETSc; any permutation of the calls of all ranks | sums over lists and finite sets; every element and face is visited by exactly one rank; indices injective |
| C61 | construction of the global vector from the time integration vectors (`INSERT_VALUES`, any order) and writing back | the last value written at an index is the only one |
| C62 | the conforming transformations of functions, their gradients, curls and divergences (H1, Hcurl, Hdiv), the gradient of a basis function | chain rule, Jacobi's formula for the derivative of the determinant, symmetry of second derivatives; Cramer's rule for the solves |
| C63 | the twelve tables of stored values of a quadrature rule, the listeners of sets of basis functions, compositions of maps as keys | refinement to evaluation without storage, for all histories: stored values belong to the present functions of a live set that will report changes |
| C64 | `PhysicalElement`: setters, lazily computed members and flags, result matrix and vector | refinement to a specification without stored results, for all histories of requests |
| C65 | `PhysicalElement::getSolution`, `getSolutionDeriv` | same, plus the comparison with the expansion in each unknown's own functions; negations |
| C66 | `PhysicalFace::updateLeftRightTransform`, `computeDirectionVectors`, transformation of values from the right element | linear algebra: Gram matrices of the directions determine the rotation; uses C13 and C62 |
| C67 | `SavageHutter1DBase`, `SavageHutter2DBase`: HLLC and Lax–Friedrichs fluxes, face integrands, wall; `SavageHutter*Basic` physical fluxes | real algebra with case distinction on the wave speeds; the physical flux is a parameter where only its symmetry matters |
| C68 | Roe flux of `Euler` and `NavierStokes`, face and element integrands of `Euler` | the jump is split into eigenvectors of the derivative of the flux (itself proved to be the derivative); real algebra in any dimension |
| C69 | `Euler::integrandRightHandSideOnRefFace` for boundary faces | the flux between a state and its mirror image in closed form |
| C70 | `Euler::integrandSourceAtElement` | the chain rule; every term is matched with a derivative |
| C71 | DG-Max `MatrixBlocks`, `KPhaseShiftBlock`, `KPhaseShifts`, `FaceMatrixKPhaseShiftBuilder` on any number of processes | the matrix after any history of wave vectors equals a separately specified sum over couplings with their phase factors; insertions are reduced to a list of (row, column, value) |
| C72 | `SolverWorkspace::updateKPoint`, `ShiftWorkspace` (basis functions shifted by a wave) | the same with an invariant along the list of wave vectors; the factors of the steps telescope |
| C73 | `CGDGMatrixKPhaseShiftBuilder`, `applyToProjector` | as C71 and C72 |
| C74 | `ProjectorWorkspace::project`, `updateKPoint` | matrix algebra over ℂ; the direct solver is taken to be exact |
| C75 | `compareEigen` and the ordering in `extractEigenVectors` | equivalence with the comparison of a distance; strict total order |
| C76 | `PhysicalFace` as a program of requests to two `PhysicalElement`s | trace refinement to a specification that stores nothing: first the programs are moved from element objects to what they stand for (C64), then an invariant relates the stored data of the face to the present place |
| C77 | `FaceIntegral::integrate`, `setTransformation`, `setJacobianScaling` with any integrand | integrands are arbitrary programs of requests; sequences of integrals are reduced to C76; induction over the points |
| C78 | the 36 classes `RefinementMapFor…` as tables and maps | `HasFDerivAt` of each `refinementTransform`, matrix products; sizes by computation |
| C79 | as C78, with `referenceToPhysical` of the sub-elements | affine parts by linear arithmetic, prisms and cubes with curved maps by hand; polynomial identities for arbitrary positions of the nodes; for each class either the statement or its negation |
| C80 | as C78, with the maps of the faces (C13) | equality of affine maps face by face and part by part; for each face either the statement or its negation |
| C81 | the part of `MeshManipulator::refine` that finds the nodes of the sub-elements | invariant over the faces, sub-faces and nodes: every filled place holds the node of the neighbour; the negation for a reversed face |
| C82 | `useDefaultConformingBasisFunctions`, `useDefaultDGBasisFunctions` (both overloads) and `clearBasisFunctionAssignment` as operations on the collection of sets, the lists of the elements and the counts of faces, edges and nodes | the loops produce a list of calls; each place is written by at most one of them; traces from C48, C49 |
| C83 | `Edge::addElement`'s orientation with the assignment of C82 | the values of edge functions as functions of the place along the edge; the negation from the odd function of index three |
| C84 | the loops of `computeRightHandSide`, `multiplyStiffnessMatrices`, `solveMassMatrixEquations`, `scaleVector`, `scaleAndAddVector`, `integrateInitialSolution`, the source terms and the time steps, on the own elements and known faces of every process, each followed by the exchange of C57 as a transition system | coherence with the vectors of the whole mesh is an invariant of every run; the faces of C40 and the lists of C56 give its hypotheses for a mesh from a file; the time step is that of C08 |
| C85 | `computeMassMatrixAtElement`, `integrateInitialSolutionAtElement` with the loops over functions and unknowns; the solver is any that solves the system | the discrete inner product; normal equations; positivity |
| C86 | `computeTotalError`, `computeMaxError`, `computeErrorAndNormOfUpdate` with any division of the elements and order of reduction | sums and maxima over permutations of lists |
| C87 | `DGMaxTimeIntegration` with the method CO2: start, load, step, loop over the steps with snapshots, as the code orders the updates; matrices are linear maps on inner product spaces, the solver with the mass matrix is exact | the step as leap-frog; inverse step; energy identity by expanding inner products; induction over the steps |
| C88 | the same class with the method CO4: the coefficients α, β and the five stages | order four by comparing the powers of the step with those of the exact solution; inverse and symplectic form stage by stage; the negation for problems with sources |
| C89 | `HarmonicSolver::solve` with `computeIntegrals`, `assembleSolverMatrix`, the flags of the driver and `DispersionContainer`; local integrals are functions of what they read | invariant: what is kept is that of the last problem; induction over the problems |
| C90 | the matrices of `DGMaxDiscretization`: mass, stiffness, faces, impedance, with `MaterialTensor`; integrals are sums over any points with any values of basis functions | bilinear forms; symmetry of tensors; Young's inequality for the penalty |
| C91 | as C90, with `elementInnerProduct`, `faceVector` and the boundary values of `ExactHarmonicProblem` | every local term is a textbook form of the discrete fields; the difference to the exact field; integration by parts as hypothesis on the rules of quadrature |
| C92 | `postProcessElementMatrices`, `postProcessFaceMatrices`, the restored coefficients | `vᴴ L⁻¹ S L⁻ᴴ u` for rescaled vectors; sums over elements and faces |
| C93 | `computeEnergyFluxes` | expansion of the integrand; the sign for a wave that leaves the domain |
| C94 | the start of `DGMaxTimeIntegration`: inner products with the initial field, inverse of the mass matrix | linear algebra in one element |
| C95 | `PMLElementInfos`: stretching, the two tensors, the rescalings | `∂_j (d_k E_k) = d_k ∂_j E_k` for `j ≠ k` as `d_k` depends on the coordinate `k` only; algebra |
| C96 | as C95, with `computeScaling` and `createPML` | plane waves in the stretched coordinate; its derivative is the stretching, also at the interface; the norm of the exponential |
| C97 | `FluxFacets`: the map of faces, the order and names by reduced flags, the sums | invariant of the map; the linear index of a pair is a bijection; sums over a permutation |
| C98 | `PMLTransmission` | as C97. Partial: the integrals are not summed over the processes |
| C99 | `computeZoneBoundingBoxes`, `applyPMLs` | bounds of nested minima; induction over the loops. Partial: elements of other processes get no layer |
| C100 | `PlaneWave` | derivatives of the exponential against independent curls |
| C101 | `FieldPattern::localFlux` | mean of the product of the fields over a period. Partial: the code has the opposite sign and twice the value |
| C102 | `InterfaceReflectionField` | residual of the equations on both sides, continuity. Partial: the constructor accepts other normals |
| C103 | `ScatteringProblem`, `ExactFieldHarmonicProblem` | linearity of the residual |
| C104 | `SampleTestProblems`, `SampleHarmonicProblems` | derivatives of products of sines and cosines |
| C105 | `TrenchReflectionProblem` | four waves in stretched coordinates; the reflection coefficients solve the conditions at both ends; the integral of squares of sine and cosine |
| C106 | `DivDGMaxDiscretization`: element and face integrals, `brezziFluxBilinearTerm`, vectors | the matrices are the forms of the method (`DivLocal/Spec.lean`); integration by parts as a hypothesis gives consistency. Partial: see the findings |
| C107 | the same | conjugates of the entries; lifts have real entries |
| C108 | `faceStiffnessMatrixFieldIntegrand`, penalty of normal jumps | negation; partial for functions with one normal component |
| C109 | lifts of the Brezzi flux | `XᵀX = Rᵀ M⁻¹ R` for the factor of the mass matrix; product of lifts. Partial: material on the right, number of faces |
| C110 | `computeEnergyFluxes`, `computeFieldL2Integral` | refinement to the first discretization on boundaries and on the left; negation on the other side |
| C111 | `VTKSpecificTimeWriter::writeLocalFileHeader` | loops over arrays with the counters of the code; a reader of the file (`VtkFile/Spec.lean`) finds the cells of the mesh |
| C112 | `VTKSpecificTimeWriter::writeMultiple`, `writePaddedVector`, `writePaddedTensor` | map of names to arrays, filled point by point; the same reader finds the values. Partial: tensors declare three components (negation) |
| C113 | `VTKSpecificTimeWriter::writeBinaryDataArrayData` | header and data in base64; decoder of the format. Partial: less than 2^32 bytes (negation beyond) |
| C114 | `VTKTimeDependentWriter::write` | state machine over histories of calls; the files hold the calls in order |
| C115 | `VTKSpecificTimeWriter::setupMapping`, `VTKStandardElements` | corners and edges of the cells against those of the reference shapes; decision which shapes have a cell. Partial: prisms and pyramids above order one |
| C116 | `TecplotDiscontinuousSolutionWriter::write` | lines and connectivity of a zone; a reader finds the corners of each element. Partial: as many coordinates as dimensions (negation) |
| C117 | `TecplotPhysicalGeometryIterator` | corners and edges of lines, quadrilaterals and bricks against those of the reference shapes |
| C118 | `TecplotDiscontinuousSolutionWriter`: counts and names in the headers | counts of the last zone with coordinates; overwriting text. Partial: first zone (negation) |
| C119 | `HomogeneousBandStructure::computeLinearSpectrum` | search over lattice points with a queue (`partial_fixpoint`); frequencies of all lattice points as specification. Partial: bases near orthogonal (negation for skewed ones) |
| C120 | `group` in `BandstructureUtils.cpp` | loop over the list with a map; counts of the entries within a tolerance |
| C121 | `HomogeneousBandStructure::computeLines`, `LineSet::frequency` | the same search along a segment; bands of lattice points as functions on the segment. Partial: orthogonal bases and segments within a cell (negation) |
| C122 | `BraggStackBandstructure::valuete`, `valuetm` | complex functions; transfer matrices of the layers (`Bands/BraggSpec.lean`) and their eigenvectors as specification |
| C123 | `bisect`, `BraggStackBandstructure::findRootsInterval`, `findRoots` | loops with `partial_fixpoint` over an arbitrary real function; intermediate value theorem, invariants of the golden section. Partial: intervals where the roots are clear (negation otherwise) |
| C124 | `BraggStackBandstructure::LineSet`, coordinates in `computeLines` | list of modes with counts; enumeration of all lines; the wave vector of a line has the right transverse length |
| C125 | `evalCurl` of `BasisFunctions3DNedelec`, `BasisFunctions3DAinsworthCoyle`, `BasisFunctions2DNedelec` | all classes as constructors; partial derivatives of each component. Partial in 2-D: order at most 6 (negation for higher orders) |
| C126 | `createDGBasisFunctionSet3DNedelec` | list of functions; independence by homogenising the monomials, spanning by the Koszul identity of homogeneous polynomials, count by induction |
| C127 | `eval` of the three families | values on the planes of the faces and along the edges. Partial: directions of face functions on three of the faces (negation on the fourth) |
| C128 | `createDGBasisFunctionSet3DAinsworthCoyle` | independence entity by entity (edges, faces, interior) with Legendre polynomials, spanning by dimension |
| C129 | `PositiveLayerLimiter::limit`, `projectOnBasisFuns`, `computeAverageOfSolution` (SavageHutter) | coefficients in any space with exact quadrature and an invertible mass matrix; values as functions. Partial: nodes whose mean height is far below the layer thickness (negation) |
| C130 | `SqueezeLimiterWithLayer::limit`, `AverageValuesNonNegativeLimiter::limit` | same model. Partial: negative constant discharge gives infinities (negation), wrong point of least height (shown) |
| C131 | `BidispersedLimiter::limit` | same model. Partial: fall back to the average (negation) |
| C132 | `TvbLimiter1D::limitSlope`, `TvbLimiterWithDetector1D::limitWithMinMod` | one-dimensional mesh with neighbours; case analysis of the minmod function. Partial: the limiter with detector (negation), periodic meshes (abort shown) |
| C133 | `SavageHutterBase::limitSolutionOuterLoop` | in-place loop over elements; steps of two elements commute since means are kept. Partial: elements that become dry (counterexample) |
| C134 | `computeEllipticTensor`, `computePartialState`, `computeEllipticTensorMatrixContraction` (NavierStokes) | real states with any number of directions; tensor entry by entry, product compared with the flux of a Newtonian fluid. Partial: conduction does not follow the Prandtl number (negation) |
| C135 | `computeEllipticTensorMatrixContractionFast` | same model, sum over all entries against the entries visited |
| C136 | `InviscidTerms::computeLLFFluxFunction` (second overload) | same model; algebra |
| C137 | `InviscidTerms::computeHLLCFluxFunction` | same model; jump conditions over the outer waves, case analysis of the signs of the speeds; `none` for division by zero |
| C138 | `InviscidTerms`, `ViscousTerms` face and boundary terms, `computeStabilityParameters`, `integrandsRightHandSideOnFace` | terms at a quadrature point as functions of states, derivatives and test functions. Partial: exchange of sides, viscous boundary term, mass matrix of the first element (negations) |
| C139 | `Air::integrandSourceAtElement`, `Air::getExactSolution` | real functions of position and time; derivatives from Mathlib |
| C140 | `AcousticWave` right-hand sides, `computeMassMatrixAtElement`, `HpgemAPISimplified::computeRightHandSide` | sums over elements, faces and quadrature points on any mesh, any basis; skew-symmetry of the right-hand side, then the derivative of the energy is zero |
| C141 | `AcousticWaveLinear`, `HpgemAPILinear::computeRightHandSide` | same mesh; products with stored matrices compared with the right-hand side of C140 |
| C142 | `AcousticWave::getExactSolution` | real functions; derivatives from Mathlib, any dimension |
| C143 | `integrandErrorOnRefElement`, `setMaterialParameter` | real functions. Partial: weights at the wrong variables and speed is the square root (negations) |
| C144 | `AdvectionTest`, `TutorialAdvection` matrices, `HpgemAPILinear` products | sums over elements, faces and quadrature points on any mesh (topic `DgMesh`); sign of the derivative of the energy. Partial: threshold of the wind (negation) |
| C145 | `TutorialAdvection::getExactSolution`, `AdvectionTest` constructor and initial solution | real functions; derivatives from Mathlib; access beyond a vector is `none`. Partial: `AdvectionTest` (negation) |
| C146 | `TutorialPoisson`, `PoissonTest` matrices and `HpgemAPILinearSteadyState` | bilinear form on any mesh (topic `DgMesh`); Green's identity is a hypothesis, shown for a parabola |
| C147 | the same, with the penalty of the constructor | Young's inequality with the constant of the trace inequality; surjectivity of injective endomorphisms. Partial: the penalty does not depend on the mesh (negation) |
| C148 | `getExactSolution`, `getSourceTerm`, `computeIntegrandSourceTermAtFace` | real functions, derivatives from Mathlib |
| C149 | `DG-Wave_linear/main.cpp`: surface matrices, swap, time step | matrices over any numbering of the surface rows, solvers as relations; energy by algebra, induction over the steps. Partial: layout of the rows (negation) |
| C150 | `DG-Wave_linear/main.cpp` `exactSolution` | real functions, derivatives from Mathlib |
| C151 | `kernel/Logger.h` `createMessage` | character lists, structural recursion; refinement to a renderer of pieces. Partial: escapes behind the last placeholder (negation) |
| C152 | `kernel/Logger.h` levels, assertions, `suppressWarnings`; `Logger.cpp` handlers | handlers as functions to outputs and endings; case analysis. Partial: a throwing body (negation) |
| C153 | `DG-Max/Utils/PredefinedStructure.cpp` `insideIWPore` | real numbers, floor; refinement to a lattice of discs |
| C154 | `DG-Max/Utils/PredefinedStructure.cpp` structures and options | case analysis over the structures. Partial: default contrast, plane woodpiles (negations) |
| C155 | `DG-Max/Utils/Verification/EVConvergenceResult.cpp` | erase loop by index, refinement to `filter` |
| C156 | `MeshManipulator_Impl.h` `move`, `MappingToPhys*::reinit`, `MeshMoverDemo.cpp` | elements with stored and live coordinates; uses the maps of C35. Partial: moving without `reinit` (negation) |
| C157 | `SavageHutter/MeshMoverContraction.h` | real numbers; refinement to a width function, Jacobian computed |
| C158 | `SavageHutter1DBase.cpp`, `SavageHutter1DBidispersed.cpp`, `SavageHutter2DBase.cpp` friction laws | real numbers, `tan`, `exp`. Partial: uphill flow in one dimension (negations) |
| C159 | `SavageHutter1DBasic.cpp`, `SavageHutter2DBasic.cpp` `computeSourceTerm` | vectors in the plane. Partial: uphill flow, rest (negations) |
| C160 | `SavageHutter1DBase.cpp` boundary integrand | states as functions, lists for the constructed state. Partial: three variables, low outflow (negations) |
| C161 | `SavageHutter1DBidispersed.cpp`, `SavageHutter1DWidthAveraged.cpp`, `SavageHutter2DInteriorTest.cpp` | derivatives in Mathlib |
| C162 | `AbstractEVConvergenceTest.cpp` `compareWithExpected` | rational numbers or NaN in lists. Partial: NaNs (negation) |
| C163 | `AbstractEVConvergenceTest.cpp` `run` | recursion over the levels. Partial: the switch `failOnDifference` (negation) |
| C164 | `Preprocessor/lib/hpgem.cpp` `StructuredReader::getNodeCoordinates`, `getElements` | lists, one entry per direction, any number of directions; refinement to a lattice |
| C165 | `StructuredReader` (periodic directions) | nodes of lattice points |
| C166 | `StructuredReader::getElements` | state of the lambda, run for the number of elements |
| C167 | `StructuredReader::getElements`, `cornersOfTriangles`, `rotate` | barycentric coordinates over any ordered field |
| C168 | `StructuredReader::getElements` | quarter turns counted. Partial: odd numbers of elements across periodic boundaries (negation) |
| C169 | `Preprocessor/lib/hpgem.cpp` `PreprocessorReader`, `output_impl.h` | tokens of C40. Partial: version 2 (negation) |
| C170 | `Preprocessor/lib/FortranUnformattedFile.cpp` | bytes and a position; refinement to lists of records |
| C171 | `FortranUnformattedFile::readRawRecord` | with and without assertions. Partial: builds without assertions (negations) |
| C172 | `Preprocessor/lib/centaur.cpp` `readGroup`, `skipGroup` | a file as list of records; refinement to lists of entries. Partial: 32-bit offsets (negation) |
| C173 | `centaur.cpp` `readElements`, `reorderElementCoords`, `addHigherOrderNodes` | corner positions of CGNS and of the reference shapes |
| C174 | `centaur.cpp` `readZoneInfo` | invariant over zones and types. Partial: meshes with several element types (negation) |
| C175 | `centaur.cpp` periodic pairs, zone names, file types | induction over pairs; round trip; decision |
| C176 | `Preprocessor/lib/gmsh.cpp` `safeGetline`, `skipSection`, `readSectionEnd` | characters and lines; induction. Partial: sections that are not closed (negation) |
| C177 | `gmsh.cpp` `readNodes`, `readPhysicalNames`, `pruneCoordinatesToDimension`; `MeshFactory.h` | fold over nodes. Partial: node tags that are not 1, 2, 3, ... (equivalence) |
| C178 | `gmsh.cpp` `readElements`, `convertRawElements` | tokens; refinement to a list of elements. Partial: elements without tags (negation) |
| C179 | `HamiltonianEuler/HEuler.cpp` `elementIntegrand`, `faceIntegrand`, `createCompressibleSystem`, `solve` | assembled matrices as bilinear forms of fields over quadrature points; adjointness, then the midpoint rule; induction over steps |
| C180 | `HEuler.cpp` `createIncompressibleSystem`, `solve` | same matrices; block elimination; induction over steps |
| C181 | `HEuler.cpp` `correctInitialProjectionOfVelocity` | decision logic with an exact solver. Partial: divergences without negative entry (negation by a box) |
| C182 | `HEuler.cpp` `solve`, `initialiseMesh` (time step) | loop in exact arithmetic. Partial: one step too many (equality) |
| C183 | `HamiltonianEuler/InitialConditions.cpp` (without the Taylor series) | derivatives of the formulas against the linear Euler equations. Partial: heights other than 2 Pi, the far wall (negations) |
| C184 | `Preprocessor/extractSurface.cpp`: `Boundary`, loop over the nodes | invariant of the loop (table of coordinates is injective, onto, and projects); decision logic of the description |
| C185 | `Preprocessor/extractSurface.cpp`: loop over the faces | refinement to the filtered list of faces. Partial: periodic meshes (negation) |
| C186 | `DG-Max/Programs/DGMaxEigen.cpp`: `parsePenaltyParmaters`, `parseDGMaxPenaltyParameter`, choice of the method | decision logic: soundness and completeness of the parser by induction; `std::stod` is a parameter |
| C187 | `DG-Max/Programs/DGMaxEigen.cpp`: `parsePath`, `DGMaxEigenDriver` | induction over the loop; linearity of the path. Partial: the default path (negation) |
| C188 | `NavierStokes/CompressibleNavierStokes/Inviscid.cpp`: fluxes, element and boundary terms | algebra against the physical flux of `Euler.Spec`; induction over the assignments of the loops |
| C189 | `NavierStokes/CompressibleNavierStokes/Inviscid.cpp`: `integrandsAtFace` | as C188. Partial: different numbers of basis functions (negations) |
| C190 | `NavierStokes/CompressibleNavierStokes/Viscous.cpp:73-290`: viscous tensor, rows of the momentum | product rule for line derivatives and sums over directions, against the Newtonian stress |
| C191 | as C190, row of the energy | as C190. Partial: excess term (negation) |
| C192 | `NavierStokes/CompressibleNavierStokes/CompressibleNavierStokes.cpp:611-698`: plate velocity and inviscid flux | limits of the exponential; algebra |
| C193 | as C192: plate temperature and pressure | as C192. Partial: the plate temperature is not imposed (negation), fast plates stop the program (negation) |
| C194 | `NavierStokes/CompressibleNavierStokes/Viscous.cpp:425-463, 692-734`: fluxes of the viscous face terms | the jump of the states as a gradient, then C190. Partial: the term at the boundary is zero (negation) |
| C195 | `NavierStokes/CompressibleNavierStokes/CompressibleNavierStokes.cpp:166-276`: exact state of the source term, first derivatives | derivatives of the trigonometric products, quotient rule |
| C196 | as C195, lines 236-348: second derivatives | as C195. Partial: overwritten tables and signs (negations) |
| C197 | `NavierStokes/CompressibleNavierStokes/Viscous.cpp:58-67`: `computeViscosity` | algebra with real powers, monotonicity. Partial: reference temperatures other than one (negation) |
| C35, C58 | all `MappingToPhys*` as functions of the node positions and the point, `MappingToPhysFactory`, the Jacobians and the inverse maps with their iterations (real arithmetic, `dgesv` as a solver that leaves the right-hand side if the matrix is singular); faces as in C10 | closed formulas for the maps, `HasFDerivAt` column by column; agreement on faces by linearity in the node positions and C09; iterations by the first step that meets the tolerance, quadratic maps by an exact Taylor formula |
| C36 | all H1 functions as descriptors with `eval` and `evalDeriv` | `HasDerivAt` per class |
| C47 | the creation loops as lists of descriptors | membership and counting for all orders, `List.Perm` |
| C48, C49 | face and edge tables, orientation permutations | traces reduced to one canonical list per kind of face; witnesses where they differ |
| C50 | the same sets | restriction to vertices, edges, faces in turn, then tensor products of Lobatto polynomials; explicit dependency of Lobatto 5 |
| C44 | registered node orders, gmsh reference nodes as specification | one affine map per type, general lemma on permuted lists |
| C45 | node lists and `getOrderFromPoints` of the curved elements | the same lattice argument; the order by exact square roots and a loop invariant |
| C46 | `findPoint` with its tolerance, `computeCodim1Indices`, `computeCodim2Indices` | images of lattice points are lattice points, lattice points are separated |
| C43 | MiddleSizeMatrix as a flat column-major vector, BLAS by its documentation | index arithmetic, induction on the loops |
| C51 | point and path readers over an arbitrary `stod` | round trip by induction on the points |
| C52 | paths over any vector space | index arithmetic; telescoping sum |
| C37, C59 | the tables of all rules as real numbers (square roots kept exact), tensor product rules, the registry `AllGaussQuadratureRules` and `integrate`; specification `Integrates` with Lebesgue integrals | integrals of monomials over the shapes by Fubini; integer arithmetic per monomial on the scaled tables, lifted by linearity to all polynomials; registry by sorted insertion |
| C60 | `ElementIntegral::integrate` with the maps of C35 | change of variables with the Jacobian of C35 |

Properties that turn out false for the code are kept in full in `properties.jsonl`; the negation is
proved with a concrete witness and the part that does hold carries the suffix `_partial`.

## Known deviations found while reading

See the section "Findings" below, filled in as the proofs are made.

## Findings

Places where the code, as read, does not satisfy the property; each has a theorem.

* **Stage times of three Runge-Kutta rules** (C05). `RK2TVD`, `RK3TVD` and `BogackiShampine` carry
  stage times `c` that differ from the row sums of `a`. For right hand sides that depend on time the
  order drops: `RungeKutta.rowSum_fails`, `RungeKutta.quadratureOrder_fails`.
* **`solve` without output frames** (C42). With `numberOfOutputFrames = 0` the step size is not
  fitted to the interval and the loop can step over the final time:
  `RungeKutta.solve_noFrames_overshoots`.
* **Rotated square faces** (C09). `ReferenceSquare::getCodim0MappingIndex` selects the inverse of the
  needed rotation when the two elements list a square face rotated by 90 degrees:
  `RefGeometry.square_codim0_fails`. All other orientations are right.
* **Cube faces of 4D elements** (C09). The selection recognises symmetries of the first two
  coordinates, the maps act on the last two: `RefGeometry.cube_codim0_fails`.
* **Resizing dense matrices** (C43). `MiddleSizeMatrix::resize` resizes the flat vector, so a changed
  number of rows moves entries: `DenseMatrix.resize_scrambles`.
* **Non-included unknowns on the right of a face** (C16). `FaceLocalIndexing::getDoFOffset(unknown,
  RIGHT)` adds the left count to `UNKNOWN_NOT_INCLUDED` and wraps around to a valid index:
  `LocalIndexing.face_notIncluded_fails`. `reinit(nullptr)` is documented but dereferences the
  pointer.
* **Orders with repeated indices** (C21). `ElementReorder::checkOrder` only looks at the smallest and
  largest index: `ElementReorder.reorder_roundtrip_fails`. The types of the gmsh reader are fine.
* **Linear gmsh tetrahedra** (C44). The reader leaves the four node tetrahedron unregistered because
  it "should not require reordering", but `reorderToHpGem` aborts on unregistered types, so no file
  with linear tetrahedra can be read: `ElementReorder.gmsh_tetrahedron_rejected`.
* **Lobatto polynomials** (C24). `LobattoPolynomial` has a misplaced parenthesis at degree 5 (right
  only at `-1`, `0`, `1`) and misses the scaling from degree 10 on: `Legendre.lobatto_five_wrong`,
  `Legendre.lobatto_high_wrong`. `LobattoPolynomialDerivative` rejects every degree above 3.
* **Derivatives from order 6 on** (C36). Since `LobattoPolynomialDerivative` stops at degree 3, each
  H1 set of order 6 or more contains a function whose `evalDeriv` aborts: `Basis.evalDeriv_aborts`.
* **Dependent sets from order 7 on** (C50). The degree 5 Lobatto polynomial as coded is a combination
  of degrees 1 and 3: `Basis.dg_sets_dependent`. Up to order 6 all sets are independent:
  `Basis.dg_sets_independent_partial`.
* **Prism sets** (C47, C48). `createDGBasisFunctions3DH1ConformingPrism` adds (o-1)(o-2)/2 functions
  too many: `Basis.prism_dg_length`. `createFaceBasisFunctionSet3DH1ConformingPrism` uses the class
  for triangular faces on square faces; the functions do not vanish on other faces:
  `Basis.prism_square_faces_leak`.
* **Cube faces with exchanged axes** (C49). The functions of orientations 1, 3, 6 and 7 are attached
  in the wrong order: `Basis.cube_faces_do_not_conform` (order 3 and up; fine up to order 2).
* **Mixed meshes** (C49). Edge functions of cubes and of prisms/tetrahedra differ on a shared edge:
  `Basis.mixed_edges_do_not_conform`.
* **Global indices with repeated unknowns or faces** (C17). `GlobalIndexing::reset` accepts a selection
  that names an unknown twice and then counts its basis functions twice:
  `GlobalIndexing.repeated_unknown_leaves_holes`. An element with the same face on two sides (periodic
  mesh of one element) has the same effect: `GlobalIndexing.repeated_face_leaves_holes`.
* **`GlobalIndexing::reset(nullptr)`** (C17) keeps the included unknowns and the global number of the old
  mesh: `GlobalIndexing.reset_null`.
* **Start levels of children** (C25). `LevelTree::addChild(ren)` with a level on an entry that has children
  moves the end of the entry but not its children: `LevelTree.addChildAt_breaks_levels`. Shortening a leaf
  stretched by `fillToLevel` leaves the number of levels too large, so that an empty level can be selected:
  `LevelTree.addChildAt_keeps_maxLevel`. `addChildren` with an empty list on a leaf reads `back()` of an
  empty vector: `LevelTree.addChildren_nil_undefined`.
* **Traversals of refinement forests** (C26). The default traversal over all levels stops at the level of
  the last leaf and misses deeper entries elsewhere: `LevelTree.allLevel_misses`. Pre-order misses a last
  leaf on several levels: `LevelTree.preOrder_misses`. With entries on several levels the traversal over all
  levels shows entries on levels they do not live on, `LevelTree.allLevel_wrong_level`, its `--` can abort,
  `LevelTree.allLevel_back_aborts`, and `--` in post-order skips visits, `LevelTree.postOrder_back_skips`.
* **Integer arguments** (C27). `parse_argument` looks at `eof()` but not at `fail()`: an empty text or a lone
  sign is accepted as 0, a number that is too large as the largest value, a negative number for an unsigned
  type as a large one: `CommandLine.int_empty_accepted`, `CommandLine.int_overflow_accepted`,
  `CommandLine.unsigned_negative_accepted`.
* **Shared tags** (C27). `register_argument` silently leaves a tag with its first owner. A required option that
  lost its tags makes every command line fail: `CommandLine.shadowed_required_unusable`. Without `--` the
  linked libraries get an empty argument vector instead of the name of the program (`accepted_iff`).
* **Wave vector paths** (C52). The assertion in `KSpacePath::k` admits one index too many:
  `KPath.k_total_undefined`. `singleStepPath` is documented to have two points but has one:
  `KPath.singleStepPath_one_point`. `parsePath` accepts texts without points and `0@`:
  `KPath.empty_path_wraps`, `KPath.zero_steps_undefined`.
* **Shape adjacency** (C53). `completeSubShapes` stores `{entityDimension}` instead of `{entityIndex}` for the
  adjacency of a part with its own dimension: `ElementShape.adjacent_self`.
* **Removing unused entities twice** (C29). `removeUnusedEntities` gives coordinates of removed nodes an invalid
  node number but keeps them. The next removal of a node, or an element with such a coordinate, uses the number
  as position: `PreMesh.removeUnused_undefined`, `PreMesh.removeUnused_twice_undefined`,
  `PreMesh.removeUnused_addElement_undefined`. The preprocessor calls it after reading and again after merging
  periodic boundaries.
* **Merging an entity with itself** (C29) is only stopped in debug builds; otherwise the loop does not end:
  `PreMesh.mergeLoop_self`.
* **Copied meshes** (C38). The copy and move constructors leave out `zoneNames`: `PreMesh.copy_loses_zones`.
* **Non-conforming input** (C54). `fixEntity` takes an existing entity with *more* nodes for a part, so a triangular
  face on three corners of a square face becomes that face (example in `PreMesh/PropsShare.lean`).
* **Pairings that are not one-to-one** (C55). `computeMergePlan` keeps one candidate for each set of target coordinates,
  so of two edges mapped onto the same edge one is not joined although its nodes are:
  `MergePlan.computeMergePlan_forgets`. Two nodes of a part mapped to one coordinate stop the program:
  `MergePlan.computeMergePlan_aborts`. Merging nodes leaves coordinates that no element uses at their old node
  (`PreMesh.merged`), so `connect_all` is restricted to coordinates of elements.
* **Mesh file** (C56). A periodic mesh with an element that meets itself in a node loses a coordinate:
  `MeshFile.repeated_node_loses_coordinate`. Faces between two elements of other processes are marked as periodic
  (`MeshFile.faces_of_others_are_periodic`), and in one dimension the outer faces of the elements of other processes
  are walls (`MeshFile.points_of_others_are_walls`). A face with more than two elements is written without complaint
  and stops the reader: `MeshFile.three_elements_at_face`. The preprocessor writes version 2 of the format, but its
  own reader (hpgem.cpp) only takes version 1 (not modelled).
* **Requests for elements that are already received** (C30). `addPullElement` is described as harmless for elements
  passed twice, but only pending requests are compared. An element of the neighbourhood, or one asked for before an
  earlier communication, is sent and received once more each time: `Submesh.request_again`.
* **Changing the number of basis functions** (C31). `setNumberOfBasisFunctions(n, unknown)` resizes the vectors at the
  end, so that the coefficients of later unknowns are taken for others: `ElementData.setNumber_shifts`.
* **Indices of faces with conforming functions** (C33). `Face::convertToSingleIndex` puts the functions of the right
  element behind the *interior* functions of the left element, `getSide` and `getElementBasisFunctionId` expect them
  behind *all* functions of the left element: `ElementData.single_right_wrong`.
* **Four-dimensional elements** (C35). The map of the hypercube only has its linear terms, so it hits the nodes only for
  affine images of the reference element: `PhysMap.hypercube_nodes_iff`, `PhysMap.hypercube_nodes_fail`.
* **Inverse maps** (C35). The iterations count one step too many when they reach their limit of 100 steps, so a point
  that was not found is returned as a valid point, and "not a number" is returned just if the 100th step succeeds:
  `PhysMap.inverse_nan_iff`, `PhysMap.inverse_unreachable`; for a convex quadrilateral `PhysMap.inverse_wrong`.
* **Square faces** (C58). Because of the rotations in C09 the two elements of a face are evaluated at different
  positions: `PhysMap.glue_square_fails`.
* **Quadrature on tetrahedra** (C37). The rule `T3_7_31` states order 7 and `T3_9_53` order 9, but they are only accurate up
  to degree 6 and 8: `Quadrature.tetrahedron_order_7`, `Quadrature.tetrahedron_order_9` (errors above 4e-8 and 1e-8 on a power
  of one coordinate). The decimals of the pyramid rules and of `TriPrism_7_64` have ten digits, so their tolerances in
  `pyramid_rules` and `prism_rules` are 1e-10 and 1e-9 instead of 1e-13.
* **Sparsity estimate** (C34). On a distributed mesh face couplings of unknowns with functions on faces, edges or nodes
  cannot be counted, so the program is to stop. `isOnlyElementBased(i)` gets the position `i` of the unknown in the list of
  included unknowns instead of its number, so for other selections than the first unknowns the check looks at another
  unknown: `Assembly.estimate_none_iff`. For the second unknown alone the estimate is then too small:
  `Assembly.estimate_too_small`.
* **Writing back with a selection of unknowns** (C61). `writeTimeIntegrationVector` loops over all unknowns, so it fails if
  one of them is not included: `Assembly.write_back_needs_all`. The overload for one unknown takes the number of basis functions
  of the first unknown (not modelled).
* **`IdentityTransformation`** (C62, not modelled). Its members take the data by non-const reference and are marked `override`, so
  the class cannot be compiled where it is used.
* **`PhysicalElement::getSolution` expands every unknown in the functions of the first** (C65, `solution_wrong`); with different numbers
  of functions a debug build stops. `getSolutionDeriv` does the same.
* **The stored solution is not renewed when coefficients change** (C65, `solution_stale`) until an element, a point or a transformation
  is set.
* **Transformations of later unknowns** (C64). The constructor sets a transformation for the first unknown only. A request for a function of
  another unknown reads outside the list (here: fails) unless `setTransformation` was called for it. A point set before an element
  dereferences an uninitialised pointer (here: fails).
* **`PhysicalElement` result matrix cleared by `*= 0`** (C64): NaN or infinity left by the user stays. Not in the model (entries of a ring).
* **Faces of the same area that are not congruent** (C66, `shear_wrong`). The only check is that the determinant is one. For such faces the
  matrix found does not take the right face to the left one. (The documentation assumes congruent faces.)
* **`PhysicalFace::getSolution`, `getSolutionDeriv` for the right side** (C66, not in the model) are not turned, although basis functions are.
* **`basisFunctionNormalCross`, `basisFunctionUnitNormalCross` with a side** call overloads that do not exist; they cannot be
  instantiated (not modelled).
* **1-D shallow water and granular flow, faces with normal −1** (C67, `contribution1_wrong`). `SavageHutter1DBase::integrandsAtFace` multiplies
  the flux with the normal although `hllcFlux` and `localLaxFriedrichsFlux` have done so; with normal −1 the contribution has the wrong sign.
* **2-D Lax–Friedrichs flux** (C67, `alpha2_too_small`). The speed used for damping is not the largest wave speed, so the flux is not monotone.
* **Solid walls in the Euler application** (C69, `wall_wrong`, `wall_slide`). The mirror image is passed as the left state although the normal
  points out of the element. Damping then has the wrong sign: the force on a wall drops below the gas pressure when gas runs into it, and gas sliding
  along a wall is driven forward.
* **Source of the Euler application** (C70, `source_depends`). The energy source uses the pressure of the computed state instead of that of the
  intended one. It is right only where both agree (`source_exact`).
* **Narrow periodic cells** (C71, `thin_wrong`). The blocks of periodic faces replace entries of the matrix. When two elements are neighbours across the
  periodic boundary and also inside the cell (or across two periodic faces), one of the couplings is lost, even for wave vector zero.
* **Negative eigenvalues** (C75, `compareEigen_negative`). The comment says that negative eigenvalues are sorted after all positive ones. The code takes
  moduli first, so that the branches for negative values are reached by zero only and a negative eigenvalue is treated as its absolute value.
* **Faces with other numbers of functions** (C76, C77, `PhysFace.mixed_wrong`, `FaceInt.mixed_wrong`). `PhysicalFace` sets its sizes for the first face only. On a
  later face with other numbers of functions (mixed meshes, local p-refinement) functions are taken from the wrong element, so that face integrals,
  which use one object for all faces, are wrong.
* **Points of a rule after a change of the face** (C76, `rule_stale`). `setFace` keeps the maps of the face before; `setQuadraturePointIndex` without a new
  `setQuadratureRule` then places the elements wrongly.
* **Unknown ignored** (C76, `unknown_wrong`). `basisFunctionNormal(i, unknown)` and `basisFunctionUnitNormal(i, unknown)` use the functions without unknown.
* **Solution on a turned side** (C76, `solution_wrong`). `getSolutionDeriv(RIGHT)` is not turned to the left, though the derivatives of the functions are; the
  comment in PhysicalFace.h promises that all quantities are.
* **Derivatives by side without check** (C76, `beyond_wrong`). `basisFunctionDeriv(LEFT, i)` with `i` too large gives a function of the right element.
* **Refinements that do not tile** (C79, `Refine.children_tile_partial`). Two divisions of the cube in four (`cube5`, `cube6`), the division of the cube in eight
  (`cube7`) and one of the prism in two (`prism5`) list nodes such that the sub-elements are folded or leave gaps: the nodes of the sub-elements are not in the order of
  `getNewNodeLocations`. All other 32 classes tile.
* **`refinementTransform` of the wrong part** (C79, `Refine.transform_places_children_partial`). For nine classes it does not take the points of a sub-element to their place in
  the element, among them the three divisions of the triangle in two.
* **Parts of faces** (C80, `Refine.face_parts_partial`, `Refine.face_nodes_partial`). For 14 classes `getSubElementAndLocalFaceIndex` or `getCodim1LocalNodeIndices` name a wrong face,
  a face in another order, or (`triangle6`) a face that does not exist.
* **Reversed faces** (C81, `Refine.refine_reversed_face`). `refine` copies the nodes of a refined face in the order of its left element into the places in the order of the
  element itself. If the two see the face in different orders, corners are exchanged and the sub-elements are folded.
* **Numbers left behind** (C82, `Assign.discontinuous_for_unknown_keeps_numbers`). `useDefaultDGBasisFunctions(order, unknown)` changes the sets of the elements but not the numbers
  of functions of faces, edges and nodes. After conforming functions these go on to count functions no element has.
* **Edges of periodic meshes** (C83, `Assign.edge_functions_disagree`). `Edge::addElement` orients an edge by the numbers of the coordinates of its ends. In a periodic mesh elements
  around one edge use different coordinates for the same node. If these are not numbered in the same order, conforming functions of order three or more are not continuous across the edge.
* **Right hand side in place** (C84, `Parallel.in_place_differs`). `computeRightHandSide` needs a result vector other than the inputs. This is said in a comment for some of the versions and checked by
  none of them; otherwise the second side of a face sees the coefficients after the first side has been added.
* **Norm of the solution for the time step** (C86, `Projection.updateNorm_overestimates`). `computeErrorAndNormOfUpdate` returns the norm over the whole mesh as error, but adds the norms of the elements
  for the solution. With `n` equal elements this is `√n` times the norm, so that an adaptive step accepts a relative error that grows with the number of elements.
* **Time integration of order four ignores sources** (C88, `MaxTime.co4_ignores_sources`, `MaxTime.co4_not_pushed`). In `DGMaxTimeIntegration` the copy of the right hand side is commented out for CO4 and the
  conductivity is not used. The source, the boundary values and the conductivity of the problem have no effect, without a message. From zero initial values the field stays zero.
* **Snapshots of the time integration** (C87). `numberOfSnapshots` reserves one more than is taken when the stride does not divide the number of steps. This has no effect other than memory.
* **Energy fluxes have the opposite sign** (C93, `MaxLocal.outgoing_flux`, `MaxLocal.outgoing_silverMuller`). `computeEnergyFluxes` integrates `Im((n × E) · conj(curl E))`, which is negative for a wave
  that leaves through the face, while the documentation says that the flux is in the direction of the normal, and `writeFields` uses the other sign for the Poynting vector.
* **Energy fluxes of two sides with different permeability do not cancel** (C93, `MaxLocal.flux_does_not_cancel`). The average of the curl, not of `μ⁻¹ curl`, is divided by the permeability of the side that
  is asked for.
* **Energy fluxes of a rescaled solution stop the program** (C92, `MaxLocal.restoreInternal_fails`). With the rescaling for Hermitian systems the coefficients of an internal face are passed to the solve as a whole
  instead of the copied part, so the sizes do not fit; the offset for the right part is the number of the right instead of the left functions.
* **The time integration does not start from the initial field** (C94, `MaxLocal.initial_scaled`). The right hand side has no permittivity but the mass matrix has, so the integration starts from `E / ε`.
* `writeFields` of `DGMaxDiscretization` ignores the number of the vector and always writes the first; `faceErrorIntegrand` has no factor for the diameter, which its documentation has (not modelled).
* The documentation of `PMLElementInfos` gives the conductivity as linear in the depth; the code uses the square, which is what the factor for the attenuation needs (C96).
* **Transmission with several processes** (C98, `Facets.transmission_shares`, `Facets.transmission_low`). `pmlTransmission` divides the integral over the faces of one process by the area over all processes. The
  value that is written is too small as soon as another process has a part of the end of the layer.
* **Absorbing layers with several processes** (C99, `Facets.layers_shadow`, `Facets.layers_disagree`). `readMesh` sets the material for all elements a process knows, `applyPMLs` only for those it owns. Where a layer is
  divided among processes, the face integrals use the material without layer for the neighbour on the other process.
* **Names of zones for layers** (C99, `Facets.description_unknown`, `Facets.layers_first`). A description for a zone that does not exist is ignored without a message. All elements of a layer get the material of the first.
* **The flux of energy points backwards** (C101, `Fields.localFlux_backwards`). For the time dependence `e^{-iωt}`, for which the waves, layers and absorbing boundaries of DG-Max are meant, `localFlux` of a plane wave points
  against its direction. It is also twice the mean over a period.
* **Interfaces that are not perpendicular** (C102, `Fields.interface_unchecked`). The constructor of `InterfaceReflectionField` only compares the length of the wave vector with its product with the normal. It accepts normals
  that are not unit vectors and not parallel to the wave vector; the field is then not continuous at the interface.
* **Load of the Brezzi flux without its matrix** (C106, `DivLocal.mixed_flux_load`, `DivLocal.mixed_flux_example`). With the interior penalty flux for the tangential part and that of Brezzi for any other, Dirichlet conditions
  add the lift of the boundary values to the vector, while the matrix has no such term. The exact solution then leaves a residual.
* **The penalty of normal jumps is not one** (C108, `DivLocal.normal_penalty`). `phiUj` is set to the conjugate of `phiUi` instead of being taken from function `j`. The term then does not vanish for fields with a continuous
  normal component.
* **Lift of normal jumps with the wrong material** (C109, `DivLocal.normal_lift_material`). `computeVectorNormalLiftProjector` takes the material for the curl on the right side.
* **Number of faces of the right element** (C109, `DivLocal.right_faces_ignored`). It is taken from the left element, so that the warning for different numbers is never given.
* **Indices of the right element** (C110, `DivLocal.energyFluxes_internal`, `DivLocal.fieldL2_right`). `computeEnergyFluxes` adds all functions of the left element to an index that already counts those of the field;
  `computeFieldL2Integral` asks for basis functions by their index among all coefficients. Both read beyond the range on internal faces.
* **Tensors with three components** (C112, `VtkFile.tensor_components`). A tensor field is written with nine values per point in an array that declares three components.
* **Sizes of arrays in 32 bits** (C113, `VtkFile.array_truncated`). The size of an array in bytes is cut to 32 bits, and only so many bytes are written. A mesh with more than 178 956 970 points on a process loses points
  without a message.
* **Names of files of two writers** (C114, `VtkFile.series_clash`). The number of the file follows the base name without a separator: writers with the base names `a` and `a1` write the same files.
* **Prisms and pyramids above order one** (C115, `VtkFile.cells_at_order`). They have no cell, and a mesh with one of them is refused.
* **Tecplot files with fewer coordinates than dimensions** (C116, `Tecplot.slice_nodes`). All corners are written, but the connectivity counts those of a cell of fewer dimensions, so that elements get the lines of others.
* **First Tecplot zone of the same geometry** (C118, `Tecplot.same_first`). Nothing prevents it; its header has no nodes and elements.
* **Spectra of homogeneous media in skewed bases** (C119, `Bands.spectrum_misses`). The search only moves on from lattice points below the bound, to neighbours along the basis. In a skewed basis of the lattice points with low frequencies
  are not reached, and their modes are missing.
* **Counts of unsorted lists** (C120, `Bands.group_overwrites`). A frequency that comes back later overwrites its count.
* **Band lines on long segments** (C121, `Bands.lines_missed`). The search starts at the first end of the segment and only moves on from points whose band comes below the bound. On a segment that leaves the first cell bands near its other end are missing.
  For equal ends the code divides by zero.
* **Bragg stacks at grazing incidence** (C122, `Bands.Bragg.grazing_nan`). Where the wave number across a layer vanishes the functions are not a number, although they have a limit.
* **False frequencies of Bragg stacks** (C123, `Bands.Bragg.false_root`). The first two points of the golden section search are not tested for a negative value. If there are two roots in an interval, bisection may be started between two
  negative values and returns their middle as a frequency.
* **Number of lines admitted as a line** (C124, `Bands.Bragg.lines_enumerate`). The assertions admit the number of lines as the number of a line; it ends in another assertion.
* **Curls of high order in two dimensions** (C125, `CurlBasis.nedelec2_curl_aborts`). From order 7 on, one of the Nédélec functions on the triangle uses a derivative that is not available (see C36), and `evalCurl` ends in a fatal error.
* **Direction of face functions** (C127, `CurlBasis.face_zero_not_parallel`). The direction of the Ainsworth-Coyle face functions is computed with `b == 1 - a == 1`, which is parsed as `(b == (1 - a)) == 1`. On the face opposite of node 0 the
  functions are therefore not parallel to the face. The space they span is not affected (C128).
* **Order zero of Ainsworth-Coyle** (C128, `CurlBasis.ainsworth_order_zero`). The set of order zero holds six linear functions rather than three constants.
* **Layer limiter for higher orders** (C129, `Limiters.positiveLayer_below`). The slope of the limited height is the minimum of two numbers of which one can be negative with a large absolute value. For polynomials of degree two or more the height can be below the layer thickness, even negative, after limiting.
* **Squeezing limiter** (C130, `Limiters.squeezeLimiter_not_finite`, `Limiters.minimumPoint_wrong`). With constant negative discharge the factor is minus infinity and the solution is destroyed. `getMinimumHeightPoint` compares the height in the left node with the discharge in the left node, so it can answer the node with the greatest height.
* **Small particles above the surface** (C131, `Limiters.bidispersed_outside`). If the small height does not fit it is replaced by its average, which can still exceed the height (the source says that this has to be solved).
* **Limiter with detector** (C132, `Limiters.detectorMinmod_flattens`). Its condition begins with `false &&`, so every limited variable becomes constant. `Limiters.tvbLimiter_stops`: `TvbLimiter1D` aborts in periodic meshes.
* **Order of limiting** (C133, `Limiters.limitLoop_order_matters`). Limiting is done in place. When an element becomes dry its discharge is lost, and neighbours treated later see another average than those treated before.
* **Prandtl number** (C134, `NavierStokes.prandtl_wrong`). The viscosity of `Air` was changed to 0.01 but the conduction of heat still uses Reynolds number 500, so that the gas has the Prandtl number 3.6 and not 0.72.
* **Viscous terms depend on which side is left** (C138, `NavierStokes.viscous_not_exchanged`). `integrandsViscousAtFace` uses the tensor of the left element for both elements.
* **Viscous boundary term** (C138, `NavierStokes.viscous_boundary_zero`). `integrandViscousAtBoundaryFace` applies each tensor to its own state; the result is always zero, boundary data are not enforced by this term.
* **Stability parameters** (C138, `NavierStokes.stability_scaled`). The mass matrix of the first element is used for all, so the stabilisation is off by the ratio of the sizes of the elements.
* **Manufactured solution** (C139, `NavierStokes.manufactured_no_friction`, `NavierStokes.manufactured_vacuum`). The exact solution of `Air` has no viscous flux at all, so its error says nothing about the viscous terms; at time 10 it contains points with density zero. `Air` does not override `computeBoundaryType`, so that any boundary face ends the program (not modelled).
* **Error norm of acoustic waves** (C143, `Acoustic.error_density_iff`, `Acoustic.error_density_exchanged`). The error is documented as the energy `u² + c⁻¹|s|²`, but `c⁻¹` is applied to `u` and not to `s`; they agree only for `c = 1`.
* **Speed of acoustic waves** (C143, `Acoustic.speed`). `setMaterialParameter(c)` is documented with the speed of the waves; waves travel with speed `√c`.
* **Gap in the wind threshold** (C144, `Advection.threshold_gap`). The flux is computed for `|a·n| > 1e-12` and `|a·n| < 1e-12` but not for equality; then all face terms are missing and the energy can grow.
* **`AdvectionTest` leaves its vectors** (C145, `Advection.test_undefined`). With `DIM = 2` the constructor writes `a[2]` and the initial solution reads `point[2]`.
* **Penalty from the command line** (C147, `Poisson.penalty_not_from_mesh`). The penalty is computed from the number of elements given on the command line, while the mesh comes from a file of another argument. For every choice of the arguments there is a mesh on which the matrix is not positive definite.
* **Water waves do not move** (C149, `WaterWave.elevation_frozen`). `setUpSwap` exchanges rows `i` and `i + 1`, which are the elevation and the potential of one function only if the unknowns are interleaved. The program builds its `GlobalIndexing` with the default layout, in which all rows of the elevation come before those of the potential. If the number of surface functions is even, the elevation never changes (unless PETSc refuses entries outside the copied pattern). Also the written potential inside the domain belongs to the surface before the last half step (`WaterWave.interior_lags`).
* **Escapes in log messages** (C151, `Logging.message_escape_left`). `createMessage` undoes the escapes only up to the last replaced placeholder: behind it, and in messages without arguments, `\\%` is printed with its backslash. Arguments without placeholder are dropped without notice.
* **Suppressed warnings stay suppressed** (C152, `Logging.suppress_throws`). `suppressWarnings` does not restore the handler if its body throws.
* **Structures without contrast** (C154, `Structure.default_vacuum`). Without `--epsbackground`/`--epsfeature` the Bragg stack and the old inverse woodpile have permittivity 1 everywhere.
* **Woodpiles in the plane** (C154, `Structure.planar`). Both woodpiles read a third coordinate also for a two-dimensional mesh.
* **Square hole** (C154, `Structure.regions`). The help of `--epsfeature` names the central pore of the square; the option sets the frame, the pore has the background value.
* **Moved meshes that do not move** (C156, `MeshMove.demo_unmoved`). `MeshManipulator::move` changes the node coordinates only; line, square, cube and hypercube maps keep stored coefficients until `reinit`. `MeshMoverDemo.cpp` never calls it, so a mesh of squares is written unmoved.
* **Friction uphill** (C158, `Granular.friction1_wrong`). The one-dimensional friction law uses the signed Froude number: uphill it has a pole and takes every value below `tan δ1`, negative ones too, so friction drives the flow on (C159, `Granular.uphill_wrong`).
* **Friction of two sizes** (C158, `Granular.bidispersed_wrong`). The exponential law divides by the signed velocity: uphill it has no bound.
* **No static friction** (C159, `Granular.rest_moves`). Material at rest feels gravity only, so it slides on every slope.
* **Outflow with two sizes** (C160, `Granular.outflow_bidispersed_wrong`). The state outside a subcritical outflow is built with two entries also for the program with three variables.
* **Outflow that flows in** (C160, `Granular.outflow_enters`). The height outside is fixed at 1.35; lower material at rest makes material come in through the outflow.
* **NaN frequencies are accepted** (C162, `EVCompare.nan_accepted`). A difference that is NaN is not at least the tolerance, so a result of NaNs only agrees with every expectation. Results beyond the expected ones are not looked at.
* **A switch without effect** (C163, `EVCompare.run_switch`). `run(driver, failOnDifference)` is documented to go on after a difference if the switch is off; the difference is reported at level `ERROR`, which ends the program.
* **Triangular periodic meshes that do not fit** (C168, `StructMesh.periodic_conform_iff`). The five tetrahedra of a cube are turned so that neighbours fit; across a periodic boundary of a three-dimensional mesh they fit only if the number of elements in this direction is even. The generator accepts odd numbers.
* **The preprocessor cannot read its own files** (C169, `MeshFile.reread_fails`). It writes version 2 of the mesh format and its reader accepts version 1 only.
* **Records longer than the buffer** (C171, `FortranFile.release_overflow`). `readRawRecord(size, buffer)` is documented to fail if the size is wrong; without assertions it copies the whole record of a damaged or unexpected mesh file, past the end of the buffer. Shorter records are accepted (`FortranFile.release_short`), and a file that ends before the size marker makes it use an uninitialised size.
* **Zones of mixed Centaur meshes** (C174, `Centaur.zones_of_later_types_wrong`). `readZoneInfo` starts the position of each element type at its first element in the vector of all elements, but compares it with ends that count within the type. With `k` elements of earlier types, element `j` of a later type gets the zone of element `k + j` of its type, and the last `k` elements stay `"UNSET"`. A file with zero zones accesses `zones[-1]`.
* **Large groups in Centaur files** (C172, `Centaur.large_groups_lost`). The offset of a line in `readGroup` is the product of two `uint32_t`: of a group with more than `2^33` values the end is never stored, reading succeeds. (The element count `totalRawEntries` next to it is computed with 64 bits, "to prevent overflow".)
* **gmsh node tags** (C177, `Gmsh.nodes_found_iff_consecutive`). The tags of nodes are stored as node numbers, but elements (and periodic pairs) use `tag - 1` as position in the file. gmsh files may have gaps in the tags or another order; such meshes get wrong coordinates without a message. (The numbers of elements are checked.)
* **Unclosed sections of gmsh files** (C176, `Gmsh.sections_partial`). `skipSection` and `readSectionEnd` pass their message as the condition of `assert_always`: a truncated file is accepted. `readSectionEnd` ignores the first four characters of the end marker (`Gmsh.section_end_prefix_ignored`).
* **gmsh elements without tags** (C178, `Gmsh.element_without_tags`). The loop over the remaining tags runs to `no_tags - 1` in `size_t`: for an element without tags `2^64 - 1` numbers are skipped. Physical names that all belong to a lower dimension than the mesh make the zone lookup access out of range.
* **Initial divergence in HamiltonianEuler** (C181, `HEuler.correction_partial`). The test whether the velocity has to be corrected looks at the largest entry of `-DIV u`, not at the largest absolute value: a divergence with no negative entry is not corrected. A uniform flow towards one wall of a box is corrected, towards the other it is not. The energy is then not conserved (`HEuler.incompressible_step` gives the change).
* **One time step too many in HamiltonianEuler** (C182, `HEuler.one_step_too_many`). The loop `while (currTime <= endTime)` takes a further step at the end time.
* `HEuler::calculateLocalEnergy` (not called) takes unknown 0 for the density, but unknown 3 holds it: for incompressible flow it would add the pressure and leave out `u`.
* **Exact solutions of HamiltonianEuler** (C183). `Compressible3DOneThirdPeriodic` (used for incompressible flow) has a divergence unless `lz = 2 Pi` (`HEulerExact.third_unit_height`); `main.cpp` sets `lz` with a longer value of pi than the constant `Pi = 3.14159265`, so it is not exactly zero there either. With this constant the velocity of `Compressible3DWalls` does not vanish on the wall at 1, and the periodic solution is not periodic (`HEulerExact.far_wall_leaks`).
* **Surface of a periodic mesh** (C185). `extractSurface` maps the coordinates of a face, as seen from its first element, with `toBoundaryIndex[...]`. In a periodic mesh that element may see the face on the opposite side; the missing keys are inserted with value 0 and the new element consists of coordinate 0 repeated (`ExtractSurface.periodic_collapses`).
* **Length scale and the default path** (C187). `DGMaxEigen` states that wave vectors are multiplied by `1/lengthscale`. That is done for given points only; the default path is used as it is, so with another length scale the corner `(pi, 0, 0)` is reported as `lengthscale / 2` (`EigenProgram.default_path_unscaled`).
* **Numbers in stabilisation parameters** (C186). `parsePenaltyParmaters` ignores how much of a number `std::stod` read: `b1-2b0b5` is taken as `b1b0b5` (`EigenProgram.garbage_ignored`).
* **Face terms of the older Navier-Stokes application** (C189). `Inviscid::integrandsAtFace` fills the vector of the right element in the loop over the left basis functions, with the left index. With different numbers of basis functions entries go to the wrong variable (`OldNavierStokes.faceTerms_mixed`) or the loop runs out of range (`OldNavierStokes.faceTerms_fewer`).
* **Viscous energy flux of the older Navier-Stokes application** (C191). In `Viscous::computeATensor` the first term of the energy row of `A11`, `A22` and `A33` lacks the factor `viscosity`. Where the density changes along the flow the energy flux gets an extra term `(mu - 1)/3 u^2 (d rho)/rho`, also in a flow without stress and without heat conduction (`OldViscous.energy_exact`, `OldViscous.energy_spurious`).
* **Plate temperature of the older Navier-Stokes application** (C193). The comment says that the state at a plate is built from the temperature and the velocity of the plate, but the density and the energy are copied from inside. The temperature given for the plate has no effect on the state or the inviscid flux (`CouettePlate.temperature_free`; it only enters the viscosity), and a fast plate makes the pressure negative and stops the program (`CouettePlate.fast_plate_stops`).
* **Viscous boundary term of the older Navier-Stokes application** (C194). `Viscous::integrandViscousAtFace` applies the tensor inside to the state inside and the tensor at the boundary to the state at the boundary. A tensor vanishes on its own state, so the momentum part is zero for every pair of states (`OldViscous.boundary_vanishes`), while the same term at internal faces applies the tensors to the difference (`OldViscous.inner_jump`).
* **Manufactured source of the older Navier-Stokes application** (C196). In `integrandSourceAtElement` the lines under "compute partialState_yy" assign to `partialState_xx`, so the second derivatives in `x` hold those in `y` and those in `y` are zero; the last mixed derivative is assigned to entry 1 instead of 3; and `state_xy(0)` and `state_xy(3)` have the wrong sign (`NSSource.tables_wrong`, `NSSource.tables_missing`, `NSSource.state_mixed_wrong`).
* **Viscosity of the older Navier-Stokes application** (C197). `Viscous::computeViscosity` uses the scaled temperature in the numerator of Sutherland's law and the unscaled one in the denominator, so changing `velocityRef_` gives a wrong viscosity (`OldViscous.viscosity_unscaled`).
