import Verif.Base64.Props
import Verif.RungeKutta.Props
import Verif.RungeKutta.PropsConcrete
import Verif.RungeKutta.PropsSolve
import Verif.RefGeometry.Props
import Verif.DenseMatrix.Props
import Verif.LocalIndexing.Props
import Verif.UnionFind.Props
import Verif.ElementReorder.Props
import Verif.LazyCached.Props
import Verif.Lattice.Props
import Verif.Legendre.Props
import Verif.Basis.LemmasIndep2
import Verif.Basis.LemmasIndep3
import Verif.Basis.Props
import Verif.GlobalIndexing.Props
import Verif.LevelTree.Props
import Verif.CommandLine.Props
import Verif.KPath.Props
import Verif.ElementShape.Props
import Verif.PreMesh.Props
import Verif.PreMesh.PropsShare
import Verif.MergePlan.Model
import Verif.MergePlan.Spec
import Verif.MergePlan.Lemmas
import Verif.MergePlan.LemmasExec
import Verif.MergePlan.Props
import Verif.MeshFile.Counts
import Verif.MeshFile.Model
import Verif.MeshFile.Spec
import Verif.MeshFile.Lemmas
import Verif.MeshFile.LemmasRead
import Verif.MeshFile.LemmasElem
import Verif.MeshFile.LemmasWrite
import Verif.MeshFile.LemmasAll
import Verif.MeshFile.LemmasFile
import Verif.MeshFile.LemmasLocal
import Verif.MeshFile.LemmasDescribe
import Verif.MeshFile.Props
import Verif.Submesh.Model
import Verif.Submesh.Spec
import Verif.Submesh.Lemmas
import Verif.Submesh.LemmasSync
import Verif.Submesh.Props
import Verif.ElementData.Model
import Verif.ElementData.Spec
import Verif.ElementData.Lemmas
import Verif.ElementData.LemmasBasis
import Verif.ElementData.LemmasFace
import Verif.ElementData.Props
import Verif.PhysMap.Model
import Verif.PhysMap.Spec
import Verif.PhysMap.Lemmas
import Verif.PhysMap.LemmasDeriv
import Verif.PhysMap.LemmasPyramid
import Verif.PhysMap.LemmasFace
import Verif.PhysMap.LemmasNewton
import Verif.PhysMap.Props
import Verif.PhysMap.PropsFace
import Verif.Quadrature.Model
import Verif.Quadrature.Tables
import Verif.Quadrature.Rules
import Verif.Quadrature.Spec
import Verif.Quadrature.Integrals
import Verif.Quadrature.Check
import Verif.Quadrature.Inside
import Verif.Quadrature.ScaledA
import Verif.Quadrature.ScaledB
import Verif.Quadrature.ScaledC
import Verif.Quadrature.Roots
import Verif.Quadrature.RootsInside
import Verif.Quadrature.Registry
import Verif.Quadrature.Props
import Verif.Quadrature.PropsElement
import Verif.Assembly.Model
import Verif.Assembly.Spec
import Verif.Assembly.LemmasIndex
import Verif.Assembly.LemmasSum
import Verif.Assembly.LemmasAssemble
import Verif.Assembly.LemmasSide
import Verif.Assembly.LemmasEst
import Verif.Assembly.LemmasCount
import Verif.Assembly.Example
import Verif.Assembly.Props
import Verif.Assembly.PropsSparsity
import Verif.Assembly.PropsVector
import Verif.Transform.Model
import Verif.Transform.Spec
import Verif.Transform.Lemmas
import Verif.Transform.LemmasFields
import Verif.Transform.LemmasElements
import Verif.Transform.Props
import Verif.Transform.Example
import Verif.EvalCache.Spec
import Verif.EvalCache.Model
import Verif.EvalCache.Lemmas
import Verif.EvalCache.Props
import Verif.PhysElem.Spec
import Verif.PhysElem.Model
import Verif.PhysElem.Lemmas
import Verif.PhysElem.LemmasTrace
import Verif.PhysElem.Props
import Verif.FaceRotation.Model
import Verif.FaceRotation.Spec
import Verif.FaceRotation.Lemmas
import Verif.FaceRotation.Props
import Verif.Shallow.Model
import Verif.Shallow.Spec
import Verif.Shallow.Lemmas
import Verif.Shallow.Props
import Verif.Euler.Model
import Verif.Euler.Spec
import Verif.Euler.Lemmas
import Verif.Euler.LemmasWaves
import Verif.Euler.LemmasFlux
import Verif.Euler.LemmasWall
import Verif.Euler.Props
import Verif.Euler.SourceModel
import Verif.Euler.SourceProps
import Verif.Bloch.Model
import Verif.Bloch.Spec
import Verif.Bloch.Lemmas
import Verif.Bloch.Props
import Verif.Bloch.ProjectorModel
import Verif.Bloch.ProjectorProps
import Verif.PhysFace.Model
import Verif.PhysFace.Spec
import Verif.PhysFace.Lemmas
import Verif.PhysFace.LemmasTrace
import Verif.PhysFace.LemmasGet
import Verif.PhysFace.LemmasSet
import Verif.PhysFace.LemmasFin
import Verif.PhysFace.LemmasAll
import Verif.PhysFace.LemmasStep
import Verif.PhysFace.Props
import Verif.FaceInt.Spec
import Verif.FaceInt.Model
import Verif.FaceInt.Lemmas
import Verif.FaceInt.LemmasJobs
import Verif.FaceInt.Props
import Verif.Refine.Model
import Verif.Refine.Spec
import Verif.Refine.Jacobian
import Verif.Refine.Place
import Verif.Refine.Follow
import Verif.Refine.TileAffine
import Verif.Refine.TileCurved
import Verif.Refine.Tables
import Verif.Refine.FaceMaps
import Verif.Refine.FacesFit
import Verif.Refine.FacesWrong
import Verif.Refine.Verdicts
import Verif.Refine.Props
import Verif.Refine.Mesh
import Verif.Refine.MeshSpec
import Verif.Refine.MeshLemmas
import Verif.Refine.MeshProps
import Verif.Assign.Model
import Verif.Assign.Spec
import Verif.Assign.Lemmas
import Verif.Assign.Lemmas2
import Verif.Assign.Lemmas3
import Verif.Assign.Lemmas4
import Verif.Assign.Lemmas5
import Verif.Assign.LemmasTrace
import Verif.Assign.Props
import Verif.Parallel.Model
import Verif.Parallel.Spec
import Verif.Parallel.Lemmas
import Verif.Parallel.Props
import Verif.Parallel.PropsMesh
import Verif.Projection.Model
import Verif.Projection.Spec
import Verif.Projection.Lemmas
import Verif.Projection.Props
import Verif.MaxTime.Model
import Verif.MaxTime.Spec
import Verif.MaxTime.LemmasOrder
import Verif.MaxTime.Lemmas
import Verif.MaxTime.Props
import Verif.Harmonic.Model
import Verif.Harmonic.Spec
import Verif.Harmonic.Lemmas
import Verif.Harmonic.Props
import Verif.MaxLocal.Model
import Verif.MaxLocal.Spec
import Verif.MaxLocal.Lemmas
import Verif.MaxLocal.Props
import Verif.MaxLocal.PropsMatrix
import Verif.MaxLocal.ModelUse
import Verif.MaxLocal.PropsUse
import Verif.MaxLocal.Examples
import Verif.Pml.Model
import Verif.Pml.Spec
import Verif.Pml.Lemmas
import Verif.Pml.Props
import Verif.Facets.Model
import Verif.Facets.Spec
import Verif.Facets.Lemmas
import Verif.Facets.LemmasOrder
import Verif.Facets.LemmasSum
import Verif.Facets.Props
import Verif.Fields.Model
import Verif.Fields.Spec
import Verif.Fields.Lemmas
import Verif.Fields.LemmasInterface
import Verif.Fields.Props
import Verif.Fields.ModelSamples
import Verif.Fields.PropsSamples
import Verif.Fields.ModelTrench
import Verif.Fields.LemmasTrench
import Verif.Fields.PropsTrench
import Verif.DivLocal.Model
import Verif.DivLocal.ModelBrezzi
import Verif.DivLocal.Spec
import Verif.DivLocal.Lemmas
import Verif.DivLocal.LemmasLift
import Verif.DivLocal.Props
import Verif.DivLocal.PropsConsistent
import Verif.DivLocal.PropsMatrix
import Verif.DivLocal.PropsDefects
import Verif.VtkFile.Model
import Verif.VtkFile.Spec
import Verif.VtkFile.Lemmas
import Verif.VtkFile.LemmasData
import Verif.VtkFile.Props
import Verif.VtkFile.PropsSeries
import Verif.Tecplot.Model
import Verif.Tecplot.Props
import Verif.Bands.Model
import Verif.Bands.Spec
import Verif.Bands.Lemmas
import Verif.Bands.LemmasSpectrum
import Verif.Bands.LemmasGroup
import Verif.Bands.LemmasLines
import Verif.Bands.Props
import Verif.Bands.PropsLines
import Verif.Bands.BraggModel
import Verif.Bands.BraggSpec
import Verif.Bands.PropsBragg
import Verif.Bands.LemmasRoots
import Verif.Bands.PropsRoots
import Verif.Bands.PropsModes
import Verif.CurlBasis.Model
import Verif.CurlBasis.Spec
import Verif.CurlBasis.LemmasCurl
import Verif.CurlBasis.LemmasNedelec
import Verif.CurlBasis.LemmasNedelecInd
import Verif.CurlBasis.LemmasSpan
import Verif.CurlBasis.LemmasAinsworth
import Verif.CurlBasis.LemmasStage1
import Verif.CurlBasis.LemmasStage2
import Verif.CurlBasis.LemmasStage3
import Verif.CurlBasis.LemmasAinsworthSpan
import Verif.CurlBasis.LemmasTrace
import Verif.CurlBasis.Props
import Verif.Limiters.Model
import Verif.Limiters.Spec
import Verif.Limiters.Lemmas
import Verif.Limiters.LemmasTvb
import Verif.Limiters.LemmasLoop
import Verif.Limiters.Props
import Verif.NavierStokes.Model
import Verif.NavierStokes.Spec
import Verif.NavierStokes.Lemmas
import Verif.NavierStokes.LemmasFlux
import Verif.NavierStokes.Props
import Verif.NavierStokes.PropsFace
import Verif.NavierStokes.Source
import Verif.NavierStokes.PropsSource
import Verif.Acoustic.Model
import Verif.Acoustic.Spec
import Verif.Acoustic.Lemmas
import Verif.Acoustic.Props
import Verif.DgMesh.Model
import Verif.DgMesh.Lemmas
import Verif.Advection.Model
import Verif.Advection.Spec
import Verif.Advection.Lemmas
import Verif.Advection.Props
import Verif.Poisson.Model
import Verif.Poisson.Spec
import Verif.Poisson.Lemmas
import Verif.Poisson.Props
import Verif.WaterWave.Model
import Verif.WaterWave.Spec
import Verif.WaterWave.Props
import Verif.Logging.Model
import Verif.Logging.Spec
import Verif.Logging.Props
import Verif.Structure.Model
import Verif.Structure.Spec
import Verif.Structure.Props
import Verif.MeshMove.Model
import Verif.MeshMove.Spec
import Verif.MeshMove.Props
import Verif.Granular.Model
import Verif.Granular.Spec
import Verif.Granular.Lemmas
import Verif.Granular.Props
import Verif.EVCompare.Model
import Verif.EVCompare.Props
import Verif.StructMesh.Model
import Verif.StructMesh.Spec
import Verif.StructMesh.Lemmas
import Verif.StructMesh.LemmasCorner
import Verif.StructMesh.LemmasElement
import Verif.StructMesh.Props
import Verif.MeshFile.Reread
import Verif.StructMesh.PropsDisjoint
import Verif.FortranFile.Model
import Verif.FortranFile.Spec
import Verif.FortranFile.Props
import Verif.Centaur.Model
import Verif.Centaur.Spec
import Verif.Centaur.Lemmas
import Verif.Centaur.Groups
import Verif.Centaur.Props
import Verif.Gmsh.Model
import Verif.Gmsh.Spec
import Verif.Gmsh.Props
import Verif.HEuler.Model
import Verif.HEuler.Spec
import Verif.HEuler.Lemmas
import Verif.HEuler.Props
import Verif.HEulerExact.Model
import Verif.HEulerExact.Spec
import Verif.HEulerExact.Props
import Verif.ExtractSurface.Model
import Verif.ExtractSurface.Spec
import Verif.ExtractSurface.Lemmas
import Verif.ExtractSurface.Props
import Verif.EigenProgram.Model
import Verif.EigenProgram.Spec
import Verif.EigenProgram.Props
import Verif.OldNavierStokes.Model
import Verif.OldNavierStokes.Spec
import Verif.OldNavierStokes.Props
import Verif.OldViscous.Model
import Verif.OldViscous.Spec
import Verif.OldViscous.Lemmas
import Verif.OldViscous.Props
import Verif.CouettePlate.Model
import Verif.CouettePlate.Props
import Verif.OldViscous.Face
import Verif.OldViscous.FaceProps
import Verif.NSSource.Model
import Verif.NSSource.Props
import Verif.OldViscous.Viscosity
import Verif.OldViscous.ViscosityProps
