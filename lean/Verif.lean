import Verif.Model.Basic
import Verif.Model.DOFs
import Verif.Spec.DOFs
import Verif.Props.DOFs
import Verif.Model.Assembler
import Verif.Spec.Assembler
import Verif.Props.Assembler
import Verif.Model.Monomials
import Verif.Spec.Monomials
import Verif.Props.Monomials
import Verif.Model.GBasis
import Verif.Props.GBasis
import Verif.Model.Lagrange
import Verif.Props.Lagrange
import Verif.Model.Fem1D
import Verif.Props.Fem1D
import Verif.Model.FemTriangle
import Verif.Props.FemTriangle
import Verif.Spec.Calculus2
import Verif.Props.FemTriangleSpace
import Verif.Model.FemQuad
import Verif.Spec.Geometry
import Verif.Props.FemQuad
import Verif.Props.Trace
import Verif.Props.FemTet
import Verif.Model.FemTetSpace
import Verif.Spec.TetMesh
import Verif.Lemmas.FemTetSpace
import Verif.Lemmas.FemTetFaces
import Verif.Lemmas.FemTetTrace
import Verif.Props.FemTetSpace
import Verif.Model.FemHexa
import Verif.Spec.Cube
import Verif.Spec.HexMesh
import Verif.Lemmas.FemHexa
import Verif.Lemmas.FemHexaSpace
import Verif.Lemmas.FemHexaTrace
import Verif.Lemmas.FemHexaFace
import Verif.Props.FemHexa
import Verif.Props.FemHexaSpace
import Verif.Props.FemHexaFace
import Verif.Model.Quadrature
import Verif.Spec.Quadrature
import Verif.Spec.PolyMesh
import Verif.Lemmas.Quadrature
import Verif.Lemmas.Exactness
import Verif.Props.Quadrature
import Verif.Props.QuadratureExact
import Verif.Model.Mat
import Verif.Model.VemPcc2D
import Verif.Spec.Vem
import Verif.Spec.VemElement
import Verif.Lemmas.Mat
import Verif.Lemmas.Gauss
import Verif.Lemmas.VemMono
import Verif.Lemmas.Vem
import Verif.Lemmas.VemProj
import Verif.Lemmas.VemAlg
import Verif.Lemmas.VemSpace
import Verif.Lemmas.VemDof
import Verif.Lemmas.VemExample
import Verif.Props.VemStab
import Verif.Props.Vem
import Verif.Model.VemEval2D
import Verif.Lemmas.VemEval
import Verif.Props.VemEval
import Verif.Model.Elliptic
import Verif.Lemmas.Elliptic
import Verif.Props.Elliptic
import Verif.Model.Inertia
import Verif.Spec.Inertia
import Verif.Lemmas.Inertia
import Verif.Props.Inertia
import Verif.Model.RT2D
import Verif.Spec.RT
import Verif.Lemmas.RTPoly
import Verif.Lemmas.RT2D
import Verif.Lemmas.RTSystem
import Verif.Lemmas.RTField
import Verif.Lemmas.RTDofs
import Verif.Lemmas.RTBasis
import Verif.Lemmas.RTMap
import Verif.Lemmas.RTSpace
import Verif.Props.RT2D
import Verif.Model.AssemblerPcc2D
import Verif.Spec.AssemblerPcc2D
import Verif.Lemmas.AssemblerPcc2D
import Verif.Props.AssemblerPcc2D
import Verif.Props.AssemblerVem2D
import Verif.Props.NavierStokes2D
import Verif.Props.ErrorNorms2D
import Verif.Model.AssemblerGlobal2D
import Verif.Spec.PlaneMesh
import Verif.Lemmas.PatchLocal
import Verif.Lemmas.PlaneDofs
import Verif.Lemmas.PlaneEval
import Verif.Lemmas.PlaneCells
import Verif.Lemmas.PlaneExample
import Verif.Lemmas.PlaneWeak
import Verif.Lemmas.PatchGlobal
import Verif.Lemmas.PlaneEnergy
import Verif.Props.PlaneMesh2D
import Verif.Props.PatchTest2D
import Verif.Props.Solvability2D
import Verif.Model.VemMcc2D
import Verif.Spec.VemMcc
import Verif.Lemmas.VemMccFields
import Verif.Lemmas.VemMccInit
import Verif.Lemmas.VemMccSpace
import Verif.Lemmas.VemMccProj
import Verif.Lemmas.VemMccValues
import Verif.Lemmas.VemMccExample
import Verif.Props.VemMcc
import Verif.Model.AssemblerMcc2D
import Verif.Spec.MixedMesh
import Verif.Lemmas.FieldDofs
import Verif.Lemmas.FieldPair
import Verif.Lemmas.MixedLocal
import Verif.Lemmas.MixedCell
import Verif.Lemmas.MixedEdges
import Verif.Lemmas.MixedGlobal
import Verif.Lemmas.MixedPatch
import Verif.Lemmas.MixedUnique
import Verif.Props.AssemblerMcc2D
import Verif.Model.VemDf2D
import Verif.Spec.VemDf
import Verif.Lemmas.VemDfInit
import Verif.Lemmas.VemDfEdge
import Verif.Lemmas.VemDfMat
import Verif.Lemmas.VemDfAct
import Verif.Lemmas.VemDfProj
import Verif.Lemmas.VemDfSpace
import Verif.Lemmas.VemDfPoly
import Verif.Lemmas.VemDfExample
import Verif.Lemmas.VemDfEval
import Verif.Props.VemDf
import Verif.Props.VemDfEval
import Verif.Spec.DfMesh
import Verif.Lemmas.VemDfRealize
import Verif.Props.VemDfUnisolvence
import Verif.Model.AssemblerDf2D
import Verif.Lemmas.FieldQuad
import Verif.Lemmas.BrinkmanLocal
import Verif.Lemmas.BrinkmanCell
import Verif.Lemmas.BrinkmanEdges
import Verif.Lemmas.BrinkmanRefs
import Verif.Lemmas.BrinkmanGlobal
import Verif.Lemmas.BrinkmanFlow
import Verif.Lemmas.BrinkmanExample
import Verif.Props.AssemblerDf2D
import Verif.Lemmas.BrinkmanPatchCell
import Verif.Lemmas.BrinkmanTest
import Verif.Lemmas.BrinkmanPatch
import Verif.Lemmas.BrinkmanFlowExample
import Verif.Spec.DfFlow
import Verif.Props.AssemblerDfFlow
import Verif.Lemmas.BrinkmanUnique
import Verif.Props.AssemblerDfUnique
import Verif.Model.Zfem2D
import Verif.Spec.Zfem
import Verif.Lemmas.ZfemMaps
import Verif.Props.Zfem
import Verif.Spec.ZfemFan
import Verif.Lemmas.ZfemFan
import Verif.Lemmas.ZfemTriPoly
import Verif.Lemmas.ZfemValues
import Verif.Lemmas.ZfemSpace
import Verif.Lemmas.ZfemElement
import Verif.Lemmas.ZfemShape
import Verif.Lemmas.ZfemUnisolvent
import Verif.Lemmas.ZfemExample
import Verif.Props.ZfemElement
import Verif.Model.AssemblerElliptic2D
import Verif.Spec.Supg
import Verif.Lemmas.EllipticLocal
import Verif.Lemmas.ZfemEnergy
import Verif.Lemmas.EllipticGlobal
import Verif.Props.AssemblerElliptic2D
import Verif.Props.EllipticPatch2D
import Verif.Props.ZfemEnergy
import Verif.Model.VemOrtho2D
import Verif.Spec.VemOrtho
import Verif.Lemmas.OrthoQR
import Verif.Lemmas.OrthoPoly
import Verif.Lemmas.OrthoProj
import Verif.Lemmas.OrthoSpace
import Verif.Lemmas.OrthoExample
import Verif.Props.VemOrtho
import Verif.Props.VemOrthoEval
import Verif.Model.VemPerformance
import Verif.Spec.VemPerformance
import Verif.Lemmas.VemPerformance
import Verif.Props.VemPerformance
import Verif.Model.ZfemPerformance
import Verif.Props.ZfemPerformance
import Verif.Model.AssemblerElliptic1D
import Verif.Spec.LineMesh
import Verif.Lemmas.AnyDofs
import Verif.Lemmas.Line
import Verif.Lemmas.LineLocal
import Verif.Lemmas.LineGlobal
import Verif.Lemmas.LinePatch
import Verif.Lemmas.LineErrors
import Verif.Props.Elliptic1D
import Verif.Model.AssemblerParabolic2D
import Verif.Spec.Parabolic
import Verif.Lemmas.ParabolicLocal
import Verif.Lemmas.ParabolicGlobal
import Verif.Lemmas.ParabolicTime
import Verif.Props.Parabolic2D
import Verif.Props.ParabolicSteps2D
import Verif.Model.AssemblerElastic2D
import Verif.Lemmas.ElasticLocal
import Verif.Spec.Elastic
import Verif.Lemmas.ElasticCell
import Verif.Props.Elastic2D
import Verif.Spec.TestData
import Verif.Model.TestDataElastic
import Verif.Model.TestDataPlane
import Verif.Lemmas.TestData
import Verif.Props.TestDataElastic
import Verif.Props.TestDataPlane
import Verif.Model.TestDataFlow
import Verif.Props.TestDataFlow
import Verif.Spec.TestDataSpace
import Verif.Model.TestDataSpace
import Verif.Props.TestDataSpace
import Verif.Lemmas.ElasticPatch
import Verif.Lemmas.ElasticGlobal
import Verif.Props.ElasticPatch2D
import Verif.Spec.Held
import Verif.Props.ElasticSolve2D
import Verif.Model.ElasticPost
import Verif.Lemmas.ElasticPost
import Verif.Props.ElasticPost2D
import Verif.Model.SparseData
import Verif.Spec.SparseData
import Verif.Props.SparseData
import Verif.Model.NonlinearPcc2D
import Verif.Spec.NonlinearPcc2D
import Verif.Props.NonlinearPcc2D
import Verif.Model.TestDataBulk
import Verif.Spec.TestDataBulk
import Verif.Props.TestDataBulk
import Verif.Model.AssemblerBulk2D
import Verif.Spec.BulkSurface
import Verif.Props.BulkSurface
import Verif.Model.BulkTime
import Verif.Spec.BulkTime
import Verif.Props.BulkTime
import Verif.Model.NavierStokesDf2D
import Verif.Spec.NavierStokesDf
import Verif.Props.NavierStokesDf2D
import Verif.Model.NavierStokesLoop
import Verif.Spec.NavierStokesLoop
import Verif.Props.NavierStokesLoop
import Verif.Model.NavierStokesAssembly
import Verif.Spec.NavierStokesAssembly
import Verif.Props.NavierStokesAssembly
import Verif.Props.NavierStokesEnergy
import Verif.Model.FlowPost
import Verif.Spec.FlowPost
import Verif.Props.FlowPost
import Verif.Model.BrinkmanPost
import Verif.Props.BrinkmanPost
import Verif.Model.BrinkmanFlux
import Verif.Spec.BrinkmanFlux
import Verif.Props.BrinkmanFlux
