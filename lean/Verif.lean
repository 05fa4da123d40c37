import Verif.Affine.Lemmas
import Verif.Affine.Model
import Verif.Affine.Props
import Verif.Balance.AffineProps
import Verif.Balance.GlobalProps
import Verif.Balance.Lemmas
import Verif.Balance.MeshProps
import Verif.Balance.Model
import Verif.Balance.Props
import Verif.Balance.SimplexBalanceProps
import Verif.Balance.SimplexMeshProps
import Verif.Balance.TetrahedronProps
import Verif.Buffer.Geometry
import Verif.Buffer.Info
import Verif.Buffer.Lemmas
import Verif.Buffer.Model
import Verif.Buffer.Numbering
import Verif.Buffer.Props
import Verif.Check.CubeModel
import Verif.Check.CubeProps
import Verif.Check.Model
import Verif.Check.Props
import Verif.Check.Spec
import Verif.Compare.CounterProps
import Verif.Compare.Lemmas
import Verif.Compare.LocalDerivative
import Verif.Compare.Model
import Verif.Compare.Props
import Verif.Compare.Spec
import Verif.Cube.Lemmas
import Verif.Cube.Model
import Verif.Cube.Props
import Verif.Factory.Lemmas
import Verif.Factory.Model
import Verif.Factory.Props
import Verif.Float.BoxProps
import Verif.Float.Compute
import Verif.Float.EmbedExact
import Verif.Float.EmbedGlobal
import Verif.Float.EmbedLemmas
import Verif.Float.EmbedModel
import Verif.Float.EmbedProps
import Verif.Float.Format
import Verif.Float.GaussError
import Verif.Float.GaussModel
import Verif.Float.GaussP1
import Verif.Float.GaussProps
import Verif.Float.Global
import Verif.Float.GlobalProps
import Verif.Float.Inside
import Verif.Float.InsideProps
import Verif.Float.InverseBound
import Verif.Float.InverseGeometry
import Verif.Float.InverseLocal
import Verif.Float.InverseMatrix
import Verif.Float.InversePlane
import Verif.Float.InverseProps
import Verif.Float.InverseResidual
import Verif.Float.InverseSpec
import Verif.Float.Model
import Verif.Float.Near
import Verif.Float.NewtonCycle
import Verif.Float.NewtonError
import Verif.Float.NewtonEval
import Verif.Float.NewtonLoop
import Verif.Float.NewtonModel
import Verif.Float.NewtonProps
import Verif.Float.NewtonQuad
import Verif.Float.NewtonSolve
import Verif.Float.Position
import Verif.Float.PrismProps
import Verif.Float.PyramidProps
import Verif.Float.QuadConvert
import Verif.Float.QuadError
import Verif.Float.QuadInside
import Verif.Float.QuadModel
import Verif.Float.QuadProps
import Verif.Float.QuadRel
import Verif.Float.QuadWeights
import Verif.Float.RefineChain
import Verif.Float.RefineInside
import Verif.Float.RefineLemmas
import Verif.Float.RefineModel
import Verif.Float.RefineProps
import Verif.Float.RefineTriang
import Verif.Float.TetrahedronProps
import Verif.Float.TriangleProps
import Verif.Float.VolumeAffine
import Verif.Float.VolumeCholesky
import Verif.Float.VolumeDet
import Verif.Float.VolumeEntries
import Verif.Float.VolumeFactor
import Verif.Float.VolumeLemmas
import Verif.Float.VolumeModel
import Verif.Float.VolumeProps
import Verif.Flux.CubeProps
import Verif.Flux.Model
import Verif.Flux.NodesLemmas
import Verif.Flux.NodesProps
import Verif.Flux.Props
import Verif.GaussNewton.Model
import Verif.GaussNewton.Props
import Verif.Hull.CornerLemmas
import Verif.Hull.CornerProps
import Verif.Hull.CubeLemmas
import Verif.Hull.Lemmas
import Verif.Hull.Props
import Verif.Image.Integral
import Verif.Image.Lemmas
import Verif.Image.Model
import Verif.Image.Props
import Verif.Image.VolumeProps
import Verif.Lfe.Model
import Verif.Lfe.Props
import Verif.Locate.Lemmas
import Verif.Locate.Props
import Verif.Mapped.CopyModel
import Verif.Mapped.CopyProps
import Verif.Mapped.Model
import Verif.Mapped.Props
import Verif.Mapped.VolumeProps
import Verif.MatHelp.Inverse
import Verif.MatHelp.Lemmas
import Verif.MatHelp.Model
import Verif.MatHelp.Props
import Verif.MatHelp.Spec
import Verif.Motion.Lemmas
import Verif.Motion.Props
import Verif.Motion.Spec
import Verif.MultiLinear.AffineLemmas
import Verif.MultiLinear.CachedProps
import Verif.MultiLinear.Deriv
import Verif.MultiLinear.FaceLemmas
import Verif.MultiLinear.Lemmas
import Verif.MultiLinear.Model
import Verif.MultiLinear.NewtonProps
import Verif.MultiLinear.Props
import Verif.MultiLinear.Spec
import Verif.MultiLinear.StorageModel
import Verif.MultiLinear.StorageProps
import Verif.Neighbour.Lemmas
import Verif.Neighbour.Props
import Verif.Neighbour.Spec
import Verif.Normal.Lemmas
import Verif.Normal.Props
import Verif.Numbering.Closed
import Verif.Numbering.Lemmas
import Verif.Numbering.Props
import Verif.Patch.Model
import Verif.Patch.Props
import Verif.Piola.DivergenceProps
import Verif.Piola.Props
import Verif.Python.BelowProps
import Verif.Python.Lemmas
import Verif.Python.Model
import Verif.Python.Props
import Verif.Python.QuadpyModel
import Verif.Python.QuadpyProps
import Verif.Python.WrapperProps
import Verif.Python.Wrappers
import Verif.Quad.Cache
import Verif.Quad.CacheLemmas
import Verif.Quad.CacheProps
import Verif.Quad.Check
import Verif.Quad.Composite
import Verif.Quad.CompositeLemmas
import Verif.Quad.CompositeProps
import Verif.Quad.ConicalSymmetricProps
import Verif.Quad.CubeRule
import Verif.Quad.CubeSymmetric
import Verif.Quad.Deliver
import Verif.Quad.DiscreteDivergence
import Verif.Quad.DiscreteDivergenceProps
import Verif.Quad.Divergence
import Verif.Quad.DivergenceProps
import Verif.Quad.ErrorLemmas
import Verif.Quad.ErrorProps
import Verif.Quad.FacetNodes
import Verif.Quad.FacetNodesProps
import Verif.Quad.GolubWelsch
import Verif.Quad.Image
import Verif.Quad.ImageProps
import Verif.Quad.Integral
import Verif.Quad.InverseProps
import Verif.Quad.Iterated
import Verif.Quad.Lapack
import Verif.Quad.LapackProps
import Verif.Quad.Lit
import Verif.Quad.MapPoly
import Verif.Quad.MappedRuleProps
import Verif.Quad.MassForms
import Verif.Quad.MassLemmas
import Verif.Quad.MassModel
import Verif.Quad.MassProps
import Verif.Quad.MassRules
import Verif.Quad.MassTab
import Verif.Quad.Model
import Verif.Quad.Nodal
import Verif.Quad.NodalProps
import Verif.Quad.Nodes
import Verif.Quad.NodesProps
import Verif.Quad.NodesTab
import Verif.Quad.Optimal
import Verif.Quad.OrthoPoly
import Verif.Quad.OverloadProps
import Verif.Quad.Piola
import Verif.Quad.Poly
import Verif.Quad.PrismSymmetric
import Verif.Quad.PrismSymmetricProps
import Verif.Quad.Product
import Verif.Quad.Props
import Verif.Quad.PyramidSymmetricProps
import Verif.Quad.RadauSymmetricProps
import Verif.Quad.Recursion
import Verif.Quad.Rules
import Verif.Quad.SimplexSymmetric
import Verif.Quad.Symmetric
import Verif.Quad.SymmetricProps
import Verif.Quad.TabGauss
import Verif.Quad.TabJacobi1
import Verif.Quad.TabJacobi2
import Verif.Quad.TabLobatto
import Verif.Quad.TabPrism3
import Verif.Quad.TabRadauLeft
import Verif.Quad.TabRadauRight
import Verif.Quad.TabSimplex2
import Verif.Quad.TabSimplex3
import Verif.Quad.Tables
import Verif.Quad.Threads
import Verif.Quad.ThreadsLemmas
import Verif.Quad.ThreadsProps
import Verif.Quad.ThreadsSteps
import Verif.Quad.Tiling
import Verif.Quad.VolumeProps
import Verif.RefElem.Model
import Verif.RefElem.Props
import Verif.RefGeom.LatticeProps
import Verif.RefGeom.Lemmas
import Verif.RefGeom.Model
import Verif.RefGeom.Normals
import Verif.RefGeom.Props
import Verif.RefGeom.Spec
import Verif.RefGeom.Strata
import Verif.RefGeom.StrataProps
import Verif.RefGeom.Volume
import Verif.RefTopo.Counts
import Verif.RefTopo.Face
import Verif.RefTopo.FaceOrder
import Verif.RefTopo.Info
import Verif.RefTopo.Lattice
import Verif.RefTopo.Lemmas
import Verif.RefTopo.Model
import Verif.RefTopo.Props
import Verif.Refine.ConformLemmas
import Verif.Refine.ConformMacro
import Verif.Refine.ConformPiece
import Verif.Refine.ConformProps
import Verif.Refine.ElementLemmas
import Verif.Refine.ElementProps
import Verif.Refine.GlueFace
import Verif.Refine.GlueLemmas
import Verif.Refine.GlueProps
import Verif.Refine.HCubeModel
import Verif.Refine.HCubeProps
import Verif.Refine.IntLemmas
import Verif.Refine.IntModel
import Verif.Refine.IntProps
import Verif.Refine.IntervalProps
import Verif.Refine.MapLemmas
import Verif.Refine.MapProps
import Verif.Refine.MeshLemmas
import Verif.Refine.MeshModel
import Verif.Refine.MeshProps
import Verif.Refine.Model
import Verif.Refine.NestLemmas
import Verif.Refine.NestProps
import Verif.Refine.Perm
import Verif.Refine.PointProps
import Verif.Refine.ShapeLemmas
import Verif.Refine.ShapeProps
import Verif.Refine.TileProps
import Verif.Refine.TriangLemmas
import Verif.Refine.TriangModel
import Verif.Refine.TriangProps
import Verif.Refine.VertexLemmas
import Verif.Refine.VertexProps
import Verif.Refine.VirtualModel
import Verif.Refine.VirtualProps
import Verif.Thread.Cached
import Verif.Thread.CachedProps
import Verif.Thread.Lemmas
import Verif.Thread.Lfe
import Verif.Thread.Model
import Verif.Tip.Lemmas
import Verif.Tip.Props
import Verif.Trace.Lemmas
import Verif.Trace.Props
import Verif.Type.DefaultProps
import Verif.Type.Lemmas
import Verif.Type.Model
import Verif.Type.Props
import Verif.VertexOrder.Chart
import Verif.VertexOrder.Lemmas
import Verif.VertexOrder.Model
import Verif.VertexOrder.NeighbourProps
import Verif.VertexOrder.Props
