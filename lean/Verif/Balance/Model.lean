import Verif.Flux.CubeProps

/-!
Model of the loops of a finite volume code over all facets of all elements, and over all elements, of a mesh.  The functions in the body are the models of the
other parts; `none`: there is no rule, or a geometry has no inverse at a point.
-/

namespace Verif.Balance

open Verif.Typ Verif.RefTopo Verif.RefGeom Verif.MatHelp Verif.MultiLinear Verif.Flux
open Verif.Quad hiding jac

/-- the flux of the field `F` through facet `i` of an element: a loop over
`QuadratureRules<ctype,dim-1>::rule(refElement.type(i,1), p, qt)` (quadraturerules.hh:274-329) with the geometry of the element and the
normal `refElement.integrationOuterNormal(i)` (referenceelementimplementation.hh:564-568) -/
noncomputable def facetFlux (env : Env ℝ) (d p : Nat) (qt : QType) (F : Vec ℝ → Vec ℝ) (g : MultiLinearGeometry) (i : Nat) : Option ℝ :=
  match rule env (d - 1) (refType d g.id i 1) p qt with
  | .ok r => quadrature (fluxDensity d g ((referenceIntegrationOuterNormals (K := ℝ) d d g.id).getD i fun _ => 0)
      ((referenceEmbeddings (K := ℝ) d g.id 1).getD i (fun _ => 0, fun _ _ => 0)) F) r.pts
  | _ => none

/-- `for (element : mesh) for (i = 0; i < refElement.size(1); ++i) sum += facetFlux(element, i);` -/
noncomputable def meshFlux (env : Env ℝ) (d p : Nat) (qt : QType) (F : Vec ℝ → Vec ℝ) (gs : List MultiLinearGeometry) : Option ℝ :=
  gs.foldlM (fun sum g => (List.range (refSize d g.id 1)).foldlM
    (fun sum i => (facetFlux env d p qt F g i).map fun v => sum + v) sum) 0

/-- the integral of a function over an element: a loop over `QuadratureRules<ctype,dim>::rule(geometry.type(), p, qt)`
(quadraturerules.hh:274-329) with `geometry.integrationElement` (multilineargeometry.hh:336-341) -/
noncomputable def elementIntegral (env : Env ℝ) (d p : Nat) (qt : QType) (f : Vec ℝ → ℝ) (g : MultiLinearGeometry) : Option ℝ :=
  match rule env d ⟨d, false, g.id⟩ p qt with
  | .ok r => quadrature (surfaceDensity g f) r.pts
  | _ => none

/-- `for (element : mesh) sum += elementIntegral(element);` -/
noncomputable def meshIntegral (env : Env ℝ) (d p : Nat) (qt : QType) (f : Vec ℝ → ℝ) (gs : List MultiLinearGeometry) : Option ℝ :=
  gs.foldlM (fun sum g => (elementIntegral env d p qt f g).map fun v => sum + v) 0

end Verif.Balance
