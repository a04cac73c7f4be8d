import Verif.Model.ScalarFE
import Verif.Model.FeTools

/-!
# Model: reference finite elements, product spaces and their factory of `projects/dpg`

Null pointers are `none`, as are failed assertions.  The four vectors of reference finite elements of a product space,
one per type of entity, always have the same length and are modelled by one list.
-/

namespace Verif.Dpg
open Verif

variable {K : Type} [Field K]

/-- `FeDiscontinuousO0Tria`, `FeDiscontinuousO0Quad`, `FeDiscontinuousO0Segment`;
/repo/projects/dpg/discontinuous_fe_constant.h:33-112, 125-202, 214-294.  `center` is the only evaluation node. -/
def constFE (ref : RefEl) (center : List K) : RefFE K where
  ref := ref
  degree := 0
  num := 1
  numCodim codim := if codim ≤ 2 then some (if codim = 0 then 1 else 0) else none
  numSub codim _ := if codim ≤ 2 then some (if codim = 0 then 1 else 0) else none
  eval x := if x.length = ref.dimension then some [1] else none
  grad x := if x.length = ref.dimension then some [List.replicate ref.dimension 0] else none
  nodes := [center]
  toDofs := RefFE.nodalValuesToDofs 1

/-- `DiscontinuousScalarReferenceFiniteElement`, a decorator which makes all shape functions interior;
/repo/projects/dpg/discontinuous_scalar_reference_finite_element.h:42-134. -/
def discontinuousFE (cfe : RefFE K) : RefFE K :=
  { cfe with
    numCodim := fun codim => some (if codim = 0 then cfe.num else 0)
    numSub := fun codim _ => some (if codim = 0 then cfe.num else 0) }

/-- `TraceScalarReferenceFiniteElement`, a decorator which drops interior shape functions, as those that come last;
/repo/projects/dpg/trace_scalar_reference_finite_element.h:42-147.  `num0` is `cfe_->NumRefShapeFunctions(0)`.
`NumEvaluationNodes()` and the number of columns of `EvaluationNodes()` are computed in different ways:
`NodalValuesToDofs` (lines 123-140) uses the former. -/
def traceFE (cfe : RefFE K) : Option (RefFE K) :=
  (cfe.numCodim 0).map fun num0 =>
  { cfe with
    num := cfe.num - num0
    numCodim := fun codim => if codim = 0 then some 0 else cfe.numCodim codim
    numSub := fun codim subidx => if codim = 0 then some 0 else cfe.numSub codim subidx
    eval := fun x => (cfe.eval x).map (·.take (cfe.num - num0))
    grad := fun x => (cfe.grad x).map (·.take (cfe.num - num0))
    nodes := cfe.nodes.take (cfe.num - num0)
    toDofs := fun nodvals =>
      if nodvals.length = cfe.numNodes - num0 then
        (cfe.toDofs (nodvals ++ List.replicate (cfe.numNodes - nodvals.length) 0)).map (·.take (cfe.num - num0))
      else none }

/-- `ProductUniformFESpaceFactory::ReferenceFiniteElement`;
/repo/projects/dpg/product_fe_space_factory.h:156-217. -/
def referenceFE (ref : RefEl) (degree : ℕ) : Option (RefFE K) :=
  match ref, degree with
  | .tria, 0 => some (constFE .tria [1 / 3, 1 / 3])
  | .tria, 1 => some lagrO1Tria
  | .tria, 2 => some lagrO2Tria
  | .tria, 3 => some lagrO3Tria
  | .quad, 0 => some (constFE .quad [1 / 2, 1 / 2])
  | .quad, 1 => some lagrO1Quad
  | .quad, 2 => some lagrO2Quad
  | .quad, 3 => some lagrO3Quad
  | .segment, 0 => some (constFE .segment [1 / 2])
  | .segment, 1 => some lagrO1Segment
  | .segment, 2 => some lagrO2Segment
  | .segment, 3 => some lagrO3Segment
  | .point, p => some (fePoint p)
  | _, _ => none

/-- The reference finite elements of one component: an entry of each of the vectors `rfs_tria_v_`, `rfs_quad_v_`,
`rfs_edge_v_` and `rfs_point_v_`; /repo/projects/dpg/product_fe_space.h:178-191. -/
structure CompSpec (K : Type) where
  tria : Option (RefFE K)
  quad : Option (RefFE K)
  edge : Option (RefFE K)
  point : Option (RefFE K)

/-- The assertion on the type of a reference finite element, and that the numbers of shape functions asked for exist. -/
def probeRef (fe : Option (RefFE K)) (ref : RefEl) : Bool :=
  match fe with
  | none => true
  | some f => decide (f.ref = ref)

/-- The checks of `init` for one component and the numbers of shape functions it computes;
/repo/projects/dpg/product_fe_space.h:236-338.  As for `UniformFESpace.make`, the checks are done together. -/
def CompSpec.layout (c : CompSpec K) : Option UniformLayout :=
  if probeRef c.tria .tria && probeRef c.quad .quad && probeRef c.edge .segment &&
      UniformFESpace.agree c.tria c.quad 2 2 && UniformFESpace.agree c.tria c.quad 1 1 &&
      UniformFESpace.agree c.tria c.edge 2 1 && UniformFESpace.agree c.tria c.edge 1 0 &&
      UniformFESpace.agree c.quad c.edge 2 1 && UniformFESpace.agree c.quad c.edge 1 0 then
    some ⟨UniformFESpace.pick [(c.tria, 2), (c.quad, 2), (c.edge, 1)],
      UniformFESpace.pick [(c.tria, 1), (c.quad, 1), (c.edge, 0)],
      UniformFESpace.pick [(c.tria, 0)], UniformFESpace.pick [(c.quad, 0)]⟩
  else none

/-- `ProductUniformFESpace`; /repo/projects/dpg/product_fe_space.h:174-205. -/
structure ProductSpace (K : Type) where
  mesh : Topo
  comps : List (CompSpec K)
  data : ProductFE.Data

/-- Constructor and `init`; /repo/projects/dpg/product_fe_space.h:76-96 and 208-345. -/
def ProductSpace.make (T : Topo) (comps : List (CompSpec K)) : Option (ProductSpace K) :=
  if comps.length = 0 then none else
  (comps.mapM CompSpec.layout).bind fun ls =>
  (ProductFE.init T ls).map fun D => ⟨T, comps, D⟩

/-- `ShapeFunctionLayout(ref_el_type, component)`; /repo/projects/dpg/product_fe_space.h:346-377.  The outer `none` is
an illegal component, the inner one a null pointer. -/
def ProductSpace.shapeFunctionLayout (S : ProductSpace K) (ref : RefEl) (component : ℕ) : Option (Option (RefFE K)) :=
  (S.comps[component]?).map fun c =>
  match ref with
  | .point => c.point
  | .segment => c.edge
  | .tria => c.tria
  | .quad => c.quad

/-- `ComponentFESpace(component)`; /repo/projects/dpg/product_fe_space.h:162-167. -/
def ProductSpace.componentFESpace (S : ProductSpace K) (component : ℕ) : Option (UniformFESpace K) :=
  (S.comps[component]?).bind fun c => UniformFESpace.make S.mesh c.tria c.quad c.edge c.point

/-- `ProductUniformFESpaceFactory`: the components added so far and `num_components_`;
/repo/projects/dpg/product_fe_space_factory.h:131-153. -/
structure SpaceFactory (K : Type) where
  mesh : Topo
  comps : List (CompSpec K)
  numComponents : ℕ

/-- A new factory for a mesh; /repo/projects/dpg/product_fe_space_factory.h:44-51. -/
def SpaceFactory.new (T : Topo) : SpaceFactory K := ⟨T, [], 0⟩

/-- The methods which add a component. -/
inductive Kind
  | h1 | l2 | flux | trace
  deriving DecidableEq

/-- The reference finite elements added by `AddH1Component`, `AddL2Component`, `AddFluxComponent` and
`AddTraceComponent`; /repo/projects/dpg/product_fe_space_factory.h:219-279. -/
def compSpec (kind : Kind) (degree : ℕ) : Option (CompSpec K) :=
  match kind with
  | .h1 =>
    if degree > 0 then
      (referenceFE .tria degree).bind fun t => (referenceFE .quad degree).bind fun q =>
      (referenceFE .segment degree).bind fun s => some ⟨some t, some q, some s, none⟩
    else none
  | .l2 =>
    (referenceFE .tria degree).bind fun t => (referenceFE .quad degree).bind fun q =>
    some ⟨some (discontinuousFE t), some (discontinuousFE q), none, none⟩
  | .flux =>
    (referenceFE .segment degree).bind fun s => some ⟨none, none, some (discontinuousFE s), none⟩
  | .trace =>
    ((referenceFE .tria degree).bind traceFE).bind fun t => ((referenceFE .quad degree).bind traceFE).bind fun q =>
    (referenceFE .segment degree).bind fun s => some ⟨some t, some q, some s, none⟩

/-- `AddH1Component(degree)` and the three other methods: the new state and the returned index;
/repo/projects/dpg/product_fe_space_factory.h:219-279. -/
def SpaceFactory.add (F : SpaceFactory K) (kind : Kind) (degree : ℕ) : Option (SpaceFactory K × ℕ) :=
  (compSpec kind degree).map fun c =>
    ({ F with comps := F.comps ++ [c], numComponents := F.numComponents + 1 }, F.numComponents)

/-- `Build()`: the new state and the space; /repo/projects/dpg/product_fe_space_factory.h:281-295.  The vectors are
cleared, `num_components_` is not. -/
def SpaceFactory.build (F : SpaceFactory K) : Option (SpaceFactory K × ProductSpace K) :=
  (ProductSpace.make F.mesh F.comps).map fun S => ({ F with comps := [] }, S)

/-- `InitEssentialConditionsFromFunctions`; /repo/projects/dpg/dpg_tools.h:272-312. -/
def initEssentialConditions (S : ProductSpace K) (traceComp fluxComp : ℕ) (dirichlet neumann : ℕ → Bool)
    (g h : MeshFn K K) : Option (List (Bool × K)) :=
  if traceComp ≠ fluxComp then
    (S.componentFESpace traceComp).bind fun traceFes =>
    (S.componentFESpace fluxComp).bind fun fluxFes =>
    (initEssentialCondition (traceFes.space S.mesh) dirichlet g).bind fun traceConds =>
    (initEssentialCondition (fluxFes.space S.mesh) neumann h).bind fun fluxConds =>
    (S.data.offset traceComp).bind fun traceOffset =>
    (S.data.offset fluxComp).bind fun fluxOffset =>
    ((List.range traceFes.dofh.numDofs).foldlM (fun conds dof =>
        (traceConds[dof]?).bind fun c => setEntry conds (traceOffset + dof) c)
      (List.replicate (S.data.handler S.mesh).numDofs (false, 0))).bind fun conds =>
    (List.range fluxFes.dofh.numDofs).foldlM (fun conds dof =>
        (fluxConds[dof]?).bind fun c => setEntry conds (fluxOffset + dof) c) conds
  else none

end Verif.Dpg
