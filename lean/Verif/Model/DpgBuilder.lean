import Verif.Model.DpgLocComp

/-!
# Model: builders of product providers and the primal DPG method

`ProductElementMatrixProviderBuilder` and `ProductElementVectorProviderBuilder` of `projects/dpg`, and how
`primal_dpg.h` and `primal_dpg_adapted_norm.h` set up the spaces, the bilinear forms and the linear form with them.
The mesh, its geometry and the quadrature rules are parameters.
-/

namespace Verif.Dpg
open Verif

/-- Both builders: the sub-providers added so far, `subproviders_`;
/repo/projects/dpg/product_element_matrix_provider_builder.h:209-217 and
/repo/projects/dpg/product_element_vector_provider_builder.h:81-87.  The spaces are parameters of the functions here. -/
structure Builder (S : Type) where
  subs : List S

/-- The constructor: no sub-providers. -/
def Builder.new {S : Type} : Builder S := ⟨[]⟩

/-- The methods `Add…Provider(…)`: `subproviders_.push_back(std::make_shared<…>(…))`, where `mk` is the constructor of the
sub-provider, which may fail; /repo/projects/dpg/product_element_matrix_provider_builder.h:220-287,
/repo/projects/dpg/product_element_vector_provider_builder.h:89-99. -/
def Builder.add {F S : Type} (mk : F → Option S) (b : Builder S) (f : F) : Option (Builder S) :=
  (mk f).map fun s => ⟨b.subs ++ [s]⟩

/-- `Build()`: the provider of all sub-providers; then `subproviders_ = {}`.  The new state of the builder and the
provider; /repo/projects/dpg/product_element_matrix_provider_builder.h:289-298,
/repo/projects/dpg/product_element_vector_provider_builder.h:101-110. -/
def Builder.build {S P : Type} (make : List S → P) (b : Builder S) : Builder S × P := (⟨[]⟩, make b.subs)

/-- Calls of methods of a builder. -/
inductive BuilderOp (F : Type)
  | add (form : F)
  | build

def BuilderOp.isBuild {F : Type} : BuilderOp F → Bool
  | .add _ => false
  | .build => true

/-- A sequence of calls: the final state and the providers returned by the calls of `Build`, in this order. -/
def Builder.run {F S P : Type} (mk : F → Option S) (make : List S → P) : Builder S → List (BuilderOp F) → Option (Builder S × List P)
  | b, [] => some (b, [])
  | b, .add f :: ops => (b.add mk f).bind fun b' => b'.run mk make ops
  | b, .build :: ops => ((b.build make).1.run mk make ops).map fun r => (r.1, (b.build make).2 :: r.2)

/-- The arguments of the five methods of the matrix builder: indices of the trial and the test component and coefficients;
/repo/projects/dpg/product_element_matrix_provider_builder.h:78-200. -/
inductive MatForm
  | diffusion (trial test : ℕ) (alpha : MeshFn ℝ (DiffCoeff 2))
  | convection (trial test : ℕ) (beta1 beta2 : MeshFn ℝ (Vec ℝ 2))
  | reaction (trial test : ℕ) (gamma : MeshFn ℝ ℝ)
  | flux (trial test : ℕ) (alpha : MeshFn ℝ ℝ)
  | trace (trial test : ℕ) (beta : MeshFn ℝ (Vec ℝ 2))

/-- `AddLoadElementVectorProvider(test_component, f)`. -/
structure VecForm where
  test : ℕ
  f : MeshFn ℝ ℝ

section
variable (B : QuadBase ℝ) (m : MeshObj) (geo : Ent → Option (Geo ℝ 2)) (U V : ProductSpace ℝ)

/-- The sub-provider constructed by the methods of the matrix builder; 
/repo/projects/dpg/product_element_matrix_provider_builder.h:220-287. -/
noncomputable def MatForm.provider : MatForm → Option SubMat
  | .diffusion i j alpha => diffusionProvider B U V m.topo geo i j alpha
  | .convection i j beta1 beta2 => convectionProvider B U V m.topo geo i j beta1 beta2
  | .reaction i j gamma => reactionProvider B U V m.topo geo i j gamma
  | .flux i j alpha => fluxProvider B U V geo m i j alpha
  | .trace i j beta => traceProvider B U V m.topo geo i j beta

/-- /repo/projects/dpg/product_element_vector_provider_builder.h:89-99. -/
noncomputable def VecForm.provider (l : VecForm) : Option SubVec := loadProvider B V m.topo geo l.test l.f

/-- Calls of methods of a `ProductElementMatrixProviderBuilder(fe_space_trial, fe_space_test)`. -/
noncomputable def runMat (ops : List (BuilderOp MatForm)) : Option (Builder SubMat × List MatProv) :=
  Builder.new.run (MatForm.provider B m geo U V) (productMat m.topo U.data V.data) ops

/-- Calls of methods of a `ProductElementVectorProviderBuilder(fe_space_test)`. -/
noncomputable def runVec (ops : List (BuilderOp VecForm)) : Option (Builder SubVec × List VecProv) :=
  Builder.new.run (VecForm.provider B m geo V) (productVec m.topo V.data) ops

end

/-- `MeshFunctionConstant`. -/
def constFn {R : Type} (c : R) : MeshFn ℝ R := fun _ pts => some (pts.map fun _ => c)

/-- What the studies set up on every level. -/
structure Primal where
  trial : ProductSpace ℝ
  test : ProductSpace ℝ
  stiffness : MatProv
  gramian : MatProv
  load : VecProv

/-- The body of the loop over levels, up to the call of `ConvectionDiffusionDPGLinSys`, on the mesh of the level;
/repo/projects/dpg/convergence_studies/primal_dpg.h:116-158 with `norm = 1`,
/repo/projects/dpg/convergence_studies/primal_dpg_adapted_norm.h:112-154 with `norm = alpha * alpha`.  `degree_p - 1` is
never negative, since `AddH1Component(0)` fails. -/
noncomputable def primal (B : QuadBase ℝ) (m : MeshObj) (geo : Ent → Option (Geo ℝ 2)) (degreeP enrichement : ℕ)
    (alpha norm : MeshFn ℝ (DiffCoeff 2)) (beta : MeshFn ℝ (Vec ℝ 2)) (f : MeshFn ℝ ℝ) : Option Primal :=
  ((SpaceFactory.new m.topo).add .h1 degreeP).bind fun (F1, u) =>
  (F1.add .flux (degreeP - 1)).bind fun (F2, qn) =>
  F2.build.bind fun (_, U) =>
  ((SpaceFactory.new m.topo).add .l2 (degreeP + enrichement)).bind fun (G1, v) =>
  G1.build.bind fun (_, V) =>
  (runMat B m geo U V [.add (.diffusion u v alpha), .add (.flux qn v (constFn (-1))),
    .add (.convection u v (constFn 0) beta), .build]).bind fun (_, stiffness) =>
  (runMat B m geo V V [.add (.diffusion v v norm), .add (.reaction v v (constFn 1)), .build]).bind fun (_, gramian) =>
  (runVec B m geo V [.add ⟨v, f⟩, .build]).bind fun (_, load) =>
  (stiffness.head?).bind fun s => (gramian.head?).bind fun g => (load.head?).map fun l => ⟨U, V, s, g, l⟩

end Verif.Dpg
