import Verif.Model.DpgBuilder

/-!
# Model: the ultraweak DPG method

How `ultraweak_dpg.h` sets up the spaces, the bilinear forms and the linear form.
-/

namespace Verif.Dpg
open Verif

/-- Unary operations on mesh functions, `-beta_mf` and `MeshFunctionGlobal([&alpha](x) { return 1.0 / alpha(x); })`.
Exact reals: the code computes infinity where `alpha` is zero. -/
def mapFn {R S : Type} (op : R → S) (f : MeshFn ℝ R) : MeshFn ℝ S := fun e pts => (f e pts).map (·.map op)

/-- The body of the loop over levels, up to the call of `ConvectionDiffusionDPGLinSys`, on the mesh of the level;
/repo/projects/dpg/convergence_studies/ultraweak_dpg.h:114-215. -/
noncomputable def ultraweak (B : QuadBase ℝ) (m : MeshObj) (geo : Ent → Option (Geo ℝ 2)) (degree enrichement : ℕ)
    (alpha : MeshFn ℝ ℝ) (beta : MeshFn ℝ (Vec ℝ 2)) (f : MeshFn ℝ ℝ) : Option Primal :=
  ((SpaceFactory.new m.topo).add .l2 degree).bind fun (F1, u) =>
  (F1.add .l2 degree).bind fun (F2, sigmaX) =>
  (F2.add .l2 degree).bind fun (F3, sigmaY) =>
  (F3.add .trace (degree + 1)).bind fun (F4, uHat) =>
  (F4.add .flux degree).bind fun (F5, qn) =>
  F5.build.bind fun (_, U) =>
  ((SpaceFactory.new m.topo).add .l2 (degree + enrichement)).bind fun (G1, v) =>
  (G1.add .l2 (degree + enrichement)).bind fun (G2, tauX) =>
  (G2.add .l2 (degree + enrichement)).bind fun (G3, tauY) =>
  G3.build.bind fun (_, V) =>
  (runMat B m geo U V [
    .add (.convection u v (mapFn (- ·) beta) (constFn 0)),
    .add (.convection sigmaX v (constFn ![1, 0]) (constFn 0)),
    .add (.convection sigmaY v (constFn ![0, 1]) (constFn 0)),
    .add (.flux qn v (constFn (-1))),
    .add (.convection u tauX (constFn ![1, 0]) (constFn 0)),
    .add (.convection u tauY (constFn ![0, 1]) (constFn 0)),
    .add (.reaction sigmaX tauX (mapFn (1 / ·) alpha)),
    .add (.reaction sigmaY tauY (mapFn (1 / ·) alpha)),
    .add (.trace uHat tauX (mapFn (- ·) (constFn ![1, 0]))),
    .add (.trace uHat tauY (mapFn (- ·) (constFn ![0, 1]))),
    .build]).bind fun (_, stiffness) =>
  (runMat B m geo V V [
    .add (.diffusion v v (constFn (.scalar 1))),
    .add (.reaction v v (constFn 1)),
    .add (.diffusion tauX tauX (constFn (.tensor (Matrix.of ![![1, 0], ![0, 0]])))),
    .add (.diffusion tauY tauY (constFn (.tensor (Matrix.of ![![0, 0], ![0, 1]])))),
    .add (.diffusion tauY tauX (constFn (.tensor (Matrix.of ![![0, 1], ![0, 0]])))),
    .add (.diffusion tauX tauY (constFn (.tensor (Matrix.of ![![0, 0], ![1, 0]])))),
    .add (.reaction tauX tauX (constFn 1)),
    .add (.reaction tauY tauY (constFn 1)),
    .build]).bind fun (_, gramian) =>
  (runVec B m geo V [.add ⟨v, f⟩, .build]).bind fun (_, load) =>
  (stiffness.head?).bind fun s => (gramian.head?).bind fun g => (load.head?).map fun l => ⟨U, V, s, g, l⟩

end Verif.Dpg
