import Verif.Model.DpgProvider
import Verif.Model.DpgSpace
import Verif.Model.DpgTools
import Verif.Model.LocComp

/-!
# Model: the element matrix and element vector providers of `projects/dpg/loc_comp_dpg.h`

`U` and `V` are the product spaces of trial and test functions, `T` is the mesh and `geo` yields the geometries of its
cells in a world of dimension `w`.  Eigen objects are as in `LocComp` and `DpgProvider`; failing assertions, operations on
objects of the wrong size and accesses out of range are `none`.  In the code the assertions on consistency of two rules
compare a rule with itself.
-/

namespace Verif.Dpg
open Verif Finset

variable {w : ℕ}

/-- `mat += ...` for a matrix of the same size with the given entries. -/
noncomputable def plusEq (mat : Dense ℝ) (f : ℕ → ℕ → ℝ) : Dense ℝ :=
  ⟨mat.rows, mat.cols, fun i j => mat.entry i j + f i j⟩

/-- `elem_mat_t mat(rows, cols); mat.setZero();`. -/
noncomputable def zeroMat (rows cols : ℕ) : Dense ℝ := ⟨rows, cols, fun _ _ => 0⟩

/-! ## Constructors -/

/-- What a constructor stores for triangles and for quadrilaterals; `none` is an entry which is not initialized. -/
abbrev PreTable (α : Type) := RefEl → Option α

/-- The loop `for (auto ref_el : {kTria, kQuad})` of the constructors: `entry ref` is `none` if the constructor stops and
`some none` if nothing is stored; e.g. /repo/projects/dpg/loc_comp_dpg.h:166-191. -/
def construct {α : Type} (entry : RefEl → Option (Option α)) : Option (PreTable α) :=
  (entry .tria).bind fun t => (entry .quad).map fun q => fun
    | .tria => t
    | .quad => q
    | _ => none

section
variable (B : QuadBase ℝ) (U V : ProductSpace ℝ)

/-- Precomputed trial and test functions on cells of one type, with a rule for the sum of the degrees;
/repo/projects/dpg/loc_comp_dpg.h:167-190, 401-424 and 637-660. -/
noncomputable def cellPair (i j : ℕ) (ref : RefEl) : Option (Option (PrecompFE × PrecompFE)) :=
  (U.shapeFunctionLayout ref i).bind fun feTrial =>
  (V.shapeFunctionLayout ref j).bind fun feTest =>
  match feTrial, feTest with
  | some ft, some fv =>
    (makeQuadRule B ref (ft.degree + fv.degree)).bind fun qr =>
    (PrecompFE.make ft qr).bind fun a => (PrecompFE.make fv qr).map fun b => some (a, b)
  | _, _ => some none

/-- What `FluxElementMatrixProvider` stores for one type of cells: the flux on the segment, and the test functions with
the rules on all sides; /repo/projects/dpg/loc_comp_dpg.h:896-939.  `ft` is the element of the flux. -/
noncomputable def fluxEntry (ft : RefFE ℝ) (j : ℕ) (ref : RefEl) : Option (Option (PrecompFE × List PrecompFE)) :=
  (V.shapeFunctionLayout ref j).bind fun feTest =>
  match feTest with
  | some fv =>
    (makeQuadRule B .segment (ft.degree + fv.degree)).bind fun segQr =>
    (PrecompFE.make ft segQr).bind fun a =>
    (boundaryQuadRule ref segQr).bind fun bqr =>
    if some bqr.length = ref.numSubEntities 1 then (bqr.mapM (PrecompFE.make fv)).map fun b => some (a, b) else none
  | none => some none

/-- What `TraceElementMatrixProvider` stores for one type of cells: the rule on the segment, trial and test functions with
the rules on all sides; /repo/projects/dpg/loc_comp_dpg.h:1150-1199. -/
noncomputable def traceEntry (i j : ℕ) (ref : RefEl) : Option (Option (QuadRule ℝ × List (PrecompFE × PrecompFE))) :=
  (U.shapeFunctionLayout ref i).bind fun feTrial =>
  (V.shapeFunctionLayout ref j).bind fun feTest =>
  match feTrial, feTest with
  | some ft, some fv =>
    (makeQuadRule B .segment (ft.degree + fv.degree)).bind fun segQr =>
    (boundaryQuadRule ref segQr).bind fun bqr =>
    if some bqr.length = ref.numSubEntities 1 then
      (bqr.mapM fun q => (PrecompFE.make ft q).bind fun a => (PrecompFE.make fv q).map fun b => (a, b)).map
        fun l => some (segQr, l)
    else none
  | _, _ => some none

/-- What `LoadElementVectorProvider` stores for one type of cells; /repo/projects/dpg/loc_comp_dpg.h:1394-1410. -/
noncomputable def loadEntry (j : ℕ) (ref : RefEl) : Option (Option PrecompFE) :=
  (V.shapeFunctionLayout ref j).bind fun feTest =>
  match feTest with
  | some fv => (makeQuadRule B ref (2 * fv.degree)).bind fun qr => (PrecompFE.make fv qr).map some
  | none => some none

end

/-! ## Eval -/

section
variable (T : Topo) (geo : Ent → Option (Geo ℝ w)) (pre : PreTable (PrecompFE × PrecompFE))

/-- `DiffusionElementMatrixProvider::Eval`; /repo/projects/dpg/loc_comp_dpg.h:194-267. -/
noncomputable def diffusionEval (alpha : MeshFn ℝ (DiffCoeff w)) (cell : Ent) : Option (Dense ℝ) :=
  (T.refEl cell).bind fun ref =>
  (pre ref).bind fun p =>
  (geo cell).bind fun g =>
  if g.kind.dimension ≠ 2 then none else
  (p.1.qr.points.mapM g.integrationElement).bind fun determinants =>
  (p.1.qr.points.mapM g.jacobianInverseGramian).bind fun JinvT =>
  (alpha cell p.1.qr.points).bind fun alphaeval =>
  (List.range p.1.qr.numPoints).foldlM (fun mat k =>
    (p.1.qr.weights[k]?).bind fun weight => (determinants[k]?).bind fun det =>
    (JinvT[k]?).bind fun J => (p.1.grsf[k]?).bind fun trialGrads => (p.2.grsf[k]?).bind fun testGrads =>
    (alphaeval[k]?).bind fun a =>
    if blocksFit p.1.fe.num J trialGrads ∧ blocksFit p.2.fe.num J testGrads then
      some (plusEq mat fun i j => weight * det * Geo.dot (trfGrad J testGrads i) (a.act (trfGrad J trialGrads j)))
    else none) (zeroMat p.2.fe.num p.1.fe.num)

/-- `ReactionElementMatrixProvider::Eval`; /repo/projects/dpg/loc_comp_dpg.h:428-489. -/
noncomputable def reactionEval (gamma : MeshFn ℝ ℝ) (cell : Ent) : Option (Dense ℝ) :=
  (T.refEl cell).bind fun ref =>
  (pre ref).bind fun p =>
  (geo cell).bind fun g =>
  if g.kind.dimension ≠ 2 then none else
  (p.1.qr.points.mapM g.integrationElement).bind fun determinants =>
  (gamma cell p.1.qr.points).bind fun gammaeval =>
  (List.range p.1.qr.numPoints).foldlM (fun mat k =>
    (p.1.qr.weights[k]?).bind fun weight => (determinants[k]?).bind fun det =>
    (p.1.rsf[k]?).bind fun trial => (p.2.rsf[k]?).bind fun test => (gammaeval[k]?).bind fun c =>
    if trial.length = p.1.fe.num ∧ test.length = p.2.fe.num then
      some (plusEq mat fun i j => weight * det * test.getD i 0 * c * trial.getD j 0)
    else none) (zeroMat p.2.fe.num p.1.fe.num)

/-- `ConvectionElementMatrixProvider::Eval`; /repo/projects/dpg/loc_comp_dpg.h:664-752. -/
noncomputable def convectionEval (beta1 beta2 : MeshFn ℝ (Vec ℝ w)) (cell : Ent) : Option (Dense ℝ) :=
  (T.refEl cell).bind fun ref =>
  (pre ref).bind fun p =>
  (geo cell).bind fun g =>
  if g.kind.dimension ≠ 2 then none else
  (p.1.qr.points.mapM g.integrationElement).bind fun determinants =>
  (p.1.qr.points.mapM g.jacobianInverseGramian).bind fun JinvT =>
  (beta1 cell p.1.qr.points).bind fun beta1eval =>
  (beta2 cell p.1.qr.points).bind fun beta2eval =>
  (List.range p.1.qr.numPoints).foldlM (fun mat k =>
    (p.1.qr.weights[k]?).bind fun weight => (determinants[k]?).bind fun det =>
    (JinvT[k]?).bind fun J => (p.1.grsf[k]?).bind fun trialGrads => (p.2.grsf[k]?).bind fun testGrads =>
    (p.1.rsf[k]?).bind fun trial => (p.2.rsf[k]?).bind fun test =>
    (beta1eval[k]?).bind fun b1 => (beta2eval[k]?).bind fun b2 =>
    if (blocksFit p.1.fe.num J trialGrads ∧ blocksFit p.2.fe.num J testGrads) ∧
        trial.length = p.1.fe.num ∧ test.length = p.2.fe.num then
      some (plusEq mat fun i j => weight * det * (Geo.dot b1 (trfGrad J testGrads i) * trial.getD j 0 +
        test.getD i 0 * Geo.dot b2 (trfGrad J trialGrads j)))
    else none) (zeroMat p.2.fe.num p.1.fe.num)

/-- `LoadElementVectorProvider::Eval`; /repo/projects/dpg/loc_comp_dpg.h:1413-1450. -/
noncomputable def loadEval (preLoad : PreTable PrecompFE) (f : MeshFn ℝ ℝ) (cell : Ent) : Option (List ℝ) :=
  (T.refEl cell).bind fun ref =>
  (preLoad ref).bind fun p =>
  (geo cell).bind fun g =>
  if g.kind.dimension ≠ 2 then none else
  (p.qr.points.mapM g.integrationElement).bind fun determinants =>
  (f cell p.qr.points).bind fun fval =>
  (List.range p.qr.numPoints).foldlM (fun vec k =>
    (p.qr.weights[k]?).bind fun weight => (determinants[k]?).bind fun det =>
    (p.rsf[k]?).bind fun test => (fval[k]?).bind fun c =>
    if test.length = p.fe.num then some (vec.mapIdx fun i v => v + c * (weight * det) * test.getD i 0)
    else none) (List.replicate p.fe.num 0)

/-- The body of the loop over the sides in `FluxElementMatrixProvider::Eval`;
/repo/projects/dpg/loc_comp_dpg.h:979-1013.  `d` is the data of `sign_provider_`. -/
noncomputable def fluxSide (m : MeshObj) (d : CodimDS ℤ) (g : Geo ℝ w) (p : PrecompFE × List PrecompFE)
    (alpha : MeshFn ℝ ℝ) (cell : Ent) (mat : Dense ℝ) (segment : ℕ) : Option (Dense ℝ) :=
  (g.sub 1 segment).bind fun side =>
  (p.1.qr.points.mapM side.integrationElement).bind fun determinants =>
  (p.2[segment]?).bind fun pTest =>
  (alpha cell pTest.qr.points).bind fun alphaeval =>
  (m.topo.subEntities cell 1).bind fun subs =>
  (subs[segment]?).bind fun edge =>
  (prescribedSign d ⟨m.id, cell⟩ ⟨m.id, edge⟩).bind fun sgn =>
  (List.range p.1.qr.numPoints).foldlM (fun mat k =>
    (p.1.qr.weights[k]?).bind fun weight => (determinants[k]?).bind fun det =>
    (p.1.rsf[k]?).bind fun trial => (pTest.rsf[k]?).bind fun test => (alphaeval[k]?).bind fun a =>
    if trial.length = p.1.fe.num ∧ test.length = pTest.fe.num then
      addBlock mat 0 (segment * p.1.fe.num) ⟨pTest.fe.num, p.1.fe.num, fun i j =>
        a * (weight * det * sgn) * test.getD i 0 * trial.getD j 0⟩
    else none) mat

/-- `FluxElementMatrixProvider::Eval`; /repo/projects/dpg/loc_comp_dpg.h:943-1016. -/
noncomputable def fluxEval (m : MeshObj) (preFlux : PreTable (PrecompFE × List PrecompFE)) (d : CodimDS ℤ)
    (alpha : MeshFn ℝ ℝ) (cell : Ent) : Option (Dense ℝ) :=
  (m.topo.refEl cell).bind fun ref =>
  (preFlux ref).bind fun p =>
  (ref.numSubEntities 1).bind fun numSegments =>
  if p.2.length = numSegments then
    if p.2.all fun pt => pt.qr.numPoints == p.1.qr.numPoints then
      (geo cell).bind fun g =>
      if g.kind.dimension ≠ 2 then none else
      (p.2[0]?).bind fun p0 =>
      (List.range numSegments).foldlM (fluxSide m d g p alpha cell) (zeroMat p0.fe.num (p.1.fe.num * numSegments))
    else none
  else none

end

/-- The body of the loop over the sides in `TraceElementMatrixProvider::Eval`;
/repo/projects/dpg/loc_comp_dpg.h:1257-1290. -/
noncomputable def traceSide (g : Geo ℝ 2) (segQr : QuadRule ℝ) (ps : List (PrecompFE × PrecompFE))
    (normals : List (Vec ℝ 2)) (beta : MeshFn ℝ (Vec ℝ 2)) (cell : Ent) (mat : Dense ℝ) (segment : ℕ) : Option (Dense ℝ) :=
  (g.sub 1 segment).bind fun side =>
  (ps[segment]?).bind fun p =>
  (segQr.points.mapM side.integrationElement).bind fun determinants =>
  if determinants.length = p.1.qr.numPoints then
    (beta cell p.1.qr.points).bind fun betaeval =>
    (List.range p.1.qr.numPoints).foldlM (fun mat k =>
      (segQr.weights[k]?).bind fun weight => (determinants[k]?).bind fun det =>
      (p.1.rsf[k]?).bind fun trial => (p.2.rsf[k]?).bind fun test =>
      (normals[segment]?).bind fun n => (betaeval[k]?).bind fun b =>
      if (trial.length = p.1.fe.num ∧ test.length = p.2.fe.num) ∧ mat.rows = p.2.fe.num ∧ mat.cols = p.1.fe.num then
        some (plusEq mat fun i j => weight * det * test.getD i 0 * trial.getD j 0 * Geo.dot n b)
      else none) mat
  else none

/-- `TraceElementMatrixProvider::Eval`; /repo/projects/dpg/loc_comp_dpg.h:1202-1294. -/
noncomputable def traceEval (T : Topo) (geo : Ent → Option (Geo ℝ 2))
    (preTrace : PreTable (QuadRule ℝ × List (PrecompFE × PrecompFE))) (beta : MeshFn ℝ (Vec ℝ 2)) (cell : Ent) :
    Option (Dense ℝ) :=
  (T.refEl cell).bind fun ref =>
  (preTrace ref).bind fun p =>
  (ref.numSubEntities 1).bind fun numSegments =>
  if p.2.length = numSegments then
    (p.2[0]?).bind fun p0 =>
    if p.1.numPoints = p0.1.qr.numPoints then
      (geo cell).bind fun g =>
      if g.kind.dimension ≠ 2 then none else
      (outerNormals g).bind fun normals =>
      if normals.length = numSegments then
        (List.range numSegments).foldlM (traceSide g p.1 p.2 normals beta cell) (zeroMat p0.2.fe.num p0.1.fe.num)
      else none
    else none
  else none

/-! ## The providers -/

section
variable (B : QuadBase ℝ) (U V : ProductSpace ℝ) (T : Topo) (geo : Ent → Option (Geo ℝ w))

/-- `DiffusionElementMatrixProvider(fe_space_trial, fe_space_test, trial_component, test_component, alpha)`;
/repo/projects/dpg/loc_comp_dpg.h:155-192; all cells are active, /repo/projects/dpg/sub_element_matrix_provider.h:84-88. -/
noncomputable def diffusionProvider (i j : ℕ) (alpha : MeshFn ℝ (DiffCoeff w)) : Option SubMat :=
  (construct (cellPair B U V i j)).map fun pre => ⟨⟨fun _ => true, diffusionEval T geo pre alpha⟩, i, j⟩

/-- `ReactionElementMatrixProvider(...)`; /repo/projects/dpg/loc_comp_dpg.h:388-426. -/
noncomputable def reactionProvider (i j : ℕ) (gamma : MeshFn ℝ ℝ) : Option SubMat :=
  (construct (cellPair B U V i j)).map fun pre => ⟨⟨fun _ => true, reactionEval T geo pre gamma⟩, i, j⟩

/-- `ConvectionElementMatrixProvider(...)`; /repo/projects/dpg/loc_comp_dpg.h:621-661. -/
noncomputable def convectionProvider (i j : ℕ) (beta1 beta2 : MeshFn ℝ (Vec ℝ w)) : Option SubMat :=
  (construct (cellPair B U V i j)).map fun pre => ⟨⟨fun _ => true, convectionEval T geo pre beta1 beta2⟩, i, j⟩

/-- `FluxElementMatrixProvider(...)`; /repo/projects/dpg/loc_comp_dpg.h:884-940. -/
noncomputable def fluxProvider (m : MeshObj) (i j : ℕ) (alpha : MeshFn ℝ ℝ) : Option SubMat :=
  (signInit m).bind fun d =>
  (U.shapeFunctionLayout .segment i).bind fun feTrial =>
  feTrial.bind fun ft =>
  if ft.numCodim 1 = some 0 then
    (construct (fluxEntry B V ft j)).map fun pre => ⟨⟨fun _ => true, fluxEval geo m pre d alpha⟩, i, j⟩
  else none

/-- `LoadElementVectorProvider(...)`; /repo/projects/dpg/loc_comp_dpg.h:1388-1411. -/
noncomputable def loadProvider (j : ℕ) (f : MeshFn ℝ ℝ) : Option SubVec :=
  (construct (loadEntry B V j)).map fun pre => ⟨⟨fun _ => true, loadEval T geo pre f⟩, j⟩

end

/-- `TraceElementMatrixProvider(...)`; /repo/projects/dpg/loc_comp_dpg.h:1140-1200. -/
noncomputable def traceProvider (B : QuadBase ℝ) (U V : ProductSpace ℝ) (T : Topo) (geo : Ent → Option (Geo ℝ 2)) (i j : ℕ)
    (beta : MeshFn ℝ (Vec ℝ 2)) : Option SubMat :=
  (construct (traceEntry B U V i j)).map fun pre => ⟨⟨fun _ => true, traceEval T geo pre beta⟩, i, j⟩

end Verif.Dpg
