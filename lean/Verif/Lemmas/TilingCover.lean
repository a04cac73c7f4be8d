import Verif.Lemmas.Tiling

/-! Every point of the reference element lies in some child: one lemma for each pattern and anchor.
The case distinctions are made along the interior edges of the pattern. -/

namespace Verif
variable {K : Type} [Field K] [LinearOrder K] [IsStrictOrderedRing K]
open Pattern

macro "half_tac" : tactic => `(tactic| (
  simp only [List.exists_mem_cons_iff, List.not_mem_nil, false_and, exists_false, or_false,
    InHalfPlanes, cross, latticePoint, icross, triaNode, triaMid, triaCenter, quadNode, quadMid, quadCenter,
    ltHalf, ltOne, ltThird, latticeConst, List.getD_cons_zero, List.getD_cons_succ]
  norm_num))

macro "pick_tac" : tactic => `(tactic| first
  | (refine ⟨?_, ?_, ?_⟩ <;> linarith)
  | (refine ⟨?_, ?_, ?_, ?_⟩ <;> linarith)
  | (refine Or.inl ⟨?_, ?_, ?_⟩ <;> linarith)
  | (refine Or.inl ⟨?_, ?_, ?_, ?_⟩ <;> linarith)
  | (refine Or.inr ⟨?_, ?_, ?_⟩ <;> linarith)
  | (refine Or.inr ⟨?_, ?_, ?_, ?_⟩ <;> linarith)
  | (refine Or.inr (Or.inl ⟨?_, ?_, ?_⟩) <;> linarith)
  | (refine Or.inr (Or.inl ⟨?_, ?_, ?_, ?_⟩) <;> linarith)
  | (refine Or.inr (Or.inr ⟨?_, ?_, ?_⟩) <;> linarith)
  | (refine Or.inr (Or.inr ⟨?_, ?_, ?_, ?_⟩) <;> linarith)
  | (refine Or.inr (Or.inr (Or.inl ⟨?_, ?_, ?_⟩)) <;> linarith)
  | (refine Or.inr (Or.inr (Or.inl ⟨?_, ?_, ?_, ?_⟩)) <;> linarith)
  | (refine Or.inr (Or.inr (Or.inr ⟨?_, ?_, ?_⟩)) <;> linarith)
  | (refine Or.inr (Or.inr (Or.inr ⟨?_, ?_, ?_, ?_⟩)) <;> linarith)
  | (refine Or.inr (Or.inr (Or.inr (Or.inl ⟨?_, ?_, ?_⟩))) <;> linarith)
  | (refine Or.inr (Or.inr (Or.inr (Or.inr (Or.inl ⟨?_, ?_, ?_⟩)))) <;> linarith)
  | (refine Or.inr (Or.inr (Or.inr (Or.inr (Or.inr ⟨?_, ?_, ?_⟩)))) <;> linarith))

theorem cover_tria_bisect_0 (x y : K) (h : InRefEl .tria (x, y)) (polys : List (List (List ℤ)))
    (hp : Pattern.childPolygons ⟨.tria, (some 0), .bisect, true⟩ 0 = some polys) :
    ∃ P ∈ polys, InHalfPlanes P (x, y) := by
  simp only [InRefEl] at h
  simp [childPolygons, triaCells, needAnchor, RefEl.dimension] at hp
  subst hp
  half_tac
  rcases le_total ((6 : K) * x + (3) * y) ((18 : K) / 6) with l0 | l0
  <;> pick_tac

theorem cover_tria_trisect_0 (x y : K) (h : InRefEl .tria (x, y)) (polys : List (List (List ℤ)))
    (hp : Pattern.childPolygons ⟨.tria, (some 0), .trisect, true⟩ 0 = some polys) :
    ∃ P ∈ polys, InHalfPlanes P (x, y) := by
  simp only [InRefEl] at h
  simp [childPolygons, triaCells, needAnchor, RefEl.dimension] at hp
  subst hp
  half_tac
  rcases le_total ((6 : K) * x + (3) * y) ((18 : K) / 6) with l0 | l0
  <;> rcases le_total ((3 : K) * x + (0) * y) ((9 : K) / 6) with l1 | l1
  <;> pick_tac

theorem cover_tria_trisectLeft_0 (x y : K) (h : InRefEl .tria (x, y)) (polys : List (List (List ℤ)))
    (hp : Pattern.childPolygons ⟨.tria, (some 0), .trisectLeft, true⟩ 0 = some polys) :
    ∃ P ∈ polys, InHalfPlanes P (x, y) := by
  simp only [InRefEl] at h
  simp [childPolygons, triaCells, needAnchor, RefEl.dimension] at hp
  subst hp
  half_tac
  rcases le_total ((6 : K) * x + (3) * y) ((18 : K) / 6) with l0 | l0
  <;> rcases le_total ((3 : K) * x + (3) * y) ((9 : K) / 6) with l1 | l1
  <;> pick_tac

theorem cover_tria_quadsect_0 (x y : K) (h : InRefEl .tria (x, y)) (polys : List (List (List ℤ)))
    (hp : Pattern.childPolygons ⟨.tria, (some 0), .quadsect, true⟩ 0 = some polys) :
    ∃ P ∈ polys, InHalfPlanes P (x, y) := by
  simp only [InRefEl] at h
  simp [childPolygons, triaCells, needAnchor, RefEl.dimension] at hp
  subst hp
  half_tac
  rcases le_total ((6 : K) * x + (3) * y) ((18 : K) / 6) with l0 | l0
  <;> rcases le_total ((3 : K) * x + (3) * y) ((9 : K) / 6) with l1 | l1
  <;> rcases le_total ((3 : K) * x + (0) * y) ((9 : K) / 6) with l2 | l2
  <;> pick_tac

theorem cover_tria_bisect_1 (x y : K) (h : InRefEl .tria (x, y)) (polys : List (List (List ℤ)))
    (hp : Pattern.childPolygons ⟨.tria, (some 1), .bisect, true⟩ 0 = some polys) :
    ∃ P ∈ polys, InHalfPlanes P (x, y) := by
  simp only [InRefEl] at h
  simp [childPolygons, triaCells, needAnchor, RefEl.dimension] at hp
  subst hp
  half_tac
  rcases le_total ((-3 : K) * x + (3) * y) ((0 : K) / 6) with l0 | l0
  <;> pick_tac

theorem cover_tria_trisect_1 (x y : K) (h : InRefEl .tria (x, y)) (polys : List (List (List ℤ)))
    (hp : Pattern.childPolygons ⟨.tria, (some 1), .trisect, true⟩ 0 = some polys) :
    ∃ P ∈ polys, InHalfPlanes P (x, y) := by
  simp only [InRefEl] at h
  simp [childPolygons, triaCells, needAnchor, RefEl.dimension] at hp
  subst hp
  half_tac
  rcases le_total ((-3 : K) * x + (3) * y) ((0 : K) / 6) with l0 | l0
  <;> rcases le_total ((0 : K) * x + (3) * y) ((9 : K) / 6) with l1 | l1
  <;> pick_tac

theorem cover_tria_trisectLeft_1 (x y : K) (h : InRefEl .tria (x, y)) (polys : List (List (List ℤ)))
    (hp : Pattern.childPolygons ⟨.tria, (some 1), .trisectLeft, true⟩ 0 = some polys) :
    ∃ P ∈ polys, InHalfPlanes P (x, y) := by
  simp only [InRefEl] at h
  simp [childPolygons, triaCells, needAnchor, RefEl.dimension] at hp
  subst hp
  half_tac
  rcases le_total ((-3 : K) * x + (3) * y) ((0 : K) / 6) with l0 | l0
  <;> rcases le_total ((-3 : K) * x + (0) * y) ((-9 : K) / 6) with l1 | l1
  <;> pick_tac

theorem cover_tria_quadsect_1 (x y : K) (h : InRefEl .tria (x, y)) (polys : List (List (List ℤ)))
    (hp : Pattern.childPolygons ⟨.tria, (some 1), .quadsect, true⟩ 0 = some polys) :
    ∃ P ∈ polys, InHalfPlanes P (x, y) := by
  simp only [InRefEl] at h
  simp [childPolygons, triaCells, needAnchor, RefEl.dimension] at hp
  subst hp
  half_tac
  rcases le_total ((-3 : K) * x + (3) * y) ((0 : K) / 6) with l0 | l0
  <;> rcases le_total ((-3 : K) * x + (0) * y) ((-9 : K) / 6) with l1 | l1
  <;> rcases le_total ((0 : K) * x + (3) * y) ((9 : K) / 6) with l2 | l2
  <;> pick_tac

theorem cover_tria_bisect_2 (x y : K) (h : InRefEl .tria (x, y)) (polys : List (List (List ℤ)))
    (hp : Pattern.childPolygons ⟨.tria, (some 2), .bisect, true⟩ 0 = some polys) :
    ∃ P ∈ polys, InHalfPlanes P (x, y) := by
  simp only [InRefEl] at h
  simp [childPolygons, triaCells, needAnchor, RefEl.dimension] at hp
  subst hp
  half_tac
  rcases le_total ((-3 : K) * x + (-6) * y) ((-18 : K) / 6) with l0 | l0
  <;> pick_tac

theorem cover_tria_trisect_2 (x y : K) (h : InRefEl .tria (x, y)) (polys : List (List (List ℤ)))
    (hp : Pattern.childPolygons ⟨.tria, (some 2), .trisect, true⟩ 0 = some polys) :
    ∃ P ∈ polys, InHalfPlanes P (x, y) := by
  simp only [InRefEl] at h
  simp [childPolygons, triaCells, needAnchor, RefEl.dimension] at hp
  subst hp
  half_tac
  rcases le_total ((-3 : K) * x + (-6) * y) ((-18 : K) / 6) with l0 | l0
  <;> rcases le_total ((-3 : K) * x + (-3) * y) ((-9 : K) / 6) with l1 | l1
  <;> pick_tac

theorem cover_tria_trisectLeft_2 (x y : K) (h : InRefEl .tria (x, y)) (polys : List (List (List ℤ)))
    (hp : Pattern.childPolygons ⟨.tria, (some 2), .trisectLeft, true⟩ 0 = some polys) :
    ∃ P ∈ polys, InHalfPlanes P (x, y) := by
  simp only [InRefEl] at h
  simp [childPolygons, triaCells, needAnchor, RefEl.dimension] at hp
  subst hp
  half_tac
  rcases le_total ((-3 : K) * x + (-6) * y) ((-18 : K) / 6) with l0 | l0
  <;> rcases le_total ((0 : K) * x + (-3) * y) ((-9 : K) / 6) with l1 | l1
  <;> pick_tac

theorem cover_tria_quadsect_2 (x y : K) (h : InRefEl .tria (x, y)) (polys : List (List (List ℤ)))
    (hp : Pattern.childPolygons ⟨.tria, (some 2), .quadsect, true⟩ 0 = some polys) :
    ∃ P ∈ polys, InHalfPlanes P (x, y) := by
  simp only [InRefEl] at h
  simp [childPolygons, triaCells, needAnchor, RefEl.dimension] at hp
  subst hp
  half_tac
  rcases le_total ((-3 : K) * x + (-6) * y) ((-18 : K) / 6) with l0 | l0
  <;> rcases le_total ((0 : K) * x + (-3) * y) ((-9 : K) / 6) with l1 | l1
  <;> rcases le_total ((-3 : K) * x + (-3) * y) ((-9 : K) / 6) with l2 | l2
  <;> pick_tac

theorem cover_tria_copy (x y : K) (h : InRefEl .tria (x, y)) (polys : List (List (List ℤ)))
    (hp : Pattern.childPolygons ⟨.tria, none, .copy, false⟩ 0 = some polys) :
    ∃ P ∈ polys, InHalfPlanes P (x, y) := by
  simp only [InRefEl] at h
  simp [childPolygons, triaCells, RefEl.dimension] at hp
  subst hp
  half_tac
  pick_tac

theorem cover_tria_regular (x y : K) (h : InRefEl .tria (x, y)) (polys : List (List (List ℤ)))
    (hp : Pattern.childPolygons ⟨.tria, none, .regular, false⟩ 0 = some polys) :
    ∃ P ∈ polys, InHalfPlanes P (x, y) := by
  simp only [InRefEl] at h
  simp [childPolygons, triaCells, RefEl.dimension] at hp
  subst hp
  half_tac
  rcases le_total ((3 : K) * x + (3) * y) ((9 : K) / 6) with l0 | l0
  <;> rcases le_total ((3 : K) * x + (0) * y) ((9 : K) / 6) with l1 | l1
  <;> rcases le_total ((0 : K) * x + (-3) * y) ((-9 : K) / 6) with l2 | l2
  <;> pick_tac

theorem cover_tria_barycentric (x y : K) (h : InRefEl .tria (x, y)) (polys : List (List (List ℤ)))
    (hp : Pattern.childPolygons ⟨.tria, none, .barycentric, false⟩ 0 = some polys) :
    ∃ P ∈ polys, InHalfPlanes P (x, y) := by
  simp only [InRefEl] at h
  simp [childPolygons, triaCells, RefEl.dimension] at hp
  subst hp
  half_tac
  rcases le_total ((2 : K) * x + (-2) * y) ((0 : K) / 6) with l0 | l0
  <;> rcases le_total ((2 : K) * x + (4) * y) ((12 : K) / 6) with l1 | l1
  <;> rcases le_total ((-4 : K) * x + (-2) * y) ((-12 : K) / 6) with l2 | l2
  <;> pick_tac

theorem cover_quad_trisect_0 (x y : K) (h : InRefEl .quad (x, y)) (polys : List (List (List ℤ)))
    (hp : Pattern.childPolygons ⟨.quad, (some 0), .trisect, true⟩ 0 = some polys) :
    ∃ P ∈ polys, InHalfPlanes P (x, y) := by
  simp only [InRefEl] at h
  simp [childPolygons, quadCells, needAnchor, RefEl.dimension] at hp
  subst hp
  half_tac
  rcases le_total ((6 : K) * x + (-3) * y) ((18 : K) / 6) with l0 | l0
  <;> rcases le_total ((6 : K) * x + (3) * y) ((18 : K) / 6) with l1 | l1
  <;> pick_tac

theorem cover_quad_quadsect_0 (x y : K) (h : InRefEl .quad (x, y)) (polys : List (List (List ℤ)))
    (hp : Pattern.childPolygons ⟨.quad, (some 0), .quadsect, true⟩ 0 = some polys) :
    ∃ P ∈ polys, InHalfPlanes P (x, y) := by
  simp only [InRefEl] at h
  simp [childPolygons, quadCells, needAnchor, RefEl.dimension] at hp
  subst hp
  half_tac
  rcases le_total ((-6 : K) * x + (-3) * y) ((-18 : K) / 6) with l0 | l0
  <;> rcases le_total ((-3 : K) * x + (3) * y) ((-9 : K) / 6) with l1 | l1
  <;> rcases le_total ((-3 : K) * x + (-6) * y) ((-36 : K) / 6) with l2 | l2
  <;> pick_tac

theorem cover_quad_bisect_0 (x y : K) (h : InRefEl .quad (x, y)) (polys : List (List (List ℤ)))
    (hp : Pattern.childPolygons ⟨.quad, (some 0), .bisect, true⟩ 0 = some polys) :
    ∃ P ∈ polys, InHalfPlanes P (x, y) := by
  simp only [InRefEl] at h
  simp [childPolygons, quadCells, needAnchor, RefEl.dimension] at hp
  subst hp
  half_tac
  rcases le_total ((6 : K) * x + (0) * y) ((18 : K) / 6) with l0 | l0
  <;> pick_tac

theorem cover_quad_split_0 (x y : K) (h : InRefEl .quad (x, y)) (polys : List (List (List ℤ)))
    (hp : Pattern.childPolygons ⟨.quad, (some 0), .split, true⟩ 0 = some polys) :
    ∃ P ∈ polys, InHalfPlanes P (x, y) := by
  simp only [InRefEl] at h
  simp [childPolygons, quadCells, needAnchor, RefEl.dimension] at hp
  subst hp
  half_tac
  rcases le_total ((6 : K) * x + (0) * y) ((18 : K) / 6) with l0 | l0
  <;> pick_tac

theorem cover_quad_threeedge_0 (x y : K) (h : InRefEl .quad (x, y)) (polys : List (List (List ℤ)))
    (hp : Pattern.childPolygons ⟨.quad, (some 0), .threeedge, true⟩ 0 = some polys) :
    ∃ P ∈ polys, InHalfPlanes P (x, y) := by
  simp only [InRefEl] at h
  simp [childPolygons, quadCells, needAnchor, RefEl.dimension] at hp
  subst hp
  half_tac
  rcases le_total ((0 : K) * x + (-6) * y) ((-18 : K) / 6) with l0 | l0
  <;> rcases le_total ((3 : K) * x + (3) * y) ((9 : K) / 6) with l1 | l1
  <;> rcases le_total ((3 : K) * x + (-3) * y) ((9 : K) / 6) with l2 | l2
  <;> pick_tac

theorem cover_quad_trisect_1 (x y : K) (h : InRefEl .quad (x, y)) (polys : List (List (List ℤ)))
    (hp : Pattern.childPolygons ⟨.quad, (some 1), .trisect, true⟩ 0 = some polys) :
    ∃ P ∈ polys, InHalfPlanes P (x, y) := by
  simp only [InRefEl] at h
  simp [childPolygons, quadCells, needAnchor, RefEl.dimension] at hp
  subst hp
  half_tac
  rcases le_total ((3 : K) * x + (6) * y) ((36 : K) / 6) with l0 | l0
  <;> rcases le_total ((-3 : K) * x + (6) * y) ((0 : K) / 6) with l1 | l1
  <;> pick_tac

theorem cover_quad_quadsect_1 (x y : K) (h : InRefEl .quad (x, y)) (polys : List (List (List ℤ)))
    (hp : Pattern.childPolygons ⟨.quad, (some 1), .quadsect, true⟩ 0 = some polys) :
    ∃ P ∈ polys, InHalfPlanes P (x, y) := by
  simp only [InRefEl] at h
  simp [childPolygons, quadCells, needAnchor, RefEl.dimension] at hp
  subst hp
  half_tac
  rcases le_total ((3 : K) * x + (-6) * y) ((0 : K) / 6) with l0 | l0
  <;> rcases le_total ((-3 : K) * x + (-3) * y) ((-27 : K) / 6) with l1 | l1
  <;> rcases le_total ((6 : K) * x + (-3) * y) ((0 : K) / 6) with l2 | l2
  <;> pick_tac

theorem cover_quad_bisect_1 (x y : K) (h : InRefEl .quad (x, y)) (polys : List (List (List ℤ)))
    (hp : Pattern.childPolygons ⟨.quad, (some 1), .bisect, true⟩ 0 = some polys) :
    ∃ P ∈ polys, InHalfPlanes P (x, y) := by
  simp only [InRefEl] at h
  simp [childPolygons, quadCells, needAnchor, RefEl.dimension] at hp
  subst hp
  half_tac
  rcases le_total ((0 : K) * x + (6) * y) ((18 : K) / 6) with l0 | l0
  <;> pick_tac

theorem cover_quad_split_1 (x y : K) (h : InRefEl .quad (x, y)) (polys : List (List (List ℤ)))
    (hp : Pattern.childPolygons ⟨.quad, (some 1), .split, true⟩ 0 = some polys) :
    ∃ P ∈ polys, InHalfPlanes P (x, y) := by
  simp only [InRefEl] at h
  simp [childPolygons, quadCells, needAnchor, RefEl.dimension] at hp
  subst hp
  half_tac
  rcases le_total ((0 : K) * x + (6) * y) ((18 : K) / 6) with l0 | l0
  <;> pick_tac

theorem cover_quad_threeedge_1 (x y : K) (h : InRefEl .quad (x, y)) (polys : List (List (List ℤ)))
    (hp : Pattern.childPolygons ⟨.quad, (some 1), .threeedge, true⟩ 0 = some polys) :
    ∃ P ∈ polys, InHalfPlanes P (x, y) := by
  simp only [InRefEl] at h
  simp [childPolygons, quadCells, needAnchor, RefEl.dimension] at hp
  subst hp
  half_tac
  rcases le_total ((6 : K) * x + (0) * y) ((18 : K) / 6) with l0 | l0
  <;> rcases le_total ((-3 : K) * x + (3) * y) ((-9 : K) / 6) with l1 | l1
  <;> rcases le_total ((3 : K) * x + (3) * y) ((27 : K) / 6) with l2 | l2
  <;> pick_tac

theorem cover_quad_trisect_2 (x y : K) (h : InRefEl .quad (x, y)) (polys : List (List (List ℤ)))
    (hp : Pattern.childPolygons ⟨.quad, (some 2), .trisect, true⟩ 0 = some polys) :
    ∃ P ∈ polys, InHalfPlanes P (x, y) := by
  simp only [InRefEl] at h
  simp [childPolygons, quadCells, needAnchor, RefEl.dimension] at hp
  subst hp
  half_tac
  rcases le_total ((-6 : K) * x + (3) * y) ((0 : K) / 6) with l0 | l0
  <;> rcases le_total ((-6 : K) * x + (-3) * y) ((-36 : K) / 6) with l1 | l1
  <;> pick_tac

theorem cover_quad_quadsect_2 (x y : K) (h : InRefEl .quad (x, y)) (polys : List (List (List ℤ)))
    (hp : Pattern.childPolygons ⟨.quad, (some 2), .quadsect, true⟩ 0 = some polys) :
    ∃ P ∈ polys, InHalfPlanes P (x, y) := by
  simp only [InRefEl] at h
  simp [childPolygons, quadCells, needAnchor, RefEl.dimension] at hp
  subst hp
  half_tac
  rcases le_total ((6 : K) * x + (3) * y) ((36 : K) / 6) with l0 | l0
  <;> rcases le_total ((3 : K) * x + (-3) * y) ((-9 : K) / 6) with l1 | l1
  <;> rcases le_total ((3 : K) * x + (6) * y) ((18 : K) / 6) with l2 | l2
  <;> pick_tac

theorem cover_quad_bisect_2 (x y : K) (h : InRefEl .quad (x, y)) (polys : List (List (List ℤ)))
    (hp : Pattern.childPolygons ⟨.quad, (some 2), .bisect, true⟩ 0 = some polys) :
    ∃ P ∈ polys, InHalfPlanes P (x, y) := by
  simp only [InRefEl] at h
  simp [childPolygons, quadCells, needAnchor, RefEl.dimension] at hp
  subst hp
  half_tac
  rcases le_total ((-6 : K) * x + (0) * y) ((-18 : K) / 6) with l0 | l0
  <;> pick_tac

theorem cover_quad_split_2 (x y : K) (h : InRefEl .quad (x, y)) (polys : List (List (List ℤ)))
    (hp : Pattern.childPolygons ⟨.quad, (some 2), .split, true⟩ 0 = some polys) :
    ∃ P ∈ polys, InHalfPlanes P (x, y) := by
  simp only [InRefEl] at h
  simp [childPolygons, quadCells, needAnchor, RefEl.dimension] at hp
  subst hp
  half_tac
  rcases le_total ((-6 : K) * x + (0) * y) ((-18 : K) / 6) with l0 | l0
  <;> pick_tac

theorem cover_quad_threeedge_2 (x y : K) (h : InRefEl .quad (x, y)) (polys : List (List (List ℤ)))
    (hp : Pattern.childPolygons ⟨.quad, (some 2), .threeedge, true⟩ 0 = some polys) :
    ∃ P ∈ polys, InHalfPlanes P (x, y) := by
  simp only [InRefEl] at h
  simp [childPolygons, quadCells, needAnchor, RefEl.dimension] at hp
  subst hp
  half_tac
  rcases le_total ((0 : K) * x + (6) * y) ((18 : K) / 6) with l0 | l0
  <;> rcases le_total ((-3 : K) * x + (-3) * y) ((-27 : K) / 6) with l1 | l1
  <;> rcases le_total ((-3 : K) * x + (3) * y) ((9 : K) / 6) with l2 | l2
  <;> pick_tac

theorem cover_quad_trisect_3 (x y : K) (h : InRefEl .quad (x, y)) (polys : List (List (List ℤ)))
    (hp : Pattern.childPolygons ⟨.quad, (some 3), .trisect, true⟩ 0 = some polys) :
    ∃ P ∈ polys, InHalfPlanes P (x, y) := by
  simp only [InRefEl] at h
  simp [childPolygons, quadCells, needAnchor, RefEl.dimension] at hp
  subst hp
  half_tac
  rcases le_total ((-3 : K) * x + (-6) * y) ((-18 : K) / 6) with l0 | l0
  <;> rcases le_total ((3 : K) * x + (-6) * y) ((-18 : K) / 6) with l1 | l1
  <;> pick_tac

theorem cover_quad_quadsect_3 (x y : K) (h : InRefEl .quad (x, y)) (polys : List (List (List ℤ)))
    (hp : Pattern.childPolygons ⟨.quad, (some 3), .quadsect, true⟩ 0 = some polys) :
    ∃ P ∈ polys, InHalfPlanes P (x, y) := by
  simp only [InRefEl] at h
  simp [childPolygons, quadCells, needAnchor, RefEl.dimension] at hp
  subst hp
  half_tac
  rcases le_total ((-3 : K) * x + (6) * y) ((18 : K) / 6) with l0 | l0
  <;> rcases le_total ((3 : K) * x + (3) * y) ((9 : K) / 6) with l1 | l1
  <;> rcases le_total ((-6 : K) * x + (3) * y) ((-18 : K) / 6) with l2 | l2
  <;> pick_tac

theorem cover_quad_bisect_3 (x y : K) (h : InRefEl .quad (x, y)) (polys : List (List (List ℤ)))
    (hp : Pattern.childPolygons ⟨.quad, (some 3), .bisect, true⟩ 0 = some polys) :
    ∃ P ∈ polys, InHalfPlanes P (x, y) := by
  simp only [InRefEl] at h
  simp [childPolygons, quadCells, needAnchor, RefEl.dimension] at hp
  subst hp
  half_tac
  rcases le_total ((0 : K) * x + (-6) * y) ((-18 : K) / 6) with l0 | l0
  <;> pick_tac

theorem cover_quad_split_3 (x y : K) (h : InRefEl .quad (x, y)) (polys : List (List (List ℤ)))
    (hp : Pattern.childPolygons ⟨.quad, (some 3), .split, true⟩ 0 = some polys) :
    ∃ P ∈ polys, InHalfPlanes P (x, y) := by
  simp only [InRefEl] at h
  simp [childPolygons, quadCells, needAnchor, RefEl.dimension] at hp
  subst hp
  half_tac
  rcases le_total ((0 : K) * x + (-6) * y) ((-18 : K) / 6) with l0 | l0
  <;> pick_tac

theorem cover_quad_threeedge_3 (x y : K) (h : InRefEl .quad (x, y)) (polys : List (List (List ℤ)))
    (hp : Pattern.childPolygons ⟨.quad, (some 3), .threeedge, true⟩ 0 = some polys) :
    ∃ P ∈ polys, InHalfPlanes P (x, y) := by
  simp only [InRefEl] at h
  simp [childPolygons, quadCells, needAnchor, RefEl.dimension] at hp
  subst hp
  half_tac
  rcases le_total ((-6 : K) * x + (0) * y) ((-18 : K) / 6) with l0 | l0
  <;> rcases le_total ((3 : K) * x + (-3) * y) ((-9 : K) / 6) with l1 | l1
  <;> rcases le_total ((-3 : K) * x + (-3) * y) ((-9 : K) / 6) with l2 | l2
  <;> pick_tac

theorem cover_quad_copy (x y : K) (h : InRefEl .quad (x, y)) (polys : List (List (List ℤ)))
    (hp : Pattern.childPolygons ⟨.quad, none, .copy, false⟩ 0 = some polys) :
    ∃ P ∈ polys, InHalfPlanes P (x, y) := by
  simp only [InRefEl] at h
  simp [childPolygons, quadCells, RefEl.dimension] at hp
  subst hp
  half_tac
  pick_tac

theorem cover_quad_regular (x y : K) (h : InRefEl .quad (x, y)) (polys : List (List (List ℤ)))
    (hp : Pattern.childPolygons ⟨.quad, none, .regular, false⟩ 0 = some polys) :
    ∃ P ∈ polys, InHalfPlanes P (x, y) := by
  simp only [InRefEl] at h
  simp [childPolygons, quadCells, RefEl.dimension] at hp
  subst hp
  half_tac
  rcases le_total ((6 : K) * x + (0) * y) ((18 : K) / 6) with l0 | l0
  <;> rcases le_total ((0 : K) * x + (6) * y) ((18 : K) / 6) with l1 | l1
  <;> pick_tac

theorem cover_quad_barycentric (x y : K) (h : InRefEl .quad (x, y)) (polys : List (List (List ℤ)))
    (hp : Pattern.childPolygons ⟨.quad, none, .barycentric, false⟩ 0 = some polys) :
    ∃ P ∈ polys, InHalfPlanes P (x, y) := by
  simp only [InRefEl] at h
  simp [childPolygons, quadCells, RefEl.dimension] at hp
  subst hp
  half_tac
  rcases le_total ((6 : K) * x + (0) * y) ((18 : K) / 6) with l0 | l0
  <;> rcases le_total ((0 : K) * x + (6) * y) ((18 : K) / 6) with l1 | l1
  <;> pick_tac

end Verif
