import Verif.Lemmas.GeoCheck3

/-!
# C109: the constructors reject degenerate cells

The constructors of `TriaO1`, `QuadO1` and `Parallelogram` stop the program if a cell is degenerate up to a tolerance of
`1e-8`.  The theorems state what is accepted, that accepted triangles and parallelograms have regular parametrizations,
that this is not so for quadrilaterals (they are regular exactly if they are strictly convex, which is not checked), and
when refinement can fail because of the checks.
-/

namespace Verif
open Geo
variable {w : ℕ}

/-- **C109**: a triangle can be constructed iff it lies in the plane or in space, and its squared side lengths and twice
its area exceed `1e-8` times the sum of the squared side lengths. -/
theorem C109_tria (a b c : Vec ℝ w) (g : Geo ℝ w) : newTriaO1 [a, b, c] = some g ↔
    (w = 2 ∨ w = 3) ∧ WellShapedTria (1 / 10 ^ 8) a b c ∧ g = triaO1 a b c := newTria_iff a b c g

/-- **C109**: a quadrilateral can be constructed iff it lies in the plane or in space, and its squared side lengths and
twice the sum of the areas of the triangles on both sides of the first diagonal exceed `1e-8` times the sum of the squared
side lengths. -/
theorem C109_quad (a b c d : Vec ℝ w) (g : Geo ℝ w) : newQuadO1 [a, b, c, d] = some g ↔
    (w = 2 ∨ w = 3) ∧ WellShapedQuad (1 / 10 ^ 8) a b c d ∧ g = quadO1 a b c d := newQuad_iff a b c d g

/-- **C109**: a parallelogram can be constructed from its corners iff in addition the diagonals bisect each other, up to
`1e-8` times the length of the first diagonal. -/
theorem C109_parallelogram (a b c d : Vec ℝ w) (g : Geo ℝ w) : newParallelogram [a, b, c, d] = some g ↔
    (w = 2 ∨ w = 3) ∧ WellShapedQuad (1 / 10 ^ 8) a b c d ∧
      Real.sqrt (lengthSq (d + b) (c + a)) < 1 / 10 ^ 8 * Real.sqrt (lengthSq c a) ∧ g = parallelogram a b c d :=
  newParallelogram_iff a b c d g

/-- **C109**: a parallelogram can be constructed from a corner and its neighbours iff it is well shaped. -/
theorem C109_spanned (a b d : Vec ℝ w) (g : Geo ℝ w) : newSpanned a b d = some g ↔
    (w = 2 ∨ w = 3) ∧ WellShapedQuad (1 / 10 ^ 8) a b (b + (d - a)) d ∧ g = parallelogram a b (b + (d - a)) d :=
  newSpanned_iff a b d g

/-- **C109**: whether a triangle is accepted depends on the ratios of its side lengths only: not on its position, its
size, the dimension of space, ... -/
theorem C109_similar {w' : ℕ} (hw : w = 2 ∨ w = 3) (hw' : w' = 2 ∨ w' = 3) (s : ℝ) (hs : 0 < s) (a b c : Vec ℝ w)
    (a' b' c' : Vec ℝ w') (h1 : lengthSq a' b' = s * lengthSq a b) (h2 : lengthSq b' c' = s * lengthSq b c)
    (h3 : lengthSq c' a' = s * lengthSq c a) :
    newTriaO1 [a', b', c'] = some (triaO1 a' b' c') ↔ newTriaO1 [a, b, c] = some (triaO1 a b c) := by
  rw [newTria_iff, newTria_iff, wellShaped_similar hs h1 h2 h3]
  tauto

/-- **C109**: ... nor on the numbering of its corners. -/
theorem C109_numbering (a b c : Vec ℝ w) :
    (newTriaO1 [b, c, a] = some (triaO1 b c a) ↔ newTriaO1 [a, b, c] = some (triaO1 a b c)) ∧
    (newTriaO1 [a, c, b] = some (triaO1 a c b) ↔ newTriaO1 [a, b, c] = some (triaO1 a b c)) := by
  simp only [newTria_iff, wellShaped_rotate, wellShaped_swap, and_true]

/-- **C109**: the parametrization of a triangle which has been constructed is regular. -/
theorem C109_tria_regular (a b c : Vec ℝ w) (g : Geo ℝ w) (h : newTriaO1 [a, b, c] = some g) : g.Regular := by
  obtain ⟨hw, hs, rfl⟩ := (newTria_iff a b c g).1 h
  exact regular_of hw (Or.inl ⟨a, b, c, rfl⟩) fun x y _ => ⟨_, _, rfl, wellShapedTria_pos (by norm_num) hs⟩

/-- **C109**: the same for parallelograms, from four corners (where it may be a parallelogram up to a tolerance
only) and from three. -/
theorem C109_parallelogram_regular (a b c d : Vec ℝ w) (g : Geo ℝ w)
    (h : newParallelogram [a, b, c, d] = some g ∨ newSpanned a b d = some g) : g.Regular := by
  rcases h with h | h
  · obtain ⟨hw, hs, hp, rfl⟩ := (newParallelogram_iff a b c d g).1 h
    exact regular_of hw (Or.inr (Or.inr ⟨a, b, c, d, rfl⟩)) fun x y _ => ⟨_, _, rfl, parallelogram_pos hs hp⟩
  · obtain ⟨hw, hs, rfl⟩ := (newSpanned_iff a b d g).1 h
    have hk : (parallelogram a b (b + (d - a)) d).Kept := ⟨hw, Or.inr ⟨_, _, _, _, rfl, rfl, hs⟩⟩
    have h2 := (newParallelogram_iff a b (b + (d - a)) d _).1 hk.construct
    exact regular_of hw (Or.inr (Or.inr ⟨a, b, _, d, rfl⟩)) fun x y _ => ⟨_, _, rfl, parallelogram_pos hs h2.2.2.1⟩

/-- **C109**, partial: the parametrization of a quadrilateral in the plane is regular iff it is strictly convex.  Missing:
the constructor does not check this (`C109_quad_not`). -/
theorem C109_quad_partial (a b c d : Vec ℝ 2) : (quadO1 a b c d).Regular ↔ ConvexQuad a b c d :=
  quad_regular_convex a b c d

/-- **C109**: a quadrilateral with crossing sides is accepted by the constructor, although its parametrization is not
regular; its regular refinement stops the program. -/
theorem C109_quad_not : ∃ a b c d : Vec ℝ 2, ∃ g, newQuadO1 [a, b, c, d] = some g ∧ ¬ g.Regular ∧
    ∀ p : Pattern, p.ref = .quad → p.pat = .regular → (g.child p 0).isSome ∧ g.childChecked p 0 = none := by
  refine ⟨![0, 0], ![1, 0], ![0, 1], ![1, 1], quadO1 ![0, 0] ![1, 0] ![0, 1] ![1, 1], ?_, ?_, fun p hr hp => ?_⟩
  · refine (newQuad_iff _ _ _ _ _).2 ⟨Or.inl rfl, ?_, rfl⟩
    simp only [WellShapedQuad, spannedArea_eq, ← abs_det_eq]
    simp [lengthSq, Fin.sum_univ_two]
    norm_num
  · rw [quad_regular_convex]
    simp [ConvexQuad, cornerTurn]
  · unfold childChecked
    rw [quad_children _ _ _ _ hr hp, Option.bind_some, List.mapM_cons]
    have h0 : ∀ (b c d : Vec ℝ 2), c = d → (quadO1 (![0, 0] : Vec ℝ 2) b c d).construct = none := by
      rintro b c _ rfl
      cases h : (quadO1 (![0, 0] : Vec ℝ 2) b c c).construct with
      | none => rfl
      | some g =>
        have := ((newQuad_iff _ _ _ _ _).1 h).2.1.2.2.1
        have hn := wellShapedQuad_nonneg (tol := 1 / 10 ^ 8) (by norm_num) (![0, 0] : Vec ℝ 2) b c c
        have h1 : lengthSq c c = 0 := by simp [lengthSq]
        linarith
    rw [h0]
    · exact ⟨rfl, rfl⟩
    · funext i
      fin_cases i <;> norm_num

/-- **C109**: if a triangle or an exact parallelogram has been constructed, then all cells which arise from it by any
number of regular refinements pass the checks of their constructors. -/
theorem C109_refine (g d : Geo ℝ w)
    (hg : (∃ a b c, newTriaO1 [a, b, c] = some g) ∨ (∃ p0 p1 p2, newSpanned p0 p1 p2 = some g))
    (hd : RegularDescendant g d) : d.construct = some d := by
  refine Kept.construct (Kept.descendant ?_ hd)
  rcases hg with ⟨a, b, c, h⟩ | ⟨a, b, c, h⟩
  · obtain ⟨hw, hs, rfl⟩ := (newTria_iff a b c g).1 h
    exact ⟨hw, Or.inl ⟨a, b, c, rfl, hs⟩⟩
  · obtain ⟨hw, hs, rfl⟩ := (newSpanned_iff a b c g).1 h
    exact ⟨hw, Or.inr ⟨_, _, _, _, rfl, rfl, hs⟩⟩

/-- **C109**: in particular, regular refinement of such a cell does not fail. -/
theorem C109_refine_child (g : Geo ℝ w)
    (hg : (∃ a b c, newTriaO1 [a, b, c] = some g) ∨ (∃ p0 p1 p2, newSpanned p0 p1 p2 = some g))
    (p : Pattern) (hr : p.ref = g.kind) (hp : p.pat = .regular) :
    ∃ cs, g.childChecked p 0 = some cs ∧ g.child p 0 = some cs ∧ cs.length = 4 := by
  have hc : ∃ cs, g.child p 0 = some cs ∧ cs.length = 4 := by
    rcases hg with ⟨a, b, c, h⟩ | ⟨a, b, c, h⟩
    · obtain ⟨_, _, rfl⟩ := (newTria_iff a b c g).1 h
      exact ⟨_, tria_children a b c hr hp, rfl⟩
    · obtain ⟨_, _, rfl⟩ := (newSpanned_iff a b c g).1 h
      exact ⟨_, parallelogram_children _ _ _ _ hr hp, rfl⟩
  obtain ⟨cs, h1, h2⟩ := hc
  refine ⟨cs, ?_, h1, h2⟩
  unfold childChecked
  rw [h1, Option.bind_some]
  have : ∀ l : List (Geo ℝ w), (∀ c ∈ l, c.construct = some c) → l.mapM construct = some l := by
    intro l
    induction l with
    | nil => intro _; rfl
    | cons c l ih =>
      intro h
      rw [List.mapM_cons, h c (by simp), ih fun c hc => h c (by simp [hc])]
      rfl
  exact this cs fun c hm => C109_refine g c hg (.step .refl hp h1 hm)

/-- **C109**: bisection of a triangle which has been constructed may fail, even at its longest side. -/
theorem C109_bisect_not : ∃ a b c : Vec ℝ 2, ∃ g, newTriaO1 [a, b, c] = some g ∧
    lengthSq b c < lengthSq a b ∧ lengthSq c a < lengthSq a b ∧
    (Pattern.make .tria .bisect (some 0)).isSome ∧
    ((Pattern.make .tria .bisect (some 0)).bind fun p => g.childChecked p 0) = none := by
  refine ⟨![0, 0], ![1, 0], ![1 / 2, 1 / 10 ^ 5], triaO1 ![0, 0] ![1, 0] ![1 / 2, 1 / 10 ^ 5], ?_, ?_, ?_, rfl, ?_⟩
  · refine (newTria_iff _ _ _ _).2 ⟨Or.inl rfl, ?_, rfl⟩
    simp only [WellShapedTria, spannedArea_eq, ← abs_det_eq]
    simp [lengthSq, Fin.sum_univ_two]
    norm_num
  · simp [lengthSq, Fin.sum_univ_two]
    norm_num
  · simp [lengthSq, Fin.sum_univ_two]
    norm_num
  · have h1 : Pattern.make .tria .bisect (some 0) = some ⟨.tria, some 0, .bisect, true⟩ := rfl
    have h2 : (triaO1 (![0, 0] : Vec ℝ 2) ![1, 0] ![1 / 2, 1 / 10 ^ 5]).child ⟨.tria, some 0, .bisect, true⟩ 0 =
        some [triaO1 ![0, 0] ![1 / 2, 0] ![1 / 2, 1 / 10 ^ 5], triaO1 ![1, 0] ![1 / 2, 0] ![1 / 2, 1 / 10 ^ 5]] := by
      simp only [Geo.child, kind, Pattern.childPolygons, RefEl.dimension, Pattern.triaCells, Pattern.numChildren,
        Pattern.triaNode, Pattern.triaMid, Pattern.ltOne, Pattern.ltHalf, latticeConst, Pattern.needAnchor]
      norm_num
      simp [buildChild, latRef, global, mkTriaO1]
      norm_num
    rw [h1, Option.bind_some]
    unfold childChecked
    rw [h2, Option.bind_some, List.mapM_cons]
    have h3 : (triaO1 (![0, 0] : Vec ℝ 2) ![1 / 2, 0] ![1 / 2, 1 / 10 ^ 5]).construct = none := by
      cases h : (triaO1 (![0, 0] : Vec ℝ 2) ![1 / 2, 0] ![1 / 2, 1 / 10 ^ 5]).construct with
      | none => rfl
      | some g =>
        have := ((newTria_iff _ _ _ _).1 h).2.1.2.1
        simp [lengthSq, Fin.sum_univ_two] at this
        norm_num at this
    rw [h3]
    rfl

/-- **C109**: the geometries returned by `GeometryInParent` for the children of cells pass the checks of their
constructors, for all patterns. -/
theorem C109_relative (r : RefEl) (hr : r = .tria ∨ r = .quad) (pat : RefPat) (anchor : Option ℕ) (p : Pattern)
    (hp : Pattern.make r pat anchor = some p) (polys : List (List (List ℤ))) (hl : p.childPolygons 0 = some polys) :
    ∀ poly ∈ polys, ∃ g, relativeChecked 2 poly = some g ∧ relative 2 poly = some g := by
  have hpr : p = ⟨r, anchor, pat, anchor.isSome⟩ ∧ ∀ a, anchor = some a → a < 4 := by
    unfold Pattern.make Pattern.checkAnchor at hp
    cases anchor with
    | none =>
      cases hp
      exact ⟨rfl, fun a h => by cases h⟩
    | some a =>
      rcases hr with rfl | rfl
      · simp only [RefEl.numSubEntities, Option.bind_eq_some_iff] at hp
        obtain ⟨n, hn, hp⟩ := hp
        cases hn
        split_ifs at hp with h4
        cases hp
        exact ⟨rfl, fun a' h' => by cases h'; exact lt_trans h4 (by decide)⟩
      · simp only [RefEl.numSubEntities, Option.bind_eq_some_iff] at hp
        obtain ⟨n, hn, hp⟩ := hp
        cases hn
        split_ifs at hp with h4
        cases hp
        exact ⟨rfl, fun a' h' => by cases h'; exact h4⟩
  obtain ⟨rfl, ha⟩ := hpr
  intro poly hm
  obtain ⟨g, hg⟩ := relative_cells (p := ⟨r, anchor, pat, anchor.isSome⟩) hr ha hl poly hm
  refine ⟨g, hg, ?_⟩
  unfold relativeChecked at hg
  obtain ⟨g', h1, h2⟩ := Option.bind_eq_some_iff.1 hg
  rw [h1]
  congr 1
  cases g' with
  | triaO1 a b c => exact ((newTria_iff a b c g).1 h2).2.2.symm
  | quadO1 a b c d => exact ((newQuad_iff a b c d g).1 h2).2.2.symm
  | parallelogram a b c d => exact ((newParallelogram_iff a b c d g).1 h2).2.2.2.symm
  | point a => cases h2; rfl
  | segO1 a b => cases h2; rfl
  | segO2 a b m => cases h2; rfl
  | triaO2 a b c d e f => cases h2; rfl
  | quadO2 a b c d e f g h => cases h2; rfl

/-- A triangle in space is accepted, one with three corners on a line is not. -/
example : newTriaO1 [(![0, 0, 0] : Vec ℝ 3), ![1, 0, 0], ![0, 1, 1]] = some (triaO1 ![0, 0, 0] ![1, 0, 0] ![0, 1, 1]) ∧
    newTriaO1 [(![0, 0] : Vec ℝ 2), ![1, 1], ![2, 2]] = none := by
  constructor
  · refine (C109_tria _ _ _ _).2 ⟨Or.inr rfl, ?_, rfl⟩
    have hg : Real.sqrt (gramDet ((![1, 0, 0] : Vec ℝ 3) - ![0, 0, 0]) (![0, 1, 1] - ![0, 0, 0])) = Real.sqrt 2 := by
      congr 1
      simp [gramDet, dot, Fin.sum_univ_three]
      norm_num
    have h2 : (1 : ℝ) ≤ Real.sqrt 2 := Real.one_le_sqrt.2 (by norm_num)
    simp only [WellShapedTria, spannedArea_eq, hg]
    simp [lengthSq, Fin.sum_univ_three]
    refine ⟨?_, ?_, ?_, lt_of_lt_of_le ?_ h2⟩ <;> norm_num
  · cases h : newTriaO1 [(![0, 0] : Vec ℝ 2), ![1, 1], ![2, 2]] with
    | none => rfl
    | some g =>
      have h1 := ((C109_tria _ _ _ _).1 h).2.1.2.2.2
      simp only [spannedArea_eq, ← abs_det_eq] at h1
      simp [lengthSq, Fin.sum_univ_two] at h1
      norm_num at h1

/-- A parallelogram spanned by two sides; regular refinement is possible. -/
example : ∃ g, newSpanned (![0, 0] : Vec ℝ 2) ![2, 0] ![1, 1] = some g := by
  refine ⟨_, (C109_spanned _ _ _ _).2 ⟨Or.inl rfl, ?_, rfl⟩⟩
  simp only [WellShapedQuad, spannedArea_eq, ← abs_det_eq]
  simp [lengthSq, Fin.sum_univ_two]
  norm_num

/-- A strictly convex quadrilateral which is not a parallelogram. -/
example : ConvexQuad ![0, 0] ![3, 0] ![2, 2] ![0, 1] ∧
    (newQuadO1 [(![0, 0] : Vec ℝ 2), ![3, 0], ![2, 2], ![0, 1]]).isSome := by
  constructor
  · left
    simp [cornerTurn]
    norm_num
  · have : newQuadO1 [(![0, 0] : Vec ℝ 2), ![3, 0], ![2, 2], ![0, 1]] = some _ :=
      (C109_quad _ _ _ _ _).2 ⟨Or.inl rfl, by
        simp only [WellShapedQuad, spannedArea_eq, ← abs_det_eq]
        simp [lengthSq, Fin.sum_univ_two]
        norm_num, rfl⟩
    rw [this]
    rfl

end Verif
