import Verif.Spec.Shape
import Verif.Lemmas.NvbLink
import Verif.Lemmas.Relative
import Verif.Lemmas.Geometry
import Mathlib.Tactic.Module

/-! Shapes of the children of triangles. -/

namespace Verif
variable {K : Type} {w : ℕ} [Field K] [LinearOrder K] [IsStrictOrderedRing K]

/-- The lattice polygon which describes child `k`. -/
def childPoly (pat : RefPat) (anchor : Option ℕ) (k : ℕ) : Option (List (List ℤ)) :=
  (Pattern.make .tria pat anchor).bind fun p => (p.childPolygons 0).bind fun l => l[k]?

/-- The geometry of a child, by the vertices of the polygon. -/
theorem buildChild_tria {p0 p1 p2 : Vec K w} {x0 y0 x1 y1 x2 y2 : ℤ} {h : Geo K w}
    (hb : Geo.buildChild (.triaO1 p0 p1 p2) 0 [[x0, y0], [x1, y1], [x2, y2]] = some h) :
    h = .triaO1 ((1 - (1 / 6 : K) * x0 - (1 / 6 : K) * y0) • p0 + ((1 / 6 : K) * x0) • p1 + ((1 / 6 : K) * y0) • p2)
      ((1 - (1 / 6 : K) * x1 - (1 / 6 : K) * y1) • p0 + ((1 / 6 : K) * x1) • p1 + ((1 / 6 : K) * y1) • p2)
      ((1 - (1 / 6 : K) * x2 - (1 / 6 : K) * y2) • p0 + ((1 / 6 : K) * x2) • p1 + ((1 / 6 : K) * y2) • p2) := by
  unfold Geo.buildChild at hb
  simp only [List.length_cons, List.length_nil, if_true, List.map_cons, List.map_nil, List.mapM_cons, List.mapM_nil,
    Geo.latRef, Geo.global] at hb
  simp [Geo.mkTriaO1] at hb
  simp [← hb]

theorem childCorner_tab {pat : RefPat} {anchor : Option ℕ} {k r x : ℕ} {l : Option ℕ} {p0 p1 p2 : Vec K w}
    {h : Geo K w} {poly : List (List ℤ)} (hr : r < 3)
    (ha : (pat ∈ [RefPat.copy, .bisect, .trisect, .trisectLeft, .regular] ∧ anchor = some r) ∨
      (pat = .regular ∧ anchor = none))
    (hx : childRefEdge pat k (some r) l = some (some x)) (hp : childPoly pat anchor k = some poly)
    (hb : Geo.buildChild (.triaO1 p0 p1 p2) 0 poly = some h) :
    ∃ u q0 q1 q2 y, triaCorner p0 p1 p2 r = some u ∧ h = .triaO1 q0 q1 q2 ∧ triaCorner q0 q1 q2 x = some y ∧
      ChildCorner pat k u y := by
  have hk : k = 0 ∨ k = 1 ∨ k = 2 ∨ k = 3 ∨ ∃ m, k = m + 4 := by
    by_cases h : k < 4
    · omega
    · exact Or.inr (Or.inr (Or.inr (Or.inr ⟨k - 4, by omega⟩)))
  have h3 : r = 0 ∨ r = 1 ∨ r = 2 := by omega
  simp only [List.mem_cons, List.not_mem_nil, or_false] at ha
  rcases ha with ⟨rfl | rfl | rfl | rfl | rfl, rfl⟩ | ⟨rfl, rfl⟩ <;> rcases h3 with rfl | rfl | rfl <;>
    rcases hk with rfl | rfl | rfl | rfl | ⟨m, rfl⟩ <;> cases hx <;> cases hp <;>
    refine ⟨_, _, _, _, _, rfl, buildChild_tria hb, rfl, ?_⟩ <;>
    simp only [ChildCorner, Scaled, Prod.mk.injEq, Pattern.ltOne, Pattern.ltHalf, latticeConst, Int.reduceDiv] <;> push_cast <;>
    first
      | (constructor <;> module)
      | (left; constructor <;> module)
      | (right; constructor <;> module)

end Verif
