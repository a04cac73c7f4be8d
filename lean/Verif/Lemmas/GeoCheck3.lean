import Verif.Lemmas.GeoCheck2
import Mathlib.Tactic.FinCases
import Mathlib.Tactic.IntervalCases

/-! Degeneracy checks: children of cells. -/

namespace Verif
namespace Geo
variable {w : ℕ}

/-- What is kept under regular refinement: an accepted triangle, or an accepted exact parallelogram. -/
def Kept (g : Geo ℝ w) : Prop :=
  (w = 2 ∨ w = 3) ∧ ((∃ a b c, g = triaO1 a b c ∧ WellShapedTria (1 / 10 ^ 8) a b c) ∨
    ∃ a b c d, g = parallelogram a b c d ∧ c = b + (d - a) ∧ WellShapedQuad (1 / 10 ^ 8) a b c d)

theorem Kept.construct {g : Geo ℝ w} (h : g.Kept) : g.construct = some g := by
  obtain ⟨hw, ⟨a, b, c, rfl, hs⟩ | ⟨a, b, c, d, rfl, hc, hs⟩⟩ := h
  · exact (newTria_iff a b c _).2 ⟨hw, hs, rfl⟩
  · refine (newParallelogram_iff a b c d _).2 ⟨hw, hs, ?_, rfl⟩
    have e : d + b = c + a := by rw [hc]; abel
    rw [e]
    have h0 : lengthSq (c + a) (c + a) = 0 := by simp [lengthSq]
    rw [h0, Real.sqrt_zero]
    refine mul_pos (by norm_num) (Real.sqrt_pos.2 (lt_of_le_of_ne (lengthSq_nonneg _ _) fun h1 => ?_))
    rw [lengthSq_eq] at h1
    have h2 : c - a = 0 := gc_dot_self_eq_zero h1.symm
    obtain ⟨_, _, _, _, h5⟩ := hs
    have hn := wellShapedQuad_nonneg (tol := 1 / 10 ^ 8) (by norm_num) a b c d
    rw [spannedArea_eq, spannedArea_eq, h2] at h5
    simp [gramDet, dot] at h5
    norm_num at hn
    linarith

/-- A triangle with half the sides. -/
theorem half_tria {a b c a' b' c' : Vec ℝ w} (h : WellShapedTria (1 / 10 ^ 8) a b c)
    (h1 : b' - a' = (1 / 2 : ℝ) • (b - a) ∨ b' - a' = -((1 / 2 : ℝ) • (b - a)))
    (h2 : c' - b' = (1 / 2 : ℝ) • (c - b) ∨ c' - b' = -((1 / 2 : ℝ) • (c - b)))
    (h3 : a' - c' = (1 / 2 : ℝ) • (a - c) ∨ a' - c' = -((1 / 2 : ℝ) • (a - c))) :
    WellShapedTria (1 / 10 ^ 8) a' b' c' := by
  refine (wellShaped_similar (s := 1 / 4) (by norm_num) ?_ ?_ ?_).2 h
  · rw [lengthSq_comm, lengthSq_comm a b, lengthSq_eq, lengthSq_eq]
    rcases h1 with h | h <;> rw [h] <;>
      simp only [gc_dot_neg_left, gc_dot_neg_right, gc_dot_smul_left, gc_dot_smul_right] <;> ring
  · rw [lengthSq_comm, lengthSq_comm b c, lengthSq_eq, lengthSq_eq]
    rcases h2 with h | h <;> rw [h] <;>
      simp only [gc_dot_neg_left, gc_dot_neg_right, gc_dot_smul_left, gc_dot_smul_right] <;> ring
  · rw [lengthSq_comm, lengthSq_comm c a, lengthSq_eq, lengthSq_eq]
    rcases h3 with h | h <;> rw [h] <;>
      simp only [gc_dot_neg_left, gc_dot_neg_right, gc_dot_smul_left, gc_dot_smul_right] <;> ring

/-- A parallelogram with half the sides, from any of its corners. -/
theorem half_parallelogram {x y x' y' a : Vec ℝ w} (o : Vec ℝ w) (h : WellShapedQuad (1 / 10 ^ 8) o (o + x) (o + x + y) (o + y))
    (h1 : (dot x' x' = 1 / 4 * dot x x ∧ dot y' y' = 1 / 4 * dot y y) ∨
      (dot x' x' = 1 / 4 * dot y y ∧ dot y' y' = 1 / 4 * dot x x))
    (h2 : dot x' y' * dot x' y' = 1 / 16 * (dot x y * dot x y)) :
    WellShapedQuad (1 / 10 ^ 8) a (a + x') (a + x' + y') (a + y') := by
  rw [wellShaped_parallelogram] at h ⊢
  have hg : gramDet x' y' = (1 / 4) ^ 2 * gramDet x y := by
    unfold gramDet
    rcases h1 with ⟨e1, e2⟩ | ⟨e1, e2⟩ <;> rw [e1, e2, h2] <;> ring
  rw [hg, Real.sqrt_mul (by positivity), Real.sqrt_sq (by norm_num)]
  obtain ⟨a1, a2, a3⟩ := h
  rcases h1 with ⟨e1, e2⟩ | ⟨e1, e2⟩ <;> rw [e1, e2] <;> refine ⟨?_, ?_, ?_⟩ <;> linarith

/-- The four children of a triangle under regular refinement. -/
theorem tria_children (a b c : Vec ℝ w) {p : Pattern} (hr : p.ref = .tria) (hp : p.pat = .regular) :
    (triaO1 a b c).child p 0 = some
      [triaO1 a ((1 / 2 : ℝ) • (a + b)) ((1 / 2 : ℝ) • (a + c)),
       triaO1 b ((1 / 2 : ℝ) • (a + b)) ((1 / 2 : ℝ) • (b + c)),
       triaO1 c ((1 / 2 : ℝ) • (a + c)) ((1 / 2 : ℝ) • (b + c)),
       triaO1 ((1 / 2 : ℝ) • (a + b)) ((1 / 2 : ℝ) • (b + c)) ((1 / 2 : ℝ) • (a + c))] := by
  obtain ⟨r, an, pt, as⟩ := p
  simp only at hr hp
  subst hr hp
  simp only [child, kind, Pattern.childPolygons, RefEl.dimension, Pattern.triaCells, Pattern.numChildren,
    Pattern.triaNode, Pattern.triaMid, Pattern.ltOne, Pattern.ltHalf, latticeConst]
  norm_num
  simp [buildChild, latRef, global, mkTriaO1]
  constructorm* _ ∧ _ <;> (funext i; simp; ring)

/-- The four children of a parallelogram under regular refinement. -/
theorem parallelogram_children (a b c d : Vec ℝ w) {p : Pattern} (hr : p.ref = .quad) (hp : p.pat = .regular) :
    (parallelogram a b c d).child p 0 = some
      [parallelogram a ((1 / 2 : ℝ) • (a + b)) ((1 / 2 : ℝ) • (b + d)) ((1 / 2 : ℝ) • (a + d)),
       parallelogram b (b + (1 / 2 : ℝ) • (d - a)) ((1 / 2 : ℝ) • (b + d)) ((1 / 2 : ℝ) • (a + b)),
       parallelogram (b + (d - a)) (b + (1 / 2 : ℝ) • (d - a)) ((1 / 2 : ℝ) • (b + d)) (d + (1 / 2 : ℝ) • (b - a)),
       parallelogram d (d + (1 / 2 : ℝ) • (b - a)) ((1 / 2 : ℝ) • (b + d)) ((1 / 2 : ℝ) • (a + d))] := by
  obtain ⟨r, an, pt, as⟩ := p
  simp only at hr hp
  subst hr hp
  simp only [child, kind, Pattern.childPolygons, RefEl.dimension, Pattern.quadCells, Pattern.numChildren,
    Pattern.quadNode, Pattern.quadMid, Pattern.quadCenter, Pattern.ltOne, Pattern.ltHalf, latticeConst]
  norm_num
  simp [buildChild, latRef, global, mkParallelogram, latParallelogram]
  constructorm* _ ∧ _ <;> (funext i; simp; ring)

/-- The four children of a quadrilateral under regular refinement. -/
theorem quad_children (a b c d : Vec ℝ w) {p : Pattern} (hr : p.ref = .quad) (hp : p.pat = .regular) :
    (quadO1 a b c d).child p 0 = some
      [quadO1 a ((1 / 2 : ℝ) • (a + b)) ((1 / 4 : ℝ) • (a + b + c + d)) ((1 / 2 : ℝ) • (a + d)),
       quadO1 b ((1 / 2 : ℝ) • (b + c)) ((1 / 4 : ℝ) • (a + b + c + d)) ((1 / 2 : ℝ) • (a + b)),
       quadO1 c ((1 / 2 : ℝ) • (b + c)) ((1 / 4 : ℝ) • (a + b + c + d)) ((1 / 2 : ℝ) • (c + d)),
       quadO1 d ((1 / 2 : ℝ) • (c + d)) ((1 / 4 : ℝ) • (a + b + c + d)) ((1 / 2 : ℝ) • (a + d))] := by
  obtain ⟨r, an, pt, as⟩ := p
  simp only at hr hp
  subst hr hp
  simp only [child, kind, Pattern.childPolygons, RefEl.dimension, Pattern.quadCells, Pattern.numChildren,
    Pattern.quadNode, Pattern.quadMid, Pattern.quadCenter, Pattern.ltOne, Pattern.ltHalf, latticeConst]
  norm_num
  simp [buildChild, latRef, global, mkQuadO1]
  constructorm* _ ∧ _ <;> (funext i; simp; ring)

theorem Kept.child {g : Geo ℝ w} (h : g.Kept) {p : Pattern} (hp : p.pat = .regular) {cs : List (Geo ℝ w)}
    (hc : g.child p 0 = some cs) : ∀ c ∈ cs, c.Kept := by
  have hr : p.ref = g.kind := by
    by_contra h1
    unfold Geo.child at hc
    rw [if_neg h1] at hc
    cases hc
  obtain ⟨hw, ⟨a, b, c, rfl, hs⟩ | ⟨a, b, c, d, rfl, hcc, hs⟩⟩ := h
  · rw [tria_children a b c hr hp] at hc
    cases hc
    intro t ht
    refine ⟨hw, Or.inl ?_⟩
    simp only [List.mem_cons, List.not_mem_nil, or_false] at ht
    rcases ht with rfl | rfl | rfl | rfl
    · refine ⟨_, _, _, rfl, half_tria hs (Or.inl ?_) (Or.inl ?_) (Or.inl ?_)⟩ <;> (funext i; simp; ring)
    · refine ⟨_, _, _, rfl, half_tria (wellShaped_rotate.1 (wellShaped_swap.2 hs)) (Or.inl ?_) (Or.inl ?_) (Or.inl ?_)⟩ <;>
        (funext i; simp; ring)
    · refine ⟨_, _, _, rfl, half_tria (wellShaped_rotate.2 (wellShaped_rotate.2 hs)) (Or.inl ?_) (Or.inl ?_) (Or.inl ?_)⟩ <;>
        (funext i; simp; ring)
    · refine ⟨_, _, _, rfl, half_tria (wellShaped_rotate.2 (wellShaped_rotate.2 hs)) (Or.inr ?_) (Or.inr ?_) (Or.inr ?_)⟩ <;>
        (funext i; simp; ring)
  · rw [parallelogram_children a b c d hr hp] at hc
    cases hc
    have hs' : WellShapedQuad (1 / 10 ^ 8) a (a + (b - a)) (a + (b - a) + (d - a)) (a + (d - a)) := by
      have e1 : a + (b - a) = b := by abel
      have e2 : a + (d - a) = d := by abel
      rw [e1, e2, ← hcc]
      exact hs
    generalize hx : b - a = x at *
    generalize hy : d - a = y at *
    have hb : b = a + x := by rw [← hx]; abel
    have hd : d = a + y := by rw [← hy]; abel
    subst hb hd
    intro t ht
    refine ⟨hw, Or.inr ?_⟩
    have hk : ∀ (o x' y' o1 o2 o3 : Vec ℝ w), o1 = o + x' → o2 = o + x' + y' → o3 = o + y' →
        ((dot x' x' = 1 / 4 * dot x x ∧ dot y' y' = 1 / 4 * dot y y) ∨
          (dot x' x' = 1 / 4 * dot y y ∧ dot y' y' = 1 / 4 * dot x x)) →
        dot x' y' * dot x' y' = 1 / 16 * (dot x y * dot x y) →
        ∃ a' b' c' d', parallelogram o o1 o2 o3 = parallelogram a' b' c' d' ∧ c' = b' + (d' - a') ∧
          WellShapedQuad (1 / 10 ^ 8) a' b' c' d' := by
      rintro o x' y' o1 o2 o3 rfl rfl rfl h1 h2
      exact ⟨_, _, _, _, rfl, by abel, half_parallelogram a hs' h1 h2⟩
    simp only [List.mem_cons, List.not_mem_nil, or_false] at ht
    rcases ht with rfl | rfl | rfl | rfl
    · refine hk _ ((1 / 2 : ℝ) • x) ((1 / 2 : ℝ) • y) _ _ _ ?_ ?_ ?_ ?_ ?_
      any_goals (funext i; simp <;> ring)
      · simp only [gc_dot_smul_left, gc_dot_smul_right]
        left
        constructor <;> ring
      · simp only [gc_dot_smul_left, gc_dot_smul_right]
        ring
    · refine hk _ ((1 / 2 : ℝ) • y) (-((1 / 2 : ℝ) • x)) _ _ _ ?_ ?_ ?_ ?_ ?_
      any_goals (funext i; simp <;> ring)
      · simp only [gc_dot_smul_left, gc_dot_smul_right, gc_dot_neg_left, gc_dot_neg_right]
        right
        constructor <;> ring
      · simp only [gc_dot_smul_left, gc_dot_smul_right, gc_dot_neg_left, gc_dot_neg_right, gc_dot_comm y x]
        ring
    · refine hk _ (-((1 / 2 : ℝ) • y)) (-((1 / 2 : ℝ) • x)) _ _ _ ?_ ?_ ?_ ?_ ?_
      any_goals (funext i; simp <;> ring)
      · simp only [gc_dot_smul_left, gc_dot_smul_right, gc_dot_neg_left, gc_dot_neg_right]
        right
        constructor <;> ring
      · simp only [gc_dot_smul_left, gc_dot_smul_right, gc_dot_neg_left, gc_dot_neg_right, gc_dot_comm y x]
        ring
    · refine hk _ ((1 / 2 : ℝ) • x) (-((1 / 2 : ℝ) • y)) _ _ _ ?_ ?_ ?_ ?_ ?_
      any_goals (funext i; simp <;> ring)
      · simp only [gc_dot_smul_left, gc_dot_smul_right, gc_dot_neg_left, gc_dot_neg_right]
        left
        constructor <;> ring
      · simp only [gc_dot_smul_left, gc_dot_smul_right, gc_dot_neg_left, gc_dot_neg_right]
        ring

theorem Kept.descendant {g d : Geo ℝ w} (h : g.Kept) (hd : RegularDescendant g d) : d.Kept := by
  induction hd with
  | refl => exact h
  | step _ hp hc hm ih => exact ih.child hp hc _ hm

/-! ### Relative geometries -/

/-- The check for a triangle or quadrilateral with integer coordinates. -/
def latOk : List (List ℤ) → Bool
  | [[a, b], [c, d], [e, f]] =>
    let l0 := (c - a) * (c - a) + (d - b) * (d - b)
    let l1 := (e - c) * (e - c) + (f - d) * (f - d)
    let l2 := (e - a) * (e - a) + (f - b) * (f - b)
    let s := l0 + l1 + l2
    decide (s < 100000000 * l0 ∧ s < 100000000 * l1 ∧ s < 100000000 * l2 ∧
      s < 100000000 * |(c - a) * (f - b) - (d - b) * (e - a)|)
  | [[a, b], [c, d], [e, f], [g, h]] =>
    let l0 := (c - a) * (c - a) + (d - b) * (d - b)
    let l1 := (e - c) * (e - c) + (f - d) * (f - d)
    let l2 := (g - e) * (g - e) + (h - f) * (h - f)
    let l3 := (a - g) * (a - g) + (b - h) * (b - h)
    let s := l0 + l1 + l2 + l3
    decide (s < 100000000 * l0 ∧ s < 100000000 * l1 ∧ s < 100000000 * l2 ∧ s < 100000000 * l3 ∧
      s < 100000000 * (|(c - a) * (f - b) - (d - b) * (e - a)| + |(g - a) * (f - b) - (h - b) * (e - a)|))
  | _ => false

theorem lat_scale {s l : ℤ} (h : s < 100000000 * l) : (1 / 10 ^ 8 : ℝ) * ((s : ℝ) / 36) < (l : ℝ) / 36 := by
  have : (s : ℝ) < 100000000 * l := by exact_mod_cast h
  norm_num
  linarith

/-- A column of a relative geometry. -/
noncomputable def latVec (a b : ℤ) : Vec ℝ 2 := ofEntries 2 (latRef [a, b])

theorem latVec_length (a b c d : ℤ) : lengthSq (latVec a b) (latVec c d) =
    (((c - a) * (c - a) + (d - b) * (d - b) : ℤ) : ℝ) / 36 := by
  simp [lengthSq, Fin.sum_univ_two, latVec, ofEntries, latRef]
  ring

theorem latVec_area (a b c d e f : ℤ) : spannedArea (latVec c d - latVec a b) (latVec e f - latVec a b) =
    ((|(c - a) * (f - b) - (d - b) * (e - a)| : ℤ) : ℝ) / 36 := by
  rw [spannedArea_eq, ← abs_det_eq, Int.cast_abs, show (36 : ℝ) = |36| by norm_num, ← abs_div]
  congr 1
  simp [latVec, ofEntries, latRef]
  ring

theorem relative_ok {poly : List (List ℤ)} (h : latOk poly = true) : ∃ r, relativeChecked 2 poly = some r := by
  unfold latOk at h
  split at h
  · rename_i a b c d e f
    simp only [decide_eq_true_eq] at h
    obtain ⟨h0, h1, h2, h3⟩ := h
    refine ⟨_, (newTria_iff (latVec a b) (latVec c d) (latVec e f) _).2 ⟨Or.inl rfl, ?_, rfl⟩⟩
    unfold WellShapedTria
    rw [lengthSq_comm (latVec e f) (latVec a b)]
    simp only [latVec_length, latVec_area, ← add_div, ← Int.cast_add]
    exact ⟨lat_scale h0, lat_scale h1, lat_scale h2, lat_scale h3⟩
  · rename_i a b c d e f g k
    simp only [decide_eq_true_eq] at h
    obtain ⟨h0, h1, h2, h3, h4⟩ := h
    refine ⟨_, (newQuad_iff (latVec a b) (latVec c d) (latVec e f) (latVec g k) _).2 ⟨Or.inl rfl, ?_, rfl⟩⟩
    unfold WellShapedQuad
    simp only [latVec_length, latVec_area, ← add_div, ← Int.cast_add]
    exact ⟨lat_scale h0, lat_scale h1, lat_scale h2, lat_scale h3, lat_scale h4⟩
  · cases h

/-- Patterns with an anchor which is a side of the cell. -/
theorem pattern_lat (r : RefEl) (hr : r = .tria ∨ r = .quad) (pat : RefPat) (as : Bool) (an : Option ℕ)
    (ha : ∀ a, an = some a → a < 4) :
    ((Pattern.mk r an pat as).childPolygons 0).all (fun l => l.all latOk) = true := by
  have key : ∀ r ∈ [RefEl.tria, RefEl.quad], ∀ pat ∈ [RefPat.nil, .copy, .split, .bisect, .trisect, .trisectLeft,
      .quadsect, .threeedge, .regular, .barycentric], ∀ as ∈ [true, false], ∀ an ∈ [none, some 0, some 1, some 2, some 3],
      ((Pattern.mk r an pat as).childPolygons 0).all (fun l => l.all latOk) = true := by
    decide +kernel
  refine key r (by rcases hr with rfl | rfl <;> simp) pat (by cases pat <;> simp) as (by cases as <;> simp) an ?_
  match an, ha with
  | none, _ => simp
  | some a, ha =>
    have := ha a rfl
    interval_cases a <;> simp

theorem relative_cells {p : Pattern} (hr : p.ref = .tria ∨ p.ref = .quad)
    (ha : ∀ a, p.anchor = some a → a < 4) {polys : List (List (List ℤ))} (hp : p.childPolygons 0 = some polys) :
    ∀ poly ∈ polys, ∃ g, relativeChecked 2 poly = some g := by
  have h := pattern_lat p.ref hr p.pat p.anchorSet p.anchor ha
  have e : (⟨p.ref, p.anchor, p.pat, p.anchorSet⟩ : Pattern) = p := rfl
  rw [e, hp] at h
  simp only [Option.all_some, List.all_eq_true] at h
  exact fun poly hm => relative_ok (h poly hm)

end Geo
end Verif
