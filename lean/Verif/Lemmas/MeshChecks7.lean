import Verif.Lemmas.MeshChecks6

/-!
# The tables of the test meshes
-/

namespace Verif
namespace MC
open Geo TestMesh

/-- What is to be shown for a test mesh. -/
structure TableOk (sel : ℤ) (scale : ℝ) (l : List (ℝ × ℝ)) (ns : List (List ℕ)) (fits : Prop) : Prop where
  topo : topoOk l.length ns = true
  ex : ∃ cells : List CellSpec, calls sel scale = some (points scale l ++ cells.map callOf) ∧ cells.map (·.1) = ns ∧
    (∀ c ∈ cells, GeoOk l c) ∧
    ((∀ c ∈ cells, ∀ g, c.2 = some g → g.HasCorners (c.1.map fun v => (l[v]?).map fun p => scale • ![p.1, p.2])) ↔ fits)

theorem par_ok {a b c d : Vec ℝ 2} (h : newParallelogram [a, b, c, d] = some (parallelogram a b c d))
    (hp : d + b = c + a) (l : List (ℝ × ℝ)) (n0 n1 n2 n3 : ℕ) :
    GeoOk l ([n0, n1, n2, n3], some (parallelogram a b c d)) := by
  refine ⟨rfl, ?_, Option.isSome_iff_exists.2 ⟨_, h⟩⟩
  change d - c + b - a = 0
  rw [sub_add_eq_add_sub, hp]
  abel

theorem corners_par {a b c d : Vec ℝ 2} (hp : d + b = c + a) (xs : List (Option (Vec ℝ 2))) :
    (parallelogram a b c d).HasCorners xs ↔ xs = [some a, some b, some c, some d] := by
  have e : -a + b + d = c := by rw [add_assoc, add_comm b d, hp]; abel
  unfold Geo.HasCorners
  simp only [Geo.kind, refNodeCoords, List.map_cons, List.map_nil, Geo.global]
  simp [e]
  exact eq_comm

theorem corners_quad {a b c d : Vec ℝ 2} (xs : List (Option (Vec ℝ 2))) :
    (quadO1 a b c d).HasCorners xs ↔ xs = [some a, some b, some c, some d] := by
  unfold Geo.HasCorners
  simp only [Geo.kind, refNodeCoords, List.map_cons, List.map_nil, Geo.global]
  simp
  exact eq_comm

theorem table0 (scale : ℝ) : TableOk 0 scale
    [(3 / 2, 2), (1, 1), (2, 1), (0, 0), (3 / 2, 0), (3, 0), (3, 2), (3, 3), (0, 3), (0, 1)]
    [[0, 8, 9], [3, 4, 1], [4, 2, 1], [4, 5, 2], [5, 6, 2], [3, 1, 0, 9], [2, 6, 7, 0], [0, 7, 8], [0, 1, 2]] True := by
  refine ⟨by decide, [([0, 8, 9], none), ([3, 4, 1], none), ([4, 2, 1], none), ([4, 5, 2], none), ([5, 6, 2], none),
    ([3, 1, 0, 9], none), ([2, 6, 7, 0], none), ([0, 7, 8], none), ([0, 1, 2], none)], rfl, rfl, ?_, by simp⟩
  simp only [List.forall_mem_cons, List.not_mem_nil, false_imp_iff, implies_true, and_true]
  refine ⟨?_, ?_, ?_, ?_, ?_, ?_, ?_, ?_, ?_⟩
  all_goals first
    | (refine tria_shape ?_; rintro s rfl; norm_num)
    | (refine quad_shape ?_; rintro s rfl; norm_num)

theorem table3 (scale : ℝ) : TableOk 3 scale
    [(0, 0), (3 / 2, 0), (3, 0), (1, 1), (2, 1), (3, 1), (0, 3 / 2), (2, 3 / 2), (1, 2), (3, 2), (0, 3), (3 / 2, 3), (3, 3)]
    [[0, 1, 3], [1, 2, 4], [0, 3, 6], [1, 3, 4], [4, 2, 5], [3, 4, 7], [4, 5, 7], [3, 6, 8], [7, 8, 3], [5, 7, 9],
      [6, 8, 10], [8, 7, 11], [7, 9, 12], [10, 8, 11], [7, 12, 11]] True := by
  refine ⟨by decide, [([0, 1, 3], none), ([1, 2, 4], none), ([0, 3, 6], none), ([1, 3, 4], none), ([4, 2, 5], none),
    ([3, 4, 7], none), ([4, 5, 7], none), ([3, 6, 8], none), ([7, 8, 3], none), ([5, 7, 9], none), ([6, 8, 10], none),
    ([8, 7, 11], none), ([7, 9, 12], none), ([10, 8, 11], none), ([7, 12, 11], none)], rfl, rfl, ?_, by simp⟩
  simp only [List.forall_mem_cons, List.not_mem_nil, false_imp_iff, implies_true, and_true]
  refine ⟨?_, ?_, ?_, ?_, ?_, ?_, ?_, ?_, ?_, ?_, ?_, ?_, ?_, ?_, ?_⟩
  all_goals (refine tria_shape ?_; rintro s rfl; norm_num)

theorem table7 (scale : ℝ) : TableOk 7 scale nodeCoord7 [[1, 2, 4], [0, 1, 4, 3]] True := by
  refine ⟨by decide, [([1, 2, 4], none), ([0, 1, 4, 3], none)], rfl, rfl, ?_, by simp⟩
  simp only [List.forall_mem_cons, List.not_mem_nil, false_imp_iff, implies_true, and_true]
  refine ⟨?_, ?_⟩
  · refine tria_shape ?_; rintro s rfl; norm_num [nodeCoord7]
  · refine quad_shape ?_; rintro s rfl; norm_num [nodeCoord7]

theorem table2 (scale : ℝ) : TableOk 2 scale [(0, 0), (1, 0), (0, 1), (1, 1), (3 / 2, 1 / 2)] [[0, 1, 3, 2], [1, 3, 4]]
    (scale = 1) := by
  have hw : WellShapedQuad (1 / 10 ^ 8) (![0, 0] : Vec ℝ 2) ![1, 0] ![1, 1] ![0, 1] := by
    refine quad_shape ?_; rintro s rfl; norm_num
  have hp : (![0, 1] : Vec ℝ 2) + ![1, 0] = ![1, 1] + ![0, 0] := by ext i; fin_cases i <;> simp
  have h1 := parallelogram_scaled one_ne_zero hw hp (by simp [lengthSq, Fin.sum_univ_two])
  simp only [one_smul] at h1
  refine ⟨by decide, [([0, 1, 3, 2], some (parallelogram ![0, 0] ![1, 0] ![1, 1] ![0, 1])), ([1, 3, 4], none)], ?_, rfl,
    ?_, ?_⟩
  · simp only [calls, parg]
    rw [h1]
    rfl
  · simp only [List.forall_mem_cons, List.not_mem_nil, false_imp_iff, implies_true, and_true]
    refine ⟨par_ok h1 hp _ _ _ _ _, ?_⟩
    refine tria_shape ?_; rintro s rfl; norm_num
  · simp only [List.forall_mem_cons, List.not_mem_nil, false_imp_iff, implies_true, and_true, reduceCtorEq,
      Option.some.injEq, forall_eq', corners_par hp]
    simp

theorem par_call (l : List (ℝ × ℝ)) (n0 n1 n2 n3 : ℕ)
    (hw : WellShapedQuad (1 / 10 ^ 8) (pt l n0) (pt l n1) (pt l n2) (pt l n3))
    (hp : pt l n3 + pt l n1 = pt l n2 + pt l n0) (hc : 0 < lengthSq (pt l n2) (pt l n0)) :
    newParallelogram [pt l n0, pt l n1, pt l n2, pt l n3] =
      some (parallelogram (pt l n0) (pt l n1) (pt l n2) (pt l n3)) ∧
    parg [n0, n1, n2, n3] (coordsOf l [n0, n1, n2, n3]) =
      some (callOf ([n0, n1, n2, n3], some (parallelogram (pt l n0) (pt l n1) (pt l n2) (pt l n3)))) := by
  have h1 := parallelogram_scaled one_ne_zero hw hp hc
  simp only [one_smul] at h1
  refine ⟨h1, ?_⟩
  change (newParallelogram [pt l n0, pt l n1, pt l n2, pt l n3]).map _ = _
  rw [h1]
  rfl

theorem getElem_pt (l : List (ℝ × ℝ)) (v : ℕ) (hv : v < l.length) (scale : ℝ) :
    ((l[v]?).map fun p => scale • (![p.1, p.2] : Vec ℝ 2)) = some (scale • pt l v) := by
  simp [pt, hv]

theorem fits (l : List (ℝ × ℝ)) (n0 n1 n2 n3 : ℕ) (h : ∀ v ∈ [n0, n1, n2, n3], v < l.length)
    (hn : (l.getD n1 0).1 ≠ 0) (scale : ℝ) :
    ([n0, n1, n2, n3].map fun v => (l[v]?).map fun p => scale • (![p.1, p.2] : Vec ℝ 2)) =
      [some (pt l n0), some (pt l n1), some (pt l n2), some (pt l n3)] ↔ scale = 1 := by
  simp only [List.forall_mem_cons, List.not_mem_nil, false_imp_iff, implies_true, and_true] at h
  obtain ⟨h0, h1, h2, h3⟩ := h
  simp only [List.map_cons, List.map_nil, getElem_pt l _ h0, getElem_pt l _ h1, getElem_pt l _ h2, getElem_pt l _ h3,
    List.cons.injEq, Option.some.injEq, and_true]
  constructor
  · rintro ⟨-, h, -⟩
    have := congrFun h 0
    simp only [pt, Pi.smul_apply, smul_eq_mul, Matrix.cons_val_zero] at this
    exact (mul_left_eq_self₀.1 this).resolve_right hn
  · rintro rfl
    simp

theorem table1 (scale : ℝ) (hs : scale ≠ 0) : TableOk 1 scale
    [(0, 0), (2, 0), (4, 0), (0, 2), (0, 3), (2, 4), (0, 4), (4, 4), (4, 2), (1, 1), (3, 1), (3, 2), (2, 3), (1, 2), (2, 2)]
    [[0, 1, 10, 9], [1, 2, 10], [2, 8, 11, 10], [11, 8, 7], [5, 12, 11, 7], [4, 12, 5, 6], [4, 3, 13, 12], [3, 0, 9, 13],
      [9, 10, 14], [14, 10, 11, 12], [13, 9, 14, 12]] True := by
  have w1 : WellShapedQuad (1 / 10 ^ 8) (![0, 0] : Vec ℝ 2) ![2, 0] ![3, 1] ![1, 1] := by
    refine quad_shape ?_; rintro s rfl; norm_num
  have w2 : WellShapedQuad (1 / 10 ^ 8) (![0, 3] : Vec ℝ 2) ![2, 3] ![2, 4] ![0, 4] := by
    refine quad_shape ?_; rintro s rfl; norm_num
  have w3 : WellShapedQuad (1 / 10 ^ 8) (![2, 2] : Vec ℝ 2) ![3, 1] ![3, 2] ![2, 3] := by
    refine quad_shape ?_; rintro s rfl; norm_num
  have w4 : WellShapedQuad (1 / 10 ^ 8) (![1, 2] : Vec ℝ 2) ![1, 1] ![2, 2] ![2, 3] := by
    refine quad_shape ?_; rintro s rfl; norm_num
  have p1 : (![1, 1] : Vec ℝ 2) + ![2, 0] = ![3, 1] + ![0, 0] := by ext i; fin_cases i <;> norm_num
  have p2 : (![0, 4] : Vec ℝ 2) + ![2, 3] = ![2, 4] + ![0, 3] := by ext i; fin_cases i <;> norm_num
  have p3 : (![2, 3] : Vec ℝ 2) + ![3, 1] = ![3, 2] + ![2, 2] := by ext i; fin_cases i <;> norm_num
  have p4 : (![2, 3] : Vec ℝ 2) + ![1, 1] = ![2, 2] + ![1, 2] := by ext i; fin_cases i <;> norm_num
  have q : ∀ {a b c d : Vec ℝ 2}, d + b = c + a → scale • d + scale • b = scale • c + scale • a := by
    intro a b c d h
    rw [← smul_add, ← smul_add, h]
  have h1 := parallelogram_scaled hs w1 p1 (by norm_num [lengthSq, Fin.sum_univ_two])
  have h2 := parallelogram_scaled hs w2 p2 (by norm_num [lengthSq, Fin.sum_univ_two])
  have h3 := parallelogram_scaled hs w3 p3 (by norm_num [lengthSq, Fin.sum_univ_two])
  have h4 := parallelogram_scaled hs w4 p4 (by norm_num [lengthSq, Fin.sum_univ_two])
  refine ⟨by decide, [([0, 1, 10, 9], some (parallelogram (scale • ![0, 0]) (scale • ![2, 0]) (scale • ![3, 1]) (scale • ![1, 1]))),
    ([1, 2, 10], none), ([2, 8, 11, 10], none), ([11, 8, 7], none), ([5, 12, 11, 7], none),
    ([4, 12, 5, 6], some (parallelogram (scale • ![0, 3]) (scale • ![2, 3]) (scale • ![2, 4]) (scale • ![0, 4]))),
    ([4, 3, 13, 12], none), ([3, 0, 9, 13], none), ([9, 10, 14], none),
    ([14, 10, 11, 12], some (parallelogram (scale • ![2, 2]) (scale • ![3, 1]) (scale • ![3, 2]) (scale • ![2, 3]))),
    ([13, 9, 14, 12], some (parallelogram (scale • ![1, 2]) (scale • ![1, 1]) (scale • ![2, 2]) (scale • ![2, 3])))], ?_, rfl,
    ?_, ?_⟩
  · simp only [calls, parg]
    rw [h1, h2, h3, h4]
    rfl
  · simp only [List.forall_mem_cons, List.not_mem_nil, false_imp_iff, implies_true, and_true]
    refine ⟨par_ok h1 (q p1) _ _ _ _ _, ?_, ?_, ?_, ?_, par_ok h2 (q p2) _ _ _ _ _, ?_, ?_, ?_,
      par_ok h3 (q p3) _ _ _ _ _, par_ok h4 (q p4) _ _ _ _ _⟩
    all_goals first
      | (refine tria_shape ?_; rintro s rfl; norm_num)
      | (refine quad_shape ?_; rintro s rfl; norm_num)
  · simp only [List.forall_mem_cons, List.not_mem_nil, false_imp_iff, implies_true, and_true, reduceCtorEq,
      Option.some.injEq, forall_eq', corners_par (q p1), corners_par (q p2), corners_par (q p3), corners_par (q p4)]
    simp

/-- The nodes of a cell are the corners of a parallelogram. -/
def ParOk (l : List (ℝ × ℝ)) (n : List ℕ) : Prop := ∃ n0 n1 n2 n3, n = [n0, n1, n2, n3] ∧
  WellShapedQuad (1 / 10 ^ 8) (pt l n0) (pt l n1) (pt l n2) (pt l n3) ∧ pt l n3 + pt l n1 = pt l n2 + pt l n0 ∧
  0 < lengthSq (pt l n2) (pt l n0) ∧ (∀ v ∈ [n0, n1, n2, n3], v < l.length) ∧ (l.getD n1 0).1 ≠ 0

/-- The parallelogram with given nodes. -/
noncomputable def parSpec (l : List (ℝ × ℝ)) (n : List ℕ) : CellSpec :=
  (n, some (parallelogram (pt l (n.getD 0 0)) (pt l (n.getD 1 0)) (pt l (n.getD 2 0)) (pt l (n.getD 3 0))))

theorem par_list (l : List (ℝ × ℝ)) (scale : ℝ) (qs : List (List ℕ)) (h : ∀ n ∈ qs, ParOk l n) :
    (qs.mapM fun n => parg n (coordsOf l n)) = some ((qs.map (parSpec l)).map callOf) ∧
    (∀ c ∈ qs.map (parSpec l), GeoOk l c) ∧
    (∀ c ∈ qs.map (parSpec l), ((∀ g, c.2 = some g →
      g.HasCorners (c.1.map fun v => (l[v]?).map fun p => scale • ![p.1, p.2])) ↔ scale = 1)) := by
  have h1 : ∀ n ∈ qs, parg n (coordsOf l n) = some (callOf (parSpec l n)) := by
    intro n hn
    obtain ⟨n0, n1, n2, n3, rfl, a1, a2, a3, -, -⟩ := h n hn
    exact (par_call l n0 n1 n2 n3 a1 a2 a3).2
  refine ⟨?_, ?_, ?_⟩
  · clear h
    induction qs with
    | nil => rfl
    | cons n qs ih =>
      rw [List.mapM_cons, h1 n (by simp), ih fun n hn => h1 n (by simp [hn])]
      rfl
  · intro c hc
    obtain ⟨n, hn, rfl⟩ := List.mem_map.1 hc
    obtain ⟨n0, n1, n2, n3, rfl, a1, a2, a3, -, -⟩ := h n hn
    exact par_ok (par_call l n0 n1 n2 n3 a1 a2 a3).1 a2 _ _ _ _ _
  · intro c hc
    obtain ⟨n, hn, rfl⟩ := List.mem_map.1 hc
    obtain ⟨n0, n1, n2, n3, rfl, a1, a2, a3, a4, a5⟩ := h n hn
    simp only [parSpec, Option.some.injEq, forall_eq']
    rw [corners_par (by exact a2)]
    exact fits l n0 n1 n2 n3 a4 a5 scale

theorem table5 (scale : ℝ) : TableOk 5 scale nodeCoord5
    [[0, 4, 5], [2, 3, 7], [8, 9, 12], [11, 15, 14], [0, 1, 6, 5], [1, 2, 7, 6], [5, 6, 10, 9], [6, 7, 11, 10],
      [9, 10, 13, 12], [10, 11, 14, 13], [4, 5, 9, 8]] (scale = 1) := by
  have h : ∀ n ∈ [[0, 1, 6, 5], [1, 2, 7, 6], [5, 6, 10, 9], [6, 7, 11, 10], [9, 10, 13, 12], [10, 11, 14, 13], [4, 5, 9, 8]],
      ParOk nodeCoord5 n := by
    simp only [List.forall_mem_cons, List.not_mem_nil, false_imp_iff, implies_true, and_true]
    refine ⟨⟨_, _, _, _, rfl, ?_⟩, ⟨_, _, _, _, rfl, ?_⟩, ⟨_, _, _, _, rfl, ?_⟩, ⟨_, _, _, _, rfl, ?_⟩,
      ⟨_, _, _, _, rfl, ?_⟩, ⟨_, _, _, _, rfl, ?_⟩, ⟨_, _, _, _, rfl, ?_⟩⟩
    all_goals
      refine ⟨?_, ?_, ?_, ?_, ?_⟩
      · refine quad_shape ?_; rintro s rfl; norm_num [nodeCoord5]
      · ext i; fin_cases i <;> norm_num [pt, nodeCoord5]
      · norm_num [lengthSq, Fin.sum_univ_two, pt, nodeCoord5]
      · simp [nodeCoord5]
      · norm_num [nodeCoord5]
  obtain ⟨b1, b2, b3⟩ := par_list nodeCoord5 scale _ h
  refine ⟨by decide, [([0, 4, 5], none), ([2, 3, 7], none), ([8, 9, 12], none), ([11, 15, 14], none)] ++
    List.map (parSpec nodeCoord5) [[0, 1, 6, 5], [1, 2, 7, 6], [5, 6, 10, 9], [6, 7, 11, 10], [9, 10, 13, 12],
      [10, 11, 14, 13], [4, 5, 9, 8]],
    ?_, ?_, ?_, ?_⟩
  · simp only [calls]
    rw [b1, List.map_append]
    rfl
  · rfl
  · intro c hc
    rw [List.mem_append] at hc
    rcases hc with hc | hc
    · revert c
      simp only [List.forall_mem_cons, List.not_mem_nil, false_imp_iff, implies_true, and_true]
      refine ⟨?_, ?_, ?_, ?_⟩
      all_goals (refine tria_shape ?_; rintro s rfl; norm_num [nodeCoord5])
    · exact b2 c hc
  · constructor
    · intro hall
      exact (b3 (parSpec nodeCoord5 [0, 1, 6, 5]) (by simp)).1 (hall _ (by simp))
    · intro h1 c hc
      rcases List.mem_append.1 hc with hc | hc
      · intro g hg
        simp only [List.mem_cons, List.not_mem_nil, or_false] at hc
        rcases hc with rfl | rfl | rfl | rfl <;> cases hg
      · exact (b3 c hc).2 h1

theorem table8 (scale : ℝ) : TableOk 8 scale nodeCoord8
    [[1, 2, 5], [2, 3, 6], [5, 2, 6], [4, 5, 7], [5, 8, 7], [0, 1, 5, 4], [5, 6, 9, 8]] (scale = 1) := by
  have h : ∀ n ∈ [[0, 1, 5, 4], [5, 6, 9, 8]], ParOk nodeCoord8 n := by
    simp only [List.forall_mem_cons, List.not_mem_nil, false_imp_iff, implies_true, and_true]
    refine ⟨⟨_, _, _, _, rfl, ?_⟩, ⟨_, _, _, _, rfl, ?_⟩⟩
    all_goals
      refine ⟨?_, ?_, ?_, ?_, ?_⟩
      · refine quad_shape ?_; rintro s rfl; norm_num [nodeCoord8]
      · ext i; fin_cases i <;> norm_num [pt, nodeCoord8]
      · norm_num [lengthSq, Fin.sum_univ_two, pt, nodeCoord8]
      · simp [nodeCoord8]
      · norm_num [nodeCoord8]
  obtain ⟨b1, b2, b3⟩ := par_list nodeCoord8 scale _ h
  refine ⟨by decide, [([1, 2, 5], none), ([2, 3, 6], none), ([5, 2, 6], none), ([4, 5, 7], none), ([5, 8, 7], none)] ++
    List.map (parSpec nodeCoord8) [[0, 1, 5, 4], [5, 6, 9, 8]],
    ?_, ?_, ?_, ?_⟩
  · simp only [calls]
    rw [b1, List.map_append]
    rfl
  · rfl
  · intro c hc
    rw [List.mem_append] at hc
    rcases hc with hc | hc
    · revert c
      simp only [List.forall_mem_cons, List.not_mem_nil, false_imp_iff, implies_true, and_true]
      refine ⟨?_, ?_, ?_, ?_, ?_⟩
      all_goals (refine tria_shape ?_; rintro s rfl; norm_num [nodeCoord8])
    · exact b2 c hc
  · constructor
    · intro hall
      exact (b3 (parSpec nodeCoord8 [0, 1, 5, 4]) (by simp)).1 (hall _ (by simp))
    · intro h1 c hc
      rcases List.mem_append.1 hc with hc | hc
      · intro g hg
        simp only [List.mem_cons, List.not_mem_nil, or_false] at hc
        rcases hc with rfl | rfl | rfl | rfl | rfl <;> cases hg
      · exact (b3 c hc).2 h1

theorem table6 (scale : ℝ) : TableOk 6 scale nodeCoord6 [[3, 1, 4], [7, 6, 2], [5, 4, 7, 6], [0, 3, 4, 5]]
    (scale = 1) := by
  have h : ∀ n ∈ [[0, 3, 4, 5]], ParOk nodeCoord6 n := by
    simp only [List.forall_mem_cons, List.not_mem_nil, false_imp_iff, implies_true, and_true]
    refine ⟨_, _, _, _, rfl, ?_⟩
    refine ⟨?_, ?_, ?_, ?_, ?_⟩
    · refine quad_shape ?_; rintro s rfl; norm_num [nodeCoord6]
    · ext i; fin_cases i <;> norm_num [pt, nodeCoord6]
    · norm_num [lengthSq, Fin.sum_univ_two, pt, nodeCoord6]
    · simp [nodeCoord6]
    · norm_num [nodeCoord6]
  obtain ⟨b1, b2, b3⟩ := par_list nodeCoord6 scale _ h
  have hw : WellShapedQuad (1 / 10 ^ 8) (pt nodeCoord6 5) (pt nodeCoord6 4) (pt nodeCoord6 7) (pt nodeCoord6 6) := by
    refine quad_shape ?_; rintro s rfl; norm_num [nodeCoord6]
  have hq := (newQuad_iff _ _ _ _ _).2 ⟨Or.inl rfl, hw, rfl⟩
  have hb : ([[5, 4, 7, 6]].mapM fun n => bilin n (coordsOf nodeCoord6 n)) = some [callOf ([5, 4, 7, 6],
      some (quadO1 (pt nodeCoord6 5) (pt nodeCoord6 4) (pt nodeCoord6 7) (pt nodeCoord6 6)))] := by
    rw [List.mapM_cons]
    change (((newQuadO1 [pt nodeCoord6 5, pt nodeCoord6 4, pt nodeCoord6 7, pt nodeCoord6 6]).map _).bind _) = _
    rw [hq]
    rfl
  refine ⟨by decide, [([3, 1, 4], none), ([7, 6, 2], none), ([5, 4, 7, 6],
    some (quadO1 (pt nodeCoord6 5) (pt nodeCoord6 4) (pt nodeCoord6 7) (pt nodeCoord6 6)))] ++
    List.map (parSpec nodeCoord6) [[0, 3, 4, 5]],
    ?_, ?_, ?_, ?_⟩
  · simp only [calls]
    rw [hb, b1, List.map_append]
    rfl
  · rfl
  · intro c hc
    rw [List.mem_append] at hc
    rcases hc with hc | hc
    · revert c
      simp only [List.forall_mem_cons, List.not_mem_nil, false_imp_iff, implies_true, and_true]
      refine ⟨?_, ?_, rfl, trivial, Option.isSome_iff_exists.2 ⟨_, hq⟩⟩
      all_goals (refine tria_shape ?_; rintro s rfl; norm_num [nodeCoord6])
    · exact b2 c hc
  · constructor
    · intro hall
      exact (b3 (parSpec nodeCoord6 [0, 3, 4, 5]) (by simp)).1 (hall _ (by simp))
    · intro h1 c hc
      rcases List.mem_append.1 hc with hc | hc
      · intro g hg
        simp only [List.mem_cons, List.not_mem_nil, or_false] at hc
        rcases hc with rfl | rfl | rfl <;> cases hg
        rw [corners_quad]
        exact (fits nodeCoord6 5 4 7 6 (by simp [nodeCoord6]) (by norm_num [nodeCoord6]) scale).2 h1
      · exact (b3 c hc).2 h1

end MC
end Verif
