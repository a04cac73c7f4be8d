import Verif.Lemmas.DpgLocComp
import Verif.Lemmas.DpgSpace
import Verif.Props.DpgTools

/-!
# Lemmas on the boundary integrals and the load vectors of the DPG providers
-/

namespace Verif.Dpg
open Verif Geo Finset

theorem boundary_points {r : RefEl} (hr : r = .tria ∨ r = .quad) {q : QuadRule ℝ} (hq : q.ref = .segment) (hw : q.WellFormed)
    {qs : List (QuadRule ℝ)} (h : boundaryQuadRule r q = some qs) :
    qs.length = r.numNodes ∧ ∀ s < r.numNodes, ∃ q', qs[s]? = some q' ∧ q'.ref = r ∧ q'.points = q.points.map (sideAt r s) := by
  rw [QuadRule.WellFormed, hq] at hw
  have hsides : ∃ g, refGeo r = some g ∧ ∀ i < r.numNodes, ∃ a b : Vec ℝ 2, g.sub 1 i = some (.segO1 a b) ∧
      (∀ t : ℝ, [(1 - t) * a 0 + t * b 0, (1 - t) * a 1 + t * b 1] = Geo.sidePoint r i t) := by
    rcases hr with rfl | rfl
    · refine ⟨_, rfl, ?_⟩
      intro i hi
      match i, hi with
      | 0, _ => exact ⟨_, _, rfl, fun t => rfl⟩
      | 1, _ => exact ⟨_, _, rfl, fun t => rfl⟩
      | 2, _ => exact ⟨_, _, rfl, fun t => rfl⟩
    · refine ⟨_, rfl, ?_⟩
      intro i hi
      match i, hi with
      | 0, _ => exact ⟨_, _, rfl, fun t => rfl⟩
      | 1, _ => exact ⟨_, _, rfl, fun t => rfl⟩
      | 2, _ => exact ⟨_, _, rfl, fun t => rfl⟩
      | 3, _ => exact ⟨_, _, rfl, fun t => rfl⟩
  obtain ⟨g, hg, hs⟩ := hsides
  have hnum : r.numSubEntities 1 = some r.numNodes := by rcases hr with rfl | rfl <;> rfl
  unfold boundaryQuadRule at h
  rw [hg, hnum] at h
  simp only [Option.bind_some] at h
  obtain ⟨qs', h1, h2, h3⟩ := mapM_range_some r.numNodes (fun i =>
      (g.sub 1 i).bind fun edge => (q.points.mapM edge.global).bind fun pts =>
      (edge.integrationElement [1 / 2]).bind fun len =>
      QuadRule.make r (pts.map fun p => [p 0, p 1]) (q.weights.map fun w => w * len) 0)
    (fun i q' => q'.ref = r ∧ q'.points = q.points.map (sideAt r i)) (by
    intro i hi
    obtain ⟨a, b, hab, hp⟩ := hs i hi
    obtain ⟨q', k1, k2, k3, k4, k5⟩ := bqr_side r hr q hw.1 hw.2 a b
    refine ⟨q', by rw [hab]; exact k1, k2, ?_⟩
    rw [k4]
    refine List.map_congr_left fun x _ => hp _)
  rw [h1] at h
  obtain rfl := Option.some.inj h
  exact ⟨h2, h3⟩

/-- Points on sides of reference cells have two coordinates. -/
theorem sideAt_length {r : RefEl} (hr : r = .tria ∨ r = .quad) {s : ℕ} (hs : s < r.numNodes) (t : List ℝ) :
    (sideAt r s t).length = 2 := by
  rcases hr with rfl | rfl
  · match s, hs with
    | 0, _ => rfl
    | 1, _ => rfl
    | 2, _ => rfl
  · match s, hs with
    | 0, _ => rfl
    | 1, _ => rfl
    | 2, _ => rfl
    | 3, _ => rfl

theorem getD_sideAt {r : RefEl} {q : QuadRule ℝ} {s k : ℕ} (hk : k < q.points.length) :
    (q.points.map (sideAt r s)).getD k [] = sideAt r s (q.points.getD k []) := by
  rw [List.getD_eq_getElem _ _ (by simpa using hk), List.getD_eq_getElem _ _ hk, List.getElem_map]

/-- Several matrices added up. -/
theorem form_sum (n m N : ℕ) (E : ℕ → ℕ → ℕ → ℝ) (v u : List ℝ) :
    Dense.form ⟨n, m, fun i j => 0 + ∑ s ∈ range N, E s i j⟩ v u =
      ∑ s ∈ range N, Dense.form ⟨n, m, fun i j => 0 + E s i j⟩ v u := by
  unfold Dense.form
  simp only [zero_add]
  symm
  rw [Finset.sum_comm]
  refine Finset.sum_congr rfl fun i _ => ?_
  rw [Finset.sum_comm]
  refine Finset.sum_congr rfl fun j _ => ?_
  rw [Finset.sum_mul, Finset.mul_sum]

/-- A matrix with one block of columns only. -/
theorem form_block (n m N s : ℕ) (hs : s < N) (E : ℕ → ℕ → ℝ) (v u : List ℝ) :
    Dense.form ⟨n, m * N, fun i j => 0 + if (0 ≤ i ∧ i < 0 + n) ∧ s * m ≤ j ∧ j < s * m + m then E i (j - s * m) else 0⟩ v u =
      Dense.form ⟨n, m, fun i j => 0 + E i j⟩ v (sidePart m u s) := by
  unfold Dense.form
  simp only [zero_add]
  refine Finset.sum_congr rfl fun i hi => ?_
  have hi := Finset.mem_range.1 hi
  have hsub : Finset.Ico (s * m) (s * m + m) ⊆ range (m * N) := by
    intro j hj
    rw [Finset.mem_Ico] at hj
    rw [Finset.mem_range]
    calc j < s * m + m := hj.2
      _ = m * (s + 1) := by ring
      _ ≤ m * N := Nat.mul_le_mul_left m hs
  rw [← Finset.sum_subset hsub]
  · rw [Finset.sum_Ico_eq_sum_range, Nat.add_sub_cancel_left]
    refine Finset.sum_congr rfl fun b hb => ?_
    have hb := Finset.mem_range.1 hb
    rw [if_pos ⟨⟨Nat.zero_le _, hi⟩, Nat.le_add_right _ _, by omega⟩, Nat.add_sub_cancel_left]
    congr 2
    simp only [sidePart, List.getD_eq_getElem?_getD, List.getElem?_take, List.getElem?_drop, if_pos hb]
  · intro j _ hj
    rw [Finset.mem_Ico] at hj
    rw [if_neg (fun h => hj h.2)]
    ring

/-- Loops adding vectors. -/
theorem foldlM_vec (step : List ℝ → ℕ → Option (List ℝ)) (D : ℕ → ℕ → ℝ) (m n : ℕ)
    (h : ∀ k < n, ∀ f : ℕ → ℝ, step ((List.range m).map f) k = some ((List.range m).map fun i => f i + D k i)) :
    (List.range n).foldlM step (List.replicate m 0) = some ((List.range m).map fun i => ∑ k ∈ range n, D k i) := by
  induction n with
  | zero =>
    simp only [List.range_zero, List.foldlM_nil, Finset.range_zero, Finset.sum_empty, Option.pure_def, Option.some.injEq]
    exact List.ext_getElem (by simp) fun i _ _ => by simp
  | succ n ih =>
    rw [List.range_succ, List.foldlM_append, ih fun k hk => h k (by omega)]
    simp only [List.foldlM_cons, List.foldlM_nil, Option.bind_eq_bind, Option.bind_some]
    rw [h n (by omega)]
    simp only [Finset.sum_range_succ, Option.bind_some]
    rfl

theorem mapIdx_add (m : ℕ) (f D : ℕ → ℝ) :
    ((List.range m).map f).mapIdx (fun i v => v + D i) = (List.range m).map fun i => f i + D i :=
  List.ext_getElem (by simp) fun i _ _ => by simp

end Verif.Dpg
