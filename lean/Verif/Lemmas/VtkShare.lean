import Verif.Lemmas.VtkWriter
import Mathlib.Tactic.FinCases

/-!
# Cells of the grid of `VtkWriter` share the points on common edges
-/

namespace Verif
open Geo

variable {K : Type} [Field K] [LinearOrder K] [IsStrictOrderedRing K]

theorem vtkTria_mem {n : ℕ} {p : List ℕ} (h : p ∈ vtkTria n) : ∃ a b, p = [a, b] ∧ a + b ≤ n := by
  induction n using Nat.strong_induction_on generalizing p with
  | _ n ih =>
    match n, ih, h with
    | 0, _, h =>
      simp only [vtkTria, List.mem_singleton] at h
      exact ⟨0, 0, h, by norm_num⟩
    | 1, _, h =>
      simp only [vtkTria, List.mem_cons, List.not_mem_nil, or_false] at h
      rcases h with rfl | rfl | rfl <;> exact ⟨_, _, rfl, by norm_num⟩
    | 2, _, h =>
      simp only [vtkTria, List.mem_cons, List.not_mem_nil, or_false] at h
      rcases h with rfl | rfl | rfl | rfl | rfl | rfl <;> exact ⟨_, _, rfl, by norm_num⟩
    | n + 3, ih, h =>
      simp only [vtkTria, List.mem_append, List.mem_cons, List.not_mem_nil, or_false, List.mem_map, mem_mids] at h
      rcases h with (((((rfl | rfl | rfl) | ⟨i, hi, rfl⟩) | ⟨i, hi, rfl⟩) | ⟨i, hi, rfl⟩) | ⟨q, hq, rfl⟩)
      · exact ⟨_, _, rfl, by omega⟩
      · exact ⟨_, _, rfl, by omega⟩
      · exact ⟨_, _, rfl, by omega⟩
      · exact ⟨_, _, rfl, by omega⟩
      · exact ⟨_, _, rfl, by omega⟩
      · exact ⟨_, _, rfl, by omega⟩
      · obtain ⟨a, b, rfl, hab⟩ := ih n (by omega) hq
        exact ⟨a + 1, b + 1, rfl, by omega⟩

/-- The nodes after those on the sides lie in the interior. -/
theorem vtkTria_inner {n : ℕ} {p : List ℕ} (hn : 1 ≤ n) (h : p ∈ (vtkTria n).drop (3 * n)) :
    ∃ a b, p = [a, b] ∧ 0 < a ∧ 0 < b ∧ a + b < n := by
  match n, hn, h with
  | 1, _, h => simp [vtkTria] at h
  | 2, _, h => simp [vtkTria] at h
  | n + 3, _, h =>
    rw [vtkTria, List.drop_append, List.drop_eq_nil_of_le (by simp [mids_length]; omega), List.nil_append] at h
    simp only [List.length_append, List.length_map, List.length_cons, List.length_nil, mids_length] at h
    rw [show 3 * (n + 3) - (0 + 1 + 1 + 1 + (n + 3 - 1) + (n + 3 - 1) + (n + 3 - 1)) = 0 by omega, List.drop_zero] at h
    obtain ⟨q, hq, rfl⟩ := List.mem_map.1 h
    obtain ⟨a, b, rfl, hab⟩ := vtkTria_mem hq
    exact ⟨a + 1, b + 1, rfl, by omega, by omega, by omega⟩

theorem vtkTria_length (n : ℕ) : 2 * (vtkTria n).length = (n + 1) * (n + 2) := by
  induction n using Nat.strong_induction_on with
  | _ n ih =>
    match n, ih with
    | 0, _ => rfl
    | 1, _ => rfl
    | 2, _ => rfl
    | n + 3, ih =>
      have := ih n (by omega)
      rw [vtkTria]
      simp only [List.length_append, List.length_map, List.length_cons, List.length_nil, mids_length]
      have e : n + 3 - 1 = n + 2 := by omega
      rw [e]
      linarith

/-- A point inside of a side lies on this side only. -/
theorem sidePoint_inj {r : RefEl} (hr : r = .tria ∨ r = .quad) {j0 j : ℕ} (hj0 : j0 < r.numNodes) (hj : j < r.numNodes)
    {u s : K} (hu : 0 < u ∧ u < 1) (h : sidePoint r j0 u = sidePoint r j s) : j0 = j ∧ u = s := by
  rcases hr with rfl | rfl
  · replace hj0 : j0 < 3 := hj0
    replace hj : j < 3 := hj
    interval_cases j0 <;> interval_cases j <;>
      simp [sidePoint, RefEl.corners, RefEl.numNodes] at h ⊢ <;> first | exact h | exact h.2 | (exfalso; linarith [h.1, h.2]) | (exfalso; linarith) | skip
  · replace hj0 : j0 < 4 := hj0
    replace hj : j < 4 := hj
    interval_cases j0 <;> interval_cases j <;>
      simp [sidePoint, RefEl.corners, RefEl.numNodes] at h ⊢ <;> first | exact h | exact h.2 | (exfalso; linarith [h.1, h.2]) | (exfalso; linarith) | skip

theorem corner_side {r : RefEl} (hr : r = .tria ∨ r = .quad) {k j : ℕ} (hk : k < r.numNodes) (hj : j < r.numNodes)
    {s : K} (h : (r.corners : List (List K)).getD k [] = sidePoint r j s) :
    (k = j ∧ s = 0) ∨ (k = (j + 1) % r.numNodes ∧ s = 1) := by
  rcases hr with rfl | rfl
  · replace hk : k < 3 := hk
    replace hj : j < 3 := hj
    interval_cases k <;> interval_cases j <;>
      simp [sidePoint, RefEl.corners, RefEl.numNodes] at h ⊢ <;> first | linarith | linarith [h.1, h.2] | skip
  · replace hk : k < 4 := hk
    replace hj : j < 4 := hj
    interval_cases k <;> interval_cases j <;>
      simp [sidePoint, RefEl.corners, RefEl.numNodes] at h ⊢ <;> first | linarith | linarith [h.1, h.2] | skip

theorem inner_side {r : RefEl} (hr : r = .tria ∨ r = .quad) {j : ℕ} (hj : j < r.numNodes) {x y s : K}
    (hx : 0 < x) (hy : 0 < y) (hx1 : x < 1) (hy1 : y < 1) (ht : r = .tria → x + y < 1) : [x, y] ≠ sidePoint r j s := by
  intro h
  rcases hr with rfl | rfl
  · replace hj : j < 3 := hj
    have := ht rfl
    interval_cases j <;> simp [sidePoint, RefEl.corners, RefEl.numNodes] at h <;> linarith [h.1, h.2]
  · replace hj : j < 4 := hj
    interval_cases j <;> simp [sidePoint, RefEl.corners, RefEl.numNodes] at h <;> linarith [h.1, h.2]

/-- `idx` is the point with the parameter `t` on edge `e`. -/
def EdgePoint (T : Topo) (start : ℕ → ℕ) (n e : ℕ) (t : K) (idx : ℕ) : Prop :=
  (t = 0 ∧ idx = (T.edge e).1) ∨ (t = 1 ∧ idx = (T.edge e).2) ∨
    ∃ i ∈ mids n, t = (i : K) / n ∧ idx = start e + (i - 1)

theorem EdgePoint.unique {T : Topo} {start : ℕ → ℕ} {n e : ℕ} (hn : 1 ≤ n) {t : K} {a b : ℕ} (ha : EdgePoint T start n e t a)
    (hb : EdgePoint T start n e t b) : a = b := by
  have hn0 : (0 : K) < n := by exact_mod_cast hn
  have hm : ∀ i ∈ mids n, (0 : K) < (i : K) / n ∧ (i : K) / n < 1 := by
    intro i hi
    have := mem_mids.1 hi
    refine ⟨div_pos (by exact_mod_cast this.1) hn0, ?_⟩
    rw [div_lt_one hn0]
    exact_mod_cast this.2
  rcases ha with ⟨h1, h2⟩ | ⟨h1, h2⟩ | ⟨i, hi, h1, h2⟩ <;> rcases hb with ⟨k1, k2⟩ | ⟨k1, k2⟩ | ⟨k, hk, k1, k2⟩
  · rw [h2, k2]
  · exact absurd (h1.symm.trans k1) zero_ne_one
  · have := (hm k hk).1
    linarith
  · exact absurd (k1.symm.trans h1) zero_ne_one
  · rw [h2, k2]
  · have := (hm k hk).2
    linarith
  · have := (hm i hi).1
    linarith
  · have := (hm i hi).2
    linarith
  · have : (i : K) / n = (k : K) / n := h1.symm.trans k1
    rw [div_left_inj' hn0.ne'] at this
    have hik : i = k := by exact_mod_cast this
    rw [h2, k2, hik]

theorem sideIdx_eq (T : Topo) (aux : RefEl → List (List K)) (n c : ℕ) (inv : List Bool) (j : ℕ) :
    sideIdx T aux (fun _ _ => ()) n c inv j = (mids n).map fun i => vtkStart T aux (fun _ _ => ()) (1, (T.cell c).edges.getD j 0) +
      ((if (T.cell c).ori.getD j false == inv.getD j false then n - i else i) - 1) := by
  have he : edgeIdx T aux (fun _ _ => ()) n ((T.cell c).edges.getD j 0) = (mids n).map fun i =>
      vtkStart T aux (fun _ _ => ()) (1, (T.cell c).edges.getD j 0) + (i - 1) := by
    unfold edgeIdx mids
    rw [List.map_map]
    rfl
  unfold sideIdx
  split_ifs with h
  · rw [he, ← List.map_reverse, mids_reverse, List.map_map]
    rfl
  · rw [he]

/-- The points of a cell on its sides. -/
theorem VtkBuilt.sidePoints {T : Topo} (hT : T.WF) {n : ℕ} (hn : 1 ≤ n) {W : VtkWriter K} (hW : VtkBuilt T 0 n W) {c : ℕ} {r : RefEl}
    (hr : T.refEl (0, c) = some r) :
    List.Forall₂ (fun idx x => ∀ j < r.numNodes, ∀ t : K, x = T.onSide r c j t →
      EdgePoint T (fun e => vtkStart T W.aux (fun _ _ => ()) (1, e)) n ((T.cell c).edges.getD j 0) t idx)
      (W.cells.getD c []) (vtkNodes r n) := by
  have hc : c < T.numCells := by
    by_contra h
    have : ¬ c < T.num 0 := h
    simp [Topo.refEl, this] at hr
  have hr' : r = .tria ∨ r = .quad := by
    rcases refEl_cell_or hT hc with h | h
    · exact .inl (Option.some.inj (hr.symm.trans h))
    · exact .inr (Option.some.inj (hr.symm.trans h))
  have hn0 : (0 : K) < n := by exact_mod_cast hn
  have h1 := (vtkCell_cell (f := fun _ _ => ()) hT (fun _ _ _ _ _ => ⟨fun _ _ _ => rfl, rfl⟩) hn hW.ok hW.seg hW.off hc hr).1
  rw [hW.cell c hc] at h1
  obtain ⟨h3, -⟩ := Prod.mk.inj (Option.some.inj h1)
  have hl : (T.cell c).nodes.length = r.numNodes := by
    have h0 : c < T.num 0 := hc
    rcases hT.cell_len c hc with h5 | h4
    · simp [Topo.refEl, h0, h5] at hr
      subst hr
      exact h5
    · simp [Topo.refEl, h0, h4] at hr
      subst hr
      exact h4
  have hnodes : ∃ inner : List (List K), inner.length = numAuxNodes r n ∧ (∀ x ∈ inner, ∀ j < r.numNodes, ∀ s : K,
      x ≠ sidePoint r j s) ∧ vtkNodes r n = (r.corners : List (List K)) ++ ((List.range r.numNodes).flatMap fun j =>
        (mids n).map fun i : ℕ => sidePoint r j (if (sideInv r).getD j false then 1 - (i : K) / n else (i : K) / n)) ++
        inner := by
    rcases hr' with rfl | rfl
    · refine ⟨((vtkTria n).drop (3 * n)).map fun p => p.map fun i : ℕ => (i : K) / n, ?_, ?_, ?_⟩
      · rw [List.length_map, List.length_drop]
        have k1 := vtkTria_length n
        have k2 := numAux_tria n hn
        obtain ⟨m, rfl⟩ : ∃ m, n = m + 1 := ⟨n - 1, by omega⟩
        rcases m with _ | m
        · rfl
        · have e1 : m + 1 + 1 - 1 = m + 1 := by omega
          have e2 : m + 1 + 1 - 2 = m := by omega
          rw [e1, e2] at k2
          have : (m + 1 + 1 + 1) * (m + 1 + 1 + 2) = (m + 1) * m + 6 * (m + 1 + 1) := by ring
          omega
      · intro x hx j hj s
        obtain ⟨p, hp, rfl⟩ := List.mem_map.1 hx
        obtain ⟨a, b, rfl, ha, hb, hab⟩ := vtkTria_inner hn hp
        have ha' : (0 : K) < (a : K) / n := div_pos (by exact_mod_cast ha) hn0
        have hb' : (0 : K) < (b : K) / n := div_pos (by exact_mod_cast hb) hn0
        have hab' : (a : K) / n + (b : K) / n < 1 := by
          rw [← add_div, div_lt_one hn0]
          exact_mod_cast hab
        exact inner_side (.inl rfl) hj ha' hb' (by linarith) (by linarith) (fun _ => hab')
      · rw [tria_nodes hn]
        unfold vtkNodes vtkLattice
        simp only []
        conv_lhs => rw [vtkTria_split n hn, List.map_append]
    · refine ⟨(mids n).flatMap fun j : ℕ => (mids n).map fun i : ℕ => [(i : K) / n, (j : K) / n], ?_, ?_, ?_⟩
      · simp [List.length_flatMap, mids_length, numAuxNodes]
      · intro x hx j hj s
        obtain ⟨b, hb, hx⟩ := List.mem_flatMap.1 hx
        obtain ⟨a, ha, rfl⟩ := List.mem_map.1 hx
        have hm : ∀ i ∈ mids n, (0 : K) < (i : K) / n ∧ (i : K) / n < 1 := by
          intro i hi
          have := mem_mids.1 hi
          refine ⟨div_pos (by exact_mod_cast this.1) hn0, ?_⟩
          rw [div_lt_one hn0]
          exact_mod_cast this.2
        exact inner_side (.inr rfl) hj (hm a ha).1 (hm b hb).1 (hm a ha).2 (hm b hb).2 (by simp)
      · rw [quad_nodes hn]
  obtain ⟨inner, hil, hin, hnodes⟩ := hnodes
  rw [h3, hnodes]
  refine List.rel_append (List.rel_append ?_ ?_) ?_
  · refine List.forall₂_iff_get.2 ⟨?_, ?_⟩
    · rcases hr' with rfl | rfl <;> exact hl
    · intro k hk hk' j hj t hx
      have hk1 : k < r.numNodes := hl ▸ hk
      rw [List.get_eq_getElem, ← List.getD_eq_getElem _ [] hk'] at hx
      have hj1 : j < (T.cell c).nodes.length := hl ▸ hj
      have hk2 : (T.cell c).nodes.get ⟨k, hk⟩ = (T.cell c).nodes.getD k 0 := (List.getD_eq_getElem _ _ hk).symm
      rw [hk2]
      have hs := hT.cell_side c hc j hj1
      have ho := hT.cell_ori c hc j hj1
      have hside : side (T.cell c).nodes j = ((T.cell c).nodes.getD j 0, (T.cell c).nodes.getD ((j + 1) % r.numNodes) 0) := by
        rw [side, hl]
      rw [hside] at hs ho
      unfold Topo.onSide at hx
      cases hor : (T.cell c).ori.getD j false with
      | true =>
        rw [hor] at hx ho
        have he := ho.1 rfl
        rcases corner_side hr' hk1 hj hx with ⟨rfl, h0⟩ | ⟨rfl, h0⟩
        · refine .inl ⟨by simpa using h0, by rw [he]⟩
        · refine .inr (.inl ⟨by simpa using h0, by rw [he]⟩)
      | false =>
        rw [hor] at hx ho
        have he : T.edge ((T.cell c).edges.getD j 0) =
            ((T.cell c).nodes.getD ((j + 1) % r.numNodes) 0, (T.cell c).nodes.getD j 0) := by
          rcases hs with h | h
          · exact absurd (ho.2 h) (by simp)
          · exact h
        rcases corner_side hr' hk1 hj hx with ⟨rfl, h0⟩ | ⟨rfl, h0⟩
        · refine .inr (.inl ⟨?_, by rw [he]⟩)
          simp only [Bool.false_eq_true, if_false] at h0
          linarith
        · refine .inl ⟨?_, by rw [he]⟩
          simp only [Bool.false_eq_true, if_false] at h0
          linarith
  · have : ∀ l : List ℕ, (∀ j0 ∈ l, j0 < r.numNodes) → List.Forall₂ (fun idx x => ∀ j < r.numNodes, ∀ t : K, x = T.onSide r c j t →
        EdgePoint T (fun e => vtkStart T W.aux (fun _ _ => ()) (1, e)) n ((T.cell c).edges.getD j 0) t idx)
        (l.flatMap (sideIdx T W.aux (fun _ _ => ()) n c (sideInv r))) (l.flatMap fun j => (mids n).map fun i : ℕ =>
          sidePoint r j (if (sideInv r).getD j false then 1 - (i : K) / n else (i : K) / n)) := by
      intro l hl0
      induction l with
      | nil => exact .nil
      | cons j0 l ih =>
        rw [List.flatMap_cons, List.flatMap_cons]
        refine List.rel_append ?_ (ih fun j h => hl0 j (List.mem_cons_of_mem _ h))
        rw [sideIdx_eq, List.forall₂_map_left_iff, List.forall₂_map_right_iff, List.forall₂_same]
        intro i hi j hj t hx
        have hi' := mem_mids.1 hi
        have hi0 : (0 : K) < (i : K) / n := div_pos (by exact_mod_cast hi'.1) hn0
        have hi1 : (i : K) / n < 1 := by
          rw [div_lt_one hn0]
          exact_mod_cast hi'.2
        have hrev : ((n - i : ℕ) : K) / n = 1 - (i : K) / n := by
          rw [Nat.cast_sub hi'.2.le, sub_div, div_self hn0.ne']
        unfold Topo.onSide at hx
        obtain ⟨rfl, hu⟩ := sidePoint_inj hr' (hl0 j0 (by simp)) hj (by split_ifs <;> constructor <;> linarith) hx
        refine .inr (.inr ?_)
        have hmid : n - i ∈ mids n := mem_mids.2 (by omega)
        cases ho : (T.cell c).ori.getD j0 false <;> cases hv : (sideInv r).getD j0 false <;> rw [ho, hv] at hu <;>
          simp only [Bool.false_eq_true, if_false, if_true] at hu
        · exact ⟨n - i, hmid, by rw [hrev]; linarith, rfl⟩
        · exact ⟨i, hi, by linarith, rfl⟩
        · exact ⟨i, hi, by linarith, rfl⟩
        · exact ⟨n - i, hmid, by rw [hrev]; linarith, rfl⟩
    exact this _ fun j h => List.mem_range.1 h
  · refine List.forall₂_iff_get.2 ⟨by simp [hil], ?_⟩
    intro k hk hk' j hj t hx
    exact absurd hx (hin _ (List.get_mem _ _) j hj _)

end Verif
