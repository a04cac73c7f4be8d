import Verif.Spec.Vtk
import Mathlib.Tactic.FieldSimp
import Mathlib.Tactic.Ring
import Mathlib.Tactic.LinearCombination
import Mathlib.Tactic.IntervalCases
import Mathlib.Tactic.Positivity

/-!
# Auxiliary nodes of `VtkWriter`
-/

namespace Verif
open Geo

variable {K : Type} [Field K] [LinearOrder K] [IsStrictOrderedRing K]

theorem mids_length (n : ℕ) : (mids n).length = n - 1 := by simp [mids]

theorem mem_mids {n i : ℕ} : i ∈ mids n ↔ 1 ≤ i ∧ i < n := by
  unfold mids
  rw [List.mem_map]
  constructor
  · rintro ⟨a, ha, rfl⟩
    have := List.mem_range.1 ha
    omega
  · intro h
    exact ⟨i - 1, List.mem_range.2 (by omega), by omega⟩

theorem linSpaced_mids {n : ℕ} (hn : 2 ≤ n) :
    linSpaced (n - 1) (1 / (n : K)) (((n : K) - 1) / n) = (mids n).map fun i : ℕ => (i : K) / n := by
  unfold linSpaced mids
  have hn0 : (n : K) ≠ 0 := by
    have : n ≠ 0 := by omega
    exact_mod_cast this
  split_ifs with h
  · obtain rfl : n = 2 := by omega
    simp
    norm_num
  · rw [List.map_map]
    refine List.map_congr_left fun i hi => ?_
    have hn2 : (n : K) - 2 ≠ 0 := by
      have : n ≠ 2 := by omega
      intro h
      exact this (by exact_mod_cast (sub_eq_zero.1 h : (n : K) = 2))
    have hc : ((n - 1 : ℕ) : K) = (n : K) - 1 := by rw [Nat.cast_sub (by omega)]; simp
    have h2 : (n : K) - 1 - 1 = (n : K) - 2 := by ring
    simp only [Function.comp, hc, h2, Nat.cast_add, Nat.cast_one]
    field_simp
    ring

theorem auxNodesSegment_eq {n : ℕ} (hn : 2 ≤ n) :
    auxNodesSegment (K := K) n = some ((mids n).map fun i : ℕ => [(i : K) / n]) := by
  unfold auxNodesSegment
  rw [if_pos (by omega), linSpaced_mids hn, List.map_map]
  rfl

theorem kron_ones (l : List K) (m : ℕ) : kron l (List.replicate m 1) = l.flatMap fun x => List.replicate m x := by
  unfold kron
  simp

theorem replicateRow_length (l : List K) (m : ℕ) : (replicateRow l m).length = m * l.length := by
  unfold replicateRow
  simp

theorem zip_rows (l l' : List K) (m : ℕ) :
    List.zipWith (fun a b => [a, b]) (replicateRow l l'.length) (l'.flatMap fun x => List.replicate l.length x) =
      l'.flatMap fun y => l.map fun x => [x, y] := by
  unfold replicateRow
  induction l' with
  | nil => simp
  | cons y l' ih =>
    rw [List.length_cons, List.replicate_succ, List.flatten_cons, List.flatMap_cons, List.flatMap_cons,
      List.zipWith_append (by simp), ih]
    congr 1
    clear ih
    induction l with
    | nil => rfl
    | cons x l ih' => simp [List.replicate_succ, List.zipWith_cons_cons, ih']

theorem auxNodesQuad_eq {n : ℕ} (hn : 2 ≤ n) : auxNodesQuad (K := K) n =
    some ((mids n).flatMap fun j : ℕ => (mids n).map fun i : ℕ => [(i : K) / n, (j : K) / n]) := by
  unfold auxNodesQuad
  rw [linSpaced_mids hn]
  simp only []
  rw [kron_ones, fromRows, if_pos]
  · have hl : ((mids n).map fun i : ℕ => (i : K) / n).length = n - 1 := by rw [List.length_map, mids_length]
    have := zip_rows ((mids n).map fun i : ℕ => (i : K) / n) ((mids n).map fun i : ℕ => (i : K) / n) 0
    rw [hl] at this
    rw [this, List.flatMap_map]
    simp [Function.comp_def]
  · constructor
    · rw [replicateRow_length, List.length_map, mids_length]
      rfl
    · rw [List.length_flatMap]
      simp [mids_length, numAuxNodes, Function.comp_def]

theorem numAux_tria (n : ℕ) (h : 1 ≤ n) : 2 * numAuxNodes .tria n = (n - 1) * (n - 2) := by
  obtain ⟨m, rfl⟩ : ∃ m, n = m + 1 := ⟨n - 1, by omega⟩
  unfold numAuxNodes
  have he : (2 : ℤ) - 3 * ((m + 1 : ℕ) : ℤ) + ((m + 1 : ℕ) : ℤ) * ((m + 1 : ℕ) : ℤ) = ((m * (m - 1) : ℕ) : ℤ) := by
    rcases m with _ | m
    · simp
    · push_cast
      ring
  simp only []
  rw [he]
  have h2 : 2 ∣ m * (m - 1) := (Nat.even_mul_pred_self m).two_dvd
  obtain ⟨k, hk⟩ := h2
  rw [hk]
  have : ((2 * k : ℕ) : ℤ) / 2 = k := by push_cast; omega
  rw [this]
  simp
  rw [← hk]

theorem numAux_tria_step (n : ℕ) (h : 4 ≤ n) : numAuxNodes .tria n = 3 * n - 9 + numAuxNodes .tria (n - 3) := by
  have h1 := numAux_tria n (by omega)
  have h2 := numAux_tria (n - 3) (by omega)
  obtain ⟨m, rfl⟩ : ∃ m, n = m + 4 := ⟨n - 4, by omega⟩
  have e1 : m + 4 - 3 = m + 1 := by omega
  rw [e1] at h2 ⊢
  have e2 : m + 4 - 1 = m + 3 := by omega
  have e3 : m + 4 - 2 = m + 2 := by omega
  have e4 : m + 1 - 1 = m := by omega
  rw [e2, e3] at h1
  rw [e4] at h2
  rcases m with _ | m
  · simp at h1 h2 ⊢
    omega
  · have e5 : m + 1 + 1 - 2 = m := by omega
    rw [e5] at h2
    have : (m + 1 + 3) * (m + 1 + 2) = (m + 1) * m + 6 * (m + 1) + 6 := by ring
    omega

theorem setBlock_next {A : Type} (done cols : List A) (k size : ℕ) (hs : cols.length = size) (hk : size ≤ k) :
    setBlock (done.map some ++ List.replicate k none) done.length size cols =
      some ((done ++ cols).map some ++ List.replicate (k - size) none) := by
  unfold setBlock
  rw [if_pos ⟨hs, by simp; omega⟩]
  have h1 : (done.map some ++ List.replicate k none).take done.length = done.map some := by
    rw [List.take_append_of_le_length (by simp)]
    simp
  have h2 : (done.map some ++ List.replicate k (none : Option A)).drop (done.length + size) =
      List.replicate (k - size) none := by
    rw [List.drop_append]
    simp
  rw [h1, h2, List.map_append]

theorem mapM_id_map_some {A : Type} (l : List A) : (l.map some).mapM id = some l := by
  induction l with
  | nil => rfl
  | cons a l ih => simp [List.mapM_cons, ih]

/-- The interior nodes which the code computes for `n ≥ 5`. -/
def triaAux (n : ℕ) (inner : List (List K)) : List (List K) :=
  [[1 / (n : K), 1 / n], [((n : K) - 2) / n, 1 / n], [1 / (n : K), ((n : K) - 2) / n]] ++
  ((mids (n - 3)).map fun i : ℕ => [((i : K) + 1) / n, 1 / n]) ++
  ((mids (n - 3)).map fun i : ℕ => [((n : K) - 2 - i) / n, ((i : K) + 1) / n]) ++
  ((mids (n - 3)).map fun i : ℕ => [1 / (n : K), ((n : K) - 2 - i) / n]) ++
  inner.map fun p => [p.getD 0 0 * ((n : K) - 6) / n + 2 / n, p.getD 1 0 * ((n : K) - 6) / n + 2 / n]

theorem auxNodesTria_step {n : ℕ} (hn : 5 ≤ n) (inner : List (List K)) (hi : auxNodesTria (n - 3) = some inner)
    (hl : inner.length = numAuxNodes .tria (n - 3)) : auxNodesTria n = some (triaAux n inner) := by
  have hstep := numAux_tria_step n (by omega)
  rw [auxNodesTria]
  simp only []
  rw [dif_neg (by omega), if_neg (by omega), if_neg (by omega)]
  generalize hN : numAuxNodes .tria n = N at *
  have hn0 : (n : K) ≠ 0 := by
    have : n ≠ 0 := by omega
    exact_mod_cast this
  have hn3 : ((n - 3 : ℕ) : K) = (n : K) - 3 := by rw [Nat.cast_sub (by omega)]; simp
  have hn3' : (n : K) - 3 ≠ 0 := by
    rw [← hn3]
    have : n - 3 ≠ 0 := by omega
    exact_mod_cast this
  have s1 := setBlock_next ([] : List (List K)) [[1 / (n : K), 1 / n]] N 1 rfl (by omega)
  rw [List.map_nil, List.nil_append, List.length_nil] at s1
  rw [s1, Option.bind_some]
  have s2 := setBlock_next ([] ++ [[1 / (n : K), 1 / n]] : List (List K)) [[((n : K) - 2) / n, 1 / n]] (N - 1) 1 rfl (by omega)
  rw [show ([] ++ [[1 / (n : K), 1 / n]] : List (List K)).length = 1 from rfl] at s2
  rw [s2, Option.bind_some]
  have s3 := setBlock_next (([] ++ [[1 / (n : K), 1 / n]]) ++ [[((n : K) - 2) / n, 1 / n]] : List (List K))
    [[1 / (n : K), ((n : K) - 2) / n]] (N - 1 - 1) 1 rfl (by omega)
  rw [show (([] ++ [[1 / (n : K), 1 / n]]) ++ [[((n : K) - 2) / n, 1 / n]] : List (List K)).length = 2 from rfl] at s3
  rw [s3, Option.bind_some]
  rw [if_pos (by omega), auxNodesSegment_eq (by omega), Option.bind_some]
  generalize hD : (([] ++ [[1 / (n : K), 1 / n]]) ++ [[((n : K) - 2) / n, 1 / n]] ++ [[1 / (n : K), ((n : K) - 2) / n]] :
    List (List K)) = D
  have hDl : D.length = 3 := by rw [← hD]; rfl
  have ml := mids_length (n - 3)
  have s4 := fun c hc => setBlock_next D c (N - 1 - 1 - 1) (n - 4) hc (by omega)
  rw [hDl] at s4
  rw [s4 _ (by rw [List.length_map, List.length_map, ml]; omega), Option.bind_some]
  generalize hE1 : (List.map (fun s : List K => _) (List.map (fun i : ℕ => [(i : K) / _]) (mids (n - 3)))) = E1
  have hE1l : E1.length = n - 4 := by rw [← hE1, List.length_map, List.length_map, ml]; omega
  have s5 := fun c hc => setBlock_next (D ++ E1) c (N - 1 - 1 - 1 - (n - 4)) (n - 4) hc (by omega)
  rw [List.length_append, hDl, hE1l, show 3 + (n - 4) = n - 1 by omega] at s5
  rw [s5 _ (by rw [List.length_map, List.length_map, ml]; omega), Option.bind_some]
  generalize hE2 : (List.map (fun s : List K => _) (List.map (fun i : ℕ => [(i : K) / _]) (mids (n - 3)))) = E2
  have hE2l : E2.length = n - 4 := by rw [← hE2, List.length_map, List.length_map, ml]; omega
  have s6 := fun c hc => setBlock_next (D ++ E1 ++ E2) c (N - 1 - 1 - 1 - (n - 4) - (n - 4)) (n - 4) hc (by omega)
  rw [List.length_append, List.length_append, hDl, hE1l, hE2l, show 3 + (n - 4) + (n - 4) = 2 * n - 5 by omega] at s6
  rw [s6 _ (by rw [List.length_map, List.length_map, ml]; omega), Option.bind_some]
  generalize hE3 : (List.map (fun s : List K => _) (List.map (fun i : ℕ => [(i : K) / _]) (mids (n - 3)))) = E3
  have hE3l : E3.length = n - 4 := by rw [← hE3, List.length_map, List.length_map, ml]; omega
  have e1 : E1 = (mids (n - 3)).map fun i : ℕ => [((i : K) + 1) / n, 1 / n] := by
    rw [← hE1, List.map_map]
    refine List.map_congr_left fun i _ => ?_
    simp only [Function.comp, List.getD_cons_zero, hn3]
    congr 1
    · field_simp
    · congr 1
      ring
  have e2 : E2 = (mids (n - 3)).map fun i : ℕ => [((n : K) - 2 - i) / n, ((i : K) + 1) / n] := by
    rw [← hE2, List.map_map]
    refine List.map_congr_left fun i _ => ?_
    simp only [Function.comp, List.getD_cons_zero, hn3]
    congr 1
    · field_simp
      ring
    · congr 1
      field_simp
  have e3 : E3 = (mids (n - 3)).map fun i : ℕ => [1 / (n : K), ((n : K) - 2 - i) / n] := by
    rw [← hE3, List.map_map]
    refine List.map_congr_left fun i _ => ?_
    simp only [Function.comp, List.getD_cons_zero, hn3]
    congr 1
    · ring
    · congr 1
      field_simp
      ring
  have hres : triaAux n inner = D ++ E1 ++ E2 ++ E3 ++
      inner.map fun p => [p.getD 0 0 * ((n : K) - 6) / n + 2 / n, p.getD 1 0 * ((n : K) - 6) / n + 2 / n] := by
    rw [← hD, e1, e2, e3]
    rfl
  rw [hres]
  by_cases h6 : n > 5
  · rw [if_pos h6, hi, Option.bind_some]
    have s7 := fun c hc => setBlock_next (D ++ E1 ++ E2 ++ E3) c (N - 1 - 1 - 1 - (n - 4) - (n - 4) - (n - 4)) inner.length hc
      (by omega)
    rw [List.length_append, List.length_append, List.length_append, hDl, hE1l, hE2l, hE3l,
      show 3 + (n - 4) + (n - 4) + (n - 4) = 3 * n - 9 by omega] at s7
    rw [s7 _ (by rw [List.length_map]), Option.bind_some,
      show N - 1 - 1 - 1 - (n - 4) - (n - 4) - (n - 4) - inner.length = 0 by omega, List.replicate_zero, List.append_nil,
      mapM_id_map_some]
  · obtain rfl : n = 5 := by omega
    have h0 : numAuxNodes .tria (5 - 3) = 0 := by decide
    rw [if_neg h6, Option.bind_some, show N - 1 - 1 - 1 - (5 - 4) - (5 - 4) - (5 - 4) = 0 by omega, List.replicate_zero,
      List.append_nil, mapM_id_map_some]
    rw [h0] at hl
    rw [List.length_eq_zero_iff.1 hl]
    simp

theorem auxNodesTria_small {n : ℕ} (h : n < 3) : auxNodesTria (K := K) n = some [] := by
  rw [auxNodesTria, dif_pos h]

theorem auxNodesTria_three : auxNodesTria (K := K) 3 = some [[1 / 3, 1 / 3]] := by
  rw [auxNodesTria, dif_neg (by norm_num)]
  rfl

theorem auxNodesTria_four : auxNodesTria (K := K) 4 = some [[1 / 4, 1 / 4], [1 / 2, 1 / 4], [1 / 4, 1 / 2]] := by
  rw [auxNodesTria, dif_neg (by norm_num)]
  rfl

/-- For every order the computation succeeds and yields points of the reference triangle. -/
theorem auxNodesTria_ok (n : ℕ) (hn : 1 ≤ n) : ∃ l : List (List K), auxNodesTria n = some l ∧
    l.length = numAuxNodes .tria n ∧ ∀ x ∈ l, RefEl.tria.Contains x := by
  induction n using Nat.strong_induction_on with
  | _ n ih =>
    rcases Nat.lt_or_ge n 3 with h | h
    · refine ⟨[], auxNodesTria_small h, ?_, by simp⟩
      interval_cases n <;> rfl
    · rcases Nat.lt_or_ge n 5 with h5 | h5
      · interval_cases n
        · refine ⟨_, auxNodesTria_three, by rfl, ?_⟩
          intro x hx
          rw [List.mem_singleton] at hx
          subst hx
          refine ⟨?_, ?_, ?_⟩ <;> norm_num
        · refine ⟨_, auxNodesTria_four, by rfl, ?_⟩
          intro x hx
          fin_cases hx <;> (refine ⟨?_, ?_, ?_⟩ <;> norm_num)
      · obtain ⟨l, h1, h2, h3⟩ := ih (n - 3) (by omega) (by omega)
        refine ⟨_, auxNodesTria_step h5 l h1 h2, ?_, ?_⟩
        · have := numAux_tria_step n (by omega)
          simp only [triaAux, List.length_append, List.length_map, List.length_cons, List.length_nil, mids_length]
          omega
        · have hn0 : (0 : K) < n := by
            have : 0 < n := by omega
            exact_mod_cast this
          have hn5 : (5 : K) ≤ n := by exact_mod_cast h5
          intro x hx
          simp only [triaAux, List.mem_append, List.mem_map] at hx
          rcases hx with (((hx | ⟨i, hi, rfl⟩) | ⟨i, hi, rfl⟩) | ⟨i, hi, rfl⟩) | ⟨p, hp, rfl⟩
          · fin_cases hx
            · refine ⟨by positivity, by positivity, ?_⟩
              rw [← add_div, div_le_one hn0]; linarith
            · refine ⟨div_nonneg (by linarith) hn0.le, by positivity, ?_⟩
              rw [← add_div, div_le_one hn0]; linarith
            · refine ⟨by positivity, div_nonneg (by linarith) hn0.le, ?_⟩
              rw [← add_div, div_le_one hn0]; linarith
          all_goals try
            obtain ⟨i1, i2⟩ := mem_mids.1 hi
            have i3 : (i : K) + 4 ≤ n := by
              have : i + 4 ≤ n := by omega
              exact_mod_cast this
            have i4 : (0 : K) ≤ i := Nat.cast_nonneg i
          · refine ⟨by positivity, by positivity, ?_⟩
            rw [← add_div, div_le_one hn0]; linarith
          · refine ⟨div_nonneg (by linarith) hn0.le, by positivity, ?_⟩
            rw [← add_div, div_le_one hn0]; linarith
          · refine ⟨by positivity, div_nonneg (by linarith) hn0.le, ?_⟩
            rw [← add_div, div_le_one hn0]; linarith
          · rcases Nat.lt_or_ge n 6 with h6 | h6
            · obtain rfl : n = 5 := by omega
              rw [auxNodesTria_small (by norm_num)] at h1
              cases h1
              cases hp
            · have hn6 : (6 : K) ≤ n := by exact_mod_cast h6
              have hc := h3 p hp
              match p, hc with
              | [a, b], hc =>
                obtain ⟨c1, c2, c3⟩ := hc
                have hk : 0 ≤ (n : K) - 6 := by linarith
                simp only [List.getD_cons_zero, List.getD_cons_succ]
                refine ⟨by positivity, by positivity, ?_⟩
                have : (a + b) * ((n : K) - 6) ≤ 1 * ((n : K) - 6) := mul_le_mul_of_nonneg_right c3 hk
                rw [← add_div, ← add_div, ← add_div, div_le_one hn0]
                linarith

/-- Up to order six the nodes are the interior nodes of VTK's triangle. -/
theorem auxNodesTria_vtk (n : ℕ) (h1 : 1 ≤ n) (h6 : n ≤ 6) : auxNodesTria (K := K) n =
    some (((vtkTria n).drop (3 * n)).map fun p => p.map fun i : ℕ => (i : K) / n) := by
  interval_cases n
  · rw [auxNodesTria_small (by norm_num)]
    simp [vtkTria]
  · rw [auxNodesTria_small (by norm_num)]
    simp [vtkTria]
  · rw [auxNodesTria_three]
    simp [vtkTria, mids, List.range_succ]
  · rw [auxNodesTria_four]
    simp [vtkTria, mids, List.range_succ]
    norm_num
  · rw [auxNodesTria_step (by norm_num) [] (auxNodesTria_small (by norm_num)) rfl]
    simp [vtkTria, mids, List.range_succ, triaAux]
    norm_num
  · rw [auxNodesTria_step (by norm_num) _ auxNodesTria_three rfl]
    simp [vtkTria, mids, List.range_succ, triaAux]
    norm_num

end Verif
