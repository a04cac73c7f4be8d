import Verif.Lemmas.IpdgDofs

/-!
# Lemmas: velocities, and triangles which share an edge
-/

namespace Verif.Ipdg
open Verif Geo Dpg

/-- Filling a data set, entity by entity. -/
theorem fill_spec {α : Type} (m : MeshObj) (k : ℕ) (hk : k ≤ 2) (x : α) (f : Ent → Option α) (v : ℕ → α)
    (hf : ∀ i < m.topo.num k, f (k, i) = some (v i)) :
    ∃ d, ((CodimDS.make m k x).bind fun d0 =>
      (m.topo.entities k).foldlM (fun d e => (f e).bind fun a => d.write ⟨m.id, e⟩ a) d0) = some d ∧
      ∀ i < m.topo.num k, d.read ⟨m.id, (k, i)⟩ = some (v i) := by
  obtain ⟨d0, h0, hok, -⟩ := CodimDS.make_ok m k hk x
  rw [h0, Option.bind_some]
  obtain ⟨d, h1, h2, h3⟩ := foldlM_list_inv (fun d e => (f e).bind fun a => d.write ⟨m.id, e⟩ a)
    (fun pre d => CodimDS.Ok m k d ∧ ∀ i < m.topo.num k, (k, i) ∈ pre → d.data[i]? = some (v i)) (m.topo.entities k) d0
    ⟨hok, fun i _ hi => by simp at hi⟩ (by
      rintro pre e d he ⟨hd, hv⟩
      obtain ⟨i, hi, rfl⟩ := List.mem_map.1 he
      rw [List.mem_range] at hi
      obtain ⟨d', w1, w2, w3⟩ := hd.write hi (v i)
      refine ⟨d', by rw [hf i hi]; exact w1, w2, fun j hj hmem => ?_⟩
      rw [w3 j hj]
      split
      · next h => rw [h]
      · next h =>
        rcases List.mem_append.1 hmem with h' | h'
        · exact hv j hj h'
        · simp at h'; exact absurd h' h)
  refine ⟨d, h1, fun i hi => ?_⟩
  rw [h2.read hi]
  exact h3 i hi (List.mem_map.2 ⟨i, List.mem_range.2 hi, rfl⟩)

variable {T : Topo} {geo : Ent → Option (Geo ℝ 2)} {pos : ℕ → Vec ℝ 2}

theorem cellVelocity_eq (hM : TriaMesh T geo pos) {h : DofHandler} {s : ℕ} (hh : NodeEdgeDofs T h s) {sol : List ℝ}
    (hs : sol.length = h.numDofs) {c : ℕ} (hc : c < T.numCells) :
    cellVelocity geo h sol (0, c) = some (velocity T pos (fun v => sol.getD v 0) c) := by
  unfold cellVelocity
  have hb := basis_eq (tri T pos c) (hM.regular c hc)
  have hget : ∀ k : Fin 3, sol[corner T c k]? = some (sol.getD (corner T c k) 0) := fun k => by
    have : corner T c k < sol.length := by rw [hs, hh.numDofs]; have := hM.corner_lt hc k; omega
    simp [this]
  rw [hM.cell c hc, Option.bind_some]
  change (basisFunct (.triaO1 (tri T pos c 0) (tri T pos c 1) (tri T pos c 2))).bind _ = _
  rw [hb, Option.bind_some, hh.cell c hc, Option.bind_some, corner_eq (hM.tria c hc)]
  simp only [List.cons_append, List.getElem?_cons_zero, List.getElem?_cons_succ, Option.bind_some, hget]
  congr 1
  exact basis_curl (tri T pos c) fun k => sol.getD (corner T c k) 0

/-- Fluxes of the curl of an affine function. -/
theorem flux_eq {p : Fin 3 → Vec ℝ 2} (h : area2 p ≠ 0) {v : Fin 3 → ℝ} {u : Vec ℝ 2} (hu : IsCurl p v u) (k : Fin 3) :
    Real.sqrt (dot (p (k + 1) - p k) (p (k + 1) - p k)) * dot u (normalAt p k) = Real.sign (area2 p) * (v (k + 1) - v k) := by
  obtain ⟨α, g, h1, rfl⟩ := hu
  have hs : Real.sqrt (dot (p (k + 1) - p k) (p (k + 1) - p k)) ≠ 0 := (Real.sqrt_pos.2 (side_pos h k)).ne'
  have : v (k + 1) - v k = dot g (p (k + 1) - p k) := by
    rw [← h1, ← h1, dot2, dot2, dot2]; simp only [Pi.sub_apply]; ring
  rw [this, normalAt, outNormal]
  set r := Real.sqrt (dot (p (k + 1) - p k) (p (k + 1) - p k))
  rw [dot2, dot2]
  simp only [Pi.smul_apply, smul_eq_mul, Matrix.cons_val_zero, Matrix.cons_val_one, Pi.sub_apply]
  field_simp
  ring

/-- Two triangles with a common side, on different sides of it. -/
structure Neighbours (p q : Fin 3 → Vec ℝ 2) (k j : Fin 3) : Prop where
  common : (p k = q j ∧ p (k + 1) = q (j + 1)) ∨ (p k = q (j + 1) ∧ p (k + 1) = q j)
  apart : det2 (p (k + 1) - p k) (p (k + 2) - p k) * det2 (p (k + 1) - p k) (q (j + 2) - p k) < 0

theorem tangent_neighbours {p q : Fin 3 → Vec ℝ 2} {k j : Fin 3} (hn : Neighbours p q k j) :
    tangent p k = -tangent q j := by
  have hq := area2_shift q j
  have hp := area2_shift p k
  obtain ⟨hc, ha⟩ := hn
  rw [hp] at ha
  unfold tangent
  rcases hc with ⟨h1, h2⟩ | ⟨h1, h2⟩
  · rw [h1, h2] at ha ⊢
    rw [hq] at ha
    have : Real.sign (area2 p) = -Real.sign (area2 q) := by
      rcases mul_neg_iff.1 ha with ⟨a, b⟩ | ⟨a, b⟩
      · rw [Real.sign_of_pos a, Real.sign_of_neg b]; norm_num
      · rw [Real.sign_of_pos b, Real.sign_of_neg a]
    rw [this, neg_div, neg_smul]
  · rw [h1, h2] at ha ⊢
    have e : det2 (q j - q (j + 1)) (q (j + 2) - q (j + 1)) = -area2 q := by
      rw [← hq, det2_eq, det2_eq]; simp only [Pi.sub_apply]; ring
    rw [e] at ha
    have : Real.sign (area2 p) = Real.sign (area2 q) := by
      rcases mul_neg_iff.1 ha with ⟨a, b⟩ | ⟨a, b⟩
      · rw [Real.sign_of_pos a, Real.sign_of_pos (by linarith)]
      · rw [Real.sign_of_neg a, Real.sign_of_neg (by linarith)]
    have e2 : dot (q j - q (j + 1)) (q j - q (j + 1)) = dot (q (j + 1) - q j) (q (j + 1) - q j) := by
      rw [dot2, dot2]; simp only [Pi.sub_apply]; ring
    rw [this, e2, ← smul_neg, neg_sub]

theorem normal_neighbours {p q : Fin 3 → Vec ℝ 2} {k j : Fin 3} (hn : Neighbours p q k j) :
    normalAt p k = -normalAt q j := by
  rw [normalAt_eq, normalAt_eq, tangent_neighbours hn]
  ext i
  fin_cases i <;> simp

theorem isOutward_normalAt {p : Fin 3 → Vec ℝ 2} (h : area2 p ≠ 0) (k : Fin 3) : IsOutwardNormal p k (normalAt p k) := by
  obtain ⟨h1, h2, h3⟩ := isTangent_tangent h k
  rw [normalAt_eq]
  refine ⟨?_, ?_, ?_⟩
  · rw [dot2] at h1 ⊢; simp only [Matrix.cons_val_zero, Matrix.cons_val_one]; linarith
  · rw [det2_eq] at h2; rw [dot2]; simp only [Matrix.cons_val_zero, Matrix.cons_val_one]; linarith
  · rw [det2_eq] at h3; rw [dot2]; simp only [Matrix.cons_val_zero, Matrix.cons_val_one]; linarith

theorem isTangent_of_outward {p : Fin 3 → Vec ℝ 2} {k : Fin 3} {n : Vec ℝ 2} (h : IsOutwardNormal p k n) : IsTangent p k (turn n) := by
  obtain ⟨h1, h2, h3⟩ := h
  refine ⟨?_, ?_, ?_⟩
  · rw [dot2] at h1 ⊢; simp only [turn, Matrix.cons_val_zero, Matrix.cons_val_one]; linarith
  · rw [det2_eq]; rw [dot2] at h2; simp only [turn, Matrix.cons_val_zero, Matrix.cons_val_one]; linarith
  · rw [det2_eq]; rw [dot2] at h3; simp only [turn, Matrix.cons_val_zero, Matrix.cons_val_one]; linarith

theorem turn_inj {n k : Vec ℝ 2} (h : turn n = turn k) : n = k := by
  have h0 := congrFun h 0
  have h1 := congrFun h 1
  simp only [turn, Matrix.cons_val_zero, Matrix.cons_val_one] at h0 h1
  ext i
  fin_cases i
  · exact h1
  · simpa using h0

end Verif.Ipdg
