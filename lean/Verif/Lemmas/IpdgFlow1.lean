import Verif.Lemmas.IpdgUnique
import Verif.Spec.IpdgFlow
import Mathlib.Combinatorics.Enumerative.DoubleCounting

/-!
# Lemmas: flow through the boundary
-/

namespace Verif.Ipdg
open Verif Geo Dpg Finset

theorem outward_normalAt (p : Fin 3 → Vec ℝ 2) (k : Fin 3) : normalAt p k = outward p k := normalAt_eq p k

/-- The normal velocity is the derivative of the potential along the side. -/
theorem dot_curl_outward {p : Fin 3 → Vec ℝ 2} (h : area2 p ≠ 0) (v : Fin 3 → ℝ) (k : Fin 3) :
    dot (curl p v) (outward p k) =
      Real.sign (area2 p) / Real.sqrt (dot (p (k + 1) - p k) (p (k + 1) - p k)) * (v (k + 1) - v k) := by
  have key : dot (∑ i, v i • (p (i + 2) - p (i + 1))) (![(p (k + 1) - p k) 1, -(p (k + 1) - p k) 0] : Vec ℝ 2) =
      area2 p * (v (k + 1) - v k) := by
    rw [dot2]
    fin_cases k <;> simp [Fin.sum_univ_three, area2, det2_eq] <;> ring
  have ho : outward p k = (Real.sign (area2 p) / Real.sqrt (dot (p (k + 1) - p k) (p (k + 1) - p k))) •
      (![(p (k + 1) - p k) 1, -(p (k + 1) - p k) 0] : Vec ℝ 2) := by
    unfold outward tangent
    ext i
    fin_cases i <;> simp
    ring
  rw [ho, curl, dot_smul2, dot_comm2, dot_smul2, dot_comm2 (![_, _]) _, key]
  field_simp

variable {T : Topo} {geo : Ent → Option (Geo ℝ 2)} {pos : ℕ → Vec ℝ 2}

theorem mem_bdEdges {e : ℕ} : e ∈ bdEdges T ↔ e < T.numEdges ∧ T.OnBoundary e := by
  classical
  unfold bdEdges
  rw [Finset.mem_filter, Finset.mem_range]

theorem mem_bdNodes {v : ℕ} : v ∈ bdNodes T ↔ v < T.numNodes ∧ BoundaryNode T v := by
  classical
  unfold bdNodes
  rw [Finset.mem_filter, Finset.mem_range]

theorem ends_mem (hT : T.WF) {e : ℕ} (he : e ∈ bdEdges T) : (T.edge e).1 ∈ bdNodes T ∧ (T.edge e).2 ∈ bdNodes T := by
  obtain ⟨a, b⟩ := mem_bdEdges.1 he
  exact ⟨mem_bdNodes.2 ⟨(hT.edge_lt e a).1, e, a, b, Or.inl rfl⟩, mem_bdNodes.2 ⟨(hT.edge_lt e a).2, e, a, b, Or.inr rfl⟩⟩

theorem sideSign_ne (hM : TriaMesh T geo pos) {c : ℕ} (hc : c < T.numCells) (k : Fin 3) :
    sideSign T pos (sideOf T c k) (c, k) ≠ 0 := by
  have ha := hM.regular c hc
  have hs := area2_shift (fun k => pos (corner T c k)) k
  rw [← hs] at ha
  unfold sideSign
  rcases hM.side_ends hc k with he | he <;> rw [he]
  · exact ha
  · intro h0
    apply ha
    simp only [det2_eq, Pi.sub_apply, Prod.fst_swap, Prod.snd_swap] at h0 ⊢
    linarith

/-- The flow through a side, multiplied by its length. -/
theorem side_flow (hM : TriaMesh T geo pos) {c : ℕ} (hc : c < T.numCells) (k : Fin 3) (ψ : ℕ → ℝ) :
    edgeLength T pos (sideOf T c k) * dot (velocity T pos ψ c) (outward (tri T pos c) k) =
      Real.sign (area2 (tri T pos c)) * (ψ (corner T c (k + 1)) - ψ (corner T c k)) := by
  have hl := edgeLength_side hM hc k
  have hp := edgeLength_pos hM hc k
  rw [velocity, dot_curl_outward (p := tri T pos c) (hM.regular c hc)]
  have : Real.sqrt (dot (tri T pos c (k + 1) - tri T pos c k) (tri T pos c (k + 1) - tri T pos c k)) =
      edgeLength T pos (sideOf T c k) := hl.symm
  rw [this]
  field_simp

theorem side_flow' (hM : TriaMesh T geo pos) {c : ℕ} (hc : c < T.numCells) (k : Fin 3) (ψ : ℕ → ℝ) :
    edgeLength T pos (sideOf T c k) * dot (velocity T pos ψ c) (outward (tri T pos c) k) =
      Real.sign (sideSign T pos (sideOf T c k) (c, k)) * (ψ (T.edge (sideOf T c k)).2 - ψ (T.edge (sideOf T c k)).1) := by
  rw [side_flow hM hc]
  have hs := area2_shift (tri T pos c) k
  unfold sideSign
  rcases hM.side_ends hc k with he | he <;> rw [he] <;> rw [← hs]
  · rfl
  · have : det2 (tri T pos c (k + 1) - tri T pos c k) (tri T pos c (k + 2) - tri T pos c k) =
        -det2 (pos (corner T c k) - pos (corner T c (k + 1))) (pos (corner T c (k + 2)) - pos (corner T c (k + 1))) := by
      simp only [tri, det2_eq, Pi.sub_apply]
      ring
    simp only [this, Real.sign_neg, Prod.fst_swap, Prod.snd_swap]
    ring

theorem sign_add_of_mul_neg {a b : ℝ} (h : a * b < 0) : Real.sign a + Real.sign b = 0 := by
  rcases mul_neg_iff.1 h with ⟨ha, hb⟩ | ⟨ha, hb⟩
  · rw [Real.sign_of_pos ha, Real.sign_of_neg hb]; norm_num
  · rw [Real.sign_of_neg ha, Real.sign_of_pos hb]; norm_num

/-- The net flow of a potential is zero. -/
theorem netFlow_outflow (hM : TriaMesh T geo pos) (hman : Manifold T) (hopp : OppositeSides T pos) (ψ : ℕ → ℝ) :
    netFlow T pos (outflow T pos ψ) = 0 := by
  have hall : ∑ e ∈ range T.numEdges, ∑ s ∈ sidesAt T e,
      edgeLength T pos (sideOf T s.1 s.2) * dot (velocity T pos ψ s.1) (outward (tri T pos s.1) s.2) = 0 := by
    rw [← sum_sides hM fun c k => edgeLength T pos (sideOf T c k) * dot (velocity T pos ψ c) (outward (tri T pos c) k)]
    refine Finset.sum_eq_zero fun c hc => ?_
    rw [Finset.sum_congr rfl fun k _ => side_flow hM (Finset.mem_range.1 hc) k ψ, Fin.sum_univ_three]
    simp only [show (0 : Fin 3) + 1 = 1 from rfl, show (1 : Fin 3) + 1 = 2 from rfl, show (2 : Fin 3) + 1 = 0 from rfl]
    ring
  rw [← hall]
  unfold netFlow bdEdges outflow
  rw [Finset.sum_filter]
  refine Finset.sum_congr rfl fun e he => ?_
  have he' := Finset.mem_range.1 he
  have hs : ∀ s ∈ sidesAt T e, s.1 < T.numCells ∧ sideOf T s.1 s.2 = e := fun s hs => mem_sidesAt.1 (show (s.1, s.2) ∈ _ from hs)
  split
  · rw [Finset.mul_sum]
    exact Finset.sum_congr rfl fun s h => by rw [(hs s h).2]
  · rename_i hb
    rw [onBoundary_iff hM] at hb
    have hcard : (sidesAt T e).card = 2 := by have := hman e he'; omega
    obtain ⟨s, s', hne, heq⟩ := Finset.card_eq_two.1 hcard
    have m1 : s ∈ sidesAt T e := by rw [heq]; simp
    have m2 : s' ∈ sidesAt T e := by rw [heq]; simp
    rw [heq, Finset.sum_pair hne, side_flow' hM (hs s m1).1, side_flow' hM (hs s' m2).1, (hs s m1).2, (hs s' m2).2]
    have := sign_add_of_mul_neg (hopp e he' s m1 s' m2 hne)
    linear_combination (-(ψ (T.edge e).2 - ψ (T.edge e).1)) * this

/-- The outflow at an edge of the boundary determines the difference of the values of the potential, up to a sign. -/
theorem outflow_bd (hM : TriaMesh T geo pos) {e : ℕ} (he : e ∈ bdEdges T) :
    0 < edgeLength T pos e ∧ ∃ σ : ℝ, σ ≠ 0 ∧ ∀ ψ, edgeLength T pos e * outflow T pos ψ e = σ * (ψ (T.edge e).2 - ψ (T.edge e).1) := by
  obtain ⟨h1, h2⟩ := mem_bdEdges.1 he
  obtain ⟨s, hs⟩ := Finset.card_eq_one.1 ((onBoundary_iff hM e).1 h2)
  obtain ⟨a, b⟩ := mem_sidesAt.1 (show (s.1, s.2) ∈ sidesAt T e by rw [hs]; simp)
  subst b
  refine ⟨edgeLength_pos hM a s.2, Real.sign (sideSign T pos (sideOf T s.1 s.2) s), ?_, fun ψ => ?_⟩
  · rw [Ne, Real.sign_eq_zero_iff]
    exact sideSign_ne hM a s.2
  · unfold outflow
    rw [hs, Finset.sum_singleton]
    exact side_flow' hM a s.2 ψ

theorem velocity_add (φ ψ : ℕ → ℝ) (c : ℕ) : velocity T pos (fun v => φ v + ψ v) c = velocity T pos φ c + velocity T pos ψ c := by
  unfold velocity curl
  rw [← smul_add, ← Finset.sum_add_distrib]
  congr 1
  exact Finset.sum_congr rfl fun i _ => add_smul _ _ _

theorem outflow_sub (φ ψ : ℕ → ℝ) (e : ℕ) : outflow T pos (fun v => φ v - ψ v) e = outflow T pos φ e - outflow T pos ψ e := by
  unfold outflow
  rw [← Finset.sum_sub_distrib]
  exact Finset.sum_congr rfl fun s _ => by rw [velocity_sub, dot_sub2]

theorem jump_add (φ ψ : ℕ → ℝ) (e : ℕ) : jump T pos (fun v => φ v + ψ v) e = jump T pos φ e + jump T pos ψ e := by
  have := jump_sub pos T (fun v => φ v + ψ v) ψ e
  simp only [add_sub_cancel_right] at this
  linarith

/-- Values of the potential at other nodes do not matter for the outflow. -/
theorem outflow_congr (hM : TriaMesh T geo pos) {φ ψ : ℕ → ℝ} {e : ℕ} (he : e ∈ bdEdges T) (h : ∀ v ∈ bdNodes T, φ v = ψ v) :
    outflow T pos φ e = outflow T pos ψ e := by
  obtain ⟨h1, σ, -, h2⟩ := outflow_bd hM he
  obtain ⟨e1, e2⟩ := ends_mem hM.wf he
  have hφ := h2 φ
  rw [h _ e1, h _ e2, ← h2 ψ] at hφ
  exact mul_left_cancel₀ h1.ne' hφ

theorem perimeter_pos (hM : TriaMesh T geo pos) (hne : (bdEdges T).Nonempty) : 0 < perimeter T pos :=
  Finset.sum_pos (fun _ he => (outflow_bd hM he).1) hne

theorem netFlow_const (lam : ℝ) : netFlow T pos (fun _ => lam) = lam * perimeter T pos := by
  unfold netFlow perimeter
  rw [Finset.mul_sum]
  exact Finset.sum_congr rfl fun _ _ => mul_comm _ _

theorem netFlow_congr {q r : ℕ → ℝ} (h : ∀ e ∈ bdEdges T, q e = r e) : netFlow T pos q = netFlow T pos r :=
  Finset.sum_congr rfl fun e he => by rw [h e he]

/-- A potential with constant outflow and mean value zero on the boundary is zero there, and so is the outflow. -/
theorem bd_zero (hM : TriaMesh T geo pos) (hman : Manifold T) (hopp : OppositeSides T pos) (hne : (bdEdges T).Nonempty)
    (hconn : ∀ v ∈ bdNodes T, ∀ w ∈ bdNodes T, Relation.ReflTransGen (BdNeighbour T) v w) {ψ : ℕ → ℝ} {lam : ℝ}
    (h1 : ∀ e ∈ bdEdges T, outflow T pos ψ e = lam) (h2 : ∑ v ∈ bdNodes T, ψ v = 0) : lam = 0 ∧ ∀ v ∈ bdNodes T, ψ v = 0 := by
  have hl : lam = 0 := by
    have := netFlow_outflow hM hman hopp ψ
    rw [netFlow_congr h1, netFlow_const] at this
    rcases mul_eq_zero.1 this with h | h
    · exact h
    · exact absurd h (perimeter_pos hM hne).ne'
  refine ⟨hl, ?_⟩
  have hstep : ∀ v w, BdNeighbour T v w → ψ v = ψ w := by
    rintro v w ⟨e, he, hp⟩
    obtain ⟨a, σ, hσ, b⟩ := outflow_bd hM he
    have := b ψ
    rw [h1 e he, hl, mul_zero] at this
    have := (mul_eq_zero.1 this.symm).resolve_left hσ
    rcases hp with hp | hp <;> rw [hp] at this <;> simp only [Prod.fst_swap, Prod.snd_swap] at this <;> linarith
  have hpath : ∀ v w, Relation.ReflTransGen (BdNeighbour T) v w → ψ v = ψ w := by
    intro v w h
    induction h with
    | refl => rfl
    | tail _ h ih => rw [ih, hstep _ _ h]
  intro v hv
  rw [Finset.sum_congr rfl fun w hw => (hpath v w (hconn v hv w hw)).symm, Finset.sum_const, nsmul_eq_mul] at h2
  rcases mul_eq_zero.1 h2 with h | h
  · rw [Nat.cast_eq_zero, Finset.card_eq_zero] at h
    rw [h] at hv
    cases hv
  · exact h

/-- A closed curve has as many edges as nodes. -/
theorem closed_card (hM : TriaMesh T geo pos) (hc : ClosedCurve T) : (bdNodes T).card = (bdEdges T).card := by
  classical
  have := Finset.sum_card_bipartiteAbove_eq_sum_card_bipartiteBelow (s := bdNodes T) (t := bdEdges T)
    (fun v e => (T.edge e).1 = v ∨ (T.edge e).2 = v)
  have l : ∀ v ∈ bdNodes T, (Finset.bipartiteAbove (fun v e => (T.edge e).1 = v ∨ (T.edge e).2 = v) (bdEdges T) v).card = 2 := by
    intro v hv
    rw [← hc.two v hv]
    congr 1
  have r : ∀ e ∈ bdEdges T, (Finset.bipartiteBelow (fun v e => (T.edge e).1 = v ∨ (T.edge e).2 = v) (bdNodes T) e).card = 2 := by
    intro e he
    have hd := hM.wf.edge_ne e (mem_bdEdges.1 he).1
    obtain ⟨e1, e2⟩ := ends_mem hM.wf he
    have : Finset.bipartiteBelow (fun v e => (T.edge e).1 = v ∨ (T.edge e).2 = v) (bdNodes T) e = {(T.edge e).1, (T.edge e).2} := by
      ext v
      rw [Finset.mem_bipartiteBelow, Finset.mem_insert, Finset.mem_singleton]
      constructor
      · rintro ⟨-, h | h⟩
        · exact Or.inl h.symm
        · exact Or.inr h.symm
      · rintro (rfl | rfl)
        · exact ⟨e1, Or.inl rfl⟩
        · exact ⟨e2, Or.inr rfl⟩
    rw [this, Finset.card_pair hd]
  rw [Finset.sum_congr rfl l, Finset.sum_congr rfl r, Finset.sum_const, Finset.sum_const, smul_eq_mul, smul_eq_mul] at this
  omega

end Verif.Ipdg
