import Verif.Model.Prolongation
import Verif.Lemmas.Relative
import Verif.Lemmas.QuadPoly
import Verif.Lemmas.Lagrange
import Verif.Lemmas.Conform
import Verif.Lemmas.TransferHier

/-! Polynomials on the children of a cell. -/

namespace Verif
open Finset

theorem TP.pow {u : ℝ → ℝ → ℝ} (hu : TP 1 u) (n : ℕ) : TP n fun x y => u x y ^ n := by
  induction n with
  | zero => simpa using TP.const 0 1
  | succ n ih =>
    simp only [pow_succ]
    exact ih.mul hu le_rfl

/-- Composition with an affine map. -/
theorem TP.comp {d : ℕ} {f : ℝ → ℝ → ℝ} (hf : TP d f) {u v : ℝ → ℝ → ℝ} (hu : TP 1 u) (hv : TP 1 v) :
    TP d fun x y => f (u x y) (v x y) := by
  obtain ⟨c, hc⟩ := hf
  simp only [hc]
  refine TP.sum _ fun a ha => TP.sum _ fun b hb => TP.smul _ ((hu.pow a).mul (hv.pow b) ?_)
  simp only [mem_range] at *
  omega

theorem QP.comp_tria {d : ℕ} {f : ℝ → ℝ → ℝ} (hf : QP d f) {u v : ℝ → ℝ → ℝ} (hu : TP 1 u) (hv : TP 1 v) :
    TP (2 * d) fun x y => f (u x y) (v x y) := by
  obtain ⟨c, hc⟩ := hf
  simp only [hc]
  refine TP.sum _ fun a ha => TP.sum _ fun b hb => TP.smul _ ((hu.pow a).mul (hv.pow b) ?_)
  simp only [mem_range] at *
  omega

theorem QP.lin_pow (a b : ℝ) {d n : ℕ} (h : n ≤ d) : PolyFn d fun x => (a + b * x) ^ n := by
  have : PolyFn n fun x => (a + b * x) ^ n := by
    induction n with
    | zero => simpa using PolyFn.const 0 1
    | succ n ih =>
      simp only [pow_succ]
      exact (ih (by omega)).mul ((PolyFn.const 1 a).add ((PolyFn.id 1 (by omega)).smul b)) (by omega)
  exact this.mono h

theorem QP.tensor {d : ℕ} {f g : ℝ → ℝ} (hf : PolyFn d f) (hg : PolyFn d g) : QP d fun x y => f x * g y := by
  have := poly_tensor (d := d) (g := fun l => f (l.getD 0 0)) (h := fun l => g (l.getD 0 0))
    (f := fun l => f (l.getD 0 0) * g (l.getD 1 0)) (PolyFn.isPolyOn (by simpa using hf)) (PolyFn.isPolyOn (by simpa using hg))
    (fun x y => by simp)
  simpa [IsPolyOn, QP] using this

theorem QP.comp_axis {d : ℕ} {f : ℝ → ℝ → ℝ} (hf : QP d f) (a b a' b' : ℝ) :
    (QP d fun x y => f (a + b * x) (a' + b' * y)) ∧ QP d fun x y => f (a + b * y) (a' + b' * x) := by
  obtain ⟨c, hc⟩ := hf
  simp only [hc]
  constructor
  · refine QP.sum _ fun i hi => QP.sum _ fun j hj => QP.smul _ (QP.tensor (QP.lin_pow _ _ ?_) (QP.lin_pow _ _ ?_)) <;>
      simp only [mem_range] at * <;> omega
  · refine QP.sum _ fun i hi => QP.sum _ fun j hj => QP.smul _ ?_
    have := QP.tensor (d := d) (QP.lin_pow a' b' (n := j) (by simp only [mem_range] at *; omega))
      (QP.lin_pow a b (n := i) (by simp only [mem_range] at *; omega))
    simpa only [mul_comm] using this

/-- What is known on the position of a child cell. -/
theorem Step.child_form {G : Type} {cops : ChildOps G} {L L' N : Level G} {P : Plan} {A : Pats} {Γ : GPlan G}
    (hs : Step cops L L' N P A Γ) {i : ℕ} {rf : RefEl} (hi : N.mesh.topo.refEl (0, i) = some rf) :
    ∃ c r p polys Q, L.mesh.topo.refEl (0, c) = some r ∧ L'.pattern (0, c) = some p ∧ p.ref = r ∧ p.Reachable ∧ p.Refines ∧
      p.childPolygons 0 = some polys ∧ Q ∈ polys ∧ Q.length = rf.numNodes ∧ (∀ q ∈ Q, ∃ x y : ℤ, q = [x, y]) ∧
      ∀ x : List ℝ, stepIn N (0, i) x = relEval (0, c) Q x := by
  obtain ⟨c, r, href, ⟨k, rfl, hc, hk⟩, -⟩ := hs.samePoint (K := ℝ) hi
  obtain ⟨r', hr, hcr, hn, href', hloc⟩ := hs.cellOk hc
  rw [href] at href'
  cases href'
  obtain ⟨ref, p, g, hr', hcr', hpat, hpr, hp, hm, hch, -⟩ := hs.pattern_cell c hc
  rw [hcr] at hcr'
  cases hcr'
  obtain ⟨t0, -⟩ := lat_ok hr hm hp hch
  have hkl : k < (P.polys c).length := hk
  have hnodes := hs.refined.isRef.cell _ _ (fineCells_get c hc k hkl)
  have hQ : (P.polys c)[k] ∈ P.polys c := List.getElem_mem _
  refine ⟨c, r, p, _, (P.polys c)[k].map (latNode r), href, hpat, hpr, .make _ _ _ _ hm, hp, t0, List.mem_map_of_mem hQ, ?_, ?_,
    fun x => hs.child_step hc hcr (List.getElem?_eq_getElem hkl) x⟩
  · obtain ⟨-, hnf⟩ := Topo.refEl_cell hs.refined.valid.wf hi
    rw [hnf, hnodes]
    simp
  · intro q hq
    obtain ⟨z, hz, rfl⟩ := List.mem_map.1 hq
    exact latPos_two hr ((hloc.polysOk _ hQ).2.2 z hz)

/-- A polynomial on a cell, as a function of the local coordinates of a child. -/
theorem rel_poly {r rf : RefEl} {pc pf : ℕ} (c : ℕ) {Q : List (List ℤ)} (hl : Q.length = rf.numNodes)
    (h2 : ∀ q ∈ Q, ∃ x y : ℤ, q = [x, y]) {g : List ℝ → ℝ} (hg : IsPolyOn r pc g)
    (h : (rf = .tria ∧ r = .tria ∧ pc ≤ pf) ∨ (rf = .tria ∧ r = .quad ∧ 2 * pc ≤ pf) ∨
      (rf = .quad ∧ r = .quad ∧ AxisParallel Q ∧ pc ≤ pf)) :
    ∃ h, IsPolyOn rf pf h ∧ ∀ x : List ℝ, x.length = 2 → ∃ y, relEval (0, c) Q x = some ((0, c), y) ∧ h x = g y := by
  by_cases hrf : rf = .tria
  · subst hrf
    match Q, hl with
    | [p, q, s], _ =>
      obtain ⟨x0, y0, rfl⟩ := h2 p (by simp)
      obtain ⟨x1, y1, rfl⟩ := h2 q (by simp)
      obtain ⟨x2, y2, rfl⟩ := h2 s (by simp)
      obtain ⟨G, h1, _, h3⟩ := rel_tria (K := ℝ) x0 y0 x1 y1 x2 y2
      let u : ℝ → ℝ → ℝ := fun x y => (1 - x - y) * (1 / 6 * (x0 : ℝ)) + x * (1 / 6 * (x1 : ℝ)) + y * (1 / 6 * (x2 : ℝ))
      let v : ℝ → ℝ → ℝ := fun x y => (1 - x - y) * (1 / 6 * (y0 : ℝ)) + x * (1 / 6 * (y1 : ℝ)) + y * (1 / 6 * (y2 : ℝ))
      have lin : ∀ a b c : ℝ, TP 1 fun x y => (1 - x - y) * a + x * b + y * c := by
        intro a b c
        exact (((((TP.const 1 1).sub (TP.fst 1 le_rfl)).sub (TP.snd 1 le_rfl)).mul (TP.const 0 a) le_rfl).add
          ((TP.fst 1 le_rfl).mul (TP.const 0 b) le_rfl)).add ((TP.snd 1 le_rfl).mul (TP.const 0 c) le_rfl)
      have hu : TP 1 u := lin _ _ _
      have hv : TP 1 v := lin _ _ _
      have key : TP pf fun x y => g [u x y, v x y] := by
        rcases h with ⟨_, rfl, hd⟩ | ⟨_, rfl, hd⟩ | ⟨h, _⟩
        · exact (TP.comp (f := fun x y => g [x, y]) hg hu hv).mono hd
        · exact (QP.comp_tria (f := fun x y => g [x, y]) hg hu hv).mono hd
        · cases h
      refine ⟨fun l => g [u (l.getD 0 0) (l.getD 1 0), v (l.getD 0 0) (l.getD 1 0)],
        TP.isPolyOn (by simpa using key), fun x hx => ?_⟩
      match x, hx with
      | [a, b], _ =>
        obtain ⟨w, h4, h5⟩ := h3 a b
        refine ⟨List.ofFn w, ?_, ?_⟩
        · unfold relEval
          simp only [Nat.sub_zero, h1, Option.bind_some, h4, Option.map_some]
        · rw [h5]; rfl
  · obtain ⟨rfl, rfl, hax, hd⟩ := (h.resolve_left fun h => hrf h.1).resolve_left fun h => hrf h.1
    match Q, hl with
    | [p, q, s, t], _ =>
      obtain ⟨x0, y0, rfl⟩ := h2 p (by simp)
      obtain ⟨x1, y1, rfl⟩ := h2 q (by simp)
      obtain ⟨x2, y2, rfl⟩ := h2 s (by simp)
      obtain ⟨x3, y3, rfl⟩ := h2 t (by simp)
      obtain ⟨G, h1, _, h3⟩ := rel_quad (K := ℝ) x0 y0 x1 y1 x2 y2 x3 y3
      let u : ℝ → ℝ → ℝ := fun x y => (1 - x) * (1 - y) * (1 / 6 * (x0 : ℝ)) + x * (1 - y) * (1 / 6 * (x1 : ℝ)) +
        x * y * (1 / 6 * (x2 : ℝ)) + (1 - x) * y * (1 / 6 * (x3 : ℝ))
      let v : ℝ → ℝ → ℝ := fun x y => (1 - x) * (1 - y) * (1 / 6 * (y0 : ℝ)) + x * (1 - y) * (1 / 6 * (y1 : ℝ)) +
        x * y * (1 / 6 * (y2 : ℝ)) + (1 - x) * y * (1 / 6 * (y3 : ℝ))
      have key : QP pf fun x y => g [u x y, v x y] := by
        refine QP.mono ?_ hd
        rcases hax with ⟨e1, e2, e3, e4⟩ | ⟨e1, e2, e3, e4⟩
        · have := (QP.comp_axis (f := fun x y => g [x, y]) hg (1 / 6 * (x0 : ℝ)) (1 / 6 * (x1 : ℝ) - 1 / 6 * (x0 : ℝ))
            (1 / 6 * (y0 : ℝ)) (1 / 6 * (y2 : ℝ) - 1 / 6 * (y0 : ℝ))).1
          have hu : ∀ x y, u x y = 1 / 6 * (x0 : ℝ) + (1 / 6 * (x1 : ℝ) - 1 / 6 * (x0 : ℝ)) * x := by
            intro x y; simp only [u]; rw [e2, e3]; ring
          have hv : ∀ x y, v x y = 1 / 6 * (y0 : ℝ) + (1 / 6 * (y2 : ℝ) - 1 / 6 * (y0 : ℝ)) * y := by
            intro x y; simp only [v]; rw [e1, e4]; ring
          simpa only [hu, hv] using this
        · have := (QP.comp_axis (f := fun x y => g [x, y]) hg (1 / 6 * (x0 : ℝ)) (1 / 6 * (x2 : ℝ) - 1 / 6 * (x0 : ℝ))
            (1 / 6 * (y0 : ℝ)) (1 / 6 * (y1 : ℝ) - 1 / 6 * (y0 : ℝ))).2
          have hu : ∀ x y, u x y = 1 / 6 * (x0 : ℝ) + (1 / 6 * (x2 : ℝ) - 1 / 6 * (x0 : ℝ)) * y := by
            intro x y; simp only [u]; rw [e1, e4]; ring
          have hv : ∀ x y, v x y = 1 / 6 * (y0 : ℝ) + (1 / 6 * (y1 : ℝ) - 1 / 6 * (y0 : ℝ)) * x := by
            intro x y; simp only [v]; rw [e2, e3]; ring
          simpa only [hu, hv] using this
      refine ⟨fun l => g [u (l.getD 0 0) (l.getD 1 0), v (l.getD 0 0) (l.getD 1 0)],
        QP.isPolyOn (by simpa using key), fun x hx => ?_⟩
      match x, hx with
      | [a, b], _ =>
        obtain ⟨w, h4, h5⟩ := h3 a b
        refine ⟨List.ofFn w, ?_, ?_⟩
        · unfold relEval
          simp only [Nat.sub_zero, h1, Option.bind_some, h4, Option.map_some]
        · rw [h5]; rfl

end Verif
