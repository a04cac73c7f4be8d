import Verif.Lemmas.HierTriaDual
import Verif.Lemmas.HierQuadDual
import Verif.Lemmas.HierDual
import Verif.Lemmas.QuadPoly
import Verif.Lemmas.ExactRules
import Mathlib.LinearAlgebra.Dimension.Finrank
import Mathlib.LinearAlgebra.Dimension.Constructions
import Mathlib.LinearAlgebra.FiniteDimensional.Basic

/-!
# The span of the hierarchic shape functions
-/

namespace Verif
open HierQuad Geo

/-- Independent functions in the span of at most as many functions span the same space. -/
theorem span_complete {X : Type} (L : List (X → ℝ)) (s : Finset (X → ℝ)) (hcard : s.card ≤ L.length)
    (hL : ∀ g ∈ L, g ∈ Submodule.span ℝ (s : Set (X → ℝ)))
    (hind : ∀ c : List ℝ, c.length = L.length → (∀ x, dotRow c (L.map fun g => g x) = 0) → ∀ i, c.getD i 0 = 0) :
    Submodule.span ℝ {g | g ∈ L} = Submodule.span ℝ (s : Set (X → ℝ)) := by
  have hset : {g | g ∈ L} = Set.range fun i : Fin L.length => L.get i := by
    ext g
    simp [List.mem_iff_get]
  have hli : LinearIndependent ℝ fun i : Fin L.length => L.get i := by
    rw [Fintype.linearIndependent_iff]
    intro c hc i
    have := hind (List.ofFn c) (by simp) (fun x => ?_) i
    · simpa [List.getD] using this
    · have hx : (∑ i, c i • L.get i) x = 0 := congrFun hc x
      rw [← dotRow_eq_sum (n := L.length) (by simp) (by simp), ← hx, Finset.sum_apply, Finset.sum_range]
      refine Finset.sum_congr rfl fun i _ => ?_
      simp [List.getD]
  have hfin : FiniteDimensional ℝ (Submodule.span ℝ (s : Set (X → ℝ))) := FiniteDimensional.span_finset ℝ s
  refine Submodule.eq_of_le_of_finrank_le ?_ ?_
  · rw [Submodule.span_le]
    exact fun g hg => hL g hg
  · rw [hset, finrank_span_eq_card hli, Fintype.card_fin]
    exact (finrank_span_finset_le_card s).trans hcard

theorem mem_span_list {X : Type} (L : List (X → ℝ)) (f : X → ℝ) (hf : f ∈ Submodule.span ℝ {g | g ∈ L}) :
    ∃ c : List ℝ, c.length = L.length ∧ ∀ x, dotRow c (L.map fun g => g x) = f x := by
  have hset : {g | g ∈ L} = Set.range fun i : Fin L.length => L.get i := by
    ext g
    simp [List.mem_iff_get]
  rw [hset, Submodule.mem_span_range_iff_exists_fun] at hf
  obtain ⟨c, hc⟩ := hf
  refine ⟨List.ofFn c, by simp, fun x => ?_⟩
  rw [← hc, ← dotRow_eq_sum (n := L.length) (by simp) (by simp), Finset.sum_apply, Finset.sum_range]
  refine Finset.sum_congr rfl fun i _ => ?_
  simp [List.getD]

/-- Monomials of total degree `d`. -/
noncomputable def triaMonos (d : ℕ) : Finset (ℝ × ℝ → ℝ) := by
  classical
  exact ((Finset.range (d + 1)).sigma fun a => Finset.range (d + 1 - a)).image fun ab => fun p => p.1 ^ ab.1 * p.2 ^ ab.2

theorem triaMonos_card (d : ℕ) : (triaMonos d).card ≤ (d + 1) * (d + 2) / 2 := by
  classical
  unfold triaMonos
  refine Finset.card_image_le.trans ?_
  rw [Finset.card_sigma]
  simp only [Finset.card_range]
  have : ∑ a ∈ Finset.range (d + 1), (d + 1 - a) = ∑ a ∈ Finset.range (d + 2), a := by
    rw [Finset.sum_range_succ' (fun a => a) (d + 1), add_zero, ← Finset.sum_range_reflect]
    refine Finset.sum_congr rfl fun a ha => ?_
    have := Finset.mem_range.1 ha
    omega
  rw [this, Finset.sum_range_id]
  apply le_of_eq
  rw [mul_comm]
  rfl

theorem triaMonos_span {d : ℕ} {f : ℝ → ℝ → ℝ} (hf : TP d f) :
    (fun p : ℝ × ℝ => f p.1 p.2) ∈ Submodule.span ℝ (triaMonos d : Set (ℝ × ℝ → ℝ)) := by
  classical
  obtain ⟨c, hc⟩ := hf
  have : (fun p : ℝ × ℝ => f p.1 p.2) =
      ∑ a ∈ Finset.range (d + 1), ∑ b ∈ Finset.range (d + 1 - a), c a b • fun p : ℝ × ℝ => p.1 ^ a * p.2 ^ b := by
    funext p
    rw [hc]
    simp [Finset.sum_apply]
  rw [this]
  refine Submodule.sum_mem _ fun a ha => Submodule.sum_mem _ fun b hb => Submodule.smul_mem _ _ (Submodule.subset_span ?_)
  unfold triaMonos
  simp only [Finset.coe_image, Set.mem_image, Finset.mem_coe, Finset.mem_sigma]
  exact ⟨⟨a, b⟩, ⟨ha, hb⟩, rfl⟩

/-- Monomials of degree `d` in each variable. -/
noncomputable def quadMonos (d : ℕ) : Finset (ℝ × ℝ → ℝ) := by
  classical
  exact ((Finset.range (d + 1)) ×ˢ (Finset.range (d + 1))).image fun ab => fun p => p.1 ^ ab.1 * p.2 ^ ab.2

theorem quadMonos_card (d : ℕ) : (quadMonos d).card ≤ (d + 1) * (d + 1) := by
  classical
  unfold quadMonos
  refine Finset.card_image_le.trans ?_
  simp

theorem quadMonos_span {d : ℕ} {f : ℝ → ℝ → ℝ} (hf : QP d f) :
    (fun p : ℝ × ℝ => f p.1 p.2) ∈ Submodule.span ℝ (quadMonos d : Set (ℝ × ℝ → ℝ)) := by
  classical
  obtain ⟨c, hc⟩ := hf
  have : (fun p : ℝ × ℝ => f p.1 p.2) =
      ∑ a ∈ Finset.range (d + 1), ∑ b ∈ Finset.range (d + 1), c a b • fun p : ℝ × ℝ => p.1 ^ a * p.2 ^ b := by
    funext p
    rw [hc]
    simp [Finset.sum_apply]
  rw [this]
  refine Submodule.sum_mem _ fun a ha => Submodule.sum_mem _ fun b hb => Submodule.smul_mem _ _ (Submodule.subset_span ?_)
  unfold quadMonos
  simp only [Finset.coe_image, Set.mem_image, Finset.mem_coe, Finset.mem_product]
  exact ⟨(a, b), ⟨ha, hb⟩, rfl⟩

/-! ### From the span to `NodalValuesToDofs` -/

/-- A function in the span is reproduced. -/
theorem RefFE.Dual.reproduce {fe : RefFE ℝ} (hd : fe.Dual) {n : ℕ} (hdim : fe.ref.dimension = n)
    (hnodes : ∀ p ∈ fe.nodes, p.length = n) {f : List ℝ → ℝ} {c : List ℝ} (hc : c.length = fe.num)
    (h : ∀ x : List ℝ, x.length = n → ∑ i ∈ Finset.range fe.num, c.getD i 0 * fe.shape i x = f x) :
    ∃ c : List ℝ, fe.toDofs (fe.nodes.map f) = some c ∧ c.length = fe.num ∧
      ∀ x, x.length = fe.ref.dimension → ∑ i ∈ Finset.range fe.num, c.getD i 0 * fe.shape i x = f x := by
  refine ⟨c, ?_, hc, fun x hx => h x (hx.trans hdim)⟩
  rw [← hd c hc]
  congr 1
  exact List.map_congr_left fun p hp => (h p (hnodes p hp)).symm

/-- The zero function has zero coefficients. -/
theorem RefFE.Dual.zero {fe : RefFE ℝ} (hd : fe.Dual) {n : ℕ} (hnodes : ∀ p ∈ fe.nodes, p.length = n) {c : List ℝ}
    (hc : c.length = fe.num)
    (h : ∀ x : List ℝ, x.length = n → ∑ i ∈ Finset.range fe.num, c.getD i 0 * fe.shape i x = 0) : ∀ i, c.getD i 0 = 0 := by
  have h1 := hd c hc
  have h2 := hd (List.replicate fe.num 0) (by simp)
  have : (fe.nodes.map fun x => ∑ i ∈ Finset.range fe.num, c.getD i 0 * fe.shape i x) =
      fe.nodes.map fun x => ∑ i ∈ Finset.range fe.num, (List.replicate fe.num 0).getD i 0 * fe.shape i x := by
    refine List.map_congr_left fun p hp => ?_
    rw [h p (hnodes p hp)]
    refine (Finset.sum_eq_zero fun i hi => ?_).symm
    have := Finset.mem_range.1 hi
    simp [List.getD, this]
  rw [this, h2] at h1
  intro i
  rw [← Option.some.inj h1]
  by_cases hi : i < fe.num <;> simp [List.getD, hi]

/-! ### Triangles -/

namespace HierTria
variable (F : HierTria ℝ)

/-- All shape functions, as a list of functions. -/
noncomputable def shapeFns : List (ℝ × ℝ → ℝ) :=
  [fun p => 1 - p.1 - p.2, fun p => p.1, fun p => p.2] ++
  (oriented (F.o 0) ((List.range (F.e 0 - 1)).map fun i p => F.edgeFn 0 i p.1 p.2)) ++
  (oriented (F.o 1) ((List.range (F.e 1 - 1)).map fun i p => F.edgeFn 1 i p.1 p.2)) ++
  (oriented (F.o 2) ((List.range (F.e 2 - 1)).map fun i p => F.edgeFn 2 i p.1 p.2)) ++
    (interior F.p).map fun ij p => F.intFn ij p.1 p.2

theorem shapes_eq_map (x y : ℝ) : F.shapes x y = F.shapeFns.map fun g => g (x, y) := by
  simp [shapes, shapeFns, edgeShapes, ← oriented_map, Function.comp_def]

theorem shapeFns_length : F.shapeFns.length = F.num := by
  have := congrArg List.length (F.shapes_eq_map 0 0)
  rw [List.length_map, shapes_length] at this
  exact this.symm

theorem mem_shapeFns (g : ℝ × ℝ → ℝ) : g ∈ F.shapeFns ↔ (g = (fun p => 1 - p.1 - p.2) ∨ g = (fun p => p.1) ∨
    g = fun p => p.2) ∨ (∃ j < 3, ∃ i < F.e j - 1, g = fun p => F.edgeFn j i p.1 p.2) ∨
    ∃ ij ∈ interior F.p, g = fun p => F.intFn ij p.1 p.2 := by
  simp only [shapeFns, List.mem_append, mem_oriented, List.mem_map, List.mem_range, List.mem_cons, List.not_mem_nil, or_false]
  constructor
  · rintro ((((h | h) | h) | h) | h)
    · exact .inl h
    · obtain ⟨i, hi, rfl⟩ := h
      exact .inr (.inl ⟨0, by omega, i, hi, rfl⟩)
    · obtain ⟨i, hi, rfl⟩ := h
      exact .inr (.inl ⟨1, by omega, i, hi, rfl⟩)
    · obtain ⟨i, hi, rfl⟩ := h
      exact .inr (.inl ⟨2, by omega, i, hi, rfl⟩)
    · obtain ⟨ij, hi, rfl⟩ := h
      exact .inr (.inr ⟨ij, hi, rfl⟩)
  · rintro (h | ⟨j, hj, i, hi, rfl⟩ | ⟨ij, hij, rfl⟩)
    · exact .inl (.inl (.inl (.inl h)))
    · interval_cases j
      · exact .inl (.inl (.inl (.inr ⟨i, hi, rfl⟩)))
      · exact .inl (.inl (.inr ⟨i, hi, rfl⟩))
      · exact .inl (.inr ⟨i, hi, rfl⟩)
    · exact .inr ⟨ij, hij, rfl⟩

theorem bary_poly (j : ℕ) : TP 1 fun x y => bary x y j := by
  match j with
  | 0 => exact ((TP.const 1 1).sub (TP.fst 1 le_rfl)).sub (TP.snd 1 le_rfl)
  | 1 => exact TP.fst 1 le_rfl
  | j + 2 => exact TP.snd 1 le_rfl

theorem edgeFn_poly (j i : ℕ) : TP (i + 2) fun x y => F.edgeFn j i x y := by
  unfold edgeFn
  refine TP.iLegendre ?_ ((bary_poly j).add (bary_poly _)) i
  by_cases h : F.o j
  · simpa [h] using bary_poly ((j + 1) % 3)
  · simpa [h] using bary_poly j

theorem shapeFns_poly (d : ℕ) (hd : 1 ≤ d) (hp : F.p ≤ d) (he : ∀ j < 3, F.e j ≤ d) (g : ℝ × ℝ → ℝ) (hg : g ∈ F.shapeFns) :
    TP d fun x y => g (x, y) := by
  rcases (F.mem_shapeFns g).1 hg with (rfl | rfl | rfl) | ⟨j, hj, i, hi, rfl⟩ | ⟨ij, hij, rfl⟩
  · exact ((TP.const d 1).sub (TP.fst d hd)).sub (TP.snd d hd)
  · exact TP.fst d hd
  · exact TP.snd d hd
  · have := he j hj
    exact (F.edgeFn_poly j i).mono (by omega)
  · have := interior_mem hij
    exact (F.intFn_poly ij).mono (by omega)

theorem sum_shapes {c : List ℝ} (hc : c.length = F.num) (x y : ℝ) :
    ∑ i ∈ Finset.range F.fe.num, c.getD i 0 * F.fe.shape i [x, y] = dotRow c (F.shapeFns.map fun g => g (x, y)) := by
  rw [← shapes_eq_map]
  exact RefFE.sum_shape (fe := F.fe) (x := [x, y]) (F.eval_eq x y) (F.shapes_length x y) hc

/-- With the same degree everywhere the shape functions span the polynomials of this degree. -/
theorem span_uniform (hF : F.Ready) (d : ℕ) (hd : 1 ≤ d) (hp : F.p = d) (he : ∀ j < 3, F.e j = d) :
    Submodule.span ℝ {g | g ∈ F.shapeFns} = Submodule.span ℝ (triaMonos d : Set (ℝ × ℝ → ℝ)) := by
  refine span_complete F.shapeFns (triaMonos d) ?_ ?_ ?_
  · refine (triaMonos_card d).trans ?_
    rw [shapeFns_length, num, numInterior, hp, he 0 (by omega), he 1 (by omega), he 2 (by omega)]
    split
    · rename_i h
      interval_cases d <;> decide
    · obtain ⟨m, rfl⟩ : ∃ m, d = m + 3 := ⟨d - 3, by omega⟩
      have e1 : (m + 3 + 1) * (m + 3 + 2) = (m + 3 - 2) * (m + 3 - 1) + (3 * (m + 3)) * 2 := by
        rw [show m + 3 - 2 = m + 1 by omega, show m + 3 - 1 = m + 2 by omega]
        ring
      rw [e1, Nat.add_mul_div_right _ _ (by omega : 0 < 2)]
      omega
  · intro g hg
    exact triaMonos_span (F.shapeFns_poly d hd hp.le (fun j hj => (he j hj).le) g hg)
  · intro c hc h
    rw [shapeFns_length] at hc
    refine (F.dual hF).zero (F.nodes_len hF) hc fun x hx => ?_
    obtain ⟨x, y, rfl⟩ := two_coords hx
    rw [F.sum_shapes hc, h]

/-- All polynomials whose degree is at most all the degrees of the element are in the span. -/
theorem span_le (m : ℕ) (hp : m ≤ F.p) (hdeg : ∀ j < 3, 1 ≤ F.e j) (hp1 : 1 ≤ F.p) (he : ∀ j < 3, m ≤ F.e j) {f : ℝ → ℝ → ℝ} (hf : TP m f) :
    (fun p : ℝ × ℝ => f p.1 p.2) ∈ Submodule.span ℝ {g | g ∈ F.shapeFns} := by
  set d := max m 1 with hd
  let F' : HierTria ℝ := ⟨d, fun _ => d, F.o, fun _ => eqSegment (2 * (d - 1)), eqTria (2 * (d - 1))⟩
  have hF' : F'.Ready := by
    refine ⟨fun _ _ => ?_, fun _ _ => ⟨rfl, eqSegment_wf _, eqSegment_exact _⟩, ⟨rfl, eqTria_wf _, eqTria_exact _⟩, eqTria_top _⟩
    change 1 ≤ d
    omega
  have h1 := triaMonos_span (hf.mono (show m ≤ d by omega))
  rw [← F'.span_uniform hF' d (by omega) rfl (fun _ _ => rfl)] at h1
  refine Submodule.span_mono ?_ h1
  intro g hg
  refine (F.mem_shapeFns g).2 ?_
  rcases (F'.mem_shapeFns g).1 hg with h | ⟨j, hj, i, hi, rfl⟩ | ⟨ij, hij, rfl⟩
  · exact .inl h
  · refine .inr (.inl ⟨j, hj, i, ?_, rfl⟩)
    have := he j hj
    have := hdeg j hj
    change i < d - 1 at hi
    omega
  · refine .inr (.inr ⟨ij, ?_, rfl⟩)
    have := interior_mem hij
    change ij.1 + ij.2 + 3 ≤ d at this
    unfold interior
    rw [if_pos (by omega)]
    simp only [List.mem_flatMap, List.mem_map, List.mem_range]
    exact ⟨ij.1, by omega, ij.2, by omega, rfl⟩

end HierTria

/-! ### Quadrilaterals -/

namespace HierQuad
variable (F : HierQuad ℝ)

/-- All shape functions, as a list of functions. -/
noncomputable def shapeFns : List (ℝ × ℝ → ℝ) :=
  F.block (fun i => (fun p : ℝ × ℝ => fn1 i p.1)) (fun i => (fun p : ℝ × ℝ => fn1 i p.2))
    (fun i => (fun p : ℝ × ℝ => fn1 i (1 - p.1))) (fun i => (fun p : ℝ × ℝ => fn1 i (1 - p.2))) fun a b p => a p * b p

theorem shapes_eq_map (x y : ℝ) : F.shapes x y = F.shapeFns.map fun g => g (x, y) := by
  simp only [shapes, shapeFns, block, List.map_append, ← oriented_map, List.map_map, Function.comp_def, List.map_cons, List.map_nil,
    List.map_flatMap]
  congr 5 <;> congr <;> funext i <;> split <;> rfl

theorem shapeFns_length : F.shapeFns.length = F.num := block_length ..

theorem fn1_poly (i d : ℕ) (h : i ≤ d) (hd : 1 ≤ d) : PolyFn d fun x => fn1 i x := by
  match i with
  | 0 => exact (PolyFn.const d 1).sub (PolyFn.id d hd)
  | 1 => exact PolyFn.id d hd
  | i + 2 => exact (PolyFn.iLegendre i 1).mono h

theorem QP.of_prod {d : ℕ} {f g : ℝ → ℝ} (hf : PolyFn d f) (hg : PolyFn d g) : QP d fun x y => f x * g y := by
  obtain ⟨p, hp, hpf⟩ := hf
  obtain ⟨q, hq, hqg⟩ := hg
  refine ⟨fun a b => p.coeff a * q.coeff b, fun x y => ?_⟩
  beta_reduce
  rw [hpf, hqg, Polynomial.eval_eq_sum_range' (n := d + 1) (by omega), Polynomial.eval_eq_sum_range' (n := d + 1) (by omega),
    Finset.sum_mul_sum]
  refine Finset.sum_congr rfl fun a _ => Finset.sum_congr rfl fun b _ => ?_
  ring

theorem mem_shapeFns (g : ℝ × ℝ → ℝ) : g ∈ F.shapeFns ↔
    (g = (fun p => fn1 0 p.1 * fn1 0 p.2) ∨ g = (fun p => fn1 1 p.1 * fn1 0 p.2) ∨ g = (fun p => fn1 1 p.1 * fn1 1 p.2) ∨
      g = fun p => fn1 0 p.1 * fn1 1 p.2) ∨
    (∃ i < F.e 0 - 1, g = fun p => fn1 (i + 2) (if F.o 0 then p.1 else 1 - p.1) * fn1 0 p.2) ∨
    (∃ i < F.e 1 - 1, g = fun p => fn1 1 p.1 * fn1 (i + 2) (if F.o 1 then p.2 else 1 - p.2)) ∨
    (∃ i < F.e 2 - 1, g = fun p => fn1 (i + 2) (if F.o 2 then 1 - p.1 else p.1) * fn1 1 p.2) ∨
    (∃ i < F.e 3 - 1, g = fun p => fn1 0 p.1 * fn1 (i + 2) (if F.o 3 then 1 - p.2 else p.2)) ∨
    ∃ i < F.p - 1, ∃ j < F.p - 1, g = fun p => fn1 (j + 2) p.1 * fn1 (i + 2) p.2 := by
  have e0 : ∀ i, (fun p : ℝ × ℝ => (if F.o 0 then fun p : ℝ × ℝ => fn1 (i + 2) p.1 else fun p => fn1 (i + 2) (1 - p.1)) p *
      fn1 0 p.2) = fun p => fn1 (i + 2) (if F.o 0 then p.1 else 1 - p.1) * fn1 0 p.2 := fun i => by
    funext p; split <;> rfl
  have e1 : ∀ i, (fun p : ℝ × ℝ => fn1 1 p.1 * (if F.o 1 then fun p : ℝ × ℝ => fn1 (i + 2) p.2 else
      fun p => fn1 (i + 2) (1 - p.2)) p) = fun p => fn1 1 p.1 * fn1 (i + 2) (if F.o 1 then p.2 else 1 - p.2) := fun i => by
    funext p; split <;> rfl
  have e2 : ∀ i, (fun p : ℝ × ℝ => (if F.o 2 then fun p : ℝ × ℝ => fn1 (i + 2) (1 - p.1) else fun p => fn1 (i + 2) p.1) p *
      fn1 1 p.2) = fun p => fn1 (i + 2) (if F.o 2 then 1 - p.1 else p.1) * fn1 1 p.2 := fun i => by
    funext p; split <;> rfl
  have e3 : ∀ i, (fun p : ℝ × ℝ => fn1 0 p.1 * (if F.o 3 then fun p : ℝ × ℝ => fn1 (i + 2) (1 - p.2) else
      fun p => fn1 (i + 2) p.2) p) = fun p => fn1 0 p.1 * fn1 (i + 2) (if F.o 3 then 1 - p.2 else p.2) := fun i => by
    funext p; split <;> rfl
  simp only [shapeFns, block, List.mem_append, mem_oriented, List.mem_map, List.mem_range, List.mem_cons, List.not_mem_nil,
    or_false, List.mem_flatMap, e0, e1, e2, e3, or_assoc, @eq_comm _ _ g]

theorem fn1_flip_poly (i d : ℕ) (h : i ≤ d) (hd : 1 ≤ d) (o : Bool) : PolyFn d fun x => fn1 i (if o then x else 1 - x) := by
  cases o
  · exact (fn1_poly i d h hd).comp_one_sub
  · exact fn1_poly i d h hd

theorem fn1_flip_poly' (i d : ℕ) (h : i ≤ d) (hd : 1 ≤ d) (o : Bool) : PolyFn d fun x => fn1 i (if o then 1 - x else x) := by
  cases o
  · exact fn1_poly i d h hd
  · exact (fn1_poly i d h hd).comp_one_sub

theorem shapeFns_poly (d : ℕ) (hd : 1 ≤ d) (hp : F.p ≤ d) (he : ∀ j < 4, F.e j ≤ d) (g : ℝ × ℝ → ℝ) (hg : g ∈ F.shapeFns) :
    QP d fun x y => g (x, y) := by
  have q := fun i (h : i ≤ d) => fn1_poly i d h hd
  have h0 := he 0 (by omega)
  have h1 := he 1 (by omega)
  have h2 := he 2 (by omega)
  have h3 := he 3 (by omega)
  rcases (F.mem_shapeFns g).1 hg with (rfl | rfl | rfl | rfl) | ⟨i, hi, rfl⟩ | ⟨i, hi, rfl⟩ | ⟨i, hi, rfl⟩ | ⟨i, hi, rfl⟩ |
    ⟨i, hi, j, hj, rfl⟩
  · exact QP.of_prod (q 0 (by omega)) (q 0 (by omega))
  · exact QP.of_prod (q 1 (by omega)) (q 0 (by omega))
  · exact QP.of_prod (q 1 (by omega)) (q 1 (by omega))
  · exact QP.of_prod (q 0 (by omega)) (q 1 (by omega))
  · exact QP.of_prod (fn1_flip_poly (i + 2) d (by omega) hd (F.o 0)) (q 0 (by omega))
  · exact QP.of_prod (q 1 (by omega)) (fn1_flip_poly (i + 2) d (by omega) hd (F.o 1))
  · exact QP.of_prod (fn1_flip_poly' (i + 2) d (by omega) hd (F.o 2)) (q 1 (by omega))
  · exact QP.of_prod (q 0 (by omega)) (fn1_flip_poly' (i + 2) d (by omega) hd (F.o 3))
  · exact QP.of_prod (q (j + 2) (by omega)) (q (i + 2) (by omega))

theorem sum_shapes (hd : 1 ≤ F.deg1) {c : List ℝ} (hc : c.length = F.num) (x y : ℝ) :
    ∑ i ∈ Finset.range F.fe.num, c.getD i 0 * F.fe.shape i [x, y] = dotRow c (F.shapeFns.map fun g => g (x, y)) := by
  rw [← shapes_eq_map]
  exact RefFE.sum_shape (fe := F.fe) (x := [x, y]) (F.eval_eq hd x y) (F.shapes_length x y) hc

/-- With the same degree everywhere the shape functions span the polynomials of this degree in each variable. -/
theorem span_uniform (hF : F.Ready) (d : ℕ) (hd : 1 ≤ d) (hp : F.p = d) (he : ∀ j < 4, F.e j = d) :
    Submodule.span ℝ {g | g ∈ F.shapeFns} = Submodule.span ℝ (quadMonos d : Set (ℝ × ℝ → ℝ)) := by
  refine span_complete F.shapeFns (quadMonos d) ?_ ?_ ?_
  · refine (quadMonos_card d).trans ?_
    rw [shapeFns_length, num, numInterior, hp, he 0 (by omega), he 1 (by omega), he 2 (by omega), he 3 (by omega)]
    obtain ⟨m, rfl⟩ : ∃ m, d = m + 1 := ⟨d - 1, by omega⟩
    rw [show m + 1 - 1 = m by omega]
    nlinarith
  · intro g hg
    exact quadMonos_span (F.shapeFns_poly d hd hp.le (fun j hj => (he j hj).le) g hg)
  · intro c hc h
    rw [shapeFns_length] at hc
    refine (F.dual hF).zero F.nodes_len hc fun x hx => ?_
    obtain ⟨x, y, rfl⟩ := two_coords hx
    rw [F.sum_shapes hF.one_le hc, h]

/-- All polynomials whose degree is at most all the degrees of the element are in the span. -/
theorem span_le (m : ℕ) (hp : m ≤ F.p) (hdeg : ∀ j < 4, 1 ≤ F.e j) (hp1 : 1 ≤ F.p) (he : ∀ j < 4, m ≤ F.e j)
    {f : ℝ → ℝ → ℝ} (hf : QP m f) :
    (fun p : ℝ × ℝ => f p.1 p.2) ∈ Submodule.span ℝ {g | g ∈ F.shapeFns} := by
  set d := max m 1 with hd
  let F' : HierQuad ℝ := ⟨d, fun _ => d, F.o, fun _ => eqSegment (2 * (d - 1)), eqSegment (2 * (d - 1))⟩
  have hF' : F'.Ready := by
    refine ⟨fun _ _ => ?_, fun _ _ => ⟨rfl, eqSegment_wf _, eqSegment_exact _⟩, ?_⟩
    · change 1 ≤ d
      omega
    · have : F'.deg1 = d := by simp [deg1, F']
      rw [this]
      exact ⟨rfl, eqSegment_wf _, eqSegment_exact _⟩
  have h1 := quadMonos_span (hf.mono (show m ≤ d by omega))
  rw [← F'.span_uniform hF' d (by omega) rfl (fun _ _ => rfl)] at h1
  refine Submodule.span_mono ?_ h1
  intro g hg
  refine (F.mem_shapeFns g).2 ?_
  have b : ∀ j < 4, d ≤ F.e j := fun j hj => by
    have := he j hj
    have := hdeg j hj
    omega
  have b0 := b 0 (by omega)
  have b1 := b 1 (by omega)
  have b2 := b 2 (by omega)
  have b3 := b 3 (by omega)
  rcases (F'.mem_shapeFns g).1 hg with h | ⟨i, hi, h⟩ | ⟨i, hi, h⟩ | ⟨i, hi, h⟩ | ⟨i, hi, h⟩ | ⟨i, hi, j, hj, h⟩
  · exact .inl h
  all_goals change i < d - 1 at hi
  · exact .inr (.inl ⟨i, by omega, h⟩)
  · exact .inr (.inr (.inl ⟨i, by omega, h⟩))
  · exact .inr (.inr (.inr (.inl ⟨i, by omega, h⟩)))
  · exact .inr (.inr (.inr (.inr (.inl ⟨i, by omega, h⟩))))
  · change j < d - 1 at hj
    exact .inr (.inr (.inr (.inr (.inr ⟨i, by omega, j, by omega, h⟩))))

end HierQuad

/-! ### Segments -/

/-- Shape functions of the segment, as a list of functions. -/
noncomputable def segShapeFns (p : ℕ) : List (ℝ → ℝ) := (List.range (p + 1)).map fun i x => fn1 i x

theorem segShapes_eq_map (p : ℕ) (hp : 1 ≤ p) (x : ℝ) : segShapes p x = (segShapeFns p).map fun g => g x := by
  refine List.ext_getElem? fun i => ?_
  by_cases hi : i ≤ p
  · rw [segShapes_get p x i hi hp]
    simp [segShapeFns, show i < p + 1 by omega]
  · rw [List.getElem?_eq_none (by rw [segShapes_length p hp]; omega), List.getElem?_eq_none (by simp [segShapeFns]; omega)]

/-- Monomials of degree `d`. -/
noncomputable def segMonos (d : ℕ) : Finset (ℝ → ℝ) := by
  classical
  exact (Finset.range (d + 1)).image fun a => fun x => x ^ a

theorem segMonos_card (d : ℕ) : (segMonos d).card ≤ d + 1 := by
  classical
  unfold segMonos
  refine Finset.card_image_le.trans ?_
  simp

theorem segMonos_span {d : ℕ} {f : ℝ → ℝ} (c : ℕ → ℝ) (hc : ∀ x, f x = ∑ a ∈ Finset.range (d + 1), c a * x ^ a) :
    f ∈ Submodule.span ℝ (segMonos d : Set (ℝ → ℝ)) := by
  classical
  have : f = ∑ a ∈ Finset.range (d + 1), c a • fun x : ℝ => x ^ a := by
    funext x
    rw [hc]
    simp [Finset.sum_apply]
  rw [this]
  refine Submodule.sum_mem _ fun a ha => Submodule.smul_mem _ _ (Submodule.subset_span ?_)
  unfold segMonos
  simp only [Finset.coe_image, Set.mem_image, Finset.mem_coe]
  exact ⟨a, ha, rfl⟩

theorem seg_sum_shapes (p : ℕ) (hp : 1 ≤ p) (q : QuadRule ℝ) {c : List ℝ} (hc : c.length = p + 1) (x : ℝ) :
    ∑ i ∈ Finset.range (hierSegment p q).num, c.getD i 0 * (hierSegment p q).shape i [x] =
      dotRow c ((segShapeFns p).map fun g => g x) := by
  rw [← segShapes_eq_map p hp]
  exact RefFE.sum_shape (fe := hierSegment p q) (x := [x]) (hierSegment_eval p hp q x) (segShapes_length p hp x) hc

theorem seg_span (p : ℕ) (hp : 1 ≤ p) :
    Submodule.span ℝ {g | g ∈ segShapeFns p} = Submodule.span ℝ (segMonos p : Set (ℝ → ℝ)) := by
  have hlen : (segShapeFns p).length = p + 1 := by simp [segShapeFns]
  refine span_complete _ _ ?_ ?_ ?_
  · rw [hlen]
    exact segMonos_card p
  · intro g hg
    obtain ⟨i, hi, rfl⟩ := List.mem_map.1 hg
    obtain ⟨P, hP, h⟩ := fn1_poly i p (by have := List.mem_range.1 hi; omega) hp
    refine segMonos_span P.coeff fun x => ?_
    exact (h x).trans (Polynomial.eval_eq_sum_range' (by omega) x)
  · intro c hc h
    rw [hlen] at hc
    have hd := hierSegment_dual p hp (eqSegment (2 * (p - 1))) rfl (eqSegment_wf _) (eqSegment_exact _)
    refine hd.zero (n := 1) ?_ hc fun x hx => ?_
    · intro x hx
      rcases List.mem_append.1 hx with hx | hx
      · simp only [List.mem_cons, List.not_mem_nil, or_false] at hx
        rcases hx with rfl | rfl <;> rfl
      · exact (eqSegment_wf _).1 x hx
    · obtain ⟨x, rfl⟩ := List.length_eq_one_iff.1 hx
      rw [seg_sum_shapes p hp _ hc, h]

end Verif
