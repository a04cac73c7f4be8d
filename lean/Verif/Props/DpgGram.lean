import Verif.Lemmas.TriaSeparates
import Verif.Props.Gauss
import Verif.Props.GalerkinDef
import Verif.Props.DpgExact
import Verif.Props.DpgMethod
import Verif.Model.DpgBuilder
import Verif.Spec.DpgBuilder

/-!
# C114: the Gramian of the DPG method with the quadrature rules of the library
-/

namespace Verif
open Geo Finset Dpg

/-! ## Quadrature rules -/

private theorem quad_positive (leg jac : ℕ → ℕ → ℝ) (hl : ∀ n, 0 < n → LegConverged n (leg n)) (d : ℕ) {q : QuadRule ℝ}
    (hq : makeQuadRule (gaussBase leg jac) .quad d = some q) : q.Positive := by
  obtain ⟨r, hr, hg, h1, -, h2⟩ := C76_legendre (d / 2 + 1) (by omega) _ (hl _ (by omega))
  have hleg : (gaussBase leg jac).legendre (d / 2 + 1) = r := by rw [gaussBase]; dsimp only; rw [hr]; rfl
  simp only [makeQuadRule, hleg, fromRows, QuadRule.make] at hq
  split_ifs at hq with ha
  · rw [Option.bind_some] at hq
    split_ifs at hq with hb
    cases hq
    refine ⟨fun w hw => ?_, fun x hx => ?_⟩
    · simp only [kron, List.mem_flatMap, List.mem_map] at hw
      obtain ⟨a, ha, b, hb, rfl⟩ := hw
      exact mul_pos (h2 a ha) (h2 b hb)
    · simp only [← List.map_uncurry_zip_eq_zipWith, List.mem_map] at hx
      obtain ⟨⟨a, b⟩, hab, rfl⟩ := hx
      obtain ⟨ma, mb⟩ := List.of_mem_zip hab
      simp only [kron, List.mem_flatMap, List.mem_map, List.mem_replicate] at ma
      obtain ⟨x, hx, y, ⟨-, rfl⟩, rfl⟩ := ma
      simp only [replicateRow, List.mem_flatten, List.mem_replicate] at mb
      obtain ⟨l, ⟨-, rfl⟩, hb⟩ := mb
      rw [mul_one]
      exact ⟨(h1 x hx).1.le, (h1 x hx).2.le, (h1 b hb).1.le, (h1 b hb).2.le⟩
  · cases hq

theorem dpg_make_positive (leg jac : ℕ → ℕ → ℝ) (hl : ∀ n, 0 < n → LegConverged n (leg n))
    (hj : ∀ n, 0 < n → JacConverged n 1 0 (jac n)) {r : RefEl} (hr : r = .tria ∨ r = .quad) (d : ℕ) (hd : 1 ≤ d ∧ d ≤ 50) :
    ∃ q, makeQuadRule (gaussBase leg jac) r d = some q ∧ q.ref = r ∧ q.WellFormed ∧ q.Positive ∧ d ≤ q.degree ∧
      (if r = .tria then q.ExactUpTo (1 / 10 ^ 15) q.degree else q.ExactFor q.degree) := by
  rcases hr with rfl | rfl
  · obtain ⟨q, h1, h2, h3, h4, h5, h6⟩ := C75_make (gaussBase leg jac) rfl d hd.1 hd.2
    exact ⟨q, h1, h2, h4, h5, h3, by rw [if_pos rfl]; exact h6⟩
  · obtain ⟨q, h1, h2, h3, h4, h5⟩ := C76_make leg jac hl hj .quad (by simp) d
    exact ⟨q, h1, h2, h3, quad_positive leg jac hl d h1, h4, by simpa using h5⟩

theorem contains_of_inCell {r : RefEl} (hr : r = .tria ∨ r = .quad) {x y : ℝ} (h : InCell r x y) : r.Contains [x, y] := by
  rcases hr with rfl | rfl <;> exact h

theorem inCell_of_contains {r : RefEl} (hr : r = .tria ∨ r = .quad) {x y : ℝ} (h : r.Contains [x, y]) : InCell r x y := by
  rcases hr with rfl | rfl <;> exact h

/-- **C114**, quadrature rules: for the degrees `p = 1, 2, 3` of the Lagrangian elements of the library, the rule which
`make_QuadRule` returns for triangles and quadrilaterals and the degree `2 p` has positive weights and points in the
reference cell, and a polynomial of degree `p` which vanishes at all points of the rule is zero on the cell.  On
triangles this holds although the tables are only exact up to `10⁻¹⁵`. -/
theorem C114_separates (leg jac : ℕ → ℕ → ℝ) (hl : ∀ n, 0 < n → LegConverged n (leg n))
    (hj : ∀ n, 0 < n → JacConverged n 1 0 (jac n)) (r : RefEl) (hr : r = .tria ∨ r = .quad) (p : ℕ) (hp : 1 ≤ p ∧ p ≤ 3) :
    ∃ q, makeQuadRule (gaussBase leg jac) r (2 * p) = some q ∧ q.ref = r ∧ q.WellFormed ∧ q.Positive ∧
      ∀ f, IsPolyOn r p f → (∀ x ∈ q.points, f x = 0) → ∀ x y, r.Contains [x, y] → f [x, y] = 0 := by
  obtain ⟨q, h1, h2, h3, h4, h5, h6⟩ := dpg_make_positive leg jac hl hj hr (2 * p) (by omega)
  refine ⟨q, h1, h2, h3, h4, fun f hf h0 x y hxy => ?_⟩
  rcases hr with rfl | rfl
  · rw [if_pos rfl] at h6
    obtain ⟨c, hc⟩ := hf
    have hlen : ∀ x ∈ q.points, x.length = 2 := fun x hx => (h3.1 x hx).trans (by rw [h2]; rfl)
    have hpoly : ∀ a b : ℝ, f [a, b] = polyXY p c [a, b] := fun a b => hc a b
    have h0' : ∀ x ∈ q.points, polyXY p c x = 0 := by
      intro x hx
      obtain ⟨a, b, rfl⟩ := List.length_eq_two.1 (hlen x hx)
      rw [← hpoly]
      exact h0 _ hx
    have hup : q.ExactUpTo (1 / 10 ^ 14) q.degree := fun c => (h6 c).trans
      (mul_le_mul_of_nonneg_right (by norm_num) (Finset.sum_nonneg fun _ _ => Finset.sum_nonneg fun _ _ => abs_nonneg _))
    have hz : coeffSum p c = 0 := by
      obtain ⟨a1, a3⟩ := hp
      have : p = 1 ∨ p = 2 ∨ p = 3 := by omega
      rcases this with rfl | rfl | rfl
      · exact coeff_zero_1 hup h5 c h0'
      · exact coeff_zero_2 hup h5 c h0'
      · exact coeff_zero_3 hup h5 c h0'
    rw [hc]
    rw [coeffSum, Finset.sum_eq_zero_iff_of_nonneg fun _ _ => Finset.sum_nonneg fun _ _ => abs_nonneg _] at hz
    refine Finset.sum_eq_zero fun a ha => Finset.sum_eq_zero fun b hb => ?_
    have := (Finset.sum_eq_zero_iff_of_nonneg fun _ _ => abs_nonneg _).1 (hz a ha) b hb
    rw [abs_eq_zero.1 this, zero_mul]
  · rw [if_neg (by simp)] at h6
    have hex : q.ExactFor (2 * p) := by
      intro g hg
      refine h6 g ?_
      rw [h2] at hg ⊢
      have h1 : IsPolyOn .quad 0 fun _ => 1 := ⟨fun _ _ => 1, fun x y => by simp⟩
      have := IsPolyOn.mul (.inr rfl) hg h1 (n := q.degree) (by omega)
      simpa using this
    exact poly_zero_of_points (.inr rfl) h2 hex hf h0 x y (inCell_of_contains (.inr rfl) hxy)

/-! ## Builders -/

section
variable {F S P : Type} (mk : F → Option S) (make : List S → P)

private theorem run_first (fs : List F) (post : List (BuilderOp F)) (b b' : Builder S) (out : List P)
    (h : b.run mk make (fs.map .add ++ .build :: post) = some (b', out)) :
    ∃ ss, fs.mapM mk = some ss ∧ out[0]? = some (make (b.subs ++ ss)) := by
  induction fs generalizing b with
  | nil =>
    simp only [List.map_nil, List.nil_append, Builder.run, Option.map_eq_some_iff, Prod.mk.injEq] at h
    obtain ⟨r, -, -, rfl⟩ := h
    exact ⟨[], rfl, by simp [Builder.build]⟩
  | cons f fs ih =>
    simp only [List.map_cons, List.cons_append, Builder.run, Builder.add, Option.bind_eq_some_iff, Option.map_eq_some_iff] at h
    obtain ⟨b1, ⟨s, hs, rfl⟩, h⟩ := h
    obtain ⟨ss, h1, h2⟩ := ih _ h
    exact ⟨s :: ss, by simp [List.mapM_cons, hs, h1], by simpa using h2⟩

private theorem run_spec (ops : List (BuilderOp F)) (b b' : Builder S) (out : List P) (h : b.run mk make ops = some (b', out)) :
    out.length = ops.countP BuilderOp.isBuild ∧
    ∀ pre (fs : List F) post, ops = pre ++ fs.map .add ++ .build :: post → pre.getLast? = some .build →
      ∃ ss, fs.mapM mk = some ss ∧ out[pre.countP BuilderOp.isBuild]? = some (make ss) := by
  induction ops generalizing b out with
  | nil =>
    simp only [Builder.run, Option.some.injEq, Prod.mk.injEq] at h
    obtain ⟨-, rfl⟩ := h
    exact ⟨rfl, fun pre fs post he => by simp at he⟩
  | cons o ops ih =>
    cases o with
    | add f =>
      simp only [Builder.run, Option.bind_eq_some_iff] at h
      obtain ⟨b1, -, h⟩ := h
      obtain ⟨h1, h2⟩ := ih _ _ h
      refine ⟨by simpa [BuilderOp.isBuild] using h1, fun pre fs post he hl => ?_⟩
      cases pre with
      | nil => simp at hl
      | cons o' pre =>
        simp only [List.cons_append, List.cons.injEq] at he
        obtain ⟨rfl, he⟩ := he
        cases pre with
        | nil => simp at hl
        | cons o'' pre =>
          have := h2 _ fs post he (by simpa using hl)
          rwa [List.countP_cons_of_neg (by simp [BuilderOp.isBuild])]
    | build =>
      simp only [Builder.run, Option.map_eq_some_iff, Prod.mk.injEq] at h
      obtain ⟨⟨b1, out1⟩, h, rfl, rfl⟩ := h
      obtain ⟨h1, h2⟩ := ih _ _ h
      refine ⟨by rw [List.countP_cons_of_pos (by rfl), List.length_cons, h1], fun pre fs post he hl => ?_⟩
      cases pre with
      | nil => simp at hl
      | cons o' pre =>
        simp only [List.cons_append, List.cons.injEq] at he
        obtain ⟨rfl, he⟩ := he
        rw [List.countP_cons_of_pos (by rfl), List.getElem?_cons_succ]
        cases pre with
        | nil =>
          rw [he] at h
          obtain ⟨ss, s1, s2⟩ := run_first mk make fs post _ _ _ h
          exact ⟨ss, s1, by simpa [Builder.build] using s2⟩
        | cons o'' pre => exact h2 _ fs post he (by simpa using hl)

private theorem run_isSome (ops : List (BuilderOp F)) (b : Builder S) :
    (b.run mk make ops).isSome ↔ ∀ f, BuilderOp.add f ∈ ops → (mk f).isSome := by
  induction ops generalizing b with
  | nil => simp [Builder.run]
  | cons o ops ih =>
    cases o with
    | add f =>
      simp only [Builder.run, Builder.add]
      cases hf : mk f with
      | none =>
        simp only [Option.map_none, Option.bind_none, Option.isSome_none, Bool.false_eq_true, false_iff]
        intro h
        have := h f (by simp)
        rw [hf] at this
        simp at this
      | some s =>
        simp only [Option.map_some, Option.bind_some, ih, List.mem_cons, BuilderOp.add.injEq]
        constructor
        · rintro h f' (rfl | h')
          · rw [hf]; rfl
          · exact h _ h'
        · exact fun h f' h' => h f' (.inr h')
    | build =>
      simp only [Builder.run, Option.isSome_map, ih, List.mem_cons, reduceCtorEq, false_or]

private theorem run_builds (ops : List (BuilderOp F)) : Builds mk make ops (Builder.new.run mk make ops) := by
  constructor
  · exact run_isSome mk make ops _
  · intro b out h
    obtain ⟨h1, h2⟩ := run_spec mk make ops _ _ _ h
    refine ⟨h1, fun pre fs post he hl => ?_⟩
    rcases hl with rfl | hl
    · rw [List.nil_append] at he
      rw [he] at h
      exact run_first mk make fs post _ _ _ h
    · exact h2 pre fs post he hl

end

/-- **C114**, builders: for every sequence of calls of the methods of a `ProductElementMatrixProviderBuilder` and of a
`ProductElementVectorProviderBuilder`, the calls succeed if and only if the sub-providers can be constructed, and every
call of `Build` returns the provider of the forms which were added after the previous call of `Build`, in the order in
which they were added. -/
theorem C114_builder (B : QuadBase ℝ) (m : MeshObj) (geo : Ent → Option (Geo ℝ 2)) (U V : ProductSpace ℝ) :
    (∀ ops, Builds (MatForm.provider B m geo U V) (productMat m.topo U.data V.data) ops (runMat B m geo U V ops)) ∧
    ∀ ops, Builds (VecForm.provider B m geo V) (productVec m.topo V.data) ops (runVec B m geo V ops) :=
  ⟨fun ops => run_builds _ _ ops, fun ops => run_builds _ _ ops⟩

/-- A concrete case: a builder whose method `Build` is called for an empty list, then for two forms, then for one. -/
example (mk : ℕ → Option ℕ) (hmk : mk = fun n => if n < 5 then some (10 * n) else none) :
    Builder.run mk (fun l : List ℕ => l) Builder.new [.build, .add 3, .add 1, .build, .add 2, .build] =
      some (⟨[]⟩, [[], [30, 10], [20]]) ∧
    Builder.run mk (fun l : List ℕ => l) Builder.new [.add 3, .add 7, .build] = none := by
  subst hmk
  exact ⟨rfl, rfl⟩

end Verif
