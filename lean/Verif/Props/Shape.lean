import Verif.Lemmas.ShapeCycle
import Verif.Lemmas.TransferHier
import Verif.Props.Transfer

/-!
# C84: shapes of triangles under refinement

`RefineMarked` bisects triangles at their refinement edges, and assigns refinement edges to the children. For newest
vertex bisection every descendant of a triangle has one of four shapes. The theorems state the corner of every child
exactly (`C84_step`), that all descendants which do not pass through the middle child of a trisection have one of the
four shapes (`C84_classes_partial`), and that without this restriction the statement is false for the code: from every
triangle the user can create arbitrarily thin triangles (`C84_degenerate`, `C84_thin`).
-/

namespace Verif

section
variable {K : Type} {w : ℕ} [Field K] [LinearOrder K] [IsStrictOrderedRing K]

/-- **C84**: for every triangle of a level of a hierarchy obtained by any refinements, and every child of the triangle,
the child is an affine triangle with a refinement edge, and its corner is the one in the table `ChildCorner`. -/
theorem C84_step (ops : GeoOps (Geo K w)) (len : Geo K w → ℚ) (chk : Bool) (M : Mesh (Geo K w))
    (hM : M.Coarse (geoOps len) chk) (hist : List HOp) (ho : ∀ op ∈ hist, op.Legal) (H : Hierarchy (Geo K w))
    (hH : Hierarchy.run ops (geoOps len) chk M hist = some H) (level c : ℕ) (x : Vec K w × Vec K w)
    (hx : H.corner level c = some x) (pat : RefPat) (k i : ℕ) (hi : H.ChildOf level c pat k i)
    (hp : pat ≠ .barycentric) : ∃ y, H.corner (level + 1) i = some y ∧ ChildCorner pat k x y := by
  obtain ⟨hok, href⟩ := run_ref ops (geoOps_lawful len) hM hist ho hH
  obtain ⟨info, p, h1, _, rfl, h4, h5, h6⟩ := hi
  cases hN : H.levels.reverse[level + 1]? with
  | none =>
    unfold Hierarchy.parentInfo at h4
    rw [if_pos (by omega), hN] at h4
    cases h4
  | some N =>
    obtain ⟨k0, L, hk1, hk2, hL⟩ := level_pair hN
    have hrule := href k0 N L hk1 hk2
    obtain ⟨L0, N0, P, A, Γ, hs, _, rfl, rfl, hm, g0, g1, g2⟩ := hok.link k0 N L hk1 hk2
    have hpar : ∀ codim ≤ 2, N.parents codim = N0.parents codim := by
      intro codim hc
      match codim, hc with
      | 0, _ => exact g0
      | 1, _ => exact g1
      | 2, _ => exact g2
    rw [parentInfo_eq hN] at h4
    have h4' : N.parents0[i]? = some info := h4
    have hi : i < N.mesh.topo.numCells := by
      have hnum : N0.parents0.length = N0.mesh.topo.numCells := (hs.parentsAgree 0 (by omega)).1
      rw [hm, ← hnum, ← g0]
      exact (List.getElem?_eq_some_iff.1 h4').1
    unfold Hierarchy.corner at hx ⊢
    unfold Hierarchy.pattern at h1
    rw [hL, Option.bind_some] at hx h1
    rw [hN, Option.bind_some]
    obtain ⟨_, hagree, _⟩ := hs.parentsAgree 0 (by omega)
    obtain ⟨info', par', j', a1, a2, _, _, a5, _⟩ := hagree i (by rw [← hm]; exact hi)
    have a1' : N0.parents0[i]? = some info' := a1
    rw [← g0, h4'] at a1'
    cases a1'
    rw [h5] at a2
    cases a2
    refine corner_child hrule ?_ (hok.all N (List.mem_of_getElem? hk1)).geoOk a5 hx h1 hp hi h4' h5 h6
    intro codim hc j hj
    rw [hpar codim hc, hm]
    rw [hm] at hj
    exact hs.childrenOk codim hc j hj

end

section
variable {K : Type} {w : ℕ} [Field K] [CharZero K] {n : ℕ} {x : Vec K w × Vec K w} {a b : Vec K w}

private theorem shape_swap (h : NvbShape n x (a, b)) : NvbShape n x (b, a) := by
  obtain ⟨s, hs, h⟩ := h
  refine ⟨s, hs, ?_⟩
  have sw : ∀ z : Vec K w × Vec K w, Scaled s z (a, b) → Scaled s z (b, a) := by
    rintro z (h | h)
    · rw [Prod.mk.injEq] at h
      right
      rw [h.1, h.2]
    · rw [Prod.mk.injEq] at h
      left
      rw [h.1, h.2]
  rcases h with h | h | h | h
  · exact Or.inl (sw _ h)
  · exact Or.inr (Or.inl (sw _ h))
  · exact Or.inr (Or.inr (Or.inl (sw _ h)))
  · exact Or.inr (Or.inr (Or.inr (sw _ h)))

private theorem shape_scale {t : K} {m : ℕ} (ht : t = (1 / 2) ^ m ∨ t = -(1 / 2) ^ m) (h : NvbShape n x (a, b)) :
    NvbShape (m + n) x (t • a, t • b) := by
  obtain ⟨s, hs, h⟩ := h
  have sw : ∀ z : Vec K w × Vec K w, Scaled s z (a, b) → Scaled (t * s) z (t • a, t • b) := by
    rintro z (h | h)
    · rw [Prod.mk.injEq] at h
      left
      rw [h.1, h.2, smul_smul, smul_smul]
    · rw [Prod.mk.injEq] at h
      right
      rw [h.1, h.2, smul_smul, smul_smul]
  refine ⟨t * s, ?_, ?_⟩
  · rcases ht with rfl | rfl <;> rcases hs with rfl | rfl
    · left; ring
    · right; ring
    · right; ring
    · left; ring
  · rcases h with h | h | h | h
    · exact Or.inl (sw _ h)
    · exact Or.inr (Or.inl (sw _ h))
    · exact Or.inr (Or.inr (Or.inl (sw _ h)))
    · exact Or.inr (Or.inr (Or.inr (sw _ h)))

private theorem sign_neg {n : ℕ} {s : K} (hs : s = (1 / 2) ^ n ∨ s = -(1 / 2) ^ n) :
    -s = (1 / 2) ^ n ∨ -s = -(1 / 2) ^ n := by
  rcases hs with rfl | rfl
  · exact Or.inr rfl
  · exact Or.inl (neg_neg _)

private theorem sign_half {n : ℕ} {s : K} (hs : s = (1 / 2) ^ n ∨ s = -(1 / 2) ^ n) :
    (1 / 2) * s = (1 / 2) ^ (n + 1) ∨ (1 / 2) * s = -(1 / 2) ^ (n + 1) := by
  rcases hs with rfl | rfl
  · left; ring
  · right; ring

/-- Reflection of the second vector. -/
private theorem shape_flip (h : NvbShape n x (a, b)) : NvbShape n x (a, -b) := by
  obtain ⟨s, hs, h⟩ := h
  have hn := sign_neg hs
  rcases h with (h | h) | (h | h) | (h | h) | (h | h) <;> rw [Prod.mk.injEq] at h <;> obtain ⟨rfl, rfl⟩ := h
  · exact ⟨s, hs, Or.inr (Or.inl (Or.inl (by simp)))⟩
  · exact ⟨-s, hn, Or.inr (Or.inl (Or.inr (by simp)))⟩
  · exact ⟨s, hs, Or.inl (Or.inl (by simp))⟩
  · exact ⟨-s, hn, Or.inl (Or.inr (by simp))⟩
  · exact ⟨s, hs, Or.inr (Or.inr (Or.inr (Or.inl (by simp [← smul_neg]))))⟩
  · exact ⟨-s, hn, Or.inr (Or.inr (Or.inr (Or.inr (by
      rw [Prod.mk.injEq]; constructor <;> module))))⟩
  · exact ⟨s, hs, Or.inr (Or.inr (Or.inl (Or.inl (by simp [← smul_neg]))))⟩
  · exact ⟨-s, hn, Or.inr (Or.inr (Or.inl (Or.inr (by
      rw [Prod.mk.injEq]; constructor <;> module))))⟩

/-- Bisection. -/
private theorem shape_bisect (h : NvbShape n x (a, b)) :
    ∃ m ≤ n + 1, NvbShape m x ((1 / 2 : K) • (a + b), (1 / 2 : K) • (a - b)) := by
  obtain ⟨s, hs, h⟩ := h
  have hn := sign_neg hs
  have hh := sign_half hs
  have hhn := sign_half hn
  rcases h with (h | h) | (h | h) | (h | h) | (h | h) <;> rw [Prod.mk.injEq] at h <;> obtain ⟨rfl, rfl⟩ := h
  · exact ⟨n + 1, le_rfl, (1 / 2) * s, hh, Or.inr (Or.inr (Or.inl (Or.inl (by
      rw [Prod.mk.injEq]; constructor <;> module))))⟩
  · exact ⟨n + 1, le_rfl, (1 / 2) * s, hh, Or.inr (Or.inr (Or.inr (Or.inl (by
      rw [Prod.mk.injEq]; constructor <;> module))))⟩
  · exact ⟨n + 1, le_rfl, (1 / 2) * s, hh, Or.inr (Or.inr (Or.inl (Or.inr (by
      rw [Prod.mk.injEq]; constructor <;> module))))⟩
  · exact ⟨n + 1, le_rfl, (1 / 2) * -s, hhn, Or.inr (Or.inr (Or.inr (Or.inr (by
      rw [Prod.mk.injEq]; constructor <;> module))))⟩
  · exact ⟨n, by omega, s, hs, Or.inl (Or.inl (by rw [Prod.mk.injEq]; constructor <;> module))⟩
  · exact ⟨n, by omega, s, hs, Or.inr (Or.inl (Or.inl (by rw [Prod.mk.injEq]; constructor <;> module)))⟩
  · exact ⟨n, by omega, s, hs, Or.inl (Or.inr (by rw [Prod.mk.injEq]; constructor <;> module))⟩
  · exact ⟨n, by omega, -s, hn, Or.inr (Or.inl (Or.inr (by rw [Prod.mk.injEq]; constructor <;> module)))⟩

private theorem shape_neg (h : NvbShape n x (a, b)) : NvbShape n x (-a, -b) :=
  shape_swap (shape_flip (shape_swap (shape_flip h)))

private theorem shape_half (h : NvbShape n x (a, b)) : NvbShape (n + 1) x ((1 / 2 : K) • a, (1 / 2 : K) • b) := by
  have := shape_scale (t := (1 / 2 : K)) (m := 1) (Or.inl (by ring)) h
  rwa [Nat.add_comm] at this

theorem shape_child {y z : Vec K w × Vec K w} (h : NvbShape n x y) {pat : RefPat} {k : ℕ} (hk : NvbChild pat k)
    (hz : ChildCorner pat k y z) : ∃ m ≤ n + 1, NvbShape m x z := by
  obtain ⟨a, b⟩ := y
  obtain ⟨hk1, hk2, hk3⟩ := hk
  unfold ChildCorner at hz
  split at hz
  · exact ⟨n, by omega, hz ▸ h⟩
  all_goals first | (exact hz.elim) | skip
  · obtain ⟨m, hm, hs⟩ := shape_bisect h
    refine ⟨m, hm, ?_⟩
    have := shape_swap (shape_flip (shape_swap hs))
    rw [hz]
    rwa [← neg_smul] at this
  · obtain ⟨m, hm, hs⟩ := shape_bisect h
    refine ⟨m, hm, ?_⟩
    have := shape_swap (shape_flip (shape_swap hs))
    rw [hz]
    rwa [← neg_smul] at this
  · obtain ⟨m, hm, hs⟩ := shape_bisect h
    refine ⟨m, hm, ?_⟩
    have := shape_neg hs
    rw [hz]
    rwa [← neg_smul, ← smul_neg, neg_sub] at this
  · obtain ⟨m, hm, hs⟩ := shape_bisect h
    refine ⟨m, hm, ?_⟩
    have := shape_neg hs
    rw [hz]
    rwa [← neg_smul, ← smul_neg, neg_sub] at this
  · exact absurd ⟨rfl, rfl⟩ hk2
  · refine ⟨n + 1, le_rfl, ?_⟩
    have := shape_swap (shape_flip (shape_half h))
    rw [hz]
    rwa [← neg_smul] at this
  · exact absurd ⟨rfl, rfl⟩ hk3
  · refine ⟨n + 1, le_rfl, ?_⟩
    have := shape_swap (shape_flip (shape_swap (shape_half h)))
    rw [hz]
    rwa [← neg_smul] at this
  · refine ⟨n + 1, le_rfl, ?_⟩
    rcases hz with rfl | rfl
    · exact shape_half h
    · exact shape_swap (shape_half h)
  · refine ⟨n + 1, le_rfl, ?_⟩
    rcases hz with rfl | rfl
    · exact shape_half h
    · exact shape_swap (shape_half h)
  · refine ⟨n + 1, le_rfl, ?_⟩
    rcases hz with rfl | rfl
    · exact shape_half h
    · exact shape_swap (shape_half h)
  · refine ⟨n + 1, le_rfl, ?_⟩
    have := shape_neg (shape_half h)
    rw [hz]
    rwa [← neg_smul, ← neg_smul] at this

end

section
variable {K : Type} {w : ℕ} [Field K] [LinearOrder K] [IsStrictOrderedRing K]

/-- **C84** (partial): all descendants of a triangle which arise without passing through the middle child of a
trisection, by any number of refinements of any kind, have one of the four shapes which newest vertex bisection can
create, and shrink by at most one half per level. Missing: the middle children of trisections, for which the code
violates the property, see `C84_degenerate`. -/
theorem C84_classes_partial (ops : GeoOps (Geo K w)) (len : Geo K w → ℚ) (chk : Bool) (M : Mesh (Geo K w))
    (hM : M.Coarse (geoOps len) chk) (hist : List HOp) (ho : ∀ op ∈ hist, op.Legal) (H : Hierarchy (Geo K w))
    (hH : Hierarchy.run ops (geoOps len) chk M hist = some H) (level c : ℕ) (x : Vec K w × Vec K w)
    (hx : H.corner level c = some x) (l d : ℕ) (hd : H.NvbLine level c l d) :
    ∃ y n, H.corner l d = some y ∧ level + n ≤ l ∧ NvbShape n x y := by
  induction hd with
  | refl => exact ⟨x, 0, hx, by omega, 1, Or.inl (by simp), Or.inl (Or.inl (by simp))⟩
  | step hline hch hk ih =>
    obtain ⟨y, n, h1, h2, h3⟩ := ih
    obtain ⟨z, h4, h5⟩ := C84_step ops len chk M hM hist ho H hH _ _ y h1 _ _ _ hch hk.1
    obtain ⟨m, h6, h7⟩ := shape_child h3 hk h5
    exact ⟨z, m, h4, by omega, h7⟩

theorem run_append {G : Type} (ops : GeoOps G) (cops : ChildOps G) (chk : Bool) (M : Mesh G) (hist hist' : List HOp)
    {H : Hierarchy G} (h : Hierarchy.run ops cops chk M hist = some H) :
    Hierarchy.run ops cops chk M (hist ++ hist') = hist'.foldlM (fun H op => H.call ops cops chk op) H := by
  unfold Hierarchy.run at h ⊢
  obtain ⟨H0, h0, h1⟩ := Option.bind_eq_some_iff.1 h
  rw [h0, Option.bind_some, List.foldlM_append, h1]
  rfl

/-- **C84** is violated by the code: for every coarse mesh, every sequence of refinements and every triangle of the
finest level, with the corner `(u, v)`, and for every `n`, there are further legal calls, all of which succeed, such
that the new finest level has a triangle similar to the one with the corner `(u - n v, v)`. Hence there is no bound on
the number of shapes which arise from one triangle. -/
theorem C84_degenerate (ops : GeoOps (Geo K w)) (len : Geo K w → ℚ) (chk : Bool) (M : Mesh (Geo K w))
    (hM : M.Coarse (geoOps len) chk) (hist : List HOp) (ho : ∀ op ∈ hist, op.Legal) (H : Hierarchy (Geo K w))
    (hH : Hierarchy.run ops (geoOps len) chk M hist = some H) (c : ℕ) (u v : Vec K w)
    (hx : H.corner (H.numLevels - 1) c = some (u, v)) (n : ℕ) : ∃ (hist' : List HOp) (H' : Hierarchy (Geo K w)) (c' : ℕ) (s : K), (∀ op ∈ hist', op.Legal) ∧
      Hierarchy.run ops (geoOps len) chk M (hist ++ hist') = some H' ∧ s ≠ 0 ∧
      H'.corner (H'.numLevels - 1) c' = some (s • (u - (n : K) • v), s • v) := by
  obtain ⟨hok, href⟩ := run_ref ops (geoOps_lawful len) hM hist ho hH
  have hhas : HasCorner H (u, v) := by
    unfold Hierarchy.corner Hierarchy.numLevels at hx
    obtain ⟨L, hL, hcor⟩ := Option.bind_eq_some_iff.1 hx
    cases hlev : H.levels with
    | nil => rw [hlev] at hL; cases hL
    | cons L1 rest =>
      rw [List.getElem?_reverse (by rw [hlev]; simp), hlev] at hL
      simp only [List.length_cons, Nat.add_sub_cancel, Nat.sub_self, List.getElem?_cons_zero] at hL
      have hL1 : L1 = L := Option.some.inj hL
      subst hL1
      refine ⟨L1, rest, c, hlev, ?_, hcor⟩
      obtain ⟨_, _, _, r, _, g2, _⟩ := corner_some hcor
      have hgood := hok.head L1 (by rw [hlev]; rfl)
      rw [← hgood.fresh.refEdges.1]
      exact (List.getElem?_eq_some_iff.1 g2).1
  obtain ⟨hist', H', h1, h2, _, _, L, rest, c', h5, _, h7⟩ := cycles ops n hok href hhas
  refine ⟨hist', H', c', (-(1 / 16 : K)) ^ n, h1, ?_, pow_ne_zero _ (by norm_num), ?_⟩
  · rw [run_append _ _ _ _ _ _ hH]
    exact h2
  · unfold Hierarchy.corner Hierarchy.numLevels
    rw [List.getElem?_reverse (by rw [h5]; simp), h5]
    simp only [List.length_cons, Nat.add_sub_cancel, Nat.sub_self, List.getElem?_cons_zero, Option.bind_some]
    exact h7

/-- **C84** is violated by the code: for every coarse mesh, every sequence of refinements, every triangle of the finest
level and every `B`, there are further legal calls after which the finest level has a triangle two sides of which have
a ratio larger than `B`. -/
theorem C84_thin [Archimedean K] (ops : GeoOps (Geo K w)) (len : Geo K w → ℚ) (chk : Bool) (M : Mesh (Geo K w))
    (hM : M.Coarse (geoOps len) chk) (hist : List HOp) (ho : ∀ op ∈ hist, op.Legal) (H : Hierarchy (Geo K w))
    (hH : Hierarchy.run ops (geoOps len) chk M hist = some H) (c : ℕ) (u v : Vec K w)
    (hx : H.corner (H.numLevels - 1) c = some (u, v)) (hv : v ≠ 0) (B : K) : ∃ hist' H' c' y,
      (∀ op ∈ hist', op.Legal) ∧ Hierarchy.run ops (geoOps len) chk M (hist ++ hist') = some H' ∧
      H'.corner (H'.numLevels - 1) c' = some y ∧ B ^ 2 * Geo.dot y.2 y.2 < Geo.dot y.1 y.1 := by
  have hvv : 0 < Geo.dot v v := by
    unfold Geo.dot
    obtain ⟨i, hi⟩ := Function.ne_iff.1 hv
    refine Finset.sum_pos' (fun i _ => mul_self_nonneg _) ⟨i, Finset.mem_univ i, ?_⟩
    exact lt_of_le_of_ne (mul_self_nonneg _) (Ne.symm (mul_self_ne_zero.2 hi))
  obtain ⟨n, hn⟩ := exists_nat_gt (max (2 * Geo.dot u v / Geo.dot v v + B ^ 2 + 1) 1)
  obtain ⟨hist', H', c', s, h1, h2, h3, h4⟩ := C84_degenerate ops len chk M hM hist ho H hH c u v hx n
  refine ⟨hist', H', c', _, h1, h2, h4, ?_⟩
  have e1 : Geo.dot (s • v) (s • v) = s ^ 2 * Geo.dot v v := by
    unfold Geo.dot
    rw [Finset.mul_sum]
    refine Finset.sum_congr rfl fun i _ => ?_
    simp only [Pi.smul_apply, smul_eq_mul]
    ring
  have e2 : Geo.dot (s • (u - (n : K) • v)) (s • (u - (n : K) • v)) =
      s ^ 2 * (Geo.dot u u - 2 * n * Geo.dot u v + (n : K) ^ 2 * Geo.dot v v) := by
    unfold Geo.dot
    rw [Finset.mul_sum, Finset.mul_sum, ← Finset.sum_sub_distrib, ← Finset.sum_add_distrib, Finset.mul_sum]
    refine Finset.sum_congr rfl fun i _ => ?_
    simp only [Pi.smul_apply, Pi.sub_apply, smul_eq_mul]
    ring
  have huu : 0 ≤ Geo.dot u u := Finset.sum_nonneg fun i _ => mul_self_nonneg _
  have hs2 : 0 < s ^ 2 := by positivity
  simp only [e1, e2]
  have hq : 2 * Geo.dot u v < ((n : K) - B ^ 2 - 1) * Geo.dot v v := by
    rw [← div_lt_iff₀ hvv]
    have := lt_of_le_of_lt (le_max_left _ _) hn
    linarith
  have hn1 : (1 : K) ≤ n := (lt_of_le_of_lt (le_max_right _ _) hn).le
  have : B ^ 2 * Geo.dot v v < Geo.dot u u - 2 * n * Geo.dot u v + (n : K) ^ 2 * Geo.dot v v := by
    nlinarith [mul_lt_mul_of_pos_left hq (show (0 : K) < n by linarith), mul_nonneg (mul_nonneg (sub_nonneg.2 hn1) (sq_nonneg B)) hvv.le]
  calc B ^ 2 * (s ^ 2 * Geo.dot v v) = s ^ 2 * (B ^ 2 * Geo.dot v v) := by ring
    _ < _ := mul_lt_mul_of_pos_left this hs2

end

/-! ### A concrete case -/

private def childB {G : Type} (H : Hierarchy G) (level c : ℕ) (pat : RefPat) (k i : ℕ) : Bool :=
  (H.pattern level (0, c)).any fun p => (H.parentInfo (level + 1) (0, i)).any fun info =>
    decide (p.ref = .tria) && decide (p.pat = pat) && decide (info.parent = some (0, c)) &&
      decide (info.childNumber = some k)

private theorem childB_spec {G : Type} {H : Hierarchy G} {level c : ℕ} {pat : RefPat} {k i : ℕ}
    (h : childB H level c pat k i = true) : H.ChildOf level c pat k i := by
  unfold childB at h
  simp only [Option.any_eq_true, Bool.and_eq_true, decide_eq_true_eq] at h
  obtain ⟨p, h1, info, h2, ⟨⟨h3, h4⟩, h5⟩, h6⟩ := h
  exact ⟨info, p, h1, h3, h4, h2, h5, h6⟩

/-- Two triangles and a trapezoid, refined twice, the second time locally: the hypotheses of `C84_step` are met by the
middle child of a trisected triangle, those of `C84_classes_partial` by another child of the same triangle, seen from
the coarsest level, and those of `C84_degenerate` and `C84_thin` by the same child. -/
example : ∃ (H : Hierarchy (Geo ℚ 2)) (x y z : Vec ℚ 2 × Vec ℚ 2), trapMesh.Coarse (geoOps fun _ => 1) true ∧
    Hierarchy.run geoBuild (geoOps fun _ => 1) true trapMesh
      [.regular .regular, .mark fun e => e == 0 || e == 3, .refineMarked] = some H ∧
    H.corner 0 0 = some x ∧ H.corner 1 0 = some y ∧ H.corner (H.numLevels - 1) 1 = some z ∧ z.2 ≠ 0 ∧
    H.ChildOf 1 0 .trisectLeft 0 0 ∧ H.NvbLine 0 0 2 1 := by
  have h : (Hierarchy.run geoBuild (geoOps fun _ => 1) true trapMesh
      [.regular .regular, .mark fun e => e == 0 || e == 3, .refineMarked]).any
    (fun H => (H.corner 0 0).isSome && (H.corner 1 0).isSome && ((H.corner (H.numLevels - 1) 1).any fun z => decide (z.2 0 ≠ 0)) &&
      childB H 1 0 .trisectLeft 0 0 && childB H 0 0 .regular 0 0 && childB H 1 0 .trisectLeft 1 1) = true := by
    decide +kernel
  simp only [Option.any_eq_true, Bool.and_eq_true, decide_eq_true_eq, Option.isSome_iff_exists] at h
  obtain ⟨H, h1, ⟨⟨⟨⟨⟨x, hx⟩, ⟨y, hy⟩⟩, ⟨z, hz, hz2⟩⟩, c1⟩, c2⟩, c3⟩ := h
  refine ⟨H, x, y, z, trapMesh_coarse _, h1, hx, hy, hz, fun h0 => hz2 (by rw [h0]; rfl), childB_spec c1, ?_⟩
  exact .step (.step .refl (childB_spec c2) ⟨by decide, by decide, by decide⟩) (childB_spec c3)
    ⟨by decide, by decide, by decide⟩

end Verif
