import Verif.Lemmas.TriaTable
import Verif.Lemmas.TriaChk

/-!
# C75: the hard-coded quadrature rules for triangles

`q.ExactUpTo ε d`, `q.Positive` and `q.Near` are defined in `Verif/Spec/TriaTable.lean`; `triaTab d` are the literals
of the source file.
-/

namespace Verif
open Finset

theorem hardRule_wf (d : ℕ) (t : List TabRow) : (hardRule d t : QuadRule ℝ).WellFormed :=
  ⟨by
    intro c hc
    obtain ⟨r, -, rfl⟩ := List.mem_map.1 hc
    rfl, by simp [hardRule]⟩

theorem TabOk.positive {d : ℕ} {t : List TabRow} (h : TabOk d t) : (hardRule d t : QuadRule ℝ).Positive := by
  have hS := tabScale_pos
  constructor
  · intro w hw
    obtain ⟨r, hr, rfl⟩ := List.mem_map.1 hw
    have := (tabRows_spec h.rows r hr).1
    have : (0 : ℝ) < r.w := by exact_mod_cast this
    positivity
  · intro p hp
    obtain ⟨r, hr, rfl⟩ := List.mem_map.1 hp
    have := (tabRows_spec h.rows r hr).2
    have h2 : (r.x : ℝ) + r.y ≤ tabScale := by exact_mod_cast this
    refine ⟨by positivity, by positivity, ?_⟩
    rw [← add_div, div_le_one hS]
    exact h2

theorem TabOk.moments {d : ℕ} {t : List TabRow} (h : TabOk d t) (a b : ℕ) (hab : a + b ≤ d) :
    |(hardRule d t : QuadRule ℝ).integrate (fun p => p.getD 0 0 ^ a * p.getD 1 0 ^ b) - triaMoment a b| ≤ 1 / 10 ^ 15 :=
  tabChk_spec (tabCol_spec (h.cols a (by omega)) b (by omega)) d

/-- **C75**: each of the tabulated rules has the degree it is stored under, positive weights and points in the
reference triangle, and integrates all polynomials up to its degree with an error of at most `10⁻¹⁵` times the sum of
the absolute values of the coefficients. -/
theorem C75_tables (d : ℕ) (h1 : 1 ≤ d) (h50 : d ≤ 50) (h3 : d ≠ 3) :
    let q : QuadRule ℝ := hardRule d (triaTab d)
    q.ref = .tria ∧ q.degree = d ∧ q.WellFormed ∧ q.Positive ∧ q.ExactUpTo (1 / 10 ^ 15) d := by
  have h := triaTab_ok d h1 h50 h3
  exact ⟨rfl, rfl, hardRule_wf _ _, h.positive, exactUpTo_of_moments fun a b hab => h.moments a b hab⟩

/-- **C75** for the rules returned by `make_QuadRule`. -/
theorem C75_make (B : QuadBase ℝ) (hB : B.hard = fun d => hardRule d (triaTab d)) (degree : ℕ) (h1 : 1 ≤ degree)
    (h50 : degree ≤ 50) :
    ∃ q, makeQuadRule B .tria degree = some q ∧ q.ref = .tria ∧ degree ≤ q.degree ∧ q.WellFormed ∧ q.Positive ∧
      q.ExactUpTo (1 / 10 ^ 15) q.degree := by
  by_cases h3 : degree = 3
  · obtain ⟨a1, a2, a3, a4, a5⟩ := C75_tables 4 (by norm_num) (by norm_num) (by norm_num)
    refine ⟨hardRule 4 (triaTab 4), ?_, a1, by rw [h3, a2]; norm_num, a3, a4, a5⟩
    simp only [makeQuadRule, if_pos h3, hB]
  · obtain ⟨a1, a2, a3, a4, a5⟩ := C75_tables degree h1 h50 h3
    refine ⟨hardRule degree (triaTab degree), ?_, a1, a2.ge, a3, a4, a5⟩
    simp only [makeQuadRule, if_neg h3, if_pos (And.intro h1 h50), hB]

/-- **C75** after rounding: if the weights and coordinates are those of the table up to the relative error
`2⁻⁵³`, in particular if they are the floating-point numbers nearest to the literals, then the weights are positive,
the coordinates nonnegative, and polynomials are integrated up to `10⁻¹⁴` times the sum of the absolute values of the
coefficients. -/
theorem C75_rounded (d : ℕ) (h1 : 1 ≤ d) (h50 : d ≤ 50) (h3 : d ≠ 3) (q : QuadRule ℝ)
    (hq : (hardRule d (triaTab d) : QuadRule ℝ).Near (1 / 2 ^ 53) q) :
    q.ref = .tria ∧ q.degree = d ∧ q.WellFormed ∧ (∀ w ∈ q.weights, 0 < w) ∧ (∀ p ∈ q.points, ∀ x ∈ p, 0 ≤ x) ∧
      q.ExactUpTo (1 / 10 ^ 14) d := by
  have h := triaTab_ok d h1 h50 h3
  have hp := h.positive
  have hw := hardRule_wf d (triaTab d)
  have hu : (0 : ℝ) ≤ 1 / 2 ^ 53 := by positivity
  have hu1 : (1 : ℝ) / 2 ^ 53 < 1 := by norm_num
  have hlen : ∀ {l l' : List ℝ}, List.Forall₂ (Near (1 / 2 ^ 53)) l l' → ∀ y ∈ l', ∃ x ∈ l, Near (1 / 2 ^ 53) x y := by
    intro l l' hl
    induction hl with
    | nil => simp
    | cons h0 _ ih =>
      intro y hy
      rcases List.mem_cons.1 hy with rfl | hy
      · exact ⟨_, by simp, h0⟩
      · obtain ⟨x, hx, hn⟩ := ih y hy
        exact ⟨x, by simp [hx], hn⟩
  have hpts : ∀ p' ∈ q.points, ∃ p ∈ (hardRule d (triaTab d) : QuadRule ℝ).points,
      List.Forall₂ (Near (1 / 2 ^ 53)) p p' := by
    have := hq.points
    revert this
    generalize (hardRule d (triaTab d) : QuadRule ℝ).points = P
    generalize q.points = P'
    intro hl
    induction hl with
    | nil => simp
    | cons h0 _ ih =>
      intro y hy
      rcases List.mem_cons.1 hy with rfl | hy
      · exact ⟨_, by simp, h0⟩
      · obtain ⟨x, hx, hn⟩ := ih y hy
        exact ⟨x, by simp [hx], hn⟩
  refine ⟨hq.ref, hq.degree, ⟨?_, ?_⟩, ?_, ?_, exactUpTo_of_moments fun a b hab => ?_⟩
  · intro c hc
    obtain ⟨p, hp1, hp2⟩ := hpts c hc
    rw [← hp2.length_eq, hw.1 p hp1, hq.ref]
  · rw [← hq.weights.length_eq, ← hq.points.length_eq]
    exact hw.2
  · intro w hw'
    obtain ⟨v, hv, hn⟩ := hlen hq.weights w hw'
    exact hn.pos hu1 (hp.1 v hv)
  · intro p hp' x hx
    obtain ⟨p0, hp1, hp2⟩ := hpts p hp'
    obtain ⟨x0, hx0, hn⟩ := hlen hp2 x hx
    refine hn.nonneg hu1 ?_
    have hc := hp.2 p0 hp1
    match p0, hc, hx0 with
    | [x1, y1], hc, hx0 =>
      obtain ⟨c1, c2, -⟩ := hc
      simp only [List.mem_cons, List.not_mem_nil, or_false] at hx0
      rcases hx0 with rfl | rfl
      · exact c1
      · exact c2
  · have hm := h.moments a b hab
    have hr := near_sum hu a b hq.weights hq.points hp.1 (fun x hx => hp.2 x hx)
    have ea : (List.zipWith (fun w p => w * (p.getD 0 0 ^ a * p.getD 1 0 ^ b))
        (hardRule d (triaTab d) : QuadRule ℝ).weights (hardRule d (triaTab d) : QuadRule ℝ).points).sum =
        (hardRule d (triaTab d) : QuadRule ℝ).integrate (fun p => p.getD 0 0 ^ a * p.getD 1 0 ^ b) := rfl
    have eb : (List.zipWith (fun w p => w * (p.getD 0 0 ^ a * p.getD 1 0 ^ b)) q.weights q.points).sum =
        q.integrate (fun p => p.getD 0 0 ^ a * p.getD 1 0 ^ b) := rfl
    rw [ea, eb] at hr
    have hmle : triaMoment a b ≤ 1 := by
      rw [triaMoment_eq, div_le_one (by exact_mod_cast Nat.factorial_pos _)]
      have : a.factorial * b.factorial ≤ (a + b + 2).factorial :=
        (Nat.le_of_dvd (Nat.factorial_pos _) (Nat.factorial_mul_factorial_dvd_factorial_add a b)).trans
          (Nat.factorial_le (by omega))
      exact_mod_cast this
    have hd : ((1 : ℝ) + 1 / 2 ^ 53) ^ (a + b + 1) - 1 ≤ 6 / 10 ^ 15 := by
      have h51 : ((1 : ℝ) + 1 / 2 ^ 53) ^ (a + b + 1) ≤ (1 + 1 / 2 ^ 53) ^ 51 :=
        pow_le_pow_right₀ (by norm_num) (by omega)
      have : ((1 : ℝ) + 1 / 2 ^ 53) ^ 51 ≤ 1 + 6 / 10 ^ 15 := by norm_num
      linarith
    set I := (hardRule d (triaTab d) : QuadRule ℝ).integrate (fun p => p.getD 0 0 ^ a * p.getD 1 0 ^ b) with hI
    have hd0 : (0 : ℝ) ≤ (1 + 1 / 2 ^ 53) ^ (a + b + 1) - 1 := by
      have := one_le_pow₀ (M₀ := ℝ) (a := 1 + 1 / 2 ^ 53) (by linarith) (n := a + b + 1)
      linarith
    have hI1 : I ≤ 1 + 1 / 10 ^ 15 := by
      have := (abs_le.1 hm).2
      linarith
    have h4 : ((1 + 1 / 2 ^ 53) ^ (a + b + 1) - 1) * I ≤ 6 / 10 ^ 15 * (1 + 1 / 10 ^ 15) :=
      (mul_le_mul_of_nonneg_left hI1 hd0).trans (mul_le_mul_of_nonneg_right hd (by norm_num))
    have h5 := abs_sub_le (q.integrate (fun p => p.getD 0 0 ^ a * p.getD 1 0 ^ b)) I (triaMoment a b)
    refine h5.trans ((add_le_add (hr.trans h4) hm).trans ?_)
    norm_num

/-- Two of the tables. -/
example : (triaTab 2).length = 3 ∧ (triaTab 50).length = 453 := by decide +kernel

/-- The hypotheses of `C75_rounded` are met by the table itself. -/
example (d : ℕ) : (hardRule d (triaTab d) : QuadRule ℝ).Near (1 / 2 ^ 53) (hardRule d (triaTab d)) := by
  have hn : ∀ x : ℝ, Near (1 / 2 ^ 53) x x := fun x => by simp [Near]
  have hl : ∀ l : List ℝ, List.Forall₂ (Near (1 / 2 ^ 53)) l l := fun l =>
    List.forall₂_same.2 fun x _ => hn x
  exact ⟨rfl, rfl, hl _, List.forall₂_same.2 fun x _ => hl x⟩

end Verif
