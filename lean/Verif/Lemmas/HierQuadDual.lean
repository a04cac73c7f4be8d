import Verif.Lemmas.HierCell

/-!
# Duality for the hierarchic quadrilateral
-/

namespace Verif
open HierQuad Geo

theorem fn1_flip (i : ℕ) (x : ℝ) : fn1 (i + 2) (1 - x) = (-1) ^ i * fn1 (i + 2) x := iLegendre_symm i x 1

/-- Products of one-dimensional combinations; `A` are the coefficients of the interior functions. -/
def Ten (D : ℕ) (g : ℝ → ℝ → ℝ) (A : ℕ → ℕ → ℝ) : Prop :=
  ∃ C : ℕ → ℕ → ℝ, (∀ x y, g x y = ∑ a ∈ Finset.range (D + 1), ∑ b ∈ Finset.range (D + 1),
    C a b * (fn1 a x * fn1 b y)) ∧ ∀ a b, C (a + 2) (b + 2) = A a b

theorem Ten.add {D : ℕ} {g h : ℝ → ℝ → ℝ} {A B : ℕ → ℕ → ℝ} (h1 : Ten D g A) (h2 : Ten D h B) :
    Ten D (fun x y => g x y + h x y) fun a b => A a b + B a b := by
  obtain ⟨C, h1, hC⟩ := h1
  obtain ⟨C', h2, hC'⟩ := h2
  refine ⟨fun a b => C a b + C' a b, fun x y => ?_, fun a b => by simp only [hC, hC']⟩
  simp only [h1, h2]
  rw [ ← Finset.sum_add_distrib]
  refine Finset.sum_congr rfl fun a _ => ?_
  rw [← Finset.sum_add_distrib]
  exact Finset.sum_congr rfl fun b _ => by ring

theorem Ten.zero (D : ℕ) : Ten D (fun _ _ => 0) fun _ _ => 0 :=
  ⟨fun _ _ => 0, fun x y => by simp, fun _ _ => rfl⟩

theorem Ten.sum {D : ℕ} (n : ℕ) {g : ℕ → ℝ → ℝ → ℝ} {A : ℕ → ℕ → ℕ → ℝ} (h : ∀ i < n, Ten D (g i) (A i)) :
    Ten D (fun x y => ∑ i ∈ Finset.range n, g i x y) fun a b => ∑ i ∈ Finset.range n, A i a b := by
  induction n with
  | zero => simpa using Ten.zero D
  | succ n ih =>
    simp only [Finset.sum_range_succ]
    exact (ih fun i hi => h i (by omega)).add (h n (by omega))

theorem Ten.single {D : ℕ} (s : ℝ) (a b : ℕ) (ha : a ≤ D) (hb : b ≤ D) :
    Ten D (fun x y => s * (fn1 a x * fn1 b y)) fun a' b' => if a = a' + 2 ∧ b = b' + 2 then s else 0 := by
  refine ⟨fun a' b' => if a = a' ∧ b = b' then s else 0, fun x y => ?_, fun _ _ => rfl⟩
  rw [Finset.sum_eq_single_of_mem a (Finset.mem_range.mpr (by omega)),
    Finset.sum_eq_single_of_mem b (Finset.mem_range.mpr (by omega))]
  · simp
  · intro b' _ h; simp [h.symm]
  · intro a' _ h
    exact Finset.sum_eq_zero fun b' _ => by simp [h.symm]

theorem Ten.congr {D : ℕ} {g h : ℝ → ℝ → ℝ} {A B : ℕ → ℕ → ℝ} (h1 : Ten D g A) (hg : ∀ x y, h x y = g x y)
    (hA : ∀ a b, A a b = B a b) : Ten D h B := by
  obtain ⟨C, h1, hC⟩ := h1
  exact ⟨C, fun x y => by rw [hg, h1], fun a b => by rw [hC, hA]⟩

theorem Ten.bdry {D : ℕ} (s : ℝ) (a b : ℕ) (ha : a ≤ D) (hb : b ≤ D) (h : a < 2 ∨ b < 2) :
    Ten D (fun x y => s * (fn1 a x * fn1 b y)) fun _ _ => 0 :=
  (Ten.single s a b ha hb).congr (fun _ _ => rfl) fun a' b' => if_neg (by omega)

theorem flatMap_range (m n : ℕ) {α : Type} (I : ℕ → α) :
    ((List.range m).flatMap fun i => (List.range n).map fun j => I (i * n + j)) = (List.range (m * n)).map I := by
  induction m with
  | zero => simp
  | succ m ih =>
    rw [List.range_succ, List.flatMap_append, ih, Nat.succ_mul, List.range_add, List.map_append]
    simp

theorem dotRow_flatMap (m : ℕ) (f g : ℕ → List ℝ) (h : ∀ i, (f i).length = (g i).length) :
    dotRow ((List.range m).flatMap f) ((List.range m).flatMap g) =
      ∑ i ∈ Finset.range m, dotRow (f i) (g i) := by
  induction m with
  | zero => simp [dotRow]
  | succ m ih =>
    rw [List.range_succ, List.flatMap_append, List.flatMap_append, dotRow_append, ih, Finset.sum_range_succ]
    · simp
    · simp [List.length_flatMap, h]

theorem segment_flatMap {α β : Type} (pre : List β) (L : List α) (f : α → List β) (n : ℕ)
    (h : ∀ a, (f a).length = n) (i : ℕ) (hi : i < L.length) (start : ℕ) (hs : start = pre.length) :
    segment (pre ++ L.flatMap f) (start + n * i) n = some (f L[i]) := by
  have e : L = L.take i ++ ([L[i]] ++ L.drop (i + 1)) := by simp
  have : pre ++ L.flatMap f = (pre ++ (L.take i).flatMap f) ++ f L[i] ++ (L.drop (i + 1)).flatMap f := by
    conv_lhs => rw [e]
    simp only [List.flatMap_append, List.append_assoc, List.flatMap_singleton]
  rw [this]
  apply segment_append
  · rw [List.length_append, List.length_flatMap]
    simp only [h, List.map_const', List.sum_replicate, List.length_take, smul_eq_mul]
    rw [hs, min_eq_left hi.le, mul_comm]
  · rw [h]

theorem hierSegment_dual_lin1 (p : ℕ) (hp : 1 ≤ p) (q : QuadRule ℝ) (hq : q.Good .segment (2 * (p - 1)))
    (c : ℕ → ℝ) : (hierSegment p q).toDofs ((hierSegment p q).nodes.map fun s => lin1 (p + 1) c (s.getD 0 0)) =
      some ((List.range (p + 1)).map c) := by
  have hn : ((hierSegment p q).nodes.map fun s => lin1 (p + 1) c (s.getD 0 0)) =
      [c 0, c 1] ++ q.points.map fun s => lin1 (p + 1) c (s.getD 0 0) := by
    change ([[0], [1]] ++ q.points).map _ = _
    simp [lin1_zero, lin1_one p hp]
  rw [hn, hierSegment_toDofs p hp q _ _ _ (by simp [QuadRule.numPoints])]
  congr 1
  have hr : List.range (p + 1) = [0, 1] ++ (List.range (p - 1)).map (· + 2) := by
    obtain ⟨k, rfl⟩ : ∃ k, p = k + 1 := ⟨p - 1, by omega⟩
    rw [Nat.add_sub_cancel, show k + 1 + 1 = 2 + k by omega, List.range_add]
    simp [List.range_succ, add_comm]
  rw [hr, List.map_append, List.map_map]
  congr 1
  apply List.map_congr_left
  intro i hi
  rw [List.mem_range] at hi
  have := segDual_lin1 q hq.1 _ hq.2.2 p i (by omega) (by omega) c
  rw [lin1_zero, lin1_one p hp] at this
  exact this

theorem segment_range_map {α : Type} (c : ℕ → α) (p n : ℕ) (h : n + 2 ≤ p + 1) :
    segment ((List.range (p + 1)).map c) 2 n = some ((List.range n).map fun a => c (a + 2)) := by
  have : List.range (p + 1) = [0, 1] ++ (List.range n).map (· + 2) ++
      (List.range (p + 1 - 2 - n)).map (· + 2 + n) := by
    have e : p + 1 = 2 + (n + (p + 1 - 2 - n)) := by omega
    conv_lhs => rw [e]
    rw [List.range_add, List.range_add]
    simp [List.range_succ, add_comm, Function.comp_def]
    omega
  rw [this, List.map_append, List.map_append]
  refine (segment_append _ _ _ 2 n rfl (by simp)).trans ?_
  simp [Function.comp_def]

namespace HierQuad
variable (F : HierQuad ℝ)

/-- What the constructor guarantees if the quadrature rules are exact. -/
structure Ready : Prop where
  deg : ∀ j < 4, 1 ≤ F.e j
  edge : ∀ j < 4, (F.q j).Good .segment (2 * (F.e j - 1))
  one : F.q1.Good .segment (2 * (F.deg1 - 1))

theorem le_deg1 : F.p ≤ F.deg1 ∧ F.e 0 ≤ F.deg1 ∧ F.e 1 ≤ F.deg1 ∧ F.e 2 ≤ F.deg1 ∧ F.e 3 ≤ F.deg1 := by
  simp [deg1]

variable {F} in
theorem Ready.one_le (hF : F.Ready) : 1 ≤ F.deg1 := le_trans (hF.deg 0 (by omega)) (by simp [deg1])

variable (V : ℕ → ℝ) (E : ℕ → ℕ → ℝ) (I : ℕ → ℝ)

/-- The coefficient vector. -/
def coeffs : List ℝ := cellCoeffs 4 F.o (fun j => F.e j - 1) F.numInterior V E I

/-- Coefficients of the trace on an edge. -/
def traceCoef (j : ℕ) : ℕ → ℝ :=
  edgeCoef (if F.o j then V j else V ((j + 1) % 4)) (if F.o j then V ((j + 1) % 4) else V j) (E j)

theorem trace (hF : F.Ready) (j : ℕ) (hj : j < 4) (t x y : ℝ)
    (h : sidePoint .quad j (if F.o j then t else 1 - t) = [x, y]) :
    dotRow (F.coeffs V E I) (F.shapes x y) = lin1 (F.e j + 1) (F.traceCoef V E j) t := by
  obtain ⟨v, w, h1, h2, -, -, h3⟩ := F.conforms hF.deg F.q V E I j hj t
  change F.eval (sidePoint .quad j _) = _ at h1
  rw [h, eval_eq _ hF.one_le] at h1
  rw [hierSegment_eval _ (hF.deg j hj)] at h2
  cases h1
  cases h2
  change dotRow (F.coeffs V E I) (F.shapes x y) = dotRow ((if F.o j then [V j, V ((j + 1) % 4)] else
        [V ((j + 1) % 4), V j]) ++ (List.range (F.e j - 1)).map (E j)) _ at h3
  rw [h3, traceCoef, ← dotRow_segShapes _ (hF.deg j hj)]
  cases F.o j <;> rfl

theorem vertexVals (hF : F.Ready) : dotRow (F.coeffs V E I) (F.shapes 0 0) = V 0 ∧
    dotRow (F.coeffs V E I) (F.shapes 1 0) = V 1 ∧ dotRow (F.coeffs V E I) (F.shapes 1 1) = V 2 ∧
    dotRow (F.coeffs V E I) (F.shapes 0 1) = V 3 := by
  refine ⟨?_, ?_, ?_, ?_⟩
  · rw [F.trace V E I hF 0 (by omega) (if F.o 0 then 0 else 1) 0 0 (by rw [sideQuad0]; split <;> simp)]
    cases h : F.o 0 <;> simp [traceCoef, h, lin1_zero, lin1_one _ (hF.deg 0 (by omega)), edgeCoef]
  · rw [F.trace V E I hF 1 (by omega) (if F.o 1 then 0 else 1) 1 0 (by rw [sideQuad1]; split <;> simp)]
    cases h : F.o 1 <;> simp [traceCoef, h, lin1_zero, lin1_one _ (hF.deg 1 (by omega)), edgeCoef]
  · rw [F.trace V E I hF 2 (by omega) (if F.o 2 then 0 else 1) 1 1 (by rw [sideQuad2]; split <;> simp)]
    cases h : F.o 2 <;> simp [traceCoef, h, lin1_zero, lin1_one _ (hF.deg 2 (by omega)), edgeCoef]
  · rw [F.trace V E I hF 3 (by omega) (if F.o 3 then 0 else 1) 0 1 (by rw [sideQuad3]; split <;> simp)]
    cases h : F.o 3 <;> simp [traceCoef, h, lin1_zero, lin1_one _ (hF.deg 3 (by omega)), edgeCoef]

/-- The values in the interior. -/
noncomputable def faceVals (g : ℝ → ℝ → ℝ) : List ℝ :=
  if 1 < F.p then F.fe1d.nodes.flatMap fun py => F.fe1d.nodes.map fun px => g (px.getD 0 0) (py.getD 0 0) else []

/-- Values at the evaluation nodes. -/
theorem nodeVals (hF : F.Ready) :
    F.nodes.map (fun p => dotRow (F.coeffs V E I) (F.shapes (p.getD 0 0) (p.getD 1 0))) =
      [V 0, V 1, V 2, V 3] ++ edgeVals (F.e 0) (F.q 0) (F.traceCoef V E 0) ++
        edgeVals (F.e 1) (F.q 1) (F.traceCoef V E 1) ++ edgeVals (F.e 2) (F.q 2) (F.traceCoef V E 2) ++
        edgeVals (F.e 3) (F.q 3) (F.traceCoef V E 3) ++
        F.faceVals fun x y => dotRow (F.coeffs V E I) (F.shapes x y) := by
  obtain ⟨h0, h1, h2, h3⟩ := F.vertexVals V E I hF
  rw [nodes, List.map_append, List.map_append, List.map_append, List.map_append, List.map_append]
  congr 1
  · congr 1
    · congr 1
      · congr 1
        · congr 1
          · simp [h0, h1, h2, h3]
          · unfold edgeVals
            split
            · rw [List.map_map]
              apply List.map_congr_left
              intro s _
              rw [← F.trace V E I hF 0 (by omega) (s.getD 0 0) (if F.o 0 then s.getD 0 0 else 1 - s.getD 0 0) 0
                (by rw [sideQuad0])]
              cases F.o 0 <;> rfl
            · rfl
        · unfold edgeVals
          split
          · rw [List.map_map]
            apply List.map_congr_left
            intro s _
            rw [← F.trace V E I hF 1 (by omega) (s.getD 0 0) 1 (if F.o 1 then s.getD 0 0 else 1 - s.getD 0 0)
              (by rw [sideQuad1])]
            cases F.o 1 <;> rfl
          · rfl
      · unfold edgeVals
        split
        · rw [List.map_map]
          apply List.map_congr_left
          intro s _
          rw [← F.trace V E I hF 2 (by omega) (s.getD 0 0) (if F.o 2 then 1 - s.getD 0 0 else s.getD 0 0) 1
            (by rw [sideQuad2]; cases F.o 2 <;> simp)]
          cases F.o 2 <;> rfl
        · rfl
    · unfold edgeVals
      split
      · rw [List.map_map]
        apply List.map_congr_left
        intro s _
        rw [← F.trace V E I hF 3 (by omega) (s.getD 0 0) 0 (if F.o 3 then 1 - s.getD 0 0 else s.getD 0 0)
          (by rw [sideQuad3]; cases F.o 3 <;> simp)]
        cases F.o 3 <;> rfl
      · rfl
  · unfold faceVals
    split
    · rw [List.map_flatMap]
      simp only [List.map_map]
      rfl
    · rfl

/-- The function as combination of products. -/
theorem ten (hF : F.Ready) : Ten F.deg1 (fun x y => dotRow (F.coeffs V E I) (F.shapes x y)) fun a b =>
    ∑ i ∈ Finset.range (F.p - 1), ∑ j ∈ Finset.range (F.p - 1),
      if j + 2 = a + 2 ∧ i + 2 = b + 2 then I (i * (F.p - 1) + j) else 0 := by
  obtain ⟨lp, l0, l1, l2, l3⟩ := F.le_deg1
  have hd := hF.one_le
  have hv : Ten F.deg1 (fun x y => dotRow [V 0, V 1, V 2, V 3] [fn1 0 x * fn1 0 y, fn1 1 x * fn1 0 y,
      fn1 1 x * fn1 1 y, fn1 0 x * fn1 1 y]) fun _ _ => 0 := by
    refine ((((Ten.bdry (D := F.deg1) (V 0) 0 0 (by omega) (by omega) (by omega)).add
      (Ten.bdry (V 1) 1 0 (by omega) (by omega) (by omega))).add
      (Ten.bdry (V 2) 1 1 (by omega) (by omega) (by omega))).add
      (Ten.bdry (V 3) 0 1 (by omega) (by omega) (by omega))).congr (fun x y => ?_) (by simp)
    simp [dotRow]; ring
  have hx : ∀ (o o' : Bool) (n : ℕ) (c : ℕ → ℝ) (k : ℕ), n + 1 ≤ F.deg1 → k < 2 → Ten F.deg1 (fun x y =>
      dotRow (oriented o ((List.range n).map c)) (oriented o ((List.range n).map fun i =>
        (if o' then fn1 (i + 2) x else fn1 (i + 2) (1 - x)) * fn1 k y))) fun _ _ => 0 := by
    intro o o' n c k hn hk
    refine (Ten.sum (D := F.deg1) n fun i hi => Ten.bdry (c i * (if o' then 1 else (-1) ^ i)) (i + 2) k (by omega)
      (by omega) (by omega)).congr (fun x y => ?_) (by simp)
    rw [dotRow_oriented _ (by simp), dotRow_map_range]
    refine Finset.sum_congr rfl fun i _ => ?_
    rw [fn1_flip]
    cases o' <;> simp <;> ring
  have hy : ∀ (o o' : Bool) (n : ℕ) (c : ℕ → ℝ) (k : ℕ), n + 1 ≤ F.deg1 → k < 2 → Ten F.deg1 (fun x y =>
      dotRow (oriented o ((List.range n).map c)) (oriented o ((List.range n).map fun i =>
        fn1 k x * (if o' then fn1 (i + 2) y else fn1 (i + 2) (1 - y))))) fun _ _ => 0 := by
    intro o o' n c k hn hk
    refine (Ten.sum (D := F.deg1) n fun i hi => Ten.bdry (c i * (if o' then 1 else (-1) ^ i)) k (i + 2) (by omega)
      (by omega) (by omega)).congr (fun x y => ?_) (by simp)
    rw [dotRow_oriented _ (by simp), dotRow_map_range]
    refine Finset.sum_congr rfl fun i _ => ?_
    rw [fn1_flip]
    cases o' <;> simp <;> ring
  have hi : Ten F.deg1 (fun x y => dotRow ((List.range F.numInterior).map I)
      ((List.range (F.p - 1)).flatMap fun i => (List.range (F.p - 1)).map fun j => fn1 (j + 2) x * fn1 (i + 2) y))
      fun a b => ∑ i ∈ Finset.range (F.p - 1), ∑ j ∈ Finset.range (F.p - 1),
        if j + 2 = a + 2 ∧ i + 2 = b + 2 then I (i * (F.p - 1) + j) else 0 := by
    refine (Ten.sum (D := F.deg1) (F.p - 1) fun i hi => Ten.sum (F.p - 1) fun j hj =>
      Ten.single (I (i * (F.p - 1) + j)) (j + 2) (i + 2) (by omega) (by omega)).congr (fun x y => ?_)
      (fun _ _ => rfl)
    rw [numInterior, ← flatMap_range, dotRow_flatMap _ _ _ (by simp)]
    exact Finset.sum_congr rfl fun i _ => dotRow_map_range ..
  have hb : ∀ (o : Bool) (a b : ℝ), (if o then a else b) = if !o then b else a := by
    intro o a b; cases o <;> rfl
  refine (((((hv.add (hx (F.o 0) (F.o 0) (F.e 0 - 1) (E 0) 0 (by omega) (by omega))).add
    (hy (F.o 1) (F.o 1) (F.e 1 - 1) (E 1) 1 (by omega) (by omega))).add
    (hx (F.o 2) (!F.o 2) (F.e 2 - 1) (E 2) 1 (by omega) (by omega))).add
    (hy (F.o 3) (!F.o 3) (F.e 3 - 1) (E 3) 0 (by omega) (by omega))).add hi).congr (fun x y => ?_)
    (fun a b => by simp)
  rw [coeffs, cellCoeffs_quad, shapes, block, dotRow_append _ _ (by simp), dotRow_append _ _ (by simp),
      dotRow_append _ _ (by simp), dotRow_append _ _ (by simp), dotRow_append _ _ (by rfl)]
  simp only [hb (F.o 2) (fn1 _ (1 - x)), hb (F.o 3) (fn1 _ (1 - y))]

theorem faceDofs_eq (hF : F.Ready) (hp : 1 < F.p) (pre : List ℝ) (start : ℕ) (hs : start = pre.length) :
    F.faceDofs start (pre ++ F.faceVals fun x y => dotRow (F.coeffs V E I) (F.shapes x y)) =
      some ((List.range F.numInterior).map I) := by
  obtain ⟨C, hC, hA⟩ := F.ten V E I hF
  beta_reduce at hC hA
  have lp := F.le_deg1.1
  have hd := hF.one_le
  have hint : ∀ i < F.p - 1, ∀ j < F.p - 1, C (j + 2) (i + 2) = I (i * (F.p - 1) + j) := by
    intro i hi j hj
    rw [hA, Finset.sum_eq_single_of_mem i (Finset.mem_range.mpr hi),
      Finset.sum_eq_single_of_mem j (Finset.mem_range.mpr hj), if_pos ⟨rfl, rfl⟩]
    · intro k _ hk; exact if_neg (by omega)
    · intro k _ hk; exact Finset.sum_eq_zero fun l _ => if_neg (by omega)
  have hrow : ∀ py px, dotRow (F.coeffs V E I) (F.shapes px py) =
      lin1 (F.deg1 + 1) (fun a => lin1 (F.deg1 + 1) (C a) py) px := by
    intro py px
    rw [hC px py, lin1]
    refine Finset.sum_congr rfl fun a _ => ?_
    rw [lin1, Finset.sum_mul]
    exact Finset.sum_congr rfl fun b _ => by ring
  have hto := hierSegment_dual_lin1 F.deg1 hd F.q1 hF.one
  have hvals : F.faceVals (fun x y => dotRow (F.coeffs V E I) (F.shapes x y)) =
      F.fe1d.nodes.flatMap fun py => F.fe1d.nodes.map fun px =>
        lin1 (F.deg1 + 1) (fun a => lin1 (F.deg1 + 1) (C a) (py.getD 0 0)) (px.getD 0 0) := by
    rw [faceVals, if_pos hp]
    simp only [hrow]
  have h1 : ((List.range F.fe1d.nodes.length).mapM fun i =>
      (segment (pre ++ F.faceVals fun x y => dotRow (F.coeffs V E I) (F.shapes x y))
        (start + F.fe1d.nodes.length * i) F.fe1d.nodes.length).bind fun v =>
        (F.fe1d.toDofs v).bind fun d => segment d 2 (F.p - 1)) =
      some (F.fe1d.nodes.map fun py => (List.range (F.p - 1)).map fun a =>
        lin1 (F.deg1 + 1) (C (a + 2)) (py.getD 0 0)) := by
    rw [mapM_some_map (g := fun i => (List.range (F.p - 1)).map fun a =>
        lin1 (F.deg1 + 1) (C (a + 2)) ((F.fe1d.nodes.getD i []).getD 0 0))]
    · congr 1
      apply List.ext_getElem (by simp)
      intro i h1 h2
      have : i < F.fe1d.nodes.length := by simpa using h1
      simp [this]
    · intro i hi
      rw [List.mem_range] at hi
      rw [hvals, segment_flatMap pre _ _ _ (by simp) i hi start hs, Option.bind_some]
      have := hto fun a => lin1 (F.deg1 + 1) (C a) (F.fe1d.nodes[i].getD 0 0)
      change F.fe1d.toDofs (F.fe1d.nodes.map _) = _ at this
      rw [this, Option.bind_some, segment_range_map _ _ _ (by omega)]
      simp [hi]
  have h2 : ((List.range (F.p - 1)).mapM fun i =>
      ((F.fe1d.nodes.map fun py => (List.range (F.p - 1)).map fun a =>
        lin1 (F.deg1 + 1) (C (a + 2)) (py.getD 0 0)).mapM fun r => r[i]?).bind fun col =>
      (F.fe1d.toDofs col).bind fun d => segment d 2 (F.p - 1)) =
      some ((List.range (F.p - 1)).map fun i => (List.range (F.p - 1)).map fun b => C (i + 2) (b + 2)) := by
    apply mapM_some_map
    intro i hi
    rw [List.mem_range] at hi
    have : ((F.fe1d.nodes.map fun py => (List.range (F.p - 1)).map fun a =>
        lin1 (F.deg1 + 1) (C (a + 2)) (py.getD 0 0)).mapM fun r => r[i]?) =
        some (F.fe1d.nodes.map fun py => lin1 (F.deg1 + 1) (C (i + 2)) (py.getD 0 0)) := by
      rw [mapM_some_map (g := fun r => r.getD i 0)]
      · rw [List.map_map]
        congr 1
        apply List.map_congr_left
        intro py _
        simp [hi]
      · intro r hr
        obtain ⟨py, -, rfl⟩ := List.mem_map.mp hr
        simp [hi]
    rw [this, Option.bind_some]
    have := hto (C (i + 2))
    change F.fe1d.toDofs (F.fe1d.nodes.map _) = _ at this
    rw [this, Option.bind_some, segment_range_map _ _ _ (by omega)]
  have h3 : ((List.range (F.p - 1)).mapM fun n =>
      ((List.range (F.p - 1)).map fun i => (List.range (F.p - 1)).map fun b => C (i + 2) (b + 2)).mapM
        fun r => r[n]?) =
      some ((List.range (F.p - 1)).map fun n => (List.range (F.p - 1)).map fun i => I (n * (F.p - 1) + i)) := by
    apply mapM_some_map
    intro n hn
    rw [List.mem_range] at hn
    rw [mapM_some_map (g := fun r => r.getD n 0)]
    · rw [List.map_map]
      congr 1
      apply List.map_congr_left
      intro i hi
      rw [List.mem_range] at hi
      simp [hn, hint n hn i hi]
    · intro r hr
      obtain ⟨py, -, rfl⟩ := List.mem_map.mp hr
      simp [hn]
  rw [faceDofs]
  rw [h1, Option.bind_some, h2, Option.bind_some, h3, Option.map_some, numInterior, ← flatMap_range,
    List.flatMap_def]

theorem nodes_len : ∀ p ∈ F.nodes, p.length = 2 := by
  intro p hp
  simp only [nodes, List.mem_append, List.mem_cons, List.not_mem_nil, or_false] at hp
  rcases hp with ((((h | h) | h) | h) | h) | h
  · rcases h with rfl | rfl | rfl | rfl <;> rfl
  · split at h
    · obtain ⟨s, -, rfl⟩ := List.mem_map.mp h; split <;> rfl
    · simp at h
  · split at h
    · obtain ⟨s, -, rfl⟩ := List.mem_map.mp h; split <;> rfl
    · simp at h
  · split at h
    · obtain ⟨s, -, rfl⟩ := List.mem_map.mp h; split <;> rfl
    · simp at h
  · split at h
    · obtain ⟨s, -, rfl⟩ := List.mem_map.mp h; split <;> rfl
    · simp at h
  · split at h
    · obtain ⟨s, -, h⟩ := List.mem_flatMap.mp h
      obtain ⟨t, -, rfl⟩ := List.mem_map.mp h
      rfl
    · simp at h

local macro "len" : tactic => `(tactic| (simp only [List.length_append, oriented_length, List.length_map,
  List.length_range, List.length_cons, List.length_nil, edgeVals_length, ne] <;> omega))

theorem edge_covers (hF : F.Ready) (j : ℕ) (hj : j < 4) (base : ℕ) (pos neg : ℕ → ℕ) (a b : ℝ) (s : List ℝ)
    (hpos : ∀ i < F.e j - 1, pos (2 + i) = base + i)
    (hneg : ∀ i < F.e j - 1, neg (2 + i) = base + (F.e j - 1 - 1 - i))
    (ha : a = V j) (hb : b = V ((j + 1) % 4)) (hs : s = edgeVals (F.e j) (F.q j) (F.traceCoef V E j)) :
    Covers (F.edgeWrites j pos neg a b s) base (oriented (F.o j) ((List.range (F.e j - 1)).map (E j))) := by
  obtain ⟨-, l0, l1, l2, l3⟩ := F.le_deg1
  have hle : F.e j ≤ F.degree := by
    change _ ≤ F.deg1
    interval_cases j <;> assumption
  rw [edgeWrites, range'_filter_le _ _ hle]
  have hn : F.e j + 1 - 2 = F.e j - 1 := by omega
  rw [hn]
  apply covers_loop
  intro i hi
  have key : segDual (F.q j) (i + 2) (if F.o j then V j else V ((j + 1) % 4))
      (if F.o j then V ((j + 1) % 4) else V j) (edgeVals (F.e j) (F.q j) (F.traceCoef V E j)) = E j i :=
    segDual_edge _ _ (hF.edge j hj) _ _ _ i hi
  rw [← key, hpos i hi, hneg i hi, add_comm 2 i, ha, hb, hs]
  cases F.o j <;> simp

theorem toDofs_coeffs (hF : F.Ready) :
    F.toDofs (F.nodes.map fun p => dotRow (F.coeffs V E I) (F.shapes (p.getD 0 0) (p.getD 1 0))) =
      some (F.coeffs V E I) := by
  have d0 := hF.deg 0 (by omega)
  have d1 := hF.deg 1 (by omega)
  have d2 := hF.deg 2 (by omega)
  have d3 := hF.deg 3 (by omega)
  rw [F.nodeVals V E I hF]
  have hfd := F.faceDofs_eq V E I hF
  have c0 := fun pos neg a b s => F.edge_covers V E hF 0 (by omega) 4 pos neg a b s
  set fv := F.faceVals fun x y => dotRow (F.coeffs V E I) (F.shapes x y) with hfv
  set s0 := edgeVals (F.e 0) (F.q 0) (F.traceCoef V E 0) with hs0
  set s1 := edgeVals (F.e 1) (F.q 1) (F.traceCoef V E 1) with hs1
  set s2 := edgeVals (F.e 2) (F.q 2) (F.traceCoef V E 2) with hs2
  set s3 := edgeVals (F.e 3) (F.q 3) (F.traceCoef V E 3) with hs3
  have l0 : s0.length = F.ne 0 := edgeVals_length ..
  have l1 : s1.length = F.ne 1 := edgeVals_length ..
  have l2 : s2.length = F.ne 2 := edgeVals_length ..
  have l3 : s3.length = F.ne 3 := edgeVals_length ..
  have g0 : segment ([V 0, V 1, V 2, V 3] ++ s0 ++ s1 ++ s2 ++ s3 ++ fv) 4 (F.ne 0) = some s0 := by
    have := segment_append [V 0, V 1, V 2, V 3] s0 (s1 ++ s2 ++ s3 ++ fv) 4 (F.ne 0) rfl l0.symm
    rw [← this]; simp
  have g1 : segment ([V 0, V 1, V 2, V 3] ++ s0 ++ s1 ++ s2 ++ s3 ++ fv) (4 + F.ne 0) (F.ne 1) = some s1 := by
    have := segment_append ([V 0, V 1, V 2, V 3] ++ s0) s1 (s2 ++ s3 ++ fv) (4 + F.ne 0) (F.ne 1)
      (by rw [List.length_append, l0]; rfl) l1.symm
    rw [← this]; simp
  have g2 : segment ([V 0, V 1, V 2, V 3] ++ s0 ++ s1 ++ s2 ++ s3 ++ fv) (4 + F.ne 0 + F.ne 1) (F.ne 2) =
      some s2 := by
    have := segment_append ([V 0, V 1, V 2, V 3] ++ s0 ++ s1) s2 (s3 ++ fv) (4 + F.ne 0 + F.ne 1) (F.ne 2)
      (by rw [List.length_append, List.length_append, l0, l1]; rfl) l2.symm
    rw [← this]; simp
  have g3 : segment ([V 0, V 1, V 2, V 3] ++ s0 ++ s1 ++ s2 ++ s3 ++ fv) (4 + F.ne 0 + F.ne 1 + F.ne 2)
      (F.ne 3) = some s3 :=
    segment_append ([V 0, V 1, V 2, V 3] ++ s0 ++ s1 ++ s2) s3 fv _ _
      (by rw [List.length_append, List.length_append, List.length_append, l0, l1, l2]; rfl) l3.symm
  have gf : (if 1 < F.p then F.faceDofs (4 + F.ne 0 + F.ne 1 + F.ne 2 + F.ne 3)
      ([V 0, V 1, V 2, V 3] ++ s0 ++ s1 ++ s2 ++ s3 ++ fv) else some []) =
      some ((List.range F.numInterior).map I) := by
    split
    · rename_i hp
      refine hfd hp _ _ ?_
      rw [List.length_append, List.length_append, List.length_append, List.length_append, l0, l1, l2, l3]; rfl
    · rename_i hp
      have : F.numInterior = 0 := by rw [numInterior, show F.p - 1 = 0 by omega]
      rw [this]; rfl
  have v0 : ([V 0, V 1, V 2, V 3] ++ s0 ++ s1 ++ s2 ++ s3 ++ fv)[0]? = some (V 0) := rfl
  have v1 : ([V 0, V 1, V 2, V 3] ++ s0 ++ s1 ++ s2 ++ s3 ++ fv)[1]? = some (V 1) := rfl
  have v2 : ([V 0, V 1, V 2, V 3] ++ s0 ++ s1 ++ s2 ++ s3 ++ fv)[2]? = some (V 2) := rfl
  have v3 : ([V 0, V 1, V 2, V 3] ++ s0 ++ s1 ++ s2 ++ s3 ++ fv)[3]? = some (V 3) := rfl
  rw [toDofs, v0, v1, v2, v3, Option.bind_some, Option.bind_some, Option.bind_some, Option.bind_some, g0, g1, g2,
    g3, Option.bind_some, Option.bind_some, Option.bind_some, Option.bind_some, gf, Option.bind_some, coeffs,
    cellCoeffs_quad]
  refine Covers.fill (Covers.append (Covers.append (Covers.append (Covers.append (Covers.append (b := 0) ?_
    (b' := 4) ?_ ?_) (b' := 4 + (F.e 0 - 1)) ?_ ?_) (b' := 4 + (F.e 0 - 1) + (F.e 1 - 1)) ?_ ?_)
    (b' := 4 + (F.e 0 - 1) + (F.e 1 - 1) + (F.e 2 - 1)) ?_ ?_) (covers_counted _ _) ?_) ?_
  · exact covers_cons _ (covers_cons _ (covers_cons _ (covers_cons _ (covers_nil _))))
  · exact F.edge_covers V E hF 0 (by omega) _ _ _ _ _ _ (fun i hi => by omega) (fun i hi => by omega) rfl rfl hs0
  · len
  · exact F.edge_covers V E hF 1 (by omega) _ _ _ _ _ _ (fun i hi => by omega) (fun i hi => by omega) rfl rfl hs1
  · len
  · exact F.edge_covers V E hF 2 (by omega) _ _ _ _ _ _ (fun i hi => by omega) (fun i hi => by omega) rfl rfl hs2
  · len
  · exact F.edge_covers V E hF 3 (by omega) _ _ _ _ _ _ (fun i hi => by omega) (fun i hi => by omega) rfl rfl hs3
  · len
  · len
  · simp only [num]; len

/-- Every vector of coefficients has the form considered above. -/
theorem coeffs_repr (c : List ℝ) (h : c.length = F.num) : ∃ V E I, c = F.coeffs V E I := by
  have hn : F.num = 4 + (F.e 0 - 1) + (F.e 1 - 1) + (F.e 2 - 1) + (F.e 3 - 1) + F.numInterior := by
    unfold num; omega
  rw [hn] at h
  obtain ⟨a, ci, rfl, ha, hi⟩ := list_split _ _ _ h
  obtain ⟨a, c3, rfl, ha, h3⟩ := list_split _ _ _ ha
  obtain ⟨a, c2, rfl, ha, h2⟩ := list_split _ _ _ ha
  obtain ⟨a, c1, rfl, ha, h1⟩ := list_split _ _ _ ha
  obtain ⟨a, c0, rfl, ha, h0⟩ := list_split _ _ _ ha
  obtain ⟨E0, rfl⟩ := block_repr (F.o 0) _ _ h0
  obtain ⟨E1, rfl⟩ := block_repr (F.o 1) _ _ h1
  obtain ⟨E2, rfl⟩ := block_repr (F.o 2) _ _ h2
  obtain ⟨E3, rfl⟩ := block_repr (F.o 3) _ _ h3
  obtain ⟨I, rfl⟩ := block_repr true _ _ hi
  refine ⟨fun k => a.getD k 0, fun j => if j = 0 then E0 else if j = 1 then E1 else if j = 2 then E2 else E3, I, ?_⟩
  rw [coeffs, cellCoeffs_quad]
  match a, ha with
  | [x, y, z, w], _ => simp [oriented]

theorem dual (hF : F.Ready) : F.fe.Dual := by
  intro c hc
  obtain ⟨V, E, I, rfl⟩ := F.coeffs_repr c hc
  have : (F.fe.nodes.map fun x => ∑ i ∈ Finset.range F.fe.num, (F.coeffs V E I).getD i 0 * F.fe.shape i x) =
      F.nodes.map fun p => dotRow (F.coeffs V E I) (F.shapes (p.getD 0 0) (p.getD 1 0)) := by
    apply List.map_congr_left
    intro p hp
    obtain ⟨x, y, rfl⟩ := two_coords (F.nodes_len p hp)
    exact RefFE.sum_shape (F.eval_eq hF.one_le x y) (F.shapes_length x y) hc
  rw [this]
  exact F.toDofs_coeffs V E I hF

end HierQuad
end Verif
