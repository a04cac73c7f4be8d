import Verif.Lemmas.Relative
import Verif.Props.Transfer

/-!
# C73: relative geometries of neighbouring entities fit together

`Hierarchy.run ops cops chk M hist` is a mesh hierarchy after the calls `hist`.
-/

namespace Verif
variable {K : Type} [Field K] [LinearOrder K] [IsStrictOrderedRing K] {G : Type}

/-- Two consecutive levels. -/
theorem HierOk.samePoint {cops : ChildOps G} {chk : Bool} {M : Mesh G} {H : Hierarchy G} (hH : HierOk cops chk M H)
    {level : ℕ} {Mf : Mesh G} (hf : H.getMesh (level + 1) = some Mf) :
    ∃ Mc, H.getMesh level = some Mc ∧ ∀ i rf, Mf.topo.refEl (0, i) = some rf →
      ∃ c r, Mc.topo.refEl (0, c) = some r ∧ ∀ (y : List K) e x, Mf.topo.SamePoint rf i y e x →
        ∃ y' e' x', transferStep H (level + 1) (0, i) y = some ((0, c), y') ∧
          transferStep H (level + 1) e x = some (e', x') ∧ Mc.topo.SamePoint r c y' e' x' := by
  unfold Hierarchy.getMesh at hf
  obtain ⟨N, hN, rfl⟩ := Option.map_eq_some_iff.1 hf
  obtain ⟨k, L, hk1, hk2, hL⟩ := level_pair hN
  obtain ⟨L0, N0, P, A, Γ, hs, hp, rfl, rfl, hm, h0, h1, h2⟩ := hH.link k N L hk1 hk2
  refine ⟨L.mesh, by unfold Hierarchy.getMesh; rw [hL]; rfl, fun i rf hi => ?_⟩
  have hLm : L.mesh = L0.mesh := by rw [hs.same]
  have hst : ∀ (e : Ent) (x : List K), transferStep H (level + 1) e x = stepIn N0 e x := by
    intro e x
    rw [transferStep_eq hN]
    unfold stepIn parentAt
    rw [h0, h1, h2]
  rw [hm] at hi ⊢
  obtain ⟨c, r, h3, _, h4⟩ := hs.samePoint (K := K) hi
  refine ⟨c, r, by rw [hLm]; exact h3, fun y e x hs' => ?_⟩
  rw [hst, hst, hLm]
  exact h4 y e x hs'

section
variable (ops : GeoOps G) {cops : ChildOps G} (hl : cops.Lawful) (chk : Bool) (M : Mesh G)
  (hM : M.Coarse cops chk) (hist : List HOp) (ho : ∀ op ∈ hist, op.Legal) (H : Hierarchy G)
  (hH : Hierarchy.run ops cops chk M hist = some H)
include hl hM ho hH

omit hl hM ho hH in
private theorem okRun (hl : cops.Lawful) (hM : M.Coarse cops chk) (ho : ∀ op ∈ hist, op.Legal)
    (hH : Hierarchy.run ops cops chk M hist = some H) : HierOk cops chk M H := by
  obtain ⟨H', h1, h2, _⟩ := run_ok ops hl hM hist ho
  rw [hH] at h1
  cases h1
  exact h2

/-- **C73**: two descriptions of a point of the mesh of a refined level -- in a cell, and in one of its edges
or nodes -- are taken by `GeometryInParent` and `ParentEntity` to two descriptions of one point of the mesh of
the level before. -/
theorem C73_same_point (level : ℕ) (Mc Mf : Mesh G) (hc : H.getMesh level = some Mc)
    (hf : H.getMesh (level + 1) = some Mf) (i : ℕ) (rf : RefEl) (hi : Mf.topo.refEl (0, i) = some rf) :
    ∃ c r, Mc.topo.refEl (0, c) = some r ∧ ∀ (y : List K) e x, Mf.topo.SamePoint rf i y e x →
      ∃ y' e' x', transferStep H (level + 1) (0, i) y = some ((0, c), y') ∧
        transferStep H (level + 1) e x = some (e', x') ∧ Mc.topo.SamePoint r c y' e' x' := by
  obtain ⟨Mc', h1, h2⟩ := (okRun ops chk M hist H hl hM ho hH).samePoint (K := K) hf
  rw [hc] at h1
  cases h1
  exact h2 i rf hi

/-- Several levels. -/
theorem samePoint_loop (n : ℕ) : ∀ (level : ℕ) (Mc Mf : Mesh G), H.getMesh level = some Mc →
    H.getMesh (level + n) = some Mf → ∀ i rf, Mf.topo.refEl (0, i) = some rf →
    ∃ c r, Mc.topo.refEl (0, c) = some r ∧ ∀ (y : List K) e x, Mf.topo.SamePoint rf i y e x →
      ∃ y' e' x', transferLoop H n (level + n) (0, i) y = some ((0, c), y') ∧
        transferLoop H n (level + n) e x = some (e', x') ∧ Mc.topo.SamePoint r c y' e' x' := by
  induction n with
  | zero =>
    intro level Mc Mf hc hf i rf hi
    rw [Nat.add_zero, hc] at hf
    cases hf
    exact ⟨i, rf, hi, fun y e x h => ⟨y, e, x, rfl, rfl, h⟩⟩
  | succ n ih =>
    intro level Mc Mf hc hf i rf hi
    obtain ⟨Mm, hm, hstep⟩ := (okRun ops chk M hist H hl hM ho hH).samePoint (K := K) (level := level + n) hf
    obtain ⟨c1, r1, h1, h2⟩ := hstep i rf hi
    obtain ⟨c, r, h3, h4⟩ := ih level Mc Mm hc hm c1 r1 h1
    refine ⟨c, r, h3, fun y e x hs => ?_⟩
    obtain ⟨y1, e1, x1, a1, a2, a3⟩ := h2 y e x hs
    obtain ⟨y2, e2, x2, b1, b2, b3⟩ := h4 y1 e1 x1 a3
    refine ⟨y2, e2, x2, ?_, ?_, b3⟩
    · have : transferLoop H (n + 1) (level + (n + 1)) (0, i) y =
        (transferStep H (level + n + 1) (0, i) y).bind fun r => transferLoop H n (level + n) r.1 r.2 := rfl
      rw [this, a1]
      exact b1
    · have : transferLoop H (n + 1) (level + (n + 1)) e x =
        (transferStep H (level + n + 1) e x).bind fun r => transferLoop H n (level + n) r.1 r.2 := rfl
      rw [this, a2]
      exact b2

/-- **C73** for `MeshFunctionTransfer`: transferring a mesh function which has one value at every point of the
coarse mesh yields a mesh function with one value at every point of the fine mesh.  It is defined on all cells,
at all local coordinates, and on all their edges and nodes. -/
theorem C73_single_valued {R : Type} (coarse fine : ℕ) (T : MFTransfer G) (hT : MFTransfer.make H coarse fine = some T)
    (Mc Mf : Mesh G) (hc : H.getMesh coarse = some Mc) (hf : H.getMesh fine = some Mf) (mf : Ent → List K → R)
    (hmf : Mc.topo.SingleValued mf) :
    Mf.topo.SingleValued (fun e x => T.eval mf e x) ∧
    ∀ i rf, Mf.topo.refEl (0, i) = some rf →
      ∃ c r, Mc.topo.refEl (0, c) = some r ∧ ∀ x : List K, x.length = 2 →
        ∃ y, y.length = 2 ∧ T.eval mf (0, i) x = some (mf (0, c) y) := by
  unfold MFTransfer.make at hT
  split at hT <;> [skip; cases hT]
  rename_i hlt
  cases hT
  have hval : ∀ c r, Mc.topo.refEl (0, c) = some r → ∀ (y : List K) e x, Mc.topo.SamePoint r c y e x →
      mf (0, c) y = mf e x := by
    rintro c r hr y e x (⟨rfl, rfl, _⟩ | ⟨j, hj, t, h0, h1, rfl, rfl, rfl⟩ | ⟨j, hj, rfl, rfl, rfl⟩)
    · rfl
    · exact (hmf c r hr j hj).1 t h0 h1
    · exact (hmf c r hr j hj).2
  obtain ⟨n, rfl⟩ : ∃ n, fine = coarse + n := ⟨fine - coarse, by omega⟩
  have key : ∀ i rf, Mf.topo.refEl (0, i) = some rf → ∃ c r, Mc.topo.refEl (0, c) = some r ∧
      ∀ (y : List K) e x, Mf.topo.SamePoint rf i y e x →
      ∃ y', transferLoop H n (coarse + n) (0, i) y = some ((0, c), y') ∧
        MFTransfer.eval ⟨H, coarse, coarse + n⟩ mf (0, i) y = some (mf (0, c) y') ∧
        MFTransfer.eval ⟨H, coarse, coarse + n⟩ mf e x = some (mf (0, c) y') := by
    intro i rf hi
    obtain ⟨c, r, hr, h⟩ := samePoint_loop (K := K) ops hl chk M hM hist ho H hH n coarse Mc Mf hc hf i rf hi
    refine ⟨c, r, hr, fun y e x hs => ?_⟩
    obtain ⟨y', e', x', h1, h2, h3⟩ := h y e x hs
    refine ⟨y', h1, ?_, ?_⟩
    · unfold MFTransfer.eval
      simp only [Nat.add_sub_cancel_left, h1]
      rfl
    · unfold MFTransfer.eval
      simp only [Nat.add_sub_cancel_left, h2]
      rw [hval c r hr y' e' x' h3]
      rfl
  constructor
  · intro i rf hi j hj
    obtain ⟨c, r, hr, h⟩ := key i rf hi
    constructor
    · intro t h0 h1
      obtain ⟨y', _, h2, h3⟩ := h _ _ _ (Or.inr (Or.inl ⟨j, hj, t, h0, h1, rfl, rfl, rfl⟩))
      exact h2.trans h3.symm
    · obtain ⟨y', _, h2, h3⟩ := h _ _ _ (Or.inr (Or.inr ⟨j, hj, rfl, rfl, rfl⟩))
      exact h2.trans h3.symm
  · intro i rf hi
    obtain ⟨c, r, hr, h⟩ := samePoint_loop (K := K) ops hl chk M hM hist ho H hH n coarse Mc Mf hc hf i rf hi
    refine ⟨c, r, hr, fun x hx => ?_⟩
    obtain ⟨y', e', x', h1, h2, h3⟩ := h x (0, i) x (Or.inl ⟨rfl, rfl, hx⟩)
    rw [h1] at h2
    cases h2
    have hy : y'.length = 2 := by
      rcases h3 with ⟨_, _, h⟩ | ⟨_, _, _, _, _, h, _⟩ | ⟨_, _, h, _⟩
      · exact h
      · simp at h
      · simp at h
    refine ⟨y', hy, ?_⟩
    unfold MFTransfer.eval
    simp only [Nat.add_sub_cancel_left, h1]
    rfl

end

/-- The hypotheses are met: two triangles and a trapezoid, refined twice, the second time locally; the fine
level has cells and the function `1` has one value at every point. -/
example : ∃ (H : Hierarchy (Geo ℚ 2)) (Mf : Mesh (Geo ℚ 2)) (T : MFTransfer (Geo ℚ 2)),
    Hierarchy.run geoBuild (geoOps fun _ => 1) true trapMesh
      [.regular .regular, .mark fun e => e == 0, .refineMarked] = some H ∧
    trapMesh.Coarse (geoOps fun _ => 1) true ∧ (geoOps fun _ : Geo ℚ 2 => 1).Lawful ∧ H.getMesh 2 = some Mf ∧
    Mf.topo.refEl (0, 0) = some .tria ∧ MFTransfer.make H 0 2 = some T ∧
    trapMesh.topo.SingleValued (fun (_ : Ent) (_ : List ℚ) => (1 : ℚ)) := by
  have h : (Hierarchy.run geoBuild (geoOps fun _ => 1) true trapMesh
      [.regular .regular, .mark fun e => e == 0, .refineMarked]).any
    (fun H => (H.getMesh 2).any fun m' => (MFTransfer.make H 0 2).isSome &&
      decide (m'.topo.refEl (0, 0) = some .tria)) = true := by decide +kernel
  simp only [Option.any_eq_true, Bool.and_eq_true, decide_eq_true_eq] at h
  obtain ⟨H, h1, m, h3, h4⟩ := h
  obtain ⟨T, hT⟩ := Option.isSome_iff_exists.1 h4.1
  exact ⟨H, m, T, h1, trapMesh_coarse _, geoOps_lawful _, h3, h4.2, hT, fun _ _ _ _ _ => ⟨fun _ _ _ => rfl, rfl⟩⟩

end Verif
