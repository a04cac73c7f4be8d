import Verif.Lemmas.TransferHier
import Verif.Lemmas.CoarseCheck
import Verif.Lemmas.MeshValid
import Mathlib.Tactic.NormNum
import Mathlib.Algebra.Order.Field.Rat

/-!
# C35, C36: `GeometryInParent` and `MeshFunctionTransfer`

`Hierarchy.run ops (geoOps len) chk M hist` is a mesh hierarchy with real geometries after the calls `hist`; the
coordinates are elements of an arbitrary ordered field.
-/

namespace Verif
variable {K : Type} [Field K] [LinearOrder K] [IsStrictOrderedRing K] {w : ℕ}

section
variable (ops : GeoOps (Geo K w)) (len : Geo K w → ℚ) (chk : Bool) (M : Mesh (Geo K w))
  (hM : M.Coarse (geoOps len) chk) (hist : List HOp) (ho : ∀ op ∈ hist, op.Legal) (H : Hierarchy (Geo K w))
  (hH : Hierarchy.run ops (geoOps len) chk M hist = some H)
include hM ho hH

omit hM ho hH in
private theorem ok_of_run (hM : M.Coarse (geoOps len) chk) (ho : ∀ op ∈ hist, op.Legal)
    (hH : Hierarchy.run ops (geoOps len) chk M hist = some H) : HierOk (geoOps len) chk M H := by
  obtain ⟨H', h1, h2, _⟩ := run_ok ops (geoOps_lawful len) hM hist ho
  rw [hH] at h1
  cases h1
  exact h2

/-- **C35**: every entity `e` of a refined level has a parent and a relative geometry, a map into the
reference element of the parent.  If the parent is a point, segment, triangle (straight or quadratic) or
parallelogram, or if it was cut into axis-parallel pieces, then the relative geometry followed by the geometry of
the parent is the geometry of `e`. -/
theorem C35_position (level : ℕ) (e : Ent) (he : H.Has (level + 1) e) :
    ∃ (par : Ent) (g h : Geo K w) (r : Geo K g.kind.dimension),
      H.parentEntity (level + 1) e = some par ∧ H.Has level par ∧
      H.geometryInParent K (level + 1) e = some ⟨g.kind.dimension, r⟩ ∧
      H.geo level par = some g ∧ H.geo (level + 1) e = some h ∧ (H.Exact level par → r.Places g h) := by
  obtain ⟨par, g, h, r, a1, a2, a3, a4, a5, a6, a7, a8, a9, _⟩ :=
    parent_step (ok_of_run ops len chk M hist H hM ho hH) level e he
  revert r
  rw [← a7]
  intro r a2 a9
  exact ⟨par, g, h, r, a1, a3, a2, a5, a6, a9⟩

/-- **C35** for hierarchies above a mesh of points, segments, triangles (straight or quadratic) and
parallelograms: the relative geometries are exact for all entities of all levels, whatever the sequence of local
and global refinements. -/
theorem C35_stable (hs : M.Stable) (level : ℕ) (e : Ent) (he : H.Has (level + 1) e) :
    ∃ (par : Ent) (g h : Geo K w) (r : Geo K g.kind.dimension),
      H.parentEntity (level + 1) e = some par ∧
      H.geometryInParent K (level + 1) e = some ⟨g.kind.dimension, r⟩ ∧
      H.geo level par = some g ∧ H.geo (level + 1) e = some h ∧ r.Places g h := by
  obtain ⟨par, g, h, r, a1, a2, a3, a4, a5, a6⟩ := C35_position ops len chk M hM hist ho H hH level e he
  exact ⟨par, g, h, r, a1, a3, a4, a5,
    a6 (Or.inl (levels_stable (ok_of_run ops len chk M hist H hM ho hH) hs level par a2))⟩

/-- **C35** for uniform refinement of an arbitrary mesh, with general and curved quadrilaterals. -/
theorem C35_uniform (hu : ∀ op ∈ hist, op ≠ .refineMarked) (level : ℕ) (e : Ent) (he : H.Has (level + 1) e) :
    ∃ (par : Ent) (g h : Geo K w) (r : Geo K g.kind.dimension),
      H.parentEntity (level + 1) e = some par ∧
      H.geometryInParent K (level + 1) e = some ⟨g.kind.dimension, r⟩ ∧
      H.geo level par = some g ∧ H.geo (level + 1) e = some h ∧ r.Places g h := by
  obtain ⟨par, g, h, r, a1, a2, a3, a4, a5, a6⟩ := C35_position ops len chk M hM hist ho H hH level e he
  exact ⟨par, g, h, r, a1, a3, a4, a5, a6 (uniform_exact (ok_of_run ops len chk M hist H hM ho hH)
    (run_uniform ops (geoOps_lawful len) hM hist ho hu hH) level e par he a1)⟩

/-- **C36**: transfer from level `coarse` to level `fine` evaluates the given function on the ancestor of the
entity, at a point `y` of its reference element with the same image as the given point `x`; here the ancestors
have to be of the kind described in C35. -/
theorem C36_eval {R : Type} (coarse fine : ℕ) (T : MFTransfer (Geo K w)) (hT : MFTransfer.make H coarse fine = some T)
    (mf : Ent → List K → R) (e : Ent) (he : H.Has fine e) (h : Geo K w) (hh : H.geo fine e = some h) (x : List K)
    (hx : h.kind.Contains x)
    (hex : ∀ n par, 0 < n → n ≤ fine - coarse → H.ancestor n fine e = some par → H.Exact (fine - n) par) :
    ∃ par g y v, H.ancestor (fine - coarse) fine e = some par ∧ H.Has coarse par ∧ H.geo coarse par = some g ∧
      g.kind.Contains y ∧ g.global y = some v ∧ h.global x = some v ∧ T.eval mf e x = some (mf par y) := by
  have hok := ok_of_run ops len chk M hist H hM ho hH
  unfold MFTransfer.make at hT
  split at hT
  · rename_i hc
    cases hT
    obtain ⟨par, g, y, v, a1, a2, a3, a4, a5, a6, a7⟩ := transfer_loop hok (fine - coarse) fine e h x (by omega) he hh hx
      (fun m hm par hp => hex (m + 1) par (by omega) (by omega) hp)
    have el : fine - (fine - coarse) = coarse := by omega
    rw [el] at a2 a3
    refine ⟨par, g, y, v, a1, a2, a3, a5, a6, a7, ?_⟩
    unfold MFTransfer.eval
    simp only [a4, Option.map_some]
  · cases hT

omit hM ho hH in
private theorem ancestor_has (hok : HierOk (geoOps len) chk M H) (n : ℕ) : ∀ (level : ℕ) (e par : Ent), n ≤ level →
    H.Has level e → H.ancestor n level e = some par → H.Has (level - n) par := by
  induction n with
  | zero =>
    intro level e par _ he hp
    cases hp
    exact he
  | succ n ih =>
    intro level e par hn he hp
    obtain ⟨l, rfl⟩ : ∃ l, level = l + 1 := ⟨level - 1, by omega⟩
    obtain ⟨q, g, h, r, a1, a2, a3, _⟩ := parent_step hok l e he
    unfold Hierarchy.ancestor at hp
    rw [a1] at hp
    have := ih l q par (by omega) a3 hp
    have el : l + 1 - (n + 1) = l - n := by omega
    rwa [el]

/-- **C36** for meshes of triangles, parallelograms and segments, all histories, all pairs of levels. -/
theorem C36_stable {R : Type} (hs : M.Stable) (coarse fine : ℕ) (T : MFTransfer (Geo K w))
    (hT : MFTransfer.make H coarse fine = some T) (mf : Ent → List K → R) (e : Ent) (he : H.Has fine e) (h : Geo K w)
    (hh : H.geo fine e = some h) (x : List K) (hx : h.kind.Contains x) :
    ∃ par g y v, H.ancestor (fine - coarse) fine e = some par ∧ H.Has coarse par ∧ H.geo coarse par = some g ∧
      g.kind.Contains y ∧ g.global y = some v ∧ h.global x = some v ∧ T.eval mf e x = some (mf par y) := by
  have hok := ok_of_run ops len chk M hist H hM ho hH
  refine C36_eval ops len chk M hM hist ho H hH coarse fine T hT mf e he h hh x hx ?_
  intro n par _ h2 hp
  exact Or.inl (levels_stable hok hs _ _ (ancestor_has len chk M H hok n fine e par (by omega) he hp))

/-- **C36** for uniform refinement of an arbitrary mesh, all pairs of levels. -/
theorem C36_uniform {R : Type} (hu : ∀ op ∈ hist, op ≠ .refineMarked) (coarse fine : ℕ) (T : MFTransfer (Geo K w))
    (hT : MFTransfer.make H coarse fine = some T) (mf : Ent → List K → R) (e : Ent) (he : H.Has fine e) (h : Geo K w)
    (hh : H.geo fine e = some h) (x : List K) (hx : h.kind.Contains x) :
    ∃ par g y v, H.ancestor (fine - coarse) fine e = some par ∧ H.Has coarse par ∧ H.geo coarse par = some g ∧
      g.kind.Contains y ∧ g.global y = some v ∧ h.global x = some v ∧ T.eval mf e x = some (mf par y) := by
  have hok := ok_of_run ops len chk M hist H hM ho hH
  have hU := run_uniform ops (geoOps_lawful len) hM hist ho hu hH
  refine C36_eval ops len chk M hM hist ho H hH coarse fine T hT mf e he h hh x hx ?_
  intro n par h1 h2 hp
  obtain ⟨m, rfl⟩ : ∃ m, n = m + 1 := ⟨n - 1, by omega⟩
  have key : ∀ m level e, m + 1 ≤ level → H.Has level e → H.ancestor (m + 1) level e = some par →
      H.Exact (level - (m + 1)) par := by
    intro m
    induction m with
    | zero =>
      intro level e hl he hp
      obtain ⟨l, rfl⟩ : ∃ l, level = l + 1 := ⟨level - 1, by omega⟩
      unfold Hierarchy.ancestor at hp
      obtain ⟨q, hq, hq'⟩ := Option.bind_eq_some_iff.1 hp
      cases hq'
      exact uniform_exact hok hU l e par he hq
    | succ m ih =>
      intro level e hl he hp
      obtain ⟨l, rfl⟩ : ∃ l, level = l + 1 := ⟨level - 1, by omega⟩
      obtain ⟨q, g, h, r, a1, a2, a3, _⟩ := parent_step hok l e he
      rw [Hierarchy.ancestor, a1] at hp
      have := ih l q (by omega) a3 hp
      have el : l + 1 - (m + 1 + 1) = l - (m + 1) := by omega
      rwa [el]
  exact key m fine e (by omega) he hp

/-- The constructor of `MeshFunctionTransfer` accepts exactly the pairs of a coarser and a finer level. -/
theorem C36_make (coarse fine : ℕ) :
    (MFTransfer.make H coarse fine).isSome = true ↔ coarse < fine ∧ ∃ m, H.getMesh fine = some m := by
  have hok := ok_of_run ops len chk M hist H hM ho hH
  have hl : H.levels.length = H.numLevels := rfl
  have : (∃ m, H.getMesh fine = some m) ↔ fine < H.numLevels := by
    unfold Hierarchy.getMesh
    constructor
    · rintro ⟨m, hm⟩
      obtain ⟨L, hL, _⟩ := Option.map_eq_some_iff.1 hm
      have := (List.getElem?_eq_some_iff.1 hL).1
      rwa [List.length_reverse] at this
    · intro hf
      rw [List.getElem?_eq_getElem (by rw [List.length_reverse]; exact hf)]
      exact ⟨_, rfl⟩
  rw [this]
  unfold MFTransfer.make
  split <;> rename_i hc
  · simp only [Option.isSome_some, true_iff]
    exact ⟨hc.2.1, hc.2.2⟩
  · simp only [Option.isSome_none, Bool.false_eq_true, false_iff]
    omega

end

/-- **C36**: transfer from `coarse` to `mid` followed by transfer from `mid` to `fine` is the transfer from
`coarse` to `fine`. -/
theorem C36_compose {G R : Type} (H : Hierarchy G) (coarse mid fine : ℕ) (T1 T2 T : MFTransfer G)
    (h1 : MFTransfer.make H coarse mid = some T1) (h2 : MFTransfer.make H mid fine = some T2)
    (h : MFTransfer.make H coarse fine = some T) (mf : Ent → List K → R) (e : Ent) (x : List K) :
    (T2.eval (fun e' x' => T1.eval mf e' x') e x).join = T.eval mf e x := by
  unfold MFTransfer.make at h1 h2 h
  split at h1 <;> [skip; cases h1]
  split at h2 <;> [skip; cases h2]
  split at h <;> [skip; cases h]
  rename_i c1 c2 c3
  cases h1; cases h2; cases h
  unfold MFTransfer.eval
  simp only
  have e1 : fine - coarse = (fine - mid) + (mid - coarse) := by omega
  have e2 : fine - (fine - mid) = mid := by omega
  rw [e1, transferLoop_add, e2]
  cases transferLoop H (fine - mid) fine e x with
  | none => rfl
  | some r => rfl

/-- **C36**, last part, for neighbouring levels only: `getMesh()` returns the fine mesh. -/
theorem C36_getMesh_partial {G : Type} (H : Hierarchy G) (coarse : ℕ) (T : MFTransfer G)
    (h : MFTransfer.make H coarse (coarse + 1) = some T) : ∃ m, T.getMesh = some m ∧ H.getMesh (coarse + 1) = some m := by
  unfold MFTransfer.make at h
  split at h <;> [skip; cases h]
  rename_i c
  cases h
  unfold MFTransfer.getMesh Hierarchy.getMesh
  have : coarse + 1 < H.levels.reverse.length := by
    rw [List.length_reverse]; exact c.2.2
  rw [List.getElem?_eq_getElem this]
  exact ⟨_, rfl, rfl⟩

/-! ### Concrete cases -/

/-- A point of the plane. -/
def pt (x y : ℚ) : Geo ℚ 2 := .point ![x, y]

/-- Two triangles and a trapezoid. -/
def trapezoid : Option (Mesh (Geo ℚ 2)) :=
  buildMesh geoBuild [some (pt 0 0), some (pt 1 0), some (pt 0 1), some (pt 1 1), some (pt 2 0), some (pt 2 3)] []
    [⟨[0, 1, 2], none⟩, ⟨[1, 3, 2], none⟩, ⟨[1, 4, 5, 3], none⟩] true

/-- The mesh. -/
def trapMesh : Mesh (Geo ℚ 2) := trapezoid.getD ⟨[], [], [], [], [], [], []⟩

theorem trapezoid_eq : trapezoid = some trapMesh := by
  have hb : trapezoid.isSome = true := by decide +kernel
  obtain ⟨M, hM⟩ := Option.isSome_iff_exists.1 hb
  unfold trapMesh
  rw [hM]; rfl

theorem trapMesh_coarse (len : Geo ℚ 2 → ℚ) : trapMesh.Coarse (geoOps len) true := by
  have hv := buildMesh_valid true (by simp) trapezoid_eq
  exact coarseB_spec hv (show coarseB Geo.kind trapMesh = true by decide +kernel) true

/-- **C36**, last part, fails for levels which are not neighbours: `getMesh()` returns the mesh of the level after
the coarse one, not the mesh on which the transferred function is defined. -/
theorem C36_getMesh_fails : ∃ (H : Hierarchy (Geo ℚ 2)) (T : MFTransfer (Geo ℚ 2)) (m m' : Mesh (Geo ℚ 2)),
    Hierarchy.run geoBuild (geoOps fun _ => 1) true trapMesh [.regular .regular, .regular .regular] = some H ∧
    MFTransfer.make H 0 2 = some T ∧ T.getMesh = some m ∧ H.getMesh 2 = some m' ∧
    m.topo.numCells = 12 ∧ m'.topo.numCells = 48 := by
  have h : (Hierarchy.run geoBuild (geoOps fun _ => 1) true trapMesh [.regular .regular, .regular .regular]).any
    (fun H => (MFTransfer.make H 0 2).any fun T => T.getMesh.any fun m => (H.getMesh 2).any fun m' =>
      decide (m.topo.numCells = 12) && decide (m'.topo.numCells = 48)) = true := by decide +kernel
  simp only [Option.any_eq_true, Bool.and_eq_true, decide_eq_true_eq] at h
  obtain ⟨H, hH, T, hT, m, hm, m', hm', h1, h2⟩ := h
  exact ⟨H, T, m, m', hH, hT, hm, hm', h1, h2⟩

/-- The hypotheses of C35 and C36 hold for the mesh with two triangles and a trapezoid, refined twice: there is a
cell on level 2, and a transfer from level 0 to level 2. -/
example : ∃ H, Hierarchy.run geoBuild (geoOps fun _ => 1) true trapMesh [.regular .regular, .regular .regular] = some H ∧
    trapMesh.Coarse (geoOps fun _ => 1) true ∧ H.Has 2 (0, 47) ∧ (MFTransfer.make H 0 2).isSome = true := by
  obtain ⟨H, T, m, m', h1, h2, h3, h4, h5, h6⟩ := C36_getMesh_fails
  exact ⟨H, h1, trapMesh_coarse _, ⟨m', h4, by simp, by show 47 < m'.topo.numCells; omega⟩, by rw [h2]; rfl⟩

/-- Two triangles and a parallelogram. -/
def parMesh : Mesh (Geo ℚ 2) :=
  (buildMesh geoBuild [some (pt 0 0), some (pt 1 0), some (pt 0 1), some (pt 1 1), some (pt 2 0), some (pt 2 1)] []
    [⟨[0, 1, 2], none⟩, ⟨[1, 3, 2], none⟩, ⟨[1, 4, 5, 3], some (.parallelogram ![1, 0] ![2, 0] ![2, 1] ![1, 1])⟩] true).getD
    ⟨[], [], [], [], [], [], []⟩

theorem parMesh_eq : buildMesh geoBuild [some (pt 0 0), some (pt 1 0), some (pt 0 1), some (pt 1 1), some (pt 2 0), some (pt 2 1)] []
    [⟨[0, 1, 2], none⟩, ⟨[1, 3, 2], none⟩, ⟨[1, 4, 5, 3], some (.parallelogram ![1, 0] ![2, 0] ![2, 1] ![1, 1])⟩] true =
    some parMesh := by
  have hb : (buildMesh geoBuild [some (pt 0 0), some (pt 1 0), some (pt 0 1), some (pt 1 1), some (pt 2 0), some (pt 2 1)] []
    [⟨[0, 1, 2], none⟩, ⟨[1, 3, 2], none⟩, ⟨[1, 4, 5, 3], some (.parallelogram ![1, 0] ![2, 0] ![2, 1] ![1, 1])⟩] true).isSome =
    true := by decide +kernel
  obtain ⟨M, hM⟩ := Option.isSome_iff_exists.1 hb
  unfold parMesh
  rw [hM]; rfl

/-- This mesh meets the hypotheses of `C35_stable` and `C36_stable`. -/
example : parMesh.Coarse (geoOps fun _ => 1) true ∧ parMesh.Stable := by
  have hc : parMesh.Coarse (geoOps fun _ => 1) true :=
    coarseB_spec (buildMesh_valid true (by simp) parMesh_eq) (show coarseB Geo.kind parMesh = true by decide +kernel) true
  refine ⟨hc, ?_⟩
  intro codim hcd i hi g hg
  interval_cases codim
  · have h3 : parMesh.topo.numCells = 3 := by decide +kernel
    have key : ∀ i < 3, (parMesh.cellGeo i).all (fun g => match g with
        | .quadO1 .. => false
        | .quadO2 .. => false
        | _ => true) = true := by decide +kernel
    have := key i (by rw [← h3]; exact hi)
    have hg' : parMesh.cellGeo i = some g := hg
    rw [hg'] at this
    cases g <;> first | trivial | simp at this
  · obtain ⟨g', h1, h2⟩ := hc.geoOk.edges i hi
    have : some g' = some g := h1.symm.trans hg
    cases this
    exact Geo.stable_of_kind (by rw [show g.kind = .segment from h2]; simp)
  · obtain ⟨g', h1, h2⟩ := hc.geoOk.points i hi
    have : some g' = some g := h1.symm.trans hg
    cases this
    exact Geo.stable_of_kind (by rw [show g.kind = .point from h2]; simp)

/-- The condition in C35 cannot be dropped: a quadrilateral which is not a parallelogram, trisected.  The middle of
the long side of the first child is mapped to different points. -/
theorem C35_general_quad : ∃ (g h : Geo ℚ 2) (r : Geo ℚ 2) (p : Pattern) (polys : List (List (List ℤ))) (hs : List (Geo ℚ 2)),
    Pattern.make .quad .trisect (some 0) = some p ∧ p.childPolygons 0 = some polys ∧ g.child p 0 = some hs ∧
    hs[0]? = some h ∧ (polys[0]?.bind (Geo.relative 2)) = some r ∧ g.Proper ∧ ¬ r.Places g h := by
  refine ⟨.quadO1 ![0, 0] ![1, 0] ![2, 2] ![0, 1], _, _, _, _, _, rfl, rfl, rfl, rfl, rfl, trivial, ?_⟩
  rintro ⟨_, h⟩
  obtain ⟨y, v, h1, h2, h3, h4⟩ := h [1 / 2, 0] (by norm_num [Geo.kind, RefEl.Contains])
  cases h1
  have := congrArg (fun o => o.map fun v => v 0) (h3.trans h4.symm)
  exact absurd this (by decide +kernel)

end Verif
