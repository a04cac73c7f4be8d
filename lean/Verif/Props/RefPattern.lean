import Verif.Spec.RefPattern
import Mathlib.Tactic.IntervalCases
import Mathlib.Tactic.Linarith
import Mathlib.Tactic.FieldSimp
import Mathlib.Tactic.NormNum

/-!
# C26, C27: refinement patterns
-/

namespace Verif

theorem Pattern.Reachable.anchor {p : Pattern} (h : p.Reachable) :
    p.anchorSet = true → ∃ a, p.anchor = some a ∧ a < p.ref.numNodes ∧ 1 ≤ p.ref.dimension := by
  have key : ∀ q r : Pattern, q.checkAnchor = some r → r.anchorSet = r.anchor.isSome →
      r.anchorSet = true → ∃ a, r.anchor = some a ∧ a < r.ref.numNodes ∧ 1 ≤ r.ref.dimension := by
    intro q r h h1 h2
    unfold Pattern.checkAnchor at h
    cases ha : q.anchor with
    | none =>
      rw [ha] at h; simp at h; subst h
      rw [h1, ha] at h2; simp at h2
    | some a =>
      rw [ha] at h
      simp only [Option.bind_eq_some_iff] at h
      obtain ⟨n, h3, h4⟩ := h
      split_ifs at h4 with h5
      simp at h4; subst h4
      refine ⟨a, ha, ?_⟩
      cases hr : q.ref <;> simp [hr, RefEl.numSubEntities, RefEl.dimension] at h3 <;> subst h3 <;>
        simp [RefEl.numNodes, RefEl.dimension] <;> omega
  have keep : ∀ q r : Pattern, q.checkAnchor = some r → r = q := by
    intro q r h
    unfold Pattern.checkAnchor at h
    split at h
    · simpa using h.symm
    · simp only [Option.bind_eq_some_iff] at h
      obtain ⟨n, h3, h4⟩ := h
      split_ifs at h4
      simpa using h4.symm
  cases h with
  | make ref pat a p h =>
    have h' := keep _ _ h
    exact key _ _ h (by rw [h'])
  | setAnchor p a q _ h =>
    have h' := keep _ _ h
    exact key _ _ h (by rw [h'])
  | setRefPattern p pat h => intro h; simp [Pattern.setRefPattern] at h

/-- All pattern objects, up to the value of an anchor that is not set. -/
theorem Pattern.cases_of {p : Pattern} (h : p.Reachable) :
    (p.anchorSet = false) ∨ ∃ a, a < p.ref.numNodes ∧ 1 ≤ p.ref.dimension ∧
      p = ⟨p.ref, some a, p.pat, true⟩ := by
  cases hs : p.anchorSet
  · exact Or.inl rfl
  · obtain ⟨a, h1, h2, h3⟩ := h.anchor hs
    refine Or.inr ⟨a, h2, h3, ?_⟩
    rw [← h1, ← hs]

instance (ref : RefEl) (col : List ℤ) : Decidable (InLattice ref col) := by
  unfold InLattice; split <;> infer_instance

instance (p : Pattern) : Decidable p.Admissible := by unfold Pattern.Admissible; infer_instance

/-- The contract of `ChildPolygons` at one request, as a Boolean. -/
def contractOk (p : Pattern) (codim : ℕ) : Bool :=
  match p.numChildren codim, p.childPolygons codim with
  | some n, some polys =>
    decide (polys.length = n) &&
    polys.all fun poly => (vertexCounts (p.ref.dimension - codim)).contains poly.length &&
      poly.all fun col => decide (InLattice p.ref col)
  | _, _ => false

theorem contractOk_iff (p : Pattern) (codim : ℕ) : contractOk p codim = true ↔
    ∃ n polys, p.numChildren codim = some n ∧ p.childPolygons codim = some polys ∧ polys.length = n ∧
      ∀ poly ∈ polys, poly.length ∈ vertexCounts (p.ref.dimension - codim) ∧
        ∀ col ∈ poly, InLattice p.ref col := by
  unfold contractOk
  cases h1 : p.numChildren codim <;> cases h2 : p.childPolygons codim <;>
    simp [List.all_eq_true]
  exact fun _ => eq_comm

def allRefEls : List RefEl := [.point, .segment, .tria, .quad]
def allPats : List RefPat :=
  [.nil, .copy, .split, .bisect, .trisect, .trisectLeft, .quadsect, .threeedge, .regular, .barycentric]

theorem mem_allRefEls (r : RefEl) : r ∈ allRefEls := by cases r <;> decide
theorem mem_allPats (r : RefPat) : r ∈ allPats := by cases r <;> decide

theorem childPolygons_unset (p : Pattern) (codim : ℕ) (h : p.anchorSet = false) :
    p.childPolygons codim = Pattern.childPolygons ⟨p.ref, none, p.pat, false⟩ codim ∧
    p.numChildren codim = Pattern.numChildren ⟨p.ref, none, p.pat, false⟩ codim := by
  obtain ⟨ref, a, pat, s⟩ := p
  simp only at h; subst h
  constructor
  · cases ref <;> rcases codim with _ | _ | codim <;> cases pat <;> rfl
  · cases ref <;> rcases codim with _ | _ | codim <;> cases pat <;> rfl

/-- **C26** (contract).  For every refinement pattern object a program can create, and every admissible
combination of element type, pattern and anchor, `ChildPolygons(codim)` answers; its length is
`NumChildren(codim)`, its lattice coordinates lie in the reference element, and the children have the
right numbers of vertices. -/
theorem C26_contract (p : Pattern) (hr : p.Reachable) (ha : p.Admissible) (codim : ℕ)
    (hc : codim ≤ p.ref.dimension) :
    ∃ n polys, p.numChildren codim = some n ∧ p.childPolygons codim = some polys ∧ polys.length = n ∧
      ∀ poly ∈ polys, poly.length ∈ vertexCounts (p.ref.dimension - codim) ∧
        ∀ col ∈ poly, InLattice p.ref col := by
  have hd : p.ref.dimension ≤ 2 := by cases p.ref <;> decide
  have hc3 : codim < 3 := by omega
  rcases Pattern.cases_of hr with hs | ⟨a, h1, h2, h3⟩
  · have key : ∀ ref ∈ allRefEls, ∀ pat ∈ allPats, ∀ codim < 3,
        Pattern.Admissible ⟨ref, none, pat, false⟩ → codim ≤ ref.dimension →
        contractOk ⟨ref, none, pat, false⟩ codim = true := by decide +kernel
    have hadm : Pattern.Admissible ⟨p.ref, none, p.pat, false⟩ := by
      unfold Pattern.Admissible at ha ⊢
      rw [hs] at ha; exact ha
    have := (contractOk_iff _ _).1
      (key p.ref (mem_allRefEls _) p.pat (mem_allPats _) codim hc3 hadm hc)
    obtain ⟨e1, e2⟩ := childPolygons_unset p codim hs
    rw [e1, e2]; exact this
  · have key : ∀ ref ∈ allRefEls, ∀ pat ∈ allPats, ∀ codim < 3, ∀ a < ref.numNodes,
        Pattern.Admissible ⟨ref, some a, pat, true⟩ → codim ≤ ref.dimension →
        contractOk ⟨ref, some a, pat, true⟩ codim = true := by decide +kernel
    rw [h3] at ha
    have := (contractOk_iff _ _).1
      (key p.ref (mem_allRefEls _) p.pat (mem_allPats _) codim hc3 a h1 ha hc)
    rw [h3]; exact this

/-- **C26** (codimensions).  A codimension larger than the dimension is rejected by both functions. -/
theorem C26_codim (p : Pattern) (codim : ℕ) (hc : p.ref.dimension < codim) :
    p.numChildren codim = none ∧ p.childPolygons codim = none := by
  simp [Pattern.numChildren, Pattern.childPolygons, hc]

/-- **C26** (invalid anchors).  Neither the constructor nor `setAnchor` accepts an anchor which is not the
number of a side. -/
theorem C26_anchor (ref : RefEl) (pat : RefPat) (a : ℕ) (p : Pattern)
    (ha : ∀ n, ref.numSubEntities 1 = some n → n ≤ a) :
    Pattern.make ref pat (some a) = none ∧ (p.ref = ref → p.setAnchor (some a) = none) := by
  unfold Pattern.make Pattern.setAnchor Pattern.checkAnchor
  constructor
  · cases h : ref.numSubEntities 1 with
    | none => rfl
    | some n => have := ha n h; simp; omega
  · rintro rfl
    cases h : p.ref.numSubEntities 1 with
    | none => rfl
    | some n => have := ha n h; simp; omega

/-- **C26** (rejection, part).  For segments, triangles and quadrilaterals `ChildPolygons(0)` rejects
every inadmissible combination, and for cells so does `ChildPolygons(1)`.  Missing from the full claim
are points, `ChildPolygons(1)` of segments, and `ChildPolygons(2)`: see `C26_fails_point`,
`C26_fails_segment`. -/
theorem C26_rejects_partial (p : Pattern) (hr : p.Reachable) (ha : ¬ p.Admissible) :
    (1 ≤ p.ref.dimension → p.childPolygons 0 = none) ∧
    (p.ref.dimension = 2 → p.childPolygons 1 = none) := by
  rcases Pattern.cases_of hr with hs | ⟨a, h1, h2, h3⟩
  · have key : ∀ ref ∈ allRefEls, ∀ pat ∈ allPats,
        ¬ Pattern.Admissible ⟨ref, none, pat, false⟩ →
        (1 ≤ ref.dimension → Pattern.childPolygons ⟨ref, none, pat, false⟩ 0 = none) ∧
        (ref.dimension = 2 → Pattern.childPolygons ⟨ref, none, pat, false⟩ 1 = none) := by
      decide +kernel
    have hadm : ¬ Pattern.Admissible ⟨p.ref, none, p.pat, false⟩ := by
      unfold Pattern.Admissible at ha ⊢
      rw [hs] at ha; exact ha
    rw [(childPolygons_unset p 0 hs).1, (childPolygons_unset p 1 hs).1]
    exact key p.ref (mem_allRefEls _) p.pat (mem_allPats _) hadm
  · have key : ∀ ref ∈ allRefEls, ∀ pat ∈ allPats, ∀ a < ref.numNodes,
        ¬ Pattern.Admissible ⟨ref, some a, pat, true⟩ →
        (1 ≤ ref.dimension → Pattern.childPolygons ⟨ref, some a, pat, true⟩ 0 = none) ∧
        (ref.dimension = 2 → Pattern.childPolygons ⟨ref, some a, pat, true⟩ 1 = none) := by
      decide +kernel
    rw [h3] at ha
    rw [h3]
    exact key p.ref (mem_allRefEls _) p.pat (mem_allPats _) a h1 ha

/-- The full claim of C26 fails for points: `ChildPolygons` answers a request which `NumChildren`
rejects. -/
theorem C26_fails_point : ∃ p : Pattern, p.Reachable ∧ ¬ p.Admissible ∧
    p.numChildren 0 = none ∧ p.childPolygons 0 = some [[[]]] :=
  ⟨⟨.point, none, .regular, false⟩, .make .point .regular none _ rfl, by decide, rfl, rfl⟩

/-- The full claim of C26 fails for interior points of segments, too. -/
theorem C26_fails_segment : ∃ p : Pattern, p.Reachable ∧ ¬ p.Admissible ∧
    p.numChildren 1 = none ∧ p.childPolygons 1 = some [] :=
  ⟨⟨.segment, none, .bisect, false⟩, .make .segment .bisect none _ rfl, by decide, rfl, rfl⟩

/-- The hypotheses of `C26_contract` are met by the trisection of a quadrilateral with anchor 3. -/
example : ∃ p : Pattern, p.Reachable ∧ p.Admissible ∧ 0 ≤ p.ref.dimension ∧ p.numChildren 0 = some 3 :=
  ⟨⟨.quad, some 3, .trisect, true⟩, .make .quad .trisect (some 3) _ rfl, by decide, by decide, rfl⟩

/-- The hypotheses of `C26_rejects_partial` are met by a bisection whose anchor has been invalidated by
`setRefPattern`. -/
example : ∃ p : Pattern, p.Reachable ∧ ¬ p.Admissible ∧ p.ref.dimension = 2 ∧ p.numChildren 0 = some 2 :=
  ⟨Pattern.setRefPattern ⟨.tria, some 1, .trisect, true⟩ .bisect,
    .setRefPattern _ _ (.make .tria .trisect (some 1) _ rfl), by decide, rfl, rfl⟩

/-- `C26_anchor` applies to anchor 3 of a triangle. -/
example : ∀ n, RefEl.tria.numSubEntities 1 = some n → n ≤ 3 := by decide

end Verif
