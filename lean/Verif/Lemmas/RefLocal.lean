import Verif.Lemmas.Marking2
import Mathlib.Data.Sym.Sym2
import Mathlib.Data.List.Rotate

/-! Local facts on the refinement of a single cell, as complete finite tables. -/

namespace Verif

/-- Unordered sides of a polygon. -/
def sidesOf {α : Type} (Q : List α) : List (Sym2 α) := List.zipWith (fun a b => s(a, b)) Q (Q.rotate 1)

theorem sidesOf_map {α β : Type} (f : α → β) (Q : List α) : sidesOf (Q.map f) = (sidesOf Q).map (Sym2.map f) := by
  unfold sidesOf
  rw [← List.map_rotate, List.zipWith_map, List.map_zipWith]
  rfl

open LNode

/-- Local nodes which exist. -/
def legal (n : ℕ) (fl : List Bool) (ctr : Bool) : List LNode :=
  (List.range n).map v ++ ((List.range n).filter fun i => fl.getD i false).map m ++
    if ctr then [LNode.ctr] else []

/-- Pieces of side `i`. -/
def subs (n : ℕ) (fl : List Bool) (i : ℕ) : List (Sym2 LNode) :=
  if fl.getD i false then [s(v i, m i), s(m i, v ((i + 1) % n))] else [s(v i, v ((i + 1) % n))]

/-- Nodes on side `i`. -/
def onSide (n i : ℕ) : List LNode := [v i, m i, v ((i + 1) % n)]

def isV : LNode → Bool
  | .v _ => true
  | _ => false

def intsS (ints : List (LNode × LNode)) : List (Sym2 LNode) := ints.map fun x => s(x.1, x.2)

/-- Local fact: the child cells are polygons with legal nodes. -/
def PolysOk (n : ℕ) (fl : List Bool) (polys : List (List LNode)) (ctr : Bool) : Prop :=
  ∀ Q ∈ polys, (Q.length = 3 ∨ Q.length = 4) ∧ Q.Nodup ∧ ∀ x ∈ Q, x ∈ legal n fl ctr

instance (n : ℕ) (fl : List Bool) (polys : List (List LNode)) (ctr : Bool) : Decidable (PolysOk n fl polys ctr) := by
  unfold PolysOk; infer_instance

/-- Local fact: the interior edges connect legal nodes which are not on a common side. -/
def IntsOk (n : ℕ) (fl : List Bool) (ints : List (LNode × LNode)) (ctr : Bool) : Prop :=
  ∀ x ∈ ints, x.1 ∈ legal n fl ctr ∧ x.2 ∈ legal n fl ctr ∧ x.1 ≠ x.2 ∧ ¬ (isV x.1 = true ∧ isV x.2 = true) ∧
    ∀ i ∈ List.range n, ¬ (x.1 ∈ onSide n i ∧ x.2 ∈ onSide n i)

instance (n : ℕ) (fl : List Bool) (ints : List (LNode × LNode)) (ctr : Bool) : Decidable (IntsOk n fl ints ctr) := by
  unfold IntsOk; infer_instance

/-- Local fact: the interior edges are distinct. -/
def IntsNodup (ints : List (LNode × LNode)) : Prop :=
  (intsS ints).Nodup

instance (ints : List (LNode × LNode)) : Decidable (IntsNodup ints) := by
  unfold IntsNodup; infer_instance

/-- Local fact: the sides of the children are the pieces of the sides and twice the interior edges. -/
def SidesOk (n : ℕ) (fl : List Bool) (polys : List (List LNode)) (ints : List (LNode × LNode)) : Prop :=
  ∀ x ∈ polys.flatMap sidesOf ++ ((List.range n).flatMap (subs n fl) ++ (intsS ints ++ intsS ints)),
    (polys.flatMap sidesOf).count x =
    ((List.range n).flatMap (subs n fl) ++ (intsS ints ++ intsS ints)).count x

instance (n : ℕ) (fl : List Bool) (polys : List (List LNode)) (ints : List (LNode × LNode)) : Decidable (SidesOk n fl polys ints) := by
  unfold SidesOk; infer_instance

/-- Local fact: every node belongs to a child. -/
def CoverOk (n : ℕ) (fl : List Bool) (polys : List (List LNode)) (ctr : Bool) : Prop :=
  ∀ x ∈ legal n fl ctr, ∃ Q ∈ polys, x ∈ Q

instance (n : ℕ) (fl : List Bool) (polys : List (List LNode)) (ctr : Bool) : Decidable (CoverOk n fl polys ctr) := by
  unfold CoverOk; infer_instance

/-- Local fact: number of children, interior edges and interior nodes. -/
def EulerOk (polys : List (List LNode)) (ints : List (LNode × LNode)) (ctr : Bool) : Prop :=
  polys.length + ctr.toNat = 1 + ints.length

instance (polys : List (List LNode)) (ints : List (LNode × LNode)) (ctr : Bool) : Decidable (EulerOk polys ints ctr) := by
  unfold EulerOk; infer_instance

/-- Two polygons have at most two nodes in common, which are then the ends of a side of both. -/
def ShareTwo (P Q : List LNode) : Prop :=
  ∀ a ∈ P, ∀ b ∈ P, a ≠ b → a ∈ Q → b ∈ Q →
    s(a, b) ∈ sidesOf P ∧ s(a, b) ∈ sidesOf Q ∧ ∀ w ∈ P, w ∈ Q → w = a ∨ w = b

instance (P Q : List LNode) : Decidable (ShareTwo P Q) := by
  unfold ShareTwo; infer_instance

/-- Local fact: two children have nothing, a node or a side in common. -/
def ShareOk (polys : List (List LNode)) : Prop :=
  ∀ i ∈ List.range polys.length, ∀ j ∈ List.range polys.length, i ≠ j →
    ShareTwo (polys.getD i []) (polys.getD j [])

instance (polys : List (List LNode)) : Decidable (ShareOk polys) := by
  unfold ShareOk; infer_instance

/-- Local fact: two nodes of a child on the same side are the ends of a piece. -/
def SideOk (n : ℕ) (fl : List Bool) (polys : List (List LNode)) : Prop :=
  ∀ Q ∈ polys, ∀ i ∈ List.range n, ∀ a ∈ Q, ∀ b ∈ Q, a ≠ b → a ∈ onSide n i → b ∈ onSide n i →
    s(a, b) ∈ subs n fl i ∧ s(a, b) ∈ sidesOf Q

instance (n : ℕ) (fl : List Bool) (polys : List (List LNode)) : Decidable (SideOk n fl polys) := by
  unfold SideOk; infer_instance

/-- What has to be known about the children of a cell. -/
structure LocalC (n : ℕ) (fl : List Bool) (polys : List (List LNode)) (ints : List (LNode × LNode)) (ctr : Bool) : Prop where
  polysOk : PolysOk n fl polys ctr
  intsOk : IntsOk n fl ints ctr
  intsNodup : IntsNodup ints
  sidesOk : SidesOk n fl polys ints
  coverOk : CoverOk n fl polys ctr
  eulerOk : EulerOk polys ints ctr
  shareOk : ShareOk polys
  sideOk : SideOk n fl polys

def localB (n : ℕ) (fl : List Bool) (polys : List (List LNode)) (ints : List (LNode × LNode)) (ctr : Bool) : Bool :=
  decide (PolysOk n fl polys ctr) &&
  decide (IntsOk n fl ints ctr) &&
  decide (IntsNodup ints) &&
  decide (SidesOk n fl polys ints) &&
  decide (CoverOk n fl polys ctr) &&
  decide (EulerOk polys ints ctr) &&
  decide (ShareOk polys) &&
  decide (SideOk n fl polys)

theorem localB_iff (n : ℕ) (fl : List Bool) (polys : List (List LNode)) (ints : List (LNode × LNode)) (ctr : Bool) : localB n fl polys ints ctr = true ↔ LocalC n fl polys ints ctr := by
  unfold localB
  simp only [Bool.and_eq_true, decide_eq_true_eq]
  constructor
  · rintro ⟨⟨⟨⟨⟨⟨⟨h1, h2⟩, h3⟩, h4⟩, h5⟩, h6⟩, h7⟩, h8⟩
    exact ⟨h1, h2, h3, h4, h5, h6, h7, h8⟩
  · rintro ⟨h1, h2, h3, h4, h5, h6, h7, h8⟩
    exact ⟨⟨⟨⟨⟨⟨⟨h1, h2⟩, h3⟩, h4⟩, h5⟩, h6⟩, h7⟩, h8⟩

/-- Check of one combination of pattern and anchor. -/
def localRow (ref : RefEl) (pat : RefPat) (anchor : Option ℕ) : Bool :=
  match Pattern.make ref pat anchor with
  | none => true
  | some p =>
    if p.refinesB then
      match cellChildren ref pat anchor with
      | none => false
      | some ch =>
        localB ref.numNodes ((List.range ref.numNodes).map p.splitsSideB) ch.1 ch.2 (hasCenter ref pat)
    else true

theorem local_table : ∀ ref ∈ [RefEl.tria, RefEl.quad], ∀ pat ∈ allPats, ∀ a ∈ anchors4,
    localRow ref pat a = true := by
  decide +kernel

theorem make_anchor {ref : RefEl} (hr : ref = .tria ∨ ref = .quad) {pat : RefPat} {anchor : Option ℕ}
    {p : Pattern} (h : Pattern.make ref pat anchor = some p) : ∀ a, anchor = some a → a < ref.numNodes := by
  rintro a rfl
  unfold Pattern.make Pattern.checkAnchor at h
  rcases hr with rfl | rfl
  · by_contra hn
    rw [show RefEl.numNodes .tria = 3 from rfl] at hn
    simp only [show RefEl.numSubEntities .tria 1 = some 3 from rfl, Option.bind_some, if_neg hn] at h
    cases h
  · by_contra hn
    rw [show RefEl.numNodes .quad = 4 from rfl] at hn
    simp only [show RefEl.numSubEntities .quad 1 = some 4 from rfl, Option.bind_some, if_neg hn] at h
    cases h

/-- The children of a cell for every pattern with which it can be refined. -/
theorem local_ok {ref : RefEl} (hr : ref = .tria ∨ ref = .quad) {pat : RefPat} {anchor : Option ℕ}
    {p : Pattern} (h : Pattern.make ref pat anchor = some p) (hp : p.Refines) :
    ∃ ch, cellChildren ref pat anchor = some ch ∧
      LocalC ref.numNodes ((List.range ref.numNodes).map p.splitsSideB) ch.1 ch.2 (hasCenter ref pat) := by
  have ha : anchor ∈ anchors4 := by
    apply mem_anchors4
    intro a h'
    have := make_anchor hr h a h'
    rcases hr with rfl | rfl
    · have : a < 3 := this
      omega
    · exact this
  have ht := local_table ref (by rcases hr with rfl | rfl <;> decide) pat (mem_allPats pat) anchor ha
  unfold localRow at ht
  rw [h] at ht
  simp only [p.refinesB_iff.2 hp, if_true] at ht
  cases hc : cellChildren ref pat anchor with
  | none => rw [hc] at ht; cases ht
  | some ch =>
    rw [hc] at ht
    exact ⟨ch, rfl, (localB_iff _ _ _ _ _).1 ht⟩

end Verif
