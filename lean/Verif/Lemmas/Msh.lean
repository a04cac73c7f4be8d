import Verif.Spec.MshFormat
import Mathlib.Data.Fintype.Basic
import Mathlib.Tactic.FinCases

/-!
# Lemmas for the parsers of gmsh files: the part common to both grammars
-/

namespace Verif

namespace Msh

theorem bind_apply {α β : Type} (p : Parser α) (h : α → Parser β) (s : Txt) :
    (p >>= h) s = (p s).bind fun x => h x.1 x.2 := rfl

theorem pure_apply {α : Type} (a : α) (s : Txt) : (pure a : Parser α) s = some (a, s) := rfl

/-- `p` reads the value `a` from all strings of `r`, if the rest of the input satisfies `D`. -/
def Reads {α : Type} (D : Txt → Prop) (p : Parser α) (a : α) (r : Rel) : Prop :=
  ∀ s, r s → ∀ rest, D rest → p (s ++ rest) = some (a, rest) ∧ D (s ++ rest)

section
variable {α β : Type} {D : Txt → Prop}

theorem Reads.bind {p : Parser α} {h : α → Parser β} {a : α} {b : β} {r q : Rel} (hp : Reads D p a r)
    (hh : Reads D (h a) b q) : Reads D (p >>= h) b (r ⊙ q) := by
  rintro s ⟨u, v, rfl, hu, hv⟩ rest hr
  obtain ⟨h1, h2⟩ := hh v hv rest hr
  obtain ⟨h3, h4⟩ := hp u hu _ h2
  rw [List.append_assoc, bind_apply, h3]
  exact ⟨h1, h4⟩

theorem Reads.map {p : Parser α} {a : α} {r : Rel} (g : α → β) (hp : Reads D p a r) :
    Reads D (p >>= fun x => pure (g x)) (g a) r := by
  intro s hs rest hr
  obtain ⟨h3, h4⟩ := hp s hs rest hr
  rw [bind_apply, h3]
  exact ⟨rfl, h4⟩

theorem Reads.pure (a : α) : Reads D (pure a : Parser α) a Rel.nil := by
  rintro s rfl rest hr
  exact ⟨rfl, hr⟩

theorem Reads.rep {p : Parser β} {r : α → Rel} {h : α → β} (l : List α) (hp : ∀ a ∈ l, Reads D p (h a) (r a)) :
    Reads D (rep l.length p) (l.map h) (Rel.many r l) := by
  induction l with
  | nil => exact Reads.pure _
  | cons a l ih =>
    exact Reads.bind (hp a List.mem_cons_self)
      (Reads.map (fun l => h a :: l) (ih fun x hx => hp x (List.mem_cons_of_mem _ hx)))

theorem Reads.rep' {p : Parser α} {r : α → Rel} (l : List α) (hp : ∀ a ∈ l, Reads D p a (r a)) :
    Reads D (Msh.rep l.length p) l (Rel.many r l) := by
  have := Reads.rep (h := fun a => a) l hp
  rwa [List.map_id'] at this

end

section Comments
variable {D : Txt → Prop} {p : Parser Unit} {c : Rel} (hc : Reads D p () c) (hpos : ∀ s, c s → s ≠ [])
include hc hpos

omit hpos in
theorem commentsN_spec (l : List Txt) (hl : ∀ t ∈ l, c t) (rest : Txt) (hr : D rest) (hn : p rest = none) :
    ∀ n, l.length ≤ n → commentsN p n (l.flatten ++ rest) = some ((), rest) := by
  induction l with
  | nil =>
    intro n _
    cases n with
    | zero => rfl
    | succ n => simp only [commentsN, List.flatten_nil, List.nil_append, hn]
  | cons t l ih =>
    have hD : ∀ l : List Txt, (∀ t ∈ l, c t) → D (l.flatten ++ rest) := by
      intro l hl
      induction l with
      | nil => exact hr
      | cons t l ih =>
        rw [List.flatten_cons, List.append_assoc]
        exact (hc t (hl t List.mem_cons_self) _ (ih fun x hx => hl x (List.mem_cons_of_mem _ hx))).2
    intro n hn
    obtain ⟨m, rfl⟩ : ∃ m, n = m + 1 := ⟨n - 1, by simp at hn; omega⟩
    have h1 := (hc t (hl t List.mem_cons_self) _ (hD l fun x hx => hl x (List.mem_cons_of_mem _ hx))).1
    rw [List.flatten_cons, List.append_assoc]
    simp only [commentsN, h1]
    exact ih (fun x hx => hl x (List.mem_cons_of_mem _ hx)) m (by simpa using hn)

/-- Comments before something which is no comment. -/
theorem comments_spec (s : Txt) (hs : c.star s) (rest : Txt) (hr : D rest) (hn : p rest = none) :
    comments p (s ++ rest) = some ((), rest) ∧ D (s ++ rest) := by
  obtain ⟨l, hl, rfl⟩ := hs
  constructor
  · refine commentsN_spec hc l hl rest hr hn _ ?_
    have : ∀ l : List Txt, (∀ t ∈ l, c t) → l.length ≤ l.flatten.length := by
      intro l hl
      induction l with
      | nil => simp
      | cons t l ih =>
        have h1 := ih fun x hx => hl x (List.mem_cons_of_mem _ hx)
        have h2 := List.length_pos_of_ne_nil (hpos t (hl t List.mem_cons_self))
        simp only [List.length_cons, List.flatten_cons, List.length_append]
        omega
    have := this l hl
    simp only [List.length_append]
    omega
  · induction l with
    | nil => exact hr
    | cons t l ih =>
      rw [List.flatten_cons, List.append_assoc]
      exact (hc t (hl t List.mem_cons_self) _ (ih fun x hx => hl x (List.mem_cons_of_mem _ hx))).2

end Comments

/-- What the proofs need to know about the primitive parsers; `c` are the comments. -/
structure Sound {R : Type} (g : Prims R) (f : Fmt R) (c : Rel) (D : Txt → Prop) : Prop where
  int : ∀ i, Reads D g.int i (f.int i)
  size : ∀ n, Reads D g.size n (f.size n)
  real : ∀ x, Reads D g.real x (f.real x)
  zero : Reads D g.zero () f.zero
  sixteen : Reads D g.sixteen () f.sixteen
  zero_sixteen : ∀ s, f.sixteen s → ∀ rest, D rest → g.zero (s ++ rest) = none
  opening : ∀ k, Reads D (g.opening k) () (f.opening k)
  closing : ∀ k, Reads D (g.closing k) () (f.closing k)
  com : Reads D g.comment () c
  com_pos : ∀ s, c s → s ≠ []
  D_blank : ∀ s, Blank s → D s
  com_blank : ∀ s, Blank s → g.comment s = none
  open_blank : ∀ k s, Blank s → g.opening k s = none
  com_open : ∀ k ∈ sectionNames, ∀ s, f.opening k s → ∀ rest, g.comment (s ++ rest) = none
  open_open : ∀ k ∈ sectionNames, ∀ k' ∈ sectionNames, k ≠ k' → ∀ s, f.opening k s → ∀ rest, g.opening k' (s ++ rest) = none
  names_open : ∀ s, f.opening "Entities".toList s → ∀ rest, lit "$PhysicalNames".toList (s ++ rest) = none
  com_names : ∀ s, token "$PhysicalNames".toList s → ∀ rest, g.comment (s ++ rest) = none
  names : ∀ l s, namesText l s → ∀ rest, D rest →
    (lit "$PhysicalNames".toList (s ++ rest)).bind (fun x => namesBody x.2) = some (l, rest) ∧ D (s ++ rest)

section Grammar
variable {R : Type} {g : Prims R} {f : Fmt R} {c : Rel} {D : Txt → Prop} (S : Sound g f c D)
include S

theorem reads_vec (v : Vec R) : Reads D (vec3 g) v (f.vec v) :=
  (S.real _).bind ((S.real _).bind (Reads.map (fun z => (v.1, v.2.1, z)) (S.real _)))

theorem reads_list {α : Type} {p : Parser α} {r : α → Rel} (l : List α) (hp : ∀ a ∈ l, Reads D p a (r a)) :
    Reads D (do let n ← g.size; rep n p) l (f.list r l) :=
  (S.size _).bind (Reads.rep' l hp)

theorem reads_intVec (l : List ℤ) : Reads D (intVec g) l (f.list f.int l) :=
  reads_list S l fun i _ => S.int i

theorem reads_point (e : PointEnt R) : Reads D (pointEnt g) e (f.point e) :=
  (S.int _).bind ((reads_vec S _).bind (Reads.map (fun ph => (⟨e.tag, e.coord, ph⟩ : PointEnt R)) (reads_intVec S _)))

theorem reads_ent (e : Ent R) : Reads D (ent g) e (f.entity e) :=
  (S.int _).bind ((reads_vec S _).bind ((reads_vec S _).bind ((reads_intVec S _).bind
    (Reads.map (fun bd => (⟨e.tag, e.lo, e.hi, e.phys, bd⟩ : Ent R)) (reads_intVec S _)))))

theorem reads_partPoint (e : PartPoint R) : Reads D (partPoint g) e (f.partPoint e) :=
  (S.int _).bind ((S.int _).bind ((S.int _).bind ((reads_intVec S _).bind ((reads_vec S _).bind
    (Reads.map (fun ph => (⟨e.tag, e.parentDim, e.parentTag, e.partitions, e.coord, ph⟩ : PartPoint R))
      (reads_intVec S _))))))

theorem reads_partEnt (e : PartEnt R) : Reads D (partEnt g) e (f.partEntity e) :=
  (S.int _).bind ((S.int _).bind ((S.int _).bind ((reads_intVec S _).bind ((reads_vec S _).bind ((reads_vec S _).bind
    ((reads_intVec S _).bind
    (Reads.map (fun bd => (⟨e.tag, e.parentDim, e.parentTag, e.partitions, e.lo, e.hi, e.phys, bd⟩ : PartEnt R))
      (reads_intVec S _))))))))

theorem reads_ents {A B : Type} {a : Parser A} {b : Parser B} {ra : A → Rel} {rb : B → Rel}
    (ha : ∀ x, Reads D a x (ra x)) (hb : ∀ x, Reads D b x (rb x)) (e : Ents A B) :
    Reads D (ents g a b) e (f.ents ra rb e) :=
  (S.size _).bind ((S.size _).bind ((S.size _).bind ((S.size _).bind ((Reads.rep' _ fun x _ => ha x).bind
    ((Reads.rep' _ fun x _ => hb x).bind ((Reads.rep' _ fun x _ => hb x).bind
      (Reads.map (fun v => (⟨e.points, e.curves, e.surfaces, v⟩ : Ents A B)) (Reads.rep' _ fun x _ => hb x))))))))

/-- A body followed by the keyword at the end of the section. -/
theorem reads_close {α : Type} {p : Parser α} {a : α} {r : Rel} (k : Txt) (hp : Reads D p a r) :
    Reads D (do let x ← p; g.closing k; pure x) a (r ⊙ f.closing k) :=
  hp.bind (Reads.map (fun _ => a) (S.closing k))

theorem reads_entities (e : Ents (PointEnt R) (Ent R)) : Reads D (entities g) e (f.entities e) :=
  (S.opening _).bind (reads_close S _ (reads_ents S (reads_point S) (reads_ent S) e))

theorem seq_assoc (a b d : Rel) (s : Txt) : ((a ⊙ b) ⊙ d) s ↔ (a ⊙ b ⊙ d) s := by
  constructor
  · rintro ⟨u, v, rfl, ⟨x, y, rfl, hx, hy⟩, hv⟩
    exact ⟨x, y ++ v, by simp, hx, y, v, rfl, hy, hv⟩
  · rintro ⟨x, w, rfl, hx, y, v, rfl, hy, hv⟩
    exact ⟨x ++ y, v, by simp, ⟨x, y, rfl, hx, hy⟩, hv⟩

theorem reads_parts (p : Parts R) : Reads D (partsBody g) p
    ((f.size p.num ⊙ f.list (fun g => f.int g.1 ⊙ f.int g.2) p.ghosts ⊙ f.ents f.partPoint f.partEntity p.ents) ⊙
      f.closing "PartitionedEntities".toList) := by
  intro s hs
  rw [seq_assoc S] at hs
  obtain ⟨u, v, rfl, hu, hv⟩ := hs
  rw [seq_assoc S] at hv
  have h1 : Reads D (do
      let n ← g.size
      rep n (do
        let t ← g.int
        let p ← g.int
        pure (t, p))) p.ghosts (f.list (fun g => f.int g.1 ⊙ f.int g.2) p.ghosts) :=
    reads_list S p.ghosts fun x _ => (S.int x.1).bind (Reads.map (fun y => (x.1, y)) (S.int x.2))
  have := Reads.bind (S.size p.num) (h := fun n => do
      let gh ← ghostEnts g
      let e ← ents g (partPoint g) (partEnt g)
      g.closing "PartitionedEntities".toList
      pure ⟨n, gh, e⟩) (b := p) (q := f.list (fun g => f.int g.1 ⊙ f.int g.2) p.ghosts ⊙
        f.ents f.partPoint f.partEntity p.ents ⊙ f.closing "PartitionedEntities".toList)
      (h1.bind ((reads_ents S (reads_partPoint S) (reads_partEnt S) p.ents).bind
        (Reads.map (fun _ => p) (S.closing _))))
  exact this _ ⟨u, v, rfl, hu, hv⟩

theorem reads_nodeBlock (b : NodeBlock R) : Reads D (nodeBlock g) b (f.nodeBlock b) := by
  rintro s ⟨hb, hs⟩
  have h1 : Reads D (nodeBlock g) ⟨b.dim, b.tag, (0 : ℤ) != 0, (b.nodes.map fun n => n.1).zip (b.nodes.map fun n => n.2)⟩
      (f.int b.dim ⊙ f.int b.tag ⊙ f.int 0 ⊙ f.size b.nodes.length ⊙ Rel.many (fun n => f.size n.1) b.nodes ⊙
        Rel.many (fun n => f.vec n.2) b.nodes) :=
    (S.int _).bind ((S.int _).bind ((S.int _).bind ((S.size _).bind
      ((Reads.rep (h := fun n => n.1) b.nodes fun x _ => S.size x.1).bind
        (Reads.map (fun co => (⟨b.dim, b.tag, (0 : ℤ) != 0, (b.nodes.map fun n => n.1).zip co⟩ : NodeBlock R))
          (Reads.rep (h := fun n => n.2) b.nodes fun x _ => reads_vec S x.2))))))
  have h2 : (⟨b.dim, b.tag, (0 : ℤ) != 0, (b.nodes.map fun n => n.1).zip (b.nodes.map fun n => n.2)⟩ : NodeBlock R) = b := by
    obtain ⟨d, t, p, n⟩ := b
    simp only at hb
    subst hb
    congr 1
    simp only
    rw [List.zip_map', List.map_id'']
    intro x
    rfl
  rw [h2] at h1
  exact h1 s hs

theorem reads_nodes (n : Nodes R) : Reads D (nodes g) n (f.nodes n) := by
  have h1 : Reads D (nodes g) n (f.opening "Nodes".toList ⊙ f.size n.blocks.length ⊙ f.size n.num ⊙ f.size n.minTag ⊙
      f.size n.maxTag ⊙ Rel.many f.nodeBlock n.blocks ⊙ f.closing "Nodes".toList) :=
    (S.opening _).bind ((S.size _).bind ((S.size _).bind ((S.size _).bind ((S.size _).bind
      ((Reads.rep' _ fun x _ => reads_nodeBlock S x).bind (Reads.map (fun _ => n) (S.closing _)))))))
  rintro s ⟨u, v, rfl, hu, hv⟩
  refine h1 _ ⟨u, v, rfl, hu, ?_⟩
  have aux : ∀ {a b d e k x : Rel} {s : Txt}, ((a ⊙ b ⊙ d ⊙ e ⊙ k) ⊙ x) s → (a ⊙ b ⊙ d ⊙ e ⊙ k ⊙ x) s := by
    rintro a b d e k x s ⟨u, v, rfl, ⟨s1, _, rfl, h1, s2, _, rfl, h2, s3, _, rfl, h3, s4, s5, rfl, h4, h5⟩, hv⟩
    exact ⟨s1, s2 ++ (s3 ++ (s4 ++ (s5 ++ v))), by simp, h1, s2, _, rfl, h2, s3, _, rfl, h3, s4, _, rfl, h4, s5, v, rfl, h5,
      hv⟩
  exact aux hv

theorem numNodes_spec (ty : ℤ) (k : ℕ) (h : (ty, k) ∈ nodesOfType) : numNodes ty = some k := by
  have h1 : ∀ x ∈ nodesOfType, numNodes x.1 = some x.2 := by decide +kernel
  exact h1 _ h

theorem reads_elemBlock (b : ElemBlock) : Reads D (elemBlock g) b (f.elemBlock b) := by
  rintro s ⟨hb, hs⟩
  have h1 : ∀ e ∈ b.elems, Reads D (element g b.type) e (f.size e.1 ⊙ Rel.many f.size e.2) := by
    intro e he
    refine (S.size _).bind ?_
    rw [numNodes_spec S _ _ (hb e he)]
    exact Reads.map (fun l => (e.1, l)) (Reads.rep' e.2 fun x _ => S.size x)
  exact ((S.int _).bind ((S.int _).bind ((S.int _).bind ((S.size _).bind
    (Reads.map (fun l => (⟨b.dim, b.tag, b.type, l⟩ : ElemBlock)) (Reads.rep' b.elems h1)))))) s hs

theorem reads_elems (n : Elems) : Reads D (elems g) n (f.elems n) := by
  have h1 : Reads D (elems g) n (f.opening "Elements".toList ⊙ f.size n.blocks.length ⊙ f.size n.num ⊙ f.size n.minTag ⊙
      f.size n.maxTag ⊙ Rel.many f.elemBlock n.blocks ⊙ f.closing "Elements".toList) :=
    (S.opening _).bind ((S.size _).bind ((S.size _).bind ((S.size _).bind ((S.size _).bind
      ((Reads.rep' _ fun x _ => reads_elemBlock S x).bind (Reads.map (fun _ => n) (S.closing _)))))))
  rintro s ⟨u, v, rfl, hu, hv⟩
  refine h1 _ ⟨u, v, rfl, hu, ?_⟩
  have aux : ∀ {a b d e k x : Rel} {s : Txt}, ((a ⊙ b ⊙ d ⊙ e ⊙ k) ⊙ x) s → (a ⊙ b ⊙ d ⊙ e ⊙ k ⊙ x) s := by
    rintro a b d e k x s ⟨u, v, rfl, ⟨s1, _, rfl, h1, s2, _, rfl, h2, s3, _, rfl, h3, s4, s5, rfl, h4, h5⟩, hv⟩
    exact ⟨s1, s2 ++ (s3 ++ (s4 ++ (s5 ++ v))), by simp, h1, s2, _, rfl, h2, s3, _, rfl, h3, s4, _, rfl, h4, s5, v, rfl, h5,
      hv⟩
  exact aux hv

/-- The numbers of a matrix, row by row. -/
def rows (m : Fin 4 → Fin 4 → R) : List R := (List.finRange 4).flatMap fun i => (List.finRange 4).map (m i)

omit S in
theorem rows_eq (m : Fin 4 → Fin 4 → R) : rows m =
    [m 0 0, m 0 1, m 0 2, m 0 3, m 1 0, m 1 1, m 1 2, m 1 3, m 2 0, m 2 1, m 2 2, m 2 3, m 3 0, m 3 1, m 3 2, m 3 3] := by
  have : List.finRange 4 = [0, 1, 2, 3] := by decide
  simp [rows, this]

omit S in
theorem matrix4_rows (m : Fin 4 → Fin 4 → R) (h : 16 ≤ (rows m).length) : matrix4 (rows m) h = m := by
  funext i j
  simp only [matrix4]
  simp only [rows_eq]
  fin_cases i <;> fin_cases j <;> rfl

theorem reads_affine (a : Option (Fin 4 → Fin 4 → R)) : Reads D (affine g) (a.map rows) (f.transform a) := by
  intro s hs rest hr
  cases a with
  | none =>
    obtain ⟨h1, h2⟩ := S.zero s hs rest hr
    refine ⟨?_, h2⟩
    simp only [affine, h1, Option.map_none]
  | some m =>
    have h3 : Reads D (do g.sixteen; let l ← rep 16 g.real; pure (some l)) (some (rows m))
        (f.sixteen ⊙ Rel.many f.real (rows m)) := by
      refine Reads.bind S.sixteen (Reads.map some ?_)
      have := Reads.rep' (p := g.real) (r := f.real) (D := D) (rows m) fun x _ => S.real x
      rwa [show (rows m).length = 16 by rw [rows_eq]; rfl] at this
    obtain ⟨h1, h2⟩ := h3 s hs rest hr
    refine ⟨?_, h2⟩
    obtain ⟨u, v, rfl, hu, hv⟩ := hs
    have h4 : D (v ++ rest) :=
      (Reads.rep' (p := g.real) (r := f.real) (D := D) (rows m) (fun x _ => S.real x) v hv rest hr).2
    have h5 := S.zero_sixteen u hu (v ++ rest) h4
    rw [← List.append_assoc] at h5
    simp only [affine, h5]
    exact h1

theorem reads_link (l : Link R) : Reads D (link g) l (f.link l) := by
  have h1 : Reads D (do
      let n ← g.size
      rep n (do
        let x ← g.size
        let y ← g.size
        pure (x, y))) l.nodes (f.list (fun n => f.size n.1 ⊙ f.size n.2) l.nodes) :=
    reads_list S l.nodes fun x _ => (S.size x.1).bind (Reads.map (fun y => (x.1, y)) (S.size x.2))
  have h2 : ((l.affine.map rows).bind fun l => if h : 16 ≤ l.length then some (matrix4 l h) else none) = l.affine := by
    cases l.affine with
    | none => rfl
    | some m =>
      have : 16 ≤ (rows m).length := by rw [rows_eq]; rfl
      simp only [Option.map_some, Option.bind_some, dif_pos this, matrix4_rows]
  rintro s ⟨s1, _, rfl, k1, s2, _, rfl, k2, s3, _, rfl, k3, s4, s5, rfl, k4, k5⟩ rest hr
  obtain ⟨a5, b5⟩ := h1 s5 k5 rest hr
  obtain ⟨a4, b4⟩ := reads_affine S l.affine s4 k4 _ b5
  obtain ⟨a3, b3⟩ := S.int _ s3 k3 _ b4
  obtain ⟨a2, b2⟩ := S.int _ s2 k2 _ b3
  obtain ⟨a1, b1⟩ := S.int _ s1 k1 _ b2
  refine ⟨?_, by simpa [List.append_assoc] using b1⟩
  simp only [List.append_assoc] at *
  rw [bind_apply] at a5
  simp only [link, bind_apply, a1, a2, a3, a4, Option.bind_some, pure_apply]
  cases hsz : g.size (s5 ++ rest) with
  | none => rw [hsz] at a5; simp at a5
  | some x =>
    rw [hsz] at a5
    simp only [Option.bind_some] at a5 ⊢
    rw [show (rep x.1 (do
        let x ← g.size
        let y ← g.size
        pure (x, y)) x.2) = some (l.nodes, rest) from a5]
    simp only [Option.bind_some, h2]

theorem reads_links (l : List (Link R)) :
    Reads D (linksBody g) l (f.list f.link l ⊙ f.closing "Periodic".toList) := by
  intro s hs
  rw [Fmt.list, seq_assoc S] at hs
  exact ((S.size _).bind ((Reads.rep' l fun x _ => reads_link S x).bind (Reads.map (fun _ => l) (S.closing _)))) s hs

theorem reads_ghost (e : GhostElem) : Reads D (ghostElem g) e (f.ghost e) :=
  (S.size _).bind ((S.int _).bind ((S.size _).bind (Reads.map (fun l => (⟨e.tag, e.partition, l⟩ : GhostElem))
    (Reads.rep' e.ghosts fun x _ => S.int x))))

theorem reads_ghosts (l : List GhostElem) :
    Reads D (ghostsBody g) l (f.list f.ghost l ⊙ f.closing "GhostElements".toList) := by
  intro s hs
  rw [Fmt.list, seq_assoc S] at hs
  exact ((S.size _).bind ((Reads.rep' l fun x _ => reads_ghost S x).bind (Reads.map (fun _ => l) (S.closing _)))) s hs

/-- An optional section before something which is neither a comment nor this section. -/
theorem optional_spec {α : Type} {dflt a : α} {k : Txt} (hk : k ∈ sectionNames) {body : Parser α} {r : Rel}
    (hb : Reads D body a (r ⊙ f.closing k)) (s : Txt) (hs : Rel.opt dflt a (f.sect k r ⊙ c.star) s) (rest : Txt)
    (hr : D rest) (hn : g.comment rest = none) (ho : g.opening k rest = none) :
    optional g.comment dflt (g.opening k) body (s ++ rest) = some (a, rest) ∧ D (s ++ rest) ∧ g.comment (s ++ rest) = none ∧
      ∀ k' ∈ sectionNames, k' ≠ k → g.opening k' rest = none → g.opening k' (s ++ rest) = none := by
  rcases hs with ⟨rfl, rfl⟩ | ⟨_, w, rfl, ⟨u, v, rfl, hu, hv⟩, hw⟩
  · refine ⟨?_, hr, hn, fun _ _ _ h => h⟩
    simp only [optional, List.nil_append, ho]
  · obtain ⟨h1, h2⟩ := comments_spec S.com S.com_pos w hw rest hr hn
    obtain ⟨h3, h4⟩ := hb v hv _ h2
    obtain ⟨h5, h6⟩ := S.opening k u hu _ h4
    simp only [List.append_assoc]
    refine ⟨?_, h6, S.com_open k hk u hu _, fun k' hk' hne _ => S.open_open k hk k' hk' (Ne.symm hne) u hu _⟩
    simp only [optional, h5, bind_apply, h3, Option.bind_some, h1, pure_apply]

/-- The whole file. -/
theorem entry_spec (F : MshFile R) (s : Txt) (hs : fileRel f c F s) (rest : Txt) (hr : D rest)
    (hn : g.comment rest = none) (hp : g.opening "Periodic".toList rest = none)
    (hg : g.opening "GhostElements".toList rest = none) : entry g (s ++ rest) = some (F, rest) := by
  obtain ⟨s1, _, rfl, k1, s2, _, rfl, k2, s3, _, rfl, k3, s4, _, rfl, k4, s5, _, rfl, k5, s6, _, rfl, k6, s7, _, rfl, k7, s8,
    _, rfl, k8, s9, _, rfl, k9, s10, s11, rfl, k10, k11⟩ := hs
  have mem : ∀ k ∈ ["Entities".toList, "PartitionedEntities".toList, "Nodes".toList, "Elements".toList,
    "Periodic".toList, "GhostElements".toList], k ∈ sectionNames := by decide
  have nP := mem "Periodic".toList (by decide)
  have nG := mem "GhostElements".toList (by decide)
  have nE := mem "Elements".toList (by decide)
  have nN := mem "Nodes".toList (by decide)
  have nT := mem "Entities".toList (by decide)
  have nA := mem "PartitionedEntities".toList (by decide)
  obtain ⟨a11, b11, c11, d11⟩ := optional_spec S nG (reads_ghosts S _) s11 k11 rest hr hn hg
  obtain ⟨a10, b10, c10, -⟩ := optional_spec S nP (reads_links S _) s10 k10 _ b11 c11 (d11 _ nP (by decide) hp)
  obtain ⟨a9, b9⟩ := comments_spec S.com S.com_pos s9 k9 _ b10 c10
  obtain ⟨a8, b8⟩ := reads_elems S _ s8 k8 _ b9
  have c8 : g.comment (s8 ++ (s9 ++ (s10 ++ (s11 ++ rest)))) = none := by
    obtain ⟨u, v, rfl, hu, -⟩ := k8
    rw [List.append_assoc]
    exact S.com_open _ nE u hu _
  obtain ⟨a7, b7⟩ := comments_spec S.com S.com_pos s7 k7 _ b8 c8
  obtain ⟨a6, b6⟩ := reads_nodes S _ s6 k6 _ b7
  have c6 : g.comment (s6 ++ (s7 ++ (s8 ++ (s9 ++ (s10 ++ (s11 ++ rest)))))) = none := by
    obtain ⟨u, v, rfl, hu, -⟩ := k6
    rw [List.append_assoc]
    exact S.com_open _ nN u hu _
  have d6 : g.opening "PartitionedEntities".toList (s6 ++ (s7 ++ (s8 ++ (s9 ++ (s10 ++ (s11 ++ rest)))))) = none := by
    obtain ⟨u, v, rfl, hu, -⟩ := k6
    rw [List.append_assoc]
    exact S.open_open _ nN _ nA (by decide) u hu _
  obtain ⟨a5, b5, c5, -⟩ := optional_spec S nA (reads_parts S _) s5 k5 _ b6 c6 d6
  obtain ⟨a4, b4⟩ := comments_spec S.com S.com_pos s4 k4 _ b5 c5
  obtain ⟨a3, b3⟩ := reads_entities S _ s3 k3 _ b4
  have c3 : g.comment (s3 ++ (s4 ++ (s5 ++ (s6 ++ (s7 ++ (s8 ++ (s9 ++ (s10 ++ (s11 ++ rest))))))))) = none := by
    obtain ⟨u, v, rfl, hu, -⟩ := k3
    rw [List.append_assoc]
    exact S.com_open _ nT u hu _
  have d3 : lit "$PhysicalNames".toList
      (s3 ++ (s4 ++ (s5 ++ (s6 ++ (s7 ++ (s8 ++ (s9 ++ (s10 ++ (s11 ++ rest))))))))) = none := by
    obtain ⟨u, v, rfl, hu, -⟩ := k3
    rw [List.append_assoc]
    exact S.names_open u hu _
  obtain ⟨a2, b2, c2⟩ : optional g.comment [] (lit "$PhysicalNames".toList) namesBody
        (s2 ++ (s3 ++ (s4 ++ (s5 ++ (s6 ++ (s7 ++ (s8 ++ (s9 ++ (s10 ++ (s11 ++ rest)))))))))) = some (F.names,
        s3 ++ (s4 ++ (s5 ++ (s6 ++ (s7 ++ (s8 ++ (s9 ++ (s10 ++ (s11 ++ rest)))))))))
      ∧ D (s2 ++ (s3 ++ (s4 ++ (s5 ++ (s6 ++ (s7 ++ (s8 ++ (s9 ++ (s10 ++ (s11 ++ rest))))))))))
      ∧ g.comment (s2 ++ (s3 ++ (s4 ++ (s5 ++ (s6 ++ (s7 ++ (s8 ++ (s9 ++ (s10 ++ (s11 ++ rest)))))))))) = none := by
    rcases k2 with ⟨h0, rfl⟩ | ⟨u, w, rfl, hu, hw⟩
    · refine ⟨?_, b3, c3⟩
      simp only [optional, List.nil_append, d3, h0]
    · obtain ⟨h1, h2⟩ := comments_spec S.com S.com_pos w hw _ b3 c3
      obtain ⟨h3, h4⟩ := S.names _ u hu _ h2
      simp only [List.append_assoc] at *
      refine ⟨?_, h4, ?_⟩
      · simp only [optional]
        rcases hl : lit "$PhysicalNames".toList (u ++ (w ++ (s3 ++ (s4 ++ (s5 ++ (s6 ++ (s7 ++ (s8 ++ (s9 ++
          (s10 ++ (s11 ++ rest))))))))))) with _ | ⟨x, r⟩
        · rw [hl] at h3
          simp at h3
        · rw [hl] at h3
          simp only [Option.bind_some] at h3
          simp only [bind_apply, h3, Option.bind_some, h1, pure_apply]
      · obtain ⟨t, v, rfl, ht, -⟩ := hu
        rw [List.append_assoc]
        exact S.com_names t ht _
  obtain ⟨a1, b1⟩ := comments_spec S.com S.com_pos s1 k1 _ b2 c2
  simp only [List.append_assoc]
  simp only [entry, bind_apply, a1, a2, a3, a4, a5, a6, a7, a8, a9, a10, a11, Option.bind_some, pure_apply]

end Grammar

end Msh

end Verif
