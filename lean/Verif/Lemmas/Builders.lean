import Verif.Lemmas.Surface
import Verif.Lemmas.MeshTopo
import Mathlib.Tactic.Ring

namespace Verif
namespace Builder
variable {G : Type}

/-- Pairs of loop variables in the order of a double loop. -/
def pairs (n m : ℕ) : List (ℕ × ℕ) := (List.range n).flatMap fun a => (List.range m).map fun b => (a, b)

theorem pairs_nodup' (n m : ℕ) : (pairs n m).Nodup := pairs_nodup n fun _ => m

theorem mem_pairs {n m : ℕ} {p : ℕ × ℕ} : p ∈ pairs n m ↔ p.1 < n ∧ p.2 < m := by
  obtain ⟨a, b⟩ := p
  simp [pairs]

theorem pairs_eq (n m : ℕ) : pairs n m = (List.range (n * m)).map fun k => (k / m, k % m) := by
  induction n with
  | zero => simp [pairs]
  | succ n ih =>
    have h1 : pairs (n + 1) m = pairs n m ++ (List.range m).map fun b => (n, b) := by
      simp [pairs, List.range_succ]
    rw [h1, ih, Nat.succ_mul, List.range_add, List.map_append, List.map_map]
    congr 1
    apply List.map_congr_left
    intro b hb
    have hb := List.mem_range.1 hb
    have hm : 0 < m := by omega
    simp only [Function.comp, Prod.mk.injEq]
    constructor
    · rw [Nat.mul_comm, Nat.mul_add_div hm, Nat.div_eq_of_lt hb]; rfl
    · rw [Nat.mul_comm, Nat.mul_add_mod, Nat.mod_eq_of_lt hb]

theorem pairs_length (n m : ℕ) : (pairs n m).length = n * m := by rw [pairs_eq]; simp

theorem pairs_get {n m a b : ℕ} (ha : a < n) (hb : b < m) : (pairs n m)[a * m + b]? = some (a, b) := by
  have hm : 0 < m := by omega
  have hlt : a * m + b < n * m := by
    calc a * m + b < a * m + m := by omega
      _ = (a + 1) * m := by ring
      _ ≤ n * m := Nat.mul_le_mul_right m ha
  rw [pairs_eq, List.getElem?_map, List.getElem?_range hlt]
  simp only [Option.map_some, Option.some.injEq, Prod.mk.injEq]
  constructor
  · rw [Nat.mul_comm, Nat.mul_add_div hm, Nat.div_eq_of_lt hb]; rfl
  · rw [Nat.mul_comm, Nat.mul_add_mod, Nat.mod_eq_of_lt hb]

theorem loop2_eq {σ : Type} (n m : ℕ) (body : σ → ℕ → ℕ → Option σ) (s : σ) :
    loop2 n m body s = (pairs n m).foldlM (fun s p => body s p.1 p.2) s := by
  unfold loop2 pairs
  generalize List.range n = l
  induction l generalizing s with
  | nil => rfl
  | cons a l ih =>
    rw [List.foldlM_cons, List.flatMap_cons, List.foldlM_append]
    have h1 : ((List.range m).map fun b => (a, b)).foldlM (fun s p => body s p.1 p.2) s =
        (List.range m).foldlM (fun s b => body s a b) s := by
      rw [List.foldlM_map]
    rw [h1]
    congr 1
    funext s'
    exact ih s'

/-- A loop adding points. -/
theorem points_loop (n m : ℕ) (g : ℕ → ℕ → G) :
    loop2 n m (fun s a b => some (pointStep (g a b) s)) (({} : Factory G), []) =
      some ({ nodes := (pairs n m).map fun p => some (g p.1 p.2), edges := [], elements := [] },
        List.range (n * m)) := by
  rw [loop2_eq, ← pairs_length]
  have gen : ∀ (l : List (ℕ × ℕ)) (pre : List (Option G)),
      l.foldlM (fun s p => some (pointStep (g p.1 p.2) s))
        (({ nodes := pre, edges := [], elements := [] } : Factory G), List.range pre.length) =
      some ({ nodes := pre ++ l.map fun p => some (g p.1 p.2), edges := [], elements := [] },
        List.range (pre.length + l.length)) := by
    intro l
    induction l with
    | nil => intro pre; simp
    | cons a l ih =>
      intro pre
      rw [List.foldlM_cons]
      have h := ih (pre ++ [some (g a.1 a.2)])
      simp only [List.length_append, List.length_cons, List.length_nil, Nat.zero_add, List.append_assoc,
        List.cons_append, List.nil_append] at h
      simp only [List.map_cons, List.length_cons]
      rw [show pre.length + (l.length + 1) = pre.length + 1 + l.length by omega, ← h]
      simp [pointStep, Factory.addPoint, List.range_succ]
  have := gen (pairs n m) []
  simpa using this

/-- A loop adding edges and cells. -/
theorem entity_loop (n m : ℕ) (body : Factory G → ℕ → ℕ → Option (Factory G)) (f : Factory G)
    (ge : ℕ → ℕ → List (EdgeIn G)) (gc : ℕ → ℕ → List (CellIn G))
    (h : ∀ f' : Factory G, f'.nodes = f.nodes → ∀ a < n, ∀ b < m, body f' a b =
      some { nodes := f'.nodes, edges := f'.edges ++ ge a b, elements := f'.elements ++ gc a b }) :
    loop2 n m body f = some ⟨f.nodes, f.edges ++ ((pairs n m).flatMap fun p => ge p.1 p.2),
      f.elements ++ ((pairs n m).flatMap fun p => gc p.1 p.2)⟩ := by
  rw [loop2_eq]
  have gen : ∀ (l : List (ℕ × ℕ)), (∀ p ∈ l, p ∈ pairs n m) → ∀ f' : Factory G, f'.nodes = f.nodes →
      l.foldlM (fun s p => body s p.1 p.2) f' =
      some ⟨f'.nodes, f'.edges ++ (l.flatMap fun p => ge p.1 p.2),
             f'.elements ++ (l.flatMap fun p => gc p.1 p.2)⟩ := by
    intro l
    induction l with
    | nil => intro _ f' _; simp
    | cons a l ih =>
      intro hl f' hf'
      have ha := mem_pairs.1 (hl a (by simp))
      rw [List.foldlM_cons, h f' hf' a.1 ha.1 a.2 ha.2]
      show l.foldlM _ _ = _
      rw [ih (fun p hp => hl p (by simp [hp])) _ (by exact hf')]
      simp [List.append_assoc]
  exact gen _ (fun p hp => hp) f rfl

theorem mapM_range (N : ℕ) (pos : List ℕ) (h : ∀ p ∈ pos, p < N) :
    (pos.mapM fun p => (List.range N)[p]?) = some pos := by
  induction pos with
  | nil => rfl
  | cons a l ih =>
    rw [List.mapM_cons, ih (fun p hp => h p (by simp [hp])), List.getElem?_range (h a (by simp))]
    rfl

theorem entityStep_edge (N : ℕ) (f : Factory G) (a b : ℕ) (g : G) (hN : f.nodes.length = N) (ha : a < N) (hb : b < N) :
    entityStep (List.range N) f .segment [a, b] g =
      some { nodes := f.nodes, edges := f.edges ++ [⟨a, b, some g⟩], elements := f.elements ++ [] } := by
  unfold entityStep
  rw [mapM_range N _ (by simp [ha, hb])]
  simp [Factory.addEntity, RefEl.dimension, hN, ha, hb]

theorem entityStep_tria (N : ℕ) (f : Factory G) (a b c : ℕ) (g : G) (hN : f.nodes.length = N)
    (ha : a < N) (hb : b < N) (hc : c < N) :
    entityStep (List.range N) f .tria [a, b, c] g =
      some { nodes := f.nodes, edges := f.edges ++ [], elements := f.elements ++ [⟨[a, b, c], some g⟩] } := by
  unfold entityStep
  rw [mapM_range N _ (by simp [ha, hb, hc])]
  simp [Factory.addEntity, RefEl.dimension, RefEl.numNodes, hN, ha, hb, hc]

theorem entityStep_quad (N : ℕ) (f : Factory G) (a b c d : ℕ) (g : G) (hN : f.nodes.length = N)
    (ha : a < N) (hb : b < N) (hc : c < N) (hd : d < N) :
    entityStep (List.range N) f .quad [a, b, c, d] g =
      some { nodes := f.nodes, edges := f.edges ++ [], elements := f.elements ++ [⟨[a, b, c, d], some g⟩] } := by
  unfold entityStep
  rw [mapM_range N _ (by simp [ha, hb, hc, hd])]
  simp [Factory.addEntity, RefEl.dimension, RefEl.numNodes, hN, ha, hb, hc, hd]

theorem sides3 (a b c : ℕ) : (List.range [a, b, c].length).map (side [a, b, c]) = [(a, b), (b, c), (c, a)] := by
  simp [side, List.range_succ]

theorem sides4 (a b c d : ℕ) :
    (List.range [a, b, c, d].length).map (side [a, b, c, d]) = [(a, b), (b, c), (c, d), (d, a)] := by
  simp [side, List.range_succ]

/-- Directed sides of a built mesh. -/
theorem dsides_built {ops : GeoOps G} {nodes : List (Option G)} {edges : List (EdgeIn G)}
    {cells : List (CellIn G)} {M : Mesh G} (hB : Built ops nodes edges cells M) :
    M.topo.dsides = cells.flatMap fun c => (List.range c.nodes.length).map (side c.nodes) := by
  unfold Topo.dsides
  rw [hB.numCells']
  have : ∀ (L : List (CellIn G)) (F : ℕ → List (ℕ × ℕ)),
      (∀ i (h : i < L.length), F i = (List.range L[i].nodes.length).map (side L[i].nodes)) →
      (List.range L.length).flatMap F = L.flatMap fun c => (List.range c.nodes.length).map (side c.nodes) := by
    intro L
    induction L with
    | nil => intro F _; rfl
    | cons a l ih =>
      intro F hF
      rw [List.length_cons, List.range_succ_eq_map, List.flatMap_cons, List.flatMap_cons, List.flatMap_map,
        hF 0 (by simp)]
      congr 1
      exact ih (fun i => F (i + 1)) (fun i h => hF (i + 1) (by simpa using h))
  apply this
  intro i h
  rw [(hB.cell_eq i h).1]

/-- Every edge of a built mesh is a supplied one or a side. -/
theorem edge_cases {ops : GeoOps G} {nodes : List (Option G)} {edges : List (EdgeIn G)}
    {cells : List (CellIn G)} {M : Mesh G} (hB : Built ops nodes edges cells M) (e : ℕ)
    (he : e < M.topo.numEdges) :
    (∃ i ∈ edges, M.topo.edge e = (i.p0, i.p1)) ∨ ∃ x ∈ M.topo.dsides, SamePair (M.topo.edge e) x := by
  obtain ⟨p, hp, _, hpe, hpp⟩ := hB.segAt e he
  by_cases hlt : e < edges.length
  · left
    subst hpe
    have h1 := hB.seg_supplied _ (List.getElem_mem hp) hlt
    exact ⟨_, List.getElem_mem hlt, hpp.trans h1.1⟩
  · right
    obtain ⟨⟨c, hc, j, hj, hsp⟩, _⟩ := hB.seg_new _ (List.getElem_mem hp) (by omega)
    refine ⟨side c.nodes j, ?_, by rw [hpp]; exact hsp⟩
    rw [dsides_built hB]
    exact List.mem_flatMap.2 ⟨c, hc, List.mem_map.2 ⟨j, List.mem_range.2 hj, rfl⟩⟩

/-- Every side is an edge. -/
theorem edge_of_side (T : Topo) (hT : T.WF) (x : ℕ × ℕ) (hx : x ∈ T.dsides) :
    ∃ e < T.numEdges, SamePair (T.edge e) x := by
  obtain ⟨c, hc, j, hj, rfl⟩ := (mem_dsides T x).1 hx
  have hje : j < (T.cell c).edges.length := by rw [hT.cell_edges_len c hc]; exact hj
  have hs := hT.cell_side c hc j hj
  have hget : (T.cell c).edges.getD j 0 = (T.cell c).edges[j] := by simp [hje]
  rw [hget] at hs
  exact ⟨_, hT.cell_edges c hc _ (List.getElem_mem hje), hs⟩

theorem vinj {n i j i' j' : ℕ} (hi : i < n) (hi' : i' < n) (h : i + j * n = i' + j' * n) : i = i' ∧ j = j' := by
  have hn : 0 < n := by omega
  have h1 := congrArg (· % n) h
  have h2 := congrArg (· / n) h
  simp only [Nat.add_mul_mod_self_right, Nat.mod_eq_of_lt hi, Nat.mod_eq_of_lt hi'] at h1
  simp only [Nat.add_mul_div_right _ _ hn, Nat.div_eq_of_lt hi, Nat.div_eq_of_lt hi', Nat.zero_add] at h2
  exact ⟨h1, h2⟩

theorem vlt {n m i j : ℕ} (hi : i < n) (hj : j < m) : i + j * n < m * n := by
  calc i + j * n < n + j * n := by omega
    _ = (j + 1) * n := by ring
    _ ≤ m * n := Nat.mul_le_mul_right n hj

/-- Nodup of a list of lists indexed by loop variables. -/
theorem nodup_pairs_flatMap {β : Type} (n m : ℕ) (F : ℕ × ℕ → List β)
    (h1 : ∀ p ∈ pairs n m, (F p).Nodup)
    (h2 : ∀ p ∈ pairs n m, ∀ q ∈ pairs n m, ∀ x, x ∈ F p → x ∈ F q → p = q) :
    ((pairs n m).flatMap F).Nodup := by
  rw [List.nodup_flatMap]
  refine ⟨h1, ?_⟩
  refine List.Pairwise.imp_of_mem ?_ (pairs_nodup' n m)
  intro p q hp hq hne x hx hx'
  exact hne (h2 p hp q hq x hx hx')

end Builder
end Verif
