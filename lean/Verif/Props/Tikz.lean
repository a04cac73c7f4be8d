import Verif.Model.Tikz
import Verif.Props.Writers
import Mathlib.Data.Nat.Bitwise

/-!
# C103: `writeTikZ` draws the selected entities
-/

namespace Verif
open Tikz

namespace Tikz
variable {K : Type}

/-- The nodes of a picture: positions and numbers. -/
def Cmd.asNode : Cmd K → Option ((K × K) × Option ℕ)
  | .node p n => some (p, n)
  | _ => none

/-- The lines of a picture. -/
def Cmd.asLine : Cmd K → Option (Bool × (K × K) × (K × K) × Option ℕ)
  | .line a p q n => some (a, p, q, n)
  | _ => none

/-- The polygons of a picture. -/
def Cmd.asPolygon : Cmd K → Option (List (K × K) × Bool)
  | .polygon ps n => some (ps, n)
  | _ => none

/-- The numbers of a picture which do not belong to nodes, lines and corners. -/
def Cmd.asText : Cmd K → Option ((K × K) × ℕ)
  | .text p n => some (p, n)
  | _ => none

/-- The point which divides the segment from `p` to `q` in the ratio `t : 1 - t`. -/
def between [Field K] (t : K) (p q : K × K) : K × K := ((1 - t) * p.1 + t * q.1, (1 - t) * p.2 + t * q.2)

theorem flatMap_sel {α β : Type} (sel : α → Bool) (f : α → List β) (l : List α) :
    (l.flatMap fun c => if sel c then f c else []) = (l.filter sel).flatMap f := by
  induction l with
  | nil => rfl
  | cons a l ih =>
    rw [List.flatMap_cons, ih, List.filter_cons]
    by_cases h : sel a = true
    · rw [if_pos h, if_pos h, List.flatMap_cons]
    · rw [if_neg h, if_neg h, List.nil_append]

theorem filterMap_flatMap_nil {α β γ : Type} (g : β → Option γ) (f : α → List β) (l : List α) (h : ∀ a ∈ l, (f a).filterMap g = []) :
    (l.flatMap f).filterMap g = [] := by
  induction l with
  | nil => rfl
  | cons a l ih =>
    rw [List.flatMap_cons, List.filterMap_append, h a (List.mem_cons_self ..), ih fun x hx => h x (List.mem_cons_of_mem _ hx)]
    rfl

theorem filterMap_flatMap_map {α β γ : Type} (g : β → Option γ) (f : α → List β) (k : α → γ) (l : List α) (h : ∀ a ∈ l, (f a).filterMap g = [k a]) :
    (l.flatMap f).filterMap g = l.map k := by
  induction l with
  | nil => rfl
  | cons a l ih =>
    rw [List.flatMap_cons, List.filterMap_append, h a (List.mem_cons_self ..), ih fun x hx => h x (List.mem_cons_of_mem _ hx)]
    rfl

variable [Field K]

theorem drawNode_eq (ctrl : ℕ) (pos : ℕ → K × K) (v : ℕ) :
    drawNode ctrl pos v = [.node (pos v) (if on ctrl .nodeNumbering then some v else none)] := by
  unfold drawNode
  split_ifs <;> rfl

theorem drawEdge_eq [CharZero K] (ctrl : ℕ) (T : Topo) (pos : ℕ → K × K) (e : ℕ) :
    drawEdge ctrl T pos e = [.line (on ctrl .arrowTips)
      (between (if on ctrl .arrowTips then if on ctrl .nodeNumbering then 1 / 10 else 1 / 40 else 0) (pos (T.edge e).1) (pos (T.edge e).2))
      (between (if on ctrl .arrowTips then if on ctrl .nodeNumbering then 1 / 10 else 1 / 40 else 0) (pos (T.edge e).2) (pos (T.edge e).1))
      (if on ctrl .edgeNumbering then some e else none)] := by
  unfold drawEdge
  generalize pos (T.edge e).1 = p
  generalize pos (T.edge e).2 = q
  obtain ⟨p1, p2⟩ := p
  obtain ⟨q1, q2⟩ := q
  have b0 : ∀ r s : K × K, between 0 r s = r := by intro r s; simp [between]
  cases on ctrl .arrowTips <;> cases on ctrl .nodeNumbering <;> cases on ctrl .edgeNumbering <;>
    simp [b0, scaled, center, between] <;> (refine ⟨⟨?_, ?_⟩, ?_, ?_⟩ <;> ring)

theorem drawCell_eq [CharZero K] (ctrl : ℕ) (T : Topo) (pos : ℕ → K × K) (c : ℕ) (h : (T.cell c).nodes.length = 3 ∨ (T.cell c).nodes.length = 4) :
    drawCell ctrl T pos c = if on ctrl .renderCells then
      [.polygon ((T.cell c).nodes.map fun v => between (3 / 10) (pos v) (center ((T.cell c).nodes.map pos))) (on ctrl .verticeNumbering)] ++
        (if on ctrl .cellNumbering then [.text (center ((T.cell c).nodes.map pos)) c] else []) else [] := by
  unfold drawCell
  have : ∀ m p : K × K, scaled (70 / 100) (30 / 100) m p = between (3 / 10) p m := by
    intro m p
    unfold scaled between
    refine Prod.ext ?_ ?_ <;> simp only <;> ring
  simp only [List.length_map, List.map_map]
  rw [if_pos h]
  have hm : (List.map (scaled (70 / 100) (30 / 100) (center (List.map pos (T.cell c).nodes)) ∘ pos) (T.cell c).nodes) =
      (T.cell c).nodes.map fun v => between (3 / 10) (pos v) (center ((T.cell c).nodes.map pos)) := by
    apply List.map_congr_left
    intro v _
    exact this _ _
  rw [hm]
  cases on ctrl .verticeNumbering <;> rfl

end Tikz

variable {K : Type} [Field K] [CharZero K]

/-- **C103**, nodes and edges: the picture contains exactly the selected nodes, at their positions, with their numbers if `NodeNumbering` is set; and exactly the selected
edges, with their numbers if `EdgeNumbering` is set: from the first to the second end point or, as arrows, shortened by the same part at both ends. -/
theorem C103_nodes_edges (T : Topo) (hT : T.WF) (pos : ℕ → K × K) (sel : ℕ × ℕ → Bool) (ctrl : ℕ) :
    (picture T pos sel ctrl).filterMap Cmd.asNode =
      ((List.range T.numNodes).filter fun v => sel (2, v)).map (fun v => (pos v, if on ctrl .nodeNumbering then some v else none)) ∧
    (picture T pos sel ctrl).filterMap Cmd.asLine =
      ((List.range T.numEdges).filter fun e => sel (1, e)).map (fun e =>
        let t : K := if on ctrl .arrowTips then if on ctrl .nodeNumbering then 1 / 10 else 1 / 40 else 0
        (on ctrl .arrowTips, between t (pos (T.edge e).1) (pos (T.edge e).2), between t (pos (T.edge e).2) (pos (T.edge e).1),
          if on ctrl .edgeNumbering then some e else none)) := by
  have hcell : ∀ {γ : Type} (g : Cmd K → Option γ), (∀ ps n, g (.polygon ps n) = none) → (∀ p n, g (.text p n) = none) →
      (((List.range T.numCells).filter fun c => sel (0, c)).flatMap (drawCell ctrl T pos)).filterMap g = [] := by
    intro γ g h1 h2
    apply filterMap_flatMap_nil
    intro c hc
    rw [drawCell_eq ctrl T pos c (hT.cell_len c (List.mem_range.mp (List.mem_filter.mp hc).1))]
    split_ifs <;> simp [h1, h2]
  unfold picture
  rw [flatMap_sel (fun c => sel (0, c)), flatMap_sel (fun c => sel (1, c)), flatMap_sel (fun c => sel (2, c))]
  simp only [List.filterMap_append]
  rw [hcell _ (fun _ _ => rfl) (fun _ _ => rfl), hcell _ (fun _ _ => rfl) (fun _ _ => rfl)]
  constructor
  · rw [filterMap_flatMap_nil _ _ _ (fun e _ => by rw [drawEdge_eq]; rfl),
      filterMap_flatMap_map _ _ (fun v => (pos v, if on ctrl .nodeNumbering then some v else none)) _ (fun v _ => by rw [drawNode_eq]; rfl)]
    cases on ctrl .withPreamble <;> simp [Cmd.asNode, List.filterMap_cons]
  · rw [filterMap_flatMap_nil (Cmd.asLine) (drawNode ctrl pos) _ (fun e _ => by rw [drawNode_eq]; rfl),
      filterMap_flatMap_map _ _ _ _ (fun v _ => by rw [drawEdge_eq]; rfl)]
    cases on ctrl .withPreamble <;> simp [Cmd.asLine, List.filterMap_cons]

/-- **C103**, cells: with `RenderCells`, the picture contains exactly the selected cells, shrunk towards the mean of their corners, with local numbers of the corners if
`VerticeNumbering` is set, and at the mean of the corners the numbers of exactly the selected cells if `CellNumbering` is set.  Without `RenderCells` it contains none of
this. -/
theorem C103_cells (T : Topo) (hT : T.WF) (pos : ℕ → K × K) (sel : ℕ × ℕ → Bool) (ctrl : ℕ) :
    (picture T pos sel ctrl).filterMap Cmd.asPolygon = (if on ctrl .renderCells then ((List.range T.numCells).filter fun c => sel (0, c)).map fun c =>
      ((T.cell c).nodes.map fun v => between (3 / 10) (pos v) (center ((T.cell c).nodes.map pos)), on ctrl .verticeNumbering) else []) ∧
    (picture T pos sel ctrl).filterMap Cmd.asText = (if on ctrl .renderCells && on ctrl .cellNumbering then
      ((List.range T.numCells).filter fun c => sel (0, c)).map fun c => (center ((T.cell c).nodes.map pos), c) else []) := by
  unfold picture
  rw [flatMap_sel (fun c => sel (0, c)), flatMap_sel (fun c => sel (1, c)), flatMap_sel (fun c => sel (2, c))]
  simp only [List.filterMap_append]
  have hlen : ∀ c ∈ (List.range T.numCells).filter fun c => sel (0, c), (T.cell c).nodes.length = 3 ∨ (T.cell c).nodes.length = 4 :=
    fun c hc => hT.cell_len c (List.mem_range.mp (List.mem_filter.mp hc).1)
  constructor
  · rw [filterMap_flatMap_nil (Cmd.asPolygon) (drawNode ctrl pos) _ (fun e _ => by rw [drawNode_eq]; rfl),
      filterMap_flatMap_nil (Cmd.asPolygon) (drawEdge ctrl T pos) _ (fun e _ => by rw [drawEdge_eq]; rfl)]
    by_cases hr : on ctrl .renderCells = true
    · rw [if_pos hr, filterMap_flatMap_map (Cmd.asPolygon) (drawCell ctrl T pos) (fun c =>
        ((T.cell c).nodes.map fun v => between (3 / 10) (pos v) (center ((T.cell c).nodes.map pos)), on ctrl .verticeNumbering)) _
        (fun c hc => by rw [drawCell_eq ctrl T pos c (hlen c hc), if_pos hr]; cases on ctrl .cellNumbering <;> rfl)]
      cases on ctrl .withPreamble <;> simp [Cmd.asPolygon, List.filterMap_cons]
    · rw [if_neg hr, filterMap_flatMap_nil _ _ _ (fun c hc => by rw [drawCell_eq ctrl T pos c (hlen c hc), if_neg hr]; rfl)]
      cases on ctrl .withPreamble <;> simp [Cmd.asPolygon, List.filterMap_cons]
  · rw [filterMap_flatMap_nil (Cmd.asText) (drawNode ctrl pos) _ (fun e _ => by rw [drawNode_eq]; rfl),
      filterMap_flatMap_nil (Cmd.asText) (drawEdge ctrl T pos) _ (fun e _ => by rw [drawEdge_eq]; rfl)]
    by_cases hr : (on ctrl .renderCells && on ctrl .cellNumbering) = true
    · have hr' := Bool.and_eq_true_iff.mp hr
      rw [if_pos hr, filterMap_flatMap_map (Cmd.asText) (drawCell ctrl T pos) (fun c => (center ((T.cell c).nodes.map pos), c)) _
        (fun c hc => by rw [drawCell_eq ctrl T pos c (hlen c hc), if_pos hr'.1, if_pos hr'.2]; rfl)]
      cases on ctrl .withPreamble <;> simp [Cmd.asText, List.filterMap_cons]
    · rw [if_neg hr, filterMap_flatMap_nil _ _ _ (fun c hc => by
        rw [drawCell_eq ctrl T pos c (hlen c hc)]
        cases h1 : on ctrl .renderCells
        · rfl
        · cases h2 : on ctrl .cellNumbering
          · rfl
          · exact absurd (by rw [h1, h2]; rfl) hr)]
      cases on ctrl .withPreamble <;> simp [Cmd.asText, List.filterMap_cons]

/-- **C103**, flags: a flag is set in a combination with `|` exactly if it is set in one of the parts; a single flag sets itself only. -/
theorem C103_flags (a b : ℕ) (f g : Flag) : (on (a ||| b) f = (on a f || on b f)) ∧ (on f.value g = true ↔ f = g) := by
  constructor
  · unfold on
    rw [Nat.and_or_distrib_right, Bool.eq_iff_iff]
    simp only [bne_iff_ne, ne_eq, Bool.or_eq_true, Nat.or_eq_zero_iff]
    tauto
  · cases f <;> cases g <;> decide

/-- The documentation says that without the argument `output_ctrl` cells, their numbers and local numbers of their corners are drawn (`output_ctrl = 7`).  The numbers are
missing. -/
theorem C103_fails_default (T : Topo) (hT : T.WF) (pos : ℕ → K × K) :
    on 7 .cellNumbering = true ∧ on defaultCtrl .cellNumbering = false ∧ (pictureAll T pos defaultCtrl).filterMap Cmd.asText = [] ∧
      ∀ p ∈ (pictureAll T pos defaultCtrl).filterMap Cmd.asPolygon, p.2 = false := by
  refine ⟨by decide, by decide, (C103_cells T hT pos _ _).2, ?_⟩
  intro p hp
  unfold pictureAll at hp
  rw [(C103_cells T hT pos _ _).1, if_pos (by decide), List.mem_map] at hp
  obtain ⟨c, -, rfl⟩ := hp
  change on defaultCtrl .verticeNumbering = false
  decide

/-- The square and the triangle of C101: all entities, with all numbers; and the nodes only. -/
example : Writers.exTopo.WF ∧ ((pictureAll Writers.exTopo (fun v => ((v : ℚ), 0)) 31).filterMap Cmd.asText).map Prod.snd = [0, 1] ∧
    ((picture Writers.exTopo (fun v => ((v : ℚ), 0)) (fun e => e.1 = 2) 31).filterMap Cmd.asLine) = [] ∧
    ((picture Writers.exTopo (fun v => ((v : ℚ), 0)) (fun e => e.1 = 2) 31).filterMap Cmd.asNode).length = 5 := by
  refine ⟨Writers.exTopo_wf, ?_, ?_, ?_⟩
  · unfold pictureAll
    rw [(C103_cells _ Writers.exTopo_wf _ _ _).2]
    rfl
  · rw [(C103_nodes_edges _ Writers.exTopo_wf _ _ _).2]
    rfl
  · rw [(C103_nodes_edges _ Writers.exTopo_wf _ _ _).1]
    rfl

end Verif
