import Verif.Lemmas.Dof2

/-!
# The dynamic handler realises the abstract numbering
-/

namespace Verif
open Num

theorem flatMap_range_length (f : ℕ → List ℕ) (n : ℕ) :
    ((List.range n).flatMap f).length = psum (fun i => (f i).length) n := by
  induction n with
  | zero => rfl
  | succ n ih => rw [List.range_succ, List.flatMap_append, List.length_append, ih, psum_succ]; simp

theorem readBlock_flatMap (f : ℕ → List ℕ) (n i : ℕ) (hi : i < n) :
    readBlock ((List.range n).flatMap f) (psum (fun i => (f i).length) i) (f i).length = some (f i) := by
  induction n with
  | zero => omega
  | succ n ih =>
    rw [List.range_succ, List.flatMap_append]
    rcases Nat.lt_or_ge i n with h | h
    · have h1 := ih h
      rw [readBlock_iff] at h1 ⊢
      refine ⟨by rw [List.length_append]; omega, rfl, ?_⟩
      intro j hj
      rw [h1.2.2 j hj, List.getElem?_append_left (by omega)]
    · have : i = n := by omega
      subst this
      rw [readBlock_iff]
      rw [List.length_append, flatMap_range_length]
      refine ⟨by simp, rfl, ?_⟩
      intro j hj
      rw [List.getElem?_append_right (by rw [flatMap_range_length]; omega), flatMap_range_length]
      simp

namespace DynamicFE

structure Inv (cnt : Ent → ℕ) (g : Ent → List ℕ) (k : ℕ) (pre : List Ent) (b n : ℕ) (s : St) : Prop where
  numInt : s.numInt = (List.range n).map fun i => cnt (k, i)
  offs : s.offs = (List.range n).map fun i => psum (fun j => (g (k, j)).length) i
  arr : s.arr = (List.range n).flatMap fun i => g (k, i)
  ents : s.ents = pre ++ entsOf cnt k n
  next : s.next = b + psum (fun i => cnt (k, i)) n

theorem Inv.arr_length {cnt : Ent → ℕ} {g : Ent → List ℕ} {k : ℕ} {pre : List Ent} {b n : ℕ} {s : St}
    (h : Inv cnt g k pre b n s) : s.arr.length = psum (fun j => (g (k, j)).length) n := by
  rw [h.arr, flatMap_range_length]

theorem Inv.step {cnt : Ent → ℕ} {g : Ent → List ℕ} {k : ℕ} {pre : List Ent} {b n : ℕ} {s : St}
    (h : Inv cnt g k pre b n s) (p : List ℕ)
    (hg : g (k, n) = p ++ List.range' s.next (cnt (k, n))) :
    Inv cnt g k pre b (n + 1)
      { numInt := s.numInt ++ [cnt (k, n)]
        offs := s.offs ++ [s.arr.length]
        arr := s.arr ++ (p ++ List.range' s.next (cnt (k, n)))
        ents := s.ents ++ List.replicate (cnt (k, n)) (k, n)
        next := s.next + cnt (k, n) } := by
  refine ⟨?_, ?_, ?_, ?_, ?_⟩
  · simp [h.numInt, List.range_succ]
  · rw [h.arr_length]; simp [h.offs, List.range_succ]
  · rw [← hg]
    simp [h.arr, List.range_succ, List.flatMap_append]
  · simp only [h.ents, entsOf_succ, List.append_assoc]
  · simp only [h.next, psum_succ, Nat.add_assoc]

theorem look_offs {cnt : Ent → ℕ} {g : Ent → List ℕ} {k : ℕ} {pre : List Ent} {b n : ℕ} {s : St}
    (h : Inv cnt g k pre b n s) (i : ℕ) (hi : i ≤ n) :
    (s.sentinel s.arr.length).offs[i]? = some (psum (fun j => (g (k, j)).length) i) := by
  have : (s.sentinel s.arr.length).offs =
      (List.range (n + 1)).map fun i => psum (fun j => (g (k, j)).length) i := by
    simp [St.sentinel, h.offs, h.arr_length, List.range_succ]
  rw [this, List.getElem?_map, List.getElem?_range (by omega)]
  rfl

theorem look_numInt {cnt : Ent → ℕ} {g : Ent → List ℕ} {k : ℕ} {pre : List Ent} {b n : ℕ} {s : St}
    (h : Inv cnt g k pre b n s) (x i : ℕ) (hi : i < n) :
    (s.sentinel x).numInt[i]? = some (cnt (k, i)) := by
  simp only [St.sentinel, h.numInt]
  rw [List.getElem?_map, List.getElem?_range (by omega)]
  rfl

theorem look_arr {cnt : Ent → ℕ} {g : Ent → List ℕ} {k : ℕ} {pre : List Ent} {b n : ℕ} {s : St}
    (h : Inv cnt g k pre b n s) (x i : ℕ) (hi : i < n) :
    readBlock (s.sentinel x).arr (psum (fun j => (g (k, j)).length) i) (g (k, i)).length = some (g (k, i)) := by
  simp only [St.sentinel, h.arr]
  exact readBlock_flatMap (fun i => g (k, i)) n i hi

variable (T : Topo) (cnt : Ent → ℕ)

abbrev NI := Inv cnt (glob T cnt true) 2 [] 0
abbrev EI := Inv cnt (glob T cnt true) 1 (entsOf cnt 2 T.numNodes) (base T cnt 1)
abbrev CI := Inv cnt (glob T cnt true) 0 (entsOf cnt 2 T.numNodes ++ entsOf cnt 1 T.numEdges) (base T cnt 0)

theorem nodes_spec :
    NI T cnt T.numNodes ((List.range T.numNodes).foldl (nodeStep cnt) ⟨[], [], [], [], 0⟩) ∧
    ((List.range T.numNodes).foldl (nodeStep cnt) ⟨[], [], [], [], 0⟩).next =
    ((List.range T.numNodes).foldl (nodeStep cnt) ⟨[], [], [], [], 0⟩).arr.length := by
  apply foldl_range_inv (nodeStep cnt) (fun k s => NI T cnt k s ∧ s.next = s.arr.length)
  · exact ⟨⟨rfl, rfl, rfl, rfl, rfl⟩, rfl⟩
  · rintro k s hk ⟨h, h'⟩
    have := h.step [] (by simp [glob, intr, start, base, h.next])
    simp only [List.nil_append] at this
    unfold nodeStep
    refine ⟨by rw [h']; rw [h'] at this; exact this, ?_⟩
    simp [h']

theorem nodeDofs_spec (s2 : St) (h : NI T cnt T.numNodes s2) (v : ℕ) (hv : v < T.numNodes) :
    nodeDofs (s2.sentinel s2.arr.length) v = some (intr T cnt (2, v)) := by
  unfold nodeDofs
  rw [look_offs h v (by omega), look_numInt h _ v hv]
  simp only [Option.bind_some]
  have := look_arr h s2.arr.length v hv
  simp only [glob, intr_length] at this
  simpa [glob] using this

theorem edges_spec (hT : T.WF) (s2 : St) (h2 : NI T cnt T.numNodes s2) :
    ∃ r1, (List.range T.numEdges).foldlM (edgeStep T cnt (s2.sentinel s2.arr.length))
      (s2.sentinel s2.arr.length).fresh = some r1 ∧ EI T cnt T.numEdges r1 := by
  apply foldlM_range_inv _ (EI T cnt)
  · refine ⟨rfl, rfl, rfl, ?_, ?_⟩
    · simp [St.fresh, St.sentinel, h2.ents, entsOf]
    · simp [St.fresh, St.sentinel, h2.next, base]
  · intro k s hk hs
    obtain ⟨ha, hb⟩ := hT.edge_lt k hk
    have hst := hs.step (intr T cnt (2, (T.edge k).1) ++ intr T cnt (2, (T.edge k).2))
      (by simp only [glob, intr, start, hs.next])
    refine ⟨_, ?_, hst⟩
    unfold edgeStep
    rw [nodeDofs_spec T cnt s2 h2 _ ha, nodeDofs_spec T cnt s2 h2 _ hb]
    rfl

theorem cellEdges_spec (hT : T.WF) (s1 : St) (h1 : EI T cnt T.numEdges s1) (c : ℕ) (hc : c < T.numCells) :
    (List.range (T.cell c).nodes.length).mapM (cellEdge T (s1.sentinel s1.arr.length) c) =
      some (((T.cell c).edges.zip (T.cell c).ori).map (edgePart T cnt true)) := by
  have he := hT.cell_edges_len c hc
  have ho := hT.cell_ori_len c hc
  let g : ℕ → List ℕ := fun j => edgePart T cnt true
    (((T.cell c).edges)[j]?.getD 0, ((T.cell c).ori)[j]?.getD false)
  rw [mapM_some _ g]
  · congr 1
    symm
    apply UniformFE.zip_map_range _ _ _ he ho
    intro j x y hx hy
    simp only [g, hx, hy, Option.getD_some]
  · intro j hj
    simp only [List.mem_range] at hj
    have h3 : (T.cell c).edges[j]? = some ((T.cell c).edges[j]) := List.getElem?_eq_getElem _
    have h4 : (T.cell c).ori[j]? = some ((T.cell c).ori[j]) := List.getElem?_eq_getElem _
    have hm := hT.cell_edges c hc _ (List.getElem_mem (by omega : j < (T.cell c).edges.length))
    unfold cellEdge
    simp only [g, h3, h4, Option.bind_some, Option.getD_some]
    rw [look_numInt h1 _ _ hm, look_offs h1 _ (by omega)]
    simp only [Option.bind_some]
    have hr := look_arr h1 s1.arr.length _ hm
    have hl : (glob T cnt true (1, (T.cell c).edges[j])).length =
        (intr T cnt (2, (T.edge ((T.cell c).edges[j])).1) ++
          intr T cnt (2, (T.edge ((T.cell c).edges[j])).2)).length + cnt (1, (T.cell c).edges[j]) := by
      simp only [glob, List.length_append, intr_length]
    have := readBlock_sub _ _ _ _ (intr T cnt (2, (T.edge ((T.cell c).edges[j])).1) ++
          intr T cnt (2, (T.edge ((T.cell c).edges[j])).2)).length (cnt (1, (T.cell c).edges[j])) hr (by omega)
    rw [psum_succ, hl, ← Nat.add_assoc, Nat.add_sub_cancel, this]
    simp only [Option.bind_some, glob]
    rw [List.drop_left' rfl, List.take_of_length_le (by simp)]
    simp [edgePart]

theorem cells_spec (hT : T.WF) (s2 s1 : St) (h2 : NI T cnt T.numNodes s2) (h1 : EI T cnt T.numEdges s1) :
    ∃ r0, (List.range T.numCells).foldlM (cellStep T cnt (s2.sentinel s2.arr.length)
      (s1.sentinel s1.arr.length)) (s1.sentinel s1.arr.length).fresh = some r0 ∧ CI T cnt T.numCells r0 := by
  apply foldlM_range_inv _ (CI T cnt)
  · refine ⟨rfl, rfl, rfl, ?_, ?_⟩
    · simp [St.fresh, St.sentinel, h1.ents, entsOf]
    · simp [St.fresh, St.sentinel, h1.next, base]
  · intro k s hk hs
    obtain ⟨r, hr, hdim, hsub, _⟩ := refEl_cell hT hk
    have hst := hs.step (((T.cell k).nodes.map (fun v => intr T cnt (2, v))).flatten ++
        (((T.cell k).edges.zip (T.cell k).ori).map (edgePart T cnt true)).flatten)
      (by simp only [glob, List.flatMap_def, hs.next]; rfl)
    refine ⟨_, ?_, hst⟩
    unfold cellStep
    rw [mapM_some _ (fun v => intr T cnt (2, v))
        (T.cell k).nodes (fun v hv => nodeDofs_spec T cnt s2 h2 v (hT.cell_nodes k hk v hv)), hr]
    simp only [Option.bind_some, hsub]
    rw [cellEdges_spec T cnt hT s1 h1 k hk]
    rfl

end DynamicFE

open DynamicFE in
theorem dynamic_is (T : Topo) (hT : T.WF) (cnt : Ent → ℕ) :
    ∃ h, dynamicDofHandler T cnt = some h ∧ Num.Is T cnt true h := by
  obtain ⟨h2, hn⟩ := nodes_spec T cnt
  generalize hs2 : (List.range T.numNodes).foldl (nodeStep cnt) ⟨[], [], [], [], 0⟩ = s2 at h2 hn
  obtain ⟨s1, e1, h1⟩ := edges_spec T cnt hT s2 h2
  obtain ⟨s0, e0, h0⟩ := cells_spec T cnt hT s2 s1 h2 h1
  refine ⟨handler T (s2.sentinel s2.arr.length, s1.sentinel s1.arr.length, s0.sentinel s0.arr.length), ?_, ?_⟩
  · unfold dynamicDofHandler init
    simp only [hs2]
    rw [hn, e1]
    simp only [Option.bind_some]
    rw [e0]
    rfl
  generalize hD : (s2.sentinel s2.arr.length, s1.sentinel s1.arr.length, s0.sentinel s0.arr.length) = D
  have key : ∀ e, T.refEl e ≠ none → ∃ a, look T D e = some (e.1, a, (glob T cnt true e).length, cnt e) ∧
      readBlock (sel D e.1).arr a (glob T cnt true e).length = some (glob T cnt true e) := by
    rintro ⟨k, i⟩ he
    have sub : ∀ a b : ℕ, a + b - a = b := fun a b => by omega
    rcases refEl_ne_none he with ⟨rfl, hi⟩ | ⟨rfl, hi⟩ | ⟨rfl, hi⟩
    · refine ⟨psum (fun j => (glob T cnt true (2, j)).length) i, ?_, ?_⟩
      rotate_left
      · rw [← hD]; exact look_arr h2 _ i hi
      · unfold look
        simp only [refEl_node T hi, Option.bind_some, RefEl.dimension, show 2 - 0 = 2 from rfl]
        simp only [← hD, sel]
        rw [look_offs h2 i (by exact Nat.le_of_lt hi), look_offs h2 (i + 1) hi, look_numInt h2 _ i hi]
        simp only [Option.bind_some, psum_succ, sub]
    · refine ⟨psum (fun j => (glob T cnt true (1, j)).length) i, ?_, ?_⟩
      rotate_left
      · rw [← hD]; exact look_arr h1 _ i hi
      · unfold look
        simp only [refEl_edge T hi, Option.bind_some, RefEl.dimension, show 2 - 1 = 1 from rfl]
        simp only [← hD, sel]
        rw [look_offs h1 i (by exact Nat.le_of_lt hi), look_offs h1 (i + 1) hi, look_numInt h1 _ i hi]
        simp only [Option.bind_some, psum_succ, sub]
    · refine ⟨psum (fun j => (glob T cnt true (0, j)).length) i, ?_, ?_⟩
      rotate_left
      · rw [← hD]; exact look_arr h0 _ i hi
      · unfold look
        obtain ⟨r, hr, hdim, _⟩ := refEl_cell hT hi
        simp only [hr, Option.bind_some, hdim, show 2 - 2 = 0 from rfl]
        simp only [← hD, sel]
        rw [look_offs h0 i (by exact Nat.le_of_lt hi), look_offs h0 (i + 1) hi, look_numInt h0 _ i hi]
        simp only [Option.bind_some, psum_succ, sub]
  have hsuffix : ∀ e, T.refEl e ≠ none → ∃ p, glob T cnt true e = p ++ intr T cnt e := by
    rintro ⟨k, i⟩ he
    rcases refEl_ne_none he with ⟨rfl, hi⟩ | ⟨rfl, hi⟩ | ⟨rfl, hi⟩
    · exact ⟨[], rfl⟩
    · exact ⟨_, rfl⟩
    · exact ⟨_, rfl⟩
  constructor
  · rw [← hD]; exact h0.next
  · intro e he
    obtain ⟨a, h3, _⟩ := key e he
    simp only [handler, h3, Option.map_some]
  · intro e he
    obtain ⟨a, h3, _⟩ := key e he
    simp only [handler, h3, Option.map_some]
  · intro e he
    obtain ⟨a, h3, h4⟩ := key e he
    simp only [handler, h3, Option.bind_some, h4]
  · intro e he
    obtain ⟨a, h3, h4⟩ := key e he
    obtain ⟨p, hp⟩ := hsuffix e he
    have hc : (intr T cnt e).length = cnt e := intr_length _ _ _
    have hle : (glob T cnt true e).length = p.length + cnt e := by rw [hp, List.length_append, hc]
    simp only [handler, h3, Option.bind_some]
    rw [readBlock_sub _ _ _ _ _ _ h4 (by omega)]
    congr 1
    rw [hp, List.drop_left' (by rw [← hp]; omega), List.take_of_length_le (by omega)]
  · intro d
    rw [← hD]
    simp only [handler, St.sentinel, h0.ents]
    rfl

end Verif
