import Verif.Spec.Refinement

/-! A test for `Mesh.Coarse`, used for concrete meshes. -/

namespace Verif
variable {G : Type}

def coarseB (kind : G → RefEl) (M : Mesh G) : Bool :=
  let T := M.topo
  (List.range T.numCells).all (fun c => decide (T.cell c).nodes.Nodup) &&
  (List.range T.numEdges).all (fun e => decide (T.incidence e ≤ 2)) &&
  (List.range T.numNodes).all (fun v => decide ((M.points[v]?).map kind = some .point)) &&
  (List.range T.numEdges).all (fun e => decide ((M.edgeGeo e).map kind = some .segment)) &&
  (List.range T.numCells).all (fun c => decide ((M.cellGeo c).map kind = M.cellRef c) && (M.cellGeo c).isSome) &&
  (List.range T.numEdges).all (fun e => (List.range T.numCells).any fun c => decide (e ∈ (T.cell c).edges)) &&
  (List.range T.numNodes).all (fun e => (List.range T.numCells).any fun c => decide (e ∈ (T.cell c).nodes)) &&
  ((List.range T.numCells).all fun c => (List.range T.numCells).all fun d => decide (c = d) ||
    ((T.cell c).nodes.all fun a => (T.cell c).nodes.all fun b => decide (a = b) ||
      !decide (a ∈ (T.cell d).nodes) || !decide (b ∈ (T.cell d).nodes) ||
      (((T.cell c).edges.any fun e => decide (e ∈ (T.cell d).edges) &&
          decide (T.edge e = (a, b) ∨ T.edge e = (b, a))) &&
        (T.cell c).nodes.all fun w => !decide (w ∈ (T.cell d).nodes) || decide (w = a ∨ w = b))))

theorem coarseB_spec {cops : ChildOps G} {M : Mesh G} (hv : M.Valid) (h : coarseB cops.kind M = true) (chk : Bool) :
    M.Coarse cops chk := by
  unfold coarseB at h
  simp only [Bool.and_eq_true, decide_eq_true_eq, List.all_eq_true, List.mem_range, List.any_eq_true,
    Bool.or_eq_true, Bool.not_eq_true', decide_eq_false_iff_not] at h
  obtain ⟨⟨⟨⟨⟨⟨⟨hnd, hinc⟩, hgp⟩, hge⟩, hgc⟩, hce⟩, hcn⟩, hs⟩ := h
  refine ⟨hv, ⟨hv.wf, ?_, ?_, ?_⟩, ⟨?_, ?_, ?_⟩, fun _ => ⟨?_, ?_⟩⟩
  · intro c hc; exact hnd c hc
  · intro c hc d hd hcd a b hab hac hbc had hbd
    rcases hs c hc d hd with h | h
    · exact absurd h hcd
    rcases h a hac b hbc with ((h | h) | h) | ⟨⟨e, he, hed, hse⟩, hw⟩
    · exact absurd h hab
    · exact absurd had h
    · exact absurd hbd h
    · refine ⟨⟨e, he, hed, ?_⟩, fun w hwc hwd => ?_⟩
      · rcases hse with h | h
        · rw [h]; exact Or.inl rfl
        · rw [h]; exact Or.inr rfl
      · rcases hw w hwc with h | h
        · exact absurd hwd h
        · exact h
  · intro e he; exact hinc e he
  · intro v hv; exact Option.map_eq_some_iff.1 (hgp v hv)
  · intro v hv; exact Option.map_eq_some_iff.1 (hge v hv)
  · intro c hc
    obtain ⟨h1, h2⟩ := hgc c hc
    obtain ⟨g, hg⟩ := Option.isSome_iff_exists.1 h2
    exact ⟨g, hg, by rw [← h1, hg]; rfl⟩
  · intro e he; exact hce e he
  · intro e he; exact hcn e he

end Verif
