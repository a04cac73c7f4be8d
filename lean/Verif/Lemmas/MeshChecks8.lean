import Verif.Lemmas.MeshChecks7
import Verif.Props.Builders

/-!
# The test mesh which is built by `TPTriagMeshBuilder`
-/

namespace Verif
namespace MC
open Geo TestMesh Builder

/-- The input of the constructor of the mesh. -/
theorem tp_input {G : Type} {K : Type} [Field K] [LinearOrder K] (ops : GeoOps G) (chk : Bool)
    (geo : BuilderGeo (K × K) G) (p : Params K) (hx : 1 ≤ p.nx) (hy : 1 ≤ p.ny) (hbx : ¬ p.tr.1 - p.bl.1 ≤ 0)
    (hby : ¬ p.tr.2 - p.bl.2 ≤ 0) :
    ∃ (nodes : List (Option G)) (edges : List (EdgeIn G)) (cells : List (CellIn G)),
      tpTriag ops chk geo p {} = (buildMesh ops nodes edges cells chk).map some ∧ (∀ x ∈ nodes, x.isSome = true) ∧
      ∀ c ∈ cells, ∃ a b, c.geo = some (geo.tria (p.pos a b) (p.pos (a + 1) (b + 1)) (p.pos a (b + 1))) ∨
        c.geo = some (geo.tria (p.pos a b) (p.pos (a + 1) b) (p.pos (a + 1) (b + 1))) := by
  obtain ⟨bl, tr, nx, ny⟩ := p
  simp only at hx hy hbx hby ⊢
  set p : Params K := ⟨bl, tr, nx, ny⟩ with hp
  set N := (ny + 1) * (nx + 1) with hN
  let nodes : List (Option G) := (pairs (ny + 1) (nx + 1)).map fun q => some (geo.point (p.pos q.2 q.1))
  have hnl : nodes.length = N := by simp [nodes, pairs_length, hN]
  let cu : ℕ → ℕ → CellIn G := fun a b => ⟨[p.vtx a b, p.vtx (a + 1) (b + 1), p.vtx a (b + 1)],
    some (geo.tria (p.pos a b) (p.pos (a + 1) (b + 1)) (p.pos a (b + 1)))⟩
  let cl : ℕ → ℕ → CellIn G := fun a b => ⟨[p.vtx a b, p.vtx (a + 1) b, p.vtx (a + 1) (b + 1)],
    some (geo.tria (p.pos a b) (p.pos (a + 1) b) (p.pos (a + 1) (b + 1)))⟩
  let cells : List (CellIn G) := (pairs nx ny).flatMap fun q => [cu q.1 q.2, cl q.1 q.2]
  let eh : ℕ × ℕ → EdgeIn G := fun q => ⟨q.1 + q.2 * (nx + 1), (q.1 + 1) + q.2 * (nx + 1),
    some (geo.line (p.pos q.1 q.2) (p.pos (q.1 + 1) q.2))⟩
  let ev : ℕ × ℕ → EdgeIn G := fun q => ⟨q.1 + q.2 * (nx + 1), q.1 + (q.2 + 1) * (nx + 1),
    some (geo.line (p.pos q.1 q.2) (p.pos q.1 (q.2 + 1)))⟩
  let ed : ℕ × ℕ → EdgeIn G := fun q => ⟨q.1 + q.2 * (nx + 1), (q.1 + 1) + (q.2 + 1) * (nx + 1),
    some (geo.line (p.pos q.1 q.2) (p.pos (q.1 + 1) (q.2 + 1)))⟩
  let edges : List (EdgeIn G) := (pairs nx (ny + 1)).flatMap (fun q => [eh (q.1, q.2)]) ++
    (pairs (nx + 1) ny).flatMap (fun q => [ev (q.1, q.2)]) ++ (pairs nx ny).flatMap (fun q => [ed (q.1, q.2)])
  refine ⟨nodes, edges, cells, ?_, ?_, ?_⟩
  · unfold tpTriag
    have hpn : p.nx = nx := rfl
    rw [if_neg (by
      simp only [hp]
      intro h
      rw [Nat.mul_eq_zero, Nat.mul_eq_zero] at h
      omega), if_neg (by simp only [hp]; tauto)]
    unfold addNodes
    rw [points_loop]
    simp only [Option.bind_some]
    rw [entity_loop nx (ny + 1) _ _ (fun a b => [eh (a, b)]) (fun _ _ => []) (by
      intro f' hf' a ha b hb
      have hl : f'.nodes.length = N := by rw [hf']; exact hnl
      exact entityStep_edge N f' _ _ _ hl (vlt (by omega) (by omega)) (vlt (by omega) (by omega)))]
    simp only [Option.bind_some]
    rw [entity_loop (nx + 1) ny _ _ (fun a b => [ev (a, b)]) (fun _ _ => []) (by
      intro f' hf' a ha b hb
      have hl : f'.nodes.length = N := by rw [hf']; exact hnl
      exact entityStep_edge N f' _ _ _ hl (vlt (by omega) (by omega)) (vlt (by omega) (by omega)))]
    simp only [Option.bind_some]
    rw [entity_loop nx ny _ _ (fun a b => [ed (a, b)]) (fun _ _ => []) (by
      intro f' hf' a ha b hb
      have hl : f'.nodes.length = N := by rw [hf']; exact hnl
      exact entityStep_edge N f' _ _ _ hl (vlt (by omega) (by omega)) (vlt (by omega) (by omega)))]
    simp only [Option.bind_some]
    rw [entity_loop nx ny _ _ (fun _ _ => []) (fun a b => [cu a b, cl a b]) (by
      intro f' hf' a ha b hb
      have hl : f'.nodes.length = N := by rw [hf']; exact hnl
      have h1 := entityStep_tria N f' (p.vtx a b) (p.vtx (a + 1) (b + 1)) (p.vtx a (b + 1))
        (geo.tria (p.pos a b) (p.pos (a + 1) (b + 1)) (p.pos a (b + 1))) hl
        (vlt (by omega) (by omega)) (vlt (by omega) (by omega)) (vlt (by omega) (by omega))
      have h2 := entityStep_tria N ⟨f'.nodes, f'.edges ++ [], f'.elements ++ [cu a b]⟩
        (p.vtx a b) (p.vtx (a + 1) b) (p.vtx (a + 1) (b + 1))
        (geo.tria (p.pos a b) (p.pos (a + 1) b) (p.pos (a + 1) (b + 1))) hl
        (vlt (by omega) (by omega)) (vlt (by omega) (by omega)) (vlt (by omega) (by omega))
      refine (congrArg (fun o => Option.bind o _) h1).trans ?_
      refine h2.trans ?_
      simp [cl])]
    simp only [Option.bind_some, Factory.build, List.nil_append]
    have e0 : ∀ l : List (ℕ × ℕ), l.flatMap (fun _ => ([] : List (EdgeIn G))) = [] := by intro l; simp
    have e0' : ∀ l : List (ℕ × ℕ), l.flatMap (fun _ => ([] : List (CellIn G))) = [] := by intro l; simp
    rw [e0, e0', e0', e0', List.append_nil, List.append_nil, List.append_nil, List.nil_append]
    show ((buildMesh ops nodes edges cells chk).bind _).bind _ = _
    cases buildMesh ops nodes edges cells chk <;> rfl
  · intro x hx
    obtain ⟨q, _, rfl⟩ := List.mem_map.1 hx
    rfl
  · intro c hc
    obtain ⟨⟨a, b⟩, hq, hc⟩ := List.mem_flatMap.1 hc
    simp only [List.mem_cons, List.not_mem_nil, or_false] at hc
    rcases hc with rfl | rfl
    · exact ⟨a, b, Or.inl rfl⟩
    · exact ⟨a, b, Or.inr rfl⟩

/-- The triangles of the grid are not degenerate. -/
theorem grid_tria (scale : ℝ) (hs : 0 < scale) (a b : ℕ) :
    let p : Params ℝ := ⟨(0 * scale, 0 * scale), (1 * scale, 1 * scale), 3, 3⟩
    (planeGeo.tria (p.pos a b) (p.pos (a + 1) (b + 1)) (p.pos a (b + 1))).construct.isSome = true ∧
    (planeGeo.tria (p.pos a b) (p.pos (a + 1) b) (p.pos (a + 1) (b + 1))).construct.isSome = true := by
  intro p
  have h1 : WellShapedTria (1 / 10 ^ 8) (![0, 0] : Vec ℝ 2) ![1, 1] ![0, 1] := by
    refine tria_shape ?_; rintro s rfl; norm_num
  have h2 : WellShapedTria (1 / 10 ^ 8) (![0, 0] : Vec ℝ 2) ![1, 0] ![1, 1] := by
    refine tria_shape ?_; rintro s rfl; norm_num
  have hp : 0 < (scale / 3) ^ 2 := by positivity
  have k1 := (wellShaped_similar hp (a' := ![(p.pos a b).1, (p.pos a b).2])
    (b' := ![(p.pos (a + 1) (b + 1)).1, (p.pos (a + 1) (b + 1)).2]) (c' := ![(p.pos a (b + 1)).1, (p.pos a (b + 1)).2])
    (by simp [lengthSq, Fin.sum_univ_two, Params.pos, Params.hx, Params.hy, p]; ring)
    (by simp [lengthSq, Fin.sum_univ_two, Params.pos, Params.hx, Params.hy, p]; ring)
    (by simp [lengthSq, Fin.sum_univ_two, Params.pos, Params.hx, Params.hy, p]; ring)).2 h1
  have k2 := (wellShaped_similar hp (a' := ![(p.pos a b).1, (p.pos a b).2])
    (b' := ![(p.pos (a + 1) b).1, (p.pos (a + 1) b).2])
    (c' := ![(p.pos (a + 1) (b + 1)).1, (p.pos (a + 1) (b + 1)).2])
    (by simp [lengthSq, Fin.sum_univ_two, Params.pos, Params.hx, Params.hy, p]; ring)
    (by simp [lengthSq, Fin.sum_univ_two, Params.pos, Params.hx, Params.hy, p]; ring)
    (by simp [lengthSq, Fin.sum_univ_two, Params.pos, Params.hx, Params.hy, p]; ring)).2 h2
  exact ⟨Option.isSome_iff_exists.2 ⟨_, (newTria_iff _ _ _ _).2 ⟨Or.inl rfl, k1, rfl⟩⟩,
    Option.isSome_iff_exists.2 ⟨_, (newTria_iff _ _ _ _).2 ⟨Or.inl rfl, k2, rfl⟩⟩⟩

theorem generate4 (scale : ℝ) (hs : 0 < scale) (M : Mesh (Geo ℝ 2))
    (h : tpTriag geoBuild true planeGeo ⟨(0 * scale, 0 * scale), (1 * scale, 1 * scale), 3, 3⟩ {} = some (some M)) :
    generate 4 scale = some (some M) := by
  obtain ⟨nodes, edges, cells, a1, a2, a3⟩ := tp_input geoBuild true planeGeo
    ⟨(0 * scale, 0 * scale), (1 * scale, 1 * scale), 3, 3⟩ (by simp) (by simp) (by simpa using hs) (by simpa using hs)
  rw [h] at a1
  rcases buildMesh_spec geoBuild nodes edges cells true a2 with ⟨_, M', e, hB⟩ | ⟨_, e⟩
  · rw [e] at a1
    cases a1
    have hc : checked M = some M := by
      unfold checked
      rw [if_pos]
      rw [List.all_eq_true]
      have key : ∀ c ∈ cells, ∀ g, cellGeo geoBuild M.points c g → g.construct.isSome = true := by
        intro c hc g hg
        obtain ⟨a, b, h | h⟩ := a3 c hc
        · unfold cellGeo at hg
          rw [h] at hg
          simp only at hg
          rw [hg]
          exact (grid_tria scale hs a b).1
        · unfold cellGeo at hg
          rw [h] at hg
          simp only at hg
          rw [hg]
          exact (grid_tria scale hs a b).2
      intro cell hcell
      rcases List.mem_append.1 hcell with h | h
      · obtain ⟨p, hp, rfl⟩ := List.getElem_of_mem h
        obtain ⟨c, d1, d2, -⟩ := hB.trias p hp
        exact key c (List.mem_of_getElem? d1) _ d2.geo
      · obtain ⟨p, hp, rfl⟩ := List.getElem_of_mem h
        obtain ⟨c, d1, d2, -⟩ := hB.quads p hp
        exact key c (List.mem_of_getElem? d1) _ d2.geo
    unfold generate
    rw [if_pos rfl, h]
    simp [hc]
  · rw [e] at a1
    cases a1

end MC
end Verif
