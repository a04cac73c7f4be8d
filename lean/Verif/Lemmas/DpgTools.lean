import Verif.Model.DpgTools
import Verif.Lemmas.DataSet
import Verif.Lemmas.RefGlobal

namespace Verif
namespace Dpg

/-- `v` is the largest element of `S`, or -1 if `S` is empty. -/
def MaxOf (S : ℕ → Prop) (v : ℤ) : Prop :=
  (v = -1 ∧ ∀ c, ¬ S c) ∨ ∃ c : ℕ, v = c ∧ S c ∧ ∀ c', S c' → c' ≤ c

theorem maxOf_congr {S S' : ℕ → Prop} {v : ℤ} (h : MaxOf S v) (hS : ∀ c, S c ↔ S' c) : MaxOf S' v := by
  have : S = S' := funext fun c => propext (hS c)
  exact this ▸ h

theorem maxOf_step {S : ℕ → Prop} {v : ℤ} (h : MaxOf S v) (k : ℕ) :
    MaxOf (fun c => S c ∨ c = k) (max v k) := by
  rcases h with ⟨rfl, h⟩ | ⟨c, rfl, h1, h2⟩
  · refine .inr ⟨k, by omega, .inr rfl, ?_⟩
    rintro c' (h' | rfl)
    · exact absurd h' (h c')
    · exact le_refl _
  · by_cases hck : c ≤ k
    · refine .inr ⟨k, by omega, .inr rfl, ?_⟩
      rintro c' (h' | rfl)
      · exact (h2 c' h').trans hck
      · exact le_refl _
    · refine .inr ⟨c, by omega, .inl h1, ?_⟩
      rintro c' (h' | rfl)
      · exact h2 c' h'
      · omega

theorem signUpdate_spec {m : MeshObj} {d : CodimDS ℤ} (h : CodimDS.Ok m 1 d) {c i : ℕ} (hc : c < 2 ^ 31)
    (hi : i < m.topo.num 1) (S : ℕ → ℕ → Prop)
    (hS : ∀ j < m.topo.num 1, ∃ v, d.data[j]? = some v ∧ MaxOf (S j) v) :
    ∃ d', signUpdate m c d (1, i) = some d' ∧ CodimDS.Ok m 1 d' ∧
      ∀ j < m.topo.num 1, ∃ v, d'.data[j]? = some v ∧ MaxOf (fun c' => S j c' ∨ (c' = c ∧ j = i)) v := by
  obtain ⟨v, hv, hm⟩ := hS i hi
  obtain ⟨d', h1, h2, h3⟩ := h.write hi (max v (c : ℤ))
  refine ⟨d', ?_, h2, ?_⟩
  · unfold signUpdate narrowInt
    rw [h.read hi, hv, if_pos hc]
    exact h1
  · intro j hj
    rw [h3 j hj]
    by_cases hji : j = i
    · subst hji
      refine ⟨_, by rw [if_pos rfl], maxOf_congr (maxOf_step hm c) ?_⟩
      intro c'; simp
    · obtain ⟨v', hv', hm'⟩ := hS j hj
      refine ⟨v', by rw [if_neg hji]; exact hv', maxOf_congr hm' ?_⟩
      intro c'; simp [hji]

theorem signInit_spec (m : MeshObj) (hT : m.topo.WF) (hn : m.topo.numCells ≤ 2 ^ 31) :
    ∃ d, signInit m = some d ∧ CodimDS.Ok m 1 d ∧ ∀ j < m.topo.numEdges, ∃ v, d.data[j]? = some v ∧
      MaxOf (fun c => c < m.topo.numCells ∧ j ∈ (m.topo.cell c).edges) v := by
  unfold signInit
  obtain ⟨d0, hd0, hok, hz⟩ := CodimDS.make_ok m 1 (by omega) (-1 : ℤ)
  rw [hd0]
  simp only [Option.bind_some]
  have main := foldlM_list_inv (fun d (e : Ent) =>
      (m.topo.subEntities e 1).bind fun subs => subs.foldlM (signUpdate m e.2) d)
    (fun pre d => CodimDS.Ok m 1 d ∧ ∀ j < m.topo.num 1, ∃ v, d.data[j]? = some v ∧
        MaxOf (fun c => (0, c) ∈ pre ∧ j ∈ (m.topo.cell c).edges) v)
    (m.topo.entities 0) d0 ⟨hok, fun j hj => ⟨-1, hz j hj, .inl ⟨rfl, by simp⟩⟩⟩ ?_
  · obtain ⟨d, h1, h2, h3⟩ := main
    refine ⟨d, h1, h2, ?_⟩
    intro j hj
    obtain ⟨v, h4, h5⟩ := h3 j hj
    refine ⟨v, h4, maxOf_congr h5 ?_⟩
    intro c
    simp [Topo.entities, Topo.num]
  · intro pre e d he ⟨h1, h2⟩
    obtain ⟨c, hc, rfl⟩ : ∃ c, c < m.topo.numCells ∧ (0, c) = e := by
      simpa [Topo.entities, Topo.num] using he
    have hsub : m.topo.subEntities (0, c) 1 = some ((m.topo.cell c).edges.map fun i => (1, i)) := by
      simp [Topo.subEntities]
    simp only [hsub, Option.bind_some]
    have inner := foldlM_list_inv (signUpdate m c)
      (fun pre' d => CodimDS.Ok m 1 d ∧ ∀ j < m.topo.num 1, ∃ v, d.data[j]? = some v ∧
        MaxOf (fun c' => ((0, c') ∈ pre ∧ j ∈ (m.topo.cell c').edges) ∨ (c' = c ∧ (1, j) ∈ pre')) v)
      ((m.topo.cell c).edges.map fun i => ((1, i) : Ent)) d
      ⟨h1, fun j hj => by
        obtain ⟨v, hv, hm⟩ := h2 j hj
        exact ⟨v, hv, maxOf_congr hm (by simp)⟩⟩ ?_
    · obtain ⟨d', h3, h4, h5⟩ := inner
      refine ⟨d', h3, h4, ?_⟩
      intro j hj
      obtain ⟨v, hv, hm⟩ := h5 j hj
      refine ⟨v, hv, maxOf_congr hm ?_⟩
      intro c'
      simp only [List.mem_append, List.mem_singleton, Prod.mk.injEq, true_and, List.mem_map,
        exists_eq_right]
      constructor
      · rintro (⟨h, h'⟩ | ⟨rfl, h⟩)
        · exact ⟨.inl h, h'⟩
        · exact ⟨.inr rfl, h⟩
      · rintro ⟨h | rfl, h'⟩
        · exact .inl ⟨h, h'⟩
        · exact .inr ⟨rfl, h'⟩
    · intro pre' s d' hs ⟨h3, h4⟩
      obtain ⟨i, hi, rfl⟩ := List.mem_map.1 hs
      obtain ⟨d2, h5, h6, h7⟩ := signUpdate_spec h3 (c := c) (i := i) (by omega) (hT.cell_edges c hc i hi) _ h4
      refine ⟨d2, h5, h6, ?_⟩
      intro j hj
      obtain ⟨v, hv, hm⟩ := h7 j hj
      refine ⟨v, hv, maxOf_congr hm ?_⟩
      intro c'
      simp only [List.mem_append, List.mem_singleton, Prod.mk.injEq, true_and]
      tauto

theorem foldlM_none {σ α : Type} (f : σ → α → Option σ) (l : List α) (x : α) (hx : x ∈ l)
    (h : ∀ s, f s x = none) (s0 : σ) : l.foldlM f s0 = none := by
  induction l generalizing s0 with
  | nil => simp at hx
  | cons a l ih =>
    rw [List.foldlM_cons]
    rcases List.mem_cons.1 hx with rfl | hx
    · rw [h]; rfl
    · cases hf : f s0 a with
      | none => rfl
      | some s => exact ih hx s

theorem signInit_none (m : MeshObj) (hT : m.topo.WF) (hn : 2 ^ 31 < m.topo.numCells) : signInit m = none := by
  unfold signInit
  obtain ⟨d0, hd0, -, -⟩ := CodimDS.make_ok m 1 (by omega) (-1 : ℤ)
  rw [hd0]
  simp only [Option.bind_some]
  have hl : (m.topo.cell (2 ^ 31)).edges ≠ [] := by
    have h1 := hT.cell_edges_len _ hn
    have h2 := hT.cell_len _ hn
    intro h
    rcases h2 with h2 | h2 <;> rw [h2, h] at h1 <;> simp at h1
  obtain ⟨i, hi⟩ := List.exists_mem_of_ne_nil _ hl
  apply foldlM_none _ _ ((0, 2 ^ 31) : Ent)
  · simpa [Topo.entities, Topo.num] using hn
  · intro d
    have hsub : m.topo.subEntities (0, 2 ^ 31) 1 = some ((m.topo.cell (2 ^ 31)).edges.map fun i => (1, i)) := by
      simp [Topo.subEntities]
    rw [hsub]
    apply foldlM_none _ _ ((1, i) : Ent) (List.mem_map.2 ⟨i, hi, rfl⟩)
    intro d
    unfold signUpdate narrowInt
    cases d.read ⟨m.id, (1, i)⟩ with
    | none => rfl
    | some v => simp

end Dpg
end Verif
