import Verif.Lemmas.GmshRead5
import Verif.Spec.GmshValid

/-! Reading does not fail: the loop over the elements. -/

namespace Verif
variable {P G : Type}

theorem foldlM_exists {σ α : Type} {f : σ → α → Option σ} {l : List α} {s0 : σ} (Q : List α → σ → Prop) (h0 : Q [] s0)
    (step : ∀ pre a post, l = pre ++ a :: post → ∀ s, Q pre s → ∃ s', f s a = some s' ∧ Q (pre ++ [a]) s') :
    ∃ s, l.foldlM f s0 = some s ∧ Q l s := by
  have key : ∀ (post pre : List α) (s1 : σ), l = pre ++ post → Q pre s1 → ∃ s, post.foldlM f s1 = some s ∧ Q l s := by
    intro post
    induction post with
    | nil =>
      intro pre s1 hl hp
      rw [hl, List.append_nil]
      exact ⟨s1, rfl, hp⟩
    | cons a post ih =>
      intro pre s1 hl hp
      obtain ⟨s2, h2, hp2⟩ := step pre a post hl s1 hp
      obtain ⟨s, hs, hq⟩ := ih (pre ++ [a]) s2 (by rw [hl]; simp) hp2
      exact ⟨s, by rw [List.foldlM_cons, h2]; exact hs, hq⟩
  exact key l [] s0 (by simp) h0

theorem mapM_spec {α β : Type} {g : α → Option β} {xs : List α} {l : List β} (h : xs.mapM g = some l) :
    List.Forall₂ (fun x y => g x = some y) xs l := by
  induction xs generalizing l with
  | nil =>
    cases h
    exact .nil
  | cons a xs ih =>
    rw [List.mapM_cons] at h
    obtain ⟨y, hy, h⟩ := Option.bind_eq_some_iff.mp h
    obtain ⟨l', hl', h⟩ := Option.bind_eq_some_iff.mp h
    cases h
    exact .cons hy (ih hl')

theorem gmsh_mapM_isSome {α β : Type} {g : α → Option β} {xs : List α} (h : ∀ x ∈ xs, (g x).isSome = true) :
    ∃ l, xs.mapM g = some l := by
  induction xs with
  | nil => exact ⟨[], rfl⟩
  | cons a xs ih =>
    obtain ⟨y, hy⟩ := Option.isSome_iff_exists.mp (h a (by simp))
    obtain ⟨l, hl⟩ := ih fun x hx => h x (by simp [hx])
    exact ⟨y :: l, by rw [List.mapM_cons, hy, hl]; rfl⟩

section step
variable {geo : GmshGeo P G} {look : ℕ → Option (Option ℕ)} {coord : ℕ → Option P} {nodes0 : List (Option G)} {done : List Item}
  {st : ReadState G}

/-- What is asked of an element for its insertion to succeed. -/
structure ItemOk (geo : GmshGeo P G) (look : ℕ → Option (Option ℕ)) (coord : ℕ → Option P) (it : Item) : Prop where
  dim : it.t.dim ≤ 2
  point : it.t = .point → ∃ n, it.nodes[0]? = some n ∧ (look n).isSome = true
  corners : it.t ≠ .point → (cornersBy (fun n => (look n).join) it.t it.nodes).isSome = true
  geo : it.t ≠ .point → ((it.nodes.mapM coord).bind (geo.make it.t)).isSome = true

theorem addEntity_some {f : Factory G} {ref : RefEl} {nodes : List ℕ} {g : Option G} (h0 : ref ≠ .point)
    (hlen : nodes.length = ref.numNodes) (hlt : ∀ v ∈ nodes, v < f.nodes.length) :
    ∃ x, f.addEntity ref nodes g = some x ∧
      ((ref.dimension = 2 ∧ x.1.edges = f.edges) ∨
        ∃ a b, nodes = [a, b] ∧ ref.dimension = 1 ∧ x.1.edges = f.edges ++ [⟨a, b, g⟩]) := by
  unfold Factory.addEntity
  have h1 : nodes.all (fun v => decide (v < f.nodes.length)) = true := by simpa using hlt
  cases ref with
  | point => exact absurd rfl h0
  | segment =>
    match nodes, hlen with
    | [a, b], _ =>
      rw [if_neg (by decide), if_pos h1]
      exact ⟨_, rfl, Or.inr ⟨a, b, rfl, rfl, rfl⟩⟩
  | tria =>
    rw [if_neg (by decide), if_pos h1]
    simp only [if_pos hlen]
    exact ⟨_, rfl, Or.inl ⟨rfl, rfl⟩⟩
  | quad =>
    rw [if_neg (by decide), if_pos h1]
    simp only [if_pos hlen]
    exact ⟨_, rfl, Or.inl ⟨rfl, rfl⟩⟩

theorem insert_some (hE : ElemInv geo (fun n => (look n).join) coord nodes0 done st)
    (hP : PointInv (fun n => (look n).join) done st) (hlt : ∀ n i, (look n).join = some i → i < nodes0.length) (it : Item)
    (hok : ItemOk geo look coord it)
    (hrep : it.t = .point → st.begin = some (it.t, it.nodes) → ∃ i, PointAt (fun n => (look n).join) it i) :
    ∃ st', insertElement geo look coord st it.t it.nodes it.p = some st' ∧ st'.begin = some (it.t, it.nodes) ∧
      (st'.factory.edges = st.factory.edges ∨ (it.t.dim = 1 ∧ st.begin ≠ some (it.t, it.nodes) ∧ ∃ a b g,
        cornersBy (fun n => (look n).join) it.t it.nodes = some [a, b] ∧
        st'.factory.edges = st.factory.edges ++ [⟨a, b, g⟩])) := by
  obtain ⟨ref, hr⟩ := refEl_of_dim hok.dim
  have hdim := dim_eq hr
  unfold insertElement
  rw [hr]
  simp only [Option.bind_some]
  by_cases hb : st.begin = some (it.t, it.nodes)
  · rw [if_pos hb]
    have hne : st.mi2gi (2 - ref.dimension) ≠ [] := by
      by_cases hpt : it.t = .point
      · obtain ⟨i, hi⟩ := hrep hpt hb
        obtain ⟨l, z, hd, hzt, hzn⟩ := hP.start _ _ hb
        have hz : PointAt (fun n => (look n).join) z i := by
          refine ⟨hzt.trans hpt, ?_⟩
          rw [hzt, hzn]
          exact hi.2
        have := hP.long z (by rw [hd]; simp) i hz
        have h0 : it.t.dim = 0 := by rw [hpt]; rfl
        rw [← hdim, h0]
        intro h
        change st.mi2gi 2 = [] at h
        rw [h] at this
        simp at this
      · obtain ⟨a, ha, -, -⟩ := hE.start _ _ hb hpt
        have hd0 : it.t.dim ≠ 0 := by
          intro h0
          cases htt : it.t <;> simp [htt, GmshType.dim] at h0 hpt
        obtain ⟨gs, h1, -, h3⟩ := hE.groups (2 - it.t.dim) (by omega)
        rw [← hdim, h1]
        intro h
        rw [List.map_eq_nil_iff] at h
        rw [h] at h3
        have := List.forall₂_nil_left_iff.mp h3
        rw [this] at ha
        cases ha
    have h2 : ∃ l, pushLast (st.mi2gi (2 - ref.dimension)) it.p = some l := by
      unfold pushLast
      cases hl : (st.mi2gi (2 - ref.dimension)).getLast? with
      | none => exact absurd (List.getLast?_eq_none_iff.mp hl) hne
      | some g => exact ⟨_, rfl⟩
    obtain ⟨l, hl⟩ := h2
    rw [hl]
    exact ⟨_, rfl, hb, Or.inl rfl⟩
  · rw [if_neg hb]
    by_cases hpt : ref = .point
    · rw [if_pos hpt]
      subst hpt
      have hd : it.t.dim = 0 := hdim
      have htp : it.t = .point := by cases htt : it.t <;> simp [htt, GmshType.dim] at hd ⊢
      obtain ⟨n, hn, hl⟩ := hok.point htp
      obtain ⟨mi, hmi⟩ := Option.isSome_iff_exists.mp hl
      rw [hn]
      simp only [Option.bind_some, hmi]
      cases mi with
      | none => exact ⟨_, rfl, rfl, Or.inl rfl⟩
      | some i => exact ⟨_, rfl, rfl, Or.inl rfl⟩
    · rw [if_neg hpt]
      have htp : it.t ≠ .point := by
        intro h
        rw [h] at hr
        cases hr
        exact hpt rfl
      obtain ⟨g, hg⟩ := Option.isSome_iff_exists.mp (hok.geo htp)
      obtain ⟨coords, hco, hg⟩ := Option.bind_eq_some_iff.mp hg
      obtain ⟨ns, hns⟩ := Option.isSome_iff_exists.mp (hok.corners htp)
      rw [hco]
      simp only [Option.bind_some, hg]
      rw [mapM_corners hr, hns]
      simp only [Option.bind_some]
      have hns' := hns
      unfold cornersBy at hns'
      split_ifs at hns' with hlen
      have hf := mapM_spec hns'
      have hl1 : ns.length = ref.numNodes := by
        rw [← hf.length_eq, List.length_take, corners_eq hr] at *
        omega
      have hl2 : ∀ v ∈ ns, v < st.factory.nodes.length := by
        intro v hv
        rw [hE.nodes]
        obtain ⟨k, hk, rfl⟩ := List.getElem_of_mem hv
        have := hf.get (i := k) (by rw [hf.length_eq]; exact hk) hk
        exact hlt _ _ this
      obtain ⟨x, hx, hc⟩ := addEntity_some (g := some g) hpt hl1 hl2
      rw [hx]
      refine ⟨_, rfl, rfl, ?_⟩
      rcases hc with ⟨-, h⟩ | ⟨a, b, rfl, h1, h⟩
      · exact Or.inl h
      · exact Or.inr ⟨hdim.trans h1, hb, a, b, some g, rfl, h⟩

end step
end Verif
