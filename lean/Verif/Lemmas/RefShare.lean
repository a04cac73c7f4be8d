import Verif.Lemmas.RefGlobal

/-! Two child cells have nothing, a node or a side in common. -/

namespace Verif
variable {T : Topo} (hT : T.Conforming) {P : Plan} (hP : P.Ok T)
include hT hP

theorem poly_leg (c : ℕ) (hc : c < T.numCells) (Q : List LNode) (hQ : Q ∈ P.polys c) (x : LNode) (hx : x ∈ Q) :
    Leg T P c x := ((hP c hc).polysOk Q hQ).2.2 x hx

theorem poly_nodup (c : ℕ) (hc : c < T.numCells) (Q : List LNode) (hQ : Q ∈ P.polys c) :
    (Q.map (locF T c)).Nodup := by
  rw [List.nodup_map_iff_inj_on ((hP c hc).polysOk Q hQ).2.1]
  intro x hx y hy h
  exact locF_inj hT c hc x y (poly_leg hT hP c hc Q hQ x hx) (poly_leg hT hP c hc Q hQ y hy) h

omit hT hP in
theorem side_of_loc {c : ℕ} {Q : List LNode} {a b : LNode} (h : s(a, b) ∈ sidesOf Q) :
    s(locF T c a, locF T c b) ∈ sidesOf (Q.map (locF T c)) := by
  rw [sidesOf_map, List.mem_map]
  exact ⟨_, h, rfl⟩

/-- Three different nodes of a child are never on one side. -/
theorem not_three (c : ℕ) (hc : c < T.numCells) (Q : List LNode) (hQ : Q ∈ P.polys c) (i : ℕ)
    (hi : i < (T.cell c).nodes.length) (x y w : LNode) (hx : x ∈ Q) (hy : y ∈ Q) (hw : w ∈ Q)
    (ox : x ∈ onSide (T.cell c).nodes.length i) (oy : y ∈ onSide (T.cell c).nodes.length i)
    (ow : w ∈ onSide (T.cell c).nodes.length i) (h1 : x ≠ y) (h2 : w ≠ x) (h3 : w ≠ y) : False := by
  have hall : ∀ z ∈ onSide (T.cell c).nodes.length i, z = x ∨ z = y ∨ z = w := by
    simp only [onSide, List.mem_cons, List.not_mem_nil, or_false] at ox oy ow ⊢
    rintro z (rfl | rfl | rfl)
    · rcases ox with rfl | rfl | rfl <;> rcases oy with rfl | rfl | rfl <;> rcases ow with rfl | rfl | rfl <;>
        first | exact absurd rfl h1 | exact absurd rfl h2 | exact absurd rfl h3 | tauto
    · rcases ox with rfl | rfl | rfl <;> rcases oy with rfl | rfl | rfl <;> rcases ow with rfl | rfl | rfl <;>
        first | exact absurd rfl h1 | exact absurd rfl h2 | exact absurd rfl h3 | tauto
    · rcases ox with rfl | rfl | rfl <;> rcases oy with rfl | rfl | rfl <;> rcases ow with rfl | rfl | rfl <;>
        first | exact absurd rfl h1 | exact absurd rfl h2 | exact absurd rfl h3 | tauto
  have hin : ∀ z ∈ onSide (T.cell c).nodes.length i, z ∈ Q := by
    intro z hz
    rcases hall z hz with rfl | rfl | rfl <;> assumption
  have m1 : LNode.v i ∈ onSide (T.cell c).nodes.length i := by simp [onSide]
  have m2 : LNode.m i ∈ onSide (T.cell c).nodes.length i := by simp [onSide]
  have m3 : LNode.v ((i + 1) % (T.cell c).nodes.length) ∈ onSide (T.cell c).nodes.length i := by simp [onSide]
  have hne : LNode.v i ≠ LNode.v ((i + 1) % (T.cell c).nodes.length) := by
    intro h
    simp only [LNode.v.injEq] at h
    have hlen := hT.wf.cell_len c hc
    by_cases hlt : i + 1 < (T.cell c).nodes.length
    · rw [Nat.mod_eq_of_lt hlt] at h; omega
    · have : i + 1 = (T.cell c).nodes.length := by omega
      rw [this, Nat.mod_self] at h; omega
  have hs := ((hP c hc).sideOk Q hQ i (by simpa using hi) _ (hin _ m1) _ (hin _ m3) hne m1 m3).1
  have hfl := (mem_legal_m.1 (poly_leg hT hP c hc Q hQ _ (hin _ m2))).2
  unfold subs at hs
  rw [hfl] at hs
  simp at hs

/-- Two different child cells with two nodes in common have a common side and nothing else. -/
theorem fine_share (c d : ℕ) (hc : c < T.numCells) (hd : d < T.numCells) (i j : ℕ) (hi : i < (P.polys c).length)
    (hj : j < (P.polys d).length) (hne : (c, i) ≠ (d, j)) (A B : FNode) (hAB : A ≠ B)
    (hA : A ∈ ((P.polys c)[i]).map (locF T c)) (hB : B ∈ ((P.polys c)[i]).map (locF T c))
    (hA' : A ∈ ((P.polys d)[j]).map (locF T d)) (hB' : B ∈ ((P.polys d)[j]).map (locF T d)) :
    s(A, B) ∈ sidesOf (((P.polys c)[i]).map (locF T c)) ∧
    s(A, B) ∈ sidesOf (((P.polys d)[j]).map (locF T d)) ∧
    ∀ W ∈ ((P.polys c)[i]).map (locF T c), W ∈ ((P.polys d)[j]).map (locF T d) → W = A ∨ W = B := by
  have hQ : (P.polys c)[i] ∈ P.polys c := List.getElem_mem _
  have hR : (P.polys d)[j] ∈ P.polys d := List.getElem_mem _
  have lQ := poly_leg hT hP c hc _ hQ
  have lR := poly_leg hT hP d hd _ hR
  obtain ⟨x, hx, rfl⟩ := List.mem_map.1 hA
  obtain ⟨y, hy, rfl⟩ := List.mem_map.1 hB
  obtain ⟨x', hx', hxx⟩ := List.mem_map.1 hA'
  obtain ⟨y', hy', hyy⟩ := List.mem_map.1 hB'
  have hxy : x ≠ y := fun h => hAB (by rw [h])
  by_cases hcd : c = d
  · subst hcd
    have hij : i ≠ j := fun h => hne (by rw [h])
    have e1 := locF_inj hT c hc _ _ (lR x' hx') (lQ x hx) hxx
    have e2 := locF_inj hT c hc _ _ (lR y' hy') (lQ y hy) hyy
    subst e1 e2
    have hs := (hP c hc).shareOk i (by simpa using hi) j (by simpa using hj) hij
    rw [List.getD_eq_getElem _ _ hi, List.getD_eq_getElem _ _ hj] at hs
    obtain ⟨s1, s2, s3⟩ := hs x' hx y' hy hxy hx' hy'
    refine ⟨side_of_loc s1, side_of_loc s2, ?_⟩
    intro W hW hW'
    obtain ⟨w, hw, rfl⟩ := List.mem_map.1 hW
    obtain ⟨w', hw', hww⟩ := List.mem_map.1 hW'
    have e3 := locF_inj hT c hc _ _ (lR w' hw') (lQ w hw) hww
    subst e3
    rcases s3 w' hw hw' with rfl | rfl
    · exact Or.inl rfl
    · exact Or.inr rfl
  · have hcl := hT.wf.cell_edges_len c hc
    have hdl := hT.wf.cell_edges_len d hd
    have hxy' : x' ≠ y' := fun h => hAB (by rw [← hxx, ← hyy, h])
    obtain ⟨k, hk, l, hl, hkl, o1, o2, o3, o4⟩ := pair_common hT c d hc hd hcd x y x' y' (lQ x hx) (lQ y hy)
      (lR x' hx') (lR y' hy') hxx.symm hyy.symm hAB
    have s1 := ((hP c hc).sideOk _ hQ k (by simpa using hk) x hx y hy hxy o1 o2).2
    have s2 := ((hP d hd).sideOk _ hR l (by simpa using hl) x' hx' y' hy' hxy' o3 o4).2
    refine ⟨side_of_loc s1, ?_, ?_⟩
    · rw [← hxx, ← hyy]; exact side_of_loc s2
    · intro W hW hW'
      obtain ⟨w, hw, rfl⟩ := List.mem_map.1 hW
      obtain ⟨w', hw', hww⟩ := List.mem_map.1 hW'
      by_contra hcon
      rw [not_or] at hcon
      have hwx : w ≠ x := fun h => hcon.1 (by rw [h])
      have hwy : w ≠ y := fun h => hcon.2 (by rw [h])
      obtain ⟨k', hk', l', hl', hkl', q1, q2, q3, q4⟩ := pair_common hT c d hc hd hcd w x w' x' (lQ w hw) (lQ x hx)
        (lR w' hw') (lR x' hx') hww.symm hxx.symm hcon.1
      have hu := share_edge_unique hT c d hc hd hcd ((T.cell c).edges.getD k 0) ((T.cell c).edges.getD k' 0)
        (getD_mem _ _ (by omega)) (by rw [hkl]; exact getD_mem _ _ (by omega))
        (getD_mem _ _ (by omega)) (by rw [hkl']; exact getD_mem _ _ (by omega))
      have hkk := nodup_getD_inj _ (edges_nodup hT c hc) k k' (by omega) (by omega) hu
      subst hkk
      exact not_three hT hP c hc _ hQ k hk x y w hx hy hw o1 o2 q1 hxy hwx hwy

end Verif
