import Verif.Model.Annulus
import Verif.Lemmas.Builders

namespace Verif
open Builder
namespace Annulus
variable {G : Type}

theorem succMod {n a : ℕ} (h : a < n) :
    (a + 1) % n < n ∧ ((a + 1 < n ∧ (a + 1) % n = a + 1) ∨ (a + 1 = n ∧ (a + 1) % n = 0)) := by
  refine ⟨Nat.mod_lt _ (by omega), ?_⟩
  by_cases h1 : a + 1 < n
  · exact Or.inl ⟨h1, Nat.mod_eq_of_lt h1⟩
  · right
    have : a + 1 = n := by omega
    exact ⟨this, by rw [this, Nat.mod_self]⟩

theorem predMod (n a : ℕ) (h : a < n) : ∃ a' < n, (a' + 1) % n = a := by
  by_cases h0 : a = 0
  · exact ⟨n - 1, by omega, by rw [show n - 1 + 1 = n by omega, Nat.mod_self, h0]⟩
  · exact ⟨a - 1, by omega, by rw [show a - 1 + 1 = a by omega, Nat.mod_eq_of_lt h]⟩

/-- The two triangles of a patch. -/
def cellA (n : ℕ) (geo : ℕ × ℕ → G) (q : ℕ × ℕ) : CellIn G :=
  ⟨[q.2 + q.1 * n, q.2 + (q.1 + 1) * n, (q.2 + 1) % n + q.1 * n], some (geo q)⟩

def cellB (n : ℕ) (geo : ℕ × ℕ → G) (q : ℕ × ℕ) : CellIn G :=
  ⟨[q.2 + (q.1 + 1) * n, (q.2 + 1) % n + (q.1 + 1) * n, (q.2 + 1) % n + q.1 * n], some (geo q)⟩

theorem two_get {α β : Type} (l : List α) (f g : α → β) (k : ℕ) :
    (l.flatMap fun x => [f x, g x])[2 * k]? = l[k]?.map f ∧
    (l.flatMap fun x => [f x, g x])[2 * k + 1]? = l[k]?.map g := by
  induction l generalizing k with
  | nil => simp
  | cons a l ih =>
    cases k with
    | zero => simp
    | succ k =>
      have := ih k
      simpa [Nat.mul_add] using this

theorem two_length {α β : Type} (l : List α) (f g : α → β) :
    (l.flatMap fun x => [f x, g x]).length = 2 * l.length := by
  induction l with
  | nil => rfl
  | cons a l ih => rw [List.flatMap_cons, List.length_append, ih]; simp; omega

variable (p : Annulus) (geo : BuilderGeo (ℝ × ℝ) G)

noncomputable def geoA (q : ℕ × ℕ) : G := geo.tria (p.pos q.1 q.2) (p.pos (q.1 + 1) q.2) (p.pos q.1 ((q.2 + 1) % p.numAngular))

noncomputable def geoB (q : ℕ × ℕ) : G :=
  geo.tria (p.pos (q.1 + 1) q.2) (p.pos (q.1 + 1) ((q.2 + 1) % p.numAngular)) (p.pos q.1 ((q.2 + 1) % p.numAngular))

noncomputable def nodesIn : List (Option G) := (pairs (p.numRadial + 1) p.numAngular).map fun q => some (geo.point (p.pos q.1 q.2))

noncomputable def cellsIn : List (CellIn G) := (pairs p.numRadial p.numAngular).flatMap fun q =>
  [cellA p.numAngular (geoA p geo) q, cellB p.numAngular (geoB p geo) q]

/-- The contents of the factory when `Build` of the factory is called. -/
theorem build_run (ops : GeoOps G) (chk : Bool) : p.build ops chk geo {} = buildMesh ops (nodesIn p geo) [] (cellsIn p geo) chk := by
  unfold build
  rw [points_loop]
  simp only [Option.bind_some]
  set n := p.numAngular with hn
  set N := (p.numRadial + 1) * n with hN
  rw [entity_loop p.numRadial n _ _ (fun _ _ => []) (fun i j => [cellA n (geoA p geo) (i, j), cellB n (geoB p geo) (i, j)]) (by
    intro f' hf' i hi j hj
    have hl : f'.nodes.length = N := by rw [hf']; simp [pairs_length, hN]
    have hj' := (succMod hj).1
    have h1 := entityStep_tria N f' (n * i + j) (n * (i + 1) + j) (n * i + (j + 1) % n) (geoA p geo (i, j)) hl
      (by rw [Nat.mul_comm, Nat.add_comm]; exact vlt hj (by omega)) (by rw [Nat.mul_comm, Nat.add_comm]; exact vlt hj (by omega))
      (by rw [Nat.mul_comm, Nat.add_comm]; exact vlt hj' (by omega))
    have h2 := entityStep_tria N ⟨f'.nodes, f'.edges ++ [], f'.elements ++ [⟨[n * i + j, n * (i + 1) + j, n * i + (j + 1) % n], some (geoA p geo (i, j))⟩]⟩
      (n * (i + 1) + j) (n * (i + 1) + (j + 1) % n) (n * i + (j + 1) % n) (geoB p geo (i, j)) hl
      (by rw [Nat.mul_comm, Nat.add_comm]; exact vlt hj (by omega)) (by rw [Nat.mul_comm, Nat.add_comm]; exact vlt hj' (by omega))
      (by rw [Nat.mul_comm, Nat.add_comm]; exact vlt hj' (by omega))
    unfold patch
    refine (congrArg (fun o => Option.bind o _) h1).trans ?_
    refine h2.trans ?_
    have c : ∀ a b, n * a + b = b + a * n := fun a b => by ring
    simp only [cellA, cellB, c, List.append_nil, List.append_assoc, List.cons_append, List.nil_append])]
  simp only [Option.bind_some, Factory.build, List.nil_append]
  rw [show (pairs p.numRadial n).flatMap (fun _ => ([] : List (EdgeIn G))) = [] by simp]
  change ((buildMesh ops (nodesIn p geo) [] (cellsIn p geo) chk).bind _).bind _ = _
  cases buildMesh ops (nodesIn p geo) [] (cellsIn p geo) chk <;> rfl

theorem nodesIn_length : (nodesIn p geo).length = (p.numRadial + 1) * p.numAngular := by simp [nodesIn, pairs_length]

theorem nodesIn_some : ∀ x ∈ nodesIn p geo, x.isSome = true := by
  intro x hx
  obtain ⟨q, _, rfl⟩ := List.mem_map.1 hx
  rfl

theorem mem_cellsIn {c : CellIn G} (hc : c ∈ cellsIn p geo) : ∃ i j, i < p.numRadial ∧ j < p.numAngular ∧
    (c = cellA p.numAngular (geoA p geo) (i, j) ∨ c = cellB p.numAngular (geoB p geo) (i, j)) := by
  obtain ⟨⟨a, b⟩, hq, hc⟩ := List.mem_flatMap.1 hc
  obtain ⟨ha, hb⟩ := mem_pairs.1 hq
  simp only [List.mem_cons, List.not_mem_nil, or_false] at hc
  exact ⟨a, b, ha, hb, hc⟩

theorem vne {n i j i' j' : ℕ} (h1 : j < n) (h2 : j' < n) (h : i ≠ i' ∨ j ≠ j') : j + i * n ≠ j' + i' * n := by
  intro h4
  have := vinj h1 h2 h4
  omega

section
variable (hn : 2 ≤ p.numAngular)
include hn

theorem cells_nodup : ∀ c ∈ cellsIn p geo, c.nodes.length = 3 ∧ c.nodes.Nodup := by
  intro c hc
  obtain ⟨i, j, hi, hj, rfl | rfl⟩ := mem_cellsIn p geo hc
  all_goals
    obtain ⟨b1, b2⟩ := succMod hj
    refine ⟨rfl, ?_⟩
    simp only [cellA, cellB]
    generalize (j + 1) % p.numAngular = j' at *
    simp only [List.nodup_cons, List.mem_cons, List.not_mem_nil, or_false, not_or, not_false_eq_true, List.nodup_nil, and_true]
    refine ⟨⟨vne ?_ ?_ ?_, vne ?_ ?_ ?_⟩, vne ?_ ?_ ?_⟩ <;> omega

theorem valid : ValidInput (nodesIn p geo) [] (cellsIn p geo) := by
  refine ⟨nodesIn_some p geo, by simp, by simp, by simp, by simp, ?_, ?_, ?_⟩
  · intro c hc
    exact Or.inl (cells_nodup p geo hn c hc).1
  · intro c hc v hv
    rw [nodesIn_length]
    obtain ⟨i, j, hi, hj, rfl | rfl⟩ := mem_cellsIn p geo hc
    all_goals
      obtain ⟨b1, -⟩ := succMod hj
      simp only [cellA, cellB, List.mem_cons, List.not_mem_nil, or_false] at hv
      rcases hv with rfl | rfl | rfl <;> refine vlt ?_ ?_ <;> omega
  · intro c hc j hj
    obtain ⟨h3, h4⟩ := cells_nodup p geo hn c hc
    obtain ⟨x, y, z, hxyz⟩ : ∃ x y z, c.nodes = [x, y, z] := List.length_eq_three.1 h3
    rw [hxyz] at h4 hj ⊢
    simp only [List.nodup_cons, List.mem_cons, List.not_mem_nil, or_false, not_or] at h4
    obtain ⟨⟨k1, k2⟩, k3, _⟩ := h4
    have hj' : j < 3 := hj
    have hj3 : j = 0 ∨ j = 1 ∨ j = 2 := by omega
    rcases hj3 with rfl | rfl | rfl
    · simpa [side] using k1
    · simpa [side] using k3
    · simpa [side] using fun h => k2 h.symm

theorem complete (hm : 1 ≤ p.numRadial) : CompleteInput (nodesIn p geo).length [] (cellsIn p geo) := by
  refine ⟨by simp, ?_⟩
  intro v hv
  rw [nodesIn_length] at hv
  set n := p.numAngular with hn'
  have hmod : v % n < n := Nat.mod_lt _ (by omega)
  have hdiv : v / n < p.numRadial + 1 := by
    rw [Nat.div_lt_iff_lt_mul (by omega)]; exact hv
  have hveq : v = v % n + v / n * n := by
    rw [Nat.mul_comm]; exact (Nat.mod_add_div v n).symm
  generalize v % n = j at *
  generalize v / n = i at *
  subst hveq
  have inA : ∀ i < p.numRadial, cellA n (geoA p geo) (i, j) ∈ cellsIn p geo := fun i hi =>
    List.mem_flatMap.2 ⟨(i, j), mem_pairs.2 ⟨hi, hmod⟩, by simp [hn']⟩
  by_cases h1 : i < p.numRadial
  · exact ⟨_, inA i h1, by simp [cellA]⟩
  · have : i = (p.numRadial - 1) + 1 := by omega
    exact ⟨_, inA (p.numRadial - 1) (by omega), by rw [this]; simp [cellA]⟩

end

/-- The sides of all cells. -/
def sidesD (m n : ℕ) : List (ℕ × ℕ) := (pairs m n).flatMap fun q =>
  [(q.2 + q.1 * n, q.2 + (q.1 + 1) * n), (q.2 + (q.1 + 1) * n, (q.2 + 1) % n + q.1 * n), ((q.2 + 1) % n + q.1 * n, q.2 + q.1 * n),
   (q.2 + (q.1 + 1) * n, (q.2 + 1) % n + (q.1 + 1) * n), ((q.2 + 1) % n + (q.1 + 1) * n, (q.2 + 1) % n + q.1 * n),
   ((q.2 + 1) % n + q.1 * n, q.2 + (q.1 + 1) * n)]

/-- The edges: on the circles, radial and diagonal ones. -/
def edgesL (m n : ℕ) : List (ℕ × ℕ) :=
  (pairs (m + 1) n).map (fun q => (q.2 + q.1 * n, (q.2 + 1) % n + q.1 * n)) ++
  (pairs m n).map (fun q => (q.2 + q.1 * n, q.2 + (q.1 + 1) * n)) ++
  (pairs m n).map (fun q => (q.2 + (q.1 + 1) * n, (q.2 + 1) % n + q.1 * n))

theorem cells_sides : ((cellsIn p geo).flatMap fun c => (List.range c.nodes.length).map (side c.nodes)) = sidesD p.numRadial p.numAngular := by
  simp only [cellsIn, sidesD, List.flatMap_assoc]
  congr 1
  funext q
  simp only [List.flatMap_cons, List.flatMap_nil, cellA, cellB, sides3, List.append_nil]
  rfl

theorem mem_edgesL {m n : ℕ} {x : ℕ × ℕ} (hx : x ∈ edgesL m n) : ∃ i j, (i < m + 1 ∧ j < n ∧ x = (j + i * n, (j + 1) % n + i * n)) ∨
    (i < m ∧ j < n ∧ x = (j + i * n, j + (i + 1) * n)) ∨ (i < m ∧ j < n ∧ x = (j + (i + 1) * n, (j + 1) % n + i * n)) := by
  rcases List.mem_append.1 hx with hx | hx
  · rcases List.mem_append.1 hx with hx | hx
    · obtain ⟨⟨a, b⟩, hq, rfl⟩ := List.mem_map.1 hx
      obtain ⟨ha, hb⟩ := mem_pairs.1 hq
      exact ⟨a, b, Or.inl ⟨ha, hb, rfl⟩⟩
    · obtain ⟨⟨a, b⟩, hq, rfl⟩ := List.mem_map.1 hx
      obtain ⟨ha, hb⟩ := mem_pairs.1 hq
      exact ⟨a, b, Or.inr (Or.inl ⟨ha, hb, rfl⟩)⟩
  · obtain ⟨⟨a, b⟩, hq, rfl⟩ := List.mem_map.1 hx
    obtain ⟨ha, hb⟩ := mem_pairs.1 hq
    exact ⟨a, b, Or.inr (Or.inr ⟨ha, hb, rfl⟩)⟩

theorem sidesD_nodup {m n : ℕ} (hn : 3 ≤ n) : (sidesD m n).Nodup := by
  apply nodup_pairs_flatMap
  · rintro ⟨i, j⟩ hq
    obtain ⟨hi, hj⟩ := mem_pairs.1 hq
    simp only at hi hj
    obtain ⟨b1, b2⟩ := succMod hj
    simp only
    generalize (j + 1) % n = j' at *
    have n1 : j + i * n ≠ j + (i + 1) * n := vne hj hj (by omega)
    have n2 : j + i * n ≠ j' + i * n := vne hj b1 (by omega)
    have n3 : j + i * n ≠ j' + (i + 1) * n := vne hj b1 (by omega)
    have n4 : j + (i + 1) * n ≠ j' + i * n := vne hj b1 (by omega)
    have n5 : j + (i + 1) * n ≠ j' + (i + 1) * n := vne hj b1 (by omega)
    have n6 : j' + i * n ≠ j' + (i + 1) * n := vne b1 b1 (by omega)
    simp only [List.nodup_cons, List.mem_cons, List.not_mem_nil, or_false, not_or, not_false_eq_true,
      List.nodup_nil, and_true, Prod.mk.injEq, not_and]
    generalize j + i * n = v00 at *
    generalize j + (i + 1) * n = v10 at *
    generalize j' + i * n = v01 at *
    generalize j' + (i + 1) * n = v11 at *
    omega
  · rintro ⟨i, j⟩ hq ⟨i', j'⟩ hq' x hx hx'
    obtain ⟨hi, hj⟩ := mem_pairs.1 hq
    obtain ⟨hi', hj'⟩ := mem_pairs.1 hq'
    simp only at hi hj hi' hj'
    simp only [List.mem_cons, List.not_mem_nil, or_false] at hx hx'
    have fin : (i = i' ∧ j = j') → (i, j) = (i', j') := by rintro ⟨rfl, rfl⟩; rfl
    apply fin
    obtain ⟨b1, b2⟩ := succMod hj
    obtain ⟨b3, b4⟩ := succMod hj'
    clear hq hq' fin
    generalize (j + 1) % n = js at *
    generalize (j' + 1) % n = js' at *
    rcases hx with rfl | rfl | rfl | rfl | rfl | rfl <;> rcases hx' with h | h | h | h | h | h <;>
      (obtain ⟨h1, h2⟩ := Prod.mk.inj h
       have h3 := vinj (by assumption) (by assumption) h1
       have h4 := vinj (by assumption) (by assumption) h2
       clear h h1 h2
       omega)

theorem edges_sides {m n : ℕ} (hm : 1 ≤ m) : ∀ x ∈ edgesL m n, x ∈ sidesD m n ∨ x.swap ∈ sidesD m n := by
  intro x hx
  obtain ⟨i, j, ⟨hi, hj, rfl⟩ | ⟨hi, hj, rfl⟩ | ⟨hi, hj, rfl⟩⟩ := mem_edgesL hx
  · by_cases h : i < m
    · right
      exact List.mem_flatMap.2 ⟨(i, j), mem_pairs.2 ⟨h, hj⟩, by simp⟩
    · left
      have hi1 : i = (m - 1) + 1 := by omega
      exact List.mem_flatMap.2 ⟨(m - 1, j), mem_pairs.2 ⟨by simp only; omega, hj⟩, by rw [hi1]; simp⟩
  · left
    exact List.mem_flatMap.2 ⟨(i, j), mem_pairs.2 ⟨hi, hj⟩, by simp⟩
  · left
    exact List.mem_flatMap.2 ⟨(i, j), mem_pairs.2 ⟨hi, hj⟩, by simp⟩

theorem sides_edges {m n : ℕ} : ∀ x ∈ sidesD m n, x ∈ edgesL m n ∨ x.swap ∈ edgesL m n := by
  intro x hx
  obtain ⟨⟨i, j⟩, hq, hx⟩ := List.mem_flatMap.1 hx
  obtain ⟨hi, hj⟩ := mem_pairs.1 hq
  simp only at hi hj
  have mc : ∀ i j, i < m + 1 → j < n → (j + i * n, (j + 1) % n + i * n) ∈ edgesL m n := fun i j hi hj =>
    List.mem_append_left _ (List.mem_append_left _ (List.mem_map.2 ⟨(i, j), mem_pairs.2 ⟨hi, hj⟩, rfl⟩))
  have mr : ∀ i j, i < m → j < n → (j + i * n, j + (i + 1) * n) ∈ edgesL m n := fun i j hi hj =>
    List.mem_append_left _ (List.mem_append_right _ (List.mem_map.2 ⟨(i, j), mem_pairs.2 ⟨hi, hj⟩, rfl⟩))
  have md : ∀ i j, i < m → j < n → (j + (i + 1) * n, (j + 1) % n + i * n) ∈ edgesL m n := fun i j hi hj =>
    List.mem_append_right _ (List.mem_map.2 ⟨(i, j), mem_pairs.2 ⟨hi, hj⟩, rfl⟩)
  simp only [List.mem_cons, List.not_mem_nil, or_false] at hx
  rcases hx with rfl | rfl | rfl | rfl | rfl | rfl
  · exact Or.inl (mr i j hi hj)
  · exact Or.inl (md i j hi hj)
  · exact Or.inr (mc i j (by omega) hj)
  · exact Or.inl (mc (i + 1) j (by omega) hj)
  · exact Or.inr (mr i _ hi (succMod hj).1)
  · exact Or.inr (md i j hi hj)

/-- Different entries of the list of edges are different edges. -/
theorem edges_pairwise {m n : ℕ} (hn : 3 ≤ n) : (edgesL m n).Pairwise fun x y => ¬ SamePair x y := by
  have inner : ∀ (k : ℕ) (f : ℕ × ℕ → ℕ × ℕ), (∀ q ∈ pairs k n, ∀ q' ∈ pairs k n, SamePair (f q) (f q') → q = q') →
      ((pairs k n).map f).Pairwise fun x y => ¬ SamePair x y := by
    intro k f h
    rw [List.pairwise_map]
    refine List.Pairwise.imp_of_mem ?_ (pairs_nodup' k n)
    intro q q' hq hq' hne hs
    exact hne (h q hq q' hq' hs)
  unfold edgesL
  rw [List.pairwise_append, List.pairwise_append]
  refine ⟨⟨inner _ _ ?_, inner _ _ ?_, ?_⟩, inner _ _ ?_, ?_⟩
  case refine_5 =>
    intro x hx y hy
    rcases List.mem_append.1 hx with hx | hx
    all_goals
      obtain ⟨⟨i, j⟩, hq, rfl⟩ := List.mem_map.1 hx
      obtain ⟨⟨i', j'⟩, hq', rfl⟩ := List.mem_map.1 hy
      obtain ⟨hi, hj⟩ := mem_pairs.1 hq
      obtain ⟨hi', hj'⟩ := mem_pairs.1 hq'
      simp only at hi hj hi' hj'
      obtain ⟨b1, b2⟩ := succMod hj
      obtain ⟨b3, b4⟩ := succMod hj'
      clear hx hy hq hq'
      simp only
      generalize (j + 1) % n = js at *
      generalize (j' + 1) % n = js' at *
      intro hs
      rcases hs with h | h
      all_goals
        obtain ⟨h1, h2⟩ := Prod.mk.inj h
        have h3 := vinj (by assumption) (by assumption) h1
        have h4 := vinj (by assumption) (by assumption) h2
        clear h h1 h2
        omega
  case refine_3 =>
    intro x hx y hy
    obtain ⟨⟨i, j⟩, hq, rfl⟩ := List.mem_map.1 hx
    obtain ⟨⟨i', j'⟩, hq', rfl⟩ := List.mem_map.1 hy
    obtain ⟨hi, hj⟩ := mem_pairs.1 hq
    obtain ⟨hi', hj'⟩ := mem_pairs.1 hq'
    simp only at hi hj hi' hj'
    obtain ⟨b1, b2⟩ := succMod hj
    clear hx hy hq hq'
    simp only
    generalize (j + 1) % n = js at *
    intro hs
    rcases hs with h | h
    all_goals
      obtain ⟨h1, h2⟩ := Prod.mk.inj h
      have h3 := vinj (by assumption) (by assumption) h1
      have h4 := vinj (by assumption) (by assumption) h2
      clear h h1 h2
      omega
  all_goals
    rintro ⟨i, j⟩ hq ⟨i', j'⟩ hq' hs
    obtain ⟨hi, hj⟩ := mem_pairs.1 hq
    obtain ⟨hi', hj'⟩ := mem_pairs.1 hq'
    simp only at hi hj hi' hj' hs
    obtain ⟨b1, b2⟩ := succMod hj
    obtain ⟨b3, b4⟩ := succMod hj'
    clear hq hq'
    generalize (j + 1) % n = js at *
    generalize (j' + 1) % n = js' at *
    have fin : (i = i' ∧ j = j') → (i, j) = (i', j') := by rintro ⟨rfl, rfl⟩; rfl
    apply fin
    rcases hs with h | h
    all_goals
      obtain ⟨h1, h2⟩ := Prod.mk.inj h
      have h3 := vinj (by assumption) (by assumption) h1
      have h4 := vinj (by assumption) (by assumption) h2
      clear h h1 h2 fin
      omega

/-- The number of edges, counted with a list in which edges have arbitrary directions. -/
theorem numEdges_list (T : Topo) (hT : T.WF) (L : List (ℕ × ℕ)) (hL : L.Pairwise fun x y => ¬ SamePair x y)
    (h1 : ∀ e < T.numEdges, ∃ p ∈ L, SamePair (T.edge e) p)
    (h2 : ∀ p ∈ L, ∃ e < T.numEdges, SamePair (T.edge e) p) : T.numEdges = L.length := by
  let key : ℕ × ℕ → ℕ × ℕ := fun q => if q.1 < q.2 then q else q.swap
  have hkp : ∀ q : ℕ × ℕ, SamePair q (key q) := by
    intro q
    simp only [key]
    split
    · exact Or.inl rfl
    · exact Or.inr (by simp)
  have hsym : ∀ a b : ℕ × ℕ, SamePair a b → SamePair b a := by
    rintro a b (rfl | rfl)
    · exact Or.inl rfl
    · exact Or.inr (by simp)
  have hlt : ∀ q : ℕ × ℕ, q.1 ≠ q.2 → (key q).1 < (key q).2 := by
    intro q hq
    simp only [key]
    split
    · assumption
    · simp only [Prod.fst_swap, Prod.snd_swap]; omega
  rw [← List.length_map (as := L) key]
  apply numEdges_eq T hT
  · change (L.map key).Pairwise _
    rw [List.pairwise_map]
    refine hL.imp ?_
    intro x y hxy h
    exact hxy (samePair_trans (hkp x) (by rw [h]; exact hsym _ _ (hkp y)))
  · intro q hq
    obtain ⟨x, hx, rfl⟩ := List.mem_map.1 hq
    apply hlt
    obtain ⟨e, he, hs⟩ := h2 x hx
    have hne := hT.edge_ne e he
    rcases hs with hs | hs <;> rw [hs] at hne
    · exact hne
    · simpa using hne.symm
  · intro e he
    obtain ⟨x, hx, hs⟩ := h1 e he
    exact ⟨_, List.mem_map_of_mem hx, samePair_trans hs (hkp x)⟩
  · intro q hq
    obtain ⟨x, hx, rfl⟩ := List.mem_map.1 hq
    obtain ⟨e, he, hs⟩ := h2 x hx
    exact ⟨e, he, samePair_trans hs (hkp x)⟩

end Annulus
end Verif
