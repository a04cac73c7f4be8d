import Verif.Spec.MeshChecks
import Verif.Props.Mesh

/-!
# Lemmas about the checks of the indices and of the topology of a mesh
-/

namespace Verif
namespace MC
variable {G : Type}

theorem foldlM_true {α : Type} (F : Bool → α → Option Bool) (hF : ∀ x, F false x ≠ some true) (l : List α) :
    l.foldlM F true = some true ↔ ∀ x ∈ l, F true x = some true := by
  have h0 : ∀ l : List α, l.foldlM F false ≠ some true := by
    intro l
    induction l with
    | nil => simp
    | cons a l ih =>
      rw [List.foldlM_cons]
      cases h : F false a with
      | none => simp
      | some b =>
        cases b with
        | true => exact absurd h (hF a)
        | false => simpa using ih
  induction l with
  | nil => simp
  | cons a l ih =>
    rw [List.foldlM_cons]
    cases h : F true a with
    | none => simp [h]
    | some b =>
      cases b with
      | true => simpa [h] using ih
      | false => simpa [h] using h0 l

theorem foldlM_bool {α : Type} (F : Bool → α → Option Bool) (P : α → Bool) (l : List α)
    (h : ∀ ok, ∀ x ∈ l, F ok x = some (ok && P x)) (b : Bool) : l.foldlM F b = some (b && l.all P) := by
  induction l generalizing b with
  | nil => simp
  | cons a l ih =>
    rw [List.foldlM_cons, h b a (by simp)]
    simp only [Option.bind_eq_bind, Option.bind_some]
    rw [ih fun ok x hx => h ok x (by simp [hx])]
    simp [Bool.and_assoc]

/-- What is expected of an entity in `checkEntityIndexing`. -/
def IndexOk (M : Mesh G) (codim n : ℕ) (e : EntPtr) : Prop :=
  ∃ i < n, M.index e = some i ∧ ∃ e', M.entityByIndex codim i = some e' ∧ M.index e' = some i

theorem countIndices_aux (M : Mesh G) (codim n : ℕ) (es : List EntPtr) (b : Bool) (arr r : List ℕ)
    (F : Bool × List ℕ → EntPtr → Option (Bool × List ℕ))
    (hF : F = fun s e => (M.index e).bind fun i =>
      if i < n then
        (match M.entityByIndex codim i with
          | none => some false
          | some e' => (M.index e').map fun i' => decide (i = i')).bind fun ok =>
        some (s.1 && ok, s.2.modify i (· + 1))
      else none) (hn : arr.length = n) :
    (es.foldlM F (b, arr) = some (true, r) ↔ b = true ∧ (∀ e ∈ es, IndexOk M codim n e) ∧ r.length = n ∧
      ∀ i < n, r[i]? = (arr[i]?).map (· + (es.map M.index).count (some i))) := by
  induction es generalizing b arr with
  | nil =>
    simp only [List.foldlM_nil, Option.pure_def, Option.some.injEq, Prod.mk.injEq, List.not_mem_nil, false_implies,
      implies_true, true_and, List.map_nil, List.count_nil, add_zero, Option.map_id']
    constructor
    · rintro ⟨h1, rfl⟩
      exact ⟨h1, hn, fun _ _ => rfl⟩
    · rintro ⟨h1, h2, h3⟩
      refine ⟨h1, List.ext_getElem? fun i => ?_⟩
      by_cases hi : i < n
      · exact (h3 i hi).symm
      · rw [List.getElem?_eq_none (by omega), List.getElem?_eq_none (by omega)]
  | cons a es ih =>
    rw [List.foldlM_cons]
    by_cases hok : IndexOk M codim n a
    · obtain ⟨i, hi, h1, e', h2, h3⟩ := hok
      have hFa : F (b, arr) a = some (b, arr.modify i (· + 1)) := by
        rw [hF]
        simp [h1, hi, h2, h3]
      rw [hFa]
      simp only [Option.bind_eq_bind, Option.bind_some]
      rw [ih b _ (by simpa using hn)]
      have hc : (∀ j < n, r[j]? = ((arr.modify i (· + 1))[j]?).map (· + (es.map M.index).count (some j))) ↔
          ∀ j < n, r[j]? = (arr[j]?).map (· + ((a :: es).map M.index).count (some j)) := by
        refine forall_congr' fun j => imp_congr_right fun hj => ?_
        rw [List.getElem?_modify, List.map_cons, h1, List.getElem?_eq_getElem (by omega : j < arr.length)]
        by_cases hij : i = j
        · subst hij
          have : ∀ c : ℕ, arr[i] + 1 + c = arr[i] + (c + 1) := fun c => by omega
          simp [this]
        · rw [List.count_cons_of_ne (by simpa using hij)]
          simp [hij]
      rw [hc]
      simp only [List.mem_cons, forall_eq_or_imp]
      have : IndexOk M codim n a := ⟨i, hi, h1, e', h2, h3⟩
      tauto
    · have h0 : ∀ s, F (b, arr) a = some s → s.1 = false ∧ s.2.length = n := by
        intro s hs
        rw [hF] at hs
        simp only at hs
        obtain ⟨i, h1, h2⟩ := Option.bind_eq_some_iff.1 hs
        split_ifs at h2 with hi
        obtain ⟨ok, h3, h4⟩ := Option.bind_eq_some_iff.1 h2
        cases h4
        refine ⟨?_, by simpa using hn⟩
        cases h5 : M.entityByIndex codim i with
        | none => rw [h5] at h3; simp only [Option.some.injEq] at h3; simp [← h3]
        | some e' =>
          rw [h5] at h3
          obtain ⟨i', h6, h7⟩ := Option.map_eq_some_iff.1 h3
          have : i ≠ i' := by
            rintro rfl
            exact hok ⟨i, hi, h1, e', h5, h6⟩
          simp [← h7, this]
      constructor
      · intro h
        exfalso
        cases hs : F (b, arr) a with
        | none => rw [hs] at h; simp at h
        | some s =>
          rw [hs] at h
          obtain ⟨hs1, hs2⟩ := h0 s hs
          obtain ⟨s1, s2⟩ := s
          simp only [Option.bind_eq_bind, Option.bind_some] at h hs1 hs2
          have := (ih s1 s2 hs2).1 h
          rw [hs1] at this
          simp at this
      · rintro ⟨_, h, _⟩
        exact absurd (h a (by simp)) hok

theorem countIndices_iff (M : Mesh G) (codim n : ℕ) (es : List EntPtr) (r : List ℕ) :
    M.countIndices codim n es = some (true, r) ↔ (∀ e ∈ es, IndexOk M codim n e) ∧ r.length = n ∧
      ∀ i < n, r[i]? = some ((es.map M.index).count (some i)) := by
  unfold Mesh.countIndices
  refine (countIndices_aux M codim n es true (List.replicate n 0) r _ rfl (by simp)).trans ?_
  simp only [true_and]
  refine and_congr_right fun _ => and_congr_right fun _ => forall_congr' fun i => imp_congr_right fun hi => ?_
  simp [hi]

theorem indexing_iff (M : Mesh G) : M.checkEntityIndexing = some true ↔ M.WellIndexed := by
  unfold Mesh.checkEntityIndexing Mesh.WellIndexed
  rw [foldlM_true]
  · refine ⟨fun h codim hc => ?_, fun h codim hc => ?_⟩
    · have := h codim (by simp; omega)
      obtain ⟨n, hn, h1⟩ := Option.bind_eq_some_iff.1 this
      obtain ⟨es, hes, h2⟩ := Option.bind_eq_some_iff.1 h1
      obtain ⟨⟨b, r⟩, hr, h3⟩ := Option.bind_eq_some_iff.1 h2
      simp only [Bool.true_and, Option.some.injEq, Bool.and_eq_true, List.all_eq_true, List.mem_range,
        decide_eq_true_eq] at h3
      obtain ⟨rfl, h3⟩ := h3
      obtain ⟨h4, h5, h6⟩ := (countIndices_iff M codim n es r).1 hr
      refine ⟨es, n, hes, hn, fun i hi => ?_, h4⟩
      have := h3 i hi
      rw [h6 i hi] at this
      simpa using this
    · obtain ⟨es, n, hes, hn, h1, h2⟩ := h codim (by simp at hc; omega)
      have hr := (countIndices_iff M codim n es (List.ofFn fun i : Fin n => (es.map M.index).count (some i.val))).2
        ⟨h2, by simp, fun i hi => by simp [hi]⟩
      rw [hn, Option.bind_some, hes, Option.bind_some, hr, Option.bind_some]
      simp only [Bool.true_and, Option.some.injEq, List.all_eq_true, List.mem_range, decide_eq_true_eq]
      intro i hi
      simp [hi, h1 i hi]
  · intro codim h
    obtain ⟨n, hn, h1⟩ := Option.bind_eq_some_iff.1 h
    obtain ⟨es, hes, h2⟩ := Option.bind_eq_some_iff.1 h1
    obtain ⟨r, hr, h3⟩ := Option.bind_eq_some_iff.1 h2
    simp at h3

/-! ### Meshes from the factory -/

theorem mapM_id_eq {α : Type} (l : List (Option α)) (r : List α) (h : l = r.map some) : l.mapM id = some r := by
  subst h
  induction r with
  | nil => simp
  | cons a r ih => simp [List.mapM_cons, ih]

theorem mapM_id_of {α : Type} (l : List (Option α)) (h : ∀ x ∈ l, x.isSome) : ∃ r, l.mapM id = some r ∧ l = r.map some := by
  induction l with
  | nil => exact ⟨[], by simp⟩
  | cons a l ih =>
    obtain ⟨r, h1, h2⟩ := ih fun x hx => h x (by simp [hx])
    cases a with
    | none => simpa using h none (by simp)
    | some a => exact ⟨a :: r, by simp [List.mapM_cons, h1], by rw [h2]; simp⟩

end MC
end Verif
