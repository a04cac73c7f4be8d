import Verif.Spec.DpgSpace
import Verif.Props.DofHandler
import Verif.Props.FeTools
import Mathlib.Tactic.IntervalCases

/-!
# Lemmas on product spaces
-/

namespace Verif.Dpg
open Verif

variable {K : Type} [Field K]

theorem compSpec_layout (k : Kind) (p : ℕ) (h : k.supports p) :
    ∃ c : CompSpec K, compSpec k p = some c ∧ c.layout = some (k.dofs p) := by
  cases k <;> simp only [Kind.supports] at h
  · obtain ⟨h1, h2⟩ := h
    interval_cases p <;> exact ⟨_, rfl, rfl⟩
  · interval_cases p <;> exact ⟨_, rfl, rfl⟩
  · interval_cases p <;> exact ⟨_, rfl, rfl⟩
  · obtain ⟨h1, h2⟩ := h
    interval_cases p <;> exact ⟨_, rfl, rfl⟩

theorem addAll_spec (F : SpaceFactory K) (l : List (Kind × ℕ)) (F' : SpaceFactory K) (is : List ℕ)
    (h : F.addAll l = some (F', is)) :
    ∃ cs, l.mapM (fun kp => compSpec (K := K) kp.1 kp.2) = some cs ∧ F' = ⟨F.mesh, F.comps ++ cs, F.numComponents + l.length⟩ ∧
      is = List.range' F.numComponents l.length := by
  induction l generalizing F is F' with
  | nil =>
    simp only [SpaceFactory.addAll, Option.some.injEq, Prod.mk.injEq] at h
    obtain ⟨rfl, rfl⟩ := h
    exact ⟨[], rfl, by simp, rfl⟩
  | cons kp l ih =>
    simp only [SpaceFactory.addAll, SpaceFactory.add] at h
    cases hc : compSpec (K := K) kp.1 kp.2 with
    | none => simp [hc] at h
    | some c =>
      rw [hc] at h
      simp only [Option.map_some, Option.bind_some, Option.map_eq_some_iff, Prod.mk.injEq] at h
      obtain ⟨⟨F2, is2⟩, h1, rfl, rfl⟩ := h
      obtain ⟨cs, e1, e2, e3⟩ := ih _ _ _ h1
      refine ⟨c :: cs, by simp [List.mapM_cons, hc, e1], ?_, ?_⟩
      · rw [e2]; simp [Nat.add_assoc, Nat.add_comm 1]
      · simp only [e3, List.length_cons, List.range'_succ]

theorem addAll_some (F : SpaceFactory K) (l : List (Kind × ℕ)) (cs : List (CompSpec K))
    (h : l.mapM (fun kp => compSpec (K := K) kp.1 kp.2) = some cs) :
    ∃ F' is, F.addAll l = some (F', is) := by
  induction l generalizing F cs with
  | nil => exact ⟨_, _, rfl⟩
  | cons kp l ih =>
    simp only [List.mapM_cons, Option.bind_eq_bind, Option.bind_eq_some_iff] at h
    obtain ⟨c, hc, cs', hcs, -⟩ := h
    obtain ⟨F', is, e⟩ := ih ⟨F.mesh, F.comps ++ [c], F.numComponents + 1⟩ cs' hcs
    exact ⟨F', F.numComponents :: is, by simp [SpaceFactory.addAll, SpaceFactory.add, hc, e]⟩

theorem mapM_of_forall {α β : Type} (f : α → Option β) (P : α → β → Prop) (l : List α)
    (h : ∀ a ∈ l, ∃ b, f a = some b ∧ P a b) :
    ∃ bs, l.mapM f = some bs ∧ List.Forall₂ P l bs := by
  induction l with
  | nil => exact ⟨[], rfl, .nil⟩
  | cons a l ih =>
    obtain ⟨b, hb, hp⟩ := h a (by simp)
    obtain ⟨bs, hbs, hf⟩ := ih fun a ha => h a (by simp [ha])
    exact ⟨b :: bs, by simp [List.mapM_cons, hb, hbs], .cons hp hf⟩

theorem mapM_forall₂ {α β : Type} (f : α → Option β) (l : List α) (bs : List β) (h : l.mapM f = some bs) :
    List.Forall₂ (fun a b => f a = some b) l bs := by
  induction l generalizing bs with
  | nil => simp at h; subst h; exact .nil
  | cons a l ih =>
    simp only [List.mapM_cons, Option.bind_eq_bind, Option.bind_eq_some_iff] at h
    obtain ⟨b, hb, cs, hcs, e⟩ := h
    cases e
    exact .cons hb (ih _ hcs)

theorem forall₂_get {α β : Type} {R : α → β → Prop} {l : List α} {l' : List β} (h : List.Forall₂ R l l') {i : ℕ} {a : α}
    (hi : l[i]? = some a) : ∃ b, l'[i]? = some b ∧ R a b := by
  induction h generalizing i with
  | nil => simp at hi
  | cons hab _ ih =>
    cases i with
    | zero => simp at hi; subst hi; exact ⟨_, rfl, hab⟩
    | succ i => exact ih (by simpa using hi)

/-- A component space has the dof handler of its layout. -/
theorem make_layout {T : Topo} {c : CompSpec K} {U : UniformFESpace K}
    (h : UniformFESpace.make T c.tria c.quad c.edge c.point = some U) :
    ∃ l, c.layout = some l ∧ uniformDofHandler T l true = some U.dofh ∧ U.tria = c.tria ∧ U.quad = c.quad ∧
      U.edge = c.edge ∧ U.point = c.point := by
  unfold UniformFESpace.make at h
  simp only at h
  split_ifs at h with hc
  simp only [Bool.and_eq_true] at hc
  obtain ⟨⟨⟨⟨⟨⟨⟨⟨⟨⟨⟨_, _⟩, _⟩, h1⟩, h2⟩, h3⟩, h4⟩, h5⟩, h6⟩, h7⟩, h8⟩, h9⟩ := hc
  rw [Option.map_eq_some_iff] at h
  obtain ⟨dh, hd, rfl⟩ := h
  have pr : ∀ (fe : Option (RefFE K)) r n, UniformFESpace.probe fe r n = true → probeRef fe r = true := by
    intro fe r n hp
    cases fe with
    | none => rfl
    | some f => simp only [UniformFESpace.probe, Bool.and_eq_true] at hp; exact hp.1
  refine ⟨_, ?_, hd, rfl, rfl, rfl, rfl⟩
  unfold CompSpec.layout
  rw [if_pos]
  simp only [Bool.and_eq_true]
  exact ⟨⟨⟨⟨⟨⟨⟨⟨pr _ _ _ h1, pr _ _ _ h2⟩, pr _ _ _ h3⟩, h4⟩, h5⟩, h6⟩, h7⟩, h8⟩, h9⟩

/-- Conversely, with elements on triangles and quadrilaterals and at most one shape function per node. -/
theorem componentMake_some {T : Topo} {c : CompSpec K} {l : UniformLayout} {h : DofHandler} (hl : c.layout = some l)
    (hh : uniformDofHandler T l true = some h)
    (hp : (c.tria.isSome && c.quad.isSome && UniformFESpace.probe c.tria .tria 2 && UniformFESpace.probe c.quad .quad 2 &&
      UniformFESpace.probe c.edge .segment 1) = true) :
    ∃ U, UniformFESpace.make T c.tria c.quad c.edge c.point = some U := by
  unfold CompSpec.layout at hl
  split_ifs at hl with hc
  cases hl
  simp only [Bool.and_eq_true] at hc hp
  obtain ⟨⟨⟨⟨⟨⟨⟨⟨_, _⟩, _⟩, h4⟩, h5⟩, h6⟩, h7⟩, h8⟩, h9⟩ := hc
  obtain ⟨⟨⟨⟨a1, a2⟩, a3⟩, a4⟩, a5⟩ := hp
  unfold UniformFESpace.make
  simp only
  rw [if_pos (by simp only [a1, a2, a3, a4, a5, h4, h5, h6, h7, h8, h9, Bool.or_true, Bool.and_true]), hh]
  exact ⟨_, rfl⟩

/-- The data of a product space. -/
theorem ProductSpace.make_spec {T : Topo} {comps : List (CompSpec K)} {S : ProductSpace K}
    (h : ProductSpace.make T comps = some S) :
    S.mesh = T ∧ S.comps = comps ∧ ∃ ls, comps.mapM CompSpec.layout = some ls ∧ ProductFE.init T ls = some S.data := by
  unfold ProductSpace.make at h
  split_ifs at h with h0
  rw [Option.bind_eq_some_iff] at h
  obtain ⟨ls, h1, h2⟩ := h
  rw [Option.map_eq_some_iff] at h2
  obtain ⟨D, h3, rfl⟩ := h2
  exact ⟨rfl, rfl, ls, h1, h3⟩

/-- Copying a list into a longer one. -/
theorem copy_spec {α : Type} (src : List α) (off : ℕ) (dst : List α) (n : ℕ) (hn : n ≤ src.length)
    (hd : off + n ≤ dst.length) :
    ∃ res, (List.range n).foldlM (fun v i => (src[i]?).bind fun c => setEntry v (off + i) c) dst = some res ∧
      res.length = dst.length ∧
      ∀ k, res[k]? = if off ≤ k ∧ k < off + n then src[k - off]? else dst[k]? := by
  induction n with
  | zero =>
    refine ⟨dst, rfl, rfl, fun k => ?_⟩
    rw [if_neg (by omega)]
  | succ n ih =>
    obtain ⟨res, e1, e2, e3⟩ := ih (by omega) (by omega)
    have hs : src[n]? = some src[n] := List.getElem?_eq_getElem (by omega)
    refine ⟨res.set (off + n) src[n], ?_, by simp [e2], fun k => ?_⟩
    · rw [List.range_succ, List.foldlM_append, e1]
      simp [hs, setEntry, e2, show off + n < dst.length by omega]
    · rw [List.getElem?_set]
      by_cases hk : off + n = k
      · subst hk
        rw [if_pos rfl, if_pos (by omega), if_pos (by omega)]
        simp [hs]
      · rw [if_neg hk, e3]
        by_cases h1 : off ≤ k ∧ k < off + n
        · rw [if_pos h1, if_pos (by omega)]
        · rw [if_neg h1, if_neg (by omega)]

theorem foldlM_same_length {α β : Type} (f : List α → β → Option (List α))
    (hf : ∀ v b v', f v b = some v' → v'.length = v.length) (l : List β) (v v' : List α) (h : l.foldlM f v = some v') :
    v'.length = v.length := by
  induction l generalizing v with
  | nil => cases h; rfl
  | cons b l ih =>
    rw [List.foldlM_cons, Option.bind_eq_bind, Option.bind_eq_some_iff] at h
    obtain ⟨w, h1, h2⟩ := h
    rw [ih w h2, hf v b w h1]

theorem setEntry_same_length {α : Type} {v v' : List α} {d : ℕ} {x : α} (h : setEntry v d x = some v') :
    v'.length = v.length := by
  unfold setEntry at h
  split_ifs at h
  cases h
  simp

theorem initEssentialCondition_length {K : Type} [Field K] {S : FeSpace K} {flag : ℕ → Bool} {g : MeshFn K K} {F : List (Bool × K)}
    (h : initEssentialCondition S flag g = some F) : F.length = S.dofh.numDofs := by
  rw [foldlM_same_length _ ?_ _ _ _ h]
  · simp
  · intro v e v' he
    unfold essentialEdge at he
    split_ifs at he with hfl
    · simp only [Option.bind_eq_some_iff] at he
      obtain ⟨_, -, _, -, _, -, _, -, _, -, he⟩ := he
      split_ifs at he
      rw [Option.bind_eq_some_iff] at he
      obtain ⟨gi, -, he⟩ := he
      refine foldlM_same_length _ ?_ _ _ _ he
      intro w b w' hw
      simp only [Option.bind_eq_some_iff] at hw
      obtain ⟨_, -, _, -, hw⟩ := hw
      exact setEntry_same_length hw
    · cases he; rfl

end Verif.Dpg
