import Verif.Lemmas.VtkRead
import Verif.Model.Vtk

/-!
# C107: VTK files
-/

namespace Verif

open VtkF
open Msh (Txt)

/-! ### Files to which the theorems apply -/

/-- A triangle and a segment with data of several types. -/
def vtkFileDemo : File ℚ where
  header := ['t', 'w', 'o', ' ', 'c', 'e', 'l', 'l', 's']
  points := [(0, 0, 0), (1, 0, 0), (1/4, 7/3, -1/10000)]
  cells := [[0, 1, 2], [1, 2]]
  types := [5, 3]
  fields := [.reals true ['t', 'i', 'm', 'e'] [123456789]]
  pointData := [.reals false ['u'] ['l', 't'] [1, -2/3, 1/2], .vecs true ['g', 'r', 'a', 'd'] [(0, 1, 0), (1, 1, 0), (2, 3, 0)]]
  cellData := [.ints .uint ['t', 'a', 'g'] ['l', 't'] [7, 4294967295]]

theorem vtkFileDemo_ok : vtkFileDemo.Ok (fun _ _ => True) where
  header := by decide +kernel
  headerSize := by decide +kernel
  types := rfl
  numPoints := by decide +kernel
  numCells := by decide +kernel
  points := fun _ _ => ⟨trivial, trivial, trivial⟩
  indices := by decide +kernel
  typeNumbers := by decide +kernel
  fields := by
    intro f hf
    simp only [vtkFileDemo, List.mem_cons, List.not_mem_nil, or_false] at hf
    subst hf
    exact ⟨name_of (by decide +kernel), fun _ _ => trivial⟩
  pointData := by
    intro a ha
    simp only [vtkFileDemo, List.mem_cons, List.not_mem_nil, or_false] at ha
    rcases ha with rfl | rfl
    · exact ⟨name_of (by decide +kernel), name_of (by decide +kernel), rfl, fun _ _ => trivial⟩
    · exact ⟨name_of (by decide +kernel), rfl, fun _ _ => ⟨trivial, trivial, trivial⟩⟩
  cellData := by
    intro a ha
    simp only [vtkFileDemo, List.mem_cons, List.not_mem_nil, or_false] at ha
    subst ha
    refine ⟨name_of (by decide +kernel), name_of (by decide +kernel), rfl, by decide, ?_⟩
    intro i hi
    simp only [List.mem_cons, List.not_mem_nil, or_false] at hi
    rcases hi with rfl | rfl <;> constructor <;> decide

/-- A binary file with a point, a vertex and data of several types. -/
def vtkFileBin : File ℕ where
  header := ['b', 'i', 'n', 'a', 'r', 'y']
  points := [(0, 0x3f800000, 0x40000000)]
  cells := [[0]]
  types := [1]
  fields := [.ints ['n', 'o', 'n', 'e'] []]
  pointData := [.ints .short ['s'] ['l', 't'] [-2]]
  cellData := [.reals true ['d'] ['l', 't'] [0x3ff0000000000000]]

theorem vtkFileBin_ok : vtkFileBin.Ok bitsFit where
  header := by decide +kernel
  headerSize := by decide +kernel
  types := rfl
  numPoints := by decide +kernel
  numCells := by decide +kernel
  points := by
    intro v hv
    simp only [vtkFileBin, List.mem_cons, List.not_mem_nil, or_false] at hv
    subst hv
    refine ⟨?_, ?_, ?_⟩ <;> norm_num [bitsFit]
  indices := by decide +kernel
  typeNumbers := by decide +kernel
  fields := by
    intro f hf
    simp only [vtkFileBin, List.mem_cons, List.not_mem_nil, or_false] at hf
    subst hf
    exact ⟨name_of (by decide +kernel), by simp⟩
  pointData := by
    intro a ha
    simp only [vtkFileBin, List.mem_cons, List.not_mem_nil, or_false] at ha
    subst ha
    refine ⟨name_of (by decide +kernel), name_of (by decide +kernel), rfl, by decide, ?_⟩
    intro i hi
    simp only [List.mem_cons, List.not_mem_nil, or_false] at hi
    subst hi
    constructor <;> decide
  cellData := by
    intro a ha
    simp only [vtkFileBin, List.mem_cons, List.not_mem_nil, or_false] at ha
    subst ha
    refine ⟨name_of (by decide +kernel), name_of (by decide +kernel), rfl, ?_⟩
    intro i hi
    simp only [List.mem_cons, List.not_mem_nil, or_false] at hi
    subst hi
    norm_num [bitsFit]

/-! ### C107 -/

/-- **C107.** Writing throws an exception exactly if the header has a line end or more than 256 characters, if there are not as
many types as cells, or if the number of values of an attribute is not the number of points or cells. -/
theorem C107_validate {R : Type} (g : Rules R) (F : File R) :
    write g F = none ↔ '\n' ∈ F.header ∨ 256 < F.header.length ∨ F.types.length ≠ F.cells.length ∨
      (∃ a ∈ F.pointData, a.size ≠ F.points.length) ∨ ∃ a ∈ F.cellData, a.size ≠ F.cells.length := by
  have h : valid F = true ↔ ¬('\n' ∈ F.header ∨ 256 < F.header.length ∨ F.types.length ≠ F.cells.length ∨
      (∃ a ∈ F.pointData, a.size ≠ F.points.length) ∨ ∃ a ∈ F.cellData, a.size ≠ F.cells.length) := by
    simp only [valid, Bool.and_eq_true, Bool.not_eq_true', decide_eq_true_eq, List.all_eq_true, not_or, not_lt, not_exists, not_and,
      not_not, and_assoc]
    simp
  rw [write]
  split_ifs with hv
  · exact ⟨fun h => by simp at h, fun h' => absurd h' (h.1 hv)⟩
  · exact ⟨fun _ => not_not.1 fun h' => hv (h.2 h'), fun _ => rfl⟩

example : write textRules vtkFileDemo ≠ none ∧ writeText { vtkFileDemo with types := [5] } = none := by
  constructor
  · intro h
    rcases (C107_validate textRules vtkFileDemo).1 h with h | h | h | h | h
    · exact vtkFileDemo_ok.header h
    · exact absurd vtkFileDemo_ok.headerSize (by omega)
    · exact h rfl
    · obtain ⟨a, ha, h⟩ := h
      simp only [vtkFileDemo, List.mem_cons, List.not_mem_nil, or_false] at ha
      rcases ha with rfl | rfl <;> exact h rfl
    · obtain ⟨a, ha, h⟩ := h
      simp only [vtkFileDemo, List.mem_cons, List.not_mem_nil, or_false] at ha
      subst ha
      exact h rfl
  · exact (C107_validate textRules _).2 (Or.inr (Or.inr (Or.inl (by simp [vtkFileDemo]))))

theorem Attr.Ok.size {R : Type} {fits : Bool → R → Prop} {n : ℕ} {a : Attr R} (h : a.Ok fits n) : a.size = n := by
  cases a with
  | ints ty name table d => exact h.2.2.1
  | reals b name table d => exact h.2.2.1
  | vecs b name d => exact h.2.1

theorem write_of_ok {R : Type} {fits : Bool → R → Prop} (g : Rules R) {F : File R} (h : F.Ok fits) : write g F = some (root g F) := by
  rw [write]
  split_ifs with hv
  · rfl
  · exfalso
    have : write g F = none := by rw [write, if_neg hv]
    rcases (C107_validate g F).1 this with e | e | e | ⟨a, ha, e⟩ | ⟨a, ha, e⟩
    · exact h.header e
    · exact absurd h.headerSize (by omega)
    · exact e h.types
    · exact e (Attr.Ok.size (h.pointData a ha))
    · exact e (Attr.Ok.size (h.cellData a ha))

/-- **C107, text files.** What a reader of the VTK format gets from the file is what was written, except that floating point
numbers are rounded to three digits: after the point if the absolute value is at least 1/1000 and below 100000, relative to the
value otherwise.  Multiples of 1/1000 below 100000 are not changed.  Partial: no data of type `unsigned char`
(`C107_fails_uchar`), fields (and the point lists of cells) are not empty (`C107_fails_empty`), names have no white space
(`C107_fails_name`), and only the rounded values can be recovered (`C107_fails_precision`). -/
theorem C107_text_partial : ∃ ρ : ℚ → ℚ, (∀ x, Near x (ρ x)) ∧ (∀ k : ℤ, |k| < 100000000 → ρ (k / 1000) = k / 1000) ∧
    ∀ F : File ℚ, F.Ok (fun _ _ => True) → (∀ f ∈ F.fields, f.Nonempty) → (∀ c ∈ F.cells, c ≠ []) →
      ∃ s, writeText F = some s ∧ readText s = some (F.map ρ) := by
  refine ⟨rho, rho_near, rho_exact, fun F hF hf hc => ⟨root textRules F, write_of_ok _ hF, ?_⟩⟩
  refine read_root soundText F hF hc fun f hfm => ?_
  have := hf f hfm
  cases f with
  | ints name d =>
    cases d with
    | nil => exact absurd rfl this
    | cons a d => rfl
  | reals b name d =>
    cases d with
    | nil => exact absurd rfl this
    | cons a d => rfl

example : ∃ s F, writeText vtkFileDemo = some s ∧ readText s = some F ∧ F.cells = [[0, 1, 2], [1, 2]] ∧
    F.points.take 2 = [(0, 0, 0), (1, 0, 0)] ∧ F.points ≠ vtkFileDemo.points := by
  obtain ⟨r, h1, h2, h3⟩ := C107_text_partial
  obtain ⟨s, h4, h5⟩ := h3 vtkFileDemo vtkFileDemo_ok
    (by
      intro f hf
      simp only [vtkFileDemo, List.mem_cons, List.not_mem_nil, or_false] at hf
      subst hf
      exact List.cons_ne_nil _ _) (by decide +kernel)
  have e0 : r 0 = 0 := by simpa using h2 0 (by decide)
  have e1 : r 1 = 1 := by simpa using h2 1000 (by decide)
  refine ⟨s, _, h4, h5, rfl, by simp [File.map, vtkFileDemo, mapVec, e0, e1], ?_⟩
  intro h
  have e5 : readText s = some (vtkFileDemo.map rho) := by
    have := read_root soundText vtkFileDemo vtkFileDemo_ok (by decide +kernel) (by
      intro f hf
      simp only [vtkFileDemo, List.mem_cons, List.not_mem_nil, or_false] at hf
      subst hf
      rfl)
    rw [writeText, write_of_ok textRules vtkFileDemo_ok] at h4
    rw [← Option.some.inj h4]
    exact this
  rw [e5] at h5
  rw [← Option.some.inj h5] at h
  have h6 : rho (7 / 3) = 7 / 3 := by
    simp only [File.map, vtkFileDemo, List.map_cons, mapVec, List.cons.injEq, Prod.mk.injEq] at h
    exact h.2.2.1.2.1
  revert h6
  decide +kernel

/-- **C107, binary files.** What a reader of the VTK format gets from the file is exactly what was written; floating point
numbers are given by their bits.  Partial: no data of type `unsigned char`, names have no white space. -/
theorem C107_binary_partial (F : File ℕ) (hF : F.Ok bitsFit) : ∃ s, writeBinary F = some s ∧ readBinary s = some F := by
  refine ⟨root binaryRules F, write_of_ok _ hF, ?_⟩
  have h := read_root soundBinary F hF (fun _ _ => trivial) fun f _ => by cases f <;> rfl
  have e : F.map id = F := by
    have h1 : (mapVec id : Msh.Vec ℕ → Msh.Vec ℕ) = id := rfl
    have h2 : (Field.map id : VtkF.Field ℕ → VtkF.Field ℕ) = id := by
      funext f
      cases f <;> simp [Field.map]
    have h3 : (Attr.map id : Attr ℕ → Attr ℕ) = id := by
      funext a
      cases a <;> simp [Attr.map, h1]
    simp only [File.map, h1, h2, h3, List.map_id]
  rw [e] at h
  exact h

example : ∃ s, writeBinary vtkFileBin = some s ∧ readBinary s = some vtkFileBin := C107_binary_partial _ vtkFileBin_ok

/-- Both numbers are rounded to the same multiple of 1/1000. -/
def SameThousandth (x y : ℚ) : Prop :=
  ∃ k : ℕ, 1 ≤ k ∧ k < 99999999 ∧ |x - k / 1000| < 1 / 2000 ∧ |y - k / 1000| < 1 / 2000 ∧ 1 / 1000 ≤ x ∧ 1 / 1000 ≤ y

theorem real_same {x y : ℚ} (h : SameThousandth x y) : real x = real y := by
  obtain ⟨k, h1, h2, hx, hy, hx', hy'⟩ := h
  have key : ∀ z : ℚ, |z - k / 1000| < 1 / 2000 → 1 / 1000 ≤ z → real z = dec (k / 1000) ++ '.' :: fracPart (k % 1000) := by
    intro z hz hz'
    have hz0 : 0 < z := by linarith
    rw [abs_lt] at hz
    have hk : (k : ℚ) < 99999999 := by exact_mod_cast h2
    have ht : thousandths z = k := by
      have : ⌊1000 * z + 1 / 2⌋ = (k : ℤ) := by
        rw [Int.floor_eq_iff]
        push_cast
        constructor <;> linarith
      rw [thousandths, this, Int.toNat_natCast]
    have hneg : ¬ z < 0 := by linarith
    have hcond : ¬ (z ≠ 0 ∧ (|z| < 1 / 1000 ∨ 100000 ≤ |z|)) := by
      rw [abs_of_pos hz0]
      rintro ⟨-, h | h⟩ <;> linarith
    rw [abs_of_pos hz0] at hcond
    simp only [real, abs_of_pos hz0, if_neg hcond, ht, hneg, false_and, if_false, List.nil_append]
  rw [key x hx hx', key y hy hy']

/-- **C107 fails** for the positions of points in text files: files whose points differ by less than the rounding are equal, so
meshes whose width is less than about 1/1000 cannot be written as text. -/
theorem C107_fails_precision (F : File ℚ) (points : List (Msh.Vec ℚ))
    (h : List.Forall₂ (fun v w => SameThousandth v.1 w.1 ∧ SameThousandth v.2.1 w.2.1 ∧ v.2.2 = w.2.2) F.points points) :
    writeText { F with points := points } = writeText F := by
  have hl := h.length_eq
  have hp : ∀ l m : List (Msh.Vec ℚ),
      List.Forall₂ (fun v w => SameThousandth v.1 w.1 ∧ SameThousandth v.2.1 w.2.1 ∧ v.2.2 = w.2.2) l m →
      textRules.points m = textRules.points l := by
    intro l m hlm
    simp only [textRules, star_some]
    induction hlm with
    | nil => rfl
    | cons h1 _ ih =>
      rw [List.map_cons, List.map_cons, List.flatten_cons, List.flatten_cons, ih, vecLine, vecLine, real_same h1.1, real_same h1.2.1,
        h1.2.2]
  have hv : valid { F with points := points } = valid F := by simp only [valid, ← hl]
  have hr : root textRules { F with points := points } = root textRules F := by
    unfold root grid VtkF.points
    simp only [hp _ _ h, ← hl]
  simp only [writeText, write, hv, hr]

/-- Two different points with the same image in the file. -/
example : SameThousandth (1/2 + 1/5000) (1/2 - 1/5000) :=
  ⟨500, by norm_num, by norm_num, by rw [abs_lt]; norm_num, by rw [abs_lt]; norm_num, by norm_num, by norm_num⟩

/-- What unsigned characters become. -/
def asChar {R : Type} : Attr R → Attr R
  | .ints .uchar name table d => .ints .char name table (d.map fun i => if i < 128 then i else i - 256)
  | a => a

/-- A point, a vertex and a number of type `unsigned char`. -/
def vtkFileUchar (R : Type) [Zero R] (v : ℤ) : File R :=
  ⟨[], [(0, 0, 0)], [[0]], [1], [], [.ints .uchar ['a'] "default".toList [v]], []⟩

/-- **C107 fails** for `unsigned char`: the type is written as `char`.  From a binary file a reader gets the type `char` and
`v - 256` instead of a value `v ≥ 128`; a text file has a number which is not a value of its type. -/
theorem C107_fails_uchar :
    (∀ F : File ℕ, { F with pointData := F.pointData.map asChar, cellData := F.cellData.map asChar }.Ok bitsFit →
      (∀ a ∈ F.pointData ++ F.cellData, ∀ name table d, a = .ints .uchar name table d → ∀ i ∈ d, 0 ≤ i ∧ i < 256) →
      ∃ s, writeBinary F = some s ∧
        readBinary s = some { F with pointData := F.pointData.map asChar, cellData := F.cellData.map asChar }) ∧
    ∃ s, writeText (vtkFileUchar ℚ 200) = some s ∧ readText s = none := by
  constructor
  · intro F hF hu
    obtain ⟨s, h1, h2⟩ := C107_binary_partial _ hF
    refine ⟨s, ?_, h2⟩
    rw [← h1]
    have hsize : ∀ a : Attr ℕ, (asChar a).size = a.size := by
      intro a
      cases a with
      | ints ty name table d => cases ty <;> simp [asChar, Attr.size]
      | reals b name table d => rfl
      | vecs b name d => rfl
    have hattr : ∀ a ∈ F.pointData ++ F.cellData, attr binaryRules (asChar a) = attr binaryRules a := by
      intro a ha
      cases a with
      | reals b name table d => rfl
      | vecs b name d => rfl
      | ints ty name table d =>
        cases ty
        case uchar =>
          have h3 := hu _ ha name table d rfl
          have e : binaryRules.ints .char (d.map fun i => if i < 128 then i else i - 256) = binaryRules.ints .uchar d := by
            simp only [binaryRules, star_some, List.map_map]
            congr 2
            refine List.map_congr_left fun i hi => ?_
            simp only [Function.comp_apply, IntTy.size, intBytes]
            congr 2
            obtain ⟨h4, h5⟩ := h3 i hi
            split_ifs <;> omega
          unfold asChar attr
          simp only [e]
          rfl
        all_goals rfl
    have hstar : ∀ l : List (Attr ℕ), (∀ a ∈ l, a ∈ F.pointData ++ F.cellData) →
        attributes binaryRules (l.map asChar) = attributes binaryRules l := by
      intro l hl
      simp only [attributes, star_some, List.map_map]
      congr 1
      exact List.map_congr_left fun a ha => hattr a (hl a ha)
    have hr : root binaryRules { F with pointData := F.pointData.map asChar, cellData := F.cellData.map asChar } =
        root binaryRules F := by
      unfold root
      simp only [hstar F.pointData fun a ha => List.mem_append_left _ ha, hstar F.cellData fun a ha => List.mem_append_right _ ha]
      rfl
    have hv : valid { F with pointData := F.pointData.map asChar, cellData := F.cellData.map asChar } = valid F := by
      simp only [valid, List.all_map]
      congr 1
      · congr 1
        congr 1
        funext a
        simp only [Function.comp_apply, hsize]
      · congr 1
        funext a
        simp only [Function.comp_apply, hsize]
    simp only [writeBinary, write, hv, hr]
  · refine ⟨(writeText (vtkFileUchar ℚ 200)).getD [], by decide +kernel, ?_⟩
    rw [← Option.isNone_iff_eq_none]
    decide +kernel

/-- The file with a field without values, a file with a cell without points, and files with names the writer accepts. -/
def vtkFileOdd (cells : List (List ℕ)) (fields : List (VtkF.Field ℚ)) (name : Txt) : File ℚ :=
  ⟨[], [(0, 0, 0)], cells, [1], fields, [.reals false name "default".toList [1]], []⟩

/-- **C107 fails** for fields without values and for cells without points in text files: nothing is written for them, but they
are counted, and the file cannot be read. -/
theorem C107_fails_empty :
    (∃ s, writeText (vtkFileOdd [[0]] [.ints "e".toList []] ['a']) = some s ∧ readText s = none) ∧
    ∃ s, writeText (vtkFileOdd [[]] [] ['a']) = some s ∧ readText s = none := by
  refine ⟨⟨(writeText (vtkFileOdd [[0]] [.ints "e".toList []] ['a'])).getD [], by decide +kernel, ?_⟩,
    ⟨(writeText (vtkFileOdd [[]] [] ['a'])).getD [], by decide +kernel, ?_⟩⟩
  all_goals
    rw [← Option.isNone_iff_eq_none]
    decide +kernel

/-- **C107 fails** for names: the check of the writer (`C82_names`) accepts a name with a tabulator and the empty name, but the
file cannot be read.  For another name it can. -/
theorem C107_fails_name :
    (checkName [] "a\tb" = true ∧ ∃ s, writeText (vtkFileOdd [[0]] [] "a\tb".toList) = some s ∧ readText s = none) ∧
    (checkName [] "" = true ∧ ∃ s, writeText (vtkFileOdd [[0]] [] "".toList) = some s ∧ readText s = none) ∧
    ∃ s F, writeText (vtkFileOdd [[0]] [] "ab".toList) = some s ∧ readText s = some F := by
  refine ⟨⟨by decide +kernel, (writeText (vtkFileOdd [[0]] [] "a\tb".toList)).getD [], by decide +kernel, ?_⟩,
    ⟨by decide +kernel, (writeText (vtkFileOdd [[0]] [] "".toList)).getD [], by decide +kernel, ?_⟩,
    (writeText (vtkFileOdd [[0]] [] "ab".toList)).getD [], ?_⟩
  · rw [← Option.isNone_iff_eq_none]
    decide +kernel
  · rw [← Option.isNone_iff_eq_none]
    decide +kernel
  · have h : (readText ((writeText (vtkFileOdd [[0]] [] "ab".toList)).getD [])).isSome = true := by decide +kernel
    obtain ⟨F, hF⟩ := Option.isSome_iff_exists.1 h
    exact ⟨F, by decide +kernel, hF⟩

end Verif
