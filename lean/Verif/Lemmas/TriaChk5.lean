import Verif.Model.TriaTab5
import Verif.Lemmas.TriaChkBase

/-! Generated by tools/quad_tables.py: the moments of the tabulated rules. -/

namespace Verif

theorem triaTab43_rows : tabRows triaTab43 = true := by decide +kernel
theorem triaTab43_c0 : tabCol triaTab43 0 44 = true := by decide +kernel
theorem triaTab43_c1 : tabCol triaTab43 1 43 = true := by decide +kernel
theorem triaTab43_c2 : tabCol triaTab43 2 42 = true := by decide +kernel
theorem triaTab43_c3 : tabCol triaTab43 3 41 = true := by decide +kernel
theorem triaTab43_c4 : tabCol triaTab43 4 40 = true := by decide +kernel
theorem triaTab43_c5 : tabCol triaTab43 5 39 = true := by decide +kernel
theorem triaTab43_c6 : tabCol triaTab43 6 38 = true := by decide +kernel
theorem triaTab43_c7 : tabCol triaTab43 7 37 = true := by decide +kernel
theorem triaTab43_c8 : tabCol triaTab43 8 36 = true := by decide +kernel
theorem triaTab43_c9 : tabCol triaTab43 9 35 = true := by decide +kernel
theorem triaTab43_c10 : tabCol triaTab43 10 34 = true := by decide +kernel
theorem triaTab43_c11 : tabCol triaTab43 11 33 = true := by decide +kernel
theorem triaTab43_c12 : tabCol triaTab43 12 32 = true := by decide +kernel
theorem triaTab43_c13 : tabCol triaTab43 13 31 = true := by decide +kernel
theorem triaTab43_c14 : tabCol triaTab43 14 30 = true := by decide +kernel
theorem triaTab43_c15 : tabCol triaTab43 15 29 = true := by decide +kernel
theorem triaTab43_c16 : tabCol triaTab43 16 28 = true := by decide +kernel
theorem triaTab43_c17 : tabCol triaTab43 17 27 = true := by decide +kernel
theorem triaTab43_c18 : tabCol triaTab43 18 26 = true := by decide +kernel
theorem triaTab43_c19 : tabCol triaTab43 19 25 = true := by decide +kernel
theorem triaTab43_c20 : tabCol triaTab43 20 24 = true := by decide +kernel
theorem triaTab43_c21 : tabCol triaTab43 21 23 = true := by decide +kernel
theorem triaTab43_c22 : tabCol triaTab43 22 22 = true := by decide +kernel
theorem triaTab43_c23 : tabCol triaTab43 23 21 = true := by decide +kernel
theorem triaTab43_c24 : tabCol triaTab43 24 20 = true := by decide +kernel
theorem triaTab43_c25 : tabCol triaTab43 25 19 = true := by decide +kernel
theorem triaTab43_c26 : tabCol triaTab43 26 18 = true := by decide +kernel
theorem triaTab43_c27 : tabCol triaTab43 27 17 = true := by decide +kernel
theorem triaTab43_c28 : tabCol triaTab43 28 16 = true := by decide +kernel
theorem triaTab43_c29 : tabCol triaTab43 29 15 = true := by decide +kernel
theorem triaTab43_c30 : tabCol triaTab43 30 14 = true := by decide +kernel
theorem triaTab43_c31 : tabCol triaTab43 31 13 = true := by decide +kernel
theorem triaTab43_c32 : tabCol triaTab43 32 12 = true := by decide +kernel
theorem triaTab43_c33 : tabCol triaTab43 33 11 = true := by decide +kernel
theorem triaTab43_c34 : tabCol triaTab43 34 10 = true := by decide +kernel
theorem triaTab43_c35 : tabCol triaTab43 35 9 = true := by decide +kernel
theorem triaTab43_c36 : tabCol triaTab43 36 8 = true := by decide +kernel
theorem triaTab43_c37 : tabCol triaTab43 37 7 = true := by decide +kernel
theorem triaTab43_c38 : tabCol triaTab43 38 6 = true := by decide +kernel
theorem triaTab43_c39 : tabCol triaTab43 39 5 = true := by decide +kernel
theorem triaTab43_c40 : tabCol triaTab43 40 4 = true := by decide +kernel
theorem triaTab43_c41 : tabCol triaTab43 41 3 = true := by decide +kernel
theorem triaTab43_c42 : tabCol triaTab43 42 2 = true := by decide +kernel
theorem triaTab43_c43 : tabCol triaTab43 43 1 = true := by decide +kernel
theorem triaTab43_ok : TabOk 43 triaTab43 := ⟨triaTab43_rows,
  allLt_succ (allLt_succ (allLt_succ (allLt_succ (allLt_succ (allLt_succ (allLt_succ (allLt_succ (allLt_succ (allLt_succ (allLt_succ (allLt_succ (allLt_succ (allLt_succ (allLt_succ (allLt_succ (allLt_succ (allLt_succ (allLt_succ (allLt_succ (allLt_succ (allLt_succ (allLt_succ (allLt_succ (allLt_succ (allLt_succ (allLt_succ (allLt_succ (allLt_succ (allLt_succ (allLt_succ (allLt_succ (allLt_succ (allLt_succ (allLt_succ (allLt_succ (allLt_succ (allLt_succ (allLt_succ (allLt_succ (allLt_succ (allLt_succ (allLt_succ (allLt_succ (allLt_zero) triaTab43_c0) triaTab43_c1) triaTab43_c2) triaTab43_c3) triaTab43_c4) triaTab43_c5) triaTab43_c6) triaTab43_c7) triaTab43_c8) triaTab43_c9) triaTab43_c10) triaTab43_c11) triaTab43_c12) triaTab43_c13) triaTab43_c14) triaTab43_c15) triaTab43_c16) triaTab43_c17) triaTab43_c18) triaTab43_c19) triaTab43_c20) triaTab43_c21) triaTab43_c22) triaTab43_c23) triaTab43_c24) triaTab43_c25) triaTab43_c26) triaTab43_c27) triaTab43_c28) triaTab43_c29) triaTab43_c30) triaTab43_c31) triaTab43_c32) triaTab43_c33) triaTab43_c34) triaTab43_c35) triaTab43_c36) triaTab43_c37) triaTab43_c38) triaTab43_c39) triaTab43_c40) triaTab43_c41) triaTab43_c42) triaTab43_c43⟩

theorem triaTab44_rows : tabRows triaTab44 = true := by decide +kernel
theorem triaTab44_c0 : tabCol triaTab44 0 45 = true := by decide +kernel
theorem triaTab44_c1 : tabCol triaTab44 1 44 = true := by decide +kernel
theorem triaTab44_c2 : tabCol triaTab44 2 43 = true := by decide +kernel
theorem triaTab44_c3 : tabCol triaTab44 3 42 = true := by decide +kernel
theorem triaTab44_c4 : tabCol triaTab44 4 41 = true := by decide +kernel
theorem triaTab44_c5 : tabCol triaTab44 5 40 = true := by decide +kernel
theorem triaTab44_c6 : tabCol triaTab44 6 39 = true := by decide +kernel
theorem triaTab44_c7 : tabCol triaTab44 7 38 = true := by decide +kernel
theorem triaTab44_c8 : tabCol triaTab44 8 37 = true := by decide +kernel
theorem triaTab44_c9 : tabCol triaTab44 9 36 = true := by decide +kernel
theorem triaTab44_c10 : tabCol triaTab44 10 35 = true := by decide +kernel
theorem triaTab44_c11 : tabCol triaTab44 11 34 = true := by decide +kernel
theorem triaTab44_c12 : tabCol triaTab44 12 33 = true := by decide +kernel
theorem triaTab44_c13 : tabCol triaTab44 13 32 = true := by decide +kernel
theorem triaTab44_c14 : tabCol triaTab44 14 31 = true := by decide +kernel
theorem triaTab44_c15 : tabCol triaTab44 15 30 = true := by decide +kernel
theorem triaTab44_c16 : tabCol triaTab44 16 29 = true := by decide +kernel
theorem triaTab44_c17 : tabCol triaTab44 17 28 = true := by decide +kernel
theorem triaTab44_c18 : tabCol triaTab44 18 27 = true := by decide +kernel
theorem triaTab44_c19 : tabCol triaTab44 19 26 = true := by decide +kernel
theorem triaTab44_c20 : tabCol triaTab44 20 25 = true := by decide +kernel
theorem triaTab44_c21 : tabCol triaTab44 21 24 = true := by decide +kernel
theorem triaTab44_c22 : tabCol triaTab44 22 23 = true := by decide +kernel
theorem triaTab44_c23 : tabCol triaTab44 23 22 = true := by decide +kernel
theorem triaTab44_c24 : tabCol triaTab44 24 21 = true := by decide +kernel
theorem triaTab44_c25 : tabCol triaTab44 25 20 = true := by decide +kernel
theorem triaTab44_c26 : tabCol triaTab44 26 19 = true := by decide +kernel
theorem triaTab44_c27 : tabCol triaTab44 27 18 = true := by decide +kernel
theorem triaTab44_c28 : tabCol triaTab44 28 17 = true := by decide +kernel
theorem triaTab44_c29 : tabCol triaTab44 29 16 = true := by decide +kernel
theorem triaTab44_c30 : tabCol triaTab44 30 15 = true := by decide +kernel
theorem triaTab44_c31 : tabCol triaTab44 31 14 = true := by decide +kernel
theorem triaTab44_c32 : tabCol triaTab44 32 13 = true := by decide +kernel
theorem triaTab44_c33 : tabCol triaTab44 33 12 = true := by decide +kernel
theorem triaTab44_c34 : tabCol triaTab44 34 11 = true := by decide +kernel
theorem triaTab44_c35 : tabCol triaTab44 35 10 = true := by decide +kernel
theorem triaTab44_c36 : tabCol triaTab44 36 9 = true := by decide +kernel
theorem triaTab44_c37 : tabCol triaTab44 37 8 = true := by decide +kernel
theorem triaTab44_c38 : tabCol triaTab44 38 7 = true := by decide +kernel
theorem triaTab44_c39 : tabCol triaTab44 39 6 = true := by decide +kernel
theorem triaTab44_c40 : tabCol triaTab44 40 5 = true := by decide +kernel
theorem triaTab44_c41 : tabCol triaTab44 41 4 = true := by decide +kernel
theorem triaTab44_c42 : tabCol triaTab44 42 3 = true := by decide +kernel
theorem triaTab44_c43 : tabCol triaTab44 43 2 = true := by decide +kernel
theorem triaTab44_c44 : tabCol triaTab44 44 1 = true := by decide +kernel
theorem triaTab44_ok : TabOk 44 triaTab44 := ⟨triaTab44_rows,
  allLt_succ (allLt_succ (allLt_succ (allLt_succ (allLt_succ (allLt_succ (allLt_succ (allLt_succ (allLt_succ (allLt_succ (allLt_succ (allLt_succ (allLt_succ (allLt_succ (allLt_succ (allLt_succ (allLt_succ (allLt_succ (allLt_succ (allLt_succ (allLt_succ (allLt_succ (allLt_succ (allLt_succ (allLt_succ (allLt_succ (allLt_succ (allLt_succ (allLt_succ (allLt_succ (allLt_succ (allLt_succ (allLt_succ (allLt_succ (allLt_succ (allLt_succ (allLt_succ (allLt_succ (allLt_succ (allLt_succ (allLt_succ (allLt_succ (allLt_succ (allLt_succ (allLt_succ (allLt_zero) triaTab44_c0) triaTab44_c1) triaTab44_c2) triaTab44_c3) triaTab44_c4) triaTab44_c5) triaTab44_c6) triaTab44_c7) triaTab44_c8) triaTab44_c9) triaTab44_c10) triaTab44_c11) triaTab44_c12) triaTab44_c13) triaTab44_c14) triaTab44_c15) triaTab44_c16) triaTab44_c17) triaTab44_c18) triaTab44_c19) triaTab44_c20) triaTab44_c21) triaTab44_c22) triaTab44_c23) triaTab44_c24) triaTab44_c25) triaTab44_c26) triaTab44_c27) triaTab44_c28) triaTab44_c29) triaTab44_c30) triaTab44_c31) triaTab44_c32) triaTab44_c33) triaTab44_c34) triaTab44_c35) triaTab44_c36) triaTab44_c37) triaTab44_c38) triaTab44_c39) triaTab44_c40) triaTab44_c41) triaTab44_c42) triaTab44_c43) triaTab44_c44⟩

end Verif
