import Verif.Model.TriaTab6
import Verif.Lemmas.TriaChkBase

/-! Generated by tools/quad_tables.py: the moments of the tabulated rules. -/

namespace Verif

theorem triaTab45_rows : tabRows triaTab45 = true := by decide +kernel
theorem triaTab45_c0 : tabCol triaTab45 0 46 = true := by decide +kernel
theorem triaTab45_c1 : tabCol triaTab45 1 45 = true := by decide +kernel
theorem triaTab45_c2 : tabCol triaTab45 2 44 = true := by decide +kernel
theorem triaTab45_c3 : tabCol triaTab45 3 43 = true := by decide +kernel
theorem triaTab45_c4 : tabCol triaTab45 4 42 = true := by decide +kernel
theorem triaTab45_c5 : tabCol triaTab45 5 41 = true := by decide +kernel
theorem triaTab45_c6 : tabCol triaTab45 6 40 = true := by decide +kernel
theorem triaTab45_c7 : tabCol triaTab45 7 39 = true := by decide +kernel
theorem triaTab45_c8 : tabCol triaTab45 8 38 = true := by decide +kernel
theorem triaTab45_c9 : tabCol triaTab45 9 37 = true := by decide +kernel
theorem triaTab45_c10 : tabCol triaTab45 10 36 = true := by decide +kernel
theorem triaTab45_c11 : tabCol triaTab45 11 35 = true := by decide +kernel
theorem triaTab45_c12 : tabCol triaTab45 12 34 = true := by decide +kernel
theorem triaTab45_c13 : tabCol triaTab45 13 33 = true := by decide +kernel
theorem triaTab45_c14 : tabCol triaTab45 14 32 = true := by decide +kernel
theorem triaTab45_c15 : tabCol triaTab45 15 31 = true := by decide +kernel
theorem triaTab45_c16 : tabCol triaTab45 16 30 = true := by decide +kernel
theorem triaTab45_c17 : tabCol triaTab45 17 29 = true := by decide +kernel
theorem triaTab45_c18 : tabCol triaTab45 18 28 = true := by decide +kernel
theorem triaTab45_c19 : tabCol triaTab45 19 27 = true := by decide +kernel
theorem triaTab45_c20 : tabCol triaTab45 20 26 = true := by decide +kernel
theorem triaTab45_c21 : tabCol triaTab45 21 25 = true := by decide +kernel
theorem triaTab45_c22 : tabCol triaTab45 22 24 = true := by decide +kernel
theorem triaTab45_c23 : tabCol triaTab45 23 23 = true := by decide +kernel
theorem triaTab45_c24 : tabCol triaTab45 24 22 = true := by decide +kernel
theorem triaTab45_c25 : tabCol triaTab45 25 21 = true := by decide +kernel
theorem triaTab45_c26 : tabCol triaTab45 26 20 = true := by decide +kernel
theorem triaTab45_c27 : tabCol triaTab45 27 19 = true := by decide +kernel
theorem triaTab45_c28 : tabCol triaTab45 28 18 = true := by decide +kernel
theorem triaTab45_c29 : tabCol triaTab45 29 17 = true := by decide +kernel
theorem triaTab45_c30 : tabCol triaTab45 30 16 = true := by decide +kernel
theorem triaTab45_c31 : tabCol triaTab45 31 15 = true := by decide +kernel
theorem triaTab45_c32 : tabCol triaTab45 32 14 = true := by decide +kernel
theorem triaTab45_c33 : tabCol triaTab45 33 13 = true := by decide +kernel
theorem triaTab45_c34 : tabCol triaTab45 34 12 = true := by decide +kernel
theorem triaTab45_c35 : tabCol triaTab45 35 11 = true := by decide +kernel
theorem triaTab45_c36 : tabCol triaTab45 36 10 = true := by decide +kernel
theorem triaTab45_c37 : tabCol triaTab45 37 9 = true := by decide +kernel
theorem triaTab45_c38 : tabCol triaTab45 38 8 = true := by decide +kernel
theorem triaTab45_c39 : tabCol triaTab45 39 7 = true := by decide +kernel
theorem triaTab45_c40 : tabCol triaTab45 40 6 = true := by decide +kernel
theorem triaTab45_c41 : tabCol triaTab45 41 5 = true := by decide +kernel
theorem triaTab45_c42 : tabCol triaTab45 42 4 = true := by decide +kernel
theorem triaTab45_c43 : tabCol triaTab45 43 3 = true := by decide +kernel
theorem triaTab45_c44 : tabCol triaTab45 44 2 = true := by decide +kernel
theorem triaTab45_c45 : tabCol triaTab45 45 1 = true := by decide +kernel
theorem triaTab45_ok : TabOk 45 triaTab45 := ⟨triaTab45_rows,
  allLt_succ (allLt_succ (allLt_succ (allLt_succ (allLt_succ (allLt_succ (allLt_succ (allLt_succ (allLt_succ (allLt_succ (allLt_succ (allLt_succ (allLt_succ (allLt_succ (allLt_succ (allLt_succ (allLt_succ (allLt_succ (allLt_succ (allLt_succ (allLt_succ (allLt_succ (allLt_succ (allLt_succ (allLt_succ (allLt_succ (allLt_succ (allLt_succ (allLt_succ (allLt_succ (allLt_succ (allLt_succ (allLt_succ (allLt_succ (allLt_succ (allLt_succ (allLt_succ (allLt_succ (allLt_succ (allLt_succ (allLt_succ (allLt_succ (allLt_succ (allLt_succ (allLt_succ (allLt_succ (allLt_zero) triaTab45_c0) triaTab45_c1) triaTab45_c2) triaTab45_c3) triaTab45_c4) triaTab45_c5) triaTab45_c6) triaTab45_c7) triaTab45_c8) triaTab45_c9) triaTab45_c10) triaTab45_c11) triaTab45_c12) triaTab45_c13) triaTab45_c14) triaTab45_c15) triaTab45_c16) triaTab45_c17) triaTab45_c18) triaTab45_c19) triaTab45_c20) triaTab45_c21) triaTab45_c22) triaTab45_c23) triaTab45_c24) triaTab45_c25) triaTab45_c26) triaTab45_c27) triaTab45_c28) triaTab45_c29) triaTab45_c30) triaTab45_c31) triaTab45_c32) triaTab45_c33) triaTab45_c34) triaTab45_c35) triaTab45_c36) triaTab45_c37) triaTab45_c38) triaTab45_c39) triaTab45_c40) triaTab45_c41) triaTab45_c42) triaTab45_c43) triaTab45_c44) triaTab45_c45⟩

theorem triaTab46_rows : tabRows triaTab46 = true := by decide +kernel
theorem triaTab46_c0 : tabCol triaTab46 0 47 = true := by decide +kernel
theorem triaTab46_c1 : tabCol triaTab46 1 46 = true := by decide +kernel
theorem triaTab46_c2 : tabCol triaTab46 2 45 = true := by decide +kernel
theorem triaTab46_c3 : tabCol triaTab46 3 44 = true := by decide +kernel
theorem triaTab46_c4 : tabCol triaTab46 4 43 = true := by decide +kernel
theorem triaTab46_c5 : tabCol triaTab46 5 42 = true := by decide +kernel
theorem triaTab46_c6 : tabCol triaTab46 6 41 = true := by decide +kernel
theorem triaTab46_c7 : tabCol triaTab46 7 40 = true := by decide +kernel
theorem triaTab46_c8 : tabCol triaTab46 8 39 = true := by decide +kernel
theorem triaTab46_c9 : tabCol triaTab46 9 38 = true := by decide +kernel
theorem triaTab46_c10 : tabCol triaTab46 10 37 = true := by decide +kernel
theorem triaTab46_c11 : tabCol triaTab46 11 36 = true := by decide +kernel
theorem triaTab46_c12 : tabCol triaTab46 12 35 = true := by decide +kernel
theorem triaTab46_c13 : tabCol triaTab46 13 34 = true := by decide +kernel
theorem triaTab46_c14 : tabCol triaTab46 14 33 = true := by decide +kernel
theorem triaTab46_c15 : tabCol triaTab46 15 32 = true := by decide +kernel
theorem triaTab46_c16 : tabCol triaTab46 16 31 = true := by decide +kernel
theorem triaTab46_c17 : tabCol triaTab46 17 30 = true := by decide +kernel
theorem triaTab46_c18 : tabCol triaTab46 18 29 = true := by decide +kernel
theorem triaTab46_c19 : tabCol triaTab46 19 28 = true := by decide +kernel
theorem triaTab46_c20 : tabCol triaTab46 20 27 = true := by decide +kernel
theorem triaTab46_c21 : tabCol triaTab46 21 26 = true := by decide +kernel
theorem triaTab46_c22 : tabCol triaTab46 22 25 = true := by decide +kernel
theorem triaTab46_c23 : tabCol triaTab46 23 24 = true := by decide +kernel
theorem triaTab46_c24 : tabCol triaTab46 24 23 = true := by decide +kernel
theorem triaTab46_c25 : tabCol triaTab46 25 22 = true := by decide +kernel
theorem triaTab46_c26 : tabCol triaTab46 26 21 = true := by decide +kernel
theorem triaTab46_c27 : tabCol triaTab46 27 20 = true := by decide +kernel
theorem triaTab46_c28 : tabCol triaTab46 28 19 = true := by decide +kernel
theorem triaTab46_c29 : tabCol triaTab46 29 18 = true := by decide +kernel
theorem triaTab46_c30 : tabCol triaTab46 30 17 = true := by decide +kernel
theorem triaTab46_c31 : tabCol triaTab46 31 16 = true := by decide +kernel
theorem triaTab46_c32 : tabCol triaTab46 32 15 = true := by decide +kernel
theorem triaTab46_c33 : tabCol triaTab46 33 14 = true := by decide +kernel
theorem triaTab46_c34 : tabCol triaTab46 34 13 = true := by decide +kernel
theorem triaTab46_c35 : tabCol triaTab46 35 12 = true := by decide +kernel
theorem triaTab46_c36 : tabCol triaTab46 36 11 = true := by decide +kernel
theorem triaTab46_c37 : tabCol triaTab46 37 10 = true := by decide +kernel
theorem triaTab46_c38 : tabCol triaTab46 38 9 = true := by decide +kernel
theorem triaTab46_c39 : tabCol triaTab46 39 8 = true := by decide +kernel
theorem triaTab46_c40 : tabCol triaTab46 40 7 = true := by decide +kernel
theorem triaTab46_c41 : tabCol triaTab46 41 6 = true := by decide +kernel
theorem triaTab46_c42 : tabCol triaTab46 42 5 = true := by decide +kernel
theorem triaTab46_c43 : tabCol triaTab46 43 4 = true := by decide +kernel
theorem triaTab46_c44 : tabCol triaTab46 44 3 = true := by decide +kernel
theorem triaTab46_c45 : tabCol triaTab46 45 2 = true := by decide +kernel
theorem triaTab46_c46 : tabCol triaTab46 46 1 = true := by decide +kernel
theorem triaTab46_ok : TabOk 46 triaTab46 := ⟨triaTab46_rows,
  allLt_succ (allLt_succ (allLt_succ (allLt_succ (allLt_succ (allLt_succ (allLt_succ (allLt_succ (allLt_succ (allLt_succ (allLt_succ (allLt_succ (allLt_succ (allLt_succ (allLt_succ (allLt_succ (allLt_succ (allLt_succ (allLt_succ (allLt_succ (allLt_succ (allLt_succ (allLt_succ (allLt_succ (allLt_succ (allLt_succ (allLt_succ (allLt_succ (allLt_succ (allLt_succ (allLt_succ (allLt_succ (allLt_succ (allLt_succ (allLt_succ (allLt_succ (allLt_succ (allLt_succ (allLt_succ (allLt_succ (allLt_succ (allLt_succ (allLt_succ (allLt_succ (allLt_succ (allLt_succ (allLt_succ (allLt_zero) triaTab46_c0) triaTab46_c1) triaTab46_c2) triaTab46_c3) triaTab46_c4) triaTab46_c5) triaTab46_c6) triaTab46_c7) triaTab46_c8) triaTab46_c9) triaTab46_c10) triaTab46_c11) triaTab46_c12) triaTab46_c13) triaTab46_c14) triaTab46_c15) triaTab46_c16) triaTab46_c17) triaTab46_c18) triaTab46_c19) triaTab46_c20) triaTab46_c21) triaTab46_c22) triaTab46_c23) triaTab46_c24) triaTab46_c25) triaTab46_c26) triaTab46_c27) triaTab46_c28) triaTab46_c29) triaTab46_c30) triaTab46_c31) triaTab46_c32) triaTab46_c33) triaTab46_c34) triaTab46_c35) triaTab46_c36) triaTab46_c37) triaTab46_c38) triaTab46_c39) triaTab46_c40) triaTab46_c41) triaTab46_c42) triaTab46_c43) triaTab46_c44) triaTab46_c45) triaTab46_c46⟩

end Verif
