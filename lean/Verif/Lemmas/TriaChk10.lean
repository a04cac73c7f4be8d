import Verif.Model.TriaTab10
import Verif.Lemmas.TriaChkBase

/-! Generated by tools/quad_tables.py: the moments of the tabulated rules. -/

namespace Verif

theorem triaTab50_rows : tabRows triaTab50 = true := by decide +kernel
theorem triaTab50_c0 : tabCol triaTab50 0 51 = true := by decide +kernel
theorem triaTab50_c1 : tabCol triaTab50 1 50 = true := by decide +kernel
theorem triaTab50_c2 : tabCol triaTab50 2 49 = true := by decide +kernel
theorem triaTab50_c3 : tabCol triaTab50 3 48 = true := by decide +kernel
theorem triaTab50_c4 : tabCol triaTab50 4 47 = true := by decide +kernel
theorem triaTab50_c5 : tabCol triaTab50 5 46 = true := by decide +kernel
theorem triaTab50_c6 : tabCol triaTab50 6 45 = true := by decide +kernel
theorem triaTab50_c7 : tabCol triaTab50 7 44 = true := by decide +kernel
theorem triaTab50_c8 : tabCol triaTab50 8 43 = true := by decide +kernel
theorem triaTab50_c9 : tabCol triaTab50 9 42 = true := by decide +kernel
theorem triaTab50_c10 : tabCol triaTab50 10 41 = true := by decide +kernel
theorem triaTab50_c11 : tabCol triaTab50 11 40 = true := by decide +kernel
theorem triaTab50_c12 : tabCol triaTab50 12 39 = true := by decide +kernel
theorem triaTab50_c13 : tabCol triaTab50 13 38 = true := by decide +kernel
theorem triaTab50_c14 : tabCol triaTab50 14 37 = true := by decide +kernel
theorem triaTab50_c15 : tabCol triaTab50 15 36 = true := by decide +kernel
theorem triaTab50_c16 : tabCol triaTab50 16 35 = true := by decide +kernel
theorem triaTab50_c17 : tabCol triaTab50 17 34 = true := by decide +kernel
theorem triaTab50_c18 : tabCol triaTab50 18 33 = true := by decide +kernel
theorem triaTab50_c19 : tabCol triaTab50 19 32 = true := by decide +kernel
theorem triaTab50_c20 : tabCol triaTab50 20 31 = true := by decide +kernel
theorem triaTab50_c21 : tabCol triaTab50 21 30 = true := by decide +kernel
theorem triaTab50_c22 : tabCol triaTab50 22 29 = true := by decide +kernel
theorem triaTab50_c23 : tabCol triaTab50 23 28 = true := by decide +kernel
theorem triaTab50_c24 : tabCol triaTab50 24 27 = true := by decide +kernel
theorem triaTab50_c25 : tabCol triaTab50 25 26 = true := by decide +kernel
theorem triaTab50_c26 : tabCol triaTab50 26 25 = true := by decide +kernel
theorem triaTab50_c27 : tabCol triaTab50 27 24 = true := by decide +kernel
theorem triaTab50_c28 : tabCol triaTab50 28 23 = true := by decide +kernel
theorem triaTab50_c29 : tabCol triaTab50 29 22 = true := by decide +kernel
theorem triaTab50_c30 : tabCol triaTab50 30 21 = true := by decide +kernel
theorem triaTab50_c31 : tabCol triaTab50 31 20 = true := by decide +kernel
theorem triaTab50_c32 : tabCol triaTab50 32 19 = true := by decide +kernel
theorem triaTab50_c33 : tabCol triaTab50 33 18 = true := by decide +kernel
theorem triaTab50_c34 : tabCol triaTab50 34 17 = true := by decide +kernel
theorem triaTab50_c35 : tabCol triaTab50 35 16 = true := by decide +kernel
theorem triaTab50_c36 : tabCol triaTab50 36 15 = true := by decide +kernel
theorem triaTab50_c37 : tabCol triaTab50 37 14 = true := by decide +kernel
theorem triaTab50_c38 : tabCol triaTab50 38 13 = true := by decide +kernel
theorem triaTab50_c39 : tabCol triaTab50 39 12 = true := by decide +kernel
theorem triaTab50_c40 : tabCol triaTab50 40 11 = true := by decide +kernel
theorem triaTab50_c41 : tabCol triaTab50 41 10 = true := by decide +kernel
theorem triaTab50_c42 : tabCol triaTab50 42 9 = true := by decide +kernel
theorem triaTab50_c43 : tabCol triaTab50 43 8 = true := by decide +kernel
theorem triaTab50_c44 : tabCol triaTab50 44 7 = true := by decide +kernel
theorem triaTab50_c45 : tabCol triaTab50 45 6 = true := by decide +kernel
theorem triaTab50_c46 : tabCol triaTab50 46 5 = true := by decide +kernel
theorem triaTab50_c47 : tabCol triaTab50 47 4 = true := by decide +kernel
theorem triaTab50_c48 : tabCol triaTab50 48 3 = true := by decide +kernel
theorem triaTab50_c49 : tabCol triaTab50 49 2 = true := by decide +kernel
theorem triaTab50_c50 : tabCol triaTab50 50 1 = true := by decide +kernel
theorem triaTab50_ok : TabOk 50 triaTab50 := ⟨triaTab50_rows,
  allLt_succ (allLt_succ (allLt_succ (allLt_succ (allLt_succ (allLt_succ (allLt_succ (allLt_succ (allLt_succ (allLt_succ (allLt_succ (allLt_succ (allLt_succ (allLt_succ (allLt_succ (allLt_succ (allLt_succ (allLt_succ (allLt_succ (allLt_succ (allLt_succ (allLt_succ (allLt_succ (allLt_succ (allLt_succ (allLt_succ (allLt_succ (allLt_succ (allLt_succ (allLt_succ (allLt_succ (allLt_succ (allLt_succ (allLt_succ (allLt_succ (allLt_succ (allLt_succ (allLt_succ (allLt_succ (allLt_succ (allLt_succ (allLt_succ (allLt_succ (allLt_succ (allLt_succ (allLt_succ (allLt_succ (allLt_succ (allLt_succ (allLt_succ (allLt_succ (allLt_zero) triaTab50_c0) triaTab50_c1) triaTab50_c2) triaTab50_c3) triaTab50_c4) triaTab50_c5) triaTab50_c6) triaTab50_c7) triaTab50_c8) triaTab50_c9) triaTab50_c10) triaTab50_c11) triaTab50_c12) triaTab50_c13) triaTab50_c14) triaTab50_c15) triaTab50_c16) triaTab50_c17) triaTab50_c18) triaTab50_c19) triaTab50_c20) triaTab50_c21) triaTab50_c22) triaTab50_c23) triaTab50_c24) triaTab50_c25) triaTab50_c26) triaTab50_c27) triaTab50_c28) triaTab50_c29) triaTab50_c30) triaTab50_c31) triaTab50_c32) triaTab50_c33) triaTab50_c34) triaTab50_c35) triaTab50_c36) triaTab50_c37) triaTab50_c38) triaTab50_c39) triaTab50_c40) triaTab50_c41) triaTab50_c42) triaTab50_c43) triaTab50_c44) triaTab50_c45) triaTab50_c46) triaTab50_c47) triaTab50_c48) triaTab50_c49) triaTab50_c50⟩

end Verif
