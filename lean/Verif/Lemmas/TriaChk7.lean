import Verif.Model.TriaTab7
import Verif.Lemmas.TriaChkBase

/-! Generated by tools/quad_tables.py: the moments of the tabulated rules. -/

namespace Verif

theorem triaTab47_rows : tabRows triaTab47 = true := by decide +kernel
theorem triaTab47_c0 : tabCol triaTab47 0 48 = true := by decide +kernel
theorem triaTab47_c1 : tabCol triaTab47 1 47 = true := by decide +kernel
theorem triaTab47_c2 : tabCol triaTab47 2 46 = true := by decide +kernel
theorem triaTab47_c3 : tabCol triaTab47 3 45 = true := by decide +kernel
theorem triaTab47_c4 : tabCol triaTab47 4 44 = true := by decide +kernel
theorem triaTab47_c5 : tabCol triaTab47 5 43 = true := by decide +kernel
theorem triaTab47_c6 : tabCol triaTab47 6 42 = true := by decide +kernel
theorem triaTab47_c7 : tabCol triaTab47 7 41 = true := by decide +kernel
theorem triaTab47_c8 : tabCol triaTab47 8 40 = true := by decide +kernel
theorem triaTab47_c9 : tabCol triaTab47 9 39 = true := by decide +kernel
theorem triaTab47_c10 : tabCol triaTab47 10 38 = true := by decide +kernel
theorem triaTab47_c11 : tabCol triaTab47 11 37 = true := by decide +kernel
theorem triaTab47_c12 : tabCol triaTab47 12 36 = true := by decide +kernel
theorem triaTab47_c13 : tabCol triaTab47 13 35 = true := by decide +kernel
theorem triaTab47_c14 : tabCol triaTab47 14 34 = true := by decide +kernel
theorem triaTab47_c15 : tabCol triaTab47 15 33 = true := by decide +kernel
theorem triaTab47_c16 : tabCol triaTab47 16 32 = true := by decide +kernel
theorem triaTab47_c17 : tabCol triaTab47 17 31 = true := by decide +kernel
theorem triaTab47_c18 : tabCol triaTab47 18 30 = true := by decide +kernel
theorem triaTab47_c19 : tabCol triaTab47 19 29 = true := by decide +kernel
theorem triaTab47_c20 : tabCol triaTab47 20 28 = true := by decide +kernel
theorem triaTab47_c21 : tabCol triaTab47 21 27 = true := by decide +kernel
theorem triaTab47_c22 : tabCol triaTab47 22 26 = true := by decide +kernel
theorem triaTab47_c23 : tabCol triaTab47 23 25 = true := by decide +kernel
theorem triaTab47_c24 : tabCol triaTab47 24 24 = true := by decide +kernel
theorem triaTab47_c25 : tabCol triaTab47 25 23 = true := by decide +kernel
theorem triaTab47_c26 : tabCol triaTab47 26 22 = true := by decide +kernel
theorem triaTab47_c27 : tabCol triaTab47 27 21 = true := by decide +kernel
theorem triaTab47_c28 : tabCol triaTab47 28 20 = true := by decide +kernel
theorem triaTab47_c29 : tabCol triaTab47 29 19 = true := by decide +kernel
theorem triaTab47_c30 : tabCol triaTab47 30 18 = true := by decide +kernel
theorem triaTab47_c31 : tabCol triaTab47 31 17 = true := by decide +kernel
theorem triaTab47_c32 : tabCol triaTab47 32 16 = true := by decide +kernel
theorem triaTab47_c33 : tabCol triaTab47 33 15 = true := by decide +kernel
theorem triaTab47_c34 : tabCol triaTab47 34 14 = true := by decide +kernel
theorem triaTab47_c35 : tabCol triaTab47 35 13 = true := by decide +kernel
theorem triaTab47_c36 : tabCol triaTab47 36 12 = true := by decide +kernel
theorem triaTab47_c37 : tabCol triaTab47 37 11 = true := by decide +kernel
theorem triaTab47_c38 : tabCol triaTab47 38 10 = true := by decide +kernel
theorem triaTab47_c39 : tabCol triaTab47 39 9 = true := by decide +kernel
theorem triaTab47_c40 : tabCol triaTab47 40 8 = true := by decide +kernel
theorem triaTab47_c41 : tabCol triaTab47 41 7 = true := by decide +kernel
theorem triaTab47_c42 : tabCol triaTab47 42 6 = true := by decide +kernel
theorem triaTab47_c43 : tabCol triaTab47 43 5 = true := by decide +kernel
theorem triaTab47_c44 : tabCol triaTab47 44 4 = true := by decide +kernel
theorem triaTab47_c45 : tabCol triaTab47 45 3 = true := by decide +kernel
theorem triaTab47_c46 : tabCol triaTab47 46 2 = true := by decide +kernel
theorem triaTab47_c47 : tabCol triaTab47 47 1 = true := by decide +kernel
theorem triaTab47_ok : TabOk 47 triaTab47 := ⟨triaTab47_rows,
  allLt_succ (allLt_succ (allLt_succ (allLt_succ (allLt_succ (allLt_succ (allLt_succ (allLt_succ (allLt_succ (allLt_succ (allLt_succ (allLt_succ (allLt_succ (allLt_succ (allLt_succ (allLt_succ (allLt_succ (allLt_succ (allLt_succ (allLt_succ (allLt_succ (allLt_succ (allLt_succ (allLt_succ (allLt_succ (allLt_succ (allLt_succ (allLt_succ (allLt_succ (allLt_succ (allLt_succ (allLt_succ (allLt_succ (allLt_succ (allLt_succ (allLt_succ (allLt_succ (allLt_succ (allLt_succ (allLt_succ (allLt_succ (allLt_succ (allLt_succ (allLt_succ (allLt_succ (allLt_succ (allLt_succ (allLt_succ (allLt_zero) triaTab47_c0) triaTab47_c1) triaTab47_c2) triaTab47_c3) triaTab47_c4) triaTab47_c5) triaTab47_c6) triaTab47_c7) triaTab47_c8) triaTab47_c9) triaTab47_c10) triaTab47_c11) triaTab47_c12) triaTab47_c13) triaTab47_c14) triaTab47_c15) triaTab47_c16) triaTab47_c17) triaTab47_c18) triaTab47_c19) triaTab47_c20) triaTab47_c21) triaTab47_c22) triaTab47_c23) triaTab47_c24) triaTab47_c25) triaTab47_c26) triaTab47_c27) triaTab47_c28) triaTab47_c29) triaTab47_c30) triaTab47_c31) triaTab47_c32) triaTab47_c33) triaTab47_c34) triaTab47_c35) triaTab47_c36) triaTab47_c37) triaTab47_c38) triaTab47_c39) triaTab47_c40) triaTab47_c41) triaTab47_c42) triaTab47_c43) triaTab47_c44) triaTab47_c45) triaTab47_c46) triaTab47_c47⟩

end Verif
