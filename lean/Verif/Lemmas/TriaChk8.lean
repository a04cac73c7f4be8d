import Verif.Model.TriaTab8
import Verif.Lemmas.TriaChkBase

/-! Generated by tools/quad_tables.py: the moments of the tabulated rules. -/

namespace Verif

theorem triaTab48_rows : tabRows triaTab48 = true := by decide +kernel
theorem triaTab48_c0 : tabCol triaTab48 0 49 = true := by decide +kernel
theorem triaTab48_c1 : tabCol triaTab48 1 48 = true := by decide +kernel
theorem triaTab48_c2 : tabCol triaTab48 2 47 = true := by decide +kernel
theorem triaTab48_c3 : tabCol triaTab48 3 46 = true := by decide +kernel
theorem triaTab48_c4 : tabCol triaTab48 4 45 = true := by decide +kernel
theorem triaTab48_c5 : tabCol triaTab48 5 44 = true := by decide +kernel
theorem triaTab48_c6 : tabCol triaTab48 6 43 = true := by decide +kernel
theorem triaTab48_c7 : tabCol triaTab48 7 42 = true := by decide +kernel
theorem triaTab48_c8 : tabCol triaTab48 8 41 = true := by decide +kernel
theorem triaTab48_c9 : tabCol triaTab48 9 40 = true := by decide +kernel
theorem triaTab48_c10 : tabCol triaTab48 10 39 = true := by decide +kernel
theorem triaTab48_c11 : tabCol triaTab48 11 38 = true := by decide +kernel
theorem triaTab48_c12 : tabCol triaTab48 12 37 = true := by decide +kernel
theorem triaTab48_c13 : tabCol triaTab48 13 36 = true := by decide +kernel
theorem triaTab48_c14 : tabCol triaTab48 14 35 = true := by decide +kernel
theorem triaTab48_c15 : tabCol triaTab48 15 34 = true := by decide +kernel
theorem triaTab48_c16 : tabCol triaTab48 16 33 = true := by decide +kernel
theorem triaTab48_c17 : tabCol triaTab48 17 32 = true := by decide +kernel
theorem triaTab48_c18 : tabCol triaTab48 18 31 = true := by decide +kernel
theorem triaTab48_c19 : tabCol triaTab48 19 30 = true := by decide +kernel
theorem triaTab48_c20 : tabCol triaTab48 20 29 = true := by decide +kernel
theorem triaTab48_c21 : tabCol triaTab48 21 28 = true := by decide +kernel
theorem triaTab48_c22 : tabCol triaTab48 22 27 = true := by decide +kernel
theorem triaTab48_c23 : tabCol triaTab48 23 26 = true := by decide +kernel
theorem triaTab48_c24 : tabCol triaTab48 24 25 = true := by decide +kernel
theorem triaTab48_c25 : tabCol triaTab48 25 24 = true := by decide +kernel
theorem triaTab48_c26 : tabCol triaTab48 26 23 = true := by decide +kernel
theorem triaTab48_c27 : tabCol triaTab48 27 22 = true := by decide +kernel
theorem triaTab48_c28 : tabCol triaTab48 28 21 = true := by decide +kernel
theorem triaTab48_c29 : tabCol triaTab48 29 20 = true := by decide +kernel
theorem triaTab48_c30 : tabCol triaTab48 30 19 = true := by decide +kernel
theorem triaTab48_c31 : tabCol triaTab48 31 18 = true := by decide +kernel
theorem triaTab48_c32 : tabCol triaTab48 32 17 = true := by decide +kernel
theorem triaTab48_c33 : tabCol triaTab48 33 16 = true := by decide +kernel
theorem triaTab48_c34 : tabCol triaTab48 34 15 = true := by decide +kernel
theorem triaTab48_c35 : tabCol triaTab48 35 14 = true := by decide +kernel
theorem triaTab48_c36 : tabCol triaTab48 36 13 = true := by decide +kernel
theorem triaTab48_c37 : tabCol triaTab48 37 12 = true := by decide +kernel
theorem triaTab48_c38 : tabCol triaTab48 38 11 = true := by decide +kernel
theorem triaTab48_c39 : tabCol triaTab48 39 10 = true := by decide +kernel
theorem triaTab48_c40 : tabCol triaTab48 40 9 = true := by decide +kernel
theorem triaTab48_c41 : tabCol triaTab48 41 8 = true := by decide +kernel
theorem triaTab48_c42 : tabCol triaTab48 42 7 = true := by decide +kernel
theorem triaTab48_c43 : tabCol triaTab48 43 6 = true := by decide +kernel
theorem triaTab48_c44 : tabCol triaTab48 44 5 = true := by decide +kernel
theorem triaTab48_c45 : tabCol triaTab48 45 4 = true := by decide +kernel
theorem triaTab48_c46 : tabCol triaTab48 46 3 = true := by decide +kernel
theorem triaTab48_c47 : tabCol triaTab48 47 2 = true := by decide +kernel
theorem triaTab48_c48 : tabCol triaTab48 48 1 = true := by decide +kernel
theorem triaTab48_ok : TabOk 48 triaTab48 := ⟨triaTab48_rows,
  allLt_succ (allLt_succ (allLt_succ (allLt_succ (allLt_succ (allLt_succ (allLt_succ (allLt_succ (allLt_succ (allLt_succ (allLt_succ (allLt_succ (allLt_succ (allLt_succ (allLt_succ (allLt_succ (allLt_succ (allLt_succ (allLt_succ (allLt_succ (allLt_succ (allLt_succ (allLt_succ (allLt_succ (allLt_succ (allLt_succ (allLt_succ (allLt_succ (allLt_succ (allLt_succ (allLt_succ (allLt_succ (allLt_succ (allLt_succ (allLt_succ (allLt_succ (allLt_succ (allLt_succ (allLt_succ (allLt_succ (allLt_succ (allLt_succ (allLt_succ (allLt_succ (allLt_succ (allLt_succ (allLt_succ (allLt_succ (allLt_succ (allLt_zero) triaTab48_c0) triaTab48_c1) triaTab48_c2) triaTab48_c3) triaTab48_c4) triaTab48_c5) triaTab48_c6) triaTab48_c7) triaTab48_c8) triaTab48_c9) triaTab48_c10) triaTab48_c11) triaTab48_c12) triaTab48_c13) triaTab48_c14) triaTab48_c15) triaTab48_c16) triaTab48_c17) triaTab48_c18) triaTab48_c19) triaTab48_c20) triaTab48_c21) triaTab48_c22) triaTab48_c23) triaTab48_c24) triaTab48_c25) triaTab48_c26) triaTab48_c27) triaTab48_c28) triaTab48_c29) triaTab48_c30) triaTab48_c31) triaTab48_c32) triaTab48_c33) triaTab48_c34) triaTab48_c35) triaTab48_c36) triaTab48_c37) triaTab48_c38) triaTab48_c39) triaTab48_c40) triaTab48_c41) triaTab48_c42) triaTab48_c43) triaTab48_c44) triaTab48_c45) triaTab48_c46) triaTab48_c47) triaTab48_c48⟩

end Verif
