import Verif.Model.TriaTab9
import Verif.Lemmas.TriaChkBase

/-! Generated by tools/quad_tables.py: the moments of the tabulated rules. -/

namespace Verif

theorem triaTab49_rows : tabRows triaTab49 = true := by decide +kernel
theorem triaTab49_c0 : tabCol triaTab49 0 50 = true := by decide +kernel
theorem triaTab49_c1 : tabCol triaTab49 1 49 = true := by decide +kernel
theorem triaTab49_c2 : tabCol triaTab49 2 48 = true := by decide +kernel
theorem triaTab49_c3 : tabCol triaTab49 3 47 = true := by decide +kernel
theorem triaTab49_c4 : tabCol triaTab49 4 46 = true := by decide +kernel
theorem triaTab49_c5 : tabCol triaTab49 5 45 = true := by decide +kernel
theorem triaTab49_c6 : tabCol triaTab49 6 44 = true := by decide +kernel
theorem triaTab49_c7 : tabCol triaTab49 7 43 = true := by decide +kernel
theorem triaTab49_c8 : tabCol triaTab49 8 42 = true := by decide +kernel
theorem triaTab49_c9 : tabCol triaTab49 9 41 = true := by decide +kernel
theorem triaTab49_c10 : tabCol triaTab49 10 40 = true := by decide +kernel
theorem triaTab49_c11 : tabCol triaTab49 11 39 = true := by decide +kernel
theorem triaTab49_c12 : tabCol triaTab49 12 38 = true := by decide +kernel
theorem triaTab49_c13 : tabCol triaTab49 13 37 = true := by decide +kernel
theorem triaTab49_c14 : tabCol triaTab49 14 36 = true := by decide +kernel
theorem triaTab49_c15 : tabCol triaTab49 15 35 = true := by decide +kernel
theorem triaTab49_c16 : tabCol triaTab49 16 34 = true := by decide +kernel
theorem triaTab49_c17 : tabCol triaTab49 17 33 = true := by decide +kernel
theorem triaTab49_c18 : tabCol triaTab49 18 32 = true := by decide +kernel
theorem triaTab49_c19 : tabCol triaTab49 19 31 = true := by decide +kernel
theorem triaTab49_c20 : tabCol triaTab49 20 30 = true := by decide +kernel
theorem triaTab49_c21 : tabCol triaTab49 21 29 = true := by decide +kernel
theorem triaTab49_c22 : tabCol triaTab49 22 28 = true := by decide +kernel
theorem triaTab49_c23 : tabCol triaTab49 23 27 = true := by decide +kernel
theorem triaTab49_c24 : tabCol triaTab49 24 26 = true := by decide +kernel
theorem triaTab49_c25 : tabCol triaTab49 25 25 = true := by decide +kernel
theorem triaTab49_c26 : tabCol triaTab49 26 24 = true := by decide +kernel
theorem triaTab49_c27 : tabCol triaTab49 27 23 = true := by decide +kernel
theorem triaTab49_c28 : tabCol triaTab49 28 22 = true := by decide +kernel
theorem triaTab49_c29 : tabCol triaTab49 29 21 = true := by decide +kernel
theorem triaTab49_c30 : tabCol triaTab49 30 20 = true := by decide +kernel
theorem triaTab49_c31 : tabCol triaTab49 31 19 = true := by decide +kernel
theorem triaTab49_c32 : tabCol triaTab49 32 18 = true := by decide +kernel
theorem triaTab49_c33 : tabCol triaTab49 33 17 = true := by decide +kernel
theorem triaTab49_c34 : tabCol triaTab49 34 16 = true := by decide +kernel
theorem triaTab49_c35 : tabCol triaTab49 35 15 = true := by decide +kernel
theorem triaTab49_c36 : tabCol triaTab49 36 14 = true := by decide +kernel
theorem triaTab49_c37 : tabCol triaTab49 37 13 = true := by decide +kernel
theorem triaTab49_c38 : tabCol triaTab49 38 12 = true := by decide +kernel
theorem triaTab49_c39 : tabCol triaTab49 39 11 = true := by decide +kernel
theorem triaTab49_c40 : tabCol triaTab49 40 10 = true := by decide +kernel
theorem triaTab49_c41 : tabCol triaTab49 41 9 = true := by decide +kernel
theorem triaTab49_c42 : tabCol triaTab49 42 8 = true := by decide +kernel
theorem triaTab49_c43 : tabCol triaTab49 43 7 = true := by decide +kernel
theorem triaTab49_c44 : tabCol triaTab49 44 6 = true := by decide +kernel
theorem triaTab49_c45 : tabCol triaTab49 45 5 = true := by decide +kernel
theorem triaTab49_c46 : tabCol triaTab49 46 4 = true := by decide +kernel
theorem triaTab49_c47 : tabCol triaTab49 47 3 = true := by decide +kernel
theorem triaTab49_c48 : tabCol triaTab49 48 2 = true := by decide +kernel
theorem triaTab49_c49 : tabCol triaTab49 49 1 = true := by decide +kernel
theorem triaTab49_ok : TabOk 49 triaTab49 := ⟨triaTab49_rows,
  allLt_succ (allLt_succ (allLt_succ (allLt_succ (allLt_succ (allLt_succ (allLt_succ (allLt_succ (allLt_succ (allLt_succ (allLt_succ (allLt_succ (allLt_succ (allLt_succ (allLt_succ (allLt_succ (allLt_succ (allLt_succ (allLt_succ (allLt_succ (allLt_succ (allLt_succ (allLt_succ (allLt_succ (allLt_succ (allLt_succ (allLt_succ (allLt_succ (allLt_succ (allLt_succ (allLt_succ (allLt_succ (allLt_succ (allLt_succ (allLt_succ (allLt_succ (allLt_succ (allLt_succ (allLt_succ (allLt_succ (allLt_succ (allLt_succ (allLt_succ (allLt_succ (allLt_succ (allLt_succ (allLt_succ (allLt_succ (allLt_succ (allLt_succ (allLt_zero) triaTab49_c0) triaTab49_c1) triaTab49_c2) triaTab49_c3) triaTab49_c4) triaTab49_c5) triaTab49_c6) triaTab49_c7) triaTab49_c8) triaTab49_c9) triaTab49_c10) triaTab49_c11) triaTab49_c12) triaTab49_c13) triaTab49_c14) triaTab49_c15) triaTab49_c16) triaTab49_c17) triaTab49_c18) triaTab49_c19) triaTab49_c20) triaTab49_c21) triaTab49_c22) triaTab49_c23) triaTab49_c24) triaTab49_c25) triaTab49_c26) triaTab49_c27) triaTab49_c28) triaTab49_c29) triaTab49_c30) triaTab49_c31) triaTab49_c32) triaTab49_c33) triaTab49_c34) triaTab49_c35) triaTab49_c36) triaTab49_c37) triaTab49_c38) triaTab49_c39) triaTab49_c40) triaTab49_c41) triaTab49_c42) triaTab49_c43) triaTab49_c44) triaTab49_c45) triaTab49_c46) triaTab49_c47) triaTab49_c48) triaTab49_c49⟩

end Verif
